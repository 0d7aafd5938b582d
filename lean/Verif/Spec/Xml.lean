import Verif.Model.Text
/-!
A reader of XML, one character at a time: tags with attributes and text.  There are no entities, comments or CDATA sections; `<? … >` is passed over.
-/
namespace Verif.Spec.Xml
open Text (Str)

/-- Attributes, as names and values. -/
abbrev Attrs := List (Str × Str)

/-- What is read.  Blanks between tags are not passed on. -/
inductive Token where
  | opening (name : Str) (attrs : Attrs)
  | closing (name : Str)
  | empty (name : Str) (attrs : Attrs)
  | data (c : Char)
  deriving DecidableEq

/-- Where the reader is. -/
inductive Mode where
  | text
  | lt
  | instruction
  | name (n : Str)
  | closeName (n : Str)
  | gap (n : Str) (as : Attrs)
  | attr (n : Str) (as : Attrs) (a : Str)
  | equals (n : Str) (as : Attrs) (a : Str)
  | value (n : Str) (as : Attrs) (a v : Str)
  | after (n : Str) (as : Attrs)
  | slash (n : Str) (as : Attrs)
  deriving DecidableEq

/-- Characters of names. -/
def nameChar (c : Char) : Bool := c.isAlphanum || c == '_'

/-- Blanks. -/
def blank (c : Char) : Bool := c == ' ' || c == '\n'

/-- One character; `none` if it must not be there. -/
def step : Mode → Char → Option (Mode × List Token)
  | .text, c => if c = '<' then some (.lt, []) else if c = '&' then none else some (.text, if blank c then [] else [.data c])
  | .lt, c => if c = '/' then some (.closeName [], []) else if c = '?' then some (.instruction, []) else if nameChar c then some (.name [c], []) else none
  | .instruction, c => if c = '>' then some (.text, []) else some (.instruction, [])
  | .name n, c => if nameChar c then some (.name (n ++ [c]), []) else if blank c then some (.gap n [], []) else if c = '>' then some (.text, [.opening n []]) else
      if c = '/' then some (.slash n [], []) else none
  | .closeName n, c => if nameChar c then some (.closeName (n ++ [c]), []) else if c = '>' then some (.text, [.closing n]) else none
  | .gap n as, c => if nameChar c then some (.attr n as [c], []) else if blank c then some (.gap n as, []) else if c = '>' then some (.text, [.opening n as]) else
      if c = '/' then some (.slash n as, []) else none
  | .attr n as a, c => if nameChar c then some (.attr n as (a ++ [c]), []) else if c = '=' then some (.equals n as a, []) else none
  | .equals n as a, c => if c = '"' then some (.value n as a [], []) else none
  | .value n as a v, c => if c = '"' then some (.after n (as ++ [(a, v)]), []) else if c = '<' ∨ c = '&' then none else some (.value n as a (v ++ [c]), [])
  | .after n as, c => if blank c then some (.gap n as, []) else if c = '>' then some (.text, [.opening n as]) else if c = '/' then some (.slash n as, []) else none
  | .slash n as, c => if c = '>' then some (.text, [.empty n as]) else none

/-- A text. -/
def lex : Mode → Str → Option (Mode × List Token)
  | m, [] => some (m, [])
  | m, c :: s => (step m c).bind fun r => (lex r.1 s).map fun q => (q.1, r.2 ++ q.2)

/-- The names of the tags that are open after what is read, the innermost first; text is inside of a tag. -/
def nest : List Str → List Token → Option (List Str)
  | open_, [] => some open_
  | open_, .opening n _ :: ts => nest (n :: open_) ts
  | open_, .closing n :: ts => match open_ with
    | [] => none
    | m :: rest => if m = n then nest rest ts else none
  | open_, .empty _ _ :: ts => nest open_ ts
  | open_, .data _ :: ts => if open_ = [] then none else nest open_ ts

/-- The text is a document with these tags: all of it is read, and the tags are nested. -/
def Reads (s : Str) (ts : List Token) : Prop := lex .text s = some (.text, ts) ∧ nest [] ts = some []

/-- A value that can be between quotes. -/
def Clean (v : Str) : Prop := '"' ∉ v ∧ '<' ∉ v ∧ '&' ∉ v

end Verif.Spec.Xml
