import Mathlib.Data.List.Basic
import Mathlib.Data.Nat.Notation
import Mathlib.Data.Int.Notation
/-!
Model of `Util/cmdparser.hpp`, class `cli::Parser`: option registration (lines 40-140, 303-344), value parsing
(lines 104-227), `run` (360-414), `get` (417-431), `find` and `find_default` (460-478).

Strings are lists of characters.  Option types modelled: `int`, `bool`, `std::string`, `std::vector<int>`,
`std::vector<std::string>`, and the help callback; the other numeric types behave like `int` with another conversion.
Messages written to the streams are not modelled.
-/
namespace Verif.Cmd

abbrev Word := List Char

/-- The type of an option together with its current value. -/
inductive Val where
  | int (v : ℤ)
  | bool (v : Bool)
  | str (v : Word)
  | ints (v : List ℤ)
  | strs (v : List Word)
  /-- the help callback of lines 303-309, which prints the usage and exits -/
  | help
deriving DecidableEq

/-- cmdparser.hpp:78-95: only vector types take several arguments. -/
def Val.variadic : Val → Bool
  | .ints _ => true
  | .strs _ => true
  | _ => false

/-- A registered option (`set_default`, `set_required`, `set_optional`, `enable_help`). -/
structure Opt where
  name : Word
  alternative : Word
  required : Bool
  dominant : Bool
  value : Val

/-- cmdparser.hpp:46-57: an option object with its parse state. -/
structure CmdObj where
  opt : Opt
  handled : Bool
  arguments : List Word

/-- cmdparser.hpp:46-57: freshly constructed. -/
def CmdObj.fresh (o : Opt) : CmdObj := ⟨o, false, []⟩

/-- cmdparser.hpp:48: `command`. -/
def Opt.command (o : Opt) : Word := if o.name.length > 0 then '-' :: o.name else []

/-- cmdparser.hpp:49: `alternative`. -/
def Opt.altCommand (o : Opt) : Word := if o.alternative.length > 0 then '-' :: '-' :: o.alternative else []

/-- cmdparser.hpp:74-76: `is`. -/
def Opt.is (o : Opt) (given : Word) : Bool := given == o.command || given == o.altCommand

/-- cmdparser.hpp:460-468: `find`, as an index. -/
def find (cmds : List CmdObj) (given : Word) : Option ℕ := cmds.findIdx? (fun c => c.opt.is given)

/-- cmdparser.hpp:470-478: `find_default`, as an index. -/
def findDefault (cmds : List CmdObj) : Option ℕ := cmds.findIdx? (fun c => c.opt.name == [])

/-- Result of parsing the values of one option. -/
inductive Parsed where
  | value (v : Val)
  | failed
  | exits

/-- cmdparser.hpp:104-112, 129-136, 145-227: values from words.  `stoi` is `std::stoi(word, 0, 0)`, `none` when it
throws. -/
def parseVal (stoi : Word → Option ℤ) (elements : List Word) : Val → Parsed
  | .int _ => match elements with
    | [e] => match stoi e with
      | some v => .value (.int v)
      | none => .failed
    | _ => .failed
  | .bool defval => match elements with
    | [] => .value (.bool (!defval))
    | _ => .failed
  | .str _ => match elements with
    | [e] => .value (.str e)
    | _ => .failed
  | .ints _ => match elements.mapM stoi with
    | some vs => .value (.ints vs)
    | none => .failed
  | .strs _ => .value (.strs elements)
  | .help => .exits

/-- cmdparser.hpp:364-388: the loop over the command line words; `none`: a word without an option (`return false`). -/
def assignLoop (cmds : List CmdObj) (current : Option ℕ) : List Word → Option (List CmdObj)
  | [] => some cmds
  | a :: rest =>
    let isarg := a.length > 0 && a.head? == some '-'
    let associated := if isarg then find cmds a else none
    match associated, current with
    | some i, _ => assignLoop (cmds.modify i (fun c => { c with handled := true })) (some i) rest
    | none, none => none
    | none, some j =>
      let cmds' := cmds.modify j (fun c => { c with arguments := c.arguments ++ [a], handled := true })
      let variadic := (cmds[j]?.map (fun c => c.opt.value.variadic)).getD false
      assignLoop cmds' (if variadic then some j else findDefault cmds') rest

/-- Outcome of `run`. -/
inductive Outcome where
  | ok (cmds : List CmdObj)
  | failed
  | exits

/-- cmdparser.hpp:391-396 and 406-411: parse all handled commands whose `dominant` flag is `dom`, in order. -/
def parseStage (stoi : Word → Option ℤ) (dom : Bool) : List CmdObj → Outcome
  | [] => .ok []
  | c :: cs =>
    if c.handled && (c.opt.dominant == dom) then
      match parseVal stoi c.arguments c.opt.value with
      | .exits => .exits
      | .failed => .failed
      | .value v =>
        match parseStage stoi dom cs with
        | .ok cs' => .ok ({ c with opt := { c.opt with value := v } } :: cs')
        | .failed => .failed
        | .exits => .exits
    else
      match parseStage stoi dom cs with
      | .ok cs' => .ok (c :: cs')
      | .failed => .failed
      | .exits => .exits

/-- cmdparser.hpp:360-414: `run` on freshly registered options. -/
def run (stoi : Word → Option ℤ) (opts : List Opt) (args : List Word) : Outcome :=
  let cmds := opts.map CmdObj.fresh
  match (if args.length > 0 then assignLoop cmds (findDefault cmds) args else some cmds) with
  | none => .failed
  | some cmds =>
    match parseStage stoi true cmds with
    | .failed => .failed
    | .exits => .exits
    | .ok cmds =>
      if cmds.any (fun c => c.opt.required && !c.handled) then .failed
      else parseStage stoi false cmds

/-- cmdparser.hpp:417-431: `get`, the value of the first option with this name (the type check is left to the
value's constructor); `none`: exception. -/
def get (cmds : List CmdObj) (name : Word) : Option Val :=
  (cmds.find? (fun c => c.opt.name == name)).map (fun c => c.opt.value)

end Verif.Cmd
