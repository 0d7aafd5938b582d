import Verif.Model.CmdParser
/-!
Specification of which command line word belongs to which option, and of the value of an option.
Options are numbered by registration order.
-/
namespace Verif.Spec
open Cmd

/-- The option a word names: the first option with `-name` or `--alternative`. -/
def namedBy (opts : List Opt) (w : Word) : Option ℕ :=
  opts.findIdx? (fun o => (o.name ≠ [] && w == '-' :: o.name) || (o.alternative ≠ [] && w == '-' :: '-' :: o.alternative))

/-- The positional option: the first one without a name. -/
def positional (opts : List Opt) : Option ℕ := opts.findIdx? (fun o => o.name == [])

/-- Does the option take a list of values? -/
def takesList (opts : List Opt) (i : ℕ) : Bool :=
  match opts[i]? with
  | some o => (match o.value with | .ints _ => true | .strs _ => true | _ => false)
  | none => false

/-- The option a value word belongs to, from the words before it (latest first): the option named directly
before it; else the option owning the previous word, if that takes a list; else the positional option. -/
def owner (opts : List Opt) : List Word → Option ℕ
  | [] => positional opts
  | w :: older =>
    match namedBy opts w with
    | some i => some i
    | none =>
      match owner opts older with
      | some i => if takesList opts i then some i else positional opts
      | none => positional opts

/-- The values given to option `i` by `args`, when the words `before` (latest first) precede them. -/
def valuesOf (opts : List Opt) (i : ℕ) (before : List Word) : List Word → List Word
  | [] => []
  | w :: rest =>
    if namedBy opts w = none ∧ owner opts before = some i then w :: valuesOf opts i (w :: before) rest
    else valuesOf opts i (w :: before) rest

/-- Option `i` occurs in `args`: by name or through a value. -/
def given (opts : List Opt) (i : ℕ) (before args : List Word) : Prop :=
  (∃ w ∈ args, namedBy opts w = some i) ∨ valuesOf opts i before args ≠ []

instance (opts : List Opt) (i : ℕ) (before args : List Word) : Decidable (given opts i before args) := by
  unfold given; infer_instance

/-- Every value word belongs to some option. -/
def allOwned (opts : List Opt) (before : List Word) : List Word → Prop
  | [] => True
  | w :: rest => (namedBy opts w = none → owner opts before ≠ none) ∧ allOwned opts (w :: before) rest

/-- What the words mean as a value of the type of `old` (the default or present value). -/
def meaning (stoi : Word → Option ℤ) (ws : List Word) : Val → Option Val
  | .int _ => if ws.length = 1 then ((ws.headD []) |> stoi).map .int else none
  | .bool b => if ws.length = 0 then some (.bool !b) else none
  | .str _ => if ws.length = 1 then some (.str (ws.headD [])) else none
  | .ints _ => (ws.mapM stoi).map .ints
  | .strs _ => some (.strs ws)
  | .help => none

end Verif.Spec
