import Verif.Model.Registry

/-!
What a rank is to print.
-/

namespace Verif.Registry.Spec

/-- The least level that is printed when `level` was asked for: on rank 0 that one, on the others errors. -/
def threshold (rank : Nat) (level : Int) : Int := if rank = 0 then level else 4

/-- What a program prints that begins with threshold `cur`. -/
def printed (rank : Nat) : Int → List Op → List (Level × String)
  | _, .setup l :: prog => printed rank (threshold rank l) prog
  | _, .ownSetLevel l :: prog => printed rank (threshold rank l) prog
  | cur, .log lvl t :: prog => if cur ≤ (lvl : Nat) then (lvl, t) :: printed rank cur prog else printed rank cur prog
  | cur, .logTo _ lvl t :: prog => if cur ≤ (lvl : Nat) then (lvl, t) :: printed rank cur prog else printed rank cur prog
  | cur, _ :: prog => printed rank cur prog
  | _, [] => []

/-- The program does nothing but set the level with `Logger` and print, to the default logger or to those in `others`. -/
def Plain (others : Nat → Prop) : List Op → Prop
  | [] => True
  | .setup _ :: prog => Plain others prog
  | .ownSetLevel _ :: prog => Plain others prog
  | .log _ _ :: prog => Plain others prog
  | .logTo p _ _ :: prog => others p ∧ Plain others prog
  | _ :: _ => False

/-- The levels that it asks for are levels. -/
def InRange (prog : List Op) : Prop := ∀ l, .setup l ∈ prog ∨ .ownSetLevel l ∈ prog → 0 ≤ l ∧ l ≤ 7

end Verif.Registry.Spec
