import Mathlib.Data.List.Basic
import Mathlib.Data.Int.Notation
/-! Specification of a personalised all-to-all exchange. -/
namespace Verif.Spec

/-- Everything sent: one entry `(source, destination, item)` per item. -/
def sentItems {α : Type} (ins : List (List ℤ × List α)) : List (ℕ × ℤ × α) :=
  ins.zipIdx.flatMap (fun p => (p.1.1.zip p.1.2).map (fun q => (p.2, q.1, q.2)))

/-- What rank `r` must end up with: the items addressed to it with the rank they came from, by source rank and,
for one source, in the order in which the source listed them. -/
def received {α : Type} (ins : List (List ℤ × List α)) (r : ℕ) : List (ℕ × α) :=
  ((sentItems ins).filter (fun e => decide (e.2.1 = (r : ℤ)))).map (fun e => (e.1, e.2.2))

/-- The arguments are admissible: on every rank one destination per item, and destinations are ranks. -/
def Admissible {α : Type} (ins : List (List ℤ × List α)) : Prop :=
  ∀ p ∈ ins, p.1.length = p.2.length ∧ ∀ d ∈ p.1, 0 ≤ d ∧ d < ins.length

end Verif.Spec
