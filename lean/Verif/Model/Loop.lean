import Mathlib.Logic.Basic
import Mathlib.Data.Nat.Notation
import Mathlib.Order.Notation
/-! A `while` loop as a partial function: fuel-bounded execution, and termination as existence of enough
fuel. -/
namespace Verif

/-- `while (c x) x = f x;` executed for at most `fuel` tests of the condition; `none` when the fuel runs
out. -/
def whileFuel {α : Type*} (c : α → Prop) [DecidablePred c] (f : α → α) : ℕ → α → Option α
  | 0, _ => none
  | n + 1, x => if c x then whileFuel c f n (f x) else some x

/-- The loop started in `x` terminates and leaves `y`. -/
def WhileEnds {α : Type*} (c : α → Prop) [DecidablePred c] (f : α → α) (x y : α) : Prop :=
  ∃ fuel, whileFuel c f fuel x = some y

theorem whileFuel_mono {α : Type*} {c : α → Prop} [DecidablePred c] {f : α → α} :
    ∀ {n m : ℕ} {x y : α}, whileFuel c f n x = some y → n ≤ m → whileFuel c f m x = some y
  | 0, _, _, _, h, _ => by simp [whileFuel] at h
  | n + 1, 0, _, _, _, hm => absurd hm (by omega)
  | n + 1, m + 1, x, y, h, hm => by
    simp only [whileFuel] at h ⊢
    split
    · rename_i hc
      rw [if_pos hc] at h
      exact whileFuel_mono h (by omega)
    · rename_i hc
      rw [if_neg hc] at h
      exact h

/-- The final value of a loop does not depend on the fuel. -/
theorem WhileEnds.unique {α : Type*} {c : α → Prop} [DecidablePred c] {f : α → α} {x y z : α}
    (h1 : WhileEnds c f x y) (h2 : WhileEnds c f x z) : y = z := by
  obtain ⟨n, hn⟩ := h1
  obtain ⟨m, hm⟩ := h2
  have a := whileFuel_mono hn (Nat.le_max_left n m)
  have b := whileFuel_mono hm (Nat.le_max_right n m)
  rw [a] at b
  exact Option.some.inj b

theorem WhileEnds.of_not {α : Type*} {c : α → Prop} [DecidablePred c] {f : α → α} {x : α} (h : ¬ c x) :
    WhileEnds c f x x := ⟨1, by simp [whileFuel, h]⟩

theorem WhileEnds.step {α : Type*} {c : α → Prop} [DecidablePred c] {f : α → α} {x y : α} (h : c x)
    (hy : WhileEnds c f (f x) y) : WhileEnds c f x y := by
  obtain ⟨n, hn⟩ := hy
  exact ⟨n + 1, by simp [whileFuel, h, hn]⟩

/-- Induction over a terminating loop: an invariant kept by the body holds at the end, where the condition is
false. -/
theorem WhileEnds.invariant {α : Type*} {c : α → Prop} [DecidablePred c] {f : α → α} (I : α → Prop)
    (hstep : ∀ x, I x → c x → I (f x)) {x y : α} (h : WhileEnds c f x y) (hx : I x) : I y ∧ ¬ c y := by
  obtain ⟨n, hn⟩ := h
  induction n generalizing x with
  | zero => simp [whileFuel] at hn
  | succ n ih =>
    simp only [whileFuel] at hn
    split at hn
    · rename_i hc; exact ih (hstep x hx hc) hn
    · rename_i hc
      cases hn
      exact ⟨hx, hc⟩

/-- A loop whose condition is preserved by its body never ends. -/
theorem not_WhileEnds_of_preserved {α : Type*} {c : α → Prop} [DecidablePred c] {f : α → α} (I : α → Prop)
    (hc : ∀ x, I x → c x) (hstep : ∀ x, I x → I (f x)) {x : α} (hx : I x) : ¬ ∃ y, WhileEnds c f x y := by
  rintro ⟨y, h⟩
  have := WhileEnds.invariant I (fun x hx _ => hstep x hx) h hx
  exact this.2 (hc y this.1)

end Verif
