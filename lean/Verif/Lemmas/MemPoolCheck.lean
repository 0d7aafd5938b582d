import Verif.Lemmas.MemPoolLast
/-! Concrete programs: `Safe` is decidable, and the states along a program of safe calls are reached. -/
namespace Verif.MemPool

variable {β : Type}

/-- There is an array, and its members satisfy `P`. -/
instance decArr (a : Option Arr) (P : Arr → Prop) [h : ∀ r, Decidable (P r)] : Decidable (∃ r, a = some r ∧ P r) :=
  match a with
  | none => .isFalse (by simp)
  | some r =>
    match h r with
    | .isTrue hp => .isTrue ⟨r, rfl, hp⟩
    | .isFalse hp => .isFalse (by rintro ⟨r', h1, h2⟩; obtain rfl := Option.some.inj h1; exact hp h2)

instance (intended : Bool) (r : Arr) : Decidable (MayFree intended r) := inferInstanceAs (Decidable (_ → _))
instance (intended par : Bool) (r : Arr) : Decidable (MayMove intended par r) := inferInstanceAs (Decidable (_ ∧ _))

instance (m : M β) (o : ℕ) : Decidable (m.arr o = none) :=
  match m.arr o with
  | none => .isTrue rfl
  | some _ => .isFalse (by simp)

instance decSafe (intended par : Bool) (m : M β) : ∀ op : Op β, Decidable (Safe intended par m op)
  | .construct o w cap size => inferInstanceAs (Decidable ((par = false → m.nseg + inUse m ≤ limit) ∧ m.arr o = none ∧ 1 ≤ w ∧ size ≤ cap))
  | .resize o n =>
    inferInstanceAs (Decidable (_ ∧ ∃ r, m.arr o = some r ∧ _))
  | .set o i v =>
    inferInstanceAs (Decidable (_ ∧ ∃ r, m.arr o = some r ∧ _))
  | .pushBack o v =>
    inferInstanceAs (Decidable (_ ∧ ∃ r, m.arr o = some r ∧ _))
  | .pushBackNoCheck o v =>
    inferInstanceAs (Decidable (_ ∧ ∃ r, m.arr o = some r ∧ _))
  | .clearSize o =>
    letI : Decidable (∃ r, m.arr o = some r) := decidable_of_iff (m.arr o ≠ none) (by rw [← Option.isSome_iff_ne_none, Option.isSome_iff_exists])
    inferInstanceAs (Decidable ((par = false → m.nseg + inUse m ≤ limit) ∧ ∃ r, m.arr o = some r))
  | .reserveAtLeast o n =>
    inferInstanceAs (Decidable (_ ∧ ∃ r, m.arr o = some r ∧ _))
  | .reserveEmpty o n =>
    inferInstanceAs (Decidable (_ ∧ ∃ r, m.arr o = some r ∧ _))
  | .reserve o n =>
    inferInstanceAs (Decidable (_ ∧ ∃ r, m.arr o = some r ∧ _))
  | .freeArr o =>
    inferInstanceAs (Decidable (_ ∧ ∃ r, m.arr o = some r ∧ _))
  | .destroy o =>
    inferInstanceAs (Decidable (_ ∧ ∃ r, m.arr o = some r ∧ _))

/-- A program of safe calls on arrays below `k`. -/
def safeRun (intended : Bool) (k : ℕ) (m : M β) : List (Bool × Op β) → Option (M β)
  | [] => some m
  | (par, op) :: ops =>
    if Safe intended par m op ∧ op.target < k then
      match step intended par m op with
      | .error _ => none
      | .ok m' => safeRun intended k m' ops
    else none

theorem safeRun_reach {intended : Bool} {cap k : ℕ} : ∀ (ops : List (Bool × Op β)) {m m' : M β}, Reach intended cap m → (∀ p, k ≤ p → m.arr p = none) → safeRun intended k m ops = some m' →
    Reach intended cap m' ∧ ∀ p, k ≤ p → m'.arr p = none := by
  intro ops
  induction ops with
  | nil => intro m m' hr hk h; obtain rfl := Option.some.inj h; exact ⟨hr, hk⟩
  | cons q ops ih =>
    intro m m' hr hk h
    obtain ⟨par, op⟩ := q
    unfold safeRun at h
    split at h
    · rename_i hs
      split at h
      · exact absurd h (by simp)
      rename_i m1 h1
      refine ih (hr.call hs.1 h1) (fun p hp => ?_) h
      rcases step_spec intended par hr.ok op hs.1 with ⟨h2, -⟩ | ⟨m2, h2, -, h3⟩
      · rw [h1] at h2; exact absurd h2 (by simp)
      · rw [h1] at h2
        obtain rfl := Except.ok.inj h2
        exact (h3.2.1 p (by have := hs.2; simp; omega)).1 (hk p hp)
    · exact absurd h (by simp)

theorem safeRun_start {intended : Bool} {cap k : ℕ} (ops : List (Bool × Op β)) {m : M β} (h : safeRun intended k (initial cap) ops = some m) : Reach intended cap m ∧ ∀ p, k ≤ p → m.arr p = none :=
  safeRun_reach ops .start (fun _ _ => rfl) h

/-- The outcome is a fault. -/
def faults (x : Except Err (M β)) : Bool :=
  match x with
  | .error .fault => true
  | _ => false

theorem faults_iff {x : Except Err (M β)} : faults x = true ↔ x = .error .fault := by
  unfold faults
  split
  · simp
  · rename_i h; constructor
    · intro hc; exact absurd hc (by simp)
    · intro hc; exact absurd hc (fun hc => h hc)

end Verif.MemPool
