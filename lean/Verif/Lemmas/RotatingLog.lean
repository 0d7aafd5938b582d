import Verif.Model.RotatingLog
import Verif.Spec.RotatingLog
import Verif.Lemmas.Text
import Mathlib.Tactic.SplitIfs

namespace Verif.RotatingLog

open Text (Str dec)
open Spec.RotatingLog (folder size History)

/-! ### Names -/

theorem rfind_none {c : Char} {s : Str} (h : rfind c s = none) : c ∉ s := by
  induction s with
  | nil => simp
  | cons a l ih =>
    unfold rfind at h
    cases hr : rfind c l with
    | some i => simp [hr] at h
    | none =>
      rw [hr] at h
      by_cases ha : a = c
      · simp [ha] at h
      · simp [ih hr, Ne.symm ha]

theorem rfind_some {c : Char} {s : Str} {i : ℕ} (h : rfind c s = some i) : c ∉ s.drop (i + 1) := by
  induction s generalizing i with
  | nil => simp
  | cons a l ih =>
    unfold rfind at h
    cases hr : rfind c l with
    | some j =>
      rw [hr] at h
      obtain rfl : j + 1 = i := by simpa using h
      simpa using ih hr
    | none =>
      rw [hr] at h
      by_cases ha : a = c
      · obtain rfl : 0 = i := by simpa [ha] using h
        simpa using rfind_none hr
      · simp [ha] at h

theorem split_append (f : Str) : (splitByExtension f).1 ++ (splitByExtension f).2 = f := by
  unfold splitByExtension
  cases rfind '.' f with
  | none => simp
  | some e =>
    dsimp only
    split_ifs with h
    · simp
    · cases rfind '/' f with
      | none => simp
      | some d => dsimp only; split_ifs <;> simp

theorem split_ext (f : Str) : '/' ∉ (splitByExtension f).2 := by
  unfold splitByExtension
  cases rfind '.' f with
  | none => simp
  | some e =>
    dsimp only
    split_ifs with h
    · simp
    · cases hd : rfind '/' f with
      | none => exact fun hm => rfind_none hd (List.mem_of_mem_drop hm)
      | some d =>
        dsimp only
        split_ifs with h2
        · simp
        · intro hm
          refine rfind_some hd ?_
          have : f.drop e = (f.drop (d + 1)).drop (e - (d + 1)) := by
            rw [List.drop_drop]; congr 1; omega
          rw [this] at hm
          exact List.mem_of_mem_drop hm

theorem calc_inj (f : Str) {i j : ℕ} (h : calcFilename f i = calcFilename f j) : i = j := by
  have hl := congrArg List.length (split_append f)
  unfold calcFilename at h
  split_ifs at h with h1 h2 h2
  · omega
  · have := congrArg List.length h
    simp only [List.length_append, List.length_cons] at this hl
    omega
  · have := congrArg List.length h
    simp only [List.length_append, List.length_cons] at this hl
    omega
  · have := List.append_cancel_left h
    rw [List.cons.injEq] at this
    exact Text.dec_injective (List.append_cancel_right this.2)

theorem folder_append (a x : Str) (h : '/' ∉ x) : folder (a ++ x) = folder a := by
  unfold folder
  rw [List.reverse_append, List.dropWhile_append_of_pos]
  intro c hc
  have : c ≠ '/' := fun e => h (by rw [← e]; exact List.mem_reverse.1 hc)
  simpa using this

theorem calc_folder (f : Str) (i : ℕ) : folder (calcFilename f i) = folder f := by
  unfold calcFilename
  split_ifs with h
  · rfl
  · rw [folder_append]
    · conv_rhs => rw [← split_append f]
      rw [folder_append _ _ (split_ext f)]
    · simp only [List.mem_cons, List.mem_append, not_or]
      refine ⟨by decide, fun hd => ?_, split_ext f⟩
      exact absurd (Text.dec_digit i _ hd) (by decide)

theorem name_inj (c : Conf) {i j : ℕ} (h : c.name i = c.name j) : i = j := calc_inj _ h

theorem name_ne (c : Conf) {i j : ℕ} (h : i ≠ j) : c.name i ≠ c.name j := fun e => h (name_inj c e)

/-! ### One rename -/

theorem rename_other (src target p : Str) (s : Sink) (h1 : p ≠ src) (h2 : p ≠ target) :
    (renameFile src target s).2.files p = s.files p := by
  unfold renameFile
  dsimp only
  split_ifs
  · rw [Function.update_of_ne h1, Function.update_of_ne h2, Function.update_of_ne h2]
  · rw [Function.update_of_ne h2]

theorem rename_src (src target : Str) (s : Sink) (h : src ≠ target) :
    (renameFile src target s).2.files src = if (renameFile src target s).1 then none else s.files src := by
  unfold renameFile
  dsimp only
  split_ifs
  · rw [Function.update_self]
  · rw [Function.update_of_ne h]

theorem rename_target (src target : Str) (s : Sink) (h : src ≠ target) :
    (renameFile src target s).2.files target = if (renameFile src target s).1 then s.files src else none := by
  unfold renameFile
  dsimp only
  split_ifs
  · rw [Function.update_of_ne (Ne.symm h), Function.update_self, Function.update_of_ne h]
  · rw [Function.update_self]

/-! ### The loop, whatever fails -/

/-- What a step of the loop keeps: the other files, the other members, and any property of the contents. -/
structure Keeps (c : Conf) (n : ℕ) (s s' : Sink) : Prop where
  others : ∀ p, (∀ j ≤ n, p ≠ c.name j) → s'.files p = s.files p
  size : s'.size = s.size
  isOpen : s'.isOpen = s.isOpen
  opens : s'.opens = s.opens
  contents : ∀ j ≤ n, ∀ t, s'.files (c.name j) = some t → ∃ i ≤ n, s.files (c.name i) = some t

theorem Keeps.refl (c : Conf) (n : ℕ) (s : Sink) : Keeps c n s s := ⟨fun _ _ => rfl, rfl, rfl, rfl, fun j hj _ h => ⟨j, hj, h⟩⟩

theorem Keeps.trans {c : Conf} {n : ℕ} {s s' s'' : Sink} (h : Keeps c n s s') (h' : Keeps c n s' s'') : Keeps c n s s'' :=
  ⟨fun p hp => (h'.others p hp).trans (h.others p hp), h'.size.trans h.size, h'.isOpen.trans h.isOpen, h'.opens.trans h.opens,
    fun j hj t ht => let ⟨i, hi, e⟩ := h'.contents j hj t ht; h.contents i hi t e⟩

theorem Keeps.mono {c : Conf} {n m : ℕ} {s s' : Sink} (h : Keeps c n s s') (hm : n ≤ m) : Keeps c m s s' := by
  refine ⟨fun p hp => h.others p fun j hj => hp j (hj.trans hm), h.size, h.isOpen, h.opens, fun j hj t ht => ?_⟩
  by_cases hn : j ≤ n
  · obtain ⟨i, hi, e⟩ := h.contents j hn t ht
    exact ⟨i, hi.trans hm, e⟩
  · refine ⟨j, hj, ?_⟩
    rw [← ht, h.others]
    exact fun k hk => name_ne c (by omega)

theorem rename_keeps (c : Conf) (n : ℕ) (s : Sink) : Keeps c (n + 1) s (renameFile (c.name n) (c.name (n + 1)) s).2 := by
  have hne : c.name n ≠ c.name (n + 1) := name_ne c (by omega)
  refine ⟨fun p hp => rename_other _ _ _ _ (hp n (by omega)) (hp (n + 1) le_rfl), rfl, rfl, rfl, fun j hj t ht => ?_⟩
  by_cases h1 : j = n
  · subst h1
    rw [rename_src _ _ _ hne] at ht
    split_ifs at ht
    exact ⟨j, by omega, ht⟩
  · by_cases h2 : j = n + 1
    · subst h2
      rw [rename_target _ _ _ hne] at ht
      split_ifs at ht
      exact ⟨n, by omega, ht⟩
    · rw [rename_other _ _ _ _ (name_ne c h1) (name_ne c h2)] at ht
      exact ⟨j, hj, ht⟩

theorem loop_keeps (c : Conf) (n : ℕ) (s : Sink) : Keeps c n s (rotateLoop c n s).2 := by
  induction n generalizing s with
  | zero => exact Keeps.refl c 0 s
  | succ n ih =>
    unfold rotateLoop
    dsimp only
    have h1 := rename_keeps c n s
    have h2 := rename_keeps c n (renameFile (c.name n) (c.name (n + 1)) s).2
    split_ifs
    · exact (ih s).mono (Nat.le_succ n)
    · exact h1.trans ((ih _).mono (Nat.le_succ n))
    · exact (h1.trans h2).trans ((ih _).mono (Nat.le_succ n))
    · exact h1.trans h2

/-! ### The loop when nothing fails -/

theorem loop_shift (c : Conf) (L : List Str) (n : ℕ) (s : Sink) (hr : s.renames = [])
    (hs : ∀ j < n, s.files (c.name j) = L[j]?) (hn : L.length < n → s.files (c.name n) = none) :
    (rotateLoop c n s).1 = true ∧ (rotateLoop c n s).2.renames = [] ∧
      (∀ j < n, (rotateLoop c n s).2.files (c.name (j + 1)) = L[j]?) := by
  induction n generalizing s with
  | zero => exact ⟨rfl, hr, by omega⟩
  | succ n ih =>
    have hne : c.name n ≠ c.name (n + 1) := name_ne c (by omega)
    unfold rotateLoop
    dsimp only
    by_cases h0 : s.files (c.name n) = none
    · rw [if_pos h0]
      have hl : L.length ≤ n := List.getElem?_eq_none_iff.1 ((hs n (by omega)).symm.trans h0)
      obtain ⟨a, b, d⟩ := ih s hr (fun j hj => hs j (by omega)) fun _ => h0
      refine ⟨a, b, fun j hj => ?_⟩
      by_cases hjn : j = n
      · subst hjn
        rw [(loop_keeps c j s).others _ fun k hk => name_ne c (by omega), hn (by omega), List.getElem?_eq_none_iff.2 hl]
      · exact d j (by omega)
    · rw [if_neg h0]
      have hok : (renameFile (c.name n) (c.name (n + 1)) s).1 = true := by unfold renameFile; simp [hr]
      have hsrc := rename_src (c.name n) (c.name (n + 1)) s hne
      have htgt := rename_target (c.name n) (c.name (n + 1)) s hne
      rw [if_pos hok] at hsrc htgt
      rw [if_pos hok]
      obtain ⟨a, b, d⟩ := ih (renameFile (c.name n) (c.name (n + 1)) s).2 (by unfold renameFile; simp [hr])
        (fun j hj => by
          rw [rename_other _ _ _ _ (name_ne c (by omega)) (name_ne c (by omega))]
          exact hs j (by omega)) fun _ => hsrc
      refine ⟨a, b, fun j hj => ?_⟩
      by_cases hjn : j = n
      · subst hjn
        rw [(loop_keeps c j _).others _ fun k hk => name_ne c (by omega), htgt, hs j (by omega)]
      · exact d j (by omega)

end Verif.RotatingLog
