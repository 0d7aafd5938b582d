import Verif.Model.CircularQ
import Verif.Spec.CircularQ
import Mathlib.Data.Nat.ModEq
import Mathlib.Tactic.Ring
import Mathlib.Tactic.Linarith

namespace Verif.CircularQ

variable {α : Type}

/-- The queue holds the list `l`. -/
structure Rep (q : CQ α) (l : List α) : Prop where
  len : q.v.length = q.maxItems
  head : q.head < q.maxItems
  room : l.length < q.maxItems
  tail : q.tail = (q.head + l.length) % q.maxItems
  get : ∀ i, i < l.length → q.v[(q.head + i) % q.maxItems]? = l[i]?

theorem rep_new [Inhabited α] (n : ℕ) : Rep (new n : CQ α) [] :=
  ⟨by simp [new], by simp [new], by simp [new], by simp [new], by simp⟩

/-- `(h + a) % m` without `%`. -/
theorem mod_cases (h a m : ℕ) (hh : h < m) (ha : a ≤ m) : (h + a) % m = if h + a < m then h + a else h + a - m := by
  split_ifs with c
  · exact Nat.mod_eq_of_lt c
  · rw [Nat.mod_eq_sub_mod (by omega), Nat.mod_eq_of_lt (by omega)]

theorem Rep.tail_lt {q : CQ α} {l : List α} (h : Rep q l) : q.tail < q.maxItems := by
  rw [h.tail]; exact Nat.mod_lt _ (by have := h.head; omega)

theorem size_rep {q : CQ α} {l : List α} (h : Rep q l) : size q = l.length := by
  have h1 := h.head
  have h2 := h.room
  have h3 := h.tail
  rw [mod_cases _ _ _ h1 h2.le] at h3
  unfold size
  split_ifs at h3 ⊢ <;> omega

theorem empty_rep {q : CQ α} {l : List α} (h : Rep q l) : empty q = l.isEmpty := by
  have h1 := h.head
  have h2 := h.room
  have h3 := h.tail
  rw [mod_cases _ _ _ h1 h2.le] at h3
  cases l with
  | nil => simp [empty]; split_ifs at h3 <;> simp at * <;> omega
  | cons a l => simp only [List.length_cons, List.isEmpty_cons] at *; simp only [empty, decide_eq_false_iff_not]; split_ifs at h3 <;> omega

theorem full_rep {q : CQ α} {l : List α} (h : Rep q l) : full q = decide (l.length + 1 = q.maxItems) := by
  have h1 := h.head
  have h2 := h.room
  have h3 := h.tail
  have h4 := h.tail_lt
  unfold full
  rw [if_pos (by omega)]
  rw [mod_cases _ _ _ h1 h2.le] at h3
  rw [mod_cases _ _ _ h4 (by omega)]
  congr 1
  apply propext
  split_ifs at h3 ⊢ <;> omega

theorem front_rep {q : CQ α} {a : α} {l : List α} (h : Rep q (a :: l)) : front q = some a := by
  have := h.get 0 (by simp)
  rw [Nat.add_zero, Nat.mod_eq_of_lt h.head] at this
  simpa [front] using this

theorem at_rep {q : CQ α} {l : List α} (h : Rep q l) (i : ℕ) : at' q i = l[i]? := by
  unfold at'
  rw [size_rep h]
  have := h.head
  split_ifs with c d
  · omega
  · exact h.get i c
  · exact (List.getElem?_eq_none (by omega)).symm

theorem pop_rep {q : CQ α} {a : α} {l : List α} (h : Rep q (a :: l)) : ∃ q', pop q = some q' ∧ Rep q' l ∧ q'.maxItems = q.maxItems ∧ q'.overrun = q.overrun := by
  have h1 := h.head
  have h2 := h.room
  simp only [List.length_cons] at h2
  unfold pop
  rw [if_neg (by omega)]
  refine ⟨_, rfl, ⟨h.len, Nat.mod_lt _ (by omega), by simp; omega, ?_, ?_⟩, rfl, rfl⟩
  · simp only
    rw [h.tail, Nat.mod_add_mod]
    congr 1
    simp only [List.length_cons]
    omega
  · intro i hi
    simp only
    rw [Nat.mod_add_mod]
    have := h.get (i + 1) (by simp only [List.length_cons]; omega)
    rw [show q.head + 1 + i = q.head + (i + 1) by omega, this]
    simp

theorem mod_inj {h a b m : ℕ} (ha : a < m) (hb : b < m) (e : (h + a) % m = (h + b) % m) : a = b := by
  have := (Nat.ModEq.add_left_cancel' h e)
  unfold Nat.ModEq at this
  rwa [Nat.mod_eq_of_lt ha, Nat.mod_eq_of_lt hb] at this

theorem push_rep {q : CQ α} {l : List α} (h : Rep q l) (a : α) :
    ∃ q', push q a = some q' ∧ q'.maxItems = q.maxItems ∧
      ((l.length + 1 < q.maxItems ∧ Rep q' (l ++ [a]) ∧ q'.overrun = q.overrun) ∨
       (l.length + 1 = q.maxItems ∧ Rep q' ((l ++ [a]).tail) ∧ q'.overrun = q.overrun + 1)) := by
  have h1 := h.head
  have h2 := h.room
  have h4 := h.tail_lt
  have hget : ∀ i, i < (l ++ [a]).length → (q.v.set q.tail a)[(q.head + i) % q.maxItems]? = (l ++ [a])[i]? := by
    intro i hi
    simp only [List.length_append, List.length_singleton] at hi
    rcases Nat.lt_or_ge i l.length with c | c
    · rw [List.getElem?_set_ne, h.get i c, List.getElem?_append_left c]
      rw [h.tail]
      intro e
      have := mod_inj h2 (by omega) e
      omega
    · have : i = l.length := by omega
      subst this
      rw [← h.tail, List.getElem?_set_self (by rw [h.len]; exact h4)]
      simp
  have ht : (q.tail + 1) % q.maxItems = (q.head + (l.length + 1)) % q.maxItems := by
    rw [h.tail, Nat.mod_add_mod, Nat.add_assoc]
  unfold push
  rw [if_pos (by omega), if_pos (by rw [h.len]; exact h4)]
  simp only
  rcases Nat.lt_or_ge (l.length + 1) q.maxItems with c | c
  · have : ¬ (q.tail + 1) % q.maxItems = q.head := by
      rw [ht, mod_cases _ _ _ h1 c.le]
      split_ifs <;> omega
    rw [if_neg this]
    refine ⟨_, rfl, rfl, Or.inl ⟨c, ⟨by simpa using h.len, h1, by simpa using c, ?_, hget⟩, rfl⟩⟩
    simp only [List.length_append, List.length_singleton]
    exact ht
  · have e : l.length + 1 = q.maxItems := by omega
    have : (q.tail + 1) % q.maxItems = q.head := by
      rw [ht, e, Nat.add_mod_right, Nat.mod_eq_of_lt h1]
    rw [if_pos this]
    refine ⟨_, rfl, rfl, Or.inr ⟨e, ⟨by simpa using h.len, Nat.mod_lt _ (by omega), by simp; omega, ?_, ?_⟩, rfl⟩⟩
    · simp only [List.length_tail, List.length_append, List.length_singleton]
      rw [ht, Nat.mod_add_mod]
      congr 1
      omega
    · intro i hi
      simp only
      simp only [List.length_tail, List.length_append, List.length_singleton] at hi
      have := hget (i + 1) (by simp; omega)
      rw [Nat.mod_add_mod, show q.head + 1 + i = q.head + (i + 1) by omega, this, List.getElem?_tail]

open Spec.CircularQ (Op)

/-- The calls of the code: `front` and then `pop_front` for a pop. -/
def runOps {α : Type} : List (Op α) → CQ α → Option (CQ α × List α)
  | [], q => some (q, [])
  | .push a :: ops, q => (CircularQ.push q a).bind fun q' => runOps ops q'
  | .pop :: ops, q => (front q).bind fun a => (CircularQ.pop q).bind fun q' => (runOps ops q').map fun r => (r.1, a :: r.2)

theorem runOps_rep {α : Type} (ops : List (Op α)) : ∀ (q : CQ α) (l : List α) (lost : ℕ) (r : List α × ℕ × List α), Rep q l → q.overrun = lost →
    Spec.CircularQ.run (q.maxItems - 1) ops l lost = some r →
    ∃ q', runOps ops q = some (q', r.2.2) ∧ Rep q' r.1 ∧ q'.overrun = r.2.1 ∧ q'.maxItems = q.maxItems := by
  induction ops with
  | nil =>
    intro q l lost r h1 h2 h
    simp only [Spec.CircularQ.run, Option.some.injEq] at h
    subst h
    exact ⟨q, rfl, h1, h2, rfl⟩
  | cons op ops ih =>
    intro q l lost r h1 h2 h
    have hh := h1.head
    cases op with
    | push a =>
      obtain ⟨q', e, m, hq⟩ := push_rep h1 a
      simp only [Spec.CircularQ.run] at h
      simp only [runOps, e, Option.bind_some]
      rcases hq with ⟨c, hr, ho⟩ | ⟨c, hr, ho⟩
      · rw [if_pos (by omega), ← m] at h
        obtain ⟨q2, a1, a2, a3, a4⟩ := ih q' _ lost r hr (ho.trans h2) h
        exact ⟨q2, a1, a2, a3, a4.trans m⟩
      · rw [if_neg (by omega), ← m, List.drop_one] at h
        obtain ⟨q2, a1, a2, a3, a4⟩ := ih q' _ (lost + 1) r hr (by omega) h
        exact ⟨q2, a1, a2, a3, a4.trans m⟩
    | pop =>
      cases l with
      | nil => simp [Spec.CircularQ.run] at h
      | cons a l =>
        obtain ⟨q', e, hr, m, ho⟩ := pop_rep h1
        simp only [Spec.CircularQ.run, Option.map_eq_some_iff] at h
        obtain ⟨s, hs, rfl⟩ := h
        rw [← m] at hs
        obtain ⟨q2, a1, a2, a3, a4⟩ := ih q' l lost s hr (ho.trans h2) hs
        refine ⟨q2, ?_, a2, a3, a4.trans m⟩
        simp [runOps, front_rep h1, e, a1]

theorem pushAll_rep {α : Type} (l' : List α) : ∀ (q : CQ α) (l : List α), Rep q l →
    ∃ q', pushAll q l' = some q' ∧ Rep q' ((l ++ l').drop ((l ++ l').length - (q.maxItems - 1))) ∧ q'.maxItems = q.maxItems := by
  induction l' with
  | nil =>
    intro q l h
    refine ⟨q, rfl, ?_, rfl⟩
    have := h.room
    rw [List.append_nil, show l.length - (q.maxItems - 1) = 0 by omega]
    exact h
  | cons a l' ih =>
    intro q l h
    obtain ⟨q1, e, m, hq⟩ := push_rep h a
    rcases hq with ⟨c, hr, -⟩ | ⟨c, hr, -⟩
    · obtain ⟨q2, e2, r2, m2⟩ := ih q1 _ hr
      refine ⟨q2, by simp [pushAll, e, e2], ?_, m2.trans m⟩
      rw [m] at r2
      simpa using r2
    · obtain ⟨q2, e2, r2, m2⟩ := ih q1 _ hr
      refine ⟨q2, by simp [pushAll, e, e2], ?_, m2.trans m⟩
      rw [m] at r2
      have e3 : (l ++ [a]).tail ++ l' = (l ++ a :: l').drop 1 := by
        cases l <;> simp
      rw [e3, List.drop_drop, List.length_drop] at r2
      have e4 : 1 + ((l ++ a :: l').length - 1 - (q.maxItems - 1)) = (l ++ a :: l').length - (q.maxItems - 1) := by
        simp only [List.length_append, List.length_cons]
        omega
      rwa [e4] at r2

theorem foreachPop_rep {α : Type} (l : List α) : ∀ (q : CQ α) (fuel : ℕ), Rep q l → l.length ≤ fuel →
    ∃ q', foreachPop fuel q = some (l, q') ∧ Rep q' [] := by
  induction l with
  | nil =>
    intro q fuel h _
    have := empty_rep h
    cases fuel <;> exact ⟨q, by simp [foreachPop, this], h⟩
  | cons a l ih =>
    intro q fuel h hf
    cases fuel with
    | zero => simp at hf
    | succ fuel =>
      obtain ⟨q1, e, r1, -, -⟩ := pop_rep h
      obtain ⟨q2, e2, r2⟩ := ih q1 fuel r1 (by simpa using hf)
      exact ⟨q2, by simp [foreachPop, empty_rep h, front_rep h, e, e2], r2⟩

end Verif.CircularQ
