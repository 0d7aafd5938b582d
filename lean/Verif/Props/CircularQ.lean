import Verif.Lemmas.CircularQ

/-! C104: the circular queue of the logger is a bounded queue that forgets the oldest items. -/

namespace Verif

open CircularQ Spec.CircularQ

/-- **C104, a bounded queue.**  Whatever is pushed and popped, as long as no empty queue is popped: the same items come out as of
a queue of at most `n` items that drops the oldest, the numbers of items and of losses are right, and so is every answer. -/
theorem C104_queue {α : Type} [Inhabited α] (n : ℕ) (ops : List (Op α)) (l : List α) (lost : ℕ) (out : List α)
    (h : Spec.CircularQ.run n ops [] 0 = some (l, lost, out)) :
    ∃ q, CircularQ.runOps ops (new n) = some (q, out) ∧ size q = l.length ∧ (∀ i, at' q i = l[i]?) ∧ empty q = decide (l.length = 0) ∧
      full q = decide (l.length = n) ∧ q.overrun = lost ∧ l.length ≤ n ∧ ∀ a, l.head? = some a → front q = some a := by
  obtain ⟨q, h1, h2, h3, h4⟩ := CircularQ.runOps_rep ops (new n) [] 0 _ (rep_new n) rfl (by simpa [new] using h)
  have h5 : q.maxItems = n + 1 := by simpa [new] using h4
  have h6 : l.length < q.maxItems := h2.room
  refine ⟨q, h1, size_rep h2, at_rep h2, ?_, ?_, h3, by omega, ?_⟩
  · rw [empty_rep h2]; cases l <;> simp
  · rw [full_rep h2, h5]; simp
  · intro a ha
    cases l with
    | nil => simp at ha
    | cons b l => simp only [List.head?_cons, Option.some.injEq] at ha; subst ha; exact front_rep h2

/-- **C104, backtrace.**  After `enable(n)` and any messages, `foreach_pop` is applied to the last `n` of them, in order, and
leaves an empty queue. -/
theorem C104_backtrace {α : Type} [Inhabited α] (n : ℕ) (l : List α) (fuel : ℕ) (hf : n ≤ fuel) :
    ∃ q q', pushAll (new n) l = some q ∧ foreachPop fuel q = some (l.drop (l.length - n), q') ∧ empty q' = true := by
  obtain ⟨q, e, r, m⟩ := CircularQ.pushAll_rep l (new n) [] (rep_new n)
  have hm : (new n : CQ α).maxItems - 1 = n := by simp [new]
  rw [List.nil_append, hm] at r
  obtain ⟨q', e2, r2⟩ := CircularQ.foreachPop_rep _ q fuel r (by simp; omega)
  exact ⟨q, q', e, e2, by simpa using empty_rep r2⟩

/-- **C104, disabled.**  A default or moved-from queue takes no items and is empty; to take the front or pop it is undefined. -/
theorem C104_disabled {α : Type} (q : CQ α) (a : α) : (move q).1 = q ∧ CircularQ.push (move q).2 a = some (move q).2 ∧ empty (move q).2 = true ∧
    full (move q).2 = false ∧ size (move q).2 = 0 ∧ CircularQ.pop (move q).2 = none ∧ front (move q).2 = none ∧ (move q).2 = disabled := by
  simp [move, CircularQ.push, empty, full, size, CircularQ.pop, front, disabled]

/-- **C104, empty queues.**  What happens if an empty queue is popped all the same: it then pretends to hold `n` items. -/
theorem C104_pop_empty_false {α : Type} [Inhabited α] (n : ℕ) : ∃ q : CQ α, CircularQ.pop (new n) = some q ∧ size q = n := by
  refine ⟨_, rfl, ?_⟩
  cases n with
  | zero => simp [size, new]
  | succ n => simp [size, new, Nat.mod_eq_of_lt]

example : Spec.CircularQ.run 2 [.push 1, .push 2, .push 3, .pop, .push 4] [] 0 = some ([3, 4], 1, [2]) := by decide

example := C104_queue 2 [.push 1, .push 2, .push 3, .pop, .push 4] [3, 4] 1 [2] (by decide)

end Verif
