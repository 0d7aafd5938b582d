import Verif.Model.Rng
import Verif.Lemmas.Comm
import Mathlib.Tactic.Ring
import Mathlib.Tactic.Linarith
/-! Helper lemmas for the random streams. -/
namespace Verif.Rng

/-- The pools after `c (r, t)` draws on thread `t` of rank `r`. -/
def poolsAfter (seed : ℤ) (P T : ℕ) (c : ℕ × ℕ → ℕ) : List (List Engine) :=
  (List.range P).map (fun r => (List.range T).map (fun t => (⟨seed, r + P * (t + T * c (r, t)), P * T⟩ : Engine)))

theorem pools_eq (seed : ℤ) (P T : ℕ) : pools seed P T = some (poolsAfter seed P T (fun _ => 0)) := by
  unfold pools poolsAfter
  apply Comm.mapM_some_of
  intro r hr
  rw [List.mem_range] at hr
  unfold pool
  by_cases hP : P > 1
  · simp only [if_pos hP, Engine.split, Engine.ofSeed]
    rw [if_pos ⟨by omega, hr⟩]
    simp only [Option.bind_eq_bind, Option.bind_some]
    apply Comm.mapM_some_of
    intro t ht
    rw [List.mem_range] at ht
    rw [if_pos ⟨by omega, ht⟩]
    congr 2 <;> ring
  · have hP1 : P = 1 := by omega
    have hr0 : r = 0 := by omega
    subst hP1 hr0
    simp only [if_neg hP, Engine.split, Engine.ofSeed, Option.bind_eq_bind, Option.bind_some]
    apply Comm.mapM_some_of
    intro t ht
    rw [List.mem_range] at ht
    rw [if_pos ⟨by omega, ht⟩]
    congr 2
    ring

theorem drawAt_eq (seed : ℤ) (P T : ℕ) (c : ℕ × ℕ → ℕ) (r t : ℕ) (hr : r < P) (ht : t < T) :
    drawAt (poolsAfter seed P T c) r t = some ((seed, r + P * (t + T * c (r, t))),
      poolsAfter seed P T (Function.update c (r, t) (c (r, t) + 1))) := by
  unfold drawAt poolsAfter
  simp only [List.getElem?_map, List.getElem?_range hr, Option.map_some, List.getElem?_range ht, Option.bind_eq_bind,
    Option.bind_some, Engine.draw, Option.some.injEq, Prod.mk.injEq, true_and]
  apply List.ext_getElem
  · simp
  intro i h1 h2
  simp only [List.getElem_set, List.getElem_map, List.getElem_range]
  split
  · rename_i hi
    subst hi
    apply List.ext_getElem
    · simp
    intro j h3 h4
    simp only [List.getElem_set, List.getElem_map, List.getElem_range]
    split
    · rename_i hj
      subst hj
      simp only [Function.update_self, Engine.mk.injEq, true_and, and_true]
      ring
    · rename_i hj
      rw [Function.update_of_ne (by intro h; exact hj (Prod.mk.injEq _ _ _ _ ▸ h).2.symm)]
  · rename_i hi
    apply List.map_congr_left
    intro j _
    rw [Function.update_of_ne (by intro h; exact hi (Prod.mk.injEq _ _ _ _ ▸ h).1.symm)]

/-- The positions drawn by a history, given the numbers of earlier draws. -/
def positions (seed : ℤ) (P T : ℕ) (c : ℕ × ℕ → ℕ) : List (ℕ × ℕ) → List (ℕ × ℕ × ℤ × ℕ)
  | [] => []
  | (r, t) :: ops => (r, t, seed, r + P * (t + T * c (r, t))) ::
      positions seed P T (Function.update c (r, t) (c (r, t) + 1)) ops

theorem runDraws_eq (seed : ℤ) (P T : ℕ) (ops : List (ℕ × ℕ)) : ∀ c, (∀ o ∈ ops, o.1 < P ∧ o.2 < T) →
    runDraws (poolsAfter seed P T c) ops = some (positions seed P T c ops) := by
  induction ops with
  | nil => intro c _; rfl
  | cons o ops ih =>
    intro c h
    obtain ⟨r, t⟩ := o
    have ho := h _ List.mem_cons_self
    simp only [runDraws, drawAt_eq seed P T c r t ho.1 ho.2, Option.bind_eq_bind, Option.bind_some,
      ih _ (fun o ho => h o (List.mem_cons_of_mem _ ho)), positions]

theorem positions_filter (seed : ℤ) (P T : ℕ) (r t : ℕ) (ops : List (ℕ × ℕ)) : ∀ c,
    ((positions seed P T c ops).filter (fun e => decide ((e.1, e.2.1) = (r, t)))).map (fun e => e.2.2)
      = (List.range (ops.count (r, t))).map (fun k => (seed, r + P * (t + T * (c (r, t) + k)))) := by
  induction ops with
  | nil => intro c; simp [positions]
  | cons o ops ih =>
    intro c
    obtain ⟨r', t'⟩ := o
    by_cases h : (r', t') = (r, t)
    · obtain ⟨rfl, rfl⟩ := Prod.mk.injEq _ _ _ _ ▸ h
      simp only [positions, List.filter_cons, decide_true, if_true, List.map_cons, ih, List.count_cons_self,
        Function.update_self]
      rw [List.range_succ_eq_map]
      simp only [List.map_cons, List.map_map, Nat.add_zero]
      congr 1
      apply List.map_congr_left
      intro k _
      simp only [Function.comp]
      congr 3
      rw [Nat.succ_eq_add_one]
      ring
    · simp only [positions, List.filter_cons, h, decide_false, Bool.false_eq_true, if_false, ih,
        List.count_cons_of_ne h]
      rw [Function.update_of_ne (Ne.symm h)]

theorem position_inj (P T r t k r' t' k' : ℕ) (hr : r < P) (ht : t < T) (hr' : r' < P) (ht' : t' < T)
    (h : r + P * (t + T * k) = r' + P * (t' + T * k')) : r = r' ∧ t = t' ∧ k = k' := by
  have h1 : r = r' := by
    have := congrArg (· % P) h
    simpa [Nat.add_mul_mod_self_left, Nat.mod_eq_of_lt hr, Nat.mod_eq_of_lt hr'] using this
  subst h1
  have h2 : t + T * k = t' + T * k' := by
    have : P * (t + T * k) = P * (t' + T * k') := by omega
    exact Nat.eq_of_mul_eq_mul_left (by omega) this
  have h3 : t = t' := by
    have := congrArg (· % T) h2
    simpa [Nat.add_mul_mod_self_left, Nat.mod_eq_of_lt ht, Nat.mod_eq_of_lt ht'] using this
  subst h3
  refine ⟨rfl, rfl, ?_⟩
  have : T * k = T * k' := by omega
  exact Nat.eq_of_mul_eq_mul_left (by omega) this

theorem positions_ge (seed : ℤ) (P T : ℕ) (ops : List (ℕ × ℕ)) : ∀ c, ∀ e ∈ positions seed P T c ops,
    ∃ k, c (e.1, e.2.1) ≤ k ∧ e.2.2.2 = e.1 + P * (e.2.1 + T * k) ∧ (e.1, e.2.1) ∈ ops := by
  induction ops with
  | nil => intro c e he; simp [positions] at he
  | cons o ops ih =>
    intro c e he
    obtain ⟨r, t⟩ := o
    rw [positions, List.mem_cons] at he
    rcases he with rfl | he
    · exact ⟨_, le_rfl, rfl, List.mem_cons_self⟩
    · obtain ⟨k, h1, h2, h3⟩ := ih _ e he
      refine ⟨k, le_trans ?_ h1, h2, List.mem_cons_of_mem _ h3⟩
      by_cases h : (e.1, e.2.1) = (r, t)
      · rw [h, Function.update_self]; omega
      · rw [Function.update_of_ne h]

theorem positions_nodup (seed : ℤ) (P T : ℕ) (ops : List (ℕ × ℕ)) : ∀ c, (∀ o ∈ ops, o.1 < P ∧ o.2 < T) →
    ((positions seed P T c ops).map (fun e => e.2.2.2)).Nodup := by
  induction ops with
  | nil => intro c _; simp [positions]
  | cons o ops ih =>
    intro c h
    obtain ⟨r, t⟩ := o
    have ho := h _ List.mem_cons_self
    rw [positions, List.map_cons, List.nodup_cons]
    refine ⟨?_, ih _ (fun o ho => h o (List.mem_cons_of_mem _ ho))⟩
    intro hmem
    rw [List.mem_map] at hmem
    obtain ⟨e, he, heq⟩ := hmem
    obtain ⟨k, h1, h2, h3⟩ := positions_ge seed P T ops _ e he
    have hv := h _ (List.mem_cons_of_mem _ h3)
    simp only at heq
    rw [h2] at heq
    obtain ⟨e1, e2, e3⟩ := position_inj P T _ _ _ _ _ _ hv.1 hv.2 ho.1 ho.2 heq
    simp only at e1 e2
    rw [e1, e2, Function.update_self] at h1
    omega

end Verif.Rng
