import Verif.Lemmas.Rng
/-! Property C10: the random streams of different ranks and threads. -/
namespace Verif
open Rng

/-- C10.  Take any seed, any positive rank and thread counts, and any history of draws on any ranks and threads in
any order.  The construction and all draws succeed, all words come from the sequence of the seed, and no position
of this sequence is ever consumed twice. -/
theorem C10_disjoint (seed : ℤ) (P T : ℕ) (ops : List (ℕ × ℕ)) (h : ∀ o ∈ ops, o.1 < P ∧ o.2 < T) :
    ∃ w words, pools seed P T = some w ∧ runDraws w ops = some words ∧
      words.map (fun e => (e.1, e.2.1)) = ops ∧ (∀ e ∈ words, e.2.2.1 = seed) ∧
      (words.map (fun e => e.2.2.2)).Nodup := by
  refine ⟨_, _, pools_eq seed P T, runDraws_eq seed P T ops _ h, ?_, ?_, positions_nodup seed P T ops _ h⟩
  · clear h
    generalize (fun _ : ℕ × ℕ => 0) = c
    induction ops generalizing c with
    | nil => rfl
    | cons o ops ih => obtain ⟨r, t⟩ := o; simp [positions, ih]
  · clear h
    generalize (fun _ : ℕ × ℕ => 0) = c
    induction ops generalizing c with
    | nil => simp [positions]
    | cons o ops ih =>
      obtain ⟨r, t⟩ := o
      simp only [positions, List.mem_cons, forall_eq_or_imp]
      exact ⟨trivial, ih _⟩

example : ∀ o ∈ ([(0, 1), (1, 0), (0, 1)] : List (ℕ × ℕ)), o.1 < 2 ∧ o.2 < 2 := by decide

/-- C10, reproducibility: in any history, the successive words of thread `t` on rank `r` are those at the positions
`r + P (t + T k)`, `k = 0, 1, ...`, of the sequence of the seed; they do not depend on what is drawn elsewhere. -/
theorem C10_stream (seed : ℤ) (P T : ℕ) (ops : List (ℕ × ℕ)) (h : ∀ o ∈ ops, o.1 < P ∧ o.2 < T) (r t : ℕ) :
    ∃ w words, pools seed P T = some w ∧ runDraws w ops = some words ∧
      (words.filter (fun e => decide ((e.1, e.2.1) = (r, t)))).map (fun e => e.2.2)
        = (List.range (ops.count (r, t))).map (fun k => (seed, r + P * (t + T * k))) := by
  refine ⟨_, _, pools_eq seed P T, runDraws_eq seed P T ops _ h, ?_⟩
  rw [positions_filter]
  simp

/-- C10, coverage: every position of the sequence belongs to exactly one word of exactly one thread of one rank. -/
theorem C10_cover (P T : ℕ) (hP : 0 < P) (hT : 0 < T) (n : ℕ) :
    ∃! rtk : ℕ × ℕ × ℕ, rtk.1 < P ∧ rtk.2.1 < T ∧ n = rtk.1 + P * (rtk.2.1 + T * rtk.2.2) := by
  refine ⟨(n % P, n / P % T, n / P / T), ⟨Nat.mod_lt _ hP, Nat.mod_lt _ hT, ?_⟩, ?_⟩
  · simp only [Nat.mod_add_div]
  · rintro ⟨r, t, k⟩ ⟨h1, h2, h3⟩
    have := position_inj P T r t k (n % P) (n / P % T) (n / P / T) h1 h2 (Nat.mod_lt _ hP) (Nat.mod_lt _ hT)
      (by rw [← h3]; simp only [Nat.mod_add_div])
    simp only [Prod.mk.injEq]
    exact this

example : 0 < 3 ∧ 0 < 4 := by decide

/-- C10, error branch: a thread number beyond the pool is an out-of-bounds access. -/
theorem C10_bad_thread (seed : ℤ) (P T : ℕ) (r t : ℕ) (ht : T ≤ t) :
    ∃ w, pools seed P T = some w ∧ drawAt w r t = none := by
  refine ⟨_, pools_eq seed P T, ?_⟩
  unfold drawAt poolsAfter
  rw [List.getElem?_map]
  cases h : (List.range P)[r]? with
  | none => rfl
  | some x =>
    simp only [Option.map_some, Option.bind_eq_bind, Option.bind_some]
    rw [List.getElem?_eq_none (by simpa using ht)]
    rfl

example : 4 ≤ 5 := by decide

end Verif
