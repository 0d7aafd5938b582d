import Verif.Model.Output
import Verif.Lemmas.Text
import Verif.Spec.Rounding
import Mathlib.Tactic.Positivity
import Mathlib.Tactic.FieldSimp
namespace Verif
open Verif.Text Verif.Output

/-! ### C44 Snapshot folders partition the snapshots -/

theorem dash_not_mem_dec (n : ℕ) : '-' ∉ dec n := not_mem_dec n '-' (by decide)

/-- Every snapshot number (below the overflow of an `int`) has exactly one folder; the name of the folder states the first and
the last number it holds; a number has this folder exactly when it is between these two; the next folder begins where
this one ends; and the files of one kind in a folder are at most `max 400 ranks`. -/
theorem C44_folders (size snap : ℕ) (hs : 0 < size) (h : (snap : ℤ) + 400 ≤ intMax) :
    ∃ low high, resultFolder size snap = some ("./result/result".toList ++ dec low ++ "-".toList ++ dec high ++ "/".toList) ∧
      low ≤ snap ∧ snap ≤ high ∧
      (∀ snap' : ℕ, (snap' : ℤ) + 400 ≤ intMax → (resultFolder size snap' = resultFolder size snap ↔ low ≤ snap' ∧ snap' ≤ high)) ∧
      (∀ name, resultFolder size (high + 1) = some name → ∃ high', name = "./result/result".toList ++ dec (high + 1) ++ "-".toList ++ dec high' ++ "/".toList) ∧
      (high - low + 1) * size ≤ max 400 size := by
  have hnum : 0 < perFolder size := lt_of_lt_of_le one_pos (le_max_right _ _)
  have hnum4 : perFolder size ≤ 400 := max_le (Nat.div_le_self _ _) (by norm_num)
  generalize hn : perFolder size = num at hnum hnum4
  have range_eq : ∀ s : ℕ, (s : ℤ) + 400 ≤ intMax → folderRange size s = some (s / num * num, s / num * num + num - 1) := by
    intro s hs'
    unfold folderRange
    have h1 : s / num * num ≤ s := Nat.div_mul_le_self s num
    rw [hn]
    simp only
    rw [if_pos]
    have : ((s / num * num + num : ℕ) : ℤ) ≤ (s : ℤ) + 400 := by exact_mod_cast (by omega)
    omega
  have hdm := Nat.div_add_mod snap num
  have hml := Nat.mod_lt snap hnum
  have hcm : snap / num * num = num * (snap / num) := Nat.mul_comm _ _
  refine ⟨snap / num * num, snap / num * num + num - 1, ?_, ?_, ?_, ?_, ?_, ?_⟩
  · unfold resultFolder
    rw [range_eq snap h]
    rfl
  · omega
  · omega
  · intro s' h'
    unfold resultFolder
    rw [range_eq snap h, range_eq s' h']
    simp only [Option.map_some, Option.some.injEq]
    have hdm' := Nat.div_add_mod s' num
    have hml' := Nat.mod_lt s' hnum
    have hcm' : s' / num * num = num * (s' / num) := Nat.mul_comm _ _
    constructor
    · intro e
      simp only [List.append_assoc, List.append_cancel_left_eq] at e
      have e' : dec (s' / num * num) ++ '-' :: (dec (s' / num * num + num - 1) ++ "/".toList) =
        dec (snap / num * num) ++ '-' :: (dec (snap / num * num + num - 1) ++ "/".toList) := e
      have := dec_injective (sep_unique (dash_not_mem_dec _) (dash_not_mem_dec _) e').1
      omega
    · rintro ⟨h1, h2⟩
      have : s' / num = snap / num := by
        apply Nat.div_eq_of_lt_le
        · exact h1
        · rw [Nat.add_mul]; omega
      rw [this]
  · intro name hname
    have he : snap / num * num + num - 1 + 1 = (snap / num + 1) * num := by rw [Nat.add_mul]; omega
    rw [he] at hname ⊢
    unfold resultFolder folderRange at hname
    rw [hn] at hname
    simp only [Nat.mul_div_cancel _ hnum] at hname
    split at hname
    · simp only [Option.map_some, Option.some.injEq] at hname
      exact ⟨_, hname.symm⟩
    · simp at hname
  · have : snap / num * num + num - 1 - snap / num * num + 1 = num := by omega
    rw [this, ← hn]
    unfold perFolder
    rcases le_total (400 / size) 1 with h1 | h1
    · rw [max_eq_right h1]; simp
    · rw [max_eq_left h1]
      exact le_trans (Nat.div_mul_le_self _ _) (le_max_left _ _)

example : (1234 : ℤ) + 400 ≤ intMax ∧ resultFolder 3 1234 = some "./result/result1197-1329/".toList := by
  constructor <;> decide

/-! ### C45 Snapshot cadence -/

/-- One step of the counters. -/
theorem runStep_write (e c k : ℤ) (log : List (ℤ × ℤ)) (he : 0 < e) (hc : 0 ≤ c) (hcm : c < intMax) (hk : (k - 1) * e < c) (hk' : c ≤ k * e) :
    ∃ k' log', Output.runStep e ⟨c, k, log⟩ = some ⟨c + 1, k', log'⟩ ∧ (k' - 1) * e < c + 1 ∧ c + 1 ≤ k' * e ∧
      (c = k * e → k' = k + 1 ∧ log' = log ++ [(c, k)]) ∧ (c ≠ k * e → k' = k ∧ log' = log) := by
  have hk0 : 0 ≤ k := by
    by_contra hneg
    push Not at hneg
    have : k * e < 0 := mul_neg_of_neg_of_pos hneg he
    omega
  have hkc : k < intMax := by
    by_contra hge
    push Not at hge
    have : intMax - 1 ≤ (k - 1) * e := by nlinarith [show (0:ℤ) ≤ intMax - 1 by unfold intMax; norm_num]
    have h2 : (k - 1) * e ≤ c - 1 := by omega
    omega
  have hw : decide (c.tmod e = 0) = decide (c = k * e) := by
    rw [decide_eq_decide]
    constructor
    · intro h
      obtain ⟨m, hm⟩ := Int.dvd_of_tmod_eq_zero h
      have h1 : k - 1 < m := by
        by_contra hle
        push Not at hle
        have := mul_le_mul_of_nonneg_right hle he.le
        rw [hm, mul_comm e m] at hk
        omega
      have h2 : m ≤ k := by
        by_contra hlt
        push Not at hlt
        have := mul_lt_mul_of_pos_right hlt he
        rw [hm, mul_comm e m] at hk'
        omega
      have : m = k := by omega
      rw [hm, this, mul_comm]
    · rintro rfl
      exact Int.mul_tmod_left _ _
  unfold Output.runStep ifWrite
  rw [if_neg he.ne', hw]
  simp only [Option.bind_some]
  rw [if_pos ⟨hcm, hkc⟩]
  by_cases h : c = k * e
  · refine ⟨k + 1, log ++ [(c, k)], by simp [← h], ?_, ?_, fun _ => ⟨rfl, rfl⟩, fun h' => absurd h h'⟩
    · have : (k + 1 - 1) * e = k * e := by ring
      rw [this]; omega
    · have : (k + 1) * e = k * e + e := by ring
      rw [this]; omega
  · refine ⟨k, log, by simp [h], by omega, ?_, fun h' => absurd h' h, fun _ => ⟨rfl, rfl⟩⟩
    omega

/-- The main loop from counters in the middle of a run. -/
theorem mainLoop_from (fl : ℝ → ℝ) (timeSnap dt timeTotal : ℝ) (e N : ℤ) (he : snapEvery fl timeSnap dt = some e) (hpos : 0 < e)
    (hN : N ≤ intMax) (hrun : ∀ n : ℤ, 0 ≤ n → (fl (n * dt) < timeTotal ↔ n < N)) (d : ℕ) :
    ∀ (c k : ℤ) (log : List (ℤ × ℤ)), 0 ≤ c → c ≤ N → (N - c).toNat = d → (k - 1) * e < c → c ≤ k * e →
      ∃ K : ℤ, (K - 1) * e < N ∧ N ≤ K * e ∧ k ≤ K ∧
        MainLoop fl timeSnap dt timeTotal (some ⟨c, k, log⟩) (some ⟨N, K, log ++ (List.range (K - k).toNat).map (fun j : ℕ => ((k + j) * e, k + j))⟩) := by
  induction d with
  | zero =>
    intro c k log hc hcN hd h1 h2
    have : c = N := by omega
    subst this
    refine ⟨k, h1, h2, le_refl _, ?_⟩
    simp only [sub_self, Int.toNat_zero, List.range_zero, List.map_nil, List.append_nil]
    apply WhileEnds.of_not
    show ¬ fl (c * dt) < timeTotal
    rw [hrun c hc]
    exact lt_irrefl _
  | succ d ih =>
    intro c k log hc hcN hd h1 h2
    have hlt : c < N := by omega
    obtain ⟨k', log', hst, g1, g2, hy, hn⟩ := runStep_write e c k log hpos hc (by omega) h1 h2
    obtain ⟨K, hK1, hK2, hKk, hml⟩ := ih (c + 1) k' log' (by omega) (by omega) (by omega) g1 g2
    have hbody : mainBody fl timeSnap dt (some ⟨c, k, log⟩) = some ⟨c + 1, k', log'⟩ := by
      unfold mainBody
      rw [he]
      exact hst
    have hkk : k ≤ k' := by
      by_cases h : c = k * e
      · rw [(hy h).1]; omega
      · rw [(hn h).1]
    refine ⟨K, hK1, hK2, by omega, ?_⟩
    apply WhileEnds.step
    · show fl (c * dt) < timeTotal
      rw [hrun c hc]; exact hlt
    · rw [hbody]
      have hlog : log ++ (List.range (K - k).toNat).map (fun j : ℕ => ((k + j) * e, k + j)) =
          log' ++ (List.range (K - k').toNat).map (fun j : ℕ => ((k' + j) * e, k' + j)) := ?_
      · rw [hlog]; exact hml
      by_cases h : c = k * e
      · obtain ⟨rfl, rfl⟩ := hy h
        have : (K - k).toNat = (K - (k + 1)).toNat + 1 := by omega
        rw [this, List.range_succ_eq_map]
        simp only [List.map_cons, List.map_map, List.append_assoc, List.cons_append, List.nil_append]
        congr 2
        · simp [h]
        · apply List.map_congr_left
          intro j _
          simp only [Function.comp]
          have : k + ((j.succ : ℕ) : ℤ) = k + 1 + j := by push_cast; ring
          rw [this]
      · obtain ⟨rfl, rfl⟩ := hn h
        rfl

/-- The number of steps with exact time: `N` is the least number with `timeTotal ≤ N dt`. -/
theorem steps_exact (dt timeTotal : ℝ) (hdt : 0 < dt) (n : ℤ) (hn : 0 ≤ n) : ((n : ℝ) * dt < timeTotal ↔ n < (⌈timeTotal / dt⌉₊ : ℤ)) := by
  obtain ⟨m, rfl⟩ := Int.eq_ofNat_of_zero_le hn
  rw [Nat.cast_lt (α := ℤ), Nat.lt_ceil, lt_div_iff₀ hdt]
  simp

/-- With any monotone rounding: if `e` is the rounded and truncated ratio of snapshot interval and time step, and `N` the
first step whose rounded start time reaches `timeTotal`, a run started by `initialize` ends after exactly the steps
`0, …, N - 1`, and has written snapshot `j` at step `j e` for every multiple of `e` below `N`, in this order, and nothing
else. -/
theorem C45_cadence (fl : ℝ → ℝ) (hfl : Spec.Rounding fl) (timeSnap dt timeTotal : ℝ) (hdt : 0 < dt) (hsn : dt ≤ timeSnap) (hsm : fl (timeSnap / dt) < 2 ^ 31)
    (N : ℕ) (hN : (N : ℤ) ≤ intMax) (hr : ∀ n < N, fl (n * dt) < timeTotal) (hstop : timeTotal ≤ fl (N * dt)) :
    ∃ e K : ℕ, 0 < e ∧ e = ⌊fl (timeSnap / dt)⌋₊ ∧
      MainLoop fl timeSnap dt timeTotal (some ⟨0, 0, []⟩) (some ⟨N, K, (List.range K).map (fun j : ℕ => ((j : ℤ) * e, (j : ℤ)))⟩) ∧
      ∀ j : ℕ, j < K ↔ j * e < N := by
  have h1 : (1 : ℝ) ≤ fl (timeSnap / dt) := by
    have h0 : (1 : ℝ) ≤ timeSnap / dt := by rwa [le_div_iff₀ hdt, one_mul]
    have := hfl.mono _ _ h0
    have hi := hfl.int 1 (by norm_num)
    simp only [Nat.cast_one] at hi
    rwa [hi] at this
  have hfl1 : 1 ≤ ⌊fl (timeSnap / dt)⌋₊ := Nat.le_floor (by simpa using h1)
  have hcast : (⌊fl (timeSnap / dt)⌋ : ℤ) = (⌊fl (timeSnap / dt)⌋₊ : ℤ) := (Int.natCast_floor_eq_floor (by linarith)).symm
  have hlt : ⌊fl (timeSnap / dt)⌋ < 2 ^ 31 := Int.floor_lt.2 (by push_cast; norm_num at hsm ⊢; exact hsm)
  have he : snapEvery fl timeSnap dt = some ((⌊fl (timeSnap / dt)⌋₊ : ℕ) : ℤ) := by
    unfold snapEvery
    rw [if_neg hdt.ne']
    simp only
    rw [if_pos (show 0 ≤ fl (timeSnap / dt) by linarith), if_pos, hcast]
    unfold intMax
    omega
  have hrun : ∀ n : ℤ, 0 ≤ n → (fl (n * dt) < timeTotal ↔ n < (N : ℤ)) := by
    intro n hn
    obtain ⟨m, rfl⟩ := Int.eq_ofNat_of_zero_le hn
    constructor
    · intro h
      by_contra hge
      push Not at hge
      have : (N : ℝ) * dt ≤ (m : ℝ) * dt := mul_le_mul_of_nonneg_right (by exact_mod_cast hge) hdt.le
      have := hfl.mono _ _ this
      simp only [Int.ofNat_eq_natCast, Int.cast_natCast] at h
      linarith
    · intro h
      have := hr m (by simpa using h)
      simpa using this
  obtain ⟨K, hK1, hK2, hK0, hml⟩ := mainLoop_from fl timeSnap dt timeTotal _ N he (by exact_mod_cast hfl1) hN hrun _ 0 0 [] (le_refl _) (by positivity) rfl
    (by have : (0 : ℤ) < (⌊fl (timeSnap / dt)⌋₊ : ℤ) := by exact_mod_cast hfl1
        linarith) (by simp)
  obtain ⟨K, rfl⟩ := Int.eq_ofNat_of_zero_le hK0
  refine ⟨⌊fl (timeSnap / dt)⌋₊, K, hfl1, rfl, ?_, ?_⟩
  · convert hml using 4
    simp
  · intro j
    generalize ⌊fl (timeSnap / dt)⌋₊ = e at *
    constructor
    · intro hj
      have : ((j : ℤ)) * e ≤ ((K : ℤ) - 1) * e := mul_le_mul_of_nonneg_right (by omega) (by positivity)
      have hK1' : ((K : ℤ) - 1) * e < N := hK1
      exact_mod_cast lt_of_le_of_lt this hK1'
    · intro hj
      by_contra hge
      push Not at hge
      have : ((K : ℤ)) * e ≤ (j : ℤ) * e := mul_le_mul_of_nonneg_right (by omega) (by positivity)
      have hK2' : (N : ℤ) ≤ (K : ℤ) * e := hK2
      have : (N : ℤ) ≤ ((j * e : ℕ) : ℤ) := by push_cast; linarith
      omega

/-- Exact arithmetic: the interval is `⌊timeSnap / dt⌋` steps, and exactly the steps with `n dt < timeTotal` are executed. -/
theorem C45_exact (timeSnap dt timeTotal : ℝ) (hdt : 0 < dt) (hsn : dt ≤ timeSnap) (hsm : timeSnap / dt < 2 ^ 31)
    (hN : ((⌈timeTotal / dt⌉₊ : ℕ) : ℤ) ≤ intMax) :
    ∃ e N K : ℕ, e = ⌊timeSnap / dt⌋₊ ∧ 0 < e ∧ (∀ n : ℕ, (n : ℝ) * dt < timeTotal ↔ n < N) ∧
      MainLoop id timeSnap dt timeTotal (some ⟨0, 0, []⟩) (some ⟨N, K, (List.range K).map (fun j : ℕ => ((j : ℤ) * e, (j : ℤ)))⟩) ∧
      ∀ j : ℕ, j < K ↔ ((j * e : ℕ) : ℝ) * dt < timeTotal := by
  have hid : Spec.Rounding id := by
    refine ⟨fun x y h => h, fun _ _ => rfl, ?_⟩
    intro a n hn _ _
    have : (0 : ℝ) ≤ a / n := by positivity
    simp only [id]
    nlinarith [show (0 : ℝ) < 1 / 2 ^ 53 by positivity]
  have hst : ∀ n : ℕ, (n : ℝ) * dt < timeTotal ↔ n < ⌈timeTotal / dt⌉₊ := by
    intro n
    have := steps_exact dt timeTotal hdt n (by positivity)
    simpa using this
  obtain ⟨e, K, he, hee, hml, hK⟩ := C45_cadence id hid timeSnap dt timeTotal hdt hsn hsm ⌈timeTotal / dt⌉₊ hN
    (fun n hn => (hst n).2 hn) (by
      by_contra h
      push Not at h
      have := (hst _).1 h
      omega)
  refine ⟨e, _, K, hee, he, hst, hml, ?_⟩
  intro j
  rw [hK j, hst]

example : ∃ timeSnap dt timeTotal : ℝ, 0 < dt ∧ dt ≤ timeSnap ∧ timeSnap / dt < 2 ^ 31 ∧ ((⌈timeTotal / dt⌉₊ : ℕ) : ℤ) ≤ intMax ∧
    ⌊timeSnap / dt⌋₊ = 4 ∧ ⌈timeTotal / dt⌉₊ = 40 := by
  have h1 : ⌈(10 : ℝ) / (1 / 4)⌉₊ = 40 := by
    rw [Nat.ceil_eq_iff (by norm_num)]; norm_num
  refine ⟨1.1, 1 / 4, 10, by norm_num, by norm_num, by norm_num, ?_, ?_, h1⟩
  · rw [h1]; decide
  · rw [Nat.floor_eq_iff (by norm_num)]; norm_num

/-- The same for a run resumed right after snapshot `k - 1`. -/
theorem C45_resumed (timeSnap dt timeTotal : ℝ) (hdt : 0 < dt) (hsn : dt ≤ timeSnap) (hsm : timeSnap / dt < 2 ^ 31)
    (hN : ((⌈timeTotal / dt⌉₊ : ℕ) : ℤ) ≤ intMax) (k : ℕ) (hk : (k : ℝ) * ⌊timeSnap / dt⌋₊ * dt < timeTotal) :
    ∃ N K : ℕ, k < K ∧ MainLoop id timeSnap dt timeTotal (some ⟨k * ⌊timeSnap / dt⌋₊ + 1, k + 1, []⟩)
        (some ⟨N, K, ((List.range K).drop (k + 1)).map (fun j : ℕ => ((j : ℤ) * ⌊timeSnap / dt⌋₊, (j : ℤ)))⟩) ∧
      MainLoop id timeSnap dt timeTotal (some ⟨0, 0, []⟩)
        (some ⟨N, K, (List.range K).map (fun j : ℕ => ((j : ℤ) * ⌊timeSnap / dt⌋₊, (j : ℤ)))⟩) := by
  obtain ⟨e, N, K, hee, he, hst, hml, hK⟩ := C45_exact timeSnap dt timeTotal hdt hsn hsm hN
  subst hee
  generalize hE : ⌊timeSnap / dt⌋₊ = e at *
  have hkK : k < K := (hK k).2 (by push_cast; exact hk)
  have hkN : k * e < N := (hst _).1 (by push_cast; exact hk)
  have hNe : N = ⌈timeTotal / dt⌉₊ := by
    have hc : ∀ n : ℕ, n < N ↔ n < ⌈timeTotal / dt⌉₊ := by
      intro n
      rw [← hst n, Nat.lt_ceil, lt_div_iff₀ hdt]
    have h1 := hc N
    have h2 := hc ⌈timeTotal / dt⌉₊
    omega
  have hsnap : snapEvery id timeSnap dt = some (e : ℤ) := by
    have hq : (1 : ℝ) ≤ timeSnap / dt := by rwa [le_div_iff₀ hdt, one_mul]
    unfold snapEvery
    rw [if_neg hdt.ne']
    simp only [id]
    have hcast : (⌊timeSnap / dt⌋ : ℤ) = (⌊timeSnap / dt⌋₊ : ℤ) := (Int.natCast_floor_eq_floor (by linarith)).symm
    have hlt : ⌊timeSnap / dt⌋ < 2 ^ 31 := Int.floor_lt.2 (by push_cast; norm_num at hsm ⊢; exact hsm)
    rw [if_pos (show 0 ≤ timeSnap / dt by linarith), if_pos, hcast, hE]
    unfold intMax
    have : 0 ≤ ⌊timeSnap / dt⌋ := by rw [hcast]; positivity
    omega
  obtain ⟨K', hK1, hK2, hK0, hml'⟩ := mainLoop_from id timeSnap dt timeTotal e N hsnap (by exact_mod_cast he) (by rw [hNe]; exact hN)
    (fun n hn => by rw [hNe]; exact steps_exact dt timeTotal hdt n hn) _ (k * e + 1) (k + 1) [] (by positivity) (by exact_mod_cast hkN) rfl
    (by ring_nf; omega) (by ring_nf; have : (1 : ℤ) ≤ e := by exact_mod_cast he
                            omega)
  have hKK : K' = (K : ℤ) := by
    obtain ⟨K', rfl⟩ := Int.eq_ofNat_of_zero_le (show 0 ≤ K' by omega)
    have hK1' : ((K' : ℤ) - 1) * e < N := hK1
    have hK2' : (N : ℤ) ≤ (K' : ℤ) * e := hK2
    have a : ∀ j : ℕ, j < K ↔ j * e < N := fun j => by rw [hK j, hst]
    have h1 : ¬ K' < K := by
      rw [a K']
      have : (N : ℤ) ≤ ((K' * e : ℕ) : ℤ) := by push_cast; exact hK2'
      omega
    have h2 : K' - 1 < K := by
      rw [a]
      have hge : 1 ≤ K' := by omega
      have : (((K' - 1) * e : ℕ) : ℤ) < N := by push_cast [Nat.cast_sub hge]; exact hK1'
      exact_mod_cast this
    have hge : 1 ≤ K' := by omega
    simp only [Int.ofNat_eq_natCast, Nat.cast_inj]
    omega
  subst hKK
  refine ⟨N, K, hkK, ?_, hml⟩
  convert hml' using 4
  simp only [List.nil_append]
  have hlen : ((K : ℤ) - (k + 1)).toNat = K - (k + 1) := by omega
  rw [hlen]
  apply List.ext_getElem
  · simp
  · intro i h1 h2
    simp

example : ∃ (timeSnap dt timeTotal : ℝ) (k : ℕ), 0 < dt ∧ dt ≤ timeSnap ∧ timeSnap / dt < 2 ^ 31 ∧ 0 < k ∧
    ((⌈timeTotal / dt⌉₊ : ℕ) : ℤ) ≤ intMax ∧ (k : ℝ) * ⌊timeSnap / dt⌋₊ * dt < timeTotal := by
  have h1 : ⌈(10 : ℝ) / (1 / 4)⌉₊ = 40 := by
    rw [Nat.ceil_eq_iff (by norm_num)]; norm_num
  have h2 : ⌊(1.1 : ℝ) / (1 / 4)⌋₊ = 4 := by
    rw [Nat.floor_eq_iff (by norm_num)]; norm_num
  refine ⟨1.1, 1 / 4, 10, 3, by norm_num, by norm_num, by norm_num, by norm_num, ?_, ?_⟩
  · rw [h1]; decide
  · rw [h2]; norm_num

/-- A snapshot interval shorter than the time step: the remainder by zero. -/
theorem C45_zero (fl : ℝ → ℝ) (timeSnap dt timeTotal : ℝ) (hdt : dt ≠ 0) (h0 : 0 ≤ fl (timeSnap / dt)) (h1 : fl (timeSnap / dt) < 1)
    (hT : fl 0 < timeTotal) : MainLoop fl timeSnap dt timeTotal (some ⟨0, 0, []⟩) none := by
  have hf : ⌊fl (timeSnap / dt)⌋ = 0 := Int.floor_eq_zero_iff.2 ⟨h0, h1⟩
  apply WhileEnds.step
  · show fl ((0 : ℤ) * dt) < timeTotal
    simpa using hT
  · have : mainBody fl timeSnap dt (some ⟨0, 0, []⟩) = none := by
      unfold mainBody snapEvery
      rw [if_neg hdt]
      simp only [h0, if_true, hf]
      rw [if_pos (by unfold intMax; norm_num)]
      simp [Output.runStep, ifWrite]
    rw [this]
    apply WhileEnds.of_not
    exact fun h => h

example : (0 : ℝ) ≤ id ((1 : ℝ) / 2) ∧ id ((1 : ℝ) / 2) < 1 := by norm_num

/-- The decimal ratio is not what counts: for `timeSnap: 0.3` and `dt: 0.1` the nearest doubles have a ratio below 3, and
snapshots are written every second step. -/
theorem C45_decimal_false : snapEvery id (5404319552844595 / 2 ^ 54) (3602879701896397 / 2 ^ 55) = some 2 ∧
    |(5404319552844595 / 2 ^ 54 : ℝ) - 0.3| ≤ 1 / 2 ^ 55 ∧ |(3602879701896397 / 2 ^ 55 : ℝ) - 0.1| ≤ 1 / 2 ^ 56 := by
  refine ⟨?_, ?_, ?_⟩
  · unfold snapEvery
    rw [if_neg (by norm_num)]
    have hq : (5404319552844595 / 2 ^ 54 : ℝ) / (3602879701896397 / 2 ^ 55) = 10808639105689190 / 3602879701896397 := by norm_num
    simp only [id, hq]
    have hf : ⌊(10808639105689190 / 3602879701896397 : ℝ)⌋ = 2 := by
      rw [Int.floor_eq_iff]; norm_num
    rw [if_pos (show (0 : ℝ) ≤ 10808639105689190 / 3602879701896397 by norm_num), hf, if_pos (by unfold intMax; norm_num)]
  · rw [abs_le]; norm_num
  · rw [abs_le]; norm_num

end Verif
