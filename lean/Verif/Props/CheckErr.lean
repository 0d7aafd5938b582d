import Verif.Model.CheckErr
import Verif.Props.PointDist
/-! Property C99: when `checkError` says "Test Pass". -/
namespace Verif.Spec.CheckErr

/-- The relative error of a pair (true value, value) is below the bar; written without a quotient. -/
def RelBelow (bar : ℝ) (p : ℝ × ℝ) : Prop := |p.1 - p.2| < bar * |p.1|

/-- The sum of the absolute errors. -/
noncomputable def absSum (ps : List (ℝ × ℝ)) : ℝ := (ps.map (fun p => |p.1 - p.2|)).sum

/-- The sum of the squared errors. -/
noncomputable def sqSum (ps : List (ℝ × ℝ)) : ℝ := (ps.map (fun p => (p.1 - p.2) ^ 2)).sum

/-- The sum of the squared true values. -/
noncomputable def refSum (ps : List (ℝ × ℝ)) : ℝ := (ps.map (fun p => p.1 ^ 2)).sum

end Verif.Spec.CheckErr

namespace Verif.CheckErr
open Spec.CheckErr

theorem max_lt_num (d m : D) (bar : ℝ) :
    (D.max d m).lt (.num bar) ↔ d.lt (.num bar) ∧ (m = .nan ∨ m.lt (.num bar)) := by
  unfold D.max
  cases d <;> cases m <;> simp [D.lt]
  rename_i x y
  by_cases hxy : x < y
  · simp only [hxy, if_true]
    exact ⟨fun h => ⟨lt_trans hxy h, h⟩, fun h => h.2⟩
  · simp only [hxy, if_false]
    exact ⟨fun h => ⟨h, lt_of_le_of_lt (not_lt.mp hxy) h⟩, fun h => h.1⟩

theorem max_nan (d m : D) : D.max d m = .nan ↔ d = .nan := by
  unfold D.max
  cases d <;> cases m <;> simp [D.lt]
  rename_i x y
  by_cases h : x < y <;> simp [h]

theorem sqrt_sq_abs (x : ℝ) : Real.sqrt (x ^ 2) = |x| := Real.sqrt_sq_eq_abs x

theorem div_nan (p : ℝ × ℝ) : D.div |p.1 - p.2| |p.1| = .nan ↔ p = (0, 0) := by
  obtain ⟨t, v⟩ := p
  unfold D.div
  simp only [abs_eq_zero]
  split
  · rename_i h
    subst h
    split
    · rename_i h2
      simp only [true_iff]
      have : v = 0 := by linarith
      rw [this]
    · rename_i h2
      simp only [reduceCtorEq, false_iff, Prod.mk.injEq, not_and]
      intro _ hv; exact h2 (by rw [hv]; ring)
  · rename_i h
    simp only [reduceCtorEq, false_iff, Prod.mk.injEq, not_and]
    exact fun h1 => absurd h1 h

theorem div_lt (bar : ℝ) (p : ℝ × ℝ) : (D.div |p.1 - p.2| |p.1|).lt (.num bar) ↔ RelBelow bar p := by
  obtain ⟨t, v⟩ := p
  unfold D.div RelBelow
  simp only [abs_eq_zero]
  split
  · rename_i h
    subst h
    have : ¬ |0 - v| < bar * |(0 : ℝ)| := by simp
    split <;> simp [D.lt]
  · rename_i h
    have : 0 < |t| := abs_pos.mpr h
    simp only [D.lt]
    rw [div_lt_iff₀ this]

theorem fold_snoc (ps : List (ℝ × ℝ)) (p : ℝ × ℝ) (a : Acc) :
    (ps ++ [p]).foldl pass a = pass (ps.foldl pass a) p := by
  rw [List.foldl_append]; rfl

theorem fold_nan (ps : List (ℝ × ℝ)) :
    (ps.foldl pass start).errorMaxRel = .nan ↔ ps.getLast? = some (0, 0) := by
  induction ps using List.reverseRecOn with
  | nil => simp [start]
  | append_singleton ps p _ =>
    rw [fold_snoc]
    simp only [pass, sqrt_sq_abs, max_nan, div_nan, List.getLast?_append, List.getLast?_singleton, Option.some_or,
      Option.some.injEq]

theorem fold_rel (bar : ℝ) (hbar : 0 < bar) (ps : List (ℝ × ℝ)) :
    (ps.foldl pass start).errorMaxRel.lt (.num bar) ↔
      ps.getLast? ≠ some (0, 0) ∧ ∀ a p b, ps = a ++ p :: b → (0, 0) ∉ p :: b → RelBelow bar p := by
  induction ps using List.reverseRecOn with
  | nil => simp [start, D.lt, hbar]
  | append_singleton ps q ih =>
    rw [fold_snoc]
    simp only [pass, sqrt_sq_abs, max_lt_num, div_lt, fold_nan, ih, List.getLast?_append, List.getLast?_singleton,
      Option.some_or, ne_eq, Option.some.injEq]
    constructor
    · rintro ⟨h1, h2⟩
      have hq : q ≠ (0, 0) := by
        rintro rfl
        simp [RelBelow] at h1
      refine ⟨hq, ?_⟩
      intro a p b hab hnot
      rcases List.eq_nil_or_concat b with rfl | ⟨b', z, rfl⟩
      · have := List.append_inj' hab (by simp)
        simp only [List.cons.injEq, and_true] at this
        rw [← this.2]; exact h1
      · have h3 : ps ++ [q] = (a ++ p :: b') ++ [z] := by rw [hab]; simp
        have := List.append_inj' h3 (by simp)
        have hno : (0, 0) ∉ p :: b' := fun h => hnot (by
          simp only [List.mem_cons, List.concat_eq_append, List.mem_append] at h ⊢
          tauto)
        rcases h2 with h2 | h2
        · exfalso
          rw [this.1] at h2
          exact hno (by
            have := List.mem_of_getLast? h2
            have h4 : (a ++ p :: b').getLast? = (p :: b').getLast? := by
              rw [List.getLast?_append]
              simp [List.getLast?_cons]
            rw [h4] at h2
            exact List.mem_of_getLast? h2)
        · exact h2.2 a p b' this.1 hno
    · rintro ⟨h1, h2⟩
      refine ⟨h2 ps q [] rfl (by simpa using Ne.symm h1), ?_⟩
      by_cases hl : ps.getLast? = some (0, 0)
      · exact Or.inl hl
      · refine Or.inr ⟨hl, ?_⟩
        intro a p b hab hnot
        refine h2 a p (b ++ [q]) (by rw [hab]; simp) ?_
        intro h
        simp only [List.mem_cons, List.mem_append, List.not_mem_nil, or_false] at h hnot
        rcases h with h | h | h
        · exact hnot (Or.inl h)
        · exact hnot (Or.inr h)
        · exact h1 h.symm

theorem fold_sums (ps : List (ℝ × ℝ)) :
    (ps.foldl pass start).errorL2 = sqSum ps ∧ (ps.foldl pass start).errorAbs = absSum ps ∧
      (ps.foldl pass start).L2 = refSum ps ∧
      ∀ bar, 0 < bar → ((ps.foldl pass start).errorMaxL2 < bar ↔ ∀ p ∈ ps, |p.1 - p.2| < bar) := by
  induction ps using List.reverseRecOn with
  | nil => simp +contextual [start, sqSum, absSum, refSum]
  | append_singleton ps q ih =>
    obtain ⟨h1, h2, h3, h4⟩ := ih
    rw [fold_snoc]
    refine ⟨by simp [pass, h1, sqSum], by simp [pass, h2, absSum, sqrt_sq_abs], by simp [pass, h3, refSum], ?_⟩
    intro bar hbar
    simp only [pass, sqrt_sq_abs, List.mem_append, List.mem_singleton]
    split
    · rename_i hlt
      constructor
      · intro h p hp
        rcases hp with hp | rfl
        · exact (h4 bar hbar).mp h p hp
        · exact lt_trans hlt h
      · intro h
        exact (h4 bar hbar).mpr (fun p hp => h p (Or.inl hp))
    · rename_i hlt
      constructor
      · intro h p hp
        rcases hp with hp | rfl
        · exact (h4 bar hbar).mp (lt_of_le_of_lt (not_lt.mp hlt) h) p hp
        · exact h
      · intro h
        exact h q (Or.inr rfl)

theorem sqSum_nonneg (ps : List (ℝ × ℝ)) : 0 ≤ sqSum ps :=
  List.sum_nonneg (by intro x hx; obtain ⟨p, -, rfl⟩ := List.mem_map.mp hx; positivity)

theorem refSum_nonneg (ps : List (ℝ × ℝ)) : 0 ≤ refSum ps :=
  List.sum_nonneg (by intro x hx; obtain ⟨p, -, rfl⟩ := List.mem_map.mp hx; positivity)

theorem absSum_nonneg (ps : List (ℝ × ℝ)) : 0 ≤ absSum ps :=
  List.sum_nonneg (by intro x hx; obtain ⟨p, -, rfl⟩ := List.mem_map.mp hx; positivity)

/-- The sum of the squares is at most the square of the sum. -/
theorem sqSum_le (ps : List (ℝ × ℝ)) : sqSum ps ≤ absSum ps ^ 2 := by
  induction ps with
  | nil => simp [sqSum, absSum]
  | cons p ps ih =>
    have h0 := absSum_nonneg ps
    have h1 : 0 ≤ |p.1 - p.2| := abs_nonneg _
    have h2 : (p.1 - p.2) ^ 2 = |p.1 - p.2| ^ 2 := (sq_abs _).symm
    simp only [sqSum, absSum, List.map_cons, List.sum_cons] at ih h0 ⊢
    rw [h2]
    nlinarith

theorem abs_le_absSum (ps : List (ℝ × ℝ)) (p : ℝ × ℝ) (hp : p ∈ ps) : |p.1 - p.2| ≤ absSum ps := by
  induction ps with
  | nil => simp at hp
  | cons q ps ih =>
    have h0 := absSum_nonneg ps
    simp only [absSum, List.map_cons, List.sum_cons] at ih h0 ⊢
    rcases List.mem_cons.mp hp with rfl | hp
    · linarith
    · have := ih hp
      have := abs_nonneg (q.1 - q.2)
      linarith

theorem sqrt_div_lt (x y bar : ℝ) (hx : 0 ≤ x) (hy : 0 ≤ y) (hbar : 0 < bar) :
    (D.sqrt (D.div x y)).lt (.num bar) ↔ x < bar ^ 2 * y := by
  unfold D.div
  split
  · rename_i h
    subst h
    split <;> simp [D.sqrt, D.lt, hx]
  · rename_i h
    have hy' : 0 < y := lt_of_le_of_ne hy (Ne.symm h)
    simp only [D.sqrt, D.lt]
    rw [Real.sqrt_lt' hbar, div_lt_iff₀ hy']

/-- The verdict for equally long vectors. -/
theorem rank0_ok (t v : List ℝ) (hl : v.length = t.length) (bar : ℝ) (hbar : 0 < bar) :
    (rank0 v t bar = .ok ∨ rank0 v t bar = .larger) ∧
    (rank0 v t bar = .ok ↔ absSum (t.zip v) < bar ∧ sqSum (t.zip v) < bar ^ 2 * refSum (t.zip v) ∧
      (t.zip v).getLast? ≠ some (0, 0) ∧
      ∀ a p b, t.zip v = a ++ p :: b → (0, 0) ∉ p :: b → RelBelow bar p) := by
  obtain ⟨h1, h2, h3, h4⟩ := fold_sums (t.zip v)
  have h5 := h4 bar hbar
  have h6 := fold_rel bar hbar (t.zip v)
  unfold rank0
  rw [if_neg (not_not.mpr hl)]
  simp only [hbar, if_true]
  generalize (t.zip v).foldl pass start = acc at h1 h2 h3 h5 h6
  have key : (acc.errorMaxL2 < bar ∧ acc.errorMaxRel.lt (.num bar) ∧ acc.errorAbs < bar ∧
      (D.sqrt (D.div acc.errorL2 v.length)).lt (.num bar) ∧ (D.sqrt (D.div acc.errorL2 acc.L2)).lt (.num bar)) ↔
      absSum (t.zip v) < bar ∧ sqSum (t.zip v) < bar ^ 2 * refSum (t.zip v) ∧
      (t.zip v).getLast? ≠ some (0, 0) ∧
      ∀ a p b, t.zip v = a ++ p :: b → (0, 0) ∉ p :: b → RelBelow bar p := by
    rw [h5, h6, h1, h2, h3, sqrt_div_lt _ _ _ (sqSum_nonneg _) (by positivity) hbar,
      sqrt_div_lt _ _ _ (sqSum_nonneg _) (refSum_nonneg _) hbar]
    constructor
    · intro hh
      exact ⟨hh.2.2.1, hh.2.2.2.2, hh.2.1⟩
    · rintro ⟨ha, hs, hr⟩
      refine ⟨fun p hp => lt_of_le_of_lt (abs_le_absSum _ p hp) ha, hr, ha, ?_, hs⟩
      have hne : v ≠ [] := by
        rintro rfl
        simp [sqSum, refSum] at hs
      have hn : (1 : ℝ) ≤ v.length := by
        exact_mod_cast List.length_pos_iff.mpr hne
      have h5 := sqSum_le (t.zip v)
      have h6 := absSum_nonneg (t.zip v)
      nlinarith [pow_pos hbar 2]
  rw [← key]
  refine ⟨by split <;> simp, ?_⟩
  split <;> simp_all

theorem checkError_eq (value valueTrue : List (List ℝ)) (hv : value ≠ []) (ht : valueTrue ≠ [])
    (hv' : value.flatten.length ≤ PointDist.intMax) (ht' : valueTrue.flatten.length ≤ PointDist.intMax) (bar : ℝ) :
    checkError value valueTrue bar = some (rank0 value.flatten valueTrue.flatten bar) := by
  unfold checkError
  rw [C09_collect value hv hv', C09_collect valueTrue ht ht']
  simp

/-- If all relative errors are below the bar so is the relative error in the 2-norm. -/
theorem relL2_of_rel (bar : ℝ) (hbar : 0 < bar) (ps : List (ℝ × ℝ)) (hne : ps ≠ [])
    (h : ∀ p ∈ ps, RelBelow bar p) : sqSum ps < bar ^ 2 * refSum ps := by
  have one : ∀ p ∈ ps, (p.1 - p.2) ^ 2 < bar ^ 2 * p.1 ^ 2 := by
    intro p hp
    have h1 := h p hp
    unfold RelBelow at h1
    rw [← sq_abs (p.1 - p.2), ← sq_abs p.1, ← mul_pow]
    have := abs_nonneg (p.1 - p.2)
    nlinarith
  have le : ∀ qs : List (ℝ × ℝ), (∀ p ∈ qs, (p.1 - p.2) ^ 2 < bar ^ 2 * p.1 ^ 2) → sqSum qs ≤ bar ^ 2 * refSum qs := by
    intro qs
    induction qs with
    | nil => intro _; simp [sqSum, refSum]
    | cons q qs ih =>
      intro hq
      have h1 := hq q List.mem_cons_self
      have h2 := ih (fun p hp => hq p (List.mem_cons_of_mem _ hp))
      simp only [sqSum, refSum, List.map_cons, List.sum_cons] at h2 ⊢
      linarith
  match ps, hne with
  | q :: qs, _ =>
    have h1 := one q List.mem_cons_self
    have h2 := le qs (fun p hp => one p (List.mem_cons_of_mem _ hp))
    simp only [sqSum, refSum, List.map_cons, List.sum_cons] at h2 ⊢
    linarith

end Verif.CheckErr

namespace Verif
open CheckErr Spec.CheckErr

/-- C99, exactly what is tested: let the vectors of all ranks be joined, with a total that fits an `int`, and a positive
bar.  Vectors of different sizes are reported as such.  Otherwise the verdict is one of the two, and "Test Pass" is
printed if and only if the sum of the absolute errors is below the bar, the relative error in the 2-norm is, the
last pair is not (0, 0), and the relative error is below the bar for every pair **after the last pair (0, 0)**:
`std::max` forgets all that was before when the quotient is 0/0. -/
theorem C99_exact (value valueTrue : List (List ℝ)) (hv : value ≠ []) (ht : valueTrue ≠ [])
    (hv' : value.flatten.length ≤ PointDist.intMax) (ht' : valueTrue.flatten.length ≤ PointDist.intMax)
    (bar : ℝ) (hbar : 0 < bar) :
    (value.flatten.length ≠ valueTrue.flatten.length → checkError value valueTrue bar = some .sizeError) ∧
    (value.flatten.length = valueTrue.flatten.length →
      (checkError value valueTrue bar = some .ok ∨ checkError value valueTrue bar = some .larger) ∧
      (checkError value valueTrue bar = some .ok ↔
        absSum (valueTrue.flatten.zip value.flatten) < bar ∧
        sqSum (valueTrue.flatten.zip value.flatten) < bar ^ 2 * refSum (valueTrue.flatten.zip value.flatten) ∧
        (valueTrue.flatten.zip value.flatten).getLast? ≠ some (0, 0) ∧
        ∀ a p b, valueTrue.flatten.zip value.flatten = a ++ p :: b → (0, 0) ∉ p :: b → RelBelow bar p)) := by
  rw [checkError_eq value valueTrue hv ht hv' ht' bar]
  refine ⟨?_, ?_⟩
  · intro h
    unfold rank0
    rw [if_pos h]
  · intro h
    have := rank0_ok valueTrue.flatten value.flatten h bar hbar
    simpa using this

/-- C99, what the check is for: if no pair is (0, 0) and there is at least one pair, "Test Pass" is printed if and only if the relative
error of every value and the sum of the absolute errors are below the bar (the other three quantities are
then below it as well).  Missing for the full statement: pairs of two zeros, see `C99_accepts_false` and `C99_rejects_false`. -/
theorem C99_verdict_partial (value valueTrue : List (List ℝ)) (hv : value ≠ []) (ht : valueTrue ≠ [])
    (hv' : value.flatten.length ≤ PointDist.intMax) (hl : value.flatten.length = valueTrue.flatten.length)
    (hne : value.flatten ≠ []) (h0 : (0, 0) ∉ valueTrue.flatten.zip value.flatten) (bar : ℝ) (hbar : 0 < bar) :
    (checkError value valueTrue bar = some .ok ∨ checkError value valueTrue bar = some .larger) ∧
    (checkError value valueTrue bar = some .ok ↔
      (∀ p ∈ valueTrue.flatten.zip value.flatten, RelBelow bar p) ∧
      absSum (valueTrue.flatten.zip value.flatten) < bar) := by
  have hx := (C99_exact value valueTrue hv ht hv' (hl ▸ hv') bar hbar).2 hl
  refine ⟨hx.1, hx.2.trans ?_⟩
  have hz : valueTrue.flatten.zip value.flatten ≠ [] := by
    intro h
    have h2 := congrArg List.length h
    rw [List.length_zip, hl, Nat.min_self, List.length_nil] at h2
    rw [h2] at hl
    exact hne (List.length_eq_zero_iff.mp hl)
  generalize valueTrue.flatten.zip value.flatten = ps at h0 hz
  constructor
  · rintro ⟨ha, -, -, hr⟩
    refine ⟨?_, ha⟩
    intro p hp
    obtain ⟨a, b, hab⟩ := List.append_of_mem hp
    refine hr a p b hab ?_
    intro h
    exact h0 (hab ▸ List.mem_append_right _ h)
  · rintro ⟨hr, ha⟩
    refine ⟨ha, relL2_of_rel bar hbar ps hz hr, ?_, ?_⟩
    · intro h
      exact h0 (List.mem_of_getLast? h)
    · intro a p b hab _
      exact hr p (by rw [hab]; simp)

example : ([[2, 3], [5]] : List (List ℝ)) ≠ [] ∧ ([[2, 3], [5]] : List (List ℝ)).flatten.length ≤ PointDist.intMax ∧
    ([[2, 3], [5]] : List (List ℝ)).flatten.length = ([[2], [3, 4]] : List (List ℝ)).flatten.length ∧
    (0, 0) ∉ ([[2], [3, 4]] : List (List ℝ)).flatten.zip ([[2, 3], [5]] : List (List ℝ)).flatten := by
  refine ⟨by simp, by simp [PointDist.intMax], by simp, by simp⟩

/-- C99 fails: for every bar and every factor there are values of which one has a relative error above the factor times the
bar, for which "Test Pass" is printed. -/
theorem C99_accepts_false (bar K : ℝ) (hbar : 0 < bar) (hK : 0 < K) : ∃ t v : List ℝ,
    checkError [v] [t] bar = some .ok ∧ ∃ p ∈ t.zip v, p.1 ≠ 0 ∧ K * bar < |p.1 - p.2| / |p.1| := by
  have hKb : 0 < K * bar := by positivity
  have hd : 0 < bar / (2 * (K * bar + 1)) := by positivity
  generalize hδ : bar / (2 * (K * bar + 1)) = δ at hd
  have he : (K * bar + 1) * δ = bar / 2 := by rw [← hδ]; field_simp
  refine ⟨[δ, 0, 1], [δ + bar / 2, 0, 1], ?_, ⟨(δ, δ + bar / 2), by simp, hd.ne', ?_⟩⟩
  · refine ((C99_exact [[δ + bar / 2, 0, 1]] [[δ, 0, 1]] (by simp) (by simp) (by simp [PointDist.intMax])
      (by simp [PointDist.intMax]) bar hbar).2 (by simp)).2.mpr ?_
    simp only [List.flatten_cons, List.flatten_nil, List.append_nil, List.zip_cons_cons, List.zip_nil_right]
    refine ⟨?_, ?_, by simp, ?_⟩
    · simp only [absSum, List.map_cons, List.map_nil, List.sum_cons, List.sum_nil]
      rw [show δ - (δ + bar / 2) = -(bar / 2) by ring, abs_neg, abs_of_pos (by positivity)]
      simp
      linarith
    · simp only [sqSum, refSum, List.map_cons, List.map_nil, List.sum_cons, List.sum_nil]
      nlinarith [pow_pos hbar 2, mul_pos (pow_pos hbar 2) (pow_pos hd 2)]
    · intro a p b hab hnot
      rcases a with _ | ⟨a0, a⟩
      · simp only [List.nil_append, List.cons.injEq] at hab
        rw [← hab.2] at hnot
        simp at hnot
      · rcases a with _ | ⟨a1, a⟩
        · simp only [List.cons_append, List.nil_append, List.cons.injEq] at hab
          rw [← hab.2.1] at hnot
          simp at hnot
        · rcases a with _ | ⟨a2, a⟩
          · simp only [List.cons_append, List.nil_append, List.cons.injEq] at hab
            rw [← hab.2.2.1]
            simp [RelBelow, hbar]
          · simp at hab
  · simp only
    rw [show δ - (δ + bar / 2) = -(bar / 2) by ring, abs_neg, abs_of_pos (by positivity), abs_of_pos hd,
      lt_div_iff₀ hd]
    nlinarith

/-- C99 fails in the other direction: values without any error are said to have errors above the bar if the last of them is zero, or if
there are none. -/
theorem C99_rejects_false (t : List ℝ) (ht : (t ++ [0]).length ≤ PointDist.intMax) (bar : ℝ) (hbar : 0 < bar) :
    checkError [t ++ [0]] [t ++ [0]] bar = some .larger ∧ checkError [[]] [[]] bar = some .larger := by
  constructor
  · have h := (C99_exact [t ++ [0]] [t ++ [0]] (by simp) (by simp) (by simpa using ht) (by simpa using ht) bar hbar).2
      (by simp)
    rcases h.1 with h1 | h1
    · exfalso
      have h2 := (h.2.mp h1).2.2.1
      apply h2
      simp only [List.flatten_cons, List.flatten_nil, List.append_nil]
      rw [List.zip_append (by simp)]
      simp
    · exact h1
  · have h := (C99_exact [[]] [[]] (by simp) (by simp) (by simp) (by simp) bar hbar).2 (by simp)
    rcases h.1 with h1 | h1
    · exfalso
      have h2 := (h.2.mp h1).2.1
      simp [sqSum, refSum] at h2
    · exact h1

example : (([1, 2] : List ℝ) ++ [0]).length ≤ PointDist.intMax := by simp [PointDist.intMax]

end Verif
