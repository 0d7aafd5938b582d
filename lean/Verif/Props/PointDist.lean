import Verif.Lemmas.PointDist
/-! Property C09: distributing points over the ranks and collecting them. -/
namespace Verif
open PointDist Spec

/-- Exact arithmetic is a rounding. -/
theorem rounding_id : Rounding id where
  mono _ _ h := h
  int _ _ := rfl
  quot a n _ _ _ := by
    have : (0 : ℝ) ≤ (a : ℝ) / n := by positivity
    simp only [id]
    nlinarith

/-- C09, what holds: if `ranks * points` fits an `int`, `distributePts` called with the array on rank 0 (the
other ranks may hold anything) succeeds; the pieces concatenated in rank order are the array, all pieces but
the last consist of whole points, and two ranks before the last differ by at most one point.  This is
claimed for every rounding of the quotient in line 193.  Missing for the full statement: `ranks * points` beyond the
range of `int` (see `C09_distribute_false`). -/
theorem C09_distribute_partial {α : Type} (fl : ℝ → ℝ) (hfl : Rounding fl) (dim : ℕ) (root : List α)
    (others : List (List α)) (hP : others.length + 1 ≤ intMax) (hdim : 0 < dim) (hsize : root.length ≤ intMax)
    (hov : (others.length + 1) * (root.length / dim) ≤ intMax) :
    ∃ parts, distributePts fl dim (root :: others) = some parts ∧ parts.length = others.length + 1 ∧
      parts.flatten = root ∧
      (∀ r, r < others.length → ∃ part c, parts[r]? = some part ∧ part.length = dim * c ∧
        (root.length / dim) / (others.length + 1) ≤ c ∧ c ≤ (root.length / dim) / (others.length + 1) + 1) := by
  rcases Nat.eq_zero_or_pos others.length with h0 | hpos
  · rw [List.length_eq_zero_iff] at h0
    subst h0
    refine ⟨[root], ?_, rfl, by simp, by simp⟩
    simp [distributePts, distributeRank]
  · set P := others.length + 1 with hPdef
    refine ⟨(List.range P).map (fun r => (root.drop (bound P dim root.length r)).take
      (bound P dim root.length (r + 1) - bound P dim root.length r)), ?_, by simp, ?_, ?_⟩
    · unfold distributePts
      simp only [List.getElem?_cons_zero, Option.bind_eq_bind, Option.bind_some, List.length_cons, ← hPdef]
      rw [Comm.mapM_some_of _ (fun p => (root.drop (bound P dim root.length p.2)).take
        (bound P dim root.length (p.2 + 1) - bound P dim root.length p.2))]
      · congr 1
        rw [List.zipIdx_eq_zip_range', List.length_cons, ← List.range_eq_range', ← hPdef]
        apply List.ext_getElem
        · simp [hPdef]
        · intro i h1 h2; simp
      · intro p hp
        have hlt : p.2 < P := by
          have := List.snd_lt_of_mem_zipIdx hp
          simpa [hPdef] using this
        exact distributeRank_eq fl hfl P dim root p.1 p.2 (by omega) hlt hP hdim hsize hov
    · have hb0 : bound P dim root.length 0 = 0 := by unfold bound; rw [if_neg (by omega)]; simp
      have hbP : bound P dim root.length P = root.length := by simp [bound]
      rw [flatten_pieces root (bound P dim root.length) hb0 P
        (fun r hr => (bound_mono P dim root.length r (by omega) hr).1) (by rw [hbP]), hbP, List.take_length]
    · intro r hr
      refine ⟨_, (r + 1) * (root.length / dim) / P - r * (root.length / dim) / P,
        by simp [List.getElem?_range (show r < P by omega)]; rfl, ?_, ?_, ?_⟩
      · have hb := bound_mono P dim root.length r (by omega) (by omega)
        rw [List.length_take, List.length_drop, min_eq_left (by omega)]
        unfold bound
        rw [if_neg (by omega), if_neg (by omega), Nat.mul_sub]
      · set n := root.length / dim
        have h1 : r * n / P + n / P ≤ (r + 1) * n / P := by
          rw [Nat.add_mul, Nat.one_mul]
          rw [Nat.add_div (by omega)]
          exact Nat.le_add_right _ _
        exact Nat.le_sub_of_add_le (by linarith)
      · set n := root.length / dim
        have h1 : (r + 1) * n / P ≤ r * n / P + n / P + 1 := by
          rw [Nat.add_mul, Nat.one_mul, Nat.add_div (by omega)]
          gcongr
          split <;> simp
        exact Nat.sub_le_of_le_add (by linarith)

example : ([] : List (List ℕ)).length + 1 ≤ intMax ∧ (0 : ℕ) < 3 ∧ ([1, 2, 3, 4, 5, 6] : List ℕ).length ≤ intMax ∧
    (2 + 1) * (([1, 2, 3, 4, 5, 6] : List ℕ).length / 3) ≤ intMax := by decide

/-- C09, the excluded case: when `ranks * points` exceeds `INT_MAX` the `int` product of line 195 overflows on the
last rank (undefined behaviour). -/
theorem C09_distribute_overflow {α : Type} (fl : ℝ → ℝ) (dim : ℕ) (root : List α) (others : List (List α))
    (hP : 0 < others.length) (hov : intMax < (others.length + 1) * (root.length / dim)) :
    distributePts fl dim (root :: others) = none := by
  unfold distributePts
  simp only [List.getElem?_cons_zero, Option.bind_eq_bind, Option.bind_some]
  apply Comm.mapM_none_of
  have hlast : others.length - 1 < others.length := by omega
  refine ⟨(others[others.length - 1], others.length), ?_, ?_⟩
  · rw [List.mem_zipIdx_iff_getElem?]
    have : others.length = others.length - 1 + 1 := by omega
    simp only
    conv_lhs => rw [this, List.getElem?_cons_succ]
    exact List.getElem?_eq_getElem hlast
  · unfold distributeRank
    simp only [List.length_cons]
    rw [if_neg (by omega)]
    split
    · rfl
    · split
      · rfl
      · have : index fl (others.length + 1) dim (root.length / dim) (others.length + 1) = none := by
          unfold index; rw [if_neg (by omega)]
        simp only [this, Option.bind_none]
        cases index fl (others.length + 1) dim (root.length / dim) others.length <;> rfl

/-- C09 is false in general: 64 ranks and 40 million points (every size involved fits an `int`). -/
theorem C09_distribute_false (fl : ℝ → ℝ) :
    ∃ (root : List ℕ) (others : List (List ℕ)), others.length = 63 ∧ root.length = 40000000 ∧
      root.length ≤ intMax ∧ distributePts fl 1 (root :: others) = none := by
  have key : ∀ (root : List ℕ) (others : List (List ℕ)), others.length = 63 → root.length = 40000000 →
      root.length ≤ intMax ∧ distributePts fl 1 (root :: others) = none := by
    intro root others h1 h2
    refine ⟨by rw [h2]; norm_num [intMax], C09_distribute_overflow fl 1 root others (by omega) ?_⟩
    rw [h1, h2]; norm_num [intMax]
  have mk : ∀ n, ∃ l : List ℕ, l.length = n := fun n => ⟨List.replicate n 0, List.length_replicate⟩
  have mk' : ∀ n, ∃ l : List (List ℕ), l.length = n := fun n => ⟨List.replicate n [], List.length_replicate⟩
  obtain ⟨root, hr⟩ := mk 40000000
  obtain ⟨others, ho⟩ := mk' 63
  exact ⟨root, others, ho, hr, key root others ho hr⟩

/-- C09: a zero dimension divides by zero on more than one rank. -/
theorem C09_distribute_dimension_zero {α : Type} (fl : ℝ → ℝ) (root : List α) (others : List (List α))
    (hP : 0 < others.length) : distributePts fl 0 (root :: others) = none := by
  unfold distributePts
  simp only [List.getElem?_cons_zero, Option.bind_eq_bind, Option.bind_some]
  apply Comm.mapM_none_of
  refine ⟨(root, 0), by simp, ?_⟩
  unfold distributeRank
  rw [if_neg (by simp only [List.length_cons]; omega)]
  split <;> simp

example : 0 < ([[1]] : List (List ℕ)).length := by decide

/-- C09: `collectPts` leaves the concatenation of all arrays, in rank order, on rank 0 and nothing elsewhere. -/
theorem C09_collect {α : Type} [Inhabited α] (locals : List (List α)) (hne : locals ≠ [])
    (hsize : locals.flatten.length ≤ intMax) :
    collectPts locals = some (locals.flatten :: List.replicate (locals.length - 1) []) := by
  unfold collectPts
  rw [List.length_flatten] at hsize
  split
  · rename_i h
    match locals, h with
    | [x], _ => simp
  · simp only
    rw [if_neg (by omega)]
    have := Comm.placeAll_concat locals [] (List.replicate (locals.map List.length).sum default) (by simp)
    simp only [List.nil_append, List.length_nil] at this
    rw [Comm.displs, this]
    rfl

/-- C09: `collectPtsAll` leaves the concatenation on every rank. -/
theorem C09_collectAll {α : Type} [Inhabited α] (locals : List (List α)) (hne : locals ≠ [])
    (hsize : locals.flatten.length ≤ intMax) :
    collectPtsAll locals = some (List.replicate locals.length locals.flatten) := by
  unfold collectPtsAll
  rw [C09_collect locals hne hsize]
  simp only [Option.bind_eq_bind, Option.bind_some, List.getElem?_cons_zero]
  rw [if_neg (by omega)]
  have : locals.length = locals.length - 1 + 1 := by
    have := List.length_pos_iff.mpr hne; omega
  conv_rhs => rw [this, List.replicate_succ]
  simp

example : ([[1, 2], [], [3]] : List (List ℕ)) ≠ [] ∧ ([[1, 2], [], [3]] : List (List ℕ)).flatten.length ≤ intMax := by
  decide

/-- C09, round trip: distribute, then collect, restores the array on rank 0. -/
theorem C09_roundtrip_partial {α : Type} [Inhabited α] (fl : ℝ → ℝ) (hfl : Rounding fl) (dim : ℕ) (root : List α)
    (others : List (List α)) (hP : others.length + 1 ≤ intMax) (hdim : 0 < dim) (hsize : root.length ≤ intMax)
    (hov : (others.length + 1) * (root.length / dim) ≤ intMax) :
    ∃ parts, distributePts fl dim (root :: others) = some parts ∧
      collectPts parts = some (root :: List.replicate others.length []) ∧
      collectPtsAll parts = some (List.replicate (others.length + 1) root) := by
  obtain ⟨parts, h1, h2, h3, -⟩ := C09_distribute_partial fl hfl dim root others hP hdim hsize hov
  have hne : parts ≠ [] := by
    intro h; rw [h] at h2; simp at h2
  refine ⟨parts, h1, ?_, ?_⟩
  · rw [C09_collect parts hne (by rw [h3]; exact hsize), h3, h2]; rfl
  · rw [C09_collectAll parts hne (by rw [h3]; exact hsize), h3, h2]

end Verif
