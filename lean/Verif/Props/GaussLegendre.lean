import Verif.Lemmas.GaussLegendre

/-!
C103: the table of Gauss-Legendre nodes and weights integrates every polynomial of degree up to `2 N - 1`.
-/

namespace Verif

open Gauss Spec.Gauss

/-- **C103, range.**  There is a table exactly for 1 to 128 nodes; otherwise an assertion fails. -/
theorem C103_defined (fl : ℝ → ℝ) (N : ℤ) : (nodesAndWeights fl N).isSome ↔ 1 ≤ N ∧ N ≤ 128 := by
  constructor
  · intro h
    by_contra hn
    unfold nodesAndWeights at h
    rw [if_neg hn] at h
    simp at h
  · rintro ⟨h1, h2⟩
    obtain ⟨xs, ws, _, e⟩ := table_of fl N h1 h2
    rw [e]; rfl

/-- **C103, shape.**  `N` nodes, increasing, strictly between -1 and 1, symmetric, and `N` positive weights, symmetric. -/
theorem C103_shape (N : ℤ) (xs ws : List ℝ) (h : nodesAndWeights id N = some (xs, ws)) :
    (xs.length : ℤ) = N ∧ (ws.length : ℤ) = N ∧ xs.Pairwise (· < ·) ∧ (∀ x ∈ xs, -1 < x ∧ x < 1) ∧ (∀ w ∈ ws, 0 < w) ∧
      xs.reverse = xs.map (fun x => -x) ∧ ws.reverse = ws := by
  have hN := (C103_defined id N).1 (by rw [h]; rfl)
  obtain ⟨xs', ws', t, e⟩ := table_of id N hN.1 hN.2
  rw [h] at e
  simp only [List.map_id, Option.some.injEq, Prod.mk.injEq] at e
  obtain ⟨rfl, rfl⟩ := e
  exact ⟨by rw [t.nodes]; omega, by rw [t.weights]; omega, t.sorted, t.inside, t.pos, t.symm.symm, t.wsymm⟩

/-- **C103, polynomials.**  Every polynomial of degree less than `2 N` is integrated up to `10^-75` times the sum of
the absolute values of its coefficients. -/
theorem C103_polynomial (N : ℤ) (xs ws : List ℝ) (h : nodesAndWeights id N = some (xs, ws)) (p : Polynomial ℝ) (hp : (p.natDegree : ℤ) < 2 * N) :
    |quadrature xs ws (fun x => p.eval x) - ∫ x in (-1 : ℝ)..1, p.eval x| ≤ 1 / 10 ^ 75 * size (2 * N.toNat) p := by
  have hN := (C103_defined id N).1 (by rw [h]; rfl)
  obtain ⟨xs', ws', t, e⟩ := table_of id N hN.1 hN.2
  rw [h] at e
  simp only [List.map_id, Option.some.injEq, Prod.mk.injEq] at e
  obtain ⟨rfl, rfl⟩ := e
  exact quad_poly (quad_moment t) p (by omega)

/-- **C103, rounded.**  With literals rounded with a relative error of at most `u` the error grows by at most `10 N u` times
the same sum. -/
theorem C103_rounded (fl : ℝ → ℝ) (u : ℝ) (hu : 0 ≤ u) (hu1 : 1024 * u ≤ 1) (hfl : ∀ x, |fl x - x| ≤ u * |x|) (N : ℤ) (xs ws : List ℝ)
    (h : nodesAndWeights fl N = some (xs, ws)) (p : Polynomial ℝ) (hp : (p.natDegree : ℤ) < 2 * N) :
    |quadrature xs ws (fun x => p.eval x) - ∫ x in (-1 : ℝ)..1, p.eval x| ≤ (1 / 10 ^ 75 + 10 * N * u) * size (2 * N.toNat) p := by
  have hN := (C103_defined fl N).1 (by rw [h]; rfl)
  obtain ⟨xs', ws', t, e⟩ := table_of fl N hN.1 hN.2
  rw [h] at e
  simp only [Option.some.injEq, Prod.mk.injEq] at e
  obtain ⟨rfl, rfl⟩ := e
  have c : ((N.toNat : ℕ) : ℝ) = N := by
    have : ((N.toNat : ℕ) : ℤ) = N := by omega
    exact_mod_cast this
  rw [← c]
  exact quad_poly (fun k hk => quad_rounded t (by omega) fl u hu hu1 hfl k hk) p (by omega)

/-- **C103, functions.**  A continuous function is integrated as well as polynomials of degree less than `2 N` come near to it. -/
theorem C103_function (N : ℤ) (xs ws : List ℝ) (h : nodesAndWeights id N = some (xs, ws)) (f : ℝ → ℝ) (hf : ContinuousOn f (Set.Icc (-1) 1))
    (p : Polynomial ℝ) (hp : (p.natDegree : ℤ) < 2 * N) (d : ℝ) (hd : ∀ x ∈ Set.Icc (-1 : ℝ) 1, |f x - p.eval x| ≤ d) :
    |quadrature xs ws f - ∫ x in (-1 : ℝ)..1, f x| ≤ (4 + 1 / 10 ^ 75) * d + 1 / 10 ^ 75 * size (2 * N.toNat) p := by
  have hN := (C103_defined id N).1 (by rw [h]; rfl)
  obtain ⟨xs', ws', t, e⟩ := table_of id N hN.1 hN.2
  rw [h] at e
  simp only [List.map_id, Option.some.injEq, Prod.mk.injEq] at e
  obtain ⟨rfl, rfl⟩ := e
  exact quad_function t (by omega) f hf p (by omega) d hd

/-- **C103, order.**  `2 N` is too much: there is a polynomial of that degree whose integral is positive and whose sum is zero. -/
theorem C103_order (N : ℤ) (xs ws : List ℝ) (h : nodesAndWeights id N = some (xs, ws)) :
    ∃ p : Polynomial ℝ, (p.natDegree : ℤ) = 2 * N ∧ quadrature xs ws (fun x => p.eval x) = 0 ∧ 0 < ∫ x in (-1 : ℝ)..1, p.eval x := by
  obtain ⟨h1, h2, h3, h4, -⟩ := C103_shape N xs ws h
  have hmonic : ∀ l : List ℝ, ((l.map fun a => Polynomial.X - Polynomial.C a).prod).Monic ∧ ((l.map fun a => Polynomial.X - Polynomial.C a).prod).natDegree = l.length := by
    intro l
    induction l with
    | nil => simp
    | cons a l ih =>
      simp only [List.map_cons, List.prod_cons, List.length_cons]
      refine ⟨(Polynomial.monic_X_sub_C a).mul ih.1, ?_⟩
      rw [(Polynomial.monic_X_sub_C a).natDegree_mul ih.1, ih.2, Polynomial.natDegree_X_sub_C]
      omega
  obtain ⟨m, dg⟩ := hmonic xs
  have ev : ∀ x, ((xs.map fun a => Polynomial.X - Polynomial.C a).prod).eval x = (xs.map fun a => x - a).prod := by
    intro x
    rw [Polynomial.eval_list_prod, List.map_map]
    simp [Function.comp_def]
  refine ⟨((xs.map fun a => Polynomial.X - Polynomial.C a).prod) ^ 2, ?_, ?_, ?_⟩
  · rw [m.natDegree_pow, dg]
    push_cast
    omega
  · have z : ∀ x ∈ xs, (((xs.map fun a => Polynomial.X - Polynomial.C a).prod) ^ 2).eval x = 0 := by
      intro x hx
      rw [Polynomial.eval_pow, ev, List.prod_eq_zero (List.mem_map.2 ⟨x, hx, sub_self x⟩)]
      norm_num
    unfold quadrature
    generalize (((xs.map fun a => Polynomial.X - Polynomial.C a).prod) ^ 2) = q at z
    clear h h1 h2 h3 h4 m dg ev
    induction xs generalizing ws with
    | nil => simp
    | cons x xs ih =>
      cases ws with
      | nil => simp
      | cons w ws => simp [z x (by simp), ih ws (fun y hy => z y (by simp [hy]))]
  · refine intervalIntegral.integral_pos (by norm_num) (Polynomial.continuous _).continuousOn ?_ ⟨1, by simp, ?_⟩
    · intro x _
      rw [Polynomial.eval_pow]
      positivity
    · rw [Polynomial.eval_pow, ev]
      have : 0 < (xs.map fun a => (1 : ℝ) - a).prod := List.prod_pos (by
        intro y hy
        obtain ⟨a, ha, rfl⟩ := List.mem_map.1 hy
        linarith [(h4 a ha).2])
      positivity

/-- 128 nodes are there, and they integrate `x^254` (which no formula with fewer nodes does). -/
example : ∃ xs ws, nodesAndWeights id 128 = some (xs, ws) ∧
    |quadrature xs ws (fun x => x ^ 254) - 2 / 255| ≤ 1 / 10 ^ 75 := by
  obtain ⟨⟨xs, ws⟩, h⟩ := Option.isSome_iff_exists.1 ((C103_defined id 128).2 (by norm_num))
  refine ⟨xs, ws, h, ?_⟩
  have := C103_polynomial 128 xs ws h (Polynomial.X ^ 254) (by simp)
  simp only [Polynomial.eval_pow, Polynomial.eval_X, integral_pow] at this
  refine le_trans (le_of_eq ?_) (this.trans ?_)
  · norm_num
  · have : size (2 * (128 : ℤ).toNat) (Polynomial.X ^ 254 : Polynomial ℝ) = 1 := by
      unfold size
      simp only [Polynomial.coeff_X_pow]
      rw [Finset.sum_eq_single 254] <;> simp +contextual
    rw [this, mul_one]

/-- Two nodes, in single precision. -/
example (fl : ℝ → ℝ) (hfl : ∀ x, |fl x - x| ≤ 1 / 2 ^ 24 * |x|) (xs ws : List ℝ) (h : nodesAndWeights fl 2 = some (xs, ws)) :=
  C103_rounded fl (1 / 2 ^ 24) (by positivity) (by norm_num) hfl 2 xs ws h (Polynomial.X ^ 3) (by simp)

end Verif
