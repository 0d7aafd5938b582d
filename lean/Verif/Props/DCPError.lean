import Verif.Lemmas.DCPError
import Verif.Spec.DCPError
/-! C32: how wrong the distance of two segments can be, and when it is exact, with the tolerance of the code. -/
namespace Verif
open Verif.DCP Verif.Spec.DCP Verif.V3

theorem foot_line {P0 P1 Q0 Q1 : V3} {s t : ℝ}
    (h : dot (P1 - P0) (((1 - t) • Q0 + t • Q1) - ((1 - s) • P0 + s • P1)) = 0) : F (coef P0 P1 Q0 Q1) s t = 0 := by
  rw [← neg_eq_zero, ← h]
  simp only [F, coef, dot, sub_x, sub_y, sub_z, smul_x, smul_y, smul_z, add_x, add_y, add_z]; ring

theorem line_foot {P0 P1 Q0 Q1 : V3} {s t : ℝ} (h : F (coef P0 P1 Q0 Q1) s t = 0) :
    dot (P1 - P0) (((1 - t) • Q0 + t • Q1) - ((1 - s) • P0 + s • P1)) = 0 := by
  rw [← neg_eq_zero, ← h]
  simp only [F, coef, dot, sub_x, sub_y, sub_z, smul_x, smul_y, smul_z, add_x, add_y, add_z]; ring

/-- **The error of the tolerance.**  Two segments not shorter than `sqrt (2 eps)`.  Let `x` and `y` be points of the
second segment whose perpendiculars onto the first segment meet it.  The squared distance that is returned is larger than
that of any pair of points by at most `2 eps max(|Q|^2, 1)`, divided by the part of the second segment that lies between
`x` and `y`.  (In `C32_false` this part is about `eps`.)  Missing for C32: the claim without an error, which is false. -/
theorem C32_error_partial (eps : ℝ) (h0 : 0 < eps) (P0 P1 Q0 Q1 : V3) (ha : 2 * eps ≤ normSq (P1 - P0))
    (hc : 2 * eps ≤ normSq (Q1 - Q0)) (r : Result) (hr : query eps P0 P1 Q0 Q1 = some r) (p q : V3)
    (hp : OnSegment P0 P1 p) (hq : OnSegment Q0 Q1 q) (x y fx fy : V3) (hx : OnSegment Q0 Q1 x)
    (hy : OnSegment Q0 Q1 y) (hfx : Foot P0 P1 x fx) (hfy : Foot P0 P1 y fy) :
    norm (x - y) * (r.distance ^ 2 - norm (p - q) ^ 2) ≤
      2 * eps * max (normSq (Q1 - Q0)) 1 * norm (Q1 - Q0) := by
  have hM : 0 ≤ 2 * eps * max (normSq (Q1 - Q0)) 1 * norm (Q1 - Q0) :=
    mul_nonneg (mul_nonneg (by linarith) (le_trans zero_le_one (le_max_right _ _))) (Real.sqrt_nonneg _)
  obtain ⟨w, hw, -, -⟩ := parameters_spec eps _ (coef_ok P0 P1 Q0 Q1)
  have hr' := hr
  rw [query_eq eps P0 P1 Q0 Q1 w hw] at hr'
  injection hr' with hr'
  cases hm : w.mid with
  | false =>
    have := C32_minimum_partial eps P0 P1 Q0 Q1 r hr (by rw [← hr']; exact hm) p q hp hq
    have hd : 0 ≤ r.distance := by rw [← hr']; exact Real.sqrt_nonneg _
    have h1 : r.distance ^ 2 ≤ norm (p - q) ^ 2 := pow_le_pow_left₀ hd this 2
    have h2 : 0 ≤ norm (x - y) := Real.sqrt_nonneg _
    nlinarith
  | true =>
    obtain ⟨e0, e1, hf⟩ := mid_facts eps _ h0 ha hc w hw hm
    obtain ⟨s', b1, b2, rfl⟩ := hp
    obtain ⟨t', b3, b4, rfl⟩ := hq
    obtain ⟨tx, c1, c2, rfl⟩ := hx
    obtain ⟨ty, c3, c4, rfl⟩ := hy
    obtain ⟨⟨sx, d1, d2, rfl⟩, hfx⟩ := hfx
    obtain ⟨⟨sy, d3, d4, rfl⟩, hfy⟩ := hfy
    have lx := foot_line hfx
    have ly := foot_line hfy
    have hxy : norm (((1 - tx) • Q0 + tx • Q1) - ((1 - ty) • Q0 + ty • Q1)) = |tx - ty| * norm (Q1 - Q0) := by
      have e : normSq (((1 - tx) • Q0 + tx • Q1) - ((1 - ty) • Q0 + ty • Q1)) = (tx - ty) ^ 2 * normSq (Q1 - Q0) := by
        simp only [normSq, dot, sub_x, sub_y, sub_z, smul_x, smul_y, smul_z, add_x, add_y, add_z]; ring
      rw [norm, e, Real.sqrt_mul (sq_nonneg _), Real.sqrt_sq_eq_abs]; rfl
    have hFm : F (coef P0 P1 Q0 Q1) w.s w.t = 0 := by
      have : F (coef P0 P1 Q0 Q1) w.s w.t
          = 1 / 2 * F (coef P0 P1 Q0 Q1) e0.s e0.t + 1 / 2 * F (coef P0 P1 Q0 Q1) e1.s e1.t := by
        rw [hf.s, hf.t]; unfold F; ring
      rw [this, hf.ok0.line, hf.ok1.line]; norm_num
    have hGm : G (coef P0 P1 Q0 Q1) w.s w.t
        = 1 / 2 * G (coef P0 P1 Q0 Q1) e0.s e0.t + 1 / 2 * G (coef P0 P1 Q0 Q1) e1.s e1.t := by
      rw [hf.s, hf.t]; unfold G; ring
    have ew : r.distance ^ 2 = normSq (((1 - w.s) • P0 + w.s • P1) - ((1 - w.t) • Q0 + w.t • Q1)) := by
      rw [← hr']; exact Real.sq_sqrt (normSq_nonneg _)
    have e' : norm (((1 - s') • P0 + s' • P1) - ((1 - t') • Q0 + t' • Q1)) ^ 2
        = normSq (((1 - s') • P0 + s' • P1) - ((1 - t') • Q0 + t' • Q1)) := Real.sq_sqrt (normSq_nonneg _)
    have e : normSq (((1 - s') • P0 + s' • P1) - ((1 - t') • Q0 + t' • Q1)) =
        normSq (((1 - w.s) • P0 + w.s • P1) - ((1 - w.t) • Q0 + w.t • Q1)) +
        2 * (F (coef P0 P1 Q0 Q1) w.s w.t * (s' - w.s)) + 2 * (G (coef P0 P1 Q0 Q1) w.s w.t * (t' - w.t)) +
        normSq ((s' - w.s) • (P1 - P0) - (t' - w.t) • (Q1 - Q0)) := by
      simp only [F, G, coef, normSq, dot, sub_x, sub_y, sub_z, smul_x, smul_y, smul_z, add_x, add_y, add_z]; ring
    have hn := normSq_nonneg ((s' - w.s) • (P1 - P0) - (t' - w.t) • (Q1 - Q0))
    rw [ew, e', e, hFm, hxy]
    set g := G (coef P0 P1 Q0 Q1) w.s w.t with hg
    set δ := e1.t - e0.t with hδ
    have hδ0 : 0 < δ := by have := hf.lt; rw [hδ]; linarith
    have hdt : |tx - ty| ≤ δ := by
      have i1 := hf.first sx tx d1 d2 c1 c2 lx
      have i2 := hf.last sx tx d1 d2 c1 c2 lx
      have i3 := hf.first sy ty d3 d4 c3 c4 ly
      have i4 := hf.last sy ty d3 d4 c3 c4 ly
      rw [abs_le, hδ]; constructor <;> linarith
    have hga : δ * |g| ≤ max (normSq (Q1 - Q0)) 1 * eps := by
      have j0 := hf.small0
      have j1 := hf.small1
      rw [← abs_of_pos hδ0, ← abs_mul, hGm]
      have : δ * (1 / 2 * G (coef P0 P1 Q0 Q1) e0.s e0.t + 1 / 2 * G (coef P0 P1 Q0 Q1) e1.s e1.t)
          = 1 / 2 * (δ * G (coef P0 P1 Q0 Q1) e0.s e0.t) + 1 / 2 * (δ * G (coef P0 P1 Q0 Q1) e1.s e1.t) := by ring
      rw [this]
      rw [abs_lt] at j0 j1
      have hk : (coef P0 P1 Q0 Q1).c = normSq (Q1 - Q0) := rfl
      rw [hk] at j0 j1
      rw [abs_le]; constructor <;> linarith [j0.1, j0.2, j1.1, j1.2]
    have hw0 : 0 ≤ w.t := by rw [hf.t]; linarith [hf.ok0.t0, hf.ok1.t0]
    have hw1 : w.t ≤ 1 := by rw [hf.t]; linarith [hf.ok0.t1, hf.ok1.t1]
    have hlin : -(g * (t' - w.t)) ≤ |g| := by
      have k1 : |t' - w.t| ≤ 1 := by rw [abs_le]; constructor <;> linarith
      have k2 : -(g * (t' - w.t)) ≤ |g| * |t' - w.t| := by rw [← abs_mul]; exact neg_le_abs _
      have k3 : |g| * |t' - w.t| ≤ |g| * 1 := mul_le_mul_of_nonneg_left k1 (abs_nonneg _)
      linarith
    have hN : 0 ≤ norm (Q1 - Q0) := Real.sqrt_nonneg _
    have hstep : |tx - ty| * (2 * |g|) ≤ 2 * eps * max (normSq (Q1 - Q0)) 1 := by
      have : |tx - ty| * |g| ≤ δ * |g| := mul_le_mul_of_nonneg_right hdt (abs_nonneg _)
      linarith
    have hbig : |tx - ty| * norm (Q1 - Q0) * (2 * |g|) ≤ 2 * eps * max (normSq (Q1 - Q0)) 1 * norm (Q1 - Q0) := by
      have := mul_le_mul_of_nonneg_right hstep hN
      linarith
    refine le_trans ?_ hbig
    apply mul_le_mul_of_nonneg_left _ (mul_nonneg (abs_nonneg _) hN)
    linarith

/-- **Where the distance is exact with the tolerance of the code.**  Two segments not shorter than `sqrt (2 eps)`.  If no
perpendicular from the second segment meets the first one, or if two of them differ by at least `sqrt (2 eps max(|Q|^2,1))`
(segments that cross or pass each other at an angle), no pair of points is closer than the returned distance. -/
theorem C32_exact_partial (eps : ℝ) (h0 : 0 < eps) (P0 P1 Q0 Q1 : V3) (ha : 2 * eps ≤ normSq (P1 - P0))
    (hc : 2 * eps ≤ normSq (Q1 - Q0)) (r : Result) (hr : query eps P0 P1 Q0 Q1 = some r)
    (h : (∀ x f, OnSegment Q0 Q1 x → ¬ Foot P0 P1 x f) ∨
      ∃ x y fx fy, OnSegment Q0 Q1 x ∧ OnSegment Q0 Q1 y ∧ Foot P0 P1 x fx ∧ Foot P0 P1 y fy ∧
        2 * eps * max (normSq (Q1 - Q0)) 1 ≤ normSq ((x - fx) - (y - fy)))
    (p q : V3) (hp : OnSegment P0 P1 p) (hq : OnSegment Q0 Q1 q) : r.distance ≤ norm (p - q) := by
  obtain ⟨w, hw, -, -⟩ := parameters_spec eps _ (coef_ok P0 P1 Q0 Q1)
  have hr' := hr
  rw [query_eq eps P0 P1 Q0 Q1 w hw] at hr'
  injection hr' with hr'
  cases hm : w.mid with
  | false => exact C32_minimum_partial eps P0 P1 Q0 Q1 r hr (by rw [← hr']; exact hm) p q hp hq
  | true =>
    exfalso
    obtain ⟨e0, e1, hf⟩ := mid_facts eps _ h0 ha hc w hw hm
    rcases h with h | ⟨x, y, fx, fy, hx, hy, hfx, hfy, hbig⟩
    · exact h _ _ ⟨e0.t, hf.ok0.t0, hf.ok0.t1, rfl⟩ ⟨⟨e0.s, hf.ok0.s0, hf.ok0.s1, rfl⟩, line_foot hf.ok0.line⟩
    obtain ⟨tx, c1, c2, rfl⟩ := hx
    obtain ⟨ty, c3, c4, rfl⟩ := hy
    obtain ⟨⟨sx, d1, d2, rfl⟩, hfx⟩ := hfx
    obtain ⟨⟨sy, d3, d4, rfl⟩, hfy⟩ := hfy
    have lx := foot_line hfx
    have ly := foot_line hfy
    have hdt : |tx - ty| ≤ e1.t - e0.t := by
      have i1 := hf.first sx tx d1 d2 c1 c2 lx
      have i2 := hf.last sx tx d1 d2 c1 c2 lx
      have i3 := hf.first sy ty d3 d4 c3 c4 ly
      have i4 := hf.last sy ty d3 d4 c3 c4 ly
      rw [abs_le]; constructor <;> linarith
    have j0 := (abs_lt.1 hf.small0).1
    have j1 := (abs_lt.1 hf.small1).2
    have l0 := hf.ok0.line
    have l1 := hf.ok1.line
    obtain ⟨k, hk⟩ : ∃ k, k = coef P0 P1 Q0 Q1 := ⟨_, rfl⟩
    have ec : normSq (Q1 - Q0) = k.c := by rw [hk]; rfl
    have ea : normSq (P1 - P0) = k.a := by rw [hk]; rfl
    have hcs : k.b ^ 2 ≤ k.a * k.c := by rw [hk]; exact dot_sq_le _ _
    have ebig : normSq ((((1 - tx) • Q0 + tx • Q1) - ((1 - sx) • P0 + sx • P1)) -
        (((1 - ty) • Q0 + ty • Q1) - ((1 - sy) • P0 + sy • P1))) =
        k.c * (tx - ty) ^ 2 - 2 * k.b * (tx - ty) * (sx - sy) + k.a * (sx - sy) ^ 2 := by
      rw [hk]
      simp only [coef, normSq, dot, sub_x, sub_y, sub_z, smul_x, smul_y, smul_z, add_x, add_y, add_z]; ring
    rw [ebig, ec] at hbig
    rw [ea] at ha
    rw [← hk] at lx ly l0 l1 j0 j1
    have ha0 : 0 < k.a := by linarith
    have hd1 : k.a * (sx - sy) = k.b * (tx - ty) := by unfold F at lx ly; linarith
    have hd2 : k.a * (e1.s - e0.s) = k.b * (e1.t - e0.t) := by unfold F at l0 l1; linarith
    have hG : G k e1.s e1.t - G k e0.s e0.t = k.c * (e1.t - e0.t) - k.b * (e1.s - e0.s) := by unfold G; ring
    have hsum : k.c * (e1.t - e0.t) ^ 2 - k.b * (e1.s - e0.s) * (e1.t - e0.t) < 2 * eps * max k.c 1 := by
      have : (e1.t - e0.t) * G k e1.s e1.t - (e1.t - e0.t) * G k e0.s e0.t
          = k.c * (e1.t - e0.t) ^ 2 - k.b * (e1.s - e0.s) * (e1.t - e0.t) := by
        rw [← mul_sub, hG]; ring
      linarith
    have m1 : k.a * (k.c * (tx - ty) ^ 2 - 2 * k.b * (tx - ty) * (sx - sy) + k.a * (sx - sy) ^ 2)
        = (k.a * k.c - k.b ^ 2) * (tx - ty) ^ 2 := by
      have : k.a * (k.c * (tx - ty) ^ 2 - 2 * k.b * (tx - ty) * (sx - sy) + k.a * (sx - sy) ^ 2)
        = k.a * k.c * (tx - ty) ^ 2 - 2 * k.b * (tx - ty) * (k.a * (sx - sy)) + (k.a * (sx - sy)) ^ 2 := by ring
      rw [this, hd1]; ring
    have m2 : k.a * (k.c * (e1.t - e0.t) ^ 2 - k.b * (e1.s - e0.s) * (e1.t - e0.t))
        = (k.a * k.c - k.b ^ 2) * (e1.t - e0.t) ^ 2 := by
      have : k.a * (k.c * (e1.t - e0.t) ^ 2 - k.b * (e1.s - e0.s) * (e1.t - e0.t))
        = k.a * k.c * (e1.t - e0.t) ^ 2 - k.b * (k.a * (e1.s - e0.s)) * (e1.t - e0.t) := by ring
      rw [this, hd2]; ring
    have m3 : (tx - ty) ^ 2 ≤ (e1.t - e0.t) ^ 2 := by
      rw [← sq_abs (tx - ty)]; exact pow_le_pow_left₀ (abs_nonneg _) hdt 2
    have m4 : (k.a * k.c - k.b ^ 2) * (tx - ty) ^ 2 ≤ (k.a * k.c - k.b ^ 2) * (e1.t - e0.t) ^ 2 :=
      mul_le_mul_of_nonneg_left m3 (by linarith)
    have m5 := mul_le_mul_of_nonneg_left hbig ha0.le
    have m6 := mul_lt_mul_of_pos_left hsum ha0
    linarith

/-- Two crossing unit-size segments with the tolerance of the code: exact (distance one), and the error bound says so up to
`2^-49`. -/
example : ∃ r, query dblEps ⟨-1, 0, 0⟩ ⟨1, 0, 0⟩ ⟨0, -1, 1⟩ ⟨0, 1, 1⟩ = some r ∧ r.distance = 1 := by
  obtain ⟨r, hr, -, -, -, -, -, -, hP, hQ, hd⟩ := C32_points_partial dblEps ⟨-1, 0, 0⟩ ⟨1, 0, 0⟩ ⟨0, -1, 1⟩ ⟨0, 1, 1⟩
  have e : normSq ((⟨0, 0, 0⟩ : V3) - ⟨0, 0, 1⟩) = 1 := by simp [normSq, dot]
  have hle := C32_exact_partial dblEps dblEps_pos ⟨-1, 0, 0⟩ ⟨1, 0, 0⟩ ⟨0, -1, 1⟩ ⟨0, 1, 1⟩
    (by simp only [dblEps, normSq, dot, sub_x, sub_y, sub_z]; norm_num)
    (by simp only [dblEps, normSq, dot, sub_x, sub_y, sub_z]; norm_num) r hr
    (Or.inr ⟨⟨0, 1, 1⟩, ⟨0, -1, 1⟩, ⟨0, 0, 0⟩, ⟨0, 0, 0⟩, ⟨1, by norm_num, by norm_num, by ext <;> norm_num⟩,
      ⟨0, by norm_num, by norm_num, by ext <;> norm_num⟩,
      ⟨⟨1 / 2, by norm_num, by norm_num, by ext <;> norm_num⟩, by simp [dot]⟩,
      ⟨⟨1 / 2, by norm_num, by norm_num, by ext <;> norm_num⟩, by simp [dot]⟩,
      by simp only [dblEps, normSq, dot, sub_x, sub_y, sub_z]; norm_num⟩)
    ⟨0, 0, 0⟩ ⟨0, 0, 1⟩ ⟨1 / 2, by norm_num, by norm_num, by ext <;> norm_num⟩
    ⟨1 / 2, by norm_num, by norm_num, by ext <;> norm_num⟩
  rw [norm, e, Real.sqrt_one] at hle
  refine ⟨r, hr, le_antisymm hle ?_⟩
  obtain ⟨s, -, -, hs⟩ := hP
  obtain ⟨t, -, -, ht⟩ := hQ
  rw [hd, hs, ht, norm]
  apply Real.le_sqrt_of_sq_le
  simp only [normSq, dot, sub_x, sub_y, sub_z, smul_x, smul_y, smul_z, add_x, add_y, add_z]
  nlinarith [sq_nonneg (1 - s - s), sq_nonneg (1 - t - t)]

end Verif
