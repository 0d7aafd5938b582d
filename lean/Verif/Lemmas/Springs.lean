import Verif.Spec.Springs
import Verif.Lemmas.NoOverlap
import Verif.Lemmas.NoCross
import Verif.Props.Links
import Mathlib.Analysis.SpecialFunctions.Trigonometric.Deriv
import Mathlib.Analysis.Calculus.Deriv.MeanValue
/-! Helper lemmas: what turning bodies do to the ends that links join. -/
namespace Verif.Springs
open Verif.V3 Spec Spec.Springs

/-- Length of the arc that is left after the first order. -/
theorem arc_le (t : ℝ) : 2 - 2 * Real.cos t - 2 * t * Real.sin t + t ^ 2 ≤ t ^ 4 / 4 := by
  let f : ℝ → ℝ := fun t => t ^ 4 / 4 - (2 - 2 * Real.cos t - 2 * t * Real.sin t + t ^ 2)
  have hd : ∀ x, HasDerivAt f (x * (x ^ 2 - 2 + 2 * Real.cos x)) x := by
    intro x
    have h1 : HasDerivAt (fun t : ℝ => t ^ 4 / 4) (4 * x ^ 3 / 4) x := by simpa using (hasDerivAt_pow 4 x).div_const 4
    have h2 : HasDerivAt (fun t : ℝ => 2 - 2 * Real.cos t) (-(2 * -Real.sin x)) x := by
      simpa using ((Real.hasDerivAt_cos x).const_mul 2).const_sub 2
    have h3 : HasDerivAt (fun t : ℝ => 2 * t * Real.sin t) (2 * 1 * Real.sin x + 2 * x * Real.cos x) x :=
      ((hasDerivAt_id x).const_mul 2).mul (Real.hasDerivAt_sin x)
    have h4 : HasDerivAt (fun t : ℝ => t ^ 2) (2 * x) x := by simpa using hasDerivAt_pow 2 x
    refine (h1.sub ((h2.sub h3).add h4)).congr_deriv ?_
    ring
  have hcos : ∀ x, 0 ≤ x ^ 2 - 2 + 2 * Real.cos x := fun x => by linarith [Real.one_sub_sq_div_two_le_cos (x := x)]
  have hpos : ∀ t, 0 ≤ t → 0 ≤ f t := by
    intro t ht
    have hm : MonotoneOn f (Set.Ici 0) := by
      refine monotoneOn_of_deriv_nonneg (convex_Ici 0) (fun x _ => (hd x).continuousAt.continuousWithinAt) (fun x _ => (hd x).differentiableAt.differentiableWithinAt) ?_
      intro x hx
      rw [interior_Ici] at hx
      rw [(hd x).deriv]
      exact mul_nonneg (le_of_lt hx) (hcos x)
    have h0 : f 0 = 0 := by simp [f]
    rw [← h0]
    exact hm (Set.mem_Ici.2 le_rfl) (Set.mem_Ici.2 ht) ht
  have key : 0 ≤ f t := by
    rcases le_total 0 t with h | h
    · exact hpos t h
    · have h1 := hpos (-t) (by linarith)
      have h2 : f (-t) = f t := by simp [f]; ring
      rwa [h2] at h1
  simp only [f] at key
  linarith

/-- A turn up to first order. -/
theorem rodrigues_second (k : V3) (hk : normSq k = 1) (t : ℝ) (v : V3) : norm (rodrigues k t v - v - t • cross k v) ≤ t ^ 2 / 2 * norm v := by
  have e : normSq (rodrigues k t v - v - t • cross k v) = (normSq v - dot k v ^ 2) * (2 - 2 * Real.cos t - 2 * t * Real.sin t + t ^ 2) := by
    have h := Real.sin_sq_add_cos_sq t
    simp only [normSq, dot, rodrigues, sub_x, sub_y, sub_z, add_x, add_y, add_z, smul_x, smul_y, smul_z, cross_x, cross_y, cross_z] at hk ⊢
    obtain ⟨s, hs⟩ : ∃ s, s = Real.sin t := ⟨_, rfl⟩
    obtain ⟨c, hc⟩ : ∃ c, c = Real.cos t := ⟨_, rfl⟩
    rw [← hs, ← hc] at h ⊢
    have h1 : s ^ 2 = 1 - c ^ 2 := by linarith
    obtain ⟨kx, ky, kz⟩ := k
    obtain ⟨vx, vy, vz⟩ := v
    simp only at hk ⊢
    linear_combination ((kx * vx + ky * vy + kz * vz) ^ 2 * (1 - c) ^ 2 + (s - t) ^ 2 * (vx * vx + vy * vy + vz * vz)) * hk +
      ((vx * vx + vy * vy + vz * vz) - (kx * vx + ky * vy + kz * vz) ^ 2) * h1
  have h1 := arc_le t
  have h2 : 0 ≤ normSq v - dot k v ^ 2 := by have := dot_sq_le k v; rw [hk, one_mul] at this; linarith
  have h3 : 0 ≤ dot k v ^ 2 := sq_nonneg _
  rw [V3.norm, e]
  refine Real.sqrt_le_iff.2 ⟨mul_nonneg (by positivity) (V3.norm_nonneg _), ?_⟩
  rw [mul_pow, norm_sq]
  have h4 : (normSq v - dot k v ^ 2) * (2 - 2 * Real.cos t - 2 * t * Real.sin t + t ^ 2) ≤ (normSq v - dot k v ^ 2) * (t ^ 4 / 4) := by gcongr
  have h5 : (normSq v - dot k v ^ 2) * (t ^ 4 / 4) ≤ normSq v * (t ^ 4 / 4) := by
    have : 0 ≤ t ^ 4 / 4 := by positivity
    gcongr
    linarith
  nlinarith

/-- The direction of a body up to first order. -/
theorem rotate_second (q : Quat) (hq : UnitQuat q) (w : V3) (dt : ℝ) (hdt : 0 ≤ dt) (v : V3) (hv : norm (q.rot v) = 1) :
    norm ((Equatn.rotateEquatn q w dt).rot v - q.rot v - dt • cross w (q.rot v)) ≤ turning dt w := by
  unfold turning
  by_cases h : w.norm < Equatn.fltEps
  · rw [C13_small q w dt h, show q.rot v - q.rot v - dt • cross w (q.rot v) = -(dt • cross w (q.rot v)) by ext <;> simp, V3.norm_neg, V3.norm_smul, abs_of_nonneg hdt]
    have h1 := NoOverlap.norm_cross_le w (q.rot v)
    rw [hv, mul_one] at h1
    have h2 : dt * norm (cross w (q.rot v)) ≤ dt * (1 / 2 ^ 23) := by
      gcongr
      exact h1.trans h.le
    have h3 : 0 ≤ (dt * norm w) ^ 2 / 2 := by positivity
    calc _ ≤ dt * (1 / 2 ^ 23) := h2
      _ ≤ _ := by rw [mul_one_div]; linarith
  · rw [C13_rotation q w dt hq (not_lt.1 h) v]
    have hp : 0 < w.norm := lt_of_lt_of_le Equatn.fltEps_pos (not_lt.1 h)
    have hk := Equatn.unit_dir w h
    have h1 := rodrigues_second ((1 / w.norm) • w) (by simp only [normSq, dot]; linarith) (w.norm * dt) (q.rot v)
    have e : (w.norm * dt) • cross ((1 / w.norm) • w) (q.rot v) = dt • cross w (q.rot v) := by
      ext <;> simp <;> field_simp
    rw [e, hv, mul_one] at h1
    refine h1.trans ?_
    rw [mul_comm w.norm dt]
    have : 0 ≤ dt / 2 ^ 23 := by positivity
    linarith

/-- The length of a vector up to first order. -/
theorem length_second (d s : V3) (hd : d ≠ 0) : |norm (d + s) - (norm d + dot d s / norm d)| ≤ norm s ^ 2 / (2 * norm d) := by
  have hp := norm_pos d hd
  have hsq : norm (d + s) ^ 2 = norm d ^ 2 + 2 * dot d s + norm s ^ 2 := by
    simp only [norm_sq, normSq, dot, add_x, add_y, add_z]; ring
  obtain ⟨a, ha⟩ : ∃ a, a = dot d s / norm d := ⟨_, rfl⟩
  have had : dot d s = a * norm d := by rw [ha]; field_simp
  obtain ⟨m, hm⟩ : ∃ m, m = norm s ^ 2 / (2 * norm d) := ⟨_, rfl⟩
  have hms : norm s ^ 2 = m * (2 * norm d) := by rw [hm]; field_simp
  have hm0 : 0 ≤ m := by rw [hm]; positivity
  have hcs : a ^ 2 ≤ norm s ^ 2 := by
    have := dot_sq_le d s
    rw [had, ← norm_sq, ← norm_sq, mul_pow] at this
    have h2 : norm d ^ 2 * a ^ 2 ≤ norm d ^ 2 * norm s ^ 2 := by linarith
    exact le_of_mul_le_mul_left h2 (by positivity)
  rw [← ha, ← hm, abs_le]
  rw [had, hms] at hsq
  have hn := V3.norm_nonneg (d + s)
  constructor
  · -- from below
    have h1 : norm d + a ≤ norm (d + s) := by
      refine le_of_abs_le (abs_le_of_sq_le_sq ?_ hn)
      rw [hsq]; rw [hms] at hcs; nlinarith
    linarith
  · have h0 : 0 ≤ norm d + a + m := by
      by_contra h
      push Not at h
      rw [hms] at hcs
      nlinarith
    have h1 : norm (d + s) ≤ norm d + a + m := by
      refine le_of_abs_le (abs_le_of_sq_le_sq ?_ h0)
      rw [hsq]
      nlinarith [sq_nonneg (a + m)]
    linarith

/-- How a body moves in a step. -/
structure Moved (dt : ℝ) (s s' : Sylinder) (u w : V3) : Prop where
  same : Spec.Mobility.SameBody s' s
  pos : s'.pos = s.pos + dt • u
  turn : s'.orientation = Equatn.rotateEquatn s.orientation w dt
  unit : UnitQuat s.orientation
  length : 0 ≤ s.length

theorem direction_second {dt : ℝ} (hdt : 0 ≤ dt) {s s' : Sylinder} {u w : V3} (h : Moved dt s s' u w) :
    norm (s'.direction - s.direction - dt • cross w s.direction) ≤ turning dt w ∧ norm (s'.direction - s.direction) ≤ dt * norm w := by
  have hd := NoCross.unit_direction s.orientation h.unit
  constructor
  · have := rotate_second s.orientation h.unit w dt hdt ⟨0, 0, 1⟩ hd
    rw [← h.turn] at this
    exact this
  · have := NoOverlap.rotate_le s.orientation h.unit w dt hdt ⟨0, 0, 1⟩ hd
    rw [← h.turn] at this
    exact this

/-- The distance between the ends that a link joins, after the step. -/
theorem link_gap {cfg : Links.Cfg} {dt : ℝ} (hdt : 0 ≤ dt) {x z x' z' : Sylinder} {U W : ℤ → V3} {b : Collector.Block} (hl : IsLink cfg x (Near.EP.copyFromFP z) b)
    (hx : Moved dt x x' (U x.globalIndex) (W x.globalIndex)) (hz : Moved dt z z' (U z.globalIndex) (W z.globalIndex)) :
    ∃ D, NearestImage cfg x.pos z.pos (z.pos + D) ∧ b.delta0 = norm (minusEnd z D - plusEnd x) - x.radius - z.radius - cfg.linkGap ∧
      plusEnd x - minusEnd z D = norm (minusEnd z D - plusEnd x) • b.normI ∧
      (minusEnd z D ≠ plusEnd x →
        |norm (minusEnd z' D - plusEnd x') - (norm (minusEnd z D - plusEnd x) + dt * Spec.Collector.gapRate U W b)| ≤
          (turning dt (W x.globalIndex) * x.length + turning dt (W z.globalIndex) * z.length) / 2 +
            (reach dt x (U x.globalIndex) (W x.globalIndex) + reach dt z (U z.globalIndex) (W z.globalIndex)) ^ 2 / (2 * norm (minusEnd z D - plusEnd x))) := by
  obtain ⟨c, P, Q, hc, hP, hQ, hdel, -, hone, -, -, -, hgi, hgj, -, -, hpi, hpj, hnj, hn, -, -⟩ := hl
  have hQ : Q = c - (z.length / 2) • z.direction := hQ
  have hgj : b.globalIndexJ = z.globalIndex := hgj
  have hdel : b.delta0 = norm (Q - P) - x.radius - z.radius - cfg.linkGap := hdel
  have hc : NearestImage cfg x.pos z.pos c := hc
  have eQ : minusEnd z (c - z.pos) = Q := by rw [hQ]; simp only [minusEnd]; ext <;> simp
  have eP : plusEnd x = P := by rw [hP]; rfl
  refine ⟨c - z.pos, ?_, by rw [eQ, eP]; exact hdel, by rw [eQ, eP, norm_sub_comm]; exact hn, ?_⟩
  · rw [show z.pos + (c - z.pos) = c by ext <;> simp]; exact hc
  rw [eQ, eP]
  intro hne
  obtain ⟨hx2, hx1⟩ := direction_second hdt hx
  obtain ⟨hz2, hz1⟩ := direction_second hdt hz
  obtain ⟨d, hd⟩ : ∃ d, d = Q - P := ⟨_, rfl⟩
  have hd0 : d ≠ 0 := by
    intro h
    apply hne
    rw [hd] at h
    have e1 := congrArg V3.x h
    have e2 := congrArg V3.y h
    have e3 := congrArg V3.z h
    rw [sub_x, zero_x] at e1
    rw [sub_y, zero_y] at e2
    rw [sub_z, zero_z] at e3
    ext <;> linarith
  have hdp := norm_pos d hd0
  obtain ⟨ex, hex⟩ : ∃ ex, ex = x'.direction - x.direction := ⟨_, rfl⟩
  obtain ⟨ez, hez⟩ : ∃ ez, ez = z'.direction - z.direction := ⟨_, rfl⟩
  rw [← hex] at hx1 hx2
  rw [← hez] at hz1 hz2
  obtain ⟨s, hs⟩ : ∃ s, s = dt • (U z.globalIndex - U x.globalIndex) - (z.length / 2) • ez - (x.length / 2) • ex := ⟨_, rfl⟩
  have hd' : minusEnd z' (c - z.pos) - plusEnd x' = d + s := by
    rw [hd, hs, hQ, hP, hez, hex]
    simp only [minusEnd, plusEnd, hx.pos, hz.pos, hx.same.length, hz.same.length]
    ext <;> simp <;> ring
  rw [hd', ← hd]
  obtain ⟨rx, hrx⟩ : ∃ rx, rx = ex - dt • cross (W x.globalIndex) x.direction := ⟨_, rfl⟩
  obtain ⟨rz, hrz⟩ : ∃ rz, rz = ez - dt • cross (W z.globalIndex) z.direction := ⟨_, rfl⟩
  rw [← hrx] at hx2
  rw [← hrz] at hz2
  have hposI : b.posI = (x.length / 2) • x.direction := by
    have : b.posI = (x.pos + b.posI) - x.pos := by ext <;> simp
    rw [this, hpi, hP]; ext <;> simp
  have hposJ : b.posJ = -((z.length / 2) • z.direction) := by
    have : b.posJ = (c + b.posJ) - c := by ext <;> simp
    rw [this, hpj, hQ]; ext <;> simp
  have hnI : b.normI = (-(1 / norm d)) • d := by
    have e : norm (P - Q) = norm d := by
      rw [hd, ← V3.norm_neg]; congr 1; ext <;> simp
    rw [e] at hn
    have e2 : b.normI = (1 / norm d) • (norm d • b.normI) := by ext <;> simp <;> field_simp
    rw [e2, ← hn, hd]
    ext <;> simp <;> ring
  -- the first order
  have hrate : dt * Spec.Collector.gapRate U W b = dot d s / norm d + (dot d ((z.length / 2) • rz + (x.length / 2) • rx)) / norm d := by
    unfold Spec.Collector.gapRate
    rw [hone, hgi, hgj, hnj, hnI, hposI, hposJ, hs, hrz, hrx]
    simp only [dot, add_x, add_y, add_z, sub_x, sub_y, sub_z, smul_x, smul_y, smul_z, neg_x, neg_y, neg_z, cross_x, cross_y, cross_z, Bool.false_eq_true, if_false]
    field_simp
    ring
  have hrem : |dot d ((z.length / 2) • rz + (x.length / 2) • rx) / norm d| ≤ (turning dt (W x.globalIndex) * x.length + turning dt (W z.globalIndex) * z.length) / 2 := by
    have h1 : norm ((z.length / 2) • rz + (x.length / 2) • rx) ≤ z.length / 2 * turning dt (W z.globalIndex) + x.length / 2 * turning dt (W x.globalIndex) := by
      refine (V3.norm_add_le _ _).trans ?_
      have hzl := hz.length
      have hxl := hx.length
      rw [V3.norm_smul, V3.norm_smul, abs_of_nonneg (by positivity), abs_of_nonneg (by positivity)]
      gcongr
    have h2 : |dot d ((z.length / 2) • rz + (x.length / 2) • rx)| ≤ norm d * norm ((z.length / 2) • rz + (x.length / 2) • rx) := by
      rw [abs_le]
      refine ⟨?_, dot_le_norm_mul _ _⟩
      have := dot_le_norm_mul (-d) ((z.length / 2) • rz + (x.length / 2) • rx)
      rw [V3.norm_neg] at this
      have e : dot (-d) ((z.length / 2) • rz + (x.length / 2) • rx) = -dot d ((z.length / 2) • rz + (x.length / 2) • rx) := by
        simp only [dot, neg_x, neg_y, neg_z]; ring
      rw [e] at this
      linarith
    rw [abs_div, abs_of_pos hdp, div_le_iff₀ hdp]
    nlinarith
  have hmove : norm s ≤ reach dt x (U x.globalIndex) (W x.globalIndex) + reach dt z (U z.globalIndex) (W z.globalIndex) := by
    have hzl := hz.length
    have hxl := hx.length
    have e : s = (dt • U z.globalIndex + (-dt) • U x.globalIndex) + ((-(z.length / 2)) • ez + (-(x.length / 2)) • ex) := by
      rw [hs]; ext <;> simp <;> ring
    have h1 := V3.norm_add_le (dt • U z.globalIndex + (-dt) • U x.globalIndex) ((-(z.length / 2)) • ez + (-(x.length / 2)) • ex)
    have h2 := V3.norm_add_le (dt • U z.globalIndex) ((-dt) • U x.globalIndex)
    have h3 := V3.norm_add_le ((-(z.length / 2)) • ez) ((-(x.length / 2)) • ex)
    rw [← e] at h1
    rw [V3.norm_smul, V3.norm_smul, abs_neg, abs_of_nonneg hdt] at h2
    rw [V3.norm_smul, V3.norm_smul, abs_neg, abs_neg, abs_of_nonneg (show 0 ≤ z.length / 2 by positivity), abs_of_nonneg (show 0 ≤ x.length / 2 by positivity)] at h3
    have h4 : z.length / 2 * norm ez ≤ z.length / 2 * (dt * norm (W z.globalIndex)) := by gcongr
    have h5 : x.length / 2 * norm ex ≤ x.length / 2 * (dt * norm (W x.globalIndex)) := by gcongr
    unfold reach
    nlinarith
  have hlen := length_second d s hd0
  have hsq : norm s ^ 2 / (2 * norm d) ≤ (reach dt x (U x.globalIndex) (W x.globalIndex) + reach dt z (U z.globalIndex) (W z.globalIndex)) ^ 2 / (2 * norm d) := by
    have := V3.norm_nonneg s
    gcongr
  rw [hrate]
  have e : norm (d + s) - (norm d + (dot d s / norm d + dot d ((z.length / 2) • rz + (x.length / 2) • rx) / norm d)) =
      (norm (d + s) - (norm d + dot d s / norm d)) - dot d ((z.length / 2) • rz + (x.length / 2) • rx) / norm d := by ring
  rw [e]
  have := abs_sub (norm (d + s) - (norm d + dot d s / norm d)) (dot d ((z.length / 2) • rz + (x.length / 2) • rx) / norm d)
  linarith

end Verif.Springs
