import Verif.Spec.NoOverlap
import Verif.Props.Collide
import Verif.Props.RunStep
import Verif.Props.Equatn
import Mathlib.Analysis.SpecialFunctions.Trigonometric.Bounds
/-! Helper lemmas: distances of bodies that move. -/
namespace Verif.NoOverlap
open Verif.V3 Near Spec Spec.Near Spec.NoOverlap Collide Spec.Collector

/-- A turn displaces a point by at most the arc. -/
theorem rodrigues_le (k : V3) (hk : normSq k = 1) (θ : ℝ) (v : V3) : norm (rodrigues k θ v - v) ≤ |θ| * norm v := by
  have e : normSq (rodrigues k θ v - v) = 2 * (1 - Real.cos θ) * (normSq v - dot k v ^ 2) := by
    have h := Real.sin_sq_add_cos_sq θ
    simp only [normSq, dot, rodrigues, sub_x, sub_y, sub_z, add_x, add_y, add_z, smul_x, smul_y, smul_z, cross_x, cross_y, cross_z] at hk ⊢
    obtain ⟨s, hs⟩ : ∃ s, s = Real.sin θ := ⟨_, rfl⟩
    obtain ⟨c, hc⟩ : ∃ c, c = Real.cos θ := ⟨_, rfl⟩
    rw [← hs, ← hc] at h ⊢
    have h1 : s ^ 2 = 1 - c ^ 2 := by linarith
    obtain ⟨kx, ky, kz⟩ := k
    obtain ⟨vx, vy, vz⟩ := v
    simp only at hk ⊢
    linear_combination ((kx * vx + ky * vy + kz * vz) ^ 2 * (1 - c) ^ 2 + s ^ 2 * (vx * vx + vy * vy + vz * vz)) * hk +
      ((vx * vx + vy * vy + vz * vz) - (kx * vx + ky * vy + kz * vz) ^ 2) * h1
  have h0 : 0 ≤ dot k v ^ 2 := sq_nonneg _
  have h1 : 1 - Real.cos θ ≤ θ ^ 2 / 2 := by linarith [Real.one_sub_sq_div_two_le_cos (x := θ)]
  have h2 : 0 ≤ 1 - Real.cos θ := by linarith [Real.cos_le_one θ]
  rw [V3.norm, e]
  refine Real.sqrt_le_iff.2 ⟨mul_nonneg (abs_nonneg _) (V3.norm_nonneg _), ?_⟩
  rw [mul_pow, sq_abs, norm_sq]
  have h3 := normSq_nonneg v
  have h4 : dot k v ^ 2 ≤ normSq v := by have := dot_sq_le k v; rw [hk, one_mul] at this; exact this
  nlinarith

/-- The direction of a body turns by at most the arc. -/
theorem rotate_le (q : Quat) (hq : UnitQuat q) (w : V3) (dt : ℝ) (hdt : 0 ≤ dt) (v : V3) (hv : norm (q.rot v) = 1) :
    norm ((Equatn.rotateEquatn q w dt).rot v - q.rot v) ≤ dt * norm w := by
  by_cases h : w.norm < Equatn.fltEps
  · rw [C13_small q w dt h]
    have : q.rot v - q.rot v = 0 := by ext <;> simp
    rw [this, V3.norm_zero]
    exact mul_nonneg hdt (V3.norm_nonneg _)
  · rw [C13_rotation q w dt hq (not_lt.1 h) v]
    have hk := Equatn.unit_dir w h
    refine (rodrigues_le _ (by simp only [normSq, dot]; linarith) _ _).trans ?_
    rw [hv, mul_one, abs_of_nonneg (mul_nonneg (V3.norm_nonneg _) hdt), mul_comm]

/-- Axes are convex. -/
theorem core_convex (x : EP) (p q : V3) (hp : Core x p) (hq : Core x q) (t : ℝ) (h0 : 0 ≤ t) (h1 : t ≤ 1) : Core x (p + t • (q - p)) := by
  rcases hp with ⟨hs, rfl⟩ | ⟨hs, a, ha, rfl⟩
  · rcases hq with ⟨-, rfl⟩ | ⟨h, -⟩
    · exact Or.inl ⟨hs, by ext <;> simp⟩
    · exact absurd hs h
  · rcases hq with ⟨h, -⟩ | ⟨-, b, hb, rfl⟩
    · exact absurd h hs
    · refine Or.inr ⟨hs, a + t * (b - a), ?_, by ext <;> simp <;> ring⟩
      rw [abs_le] at *
      constructor <;> nlinarith

theorem dot_le_norm (n v : V3) (hn : norm n ≤ 1) : dot n v ≤ norm v :=
  (dot_le_norm_mul n v).trans (by nlinarith [V3.norm_nonneg v])

theorem neg_norm_le_dot (n v : V3) (hn : norm n ≤ 1) : -norm v ≤ dot n v := by
  have h := dot_le_norm n (-v) hn
  rw [norm_neg] at h
  have e : dot n (-v) = -dot n v := by simp only [dot, neg_x, neg_y, neg_z]; ring
  linarith

/-- The points of a contact are the ends of the shortest connection: along it no two points of the axes are closer. -/
theorem supporting (x y : EP) (P Q n : V3) (hP : Core x P) (hQ : Core y Q) (hn : P - Q = norm (P - Q) • n) (hu : P ≠ Q → norm n = 1)
    (hmin : ∀ p q, Core x p → Core y q → norm (P - Q) ≤ norm (p - q)) (h0 : P = Q → n = 0) (p q : V3) (hp : Core x p) (hq : Core y q) :
    norm (P - Q) ≤ dot n (p - q) := by
  by_cases hPQ : P = Q
  · rw [h0 hPQ, hPQ]
    have : Q - Q = 0 := by ext <;> simp
    rw [this, V3.norm_zero]
    simp [dot]
  have hd : 0 < norm (P - Q) := V3.norm_pos _ fun h => hPQ ((V3.sub_eq_zero _ _).1 h)
  obtain ⟨d, hdd⟩ : ∃ d, d = norm (P - Q) := ⟨_, rfl⟩
  rw [← hdd] at hn hd hmin ⊢
  have hnn : normSq n = 1 := by rw [← norm_sq, hu hPQ]; norm_num
  obtain ⟨v, hv⟩ : ∃ v, v = (p - q) - (P - Q) := ⟨_, rfl⟩
  have hvn : dot n (p - q) = d + dot n v := by
    have e : dot n (p - q) = dot n (P - Q) + dot n v := by rw [hv]; simp only [dot, sub_x, sub_y, sub_z]; ring
    have e2 : dot n (P - Q) = d * normSq n := by
      rw [hn]; simp only [dot, normSq, smul_x, smul_y, smul_z]; ring
    rw [e, e2, hnn, mul_one]
  rw [hvn]
  by_contra hneg
  push_neg at hneg
  have hneg : dot n v < 0 := by linarith
  -- a short step towards the other points
  have key : ∀ t : ℝ, 0 ≤ t → t ≤ 1 → 0 ≤ 2 * t * d * dot n v + t ^ 2 * normSq v := by
    intro t t0 t1
    have h := hmin _ _ (core_convex x P p hP hp t t0 t1) (core_convex y Q q hQ hq t t0 t1)
    have e : (P + t • (p - P)) - (Q + t • (q - Q)) = d • n + t • v := by
      have hx := congrArg V3.x hn
      have hy := congrArg V3.y hn
      have hz := congrArg V3.z hn
      simp only [sub_x, sub_y, sub_z, smul_x, smul_y, smul_z] at hx hy hz
      rw [hv]
      ext <;> simp
      · linear_combination hx
      · linear_combination hy
      · linear_combination hz
    rw [e] at h
    have h2 : d ^ 2 ≤ normSq (d • n + t • v) := by
      rw [← norm_sq]; exact pow_le_pow_left₀ hd.le h 2
    have e2 : normSq (d • n + t • v) = d ^ 2 * normSq n + 2 * t * d * dot n v + t ^ 2 * normSq v := by
      simp only [normSq, dot, smul_x, smul_y, smul_z, add_x, add_y, add_z]; ring
    rw [e2, hnn] at h2
    linarith
  have hv0 : 0 ≤ normSq v := normSq_nonneg v
  have h1 := key 1 zero_le_one le_rfl
  have hvpos : 0 < normSq v := by nlinarith
  have ht : 0 < d * (-dot n v) := mul_pos hd (by linarith)
  obtain ⟨t, htd⟩ : ∃ t, t = d * (-dot n v) / normSq v := ⟨_, rfl⟩
  have htv : t * normSq v = d * (-dot n v) := by rw [htd]; field_simp
  have t0 : 0 < t := by rw [htd]; exact div_pos ht hvpos
  have t1 : t ≤ 1 := by
    rw [htd, div_le_one hvpos]; nlinarith
  have := key t t0.le t1
  nlinarith

/-- A body after it moved. -/
structure Moves (dt : ℝ) (x x' : EP) (u w : V3) : Prop where
  size : x'.radiusCollision = x.radiusCollision ∧ x'.lengthCollision = x.lengthCollision
  pos : x'.pos = x.pos + dt • u
  turn : norm (x'.direction - x.direction) ≤ dt * norm w

theorem Moves.sphere {dt : ℝ} {x x' : EP} {u w : V3} (h : Moves dt x x' u w) : Sphere x' ↔ Sphere x := by
  unfold Sphere; rw [h.size.1, h.size.2]

theorem Moves.rad {dt : ℝ} {x x' : EP} {u w : V3} (h : Moves dt x x' u w) : Rad x' = Rad x := by
  unfold Rad
  by_cases hs : Sphere x
  · rw [if_pos hs, if_pos (h.sphere.2 hs), h.size.1, h.size.2]
  · rw [if_neg hs, if_neg (fun hh => hs (h.sphere.1 hh)), h.size.1]

theorem arm_nonneg (x : EP) (hx : 0 ≤ x.lengthCollision) : 0 ≤ arm x := by
  unfold arm; split <;> linarith

/-- Where the points of an axis come from. -/
theorem Moves.core {dt : ℝ} {x x' : EP} {u w : V3} (h : Moves dt x x' u w) (hdt : 0 ≤ dt) (p' : V3) (hp : Core x' p') :
    ∃ p e, Core x p ∧ p' = p + dt • u + e ∧ norm e ≤ dt * (norm w * arm x) / 2 := by
  rcases hp with ⟨hs, rfl⟩ | ⟨hs, a, ha, rfl⟩
  · have hs := h.sphere.1 hs
    refine ⟨x.pos, 0, Or.inl ⟨hs, rfl⟩, by rw [h.pos]; ext <;> simp, ?_⟩
    rw [V3.norm_zero, arm, if_pos hs]; simp
  · have hs : ¬ Sphere x := fun hh => hs (h.sphere.2 hh)
    rw [h.size.2] at ha
    refine ⟨x.pos + a • x.direction, a • (x'.direction - x.direction), Or.inr ⟨hs, a, ha, rfl⟩, ?_, ?_⟩
    · rw [h.pos]; ext <;> simp <;> ring
    · rw [V3.norm_smul, arm, if_neg hs]
      have h1 := h.turn
      have h2 := V3.norm_nonneg (x'.direction - x.direction)
      have h3 := abs_nonneg a
      have h4 : 0 ≤ dt * norm w := mul_nonneg hdt (V3.norm_nonneg _)
      nlinarith

/-- The arm of a contact is at most half the axis. -/
theorem core_arm (x : EP) (hd : norm x.direction = 1) (P r : V3) (hP : Core x P) (hr : x.pos + r = P) : norm r ≤ arm x / 2 := by
  rcases hP with ⟨hs, rfl⟩ | ⟨hs, a, ha, rfl⟩
  · have : r = 0 := by
      have hx := congrArg V3.x hr
      have hy := congrArg V3.y hr
      have hz := congrArg V3.z hr
      simp at hx hy hz
      ext <;> simp [hx, hy, hz]
    rw [this, V3.norm_zero, arm, if_pos hs]; simp
  · have : r = a • x.direction := by
      have hx := congrArg V3.x hr
      have hy := congrArg V3.y hr
      have hz := congrArg V3.z hr
      simp at hx hy hz
      ext <;> simp [hx, hy, hz]
    rw [this, V3.norm_smul, hd, mul_one, arm, if_neg hs]
    exact ha

theorem norm_cross_le (a b : V3) : norm (cross a b) ≤ norm a * norm b := by
  refine Real.sqrt_le_iff.2 ⟨mul_nonneg (V3.norm_nonneg _) (V3.norm_nonneg _), ?_⟩
  rw [mul_pow, norm_sq, norm_sq]
  simp only [normSq, dot, cross_x, cross_y, cross_z]
  nlinarith [sq_nonneg (a.x * b.x + a.y * b.y + a.z * b.z)]

/-- The separation after the motion is at least what the velocities promise, up to what the turning of the axes changes. -/
theorem pair_gap (x y x' y' : EP) (hx : Valid x) (hy : Valid y) (b : Collector.Block) (hc : ContactOf x y b) (hsep : Separation x y b.delta0)
    (dt : ℝ) (hdt : 0 ≤ dt) (U W : ℤ → V3) (mx : Moves dt x x' (U x.globalIndex) (W x.globalIndex)) (my : Moves dt y y' (U y.globalIndex) (W y.globalIndex))
    (d : ℝ) (hd : Separation x' y' d) :
    b.delta0 + dt * gapRate U W b - dt * (norm (W x.globalIndex) * arm x + norm (W y.globalIndex) * arm y) ≤ d := by
  obtain ⟨⟨p', q', hp', hq', rfl⟩, -⟩ := hd
  obtain ⟨p, e, hp, rfl, he⟩ := mx.core hdt p' hp'
  obtain ⟨q, f, hq, rfl, hf⟩ := my.core hdt q' hq'
  rw [mx.rad, my.rad]
  have hn1 : norm b.normI ≤ 1 := by
    by_cases h : b.labI = b.labJ
    · rw [hc.unit.2 h, V3.norm_zero]; exact zero_le_one
    · exact (hc.unit.1 h).le
  have hsup := supporting x y b.labI b.labJ b.normI hc.axes.1 hc.axes.2 hc.normals.2 hc.unit.1 (by
    intro p q hp hq
    have := hsep.2 p q hp hq
    rw [hc.gap] at this
    linarith) hc.unit.2 p q hp hq
  have h1 := dot_le_norm b.normI ((p + dt • U x.globalIndex + e) - (q + dt • U y.globalIndex + f)) hn1
  have e1 : dot b.normI ((p + dt • U x.globalIndex + e) - (q + dt • U y.globalIndex + f)) =
      dot b.normI (p - q) + dt * (dot b.normI (U x.globalIndex) - dot b.normI (U y.globalIndex)) + dot b.normI e - dot b.normI f := by
    simp only [dot, sub_x, sub_y, sub_z, add_x, add_y, add_z, smul_x, smul_y, smul_z]; ring
  have he1 := neg_norm_le_dot b.normI e hn1
  have hf1 := dot_le_norm b.normI f hn1
  have hg : gapRate U W b = dot b.normI (U x.globalIndex) - dot b.normI (U y.globalIndex) +
      dot b.normI (cross (W x.globalIndex) b.posI) - dot b.normI (cross (W y.globalIndex) b.posJ) := by
    unfold gapRate
    rw [hc.kind.1, hc.normals.1, hc.gid.2.2.1, hc.gid.2.2.2]
    simp only [dot, add_x, add_y, add_z, neg_x, neg_y, neg_z, Bool.false_eq_true, if_false]; ring
  have hI : dot b.normI (cross (W x.globalIndex) b.posI) ≤ norm (W x.globalIndex) * arm x / 2 := by
    have h2 := core_arm x hx.direction b.labI b.posI hc.axes.1 hc.arms.1
    have h3 := norm_cross_le (W x.globalIndex) b.posI
    have h4 := dot_le_norm b.normI (cross (W x.globalIndex) b.posI) hn1
    have h5 := V3.norm_nonneg (W x.globalIndex)
    nlinarith
  have hJ : -(norm (W y.globalIndex) * arm y / 2) ≤ dot b.normI (cross (W y.globalIndex) b.posJ) := by
    have h2 := core_arm y hy.direction b.labJ b.posJ hc.axes.2 hc.arms.2
    have h3 := norm_cross_le (W y.globalIndex) b.posJ
    have h4 := neg_norm_le_dot b.normI (cross (W y.globalIndex) b.posJ) hn1
    have h5 := V3.norm_nonneg (W y.globalIndex)
    nlinarith
  rw [hg, hc.gap]
  have m1 := mul_le_mul_of_nonneg_left hI hdt
  have m2 := mul_le_mul_of_nonneg_left hJ hdt
  rw [e1] at h1
  nlinarith

/-- Bodies that are not close stay apart if they move less than the buffer. -/
theorem far_gap (x y x' y' : EP) (dt : ℝ) (hdt : 0 ≤ dt) (ux wx uy wy : V3) (mx : Moves dt x x' ux wx) (my : Moves dt y y' uy wy)
    (d₀ : ℝ) (h₀ : ∀ p q, Core x p → Core y q → d₀ ≤ norm (p - q) - (Rad x + Rad y)) (d : ℝ) (hd : Separation x' y' d) :
    d₀ - dt * (norm ux + norm uy + (norm wx * arm x + norm wy * arm y) / 2) ≤ d := by
  obtain ⟨⟨p', q', hp', hq', rfl⟩, -⟩ := hd
  obtain ⟨p, e, hp, rfl, he⟩ := mx.core hdt p' hp'
  obtain ⟨q, f, hq, rfl, hf⟩ := my.core hdt q' hq'
  rw [mx.rad, my.rad]
  have h := h₀ p q hp hq
  have e1 : p - q = ((p + dt • ux + e) - (q + dt • uy + f)) + ((-dt) • ux + (dt • uy + (-e + f))) := by ext <;> simp <;> ring
  have t1 := norm_add_le ((p + dt • ux + e) - (q + dt • uy + f)) ((-dt) • ux + (dt • uy + (-e + f)))
  rw [← e1] at t1
  have t2 := norm_add_le ((-dt) • ux) (dt • uy + (-e + f))
  have t3 := norm_add_le (dt • uy) (-e + f)
  have t4 := norm_add_le (-e) f
  rw [V3.norm_smul, abs_neg, abs_of_nonneg hdt] at t2
  rw [V3.norm_smul, abs_of_nonneg hdt] at t3
  rw [norm_neg] at t4
  nlinarith

end Verif.NoOverlap
