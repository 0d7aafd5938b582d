import Verif.Lemmas.BoundaryCol
import Verif.Lemmas.NoOverlap
import Verif.Spec.NoCross
/-! Signed distances from boundaries to first order, and bodies at boundaries that move. -/
namespace Verif.NoCross
open Verif.V3 Verif.Boundary Verif.BoundaryCol Verif.Collector Verif.Spec.BoundaryCol Verif.Spec.NoCross Verif.NoOverlap

theorem norm_taylor (q D : V3) (hq : 0 < V3.norm q) :
    V3.norm q + dot q D / V3.norm q ≤ V3.norm (q + D) ∧
    V3.norm (q + D) ≤ V3.norm q + dot q D / V3.norm q + normSq D / (2 * V3.norm q) := by
  obtain ⟨a, ha⟩ : ∃ a, a = V3.norm q := ⟨_, rfl⟩
  have hsq : normSq q = a ^ 2 := by rw [ha, norm_sq]
  obtain ⟨s, hs⟩ : ∃ s, s = dot q D / V3.norm q := ⟨_, rfl⟩
  rw [← ha] at hq hs
  have hqd : dot q D = a * s := by rw [hs]; field_simp
  have hexp : normSq (q + D) = a ^ 2 + 2 * (a * s) + normSq D := by
    rw [← hsq, ← hqd]; simp only [normSq, dot, add_x, add_y, add_z]; ring
  have hcs : s ^ 2 ≤ normSq D := by
    have h1 := dot_le_norm_mul q D
    have h3 := dot_le_norm_mul q (-D)
    rw [V3.norm_neg, show dot q (-D) = -dot q D by simp only [dot, neg_x, neg_y, neg_z]; ring, hqd, ← ha] at h3
    rw [hqd, ← ha] at h1
    have h2 : |s| ≤ V3.norm D := abs_le.2 ⟨by nlinarith, by nlinarith⟩
    rw [← norm_sq, ← sq_abs s]
    exact pow_le_pow_left₀ (abs_nonneg _) h2 2
  rw [← ha, ← hs]
  constructor
  · apply Real.le_sqrt_of_sq_le
    rw [hexp]
    nlinarith
  · refine Real.sqrt_le_iff.2 ⟨?_, ?_⟩
    · have h1 : 0 ≤ normSq D / (2 * a) - s ^ 2 / (2 * a) := by
        rw [← sub_div]; exact div_nonneg (by linarith) (by linarith)
      have h2 : a + s + s ^ 2 / (2 * a) = ((a + s) ^ 2 + a ^ 2) / (2 * a) := by field_simp; ring
      have h3 : 0 ≤ ((a + s) ^ 2 + a ^ 2) / (2 * a) := by positivity
      linarith
    · rw [hexp]
      have h1 : normSq D / (2 * a) * (2 * a) = normSq D := by field_simp
      generalize normSq D / (2 * a) = w at *
      rw [← h1]
      nlinarith [sq_nonneg (s + w)]

/-- A unit vector with the right component along another is that vector. -/
theorem unit_unique (n e : V3) (hn : V3.norm n = 1) (he : V3.norm e = 1) (h : dot n e = 1) : n = e := by
  have h1 : normSq (n - e) = 0 := by
    have e1 : normSq (n - e) = normSq n - 2 * dot n e + normSq e := by simp only [normSq, dot, sub_x, sub_y, sub_z]; ring
    rw [e1, ← norm_sq, ← norm_sq, hn, he, h]; norm_num
  have h2 := (normSq_eq_zero _).1 h1
  have hx := congrArg V3.x h2
  have hy := congrArg V3.y h2
  have hz := congrArg V3.z h2
  simp at hx hy hz
  ext <;> linarith

/-- The vector from the nearest point of a circle or sphere is radial. -/
theorem radial (q m n : V3) (σ ρ s : ℝ) (hσ : σ ^ 2 = 1) (hm : V3.norm m = ρ) (hs : s = σ * (V3.norm q - ρ)) (hs0 : s ≠ 0) (h : q - m = s • n)
    (hn : V3.norm n = 1) (hq : 0 < V3.norm q) (D : V3) : dot n D = σ * (dot q D / V3.norm q) := by
  obtain ⟨a, ha⟩ : ∃ a, a = V3.norm q := ⟨_, rfl⟩
  have hsq : normSq q = a ^ 2 := by rw [ha, norm_sq]
  have hmq : normSq m = ρ ^ 2 := by rw [← hm, norm_sq]
  have hnq : normSq n = 1 := by rw [← norm_sq, hn]; norm_num
  rw [← ha] at hs hq ⊢
  have h1 : normSq (q - m) = s ^ 2 := by
    rw [h]
    have : normSq (s • n) = s ^ 2 * normSq n := by simp only [normSq, dot, smul_x, smul_y, smul_z]; ring
    rw [this, hnq, mul_one]
  have h2 : normSq (q - m) = normSq q - 2 * dot q m + normSq m := by simp only [normSq, dot, sub_x, sub_y, sub_z]; ring
  rw [h1, hsq, hmq, hs, mul_pow, hσ] at h2
  have h3 : dot q m = ρ * a := by nlinarith
  have h4 : s * dot n q = a * (a - ρ) := by
    have e1 : s * dot n q = dot (s • n) q := by simp only [dot, smul_x, smul_y, smul_z]; ring
    have e2 : dot (q - m) q = normSq q - dot q m := by simp only [normSq, dot, sub_x, sub_y, sub_z]; ring
    rw [e1, ← h, e2, hsq, h3]; ring
  have h5 : dot n q = σ * a := by
    have : s * dot n q = s * (σ * a) := by rw [h4, hs]; linear_combination (-(a * (a - ρ))) * hσ
    exact mul_left_cancel₀ hs0 this
  have he : V3.norm ((σ / a) • q) = 1 := by
    rw [V3.norm_smul, ← ha, abs_div, abs_of_pos hq]
    have : |σ| = 1 := by rw [← abs_one, ← sq_eq_sq_iff_abs_eq_abs, hσ]; norm_num
    rw [this]; field_simp
  have h6 := unit_unique n ((σ / a) • q) hn he (by
    have : dot n ((σ / a) • q) = σ / a * dot n q := by simp only [dot, smul_x, smul_y, smul_z]; ring
    rw [this, h5]; field_simp; exact hσ)
  rw [h6]
  simp only [dot, smul_x, smul_y, smul_z]; field_simp

/-- The component of a vector perpendicular to a direction. -/
noncomputable def perp (a v : V3) : V3 := v - (dot v a) • a

theorem perp_add (a v w : V3) : perp a (v + w) = perp a v + perp a w := by
  unfold perp; ext <;> simp [dot] <;> ring

theorem perp_dot (a v w : V3) (ha : dot a a = 1) : dot (perp a v) (perp a w) = dot (perp a v) w := by
  unfold perp
  simp only [dot, sub_x, sub_y, sub_z, smul_x, smul_y, smul_z] at ha ⊢
  linear_combination (w.x * a.x + w.y * a.y + w.z * a.z) * (v.x * a.x + v.y * a.y + v.z * a.z) * ha

theorem perp_normSq (a v : V3) (ha : dot a a = 1) : normSq v = normSq (perp a v) + dot v a ^ 2 := by
  unfold perp
  simp only [normSq, dot, sub_x, sub_y, sub_z, smul_x, smul_y, smul_z] at ha ⊢
  linear_combination (-(v.x * a.x + v.y * a.y + v.z * a.z) ^ 2) * ha

/-- The signed distance to first order, with the curvature as bound of the rest. -/
theorem sd_taylor (b : Bound) (hb : ValidBound b) (p P n : V3) (hs : ¬ Singular b p) (h0 : sd b p ≠ 0) (hn : V3.norm n = 1) (hP : sd b P = 0)
    (h : p - P = sd b p • n) (D : V3) : sd b p + dot n D - curv b p / 2 * V3.norm D ^ 2 ≤ sd b (p + D) := by
  cases b with
  | wall b =>
    have hw : V3.norm b.norm = 1 := hb
    have h1 : sd (.wall b) p * dot n b.norm = sd (.wall b) p * 1 := by
      have e1 : sd (.wall b) p * dot n b.norm = dot (sd (.wall b) p • n) b.norm := by simp only [dot, smul_x, smul_y, smul_z]; ring
      rw [e1, ← h]
      have e2 : dot (p - P) b.norm = sd (.wall b) p - sd (.wall b) P := by simp only [sd, dot, sub_x, sub_y, sub_z]; ring
      rw [e2, hP]; ring
    have h2 := unit_unique n b.norm hn hw (mul_left_cancel₀ h0 h1)
    rw [h2]
    apply le_of_eq
    simp only [sd, curv, dot, sub_x, sub_y, sub_z, add_x, add_y, add_z]; ring
  | sphere b =>
    have hq : 0 < V3.norm (p - b.center) := by
      rcases eq_or_lt_of_le (V3.norm_nonneg (p - b.center)) with hh | hh
      · refine absurd ?_ hs
        have h2 := (V3.norm_eq_zero _).1 hh.symm
        have hx := congrArg V3.x h2
        have hy := congrArg V3.y h2
        have hz := congrArg V3.z h2
        simp at hx hy hz
        show p = b.center
        ext <;> linarith
      · exact hh
    have hm : V3.norm (P - b.center) = b.radius := by
      simp only [sd] at hP
      split at hP <;> linarith
    have hpP : (p - b.center) - (P - b.center) = sd (.sphere b) p • n := by rw [← h]; ext <;> simp
    have hr := fun σ hσ hsd => radial (p - b.center) (P - b.center) n σ b.radius (sd (.sphere b) p) hσ hm hsd h0 hpP hn hq D
    obtain ⟨t1, t2⟩ := norm_taylor (p - b.center) D hq
    have e1 : p + D - b.center = p - b.center + D := by ext <;> simp <;> ring
    by_cases hin : b.inside = true
    · have hr := hr (-1) (by norm_num) (by simp only [sd, hin, if_true]; ring)
      rw [hr]
      simp only [sd, curv, hin, if_true, e1]
      rw [norm_sq]
      have e2 : 1 / V3.norm (p - b.center) / 2 * normSq D = normSq D / (2 * V3.norm (p - b.center)) := by field_simp
      rw [e2]; linarith
    · have hr := hr 1 (by norm_num) (by simp only [sd, hin, if_false]; simp)
      rw [hr]
      simp only [sd, curv, hin, if_false, e1]
      simp only [Bool.false_eq_true, if_false]
      linarith
  | tube b =>
    obtain ⟨hrad, ha⟩ := hb
    have haa := normSq_one_of_norm _ ha
    have hax : ∀ v, axisDist b.center b.axis v = V3.norm (perp b.axis (v - b.center)) := fun v => rfl
    have hq : 0 < V3.norm (perp b.axis (p - b.center)) :=
      lt_of_le_of_ne (V3.norm_nonneg _) (fun hh => hs (by show axisDist _ _ _ = 0; rw [hax]; exact hh.symm))
    have hm : V3.norm (perp b.axis (P - b.center)) = b.radius := by
      simp only [sd, hax] at hP
      split at hP <;> linarith
    have hsd : sd (.tube b) p ^ 2 = (V3.norm (perp b.axis (p - b.center)) - b.radius) ^ 2 := by
      simp only [sd, hax]
      split <;> ring
    have hd0 : dot (p - P) b.axis = 0 := by
      have h1 := perp_normSq b.axis (p - P) haa
      have h2 : normSq (p - P) = sd (.tube b) p ^ 2 := by
        rw [← norm_sq, h, V3.norm_smul, hn, mul_one, sq_abs]
      have h3 : perp b.axis (p - P) = perp b.axis (p - b.center) - perp b.axis (P - b.center) := by
        unfold perp; ext <;> simp [dot] <;> ring
      have h4 := abs_norm_sub_le (perp b.axis (p - b.center)) (perp b.axis (P - b.center))
      rw [← h3, hm] at h4
      have h5 : (V3.norm (perp b.axis (p - b.center)) - b.radius) ^ 2 ≤ normSq (perp b.axis (p - P)) := by
        rw [← norm_sq, ← sq_abs]; exact pow_le_pow_left₀ (abs_nonneg _) h4 2
      have h6 : dot (p - P) b.axis ^ 2 ≤ 0 := by rw [h2, hsd] at h1; linarith
      exact pow_eq_zero_iff (two_ne_zero) |>.1 (le_antisymm h6 (sq_nonneg _))
    have hpP : perp b.axis (p - b.center) - perp b.axis (P - b.center) = sd (.tube b) p • n := by
      rw [← h]
      have : perp b.axis (p - b.center) - perp b.axis (P - b.center) = (p - P) - (dot (p - P) b.axis) • b.axis := by
        unfold perp; ext <;> simp [dot] <;> ring
      rw [this, hd0]; ext <;> simp
    have hr := fun σ hσ hsd => radial (perp b.axis (p - b.center)) (perp b.axis (P - b.center)) n σ b.radius (sd (.tube b) p) hσ hm hsd h0 hpP hn hq D
    obtain ⟨t1, t2⟩ := norm_taylor (perp b.axis (p - b.center)) (perp b.axis D) hq
    rw [perp_dot _ _ _ haa] at t1 t2
    have e1 : perp b.axis (p - b.center) + perp b.axis D = perp b.axis (p + D - b.center) := by
      rw [← perp_add]; congr 1; ext <;> simp <;> ring
    rw [e1] at t1 t2
    by_cases hin : b.inside = true
    · have hr := hr (-1) (by norm_num) (by simp only [sd, hin, if_true, hax]; ring)
      rw [hr]
      simp only [sd, curv, hin, if_true, hax]
      rw [norm_sq]
      have e2 : 1 / V3.norm (perp b.axis (p - b.center)) / 2 * normSq D = normSq D / (2 * V3.norm (perp b.axis (p - b.center))) := by field_simp
      rw [e2]
      have h7 := perp_normSq b.axis D haa
      have h8 : normSq (perp b.axis D) / (2 * V3.norm (perp b.axis (p - b.center))) ≤ normSq D / (2 * V3.norm (perp b.axis (p - b.center))) := by
        apply div_le_div_of_nonneg_right _ (by linarith)
        nlinarith [sq_nonneg (dot D b.axis)]
      linarith
    · have hr := hr 1 (by norm_num) (by simp only [sd, hin, if_false, hax]; simp)
      rw [hr]
      simp only [sd, curv, hin, if_false, hax]
      simp only [Bool.false_eq_true, if_false]
      linarith

/-- Where the ends of a body that moved come from. -/
theorem moved_end {dt : ℝ} {x x' : Sylinder} {u w : V3} (hl : 0 ≤ x.lengthCollision) (h : Moves dt (Near.EP.copyFromFP x) (Near.EP.copyFromFP x') u w) (hdt : 0 ≤ dt)
    (p' : V3) (hp : End x' p') :
    ∃ p e, End x p ∧ p' = p + dt • u + e ∧ V3.norm e ≤ dt * (V3.norm w * Spec.NoOverlap.arm (Near.EP.copyFromFP x)) / 2 := by
  have hsph : Sphere x' ↔ Sphere x := h.sphere
  have hlen : x'.lengthCollision = x.lengthCollision := h.size.2
  have hpos : x'.pos = x.pos + dt • u := h.pos
  have hturn : V3.norm (x'.direction - x.direction) ≤ dt * V3.norm w := h.turn
  have hrod : ¬ Sphere x → ∀ σ : ℝ, |σ| = 1 → V3.norm ((σ * (x.lengthCollision / 2)) • (x'.direction - x.direction)) ≤
      dt * (V3.norm w * Spec.NoOverlap.arm (Near.EP.copyFromFP x)) / 2 := by
    intro hs σ hσ
    have harm : Spec.NoOverlap.arm (Near.EP.copyFromFP x) = x.lengthCollision := if_neg hs
    rw [V3.norm_smul, harm, abs_mul, hσ, one_mul, abs_of_nonneg (by linarith)]
    nlinarith
  rcases hp with ⟨hs, rfl⟩ | ⟨hs, rfl | rfl⟩
  · have hs := hsph.1 hs
    refine ⟨x.pos, 0, Or.inl ⟨hs, rfl⟩, by rw [hpos]; ext <;> simp, ?_⟩
    have harm : Spec.NoOverlap.arm (Near.EP.copyFromFP x) = 0 := if_pos hs
    rw [V3.norm_zero, harm]; simp
  · have hs : ¬ Sphere x := fun hh => hs (hsph.2 hh)
    refine ⟨_, _, Or.inr ⟨hs, Or.inl rfl⟩, ?_, hrod hs (-1) (by norm_num)⟩
    rw [hpos, hlen]; ext <;> simp <;> ring
  · have hs : ¬ Sphere x := fun hh => hs (hsph.2 hh)
    refine ⟨_, _, Or.inr ⟨hs, Or.inr rfl⟩, ?_, hrod hs 1 (by norm_num)⟩
    rw [hpos, hlen]; ext <;> simp <;> ring

/-- An end with a constraint that the solver satisfied. -/
theorem end_gap (b : Bound) (hb : ValidBound b) (x : Sylinder) (hl : 0 ≤ x.lengthCollision) (hd : V3.norm x.direction = 1) (p : V3) (hp : End x p)
    (hs : ¬ Singular b p) (h0 : sd b p ≠ 0) (blk : Block) (hg : Good b x p blk) (dt : ℝ) (hdt : 0 ≤ dt) (res : ℝ) (U W : ℤ → V3)
    (hsol : -(dt * res) ≤ blk.delta0 + dt * Spec.Collector.gapRate U W blk) (e : V3)
    (he : V3.norm e ≤ dt * (V3.norm (W x.globalIndex) * Spec.NoOverlap.arm (Near.EP.copyFromFP x)) / 2) :
    -(dt * (res + V3.norm (W x.globalIndex) * Spec.NoOverlap.arm (Near.EP.copyFromFP x))) - curv b p / 2 *
      (dt * (V3.norm (U x.globalIndex) + V3.norm (W x.globalIndex) * Spec.NoOverlap.arm (Near.EP.copyFromFP x) / 2)) ^ 2 ≤
      sd b (p + dt • U x.globalIndex + e) - Rad x := by
  have ht := sd_taylor b hb p blk.labJ blk.normI hs h0 hg.unit hg.surface hg.normal (dt • U x.globalIndex + e)
  have e1 : p + (dt • U x.globalIndex + e) = p + dt • U x.globalIndex + e := by ext <;> simp <;> ring
  rw [e1] at ht
  have hrate : Spec.Collector.gapRate U W blk = dot blk.normI (U x.globalIndex) + dot blk.normI (V3.cross (W x.globalIndex) blk.posI) := by
    unfold Spec.Collector.gapRate
    rw [hg.oneSide, hg.gid.2.2.1]
    simp only [dot, add_x, add_y, add_z, if_true]; ring
  have harm := core_arm (Near.EP.copyFromFP x) hd p blk.posI (end_core x hl p hp) hg.lab.2
  have hw := V3.norm_nonneg (W x.globalIndex)
  have h1 : dot blk.normI (V3.cross (W x.globalIndex) blk.posI) ≤ V3.norm (W x.globalIndex) * Spec.NoOverlap.arm (Near.EP.copyFromFP x) / 2 := by
    have h2 := norm_cross_le (W x.globalIndex) blk.posI
    have h3 := dot_le_norm blk.normI (V3.cross (W x.globalIndex) blk.posI) hg.unit.le
    nlinarith
  have h2 := neg_norm_le_dot blk.normI e hg.unit.le
  have h3 : dot blk.normI (dt • U x.globalIndex + e) = dt * dot blk.normI (U x.globalIndex) + dot blk.normI e := by
    simp only [dot, add_x, add_y, add_z, smul_x, smul_y, smul_z]; ring
  have hD : V3.norm (dt • U x.globalIndex + e) ≤ dt * (V3.norm (U x.globalIndex) + V3.norm (W x.globalIndex) * Spec.NoOverlap.arm (Near.EP.copyFromFP x) / 2) := by
    have h4 := V3.norm_add_le (dt • U x.globalIndex) e
    rw [V3.norm_smul, abs_of_nonneg hdt] at h4
    nlinarith
  have hcurv : 0 ≤ curv b p := by
    cases b with
    | sphere b => simp only [curv]; split
                  · exact div_nonneg zero_le_one (V3.norm_nonneg _)
                  · exact le_rfl
    | wall b => exact le_rfl
    | tube b => simp only [curv]; split
                · exact div_nonneg zero_le_one (V3.norm_nonneg _)
                · exact le_rfl
  have hD2 := pow_le_pow_left₀ (V3.norm_nonneg _) hD 2
  have hD3 := mul_le_mul_of_nonneg_left hD2 (by linarith : 0 ≤ curv b p / 2)
  rw [hg.value, hrate] at hsol
  rw [h3] at ht
  have m1 := mul_le_mul_of_nonneg_left h1 hdt
  nlinarith

/-- What the collection over the boundaries leaves in the pool. -/
theorem overBodies_mem (b : Bound) (colBuf : ℝ) (sched : List (ℕ × Sylinder)) (pool pool' : Pool) (h : overBodies b colBuf pool sched = some pool') :
    (∀ blk ∈ pool.flatten, blk ∈ pool'.flatten) ∧ ∀ y ∈ sched, ∃ l, bodyBlocks b colBuf y.2 = some l ∧ ∀ blk ∈ l, blk ∈ pool'.flatten := by
  induction sched generalizing pool with
  | nil =>
    cases h
    exact ⟨fun _ h => h, fun y hy => by cases hy⟩
  | cons y rest ih =>
    obtain ⟨th, sy⟩ := y
    unfold overBodies at h
    split at h
    · cases h
    · rename_i que hq
      obtain ⟨l, hl, h⟩ := Option.bind_eq_some_iff.1 h
      obtain ⟨h1, h2⟩ := ih _ h
      have hperm := flatten_set_perm pool th _ l hq
      refine ⟨fun blk hb => h1 _ (hperm.mem_iff.2 (List.mem_append_left _ hb)), ?_⟩
      intro y hy
      rcases List.mem_cons.1 hy with rfl | hy
      · exact ⟨l, hl, fun blk hb => h1 _ (hperm.mem_iff.2 (List.mem_append_right _ hb))⟩
      · exact h2 y hy

theorem collect_mem (colBuf : ℝ) (bs : List (Bound × List (ℕ × Sylinder))) (pool pool' : Pool) (h : collectBoundaryCollision colBuf pool bs = some pool') :
    (∀ blk ∈ pool.flatten, blk ∈ pool'.flatten) ∧
    ∀ x ∈ bs, ∀ y ∈ x.2, ∃ l, bodyBlocks x.1 colBuf y.2 = some l ∧ ∀ blk ∈ l, blk ∈ pool'.flatten := by
  induction bs generalizing pool with
  | nil =>
    cases h
    exact ⟨fun _ h => h, fun y hy => by cases hy⟩
  | cons x rest ih =>
    obtain ⟨b, sched⟩ := x
    unfold collectBoundaryCollision at h
    obtain ⟨p1, h1, h⟩ := Option.bind_eq_some_iff.1 h
    obtain ⟨k1, k2⟩ := overBodies_mem b colBuf sched pool p1 h1
    obtain ⟨k3, k4⟩ := ih _ h
    refine ⟨fun blk hb => k3 _ (k1 _ hb), ?_⟩
    intro x hx y hy
    rcases List.mem_cons.1 hx with rfl | hx
    · obtain ⟨l, hl, hm⟩ := k2 y hy
      exact ⟨l, hl, fun blk hb => k3 _ (hm _ hb)⟩
    · exact k4 x hx y hy

theorem unit_direction (q : Quat) (hq : Spec.UnitQuat q) : V3.norm (q.rot ⟨0, 0, 1⟩) = 1 := by
  have h : q.w ^ 2 + q.x ^ 2 + q.y ^ 2 + q.z ^ 2 = 1 := hq
  have : normSq (q.rot ⟨0, 0, 1⟩) = 1 := by
    simp [Quat.rot, Quat.vec, normSq, dot, V3.cross]
    linear_combination 4 * (q.x ^ 2 + q.y ^ 2) * h
  rw [V3.norm, this, Real.sqrt_one]

end Verif.NoCross
