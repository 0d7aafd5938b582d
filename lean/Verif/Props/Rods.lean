import Verif.Props.NoOverlap
import Verif.Props.DCPError
import Verif.Spec.Rods
/-! C32 and C89 for pairs of rods: the distance is exact for pairs that the tolerance does not confuse. -/
namespace Verif
open V3 Spec.DCP RunStep Mobility Collector Near Place Domain Collide Tree Image Spec.Near Spec.NoOverlap NoOverlap Spec.RunStep Spec.Collector

/-- Rods not shorter than `2^-25.5` whose axes are parallel, or of which no perpendicular from one axis meets the other, or two
such perpendiculars differ by at least `2^-25.5`: `DCPQuery` with its tolerance returns the smallest distance of the axes.
Missing for C32: the other pairs, for which it is false (`C32_false`, `C32_error_partial`). -/
theorem C32_rods_partial (I J : EP) (hI : Valid I) (hJ : Valid J) (hsI : ¬ Sphere I) (hsJ : ¬ Sphere J)
    (hlI : 1 / 2 ^ 51 ≤ I.lengthCollision ^ 2) (hlJ : 1 / 2 ^ 51 ≤ J.lengthCollision ^ 2) (h : ClearPair I J) : QueryExact I J := by
  intro r hr p q hp hq
  have unit : ∀ b : EP, Valid b → normSq ((b.pos + (0.5 * b.lengthCollision) • b.direction) - (b.pos - (0.5 * b.lengthCollision) • b.direction))
      = b.lengthCollision ^ 2 := by
    intro b hb
    have h1 : normSq b.direction = 1 := by rw [← norm_sq, hb.direction]; norm_num
    have : normSq ((b.pos + (0.5 * b.lengthCollision) • b.direction) - (b.pos - (0.5 * b.lengthCollision) • b.direction))
      = b.lengthCollision ^ 2 * normSq b.direction := by
      simp only [normSq, V3.dot, sub_x, sub_y, sub_z, smul_x, smul_y, smul_z, add_x, add_y, add_z]; ring
    rw [this, h1, mul_one]
  have hlen : ∀ b : EP, Valid b → 1 / 2 ^ 51 ≤ b.lengthCollision ^ 2 → 0 < b.lengthCollision := by
    intro b hb h
    rcases eq_or_lt_of_le hb.length with h' | h'
    · rw [← h'] at h; norm_num at h
    · exact h'
  have eI := unit I hI
  have eJ := unit J hJ
  have pI := hlen I hI hlI
  have pJ := hlen J hJ hlJ
  have hp' := (segment_core I hsI hI.length p).2 hp
  have hq' := (segment_core J hsJ hJ.length q).2 hq
  have h2 : 2 * DCP.dblEps = 1 / 2 ^ 51 := by unfold DCP.dblEps; norm_num
  have ha := eI.symm ▸ h2.symm ▸ hlI
  have hc := eJ.symm ▸ h2.symm ▸ hlJ
  have dir : ∀ v : V3, V3.dot ((I.pos + (0.5 * I.lengthCollision) • I.direction) - (I.pos - (0.5 * I.lengthCollision) • I.direction)) v
      = I.lengthCollision * V3.dot I.direction v := by
    intro v
    simp only [V3.dot, sub_x, sub_y, sub_z, smul_x, smul_y, smul_z, add_x, add_y, add_z]; ring
  have foot : ∀ q f, Foot (I.pos - (0.5 * I.lengthCollision) • I.direction) (I.pos + (0.5 * I.lengthCollision) • I.direction) q f ↔
      FootOn I q f := by
    intro q f
    unfold Foot FootOn
    rw [segment_core I hsI hI.length, dir, mul_eq_zero, or_iff_right pI.ne']
  rcases h with hpar | hno | ⟨x, y, fx, fy, hx, hy, hfx, hfy, hbig⟩
  · have key : ∃ l : ℝ, J.direction = l • I.direction := by
      rcases hpar with h | h
      · exact ⟨1, by rw [h]; ext <;> simp⟩
      · exact ⟨-1, by rw [h]; ext <;> simp⟩
    obtain ⟨l, hl⟩ := key
    refine C32_parallel_partial DCP.dblEps _ _ _ _ (l * (J.lengthCollision / I.lengthCollision)) ?_ ?_ ?_ ha hc r hr p q hp' hq'
    · rw [hl]; ext <;> simp <;> field_simp <;> ring
    · intro hcon
      have := eI
      rw [hcon, (sub_eq_zero _ _).2 rfl] at this
      simp only [normSq, V3.dot] at this
      have : I.lengthCollision ^ 2 = 0 := by rw [← this]; simp
      exact pI.ne' (pow_eq_zero_iff (two_ne_zero) |>.1 this)
    · intro hcon
      have := eJ
      rw [hcon, (sub_eq_zero _ _).2 rfl] at this
      have : J.lengthCollision ^ 2 = 0 := by rw [← this]; simp [normSq, V3.dot]
      exact pJ.ne' (pow_eq_zero_iff (two_ne_zero) |>.1 this)
  · refine C32_exact_partial DCP.dblEps DCP.dblEps_pos _ _ _ _ ha hc r hr (Or.inl ?_) p q hp' hq'
    intro x f hx hf
    exact hno x f ((segment_core J hsJ hJ.length x).1 hx) ((foot x f).1 hf)
  · refine C32_exact_partial DCP.dblEps DCP.dblEps_pos _ _ _ _ ha hc r hr
      (Or.inr ⟨x, y, fx, fy, (segment_core J hsJ hJ.length x).2 hx, (segment_core J hsJ hJ.length y).2 hy, (foot x fx).2 hfx, (foot y fy).2 hfy, ?_⟩)
      p q hp' hq'
    rw [eJ, h2]
    refine le_trans (le_of_eq ?_) hbig
    ring

/-- C89 for rods, without an assumption about `DCPQuery`: a body `x` and an image `y` with a larger id, of which at most one is
a rod, or both are rods not shorter than `2^-25.5` that form a `ClearPair`.  Missing for C89: the other pairs of rods, for which
`C32_false` applies; spheres that the search misses (`C40_false`); monolayers with Brownian motion (`C88_false_monolayer`). -/
theorem C89_rods_partial (c : Place.Cfg) (pbc : Fin 3 → Bool) (low high : Fin 3 → ℝ) (h : Sound c pbc low high) (dom : ℕ → Box)
    (hd : Tiles c.root c.g.n dom) (S : ℕ → List Sylinder) (hS : ∀ r < c.g.n, ∀ x ∈ S r, Box.MemHalf x.pos (dom r)) (hv : ∀ r < c.g.n, ∀ x ∈ S r, Body x)
    (F : Force.Config) (hF : Limits F c S) (X : ℕ → Force.RankExec EP) (hX : ∀ r < c.g.n, (X r).Valid F ((S r).map toEp)) :
    ∃ N, ∀ fuel, N ≤ fuel → ∀ (cfg : Mobility.Cfg) (ctl : ConOp.Control) (fl : ℝ → ℝ) (ranks : List RankIn) (out : Out) (last : BCQP.Hist) (U W : ℤ → V3),
      C89_Step c dom S F X fuel cfg ctl fl ranks out last U W →
      ∀ (r i : ℕ) (o : ℕ × ℕ × Idx) (x : Sylinder) (y : EP), r < c.g.n → (S r)[i]? = some x → imageAt c S o = some y → IsImage c o → x.gid < y.gid →
      (¬ Sphere (EP.copyFromFP x) ∧ ¬ Sphere y →
        1 / 2 ^ 51 ≤ x.lengthCollision ^ 2 ∧ 1 / 2 ^ 51 ≤ y.lengthCollision ^ 2 ∧ ClearPair (EP.copyFromFP x) y) →
      ∃ x' y', (C89_after out r)[i]? = some x' ∧ imageAt c (C89_after out) o = some y' ∧ Spec.Mobility.SameBody x' x ∧
        (Close (EP.copyFromFP x) y → ∀ d, Separation (EP.copyFromFP x') y' d →
          -(cfg.dt * (last.res + (W x.globalIndex).norm * arm (EP.copyFromFP x) + (W y.globalIndex).norm * arm y)) ≤ d) ∧
        (¬ Close (EP.copyFromFP x) y → ∀ d, Separation (EP.copyFromFP x') y' d →
          bufferOf (EP.copyFromFP x) y - cfg.dt * ((U x.globalIndex).norm + (U y.globalIndex).norm +
            ((W x.globalIndex).norm * arm (EP.copyFromFP x) + (W y.globalIndex).norm * arm y) / 2) ≤ d) := by
  obtain ⟨N, hN⟩ := C89_no_overlap_partial c pbc low high h dom hd S hS hv F hF X hX
  refine ⟨N, ?_⟩
  intro fuel hfuel cfg ctl fl ranks out last U W hst r i o x y hr hx hy ho hg hq
  have hvx := (hv r hr x (List.mem_of_getElem? hx)).valid
  have hvy : Valid y := by
    obtain ⟨z, hz, rfl⟩ := Option.map_eq_some_iff.1 hy
    have := (hv o.1 ho.1 z (List.mem_of_getElem? hz)).valid
    exact ⟨this.radius, this.length, this.direction⟩
  obtain ⟨x', y', h1, h2, h3, -, h5, h6⟩ := hN fuel hfuel cfg ctl fl ranks out last U W hst r i o x y hr hx hy ho hg (fun hs => by
    obtain ⟨l1, l2, l3⟩ := hq hs
    exact C32_rods_partial _ _ hvx hvy hs.1 hs.2 l1 l2 l3)
  exact ⟨x', y', h1, h2, h3, h5, h6⟩

/-- Two rods of length 4 and radius 1 that cross at a right angle at distance 2.5. -/
example : ∃ I J : EP, Valid I ∧ Valid J ∧ ¬ Sphere I ∧ ¬ Sphere J ∧ 1 / 2 ^ 51 ≤ I.lengthCollision ^ 2 ∧ 1 / 2 ^ 51 ≤ J.lengthCollision ^ 2 ∧
    ClearPair I J ∧ QueryExact I J := by
  have n1 : norm (⟨0, 0, 1⟩ : V3) = 1 := by rw [V3.norm, show V3.normSq ⟨0, 0, 1⟩ = 1 by simp [normSq, V3.dot], Real.sqrt_one]
  have n2 : norm (⟨1, 0, 0⟩ : V3) = 1 := by rw [V3.norm, show V3.normSq ⟨1, 0, 0⟩ = 1 by simp [normSq, V3.dot], Real.sqrt_one]
  obtain ⟨I, hI⟩ : ∃ I : EP, I = ⟨0, 0, 0, 1, 4, 1, 4, 1 / 5, ⟨0, 0, 0⟩, ⟨0, 0, 1⟩⟩ := ⟨_, rfl⟩
  obtain ⟨J, hJ⟩ : ∃ J : EP, J = ⟨1, 1, 0, 1, 4, 1, 4, 1 / 5, ⟨0, 5 / 2, 0⟩, ⟨1, 0, 0⟩⟩ := ⟨_, rfl⟩
  have vI : Valid I := by rw [hI]; exact ⟨by norm_num, by norm_num, n1⟩
  have vJ : Valid J := by rw [hJ]; exact ⟨by norm_num, by norm_num, n2⟩
  have sI : ¬ Sphere I := by rw [hI]; norm_num [Sphere]
  have sJ : ¬ Sphere J := by rw [hJ]; norm_num [Sphere]
  have lI : 1 / 2 ^ 51 ≤ I.lengthCollision ^ 2 := by rw [hI]; norm_num
  have lJ : 1 / 2 ^ 51 ≤ J.lengthCollision ^ 2 := by rw [hJ]; norm_num
  have hc : ClearPair I J := by
    refine Or.inr (Or.inr ⟨⟨2, 5 / 2, 0⟩, ⟨-2, 5 / 2, 0⟩, ⟨0, 0, 0⟩, ⟨0, 0, 0⟩, Or.inr ⟨sJ, 2, ?_, ?_⟩, Or.inr ⟨sJ, -2, ?_, ?_⟩,
      ⟨Or.inr ⟨sI, 0, ?_, ?_⟩, ?_⟩, ⟨Or.inr ⟨sI, 0, ?_, ?_⟩, ?_⟩, ?_⟩)
    all_goals first | rw [hI] | skip
    all_goals first | rw [hJ] | skip
    all_goals first | (ext <;> norm_num; done) | (norm_num [abs_of_nonneg, abs_of_neg, V3.dot, normSq]; done) | skip
  exact ⟨I, J, vI, vJ, sI, sJ, lI, lJ, hc, C32_rods_partial I J vI vJ sI sJ lI lJ hc⟩

end Verif
