import Verif.Spec.BoundaryCol
import Verif.Props.Near
import Verif.Props.Boundary
namespace Verif.BoundaryCol
open Verif.V3 Verif.Boundary Verif.Collector Verif.Spec.BoundaryCol

/-- Away from the singular points `project` gives a point of the boundary and the direction to the allowed side. -/
theorem project_regular (b : Bound) (hb : ValidBound b) (q : V3) (hq : ¬ Singular b q) :
    ∃ P u, V3.norm u = 1 ∧ b.project q = some (P, |sd b q| • u) ∧ q - P = sd b q • u ∧ sd b P = 0 := by
  cases b with
  | sphere b =>
    obtain ⟨u, hu, hv⟩ := polar (q - b.center) (fun h => hq ((V3.sub_eq_zero _ _).1 h))
    have hR : 0 < V3.norm (q - b.center) := norm_pos _ (fun h => hq ((V3.sub_eq_zero _ _).1 h))
    have hr : 0 < b.radius := hb
    set R := V3.norm (q - b.center) with hRd
    have hp := sphere_project_eq b q u hu R hR hv
    have hqp : q - (b.center + b.radius • u) = (R - b.radius) • u := by
      have hx := congrArg V3.x hv; have hy := congrArg V3.y hv; have hz := congrArg V3.z hv
      simp at hx hy hz
      ext <;> simp <;> linarith
    have hP : V3.norm (b.center + b.radius • u - b.center) = b.radius := by
      have e : b.center + b.radius • u - b.center = b.radius • u := by ext <;> simp
      rw [e, V3.norm_smul, hu, abs_of_pos hr, mul_one]
    cases hin : b.inside with
    | true =>
      refine ⟨b.center + b.radius • u, -u, by rw [V3.norm_neg, hu], ?_, ?_, ?_⟩
      · simp only [Bound.project, hp, sd, hin, if_true, ← hRd]
        rw [abs_sub_comm]
        congr 2
        ext <;> simp
      · rw [hqp]; simp only [sd, hin, if_true, ← hRd]; ext <;> simp <;> ring
      · simp only [sd, hin, if_true, hP, sub_self]
    | false =>
      refine ⟨b.center + b.radius • u, u, hu, ?_, ?_, ?_⟩
      · simp [Bound.project, hp, sd, hin, ← hRd]
      · rw [hqp]; simp only [sd, hin, ← hRd]; rfl
      · simp [sd, hin, hP]
  | wall b =>
    have hn : V3.norm b.norm = 1 := hb
    have hd := normSq_one_of_norm _ hn
    have hqp : q - (q - (dot (q - b.center) b.norm) • b.norm) = (dot (q - b.center) b.norm) • b.norm := by ext <;> simp
    refine ⟨q - (dot (q - b.center) b.norm) • b.norm, b.norm, hn, ?_, hqp, ?_⟩
    · simp only [Bound.project, Wall.project, sd, hqp]
      congr 2
      split
      · rename_i h; rw [abs_of_neg h]; ext <;> simp
      · rename_i h; rw [abs_of_nonneg (not_lt.1 h)]
    · simp only [sd]
      have : dot (q - (dot (q - b.center) b.norm) • b.norm - b.center) b.norm =
          dot (q - b.center) b.norm * (1 - dot b.norm b.norm) := by
        simp only [dot, sub_x, sub_y, sub_z, smul_x, smul_y, smul_z]; ring
      rw [this, hd]; ring
  | tube b =>
    obtain ⟨hr, ha⟩ := hb
    have hd := normSq_one_of_norm _ ha
    set t := dot (q - b.center) b.axis with ht
    set f := b.center + t • b.axis with hf
    have hqf : q - f = (q - b.center) - t • b.axis := by rw [hf]; ext <;> simp <;> ring
    have hR0 : axisDist b.center b.axis q = V3.norm (q - f) := by rw [hqf]; rfl
    have hw : q - f ≠ 0 := by
      intro h
      apply hq
      show axisDist b.center b.axis q = 0
      rw [hR0, h, V3.norm_zero]
    obtain ⟨w, hw1, hwv⟩ := polar (q - f) hw
    set R := V3.norm (q - f) with hR
    have hRp : 0 < R := norm_pos _ hw
    have hwu : dot w b.axis = 0 := by
      have h1 : dot (q - f) b.axis = t * (1 - dot b.axis b.axis) := by
        rw [hf, ht]; simp only [dot, sub_x, sub_y, sub_z, add_x, add_y, add_z, smul_x, smul_y, smul_z]; ring
      rw [hd, hwv] at h1
      have h2 : dot (R • w) b.axis = R * dot w b.axis := by simp only [dot, smul_x, smul_y, smul_z]; ring
      rw [h2] at h1
      rcases mul_eq_zero.1 (show R * dot w b.axis = 0 by rw [h1]; ring) with h | h
      · exact absurd h hRp.ne'
      · exact h
    have hnorm : normalized (q - f) = w := by
      rw [hwv, normalized_smul_pos R hRp, normalized_eq w (by rintro rfl; rw [V3.norm_zero] at hw1; norm_num at hw1), hw1]
      ext <;> simp
    have hqp : q - (f + b.radius • w) = (R - b.radius) • w := by
      have hx := congrArg V3.x hwv; have hy := congrArg V3.y hwv; have hz := congrArg V3.z hwv
      simp at hx hy hz
      ext <;> simp <;> linarith
    have h1 : (b.project q).1 = f + b.radius • w := by
      have : (b.project q).1 = f + b.radius • normalized (q - f) := rfl
      rw [this, hnorm]
    have h2 : (b.project q).2 = (if b.inside then -|R - b.radius| else |R - b.radius|) • w := by
      have : (b.project q).2 = if R > b.radius then (if b.inside then -(q - (b.project q).1) else q - (b.project q).1)
        else (if !b.inside then -(q - (b.project q).1) else q - (b.project q).1) := rfl
      rw [this, h1, hqp]
      by_cases ho : R > b.radius
      · rw [if_pos ho, abs_of_pos (by linarith)]
        cases b.inside <;> simp <;> ext <;> simp <;> ring
      · rw [if_neg ho, abs_of_nonpos (by linarith)]
        cases b.inside <;> simp <;> ext <;> simp <;> ring
    have hP : axisDist b.center b.axis (f + b.radius • w) = b.radius := by
      have e1 : dot (f + b.radius • w - b.center) b.axis = t * dot b.axis b.axis + b.radius * dot w b.axis := by
        rw [hf]; simp only [dot, sub_x, sub_y, sub_z, add_x, add_y, add_z, smul_x, smul_y, smul_z]; ring
      unfold axisDist
      rw [e1, hd, hwu]
      have e2 : f + b.radius • w - b.center - (t * 1 + b.radius * 0) • b.axis = b.radius • w := by
        rw [hf]; ext <;> simp <;> ring
      rw [e2, V3.norm_smul, hw1, abs_of_pos hr, mul_one]
    have hpair : b.project q = (f + b.radius • w, (if b.inside then -|R - b.radius| else |R - b.radius|) • w) :=
      Prod.ext h1 h2
    cases hin : b.inside with
    | true =>
      refine ⟨f + b.radius • w, -w, by rw [V3.norm_neg, hw1], ?_, ?_, ?_⟩
      · simp only [Bound.project, hpair, sd, hin, if_true, hR0]
        rw [abs_sub_comm]
        congr 2
        ext <;> simp
      · rw [hqp]; simp only [sd, hin, if_true, hR0]; ext <;> simp <;> ring
      · simp only [sd, hin, if_true, hP, sub_self]
    | false =>
      refine ⟨f + b.radius • w, w, hw1, ?_, ?_, ?_⟩
      · simp [Bound.project, hpair, sd, hin, hR0]
      · rw [hqp]; simp only [sd, hin, hR0]; rfl
      · simp [sd, hin, hP]

/-- What `checkEnd` records for a query off the boundary. -/
theorem checkEnd_eq (b : Bound) (hb : ValidBound b) (colBuf : ℝ) (hc : 0 ≤ colBuf) (sy : Sylinder) (hr : 0 < sy.radiusCollision)
    (q : V3) (hq : ¬ Singular b q) (h0 : sd b q ≠ 0) (radius : ℝ) :
    ∃ P u, V3.norm u = 1 ∧ q - P = sd b q • u ∧ sd b P = 0 ∧ checkEnd b colBuf sy q radius =
      some (if sd b q < (1 + colBuf * 2) * sy.radiusCollision then [oneSided sy (sd b q - radius) u (q - sy.pos) q P] else []) := by
  obtain ⟨P, u, hu, hp, hqp, hP⟩ := project_regular b hb q hq
  refine ⟨P, u, hu, hqp, hP, ?_⟩
  have hdn : V3.norm (|sd b q| • u) = |sd b q| := by rw [V3.norm_smul, hu, abs_abs, mul_one]
  have hpos : 0 < |sd b q| := abs_pos.2 h0
  have hn : (1 / |sd b q|) • (|sd b q| • u) = u := by ext <;> simp <;> field_simp
  have hdot : dot (q - P) (|sd b q| • u) = sd b q * |sd b q| := by
    rw [hqp]
    have : dot (sd b q • u) (|sd b q| • u) = sd b q * |sd b q| * dot u u := by
      simp only [dot, smul_x, smul_y, smul_z]; ring
    rw [this, normSq_one_of_norm u hu, mul_one]
  have hthr : 0 < (1 + colBuf * 2) * sy.radiusCollision := by positivity
  unfold checkEnd
  rw [hp]
  simp only [hdn, hn, hdot]
  rcases lt_or_gt_of_ne h0 with hneg | hposd
  · have : sd b q * |sd b q| < 0 := mul_neg_of_neg_of_pos hneg hpos
    rw [if_pos this, if_neg hpos.ne', if_pos (by linarith), abs_of_neg hneg]
    simp
  · have : ¬ sd b q * |sd b q| < 0 := not_lt.2 (mul_nonneg hposd.le hpos.le)
    rw [if_neg this, abs_of_pos hposd]
    split
    · rfl
    · rfl

theorem isSphere_iff (s : Sylinder) : s.isSphere true = true ↔ Sphere s := by
  simp [Sylinder.isSphere, Sphere, mul_comm]

/-- The ends of the body are off the boundary and off its singular points. -/
def Regular (b : Bound) (s : Sylinder) : Prop := ∀ p, End s p → ¬ Singular b p ∧ sd b p ≠ 0

theorem good_block (b : Bound) (s : Sylinder) (p P u : V3) (radius : ℝ) (hR : radius = Rad s) (hu : V3.norm u = 1)
    (hqp : p - P = sd b p • u) (hP : sd b P = 0) : Good b s p (oneSided s (sd b p - radius) u (p - s.pos) p P) := by
  refine ⟨rfl, rfl, ⟨rfl, rfl, rfl, rfl⟩, hu, ⟨rfl, ?_⟩, hP, hqp, by rw [hR]; rfl, ⟨rfl, rfl⟩⟩
  show s.pos + (p - s.pos) = p
  ext <;> simp

/-- Blocks recorded for a body: one good block for every end closer than the recording distance, and no others. -/
theorem bodyBlocks_spec (b : Bound) (hb : ValidBound b) (colBuf : ℝ) (hc : 0 ≤ colBuf) (s : Sylinder)
    (hr : 0 < s.radiusCollision) (hreg : Regular b s) : ∃ l, bodyBlocks b colBuf s = some l ∧
      (∀ blk ∈ l, ∃ p, End s p ∧ sd b p < (1 + colBuf * 2) * s.radiusCollision ∧ Good b s p blk) ∧
      (∀ p, End s p → sd b p < (1 + colBuf * 2) * s.radiusCollision → ∃ blk ∈ l, Good b s p blk) ∧
      l.length ≤ (open Classical in if Sphere s then 1 else 2) := by
  unfold bodyBlocks
  by_cases hs : Sphere s
  · rw [if_pos ((isSphere_iff s).2 hs)]
    have hR : s.lengthCollision * 0.5 + s.radiusCollision = Rad s := by
      unfold Rad; rw [if_pos hs]; ring
    have he : End s s.pos := Or.inl ⟨hs, rfl⟩
    obtain ⟨h1, h2⟩ := hreg _ he
    obtain ⟨P, u, hu, hqp, hP, hce⟩ := checkEnd_eq b hb colBuf hc s hr s.pos h1 h2 (s.lengthCollision * 0.5 + s.radiusCollision)
    refine ⟨_, hce, ?_, ?_, ?_⟩
    · intro blk hblk
      split at hblk
      · rename_i hlt
        simp only [List.mem_singleton] at hblk
        subst hblk
        exact ⟨s.pos, he, hlt, good_block b s s.pos P u _ hR hu hqp hP⟩
      · cases hblk
    · intro p hp hlt
      have : p = s.pos := by
        rcases hp with ⟨-, h⟩ | ⟨h, -⟩
        · exact h
        · exact absurd hs h
      subst this
      rw [if_pos hlt]
      exact ⟨_, List.mem_singleton.2 rfl, good_block b s s.pos P u _ hR hu hqp hP⟩
    · rw [if_pos hs]; split <;> simp
  · rw [if_neg (by rw [isSphere_iff]; exact hs)]
    have hR : s.radiusCollision = Rad s := by unfold Rad; rw [if_neg hs]
    have e1 : s.pos - (s.lengthCollision * 0.5) • s.orientation.rot ⟨0, 0, 1⟩ = s.pos - (s.lengthCollision / 2) • s.direction := by
      have : s.lengthCollision * 0.5 = s.lengthCollision / 2 := by ring
      rw [this]; rfl
    have e2 : s.pos + (s.lengthCollision * 0.5) • s.orientation.rot ⟨0, 0, 1⟩ = s.pos + (s.lengthCollision / 2) • s.direction := by
      have : s.lengthCollision * 0.5 = s.lengthCollision / 2 := by ring
      rw [this]; rfl
    simp only [e1, e2]
    set Qm := s.pos - (s.lengthCollision / 2) • s.direction
    set Qp := s.pos + (s.lengthCollision / 2) • s.direction
    have hem : End s Qm := Or.inr ⟨hs, Or.inl rfl⟩
    have hep : End s Qp := Or.inr ⟨hs, Or.inr rfl⟩
    obtain ⟨P, u, hu, hqp, hP, hce⟩ := checkEnd_eq b hb colBuf hc s hr Qm (hreg _ hem).1 (hreg _ hem).2 s.radiusCollision
    obtain ⟨P', u', hu', hqp', hP', hce'⟩ := checkEnd_eq b hb colBuf hc s hr Qp (hreg _ hep).1 (hreg _ hep).2 s.radiusCollision
    rw [hce, hce']
    refine ⟨_, rfl, ?_, ?_, ?_⟩
    · intro blk hblk
      rcases List.mem_append.1 hblk with h | h
      · split at h
        · rename_i hlt
          simp only [List.mem_singleton] at h
          subst h
          exact ⟨Qm, hem, hlt, good_block b s Qm P u _ hR hu hqp hP⟩
        · cases h
      · split at h
        · rename_i hlt
          simp only [List.mem_singleton] at h
          subst h
          exact ⟨Qp, hep, hlt, good_block b s Qp P' u' _ hR hu' hqp' hP'⟩
        · cases h
    · intro p hp hlt
      rcases hp with ⟨h, -⟩ | ⟨-, h⟩
      · exact absurd h hs
      · rcases h with h | h
        · subst h
          rw [if_pos hlt]
          exact ⟨_, List.mem_append_left _ (List.mem_singleton.2 rfl), good_block b s Qm P u _ hR hu hqp hP⟩
        · subst h
          refine ⟨_, List.mem_append_right _ ?_, good_block b s Qp P' u' _ hR hu' hqp' hP'⟩
          rw [if_pos hlt]; exact List.mem_singleton.2 rfl
    · rw [if_neg hs]
      split <;> split <;> simp

/-! ### geometry -/

theorem norm_convex (A B : V3) (s : ℝ) (h0 : 0 ≤ s) (h1 : s ≤ 1) :
    V3.norm ((1 - s) • A + s • B) ≤ (1 - s) * V3.norm A + s * V3.norm B := by
  have := V3.norm_add_le ((1 - s) • A) (s • B)
  rw [V3.norm_smul, V3.norm_smul, abs_of_nonneg h0, abs_of_nonneg (by linarith : 0 ≤ 1 - s)] at this
  exact this

/-- The signed distance is concave where the allowed side is convex. -/
theorem sd_concave (b : Bound) (hc : Convex b) (A B : V3) (s : ℝ) (h0 : 0 ≤ s) (h1 : s ≤ 1) :
    (1 - s) * sd b A + s * sd b B ≤ sd b ((1 - s) • A + s • B) := by
  cases b with
  | sphere b =>
    have hin : b.inside = true := hc
    simp only [sd, hin, if_true]
    have e : (1 - s) • A + s • B - b.center = (1 - s) • (A - b.center) + s • (B - b.center) := by ext <;> simp <;> ring
    rw [e]
    have := norm_convex (A - b.center) (B - b.center) s h0 h1
    linarith
  | wall b =>
    simp only [sd]
    apply le_of_eq
    simp only [dot, sub_x, sub_y, sub_z, add_x, add_y, add_z, smul_x, smul_y, smul_z]; ring
  | tube b =>
    have hin : b.inside = true := hc
    simp only [sd, hin, if_true, axisDist]
    have e : (1 - s) • A + s • B - b.center - (dot ((1 - s) • A + s • B - b.center) b.axis) • b.axis =
        (1 - s) • (A - b.center - (dot (A - b.center) b.axis) • b.axis) +
          s • (B - b.center - (dot (B - b.center) b.axis) • b.axis) := by
      ext <;> simp [dot] <;> ring
    rw [e]
    have := norm_convex (A - b.center - (dot (A - b.center) b.axis) • b.axis)
      (B - b.center - (dot (B - b.center) b.axis) • b.axis) s h0 h1
    linarith

/-- The signed distance changes no more than the point. -/
theorem sd_lipschitz (b : Bound) (hb : ValidBound b) (p x : V3) : sd b p ≤ sd b x + V3.norm (x - p) := by
  cases b with
  | sphere b =>
    have h := abs_le.1 (abs_norm_sub_le (x - b.center) (p - b.center))
    have e : x - b.center - (p - b.center) = x - p := by ext <;> simp
    rw [e] at h
    simp only [sd]
    split <;> linarith [h.1, h.2]
  | wall b =>
    have hn : V3.norm b.norm = 1 := hb
    have h := dot_le_norm_mul (-(x - p)) b.norm
    rw [hn, V3.norm_neg, mul_one] at h
    simp only [sd]
    have e : dot (p - b.center) b.norm = dot (x - b.center) b.norm + dot (-(x - p)) b.norm := by
      simp only [dot, sub_x, sub_y, sub_z, neg_x, neg_y, neg_z]; ring
    linarith
  | tube b =>
    obtain ⟨-, ha⟩ := hb
    have h := abs_le.1 (abs_norm_sub_le (x - b.center - (dot (x - b.center) b.axis) • b.axis)
      (p - b.center - (dot (p - b.center) b.axis) • b.axis))
    have e : x - b.center - (dot (x - b.center) b.axis) • b.axis - (p - b.center - (dot (p - b.center) b.axis) • b.axis) =
        (x - p) - (dot (x - p) b.axis) • b.axis := by ext <;> simp [dot] <;> ring
    rw [e] at h
    have h2 := norm_perp_le (x - p) b.axis (normSq_one_of_norm _ ha)
    simp only [sd, axisDist]
    split <;> linarith [h.1, h.2]

/-- Some end of the body is as close to the boundary as any of its points. -/
theorem closest_end (b : Bound) (hc : Convex b) (s : Sylinder) (hl : 0 ≤ s.lengthCollision) (p : V3) (hp : Core s p) :
    ∃ e, End s e ∧ sd b e ≤ sd b p := by
  rcases hp with ⟨hs, rfl⟩ | ⟨hs, x, hx, rfl⟩
  · exact ⟨s.pos, Or.inl ⟨hs, rfl⟩, le_rfl⟩
  · set A := s.pos - (s.lengthCollision / 2) • s.direction with hA
    set B := s.pos + (s.lengthCollision / 2) • s.direction with hB
    have hcomb : ∃ t : ℝ, 0 ≤ t ∧ t ≤ 1 ∧ s.pos + x • s.direction = (1 - t) • A + t • B := by
      rcases eq_or_lt_of_le hl with h | h
      · have : x = 0 := by rw [← h, zero_div] at hx; exact abs_nonpos_iff.1 hx
        subst this
        refine ⟨0, le_rfl, by norm_num, ?_⟩
        rw [hA]; ext <;> simp [← h]
      · rw [abs_le] at hx
        refine ⟨x / s.lengthCollision + 1 / 2, ?_, ?_, ?_⟩
        · have : -(1 / 2) ≤ x / s.lengthCollision := by rw [le_div_iff₀ h]; linarith [hx.1]
          linarith
        · have : x / s.lengthCollision ≤ 1 / 2 := by rw [div_le_iff₀ h]; linarith [hx.2]
          linarith
        · rw [hA, hB]; ext <;> simp <;> field_simp <;> ring
    obtain ⟨t, t0, t1, ht⟩ := hcomb
    have hcv := sd_concave b hc A B t t0 t1
    rw [← ht] at hcv
    by_cases hAB : sd b A ≤ sd b B
    · exact ⟨A, Or.inr ⟨hs, Or.inl rfl⟩, by nlinarith⟩
    · exact ⟨B, Or.inr ⟨hs, Or.inr rfl⟩, by nlinarith⟩

theorem end_core (s : Sylinder) (hl : 0 ≤ s.lengthCollision) (p : V3) (h : End s p) : Core s p := by
  rcases h with h | ⟨hs, h | h⟩
  · exact Or.inl h
  · refine Or.inr ⟨hs, -(s.lengthCollision / 2), ?_, ?_⟩
    · rw [abs_neg, abs_of_nonneg (by linarith)]
    · rw [h]; ext <;> simp <;> ring
  · exact Or.inr ⟨hs, s.lengthCollision / 2, by rw [abs_of_nonneg (by linarith)], h⟩

theorem end_exists (s : Sylinder) : ∃ p, End s p := by
  by_cases hs : Sphere s
  · exact ⟨_, Or.inl ⟨hs, rfl⟩⟩
  · exact ⟨_, Or.inr ⟨hs, Or.inl rfl⟩⟩

/-- The separation is that of the nearest end. -/
theorem separation_end (b : Bound) (hc : Convex b) (s : Sylinder) (hl : 0 ≤ s.lengthCollision) :
    ∃ e, End s e ∧ Spec.BoundaryCol.Separation b s (sd b e - Rad s) := by
  have key : ∃ e, End s e ∧ ∀ p, End s p → sd b e ≤ sd b p := by
    by_cases hs : Sphere s
    · refine ⟨s.pos, Or.inl ⟨hs, rfl⟩, ?_⟩
      rintro p (⟨-, rfl⟩ | ⟨h, -⟩)
      · exact le_rfl
      · exact absurd hs h
    · set A := s.pos - (s.lengthCollision / 2) • s.direction with hA
      set B := s.pos + (s.lengthCollision / 2) • s.direction with hB
      by_cases hAB : sd b A ≤ sd b B
      · refine ⟨A, Or.inr ⟨hs, Or.inl rfl⟩, ?_⟩
        rintro p (⟨h, -⟩ | ⟨-, rfl | rfl⟩)
        · exact absurd h hs
        · exact le_rfl
        · exact hAB
      · refine ⟨B, Or.inr ⟨hs, Or.inr rfl⟩, ?_⟩
        rintro p (⟨h, -⟩ | ⟨-, rfl | rfl⟩)
        · exact absurd h hs
        · exact (not_le.1 hAB).le
        · exact le_rfl
  obtain ⟨e, he, hmin⟩ := key
  refine ⟨e, he, ⟨e, end_core s hl e he, rfl⟩, ?_⟩
  intro p hp
  obtain ⟨e', he', hle⟩ := closest_end b hc s hl p hp
  have := hmin e' he'
  linarith

/-! ### collection -/

theorem overBodies_perm (b : Bound) (colBuf : ℝ) (sched : List (ℕ × Sylinder)) (pool : Pool)
    (hth : ∀ x ∈ sched, x.1 < pool.length) (hdef : ∀ x ∈ sched, ∃ l, bodyBlocks b colBuf x.2 = some l) :
    ∃ pool', overBodies b colBuf pool sched = some pool' ∧ pool'.length = pool.length ∧
      pool'.flatten.Perm (pool.flatten ++ sched.flatMap (fun x => (bodyBlocks b colBuf x.2).getD [])) := by
  induction sched generalizing pool with
  | nil => exact ⟨pool, rfl, rfl, by simp⟩
  | cons x rest ih =>
    obtain ⟨th, sy⟩ := x
    have hlt : th < pool.length := hth (th, sy) (List.mem_cons_self ..)
    have hq : pool[th]? = some pool[th] := List.getElem?_eq_getElem hlt
    obtain ⟨l, hl⟩ := hdef (th, sy) (List.mem_cons_self ..)
    simp only at hl
    unfold overBodies
    rw [hq]
    simp only [hl, Option.bind_some]
    obtain ⟨pool', h1, h2, h3⟩ := ih (pool.set th (pool[th] ++ l))
      (by simpa using fun a c h => hth (a, c) (List.mem_cons_of_mem _ h))
      (fun x h => hdef x (List.mem_cons_of_mem _ h))
    refine ⟨pool', h1, by rw [h2]; simp, h3.trans ?_⟩
    refine ((flatten_set_perm pool th _ l hq).append_right _).trans ?_
    rw [List.append_assoc]
    refine List.Perm.append_left _ (List.Perm.of_eq ?_)
    simp [hl]

theorem collect_perm (colBuf : ℝ) (bs : List (Bound × List (ℕ × Sylinder))) (pool : Pool)
    (hth : ∀ x ∈ bs, ∀ y ∈ x.2, y.1 < pool.length) (hdef : ∀ x ∈ bs, ∀ y ∈ x.2, ∃ l, bodyBlocks x.1 colBuf y.2 = some l) :
    ∃ pool', collectBoundaryCollision colBuf pool bs = some pool' ∧
      pool'.flatten.Perm (pool.flatten ++ bs.flatMap (fun x => x.2.flatMap (fun y => (bodyBlocks x.1 colBuf y.2).getD []))) := by
  induction bs generalizing pool with
  | nil => exact ⟨pool, rfl, by simp⟩
  | cons x rest ih =>
    obtain ⟨b, sched⟩ := x
    obtain ⟨p1, h1, h2, h3⟩ := overBodies_perm b colBuf sched pool (hth (b, sched) (List.mem_cons_self ..))
      (hdef (b, sched) (List.mem_cons_self ..))
    unfold collectBoundaryCollision
    rw [h1]
    simp only [Option.bind_some]
    obtain ⟨p2, h4, h5⟩ := ih p1 (fun x h y hy => by rw [h2]; exact hth x (List.mem_cons_of_mem _ h) y hy)
      (fun x h => hdef x (List.mem_cons_of_mem _ h))
    refine ⟨p2, h4, h5.trans ?_⟩
    refine (h3.append_right _).trans ?_
    rw [List.append_assoc, List.flatMap_cons]

end Verif.BoundaryCol
