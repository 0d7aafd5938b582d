import Verif.Lemmas.NoCross
import Verif.Props.NoOverlap
/-!
C90: what a converged time step means for bodies near boundaries.
-/
namespace Verif
open RunStep Mobility Collector BoundaryCol Spec.BoundaryCol Spec.NoCross NoCross NoOverlap Spec.NoOverlap

/-- Every rank has the constraints that `collectBoundaryCollision` finds for its bodies and the boundaries `bounds` (and whatever other constraints) in its pool;
the bodies are distributed over the threads in any way, for every boundary. -/
def C90_Collected (colBuf : ℝ) (bounds : List Bound) (S : ℕ → List Sylinder) (ranks : List RankIn) : Prop :=
  ∀ r rk, ranks[r]? = some rk → ∃ (bs : List (Bound × List (ℕ × Sylinder))) (pool₀ pool' : Pool), bs.map Prod.fst = bounds ∧
    (∀ e ∈ bs, (e.2.map Prod.snd).Perm (S r)) ∧ collectBoundaryCollision colBuf pool₀ bs = some pool' ∧ ∀ blk ∈ pool'.flatten, blk ∈ rk.pool.flatten

/-- C90 for the ends of the bodies (the centre of a sphere), with every boundary: an end that was within the recording distance penetrates afterwards by at most
`dt · (res + |W| L)` and what the curvature of the boundary adds; an end that was not is still as far as the recording distance less what it moved.
Missing: ends exactly on a boundary or at a singular point of it (`C41_on_boundary_false`, `C41_tube_axis_false`, `C41_centre_false`). -/
theorem C90_ends_partial (n : ℕ) (S : ℕ → List Sylinder) (cfg : Mobility.Cfg) (ctl : ConOp.Control) (fl : ℝ → ℝ) (ranks : List RankIn) (out : Out)
    (last : BCQP.Hist) (U W : ℤ → V3) (hst : C89_Converged n S cfg ctl fl ranks out last U W) (colBuf : ℝ) (hc : 0 ≤ colBuf) (bounds : List Bound)
    (hcol : C90_Collected colBuf bounds S ranks) (b : Bound) (hb : b ∈ bounds) (hvb : ValidBound b) (r i : ℕ) (hr : r < n) (x : Sylinder)
    (hx : (S r)[i]? = some x) (hR : 0 < x.radiusCollision) (hL : 0 ≤ x.lengthCollision) (hreg : ∀ p, End x p → ¬ Singular b p ∧ sd b p ≠ 0) :
    ∃ x', (C89_after out r)[i]? = some x' ∧ Spec.Mobility.SameBody x' x ∧ ∀ p', End x' p' → ∃ p, End x p ∧
      (sd b p < (1 + colBuf * 2) * x.radiusCollision →
        -(cfg.dt * (last.res + (W x.globalIndex).norm * arm (Near.EP.copyFromFP x))) -
          curv b p / 2 * (cfg.dt * ((U x.globalIndex).norm + (W x.globalIndex).norm * arm (Near.EP.copyFromFP x) / 2)) ^ 2 ≤ sd b p' - Rad x) ∧
      (¬ sd b p < (1 + colBuf * 2) * x.radiusCollision →
        (1 + colBuf * 2) * x.radiusCollision - cfg.dt * ((U x.globalIndex).norm + (W x.globalIndex).norm * arm (Near.EP.copyFromFP x) / 2) ≤ sd b p') := by
  obtain ⟨hbody, hsolve⟩ := hst.use
  have hdt := hst.dt
  obtain ⟨x', h1, h2, h3, h4, h5⟩ := hbody r i x hr hx
  have hdir : V3.norm x.direction = 1 := unit_direction _ h5.unit
  have hmv : Moves cfg.dt (Near.EP.copyFromFP x) (Near.EP.copyFromFP x') (U x.globalIndex) (W x.globalIndex) := by
    refine ⟨⟨h2.radiusCollision, h2.lengthCollision⟩, h3, ?_⟩
    show V3.norm (x'.orientation.rot ⟨0, 0, 1⟩ - x.orientation.rot ⟨0, 0, 1⟩) ≤ _
    rw [h4]
    exact rotate_le _ h5.unit _ _ hdt.le _ hdir
  refine ⟨x', h1, h2, ?_⟩
  intro p' hp'
  obtain ⟨p, e, hp, rfl, he⟩ := moved_end hL hmv hdt.le p' hp'
  refine ⟨p, hp, ?_, ?_⟩
  · intro hnear
    have hrk : ranks[r]? = some (ranks[r]'(by have := hst.size; omega)) := List.getElem?_eq_getElem _
    obtain ⟨bs, pool₀, pool', hbs, hperm, hrun, hsub⟩ := hcol r _ hrk
    rw [← hbs] at hb
    obtain ⟨⟨b', sched⟩, hmem, rfl⟩ := List.mem_map.1 hb
    have hxs : x ∈ sched.map Prod.snd := (hperm _ hmem).mem_iff.2 (List.mem_of_getElem? hx)
    obtain ⟨⟨th, y⟩, hy, rfl⟩ := List.mem_map.1 hxs
    obtain ⟨l, hl, hm⟩ := (collect_mem colBuf bs pool₀ pool' hrun).2 _ hmem _ hy
    obtain ⟨l', hl', -, k2, -⟩ := bodyBlocks_spec b' hvb colBuf hc y hR hreg
    have hl'' : bodyBlocks b' colBuf y = some l := hl
    rw [hl'] at hl''
    cases hl''
    obtain ⟨blk, hblk, hg⟩ := k2 p hp hnear
    have hs := hsolve r _ blk hrk (hsub _ (hm _ hblk)) hg.unilateral
    exact end_gap b' hvb y hL hdir p hp (hreg p hp).1 (hreg p hp).2 blk hg cfg.dt hdt.le last.res U W hs e he
  · intro hfar
    have h6 := sd_lipschitz b hvb p (p + cfg.dt • U x.globalIndex + e)
    have e1 : p + cfg.dt • U x.globalIndex + e - p = cfg.dt • U x.globalIndex + e := by ext <;> simp <;> ring
    rw [e1] at h6
    have h7 := V3.norm_add_le (cfg.dt • U x.globalIndex) e
    rw [V3.norm_smul, abs_of_pos hdt] at h7
    have h8 := not_lt.1 hfar
    nlinarith

/-- C90 for whole bodies: with a boundary whose allowed side is convex, or for a sphere with any boundary, if the body moves less than its buffer in the step, then
no point of it is beyond the boundary afterwards by more than `dt · (res + |W| L)` and what the curvature `κ` of the boundary adds (`κ = 0` for walls).
Missing: as in `C90_ends_partial`; rods at obstacles (`C41_obstacle_false`). -/
theorem C90_bodies_partial (n : ℕ) (S : ℕ → List Sylinder) (cfg : Mobility.Cfg) (ctl : ConOp.Control) (fl : ℝ → ℝ) (ranks : List RankIn) (out : Out)
    (last : BCQP.Hist) (U W : ℤ → V3) (hst : C89_Converged n S cfg ctl fl ranks out last U W) (colBuf : ℝ) (hc : 0 ≤ colBuf) (bounds : List Bound)
    (hcol : C90_Collected colBuf bounds S ranks) (b : Bound) (hb : b ∈ bounds) (hvb : ValidBound b) (r i : ℕ) (hr : r < n) (x : Sylinder)
    (hx : (S r)[i]? = some x) (hR : 0 < x.radiusCollision) (hL : 0 ≤ x.lengthCollision) (hreg : ∀ p, End x p → ¬ Singular b p ∧ sd b p ≠ 0)
    (hcv : Convex b ∨ Sphere x) (κ : ℝ) (hκ0 : 0 ≤ κ) (hκ : ∀ p, End x p → curv b p ≤ κ) (hres : 0 ≤ last.res)
    (hmv : Rad x + cfg.dt * ((U x.globalIndex).norm + (W x.globalIndex).norm * arm (Near.EP.copyFromFP x) / 2) ≤ (1 + colBuf * 2) * x.radiusCollision) :
    ∃ x', (C89_after out r)[i]? = some x' ∧ Spec.Mobility.SameBody x' x ∧ ∀ z, Occupies x' z →
      -(cfg.dt * (last.res + (W x.globalIndex).norm * arm (Near.EP.copyFromFP x)) +
          κ / 2 * (cfg.dt * ((U x.globalIndex).norm + (W x.globalIndex).norm * arm (Near.EP.copyFromFP x) / 2)) ^ 2) ≤ sd b z := by
  obtain ⟨x', h1, h2, h3⟩ := C90_ends_partial n S cfg ctl fl ranks out last U W hst colBuf hc bounds hcol b hb hvb r i hr x hx hR hL hreg
  refine ⟨x', h1, h2, ?_⟩
  rintro z ⟨q, hq, hz⟩
  have hdt := hst.dt
  have hsph : Sphere x' ↔ Sphere x := by unfold Sphere; rw [h2.radiusCollision, h2.lengthCollision]
  have hrad : Rad x' = Rad x := by
    unfold Rad
    by_cases hs : Sphere x
    · rw [if_pos hs, if_pos (hsph.2 hs), h2.radiusCollision, h2.lengthCollision]
    · rw [if_neg hs, if_neg (fun h => hs (hsph.1 h)), h2.radiusCollision]
  obtain ⟨p', hp', hle⟩ : ∃ p', End x' p' ∧ sd b p' ≤ sd b q := by
    rcases hcv with hcv | hs
    · exact closest_end b hcv x' (by rw [h2.lengthCollision]; exact hL) q hq
    · rcases hq with hq | hq
      · exact ⟨q, Or.inl hq, le_rfl⟩
      · exact absurd (hsph.2 hs) hq.1
  obtain ⟨p, hp, hnear, hfar⟩ := h3 p' hp'
  have h4 := sd_lipschitz b hvb q z
  rw [hrad] at hz
  have harm : 0 ≤ arm (Near.EP.copyFromFP x) := arm_nonneg _ hL
  have hw : 0 ≤ (W x.globalIndex).norm * arm (Near.EP.copyFromFP x) := mul_nonneg (V3.norm_nonneg _) harm
  have hsq := sq_nonneg (cfg.dt * ((U x.globalIndex).norm + (W x.globalIndex).norm * arm (Near.EP.copyFromFP x) / 2))
  by_cases hn : sd b p < (1 + colBuf * 2) * x.radiusCollision
  · have h5 := hnear hn
    have h6 := mul_le_mul_of_nonneg_right (hκ p hp) hsq
    linarith
  · have h5 := hfar hn
    have h6 : 0 ≤ cfg.dt * (last.res + (W x.globalIndex).norm * arm (Near.EP.copyFromFP x)) := mul_nonneg hdt.le (by linarith)
    have h7 := mul_nonneg hκ0 hsq
    linarith

/-- The hypotheses of `C90_ends_partial` and `C90_bodies_partial` can be met with a sphere that is close to a wall. -/
example (D : Draws) : ∃ (ranks : List RankIn) (out : Out) (b : Bound) (x : Sylinder), C89_Converged 1 (fun r => if r = 0 then [x] else []) C88_cfg
    ⟨1 / 10 ^ 5, 100, 0⟩ id ranks out ⟨0, 0, 0, 1⟩ (fun _ => 0) (fun _ => 0) ∧ C90_Collected 0.5 [b] (fun r => if r = 0 then [x] else []) ranks ∧
    ValidBound b ∧ Convex b ∧ 0 < x.radiusCollision ∧ 0 ≤ x.lengthCollision ∧ (∀ p, End x p → ¬ Singular b p ∧ sd b p ≠ 0) ∧ (∀ p, End x p → curv b p ≤ 0) ∧
    Rad x + C88_cfg.dt * (V3.norm 0 + V3.norm 0 * arm (Near.EP.copyFromFP x) / 2) ≤ (1 + 0.5 * 2) * x.radiusCollision ∧
    ∃ p, End x p ∧ sd b p < (1 + 0.5 * 2) * x.radiusCollision := by
  obtain ⟨b, hb⟩ : ∃ b : Bound, b = .wall ⟨⟨0, 0, 0.4⟩, ⟨0, 0, 1⟩⟩ := ⟨_, rfl⟩
  obtain ⟨x, hx⟩ : ∃ x, x = ball 7 0 0.5 := ⟨_, rfl⟩
  have hvb : ValidBound b := by rw [hb]; norm_num [ValidBound, V3.norm, V3.normSq, V3.dot]
  have hsp : Sphere x := by rw [hx]; norm_num [Sphere, ball, Sylinder.make]
  have hR : x.radiusCollision = 0.09 := by rw [hx]; norm_num [ball, Sylinder.make]
  have hL : x.lengthCollision = 0 := by rw [hx]; norm_num [ball, Sylinder.make]
  have hrad : Rad x = 0.09 := by unfold Rad; rw [if_pos hsp, hR, hL]; norm_num
  have hsd : ∀ p, End x p → sd b p = 0.1 := by
    rintro p (⟨-, rfl⟩ | ⟨h, -⟩)
    · rw [hb, hx]; norm_num [sd, ball, Sylinder.make, V3.dot]
    · exact absurd hsp h
  have hreg : ∀ p, End x p → ¬ Singular b p ∧ sd b p ≠ 0 := by
    intro p hp
    rw [hsd p hp, hb]
    exact ⟨id, by norm_num⟩
  obtain ⟨l, hl, h1, h2, h3⟩ := bodyBlocks_spec b hvb 0.5 (by norm_num) x (by rw [hR]; norm_num) hreg
  have hrun : collectBoundaryCollision 0.5 [[]] [(b, [(0, x)])] = some [l] := by
    simp [collectBoundaryCollision, overBodies, hl]
  obtain ⟨ranks, hranks⟩ : ∃ ranks, ranks = [ballRank D 7 0 0.5 [l]] := ⟨_, rfl⟩
  have hlen : ranks.length = 1 := by rw [hranks]; rfl
  have hnum : (ranks.flatMap RankIn.bodies).length = 1 := by rw [hranks]; rfl
  obtain ⟨out, hconv⟩ := balls_at_rest (fun r => if r = 0 then [x] else []) ranks (by
      intro r hr
      rw [hranks, List.mem_singleton] at hr
      exact ⟨_, _, _, _, _, hr⟩) (by
      intro r rk hrk
      rw [hranks] at hrk
      match r, hrk with
      | 0, hrk => cases hrk; rw [hx]; rfl
      | r + 1, hrk => simp at hrk) (by rw [hnum]; norm_num) (by
      intro r hr
      rw [hranks, List.mem_singleton] at hr
      subst hr
      show ([l] : Pool).flatten.length ≤ 2
      rw [List.flatten_singleton]
      exact h3.trans (by split <;> norm_num)) (by
      intro g D' s hs
      rw [hranks] at hs
      match g, hs with
      | 0, hs => cases hs; rfl
      | g + 1, hs => simp [ballRank] at hs) (by
      intro r hr blk hblk
      rw [hranks, List.mem_singleton] at hr
      subst hr
      have hblk : blk ∈ ([l] : Pool).flatten := hblk
      rw [List.flatten_singleton] at hblk
      obtain ⟨p, hp, -, hg⟩ := h1 blk hblk
      have hi : x.globalIndex = 0 := by rw [hx]; rfl
      refine ⟨?_, hg.guess.1, hg.unilateral, ?_, ?_⟩
      · rw [hg.value, hsd p hp, hrad]; norm_num
      · rw [hg.gid.2.2.1, hi, hnum]; norm_num
      · rw [hg.gid.2.2.2, hi, hnum]; norm_num)
  rw [hlen] at hconv
  refine ⟨ranks, out, b, x, hconv, ?_, hvb, by rw [hb]; trivial, by rw [hR]; norm_num, by rw [hL], hreg, ?_, ?_, ?_⟩
  · intro r rk hrk
    rw [hranks] at hrk
    match r, hrk with
    | 0, hrk =>
      cases hrk
      exact ⟨[(b, [(0, x)])], [[]], [l], rfl, fun e he => by rw [List.mem_singleton.1 he]; exact List.Perm.refl _, hrun, fun _ h => h⟩
    | r + 1, hrk => simp at hrk
  · intro p _
    rw [hb]; exact le_rfl
  · rw [hrad, hR, V3.norm_zero]; norm_num
  · obtain ⟨p, hp⟩ := end_exists x
    exact ⟨p, hp, by rw [hsd p hp, hR]; norm_num⟩

end Verif
