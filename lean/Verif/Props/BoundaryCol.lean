import Verif.Lemmas.BoundaryCol
namespace Verif
open Verif.V3 Verif.Boundary Verif.Collector Verif.BoundaryCol Verif.Spec.BoundaryCol

/-! ### C41 Boundary contacts are not missed -/

/-- Every boundary and every body whose ends are neither exactly on the boundary nor at one of its singular points: every
end closer to the boundary than the recording distance gets a one-sided constraint with a unit normal towards the allowed
side and the end's true signed gap; nothing else is recorded. -/
theorem C41_ends_partial (b : Bound) (hb : ValidBound b) (colBuf : ℝ) (hc : 0 ≤ colBuf) (s : Sylinder)
    (hr : 0 < s.radiusCollision) (hreg : ∀ p, End s p → ¬ Singular b p ∧ sd b p ≠ 0) : ∃ l, bodyBlocks b colBuf s = some l ∧
      (∀ blk ∈ l, ∃ p, End s p ∧ sd b p < (1 + colBuf * 2) * s.radiusCollision ∧ Good b s p blk) ∧
      (∀ p, End s p → sd b p < (1 + colBuf * 2) * s.radiusCollision → ∃ blk ∈ l, Good b s p blk) ∧ l.length ≤ 2 := by
  obtain ⟨l, h1, h2, h3, h4⟩ := bodyBlocks_spec b hb colBuf hc s hr hreg
  exact ⟨l, h1, h2, h3, h4.trans (by split <;> norm_num)⟩

/-- Collection over all boundaries and bodies, for any distribution of the bodies over the threads: what was in the pool
stays, and every body that penetrates a boundary with a convex allowed side gets a one-sided constraint recorded with the
true separation of the body and the boundary.  Missing: allowed sides that are not convex (`C41_obstacle_false`), bodies
treated as spheres whose radius is above the recording distance (`C41_short_false`), ends exactly on the boundary or at a
singular point (`C41_on_boundary_false`, `C41_tube_axis_false`, `C41_centre_false`). -/
theorem C41_convex_partial (colBuf : ℝ) (hc : 0 ≤ colBuf) (bs : List (Bound × List (ℕ × Sylinder))) (pool : Pool)
    (hth : ∀ x ∈ bs, ∀ y ∈ x.2, y.1 < pool.length)
    (hb : ∀ x ∈ bs, ValidBound x.1)
    (hr : ∀ x ∈ bs, ∀ y ∈ x.2, 0 < y.2.radiusCollision ∧ 0 ≤ y.2.lengthCollision)
    (hreg : ∀ x ∈ bs, ∀ y ∈ x.2, ∀ p, End y.2 p → ¬ Singular x.1 p ∧ sd x.1 p ≠ 0) :
    ∃ pool', collectBoundaryCollision colBuf pool bs = some pool' ∧
      (∀ blk ∈ pool.flatten, blk ∈ pool'.flatten) ∧
      (∀ blk ∈ pool'.flatten, blk ∈ pool.flatten ∨ ∃ x ∈ bs, ∃ y ∈ x.2, ∃ p, End y.2 p ∧ Good x.1 y.2 p blk) ∧
      ∀ x ∈ bs, ∀ y ∈ x.2, Convex x.1 → Rad y.2 ≤ (1 + colBuf * 2) * y.2.radiusCollision → Penetrates x.1 y.2 →
        ∃ blk ∈ pool'.flatten, ∃ p, End y.2 p ∧ Good x.1 y.2 p blk ∧ blk.delta0 < 0 ∧ Separation x.1 y.2 blk.delta0 := by
  have hdef : ∀ x ∈ bs, ∀ y ∈ x.2, ∃ l, bodyBlocks x.1 colBuf y.2 = some l ∧
      (∀ blk ∈ l, ∃ p, End y.2 p ∧ sd x.1 p < (1 + colBuf * 2) * y.2.radiusCollision ∧ Good x.1 y.2 p blk) ∧
      (∀ p, End y.2 p → sd x.1 p < (1 + colBuf * 2) * y.2.radiusCollision → ∃ blk ∈ l, Good x.1 y.2 p blk) ∧ l.length ≤ 2 :=
    fun x hx y hy => C41_ends_partial x.1 (hb x hx) colBuf hc y.2 (hr x hx y hy).1 (hreg x hx y hy)
  obtain ⟨pool', h1, h2⟩ := collect_perm colBuf bs pool hth
    (fun x hx y hy => ⟨_, (hdef x hx y hy).choose_spec.1⟩)
  refine ⟨pool', h1, fun blk h => h2.mem_iff.2 (List.mem_append_left _ h), ?_, ?_⟩
  · intro blk h
    rcases List.mem_append.1 (h2.mem_iff.1 h) with h | h
    · exact Or.inl h
    · obtain ⟨x, hx, h⟩ := List.mem_flatMap.1 h
      obtain ⟨y, hy, h⟩ := List.mem_flatMap.1 h
      obtain ⟨l, e, hl, -⟩ := hdef x hx y hy
      rw [e] at h
      obtain ⟨p, hp, -, hg⟩ := hl blk h
      exact Or.inr ⟨x, hx, y, hy, p, hp, hg⟩
  · intro x hx y hy hcv hR hpen
    obtain ⟨e, he, hsep⟩ := separation_end x.1 hcv y.2 (hr x hx y hy).2
    obtain ⟨p, z, hp, hz, hneg⟩ := hpen
    have hlt : sd x.1 e < Rad y.2 := by
      have h3 := hsep.2 p hp
      have h4 := sd_lipschitz x.1 (hb x hx) p z
      linarith
    obtain ⟨l, e', -, hl, -⟩ := hdef x hx y hy
    obtain ⟨blk, hblk, hg⟩ := hl e he (lt_of_lt_of_le hlt hR)
    refine ⟨blk, h2.mem_iff.2 (List.mem_append_right _ (List.mem_flatMap.2 ⟨x, hx, List.mem_flatMap.2 ⟨y, hy, ?_⟩⟩)), e, he, hg, ?_, ?_⟩
    · rw [e']; exact hblk
    · rw [hg.value]; linarith
    · rw [hg.value]; exact hsep

/-- The condition on the radius holds for every rod. -/
theorem C41_rods (colBuf : ℝ) (hc : 0 ≤ colBuf) (s : Sylinder) (hr : 0 < s.radiusCollision) (h : ¬ Sphere s) :
    Rad s ≤ (1 + colBuf * 2) * s.radiusCollision := by
  unfold Rad
  rw [if_neg h]
  nlinarith

/-- A body with the given collision sizes, height and orientation along z. -/
noncomputable def C41_body (r L x z : ℝ) (q : Quat) : Sylinder :=
  { Sylinder.make 1 r r L L ⟨x, 0, z⟩ q with radiusCollision := r, lengthCollision := L }

example : ∃ s : Sylinder, 0 < s.radiusCollision ∧ 0 ≤ s.lengthCollision ∧ ¬ Sphere s ∧
    (∀ p, End s p → ¬ Singular (.wall ⟨⟨0, 0, 0⟩, ⟨0, 0, 1⟩⟩) p ∧ sd (.wall ⟨⟨0, 0, 0⟩, ⟨0, 0, 1⟩⟩) p ≠ 0) ∧
    Penetrates (.wall ⟨⟨0, 0, 0⟩, ⟨0, 0, 1⟩⟩) s := by
  refine ⟨C41_body 1 4 0 2.5 ⟨1, 0, 0, 0⟩, by simp [C41_body], by simp [C41_body], by norm_num [C41_body, Sphere], ?_, ?_⟩
  · rintro p (⟨h, -⟩ | ⟨-, rfl | rfl⟩)
    · norm_num [Sphere, C41_body] at h
    · refine ⟨id, ?_⟩
      norm_num [sd, C41_body, Sylinder.make, Sylinder.direction, Quat.rot, Quat.vec, dot, V3.cross]
    · refine ⟨id, ?_⟩
      norm_num [sd, C41_body, Sylinder.make, Sylinder.direction, Quat.rot, Quat.vec, dot, V3.cross]
  · refine ⟨⟨0, 0, 0.5⟩, ⟨0, 0, -0.5⟩, Or.inr ⟨by norm_num [Sphere, C41_body], -2, by norm_num [C41_body], ?_⟩, ?_, ?_⟩
    · ext <;> norm_num [C41_body, Sylinder.make, Sylinder.direction, Quat.rot, Quat.vec, V3.cross]
    · have : Rad (C41_body 1 4 0 2.5 ⟨1, 0, 0, 0⟩) = 1 := by
        unfold Rad; rw [if_neg (by norm_num [Sphere, C41_body])]; simp [C41_body]
      rw [this]
      apply le_of_eq
      norm_num [V3.norm, normSq, dot]
    · norm_num [sd, dot]

/-- False for a short body: radius 1 and length 1 make it a sphere of radius 1.5; 1.4 above the wall it penetrates it but
is further than the recording distance 1.2. -/
theorem C41_short_false : ∃ (b : Bound) (s : Sylinder) (colBuf : ℝ), ValidBound b ∧ Convex b ∧ 0 < colBuf ∧
    0 < s.radiusCollision ∧ 0 < s.lengthCollision ∧ Penetrates b s ∧ bodyBlocks b colBuf s = some [] := by
  have hs : Sphere (C41_body 1 1 0 1.4 ⟨1, 0, 0, 0⟩) := by norm_num [Sphere, C41_body]
  have hw : ValidBound (.wall ⟨⟨0, 0, 0⟩, ⟨0, 0, 1⟩⟩) := by norm_num [ValidBound, V3.norm, normSq, dot]
  refine ⟨.wall ⟨⟨0, 0, 0⟩, ⟨0, 0, 1⟩⟩, C41_body 1 1 0 1.4 ⟨1, 0, 0, 0⟩, 0.1, hw, trivial,
    by norm_num, by norm_num [C41_body], by norm_num [C41_body], ?_, ?_⟩
  · refine ⟨⟨0, 0, 1.4⟩, ⟨0, 0, -0.05⟩, Or.inl ⟨hs, rfl⟩, ?_, ?_⟩
    · have : Rad (C41_body 1 1 0 1.4 ⟨1, 0, 0, 0⟩) = 1.5 := by
        unfold Rad; rw [if_pos hs]; norm_num [C41_body]
      rw [this]
      unfold V3.norm
      rw [Real.sqrt_le_left (by norm_num)]
      norm_num [normSq, dot]
    · norm_num [sd, dot]
  · have hsd : sd (.wall ⟨⟨0, 0, 0⟩, ⟨0, 0, 1⟩⟩) (C41_body 1 1 0 1.4 ⟨1, 0, 0, 0⟩).pos = 1.4 := by
      norm_num [sd, C41_body, Sylinder.make, dot]
    obtain ⟨P, u, -, -, -, h⟩ := checkEnd_eq (.wall ⟨⟨0, 0, 0⟩, ⟨0, 0, 1⟩⟩) hw 0.1 (by norm_num) (C41_body 1 1 0 1.4 ⟨1, 0, 0, 0⟩)
      (by norm_num [C41_body]) (C41_body 1 1 0 1.4 ⟨1, 0, 0, 0⟩).pos id (by rw [hsd]; norm_num)
      ((C41_body 1 1 0 1.4 ⟨1, 0, 0, 0⟩).lengthCollision * 0.5 + (C41_body 1 1 0 1.4 ⟨1, 0, 0, 0⟩).radiusCollision)
    unfold bodyBlocks
    rw [if_pos ((isSphere_iff _).2 hs)]
    simp only [h, hsd]
    rw [if_neg (by norm_num [C41_body])]

/-- False for an obstacle: a rod through the middle of a ball it must stay outside of, both ends far outside, gets no
constraint. -/
theorem C41_obstacle_false : ∃ (b : Bound) (s : Sylinder) (colBuf : ℝ), ValidBound b ∧ 0 < colBuf ∧
    0 < s.radiusCollision ∧ 0 < s.lengthCollision ∧ ¬ Sphere s ∧ Core s ⟨0, 0, 0⟩ ∧ sd b ⟨0, 0, 0⟩ = -1 ∧ Penetrates b s ∧
    bodyBlocks b colBuf s = some [] := by
  have hs : ¬ Sphere (C41_body 0.1 10 0 0 ⟨1, 0, 0, 0⟩) := by norm_num [Sphere, C41_body]
  set b : Bound := .sphere ⟨⟨0, 0, 0⟩, 1, false⟩ with hbd
  have hw : ValidBound b := by norm_num [ValidBound, hbd]
  have hcore : Core (C41_body 0.1 10 0 0 ⟨1, 0, 0, 0⟩) ⟨0, 0, 0⟩ := by
    refine Or.inr ⟨hs, 0, by norm_num [C41_body], ?_⟩
    ext <;> norm_num [C41_body, Sylinder.make]
  have hm : sd b ⟨0, 0, 0⟩ = -1 := by norm_num [sd, hbd, V3.norm, normSq, dot]
  have hR : Rad (C41_body 0.1 10 0 0 ⟨1, 0, 0, 0⟩) = 0.1 := by
    unfold Rad; rw [if_neg hs]; norm_num [C41_body]
  have key : ∀ z : ℝ, z = 5 ∨ z = -5 → sd b ⟨0, 0, z⟩ = 4 := by
    rintro z (rfl | rfl)
    all_goals
      simp only [sd, hbd, V3.norm, normSq, dot, sub_x, sub_y, sub_z]
      norm_num
      rw [show (25 : ℝ) = 5 ^ 2 by norm_num, Real.sqrt_sq (by norm_num)]
      norm_num
  have hce : ∀ z : ℝ, z = 5 ∨ z = -5 → checkEnd b 0.1 (C41_body 0.1 10 0 0 ⟨1, 0, 0, 0⟩) ⟨0, 0, z⟩
      (C41_body 0.1 10 0 0 ⟨1, 0, 0, 0⟩).radiusCollision = some [] := by
    intro z hz
    obtain ⟨P, u, -, -, -, h⟩ := checkEnd_eq b hw 0.1 (by norm_num) (C41_body 0.1 10 0 0 ⟨1, 0, 0, 0⟩)
      (by norm_num [C41_body]) ⟨0, 0, z⟩
      (by
        intro h
        have h : (⟨0, 0, z⟩ : V3) = ⟨0, 0, 0⟩ := h
        have := congrArg V3.z h
        rcases hz with rfl | rfl <;> norm_num at this)
      (by rw [key z hz]; norm_num) (C41_body 0.1 10 0 0 ⟨1, 0, 0, 0⟩).radiusCollision
    rw [h, key z hz, if_neg (by norm_num [C41_body])]
  refine ⟨b, C41_body 0.1 10 0 0 ⟨1, 0, 0, 0⟩, 0.1, hw, by norm_num, by norm_num [C41_body], by norm_num [C41_body],
    hs, hcore, hm, ⟨_, ⟨0, 0, 0⟩, hcore, ?_, by rw [hm]; norm_num⟩, ?_⟩
  · rw [hR]; norm_num [V3.norm, normSq, dot]
  · unfold bodyBlocks
    rw [if_neg (by rw [isSphere_iff]; exact hs)]
    have e1 : (C41_body 0.1 10 0 0 ⟨1, 0, 0, 0⟩).pos - ((C41_body 0.1 10 0 0 ⟨1, 0, 0, 0⟩).lengthCollision * 0.5) •
        (C41_body 0.1 10 0 0 ⟨1, 0, 0, 0⟩).orientation.rot ⟨0, 0, 1⟩ = ⟨0, 0, -5⟩ := by
      ext <;> norm_num [C41_body, Sylinder.make, Quat.rot, Quat.vec, V3.cross]
    have e2 : (C41_body 0.1 10 0 0 ⟨1, 0, 0, 0⟩).pos + ((C41_body 0.1 10 0 0 ⟨1, 0, 0, 0⟩).lengthCollision * 0.5) •
        (C41_body 0.1 10 0 0 ⟨1, 0, 0, 0⟩).orientation.rot ⟨0, 0, 1⟩ = ⟨0, 0, 5⟩ := by
      ext <;> norm_num [C41_body, Sylinder.make, Quat.rot, Quat.vec, V3.cross]
    simp only [e1, e2]
    rw [hce 5 (Or.inl rfl), hce (-5) (Or.inr rfl)]
    rfl

/-- False for a body centred exactly on a wall: the recorded normal is `0 / 0`. -/
theorem C41_on_boundary_false : ∃ (b : Bound) (s : Sylinder), ValidBound b ∧ Convex b ∧ 0 < s.radiusCollision ∧
    0 < s.lengthCollision ∧ Penetrates b s ∧ bodyBlocks b 0.1 s = none := by
  have hs : Sphere (C41_body 1 0.1 0 0 ⟨1, 0, 0, 0⟩) := by norm_num [Sphere, C41_body]
  refine ⟨.wall ⟨⟨0, 0, 0⟩, ⟨0, 0, 1⟩⟩, C41_body 1 0.1 0 0 ⟨1, 0, 0, 0⟩, by norm_num [ValidBound, V3.norm, normSq, dot], trivial,
    by norm_num [C41_body], by norm_num [C41_body], ⟨⟨0, 0, 0⟩, ⟨0, 0, -1⟩, Or.inl ⟨hs, rfl⟩, ?_, ?_⟩, ?_⟩
  · have : Rad (C41_body 1 0.1 0 0 ⟨1, 0, 0, 0⟩) = 1.05 := by
      unfold Rad; rw [if_pos hs]; norm_num [C41_body]
    rw [this]; norm_num [V3.norm, normSq, dot]
  · norm_num [sd, dot]
  · unfold bodyBlocks
    rw [if_pos ((isSphere_iff _).2 hs)]
    norm_num [checkEnd, Bound.project, Wall.project, C41_body, Sylinder.make, dot, V3.norm, normSq]

/-- A body on the axis of a tube (not touching it when the tube is wide, and far from it): also a normal `0 / 0`. -/
theorem C41_tube_axis_false : ∃ (b : Bound) (s : Sylinder), ValidBound b ∧ Convex b ∧ 0 < s.radiusCollision ∧
    0 < s.lengthCollision ∧ ¬ Penetrates b s ∧ bodyBlocks b 0.1 s = none := by
  have hs : Sphere (C41_body 1 0.1 0 0 ⟨1, 0, 0, 0⟩) := by norm_num [Sphere, C41_body]
  have hv : ValidBound (.tube ⟨⟨0, 0, 0⟩, ⟨0, 0, 1⟩, 100, true⟩) := by norm_num [ValidBound, V3.norm, normSq, dot]
  refine ⟨.tube ⟨⟨0, 0, 0⟩, ⟨0, 0, 1⟩, 100, true⟩, C41_body 1 0.1 0 0 ⟨1, 0, 0, 0⟩, hv, rfl,
    by norm_num [C41_body], by norm_num [C41_body], ?_, ?_⟩
  · rintro ⟨p, x, hp, hx, hneg⟩
    rcases hp with ⟨-, rfl⟩ | ⟨h, -⟩
    · have : Rad (C41_body 1 0.1 0 0 ⟨1, 0, 0, 0⟩) = 1.05 := by
        unfold Rad; rw [if_pos hs]; norm_num [C41_body]
      rw [this] at hx
      have h := sd_lipschitz _ hv (C41_body 1 0.1 0 0 ⟨1, 0, 0, 0⟩).pos x
      have h2 : sd (.tube ⟨⟨0, 0, 0⟩, ⟨0, 0, 1⟩, 100, true⟩) (C41_body 1 0.1 0 0 ⟨1, 0, 0, 0⟩).pos = 100 := by
        norm_num [sd, axisDist, C41_body, Sylinder.make, dot, V3.norm, normSq]
      rw [h2] at h
      linarith
    · exact h hs
  · unfold bodyBlocks
    rw [if_pos ((isSphere_iff _).2 hs)]
    norm_num [checkEnd, Bound.project, Tube.project, C41_body, Sylinder.make, dot, V3.norm, normSq, normalized]

/-- A body exactly at the centre of a spherical boundary smaller than itself gets no constraint. -/
theorem C41_centre_false : ∃ (b : Bound) (s : Sylinder), ValidBound b ∧ Convex b ∧ 0 < s.radiusCollision ∧
    0 < s.lengthCollision ∧ Penetrates b s ∧ bodyBlocks b 0.1 s = some [] := by
  have hs : Sphere (C41_body 1 0.1 0 0 ⟨1, 0, 0, 0⟩) := by norm_num [Sphere, C41_body]
  refine ⟨.sphere ⟨⟨0, 0, 0⟩, 0.5, true⟩, C41_body 1 0.1 0 0 ⟨1, 0, 0, 0⟩, by norm_num [ValidBound], rfl,
    by norm_num [C41_body], by norm_num [C41_body], ⟨⟨0, 0, 0⟩, ⟨0, 0, -1⟩, Or.inl ⟨hs, rfl⟩, ?_, ?_⟩, ?_⟩
  · have : Rad (C41_body 1 0.1 0 0 ⟨1, 0, 0, 0⟩) = 1.05 := by
      unfold Rad; rw [if_pos hs]; norm_num [C41_body]
    rw [this]; norm_num [V3.norm, normSq, dot]
  · norm_num [sd, dot, V3.norm, normSq]
  · unfold bodyBlocks
    rw [if_pos ((isSphere_iff _).2 hs)]
    norm_num [checkEnd, Bound.project, SphereShell.project, C41_body, Sylinder.make, dot, V3.norm, normSq]

end Verif
