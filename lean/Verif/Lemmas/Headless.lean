import Verif.Spec.Headless
import Verif.Lemmas.HeadlessQuery
import Verif.Lemmas.Rename
import Mathlib.Tactic.LinearCombination
/-! Lemmas for C118: what is computed for bodies that are turned over. -/
namespace Verif.Headless
open Verif.V3 Verif.Near Verif.Collector Verif.Sim Verif.Spec.Layout Verif.Spec.Resume Verif.Spec.Momentum Verif.Spec.Headless Image RunStep Layout

/-- A body in the tree, turned over. -/
noncomputable def ov (e : EP) : EP := { e with direction := -e.direction }

theorem sub_smul_neg (a d : V3) (c : ℝ) : a - c • -d = a + c • d := by ext <;> simp
theorem add_smul_neg (a d : V3) (c : ℝ) : a + c • -d = a - c • d := by ext <;> simp <;> ring

theorem axisMat_neg (a b : ℝ) (d : V3) : axisMat a b (-d) = axisMat a b d := by
  funext i j
  unfold axisMat
  have : ∀ i, Near.comp (-d) i = -Near.comp d i := by intro i; fin_cases i <;> simp [Near.comp]
  rw [this, this, neg_mul_neg]

theorem stress_negI (dI dJ cI cJ : V3) (hI hJ rI rJ rho : ℝ) (P Q : V3) : collideStress (-dI) dJ cI cJ hI hJ rI rJ rho P Q = collideStress dI dJ cI cJ hI hJ rI rJ rho P Q := by
  unfold collideStress
  simp only [axisMat_neg]

theorem stress_negJ (dI dJ cI cJ : V3) (hI hJ rI rJ rho : ℝ) (P Q : V3) : collideStress dI (-dJ) cI cJ hI hJ rI rJ rho P Q = collideStress dI dJ cI cJ hI hJ rI rJ rho P Q := by
  unfold collideStress
  simp only [axisMat_neg]

theorem sp_sy_ov (I J : EP) (rev : Bool) : sp_sy I (ov J) rev = sp_sy I J rev := by
  unfold sp_sy
  have e1 : (ov J).direction = -J.direction := rfl
  have e2 : (ov J).pos = J.pos := rfl
  have e3 : (ov J).lengthCollision = J.lengthCollision := rfl
  have e4 : (ov J).radiusCollision = J.radiusCollision := rfl
  have e5 : (ov J).colBuf = J.colBuf := rfl
  have e6 : ∀ sep P Q, contact sep I (ov J) P Q = contact sep I J P Q := fun _ _ _ => rfl
  simp only [e1, e2, e3, e4, e5, e6, sub_smul_neg, add_smul_neg, stress_negJ]
  rw [DCP.distPointSeg_over]

theorem sp_sy_ov' (I J : EP) (rev : Bool) : sp_sy (ov I) J rev = sp_sy I J rev := rfl

/-- The axis of a rod is not too short. -/
def Axis (e : EP) : Prop := 2 * DCP.dblEps ≤ normSq ((e.pos + (0.5 * e.lengthCollision) • e.direction) - (e.pos - (0.5 * e.lengthCollision) • e.direction))

theorem bind_three {α : Type} {o o' : Option DCP.Result} (h : o'.map (fun r => (r.distance, r.Ploc, r.Qloc)) = o.map fun r => (r.distance, r.Ploc, r.Qloc)) (F : ℝ → V3 → V3 → Option α) :
    (o'.bind fun q => F q.distance q.Ploc q.Qloc) = o.bind fun q => F q.distance q.Ploc q.Qloc := by
  cases o <;> cases o'
  · rfl
  · cases h
  · cases h
  · simp only [Option.map_some, Option.some.injEq, Prod.mk.injEq] at h
    obtain ⟨h1, h2, h3⟩ := h
    simp only [Option.bind_some, h1, h2, h3]

theorem sy_sy_ovI (I J : EP) (hI : Axis I) (hJ : Axis J) : sy_sy (ov I) J = sy_sy I J := by
  unfold sy_sy
  have e1 : (ov I).direction = -I.direction := rfl
  have e2 : (ov I).pos = I.pos := rfl
  have e3 : (ov I).lengthCollision = I.lengthCollision := rfl
  have e4 : (ov I).radiusCollision = I.radiusCollision := rfl
  have e5 : (ov I).colBuf = I.colBuf := rfl
  have e6 : ∀ sep P Q, contact sep (ov I) J P Q = contact sep I J P Q := fun _ _ _ => rfl
  simp only [e1, e2, e3, e4, e5, e6, sub_smul_neg, add_smul_neg, stress_negI]
  have hd := DCP.dblEps_pos
  exact bind_three (DCP.query_overP DCP.dblEps _ _ _ _ (lt_of_lt_of_le (by linarith) hI) (lt_of_lt_of_le (by linarith) hJ)) fun d P Q =>
    if d - (I.radiusCollision + J.radiusCollision) < I.radiusCollision * I.colBuf + J.radiusCollision * J.colBuf then do
      let stress ← collideStress I.direction J.direction I.pos J.pos I.lengthCollision J.lengthCollision I.radiusCollision J.radiusCollision 1 P Q
      some (some ((contact (d - (I.radiusCollision + J.radiusCollision)) I J P Q).setStress stress))
    else some none

theorem sy_sy_ovJ (I J : EP) (hI : Axis I) (hJ : Axis J) : sy_sy I (ov J) = sy_sy I J := by
  unfold sy_sy
  have e1 : (ov J).direction = -J.direction := rfl
  have e2 : (ov J).pos = J.pos := rfl
  have e3 : (ov J).lengthCollision = J.lengthCollision := rfl
  have e4 : (ov J).radiusCollision = J.radiusCollision := rfl
  have e5 : (ov J).colBuf = J.colBuf := rfl
  have e6 : ∀ sep P Q, contact sep I (ov J) P Q = contact sep I J P Q := fun _ _ _ => rfl
  simp only [e1, e2, e3, e4, e5, e6, sub_smul_neg, add_smul_neg, stress_negJ]
  have hd := DCP.dblEps_pos
  exact bind_three (DCP.query_overQ DCP.dblEps _ _ _ _ hd hI (lt_of_lt_of_le (by linarith) hJ)) fun d P Q =>
    if d - (I.radiusCollision + J.radiusCollision) < I.radiusCollision * I.colBuf + J.radiusCollision * J.colBuf then do
      let stress ← collideStress I.direction J.direction I.pos J.pos I.lengthCollision J.lengthCollision I.radiusCollision J.radiusCollision 1 P Q
      some (some ((contact (d - (I.radiusCollision + J.radiusCollision)) I J P Q).setStress stress))
    else some none

/-- Rods are not too short. -/
def Fit (e : EP) : Prop := isSphere e = false → Axis e

theorem recorded_ovI (I J : EP) (hI : Fit I) (hJ : Fit J) : recorded (ov I) J = recorded I J := by
  have h : collide (ov I) J = collide I J := by
    have e : isSphere (ov I) = isSphere I := rfl
    unfold collide
    rw [e]
    cases h1 : isSphere I <;> cases h2 : isSphere J <;> simp only [Bool.false_eq_true, if_false, if_true]
    · exact sy_sy_ovI I J (hI h1) (hJ h2)
    · exact sp_sy_ov J I true
    · rfl
    · rfl
  unfold recorded
  rw [h]

theorem recorded_ovJ (I J : EP) (hI : Fit I) (hJ : Fit J) : recorded I (ov J) = recorded I J := by
  have h : collide I (ov J) = collide I J := by
    have e : isSphere (ov J) = isSphere J := rfl
    unfold collide
    rw [e]
    cases h1 : isSphere I <;> cases h2 : isSphere J <;> simp only [Bool.false_eq_true, if_false, if_true]
    · exact sy_sy_ovJ I J (hI h1) (hJ h2)
    · rfl
    · exact sp_sy_ov I J false
    · rfl
  unfold recorded
  rw [h]

theorem neg_neg' (a : V3) : -(-a) = a := by ext <;> simp

theorem fit_ov {e : EP} (h : Fit e) : Fit (ov e) := by
  intro hs
  have := h hs
  unfold Axis at this ⊢
  have e1 : (ov e).direction = -e.direction := rfl
  have e2 : (ov e).pos = e.pos := rfl
  have e3 : (ov e).lengthCollision = e.lengthCollision := rfl
  rw [e1, e2, e3, sub_smul_neg, add_smul_neg]
  refine this.trans (le_of_eq ?_)
  simp only [normSq, dot, sub_x, sub_y, sub_z]; ring

/-! ### contacts of all bodies -/

/-- A body seen, turned over if it is in `S`. -/
noncomputable def over (S : ℤ → Bool) (w : View) : View := (w.1, w.2.1, if S w.1.1 then -w.2.2 else w.2.2)

theorem over_seen (S : ℤ → Bool) (b : Sylinder) : seenOver S b = over S (seen b) := rfl

theorem over_over (S : ℤ → Bool) (w : View) : over S (over S w) = w := by
  obtain ⟨k, p, d⟩ := w
  unfold over
  by_cases h : S k.1 = true
  · simp only [if_pos h, neg_neg']
  · simp only [if_neg h]

theorem over_id {S : ℤ → Bool} {w : View} (h : S w.1.1 = false) : over S w = w := by
  obtain ⟨k, p, d⟩ := w
  have h : S k.1 = false := h
  unfold over
  simp [h]

theorem ep_over (S : ℤ → Bool) (c : Place.Cfg) (w : View) : ep c (over S w) = if S w.1.1 then ov (ep c w) else ep c w := by
  unfold over
  by_cases h : S w.1.1 = true
  · simp only [if_pos h]; rfl
  · simp only [if_neg h]

theorem fit_shift {d : Stats.Domain} {m : Idx} {e : EP} (h : Fit e) : Fit (shift d m e) := by
  intro hs
  have := h hs
  unfold Axis at this ⊢
  refine this.trans (le_of_eq ?_)
  have e1 : (shift d m e).direction = e.direction := rfl
  have e3 : (shift d m e).lengthCollision = e.lengthCollision := rfl
  rw [e1, e3]
  simp only [normSq, dot, sub_x, sub_y, sub_z, add_x, add_y, add_z, smul_x, smul_y, smul_z]; ring

theorem pair_over {S : ℤ → Bool} {c c' : Place.Cfg} {V V' : List View}
    (hc : c'.diameterColRatio = c.diameterColRatio ∧ c'.lengthColRatio = c.lengthColRatio ∧ c'.colBuf = c.colBuf ∧ c'.d = c.d)
    (hfit : ∀ w ∈ V, Fit (ep c w)) (hV : ∀ w ∈ V, over S w ∈ V') (k : ℤ × ℤ × Idx) (b : Block) (h : PairOf c V k b) : PairOf c' V' k b := by
  obtain ⟨v, hv, w, hw, e1, e2, e3, e4, e5⟩ := h
  refine ⟨over S v, hV v hv, over S w, hV w hw, e1, e2, e3, by rw [hc.2.2.2]; exact e4, ?_⟩
  rw [Rename.ep_same hc, Rename.ep_same hc, hc.2.2.2, ep_over, ep_over, ← e5]
  have f1 := hfit v hv
  have f2 := fit_shift (d := c.d) (m := k.2.2) (hfit w hw)
  have hs : shift c.d k.2.2 (ov (ep c w)) = ov (shift c.d k.2.2 (ep c w)) := rfl
  split_ifs
  · rw [hs, recorded_ovI _ _ f1 (fit_ov f2), recorded_ovJ _ _ f1 f2]
  · exact recorded_ovI _ _ f1 f2
  · rw [hs, recorded_ovJ _ _ f1 f2]
  · rfl

theorem fit_over {S : ℤ → Bool} {c c' : Place.Cfg} {w : View} (hc : c'.diameterColRatio = c.diameterColRatio ∧ c'.lengthColRatio = c.lengthColRatio ∧ c'.colBuf = c.colBuf ∧ c'.d = c.d)
    (h : Fit (ep c w)) : Fit (ep c' (over S w)) := by
  rw [Rename.ep_same hc, ep_over]
  split_ifs
  · exact fit_ov h
  · exact h

/-! ### boundaries -/

/-- A body, turned over. -/
def upset (x : Sylinder) : Sylinder := { x with orientation := ⟨-x.orientation.x, x.orientation.w, x.orientation.z, -x.orientation.y⟩ }

theorem upset_direction {x : Sylinder} (h : Spec.UnitQuat x.orientation) : (upset x).direction = -x.direction := by
  have h : x.orientation.w ^ 2 + x.orientation.x ^ 2 + x.orientation.y ^ 2 + x.orientation.z ^ 2 = 1 := h
  have e : (upset x).orientation = ⟨-x.orientation.x, x.orientation.w, x.orientation.z, -x.orientation.y⟩ := rfl
  ext
  · simp only [Sylinder.direction, e, Quat.rot, Quat.vec, V3.cross, add_x, add_y, add_z, smul_x, neg_x]; ring
  · simp only [Sylinder.direction, e, Quat.rot, Quat.vec, V3.cross, add_x, add_y, add_z, smul_y, neg_y]; ring
  · simp only [Sylinder.direction, e, Quat.rot, Quat.vec, V3.cross, add_x, add_y, add_z, smul_z, neg_z]
    linear_combination (-2) * h

theorem walls_upset (b : BoundaryCol.Bound) (colBuf : ℝ) {x : Sylinder} (h : Spec.UnitQuat x.orientation) :
    ((BoundaryCol.bodyBlocks b colBuf (upset x)).getD []).Perm ((BoundaryCol.bodyBlocks b colBuf x).getD []) := by
  have hd : (upset x).orientation.rot ⟨0, 0, 1⟩ = -x.orientation.rot ⟨0, 0, 1⟩ := upset_direction h
  have hend : ∀ query radius, BoundaryCol.checkEnd b colBuf (upset x) query radius = BoundaryCol.checkEnd b colBuf x query radius := fun _ _ => rfl
  have e1 : (upset x).pos = x.pos := rfl
  have e2 : (upset x).lengthCollision = x.lengthCollision := rfl
  have e3 : (upset x).radiusCollision = x.radiusCollision := rfl
  have e4 : (upset x).isSphere true = x.isSphere true := rfl
  unfold BoundaryCol.bodyBlocks
  simp only [hd, hend, e1, e2, e3, e4, sub_smul_neg, add_smul_neg]
  split
  · exact List.Perm.refl _
  · generalize BoundaryCol.checkEnd b colBuf x _ _ = o1
    generalize BoundaryCol.checkEnd b colBuf x _ _ = o2
    cases o1 <;> cases o2
    · exact List.Perm.refl _
    · exact List.Perm.refl _
    · exact List.Perm.refl _
    · exact List.perm_append_comm

/-! ### motion -/

open Spec.Motion Spec.Mobility Mobility in
theorem moves_upset {mu : ℝ} {x : Sylinder} {F U : V3 × V3} (hx : Spec.UnitQuat x.orientation) (h : Moves mu x F U) : Moves mu (upset x) F U := by
  rcases h with h | ⟨h1, p, e, r, h2, hp, he, hr, hF⟩
  · exact .inl h
  · refine .inr ⟨h1, p, e, r, h2, hp, he, hr, ?_⟩
    rw [← hF, upset_direction hx]
    unfold drag
    have hd : dot (-x.direction) U.1 = -dot x.direction U.1 := by simp only [dot, neg_x, neg_y, neg_z]; ring
    rw [hd]
    refine Prod.ext (V3.ext ?_ ?_ ?_) rfl <;> simp

end Verif.Headless
