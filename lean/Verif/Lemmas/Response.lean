import Verif.Lemmas.Dilute
import Verif.Lemmas.Work
/-! How a constraint responds to its multiplier (C109). -/
namespace Verif.Response
open Mobility Spec.Mobility Collector Spec.Collector Spec.Motion Spec.Dilute Verif.V3

theorem moves_ex {mu : ℝ} (hm : 0 < mu) {b : Sylinder} (hv : Valid b) (F : V3 × V3) : ∃ U, Moves mu b F U := by
  cases h : b.isImmovable with
  | true => exact ⟨(0, 0), .inl ⟨h, rfl⟩⟩
  | false =>
    obtain ⟨p, e, r, hc, hp, he, hr, -⟩ := dragInv_pos b hv.radius hv.length mu hm h
    exact ⟨_, .inr ⟨h, p, e, r, hc, hp, he, hr, mobFun_drag p e r hp.ne' he.ne' hr.ne' _ (direction_unit b hv.unit) F⟩⟩

theorem drag_power (p e r : ℝ) (d : V3) (v : V3 × V3) :
    power (drag p e r d v) v = p * dot d v.1 ^ 2 + e * (dot v.1 v.1 - dot d v.1 ^ 2) + r * dot v.2 v.2 := by
  simp only [power, drag, V3.dot, add_x, add_y, add_z, sub_x, sub_y, sub_z, smul_x, smul_y, smul_z]; ring

theorem along_le (d v : V3) (hd : dot d d = 1) : dot d v ^ 2 ≤ dot v v := by
  have : dot v v - dot d v ^ 2 = dot (v - dot d v • d) (v - dot d v • d) := by
    have : dot (v - dot d v • d) (v - dot d v • d) = dot v v - 2 * dot d v ^ 2 + dot d v ^ 2 * dot d d := by
      simp only [V3.dot, sub_x, sub_y, sub_z, smul_x, smul_y, smul_z]; ring
    rw [this, hd]; ring
  have h2 : 0 ≤ dot (v - dot d v • d) (v - dot d v • d) := by unfold V3.dot; nlinarith [sq_nonneg (v - dot d v • d).x, sq_nonneg (v - dot d v • d).y, sq_nonneg (v - dot d v • d).z]
  linarith

theorem dot_nonneg (v : V3) : 0 ≤ dot v v := by unfold V3.dot; nlinarith [sq_nonneg v.x, sq_nonneg v.y, sq_nonneg v.z]

theorem dot_zero {v : V3} (h : dot v v = 0) : v = 0 := by
  unfold V3.dot at h
  have hx : v.x = 0 := by nlinarith [sq_nonneg v.x, sq_nonneg v.y, sq_nonneg v.z]
  have hy : v.y = 0 := by nlinarith [sq_nonneg v.x, sq_nonneg v.y, sq_nonneg v.z]
  have hz : v.z = 0 := by nlinarith [sq_nonneg v.x, sq_nonneg v.y, sq_nonneg v.z]
  exact V3.ext hx hy hz

/-- Drag takes energy away. -/
theorem power_nonneg {mu : ℝ} {b : Sylinder} (hv : Valid b) {F U : V3 × V3} (h : Moves mu b F U) : 0 ≤ power F U := by
  rcases h with ⟨-, rfl⟩ | ⟨-, p, e, r, -, hp, he, hr, rfl⟩
  · simp [power, V3.dot]
  · rw [drag_power]
    have h1 := along_le _ U.1 (direction_unit b hv.unit)
    have h2 := mul_nonneg he.le (sub_nonneg.2 h1)
    have h3 := mul_nonneg hr.le (dot_nonneg U.2)
    have h4 := mul_nonneg hp.le (sq_nonneg (dot b.direction U.1))
    linarith

theorem power_pos {mu : ℝ} {b : Sylinder} (hv : Valid b) {F U : V3 × V3} (h : Moves mu b F U) (hb : b.isImmovable = false) (hF : F ≠ (0, 0)) : 0 < power F U := by
  rcases (power_nonneg hv h).lt_or_eq with h0 | h0
  · exact h0
  exfalso
  rcases h with ⟨h, -⟩ | ⟨-, p, e, r, -, hp, he, hr, rfl⟩
  · rw [hb] at h; cases h
  rw [drag_power] at h0
  have h1 := along_le _ U.1 (direction_unit b hv.unit)
  have h2 := mul_nonneg he.le (sub_nonneg.2 h1)
  have h3 := mul_nonneg hr.le (dot_nonneg U.2)
  have h4 := mul_nonneg hp.le (sq_nonneg (dot b.direction U.1))
  have e1 : dot b.direction U.1 ^ 2 = 0 := (mul_eq_zero.1 (by linarith : p * dot b.direction U.1 ^ 2 = 0)).resolve_left hp.ne'
  have e2 : dot U.1 U.1 - dot b.direction U.1 ^ 2 = 0 := (mul_eq_zero.1 (by linarith : e * (dot U.1 U.1 - dot b.direction U.1 ^ 2) = 0)).resolve_left he.ne'
  have e3 : dot U.2 U.2 = 0 := (mul_eq_zero.1 (by linarith : r * dot U.2 U.2 = 0)).resolve_left hr.ne'
  have z1 := dot_zero (by rw [e1] at e2; linarith : dot U.1 U.1 = 0)
  have z2 := dot_zero e3
  apply hF
  unfold drag
  rw [z1, z2]
  refine Prod.ext (V3.ext ?_ ?_ ?_) (V3.ext ?_ ?_ ?_) <;> simp [V3.dot]

/-- Every constraint has a response, which is not negative. -/
theorem ex {mu dt : ℝ} (hm : 0 < mu) (hdt : 0 < dt) (bodies : List Sylinder) (hv : ∀ x ∈ bodies, Valid x)
    (hidx : ∀ (g : ℕ) (x : Sylinder), bodies[g]? = some x → x.globalIndex = g) (b : Block) (hI : 0 ≤ b.globalIndexI ∧ b.globalIndexI < bodies.length)
    (hJ : b.oneSide = false → 0 ≤ b.globalIndexJ ∧ b.globalIndexJ < bodies.length) :
    ∃ lam, Response mu dt bodies b lam ∧ 0 ≤ lam ∧
      ((b.bilateral = true ∧ 0 < b.kappa) ∨ (∃ x ∈ bodies, x.isImmovable = false ∧ (unitForce b x.globalIndex, unitTorque b x.globalIndex) ≠ (0, 0)) → 0 < lam) := by
  have hx : ∀ g : ℤ, ∃ U : V3 × V3, ∀ x ∈ bodies, x.globalIndex = g → Moves mu x (unitForce b g, unitTorque b g) U := by
    intro g
    by_cases hg : ∃ x ∈ bodies, x.globalIndex = g
    · obtain ⟨x, hx, rfl⟩ := hg
      obtain ⟨U, hU⟩ := moves_ex hm (hv x hx) (unitForce b x.globalIndex, unitTorque b x.globalIndex)
      refine ⟨U, fun y hy hyx => ?_⟩
      obtain ⟨i, hi, rfl⟩ := List.getElem_of_mem hx
      obtain ⟨j, hj, rfl⟩ := List.getElem_of_mem hy
      have e1 := hidx i _ (List.getElem?_eq_getElem hi)
      have e2 := hidx j _ (List.getElem?_eq_getElem hj)
      obtain rfl : i = j := by omega
      exact hU
    · exact ⟨(0, 0), fun x hx hxg => absurd ⟨x, hx, hxg⟩ hg⟩
  choose V hV using hx
  have hmov : ∀ x ∈ bodies, Moves mu x (unitForce b x.globalIndex, unitTorque b x.globalIndex) ((V x.globalIndex).1, (V x.globalIndex).2) := fun x hx => hV _ x hx rfl
  have hsum := Work.unit_power bodies.length (fun g => (V g).1) (fun g => (V g).2) b hI hJ
  have hterm : ∀ g ∈ List.range bodies.length, 0 ≤ V3.dot (unitForce b (g : ℕ)) (V (g : ℕ)).1 + V3.dot (unitTorque b (g : ℕ)) (V (g : ℕ)).2 := by
    intro g hg
    have hg := List.mem_range.1 hg
    have e := hidx g _ (List.getElem?_eq_getElem hg)
    have := power_nonneg (hv _ (List.getElem_mem hg)) (hmov _ (List.getElem_mem hg))
    rw [e] at this
    exact this
  have hg0 : 0 ≤ gapRate (fun g => (V g).1) (fun g => (V g).2) b := by
    rw [← hsum]
    refine List.sum_nonneg ?_
    intro a ha
    obtain ⟨g, hg, rfl⟩ := List.mem_map.1 ha
    exact hterm g hg
  have hy0 : 0 ≤ yield dt b := by
    unfold yield
    split
    · rename_i h
      exact div_nonneg (div_nonneg zero_le_one h.2.le) hdt.le
    · exact le_rfl
  refine ⟨_, ⟨_, _, hmov, rfl⟩, add_nonneg hg0 hy0, ?_⟩
  rintro (hs | ⟨x, hx, hmv, hne⟩)
  · have : 0 < yield dt b := by
      unfold yield
      rw [if_pos hs]
      exact div_pos (div_pos zero_lt_one hs.2) hdt
    linarith
  · have hp := power_pos (hv x hx) (hmov x hx) hmv hne
    obtain ⟨g, hg, rfl⟩ := List.getElem_of_mem hx
    have e := hidx g _ (List.getElem?_eq_getElem hg)
    rw [e] at hp
    have hle : V3.dot (unitForce b (g : ℕ)) (V (g : ℕ)).1 + V3.dot (unitTorque b (g : ℕ)) (V (g : ℕ)).2 ≤
        ((List.range bodies.length).map fun g : ℕ => V3.dot (unitForce b g) (V g).1 + V3.dot (unitTorque b g) (V g).2).sum := by
      refine List.single_le_sum (fun a ha => ?_) _ (List.mem_map.2 ⟨g, List.mem_range.2 hg, rfl⟩)
      obtain ⟨g, hg, rfl⟩ := List.mem_map.1 ha
      exact hterm g hg
    have hp' : 0 < V3.dot (unitForce b (g : ℕ)) (V (g : ℕ)).1 + V3.dot (unitTorque b (g : ℕ)) (V (g : ℕ)).2 := hp
    rw [hsum] at hle
    linarith

end Verif.Response
