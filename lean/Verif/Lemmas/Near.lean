import Verif.Spec.Near
import Verif.Props.DCP
import Mathlib.Tactic.LinearCombination
import Mathlib.Tactic.FinCases
namespace Verif.V3

theorem normalized_neg (a : V3) : normalized (-a) = -normalized a := by
  have : normSq (-a) = normSq a := by simp [normSq, dot]
  unfold normalized
  rw [this, norm_neg]
  split
  · ext <;> simp
  · rfl

theorem normalized_sub_comm (a b : V3) : normalized (a - b) = -normalized (b - a) := by
  rw [← normalized_neg]; congr 1; ext <;> simp

/-- A vector is its length times its direction. -/
theorem cross_normalized (a : V3) : cross a (normalized a) = 0 := by
  by_cases h : a = 0
  · subst h; ext <;> simp
  · rw [normalized_eq a h]; ext <;> simp <;> ring

end Verif.V3

namespace Verif.Near
open Verif.V3 Verif.Collector Verif.Spec.Near

/-! ### stress -/

theorem gamma_of_n (r h rho : ℝ) : (initializeSyGA r h rho).1 = (initializeSyN r h rho).1 + (initializeSyN r h rho).2 ∧
    (initializeSyGA r h rho).2 = 2 * (initializeSyN r h rho).1 := by
  constructor <;> simp only [initializeSyGA, initializeSyN] <;> ring

theorem initializeSyN_pos (r h : ℝ) (hr : 0 < r) (hh : 0 ≤ h) :
    0 < (initializeSyN r h 1).1 ∧ 0 < (initializeSyN r h 1).2 := by
  have : 0 ≤ h / 2 / r := by positivity
  have := Real.pi_pos
  constructor <;> simp only [initializeSyN] <;> positivity

@[simp] theorem comp0 (v : V3) : comp v 0 = v.x := rfl
@[simp] theorem comp1 (v : V3) : comp v 1 = v.y := rfl
@[simp] theorem comp2 (v : V3) : comp v 2 = v.z := rfl

/-- The product of the inverse matrix with `x`. -/
noncomputable def apply (M : Mat3) (x : V3) : V3 :=
  ⟨M 0 0 * x.x + M 0 1 * x.y + M 0 2 * x.z, M 1 0 * x.x + M 1 1 * x.y + M 1 2 * x.z,
   M 2 0 * x.x + M 2 1 * x.y + M 2 2 * x.z⟩

/-- Row of a matrix. -/
def row (M : Mat3) (i : Fin 3) : V3 := ⟨M i 0, M i 1, M i 2⟩

theorem sgTerm_eq (N G : Mat3) (x : V3) (i j : Fin 3) : sgTerm N G x i j = comp (cross (apply G x) (row N i)) j := by
  fin_cases j <;> simp [sgTerm, Fin.sum_univ_three, levi, comp, apply, row] <;> ring

theorem axisMat_symm (a b : ℝ) (d : V3) (i j : Fin 3) : axisMat a b d i j = axisMat a b d j i := by
  unfold axisMat
  rw [mul_comm (comp d i)]
  by_cases h : i = j
  · rw [h]
  · rw [if_neg h, if_neg (Ne.symm h)]

theorem sg_axial (a b α β : ℝ) (d x : V3) (hd : dot d d = 1) (hα : α * (a + b) = 1) (hβ : β * (2 * a) = 1) :
    let S := sgTerm (axisMat a b d) (axisMat α β d) x
    S 1 2 - S 2 1 = x.x ∧ S 2 0 - S 0 2 = x.y ∧ S 0 1 - S 1 0 = x.z ∧ S 0 0 + S 1 1 + S 2 2 = 0 := by
  intro S
  set c := dot d x with hc
  have hw : apply (axisMat α β d) x = α • x + ((β - α) * c) • d := by
    rw [hc]; ext <;> simp [apply, axisMat, dot] <;> ring
  have hS : ∀ i j, S i j = comp (cross (α • x + ((β - α) * c) • d) (row (axisMat a b d) i)) j := by
    intro i j; rw [← hw]; exact sgTerm_eq _ _ _ i j
  have hdd : d.x * d.x + d.y * d.y + d.z * d.z = 1 := hd
  have hcx : d.x * x.x + d.y * x.y + d.z * x.z = c := hc.symm
  refine ⟨?_, ?_, ?_, ?_⟩
  · simp only [hS]
    simp [row, axisMat]
    linear_combination (α * x.x * (b - a) + (β - α) * c * d.x * (b - a)) * hdd - (b - a) * d.x * α * hcx
      - (b - a) * d.x * (β - α) * c * hdd + (x.x - c * d.x) * hα + c * d.x * hβ
  · simp only [hS]
    simp [row, axisMat]
    linear_combination (α * x.y * (b - a) + (β - α) * c * d.y * (b - a)) * hdd - (b - a) * d.y * α * hcx
      - (b - a) * d.y * (β - α) * c * hdd + (x.y - c * d.y) * hα + c * d.y * hβ
  · simp only [hS]
    simp [row, axisMat]
    linear_combination (α * x.z * (b - a) + (β - α) * c * d.z * (b - a)) * hdd - (b - a) * d.z * α * hcx
      - (b - a) * d.z * (β - α) * c * hdd + (x.z - c * d.z) * hα + c * d.z * hβ
  · simp only [hS]
    simp [row, axisMat]
    ring

/-- The stress is defined for positive radii. -/
theorem collideStress_some (dI dJ cI cJ : V3) (hI hJ rI rJ : ℝ) (P Q : V3) (hrI : 0 < rI) (hrJ : 0 < rJ) (h0I : 0 ≤ hI)
    (h0J : 0 ≤ hJ) : ∃ αI βI αJ βJ : ℝ,
      αI * ((initializeSyN rI hI 1).1 + (initializeSyN rI hI 1).2) = 1 ∧ βI * (2 * (initializeSyN rI hI 1).1) = 1 ∧
      αJ * ((initializeSyN rJ hJ 1).1 + (initializeSyN rJ hJ 1).2) = 1 ∧ βJ * (2 * (initializeSyN rJ hJ 1).1) = 1 ∧
      collideStress dI dJ cI cJ hI hJ rI rJ 1 P Q = some (outer cI (-(Q - P).normalized) + outer cJ (Q - P).normalized +
        sgTerm (axisMat (initializeSyN rI hI 1).1 (initializeSyN rI hI 1).2 dI) (axisMat αI βI dI)
          (cross (P - cI) (-(Q - P).normalized)) +
        sgTerm (axisMat (initializeSyN rJ hJ 1).1 (initializeSyN rJ hJ 1).2 dJ) (axisMat αJ βJ dJ)
          (cross (Q - cJ) (Q - P).normalized)) := by
  obtain ⟨gI1, gI2⟩ := gamma_of_n rI hI 1
  obtain ⟨gJ1, gJ2⟩ := gamma_of_n rJ hJ 1
  obtain ⟨pI1, pI2⟩ := initializeSyN_pos rI hI hrI h0I
  obtain ⟨pJ1, pJ2⟩ := initializeSyN_pos rJ hJ hrJ h0J
  refine ⟨1 / (initializeSyGA rI hI 1).1, 1 / (initializeSyGA rI hI 1).2, 1 / (initializeSyGA rJ hJ 1).1,
    1 / (initializeSyGA rJ hJ 1).2, ?_, ?_, ?_, ?_, ?_⟩
  · rw [gI1]; field_simp
  · rw [gI2]; field_simp
  · rw [gJ1]; field_simp
  · rw [gJ2]; field_simp
  · unfold collideStress
    rw [if_neg (by rintro (h | h) <;> linarith)]
    simp only
    rw [if_neg (by rw [gI1, gI2, gJ1, gJ2]; rintro (h | h | h | h) <;> linarith)]

theorem cross_sum (P Q cI cJ F : V3) (h : cross (Q - P) F = 0) :
    cross cI (-F) + cross cJ F + cross (P - cI) (-F) + cross (Q - cJ) F = 0 := by
  have hx := congrArg V3.x h
  have hy := congrArg V3.y h
  have hz := congrArg V3.z h
  simp at hx hy hz
  ext <;> simp
  · linear_combination hx
  · linear_combination hy
  · linear_combination hz

theorem collideStress_symm (dI dJ cI cJ : V3) (hI hJ rI rJ : ℝ) (P Q : V3) (hrI : 0 < rI) (hrJ : 0 < rJ) (h0I : 0 ≤ hI)
    (h0J : 0 ≤ hJ) (hdI : norm dI = 1) (hdJ : norm dJ = 1) :
    ∃ S, collideStress dI dJ cI cJ hI hJ rI rJ 1 P Q = some S ∧ (∀ i j, S i j = S j i) ∧
      S 0 0 + S 1 1 + S 2 2 = dot (cJ - cI) (Q - P).normalized := by
  obtain ⟨αI, βI, αJ, βJ, h1, h2, h3, h4, hS⟩ := collideStress_some dI dJ cI cJ hI hJ rI rJ P Q hrI hrJ h0I h0J
  refine ⟨_, hS, ?_, ?_⟩
  all_goals
    obtain ⟨i1, i2, i3, i4⟩ := sg_axial _ _ αI βI dI (cross (P - cI) (-(Q - P).normalized)) (normSq_one_of_norm dI hdI) h1 h2
    obtain ⟨j1, j2, j3, j4⟩ := sg_axial _ _ αJ βJ dJ (cross (Q - cJ) ((Q - P).normalized)) (normSq_one_of_norm dJ hdJ) h3 h4
    have hc := cross_sum P Q cI cJ _ (cross_normalized (Q - P))
    set F := (Q - P).normalized
    set A := sgTerm (axisMat (initializeSyN rI hI 1).1 (initializeSyN rI hI 1).2 dI) (axisMat αI βI dI)
      (cross (P - cI) (-F))
    set B := sgTerm (axisMat (initializeSyN rJ hJ 1).1 (initializeSyN rJ hJ 1).2 dJ) (axisMat αJ βJ dJ)
      (cross (Q - cJ) F)
    have hx := congrArg V3.x hc
    have hy := congrArg V3.y hc
    have hz := congrArg V3.z hc
    simp at hx hy hz i1 i2 i3 i4 j1 j2 j3 j4
  · have e01 : ∀ M : Mat3, M = outer cI (-F) + outer cJ F + A + B → M 0 1 = M 1 0 ∧ M 0 2 = M 2 0 ∧ M 1 2 = M 2 1 := by
      rintro M rfl
      simp [outer]
      refine ⟨?_, ?_, ?_⟩
      · linear_combination i3 + j3 + hz
      · linear_combination -i2 - j2 - hy
      · linear_combination i1 + j1 + hx
    obtain ⟨a, b, c⟩ := e01 _ rfl
    intro i j
    fin_cases i <;> fin_cases j <;> first | rfl | exact a | exact b | exact c | exact a.symm | exact b.symm | exact c.symm
  · simp [outer, dot]
    linear_combination i4 + j4

theorem collideStress_swap (dI dJ cI cJ : V3) (hI hJ rI rJ : ℝ) (P Q : V3) (rho : ℝ) :
    collideStress dJ dI cJ cI hJ hI rJ rI rho Q P = collideStress dI dJ cI cJ hI hJ rI rJ rho P Q := by
  have e : (P - Q).normalized = -(Q - P).normalized := normalized_sub_comm P Q
  have en : ∀ v : V3, - -v = v := fun v => by ext <;> simp
  unfold collideStress
  by_cases h : rI = 0 ∨ rJ = 0
  · rw [if_pos h, if_pos h.symm]
  · rw [if_neg h, if_neg (fun h' => h h'.symm)]
    simp only
    by_cases g : (initializeSyGA rI hI rho).1 = 0 ∨ (initializeSyGA rI hI rho).2 = 0 ∨ (initializeSyGA rJ hJ rho).1 = 0 ∨
        (initializeSyGA rJ hJ rho).2 = 0
    · rw [if_pos g, if_pos (by tauto)]
    · rw [if_neg g, if_neg (by tauto), e, en]
      congr 1
      generalize sgTerm _ _ _ = A
      generalize sgTerm _ _ _ = B
      rw [add_comm (outer cJ _) (outer cI _), add_assoc, add_assoc, add_comm A B, ← add_assoc, ← add_assoc]

theorem collideStress_shift (dI dJ cI cJ : V3) (hI hJ rI rJ : ℝ) (P Q : V3) (rho : ℝ) (v : V3) :
    collideStress dI dJ (cI + v) (cJ + v) hI hJ rI rJ rho (P + v) (Q + v) =
      collideStress dI dJ cI cJ hI hJ rI rJ rho P Q := by
  have e1 : ∀ a b : V3, a + v - (b + v) = a - b := fun a b => by ext <;> simp
  have e2 : ∀ F : V3, outer (cI + v) (-F) + outer (cJ + v) F = outer cI (-F) + outer cJ F := by
    intro F
    funext i j
    fin_cases i <;> fin_cases j <;> simp [outer] <;> ring
  unfold collideStress
  simp only [e1, e2]

/-! ### contacts -/

theorem contact_reverse (sep : ℝ) (I J : EP) (P Q : V3) : (contact sep J I Q P).reverseIJ = contact sep I J P Q := by
  have e : (Q - P).normalized = -(P - Q).normalized := normalized_sub_comm Q P
  have en : ∀ v : V3, - -v = v := fun v => by ext <;> simp
  unfold contact Block.reverseIJ
  simp only [e, en]

theorem isSphere_iff (b : EP) : isSphere b = true ↔ Sphere b := by simp [isSphere, Sphere]

theorem segment_core (b : EP) (hs : ¬ Sphere b) (hl : 0 ≤ b.lengthCollision) (p : V3) :
    Spec.DCP.OnSegment (b.pos - (0.5 * b.lengthCollision) • b.direction) (b.pos + (0.5 * b.lengthCollision) • b.direction) p ↔
      Core b p := by
  constructor
  · rintro ⟨s, h0, h1, rfl⟩
    refine Or.inr ⟨hs, (s - 1 / 2) * b.lengthCollision, ?_, ?_⟩
    · rw [abs_mul, abs_of_nonneg hl]
      have : |s - 1 / 2| ≤ 1 / 2 := by rw [abs_le]; constructor <;> linarith
      nlinarith
    · ext <;> simp <;> ring
  · rintro (⟨h, -⟩ | ⟨-, x, hx, rfl⟩)
    · exact absurd h hs
    · rcases eq_or_lt_of_le hl with h | h
      · have : x = 0 := by rw [← h, zero_div] at hx; exact abs_nonpos_iff.1 hx
        subst this
        refine ⟨0, le_rfl, by norm_num, ?_⟩
        ext <;> simp [← h]
      · rw [abs_le] at hx
        refine ⟨x / b.lengthCollision + 1 / 2, ?_, ?_, ?_⟩
        · have : -(1 / 2) ≤ x / b.lengthCollision := by rw [le_div_iff₀ h]; linarith [hx.1]
          linarith
        · have : x / b.lengthCollision ≤ 1 / 2 := by rw [div_le_iff₀ h]; linarith [hx.2]
          linarith
        · ext <;> simp <;> field_simp <;> ring

/-- `DCPQuery` is right for the axes of the two bodies (`C32_minimum_partial`, `C32_parallel_partial`). -/
def QueryExact (I J : EP) : Prop :=
  ∀ r, DCP.query DCP.dblEps (I.pos - (0.5 * I.lengthCollision) • I.direction) (I.pos + (0.5 * I.lengthCollision) • I.direction)
    (J.pos - (0.5 * J.lengthCollision) • J.direction) (J.pos + (0.5 * J.lengthCollision) • J.direction) = some r →
    ∀ p q, Core I p → Core J q → r.distance ≤ norm (p - q)

/-- The stress of a contact. -/
noncomputable def stressOf (I J : EP) (P Q : V3) : Option Mat3 :=
  open Classical in
  collideStress (if Sphere I then ⟨0, 0, 1⟩ else I.direction) (if Sphere J then ⟨0, 0, 1⟩ else J.direction) I.pos J.pos
    (if Sphere I then 0 else I.lengthCollision) (if Sphere J then 0 else J.lengthCollision) (Rad I) (Rad J) 1 P Q

theorem Rad_pos (b : EP) (h : Valid b) : 0 < Rad b := by
  have := h.radius; have := h.length
  unfold Rad; split <;> linarith

theorem stressOf_symm (I J : EP) (P Q : V3) (hI : Valid I) (hJ : Valid J) :
    ∃ S, stressOf I J P Q = some S ∧ (∀ i j, S i j = S j i) ∧
      S 0 0 + S 1 1 + S 2 2 = dot (J.pos - I.pos) (Q - P).normalized := by
  have hz : V3.norm ⟨0, 0, 1⟩ = 1 := by
    have : V3.normSq ⟨0, 0, 1⟩ = 1 := by simp [normSq, dot]
    rw [V3.norm, this, Real.sqrt_one]
  unfold stressOf
  refine collideStress_symm _ _ _ _ _ _ _ _ _ _ (Rad_pos I hI) (Rad_pos J hJ) ?_ ?_ ?_ ?_
  · split; exacts [le_rfl, hI.length]
  · split; exacts [le_rfl, hJ.length]
  · split; exacts [hz, hI.direction]
  · split; exacts [hz, hJ.direction]

theorem Core_sphere (b : EP) (h : Sphere b) (p : V3) : Core b p ↔ p = b.pos := by
  unfold Core; tauto

/-- What the kernel does with a pair. -/
theorem collide_spec (I J : EP) (hI : Valid I) (hJ : Valid J) : ∃ P Q sep S, Core I P ∧ Core J Q ∧
    sep = norm (P - Q) - (Rad I + Rad J) ∧ stressOf I J P Q = some S ∧
    (((¬ Sphere I ∧ ¬ Sphere J) → QueryExact I J) → Separation I J sep) ∧
    collide I J = some (if sep < bufferOf I J then some ((contact sep I J P Q).setStress S) else none) := by
  have h05 : ∀ b : EP, b.lengthCollision * 0.5 = b.lengthCollision / 2 := fun b => by ring
  by_cases sI : Sphere I
  · have rI : I.lengthCollision * 0.5 + I.radiusCollision = Rad I := by unfold Rad; rw [if_pos sI, h05]
    by_cases sJ : Sphere J
    · have rJ : J.lengthCollision * 0.5 + J.radiusCollision = Rad J := by unfold Rad; rw [if_pos sJ, h05]
      obtain ⟨S, hS, -, -⟩ := stressOf_symm I J I.pos J.pos hI hJ
      refine ⟨I.pos, J.pos, _, S, (Core_sphere I sI _).2 rfl, (Core_sphere J sJ _).2 rfl, rfl, hS, ?_, ?_⟩
      · intro _
        refine ⟨⟨_, _, (Core_sphere I sI _).2 rfl, (Core_sphere J sJ _).2 rfl, rfl⟩, ?_⟩
        intro p q hp hq
        rw [Core_sphere I sI] at hp
        rw [Core_sphere J sJ] at hq
        subst hp hq
        exact le_rfl
      · unfold collide
        rw [if_pos ((isSphere_iff I).2 sI), if_pos ((isSphere_iff J).2 sJ)]
        unfold sp_sp
        simp only [rI, rJ]
        rw [norm_sub_comm J.pos I.pos]
        unfold stressOf at hS
        rw [if_pos sI, if_pos sJ, if_pos sI, if_pos sJ] at hS
        rw [hS]
        unfold bufferOf
        split <;> rfl
    · have rJ : Rad J = J.radiusCollision := by unfold Rad; rw [if_neg sJ]
      have hd := C31_point_segment I.pos (J.pos - (0.5 * J.lengthCollision) • J.direction)
        (J.pos + (0.5 * J.lengthCollision) • J.direction)
      set d := DCP.distPointSeg I.pos (J.pos - (0.5 * J.lengthCollision) • J.direction)
        (J.pos + (0.5 * J.lengthCollision) • J.direction) with hdd
      obtain ⟨d1, d2, d3⟩ := hd
      obtain ⟨S, hS, -, -⟩ := stressOf_symm I J I.pos d.2 hI hJ
      have hq := (segment_core J sJ hJ.length d.2).1 d1
      refine ⟨I.pos, d.2, _, S, (Core_sphere I sI _).2 rfl, hq, rfl, hS, ?_, ?_⟩
      · intro _
        refine ⟨⟨_, _, (Core_sphere I sI _).2 rfl, hq, rfl⟩, ?_⟩
        intro p q hp hq
        rw [Core_sphere I sI] at hp
        subst hp
        have := d3 q ((segment_core J sJ hJ.length q).2 hq)
        rw [d2] at this
        linarith
      · unfold collide
        rw [if_pos ((isSphere_iff I).2 sI), if_neg (by rw [isSphere_iff]; exact sJ)]
        unfold sp_sy
        simp only [rI, ← rJ, ← hdd]
        unfold stressOf at hS
        rw [if_pos sI, if_neg sJ, if_pos sI, if_neg sJ] at hS
        rw [hS, d2]
        unfold bufferOf
        split <;> rfl
  · have rI : Rad I = I.radiusCollision := by unfold Rad; rw [if_neg sI]
    by_cases sJ : Sphere J
    · have rJ : J.lengthCollision * 0.5 + J.radiusCollision = Rad J := by unfold Rad; rw [if_pos sJ, h05]
      have hd := C31_point_segment J.pos (I.pos - (0.5 * I.lengthCollision) • I.direction)
        (I.pos + (0.5 * I.lengthCollision) • I.direction)
      set d := DCP.distPointSeg J.pos (I.pos - (0.5 * I.lengthCollision) • I.direction)
        (I.pos + (0.5 * I.lengthCollision) • I.direction) with hdd
      obtain ⟨d1, d2, d3⟩ := hd
      obtain ⟨S, hS, -, -⟩ := stressOf_symm I J d.2 J.pos hI hJ
      have hq := (segment_core I sI hI.length d.2).1 d1
      have hsep : d.1 - (Rad J + Rad I) = norm (d.2 - J.pos) - (Rad I + Rad J) := by
        rw [d2, norm_sub_comm]; ring
      refine ⟨d.2, J.pos, _, S, hq, (Core_sphere J sJ _).2 rfl, rfl, hS, ?_, ?_⟩
      · intro _
        refine ⟨⟨_, _, hq, (Core_sphere J sJ _).2 rfl, rfl⟩, ?_⟩
        intro p q hp hq
        rw [Core_sphere J sJ] at hq
        subst hq
        have := d3 p ((segment_core I sI hI.length p).2 hp)
        rw [d2, norm_sub_comm, norm_sub_comm _ p] at this
        linarith
      · unfold collide
        rw [if_neg (by rw [isSphere_iff]; exact sI), if_pos ((isSphere_iff J).2 sJ)]
        unfold sp_sy
        simp only [rJ, ← rI, ← hdd, if_true]
        rw [hsep, contact_reverse]
        unfold stressOf at hS
        rw [if_neg sI, if_pos sJ, if_neg sI, if_pos sJ] at hS
        rw [collideStress_swap, hS]
        unfold bufferOf
        rw [add_comm (Rad J * J.colBuf)]
        split <;> rfl
    · have rJ : Rad J = J.radiusCollision := by unfold Rad; rw [if_neg sJ]
      obtain ⟨r, hr, -, -, -, -, -, -, r1, r2, r3⟩ := C32_points_partial DCP.dblEps
        (I.pos - (0.5 * I.lengthCollision) • I.direction) (I.pos + (0.5 * I.lengthCollision) • I.direction)
        (J.pos - (0.5 * J.lengthCollision) • J.direction) (J.pos + (0.5 * J.lengthCollision) • J.direction)
      have hp := (segment_core I sI hI.length _).1 r1
      have hq := (segment_core J sJ hJ.length _).1 r2
      obtain ⟨S, hS, -, -⟩ := stressOf_symm I J r.Ploc r.Qloc hI hJ
      refine ⟨r.Ploc, r.Qloc, _, S, hp, hq, rfl, hS, ?_, ?_⟩
      · intro h
        refine ⟨⟨_, _, hp, hq, rfl⟩, ?_⟩
        intro p q hp hq
        have := h ⟨sI, sJ⟩ r hr p q hp hq
        rw [r3] at this
        linarith
      · unfold collide
        rw [if_neg (by rw [isSphere_iff]; exact sI), if_neg (by rw [isSphere_iff]; exact sJ)]
        unfold sy_sy
        simp only [hr, Option.bind_some, ← rI, ← rJ, r3]
        unfold stressOf at hS
        rw [if_neg sI, if_neg sJ, if_neg sI, if_neg sJ] at hS
        rw [hS]
        unfold bufferOf
        split <;> rfl

end Verif.Near
