import Verif.Lemmas.Near
import Verif.Spec.Collector
import Verif.Lemmas.Comm
/-! C37-C40: collisions between bodies. -/
namespace Verif
open Verif.V3 Verif.Near Verif.Spec.Near Verif.Collector Verif.Spec.Collector

/-! ### C37 -/

/-- Every recorded contact: two-sided, unilateral, with a feasible first guess of the multiplier; the contact points are
points of the two axes; the forces on the bodies are opposite and push them apart along the line of the contact points,
with unit normals unless the axes touch; the net torque about any point is zero; the recorded value is the separation
of the surfaces whenever `DCPQuery` is right for the axes.
Missing for C37: unit normals when the axes touch (`C37_touching_false`), the separation where `DCPQuery` is wrong
(`C32_false`). -/
theorem C37_contact_partial (I J : EP) (hI : Valid I) (hJ : Valid J) (b : Block) (h : collide I J = some (some b)) :
    (b.oneSide = false ∧ b.bilateral = false ∧ b.gammaLB ≤ b.gamma ∧ b.gammaLB = 0) ∧
    (b.gidI = I.gid ∧ b.gidJ = J.gid ∧ b.globalIndexI = I.globalIndex ∧ b.globalIndexJ = J.globalIndex) ∧
    (Core I b.labI ∧ Core J b.labJ ∧ I.pos + b.posI = b.labI ∧ J.pos + b.posJ = b.labJ) ∧
    b.normJ = -b.normI ∧ b.labI - b.labJ = norm (b.labI - b.labJ) • b.normI ∧
    (b.labI ≠ b.labJ → norm b.normI = 1 ∧ norm b.normJ = 1) ∧
    (I.globalIndex ≠ J.globalIndex → ∀ x : V3,
      unitForce b I.globalIndex + unitForce b J.globalIndex = 0 ∧
      (unitTorque b I.globalIndex + cross (I.pos - x) (unitForce b I.globalIndex)) +
        (unitTorque b J.globalIndex + cross (J.pos - x) (unitForce b J.globalIndex)) = 0) ∧
    (((¬ Sphere I ∧ ¬ Sphere J) → QueryExact I J) → Separation I J b.delta0) ∧
    b.delta0 = norm (b.labI - b.labJ) - (Rad I + Rad J) ∧ (b.labI = b.labJ → b.normI = 0) ∧ b.gamma = (if b.delta0 < 0 then -b.delta0 else 0) := by
  obtain ⟨P, Q, sep, S, hP, hQ, hsep, hS, hsepa, hc⟩ := collide_spec I J hI hJ
  rw [hc] at h
  injection h with h
  split at h
  · injection h with h
    subst h
    have hlab : P - Q = norm (P - Q) • (P - Q).normalized := (norm_smul_normalized _).symm
    refine ⟨⟨rfl, rfl, ?_, rfl⟩, ⟨rfl, rfl, rfl, rfl⟩, ⟨hP, hQ, ?_, ?_⟩, rfl, hlab, ?_, ?_, hsepa, hsep, ?_, rfl⟩
    · show (0 : ℝ) ≤ if sep < 0 then -sep else 0
      split <;> linarith
    · show I.pos + (P - I.pos) = P
      ext <;> simp
    · show J.pos + (Q - J.pos) = Q
      ext <;> simp
    · intro hne
      have : norm (P - Q).normalized = 1 := norm_normalized _ (fun h => hne ((V3.sub_eq_zero _ _).1 h))
      exact ⟨this, by show V3.norm (-_) = 1; rw [norm_neg]; exact this⟩
    · intro hne x
      have hx := cross_normalized (P - Q)
      have fI : unitForce ((contact sep I J P Q).setStress S) I.globalIndex = (P - Q).normalized := by
        simp only [unitForce, contact, Block.setStress, if_true, hne.symm, and_false, if_false]; ext <;> simp
      have fJ : unitForce ((contact sep I J P Q).setStress S) J.globalIndex = -(P - Q).normalized := by
        simp only [unitForce, contact, Block.setStress, if_true, hne, and_true, if_false]; ext <;> simp
      have tI : unitTorque ((contact sep I J P Q).setStress S) I.globalIndex = cross (P - I.pos) (P - Q).normalized := by
        simp only [unitTorque, contact, Block.setStress, if_true, hne.symm, and_false, if_false]; ext <;> simp
      have tJ : unitTorque ((contact sep I J P Q).setStress S) J.globalIndex = cross (Q - J.pos) (-(P - Q).normalized) := by
        simp only [unitTorque, contact, Block.setStress, if_true, hne, and_true, if_false]; ext <;> simp
      rw [fI, fJ, tI, tJ]
      set n := (P - Q).normalized
      have ex := congrArg V3.x hx
      have ey := congrArg V3.y hx
      have ez := congrArg V3.z hx
      simp at ex ey ez
      refine ⟨by ext <;> simp, ?_⟩
      ext <;> simp
      · linear_combination ex
      · linear_combination ey
      · linear_combination ez
    · intro (he : P = Q)
      show (P - Q).normalized = 0
      rw [(V3.sub_eq_zero _ _).2 he, normalized_zero]
  · cases h

/-- Two spheres of radius one at the same place: the contact is recorded with overlap two and zero normals, so that no
multiplier can separate them. -/
theorem C37_touching_false : ∃ (I J : EP) (b : Block), Valid I ∧ Valid J ∧ I.gid < J.gid ∧ collide I J = some (some b) ∧
    b.delta0 = -2 ∧ b.normI = 0 ∧ b.normJ = 0 := by
  have hd : V3.norm ⟨0, 0, 1⟩ = 1 := by
    have : V3.normSq ⟨0, 0, 1⟩ = 1 := by simp [normSq, dot]
    rw [V3.norm, this, Real.sqrt_one]
  let I : EP := ⟨0, 0, 0, 1, 0, 1, 0, 1 / 2, ⟨0, 0, 0⟩, ⟨0, 0, 1⟩⟩
  let J : EP := ⟨1, 1, 0, 1, 0, 1, 0, 1 / 2, ⟨0, 0, 0⟩, ⟨0, 0, 1⟩⟩
  have hI : Valid I := ⟨by norm_num [I], by norm_num [I], hd⟩
  have hJ : Valid J := ⟨by norm_num [J], by norm_num [J], hd⟩
  have sI : Sphere I := by norm_num [Sphere, I]
  have sJ : Sphere J := by norm_num [Sphere, J]
  obtain ⟨P, Q, sep, S, hP, hQ, hsep, hS, -, hc⟩ := collide_spec I J hI hJ
  rw [Core_sphere I sI] at hP
  rw [Core_sphere J sJ] at hQ
  have e : P - Q = 0 := by rw [hP, hQ]; ext <;> norm_num [I, J]
  have rI : Rad I = 1 := by unfold Rad; rw [if_pos sI]; norm_num [I]
  have rJ : Rad J = 1 := by unfold Rad; rw [if_pos sJ]; norm_num [J]
  have hs : sep = -2 := by rw [hsep, e, V3.norm_zero, rI, rJ]; norm_num
  rw [if_pos (by rw [hs]; unfold bufferOf; rw [rI, rJ]; norm_num [I, J])] at hc
  refine ⟨I, J, _, hI, hJ, by norm_num [I, J], hc, hs, ?_, ?_⟩
  · show (P - Q).normalized = 0
    rw [e, normalized_zero]
  · show -(P - Q).normalized = 0
    rw [e, normalized_zero]; ext <;> simp

/-- Two overlapping spheres meet the hypotheses of `C37_contact_partial`. -/
example : ∃ (I J : EP) (b : Block), Valid I ∧ Valid J ∧ collide I J = some (some b) :=
  let ⟨I, J, b, h1, h2, _, h3, _⟩ := C37_touching_false; ⟨I, J, b, h1, h2, h3⟩

/-! ### C38 -/

/-- The stress of a contact is defined and symmetric; its trace is the contact force times the distance of the centres
along it; exchanging the bodies or moving both does not change it. -/
theorem C38_stress (dI dJ cI cJ : V3) (hI hJ rI rJ : ℝ) (P Q : V3) (hrI : 0 < rI) (hrJ : 0 < rJ) (h0I : 0 ≤ hI)
    (h0J : 0 ≤ hJ) (hdI : norm dI = 1) (hdJ : norm dJ = 1) :
    ∃ S, collideStress dI dJ cI cJ hI hJ rI rJ 1 P Q = some S ∧ S.transpose = S ∧
      S 0 0 + S 1 1 + S 2 2 = dot (cJ - cI) (Q - P).normalized ∧
      collideStress dJ dI cJ cI hJ hI rJ rI 1 Q P = some S ∧
      ∀ v, collideStress dI dJ (cI + v) (cJ + v) hI hJ rI rJ 1 (P + v) (Q + v) = some S := by
  obtain ⟨S, hS, h1, h2⟩ := collideStress_symm dI dJ cI cJ hI hJ rI rJ P Q hrI hrJ h0I h0J hdI hdJ
  refine ⟨S, hS, ?_, h2, ?_, ?_⟩
  · funext i j; exact h1 j i
  · rw [collideStress_swap, hS]
  · intro v; rw [collideStress_shift, hS]

/-- The stress stored in a recorded block is symmetric, of trace force times distance of the centres. -/
theorem C38_recorded (I J : EP) (hI : Valid I) (hJ : Valid J) (b : Block) (h : collide I J = some (some b)) :
    (∀ i j, b.getStress i j = b.getStress j i) ∧
    b.getStress 0 0 + b.getStress 1 1 + b.getStress 2 2 = dot (I.pos - J.pos) b.normI := by
  obtain ⟨P, Q, sep, S, hP, hQ, hsep, hS, hsepa, hc⟩ := collide_spec I J hI hJ
  rw [hc] at h
  injection h with h
  split at h
  · injection h with h
    subst h
    obtain ⟨S', hS', h1, h2⟩ := stressOf_symm I J P Q hI hJ
    rw [hS] at hS'
    injection hS' with hS'
    subst hS'
    have hg : ∀ i j : Fin 3, ((contact sep I J P Q).setStress S).getStress i j = S i j := by
      intro i j
      fin_cases i <;> fin_cases j <;> rfl
    refine ⟨fun i j => by rw [hg, hg]; exact h1 i j, ?_⟩
    rw [hg, hg, hg, h2]
    show dot (J.pos - I.pos) (Q - P).normalized = dot (I.pos - J.pos) (P - Q).normalized
    rw [normalized_sub_comm Q P]
    simp only [dot, sub_x, sub_y, sub_z, neg_x, neg_y, neg_z]; ring
  · cases h

/-- For spheres touching at points on the line of the centres (as recorded) the stress is distance times the dyad of
the normal. -/
theorem C38_spheres (dI dJ cI cJ : V3) (rI rJ : ℝ) (hrI : 0 < rI) (hrJ : 0 < rJ) :
    ∃ S, collideStress dI dJ cI cJ 0 0 rI rJ 1 cI cJ = some S ∧ ∀ i j, S i j =
      norm (cJ - cI) * (comp (cJ - cI).normalized i * comp (cJ - cI).normalized j) := by
  obtain ⟨αI, βI, αJ, βJ, h1, h2, h3, h4, hS⟩ := collideStress_some dI dJ cI cJ 0 0 rI rJ cI cJ hrI hrJ le_rfl le_rfl
  refine ⟨_, hS, ?_⟩
  have z : ∀ (c F : V3), cross (c - c) F = 0 := fun c F => by ext <;> simp
  have zs : ∀ N G : Mat3, ∀ i j, sgTerm N G 0 i j = 0 := by
    intro N G i j
    rw [sgTerm_eq]
    have : apply G 0 = 0 := by ext <;> simp [apply]
    rw [this]
    fin_cases j <;> simp [comp]
  have hv := norm_smul_normalized (cJ - cI)
  set F := (cJ - cI).normalized
  have hx := congrArg V3.x hv
  have hy := congrArg V3.y hv
  have hz := congrArg V3.z hv
  simp at hx hy hz
  intro i j
  rw [z, z]
  simp only [Matrix.add_apply, zs, add_zero, outer]
  have hc : comp cI i * comp (-F) j + comp cJ i * comp F j = (comp cJ i - comp cI i) * comp F j := by
    have : comp (-F) j = -comp F j := by fin_cases j <;> rfl
    rw [this]; ring
  rw [hc]
  fin_cases i <;> simp [comp]
  · rw [← hx]; ring
  · rw [← hy]; ring
  · rw [← hz]; ring

example : norm (⟨0, 0, 1⟩ : V3) = 1 ∧ (0 : ℝ) < 1 ∧ (0 : ℝ) ≤ 4 := by
  have : V3.normSq ⟨0, 0, 1⟩ = 1 := by simp [normSq, dot]
  exact ⟨by rw [V3.norm, this, Real.sqrt_one], by norm_num, by norm_num⟩

/-! ### C40 -/

/-- Half the length of the axis. -/
theorem core_dist (b : EP) (hb : Valid b) (p : V3) (hp : Core b p) :
    norm (b.pos - p) + Rad b ≤ b.lengthCollision / 2 + b.radiusCollision := by
  rcases hp with ⟨hs, rfl⟩ | ⟨hs, x, hx, rfl⟩
  · have : b.pos - b.pos = 0 := (V3.sub_eq_zero _ _).2 rfl
    rw [this, V3.norm_zero]
    unfold Rad
    rw [if_pos hs]; linarith
  · have e : b.pos - (b.pos + x • b.direction) = (-x) • b.direction := by ext <;> simp
    rw [e, V3.norm_smul, hb.direction, abs_neg]
    unfold Rad
    rw [if_neg hs]; linarith

theorem rsearch_ge (e : EP) (he : Valid e) (hb : 0 ≤ e.colBuf) (hs : Sphere e → SizeOK e) :
    2 * ((e.lengthCollision / 2 + e.radiusCollision) * (1 + e.colBuf)) ≤ e.getRSearch := by
  have hr := he.radius
  have hl := he.length
  have key : e.lengthCollision + 2 * e.radiusCollision ≤
      max (e.length + 2 * e.radius) (e.lengthCollision + 2 * e.lengthCollision) := by
    by_cases h : Sphere e
    · rcases hs h with h | h
      · exact le_trans (by linarith) (le_max_right _ _)
      · exact le_trans h (le_max_left _ _)
    · unfold Sphere at h
      exact le_trans (by linarith) (le_max_right _ _)
  unfold EP.getRSearch
  calc _ = (e.lengthCollision + 2 * e.radiusCollision) * (1 + e.colBuf) := by ring
    _ ≤ _ := mul_le_mul_of_nonneg_right key (by linarith)

theorem search_core (a b : EP) (ha : Valid a) (hb : Valid b) (hba : 0 ≤ a.colBuf) (hbb : 0 ≤ b.colBuf)
    (hsa : Sphere a → SizeOK a) (hsb : Sphere b → SizeOK b) (p q : V3) (hp : Core a p) (hq : Core b q)
    (hlt : norm (p - q) - (Rad a + Rad b) < bufferOf a b) : norm (a.pos - b.pos) ≤ max a.getRSearch b.getRSearch := by
  have ra := rsearch_ge a ha hba hsa
  have rb := rsearch_ge b hb hbb hsb
  have da := core_dist a ha p hp
  have db := core_dist b hb q hq
  have pa := Rad_pos a ha
  have pb := Rad_pos b hb
  have t1 : norm (a.pos - b.pos) ≤ norm (a.pos - p) + norm (p - b.pos) := by
    have : a.pos - b.pos = (a.pos - p) + (p - b.pos) := by ext <;> simp
    rw [this]; exact norm_add_le _ _
  have t2 : norm (p - b.pos) ≤ norm (p - q) + norm (b.pos - q) := by
    have : p - b.pos = (p - q) + (q - b.pos) := by ext <;> simp
    rw [this, norm_sub_comm b.pos q]; exact norm_add_le _ _
  have hA : Rad a ≤ a.lengthCollision / 2 + a.radiusCollision := by have := V3.norm_nonneg (a.pos - p); linarith
  have hB : Rad b ≤ b.lengthCollision / 2 + b.radiusCollision := by have := V3.norm_nonneg (b.pos - q); linarith
  have hA' := mul_le_mul_of_nonneg_right hA hba
  have hB' := mul_le_mul_of_nonneg_right hB hbb
  unfold bufferOf at hlt
  have m1 := le_max_left a.getRSearch b.getRSearch
  have m2 := le_max_right a.getRSearch b.getRSearch
  linarith

/-- Bodies closer than the recording distance are within the larger of the two search radii, provided every body that
is treated as a sphere has a collision length not below its collision radius or a collision shape not larger than the
body.  Missing for C40: other spheres (`C40_false`). -/
theorem C40_search_partial (a b : EP) (ha : Valid a) (hb : Valid b) (hba : 0 ≤ a.colBuf) (hbb : 0 ≤ b.colBuf)
    (hsa : Sphere a → SizeOK a) (hsb : Sphere b → SizeOK b) (h : Close a b) :
    norm (a.pos - b.pos) ≤ max a.getRSearch b.getRSearch := by
  obtain ⟨d, ⟨⟨p, q, hp, hq, rfl⟩, -⟩, hlt⟩ := h
  exact search_core a b ha hb hba hbb hsa hsb p q hp hq hlt

/-- Collision ratios not above one are enough (`prepareStep`, SylinderSystem.cpp:900-901). -/
theorem C40_ratio_partial (e : EP) (dr lr : ℝ) (hr : 0 ≤ e.radius) (hl : 0 ≤ e.length)
    (h1 : e.radiusCollision = e.radius * dr) (h2 : e.lengthCollision = e.length * lr) (hd : dr ≤ 1) (hlr : lr ≤ 1) :
    SizeOK e := by
  right
  rw [h1, h2]
  nlinarith

/-- With a diameter ratio of 2, two spheres that overlap are not within the search radius. -/
theorem C40_false : ∃ a b : EP, Valid a ∧ Valid b ∧ a.radiusCollision = a.radius * 2 ∧ b.radiusCollision = b.radius * 2 ∧
    a.colBuf = 1 / 5 ∧ b.colBuf = 1 / 5 ∧ Separation a b (-1) ∧ Close a b ∧
    max a.getRSearch b.getRSearch < norm (a.pos - b.pos) := by
  have hd : V3.norm ⟨0, 0, 1⟩ = 1 := by
    have : V3.normSq ⟨0, 0, 1⟩ = 1 := by simp [normSq, dot]
    rw [V3.norm, this, Real.sqrt_one]
  let a : EP := ⟨0, 0, 0, 1, 0, 2, 0, 1 / 5, ⟨0, 0, 0⟩, ⟨0, 0, 1⟩⟩
  let b : EP := ⟨1, 1, 0, 1, 0, 2, 0, 1 / 5, ⟨3, 0, 0⟩, ⟨0, 0, 1⟩⟩
  have sa : Sphere a := by norm_num [Sphere, a]
  have sb : Sphere b := by norm_num [Sphere, b]
  have rada : Rad a = 2 := by unfold Rad; rw [if_pos sa]; norm_num [a]
  have radb : Rad b = 2 := by unfold Rad; rw [if_pos sb]; norm_num [b]
  have hn : norm (a.pos - b.pos) = 3 := by
    have : normSq (a.pos - b.pos) = 3 ^ 2 := by simp only [a, b, normSq, dot, sub_x, sub_y, sub_z]; norm_num
    rw [V3.norm, this]; exact Real.sqrt_sq (by norm_num)
  have hsep : Separation a b (-1) := by
    refine ⟨⟨_, _, (Core_sphere a sa _).2 rfl, (Core_sphere b sb _).2 rfl, by rw [hn, rada, radb]; norm_num⟩, ?_⟩
    intro p q hp hq
    rw [Core_sphere a sa] at hp
    rw [Core_sphere b sb] at hq
    rw [hp, hq, hn, rada, radb]; norm_num
  refine ⟨a, b, ⟨by norm_num [a], by norm_num [a], hd⟩, ⟨by norm_num [b], by norm_num [b], hd⟩, by norm_num [a],
    by norm_num [b], rfl, rfl, hsep, ⟨_, hsep, ?_⟩, ?_⟩
  · unfold bufferOf; rw [rada, radb]; norm_num [a, b]
  · rw [hn]
    simp only [EP.getRSearch, a, b]
    norm_num

/-- A rod and a sphere of collision size equal to their size meet the hypotheses of `C40_search_partial`. -/
example : ∃ e : EP, Valid e ∧ (Sphere e → SizeOK e) ∧ Sphere e :=
  ⟨⟨0, 0, 0, 1, 1, 1, 1, 1 / 5, ⟨0, 0, 0⟩, ⟨0, 0, 1⟩⟩, ⟨by norm_num, by norm_num, by
    have : V3.normSq ⟨0, 0, 1⟩ = 1 := by simp [normSq, dot]
    rw [V3.norm, this, Real.sqrt_one]⟩, fun _ => Or.inl (by norm_num), by norm_num [Sphere]⟩

/-! ### C39 -/

/-- What the kernel records for a pair. -/
noncomputable def recorded (I J : EP) : Option Block := (collide I J).getD none

theorem collide_defined (I J : EP) (hI : Valid I) (hJ : Valid J) : collide I J = some (recorded I J) := by
  obtain ⟨P, Q, sep, S, -, -, -, -, -, hc⟩ := collide_spec I J hI hJ
  unfold recorded
  rw [hc]; rfl

/-- A pair is recorded only if there are points of the two axes that are close. -/
theorem recorded_points (I J : EP) (hI : Valid I) (hJ : Valid J) (h : (recorded I J).isSome) : ∃ P Q, Core I P ∧ Core J Q ∧
    norm (P - Q) - (Rad I + Rad J) < bufferOf I J := by
  obtain ⟨P, Q, sep, S, hP, hQ, rfl, -, -, hc⟩ := collide_spec I J hI hJ
  refine ⟨P, Q, hP, hQ, ?_⟩
  by_contra hlt
  unfold recorded at h
  rw [hc, if_neg hlt] at h
  cases h

/-- Blocks recorded for a target. -/
noncomputable def targetBlocks (I : EP) (src : List EP) : List Block :=
  src.filterMap (fun J => if I.gid ≥ J.gid then none else recorded I J)

theorem sources_eq (I : EP) (hI : Valid I) (src : List EP) (hs : ∀ s ∈ src, Valid s) (que : List Block) :
    sources I que src = some (que ++ targetBlocks I src) := by
  induction src generalizing que with
  | nil => simp [sources, targetBlocks]
  | cons J rest ih =>
    have hr := fun que => ih (fun s h => hs s (List.mem_cons_of_mem _ h)) que
    unfold sources
    by_cases hg : I.gid ≥ J.gid
    · rw [if_pos hg, hr]
      simp [targetBlocks, List.filterMap_cons, hg]
    · rw [if_neg hg, collide_defined I J hI (hs J (List.mem_cons_self ..))]
      simp only [Option.bind_some]
      cases hc : recorded I J with
      | none =>
        simp only
        rw [hr]
        simp [targetBlocks, List.filterMap_cons, hg, hc]
      | some b =>
        simp only
        rw [hr]
        simp [targetBlocks, List.filterMap_cons, hg, hc]

theorem operator_eq (src : List EP) (hs : ∀ s ∈ src, Valid s) (tgt : List EP) (ht : ∀ s ∈ tgt, Valid s) (que : List Block) :
    operator src que tgt = some (que ++ tgt.flatMap (fun I => targetBlocks I src)) := by
  induction tgt generalizing que with
  | nil => simp [operator]
  | cons I rest ih =>
    unfold operator
    rw [sources_eq I (ht I (List.mem_cons_self ..)) src hs]
    simp only [Option.bind_some]
    rw [ih (fun s h => ht s (List.mem_cons_of_mem _ h))]
    simp

/-- Targets with their sources. -/
def offered (calls : List Call) : List (EP × List EP) := calls.flatMap (fun c => c.targets.map (fun t => (t, c.sources)))

theorem flatten_set_perm {α : Type} (l : List (List α)) (i : ℕ) (x y : List α) (h : l[i]? = some x) :
    (l.set i (x ++ y)).flatten.Perm (l.flatten ++ y) := by
  induction l generalizing i with
  | nil => simp at h
  | cons a l ih =>
    cases i with
    | zero =>
      simp at h
      subst h
      simp only [List.set_cons_zero, List.flatten_cons, List.append_assoc]
      exact List.Perm.append_left _ List.perm_append_comm
    | succ i =>
      simp only [List.set_cons_succ, List.flatten_cons, List.append_assoc]
      exact List.Perm.append_left _ (ih i (by simpa using h))

theorem collect_eq (calls : List Call) (pool : Pool) (hth : ∀ c ∈ calls, c.thread < pool.length)
    (ht : ∀ c ∈ calls, ∀ s ∈ c.targets, Valid s) (hs : ∀ c ∈ calls, ∀ s ∈ c.sources, Valid s) :
    ∃ pool', collect pool calls = some pool' ∧
      pool'.flatten.Perm (pool.flatten ++ (offered calls).flatMap (fun p => targetBlocks p.1 p.2)) := by
  induction calls generalizing pool with
  | nil => exact ⟨pool, rfl, by simp [offered]⟩
  | cons c rest ih =>
    have hlt := hth c (List.mem_cons_self ..)
    have hq : pool[c.thread]? = some pool[c.thread] := List.getElem?_eq_getElem hlt
    unfold collect
    rw [hq]
    simp only
    rw [operator_eq c.sources (hs c (List.mem_cons_self ..)) c.targets (ht c (List.mem_cons_self ..))]
    simp only [Option.bind_some]
    obtain ⟨pool', h1, h2⟩ := ih (pool.set c.thread (pool[c.thread] ++ c.targets.flatMap (fun I => targetBlocks I c.sources)))
      (by simpa using fun c' h => hth c' (List.mem_cons_of_mem _ h))
      (fun c' h => ht c' (List.mem_cons_of_mem _ h)) (fun c' h => hs c' (List.mem_cons_of_mem _ h))
    refine ⟨pool', h1, h2.trans ?_⟩
    have h3 := flatten_set_perm pool c.thread _ (c.targets.flatMap (fun I => targetBlocks I c.sources)) hq
    refine (h3.append_right _).trans ?_
    rw [List.append_assoc]
    refine List.Perm.append_left _ (List.Perm.of_eq ?_)
    simp [offered, List.flatMap_append, List.flatMap_map]

theorem recorded_gid (I J : EP) (hI : Valid I) (hJ : Valid J) (b : Block) (h : recorded I J = some b) :
    b.gidI = I.gid ∧ b.gidJ = J.gid ∧ b.oneSide = false := by
  have := C37_contact_partial I J hI hJ b (by rw [collide_defined I J hI hJ, h])
  exact ⟨this.2.1.1, this.2.1.2.1, this.1.1⟩

theorem mem_targetBlocks (I : EP) (src : List EP) (b : Block) :
    b ∈ targetBlocks I src ↔ ∃ J ∈ src, I.gid < J.gid ∧ recorded I J = some b := by
  simp only [targetBlocks, List.mem_filterMap]
  constructor
  · rintro ⟨J, hJ, h⟩
    split at h
    · cases h
    · exact ⟨J, hJ, by omega, h⟩
  · rintro ⟨J, hJ, h1, h2⟩
    exact ⟨J, hJ, by rw [if_neg (by omega)]; exact h2⟩

open Classical in
/-- Blocks about two bodies among those of one target. -/
theorem count_target (x y : EP) (hxy : x.gid < y.gid) (hx : Valid x) (src : List EP) (hv : ∀ s ∈ src, Valid s)
    (hinj : ∀ s ∈ src, ∀ t ∈ src, s.gid = t.gid → s = t) (hy : ∀ s ∈ src, s.gid = y.gid → s = y) (hnd : src.Nodup) :
    (targetBlocks x src).countP (fun b => decide (About x.gid y.gid b)) =
      if y ∈ src ∧ (recorded x y).isSome then 1 else 0 := by
  induction src with
  | nil => simp [targetBlocks]
  | cons J rest ih =>
    have ih' := ih (fun s h => hv s (List.mem_cons_of_mem _ h))
      (fun s h t h' => hinj s (List.mem_cons_of_mem _ h) t (List.mem_cons_of_mem _ h'))
      (fun s h => hy s (List.mem_cons_of_mem _ h)) (List.nodup_cons.1 hnd).2
    have hJn := (List.nodup_cons.1 hnd).1
    have hJv := hv J (List.mem_cons_self ..)
    have hcons : targetBlocks x (J :: rest) =
        (if x.gid ≥ J.gid then [] else (recorded x J).toList) ++ targetBlocks x rest := by
      simp only [targetBlocks, List.filterMap_cons]
      by_cases hg : x.gid ≥ J.gid
      · simp [hg]
      · simp only [hg, if_false]
        cases recorded x J <;> simp
    rw [hcons, List.countP_append, ih']
    by_cases hJy : J = y
    · subst hJy
      rw [if_neg (by omega)]
      have : ¬ (J ∈ rest ∧ (recorded x J).isSome = true) := fun h => hJn h.1
      rw [if_neg this]
      cases hr : recorded x J with
      | none => simp
      | some b =>
        obtain ⟨g1, g2, -⟩ := recorded_gid x J hx hJv b hr
        simp [About, g1, g2]
    · have hne : J.gid ≠ y.gid := fun h => hJy (hy J (List.mem_cons_self ..) h)
      have h0 : (if x.gid ≥ J.gid then [] else (recorded x J).toList).countP (fun b => decide (About x.gid y.gid b)) = 0 := by
        split
        · rfl
        · cases hr : recorded x J with
          | none => rfl
          | some b =>
            obtain ⟨g1, g2, -⟩ := recorded_gid x J hx hJv b hr
            simp only [Option.toList_some, List.countP_singleton]
            rw [if_neg]
            simp only [About, g1, g2, decide_eq_true_eq]
            rintro (h | h)
            · exact hne h.2
            · omega
      rw [h0, zero_add]
      have : (y ∈ J :: rest) ↔ y ∈ rest := by
        rw [List.mem_cons]
        exact ⟨fun h => h.resolve_left (fun e => hJy e.symm), Or.inr⟩
      simp only [this]

theorem count_other (x y : EP) (hxy : x.gid < y.gid) (I : EP) (hI : Valid I) (hne : I.gid ≠ x.gid) (src : List EP)
    (hv : ∀ s ∈ src, Valid s) : (targetBlocks I src).countP (fun b => decide (About x.gid y.gid b)) = 0 := by
  rw [List.countP_eq_zero]
  intro b hb
  obtain ⟨J, hJ, hlt, hr⟩ := (mem_targetBlocks I src b).1 hb
  obtain ⟨g1, g2, -⟩ := recorded_gid I J hI (hv J hJ) b hr
  simp only [About, g1, g2, decide_eq_true_eq]
  rintro (h | h)
  · exact hne h.1
  · omega

theorem separation_unique (a b : EP) (d e : ℝ) (h1 : Separation a b d) (h2 : Separation a b e) : d = e := by
  obtain ⟨⟨p, q, hp, hq, rfl⟩, m1⟩ := h1
  obtain ⟨⟨p', q', hp', hq', rfl⟩, m2⟩ := h2
  exact le_antisymm (m1 _ _ hp' hq') (m2 _ _ hp hq)

theorem recorded_iff (x y : EP) (hx : Valid x) (hy : Valid y) (hq : (¬ Sphere x ∧ ¬ Sphere y) → QueryExact x y) :
    (recorded x y).isSome = true ↔ Close x y := by
  obtain ⟨P, Q, sep, S, -, -, -, -, hsep, hc⟩ := collide_spec x y hx hy
  have hs := hsep hq
  unfold recorded
  rw [hc]
  simp only [Option.getD_some]
  constructor
  · intro h
    split at h
    · exact ⟨sep, hs, by assumption⟩
    · cases h
  · rintro ⟨d, hd, hlt⟩
    rw [separation_unique x y d sep hd hs] at hlt
    rw [if_pos hlt]; rfl

theorem offered_fst (calls : List Call) : (offered calls).map Prod.fst = calls.flatMap (·.targets) := by
  induction calls with
  | nil => rfl
  | cons c rest ih =>
    simp only [offered, List.flatMap_cons, List.map_append] at ih ⊢
    rw [ih]
    simp [List.map_map, Function.comp_def]

theorem mem_offered (calls : List Call) (p : EP × List EP) (h : p ∈ offered calls) :
    ∃ c ∈ calls, p.1 ∈ c.targets ∧ p.2 = c.sources := by
  simp only [offered, List.mem_flatMap, List.mem_map] at h
  obtain ⟨c, hc, t, ht, rfl⟩ := h
  exact ⟨c, hc, ht, rfl⟩

open Classical in
/-- The number of blocks about a pair, in terms of what was offered. -/
theorem count_pair (bodies : List EP) (hb : ∀ s ∈ bodies, Valid s) (hinj : ∀ s ∈ bodies, ∀ t ∈ bodies, s.gid = t.gid → s = t)
    (calls : List Call) (hof : Offers bodies calls) (hnd : bodies.Nodup) (x y : EP) (hx : x ∈ bodies) (hy : y ∈ bodies)
    (hxy : x.gid < y.gid) : ∃ c ∈ calls, x ∈ c.targets ∧
      ((offered calls).flatMap (fun p => targetBlocks p.1 p.2)).countP (fun b => decide (About x.gid y.gid b)) =
        if y ∈ c.sources ∧ (recorded x y).isSome then 1 else 0 := by
  have hfst := offered_fst calls
  have hperm := hof.targets
  rw [← hfst] at hperm
  have hxm : x ∈ (offered calls).map Prod.fst := hperm.mem_iff.2 hx
  have hndm : ((offered calls).map Prod.fst).Nodup := hperm.nodup_iff.2 hnd
  obtain ⟨⟨x', src⟩, hpm, hpx⟩ := List.mem_map.1 hxm
  simp only at hpx
  subst hpx
  obtain ⟨l1, l2, hl⟩ := List.append_of_mem hpm
  obtain ⟨c, hc, htc, hsc⟩ := mem_offered calls _ hpm
  simp only at hsc htc
  refine ⟨c, hc, htc, ?_⟩
  have hvs : ∀ p ∈ offered calls, Valid p.1 ∧ ∀ s ∈ p.2, Valid s := by
    intro p hp
    obtain ⟨c', hc', ht', hs'⟩ := mem_offered calls p hp
    refine ⟨hb _ (hperm.mem_iff.1 (List.mem_map_of_mem hp)), ?_⟩
    rw [hs']
    exact fun s hs => hb s (hof.known c' hc' s hs)
  have hzero : ∀ l : List (EP × List EP), (∀ p ∈ l, p ∈ offered calls ∧ p.1 ≠ x') →
      (l.flatMap (fun p => targetBlocks p.1 p.2)).countP (fun b => decide (About x'.gid y.gid b)) = 0 := by
    intro l hl
    induction l with
    | nil => rfl
    | cons p l ih =>
      rw [List.flatMap_cons, List.countP_append, ih (fun q hq => hl q (List.mem_cons_of_mem _ hq)), add_zero]
      obtain ⟨hp, hpne⟩ := hl p (List.mem_cons_self ..)
      refine count_other x' y hxy p.1 (hvs p hp).1 ?_ p.2 (hvs p hp).2
      intro h
      exact hpne (hinj _ (hperm.mem_iff.1 (List.mem_map_of_mem hp)) _ hx h)
  rw [hl] at hndm
  simp only [List.map_append, List.map_cons] at hndm
  rw [List.nodup_append] at hndm
  obtain ⟨-, n2, n3⟩ := hndm
  rw [List.nodup_cons] at n2
  have hz1 := hzero l1 (fun p hp => ⟨by rw [hl]; exact List.mem_append_left _ hp, fun e =>
    n3 p.1 (List.mem_map_of_mem hp) x' (List.mem_cons_self ..) e⟩)
  have hz2 := hzero l2 (fun p hp => ⟨by rw [hl]; exact List.mem_append_right _ (List.mem_cons_of_mem _ hp), fun e =>
    n2.1 (e ▸ List.mem_map_of_mem hp)⟩)
  rw [hl, List.flatMap_append, List.flatMap_cons, List.countP_append, List.countP_append, hz1, hz2, zero_add, add_zero, hsc]
  exact count_target x' y hxy (hb _ hx) c.sources (fun s hs => hb s (hof.known c hc s hs))
    (fun s hs t ht => hinj s (hof.known c hc s hs) t (hof.known c hc t ht))
    (fun s hs => hinj s (hof.known c hc s hs) y hy) (hof.once c hc)

/-- However the bodies are grouped, ordered and spread over threads: the walk is defined; each block is two-sided and
about two different bodies; a pair of bodies gets exactly one block if its surfaces are closer than the buffer distance
and none otherwise.  Missing for C39: pairs for which `DCPQuery` is wrong (`C32_false`), spheres with enlarged collision
shape that the search misses (`C40_false`), periodic images. -/
theorem C39_once_partial (bodies : List EP) (hb : ∀ s ∈ bodies, Valid s ∧ 0 ≤ s.colBuf ∧ (Sphere s → SizeOK s))
    (hgid : (bodies.map (·.gid)).Nodup) (calls : List Call) (hof : Offers bodies calls) (threads : ℕ)
    (hth : ∀ c ∈ calls, c.thread < threads) : ∃ pool, collect (List.replicate threads []) calls = some pool ∧
      (∀ b ∈ pool.flatten, b.oneSide = false ∧ ∃ x ∈ bodies, ∃ y ∈ bodies, x.gid < y.gid ∧ About x.gid y.gid b) ∧
      ∀ x ∈ bodies, ∀ y ∈ bodies, x.gid ≠ y.gid →
        (pool.flatten.countP (fun b => decide (About x.gid y.gid b)) ≤ 1) ∧
        ((¬ Sphere x ∧ ¬ Sphere y → QueryExact x y ∧ QueryExact y x) →
          (Close x y → pool.flatten.countP (fun b => decide (About x.gid y.gid b)) = 1) ∧
          (¬ Close x y → pool.flatten.countP (fun b => decide (About x.gid y.gid b)) = 0)) := by
  have hinj : ∀ s ∈ bodies, ∀ t ∈ bodies, s.gid = t.gid → s = t := fun s hs t ht => List.inj_on_of_nodup_map hgid hs ht
  have hnd : bodies.Nodup := List.Nodup.of_map _ hgid
  have hv : ∀ s ∈ bodies, Valid s := fun s hs => (hb s hs).1
  have htb : ∀ c ∈ calls, ∀ s ∈ c.targets, s ∈ bodies :=
    fun c hc s hs => hof.targets.mem_iff.1 (List.mem_flatMap.2 ⟨c, hc, hs⟩)
  obtain ⟨pool, hp, hperm⟩ := collect_eq calls (List.replicate threads []) (by simpa using hth)
    (fun c hc s hs => hv s (htb c hc s hs)) (fun c hc s hs => hv s (hof.known c hc s hs))
  have hflat : (List.replicate threads ([] : List Block)).flatten = [] := by simp
  rw [hflat, List.nil_append] at hperm
  refine ⟨pool, hp, ?_, ?_⟩
  · intro b hbm
    obtain ⟨p, hpo, hbt⟩ := List.mem_flatMap.1 (hperm.mem_iff.1 hbm)
    obtain ⟨c, hc, ht, hs⟩ := mem_offered calls p hpo
    obtain ⟨J, hJ, hlt, hr⟩ := (mem_targetBlocks p.1 p.2 b).1 hbt
    rw [hs] at hJ
    have hxb := htb c hc _ ht
    have hyb := hof.known c hc J hJ
    obtain ⟨g1, g2, g3⟩ := recorded_gid p.1 J (hv _ hxb) (hv _ hyb) b hr
    exact ⟨g3, p.1, hxb, J, hyb, hlt, Or.inl ⟨g1, g2⟩⟩
  · have main : ∀ x ∈ bodies, ∀ y ∈ bodies, x.gid < y.gid →
        (pool.flatten.countP (fun b => decide (About x.gid y.gid b)) ≤ 1) ∧
        ((¬ Sphere x ∧ ¬ Sphere y → QueryExact x y) →
          (Close x y → pool.flatten.countP (fun b => decide (About x.gid y.gid b)) = 1) ∧
          (¬ Close x y → pool.flatten.countP (fun b => decide (About x.gid y.gid b)) = 0)) := by
      intro x hx y hy hxy
      obtain ⟨c, hc, hxt, hcount⟩ := count_pair bodies hv hinj calls hof hnd x y hx hy hxy
      rw [hperm.countP_eq, hcount]
      refine ⟨by split <;> omega, fun hq => ⟨fun hcl => ?_, fun hcl => ?_⟩⟩
      · rw [if_pos]
        refine ⟨hof.near c hc x hxt y hy ?_, (recorded_iff x y (hv x hx) (hv y hy) hq).2 hcl⟩
        exact C40_search_partial x y (hv x hx) (hv y hy) (hb x hx).2.1 (hb y hy).2.1 (hb x hx).2.2 (hb y hy).2.2 hcl
      · rw [if_neg]
        exact fun h => hcl ((recorded_iff x y (hv x hx) (hv y hy) hq).1 h.2)
    have hab : ∀ (u v : ℤ), (fun b => decide (About u v b)) = fun b => decide (About v u b) := by
      intro u v; funext b; exact decide_eq_decide.2 Or.comm
    have hcl : ∀ x y : EP, Close x y → Close y x := by
      rintro x y ⟨d, ⟨⟨p, q, hp, hq, hd⟩, hm⟩, hlt⟩
      refine ⟨d, ⟨⟨q, p, hq, hp, by rw [hd, norm_sub_comm]; ring⟩, fun p' q' hp' hq' => ?_⟩, ?_⟩
      · have := hm q' p' hq' hp'
        rw [norm_sub_comm] at this; linarith
      · unfold bufferOf at hlt ⊢; linarith
    intro x hx y hy hne
    rcases lt_or_gt_of_ne hne with h | h
    · obtain ⟨h1, h2⟩ := main x hx y hy h
      exact ⟨h1, fun hq => h2 (fun hs => (hq hs).1)⟩
    · obtain ⟨h1, h2⟩ := main y hy x hx h
      rw [hab y.gid x.gid] at h1 h2
      refine ⟨h1, fun hq => ?_⟩
      obtain ⟨h3, h4⟩ := h2 (fun hs => (hq ⟨hs.2, hs.1⟩).2)
      exact ⟨fun hc => h3 (hcl x y hc), fun hc => h4 (fun h' => hc (hcl y x h'))⟩

/-- Two bodies handled in one call by thread 0 of 2. -/
example (a b : EP) (h : a ≠ b) : Offers [a, b] [⟨0, [b, a], [a, b]⟩] := by
  refine ⟨by simpa using List.Perm.swap .., ?_, ?_, ?_⟩
  · simpa using h
  · simp
  · intro c hc t _ x hx _
    simp only [List.mem_singleton] at hc
    subst hc
    simpa using hx

end Verif
