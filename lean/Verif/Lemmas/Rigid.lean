import Verif.Spec.Rigid
import Verif.Lemmas.Displace
import Mathlib.LinearAlgebra.Matrix.Adjugate
import Mathlib.LinearAlgebra.Matrix.NonsingularInverse
/-! Lemmas for C115: what is computed for bodies that are turned. -/
namespace Verif.Rigid
open Verif.V3 Verif.Near Verif.Collector Verif.Sim Verif.Spec.Layout Verif.Spec.Resume Verif.Spec.Momentum Verif.Spec.Rigid Image RunStep Layout

/-! ### vectors -/

variable {R : Mat3}

theorem turn_add (R : Mat3) (a b : V3) : turn R (a + b) = turn R a + turn R b := by ext <;> simp [turn] <;> ring
theorem turn_sub (R : Mat3) (a b : V3) : turn R (a - b) = turn R a - turn R b := by ext <;> simp [turn] <;> ring
theorem turn_neg (R : Mat3) (a : V3) : turn R (-a) = -turn R a := by ext <;> simp [turn] <;> ring
theorem turn_smul (R : Mat3) (c : ℝ) (a : V3) : turn R (c • a) = c • turn R a := by ext <;> simp [turn] <;> ring
theorem turn_zero (R : Mat3) : turn R 0 = 0 := by ext <;> simp [turn]
theorem turn_one (a : V3) : turn 1 a = a := by ext <;> simp [turn]
theorem turn_mul (R S : Mat3) (a : V3) : turn (R * S) a = turn R (turn S a) := by
  ext <;> simp [turn, Matrix.mul_apply, Fin.sum_univ_three] <;> ring

theorem _root_.Verif.Spec.Rigid.Orth.inv (h : Orth R) : R * R.transpose = 1 := by
  exact mul_eq_one_comm.1 h.orth

theorem _root_.Verif.Spec.Rigid.Orth.back (h : Orth R) : Orth R.transpose := ⟨by rw [Matrix.transpose_transpose]; exact h.inv⟩

theorem _root_.Verif.Spec.Rigid.Orth.det_sq (h : Orth R) : R.det * R.det = 1 := by
  have := congrArg Matrix.det h.orth
  rwa [Matrix.det_mul, Matrix.det_transpose, Matrix.det_one] at this

theorem turn_back (h : Orth R) (a : V3) : turn R.transpose (turn R a) = a := by rw [← turn_mul, h.orth, turn_one]
theorem turn_forth (h : Orth R) (a : V3) : turn R (turn R.transpose a) = a := by rw [← turn_mul, h.inv, turn_one]

theorem dot_turn_left (R : Mat3) (a b : V3) : dot (turn R a) b = dot a (turn R.transpose b) := by simp [dot, turn]; ring

theorem dot_turn (h : Orth R) (a b : V3) : dot (turn R a) (turn R b) = dot a b := by rw [dot_turn_left, turn_back h]

theorem _root_.Verif.Spec.Rigid.Orth.adj (h : Orth R) : R.adjugate = R.det • R.transpose := by
  have h1 : R.adjugate * R = R.det • (1 : Mat3) := by rw [Matrix.adjugate_mul]
  have h2 := h.inv
  calc R.adjugate = R.adjugate * (R * R.transpose) := by rw [h2, mul_one]
    _ = R.det • R.transpose := by rw [← mul_assoc, h1, Matrix.smul_mul, one_mul]

theorem cross_turn (h : Orth R) (a b : V3) : cross (turn R a) (turn R b) = spin R (cross a b) := by
  have ha := h.adj
  unfold spin
  generalize R.det = t at ha ⊢
  rw [Matrix.adjugate_fin_three] at ha
  have e : ∀ i j, _ = _ := fun i j => congrFun (congrFun ha i) j
  have e00 := e 0 0
  have e01 := e 0 1
  have e02 := e 0 2
  have e10 := e 1 0
  have e11 := e 1 1
  have e12 := e 1 2
  have e20 := e 2 0
  have e21 := e 2 1
  have e22 := e 2 2
  simp at e00 e01 e02 e10 e11 e12 e20 e21 e22
  ext
  · simp only [turn, cross_x, cross_y, cross_z, smul_x, smul_y, smul_z]
    linear_combination (a.y * b.z - a.z * b.y) * e00 + (a.z * b.x - a.x * b.z) * e10 + (a.x * b.y - a.y * b.x) * e20
  · simp only [turn, cross_x, cross_y, cross_z, smul_x, smul_y, smul_z]
    linear_combination (a.y * b.z - a.z * b.y) * e01 + (a.z * b.x - a.x * b.z) * e11 + (a.x * b.y - a.y * b.x) * e21
  · simp only [turn, cross_x, cross_y, cross_z, smul_x, smul_y, smul_z]
    linear_combination (a.y * b.z - a.z * b.y) * e02 + (a.z * b.x - a.x * b.z) * e12 + (a.x * b.y - a.y * b.x) * e22

theorem spin_add (R : Mat3) (a b : V3) : spin R (a + b) = spin R a + spin R b := by unfold spin; rw [turn_add]; ext <;> simp <;> ring
theorem spin_sub (R : Mat3) (a b : V3) : spin R (a - b) = spin R a - spin R b := by unfold spin; rw [turn_sub]; ext <;> simp <;> ring
theorem spin_neg (R : Mat3) (a : V3) : spin R (-a) = -spin R a := by unfold spin; rw [turn_neg]; ext <;> simp <;> ring
theorem spin_smul (R : Mat3) (c : ℝ) (a : V3) : spin R (c • a) = c • spin R a := by unfold spin; rw [turn_smul]; ext <;> simp <;> ring
theorem spin_zero (R : Mat3) : spin R 0 = 0 := by unfold spin; rw [turn_zero]; ext <;> simp

theorem smul_sq {t : ℝ} (h : t * t = 1) (a : V3) : t • t • a = a := by
  ext <;> simp <;> rw [← mul_assoc, h, one_mul]

theorem spin_back (h : Orth R) (a : V3) : spin R.transpose (spin R a) = a := by
  unfold spin
  rw [turn_smul, turn_back h, Matrix.det_transpose, smul_sq h.det_sq]

theorem spin_forth (h : Orth R) (a : V3) : spin R (spin R.transpose a) = a := by
  unfold spin
  rw [turn_smul, turn_forth h, Matrix.det_transpose, smul_sq h.det_sq]

theorem dot_spin (h : Orth R) (a b : V3) : dot (spin R a) (spin R b) = dot a b := by
  have := dot_turn h a b
  have h2 := h.det_sq
  unfold spin
  have e : dot (R.det • turn R a) (R.det • turn R b) = R.det * R.det * dot (turn R a) (turn R b) := by simp [dot]; ring
  rw [e, h2, one_mul, this]

/-- The velocity of a point of a body. -/
theorem cross_spin (h : Orth R) (a b : V3) : cross (spin R a) (turn R b) = turn R (cross a b) := by
  have e : ∀ t : ℝ, cross (t • turn R a) (turn R b) = t • cross (turn R a) (turn R b) := by intro t; ext <;> simp <;> ring
  show cross (R.det • turn R a) _ = _
  rw [e, cross_turn h]
  exact smul_sq h.det_sq _

theorem normSq_turn (h : Orth R) (a : V3) : normSq (turn R a) = normSq a := dot_turn h a a
theorem norm_turn (h : Orth R) (a : V3) : V3.norm (turn R a) = V3.norm a := by unfold V3.norm; rw [normSq_turn h]
theorem normalized_turn (h : Orth R) (a : V3) : normalized (turn R a) = turn R (normalized a) := by
  unfold normalized
  rw [normSq_turn h, norm_turn h]
  split_ifs
  · rw [turn_smul]
  · rfl

theorem turn_add_right (R : Mat3) (a v d : V3) : (turn R a + v) + turn R d = turn R (a + d) + v := by rw [turn_add]; ext <;> simp <;> ring
theorem turn_sub_right (R : Mat3) (a v d : V3) : (turn R a + v) - turn R d = turn R (a - d) + v := by rw [turn_sub]; ext <;> simp <;> ring

/-! ### contacts -/

theorem distPointSeg_turn (h : Orth R) (p a b : V3) : DCP.distPointSeg (turn R p) (turn R a) (turn R b) = ((DCP.distPointSeg p a b).1, turn R (DCP.distPointSeg p a b).2) := by
  unfold DCP.distPointSeg
  simp only [← turn_sub, dot_turn h, ← turn_smul, ← turn_add]
  split_ifs <;> simp only [← turn_sub, dot_turn h]

theorem query_turn (h : Orth R) (eps : ℝ) (P0 P1 Q0 Q1 : V3) : DCP.query eps (turn R P0) (turn R P1) (turn R Q0) (turn R Q1) =
    (DCP.query eps P0 P1 Q0 Q1).map fun r => { r with Ploc := turn R r.Ploc, Qloc := turn R r.Qloc } := by
  have hc : DCP.coef (turn R P0) (turn R P1) (turn R Q0) (turn R Q1) = DCP.coef P0 P1 Q0 Q1 := by
    unfold DCP.coef
    simp only [← turn_sub, dot_turn h]
  unfold DCP.query
  rw [hc]
  cases DCP.parameters eps (DCP.coef P0 P1 Q0 Q1) with
  | none => rfl
  | some p =>
    simp only [Option.bind_eq_bind, Option.bind_some, Option.map_some, ← turn_smul, ← turn_add, ← turn_sub, dot_turn h]

/-- A matrix, turned as a tensor. -/
noncomputable def conj (R M : Mat3) : Mat3 := R * M * R.transpose

theorem conj_add (R M N : Mat3) : conj R (M + N) = conj R M + conj R N := by unfold conj; rw [mul_add, add_mul]

theorem conj_mul (h : Orth R) (M N : Mat3) : conj R M * conj R N = conj R (M * N) := by
  unfold conj
  calc R * M * R.transpose * (R * N * R.transpose) = R * M * (R.transpose * R) * N * R.transpose := by simp only [mul_assoc]
    _ = R * (M * N) * R.transpose := by rw [h.orth, mul_one]; simp only [mul_assoc]

theorem turn_conj (h : Orth R) (M : Mat3) (a : V3) : turn (conj R M) (turn R a) = turn R (turn M a) := by
  unfold conj
  rw [← turn_mul, mul_assoc, h.orth, mul_one, turn_mul]

theorem outer_turn (R : Mat3) (a b : V3) : outer (turn R a) (turn R b) = conj R (outer a b) := by
  funext i j
  fin_cases i <;> fin_cases j <;> simp [outer, turn, conj, comp, Matrix.mul_apply, Fin.sum_univ_three] <;> ring

theorem axisMat_eq (a b : ℝ) (d : V3) : axisMat a b d = a • (1 : Mat3) + (b - a) • outer d d := by
  funext i j
  simp [axisMat, outer, Matrix.one_apply]

theorem axisMat_turn (h : Orth R) (a b : ℝ) (d : V3) : axisMat a b (turn R d) = conj R (axisMat a b d) := by
  rw [axisMat_eq, axisMat_eq, outer_turn, conj_add]
  congr 1
  · unfold conj
    rw [Matrix.mul_smul, mul_one, Matrix.smul_mul, h.inv]
  · unfold conj
    rw [Matrix.mul_smul, Matrix.smul_mul]

/-- For equal coefficients the direction is irrelevant. -/
theorem axisMat_same (a : ℝ) (d e : V3) : axisMat a a d = axisMat a a e := by
  funext i j
  simp [axisMat]

/-- The matrix of the product with the vector `y`. -/
def skew (y : V3) : Mat3 := !![0, y.z, -y.y; -y.z, 0, y.x; y.y, -y.x, 0]

theorem turn_skew (y b : V3) : turn (skew y) b = cross b y := by
  ext <;> simp [turn, skew] <;> ring

theorem ext_turn {M N : Mat3} (h : ∀ a, turn M a = turn N a) : M = N := by
  have h0 := h ⟨1, 0, 0⟩
  have h1 := h ⟨0, 1, 0⟩
  have h2 := h ⟨0, 0, 1⟩
  simp [turn] at h0 h1 h2
  funext i j
  fin_cases i <;> fin_cases j <;> simp_all

theorem cross_spin_right (h : Orth R) (a b : V3) : cross (turn R b) (spin R a) = turn R (cross b a) := by
  have e : ∀ t : ℝ, cross (turn R b) (t • turn R a) = t • cross (turn R b) (turn R a) := by intro t; ext <;> simp <;> ring
  show cross _ (R.det • turn R a) = _
  rw [e, cross_turn h]
  exact smul_sq h.det_sq _

theorem skew_turn (h : Orth R) (y : V3) : skew (spin R y) = conj R (skew y) := by
  apply ext_turn
  intro a
  have e : a = turn R (turn R.transpose a) := (turn_forth h a).symm
  rw [e, turn_skew, turn_conj h, turn_skew, cross_spin_right h]

theorem sgTerm_mul (N G : Mat3) (x : V3) : sgTerm N G x = N * skew (turn G x) := by
  funext i j
  fin_cases j <;> simp [sgTerm, Fin.sum_univ_three, levi, comp, turn, skew, Matrix.mul_apply] <;> ring

theorem sgTerm_turn (h : Orth R) (N G : Mat3) (x : V3) : sgTerm (conj R N) (conj R G) (spin R x) = conj R (sgTerm N G x) := by
  have e : turn (conj R G) (spin R x) = spin R (turn G x) := by unfold spin; rw [turn_smul, turn_conj h]
  rw [sgTerm_mul, sgTerm_mul, e, skew_turn h, conj_mul h]

theorem stress_turn (h : Orth R) (dI dJ cI cJ : V3) (hI hJ rI rJ rho : ℝ) (P Q : V3) :
    collideStress (turn R dI) (turn R dJ) (turn R cI) (turn R cJ) hI hJ rI rJ rho (turn R P) (turn R Q) = (collideStress dI dJ cI cJ hI hJ rI rJ rho P Q).map (conj R) := by
  unfold collideStress
  simp only [← turn_sub, normalized_turn h, ← turn_neg, outer_turn, cross_turn h, axisMat_turn h, sgTerm_turn h, ← conj_add]
  split_ifs <;> rfl

/-- For a sphere the direction is irrelevant. -/
theorem stress_first (dI dI' dJ cI cJ : V3) (hJ rI rJ rho : ℝ) (P Q : V3) :
    collideStress dI dJ cI cJ 0 hJ rI rJ rho P Q = collideStress dI' dJ cI cJ 0 hJ rI rJ rho P Q := by
  have e1 : (initializeSyN rI 0 rho).1 = (initializeSyN rI 0 rho).2 := by unfold initializeSyN; simp only; ring
  have e2 : (initializeSyGA rI 0 rho).1 = (initializeSyGA rI 0 rho).2 := by unfold initializeSyGA; simp only; ring
  unfold collideStress
  simp only [e1, e2, axisMat_same _ dI dI']

theorem stress_second (dI dJ dJ' cI cJ : V3) (hI rI rJ rho : ℝ) (P Q : V3) :
    collideStress dI dJ cI cJ hI 0 rI rJ rho P Q = collideStress dI dJ' cI cJ hI 0 rI rJ rho P Q := by
  have e1 : (initializeSyN rJ 0 rho).1 = (initializeSyN rJ 0 rho).2 := by unfold initializeSyN; simp only; ring
  have e2 : (initializeSyGA rJ 0 rho).1 = (initializeSyGA rJ 0 rho).2 := by unfold initializeSyGA; simp only; ring
  unfold collideStress
  simp only [e1, e2, axisMat_same _ dJ dJ']

/-- A body in the tree, turned. -/
noncomputable def rt (R : Mat3) (e : EP) : EP := { e with pos := turn R e.pos, direction := turn R e.direction }

theorem rt_pos (e : EP) : (rt R e).pos = turn R e.pos := rfl
theorem rt_direction (e : EP) : (rt R e).direction = turn R e.direction := rfl
theorem rt_length (e : EP) : (rt R e).lengthCollision = e.lengthCollision := rfl
theorem rt_radius (e : EP) : (rt R e).radiusCollision = e.radiusCollision := rfl
theorem rt_colBuf (e : EP) : (rt R e).colBuf = e.colBuf := rfl
theorem rt_sphere (e : EP) : isSphere (rt R e) = isSphere e := rfl

theorem add_zero' (a : V3) : a + 0 = a := by ext <;> simp

theorem set_get (s : Mat3) (b : Block) : (b.setStress s).getStress = s := by
  funext i j
  fin_cases i <;> fin_cases j <;> rfl

theorem conj_zero (R : Mat3) : conj R 0 = 0 := by unfold conj; simp

theorem setStress_turn (R : Mat3) (v : V3) (b : Block) (s : Mat3) : (carryBlock R v b).setStress (conj R s) = carryBlock R v (b.setStress s) := by
  unfold carryBlock
  rw [set_get]
  rfl

theorem stress_zero (R : Mat3) (b : Block) (h : b.stress = fun _ => 0) : (b.setStress (R * b.getStress * R.transpose)).stress = fun _ => 0 := by
  have e : b.getStress = 0 := by
    funext i j
    unfold Block.getStress
    rw [h]; rfl
  rw [e]
  simp [Block.setStress]

theorem contact_turn (h : Orth R) (sep : ℝ) (I J : EP) (P Q : V3) : contact sep (rt R I) (rt R J) (turn R P) (turn R Q) = carryBlock R 0 (contact sep I J P Q) := by
  unfold carryBlock
  rw [stress_zero R _ rfl]
  unfold contact rt
  simp only [← turn_sub, normalized_turn h, ← turn_neg, add_zero']

theorem reverse_turn (R : Mat3) (v : V3) (b : Block) : (carryBlock R v b).reverseIJ = carryBlock R v b.reverseIJ := rfl

theorem bind_turn (R : Mat3) (v : V3) (o : Option Mat3) (b : Block) : ((o.map (conj R)).bind fun s => some (some ((carryBlock R v b).setStress s))) =
    (o.bind fun s => some (some (b.setStress s))).map (Option.map (carryBlock R v)) := by
  cases o with
  | none => rfl
  | some s => simp only [Option.map_some, Option.bind_some, setStress_turn]

theorem sp_sp_turn (h : Orth R) (I J : EP) : sp_sp (rt R I) (rt R J) = (sp_sp I J).map (Option.map (carryBlock R 0)) := by
  unfold sp_sp
  simp only [rt_pos, rt_length, rt_radius, rt_colBuf, ← turn_sub, norm_turn h, contact_turn h, Option.bind_eq_bind]
  rw [stress_first _ (turn R ⟨0, 0, 1⟩), stress_second _ _ (turn R ⟨0, 0, 1⟩), stress_turn h]
  split_ifs
  · exact bind_turn _ _ _ _
  · rfl

theorem sp_sy_turn (h : Orth R) (I J : EP) (rev : Bool) : sp_sy (rt R I) (rt R J) rev = (sp_sy I J rev).map (Option.map (carryBlock R 0)) := by
  unfold sp_sy
  simp only [rt_pos, rt_length, rt_radius, rt_colBuf, rt_direction, ← turn_smul, ← turn_sub, ← turn_add, distPointSeg_turn h, contact_turn h, Option.bind_eq_bind]
  rw [stress_first _ (turn R ⟨0, 0, 1⟩), stress_turn h]
  split_ifs
  · rw [reverse_turn]; exact bind_turn _ _ _ _
  · exact bind_turn _ _ _ _
  · rfl

theorem sy_sy_turn (h : Orth R) (I J : EP) : sy_sy (rt R I) (rt R J) = (sy_sy I J).map (Option.map (carryBlock R 0)) := by
  unfold sy_sy
  simp only [rt_pos, rt_length, rt_radius, rt_colBuf, rt_direction, ← turn_smul, ← turn_sub, ← turn_add, query_turn h]
  cases DCP.query DCP.dblEps (I.pos - (0.5 * I.lengthCollision) • I.direction) (I.pos + (0.5 * I.lengthCollision) • I.direction)
      (J.pos - (0.5 * J.lengthCollision) • J.direction) (J.pos + (0.5 * J.lengthCollision) • J.direction) with
  | none => rfl
  | some q =>
    simp only [Option.map_some, Option.bind_some, contact_turn h, stress_turn h, Option.bind_eq_bind]
    split_ifs
    · exact bind_turn _ _ _ _
    · rfl

/-- A body in the tree, turned and displaced. -/
noncomputable def mv (R : Mat3) (v : V3) (e : EP) : EP := { e with pos := turn R e.pos + v, direction := turn R e.direction }

theorem recorded_move (h : Orth R) (v : V3) (I J : EP) : recorded (mv R v I) (mv R v J) = (recorded I J).map (carryBlock R v) := by
  have hc : collide (rt R I) (rt R J) = (collide I J).map (Option.map (carryBlock R 0)) := by
    unfold collide
    simp only [rt_sphere, sp_sp_turn h, sp_sy_turn h, sy_sy_turn h]
    split <;> split <;> rfl
  have hr : recorded (rt R I) (rt R J) = (recorded I J).map (carryBlock R 0) := by
    unfold recorded
    rw [hc]
    cases collide I J <;> rfl
  have e : ∀ K, mv R v K = Displace.tr v (rt R K) := fun _ => rfl
  rw [e, e, Displace.recorded_tr, hr, Option.map_map]
  congr 1
  funext b
  show Displace.trb v (carryBlock R 0 b) = carryBlock R v b
  unfold Displace.trb carryBlock
  simp only [add_zero']

theorem forget_carry (R : Mat3) (v : V3) (b : Block) : forget (carryBlock R v b) = carryBlock R v (forget b) := rfl

/-! ### bodies -/

/-- A body, turned and displaced. -/
noncomputable def move (R : Mat3) (v : V3) (w : View) : View := (w.1, turn R w.2.1 + v, turn R w.2.2)

theorem move_inj (h : Orth R) (v : V3) : Function.Injective (move R v) := by
  rintro ⟨a, p, d⟩ ⟨b, q, e⟩ hw
  simp only [move, Prod.mk.injEq] at hw
  obtain ⟨rfl, h1, h2⟩ := hw
  have hp : turn R p = turn R q := by
    have : turn R p + v - v = turn R q + v - v := by rw [h1]
    have e : ∀ a : V3, a + v - v = a := by intro a; ext <;> simp
    rwa [e, e] at this
  rw [← turn_back h p, ← turn_back h d, hp, h2, turn_back h, turn_back h]

theorem turn_neg_back (h : Orth R) (v a : V3) : turn R.transpose (turn R a + v) + -turn R.transpose v = a := by
  rw [turn_add, turn_back h]
  ext <;> simp

theorem move_back (h : Orth R) (v : V3) (w : View) : move R.transpose (-turn R.transpose v) (move R v w) = w :=
  Prod.ext rfl (Prod.ext (turn_neg_back h v w.2.1) (turn_back h w.2.2))

theorem perm_of_pair {α β β' γ : Type*} {R : α → β → Prop} {R' : α → β' → Prop} {f : β → γ} {f' : β' → γ} {k k' : List α} {l : List β} {l' : List β'}
    (hR : ∀ a ∈ k, ∀ b b', R a b → R' a b' → f b = f' b') (h : List.Forall₂ R k l) (h' : List.Forall₂ R' k' l') (hk : k.Perm k') : (l.map f).Perm (l'.map f') := by
  obtain ⟨m, h1, h2⟩ := List.perm_comp_forall₂ hk h'
  refine List.Perm.trans (List.Perm.of_eq ?_) (h2.map f')
  clear h' hk h2
  induction h generalizing m with
  | nil => cases h1; rfl
  | cons hab _ ih =>
    cases h1 with
    | cons h3 h4 =>
      rw [List.map_cons, List.map_cons, hR _ List.mem_cons_self _ _ hab h3, ih (fun a ha => hR a (List.mem_cons_of_mem _ ha)) _ h4]

theorem shift_flat {d : Stats.Domain} (hd : ∀ k, d.periodic k = false) {m : Idx} (hm : Displace.Flat d m) (e : EP) : shift d m e = e := by
  obtain ⟨a, b, c⟩ := hm
  unfold shift
  rw [a (hd 0), b (hd 1), c (hd 2)]
  have : e.pos + ⟨((0 : ℤ) : ℝ) * (d.high 0 - d.low 0), ((0 : ℤ) : ℝ) * (d.high 1 - d.low 1), ((0 : ℤ) : ℝ) * (d.high 2 - d.low 2)⟩ = e.pos := by ext <;> simp
  rw [this]

/-- The contact of two bodies that are moved. -/
theorem pair_move {c c' : Place.Cfg} {V V' : List View} (hR : Orth R) (hc : c'.diameterColRatio = c.diameterColRatio ∧ c'.lengthColRatio = c.lengthColRatio ∧ c'.colBuf = c.colBuf ∧ c'.d = c.d)
    (hd : ∀ k, c.d.periodic k = false) (v : V3) (hV : ∀ w ∈ V, move R v w ∈ V') (k : ℤ × ℤ × Idx) (b : Block) (h : PairOf c V k b) :
    PairOf c' V' k (carryBlock R v b) := by
  obtain ⟨g, g', m⟩ := k
  obtain ⟨x, hx, y, hy, e1, e2, e3, e4, e5⟩ := h
  simp only at e1 e2 e3 e4 e5
  subst e1 e2
  have he : ∀ v, ep c' v = ep c v := by
    intro v
    unfold ep
    rw [hc.1, hc.2.1, hc.2.2.1]
  refine ⟨move R v x, hV x hx, move R v y, hV y hy, rfl, rfl, e3, ?_, ?_⟩
  · rw [hc.2.2.2]; exact e4
  · rw [he, he, hc.2.2.2]
    rw [shift_flat hd e4] at e5 ⊢
    have h1 : ∀ x, ep c (move R v x) = mv R v (ep c x) := fun _ => rfl
    rw [h1, h1, recorded_move hR, e5]
    rfl

/-! ### links -/

theorem image_flat (cfg : Links.Cfg) (hd : ∀ k, cfg.pbc k = false) {p x c : V3} (h : Links.Image cfg p x c) : c = x := by
  apply comp_ext
  intro k
  have := h k
  rw [hd k] at this
  simpa using this

theorem block_move (hR : Orth R) (v : V3) (cfg : Links.Cfg) (x x' : Sylinder) (e e' : EP) (hk : kind x' = kind x) (hd : x'.direction = turn R x.direction) (hp : x'.pos = turn R x.pos + v)
    (e1 : e'.gid = e.gid) (e2 : e'.radius = e.radius) (e3 : e'.length = e.length) (e4 : e'.direction = turn R e.direction) (c : V3) :
    (Links.block cfg x' e' (turn R c + v)).map forget = (Links.block cfg x e c).map fun b => forget (carryBlock R v b) := by
  simp only [kind, Prod.mk.injEq] at hk
  obtain ⟨x1, -, -, x2, x3⟩ := hk
  unfold Links.block
  simp only [x1, x2, x3, hd, hp, e1, e2, e3, e4, turn_add_right, turn_sub_right, Displace.add_sub_add, Displace.stress_tr, ← turn_smul, ← turn_sub, ← turn_add, stress_turn hR,
    normalized_turn hR, norm_turn hR, ← turn_neg, Option.map_map]
  congr 1

theorem link_move {cfg : Links.Cfg} {c c' : Place.Cfg} {V V' : List View} (hR : Orth R) (hd : ∀ k, cfg.pbc k = false)
    (hV' : (V'.map fun v => v.1.1).Nodup) (v : V3) (hV : ∀ w ∈ V, move R v w ∈ V') (w : View) (g : ℤ) (b b' : Block)
    (h : LinkOf cfg c V (w, g) b) (h' : LinkOf cfg c' V' (move R v w, g) b') : carryBlock R v b = b' := by
  obtain ⟨x, e, a, hx, ⟨y, hy, hg, he⟩, ⟨ctr, hct, hb⟩, rfl⟩ := h
  obtain ⟨x', e', a', hx', ⟨y', hy', hg', he'⟩, ⟨ctr', hct', hb'⟩, rfl⟩ := h'
  simp only at hx hg hx' hg'
  have hyy : y' = move R v y := view_unique hV' hy' (hV y hy) (hg'.trans hg.symm)
  subst hyy
  have hpx : x.pos = w.2.1 := congrArg (fun v : View => v.2.1) hx
  have hpx' : x'.pos = turn R w.2.1 + v := congrArg (fun v : View => v.2.1) hx'
  have hpe : e.pos = y.2.1 := congrArg EP.pos he
  have hpe' : e'.pos = turn R y.2.1 + v := congrArg EP.pos he'
  have c1 := image_flat cfg hd hct
  have c2 := image_flat cfg hd hct'
  have hc2 : ctr' = turn R ctr + v := by rw [c1, c2, hpe, hpe']
  have f1 : e'.gid = e.gid := by
    have h1 : e.gid = y.1.1 := congrArg EP.gid he
    have h2 : e'.gid = y.1.1 := congrArg EP.gid he'
    rw [h1, h2]
  have f2 : e'.radius = e.radius := by
    have h1 : e.radius = y.1.2.2.2.1 := congrArg EP.radius he
    have h2 : e'.radius = y.1.2.2.2.1 := congrArg EP.radius he'
    rw [h1, h2]
  have f3 : e'.length = e.length := by
    have h1 : e.length = y.1.2.2.2.2 := congrArg EP.length he
    have h2 : e'.length = y.1.2.2.2.2 := congrArg EP.length he'
    rw [h1, h2]
  have f4 : e'.direction = turn R e.direction := by
    have h1 : e.direction = y.2.2 := congrArg EP.direction he
    have h2 : e'.direction = turn R y.2.2 := congrArg EP.direction he'
    rw [h1, h2]
  have g1 : kind x' = kind x := by
    have h1 : kind x = w.1 := congrArg Prod.fst hx
    have h2 : kind x' = w.1 := congrArg Prod.fst hx'
    rw [h1, h2]
  have g2 : x'.direction = turn R x.direction := by
    have h1 : x.direction = w.2.2 := congrArg (fun v : View => v.2.2) hx
    have h2 : x'.direction = turn R w.2.2 := congrArg (fun v : View => v.2.2) hx'
    rw [h1, h2]
  have := block_move hR v cfg x x' e e' g1 g2 (by rw [hpx, hpx']) f1 f2 f3 f4 ctr
  rw [← hc2, hb, hb'] at this
  exact (Option.some.inj this).symm

/-! ### boundaries -/

theorem checkEnd_move (hR : Orth R) (v : V3) (b b' : BoundaryCol.Bound) (hb : Carried R v b b') (colBuf : ℝ) (x x' : Sylinder) (hg : x'.gid = x.gid) (hp : x'.pos = turn R x.pos + v)
    (hr : x'.radiusCollision = x.radiusCollision) (query : V3) (radius : ℝ) :
    (BoundaryCol.checkEnd b' colBuf x' (turn R query + v) radius).map (List.map forget) = (BoundaryCol.checkEnd b colBuf x query radius).map (List.map fun b => forget (carryBlock R v b)) := by
  unfold BoundaryCol.checkEnd
  rw [hb query]
  cases b.project query with
  | none => rfl
  | some pd =>
    simp only [Option.map_some, hp, hr, Displace.add_sub_add, ← turn_sub, dot_turn hR, norm_turn hR, ← turn_smul]
    have e : ∀ d n p a c, forget (BoundaryCol.oneSided x' d (turn R n) (turn R p) (turn R a + v) (turn R c + v)) = forget (carryBlock R v (BoundaryCol.oneSided x d n p a c)) := by
      intro d n p a c
      unfold carryBlock
      rw [stress_zero R _ rfl]
      unfold BoundaryCol.oneSided forget
      simp only [hg]
    split_ifs <;> simp [e]

theorem bodyBlocks_move (hR : Orth R) (v : V3) (b b' : BoundaryCol.Bound) (hb : Carried R v b b') (colBuf : ℝ) (x x' : Sylinder) (hk : kind x' = kind x) (hp : x'.pos = turn R x.pos + v)
    (hd : x'.direction = turn R x.direction) (hr : x'.radiusCollision = x.radiusCollision) (hl : x'.lengthCollision = x.lengthCollision) :
    ((BoundaryCol.bodyBlocks b' colBuf x').getD []).map forget = ((BoundaryCol.bodyBlocks b colBuf x).getD []).map fun b => forget (carryBlock R v b) := by
  simp only [kind, Prod.mk.injEq] at hk
  obtain ⟨x1, -, -, x2, x3⟩ := hk
  have key : (BoundaryCol.bodyBlocks b' colBuf x').map (List.map forget) = (BoundaryCol.bodyBlocks b colBuf x).map (List.map fun b => forget (carryBlock R v b)) := by
    have hd : x'.orientation.rot ⟨0, 0, 1⟩ = turn R (x.orientation.rot ⟨0, 0, 1⟩) := hd
    have hsp : x'.isSphere true = x.isSphere true := by
      unfold Sylinder.isSphere
      rw [hr, hl, x2, x3]
    unfold BoundaryCol.bodyBlocks
    simp only [hsp, hr, hl, hd, hp, ← turn_smul, turn_add_right, turn_sub_right]
    split
    · exact checkEnd_move hR v b b' hb colBuf x x' x1 hp hr _ _
    · have h1 := checkEnd_move hR v b b' hb colBuf x x' x1 hp hr (x.pos - (x.lengthCollision * 0.5) • x.orientation.rot ⟨0, 0, 1⟩) x.radiusCollision
      have h2 := checkEnd_move hR v b b' hb colBuf x x' x1 hp hr (x.pos + (x.lengthCollision * 0.5) • x.orientation.rot ⟨0, 0, 1⟩) x.radiusCollision
      revert h1 h2
      generalize BoundaryCol.checkEnd b' colBuf x' _ _ = o1
      generalize BoundaryCol.checkEnd b colBuf x _ _ = o2
      generalize BoundaryCol.checkEnd b' colBuf x' _ _ = o3
      generalize BoundaryCol.checkEnd b colBuf x _ _ = o4
      cases o1 <;> cases o2 <;> cases o3 <;> cases o4 <;> intro h1 h2 <;> simp_all
  revert key
  cases BoundaryCol.bodyBlocks b' colBuf x' <;> cases BoundaryCol.bodyBlocks b colBuf x <;> intro key <;> simp_all

/-! ### motion -/

open Spec.Motion Spec.Mobility Spec.Collector

/-- A force and torque, or a velocity and angular velocity, turned. -/
noncomputable def turn2 (R : Mat3) (p : V3 × V3) : V3 × V3 := (turn R p.1, spin R p.2)

theorem turn2_add (R : Mat3) (p q : V3 × V3) : turn2 R (p + q) = turn2 R p + turn2 R q := Prod.ext (turn_add R _ _) (spin_add R _ _)
theorem turn2_sub (R : Mat3) (p q : V3 × V3) : turn2 R (p - q) = turn2 R p - turn2 R q := Prod.ext (turn_sub R _ _) (spin_sub R _ _)
theorem turn2_back (h : Orth R) (p : V3 × V3) : turn2 R.transpose (turn2 R p) = p := Prod.ext (turn_back h _) (spin_back h _)
theorem turn2_forth (h : Orth R) (p : V3 × V3) : turn2 R (turn2 R.transpose p) = p := Prod.ext (turn_forth h _) (spin_forth h _)

theorem turn2_inj (h : Orth R) {p q : V3 × V3} (e : turn2 R p = turn2 R q) : p = q := by
  rw [← turn2_back h p, e, turn2_back h]

theorem power_turn (h : Orth R) (F U : V3 × V3) : power (turn2 R F) (turn2 R U) = power F U := by
  unfold power turn2
  rw [dot_turn h, dot_spin h]

theorem drag_turn (h : Orth R) (para perp rot : ℝ) (d : V3) (U : V3 × V3) : drag para perp rot (turn R d) (turn2 R U) = turn2 R (drag para perp rot d U) := by
  unfold drag turn2
  simp only [dot_turn h, ← turn_smul, ← turn_sub, ← turn_add, ← spin_smul]

theorem calcDrag_kind {a b : Sylinder} (h : kind b = kind a) (mu : ℝ) : b.calcDragCoeff Mobility.Pi mu = a.calcDragCoeff Mobility.Pi mu := by
  simp only [kind, Prod.mk.injEq] at h
  obtain ⟨-, -, -, h2, h3⟩ := h
  unfold Sylinder.calcDragCoeff Sylinder.isSphere
  rw [h2, h3]
  rfl

theorem moves_turn (h : Orth R) {mu : ℝ} {a b : Sylinder} (hk : kind b = kind a) (hd : b.direction = turn R a.direction) {F U : V3 × V3}
    (hm : Moves mu b (turn2 R F) (turn2 R U)) : Moves mu a F U := by
  have hi : b.isImmovable = a.isImmovable := congrArg (fun k : ℤ × ℤ × Bool × ℝ × ℝ => k.2.2.1) hk
  rcases hm with ⟨h1, h2⟩ | ⟨h1, p, e, r, h2, hp, he, hr, h3⟩
  · refine .inl ⟨hi ▸ h1, turn2_inj h ?_⟩
    rw [h2]
    exact Prod.ext (turn_zero R).symm (spin_zero R).symm
  · refine .inr ⟨hi ▸ h1, p, e, r, calcDrag_kind hk mu ▸ h2, hp, he, hr, turn2_inj h ?_⟩
    rw [← drag_turn h, ← hd]
    exact h3

theorem lag_turn (h : Orth R) (mu : ℝ) (x : Sylinder) (T : V3 × V3) : lag mu x (turn2 R T) = lag mu x T := by
  unfold lag turn2
  simp only [dot_turn h, dot_spin h]

theorem gapOf_carry (h : Orth R) (v : V3) (U W : ℤ → V3) (b : Block) : gapOf (fun g => turn R (U g)) (fun g => spin R (W g)) (carryBlock R v b) = gapOf U W b := by
  unfold gapOf carryBlock
  simp only [cross_spin h, ← turn_add, dot_turn h]

theorem unit_carry (h : Orth R) (v : V3) (b : Block) (g : ℤ) :
    unitForce (carryBlock R v b) g = turn R (unitForce b g) ∧ unitTorque (carryBlock R v b) g = spin R (unitTorque b g) := by
  have e : ∀ (P : Prop) [Decidable P] (a : V3), (if P then turn R a else 0) = turn R (if P then a else 0) := by
    intro P _ a
    split_ifs
    · rfl
    · exact (turn_zero R).symm
  have e' : ∀ (P : Prop) [Decidable P] (a : V3), (if P then spin R a else 0) = spin R (if P then a else 0) := by
    intro P _ a
    split_ifs
    · rfl
    · exact (spin_zero R).symm
  unfold unitForce unitTorque carryBlock
  simp only [cross_turn h, e, e', turn_add, spin_add, and_self]

theorem vsum_turn (R : Mat3) (l : List V3) : vsum (l.map (turn R)) = turn R (vsum l) := by
  induction l with
  | nil => exact (turn_zero R).symm
  | cons a l ih =>
    rw [List.map_cons]
    unfold vsum
    rw [ih, turn_add]

theorem vsum_spin (R : Mat3) (l : List V3) : vsum (l.map (spin R)) = spin R (vsum l) := by
  induction l with
  | nil => exact (spin_zero R).symm
  | cons a l ih =>
    rw [List.map_cons]
    unfold vsum
    rw [ih, spin_add]

theorem force_carry (h : Orth R) (v : V3) (cs : List (Block × ℝ)) (g : ℤ) :
    (force (cs.map fun p => (carryBlock R v p.1, p.2)) g, torque (cs.map fun p => (carryBlock R v p.1, p.2)) g) = turn2 R (force cs g, torque cs g) := by
  unfold force torque turn2
  simp only [List.map_map, ← vsum_turn, ← vsum_spin]
  refine Prod.ext ?_ ?_
  · show vsum _ = vsum _
    congr 1
    refine List.map_congr_left fun p _ => ?_
    simp only [Function.comp_apply, (unit_carry h v _ _).1, turn_smul]
  · show vsum _ = vsum _
    congr 1
    refine List.map_congr_left fun p _ => ?_
    simp only [Function.comp_apply, (unit_carry h v _ _).2, spin_smul]

theorem carry_back (h : Orth R) (v : V3) (b : Block) : carryBlock R.transpose (-turn R.transpose v) (carryBlock R v b) = b := by
  have hs : ((carryBlock R v b).setStress (R.transpose * (carryBlock R v b).getStress * R.transpose.transpose)).stress = b.stress := by
    have e : (carryBlock R v b).getStress = R * b.getStress * R.transpose := by
      funext i j
      fin_cases i <;> fin_cases j <;> rfl
    rw [e, Matrix.transpose_transpose]
    have e2 : R.transpose * (R * b.getStress * R.transpose) * R = b.getStress := by
      calc R.transpose * (R * b.getStress * R.transpose) * R = (R.transpose * R) * b.getStress * (R.transpose * R) := by simp only [mul_assoc]
        _ = b.getStress := by rw [h.orth, one_mul, mul_one]
    rw [e2]
    funext k
    show b.stress (rowMajor ⟨k / 3, _⟩ ⟨k % 3, _⟩) = b.stress k
    congr 1
    apply Fin.ext
    show k / 3 * 3 + k % 3 = (k : ℕ)
    omega
  have e : ∀ (R : Mat3) (v : V3) (b b' : Block), (b.setStress (R * b.getStress * R.transpose)).stress = b'.stress → carryBlock R v b =
      { b with normI := turn R b.normI, normJ := turn R b.normJ, posI := turn R b.posI, posJ := turn R b.posJ, labI := turn R b.labI + v, labJ := turn R b.labJ + v, stress := b'.stress } := by
    intro R v b b' h
    unfold carryBlock
    rw [h]
  rw [e _ _ _ b hs]
  unfold carryBlock
  simp only [turn_back h, turn_neg_back h]

/-- The bodies of `E'`, turned back. -/
theorem turned_back {v : V3} {E E' : List Sylinder} (h : ((E.map seen).map (move R v)).Perm (E'.map seen)) :
    ∃ M N : List Sylinder, M.Perm E' ∧ N.map seen = E.map seen ∧
      List.Forall₂ (fun b x : Sylinder => x.globalIndex = b.globalIndex ∧ kind b = kind x ∧ b.direction = turn R x.direction) M N := by
  rw [List.map_map] at h
  obtain ⟨M, h1, h2⟩ := align h
  refine ⟨M, ?_⟩
  suffices hN : ∃ N : List Sylinder, N.map seen = E.map seen ∧
      List.Forall₂ (fun b x : Sylinder => x.globalIndex = b.globalIndex ∧ kind b = kind x ∧ b.direction = turn R x.direction) M N by
    obtain ⟨N, n1, n2⟩ := hN
    exact ⟨N, h1, n1, n2⟩
  clear h h1
  induction h2 with
  | nil => exact ⟨[], rfl, .nil⟩
  | @cons a b _ _ hab _ ih =>
    obtain ⟨N, n1, n2⟩ := ih
    refine ⟨{ a with globalIndex := b.globalIndex } :: N, ?_, .cons ⟨rfl, (congrArg Prod.fst hab).symm, (congrArg (fun w : View => w.2.2) hab).symm⟩ n2⟩
    rw [List.map_cons, List.map_cons, n1]
    rfl

theorem sum_forall₂ {α β : Type*} {R : α → β → Prop} {l : List α} {m : List β} (hl : List.Forall₂ R l m) (f : α → ℝ) (g : β → ℝ) (h : ∀ a b, R a b → f a = g b) :
    (l.map f).sum = (m.map g).sum := by
  induction hl with
  | nil => rfl
  | cons hab _ ih => rw [List.map_cons, List.map_cons, List.sum_cons, List.sum_cons, h _ _ hab, ih]

/-- Two solutions of the same problem, one of them turned, are close. -/
theorem close (hR : Orth R) (v : V3) {mu dt : ℝ} (hdt : 0 < dt) {fl fl' : ℝ → ℝ} {E E' : List Sylinder} (hv : ∀ x ∈ E, Valid x)
    (hE : ((E.map seen).map (move R v)).Perm (E'.map seen)) {cs cs' : List (Block × ℝ)}
    (hcs : ((cs.map Prod.fst).map fun b => forget (carryBlock R v b)).Perm ((cs'.map Prod.fst).map forget)) {U W U' W' : ℤ → V3} {G V : ℤ → V3 × V3} {res res' tol tol' : ℝ}
    (htol : 0 ≤ tol) (htol' : 0 ≤ tol') (hres : res ≤ tol) (hres' : res' ≤ tol')
    (m : ∀ x ∈ E, Moves mu x (G x.gid + (force cs x.globalIndex, torque cs x.globalIndex)) ((U x.gid, W x.gid) - V x.gid))
    (m' : ∀ x ∈ E', Moves mu x (turn2 R (G x.gid) + (force cs' x.globalIndex, torque cs' x.globalIndex)) ((U' x.gid, W' x.gid) - turn2 R (V x.gid)))
    (w : ∀ T S : ℤ → V3, (E.map fun x => power (force cs x.globalIndex, torque cs x.globalIndex) (T x.gid, S x.gid)).sum = (cs.map fun p => p.2 * gapOf T S p.1).sum)
    (w' : ∀ T S : ℤ → V3, (E'.map fun x => power (force cs' x.globalIndex, torque cs' x.globalIndex) (T x.gid, S x.gid)).sum = (cs'.map fun p => p.2 * gapOf T S p.1).sum)
    (c : ∀ p ∈ cs, Spec.RunStep.Solves fl dt res p.1 (gapOf U W p.1) p.2 ∧ p.2 ≤ fl (BCQP.dblMax / 10 - BCQP.dblEps * 100) ∧
      (p.1.bilateral = true → fl (-(10 : ℝ) ^ 8 + BCQP.dblEps * 100) ≤ p.2))
    (c' : ∀ p ∈ cs', Spec.RunStep.Solves fl' dt res' p.1 (gapOf U' W' p.1) p.2 ∧ p.2 ≤ fl' (BCQP.dblMax / 10 - BCQP.dblEps * 100) ∧
      (p.1.bilateral = true → fl' (-(10 : ℝ) ^ 8 + BCQP.dblEps * 100) ≤ p.2)) :
    (∀ x ∈ E, x.isImmovable = true → turn R (U x.gid) = U' x.gid ∧ spin R (W x.gid) = W' x.gid) ∧
    dt * (E.map fun x => lag mu x (turn R (U x.gid) - U' x.gid, spin R (W x.gid) - W' x.gid)).sum ≤
      (cs.map fun p => loose dt tol tol' |fl (BCQP.dblEps * 100)| p.1 (p.1.delta0 + dt * gapOf U W p.1) p.2).sum +
      (cs'.map fun p => loose dt tol' tol |fl' (BCQP.dblEps * 100)| p.1 (p.1.delta0 + dt * gapOf U' W' p.1) p.2).sum := by
  obtain ⟨M, N, hM, hN, hMN⟩ := turned_back hE
  set u : V3 := -turn R.transpose v with hu
  have hb := hR.back
  have hf : ∀ g, turn2 R (force (cs'.map fun p => (carryBlock R.transpose u p.1, p.2)) g, torque (cs'.map fun p => (carryBlock R.transpose u p.1, p.2)) g) = (force cs' g, torque cs' g) := by
    intro g
    rw [force_carry hb, turn2_forth hR]
  have hgap : ∀ (T S : ℤ → V3) (b : Block), gapOf T S (carryBlock R.transpose u b) = gapOf (fun g => turn R (T g)) (fun g => spin R (S g)) b := by
    intro T S b
    have := gapOf_carry hb u (fun g => turn R (T g)) (fun g => spin R (S g)) b
    simp only [turn_back hR, spin_back hR] at this
    exact this
  have m2 : ∀ x ∈ N, Moves mu x (G x.gid + (force (cs'.map fun p => (carryBlock R.transpose u p.1, p.2)) x.globalIndex,
      torque (cs'.map fun p => (carryBlock R.transpose u p.1, p.2)) x.globalIndex)) ((turn R.transpose (U' x.gid), spin R.transpose (W' x.gid)) - V x.gid) := by
    intro x hx
    obtain ⟨i, hi, rfl⟩ := List.getElem_of_mem hx
    obtain ⟨hl, hg⟩ := List.forall₂_iff_get.1 hMN
    obtain ⟨g1, g2, g3⟩ := hg i (by omega) hi
    simp only [List.get_eq_getElem] at g1 g2 g3
    refine moves_turn hR g2 g3 ?_
    have hmb := m' _ (hM.mem_iff.1 (List.getElem_mem (show i < M.length by omega)))
    have hgid : (M[i]'(by omega)).gid = N[i].gid := congrArg Prod.fst g2
    rw [hgid, ← g1] at hmb
    rw [turn2_add, turn2_sub, hf]
    have e : turn2 R (turn R.transpose (U' N[i].gid), spin R.transpose (W' N[i].gid)) = (U' N[i].gid, W' N[i].gid) := Prod.ext (turn_forth hR _) (spin_forth hR _)
    rw [e]
    exact hmb
  have w2 : ∀ T S : ℤ → V3, (N.map fun x => power (force (cs'.map fun p => (carryBlock R.transpose u p.1, p.2)) x.globalIndex,
      torque (cs'.map fun p => (carryBlock R.transpose u p.1, p.2)) x.globalIndex) (T x.gid, S x.gid)).sum =
      ((cs'.map fun p => (carryBlock R.transpose u p.1, p.2)).map fun p => p.2 * gapOf T S p.1).sum := by
    intro T S
    rw [List.map_map]
    simp only [Function.comp_def, hgap]
    rw [← w' (fun g => turn R (T g)) (fun g => spin R (S g)), ← (hM.map _).sum_eq]
    refine (sum_forall₂ hMN _ _ ?_).symm
    rintro b x ⟨g1, g2, -⟩
    have hgid : b.gid = x.gid := congrArg Prod.fst g2
    rw [g1, hgid, ← hf, ← power_turn hR (_, _) (T x.gid, S x.gid)]
    rfl
  have c2 : ∀ p ∈ cs'.map fun p => (carryBlock R.transpose u p.1, p.2),
      Spec.RunStep.Solves fl' dt res' p.1 (gapOf (fun g => turn R.transpose (U' g)) (fun g => spin R.transpose (W' g)) p.1) p.2 ∧ p.2 ≤ fl' (BCQP.dblMax / 10 - BCQP.dblEps * 100) ∧
      (p.1.bilateral = true → fl' (-(10 : ℝ) ^ 8 + BCQP.dblEps * 100) ≤ p.2) := by
    intro p hp
    obtain ⟨p0, hp0, rfl⟩ := List.mem_map.1 hp
    obtain ⟨h1, h2, h3⟩ := c' p0 hp0
    simp only [hgap, turn_forth hR, spin_forth hR]
    exact ⟨⟨h1.uni, h1.bi, h1.rigid⟩, h2, h3⟩
  have hcs2 : ((cs.map Prod.fst).map forget).Perm (((cs'.map fun p => (carryBlock R.transpose u p.1, p.2)).map Prod.fst).map forget) := by
    have := hcs.map (carryBlock R.transpose u)
    simp only [List.map_map] at this ⊢
    refine List.Perm.trans (List.Perm.of_eq ?_) this
    refine List.map_congr_left fun p _ => ?_
    simp only [Function.comp_apply, forget_carry, hu, carry_back hR]
  have hmain := two hdt hv (List.Perm.of_eq hN.symm) hcs2 htol htol' hres hres' m m2 w w2 c c2
  clear m m' m2 w w' w2 c c' c2 hcs hcs2
  obtain ⟨r1, r2⟩ := hmain
  constructor
  · intro x hx hi
    obtain ⟨e1, e2⟩ := r1 x hx hi
    rw [e1, e2, turn_forth hR, spin_forth hR]
    exact ⟨rfl, rfl⟩
  · rw [List.map_map] at r2
    simp only [Function.comp_def, hgap, turn_forth hR, spin_forth hR] at r2
    have e : ∀ x : Sylinder, lag mu x (turn R (U x.gid) - U' x.gid, spin R (W x.gid) - W' x.gid) =
        lag mu x (U x.gid - turn R.transpose (U' x.gid), W x.gid - spin R.transpose (W' x.gid)) := by
      intro x
      rw [← lag_turn hR mu x (U x.gid - turn R.transpose (U' x.gid), W x.gid - spin R.transpose (W' x.gid))]
      unfold turn2
      simp only [turn_sub, turn_forth hR, spin_sub, spin_forth hR]
    simp only [e]
    exact r2

end Verif.Rigid
