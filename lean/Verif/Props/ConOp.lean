import Verif.Model.ConOp
import Verif.Props.BCQP
/-! Properties C23-C26: operators and constraint solver. -/
namespace Verif
open BCQP LCP ConOp Spec

variable {k m : ℕ}

/-! ### C23 -/

/-- The matrix `Dᵀ M D + K⁻¹` of the specification. -/
def conMatrix (Dt : Matrix (Fin m) (Fin k) ℝ) (M : Matrix (Fin k) (Fin k) ℝ) (invK : Vec m) :
    Matrix (Fin m) (Fin m) ℝ := Dt * M * Dt.transpose + Matrix.diagonal invK

theorem applyCol_eq (g : TMap) (Dt : Matrix (Fin g.size) (Fin k) ℝ) (M : Matrix (Fin k) (Fin k) ℝ) (invK : Vec g.size)
    (x y : Vec g.size) (alpha beta : ℝ) :
    ((ConOp.mk g Dt M.mulVec invK).applyCol x y alpha beta).1 =
      alpha • (conMatrix Dt M invK).mulVec x + beta • y := by
  funext i
  unfold ConOp.applyCol crsApply conMatrix ConOp.D
  simp only [one_smul, zero_smul, add_zero, Matrix.add_mulVec, Matrix.mulVec_diagonal, Pi.add_apply, Pi.smul_apply,
    smul_eq_mul, ← Matrix.mulVec_mulVec]
  ring

/-- C23: for multivectors on the operator's map with equally many columns, each column of the result is
`alpha (Dᵀ M D + K⁻¹) x + beta y`. -/
theorem C23_apply (g : TMap) (Dt : Matrix (Fin g.size) (Fin k) ℝ) (M : Matrix (Fin k) (Fin k) ℝ) (invK : Vec g.size)
    (xs ys : List (Vec g.size)) (hl : xs.length = ys.length) (alpha beta : ℝ) :
    ∃ zs : List (Vec g.size), (ConOp.mk g Dt M.mulVec invK).apply ⟨g, xs⟩ ⟨g, ys⟩ alpha beta = .ok ⟨g, zs⟩ ∧
      zs.length = xs.length ∧
      ∀ j (hx : j < xs.length) (hy : j < ys.length) (hz : j < zs.length),
        zs[j] = alpha • (conMatrix Dt M invK).mulVec xs[j] + beta • ys[j] := by
  refine ⟨List.zipWith (fun x y => ((ConOp.mk g Dt M.mulVec invK).applyCol x y alpha beta).1) xs ys, ?_, ?_, ?_⟩
  · unfold ConOp.apply
    simp [hl]
  · simp [hl]
  · intro j hx hy hz
    rw [List.getElem_zipWith]
    exact applyCol_eq g Dt M invK _ _ alpha beta

example : ∃ (xs ys : List (Vec 3)), xs.length = ys.length ∧ xs.length = 2 := ⟨[0, 1], [1, 0], rfl, rfl⟩

/-- C23: multivectors with different numbers of columns or different maps are rejected. -/
theorem C23_reject (op : ConOp k) (X Y : MV) (alpha beta : ℝ) (h : X.cols.length ≠ Y.cols.length ∨ X.map ≠ Y.map) :
    ∃ r, op.apply X Y alpha beta = .error r := by
  unfold ConOp.apply
  split
  · exact ⟨_, rfl⟩
  · rename_i h1
    rcases h with h | h
    · exact absurd h h1
    · rw [if_pos h]
      exact ⟨_, rfl⟩

/-- C23: the operator is symmetric positive semidefinite if the mobility is and `K⁻¹ ≥ 0`. -/
theorem C23_spd (Dt : Matrix (Fin m) (Fin k) ℝ) (M : Matrix (Fin k) (Fin k) ℝ) (invK : Vec m)
    (hM : M.transpose = M) (hp : PosSemi M) (hK : ∀ i, 0 ≤ invK i) :
    (conMatrix Dt M invK).transpose = conMatrix Dt M invK ∧ PosSemi (conMatrix Dt M invK) := by
  unfold conMatrix
  constructor
  · rw [Matrix.transpose_add, Matrix.diagonal_transpose, Matrix.transpose_mul, Matrix.transpose_mul,
      Matrix.transpose_transpose, hM, Matrix.mul_assoc]
  · intro x
    have h1 := hp (Dt.transpose.mulVec x)
    have h2 : ∑ i, x i * ((Dt * M * Dt.transpose).mulVec x) i =
        ∑ i, (Dt.transpose.mulVec x) i * (M.mulVec (Dt.transpose.mulVec x)) i := by
      rw [← Matrix.mulVec_mulVec, ← Matrix.mulVec_mulVec]
      have := Matrix.dotProduct_mulVec x Dt (M.mulVec (Dt.transpose.mulVec x))
      rw [← Matrix.mulVec_transpose] at this
      exact this
    simp only [Matrix.add_mulVec, Pi.add_apply, mul_add, Finset.sum_add_distrib, Matrix.mulVec_diagonal]
    rw [h2]
    refine add_nonneg h1 (Finset.sum_nonneg (fun i _ => ?_))
    have := mul_nonneg (hK i) (mul_self_nonneg (x i))
    linarith

example : ∃ (M : Matrix (Fin 2) (Fin 2) ℝ) (invK : Vec 3), M.transpose = M ∧ PosSemi M ∧ ∀ i, 0 ≤ invK i :=
  ⟨1, fun _ => 2, Matrix.transpose_one, fun x => Finset.sum_nonneg (fun i _ => by
    rw [Matrix.one_mulVec]; exact mul_self_nonneg _), fun _ => by norm_num⟩

/-! ### C24 -/

/-- C24 for `ConstraintOperator`, whatever the mobility operator. -/
theorem C24_constraintOperator (op : ConOp k) (x y : Vec op.gmap.size) (alpha beta : ℝ) :
    (op.applyCol x y alpha beta).1 = alpha • (op.applyCol x 0 1 0).1 + beta • y := by
  funext i
  unfold ConOp.applyCol crsApply
  simp only [one_smul, zero_smul, add_zero, Pi.add_apply, Pi.smul_apply, smul_eq_mul, Pi.zero_apply]
  ring

/-- C24 fails for `CPMatOp`: the scalars are ignored. -/
theorem C24_cpMatOp_false : ∃ (F : Matrix (Fin 1) (Fin 1) ℝ) (mob : Vec 1 → Vec 1) (x y : Vec 1) (alpha beta : ℝ),
    cpMatApply F mob x y alpha beta ≠ alpha • cpMatApply F mob x 0 1 0 + beta • y := by
  refine ⟨1, id, fun _ => 1, fun _ => 0, 2, 0, ?_⟩
  intro h
  have := congrFun h 0
  simp [cpMatApply, crsApply] at this

/-- What `CPMatOp` does: it always overwrites `Y` with `Op X`; so the property holds for `alpha = 1`, `beta = 0` only. -/
theorem C24_cpMatOp_partial (F : Matrix (Fin m) (Fin k) ℝ) (mob : Vec k → Vec k) (x y : Vec m) (alpha beta : ℝ) :
    cpMatApply F mob x y alpha beta = (1 : ℝ) • cpMatApply F mob x 0 1 0 + (0 : ℝ) • y := by
  simp [cpMatApply]

/-- C24 fails for `mmNewtonOperator`: the scalars are ignored. -/
theorem C24_mmNewton_false : ∃ (A : Vec 1 → Vec 1) (mask x y : Vec 1) (alpha beta : ℝ),
    mmNewtonApply A mask x y alpha beta ≠ alpha • mmNewtonApply A mask x 0 1 0 + beta • y := by
  refine ⟨id, fun _ => 1, fun _ => 1, fun _ => 0, 2, 0, ?_⟩
  intro h
  have := congrFun h 0
  norm_num [mmNewtonApply] at this

theorem C24_mmNewton_partial (A : Vec m → Vec m) (mask x y : Vec m) (alpha beta : ℝ) :
    mmNewtonApply A mask x y alpha beta = (1 : ℝ) • mmNewtonApply A mask x 0 1 0 + (0 : ℝ) • y := by
  simp only [one_smul, zero_smul, add_zero]
  rfl

/-- C24 fails for `KinvOperator`: the scalars are ignored (here with a solver that solves the identity matrix). -/
theorem C24_kinv_false : ∃ (solve : Vec 1 → Vec 1 → Vec 1) (x y : Vec 1) (alpha beta : ℝ),
    kinvApply solve x y alpha beta ≠ alpha • kinvApply solve x 0 1 0 + beta • y := by
  refine ⟨fun b _ => b, fun _ => 1, fun _ => 0, 2, 0, ?_⟩
  intro h
  have := congrFun h 0
  norm_num [kinvApply] at this

/-! ### C25 -/

/-- C25, as far as it holds: a solve runs with the parameters of the most recent `setControlParams` if neither `setup`
nor `reset` came after it. -/
theorem C25_partial (before after : List Call) (c : Control)
    (h : ∀ a ∈ after, a = .solveConstraints) : afterCalls (before ++ .setControlParams c :: after) = some c := by
  unfold afterCalls
  rw [List.foldl_append]
  show after.foldl afterCall (some c) = some c
  induction after with
  | nil => rfl
  | cons a l ih =>
    rw [h a (by simp)]
    exact ih (fun a ha => h a (by simp [ha]))

/-- C25: the order of calls in `SylinderSystem::resolveConstraints` (SylinderSystem.cpp:855-861), after any history,
uses the parameters of the run configuration. -/
theorem C25_resolveConstraints (before : List Call) (c : Control) :
    afterCalls (before ++ [.setup, .setControlParams c]) = some c := by
  have := C25_partial (before ++ [.setup]) [] c (by simp)
  simpa using this

/-- C25 as stated is false: parameters set before `setup` are lost. -/
theorem C25_false : ∃ (calls : List Call) (c : Control), calls = [.setControlParams c, .setup] ∧
    afterCalls calls ≠ some c := by
  refine ⟨_, ⟨1 / 10, 5, 1⟩, rfl, ?_⟩
  intro h
  have h2 : resetControl = ⟨1 / 10, 5, 1⟩ := Option.some.inj h
  have := congrArg Control.choice h2
  simp [resetControl] at this

/-! ### C26 -/

/-- The multipliers restricted to the bilateral or to the unilateral constraints. -/
noncomputable def bilateralPart (flag gamma : Vec m) : Vec m := fun i => if flag i = 1 then gamma i else 0
noncomputable def unilateralPart (flag gamma : Vec m) : Vec m := fun i => if flag i = 1 then 0 else gamma i

/-- Linear map between vectors. -/
def LinearOp (f : Vec k → Vec k) : Prop := ∀ (a b : ℝ) (x y : Vec k), f (a • x + b • y) = a • f x + b • f y

/-- The force and velocity split, given that the operator was last applied to the returned multipliers. -/
def SplitOk (P : Prepared k) (s : Solved k P.op.gmap.size) : Prop :=
  s.forceU + s.forceB = P.op.D.mulVec s.gamma ∧
  s.forceB = P.op.D.mulVec (bilateralPart P.biFlag s.gamma) ∧
  s.forceU = P.op.D.mulVec (unilateralPart P.biFlag s.gamma) ∧
  s.velB = P.op.mob s.forceB ∧ s.velU = P.op.mob s.forceU

theorem split_of_applied (P : Prepared k) (fl : ℝ → ℝ) (fuel : ℕ) (c : Control) (out : Out P.op.gmap.size)
    (hflag : ∀ i, P.biFlag i = 0 ∨ P.biFlag i = 1) (hlin : LinearOp P.op.mob)
    (hrun : P.run fl fuel c = .ok out) (happ : out.applied = out.x) (s : Solved k P.op.gmap.size)
    (hs : P.solveConstraints fl fuel c = .ok s) : SplitOk P s := by
  unfold Prepared.solveConstraints at hs
  rw [hrun] at hs
  have hs' : Except.ok _ = Except.ok s := hs
  injection hs' with hs'
  subst hs'
  have hb : (fun i => out.x i * P.biFlag i) = bilateralPart P.biFlag out.x := by
    funext i
    unfold bilateralPart
    rcases hflag i with h | h <;> simp [h]
  have hu : out.x = unilateralPart P.biFlag out.x + bilateralPart P.biFlag out.x := by
    funext i
    unfold bilateralPart unilateralPart
    simp only [Pi.add_apply]
    split <;> simp
  have hcrs : ∀ x : Vec P.op.gmap.size, crsApply P.op.D x 0 1 0 = P.op.D.mulVec x := by
    intro x; unfold crsApply; simp
  have hsub : ∀ x : Vec P.op.gmap.size, x = unilateralPart P.biFlag out.x + bilateralPart P.biFlag out.x →
      P.op.D.mulVec x - P.op.D.mulVec (bilateralPart P.biFlag out.x) =
        P.op.D.mulVec (unilateralPart P.biFlag out.x) := by
    rintro x rfl
    rw [Matrix.mulVec_add, add_sub_cancel_right]
  refine ⟨?_, ?_, ?_, rfl, ?_⟩
  · simp only [ConOp.applyCol, happ, hcrs]
    rw [sub_add_cancel]
  · simp only [hb, hcrs]
  · simp only [ConOp.applyCol, happ, hcrs, hb]
    exact hsub _ hu
  · simp only [ConOp.applyCol, happ, hcrs, hb]
    have := hlin 1 (-1) (P.op.D.mulVec out.x) (P.op.D.mulVec (bilateralPart P.biFlag out.x))
    simp only [one_smul, neg_smul, ← sub_eq_add_neg] at this
    rw [this]

/-- C26, as far as it holds: whenever the solve ends with a residual below the tolerance (or `solveBBPGD` reports
stagnation), the reported forces and velocities are those of the returned multipliers, split correctly.  Missing: when the
iteration limit is reached (`C26_false`). -/
theorem C26_split_partial (P : Prepared k) (fl : ℝ → ℝ) (fuel : ℕ) (c : Control) (s : Solved k P.op.gmap.size)
    (hflag : ∀ i, P.biFlag i = 0 ∨ P.biFlag i = 1) (hlin : LinearOp P.op.mob)
    (hs : P.solveConstraints fl fuel c = .ok s) (last : Hist) (hlast : s.history.getLast? = some last)
    (hc : last.res < c.res ∧ last.res < dblMax ∧ s.history.length ≥ 2 ∨ c.choice ≠ 1 ∧ (last.res < c.res ∨ s.ret = 1)) :
    SplitOk P s := by
  have hs0 := hs
  unfold Prepared.solveConstraints at hs
  simp only [bind_ok] at hs
  obtain ⟨out, hrun, hs⟩ := hs
  injection hs with hs
  subst hs
  refine split_of_applied P fl fuel c out hflag hlin hrun ?_ _ hs0
  simp only at hlast hc
  unfold Prepared.run at hrun
  split at hrun
  · rename_i hch
    rcases hc with ⟨hlt, hmax, hlen⟩ | ⟨h, -⟩
    · unfold solveAPGD apgd at hrun
      simp only [bind_ok] at hrun
      obtain ⟨Lk, -, tk, -, h⟩ := hrun
      rw [← List.append_nil ([] ++ _)] at h
      obtain ⟨new, rm, hn, hl, hbest, hcc⟩ := apLoop_spec (P.problem fl) _ c.res fuel (fun _ => True)
        (fun _ => trivial) c.maxIte _ _ _ _ _ _ _ _ _ _ _ [] out
        (Or.inl ⟨fun _ => rfl, rfl, by simp⟩) (by simp) h
      rw [List.nil_append] at hn
      have hne : new ≠ [] := by rintro rfl; rw [hn] at hlen; simp at hlen
      have hlast' : new.getLast? = some last := by
        rw [hn, List.nil_append, List.getLast?_append] at hlast
        cases hnl : new.getLast? with
        | none => exact absurd (List.getLast?_eq_none_iff.mp hnl) hne
        | some z => rw [hnl] at hlast; simpa using hlast
      rcases hcc with ⟨-, pre, l, e, hll, -, hap, -⟩ | ⟨-, hp⟩ | ⟨-, -, hp⟩
      · rw [e] at hlast'
        have : l = last := by simpa using hlast'
        subst this
        exact hap hmax
      · have := hp last (by simpa using List.mem_of_getLast? hlast')
        linarith
      · have := hp last (by simpa using List.mem_of_getLast? hlast')
        linarith
    · exact absurd hch h
  · have hc' : last.res < c.res ∨ out.ret = 1 := by
      rcases hc with ⟨h, -⟩ | ⟨-, h⟩
      · exact Or.inl h
      · exact h
    exact bbpgd_applied _ _ _ _ _ _ hrun last hlast hc'

/-- A constraint set that meets the hypotheses above: started at its solution. -/
example : ∃ (P : Prepared 1) (s : Solved 1 P.op.gmap.size) (last : Hist),
    (∀ i, P.biFlag i = 0 ∨ P.biFlag i = 1) ∧ LinearOp P.op.mob ∧
    P.solveConstraints id 0 ⟨1 / 2, 1, 0⟩ = .ok s ∧ s.history.getLast? = some last ∧ last.res < 1 / 2 := by
  let P : Prepared 1 := ⟨⟨⟨1, fun _ => 0⟩, 1, id, 0⟩, fun _ => -1, fun _ => 0, fun _ => 1⟩
  have h7 : (2 : ℝ) ^ 7 ≤ 2 ^ 1023 := pow_le_pow_right₀ (by norm_num) (by norm_num)
  have hu : (10 : ℝ) ≤ dblMax / 10 := by
    unfold dblMax
    generalize (2 : ℝ) ^ 1023 = t at h7
    norm_num at h7 ⊢
    linarith
  have hp : P.problem id = demo (dblMax / 10) := by
    unfold Prepared.problem demo
    congr 1
    · funext x
      exact (by
        funext i
        show ((1 : ℝ) • Matrix.mulVec (1 : Matrix (Fin 1) (Fin 1) ℝ) ((1 : ℝ) • Matrix.mulVec
          (Matrix.transpose (1 : Matrix (Fin 1) (Fin 1) ℝ)) x + (0 : ℝ) • 0) + (0 : ℝ) • 0) i + 1 * 0 * x i = x i
        rw [Matrix.transpose_one]
        simp only [one_smul, zero_smul, add_zero, mul_zero, zero_mul]
        rw [Matrix.one_mulVec]
        exact congrFun (Matrix.one_mulVec (x : Fin 1 → ℝ)) i : ((P.op.applyCol x 0 1 0).1 = x))
    · funext i
      show (-(10 : ℝ) ^ 8) * 0 = 0
      simp
  have hrun : P.run id 0 ⟨1 / 2, 1, 0⟩ = .ok ⟨fun _ => 1, [⟨0, 0, 0, 1⟩], 0, fun _ => 1⟩ := by
    unfold Prepared.run
    rw [if_neg (by norm_num), hp]
    have : solveBBPGD (demo (dblMax / 10)) (fun _ : Fin 1 => 1) (1 / 2) 1 [] =
        .ok ⟨fun _ => 1, [⟨0, 0, 0, 1⟩], 0, fun _ => 1⟩ := by
      unfold solveBBPGD
      have e0 := demo_resid_inner (dblMax / 10) 1 (1 - 1) hu le_rfl (by norm_num)
      simp only [demo_grad, e0]
      have hn : norm2 (fun _ : Fin 1 => (1 - 1 : ℝ)) = 0 := by rw [norm2_one]; norm_num
      show (if |norm2 (fun _ : Fin 1 => (1 - 1 : ℝ))| < 1 / 2 then Except.ok _ else _) = _
      rw [hn, if_pos (by norm_num)]
      rfl
    exact this
  refine ⟨P, ?_⟩
  unfold Prepared.solveConstraints
  rw [hrun]
  exact ⟨_, ⟨0, 0, 0, 1⟩, fun i => Or.inl rfl, fun a b x y => rfl, rfl, rfl, by norm_num⟩

/-- In general the two forces add up to `D` applied to the vector the operator was last applied to. -/
theorem C26_sum (P : Prepared k) (fl : ℝ → ℝ) (fuel : ℕ) (c : Control) (s : Solved k P.op.gmap.size)
    (hs : P.solveConstraints fl fuel c = .ok s) :
    ∃ out, P.run fl fuel c = .ok out ∧ s.gamma = out.x ∧ s.forceU + s.forceB = P.op.D.mulVec out.applied := by
  unfold Prepared.solveConstraints at hs
  simp only [bind_ok] at hs
  obtain ⟨out, hrun, hs⟩ := hs
  injection hs with hs
  subst hs
  refine ⟨out, hrun, rfl, ?_⟩
  simp only [ConOp.applyCol, sub_add_cancel]
  unfold crsApply
  simp

/-- One unilateral constraint on one degree of freedom: `D = 1`, mobility 1, `K⁻¹ = 0`, `q = -1`. -/
noncomputable def demoPrepared : Prepared 1 := ⟨⟨⟨1, fun _ => 0⟩, 1, id, 0⟩, fun _ => -1, fun _ => 0, fun _ => 5⟩

/-- C26 as stated is false: with the limit of one iteration the multiplier returned is 5, but the force reported is 4. -/
theorem C26_false : ∃ (c : Control) (s : Solved 1 1), demoPrepared.solveConstraints id 0 c = .ok s ∧
    s.gamma 0 = 5 ∧ (s.forceU + s.forceB) 0 = 4 := by
  have hp : demoPrepared.problem id = demo (dblMax / 10) := by
    unfold Prepared.problem demo
    congr 1
    · funext x
      exact (by
        funext i
        show ((1 : ℝ) • Matrix.mulVec (1 : Matrix (Fin 1) (Fin 1) ℝ) ((1 : ℝ) • Matrix.mulVec (Matrix.transpose (1 : Matrix (Fin 1) (Fin 1) ℝ)) x +
          (0 : ℝ) • 0) + (0 : ℝ) • 0) i + 1 * 0 * x i = x i
        rw [Matrix.transpose_one]
        simp only [one_smul, zero_smul, add_zero, mul_zero, zero_mul]
        rw [Matrix.one_mulVec]
        exact congrFun (Matrix.one_mulVec (x : Fin 1 → ℝ)) i : ((demoPrepared.op.applyCol x 0 1 0).1 = x))
    · funext i
      show (-(10 : ℝ) ^ 8) * 0 = 0
      simp
  have hrun : demoPrepared.run id 0 ⟨1 / 2, 1, 0⟩ =
      .ok ⟨fun _ => 5, [⟨0, 0, 4, 1⟩, ⟨1, 1 / 4, 3, 2⟩], 0, fun _ => 4⟩ := by
    unfold Prepared.run
    rw [if_neg (by norm_num), hp]
    have h7 : (2 : ℝ) ^ 7 ≤ 2 ^ 1023 := pow_le_pow_right₀ (by norm_num) (by norm_num)
    refine demo_run _ ?_
    unfold dblMax
    generalize (2 : ℝ) ^ 1023 = t at h7
    norm_num at h7 ⊢
    linarith
  have hs : ∃ s, demoPrepared.solveConstraints id 0 ⟨1 / 2, 1, 0⟩ = .ok s := by
    unfold Prepared.solveConstraints
    rw [hrun]
    exact ⟨_, rfl⟩
  obtain ⟨s, hs⟩ := hs
  refine ⟨⟨1 / 2, 1, 0⟩, s, hs, ?_⟩
  obtain ⟨out, ho, hg, hf⟩ := C26_sum _ _ _ _ s hs
  rw [hrun] at ho
  injection ho with ho
  subst ho
  rw [hf, hg]
  refine ⟨rfl, ?_⟩
  show (Matrix.transpose (1 : Matrix (Fin 1) (Fin 1) ℝ)).mulVec (fun _ => 4) 0 = 4
  simp

/-! ### C63 -/

/-- The gap function at the end of the step, per component: current gap, plus `dt` times the gap's rate of change under
the velocity `vnc + M D γ`, plus the extension of the springs. -/
noncomputable def endGap (Dt : Matrix (Fin m) (Fin k) ℝ) (mob : Vec k → Vec k) (delta0 invKappa : Vec m) (vnc : Vec k)
    (dt : ℝ) (gamma : Vec m) (i : Fin m) : ℝ :=
  delta0 i + dt * ∑ j, Dt i j * (vnc j + mob (fun j => ∑ l, Dt l j * gamma l) j) + invKappa i * gamma i

/-- C63: the gradient of the problem prepared by `setup` is the gap at the end of the step over `dt`. -/
theorem C63_gradient (g : TMap) (Dt : Matrix (Fin g.size) (Fin k) ℝ) (mob : Vec k → Vec k)
    (delta0 invKappa biFlag gamma0 : Vec g.size) (vnc : Vec k) (dt : ℝ) (hdt : dt ≠ 0) (fl : ℝ → ℝ)
    (gamma : Vec g.size) (i : Fin g.size) :
    dt * ((setup g Dt mob delta0 invKappa biFlag gamma0 vnc dt).problem fl).grad gamma i =
      endGap Dt mob delta0 invKappa vnc dt gamma i := by
  have hD : ∀ x : Vec g.size, Dt.transpose.mulVec x = fun j => ∑ l, Dt l j * x l := fun x => rfl
  have hm : ∀ v : Vec k, Dt.mulVec v i = ∑ j, Dt i j * v j := fun v => rfl
  have e : ((setup g Dt mob delta0 invKappa biFlag gamma0 vnc dt).problem fl).grad gamma i =
      (Dt.mulVec (mob (fun j => ∑ l, Dt l j * gamma l)) i + 1 * ((1 / dt) * invKappa i) * gamma i) +
        ((1 / dt) * delta0 i + Dt.mulVec vnc i) := by
    show ((1 : ℝ) • Dt.mulVec (mob ((1 : ℝ) • Dt.transpose.mulVec gamma + (0 : ℝ) • (0 : Vec k))) +
      (0 : ℝ) • (0 : Vec g.size)) i + 1 * ((1 / dt) * invKappa i) * gamma i +
      ((1 / dt) * delta0 i + ((1 : ℝ) • Dt.mulVec vnc + (0 : ℝ) • (0 : Vec g.size)) i) = _
    simp only [one_smul, zero_smul, add_zero, hD]
  rw [e, hm, hm]
  unfold endGap
  simp only [mul_add, Finset.sum_add_distrib]
  field_simp
  ring

/-- C63: if the residual of the prepared problem is zero at `γ`, within its bounds and with no component of `γ` strictly
inside the tolerance of the residual check, then at each unilateral constraint `γ ≥ 0`, the end gap is non-negative, and
one of the two is zero; and at each bilateral constraint whose multiplier is off its bounds the end gap is zero. -/
theorem C63_complementarity (g : TMap) (Dt : Matrix (Fin g.size) (Fin k) ℝ) (mob : Vec k → Vec k)
    (delta0 invKappa biFlag gamma0 : Vec g.size) (vnc : Vec k) (dt : ℝ) (hdt : 0 < dt)
    (hflag : ∀ i, biFlag i = 0 ∨ biFlag i = 1) (gamma : Vec g.size)
    (hbox : InBox (lowerBound biFlag) defaultUpper gamma)
    (hsep : ∀ i, (gamma i = lowerBound biFlag i ∨ lowerBound biFlag i + dblEps * 100 ≤ gamma i) ∧
      gamma i ≤ defaultUpper i - dblEps * 100)
    (hres : ResidualIs ((setup g Dt mob delta0 invKappa biFlag gamma0 vnc dt).problem id) gamma 0) (i : Fin g.size) :
    (biFlag i = 0 → 0 ≤ gamma i ∧ 0 ≤ endGap Dt mob delta0 invKappa vnc dt gamma i ∧
      (gamma i = 0 ∨ endGap Dt mob delta0 invKappa vnc dt gamma i = 0)) ∧
    (biFlag i = 1 → -(10 : ℝ) ^ 8 < gamma i → endGap Dt mob delta0 invKappa vnc dt gamma i = 0) := by
  obtain ⟨q, hq, h0⟩ := hres
  have hq0 : norm2 q = 0 := h0.symm
  rw [norm2_eq_zero] at hq0
  have hq' : checkProjectionResidual id (lowerBound biFlag) defaultUpper gamma
      (((setup g Dt mob delta0 invKappa biFlag gamma0 vnc dt).problem id).grad gamma) = .ok q := hq
  have hi := (check_ok _ _ _ _ _ q).mp hq' i
  rw [hq0 i] at hi
  have he := dblEps_pos
  have hg := C63_gradient g Dt mob delta0 invKappa biFlag gamma0 vnc dt hdt.ne' id gamma i
  rw [← hg]
  generalize ((setup g Dt mob delta0 invKappa biFlag gamma0 vnc dt).problem id).grad gamma i = y at hi
  obtain ⟨s1, s2⟩ := hsep i
  have hb : lowerBound biFlag i ≤ gamma i := (hbox i).1
  have key : (gamma i = lowerBound biFlag i ∧ 0 ≤ y) ∨ (lowerBound biFlag i < gamma i ∧ y = 0) := by
    unfold residualAt at hi
    simp only [id] at hi
    split at hi
    · rename_i hlt
      injection hi with hi
      refine Or.inl ⟨?_, hi ▸ min_le_left _ _⟩
      rcases s1 with s1 | s1
      · exact s1
      · linarith
    · rename_i hge
      split at hi
      · linarith
      · split at hi
        · injection hi with hi
          exact Or.inr ⟨by linarith, hi⟩
        · exact absurd hi (by simp)
  refine ⟨fun hf => ?_, fun hf hgt => ?_⟩
  · have hl : lowerBound biFlag i = 0 := by unfold lowerBound; simp [hf]
    rw [hl] at key hb
    rcases key with ⟨h1, h2⟩ | ⟨h1, h2⟩
    · exact ⟨hb, mul_nonneg hdt.le h2, Or.inl h1⟩
    · rw [h2, mul_zero]; exact ⟨hb, le_rfl, Or.inr rfl⟩
  · have hl : lowerBound biFlag i = -(10 : ℝ) ^ 8 := by unfold lowerBound; simp [hf]
    rw [hl] at key
    rcases key with ⟨h1, h2⟩ | ⟨h1, h2⟩
    · linarith
    · rw [h2, mul_zero]

/-- Hypotheses of C63: one constraint with a gap 2 that the motion does not close, and multiplier 0. -/
example : InBox (lowerBound (fun _ : Fin 1 => 0)) defaultUpper (fun _ => 0) ∧
    (∀ i : Fin 1, ((0 : ℝ) = lowerBound (fun _ : Fin 1 => 0) i ∨ lowerBound (fun _ : Fin 1 => 0) i + dblEps * 100 ≤ 0) ∧
      (0 : ℝ) ≤ defaultUpper i - dblEps * 100) ∧
    ResidualIs ((setup ⟨1, fun _ => 0⟩ (1 : Matrix (Fin 1) (Fin 1) ℝ) id (fun _ => 2) (fun _ => 0) (fun _ => 0)
      (fun _ => 0) (fun _ => 0) 1).problem id) (fun _ => 0) 0 := by
  have h7 : (2 : ℝ) ^ 7 ≤ 2 ^ 1023 := pow_le_pow_right₀ (by norm_num) (by norm_num)
  have hu : (10 : ℝ) ≤ dblMax / 10 := by
    unfold dblMax
    generalize (2 : ℝ) ^ 1023 = t at h7
    norm_num at h7 ⊢
    linarith
  have he := dblEps_pos
  have he1 : dblEps * 100 ≤ 1 := by unfold dblEps; norm_num
  have hl : ∀ i : Fin 1, lowerBound (fun _ : Fin 1 => (0 : ℝ)) i = 0 := by intro i; simp [lowerBound]
  refine ⟨fun i => ⟨(hl i).le, by unfold defaultUpper; linarith⟩, fun i => ⟨Or.inl (hl i).symm, by
    unfold defaultUpper; linarith⟩, (fun _ => 0 : Vec 1), ?_, ?_⟩
  · refine (check_ok _ _ _ _ _ _).mpr (fun i => ?_)
    have hg := C63_gradient ⟨1, fun _ => 0⟩ (1 : Matrix (Fin 1) (Fin 1) ℝ) id (fun _ => 2) (fun _ => 0) (fun _ => 0)
      (fun _ => 0) (fun _ => 0) 1 one_ne_zero id (fun _ => 0) i
    rw [one_mul] at hg
    have h2 : endGap (1 : Matrix (Fin 1) (Fin 1) ℝ) id (fun _ => 2) (fun _ => 0) (fun _ => 0) 1 (fun _ => 0) i = 2 := by
      unfold endGap
      simp
    rw [h2] at hg
    have hr : residualAt id 0 (dblMax / 10) 0 2 = some 0 := by
      unfold residualAt
      simp only [id]
      rw [if_pos (by linarith)]
      simp
    exact Eq.trans (congrArg₂ (fun a b => residualAt id a (dblMax / 10) 0 b) (hl i) hg) hr
  · exact ((norm2_eq_zero (fun _ : Fin 1 => (0 : ℝ))).mpr (fun _ => rfl)).symm

end Verif
