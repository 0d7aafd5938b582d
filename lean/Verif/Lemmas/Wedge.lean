import Verif.Lemmas.Cycle
import Verif.Props.NoCross
/-! A sphere between two walls: the problem that the constraint solver gets. -/
namespace Verif.Wedge
open BCQP RunStep Mobility Spec.Mobility Collector ConOp BoundaryCol Spec.BoundaryCol Cycle NoOverlap

/-- The mobility matrix of one sphere. -/
theorem mob6 (m : Csr) (k1 k2 : ℝ) (h : ∀ f t : V3, m.apply (flat6 [(f, t)]) = some (flat6 [(k1 • f, k2 • t)])) (x : Vec 6) :
    mobVec [m] [6] 6 x = ![k1 * x 0, k1 * x 1, k1 * x 2, k2 * x 3, k2 * x 4, k2 * x 5] := by
  have e : List.ofFn x = flat6 [(⟨x 0, x 1, x 2⟩, ⟨x 3, x 4, x 5⟩)] := by
    simp [List.ofFn_succ, flat6]
  funext j
  unfold mobVec mobAll
  rw [e]
  have : parts [6] (flat6 [(⟨x 0, x 1, x 2⟩, ⟨x 3, x 4, x 5⟩)]) = [flat6 [(⟨x 0, x 1, x 2⟩, ⟨x 3, x 4, x 5⟩)]] := by
    simp [parts, flat6]
  rw [this]
  simp only [List.zip_cons_cons, List.zip_nil_left, List.mapM_cons, List.mapM_nil, h]
  fin_cases j <;> simp [flat6]

/-- The block of a wall that the sphere touches or is near to. -/
noncomputable def wallBlock (x : Sylinder) (delta0 : ℝ) (n : V3) (proj : V3) : Block := oneSided x delta0 n 0 x.pos proj

theorem wallBlock_row (x : Sylinder) (hx : x.globalIndex = 0) (δ : ℝ) (n p : V3) (j : Fin 6) :
    denseRow (blockEntries (wallBlock x δ n p)) ((j : ℕ) : ℤ) = ![n.x, n.y, n.z, 0, 0, 0] j := by
  have e : blockEntries (wallBlock x δ n p) = [(0, n.x), (1, n.y), (2, n.z), (3, 0), (4, 0), (5, 0)] := by
    simp [blockEntries, wallBlock, oneSided, sideEntries, hx]
  rw [e]
  fin_cases j <;> simp [denseRow, List.filter_cons]

/-- The prepared problem, written out. -/
noncomputable def prep (m : Csr) (n1 n2 U : V3) : Prepared 6 where
  op :=
    { gmap := ⟨2, fun i => i⟩
      Dt := ![![n1.x, n1.y, n1.z, 0, 0, 0], ![n2.x, n2.y, n2.z, 0, 0, 0]]
      mob := mobVec [m] [6] 6
      invK := 0 }
  q := ![V3.dot n1 U, V3.dot n2 U]
  biFlag := (0 : Vec 2)
  gamma0 := (0 : Vec 2)

theorem prep_eq (x : Sylinder) (hx : x.globalIndex = 0) (m : Csr) (n1 n2 p1 p2 U : V3) (dt : ℝ) :
    problemOf [wallBlock x 0 n1 p1, wallBlock x 0 n2 p2] [m] [6] (flat6 [(U, 0)]) dt = prep m n1 n2 U := by
  have r0 := wallBlock_row x hx 0 n1 p1
  have r1 := wallBlock_row x hx 0 n2 p2
  have hDt : (fun (i : Fin 2) (j : Fin 6) => denseRow (([wallBlock x 0 n1 p1, wallBlock x 0 n2 p2].map blockEntries).get i) ((j : ℕ) : ℤ)) =
      (![![n1.x, n1.y, n1.z, 0, 0, 0], ![n2.x, n2.y, n2.z, 0, 0, 0]] : Matrix (Fin 2) (Fin 6) ℝ) := by
    funext i j
    fin_cases i
    · exact r0 j
    · exact r1 j
  have he : ∀ i : Fin 2, ([wallBlock x 0 n1 p1, wallBlock x 0 n2 p2].map vecEntry).get i = ⟨0, 0, 0, 0⟩ := by
    intro i
    fin_cases i <;> rfl
  have hq : ((1 / dt) • (fun _ => 0 : Vec 2) + crsApply (![![n1.x, n1.y, n1.z, 0, 0, 0], ![n2.x, n2.y, n2.z, 0, 0, 0]] : Matrix (Fin 2) (Fin 6) ℝ)
      ((flat6 [(U, 0)]).get : Vec 6) 0 1 0) = ![V3.dot n1 U, V3.dot n2 U] := by
    funext i
    have hu : ((flat6 [(U, 0)]).get : Vec 6) = ![U.x, U.y, U.z, 0, 0, 0] := by
      funext j
      fin_cases j <;> rfl
    rw [hu]
    fin_cases i <;> simp [crsApply, Matrix.mulVec, dotProduct, Fin.sum_univ_six, V3.dot]
  have hk : (1 / dt) • (fun _ => 0 : Vec 2) = 0 := by funext i; simp
  show setup (k := 6) ⟨2, fun i => i⟩ (fun i j => denseRow (([wallBlock x 0 n1 p1, wallBlock x 0 n2 p2].map blockEntries).get i) j)
    (mobVec [m] [6] 6)
    (fun i => (([wallBlock x 0 n1 p1, wallBlock x 0 n2 p2].map vecEntry).get i).delta0)
    (fun i => (([wallBlock x 0 n1 p1, wallBlock x 0 n2 p2].map vecEntry).get i).invKappa)
    (fun i => (([wallBlock x 0 n1 p1, wallBlock x 0 n2 p2].map vecEntry).get i).biFlag)
    (fun i => (([wallBlock x 0 n1 p1, wallBlock x 0 n2 p2].map vecEntry).get i).gammaGuess) (flat6 [(U, 0)]).get dt = _
  have e1 : (fun i : Fin 2 => (([wallBlock x 0 n1 p1, wallBlock x 0 n2 p2].map vecEntry).get i).delta0) = fun _ => 0 :=
    funext fun i => congrArg VecEntry.delta0 (he i)
  have e2 : (fun i : Fin 2 => (([wallBlock x 0 n1 p1, wallBlock x 0 n2 p2].map vecEntry).get i).invKappa) = fun _ => 0 :=
    funext fun i => congrArg VecEntry.invKappa (he i)
  have e3 : (fun i : Fin 2 => (([wallBlock x 0 n1 p1, wallBlock x 0 n2 p2].map vecEntry).get i).biFlag) = fun _ => 0 :=
    funext fun i => congrArg VecEntry.biFlag (he i)
  have e4 : (fun i : Fin 2 => (([wallBlock x 0 n1 p1, wallBlock x 0 n2 p2].map vecEntry).get i).gammaGuess) = fun _ => 0 :=
    funext fun i => congrArg VecEntry.gammaGuess (he i)
  refine (congrFun (congrFun (congr (congr (congr (congr (congrArg (fun D => setup (k := 6) ⟨2, fun i => i⟩ D (mobVec [m] [6] 6)) hDt) e1) e2) e3) e4)
    (flat6 [(U, 0)]).get) dt).trans ?_
  unfold setup prep
  simp only
  rw [hq, hk]
  rfl

/-- The solver's problem for two walls with normals `n1`, `n2`. -/
theorem problem_wedge (m : Csr) (k2 : ℝ)
    (h : ∀ f t : V3, m.apply (flat6 [(f, t)]) = some (flat6 [(f, k2 • t)])) (d : QP) (n1 n2 U : V3)
    (h00 : V3.dot n1 n1 = d.a00) (h01 : V3.dot n1 n2 = d.a01) (h11 : V3.dot n2 n2 = d.a11)
    (hb0 : V3.dot n1 U = d.b0) (hb1 : V3.dot n2 U = d.b1) (fl : ℝ → ℝ) :
    (prep m n1 n2 U).problem fl = d.prob fl (BCQP.dblMax / 10) := by
  have hm := mob6 m 1 k2 (by
    intro f t
    rw [show (1 : ℝ) • f = f by ext <;> simp]
    exact h f t)
  have hA : (fun v : Vec 2 => ((prep m n1 n2 U).op.applyCol v 0 1 0).1) = d.A := by
    funext v
    have hforce : crsApply (prep m n1 n2 U).op.D v 0 1 0 =
        (![n1.x * v 0 + n2.x * v 1, n1.y * v 0 + n2.y * v 1, n1.z * v 0 + n2.z * v 1, 0, 0, 0] : Vec 6) := by
      funext j
      have : crsApply (prep m n1 n2 U).op.D v 0 1 0 j =
        1 * (∑ l : Fin 2, (![![n1.x, n1.y, n1.z, 0, 0, 0], ![n2.x, n2.y, n2.z, 0, 0, 0]] : Fin 2 → Fin 6 → ℝ) l j * v l) + 0 * 0 := rfl
      rw [this, Fin.sum_univ_two]
      fin_cases j <;> simp
    have hvel : (prep m n1 n2 U).op.mob
        (![n1.x * v 0 + n2.x * v 1, n1.y * v 0 + n2.y * v 1, n1.z * v 0 + n2.z * v 1, 0, 0, 0] : Vec 6) =
        (![n1.x * v 0 + n2.x * v 1, n1.y * v 0 + n2.y * v 1, n1.z * v 0 + n2.z * v 1, 0, 0, 0] : Vec 6) := by
      refine (hm _).trans ?_
      funext j
      fin_cases j <;> simp
    have happ : ∀ i : Fin 2, ((prep m n1 n2 U).op.applyCol v 0 1 0).1 i = 1 * (∑ j : Fin 6,
        (![![n1.x, n1.y, n1.z, 0, 0, 0], ![n2.x, n2.y, n2.z, 0, 0, 0]] : Fin 2 → Fin 6 → ℝ) i j *
          (![n1.x * v 0 + n2.x * v 1, n1.y * v 0 + n2.y * v 1, n1.z * v 0 + n2.z * v 1, 0, 0, 0] : Vec 6) j) + 0 * 0 + 1 * 0 * v i := by
      intro i
      rw [← hvel, ← hforce]
      rfl
    apply vec_ext
    · rw [happ, Fin.sum_univ_six]
      simp [QP.A, ← h00, ← h01, V3.dot]
      ring
    · rw [happ, Fin.sum_univ_six]
      simp [QP.A, ← h11, ← h01, V3.dot]
      ring
  have hq : (prep m n1 n2 U).q = vec d.b0 d.b1 := by
    rw [vec, ← hb0, ← hb1]; rfl
  have hl : lowerBound (prep m n1 n2 U).biFlag = fun _ => 0 := by
    funext i
    show -(10 : ℝ) ^ 8 * (0 : ℝ) = 0
    ring
  unfold Prepared.problem QP.prob
  rw [hq, hl]
  exact congrArg (fun A => bcqp fl A (vec d.b0 d.b1) (fun _ => 0) (fun _ => BCQP.dblMax / 10)) hA

/-- What the solver of the constraints leaves for the two walls: at limits `9 + 4 n` no velocity. -/
theorem solve_wedge (m : Csr) (k2 : ℝ)
    (h : ∀ f t : V3, m.apply (flat6 [(f, t)]) = some (flat6 [(f, k2 • t)])) (n1 n2 U : V3)
    (h00 : V3.dot n1 n1 = wedge.a00) (h01 : V3.dot n1 n2 = wedge.a01) (h11 : V3.dot n2 n2 = wedge.a11)
    (hb0 : V3.dot n1 U = wedge.b0) (hb1 : V3.dot n2 U = wedge.b1) (fl : ℝ → ℝ) (hb : Bounds fl (BCQP.dblMax / 10))
    (fuel : ℕ) (c : Control) (hch : c.choice ≠ 1) (hc : c.res ≤ 1 / 10) :
    ∃ s, (prep m n1 n2 U).solveConstraints fl fuel c = .ok s ∧ s.history.length = c.maxIte + 1 ∧
      (∀ e ∈ s.history, 1 / 10 ≤ e.res) ∧ ∀ n, c.maxIte = 9 + 4 * n → s.velU + s.velB = 0 := by
  obtain ⟨out, h1, h2, h3, h4⟩ := wedge_run hb c.res hc c.maxIte
  have hrun : (prep m n1 n2 U).run fl fuel c = .ok out := by
    unfold Prepared.run
    rw [if_neg hch, problem_wedge m k2 h wedge n1 n2 U h00 h01 h11 hb0 hb1 fl]
    exact h1
  unfold Prepared.solveConstraints
  rw [hrun]
  refine ⟨_, rfl, h2, h3, ?_⟩
  intro n hn
  have h0 := h4 n hn
  show ((prep m n1 n2 U).op.applyCol out.applied 0 1 0).2.2 - _ + _ = _
  rw [sub_add_cancel, h0]
  show mobVec [m] [6] 6 (crsApply (prep m n1 n2 U).op.D 0 0 1 0) = 0
  have hm := mob6 m 1 k2 (by
    intro f t
    rw [show (1 : ℝ) • f = f by ext <;> simp]
    exact h f t)
  have hz : crsApply (prep m n1 n2 U).op.D 0 0 1 0 = 0 := by
    unfold crsApply
    simp
  rw [hz, hm]
  funext j
  fin_cases j <;> simp

/-- The velocity of a body that is only given a velocity. -/
theorem drift (cfg : Cfg) (hmu : 0 < cfg.viscosity) (hdt : 0 < cfg.dt) (hk : cfg.KBT = 0) (hmono : cfg.monolayer = false) (D : Draws) (x : Sylinder)
    (hx : Valid x) (y : V3 × V3) (so : StepOut)
    (h : runStep cfg none (some (flat6 [y])) (noConstraints 1) [(D, x)] = some so) : so.velNonCon = flat6 [y] := by
  obtain ⟨m, v, fu, vu, fb, vb, out, hm, hrun, hvn, hvl, hso, l1, l2, l3, l4, ls, lm, hall⟩ :=
    runStep_spec cfg hmu hdt.ne' none (some [y]) (noConstraints 1) [(D, x)] (by simpa using hx)
      (by simp) (by simp) (fun m v _ _ => ⟨_, _, _, _, rfl, by simp, by simp, by simp, by simp⟩)
  obtain ⟨vi, fui, vui, fbi, vbi, t, u, gv, gfu, gvu, gfb, gvb, ht, hu, hst⟩ := hall 0 D x rfl
  obtain ⟨s1, mf, nb, hk1, hk2, hmo, hnb, hvi, htv, hto⟩ := hst.ex
  have hrun : runStep cfg none (some (flat6 [y])) (noConstraints 1) [(D, x)] = some out := hrun
  rw [hrun] at h
  cases h
  have hv1 : v = [vi] := by
    match v, hvl, gv with
    | [a], _, gv => simpa using gv
  have hy : vi = y := by
    rw [hvi, if_neg (by rw [hk]; norm_num), hnb]
    unfold nbOf
    simp only [hmono, maskIf, Option.bind_none, Option.bind_some, List.getElem?_cons_zero]
    refine Prod.ext (V3.ext ?_ ?_ ?_) (V3.ext ?_ ?_ ?_) <;> simp
  rw [hvn, hv1, hy]

/-- The mobility of a sphere. -/
theorem mob_ball (mu : ℝ) (hmu : 0 < mu) (x : Sylinder) (hx : Valid x) (him : x.isImmovable = false) (r : ℝ)
    (hd : x.calcDragCoeff Pi mu = some (1, 1, r)) (m : Csr) (hm : calcMobMatrix mu [x] = some m) (f t : V3) :
    m.apply (flat6 [(f, t)]) = some (flat6 [(f, (1 / r) • t)]) := by
  obtain ⟨m', hm', hap⟩ := mob_apply mu hmu [x] (by simpa using hx)
  rw [hm] at hm'
  cases hm'
  obtain ⟨ys, hl, ha, hmob⟩ := hap [(f, t)] rfl
  match ys, hl with
  | [y], _ =>
    rw [ha]
    rcases hmob 0 x (f, t) y rfl rfl rfl with ⟨h, -⟩ | ⟨-, p, e, r', hc, -, -, -, rfl⟩
    · rw [him] at h; cases h
    · rw [hd] at hc
      cases hc
      have : mobFun (1 / 1) (1 / 1) (1 / r) x.direction (f, t) = (f, (1 / r) • t) := by
        unfold mobFun
        refine Prod.ext (V3.ext ?_ ?_ ?_) rfl <;> simp
      rw [this]

end Verif.Wedge
