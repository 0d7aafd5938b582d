import Verif.Model.Sylinder
import Verif.Model.Orient
import Mathlib.Data.Matrix.Mul
/-!
Model of the velocities of one time step: `Sylinder/SylinderSystem.cpp` lines 622-827 (mobility, `calcVelocityNonCon`,
`sumForceVelocity`, `stepEuler`), 886-932 (the part of `prepareStep` that concerns one body), 948-968 (`runStep`),
970-1017 (`saveForceVelocityConstraints`), 1019-1090 (`calcVelocityBrown`).

One rank's vectors are lists with six numbers for each body.  Exact real arithmetic; a division by zero, an access outside
a vector and a failed assertion are `none`.  Loops over bodies in which every pass touches only its own body and its own
part of the vectors are written as a map over the bodies.
-/
namespace Verif.Mobility
open Verif.V3

abbrev Mat3 := Matrix (Fin 3) (Fin 3) ℝ

/-- Util/EigenDef.hpp:30 -/
noncomputable def Pi : ℝ := 3.141592653589793238462643383279

/-- `q * q.transpose()` -/
def outer (q : V3) : Mat3 := !![q.x * q.x, q.x * q.y, q.x * q.z; q.y * q.x, q.y * q.y, q.y * q.z; q.z * q.x, q.z * q.y, q.z * q.z]

/-- A 3x3 matrix times a vector. -/
def mul3 (m : Mat3) (v : V3) : V3 :=
  ⟨m 0 0 * v.x + m 0 1 * v.y + m 0 2 * v.z, m 1 0 * v.x + m 1 1 * v.y + m 1 2 * v.z, m 2 0 * v.x + m 2 1 * v.y + m 2 2 * v.z⟩

/-- SylinderSystem.cpp:657-663 and 1040-1046: the inverse drag coefficients; a zero coefficient is `none`. -/
noncomputable def dragInv (s : Sylinder) (mu : ℝ) : Option (ℝ × ℝ × ℝ) :=
  if s.isImmovable then some (0, 0, 0)
  else
    match s.calcDragCoeff Pi mu with
    | none => none
    | some (para, perp, rot) => if para = 0 ∨ perp = 0 ∨ rot = 0 then none else some (1 / para, 1 / perp, 1 / rot)

/-- SylinderSystem.cpp:643-667: `(MobTrans, MobRot)` of one body. -/
noncomputable def mobBlocks (s : Sylinder) (mu : ℝ) : Option (Mat3 × Mat3) :=
  let q := s.orientation.rot ⟨0, 0, 1⟩
  let qq := outer q
  let Imqq := 1 - qq
  (dragInv s mu).map fun (paraInv, perpInv, rotInv) => (paraInv • qq + perpInv • Imqq, rotInv • qq + rotInv • Imqq)

/-- SylinderSystem.cpp:675-693: the column indices of body `i`. -/
def bodyColumns (i : ℕ) : List ℕ :=
  [6 * i, 6 * i + 1, 6 * i + 2, 6 * i, 6 * i + 1, 6 * i + 2, 6 * i, 6 * i + 1, 6 * i + 2,
   6 * i + 3, 6 * i + 4, 6 * i + 5, 6 * i + 3, 6 * i + 4, 6 * i + 5, 6 * i + 3, 6 * i + 4, 6 * i + 5]

/-- SylinderSystem.cpp:695-713: the values of a body. -/
def bodyValues (t r : Mat3) : List ℝ :=
  [t 0 0, t 0 1, t 0 2, t 1 0, t 1 1, t 1 2, t 2 0, t 2 1, t 2 2, r 0 0, r 0 1, r 0 2, r 1 0, r 1 1, r 1 2, r 2 0, r 2 1, r 2 2]

/-- A local matrix in compressed row storage. -/
structure Csr where
  rowPointers : List ℕ
  columnIndices : List ℕ
  values : List ℝ

/-- SylinderSystem.cpp:622-722: `mobilityMatrixRcp` (its local part; the matrix couples only rows of one rank). -/
noncomputable def calcMobMatrix (mu : ℝ) (bodies : List Sylinder) : Option Csr :=
  let nLocal := bodies.length
  let localSize := nLocal * 6
  (bodies.mapM fun s => mobBlocks s mu).map fun blocks =>
    { rowPointers := (List.range (localSize + 1)).map (3 * ·)
      columnIndices := (List.range nLocal).flatMap bodyColumns
      values := blocks.flatMap fun b => bodyValues b.1 b.2 }

/-- Entries `k`, …, `k + m - 1` of the matrix applied to a vector. -/
noncomputable def rowSum (m : Csr) (x : List ℝ) : ℕ → ℕ → Option ℝ
  | _, 0 => some 0
  | k, n + 1 =>
    match m.columnIndices[k]?, m.values[k]? with
    | some c, some v =>
      match x[c]? with
      | some xc => (rowSum m x (k + 1) n).map (v * xc + ·)
      | none => none
    | _, _ => none

/-- Tpetra's `CrsMatrix::apply`: row `i` uses the entries `rowPointers[i]`, …, `rowPointers[i+1] - 1`. -/
noncomputable def Csr.apply (m : Csr) (x : List ℝ) : Option (List ℝ) :=
  (List.range (m.rowPointers.length - 1)).mapM fun i =>
    match m.rowPointers[i]?, m.rowPointers[i + 1]? with
    | some a, some b => rowSum m x a (b - a)
    | _, _ => none

/-- Lower triangle of a matrix. -/
def lower (a : Mat3) : Mat3 := !![a 0 0, 0, 0; a 1 0, a 1 1, 0; a 2 0, a 2 1, a 2 2]

/-- `Nmat.llt().matrixL()` for a 3x3 matrix: Eigen's unblocked factorisation, in place; a pivot that is not positive stops
it and the rest of the matrix stays as it is. -/
noncomputable def lltL (a : Mat3) : Mat3 :=
  let x0 := a 0 0
  if x0 ≤ 0 then lower a
  else
    let l00 := Real.sqrt x0
    let l10 := a 1 0 / l00
    let l20 := a 2 0 / l00
    let x1 := a 1 1 - l10 * l10
    if x1 ≤ 0 then !![l00, 0, 0; l10, a 1 1, 0; l20, a 2 1, a 2 2]
    else
      let l11 := Real.sqrt x1
      let l21 := (a 2 1 - l20 * l10) / l11
      let x2 := a 2 2 - (l20 * l20 + l21 * l21)
      if x2 ≤ 0 then !![l00, 0, 0; l10, l11, 0; l20, l21, a 2 2]
      else !![l00, 0, 0; l10, l11, 0; l20, l21, Real.sqrt x2]

/-- The random numbers drawn for one body. -/
structure Draws where
  rot : V3
  pos : V3
  rfdrot : V3
  rfdpos : V3

/-- SylinderSystem.cpp:1034-1070: one body of the loop of `calcVelocityBrown`. -/
noncomputable def brownBody (mu dt kBT : ℝ) (W : Draws) (s : Sylinder) : Option Sylinder :=
  if dt = 0 then none
  else
    let delta := dt * 0.1
    let kBTfactor := Real.sqrt (2 * kBT / dt)
    (dragInv s mu).map fun (paraInv, perpInv, rotInv) =>
      let q := s.orientation.rot ⟨0, 0, 1⟩
      let Nmat : Mat3 := (paraInv - perpInv) • outer q + perpInv • (1 : Mat3)
      let Nmatsqrt := lltL Nmat
      let orientRFD := Equatn.rotateEquatn s.orientation W.rfdrot delta
      let q := orientRFD.rot ⟨0, 0, 1⟩
      let Nmatrfd : Mat3 := (paraInv - perpInv) • outer q + perpInv • (1 : Mat3)
      let vel := kBTfactor • mul3 Nmatsqrt W.pos
      let vel := vel + (kBT / delta) • mul3 (Nmatrfd - Nmat) W.rfdpos
      let omega := (Real.sqrt rotInv * kBTfactor) • W.rot
      { s with velBrown := vel, omegaBrown := omega }

/-- SylinderSystem.cpp:1019-1090: the bodies and the vector `velocityBrownRcp`. -/
noncomputable def calcVelocityBrown (mu dt kBT : ℝ) (bodies : List (Draws × Sylinder)) : Option (List Sylinder × List ℝ) :=
  (bodies.mapM fun b => brownBody mu dt kBT b.1 b.2).map fun bodies =>
    (bodies, bodies.flatMap fun s =>
      [s.velBrown.x, s.velBrown.y, s.velBrown.z, s.omegaBrown.x, s.omegaBrown.y, s.omegaBrown.z])

/-- The entries `6 i`, …, `6 i + 5` of a vector. -/
def get6 (v : List ℝ) (i : ℕ) : Option (V3 × V3) :=
  match v.drop (6 * i) with
  | a :: b :: c :: d :: e :: f :: _ => some (⟨a, b, c⟩, ⟨d, e, f⟩)
  | _ => none

/-- SylinderSystem.cpp:738-743, 766-771, 792-797: the restriction to the plane. -/
def maskMono (n : ℕ) (v : List ℝ) : List ℝ :=
  (List.range n).foldl (fun v i => ((v.set (6 * i + 2) 0).set (6 * i + 3) 0).set (6 * i + 4) 0) v

/-- `v.update(1.0, w, 1.0)`; the vectors must have the same size. -/
def update1 (v w : List ℝ) : Option (List ℝ) := if v.length = w.length then some (List.zipWith (· + ·) v w) else none

/-- A loop that stores six numbers of a vector in every body. -/
def store (put : Sylinder → V3 → V3 → Sylinder) (v : List ℝ) (bodies : List Sylinder) : Option (List Sylinder) :=
  bodies.zipIdx.mapM fun (s, i) => (get6 v i).map fun x => put s x.1 x.2

/-- SylinderSystem.cpp:733-758: the velocity caused by the forces, zero if none were set; the forces are stored in the
bodies.  `mob` applies the mobility operator. -/
noncomputable def forceStage (monolayer : Bool) (mob : List ℝ → Option (List ℝ)) (force : Option (List ℝ))
    (bodies : List Sylinder) : Option (List ℝ × List Sylinder) :=
  match force with
  | none => some (List.replicate (6 * bodies.length) 0, bodies)
  | some f =>
    (mob f).bind fun v =>
      (store (fun s a b => { s with forceNonB := a, torqueNonB := b }) f bodies).map fun bodies' =>
        (if monolayer then maskMono bodies.length v else v, bodies')

/-- SylinderSystem.cpp:760-773 and 788-799: add a velocity, if it was set. -/
def addStage (monolayer : Bool) (n : ℕ) (w : Option (List ℝ)) (v : List ℝ) : Option (List ℝ) :=
  match w with
  | none => some v
  | some w => update1 v (if monolayer then maskMono n w else w)

/-- SylinderSystem.cpp:724-800: `velocityNonConRcp` and the bodies.  A vector that was not set is `none`. -/
noncomputable def calcVelocityNonCon (monolayer : Bool) (mob : List ℝ → Option (List ℝ))
    (force velPart velBrown : Option (List ℝ)) (bodies : List Sylinder) : Option (List ℝ × List Sylinder) :=
  (forceStage monolayer mob force bodies).bind fun r =>
  (addStage monolayer bodies.length velPart r.1).bind fun v =>
  (store (fun s a b => { s with velNonB := a, omegaNonB := b }) v r.2).bind fun bodies' =>
  (addStage monolayer bodies.length velBrown v).map fun v => (v, bodies')

/-- What the constraint solver returns: forces and velocities of unilateral and bilateral constraints. -/
structure SolverOut where
  forceUni : List ℝ
  velUni : List ℝ
  forceBi : List ℝ
  velBi : List ℝ

/-- SylinderSystem.cpp:970-1017 -/
def saveForceVelocityConstraints (o : SolverOut) (bodies : List Sylinder) : Option (List Sylinder) :=
  if o.velUni.length = bodies.length * 6 ∧ o.velBi.length = bodies.length * 6 then
    (store (fun s a b => { s with velCol := a, omegaCol := b }) o.velUni bodies).bind fun bodies =>
    (store (fun s a b => { s with velBi := a, omegaBi := b }) o.velBi bodies).bind fun bodies =>
    (store (fun s a b => { s with forceCol := a, torqueCol := b }) o.forceUni bodies).bind fun bodies =>
    store (fun s a b => { s with forceBi := a, torqueBi := b }) o.forceBi bodies
  else none

/-- SylinderSystem.cpp:802-814, one body -/
noncomputable def sumBody (s : Sylinder) : Sylinder :=
  { s with
    vel := s.velNonB + s.velBrown + s.velCol + s.velBi
    omega := s.omegaNonB + s.omegaBrown + s.omegaCol + s.omegaBi
    force := s.forceNonB + s.forceCol + s.forceBi
    torque := s.torqueNonB + s.torqueCol + s.torqueBi }

/-- The settings that concern the velocities (SylinderConfig.hpp). -/
structure Cfg where
  monolayer : Bool
  sylinderFixed : Bool
  viscosity : ℝ
  KBT : ℝ
  dt : ℝ
  simBoxLowZ : ℝ
  simBoxHighZ : ℝ
  sylinderDiameterColRatio : ℝ
  sylinderLengthColRatio : ℝ
  sylinderColBuf : ℝ

/-- SylinderSystem.cpp:897-918: what `prepareStep` does to one body of rank `rank`. -/
noncomputable def prepareBody (svdAxis : V3 → V3 → V3) (cfg : Cfg) (rank : ℤ) (s : Sylinder) : Sylinder :=
  let s := s.clear
  let s := { s with
    radiusCollision := s.radius * cfg.sylinderDiameterColRatio
    lengthCollision := s.length * cfg.sylinderLengthColRatio
    rank := rank
    colBuf := cfg.sylinderColBuf }
  if cfg.monolayer then
    let monoZ := (cfg.simBoxHighZ + cfg.simBoxLowZ) / 2
    let drt := s.orientation.rot ⟨0, 0, 1⟩
    let drt : V3 := ⟨drt.x, drt.y, 0⟩
    let drt := drt.normalized
    { s with pos := ⟨s.pos.x, s.pos.y, monoZ⟩, orientation := Orient.fromTwoVectors svdAxis ⟨0, 0, 1⟩ drt }
  else s

/-- What `runStep` computes: the velocity given to the constraint solver, the bodies before and after the motion. -/
structure StepOut where
  velNonCon : List ℝ
  summed : List Sylinder
  moved : List Sylinder

/-- SylinderSystem.cpp:948-954 on bodies left by `prepareStep`, with its `calcMobOperator` (919-921): the mobility matrix, the
velocity given to the constraint solver, and the bodies. -/
noncomputable def beforeSolve (cfg : Cfg) (force velPart : Option (List ℝ)) (bodies : List (Draws × Sylinder)) :
    Option (Csr × List ℝ × List Sylinder) :=
  (calcMobMatrix cfg.viscosity (bodies.map Prod.snd)).bind fun m =>
  let r : Option (List Sylinder × Option (List ℝ)) :=
    if cfg.KBT > 0 then (calcVelocityBrown cfg.viscosity cfg.dt cfg.KBT bodies).map fun r => (r.1, some r.2)
    else some (bodies.map Prod.snd, none)
  r.bind fun (bodies, velBrown) =>
  (calcVelocityNonCon cfg.monolayer m.apply force velPart velBrown bodies).map fun (v, bodies) => (m, v, bodies)

/-- SylinderSystem.cpp:865 (the end of `resolveConstraints`) and 956-965 (with 816-827), without output. -/
noncomputable def afterSolve (cfg : Cfg) (v : List ℝ) (o : SolverOut) (bodies : List Sylinder) : Option StepOut :=
  (saveForceVelocityConstraints o bodies).map fun bodies =>
  let bodies := bodies.map sumBody
  { velNonCon := v, summed := bodies
    moved := if cfg.sylinderFixed then bodies else bodies.map fun s => s.stepEuler cfg.dt }

/-- SylinderSystem.cpp:948-968 (with 820-827), on bodies left by `prepareStep`, without output.  `solver` is the rest of
`resolveConstraints`. -/
noncomputable def runStep (cfg : Cfg) (force velPart : Option (List ℝ)) (solver : Csr → List ℝ → Option SolverOut)
    (bodies : List (Draws × Sylinder)) : Option StepOut :=
  (beforeSolve cfg force velPart bodies).bind fun (m, v, bodies) =>
  (solver m v).bind fun o => afterSolve cfg v o bodies

end Verif.Mobility
