import Verif.Spec.Collide
import Verif.Model.BoundaryCol
import Verif.Model.Links
import Verif.Model.TpetraUtil
import Verif.Model.Ids
import Verif.Model.RunStep
import Verif.Model.Snapshot
/-!
A whole run over all ranks: the main loop `prepareStep(); …; runStep();` of an application, after `SylinderSystem::initialize`
(Sylinder/SylinderSystem.cpp:30-104) or `SylinderSystem::reinitialize` (106-175), with bodies and links added by the application between the steps, as in Sylinder/SylinderSystem_test_api.cpp:34-77.
The parts are those of the models `Place`, `TpetraUtil`, `Links`, `Collide`, `BoundaryCol`, `RunStep`, `Ids` and `Snapshot`; this file puts them together.

Not in it: additions between `prepareStep` and `runStep`; output, which does not change the state, is in `Snapshot`.
-/
namespace Verif.Sim
open Domain Near Collector RunStep Mobility

/-- What does not change during a run.  `F`: the parameters of FDPS; `F.nt` is the number of threads. -/
structure Cfg where
  place : Place.Cfg
  mob : Mobility.Cfg
  link : Links.Cfg
  linkMap : List (ℤ × ℤ)
  bounds : List BoundaryCol.Bound
  ctl : ConOp.Control
  F : Force.Config
  initPreSteps : ℕ

/-- The configuration of a step; the steps in `initialize` do not call `calcVelocityBrown`, as with `KBT = 0`. -/
noncomputable def Cfg.mobility (C : Cfg) (pre : Bool) : Mobility.Cfg := { C.mob with KBT := if pre then 0 else C.mob.KBT }

/-- The domains and the bodies of the ranks, the content of the data directory, `stepCount`. -/
structure State where
  sys : Place.Sys
  dir : Links.Dir EP
  stepCount : ℕ

/-- The number of bodies of each rank. -/
def sizes (n : ℕ) (P : ℕ → List Sylinder) : List ℕ := (List.range n).map fun r => (P r).length

/-- SylinderSystem.cpp:868-880: the bodies of rank `r` with their `globalIndex`. -/
def numbered (n : ℕ) (P : ℕ → List Sylinder) (r : ℕ) : List Sylinder :=
  List.zipWith (fun (b : Sylinder) (g : ℕ) => { b with globalIndex := g }) (P r) ((TpetraUtil.updateSylinderMap (sizes n P)).1.getD r [])

/-- SylinderSystem.cpp:829-848 on rank `r`, which starts with an empty queue for each thread (`conCollectorPtr->clear()`, line 914): contacts between the bodies `S`
of all ranks, with boundaries, and links; the call ends and leaves `pool`.  That the recursion of `collectPairCollision` ends: it has a result with any sufficient `fuel`. -/
def Collects (C : Cfg) (dom : ℕ → Box) (S : ℕ → List Sylinder) (dir : Links.Dir EP) (X : ℕ → Force.RankExec EP) (r : ℕ) (pool : Pool) : Prop :=
  ∃ (thr : ℕ → ℕ) (p1 : Pool) (bs : List (BoundaryCol.Bound × List (ℕ × Sylinder))) (p2 : Pool) (thread : ℕ → ℕ) (blank : EP) (junk : ℕ → EP) (buf : List EP),
    (∀ i, thr i < C.F.nt) ∧
    (∃ N, ∀ fuel, N ≤ fuel → Collide.collectPairCollision C.F (Collide.dinfo C.place dom) S X thr r fuel (List.replicate C.F.nt []) = some p1) ∧
    bs.map Prod.fst = C.bounds ∧ (∀ e ∈ bs, (e.2.map Prod.snd).Perm (S r) ∧ ∀ y ∈ e.2, y.1 < C.F.nt) ∧
    BoundaryCol.collectBoundaryCollision C.place.colBuf p1 bs = some p2 ∧
    (∀ i < (S r).length, thread i < C.F.nt) ∧
    Links.Collect C.link C.linkMap (S r) (dir.find blank junk (Links.gidToFind C.linkMap (S r)) buf).1 thread p2 pool

/-- The bodies of the ranks after the step. -/
noncomputable def after (out : Out) (r : ℕ) : List Sylinder := ((out.steps[r]?).map StepOut.moved).getD []

/-- `prepareStep` (SylinderSystem.cpp:886-919), then `runStep` (948-968), or, in the loop of `initialize` (87-97, `pre`), the same without Brownian
velocities, without given forces and velocities, and without counting.  `q` is what `prepareStep` leaves (without the numbers of the bodies), `ranks` what
`runStep` starts with.  A force or velocity that was given has six numbers per body (`setForceNonBrown`, `setVelocityNonBrown`, 934-946). -/
structure Step (C : Cfg) (fl : ℝ → ℝ) (pre : Bool) (s : State) (q : Place.Sys) (ranks : List RankIn) (out : Out) (s' : State) : Prop where
  prepare : ∃ x, Place.Valid C.place x ∧ Place.PrepareStep C.place x s.stepCount s.sys q
  publish : ∃ order : List (ℤ × EP), order.Perm ((List.range C.place.g.n).flatMap fun r => Links.published (numbered C.place.g.n q.P r)) ∧
    s'.dir = s.dir.buildIndex order
  size : ranks.length = C.place.g.n
  bodies : ∀ r rk, ranks[r]? = some rk → rk.bodies.map Prod.snd = numbered C.place.g.n q.P r
  collect : ∃ X : ℕ → Force.RankExec EP, (∀ r < C.place.g.n, (X r).Valid C.F ((numbered C.place.g.n q.P r).map Collide.toEp)) ∧
    ∀ r rk, ranks[r]? = some rk → Collects C q.dec.dom (numbered C.place.g.n q.P) s'.dir X r rk.pool
  given : ∀ rk ∈ ranks, (∀ f, rk.force = some f → pre = false ∧ f.length = 6 * rk.bodies.length) ∧
    ∀ f, rk.velPart = some f → pre = false ∧ f.length = 6 * rk.bodies.length
  mobMin : ∀ r rk, ranks[r]? = some rk → rk.mobMin = 6 * (Place.total q.P r : ℤ) ∧ rk.mobMax = 6 * (Place.total q.P (r + 1) : ℤ) - 1
  matrix : ∀ rk ∈ ranks, rk.matOrder.Perm (matrixWrites rk.pool)
  vector : ∀ rk ∈ ranks, rk.vecOrder.Perm (vectorWrites rk.pool)
  run : ∃ fuel, runStepAll (C.mobility pre) C.ctl fl fuel ranks = some out
  moved : s'.sys = ⟨q.dec, after out⟩
  count : s'.stepCount = if pre then s.stepCount else s.stepCount + 1

/-- The bodies that rank `r` adds, with the ids they get (SylinderSystem.cpp:1344-1348). -/
def added (new : List (List Sylinder)) (ids : List (List ℤ)) (r : ℕ) : List Sylinder :=
  List.zipWith (fun (b : Sylinder) (g : ℤ) => { b with gid := g }) (new.getD r []) (ids.getD r [])

/-- `addNewSylinder` (SylinderSystem.cpp:1311-1350) on all ranks in the state `s`; `new` are the bodies each rank adds, `ids` what is returned to it. -/
def AddBodies (n : ℕ) (s : State) (new : List (List Sylinder)) (ids : List (List ℤ)) (s' : State) : Prop :=
  ∃ shuffle lists, (∀ l : List ℤ, (shuffle l).Perm l) ∧ new.length = n ∧ Ids.addNewSylinder shuffle ((List.range n).map s.sys.P) new = some (lists, ids) ∧
    s' = ⟨⟨s.sys.dec, fun r => lists.getD r []⟩, s.dir, s.stepCount⟩

/-- `addNewLink` (SylinderSystem.cpp:1352-1368) with the links `new` of each rank; the map is the same on all ranks (C49). -/
def Cfg.addLinks (C : Cfg) (new : List (List (ℤ × ℤ))) : Cfg := { C with linkMap := ((⟨C.linkMap, []⟩ : Ids.Links).emplace new.flatten).map }

/-- All bodies on rank 0. -/
def onRoot (bodies : List Sylinder) (r : ℕ) : List Sylinder := if r = 0 then bodies else []

/-- `reinitialize` (SylinderSystem.cpp:106-175, with `eulerStep`) of a program with the configuration `C`, which reads `R` from the files `d`: the bodies, all on
rank 0 (line 159), are wrapped, the domains are decomposed and the bodies distributed (161-163); the directory is a new one (166).  The bodies are numbered also by the
next `prepareStep`. -/
def Resumes (C : Cfg) (svd : V3 → V3 → V3) (blank : Sylinder) (d : Snapshot.Disk) (R : Snapshot.Restarted) (s : State) : Prop :=
  Snapshot.reinitialize svd blank C.mob.sylinderFixed C.mob.dt C.place.g.n d = some R ∧ C.linkMap = R.links ∧
  ∃ junk x y Q s1 s2, Place.Valid C.place x ∧ Place.Valid C.place y ∧ Place.Wraps C.place (onRoot R.bodies) Q ∧
    Place.DecomposeDomain C.place x ⟨⟨true, junk⟩, Q⟩ s1 ∧ Place.ExchangeSylinder C.place y s1 s2 ∧ s = ⟨s2, Links.Dir.empty, R.stepCount⟩

/-- The states between the steps of a run that starts with the configuration `C₀` and the bodies `B`: after `initialize` has distributed the bodies
(SylinderSystem.cpp:73-74) or `reinitialize` has read them, after each of the `k` steps in `initialize` (86-99), after each step of the main loop, after each addition.  The configuration `C` has
also the links added so far, `P` all bodies given so far, where they were given.  Of the steps only those are considered for which `Ok C P`. -/
inductive Run (Ok : Cfg → (ℕ → List Sylinder) → Prop) (fl : ℝ → ℝ) (C₀ : Cfg) (B : ℕ → List Sylinder) : Cfg → (ℕ → List Sylinder) → ℕ → State → Prop
  | start (junk x y s1 s2) : Ok C₀ B → Place.Valid C₀.place x → Place.Valid C₀.place y → Place.DecomposeDomain C₀.place x ⟨⟨true, junk⟩, B⟩ s1 →
    Place.ExchangeSylinder C₀.place y s1 s2 → Run Ok fl C₀ B C₀ B 0 ⟨s2, Links.Dir.empty, 0⟩
  | resume (svd blank d R s) : Ok C₀ B → Resumes C₀ svd blank d R s → B = onRoot R.bodies → Run Ok fl C₀ B C₀ B C₀.initPreSteps s
  | pre (C P k s q ranks out s') : Run Ok fl C₀ B C P k s → Ok C P → k < C.initPreSteps → C.mob.sylinderFixed = false → s.stepCount = 0 →
    Step C fl true s q ranks out s' → Run Ok fl C₀ B C P (k + 1) s'
  | step (C P k s q ranks out s') : Run Ok fl C₀ B C P k s → Ok C P → (C.mob.sylinderFixed = false → k = C.initPreSteps) → Step C fl false s q ranks out s' →
    Run Ok fl C₀ B C P k s'
  | bodies (C P k s new ids s') : Run Ok fl C₀ B C P k s → (C.mob.sylinderFixed = false → k = C.initPreSteps) → AddBodies C.place.g.n s new ids s' →
    Run Ok fl C₀ B C (fun r => P r ++ added new ids r) k s'
  | links (C P k s new) : Run Ok fl C₀ B C P k s → (C.mob.sylinderFixed = false → k = C.initPreSteps) → Run Ok fl C₀ B (C.addLinks new) P k s

end Verif.Sim
