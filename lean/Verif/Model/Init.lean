import Verif.Model.Orient
import Verif.Model.Sylinder
import Verif.Model.Near
/-!
Model of the initial configuration: `Sylinder/SylinderSystem.cpp` lines 190-290.

The random numbers are arguments: the theorems are about all of them.  Which numbers a thread draws is another matter (`Model/Rng.lean`).
-/
namespace Verif.Init
open V3

/-- What is used of the configuration. -/
structure Cfg where
  boxLow : Fin 3 → ℝ
  boxHigh : Fin 3 → ℝ
  number : ℕ
  length : ℝ
  lengthSigma : ℝ
  diameter : ℝ
  orient : Fin 3 → ℝ
  circularX : Bool

/-- The random numbers for one body: the results of `getLN`, as many as are needed, and those of `getU01` for the centre, the components of the director, the orientation
and the point in the circle. -/
structure Draws where
  ln : ℕ → ℝ
  pos : Fin 3 → ℝ
  vec : Fin 3 → ℝ
  quat : Fin 3 → ℝ
  circle : Fin 2 → ℝ

/-- SylinderSystem.cpp:192-206: one component. -/
noncomputable def component (p u : ℝ) : ℝ := if p < -1 ∨ p > 1 then 2 * u - 1 else p

/-- SylinderSystem.cpp:190-216 `getOrient` -/
noncomputable def getOrient (svdAxis : V3 → V3 → V3) (p vec quat : Fin 3 → ℝ) : Quat :=
  let pvec : V3 := ⟨component (p 0) (vec 0), component (p 1) (vec 1), component (p 2) (vec 2)⟩
  if p 0 ≠ pvec.x ∧ p 1 ≠ pvec.y ∧ p 2 ≠ pvec.z then Equatn.setUnitRandomEquatn (quat 0) (quat 1) (quat 2)
  else Orient.fromTwoVectors svdAxis ⟨0, 0, 1⟩ pvec

/-- SylinderSystem.cpp:227-229 -/
noncomputable def boxEdge (cfg : Cfg) (k : Fin 3) : ℝ := cfg.boxHigh k - cfg.boxLow k

/-- SylinderSystem.cpp:230-231 -/
noncomputable def maxLength (cfg : Cfg) : ℝ := min (min (boxEdge cfg 0) (boxEdge cfg 1)) (boxEdge cfg 2) * 0.5

/-- SylinderSystem.cpp:240-247: the choice of the length ends with `length`: the first draw that is below the maximum. -/
def Length (cfg : Cfg) (ln : ℕ → ℝ) (length : ℝ) : Prop :=
  if cfg.lengthSigma > 0 then ∃ n, (∀ m < n, ln m ≥ maxLength cfg) ∧ ¬ ln n ≥ maxLength cfg ∧ length = ln n
  else length = cfg.length

/-- SylinderSystem.cpp:239-258: body `i` is made, with the length `length`.  `colBuf` is whatever it is. -/
noncomputable def body (svdAxis : V3 → V3 → V3) (cfg : Cfg) (i : ℕ) (d : Draws) (colBuf length : ℝ) : Sylinder :=
  let radius := cfg.diameter / 2
  let pos : V3 := ⟨d.pos 0 * boxEdge cfg 0 + cfg.boxLow 0, d.pos 1 * boxEdge cfg 1 + cfg.boxLow 1, d.pos 2 * boxEdge cfg 2 + cfg.boxLow 2⟩
  (Sylinder.make i radius radius length length pos (getOrient svdAxis cfg.orient d.vec d.quat) colBuf).clear

/-- SylinderSystem.cpp:268-290: what `setInitialCircularCrossSection` does to a body. -/
noncomputable def circular (cfg : Cfg) (d : Draws) (s : Sylinder) : Sylinder :=
  let center : V3 := ⟨0, (cfg.boxHigh 1 - cfg.boxLow 1) * 0.5 + cfg.boxLow 1, (cfg.boxHigh 2 - cfg.boxLow 2) * 0.5 + cfg.boxLow 2⟩
  let radius := 0.5 * min (cfg.boxHigh 2 - cfg.boxLow 2) (cfg.boxHigh 1 - cfg.boxLow 1)
  let yz := Equatn.getRandPointInCircle radius (d.circle 0) (d.circle 1)
  { s with pos := ⟨s.pos.x, yz.1 + center.y, yz.2 + center.z⟩ }

/-- SylinderSystem.cpp:218-266 on rank `rank`: the call ends and leaves `bodies`; `draws i` are the random numbers for body `i`. -/
def SetInitialFromConfig (svdAxis : V3 → V3 → V3) (cfg : Cfg) (rank : ℕ) (draws : ℕ → Draws) (colBuf : ℕ → ℝ) (bodies : List Sylinder) : Prop :=
  ∃ first : List Sylinder,
    (if rank ≠ 0 then first = []
      else List.Forall₂ (fun (i : ℕ) (s : Sylinder) => ∃ length, Length cfg (draws i).ln length ∧ s = body svdAxis cfg i (draws i) (colBuf i) length) (List.range cfg.number) first) ∧
    bodies = if cfg.circularX then first.mapIdx (fun i s => circular cfg (draws i) s) else first

end Verif.Init
