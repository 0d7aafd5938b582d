import Verif.Model.Config
/-! Specification of the configuration: which value each field must have, as a table. -/
namespace Verif.Spec
open Config

/-- A single value: what the file says, or the default if the key is absent (`none`: no default, the key is
required). -/
def ValueIs {T : Type} (as : Node → Option T) (file : Node) (key : String) (dflt : Option T) (v : T) : Prop :=
  (∃ n, file.lookup key = some n ∧ as n = some v) ∨ (file.lookup key = none ∧ dflt = some v)

/-- The node is a list of exactly three entries that denote the three values. -/
def isTriple {T : Type} (as : Node → Option T) (n : Node) (v : T × T × T) : Prop :=
  ∃ a b c, n = .seq [a, b, c] ∧ as a = some v.1 ∧ as b = some v.2.1 ∧ as c = some v.2.2

/-- The same for a list of three values. -/
def TripleIs {T : Type} (as : Node → Option T) (file : Node) (key : String) (dflt : Option (T × T × T)) (v : T × T × T) :
    Prop :=
  (∃ n, file.lookup key = some n ∧ isTriple as n v) ∨ (file.lookup key = none ∧ dflt = some v)

/-- All scalar and triple fields of the configuration `c` read from `file`, with the documented defaults. -/
structure Matches (cv : Conv) (file : Node) (c : Cfg) : Prop where
  rngSeed : ValueIs cv.int file "rngSeed" none c.rngSeed
  simBoxLow : TripleIs cv.real file "simBoxLow" none c.simBoxLow
  simBoxHigh : TripleIs cv.real file "simBoxHigh" none c.simBoxHigh
  simBoxPBC : TripleIs cv.bool file "simBoxPBC" none c.simBoxPBC
  viscosity : ValueIs cv.real file "viscosity" none c.viscosity
  KBT : ValueIs cv.real file "KBT" none c.KBT
  sylinderNumber : ValueIs cv.int file "sylinderNumber" none c.sylinderNumber
  sylinderLength : ValueIs cv.real file "sylinderLength" none c.sylinderLength
  sylinderDiameter : ValueIs cv.real file "sylinderDiameter" none c.sylinderDiameter
  dt : ValueIs cv.real file "dt" none c.dt
  timeTotal : ValueIs cv.real file "timeTotal" none c.timeTotal
  timeSnap : ValueIs cv.real file "timeSnap" none c.timeSnap
  conResTol : ValueIs cv.real file "conResTol" none c.conResTol
  conMaxIte : ValueIs cv.int file "conMaxIte" none c.conMaxIte
  conSolverChoice : ValueIs cv.int file "conSolverChoice" none c.conSolverChoice
  logLevel : ValueIs cv.int file "logLevel" (some 2) c.logLevel
  timerLevel : ValueIs cv.int file "timerLevel" (some c.logLevel) c.timerLevel
  monolayer : ValueIs cv.bool file "monolayer" (some false) c.monolayer
  initBoxLow : TripleIs cv.real file "initBoxLow" (some c.simBoxLow) c.initBoxLow
  initBoxHigh : TripleIs cv.real file "initBoxHigh" (some c.simBoxHigh) c.initBoxHigh
  initOrient : TripleIs cv.real file "initOrient" (some (2, 2, 2)) c.initOrient
  initCircularX : ValueIs cv.bool file "initCircularX" (some false) c.initCircularX
  initPreSteps : ValueIs cv.int file "initPreSteps" (some 100) c.initPreSteps
  linkKappa : ValueIs cv.real file "linkKappa" (some 100) c.linkKappa
  linkGap : ValueIs cv.real file "linkGap" (some (1 / 100)) c.linkGap
  sylinderFixed : ValueIs cv.bool file "sylinderFixed" (some false) c.sylinderFixed
  sylinderLengthSigma : ValueIs cv.real file "sylinderLengthSigma" (some (-1)) c.sylinderLengthSigma
  sylinderDiameterColRatio : ValueIs cv.real file "sylinderDiameterColRatio" (some 1) c.sylinderDiameterColRatio
  sylinderLengthColRatio : ValueIs cv.real file "sylinderLengthColRatio" (some 1) c.sylinderLengthColRatio
  sylinderColBuf : ValueIs cv.real file "sylinderColBuf" (some (3 / 10)) c.sylinderColBuf

/-- The keys without which the program must not start. -/
def requiredKeys : List String :=
  ["rngSeed", "simBoxLow", "simBoxHigh", "simBoxPBC", "viscosity", "KBT", "sylinderNumber", "sylinderLength",
   "sylinderDiameter", "dt", "timeTotal", "timeSnap", "conResTol", "conMaxIte", "conSolverChoice"]

/-- The `type` entry of a boundary. -/
def boundaryType (cv : Conv) (b : Node) : Option String := (b.lookup "type").bind cv.str

/-- The types of boundary there are. -/
def knownTypes : List String := ["wall", "tube", "sphere"]

/-- The object is the boundary that the entry `b` of the file describes: of the named type, with the given centre, radius
and side, and the given direction made a unit vector. -/
def BoundaryIs (cv : Conv) (b : Node) : BoundaryObj → Prop
  | .wall center norm => boundaryType cv b = some "wall" ∧
      (∃ v, TripleIs cv.real b "center" none v ∧ center = toV3 v) ∧
      (∃ v, TripleIs cv.real b "norm" none v ∧ norm = (toV3 v).normalized)
  | .tube center axis radius inside => boundaryType cv b = some "tube" ∧
      (∃ v, TripleIs cv.real b "center" none v ∧ center = toV3 v) ∧
      (∃ v, TripleIs cv.real b "axis" none v ∧ axis = (toV3 v).normalized) ∧
      ValueIs cv.real b "radius" none radius ∧ ValueIs cv.bool b "inside" none inside
  | .sphere center radius inside => boundaryType cv b = some "sphere" ∧
      (∃ v, TripleIs cv.real b "center" none v ∧ center = toV3 v) ∧
      ValueIs cv.real b "radius" none radius ∧ ValueIs cv.bool b "inside" none inside

end Verif.Spec
