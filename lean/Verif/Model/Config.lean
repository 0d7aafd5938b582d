import Verif.Model.V3
/-!
Model of `Util/YamlHelper.hpp` (`readConfig`, lines 36-78), of the constructor of `SylinderConfig`
(`Sylinder/SylinderConfig.cpp` lines 6-86) and of the constructors of the boundary classes
(`Boundary/Boundary.cpp` lines 18-22, 98-102, 168-174).

The YAML library enters as a document type, key lookup, and conversions of nodes to values (`Conv`).
-/
namespace Verif.Config

/-- A YAML node. -/
inductive Node where
  | scalar (text : String)
  | seq (items : List Node)
  | map (entries : List (String × Node))

/-- `node[key]` with its test for existence: the first entry with this key. -/
def Node.lookup (n : Node) (key : String) : Option Node :=
  match n with
  | .map entries => entries.lookup key
  | _ => none

/-- `node.size()`. -/
def Node.size : Node → ℕ
  | .scalar _ => 0
  | .seq l => l.length
  | .map l => l.length

/-- `node[i]` of a sequence. -/
def Node.item (n : Node) (i : ℕ) : Option Node :=
  match n with
  | .seq l => l[i]?
  | _ => none

/-- Conversions `as<T>()`; `none` when yaml-cpp throws. -/
structure Conv where
  int : Node → Option ℤ
  real : Node → Option ℝ
  bool : Node → Option Bool
  str : Node → Option String

/-- How reading can end without a value: `std::exit(1)`, or a YAML exception. -/
inductive Err where
  | exited
  | threw
deriving DecidableEq

/-- YamlHelper.hpp:36-47: one variable; `cur` is its present content. -/
def readOne {T : Type} (as : Node → Option T) (config : Node) (name : String) (optional : Bool) (cur : T) :
    Except Err T :=
  match config.lookup name with
  | some n => (match as n with | some v => .ok v | none => .error .threw)
  | none => if optional then .ok cur else .error .exited

/-- YamlHelper.hpp:60-78: an array of `dim` elements (here always 3, as a triple). -/
def readThree {T : Type} (as : Node → Option T) (config : Node) (name : String) (optional : Bool) (cur : T × T × T) :
    Except Err (T × T × T) :=
  match config.lookup name with
  | some s =>
    if s.size ≠ 3 then .error .exited
    else
      match (s.item 0).bind as, (s.item 1).bind as, (s.item 2).bind as with
      | some a, some b, some c => .ok (a, b, c)
      | _, _, _ => .error .threw
  | none => if optional then .ok cur else .error .exited

/-- A boundary object. -/
inductive BoundaryObj where
  | wall (center norm : V3)
  | tube (center axis : V3) (radius : ℝ) (inside : Bool)
  | sphere (center : V3) (radius : ℝ) (inside : Bool)

/-- A triple as a vector. -/
def toV3 (t : ℝ × ℝ × ℝ) : V3 := ⟨t.1, t.2.1, t.2.2⟩

/-- Boundary.cpp:98-102. -/
noncomputable def mkWall (cv : Conv) (b : Node) : Except Err BoundaryObj := do
  let center ← readThree cv.real b "center" false (0, 0, 0)
  let norm ← readThree cv.real b "norm" false (0, 0, 0)
  .ok (.wall (toV3 center) (toV3 norm).normalized)

/-- Boundary.cpp:168-174. -/
noncomputable def mkTube (cv : Conv) (b : Node) : Except Err BoundaryObj := do
  let center ← readThree cv.real b "center" false (0, 0, 0)
  let axis ← readThree cv.real b "axis" false (0, 0, 0)
  let inside ← readOne cv.bool b "inside" false false
  let radius ← readOne cv.real b "radius" false 0
  .ok (.tube (toV3 center) (toV3 axis).normalized radius inside)

/-- Boundary.cpp:18-22. -/
noncomputable def mkSphere (cv : Conv) (b : Node) : Except Err BoundaryObj := do
  let center ← readThree cv.real b "center" false (0, 0, 0)
  let radius ← readOne cv.real b "radius" false 0
  let inside ← readOne cv.bool b "inside" false false
  .ok (.sphere (toV3 center) radius inside)

/-- SylinderConfig.cpp:73-83: one entry of the list; an unknown type adds nothing. -/
noncomputable def readBoundary (cv : Conv) (b : Node) : Except Err (List BoundaryObj) :=
  match (b.lookup "type").bind cv.str with
  | none => .error .threw
  | some name =>
    if name = "wall" then (mkWall cv b).map (fun x => [x])
    else if name = "tube" then (mkTube cv b).map (fun x => [x])
    else if name = "sphere" then (mkSphere cv b).map (fun x => [x])
    else .ok []

/-- SylinderConfig.cpp:73-83: the loop over the entries. -/
noncomputable def readBoundaryList (cv : Conv) : List Node → Except Err (List BoundaryObj)
  | [] => .ok []
  | b :: bs => do
    let x ← readBoundary cv b
    let xs ← readBoundaryList cv bs
    .ok (x ++ xs)

/-- SylinderConfig.cpp:69-84.  Iterating over a scalar visits nothing; iterating over a map visits pairs, on
which `b["type"]` throws. -/
noncomputable def readBoundaries (cv : Conv) (config : Node) : Except Err (List BoundaryObj) :=
  match config.lookup "boundaries" with
  | none => .ok []
  | some (.seq l) => readBoundaryList cv l
  | some (.scalar _) => .ok []
  | some (.map []) => .ok []
  | some (.map (_ :: _)) => .error .threw

/-- SylinderConfig.hpp:24-76: the fields. -/
structure Cfg where
  rngSeed : ℤ
  simBoxLow : ℝ × ℝ × ℝ
  simBoxHigh : ℝ × ℝ × ℝ
  simBoxPBC : Bool × Bool × Bool
  viscosity : ℝ
  KBT : ℝ
  sylinderNumber : ℤ
  sylinderLength : ℝ
  sylinderDiameter : ℝ
  dt : ℝ
  timeTotal : ℝ
  timeSnap : ℝ
  conResTol : ℝ
  conMaxIte : ℤ
  conSolverChoice : ℤ
  logLevel : ℤ
  timerLevel : ℤ
  monolayer : Bool
  initBoxLow : ℝ × ℝ × ℝ
  initBoxHigh : ℝ × ℝ × ℝ
  initOrient : ℝ × ℝ × ℝ
  initCircularX : Bool
  initPreSteps : ℤ
  linkKappa : ℝ
  linkGap : ℝ
  sylinderFixed : Bool
  sylinderLengthSigma : ℝ
  sylinderDiameterColRatio : ℝ
  sylinderLengthColRatio : ℝ
  sylinderColBuf : ℝ
  boundaries : List BoundaryObj

/-- SylinderConfig.cpp:6-85: the constructor.  Uninitialised members before a required read are 0 here; they are
overwritten or the program ends.  `spdlog::level::info` is 2. -/
noncomputable def construct (cv : Conv) (config : Node) : Except Err Cfg := do
  let rngSeed ← readOne cv.int config "rngSeed" false 0
  let simBoxLow ← readThree cv.real config "simBoxLow" false (0, 0, 0)
  let simBoxHigh ← readThree cv.real config "simBoxHigh" false (0, 0, 0)
  let simBoxPBC ← readThree cv.bool config "simBoxPBC" false (false, false, false)
  let viscosity ← readOne cv.real config "viscosity" false 0
  let KBT ← readOne cv.real config "KBT" false 0
  let sylinderNumber ← readOne cv.int config "sylinderNumber" false 0
  let sylinderLength ← readOne cv.real config "sylinderLength" false 0
  let sylinderDiameter ← readOne cv.real config "sylinderDiameter" false 0
  let dt ← readOne cv.real config "dt" false 0
  let timeTotal ← readOne cv.real config "timeTotal" false 0
  let timeSnap ← readOne cv.real config "timeSnap" false 0
  let conResTol ← readOne cv.real config "conResTol" false 0
  let conMaxIte ← readOne cv.int config "conMaxIte" false 0
  let conSolverChoice ← readOne cv.int config "conSolverChoice" false 0
  let logLevel ← readOne cv.int config "logLevel" true 2
  let timerLevel ← readOne cv.int config "timerLevel" true logLevel
  let monolayer ← readOne cv.bool config "monolayer" true false
  let initBoxLow ← readThree cv.real config "initBoxLow" true simBoxLow
  let initBoxHigh ← readThree cv.real config "initBoxHigh" true simBoxHigh
  let initOrient ← readThree cv.real config "initOrient" true (2, 2, 2)
  let initCircularX ← readOne cv.bool config "initCircularX" true false
  let initPreSteps ← readOne cv.int config "initPreSteps" true 100
  let linkKappa ← readOne cv.real config "linkKappa" true 100
  let linkGap ← readOne cv.real config "linkGap" true (1 / 100)
  let sylinderFixed ← readOne cv.bool config "sylinderFixed" true false
  let sylinderLengthSigma ← readOne cv.real config "sylinderLengthSigma" true (-1)
  let sylinderDiameterColRatio ← readOne cv.real config "sylinderDiameterColRatio" true 1
  let sylinderLengthColRatio ← readOne cv.real config "sylinderLengthColRatio" true 1
  let sylinderColBuf ← readOne cv.real config "sylinderColBuf" true (3 / 10)
  let boundaries ← readBoundaries cv config
  .ok { rngSeed, simBoxLow, simBoxHigh, simBoxPBC, viscosity, KBT, sylinderNumber, sylinderLength, sylinderDiameter,
        dt, timeTotal, timeSnap, conResTol, conMaxIte, conSolverChoice, logLevel, timerLevel, monolayer, initBoxLow,
        initBoxHigh, initOrient, initCircularX, initPreSteps, linkKappa, linkGap, sylinderFixed, sylinderLengthSigma,
        sylinderDiameterColRatio, sylinderLengthColRatio, sylinderColBuf, boundaries }

end Verif.Config
