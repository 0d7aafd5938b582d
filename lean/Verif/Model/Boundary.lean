import Verif.Model.V3
/-!
Model of `Boundary/Boundary.cpp` (constructors, `project`, `check`).  Exact real arithmetic.  A division `1 / 0` makes
the C++ result NaN; this is the outcome `none` of `project`.  Printing is left out.
-/
namespace Verif.Boundary
open Verif.V3

/-- Boundary.cpp:5 -/
noncomputable def eps : ℝ := 1 / 2 ^ 52 * 10 ^ 4

/-- Boundary.hpp: `SphereShell`; Boundary.cpp:12-16 stores the arguments. -/
structure SphereShell where
  center : V3
  radius : ℝ
  inside : Bool

/-- Boundary.hpp: `Wall` -/
structure Wall where
  center : V3
  norm : V3

/-- Boundary.hpp: `Tube` -/
structure Tube where
  center : V3
  axis : V3
  radius : ℝ
  inside : Bool

/-- Boundary.cpp:92-96 (and 98-102): the normal is normalised. -/
noncomputable def Wall.make (center norm : V3) : Wall := ⟨center, norm.normalized⟩

/-- Boundary.cpp:160-166 (and 168-174): the axis is normalised. -/
noncomputable def Tube.make (center axis : V3) (radius : ℝ) (inside : Bool) : Tube :=
  ⟨center, axis.normalized, radius, inside⟩

/-- Boundary.cpp:24-40: `(project, delta)`. -/
noncomputable def SphereShell.project (b : SphereShell) (query : V3) : Option (V3 × V3) :=
  let Query := query - b.center
  let QueryR := Query.norm
  if QueryR = 0 then none
  else
    let Proj := (b.radius * (1 / QueryR)) • Query
    let PQ := Query - Proj
    let out := decide (QueryR > b.radius)
    let PQ := if (b.inside && out) || (!b.inside && !out) then -PQ else PQ
    some (Proj + b.center, PQ)

/-- Boundary.cpp:42-73.  With `Proj.norm() = 0` the direction is NaN and the last comparison is false, so that `true` is
returned. -/
noncomputable def SphereShell.check (b : SphereShell) (query project delta : V3) : Bool :=
  let Query := query - b.center
  let Proj := project - b.center
  if |Proj.norm - b.radius| > eps then false
  else
    let PQ := Query - Proj
    if |PQ.norm - delta.norm| > eps then false
    else if Proj.norm = 0 then true
    else
      let n := (1 / Proj.norm) • Proj
      let n := if b.inside then -n else n
      if |1 - dot n delta.normalized| > eps then false else true

/-- Boundary.cpp:104-119 -/
noncomputable def Wall.project (b : Wall) (query : V3) : V3 × V3 :=
  let CQ := query - b.center
  let t := dot CQ b.norm
  let Proj := query - t • b.norm
  let PQ := query - Proj
  (Proj, if t < 0 then -PQ else PQ)

/-- Boundary.cpp:121-145 -/
noncomputable def Wall.check (b : Wall) (query project delta : V3) : Bool :=
  if |dot (project - b.center) b.norm| > eps then false
  else if |(query - project).norm - delta.norm| > eps then false
  else if |1 - dot b.norm delta.normalized| > eps then false
  else true

/-- Boundary.cpp:176-198 -/
noncomputable def Tube.project (b : Tube) (query : V3) : V3 × V3 :=
  let t := dot (query - b.center) b.axis
  let ProjAxis := b.center + t • b.axis
  let ProjAxisQ := query - ProjAxis
  let Proj := ProjAxis + b.radius • ProjAxisQ.normalized
  let delta := query - Proj
  let delta := if ProjAxisQ.norm > b.radius then (if b.inside then -delta else delta)
    else (if !b.inside then -delta else delta)
  (Proj, delta)

/-- Boundary.cpp:200-233 -/
noncomputable def Tube.check (b : Tube) (query project delta : V3) : Bool :=
  let t := dot (project - b.center) b.axis
  let ProjAxis := b.center + t • b.axis
  if |b.radius - (project - ProjAxis).norm| > eps then false
  else if |(query - project).norm - delta.norm| > eps then false
  else
    let n := if b.inside then ProjAxis - project else project - ProjAxis
    if |1 - dot delta.normalized n.normalized| > eps then false else true

end Verif.Boundary
