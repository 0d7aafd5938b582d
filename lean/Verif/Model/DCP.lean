import Verif.Model.V3
/-!
Model of `Collision/DCPQuery.hpp`: point-segment distance (lines 90-128) and segment-segment distance
(lines 198-472).  Exact real arithmetic; the constant `eps` of the code is a parameter (in the code `2^-52`), so that
statements can be made about the code and about the same code with `eps = 0`.  A failing assertion and a division by
zero are the outcome `none`.
-/
namespace Verif.DCP
open Verif.V3

/-- `std::numeric_limits<double>::epsilon()` -/
noncomputable def dblEps : ℝ := 1 / 2 ^ 52

/-- DCPQuery.hpp:90-128 `DistPointSeg`: `(distance, pointPerp)`. -/
noncomputable def distPointSeg (point minus plus : V3) : ℝ × V3 :=
  let direction := plus - minus
  let closest :=
    if dot direction (point - plus) ≥ 0 then plus
    else
      let t := dot direction (point - minus)
      if t ≤ 0 then minus
      else
        let sqrLength := dot direction direction
        if sqrLength > 0 then minus + (t / sqrLength) • direction else minus
  let diff := point - closest
  (Real.sqrt (dot diff diff), closest)

/-- DCPQuery.hpp:310-340 `GetClampedRoot` with its assertion (line 321; `abs` is read as the absolute value of a
`double`, and the `eps` of the assertion is always that of the code); second component: the branch that takes the
mid point was used (not part of the code, to be able to speak about it). -/
noncomputable def getClampedRoot (eps slope h0 h1 : ℝ) : Option (ℝ × Bool) :=
  if ¬ |slope - (h1 - h0)| < 10 * dblEps * max |h1| |h0| then none
  else if |h0| < eps ∧ |h1| < eps then some (1 / 2, true)
  else if h0 < 0 then
    if h1 > 0 then
      if slope = 0 then none else some (min (max (-h0 / slope) 0) 1, false)
    else some (1, false)
  else some (0, false)

/-- The coefficients of DCPQuery.hpp:176-182, set in lines 217-231. -/
structure Coef where
  a : ℝ
  b : ℝ
  c : ℝ
  d : ℝ
  e : ℝ

namespace Coef
variable (k : Coef)
def f00 : ℝ := k.d
def f10 : ℝ := k.f00 + k.a
def f01 : ℝ := k.f00 - k.b
def f11 : ℝ := k.f10 - k.b
def g00 : ℝ := -k.e
def g10 : ℝ := k.g00 - k.b
def g01 : ℝ := k.g00 + k.c
def g11 : ℝ := k.g10 + k.c
end Coef

/-- DCPQuery.hpp:214-221 -/
noncomputable def coef (P0 P1 Q0 Q1 : V3) : Coef :=
  let P1mP0 := P1 - P0
  let Q1mQ0 := Q1 - Q0
  let P0mQ0 := P0 - Q0
  ⟨dot P1mP0 P1mP0, dot P1mP0 Q1mQ0, dot Q1mQ0 Q1mQ0, dot P1mP0 P0mQ0, dot Q1mQ0 P0mQ0⟩

/-- DCPQuery.hpp:246-254 -/
noncomputable def classify (s : ℝ) : ℤ := if s ≤ 0 then -1 else if s ≥ 1 then 1 else 0

/-- End of the segment of intersection: edge number and position. -/
structure End where
  edge : ℕ
  s : ℝ
  t : ℝ

/-- DCPQuery.hpp:360-363 (and the same lines below): `num / mB`, `0.5` if not in `[0,1]`. -/
noncomputable def ratio (num mB : ℝ) : Option ℝ :=
  if mB = 0 then none
  else
    let r := num / mB
    if r < 0 ∨ r > 1 then some (1 / 2) else some r

/-- DCPQuery.hpp:342-424 `ComputeIntersection`. -/
noncomputable def computeIntersection (k : Coef) (s0 s1 : ℝ) (c0 c1 : ℤ) : Option (End × End) :=
  if c0 < 0 then do
    let r ← ratio k.f00 k.b
    let e0 : End := ⟨0, 0, r⟩
    if c1 = 0 then some (e0, ⟨3, s1, 1⟩)
    else do
      let r1 ← ratio k.f10 k.b
      some (e0, ⟨1, 1, r1⟩)
  else if c0 = 0 then do
    let e0 : End := ⟨2, s0, 0⟩
    if c1 < 0 then do
      let r1 ← ratio k.f00 k.b
      some (e0, ⟨0, 0, r1⟩)
    else if c1 = 0 then some (e0, ⟨3, s1, 1⟩)
    else do
      let r1 ← ratio k.f10 k.b
      some (e0, ⟨1, 1, r1⟩)
  else do
    let r ← ratio k.f10 k.b
    let e0 : End := ⟨1, 1, r⟩
    if c1 = 0 then some (e0, ⟨3, s1, 1⟩)
    else do
      let r1 ← ratio k.f00 k.b
      some (e0, ⟨0, 0, r1⟩)

/-- Parameters and whether a mid point was taken. -/
structure Param where
  s : ℝ
  t : ℝ
  mid : Bool

/-- DCPQuery.hpp:440-449 and 451-460: minimum on the edge an end belongs to. -/
noncomputable def onEdge (eps : ℝ) (k : Coef) (e : End) : Option Param :=
  if e.edge = 0 then do
    let r ← getClampedRoot eps k.c k.g00 k.g01
    some ⟨0, r.1, r.2⟩
  else if e.edge = 1 then do
    let r ← getClampedRoot eps k.c k.g10 k.g11
    some ⟨1, r.1, r.2⟩
  else some ⟨e.s, e.t, false⟩

/-- DCPQuery.hpp:426-472 `ComputeMinimumParameters`. -/
noncomputable def computeMinimum (eps : ℝ) (k : Coef) (e0 e1 : End) : Option Param :=
  let delta := e1.t - e0.t
  let h0 := delta * ((-k.b * e0.s - k.e) + k.c * e0.t)
  let h1 := delta * ((-k.b * e1.s - k.e) + k.c * e1.t)
  let between (z : ℝ) (mid : Bool) : Param :=
    ⟨(1 - z) * e0.s + z * e1.s, (1 - z) * e0.t + z * e1.t, mid⟩
  if |h0| < |k.c| * eps ∧ |h1| < |k.c| * eps then some (between (1 / 2) true)
  else if h0 ≥ 0 then onEdge eps k e0
  else if h1 ≤ 0 then onEdge eps k e1
  else do
    let z ← getClampedRoot eps (h1 - h0) h0 h1
    some (between z.1 z.2)

/-- DCPQuery.hpp:233-294: the parameters. -/
noncomputable def parameters (eps : ℝ) (k : Coef) : Option Param :=
  if k.a > 0 ∧ k.c > 0 then do
    let s0 ← getClampedRoot eps k.a k.f00 k.f10
    let s1 ← getClampedRoot eps k.a k.f01 k.f11
    let c0 := classify s0.1
    let c1 := classify s1.1
    let p ←
      if c0 = -1 ∧ c1 = -1 then do
        let r ← getClampedRoot eps k.c k.g00 k.g01
        some (⟨0, r.1, r.2⟩ : Param)
      else if c0 = 1 ∧ c1 = 1 then do
        let r ← getClampedRoot eps k.c k.g10 k.g11
        some (⟨1, r.1, r.2⟩ : Param)
      else do
        let es ← computeIntersection k s0.1 s1.1 c0 c1
        computeMinimum eps k es.1 es.2
    some ⟨p.s, p.t, p.mid || s0.2 || s1.2⟩
  else if k.a > 0 then do
    let r ← getClampedRoot eps k.a k.f00 k.f10
    some ⟨r.1, 0, r.2⟩
  else if k.c > 0 then do
    let r ← getClampedRoot eps k.c k.g00 k.g01
    some ⟨0, r.1, r.2⟩
  else some ⟨0, 0, false⟩

/-- Result of a query. -/
structure Result where
  distance : ℝ
  Ploc : V3
  Qloc : V3
  s : ℝ
  t : ℝ
  mid : Bool

/-- DCPQuery.hpp:198-308 `operator()`. -/
noncomputable def query (eps : ℝ) (P0 P1 Q0 Q1 : V3) : Option Result := do
  let p ← parameters eps (coef P0 P1 Q0 Q1)
  let A := (1 - p.s) • P0 + p.s • P1
  let B := (1 - p.t) • Q0 + p.t • Q1
  let diff := A - B
  some ⟨Real.sqrt (dot diff diff), A, B, p.s, p.t, p.mid⟩

end Verif.DCP
