import Mathlib.Analysis.SpecialFunctions.Log.Basic
/-!
The generators of points of Util/PointDistribution.cpp (12-80).  Arithmetic is rounded by `fl` after every operation (`id` for exact arithmetic); the decimal constants are taken
as exact.  `std::mt19937 gen(seed)` with a new distribution object is a sequence of numbers that depends on the seed alone: `canonical seed k` in [0, 1) and `normal seed k`.
-/
namespace Verif.Points

/-- `INT_MAX` -/
def maxInt : ℤ := 2 ^ 31 - 1

/-- `std::vector<double>::max_size()`: resizing beyond it throws. -/
def maxSize : ℤ := 2 ^ 60 - 1

/-- `c * box + shift` -/
def place (fl : ℝ → ℝ) (box shift c : ℝ) : ℝ := fl (fl (c * box) + shift)

/-- PointDistribution.cpp:12-43 `fixedPoints`: `src` is the vector passed by reference. -/
noncomputable def fixedPoints (fl : ℝ → ℝ) (nPts : ℤ) (box shift : ℝ) (src : List ℝ) : List ℝ :=
  if nPts = 1 then
    src ++ [place fl box shift 0.7, place fl box shift 0.6, place fl box shift 0.4]
  else if nPts = 2 then
    src ++ [place fl box shift 0.7, place fl box shift 0.6, place fl box shift 0.5,
      place fl box shift 0.2, place fl box shift 0.8, place fl box shift 0.7]
  else if nPts = 4 then
    src ++ [place fl box shift 0.1, place fl box shift 0.1, place fl box shift 0.1,
      place fl box shift 0.2, place fl box shift 0.2, place fl box shift 0.2,
      place fl box shift 0.3, place fl box shift 0.3, place fl box shift 0.3,
      place fl box shift 0.4, place fl box shift 0.4, place fl box shift 0.4]
  else []

/-- PointDistribution.cpp:64-71 `randomUniformFill`, with libstdc++'s `uniform_real_distribution`: a canonical number times `(high - low)`, plus `low`. -/
def randomUniformFill (fl : ℝ → ℝ) (canonical : ℤ → ℕ → ℝ) (vec : List ℝ) (low high : ℝ) (seed : ℤ) : List ℝ :=
  (List.range vec.length).map fun k => place fl (fl (high - low)) low (canonical seed k)

/-- PointDistribution.cpp:73-80 `randomLogNormalFill`, with `lognormal_distribution(m, s)`: `exp(s * n + m)` of a normal number.  `log` of a number that is not positive is not
finite: `none`.  (The rounding of `exp` and `log` is not modelled.) -/
noncomputable def randomLogNormalFill (normal : ℤ → ℕ → ℝ) (vec : List ℝ) (a b : ℝ) (seed : ℤ) : Option (List ℝ) :=
  if 0 < a then some ((List.range vec.length).map fun k => Real.exp (b * normal seed k + Real.log a))
  else none

/-- `fmod(v, 1.0)`: the quotient is truncated towards zero; the result is exact. -/
noncomputable def fmod1 (v : ℝ) : ℝ := if 0 ≤ v then v - ⌊v⌋ else v - ⌈v⌉

/-- PointDistribution.cpp:45-52 `randomPoints`: `nPts + 1` may not overflow, and a negative size converted to `size_t` is undefined.  `std::vector::resize` keeps the entries there
are (`old`) and appends zeros. -/
noncomputable def randomPoints (fl : ℝ → ℝ) (normal : ℤ → ℕ → ℝ) (nPts : ℤ) (box shift : ℝ) (old : List ℝ) : Option (List ℝ) :=
  if nPts + 1 > maxInt then none
  else
    let size := (nPts + 1) ^ 3 * 3
    if size < 0 ∨ size > maxSize then none
    else do
      let pts := old.take size.toNat ++ List.replicate (size.toNat - old.length) 0
      let filled ← randomLogNormalFill normal pts 1 1 0
      some (filled.map fun v => place fl box shift (fmod1 v))

/-- PointDistribution.cpp:58-62: one pass of the loop; `none` for an index outside. -/
def scaleAt (fl : ℝ → ℝ) (shift : Fin 3 → ℝ) (scale : ℝ) (pts : List ℝ) (i : ℕ) : Option (List ℝ) := do
  let x ← pts[3 * i]?
  let y ← pts[3 * i + 1]?
  let z ← pts[3 * i + 2]?
  some (((pts.set (3 * i) (place fl scale (shift 0) x)).set (3 * i + 1) (place fl scale (shift 1) y)).set (3 * i + 2) (place fl scale (shift 2) z))

/-- PointDistribution.cpp:54-62 `shiftAndScalePoints`: `nPts` is an `int`. -/
def shiftAndScalePoints (fl : ℝ → ℝ) (pts : List ℝ) (shift : Fin 3 → ℝ) (scale : ℝ) : Option (List ℝ) :=
  if ((pts.length / 3 : ℕ) : ℤ) > maxInt then none
  else (List.range (pts.length / 3)).foldlM (scaleAt fl shift scale) pts

end Verif.Points
