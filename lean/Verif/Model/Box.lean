import Verif.Model.V3
/-! FDPS/orthotope3.hpp: axis-parallel boxes.  Simplified: exact real numbers. -/
namespace Verif

/-- `Orthotope3` (orthotope3.hpp:9-13). -/
@[ext] structure Box where
  low : V3
  high : V3

namespace Box

/-- `(a > b) ? a : b` -/
noncomputable def pickMax (a b : ℝ) : ℝ := open Classical in if a > b then a else b
/-- `(a <= b) ? a : b` -/
noncomputable def pickMin (a b : ℝ) : ℝ := open Classical in if a ≤ b then a else b

/-- orthotope3.hpp:32-35 `initNegativeVolume`; `big` is `std::numeric_limits<float>::max() / 128`. -/
noncomputable def negative (big : ℝ) : Box := ⟨⟨big, big, big⟩, ⟨-big, -big, -big⟩⟩

/-- orthotope3.hpp:41-43 `shift`. -/
noncomputable def shift (b : Box) (v : V3) : Box := ⟨b.low + v, b.high + v⟩

/-- orthotope3.hpp:45-52 `merge` with a box. -/
noncomputable def merge (a b : Box) : Box :=
  ⟨⟨pickMin a.low.x b.low.x, pickMin a.low.y b.low.y, pickMin a.low.z b.low.z⟩,
   ⟨pickMax a.high.x b.high.x, pickMax a.high.y b.high.y, pickMax a.high.z b.high.z⟩⟩

/-- orthotope3.hpp:54-61 `merge` with a point. -/
noncomputable def mergePos (a : Box) (p : V3) : Box :=
  ⟨⟨pickMin a.low.x p.x, pickMin a.low.y p.y, pickMin a.low.z p.z⟩,
   ⟨pickMax a.high.x p.x, pickMax a.high.y p.y, pickMax a.high.z p.z⟩⟩

/-- orthotope3.hpp:63-70 `merge` with a point and a size. -/
noncomputable def mergeSphere (a : Box) (p : V3) (size : ℝ) : Box :=
  ⟨⟨pickMin a.low.x (p.x - size), pickMin a.low.y (p.y - size), pickMin a.low.z (p.z - size)⟩,
   ⟨pickMax a.high.x (p.x + size), pickMax a.high.y (p.y + size), pickMax a.high.z (p.z + size)⟩⟩

/-- orthotope3.hpp:72-80 `contained` of a point. -/
def contained (b : Box) (p : V3) : Prop :=
  ¬ (p.x < b.low.x ∨ b.high.x ≤ p.x ∨ p.y < b.low.y ∨ b.high.y ≤ p.y ∨ p.z < b.low.z ∨ b.high.z ≤ p.z)

/-- orthotope3.hpp:97-104 `overlapped` with a point. -/
def overlappedPos (b : Box) (p : V3) : Prop :=
  ¬ (p.x < b.low.x ∨ b.high.x < p.x ∨ p.y < b.low.y ∨ b.high.y < p.y ∨ p.z < b.low.z ∨ b.high.z < p.z)

/-- orthotope3.hpp:106-114 `overlapped` with a box. -/
def overlapped (b a : Box) : Prop :=
  ¬ (a.high.x < b.low.x ∨ b.high.x < a.low.x ∨ a.high.y < b.low.y ∨ b.high.y < a.low.y ∨
    a.high.z < b.low.z ∨ b.high.z < a.low.z)

/-- One coordinate of orthotope3.hpp:156-160. -/
noncomputable def axisDist (lo hi t : ℝ) : ℝ :=
  open Classical in if t > hi then t - hi else if t < lo then lo - t else 0

/-- orthotope3.hpp:153-162 `getDistanceMinSQ` of a point. -/
noncomputable def distMinSq (b : Box) (p : V3) : ℝ :=
  let dx := axisDist b.low.x b.high.x p.x
  let dy := axisDist b.low.y b.high.y p.y
  let dz := axisDist b.low.z b.high.z p.z
  dx * dx + dy * dy + dz * dz

/-- One coordinate of orthotope3.hpp:127-148. -/
noncomputable def axisDistBox (alo ahi blo bhi : ℝ) : ℝ :=
  let x0 := blo - ahi
  let x1 := alo - bhi
  open Classical in if x0 * x1 < 0 then (if x0 > x1 then x0 else x1) else 0

/-- orthotope3.hpp:126-149 `getDistanceMinSQ` of a box (`b` is `*this`). -/
noncomputable def distMinSqBox (b a : Box) : ℝ :=
  let dx := axisDistBox a.low.x a.high.x b.low.x b.high.x
  let dy := axisDistBox a.low.y a.high.y b.low.y b.high.y
  let dz := axisDistBox a.low.z a.high.z b.low.z b.high.z
  dx * dx + dy * dy + dz * dz

end Box
end Verif
