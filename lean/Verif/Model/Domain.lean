import Verif.Model.Box
import Mathlib.Analysis.SpecialFunctions.Pow.Real
/-! FDPS/domain_info.hpp: the numbers of domains along the axes (14-38) and `decomposeDomain` (101-135, 734-917), and
FDPS/particle_system.hpp: `getSampleParticle` (552-618).  With MPI and in three dimensions.  Simplified: exact real numbers. -/
namespace Verif.Domain

/-! ### numbers of domains -/

/-- domain_info.hpp:25-27: `while(np_tmp % tmp) tmp--`; `none` if the divisor becomes zero. -/
def divisor (n : ℕ) : ℕ → Option ℕ
  | 0 => none
  | t + 1 => if n % (t + 1) ≠ 0 then divisor n t else some (t + 1)

/-- domain_info.hpp:24: `(S32)pow(np_tmp+0.000001, (1.0/d)*1.000001 )`. -/
noncomputable def firstGuess (n d : ℕ) : ℕ := ⌊((n : ℝ) + 0.000001) ^ ((1.0 / (d : ℝ)) * 1.000001)⌋₊

/-- domain_info.hpp:23-30: the loop over `cid`; `np` is `np_tmp`, the first argument is `d`. -/
noncomputable def factors : ℕ → ℕ → Option (List ℕ)
  | 0, _ => some []
  | 1, np => some [np]
  | d + 2, np =>
    match divisor np (firstGuess np (d + 2)) with
    | none => none
    | some t =>
      match factors (d + 1) (np / t) with
      | none => none
      | some l => some (t :: l)

/-- domain_info.hpp:33-37: the loop from the last axis to the first; the axes come in reverse. -/
def rankLoop : List ℕ → ℕ → List ℕ
  | [], _ => []
  | n :: ns, r => r % n :: rankLoop ns (r / n)

/-- domain_info.hpp:14-38 `SetNumberOfDomainMultiDimension<3>`: the numbers of domains and the position of the rank.
`std::sort` with `std::greater` on integers is determined. -/
noncomputable def setNumberOfDomain (nproc rank : ℕ) : Option (List ℕ × List ℕ) :=
  match factors 3 nproc with
  | none => none
  | some npv =>
    let np := npv.mergeSort (fun a b => decide (b ≤ a))
    some (np, (rankLoop np.reverse rank).reverse)

/-! ### sample particles -/

/-- particle_system.hpp:572-573, 581: the number of samples of a rank with `nloc` particles.  `weight` is the number of particles,
`all` the sum of the weights of all ranks.  Without any particle this is `0/0`, and the conversion of it to an integer is
undefined: `none`. -/
noncomputable def sampleNumber (nloc all target : ℕ) : Option ℕ :=
  if all = 0 then none else
    let n := ⌊((nloc : ℝ) * target) / all⌋₊
    some (if n < nloc then n else nloc)

/-- particle_system.hpp:552-559 `getUniformDistributionFromArg1ToArg2`; `u` is what `frand` returns, `a ≤ b` here. -/
noncomputable def uniform (a b : ℕ) (u : ℝ) : ℕ := ⌊((b : ℝ) - a + 1) * u⌋₊ + a

/-- particle_system.hpp:598-600, 609-611: exchange of two elements; `none` outside the array. -/
def swap {α : Type} (l : List α) (i j : ℕ) : Option (List α) :=
  match l[i]?, l[j]? with
  | some x, some y => some ((l.set j x).set i y)
  | _, _ => none

/-- particle_system.hpp:596-602: the first loop, from `i` on; `k` rounds are left.  Result: array and `record`. -/
noncomputable def shuffle {α : Type} (u : ℕ → ℝ) : ℕ → ℕ → List α → Option (List α × List ℕ)
  | 0, _, l => some (l, [])
  | k + 1, i, l =>
    let j := uniform i (l.length - 1) (u i)
    match swap l i j with
    | none => none
    | some l' =>
      match shuffle u k (i + 1) l' with
      | none => none
      | some (l'', rec) => some (l'', j :: rec)

/-- particle_system.hpp:607-612: the last loop, back to `i`. -/
def unshuffle {α : Type} : ℕ → List ℕ → List α → Option (List α)
  | _, [], l => some l
  | i, j :: rec, l =>
    match unshuffle (i + 1) rec l with
    | none => none
    | some l' => swap l' i j

/-- particle_system.hpp:566-618 `getSampleParticle`: the samples and the array of particles afterwards. -/
noncomputable def getSample {α : Type} (pos : α → V3) (u : ℕ → ℝ) (all target : ℕ) (l : List α) : Option (List V3 × List α) :=
  match sampleNumber l.length all target with
  | none => none
  | some n =>
    match shuffle u n 0 l with
    | none => none
    | some (l', rec) =>
      match unshuffle 0 rec l' with
      | none => none
      | some l'' => some ((l'.take n).map pos, l'')

/-! ### decomposition -/

/-- The state of `DomainInfo` that `decomposeDomain` changes. -/
structure State where
  first : Bool
  dom : ℕ → Box

/-- The numbers `n_domain_`. -/
structure Grid where
  nx : ℕ
  ny : ℕ
  nz : ℕ

/-- The number of ranks (domain_info.hpp:225-229 and `SetNumberOfDomainMultiDimension`). -/
def Grid.n (g : Grid) : ℕ := g.nx * g.ny * g.nz

/-- domain_info.hpp:803: `istart[i]`, for `i < nproc`. -/
def istart (tot n i : ℕ) : ℕ := i * tot / n

/-- domain_info.hpp:804-807: `iend[i]`. -/
def iend (tot n i : ℕ) : ℤ := if i + 1 < n then (istart tot n (i + 1) : ℤ) - 1 else (tot : ℤ) - 1

/-- `pos_sample[k]`, where `pos_sample` points to element `base` of the array; `none` outside the `tot` samples. -/
def sampleAt (s : List V3) (base : ℕ) (k : ℤ) : Option V3 :=
  if (base : ℤ) + k < 0 then none else s[((base : ℤ) + k).toNat]?

/-- `0.5 * (pos_sample[a].x + pos_sample[b].x)` (domain_info.hpp:108, 110); `f` is the coordinate. -/
noncomputable def middle (f : V3 → ℝ) (s : List V3) (base : ℕ) (a b : ℤ) : Option ℝ :=
  match sampleAt s base a, sampleAt s base b with
  | some p, some q => some (0.5 * (f p + f q))
  | _, _ => none

/-- domain_info.hpp:101-135 `calculateBoundaryOfDomainX`, `Y`, `Z`: `f` is the coordinate, `lo` and `hi` those of the root domain. -/
noncomputable def boundary (f : V3 → ℝ) (lo hi : ℝ) (np : ℤ) (s : List V3) (base : ℕ) (a b : ℤ) : Option (ℝ × ℝ) :=
  match (if a = 0 then some lo else middle f s base (a - 1) a), (if b = np - 1 then some hi else middle f s base b (b + 1)) with
  | some l, some h => some (l, h)
  | _, _ => none

/-- `std::sort(pos_sample_tot_+a, pos_sample_tot_+b, …)`: `srt` is what `std::sort` does; `none` if the range is none. -/
def sortRange (srt : List V3 → List V3) (s : List V3) (a : ℕ) (b : ℤ) : Option (List V3) :=
  if (a : ℤ) ≤ b ∧ b ≤ s.length then some (s.take a ++ srt ((s.drop a).take (b.toNat - a)) ++ s.drop b.toNat) else none

/-- domain_info.hpp:815-818: the loop that writes `low_.x` and `high_.x`. -/
def fillX (t : ℕ → Box) (a b : ℕ) (v : ℝ × ℝ) : ℕ → Box := fun i =>
  if a ≤ i ∧ i < b then ⟨⟨v.1, (t i).low.y, (t i).low.z⟩, ⟨v.2, (t i).high.y, (t i).high.z⟩⟩ else t i

/-- domain_info.hpp:846-849. -/
def fillY (t : ℕ → Box) (a b : ℕ) (v : ℝ × ℝ) : ℕ → Box := fun i =>
  if a ≤ i ∧ i < b then ⟨⟨(t i).low.x, v.1, (t i).low.z⟩, ⟨(t i).high.x, v.2, (t i).high.z⟩⟩ else t i

/-- domain_info.hpp:870-871. -/
def setZ (t : ℕ → Box) (k : ℕ) (v : ℝ × ℝ) : ℕ → Box := fun i =>
  if i = k then ⟨⟨(t i).low.x, (t i).low.y, v.1⟩, ⟨(t i).high.x, (t i).high.y, v.2⟩⟩ else t i

/-- domain_info.hpp:808-819: the loop over `ix`, `k` rounds left. -/
noncomputable def loopX (root : Box) (g : Grid) (s : List V3) : ℕ → ℕ → (ℕ → Box) → Option (ℕ → Box)
  | 0, _, t => some t
  | k + 1, ix, t =>
    let ix0 := ix * g.ny * g.nz
    let ix1 := (ix + 1) * g.ny * g.nz
    match boundary V3.x root.low.x root.high.x s.length s 0 (istart s.length g.n ix0) (iend s.length g.n (ix1 - 1)) with
    | none => none
    | some v => loopX root g s k (ix + 1) (fillX t ix0 ix1 v)

/-- domain_info.hpp:836-850: the loop over `iy`; the samples are those after the sort along `y`. -/
noncomputable def loopYy (root : Box) (g : Grid) (s : List V3) (ix : ℕ) : ℕ → ℕ → (ℕ → Box) → Option (ℕ → Box)
  | 0, _, t => some t
  | k + 1, iy, t =>
    let ix0 := ix * g.ny * g.nz
    let ix1 := (ix + 1) * g.ny * g.nz
    let iy0 := ix0 + iy * g.nz
    let iy1 := ix0 + (iy + 1) * g.nz
    match boundary V3.y root.low.y root.high.y (iend s.length g.n (ix1 - 1) - istart s.length g.n ix0 + 1) s (istart s.length g.n ix0)
        ((istart s.length g.n iy0 : ℤ) - istart s.length g.n ix0) (iend s.length g.n (iy1 - 1) - istart s.length g.n ix0) with
    | none => none
    | some v => loopYy root g s ix k (iy + 1) (fillY t iy0 iy1 v)

/-- domain_info.hpp:822-851: the loop over `ix`. -/
noncomputable def loopY (srt : (V3 → ℝ) → List V3 → List V3) (root : Box) (g : Grid) :
    ℕ → ℕ → List V3 → (ℕ → Box) → Option (List V3 × (ℕ → Box))
  | 0, _, s, t => some (s, t)
  | k + 1, ix, s, t =>
    let ix0 := ix * g.ny * g.nz
    let ix1 := (ix + 1) * g.ny * g.nz
    match sortRange (srt V3.y) s (istart s.length g.n ix0) (iend s.length g.n (ix1 - 1) + 1) with
    | none => none
    | some s' =>
      match loopYy root g s' ix g.ny 0 t with
      | none => none
      | some t' => loopY srt root g k (ix + 1) s' t'

/-- domain_info.hpp:863-872: the loop over `iz`. -/
noncomputable def loopZz (root : Box) (g : Grid) (s : List V3) (iy0 iy1 : ℕ) : ℕ → ℕ → (ℕ → Box) → Option (ℕ → Box)
  | 0, _, t => some t
  | k + 1, iz, t =>
    let iz0 := iy0 + iz
    match boundary V3.z root.low.z root.high.z (iend s.length g.n (iy1 - 1) - istart s.length g.n iy0 + 1) s (istart s.length g.n iy0)
        ((istart s.length g.n iz0 : ℤ) - istart s.length g.n iy0) (iend s.length g.n iz0 - istart s.length g.n iy0) with
    | none => none
    | some v => loopZz root g s iy0 iy1 k (iz + 1) (setZ t iz0 v)

/-- domain_info.hpp:857-873: the loop over `iy`. -/
noncomputable def loopZy (srt : (V3 → ℝ) → List V3 → List V3) (root : Box) (g : Grid) (ix : ℕ) :
    ℕ → ℕ → List V3 → (ℕ → Box) → Option (List V3 × (ℕ → Box))
  | 0, _, s, t => some (s, t)
  | k + 1, iy, s, t =>
    let ix0 := ix * g.ny * g.nz
    let iy0 := ix0 + iy * g.nz
    let iy1 := ix0 + (iy + 1) * g.nz
    match sortRange (srt V3.z) s (istart s.length g.n iy0) (iend s.length g.n (iy1 - 1) + 1) with
    | none => none
    | some s' =>
      match loopZz root g s' iy0 iy1 g.nz 0 t with
      | none => none
      | some t' => loopZy srt root g ix k (iy + 1) s' t'

/-- domain_info.hpp:855-874: the loop over `ix`. -/
noncomputable def loopZ (srt : (V3 → ℝ) → List V3 → List V3) (root : Box) (g : Grid) :
    ℕ → ℕ → List V3 → (ℕ → Box) → Option (List V3 × (ℕ → Box))
  | 0, _, s, t => some (s, t)
  | k + 1, ix, s, t =>
    match loopZy srt root g ix g.ny 0 s t with
    | none => none
    | some (s', t') => loopZ srt root g k (ix + 1) s' t'

/-- domain_info.hpp:797-875: what rank 0 writes into `pos_domain_temp_`; `t` is its content before. -/
noncomputable def newDomains (srt : (V3 → ℝ) → List V3 → List V3) (root : Box) (g : Grid) (samples : List V3) (t : ℕ → Box) :
    Option (List V3 × (ℕ → Box)) :=
  let s := srt V3.x samples
  match loopX root g s g.nx 0 t with
  | none => none
  | some t1 =>
    match loopY srt root g g.nx 0 s t1 with
    | none => none
    | some (s2, t2) => loopZ srt root g g.nx 0 s2 t2

/-- domain_info.hpp:888-891: one corner. -/
noncomputable def mixV (c : ℝ) (new old : V3) : V3 := c • new + (1 - c) • old

/-- domain_info.hpp:734-905 `decomposeDomain`: `samples` are those of all ranks one after the other, `c` is `coef_ema_`.
`MPI_Bcast` gives the result of rank 0 to all ranks. -/
noncomputable def decompose (srt : (V3 → ℝ) → List V3 → List V3) (c : ℝ) (root : Box) (g : Grid) (samples : List V3) (tmp : ℕ → Box)
    (st : State) : Option State :=
  match newDomains srt root g samples tmp with
  | none => none
  | some (_, t) =>
    some ⟨false, fun i => if st.first then t i else ⟨mixV c (t i).low (st.dom i).low, mixV c (t i).high (st.dom i).high⟩⟩

end Verif.Domain
