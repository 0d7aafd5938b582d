import Verif.Model.Place
import Verif.Spec.Migrate
/-! Bodies on their ranks. -/
namespace Verif.Place
open Domain Migrate

/-- The domains tile the root domain, and every body of a rank is in the domain of that rank and knows it. -/
def Placed (c : Cfg) (s : Sys) : Prop :=
  Tiles c.root c.g.n s.dec.dom ∧ ∀ r < c.g.n, ∀ b ∈ s.P r, Box.MemHalf b.pos (s.dec.dom r) ∧ b.rank = r

/-- `b'` is `b`, displaced by box lengths along periodic axes. -/
def SameBody (pbc : Fin 3 → Bool) (low high : Fin 3 → ℝ) (b b' : Sylinder) : Prop :=
  { b' with pos := b.pos } = b ∧ ∀ k, (pbc k = true → ∃ m : ℤ, Near.comp b'.pos k = Near.comp b.pos k + m * (high k - low k)) ∧
    (pbc k = false → |Near.comp b.pos k| < Stats.largeFloat → Near.comp b'.pos k = Near.comp b.pos k)

/-- Without the fields `prepareStep` recomputes. -/
noncomputable def core (b : Sylinder) : Sylinder := { b.clear with radiusCollision := 0, lengthCollision := 0, rank := 0, colBuf := 0 }

/-- What the configuration has to be like. -/
structure Sound (c : Cfg) (pbc : Fin 3 → Bool) (low high : Fin 3 → ℝ) : Prop where
  dinfo : Stats.setDomainInfo Stats.Domain.start pbc low high = some c.d
  periodic : ∀ k, pbc k = true → low k < high k
  nx : 1 ≤ c.g.nx
  ny : 1 ≤ c.g.ny
  nz : 1 ≤ c.g.nz
  coef : 0 ≤ c.coef ∧ c.coef ≤ 1
  srt : Sorts c.srt
  target : 2 * c.g.n ≤ c.target

/-- Random numbers are in `[0, 1)`; every message arrives once. -/
def Valid (c : Cfg) (x : Exec) : Prop := (∀ r i, 0 ≤ x.u r i ∧ x.u r i < 1) ∧ Arrivals c.g.n x.ord x.ord'

end Verif.Place
