import Verif.Model.Migrate
import Verif.Model.Wrap
/-! How bodies are assigned to ranks: Sylinder/SylinderSystem.cpp `decomposeDomain` (612-615), `exchangeSylinder` (617-620, 1214-1221), the
part of `initialize` before the first step (59-74) and `prepareStep` (886-921), with FDPS/domain_info.hpp `decomposeDomainAll` (1080-1086),
`collectSampleParticle` (268-323) and the collection of the samples (734-789).  All ranks together.  Exact real numbers. -/
namespace Verif.Place
open Domain Migrate

/-- What does not change during a run: the grid of ranks, the result of `setDomainInfo`, `coef_ema_`, the number of samples
(200 times the number of ranks in the code), `std::sort`, and of the configuration what `prepareStep` uses.  `flat` is what the projection onto
a monolayer does to an orientation. -/
structure Cfg where
  g : Grid
  d : Stats.Domain
  coef : ℝ
  target : ℕ
  srt : (V3 → ℝ) → List V3 → List V3
  diameterColRatio : ℝ
  lengthColRatio : ℝ
  colBuf : ℝ
  monolayer : Bool
  monoZ : ℝ
  flat : Quat → Quat

/-- `pos_root_domain_`. -/
noncomputable def Cfg.root (c : Cfg) : Box := ⟨⟨c.d.low 0, c.d.low 1, c.d.low 2⟩, ⟨c.d.high 0, c.d.high 1, c.d.high 2⟩⟩

/-- The state: `DomainInfo` and the bodies of each rank. -/
structure Sys where
  dec : Domain.State
  P : ℕ → List Sylinder

/-- What the runtime contributes: random numbers for each rank, old content of `pos_domain_temp_`, and the orders in which messages arrive. -/
structure Exec where
  u : ℕ → ℕ → ℝ
  tmp : ℕ → Box
  ord : ℕ → List ℕ
  ord' : ℕ → List ℕ

/-- The number of bodies on the ranks below `n`. -/
def total (P : ℕ → List Sylinder) : ℕ → ℕ
  | 0 => 0
  | r + 1 => total P r + (P r).length

/-- domain_info.hpp:268-323, 747-786: `collectSampleParticle` on the ranks below `n` and the samples of these ranks in the order of the ranks. -/
noncomputable def collect (c : Cfg) (x : Exec) (P : ℕ → List Sylinder) : ℕ → Option (List V3 × (ℕ → List Sylinder))
  | 0 => some ([], P)
  | r + 1 =>
    match collect c x P r with
    | none => none
    | some (smp, Q) =>
      match getSample Sylinder.pos (x.u r) (total P c.g.n) c.target (P r) with
      | none => none
      | some (s, l) => some (smp ++ s, Function.update Q r l)

/-- domain_info.hpp:1080-1086 `decomposeDomainAll`; the arrays of samples have `target` elements. -/
noncomputable def decomposeAll (c : Cfg) (x : Exec) (s : Sys) : Option Sys :=
  match collect c x s.P c.g.n with
  | none => none
  | some (smp, Q) =>
    if c.target < smp.length then none else
      match decompose c.srt c.coef c.root c.g smp x.tmp s.dec with
      | none => none
      | some dec => some ⟨dec, Q⟩

/-- SylinderSystem.cpp:1223 `applyBoxBC` on all ranks. -/
def Wraps (c : Cfg) (P P' : ℕ → List Sylinder) : Prop := ∀ r < c.g.n, Wrap.ApplyBoxBC id c.d (P r) (P' r)

/-- SylinderSystem.cpp:612-615: `decomposeDomain` ends and leaves `s'`. -/
def DecomposeDomain (c : Cfg) (x : Exec) (s s' : Sys) : Prop :=
  ∃ P, Wraps c s.P P ∧ decomposeAll c x ⟨s.dec, P⟩ = some s'

/-- SylinderSystem.cpp:617-620: `exchangeSylinder` ends and leaves `s'`. -/
def ExchangeSylinder (c : Cfg) (x : Exec) (s s' : Sys) : Prop :=
  ∃ Q, exchange 500 Sylinder.pos c.root c.g s.dec.dom x.ord x.ord' s.P = .ok Q ∧ s'.dec = s.dec ∧
    ∀ r < c.g.n, ∃ l : List Sylinder, Q r = l.map some ∧ s'.P r = l.map fun (b : Sylinder) => { b with rank := r }

/-- SylinderSystem.cpp:898-905: the first loop of `prepareStep`. -/
noncomputable def refresh (c : Cfg) (r : ℕ) (b : Sylinder) : Sylinder :=
  { b.clear with radiusCollision := b.radius * c.diameterColRatio, lengthCollision := b.length * c.lengthColRatio, rank := r, colBuf := c.colBuf }

/-- SylinderSystem.cpp:907-918: the projection onto a monolayer. -/
noncomputable def project (c : Cfg) (b : Sylinder) : Sylinder :=
  if c.monolayer then { b with pos := ⟨b.pos.x, b.pos.y, c.monoZ⟩, orientation := c.flat b.orientation } else b

/-- SylinderSystem.cpp:886-919: `prepareStep` ends with the bodies and domains `s'`; what follows in it does not change them. -/
def PrepareStep (c : Cfg) (x : Exec) (stepCount : ℕ) (s s' : Sys) : Prop :=
  ∃ P s2 s3, Wraps c s.P P ∧ (if stepCount % 50 = 0 then DecomposeDomain c x ⟨s.dec, P⟩ s2 else s2 = ⟨s.dec, P⟩) ∧
    ExchangeSylinder c x s2 s3 ∧ s' = ⟨s3.dec, fun r => (s3.P r).map fun b => project c (refresh c r b)⟩

/-- The states after `prepareStep` in a run that starts with the bodies `P₀`: `initialize` (SylinderSystem.cpp:73-74), then steps, each with an arbitrary
movement of the bodies before it. -/
inductive Run (c : Cfg) (Valid : Exec → Prop) (P₀ : ℕ → List Sylinder) : Sys → Prop
  | start (junk x y s1 s2) : Valid x → Valid y → DecomposeDomain c x ⟨⟨true, junk⟩, P₀⟩ s1 → ExchangeSylinder c y s1 s2 → Run c Valid P₀ s2
  | step (s P x stepCount s') : Run c Valid P₀ s → (∀ r < c.g.n, (P r).length = (s.P r).length) → Valid x → PrepareStep c x stepCount ⟨s.dec, P⟩ s' →
    Run c Valid P₀ s'

end Verif.Place
