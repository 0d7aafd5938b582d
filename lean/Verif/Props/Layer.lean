import Verif.Props.Collide
import Verif.Lemmas.Layer
/-! C83, C84: bodies in a monolayer, when the grid of ranks has a single layer. -/
namespace Verif
open Domain Migrate Place

/-- C83.  Also with a projection onto a monolayer, if the grid of ranks has one layer in the direction of the projection and the plane is in the box: after `initialize`
and after every `prepareStep` the domains tile the root domain, every body is in the domain of its rank and knows it, and there are as many bodies as at the
beginning.  With more layers this is false (`C83_monolayer_false`). -/
theorem C83_layer (c : Cfg) (pbc : Fin 3 → Bool) (low high : Fin 3 → ℝ) (h : Sound c pbc low high) (hz : c.g.nz = 1)
    (hin : c.root.low.z ≤ c.monoZ ∧ c.monoZ < c.root.high.z) (P₀ : ℕ → List Sylinder) (hP : c.g.n ≤ total P₀ c.g.n) (s : Sys) (hs : Run c (Valid c) P₀ s) :
    Placed c s ∧ total s.P c.g.n = total P₀ c.g.n := by
  obtain ⟨-, h2, h3, h4⟩ := run_inv h hP hs
  refine ⟨⟨h2.tiles, fun r hr b hb => ⟨?_, (h4 r hr b hb).1⟩⟩, h3⟩
  cases hs with
  | start junk x y s1 s2 hx hy h1 h2 =>
    obtain ⟨a1, a2, a3⟩ := (decomposeDomain_spec h hx _ hP (fun h => by simp at h)).2 _ h1
    have hw := wraps_spec h a3
    obtain ⟨b1, b2⟩ := (exchangeSylinder_spec h hy s1 a2 (fun r hr => (hw r hr).2)).2 _ h2
    rw [b1]
    rw [b2 r hr] at hb
    obtain ⟨w, hw', rfl⟩ := List.mem_map.mp hb
    exact (settled_perm h hx _ a2 s1.P fun r hr => (hw r hr).2).2 r hr w hw'
  | step s P x k s' hs hl hx h1 =>
    obtain ⟨i1, i2, i3, -⟩ := run_inv h hP hs
    have ht : total P c.g.n = total s.P c.g.n := total_congr _ hl
    obtain ⟨a1, a2, W, a3, a4⟩ := (prepareStep_spec h hx k ⟨s.dec, P⟩ (by simp only; omega) i1 i2).2 _ h1
    rw [a4 r hr] at hb
    obtain ⟨w, hw', rfl⟩ := List.mem_map.mp hb
    exact project_mem a2 hz h.ny hin hr ((settled_perm h hx _ a2 W fun r hr => (a3 r hr).2).2 r hr w hw')

/-- C83.  A run of one step with nine bodies on four ranks in a monolayer meets the hypotheses; its bodies are all in the plane. -/
theorem Place.layer_run : ∃ c : Cfg, Sound c (fun _ => true) (fun _ => 0) (fun _ => 1) ∧ c.monolayer = true ∧ c.g.n = 4 ∧ c.g.nz = 1 ∧ (c.root.low.z ≤ c.monoZ ∧ c.monoZ < c.root.high.z) ∧
    c.g.n ≤ total nine c.g.n ∧ ∃ s, Run c (Valid c) nine s ∧ Placed c s ∧ ∀ r < c.g.n, ∀ b ∈ s.P r, b.pos.z = c.monoZ := by
  obtain ⟨d, hd, -, h1, -⟩ := (C56_axes (fun _ => true) (fun _ => 0) (fun _ => 1)).1 (fun _ => zero_le_one)
  obtain ⟨c, hc⟩ : ∃ c : Cfg, c = ⟨⟨2, 2, 1⟩, d, 0.5, 800, insertSort, 1.2, 1, 0.3, true, 0.5, id⟩ := ⟨_, rfl⟩
  have h : Sound c (fun _ => true) (fun _ => 0) (fun _ => 1) := by
    rw [hc]
    exact ⟨hd, fun _ _ => by norm_num, by norm_num, by norm_num, by norm_num, by norm_num, insertSort_sorts, by norm_num [Grid.n]⟩
  have hn : c.g.n = 4 := by rw [hc]; rfl
  have hz : c.g.nz = 1 := by rw [hc]
  have hin : c.root.low.z ≤ c.monoZ ∧ c.monoZ < c.root.high.z := by
    rw [hc]
    simp only [Cfg.root, (h1 2 rfl (by norm_num)).1, (h1 2 rfl (by norm_num)).2]
    norm_num
  have ht : total nine 4 = 9 := by simp [total, nine]
  refine ⟨c, h, by rw [hc], hn, hz, hin, by rw [hn, ht]; omega, ?_⟩
  obtain ⟨⟨s1, h1⟩, h2⟩ := decomposeDomain_spec h (plain_valid c) ⟨⟨true, fun _ => c.root⟩, nine⟩ (by simp only; rw [hn, ht]; omega) (fun h => by simp at h)
  obtain ⟨⟨s2, h3⟩, -⟩ := exchangeSylinder_spec h (plain_valid c) s1 (h2 s1 h1).2.1 (fun r hr => (wraps_spec h (h2 s1 h1).2.2 r hr).2)
  have hrun : Run c (Valid c) nine s2 := .start _ _ _ s1 s2 (plain_valid c) (plain_valid c) h1 h3
  obtain ⟨i1, i2, i3, -⟩ := run_inv h (by rw [hn, ht]; omega) hrun
  obtain ⟨⟨s3, h4⟩, h5⟩ := prepareStep_spec h (plain_valid c) 50 s2 (by rw [i3, hn, ht]; omega) i1 i2
  have hrun' : Run c (Valid c) nine s3 := .step s2 s2.P _ 50 s3 hrun (fun _ _ => rfl) (plain_valid c) h4
  refine ⟨s3, hrun', (C83_layer c _ _ _ h hz hin nine (by rw [hn, ht]; omega) s3 hrun').1, fun r hr b hb => ?_⟩
  obtain ⟨-, -, W, -, a4⟩ := h5 _ h4
  rw [a4 r hr] at hb
  obtain ⟨w, -, rfl⟩ := List.mem_map.mp hb
  have hm : c.monolayer = true := by rw [hc]
  simp only [project, hm, if_true]

example : ∃ c : Cfg, ∃ s, c.monolayer = true ∧ Run c (Valid c) nine s ∧ total s.P c.g.n = total nine c.g.n := by
  obtain ⟨c, h, hm, hn, hz, hin, hP, s, hs, -⟩ := layer_run
  exact ⟨c, s, hm, hs, (C83_layer c _ _ _ h hz hin nine hP s hs).2⟩

open Near Collide Tree Image Collector Spec.Near

/-- C84.  In every state of a run in which every body is on the rank that owns its place, with a monolayer (one layer of ranks) too: whatever was done to the bodies since
`prepareStep`, apart from moving them, the contacts are those of `C84_pairs_partial`. -/
theorem C84_layer_partial (c : Cfg) (pbc : Fin 3 → Bool) (low high : Fin 3 → ℝ) (h : Sound c pbc low high) (hz : c.g.nz = 1)
    (hin : c.root.low.z ≤ c.monoZ ∧ c.monoZ < c.root.high.z) (P₀ : ℕ → List Sylinder)
    (hP : c.g.n ≤ total P₀ c.g.n) (s : Sys) (hs : Run c (Place.Valid c) P₀ s) (S : ℕ → List Sylinder)
    (hpos : ∀ r < c.g.n, (S r).map Sylinder.pos = (s.P r).map Sylinder.pos) (hv : ∀ r < c.g.n, ∀ x ∈ S r, Body x) (F : Force.Config)
    (hF : Limits F c S) (X : ℕ → Force.RankExec EP) (hX : ∀ r < c.g.n, (X r).Valid F ((S r).map toEp)) :
    ∃ N, ∀ fuel, N ≤ fuel → ∀ b < c.g.n, ∀ (thr : ℕ → ℕ) (pool : Pool), (∀ i, thr i < pool.length) →
      ∃ pool', collectPairCollision F (dinfo c s.dec.dom) S X thr b fuel pool = some pool' ∧ ∃ (L : List (ℕ × ℕ × ℕ × Idx)) (blocks : List Block),
        pool'.flatten.Perm (pool.flatten ++ blocks) ∧ L.Nodup ∧
        List.Forall₂ (fun p blk => ∃ x y, (S b)[p.1]? = some x ∧ imageAt c S p.2 = some y ∧ IsImage c p.2 ∧ x.gid < y.gid ∧
          ContactOf (EP.copyFromFP x) y blk ∧
          ((¬ Sphere (EP.copyFromFP x) ∧ ¬ Sphere y → QueryExact (EP.copyFromFP x) y) → Separation (EP.copyFromFP x) y blk.delta0)) L blocks ∧
        ∀ i o x y, (S b)[i]? = some x → imageAt c S o = some y → IsImage c o → x.gid < y.gid →
          (¬ Sphere (EP.copyFromFP x) ∧ ¬ Sphere y → QueryExact (EP.copyFromFP x) y) → ((i, o) ∈ L ↔ Close (EP.copyFromFP x) y) := by
  obtain ⟨⟨h1, h2⟩, -⟩ := C83_layer c pbc low high h hz hin P₀ hP s hs
  refine C84_pairs_partial c pbc low high h s.dec.dom h1 S (fun r hr x hx => ?_) hv F hF X hX
  have : x.pos ∈ (s.P r).map Sylinder.pos := by rw [← hpos r hr]; exact List.mem_map.mpr ⟨x, hx, rfl⟩
  obtain ⟨y, hy, e⟩ := List.mem_map.mp this
  rw [← e]
  exact (h2 r hr y hy).1

/-- The hypotheses are met in a state of a run with spheres in a monolayer. -/
example : ∃ (c : Cfg) (s : Sys) (S : ℕ → List Sylinder) (F : Force.Config) (X : ℕ → Force.RankExec EP) (fuel : ℕ) (pool' : Pool), c.monolayer = true ∧
    Run c (Place.Valid c) nine s ∧ (∀ r < c.g.n, (S r).map Sylinder.pos = (s.P r).map Sylinder.pos) ∧
    collectPairCollision F (dinfo c s.dec.dom) S X (fun i => i % 2) 0 fuel [[], []] = some pool' := by
  obtain ⟨c, h, hm, hn, hz, hin, hP, s, hs, -⟩ := layer_run
  have hlow : ∀ k, c.d.low k = 0 := fun k => (h.extent.2.2.1 k rfl).1
  have hhigh : ∀ k, c.d.high k = 1 := fun k => (h.extent.2.2.1 k rfl).2
  obtain ⟨S, hS⟩ : ∃ S : ℕ → List Sylinder, S = fun r => (s.P r).map fun b => Sylinder.make b.gid 0.3 0.3 0 0 b.pos := ⟨_, rfl⟩
  have key : ∀ r, ∀ x ∈ S r, Body x ∧ (EP.copyFromFP x).getRSearch = 0.6 := by
    intro r x hx
    rw [hS] at hx
    obtain ⟨b, -, rfl⟩ := List.mem_map.mp hx
    refine ⟨⟨⟨?_, ?_, ?_⟩, ?_, ?_, ?_, fun _ => Or.inr ?_⟩, ?_⟩
    · norm_num [EP.copyFromFP, Sylinder.make]
    · norm_num [EP.copyFromFP, Sylinder.make]
    · norm_num [EP.copyFromFP, Sylinder.make, Quat.rot, Quat.vec, V3.norm, V3.normSq, V3.dot, V3.cross]
    · norm_num [Sylinder.make]
    · norm_num [Sylinder.make]
    · norm_num [Sylinder.make]
    · norm_num [EP.copyFromFP, Sylinder.make]
    · norm_num [EP.copyFromFP, Sylinder.make, EP.getRSearch]
  have hpos : ∀ r < c.g.n, (S r).map Sylinder.pos = (s.P r).map Sylinder.pos := by
    intro r _
    rw [hS, List.map_map]
    rfl
  obtain ⟨N, hN⟩ := C84_layer_partial c _ _ _ h hz hin nine hP s hs S hpos (fun r _ x hx => (key r x hx).1) ⟨100, 1, 2, 3⟩
    ⟨le_rfl, by norm_num, by norm_num, fun k _ => by rw [hlow, hhigh]; norm_num, fun _ r _ x hx => by
      rw [(key r x hx).2, hlow, hhigh]; norm_num⟩
    (fun r => Force.plainExec 3 ((S r).map toEp)) (fun r _ => Force.plainExec_valid (c := ⟨100, 1, 2, 3⟩) (by norm_num) _)
  obtain ⟨pool', e, -⟩ := hN N le_rfl 0 (by rw [hn]; norm_num) (fun i => i % 2) [[], []] (fun i => Nat.mod_lt i (by norm_num))
  exact ⟨c, s, S, _, _, N, pool', hm, hs, hpos, e⟩

end Verif
