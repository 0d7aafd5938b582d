import Verif.Lemmas.Place
/-! C83: bodies stay on the ranks that own their places. -/
namespace Verif
open Domain Migrate Place

theorem Place.run_inv {c : Cfg} {pbc : Fin 3 → Bool} {low high : Fin 3 → ℝ} (h : Sound c pbc low high) {P₀ : ℕ → List Sylinder}
    (hP : c.g.n ≤ total P₀ c.g.n) {s : Sys} (hs : Run c (Valid c) P₀ s) : s.dec.first = false ∧ IsGrid c.root c.g s.dec.dom ∧
      total s.P c.g.n = total P₀ c.g.n ∧ ∀ r < c.g.n, ∀ b ∈ s.P r, b.rank = r ∧ (c.monolayer = false → Box.MemHalf b.pos (s.dec.dom r)) := by
  have htot : ∀ {x : Exec} (_ : Valid c x) (dom : ℕ → Box), IsGrid c.root c.g dom → ∀ P Q W : ℕ → List Sylinder,
      (∀ r < c.g.n, (P r).length = (W r).length ∧ ∀ b ∈ W r, Box.MemHalf b.pos c.root) →
      (∀ r < c.g.n, (Q r).length = (settled Sylinder.pos dom c.g.n W r).length) → total Q c.g.n = total P c.g.n := by
    intro x hx dom hd P Q W h1 h2
    rw [total_congr _ h2, total_flatMap, (settled_perm h hx dom hd W fun r hr => (h1 r hr).2).1.length_eq, ← total_flatMap]
    exact total_congr _ fun r hr => (h1 r hr).1.symm
  induction hs with
  | start junk x y s1 s2 hx hy h1 h2 =>
    obtain ⟨a1, a2, a3⟩ := (decomposeDomain_spec h hx _ hP (fun h => by simp at h)).2 _ h1
    have hw := wraps_spec h a3
    obtain ⟨b1, b2⟩ := (exchangeSylinder_spec h hy s1 a2 (fun r hr => (hw r hr).2)).2 _ h2
    rw [b1]
    refine ⟨a1, a2, ?_, fun r hr b hb => ?_⟩
    · exact htot hx _ a2 P₀ s2.P s1.P (fun r hr => ⟨(hw r hr).1.length_eq, (hw r hr).2⟩) (fun r hr => by rw [b2 r hr, List.length_map])
    · rw [b2 r hr] at hb
      obtain ⟨w, hw', rfl⟩ := List.mem_map.mp hb
      exact ⟨rfl, fun _ => (settled_perm h hx _ a2 s1.P fun r hr => (hw r hr).2).2 r hr w hw'⟩
  | step s P x k s' hs hl hx h1 ih =>
    obtain ⟨i1, i2, i3, -⟩ := ih
    have ht : total P c.g.n = total s.P c.g.n := total_congr _ hl
    obtain ⟨a1, a2, W, a3, a4⟩ := (prepareStep_spec h hx k ⟨s.dec, P⟩ (by simp only; omega) i1 i2).2 _ h1
    refine ⟨a1, a2, ?_, fun r hr b hb => ?_⟩
    · rw [← i3, ← ht]
      exact htot hx _ a2 P s'.P W (fun r hr => ⟨(a3 r hr).1.length_eq, (a3 r hr).2⟩) (fun r hr => by rw [a4 r hr, List.length_map])
    · rw [a4 r hr] at hb
      obtain ⟨w, hw', rfl⟩ := List.mem_map.mp hb
      refine ⟨?_, fun hm => ?_⟩
      · unfold project
        split_ifs <;> rfl
      · have := (settled_perm h hx _ a2 W fun r hr => (a3 r hr).2).2 r hr w hw'
        unfold project
        rw [hm]
        exact this

/-- An execution. -/
noncomputable def Place.plain (c : Cfg) : Exec := ⟨fun _ _ => 0, fun _ => c.root, fun _ => List.range' 1 (c.g.n - 1), fun _ => List.range c.g.n⟩

theorem Place.plain_valid (c : Cfg) : Valid c (plain c) := ⟨fun _ _ => by simp [plain], fun _ _ => ⟨List.Perm.refl _, List.Perm.refl _⟩⟩

/-- A periodic unit cube. -/
theorem Place.cube (m : Bool) (g : Grid) (hg : 1 ≤ g.nx ∧ 1 ≤ g.ny ∧ 1 ≤ g.nz) : ∃ c : Cfg, Sound c (fun _ => true) (fun _ => 0) (fun _ => 1) ∧ c.g = g ∧
    c.monolayer = m ∧ c.root = unitBox := by
  obtain ⟨d, hd, -, h1, -⟩ := (C56_axes (fun _ => true) (fun _ => 0) (fun _ => 1)).1 (fun _ => zero_le_one)
  refine ⟨⟨g, d, 0.5, 200 * g.n, insertSort, 1.2, 1, 0.3, m, 0.5, id⟩, ⟨hd, fun _ _ => by norm_num, hg.1, hg.2.1, hg.2.2, by norm_num,
    insertSort_sorts, by simp only; omega⟩, rfl, rfl, ?_⟩
  unfold Cfg.root unitBox
  simp only [(h1 0 rfl (by norm_num)).1, (h1 1 rfl (by norm_num)).1, (h1 2 rfl (by norm_num)).1, (h1 0 rfl (by norm_num)).2, (h1 1 rfl (by norm_num)).2,
    (h1 2 rfl (by norm_num)).2]

/-- Eight ranks. -/
theorem Place.eight (m : Bool) : ∃ c : Cfg, Sound c (fun _ => true) (fun _ => 0) (fun _ => 1) ∧ c.g = ⟨2, 2, 2⟩ ∧ c.monolayer = m ∧ c.root = unitBox :=
  cube m ⟨2, 2, 2⟩ (by simp)

/-- All bodies on rank 0, some outside the box. -/
noncomputable def Place.nine : ℕ → List Sylinder := fun r => if r = 0 then (List.range 9).map fun i => Sylinder.make i 0.1 0.1 0.2 0.2 ⟨0.3 * (i + 1), 0.5, 0.25⟩ else []

/-- The hypotheses of C83 hold for a run of one step with nine bodies on eight ranks. -/
example : ∃ c : Cfg, Sound c (fun _ => true) (fun _ => 0) (fun _ => 1) ∧ c.monolayer = false ∧ c.g.n = 8 ∧ c.g.n ≤ total nine c.g.n ∧ ∃ s, Run c (Valid c) nine s := by
  obtain ⟨c, h, hg, hm, -⟩ := eight false
  have hn : c.g.n = 8 := by rw [hg]; rfl
  have ht : total nine 8 = 9 := by simp [total, nine]
  refine ⟨c, h, hm, hn, by rw [hn, ht]; omega, ?_⟩
  obtain ⟨⟨s1, h1⟩, h2⟩ := decomposeDomain_spec h (plain_valid c) ⟨⟨true, fun _ => c.root⟩, nine⟩ (by simp only; rw [hn, ht]; omega) (fun h => by simp at h)
  obtain ⟨⟨s2, h3⟩, -⟩ := exchangeSylinder_spec h (plain_valid c) s1 (h2 s1 h1).2.1 (fun r hr => (wraps_spec h (h2 s1 h1).2.2 r hr).2)
  have hrun : Run c (Valid c) nine s2 := .start _ _ _ s1 s2 (plain_valid c) (plain_valid c) h1 h3
  obtain ⟨i1, i2, i3, -⟩ := run_inv h (by rw [hn, ht]; omega) hrun
  obtain ⟨⟨s3, h4⟩, -⟩ := prepareStep_spec h (plain_valid c) 50 s2 (by rw [i3, hn, ht]; omega) i1 i2
  exact ⟨s3, .step s2 s2.P _ 50 s3 hrun (fun _ _ => rfl) (plain_valid c) h4⟩

/-- C83.  In every run that starts with at least as many bodies as ranks, however the bodies move between the steps (as long as
`prepareStep` does not project them): after `initialize` and after every `prepareStep` the domains tile the root domain, every body is in the
domain of its rank and knows it, and there are as many bodies as at the beginning. -/
theorem C83_placed (c : Cfg) (pbc : Fin 3 → Bool) (low high : Fin 3 → ℝ) (h : Sound c pbc low high) (hm : c.monolayer = false)
    (P₀ : ℕ → List Sylinder) (hP : c.g.n ≤ total P₀ c.g.n) (s : Sys) (hs : Run c (Valid c) P₀ s) :
    Placed c s ∧ total s.P c.g.n = total P₀ c.g.n := by
  obtain ⟨-, h2, h3, h4⟩ := run_inv h hP hs
  exact ⟨⟨h2.tiles, fun r hr b hb => ⟨(h4 r hr b hb).2 hm, (h4 r hr b hb).1⟩⟩, h3⟩

/-- C83.  The run cannot get stuck, also with a projection onto a monolayer: `initialize` ends, and whatever state has been reached, however the
bodies moved, whatever the number of the step, the next `prepareStep` ends. -/
theorem C83_progress (c : Cfg) (pbc : Fin 3 → Bool) (low high : Fin 3 → ℝ) (h : Sound c pbc low high)
    (P₀ : ℕ → List Sylinder) (hP : c.g.n ≤ total P₀ c.g.n) :
    (∀ junk x y, Valid c x → Valid c y → ∃ s1 s2, DecomposeDomain c x ⟨⟨true, junk⟩, P₀⟩ s1 ∧ ExchangeSylinder c y s1 s2) ∧
    ∀ s, Run c (Valid c) P₀ s → ∀ P : ℕ → List Sylinder, (∀ r < c.g.n, (P r).length = (s.P r).length) → ∀ x k, Valid c x →
      ∃ s', PrepareStep c x k ⟨s.dec, P⟩ s' := by
  refine ⟨fun junk x y hx hy => ?_, fun s hs P hl x k hx => ?_⟩
  · obtain ⟨⟨s1, h1⟩, h2⟩ := decomposeDomain_spec h hx ⟨⟨true, junk⟩, P₀⟩ hP (fun h => by simp at h)
    obtain ⟨-, a2, a3⟩ := h2 s1 h1
    obtain ⟨⟨s2, h3⟩, -⟩ := exchangeSylinder_spec h hy s1 a2 (fun r hr => (wraps_spec h a3 r hr).2)
    exact ⟨s1, s2, h1, h3⟩
  · obtain ⟨i1, i2, i3, -⟩ := run_inv h hP hs
    have ht : total P c.g.n = total s.P c.g.n := total_congr _ hl
    exact (prepareStep_spec h hx k ⟨s.dec, P⟩ (by simp only; omega) i1 i2).1

/-- C83.  A `prepareStep` only moves bodies between ranks and by box lengths along periodic axes, apart from the fields it recomputes, which get the
values for the new step. -/
theorem C83_bodies (c : Cfg) (pbc : Fin 3 → Bool) (low high : Fin 3 → ℝ) (h : Sound c pbc low high) (hm : c.monolayer = false)
    (P₀ : ℕ → List Sylinder) (hP : c.g.n ≤ total P₀ c.g.n) (s : Sys) (hs : Run c (Valid c) P₀ s) (P : ℕ → List Sylinder)
    (hl : ∀ r < c.g.n, (P r).length = (s.P r).length) (x : Exec) (hx : Valid c x) (k : ℕ) (s' : Sys) (hk : PrepareStep c x k ⟨s.dec, P⟩ s') :
    (∃ W, List.Forall₂ (SameBody pbc low high) ((List.range c.g.n).flatMap P) W ∧ (((List.range c.g.n).flatMap s'.P).map core).Perm (W.map core)) ∧
    ∀ r < c.g.n, ∀ b ∈ s'.P r, b.radiusCollision = b.radius * c.diameterColRatio ∧ b.lengthCollision = b.length * c.lengthColRatio ∧ b.colBuf = c.colBuf ∧
      b.vel = 0 ∧ b.force = 0 ∧ b.globalIndex = geoInvalidIndex := by
  obtain ⟨i1, i2, i3, -⟩ := run_inv h hP hs
  have ht : total P c.g.n = total s.P c.g.n := total_congr _ hl
  obtain ⟨-, a2, W, a3, a4⟩ := (prepareStep_spec h hx k ⟨s.dec, P⟩ (by simp only; omega) i1 i2).2 _ hk
  have hproj : ∀ b, project c b = b := fun b => by simp [project, hm]
  refine ⟨⟨(List.range c.g.n).flatMap W, forall₂_flatMap _ fun r hr => (a3 r hr).1, ?_⟩, fun r hr b hb => ?_⟩
  · have hp := (settled_perm h hx _ a2 W fun r hr => (a3 r hr).2).1.map core
    refine List.Perm.trans (List.Perm.of_eq ?_) hp
    rw [List.map_flatMap, List.map_flatMap]
    refine flatMap_congr' fun r hr => ?_
    rw [a4 r (by simpa using hr), List.map_map]
    refine List.map_congr_left fun b _ => ?_
    simp only [Function.comp, hproj]
    exact core_refresh c r b
  · rw [a4 r hr] at hb
    obtain ⟨w, -, rfl⟩ := List.mem_map.mp hb
    rw [hproj]
    exact ⟨rfl, rfl, rfl, rfl, rfl, rfl⟩

theorem Place.samePos {c : Cfg} {pbc : Fin 3 → Bool} {low high : Fin 3 → ℝ} (h : Sound c pbc low high) {b b' : Sylinder} (hb : SameBody pbc low high b b')
    (h1 : Inside b.pos c.root) (h2 : Box.MemHalf b'.pos c.root) : b'.pos = b.pos := by
  obtain ⟨e1, e2, e3, e4⟩ := h.extent
  have hk : ∀ k, Near.comp b'.pos k = Near.comp b.pos k := by
    intro k
    have hin : c.d.low k < Near.comp b.pos k ∧ Near.comp b.pos k < c.d.high k := by
      obtain ⟨q1, q2, q3⟩ := h1
      simp only [Cfg.root] at q1 q2 q3
      fin_cases k
      · exact q1
      · exact q2
      · exact q3
    have hin' : c.d.low k ≤ Near.comp b'.pos k ∧ Near.comp b'.pos k < c.d.high k := by
      obtain ⟨q1, q2, q3⟩ := h2
      simp only [Cfg.root] at q1 q2 q3
      fin_cases k
      · exact q1
      · exact q2
      · exact q3
    cases hp : pbc k with
    | true =>
      obtain ⟨m, hm⟩ := (hb.2 k).1 hp
      obtain ⟨l1, l2⟩ := e3 k hp
      rw [l1, l2] at hin hin'
      have hlt := h.periodic k hp
      have : m = 0 := by
        have a1 : (m : ℝ) < 1 := by
          by_contra hc
          push Not at hc
          nlinarith
        have a2 : (-1 : ℝ) < m := by
          by_contra hc
          push Not at hc
          nlinarith
        have a1' : m < 1 := by exact_mod_cast a1
        have a2' : -1 < m := by exact_mod_cast a2
        omega
      rw [hm, this]
      simp
    | false =>
      obtain ⟨l1, l2⟩ := e4 k hp
      rw [l1, l2] at hin
      exact (hb.2 k).2 hp (abs_lt.mpr hin)
  have k0 := hk 0
  have k1 := hk 1
  have k2 := hk 2
  simp only [Near.comp] at k0 k1 k2
  ext
  · simpa using k0
  · simpa using k1
  · simpa using k2

/-- C83 is false with a projection onto a monolayer, as soon as there are two layers of domains: `prepareStep` projects after it has
distributed the bodies.  Wherever the bodies are at the beginning (inside the root domain), and wherever the monolayer is: there is a run in
which a body ends up outside the domain of its rank. -/
theorem C83_monolayer_false (c : Cfg) (pbc : Fin 3 → Bool) (low high : Fin 3 → ℝ) (h : Sound c pbc low high) (hm : c.monolayer = true)
    (hz : 2 ≤ c.g.nz) (P₀ : ℕ → List Sylinder) (hP : c.g.n ≤ total P₀ c.g.n) (hin : ∀ r < c.g.n, ∀ b ∈ P₀ r, Inside b.pos c.root) :
    ∃ s, Run c (Valid c) P₀ s ∧ ∃ r < c.g.n, ∃ b ∈ s.P r, ¬ Box.MemHalf b.pos (s.dec.dom r) := by
  have hn : c.g.nz ≤ c.g.n := by
    have := Nat.mul_le_mul_right c.g.nz (Nat.mul_pos h.nx h.ny)
    unfold Grid.n
    omega
  -- the domains after `initialize`
  obtain ⟨⟨s1, h1⟩, h2⟩ := decomposeDomain_spec h (plain_valid c) ⟨⟨true, fun _ => c.root⟩, P₀⟩ hP (fun h => by simp at h)
  obtain ⟨-, a2, a3⟩ := h2 s1 h1
  have hw := wraps_spec h a3
  obtain ⟨⟨s2, h3⟩, h4⟩ := exchangeSylinder_spec h (plain_valid c) s1 a2 (fun r hr => (hw r hr).2)
  have hrun : Run c (Valid c) P₀ s2 := .start _ _ _ s1 s2 (plain_valid c) (plain_valid c) h1 h3
  obtain ⟨b1, -⟩ := h4 s2 h3
  obtain ⟨i1, i2, i3, -⟩ := run_inv h hP hrun
  -- every domain has a sample
  have hsample : ∀ i < c.g.n, ∃ p, Inside p c.root ∧ Box.Mem p (s2.dec.dom i) := by
    classical
    obtain ⟨P, hwP, e⟩ := h1
    obtain ⟨smp, e1, -, k2, k3⟩ := collect_spec h (plain_valid c) P (by rw [← wraps_total h hwP]; exact hP)
    have k4 : ∀ p ∈ smp, Inside p c.root := by
      intro p hp
      obtain ⟨r, hr, b, hb, rfl⟩ := k3 p hp
      obtain ⟨q1, q2⟩ := wraps_spec h hwP r hr
      obtain ⟨i, hi, rfl⟩ := List.mem_iff_getElem.mp hb
      obtain ⟨ql, qg⟩ := List.forall₂_iff_get.mp q1
      have := qg i (by omega) hi
      simp only [List.get_eq_getElem] at this
      rw [samePos h this (hin r hr _ (List.getElem_mem _)) (q2 _ hb)]
      exact hin r hr _ (List.getElem_mem _)
    obtain ⟨dom, e2, hb⟩ := C80_balance c.srt h.srt c.coef c.root c.g h.nx h.ny h.nz smp k2 (fun p hp => by
      obtain ⟨⟨_, _⟩, ⟨_, _⟩, ⟨_, _⟩⟩ := k4 p hp
      exact ⟨⟨by linarith, by linarith⟩, ⟨by linarith, by linarith⟩, ⟨by linarith, by linarith⟩⟩) (plain c).tmp (fun _ => c.root)
    unfold decomposeAll at e
    simp only at e
    rw [e1] at e
    simp only at e
    split_ifs at e with hc
    rw [e2] at e
    simp only [Option.some.injEq] at e
    intro i hi
    have hcnt := (hb i hi).1
    have hpos : 0 < smp.length / c.g.n := Nat.div_pos k2 (by omega)
    obtain ⟨p, hp, hp'⟩ := List.countP_pos_iff.mp (lt_of_lt_of_le hpos hcnt)
    refine ⟨p, k4 p hp, ?_⟩
    rw [b1, ← e]
    simpa using hp'
  -- the bottom and the top domain of the first column
  obtain ⟨X, Y, Z, hX, hY, hZ, hd⟩ := id i2
  obtain ⟨hY0, -, -⟩ := hY 0 h.nx
  obtain ⟨hZ0, hZ1, hZm⟩ := hZ 0 h.nx 0 h.ny
  have d0 := hd 0 h.nx 0 h.ny 0 h.nz
  have d1 := hd 0 h.nx 0 h.ny (c.g.nz - 1) (by omega)
  have hnz : c.g.nz - 1 + 1 = c.g.nz := by omega
  simp only [Nat.zero_mul, Nat.zero_add, hnz] at d0 d1
  have hZle : Z 0 0 1 ≤ Z 0 0 (c.g.nz - 1) := by
    have : ∀ m, 1 + m ≤ c.g.nz → Z 0 0 1 ≤ Z 0 0 (1 + m) := by
      intro m
      induction m with
      | zero => intro _; exact le_rfl
      | succ m ih => intro hm; exact (ih (by omega)).trans (hZm (1 + m) (by omega))
    have := this (c.g.nz - 2) (by omega)
    rwa [show 1 + (c.g.nz - 2) = c.g.nz - 1 by omega] at this
  have hgood : ∀ t, t = 0 ∨ t = c.g.nz - 1 → t < c.g.n ∧ ∃ q, Inside q c.root ∧ Box.MemHalf q (s2.dec.dom t) := by
    obtain ⟨p, p1, p2⟩ := hsample 0 (by omega)
    obtain ⟨p', p1', p2'⟩ := hsample (c.g.nz - 1) (by omega)
    rw [d0] at p2
    rw [d1] at p2'
    obtain ⟨⟨u1, u2⟩, ⟨u3, u4⟩, ⟨u5, u6⟩⟩ := p1
    obtain ⟨⟨v1, v2⟩, ⟨v3, v4⟩, ⟨v5, v6⟩⟩ := p2
    obtain ⟨⟨u1', u2'⟩, ⟨u3', u4'⟩, ⟨u5', u6'⟩⟩ := p1'
    obtain ⟨⟨v1', v2'⟩, ⟨v3', v4'⟩, ⟨v5', v6'⟩⟩ := p2'
    simp only at v1 v2 v3 v4 v5 v6 v1' v2' v3' v4' v5' v6'
    rw [hX.1] at v1 v1'
    rw [hY0] at v3 v3'
    rw [hZ0] at v5
    rw [hZ1] at v6'
    rintro t (rfl | rfl)
    · refine ⟨by omega, ⟨(c.root.low.x + p.x) / 2, (c.root.low.y + p.y) / 2, (c.root.low.z + p.z) / 2⟩, ⟨⟨?_, ?_⟩, ⟨?_, ?_⟩, ⟨?_, ?_⟩⟩, ?_⟩
      any_goals simp only; linarith
      rw [d0]
      refine ⟨⟨?_, ?_⟩, ⟨?_, ?_⟩, ⟨?_, ?_⟩⟩ <;> simp only [hX.1, hY0, hZ0] <;> linarith
    · refine ⟨by omega, ⟨(c.root.low.x + p'.x) / 2, (c.root.low.y + p'.y) / 2, p'.z⟩, ⟨⟨?_, ?_⟩, ⟨?_, ?_⟩, ⟨?_, ?_⟩⟩, ?_⟩
      any_goals simp only; linarith
      rw [d1]
      refine ⟨⟨?_, ?_⟩, ⟨?_, ?_⟩, ⟨?_, ?_⟩⟩ <;> simp only [hX.1, hY0, hZ1] <;> linarith
  -- all bodies move into one of them
  by_contra hcon
  push Not at hcon
  have key : ∀ t, t = 0 ∨ t = c.g.nz - 1 → (s2.dec.dom t).low.z ≤ c.monoZ ∧ c.monoZ < (s2.dec.dom t).high.z := by
    intro t ht
    obtain ⟨htn, q, q1, q2⟩ := hgood t ht
    obtain ⟨P, hPd⟩ : ∃ P : ℕ → List Sylinder, P = fun r => (s2.P r).map fun b => { b with pos := q } := ⟨_, rfl⟩
    have hl : ∀ r < c.g.n, (P r).length = (s2.P r).length := fun r _ => by rw [hPd]; simp
    obtain ⟨s3, h5⟩ := (C83_progress c pbc low high h P₀ hP).2 s2 hrun P hl (plain c) 1 (plain_valid c)
    have hrun3 : Run c (Valid c) P₀ s3 := .step s2 P _ 1 s3 hrun hl (plain_valid c) h5
    have hdec : s3.dec = s2.dec := by
      obtain ⟨P', t2, t3, -, y2, ⟨_, -, y3, -⟩, rfl⟩ := h5
      simp only [show ¬ (1 % 50 = 0) by norm_num, if_false] at y2
      simp only [y3, y2]
    have ht' : total P c.g.n = total s2.P c.g.n := total_congr _ hl
    obtain ⟨-, g2, W, g3, g4⟩ := (prepareStep_spec h (plain_valid c) 1 ⟨s2.dec, P⟩ (by simp only; omega) i1 i2).2 _ h5
    obtain ⟨-, -, j3, -⟩ := run_inv h hP hrun3
    have hne : ∃ r < c.g.n, ∃ b, b ∈ s3.P r := by
      by_contra hno
      push Not at hno
      have : total s3.P c.g.n = 0 := by
        rw [total_flatMap, List.length_eq_zero_iff, List.flatMap_eq_nil_iff]
        exact fun r hr => List.eq_nil_iff_forall_not_mem.mpr (hno r (by simpa using hr))
      omega
    obtain ⟨r, hr, b, hb⟩ := hne
    have hbm := hcon s3 hrun3 r hr b hb
    rw [g4 r hr] at hb
    obtain ⟨w, hw1, rfl⟩ := List.mem_map.mp hb
    obtain ⟨sp1, sp2⟩ := settled_perm h (plain_valid c) _ g2 W fun r hr => (g3 r hr).2
    have hwd := sp2 r hr w hw1
    have hwW : w ∈ (List.range c.g.n).flatMap W := sp1.mem_iff.mp (List.mem_flatMap.mpr ⟨r, by simpa using hr, hw1⟩)
    obtain ⟨a, ha, hwa⟩ := List.mem_flatMap.mp hwW
    have ha' : a < c.g.n := by simpa using ha
    have hwq : w.pos = q := by
      obtain ⟨i, hi, rfl⟩ := List.mem_iff_getElem.mp hwa
      obtain ⟨ql, qg⟩ := List.forall₂_iff_get.mp (g3 a ha').1
      simp only at ql qg
      have := qg i (by omega) hi
      simp only [List.get_eq_getElem] at this
      have hpq : ((P a)[i]'(by omega)).pos = q := by simp [hPd]
      rw [samePos h this (by rw [hpq]; exact q1) ((g3 a ha').2 _ hwa), hpq]
    rw [hwq, hdec] at hwd
    have hrt : r = t := by
      obtain ⟨u, -, hu⟩ := i2.tiles.2 q (by obtain ⟨⟨_, _⟩, ⟨_, _⟩, ⟨_, _⟩⟩ := q1; exact ⟨⟨by linarith, by linarith⟩, ⟨by linarith, by linarith⟩, ⟨by linarith, by linarith⟩⟩)
      rw [hu r ⟨hr, hwd⟩, hu t ⟨htn, q2⟩]
    rw [hdec, hrt] at hbm
    have hzz : ∀ b, (project c b).pos.z = c.monoZ := fun b => by simp [project, hm]
    obtain ⟨-, -, o1, o2⟩ := hbm
    rw [hzz] at o1 o2
    exact ⟨o1, o2⟩
  have c0 := key 0 (Or.inl rfl)
  have c1 := key _ (Or.inr rfl)
  rw [d0] at c0
  rw [d1] at c1
  simp only at c0 c1
  linarith [c0.2, c1.1]

/-- Eight ranks, a body on each. -/
example : ∃ (c : Cfg) (s : Sys), ∃ r < 8, ∃ b ∈ s.P r, Run c (Valid c) (fun _ => [Sylinder.make 1 0.1 0.1 0.2 0.2 ⟨0.5, 0.5, 0.5⟩]) s ∧ ¬ Box.MemHalf b.pos (s.dec.dom r) := by
  obtain ⟨c, h, hg, hm, hr⟩ := eight true
  have hn : c.g.n = 8 := by rw [hg]; rfl
  obtain ⟨s, h1, r, hr, b, hb, h2⟩ := C83_monolayer_false c _ _ _ h hm (by rw [hg]) (fun _ => [Sylinder.make 1 0.1 0.1 0.2 0.2 ⟨0.5, 0.5, 0.5⟩]) (by
    rw [hn]; simp [total]) (by
      intro r _ b hb
      simp only [List.mem_singleton] at hb
      subst hb
      rw [hr]
      norm_num [Inside, unitBox, Sylinder.make])
  exact ⟨c, s, r, by rw [hn] at hr; exact hr, b, hb, h1, h2⟩

/-- Eight ranks do get two layers of domains. -/
example : setNumberOfDomain 8 0 = some ([2, 2, 2], [0, 0, 0]) := by
  have g : ∀ (x p a : ℝ) (hx : 1 ≤ x) (h2 : (2:ℝ) ≤ x ^ p) (h3 : x ^ p < 3), ⌊x ^ p⌋₊ = 2 := by
    intro x p a _ h2 h3
    rw [Nat.floor_eq_iff (by linarith)]
    exact ⟨by exact_mod_cast h2, by push_cast; linarith⟩
  have e1 : firstGuess 8 3 = 2 := by
    unfold firstGuess
    refine g _ _ 0 (by norm_num) ?_ ?_
    · calc (2:ℝ) = (8:ℝ) ^ ((1:ℝ) / 3) := by
            rw [show (8:ℝ) = 2 ^ (3:ℝ) by norm_num, ← Real.rpow_mul (by norm_num)]; norm_num
        _ ≤ (((8:ℕ):ℝ) + 0.000001) ^ ((1:ℝ) / 3) := Real.rpow_le_rpow (by norm_num) (by norm_num) (by norm_num)
        _ ≤ _ := Real.rpow_le_rpow_of_exponent_le (by norm_num) (by norm_num)
    · calc (((8:ℕ):ℝ) + 0.000001) ^ ((1.0 / ((3:ℕ) : ℝ)) * 1.000001) ≤ (((8:ℕ):ℝ) + 0.000001) ^ ((1:ℝ) / 2) :=
            Real.rpow_le_rpow_of_exponent_le (by norm_num) (by norm_num)
        _ < (9:ℝ) ^ ((1:ℝ) / 2) := Real.rpow_lt_rpow (by norm_num) (by norm_num) (by norm_num)
        _ = 3 := by rw [show (9:ℝ) = 3 ^ (2:ℝ) by norm_num, ← Real.rpow_mul (by norm_num)]; norm_num
  have e2 : firstGuess 4 2 = 2 := by
    unfold firstGuess
    refine g _ _ 0 (by norm_num) ?_ ?_
    · calc (2:ℝ) = (4:ℝ) ^ ((1:ℝ) / 2) := by
            rw [show (4:ℝ) = 2 ^ (2:ℝ) by norm_num, ← Real.rpow_mul (by norm_num)]; norm_num
        _ ≤ (((4:ℕ):ℝ) + 0.000001) ^ ((1:ℝ) / 2) := Real.rpow_le_rpow (by norm_num) (by norm_num) (by norm_num)
        _ ≤ _ := Real.rpow_le_rpow_of_exponent_le (by norm_num) (by norm_num)
    · calc (((4:ℕ):ℝ) + 0.000001) ^ ((1.0 / ((2:ℕ) : ℝ)) * 1.000001) ≤ (((4:ℕ):ℝ) + 0.000001) ^ ((3:ℝ) / 5) :=
            Real.rpow_le_rpow_of_exponent_le (by norm_num) (by norm_num)
        _ < ((3:ℝ) ^ ((5:ℝ) / 3)) ^ ((3:ℝ) / 5) := by
            refine Real.rpow_lt_rpow (by norm_num) ?_ (by norm_num)
            calc ((4:ℕ):ℝ) + 0.000001 < (3:ℝ) ^ ((4:ℝ) / 3) := by
                  refine lt_of_pow_lt_pow_left₀ 3 (by positivity) ?_
                  rw [← Real.rpow_natCast ((3:ℝ) ^ ((4:ℝ) / 3)), ← Real.rpow_mul (by norm_num)]
                  norm_num
              _ ≤ _ := Real.rpow_le_rpow_of_exponent_le (by norm_num) (by norm_num)
        _ = 3 := by rw [← Real.rpow_mul (by norm_num)]; norm_num
  have e3 : factors 3 8 = some [2, 2, 2] := by
    simp [factors, e1, e2, divisor]
  unfold setNumberOfDomain
  rw [e3]
  have e4 : ([2, 2, 2] : List ℕ).mergeSort (fun a b => decide (b ≤ a)) = [2, 2, 2] := List.mergeSort_of_pairwise (by simp)
  simp only [e4]
  rfl

end Verif
