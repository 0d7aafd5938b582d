import Verif.Spec.Place
import Verif.Props.Wrap
import Verif.Props.Migrate
/-! Lemmas about the assignment of bodies to ranks. -/
namespace Verif.Place
open Domain Migrate

theorem Sound.extent {c : Cfg} {pbc : Fin 3 → Bool} {low high : Fin 3 → ℝ} (h : Sound c pbc low high) : (∀ k, c.d.low k < c.d.high k) ∧
    (∀ k, c.d.periodic k = pbc k) ∧ (∀ k, pbc k = true → c.d.low k = low k ∧ c.d.high k = high k) ∧
    ∀ k, pbc k = false → c.d.low k = -Stats.largeFloat ∧ c.d.high k = Stats.largeFloat := by
  have hle : ∀ k, low k ≤ high k := by
    by_contra hc
    push Not at hc
    have := h.dinfo
    rw [(C56_axes pbc low high).2 hc] at this
    cases this
  obtain ⟨d, hd, h0, h1, h2⟩ := (C56_axes pbc low high).1 hle
  rw [h.dinfo] at hd
  cases hd
  have hlf : (0:ℝ) < Stats.largeFloat := by unfold Stats.largeFloat; norm_num
  refine ⟨fun k => ?_, h0, fun k hk => h1 k hk (h.periodic k hk), fun k hk => h2 k (Or.inl hk)⟩
  cases hk : pbc k with
  | true =>
    obtain ⟨e1, e2⟩ := h1 k hk (h.periodic k hk)
    rw [e1, e2]
    exact h.periodic k hk
  | false =>
    obtain ⟨e1, e2⟩ := h2 k (Or.inl hk)
    rw [e1, e2]
    linarith

theorem SameBody.trans {pbc : Fin 3 → Bool} {low high : Fin 3 → ℝ} {a b c : Sylinder} (h1 : SameBody pbc low high a b) (h2 : SameBody pbc low high b c) :
    SameBody pbc low high a c := by
  obtain ⟨e1, k1⟩ := h1
  obtain ⟨e2, k2⟩ := h2
  refine ⟨?_, fun k => ⟨fun hk => ?_, fun hk hl => ?_⟩⟩
  · rw [← e2] at e1
    exact e1
  · obtain ⟨m, hm⟩ := (k1 k).1 hk
    obtain ⟨m', hm'⟩ := (k2 k).1 hk
    exact ⟨m + m', by rw [hm', hm]; push_cast; ring⟩
  · have := (k1 k).2 hk hl
    rw [(k2 k).2 hk (by rw [this]; exact hl), this]

section
variable {c : Cfg} {pbc : Fin 3 → Bool} {low high : Fin 3 → ℝ} (h : Sound c pbc low high)

include h in
theorem wraps_exists (P : ℕ → List Sylinder) : ∃ P', Wraps c P P' := by
  choose f hf using fun r => C66_wrap pbc low high h.periodic c.d h.dinfo (P r)
  exact ⟨f, fun r _ => (hf r).1⟩

include h in
theorem wraps_spec {P P' : ℕ → List Sylinder} (hw : Wraps c P P') : ∀ r < c.g.n, List.Forall₂ (SameBody pbc low high) (P r) (P' r) ∧
    ∀ b ∈ P' r, Box.MemHalf b.pos c.root := by
  intro r hr
  obtain ⟨b, -, h2, h3⟩ := C66_wrap pbc low high h.periodic c.d h.dinfo (P r)
  have e := h2 _ (hw r hr)
  refine ⟨?_, ?_⟩
  · rw [e]
    refine h3.imp fun s s' hs => ⟨hs.1, fun k => ⟨fun hk => ((hs.2 k).1 hk).2.2, (hs.2 k).2⟩⟩
  · intro s hs
    obtain ⟨i, hi⟩ := List.mem_iff_getElem?.mp hs
    have hx := hw r hr
    unfold Wrap.ApplyBoxBC at hx
    have hp : ∃ p q : V3, Wrap.AdjustPos id c.d p q ∧ s.pos = q := by
      obtain ⟨hlen, hget⟩ := List.forall₂_iff_get.mp hx
      obtain ⟨hi', hi2⟩ := List.getElem?_eq_some_iff.mp hi
      obtain ⟨q, hq, e⟩ := hget i (by omega) hi'
      exact ⟨_, q, hq, by rw [← hi2]; simp only [List.get_eq_getElem] at e; rw [e]⟩
    obtain ⟨p, q, hq, e'⟩ := hp
    have hk : ∀ k, c.d.low k ≤ Near.comp q k ∧ Near.comp q k < c.d.high k := by
      intro k
      obtain ⟨y, h1, h2, h3, -⟩ := axis_exact (h.extent.1 k) (Near.comp p k)
      rw [axis_unique (hq k) h1]
      exact ⟨h2, h3⟩
    rw [e']
    exact ⟨by simpa [Near.comp, Cfg.root] using hk 0, by simpa [Near.comp, Cfg.root] using hk 1, by simpa [Near.comp, Cfg.root] using hk 2⟩

theorem total_eq (P : ℕ → List Sylinder) : ∀ n, total P n = ((List.range n).map fun r => (P r).length).sum := by
  intro n
  induction n with
  | zero => rfl
  | succ n ih => rw [total, ih, List.range_succ, List.map_append, List.sum_append]; simp

theorem total_congr {P Q : ℕ → List Sylinder} : ∀ n, (∀ r < n, (P r).length = (Q r).length) → total P n = total Q n := by
  intro n
  induction n with
  | zero => intro _; rfl
  | succ n ih => intro hl; rw [total, total, ih (fun r hr => hl r (by omega)), hl n (by omega)]

theorem mapM_eq_map {α β : Type} (f : α → Option β) (k : α → β) : ∀ l : List α, (∀ a ∈ l, f a = some (k a)) → l.mapM f = some (l.map k) := by
  intro l
  induction l with
  | nil => intro _; rfl
  | cons a l ih =>
    intro hl
    simp [List.mapM_cons, hl a (by simp), ih (fun b hb => hl b (by simp [hb]))]

include h in
/-- The samples. -/
theorem collect_spec {x : Exec} (hx : Valid c x) (P : ℕ → List Sylinder) (hP : c.g.n ≤ total P c.g.n) :
    ∃ smp, collect c x P c.g.n = some (smp, P) ∧ smp.length ≤ c.target ∧ c.g.n ≤ smp.length ∧ ∀ p ∈ smp, ∃ r < c.g.n, ∃ b ∈ P r, b.pos = p := by
  have hn : 1 ≤ c.g.n := Nat.mul_pos (Nat.mul_pos h.nx h.ny) h.nz
  have hall : 1 ≤ total P c.g.n := by omega
  choose k hk1 _ using fun r => sampleNumber_spec (P r).length (total P c.g.n) c.target hall
  have key : ∀ n ≤ c.g.n, ∃ smp, collect c x P n = some (smp, P) ∧ smp.length = ((List.range n).map k).sum ∧ ∀ p ∈ smp, ∃ r < c.g.n, ∃ b ∈ P r, b.pos = p := by
    intro n
    induction n with
    | zero => intro _; exact ⟨[], rfl, rfl, fun p hp => by simp at hp⟩
    | succ n ih =>
      intro hn
      obtain ⟨smp, e, hl, hm⟩ := ih (by omega)
      obtain ⟨s, e', hl', hs⟩ := getSample_spec Sylinder.pos (x.u n) (hx.1 n) (total P c.g.n) c.target (P n) (k n) (hk1 n)
      refine ⟨smp ++ s, ?_, ?_, ?_⟩
      · rw [collect, e]
        simp only
        rw [e']
        simp only [Function.update_eq_self]
      · rw [List.length_append, hl, hl', List.range_succ, List.map_append, List.sum_append]
        simp
      · intro p hp
        rcases List.mem_append.mp hp with hp | hp
        · exact hm p hp
        · obtain ⟨b, hb, e⟩ := List.mem_map.mp (hs.subset hp)
          exact ⟨n, by omega, b, hb, e⟩
  obtain ⟨smp, e, hl, hm⟩ := key c.g.n le_rfl
  refine ⟨smp, e, ?_⟩
  have hsum : ((List.range c.g.n).map fun r => (P r).length).sum = total P c.g.n := (total_eq P _).symm
  obtain ⟨ks, e2, h1, h2, h3⟩ := C81_total ((List.range c.g.n).map fun r => (P r).length) c.target (by rw [hsum]; exact hall)
  have e3 : ks = (List.range c.g.n).map k := by
    unfold sampleNumbers at e2
    rw [hsum, List.mapM_map] at e2
    have := mapM_eq_map ((fun m => sampleNumber m (total P c.g.n) c.target) ∘ fun r => (P r).length) k (List.range c.g.n) (fun a _ => hk1 a)
    rw [this] at e2
    exact (Option.some.inj e2).symm
  rw [← e3] at hl
  simp only [List.length_map, List.length_range] at h3
  exact ⟨by rw [hl]; exact h2, by rw [hl]; exact h3 (by rw [hsum]; exact hP) h.target, hm⟩

theorem half_mem {p : V3} {b : Box} (hp : Box.MemHalf p b) : Box.Mem p b :=
  ⟨⟨hp.1.1, hp.1.2.le⟩, ⟨hp.2.1.1, hp.2.1.2.le⟩, ⟨hp.2.2.1, hp.2.2.2.le⟩⟩

/-- One decomposition. -/
theorem decompose_spec (srt : (V3 → ℝ) → List V3 → List V3) (hsrt : Sorts srt) (cf : ℝ) (hc : 0 ≤ cf ∧ cf ≤ 1) (root : Box) (g : Grid)
    (hx : 1 ≤ g.nx) (hy : 1 ≤ g.ny) (hz : 1 ≤ g.nz) (smp : List V3) (hn : g.n ≤ smp.length) (hs : ∀ p ∈ smp, Box.Mem p root) (tmp : ℕ → Box) (st : State)
    (hst : st.first = false → IsGrid root g st.dom) : ∃ dom, decompose srt cf root g smp tmp st = some ⟨false, dom⟩ ∧ IsGrid root g dom := by
  obtain ⟨s', t', e, -, hg, -⟩ := newDomains_spec srt hsrt root g smp tmp hx hy hz hn hs
  refine ⟨_, by rw [decompose, e], ?_⟩
  cases hf : st.first with
  | true => simpa using hg
  | false => simpa using hg.mix (hst hf) cf hc.1 hc.2

include h in
theorem wraps_total {P P' : ℕ → List Sylinder} (hw : Wraps c P P') : total P c.g.n = total P' c.g.n :=
  total_congr _ fun r hr => ((wraps_spec h hw) r hr).1.length_eq

include h in
/-- `decomposeDomain`. -/
theorem decomposeDomain_spec {x : Exec} (hx : Valid c x) (s : Sys) (hP : c.g.n ≤ total s.P c.g.n) (hst : s.dec.first = false → IsGrid c.root c.g s.dec.dom) :
    (∃ s', DecomposeDomain c x s s') ∧ ∀ s', DecomposeDomain c x s s' → s'.dec.first = false ∧ IsGrid c.root c.g s'.dec.dom ∧ Wraps c s.P s'.P := by
  have key : ∀ P, Wraps c s.P P → ∃ dom, decomposeAll c x ⟨s.dec, P⟩ = some ⟨⟨false, dom⟩, P⟩ ∧ IsGrid c.root c.g dom := by
    intro P hw
    obtain ⟨smp, e, h1, h2, h3⟩ := collect_spec h hx P (by rw [← wraps_total h hw]; exact hP)
    obtain ⟨dom, e', hd⟩ := decompose_spec c.srt h.srt c.coef h.coef c.root c.g h.nx h.ny h.nz smp h2 (by
      intro p hp
      obtain ⟨r, hr, b, hb, rfl⟩ := h3 p hp
      exact half_mem ((wraps_spec h hw r hr).2 b hb)) x.tmp s.dec hst
    refine ⟨dom, ?_, hd⟩
    unfold decomposeAll
    simp only
    rw [e]
    simp only
    rw [if_neg (by omega), e']
  constructor
  · obtain ⟨P, hw⟩ := wraps_exists h s.P
    obtain ⟨dom, e, -⟩ := key P hw
    exact ⟨_, P, hw, e⟩
  · rintro s' ⟨P, hw, e⟩
    obtain ⟨dom, e', hd⟩ := key P hw
    rw [e] at e'
    cases e'
    exact ⟨rfl, hd, hw⟩

include h in
/-- `exchangeSylinder`. -/
theorem exchangeSylinder_spec {x : Exec} (hx : Valid c x) (s : Sys) (hd : IsGrid c.root c.g s.dec.dom) (hP : ∀ r < c.g.n, ∀ b ∈ s.P r, Box.MemHalf b.pos c.root) :
    (∃ s', ExchangeSylinder c x s s') ∧ ∀ s', ExchangeSylinder c x s s' → s'.dec = s.dec ∧
      ∀ r < c.g.n, s'.P r = (settled Sylinder.pos s.dec.dom c.g.n s.P r).map fun (b : Sylinder) => { b with rank := r } := by
  obtain ⟨Q, e, hQ⟩ := C82_exchange 500 Sylinder.pos c.root c.g h.nx h.ny h.nz s.dec.dom hd x.ord x.ord' hx.2 s.P hP
  constructor
  · exact ⟨⟨s.dec, fun r => (settled Sylinder.pos s.dec.dom c.g.n s.P r).map fun (b : Sylinder) => { b with rank := r }⟩, Q, e, rfl,
      fun r hr => ⟨_, hQ r hr, rfl⟩⟩
  · rintro s' ⟨Q', e', h1, h2⟩
    rw [e] at e'
    cases e'
    refine ⟨h1, fun r hr => ?_⟩
    obtain ⟨l, e1, e2⟩ := h2 r hr
    rw [hQ r hr] at e1
    have := (List.map_injective_iff.mpr (Option.some_injective _)) e1
    rw [e2, this]

include h in
theorem settled_perm {x : Exec} (hx : Valid c x) (dom : ℕ → Box) (hd : IsGrid c.root c.g dom) (P : ℕ → List Sylinder) (hP : ∀ r < c.g.n, ∀ b ∈ P r, Box.MemHalf b.pos c.root) :
    ((List.range c.g.n).flatMap (settled Sylinder.pos dom c.g.n P)).Perm ((List.range c.g.n).flatMap P) ∧
      ∀ r < c.g.n, ∀ b ∈ settled Sylinder.pos dom c.g.n P r, Box.MemHalf b.pos (dom r) := by
  obtain ⟨Q, e, hQ⟩ := C82_exchange 500 Sylinder.pos c.root c.g h.nx h.ny h.nz dom hd x.ord x.ord' hx.2 P hP
  obtain ⟨Q', e', R, h1, h2, h3⟩ := C82_nothing_lost 500 Sylinder.pos c.root c.g h.nx h.ny h.nz dom hd x.ord x.ord' hx.2 P hP
  rw [e] at e'
  cases e'
  have hR : ∀ r < c.g.n, R r = settled Sylinder.pos dom c.g.n P r := by
    intro r hr
    have := h1 r hr
    rw [hQ r hr] at this
    exact ((List.map_injective_iff.mpr (Option.some_injective _)) this).symm
  refine ⟨?_, fun r hr b hb => h2 r hr b (by rw [hR r hr]; exact hb)⟩
  rw [← flatMap_congr' (f := R) (fun r hr => hR r (by simpa using hr))]
  exact h3

theorem total_flatMap (P : ℕ → List Sylinder) : ∀ n, total P n = ((List.range n).flatMap P).length := by
  intro n
  induction n with
  | zero => rfl
  | succ n ih => rw [total, ih, List.range_succ, List.flatMap_append, List.length_append]; simp

theorem forall₂_flatMap {R : Sylinder → Sylinder → Prop} {P Q : ℕ → List Sylinder} : ∀ n, (∀ r < n, List.Forall₂ R (P r) (Q r)) →
    List.Forall₂ R ((List.range n).flatMap P) ((List.range n).flatMap Q) := by
  intro n
  induction n with
  | zero => intro _; exact List.Forall₂.nil
  | succ n ih =>
    intro hr
    rw [List.range_succ, List.flatMap_append, List.flatMap_append]
    refine List.rel_append (ih fun r h => hr r (by omega)) ?_
    simpa using hr n (by omega)

theorem core_rank (b : Sylinder) (r : ℤ) : core { b with rank := r } = core b := rfl
theorem core_refresh (c : Cfg) (r : ℕ) (b : Sylinder) : core (refresh c r b) = core b := rfl

include h in
/-- `prepareStep`. -/
theorem prepareStep_spec {x : Exec} (hx : Valid c x) (k : ℕ) (s : Sys) (hP : c.g.n ≤ total s.P c.g.n) (hf : s.dec.first = false)
    (hg : IsGrid c.root c.g s.dec.dom) :
    (∃ s', PrepareStep c x k s s') ∧ ∀ s', PrepareStep c x k s s' → s'.dec.first = false ∧ IsGrid c.root c.g s'.dec.dom ∧
      ∃ W : ℕ → List Sylinder, (∀ r < c.g.n, List.Forall₂ (SameBody pbc low high) (s.P r) (W r) ∧ ∀ b ∈ W r, Box.MemHalf b.pos c.root) ∧
        ∀ r < c.g.n, s'.P r = (settled Sylinder.pos s'.dec.dom c.g.n W r).map fun b => project c (refresh c r b) := by
  -- the state after the optional decomposition
  have key : ∀ P s2, Wraps c s.P P → (if k % 50 = 0 then DecomposeDomain c x ⟨s.dec, P⟩ s2 else s2 = ⟨s.dec, P⟩) → s2.dec.first = false ∧
      IsGrid c.root c.g s2.dec.dom ∧ ∀ r < c.g.n, List.Forall₂ (SameBody pbc low high) (s.P r) (s2.P r) ∧ ∀ b ∈ s2.P r, Box.MemHalf b.pos c.root := by
    intro P s2 hw h2
    split_ifs at h2 with hk
    · obtain ⟨h3, h4, h5⟩ := (decomposeDomain_spec h hx ⟨s.dec, P⟩ (by simp only; rw [← wraps_total h hw]; exact hP) (fun _ => hg)).2 _ h2
      refine ⟨h3, h4, fun r hr => ⟨?_, (wraps_spec h h5 r hr).2⟩⟩
      have a1 := (wraps_spec h hw r hr).1
      have a2 := (wraps_spec h h5 r hr).1
      simp only at a2
      rw [List.forall₂_iff_get] at a1 a2 ⊢
      exact ⟨a1.1.trans a2.1, fun i h1 h2 => (a1.2 i h1 (by omega)).trans (a2.2 i (by omega) h2)⟩
    · subst h2
      exact ⟨hf, hg, fun r hr => wraps_spec h hw r hr⟩
  constructor
  · obtain ⟨P, hw⟩ := wraps_exists h s.P
    obtain ⟨s2, h2⟩ : ∃ s2, if k % 50 = 0 then DecomposeDomain c x ⟨s.dec, P⟩ s2 else s2 = ⟨s.dec, P⟩ := by
      split_ifs
      · exact (decomposeDomain_spec h hx ⟨s.dec, P⟩ (by simp only; rw [← wraps_total h hw]; exact hP) (fun _ => hg)).1
      · exact ⟨_, rfl⟩
    obtain ⟨-, k2, k3⟩ := key P s2 hw h2
    obtain ⟨s3, h3⟩ := (exchangeSylinder_spec h hx s2 k2 (fun r hr => (k3 r hr).2)).1
    exact ⟨_, P, s2, s3, hw, h2, h3, rfl⟩
  · rintro s' ⟨P, s2, s3, hw, h2, h3, rfl⟩
    obtain ⟨k1, k2, k3⟩ := key P s2 hw h2
    obtain ⟨e1, e2⟩ := (exchangeSylinder_spec h hx s2 k2 (fun r hr => (k3 r hr).2)).2 _ h3
    simp only [e1]
    refine ⟨k1, k2, s2.P, k3, fun r hr => ?_⟩
    rw [e2 r hr, List.map_map]
    rfl

end

end Verif.Place
