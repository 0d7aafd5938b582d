import Verif.Props.Links
/-!
C60, continued: the links with the directory that the bodies of all ranks have put in.
-/
namespace Verif
open Links Collector

/-- **C60** (partial), with the directory as the ranks build it: `ranks` are the bodies of all ranks, with different ids; each rank puts its bodies in, the pairs being processed in any order, into a
directory that may hold anything from before.  If the second body of every link of a local body is on some rank, the constraints that are made on rank `r` correspond one to one to the links of its
bodies, and each of them is that between its own body and the one body, on whichever rank, that has the second id.

Missing as in `C60_links_partial`. -/
theorem C60_bodies_partial (cfg : Cfg) (hbox : ∀ k, cfg.pbc k = true → cfg.low k < cfg.high k) (linkMap : List (ℤ × ℤ)) (ranks : List (List Sylinder))
    (hid : (ranks.flatten.map Sylinder.gid).Nodup) (hsz : ∀ s ∈ ranks.flatten, Sized s.radius s.length) (old : Dir Near.EP) (order : List (ℤ × Near.EP))
    (ho : order.Perm (ranks.flatMap published)) (r : ℕ) (bodies : List Sylinder) (hr : ranks[r]? = some bodies)
    (thread : ℕ → ℕ) (pool : Pool) (hth : ∀ i, i < bodies.length → thread i < pool.length) (blank : Near.EP) (junk : ℕ → Near.EP) (buf : List Near.EP)
    (hin : ∀ s ∈ bodies, ∀ k, cfg.pbc k = true → cfg.low k ≤ Near.comp s.pos k ∧ Near.comp s.pos k < cfg.high k)
    (hfound : ∀ s ∈ bodies, ∀ l ∈ linkMap, l.1 = s.gid → ∃ J ∈ ranks.flatten, J.gid = l.2) :
    let found := (old.buildIndex order).find blank junk (gidToFind linkMap bodies) buf
    found.2 = true ∧ ∃ pool' news, Collect cfg linkMap bodies found.1 thread pool pool' ∧ (∀ pool'', Collect cfg linkMap bodies found.1 thread pool pool'' → pool'' = pool') ∧
      pool'.flatten.Perm (pool.flatten ++ news) ∧
      List.Forall₂ (fun (p : Sylinder × ℤ) b => ∃ J ∈ ranks.flatten, J.gid = p.2 ∧ (∀ J' ∈ ranks.flatten, J'.gid = p.2 → J' = J) ∧
        ∃ e : Near.EP, e.gid = J.gid ∧ e.globalIndex = J.globalIndex ∧ e.radius = J.radius ∧ e.length = J.length ∧ e.pos = J.pos ∧ e.direction = J.direction ∧ IsLink cfg p.1 e b)
        (linkPairs linkMap bodies) news ∧
      ((linkPairs linkMap bodies).map fun p => (p.1.gid, p.2)).Perm (linkMap.filter fun l => l.1 ∈ bodies.map Sylinder.gid) := by
  have huniq : ∀ J ∈ ranks.flatten, ∀ J' ∈ ranks.flatten, J'.gid = J.gid → J' = J := fun J hJ J' hJ' h => List.inj_on_of_nodup_map hid hJ' hJ h
  have hmem : bodies ∈ ranks := List.mem_of_getElem? hr
  have hsub : bodies.Sublist ranks.flatten := List.sublist_flatten_of_mem hmem
  have hdir : ∀ J ∈ ranks.flatten, old.buildIndex order J.gid = some (Near.EP.copyFromFP J) := by
    intro J hJ
    obtain ⟨b, hb, hJb⟩ := List.mem_flatten.1 hJ
    have h0 : (J.gid, Near.EP.copyFromFP J) ∈ order := ho.mem_iff.2 (List.mem_flatMap.2 ⟨b, hb, List.mem_map.2 ⟨J, hJb, rfl⟩⟩)
    obtain ⟨d, hd, hb'⟩ := build_some old order J.gid _ h0
    obtain ⟨b', hb1, hb2⟩ := List.mem_flatMap.1 (ho.mem_iff.1 hd)
    obtain ⟨y, hy, e⟩ := List.mem_map.1 hb2
    simp only [Prod.mk.injEq] at e
    have : y = J := huniq J hJ y (List.mem_flatten.2 ⟨b', hb1, hy⟩) e.1
    rw [hb', ← e.2, this]
  intro found
  have hfd : ∀ s ∈ bodies, ∀ l ∈ linkMap, l.1 = s.gid → ∃ e, old.buildIndex order l.2 = some e ∧ Sized e.radius e.length := by
    intro s hs l hl h
    obtain ⟨J, hJ, hg⟩ := hfound s hs l hl h
    exact ⟨_, hg ▸ hdir J hJ, hsz J hJ⟩
  obtain ⟨pool', news, h1, h2, -, h4, h5, h6⟩ := C60_links_partial cfg hbox linkMap bodies thread pool hth (old.buildIndex order) blank junk buf hin
    (fun s hs => hsz s (hsub.subset hs)) hfd
  refine ⟨?_, pool', news, h1, h2, h4, ?_, h6 ((hsub.map _).nodup hid)⟩
  · show (gidToFind linkMap bodies).all (fun g => (old.buildIndex order g).isSome) = true
    rw [List.all_eq_true]
    intro g hg
    obtain ⟨s, hs, hg⟩ := List.mem_flatMap.1 hg
    obtain ⟨l, hl, rfl⟩ := List.mem_map.1 hg
    obtain ⟨hl, hs'⟩ := List.mem_filter.1 hl
    obtain ⟨e, he, -⟩ := hfd s hs l hl (by simpa using hs')
    rw [he]
    rfl
  · have hp : ∀ p ∈ linkPairs linkMap bodies, ∃ J ∈ ranks.flatten, J.gid = p.2 := by
      intro p hp
      unfold linkPairs at hp
      obtain ⟨s, hs, hp⟩ := List.mem_flatMap.1 hp
      obtain ⟨g, hg, rfl⟩ := List.mem_map.1 hp
      obtain ⟨l, hl, rfl⟩ := List.mem_map.1 hg
      obtain ⟨hl, hs'⟩ := List.mem_filter.1 hl
      exact hfound s hs l hl (by simpa using hs')
    rw [List.forall₂_iff_get] at h5 ⊢
    refine ⟨h5.1, fun i hi hi' => ?_⟩
    obtain ⟨e, he, hl⟩ := h5.2 i hi hi'
    obtain ⟨J, hJ, hg⟩ := hp _ (List.get_mem _ ⟨i, hi⟩)
    rw [← hg, hdir J hJ] at he
    obtain rfl := Option.some.inj he
    exact ⟨J, hJ, hg, fun J' hJ' h => huniq J hJ J' hJ' (h.trans hg.symm), _, rfl, rfl, rfl, rfl, rfl, rfl, hl⟩

/-- C60 is met: the second body of a link across the periodic boundary is on another rank, and the directory holds an old datum of it. -/
example : (([[rodAt 0 ⟨9, 0, 0⟩], [rodAt 1 ⟨1, 0, 0⟩]] : List (List Sylinder)).flatten.map Sylinder.gid).Nodup ∧
    ∃ order : List (ℤ × Near.EP), order.Perm ([[rodAt 0 ⟨9, 0, 0⟩], [rodAt 1 ⟨1, 0, 0⟩]].flatMap published) ∧
      ∃ pool', Collect xBox [(0, 1)] [rodAt 0 ⟨9, 0, 0⟩] (((Dir.empty.put (1, Near.EP.copyFromFP (rodAt 1 0))).buildIndex order).find (Near.EP.copyFromFP (rodAt 0 0))
        (fun _ => Near.EP.copyFromFP (rodAt 0 0)) (gidToFind [(0, 1)] [rodAt 0 ⟨9, 0, 0⟩]) []).1 (fun _ => 0) [[]] pool' := by
  have h0 : (rodAt 0 ⟨9, 0, 0⟩).gid = 0 := rfl
  have h1 : (rodAt 1 ⟨1, 0, 0⟩).gid = 1 := rfl
  have hn : (([[rodAt 0 ⟨9, 0, 0⟩], [rodAt 1 ⟨1, 0, 0⟩]] : List (List Sylinder)).flatten.map Sylinder.gid).Nodup := by simp [h0, h1]
  refine ⟨hn, _, List.Perm.refl _, ?_⟩
  obtain ⟨-, pool', -, hc, -⟩ := C60_bodies_partial xBox (by simp [xBox]) [(0, 1)] [[rodAt 0 ⟨9, 0, 0⟩], [rodAt 1 ⟨1, 0, 0⟩]] hn
    (by
      intro s hs
      simp at hs
      rcases hs with rfl | rfl <;> exact rodAt_sized _ _)
    (Dir.empty.put (1, Near.EP.copyFromFP (rodAt 1 0))) _ (List.Perm.refl _) 0 [rodAt 0 ⟨9, 0, 0⟩] rfl (fun _ => 0) [[]] (by simp) (Near.EP.copyFromFP (rodAt 0 0))
    (fun _ => Near.EP.copyFromFP (rodAt 0 0)) []
    (by
      intro s hs k hk
      simp at hs
      subst hs
      have : k = 0 := by simpa [xBox] using hk
      subst this
      norm_num [xBox, Near.comp, rodAt])
    (by
      intro s hs l hl _
      simp at hl
      subst hl
      exact ⟨rodAt 1 ⟨1, 0, 0⟩, by simp, h1⟩)
  exact ⟨pool', hc⟩

end Verif
