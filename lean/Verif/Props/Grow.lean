import Verif.Spec.Grow
import Verif.Props.Sim
/-!
C94: runs in which bodies and links are added.
-/
namespace Verif
open Domain Near Collector RunStep Mobility Collide Sim

theorem Sim.ids_perm {n : ℕ} {P Q : ℕ → List Sylinder} (h : ((all n P).map kind).Perm ((all n Q).map kind)) : (ids n P).Perm (ids n Q) := by
  have h1 := h.map Prod.fst
  rw [List.map_map, List.map_map] at h1
  exact h1

section
variable {C C₀ : Sim.Cfg} {pbc : Fin 3 → Bool} {low high : Fin 3 → ℝ} {P B : ℕ → List Sylinder}

theorem Sim.grown {fl : ℝ → ℝ} {k : ℕ} {s : Sim.State} (hr : Sim.Run (Sim.Ok pbc low high) fl C₀ B C P k s) :
    C.place = C₀.place ∧ (∃ new : ℕ → List Sylinder, ∀ r, P r = B r ++ new r) ∧ ∃ ls, C = { C₀ with linkMap := C₀.linkMap ++ ls } := by
  induction hr with
  | start junk x y s1 s2 h hx hy h1 h2 => exact ⟨rfl, ⟨fun _ => [], fun r => by simp⟩, [], by simp⟩
  | resume svd blank d R s h hs hB => exact ⟨rfl, ⟨fun _ => [], fun r => by simp⟩, [], by simp⟩
  | pre C P k s q ranks out s' _ h _ _ _ hs ih => exact ih
  | step C P k s q ranks out s' _ h _ hs ih => exact ih
  | bodies C P k s new ids s' _ _ hs ih =>
    obtain ⟨h1, ⟨f, hf⟩, h2⟩ := ih
    exact ⟨h1, ⟨fun r => f r ++ added new ids r, fun r => by simp only [hf, List.append_assoc]⟩, h2⟩
  | links C P k s new _ _ ih =>
    obtain ⟨h1, h2, ls, rfl⟩ := ih
    exact ⟨h1, h2, ls ++ new.flatten, by simp [Cfg.addLinks, Ids.Links.emplace]⟩

/-- C94.  In every state of a run in which bodies and links are added between the steps, the bodies of all ranks are those of the beginning and those added, with the
ids the additions returned; if the ids at the beginning are different from each other, all ids are.  Of the configuration only the links change, and no link is lost. -/
theorem C94_ids (fl : ℝ → ℝ) (k : ℕ) (s : Sim.State) (hr : Sim.Run (Sim.Ok pbc low high) fl C₀ B C P k s) (hB : (ids C₀.place.g.n B).Nodup) :
    (ids C₀.place.g.n s.sys.P).Nodup ∧ (ids C₀.place.g.n s.sys.P).Perm (ids C₀.place.g.n P) ∧ (∃ new : ℕ → List Sylinder, ∀ r, P r = B r ++ new r) ∧
      ∃ ls, C = { C₀ with linkMap := C₀.linkMap ++ ls } := by
  have hperm : (ids C₀.place.g.n s.sys.P).Perm (ids C₀.place.g.n P) := by
    have := (Sim.run_inv hr).kinds
    rw [(Sim.grown hr).1] at this
    exact Sim.ids_perm this
  refine ⟨?_, hperm, (Sim.grown hr).2⟩
  rw [hperm.nodup_iff]
  clear hperm
  induction hr with
  | start junk x y s1 s2 h hx hy h1 h2 => exact hB
  | resume svd blank d R s h hs hR => exact hB
  | pre C P k s q ranks out s' _ h _ _ _ hs ih => exact ih
  | step C P k s q ranks out s' _ h _ hs ih => exact ih
  | links C P k s new h _ ih => exact ih
  | bodies C P k s new is s' h hk hs ih =>
    have h1 := Sim.ids_perm (Sim.run_inv (Sim.Run.bodies C P k s new is s' h hk hs)).kinds
    have h0 := Sim.ids_perm (Sim.run_inv h).kinds
    rw [(Sim.grown h).1] at h1 h0 hs
    rw [← h1.nodup_iff]
    refine hs.spec.2.2.2.2.2.2.1 ?_
    change (ids _ _).Nodup
    rw [h0.nodup_iff]
    exact ih

/-- C94.  In a state between the steps bodies can be added, unless an id gets too large for `int`.  The bodies that are there stay as they are, each rank gets its
new bodies behind them, with the ids it is told; the new ids are, in some order, the numbers that follow the greatest id (or zero). -/
theorem C94_add (fl : ℝ → ℝ) (k : ℕ) (s : Sim.State) (hr : Sim.Run (Sim.Ok pbc low high) fl C₀ B C P k s) (hk : C.mob.sylinderFixed = false → k = C.initPreSteps)
    (new : List (List Sylinder)) (hnew : new.length = C.place.g.n) (m : ℤ) (hm0 : 0 ≤ m) (hm : ∀ b ∈ all C.place.g.n s.sys.P, b.gid ≤ m)
    (hm' : m = 0 ∨ ∃ b ∈ all C.place.g.n s.sys.P, b.gid = m) :
    (m + ((new.map List.length).sum : ℤ) ≤ 2 ^ 31 - 1 → ∃ is s', AddBodies C.place.g.n s new is s') ∧
    ∀ is s', AddBodies C.place.g.n s new is s' → Sim.Run (Sim.Ok pbc low high) fl C₀ B C (fun r => P r ++ added new is r) k s' ∧
      is.map List.length = new.map List.length ∧ is.flatten.Perm ((List.range (new.map List.length).sum).map fun i : ℕ => m + 1 + (i : ℤ)) ∧
      ∀ r < C.place.g.n, ∃ l i, new[r]? = some l ∧ is[r]? = some i ∧
        s'.sys.P r = s.sys.P r ++ List.zipWith (fun (b : Sylinder) (g : ℤ) => { b with gid := g }) l i := by
  have hg : ∀ g, g ∈ gids ((List.range C.place.g.n).map s.sys.P) ↔ ∃ b ∈ all C.place.g.n s.sys.P, b.gid = g := by
    intro g
    unfold gids all
    rw [← List.flatMap_def, List.mem_map]
  have hm1 : ∀ g ∈ gids ((List.range C.place.g.n).map s.sys.P), g ≤ m := by
    intro g h
    obtain ⟨b, hb, rfl⟩ := (hg g).1 h
    exact hm b hb
  have hm2 : m = 0 ∨ m ∈ gids ((List.range C.place.g.n).map s.sys.P) := hm'.imp_right (hg m).2
  refine ⟨?_, ?_⟩
  · intro hov
    obtain ⟨ranks', is, e, -⟩ := C48_addition id (fun l => List.Perm.refl l) ((List.range C.place.g.n).map s.sys.P) new (by simp [hnew]) m hm0 hm1 hm2
      (by rw [show Output.intMax = 2 ^ 31 - 1 from rfl]; exact hov)
    exact ⟨is, _, id, ranks', fun l => List.Perm.refl l, hnew, e, rfl⟩
  · intro is s' hs
    refine ⟨.bodies C P k s new is s' hr hk hs, hs.spec.2.2.1, ?_, ?_⟩
    · obtain ⟨shuffle, lists, hsh, hn, he, rfl⟩ := hs
      have hmax : Ids.maxGidGlobal ((List.range C.place.g.n).map s.sys.P) = m := by
        obtain ⟨m1, m2, m3⟩ := maxGid_spec ((List.range C.place.g.n).map s.sys.P)
        apply le_antisymm
        · rcases m3 with m3 | m3
          · rw [m3]; exact hm0
          · exact hm1 _ m3
        · rcases hm2 with h | h
          · rw [h]; exact m1
          · exact m2 _ h
      have hov : m + ((new.map List.length).sum : ℤ) ≤ Output.intMax := by
        have hd := displ_last (new.map List.length)
        have he' := he
        unfold Ids.addNewSylinder at he'
        simp only at he'
        split_ifs at he' with hc
        rw [hd, hmax] at hc
        exact hc
      obtain ⟨ranks', ids', e1, e2, e3, -⟩ := C48_addition shuffle hsh _ new (by simp [hn]) m hm0 hm1 hm2 hov
      rw [he] at e1
      cases e1
      exact e3
    · intro r hr'
      obtain ⟨-, h2, h3, -⟩ := hs.spec
      have hl : is.length = new.length := by have := congrArg List.length h3; simpa using this
      refine ⟨new[r]'(by omega), is[r]'(by omega), List.getElem?_eq_getElem _, List.getElem?_eq_getElem _, ?_⟩
      rw [h2 r hr', added, List.getD_eq_getElem?_getD, List.getD_eq_getElem?_getD, List.getElem?_eq_getElem (by omega), List.getElem?_eq_getElem (by omega)]
      rfl

theorem Sim.largest_append {C : Sim.Cfg} (l : List Sylinder) (hl : ∀ b ∈ l, Fits C b) (R : ℝ) (h1 : 2 * R ≤ BCQP.dblMax / 10)
    (h2 : 2 * R + C.link.linkGap ≤ BCQP.dblMax / 10) : ∃ R', R ≤ R' ∧ (∀ b ∈ l, Spec.Near.Rad (EP.copyFromFP (sized C b)) ≤ R' ∧ b.radius ≤ R') ∧
      2 * R' ≤ BCQP.dblMax / 10 ∧ 2 * R' + C.link.linkGap ≤ BCQP.dblMax / 10 := by
  induction l with
  | nil => exact ⟨R, le_rfl, by simp, h1, h2⟩
  | cons a l ih =>
    obtain ⟨R', g1, g2, g3, g4⟩ := ih fun b hb => hl b (List.mem_cons_of_mem _ hb)
    obtain ⟨Q, q1, q2, q3, q4⟩ := (hl a (by simp)).small
    rcases le_total R' Q with h | h
    · refine ⟨Q, g1.trans h, ?_, q3, q4⟩
      intro b hb
      rcases List.mem_cons.1 hb with rfl | hb
      · exact ⟨q1, q2⟩
      · exact ⟨(g2 b hb).1.trans h, (g2 b hb).2.trans h⟩
    · refine ⟨R', g1, ?_, g3, g4⟩
      intro b hb
      rcases List.mem_cons.1 hb with rfl | hb
      · exact ⟨q1.trans h, q2.trans h⟩
      · exact g2 b hb

/-- C94.  Additions like those of the test program leave a run that can go on as before (C91, C93): if the bodies that are added fit, and every added link ends at a
body that is there or at an id that the addition of bodies returned, then the configuration and the bodies are sound again. -/
theorem C94_sound (h : Sim.Sound C pbc low high P) (s s' : Sim.State) (new : List (List Sylinder)) (is : List (List ℤ)) (hs : AddBodies C.place.g.n s new is s')
    (hfit : ∀ l ∈ new, ∀ b ∈ l, Fits C b) (ls : List (List (ℤ × ℤ))) (hls : ∀ l ∈ ls, ∀ e ∈ l, (∃ i ∈ is, e.2 ∈ i) ∨ e.2 ∈ ids C.place.g.n P) :
    Sim.Sound (C.addLinks ls) pbc low high fun r => P r ++ added new is r := by
  have hperm := perm_flatMap_append (List.range C.place.g.n) P (added new is)
  obtain ⟨-, -, hlen, hn, -⟩ := hs.spec
  have hil : is.length = new.length := by have := congrArg List.length hlen; simpa using this
  have hadd : ∀ r, ∀ b ∈ added new is r, ∃ l ∈ new, ∃ a ∈ l, ∃ g : ℤ, b = { a with gid := g } := by
    intro r b hb
    unfold added at hb
    obtain ⟨i, hi, rfl⟩ := List.getElem_of_mem hb
    rw [List.getElem_zipWith]
    rw [List.length_zipWith] at hi
    refine ⟨new.getD r [], ?_, _, List.getElem_mem (by omega), _, rfl⟩
    rcases lt_or_ge r new.length with hr | hr
    · rw [List.getD_eq_getElem?_getD, List.getElem?_eq_getElem hr]
      exact List.getElem_mem _
    · rw [List.getD_eq_getElem?_getD, List.getElem?_eq_none hr] at hi
      simp at hi
  have hfit' : ∀ r, ∀ b ∈ added new is r, Fits C b := by
    intro r b hb
    obtain ⟨l, hl, a, ha, g, rfl⟩ := hadd r b hb
    obtain ⟨f1, f2, f3, f4⟩ := hfit l hl a ha
    exact ⟨⟨f1.radius, f1.length, f1.unit⟩, ⟨⟨f2.valid.1, f2.valid.2, f2.valid.3⟩, f2.radius, f2.length, f2.colBuf, f2.size⟩, f3, f4⟩
  have hall : ∀ b ∈ all C.place.g.n (fun r => P r ++ added new is r), b ∈ all C.place.g.n P ∨ Fits C b := by
    intro b hb
    rcases List.mem_append.1 (hperm.mem_iff.1 hb) with hb | hb
    · exact Or.inl hb
    · obtain ⟨r, -, hb⟩ := List.mem_flatMap.1 hb
      exact Or.inr (hfit' r b hb)
  obtain ⟨R, r1, r2, r3⟩ := h.largest
  obtain ⟨R', g1, g2, g3, g4⟩ := Sim.largest_append (C := C) ((List.range C.place.g.n).flatMap (added new is)) (by
    intro b hb
    obtain ⟨r, -, hb⟩ := List.mem_flatMap.1 hb
    exact hfit' r b hb) R r2 r3
  refine ⟨h.place, h.mono.imp id fun l => ⟨l.layer, l.inside, l.cold, l.flat⟩, ?_, h.viscosity, h.dt, ?_, ?_, ?_, ⟨R', ?_, g3, g4⟩, ?_, h.linkBox⟩
  · have h1 := h.enough
    rw [Place.total_flatMap] at h1
    show C.place.g.n ≤ Place.total _ C.place.g.n
    rw [Place.total_flatMap, hperm.length_eq, List.length_append]
    omega
  · intro b hb
    rcases hall b hb with hb | hb
    · exact h.valid b hb
    · exact hb.valid
  · intro b hb
    rcases hall b hb with hb | hb
    · exact h.body b hb
    · exact hb.body
  · refine ⟨h.fdps.leaf, h.fdps.group, h.fdps.threads, h.fdps.big, ?_⟩
    intro hp r hr x hx
    rw [List.map_append] at hx
    rcases List.mem_append.1 hx with hx | hx
    · exact h.fdps.short hp r hr x hx
    · obtain ⟨b, hb, rfl⟩ := List.mem_map.1 hx
      exact (hfit' r b hb).short hp
  · intro b hb
    rcases List.mem_append.1 (hperm.mem_iff.1 hb) with hb | hb
    · exact ⟨(r1 b hb).1.trans g1, (r1 b hb).2.trans g1⟩
    · exact g2 b hb
  · intro l hl
    have hold : ∀ g ∈ ids C.place.g.n P, ∃ b ∈ all C.place.g.n (fun r => P r ++ added new is r), b.gid = g := by
      intro g hg
      obtain ⟨b, hb, rfl⟩ := List.mem_map.1 hg
      exact ⟨b, hperm.mem_iff.2 (List.mem_append_left _ hb), rfl⟩
    have hl' : l ∈ C.linkMap ∨ l ∈ ls.flatten := List.mem_append.1 hl
    rcases hl' with hl' | hl'
    · obtain ⟨b, hb, e⟩ := h.links l hl'
      exact hold _ (List.mem_map.2 ⟨b, hb, e⟩)
    · obtain ⟨l0, hl0, hl1⟩ := List.mem_flatten.1 hl'
      rcases hls l0 hl0 l hl1 with ⟨i, hi, hg⟩ | hg
      · obtain ⟨r, hr, rfl⟩ := List.getElem_of_mem hi
        obtain ⟨j, hj, e⟩ := List.getElem_of_mem hg
        have hlr : (is[r]).length = (new[r]'(by omega)).length := by
          have h1 : (is.map List.length)[r]? = (new.map List.length)[r]? := by rw [hlen]
          rw [List.getElem?_map, List.getElem?_map, List.getElem?_eq_getElem hr, List.getElem?_eq_getElem (by omega)] at h1
          simpa using h1
        have hb : ({ (new[r]'(by omega))[j]'(by omega) with gid := l.2 } : Sylinder) ∈ added new is r := by
          unfold added
          rw [List.getD_eq_getElem?_getD, List.getD_eq_getElem?_getD, List.getElem?_eq_getElem (by omega), List.getElem?_eq_getElem (by omega)]
          refine List.mem_of_getElem (i := j) (h := by rw [List.length_zipWith]; simp only [Option.getD_some]; omega) ?_
          rw [List.getElem_zipWith]
          simp only [Option.getD_some]
          rw [e]
        exact ⟨_, hperm.mem_iff.2 (List.mem_append_right _ (List.mem_flatMap.2 ⟨r, by simp; omega, hb⟩)), rfl⟩
      · exact hold _ hg

end

/-- The hypotheses of C94 can be met: a run of two spheres on two ranks, to which each rank adds a sphere, and then rank 0 a link between the two new spheres. -/
example : ∃ (C : Sim.Cfg) (B : ℕ → List Sylinder) (s s' : Sim.State) (new : List (List Sylinder)) (is : List (List ℤ)) (ls : List (List (ℤ × ℤ))),
    Sim.Run (Sim.Ok (fun _ => false) (fun _ => 0) (fun _ => 1)) id C B C B 0 s ∧ Sim.Sound C (fun _ => false) (fun _ => 0) (fun _ => 1) B ∧
    (ids C.place.g.n B).Nodup ∧ AddBodies C.place.g.n s new is s' ∧ (∀ l ∈ new, ∀ b ∈ l, Fits C b) ∧ new.map List.length = [1, 1] ∧
    (∃ e, ls.flatten = [e] ∧ e.1 ≠ e.2 ∧ e.1 ∈ is.flatten ∧ e.2 ∈ is.flatten) ∧ (∀ l ∈ ls, ∀ e ∈ l, (∃ i ∈ is, e.2 ∈ i) ∨ e.2 ∈ ids C.place.g.n B) ∧
    Sim.Run (Sim.Ok (fun _ => false) (fun _ => 0) (fun _ => 1)) id C B (C.addLinks ls) (fun r => B r ++ added new is r) 0 s' := by
  obtain ⟨c, h, hn, hper, k1, k2, k3, k4, -⟩ := twoBalls_sound
  have hn' : (twoBallsCfg c).place.g.n = 2 := hn
  obtain ⟨s1, s2, d1, d2⟩ := (C83_progress (twoBallsCfg c).place _ _ _ h.place twoBalls h.enough).1 (fun _ => (twoBallsCfg c).place.root) _ _
    (Place.plain_valid _) (Place.plain_valid _)
  have hrun : Sim.Run (Sim.Ok (fun _ => false) (fun _ => 0) (fun _ => 1)) id (twoBallsCfg c) twoBalls (twoBallsCfg c) twoBalls 0 ⟨s2, Links.Dir.empty, 0⟩ :=
    .start _ _ _ s1 s2 h (Place.plain_valid _) (Place.plain_valid _) d1 d2
  have hids : ids (twoBallsCfg c).place.g.n twoBalls = [7, 9] := by
    rw [hn', ids, twoBalls_all]
    rfl
  have hnd : (ids (twoBallsCfg c).place.g.n twoBalls).Nodup := by rw [hids]; decide
  have hperm := (C94_ids id 0 _ hrun hnd).2.1
  rw [hids] at hperm
  have hfit : ∀ g x, Fits (twoBallsCfg c) (NoOverlap.ball g 0 x) := by
    intro g x
    refine ⟨⟨by norm_num [NoOverlap.ball, Sylinder.make], by norm_num [NoOverlap.ball, Sylinder.make],
      by norm_num [NoOverlap.ball, Sylinder.make, Spec.UnitQuat, Quat.normSq]⟩, ?_, ?_, 0.09, ?_, ?_, ?_, ?_⟩
    · rw [twoBalls_sized c k1 k2 k3]
      exact NoOverlap.ball_body _ _ _
    · intro hp
      have := hper 0
      rw [show (twoBallsCfg c).place.d.periodic 0 = c.d.periodic 0 from rfl, this] at hp
      cases hp
    · rw [twoBalls_sized c k1 k2 k3, NoOverlap.ball_rad]
    · norm_num [NoOverlap.ball, Sylinder.make]
    · unfold BCQP.dblMax
      have : (2 : ℝ) ^ 10 ≤ 2 ^ 1023 := pow_le_pow_right₀ (by norm_num) (by norm_num)
      generalize (2 : ℝ) ^ 1023 = w at *
      norm_num at *
      linarith
    · show 2 * 0.09 + 0.02 ≤ BCQP.dblMax / 10
      unfold BCQP.dblMax
      have : (2 : ℝ) ^ 10 ≤ 2 ^ 1023 := pow_le_pow_right₀ (by norm_num) (by norm_num)
      generalize (2 : ℝ) ^ 1023 = w at *
      norm_num at *
      linarith
  have hmem : ∀ g, (∃ b ∈ all (twoBallsCfg c).place.g.n s2.P, b.gid = g) ↔ g = 7 ∨ g = 9 := by
    intro g
    rw [← List.mem_map]
    refine (hperm.mem_iff (a := g)).trans ?_
    simp
  obtain ⟨a1, a2⟩ := C94_add id 0 _ hrun (fun _ => rfl) [[NoOverlap.ball 0 0 0.1], [NoOverlap.ball 0 0 0.9]] (by rw [hn']; rfl) 9 (by norm_num)
    (fun b hb => by rcases (hmem _).1 ⟨b, hb, rfl⟩ with e | e <;> omega) (Or.inr ((hmem 9).2 (Or.inr rfl)))
  obtain ⟨is, s', hs⟩ := a1 (by norm_num)
  obtain ⟨hrun', e1, e2, -⟩ := a2 is s' hs
  obtain ⟨i, j, rfl⟩ : ∃ i j, is = [[i], [j]] := by
    match is, e1 with
    | [[i], [j]], _ => exact ⟨i, j, rfl⟩
  have hij : i ≠ j := by
    have := e2.nodup_iff.2 (by decide)
    simpa using this
  refine ⟨twoBallsCfg c, twoBalls, _, s', _, _, [[(i, j)], []], hrun, h, hnd, hs, ?_, rfl, ⟨(i, j), rfl, hij, by simp, by simp⟩, ?_, ?_⟩
  · intro l hl b hb
    simp only [List.mem_cons, List.not_mem_nil, or_false] at hl
    rcases hl with rfl | rfl
    · rw [List.mem_singleton.1 hb]; exact hfit _ _
    · rw [List.mem_singleton.1 hb]; exact hfit _ _
  · intro l hl e he
    simp only [List.mem_cons, List.not_mem_nil, or_false] at hl
    rcases hl with rfl | rfl
    · rw [List.mem_singleton.1 he]
      exact Or.inl ⟨[j], by simp, by simp⟩
    · simp at he
  · exact .links _ _ 0 s' _ hrun' (fun _ => rfl)

end Verif
