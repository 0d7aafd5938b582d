import Verif.Props.Let
/-! C78: `calcForceAll` over all ranks. -/
namespace Verif
open Tree Image Let RootCell Force

/-- Translation of a place in the sorted particles of a rank to the place in its particles. -/
private theorem translate {α : Type} {d : Dinfo} {P : ℕ → List (Ep α)} {T : ℕ → MTree α} {sel : ℕ → List ℕ}
    (hT : ∀ r < d.n, (T r).eps.map some = (sel r).map (fun (i : ℕ) => (P r)[i]?)) (hn : ∀ r < d.n, (sel r).Nodup)
    {O : List (ℕ × ℕ × Idx)} (hO : ∀ o ∈ O, o.1 < d.n) (hs : ∀ o ∈ O, ∃ e, copyOf d T o = some e) (hnd : O.Nodup) :
    let O' := O.map (fun o => (o.1, (sel o.1).getD o.2.1 0, o.2.2))
    O.map (copyOf d T) = O'.map (copyAt d P) ∧ O'.Nodup ∧
      ∀ (a j q : ℕ) (k : Idx), (a, q, k) ∈ O → (sel a)[q]? = some j → (a, j, k) ∈ O' := by
  have hget : ∀ o ∈ O, (sel o.1)[o.2.1]? = some ((sel o.1).getD o.2.1 0) := by
    intro o ho
    obtain ⟨e, he⟩ := hs o ho
    rw [copyOf, Option.map_eq_some_iff] at he
    obtain ⟨e', h1, _⟩ := he
    obtain ⟨i, h2, _⟩ := (map_some_getElem (hT o.1 (hO o ho))).mp h1
    rw [h2, List.getD_eq_getElem?_getD, h2]
    rfl
  refine ⟨?_, ?_, ?_⟩
  · rw [List.map_map]
    apply List.map_congr_left
    intro o ho
    have h1 := hget o ho
    simp only [Function.comp, copyOf, copyAt]
    have h2 := congrArg (fun x : List (Option (Ep α)) => x[o.2.1]?) (hT o.1 (hO o ho))
    simp only [List.getElem?_map, h1, Option.map_some] at h2
    obtain ⟨e, e1, e2⟩ := Option.map_eq_some_iff.mp h2
    rw [e1, ← e2]
    rfl
  · apply List.Nodup.map_on _ hnd
    rintro ⟨a, j, k⟩ ho ⟨a', j', k'⟩ ho' he
    simp only [Prod.mk.injEq] at he
    obtain ⟨rfl, h2, rfl⟩ := he
    have h3 := hget _ ho
    have h4 := hget _ ho'
    simp only at h3 h4
    rw [h2] at h3
    rw [(List.getElem?_inj (List.getElem?_eq_some_iff.mp h3).1 (hn a (hO _ ho))).mp (h3.trans h4.symm)]
  · intro a j q k ho hq
    refine List.mem_map.mpr ⟨_, ho, ?_⟩
    have := hget _ ho
    simp only at this ⊢
    rw [hq] at this
    rw [← Option.some.inj this]

/-- `calcForceAll` ends on every rank, and the results are those of calls of the functor for groups in which every particle of
the rank takes part exactly once; the interaction list of a group has existing particles, displaced along periodic axes by
multiples of the box lengths, no copy twice, and every copy that is within the search radius of a particle of the group or has
one in its own. -/
theorem C78_calc_force_all {α R O : Type} (c : Config) (d : Dinfo) (P : ℕ → List (Ep α)) (hS : Setup c d P) (X : ℕ → RankExec α)
    (hX : ∀ r < d.n, (X r).Valid c (P r)) (ftr : List (Ep α) → List (Ep α) → List R × List O)
    (hftr : ∀ ei ej, (ftr ei ej).1.length = ei.length) :
    ∃ N, ∀ fuel, N ≤ fuel → ∀ b < d.n, ∃ forces out, calcForceAll c d P X ftr b fuel = some (forces, out) ∧
      Computes d P b ftr forces out := by
  obtain ⟨N1, f, h1, h2, h3⟩ := C77_root_cell c.big d.pa d.root d.n P (fun r => (X r).chunks) (fun r hr => (hX r hr).chunks)
    (fun r hr e he => ⟨hS.inRoot r hr _ (hS.inDom r hr e he).mem, hS.radius r hr e he⟩) hS.extent hS.spread
  have hloc : ∀ r < d.n, _ := fun r hr => localTree_spec f c.big c.leaf c.nt hS.leaf hS.threads ((X r).sortLoc (P r).length) (X r).treeLoc
    (hX r hr).treeLoc (P r) ((hX r hr).sortLoc _).1 ((hX r hr).sortLoc _).2 (h2 r hr)
  obtain ⟨Ls, l1, l2, l3⟩ := forRanks_spec (fun r => localTree f c.big c.leaf c.nt ((X r).sortLoc (P r).length) (X r).treeLoc (P r)) d.n
    (fun r hr => by obtain ⟨s, T, h, _⟩ := hloc r hr; exact ⟨_, h⟩)
  obtain ⟨T, hTd⟩ : ∃ T : ℕ → MTree α, T = fun r => ((Ls[r]?).map Prod.snd).getD noTree := ⟨_, rfl⟩
  obtain ⟨tp, htd⟩ : ∃ tp : ℕ → List TP, tp = fun r => ((Ls[r]?).map Prod.fst).getD [] := ⟨_, rfl⟩
  have hL : ∀ r < d.n, Ls[r]? = some (tp r, T r) ∧ ((tp r).map TP.adr).Perm (List.range (P r).length) ∧ (∀ t ∈ tp r, KeyOf f (P r) t) ∧
      Built c.big ((tp r).map TP.key) (T r) ∧ (T r).eps.map some = (tp r).map (fun t => (P r)[t.adr]?) ∧ (T r).limit = c.leaf := by
    intro r hr
    obtain ⟨s, A, e1, e2⟩ := hloc r hr
    have h := l3 r hr
    rw [e1] at h
    have a1 : tp r = s := by rw [htd]; simp [h]
    have a2 : T r = A := by rw [hTd]; simp [h]
    rw [a1, a2]
    exact ⟨h, e2⟩
  have hTe : ∀ r < d.n, (T r).eps.map some = ((tp r).map TP.adr).map (fun (i : ℕ) => (P r)[i]?) := by
    intro r hr
    rw [(hL r hr).2.2.2.2.1, List.map_map]
    rfl
  have hperm : ∀ r < d.n, (T r).eps.Perm (P r) := fun r hr => perm_eps (hL r hr).2.2.2.2.1 (hL r hr).2.1
  have hW : World d f c.big T := hS.world (fun r hr => ⟨_, (hL r hr).2.2.2.1⟩) hperm h2 h3
  obtain ⟨N2, hex⟩ := C76_exchange d f c.big T hW (fun r es => treeA f c.big (X r).srt ((X r).treeSnd es) es)
    (fun r hr => treeA_builds f c.big (X r).srt (hX r hr).srt (X r).treeSnd (hX r hr).treeSnd)
  refine ⟨max N1 N2, fun fuel hfu b hb => ?_⟩
  obtain ⟨rs, O, x1, x2, x3, x4, x5, x6⟩ := hex fuel (by omega) b hb
  have hsome : ∀ o ∈ O, ∃ e, e ∈ rs ∧ copyOf d T o = some e := by
    intro o ho
    have : copyOf d T o ∈ rs.map some := by rw [x2]; exact List.mem_map.mpr ⟨o, ho, rfl⟩
    obtain ⟨e, he, h⟩ := List.mem_map.mp this
    exact ⟨e, he, h.symm⟩
  obtain ⟨y1, y2, y3⟩ := translate (P := P) (sel := fun r => (tp r).map TP.adr) hTe
    (fun r hr => (hL r hr).2.1.nodup_iff.mpr List.nodup_range) (fun o ho => (x4 o ho).1)
    (fun o ho => by obtain ⟨e, _, h⟩ := hsome o ho; exact ⟨e, h⟩) x3
  obtain ⟨O', hO'⟩ : ∃ O', O' = O.map (fun o => (o.1, ((tp o.1).map TP.adr).getD o.2.1 0, o.2.2)) := ⟨_, rfl⟩
  rw [← hO'] at y1 y2 y3
  have hO4 : ∀ o ∈ O', o.1 < d.n ∧ Allowed d.pa o.2.2 ∧ (o.1 = b → o.2.2 ≠ ⟨0, 0, 0⟩) := by
    intro o ho
    rw [hO'] at ho
    obtain ⟨o', h, rfl⟩ := List.mem_map.mp ho
    exact x4 o' h
  obtain ⟨b1, b2, b3, b4, b5, b6⟩ := hL b hb
  have hown : (P b).map some = ((List.range (P b).length).map (fun i => (b, i, (⟨0, 0, 0⟩ : Idx)))).map (copyAt d P) := by
    apply List.ext_getElem (by simp)
    intro i i1 i2
    rw [List.length_map] at i1
    simp only [List.getElem_map, List.getElem_range, copyAt, List.getElem?_eq_getElem i1, Option.map_some]
    congr 1
    have : (P b)[i].pos + (⟨((0 : ℤ) : ℝ) * (d.root.high.x - d.root.low.x), ((0 : ℤ) : ℝ) * (d.root.high.y - d.root.low.y),
        ((0 : ℤ) : ℝ) * (d.root.high.z - d.root.low.z)⟩ : V3) = (P b)[i].pos := by ext <;> simp
    rw [this]
  have hrs : ∀ e ∈ rs, 0 ≤ e.rs := by
    intro e he
    have : some e ∈ rs.map some := List.mem_map.mpr ⟨e, he, rfl⟩
    rw [x2] at this
    obtain ⟨o, ho, h⟩ := List.mem_map.mp this
    rw [copyOf, Option.map_eq_some_iff] at h
    obtain ⟨e', h', rfl⟩ := h
    exact hW.radius o.1 (x4 o ho).1 e' (List.mem_of_getElem? h')
  obtain ⟨forces, out, z1, z2⟩ := finish_spec (c := c) (f := f) (x := X b) (d := d) (P := P) (b := b) ftr hftr (hX b hb) hS.leaf hS.group
    hS.threads (tps := tp b) (T := T b) (rs := rs)
    (allO := (List.range (P b).length).map (fun i => (b, i, (⟨0, 0, 0⟩ : Idx))) ++ O') b2 b3 b4 b5 b6 x6
    (fun e he => by
      rcases List.mem_append.mp he with he | he
      · exact hS.radius b hb e he
      · exact hrs e he)
    (by rw [List.map_append, List.map_append, ← hown, x2, y1])
    (by
      rw [List.nodup_append]
      refine ⟨List.Nodup.map (fun i j h => by simpa using h) List.nodup_range, y2, ?_⟩
      rintro o ho o' ho' rfl
      obtain ⟨i, _, rfl⟩ := List.mem_map.mp ho
      exact (hO4 _ ho').2.2 rfl rfl)
    (by
      intro o ho
      rcases List.mem_append.mp ho with ho | ho
      · obtain ⟨i, _, rfl⟩ := List.mem_map.mp ho
        exact ⟨hb, fun _ => rfl, fun _ => rfl, fun _ => rfl⟩
      · exact ⟨(hO4 o ho).1, (hO4 o ho).2.1⟩)
    (by
      intro i a j k e e' ha hk he he' hd
      rw [List.mem_append]
      simp only [copyAt, Option.map_eq_some_iff] at he'
      obtain ⟨ej, hj, rfl⟩ := he'
      by_cases hown' : a = b ∧ k = ⟨0, 0, 0⟩
      · left
        obtain ⟨rfl, rfl⟩ := hown'
        exact List.mem_map.mpr ⟨j, List.mem_range.mpr (List.getElem?_eq_some_iff.mp hj).1, rfl⟩
      · right
        have find : ∀ r < d.n, ∀ (i : ℕ) (e : Ep α), (P r)[i]? = some e → ∃ q : ℕ, ((tp r).map TP.adr)[q]? = some i ∧ (T r).eps[q]? = some e := by
          intro r hr i e he
          have hm : i ∈ (tp r).map TP.adr := (hL r hr).2.1.mem_iff.mpr (List.mem_range.mpr (List.getElem?_eq_some_iff.mp he).1)
          obtain ⟨q, hq, hq'⟩ := List.mem_iff_getElem.mp hm
          have hq2 : ((tp r).map TP.adr)[q]? = some i := by rw [List.getElem?_eq_getElem hq, hq']
          exact ⟨q, hq2, (map_some_getElem (hTe r hr)).mpr ⟨i, hq2, he⟩⟩
        obtain ⟨q, _, q2⟩ := find b hb i e he
        obtain ⟨q', q1', q2'⟩ := find a ha j ej hj
        exact y3 a j q' k (x5 a q q' e ej k ha q2 q2' hk (fun h h' => hown' ⟨h, h'⟩) hd) q1')
  refine ⟨forces, out, ?_, z2⟩
  rw [calcForceAll, h1 fuel (by omega)]
  simp only
  rw [l1]
  simp only
  rw [← hTd, b1, x1]
  exact z1

/-- Two ranks with three particles and three threads. -/
example : ∃ X : ℕ → RankExec Unit, Setup ⟨100, 1, 2, 3⟩ twoRanks twoLists ∧
    ∀ r < twoRanks.n, (X r).Valid ⟨100, 1, 2, 3⟩ (twoLists r) :=
  ⟨fun r => plainExec 3 (twoLists r), twoRanks_setup, fun r _ => plainExec_valid (c := ⟨100, 1, 2, 3⟩) (by norm_num) _⟩

end Verif
