import Verif.Model.MixTree
import Verif.Props.Mix
import Verif.Props.Force
import Verif.Props.Migrate
/-! C85: interaction between targets and sources on all ranks, with the tree of FDPS. -/
namespace Verif
open Stats Wrap Mix Tree Image Let
namespace Mix

theorem forall₂_of_map {α ι : Type} (f : ι → Option α) : ∀ (A : List α) (I : List ι), A.map some = I.map f → List.Forall₂ (fun i a => f i = some a) I A := by
  intro A
  induction A with
  | nil => intro I h; cases I with
    | nil => exact .nil
    | cons i I => simp at h
  | cons a A ih =>
    intro I h
    cases I with
    | nil => simp at h
    | cons i I =>
      simp only [List.map_cons, List.cons.injEq] at h
      exact .cons h.1.symm (ih I h.2)

theorem eq_filterMap_of_map {α ι : Type} (f : ι → Option α) (A : List α) (I : List ι) (h : A.map some = I.map f) : A = I.filterMap f := by
  have := congrArg (List.filterMap id) h
  simpa [List.filterMap_map, Function.comp_def] using this

theorem filterMap_isSome {α β : Type} (g : α → Option β) (l : List α) : l.filterMap g = (l.filter fun a => (g a).isSome).filterMap g := by
  induction l with
  | nil => rfl
  | cons a l ih =>
    rw [List.filterMap_cons, List.filter_cons]
    cases h : g a with
    | none => simp [ih]
    | some b => simp [h, ih]

/-- Two lists given by places without repetition that agree where `p` holds. -/
theorem filter_perm {α ι : Type} (f : ι → Option α) (p : α → Bool) {A B : List α} {I J : List ι} (hA : A.map some = I.map f) (hB : B.map some = J.map f)
    (hI : I.Nodup) (hJ : J.Nodup) (h : ∀ o a, f o = some a → p a = true → (o ∈ I ↔ o ∈ J)) : (A.filter p).Perm (B.filter p) := by
  classical
  rw [eq_filterMap_of_map f A I hA, eq_filterMap_of_map f B J hB, List.filter_filterMap, List.filter_filterMap,
    filterMap_isSome _ I, filterMap_isSome _ J]
  refine List.Perm.filterMap _ ((List.perm_ext_iff_of_nodup (hI.filter _) (hJ.filter _)).2 fun o => ?_)
  rw [List.mem_filter, List.mem_filter]
  refine and_congr_left fun ho => ?_
  obtain ⟨a, ha⟩ := Option.isSome_iff_exists.1 ho
  obtain ⟨h1, h2⟩ := Option.filter_eq_some_iff.1 ha
  exact h o a h1 h2

theorem flatMap_index {α β : Type} (l : List α) (g : α → List β) : l.flatMap g = (List.range l.length).flatMap fun j => ((l[j]?).map g).getD [] := by
  rw [List.flatMap_def, List.flatMap_def]
  congr 1
  apply List.ext_getElem
  · simp
  · intro i h1 h2
    simp at h1
    simp [h1]

theorem flatMap_map_congr {α β : Type} {l : List α} {f : α → List β} {g : α → List β} (h : ∀ a ∈ l, f a = g a) : l.flatMap f = l.flatMap g := by
  rw [List.flatMap_def, List.flatMap_def, List.map_congr_left h]

end Mix

section
variable {FT FS T S : Type} {ct : Class FT T} {cs : Class FS S}

/-- Displacement by `k` box lengths. -/
noncomputable def Mix.box (d : Dinfo) (k : Idx) : V3 :=
  ⟨k.x * (d.root.high.x - d.root.low.x), k.y * (d.root.high.y - d.root.low.y), k.z * (d.root.high.z - d.root.low.z)⟩

/-- C85, the tree: if every particle lies in the domain of its rank, `computeForce` ends on every rank, with any schedule, and does what C57 assumes of the tree, with displacements
by box lengths that occur, none twice; with any other displacement no particle of the rank is within the search radii of an image. -/
theorem C85_tree (lt : Lawful ct) (ls : Lawful cs) (F : Force.Config) (d : Dinfo) (Q : ℕ → List (Loaded T S)) (hS : Force.Setup F d (fun r => (Q r).map (Loaded.toEp ct cs)))
    (X : ℕ → Force.RankExec (MixEPI T × MixEPJ S)) (hX : ∀ r < d.n, (X r).Valid F ((Q r).map (Loaded.toEp ct cs))) {R O : Type}
    (ftr : List (MixEPI T) → List (MixEPJ S) → List R × List O) (hftr : ∀ is js, (ftr is js).1.length = is.length) :
    ∃ N, ∀ fuel, N ≤ fuel → ∀ b < d.n, ∃ forces out, treeForce ct cs F d Q X ftr b fuel = some (forces.map some, out) ∧ ∃ (K : List Idx) (world : List (MixEPJ S)),
      K.Nodup ∧ (∀ k ∈ K, Allowed d.pa k) ∧ IsWorld ct cs ((List.range d.n).map fun r => (Q r).map Loaded.fp) (K.map (box d)) world ∧
      CalcForceAll ct cs ftr ((Q b).map Loaded.fp) world forces out ∧
      ∀ k, Allowed d.pa k → k ∉ K → ∀ q ∈ Q b, ∀ a < d.n, ∀ q' ∈ Q a,
        q.fp.getRadius ct cs ^ 2 < V3.normSq (q.fp.getPos ct cs - (q'.fp.getPos ct cs + box d k)) ∧
        q'.fp.getRadius ct cs ^ 2 < V3.normSq (q.fp.getPos ct cs - (q'.fp.getPos ct cs + box d k)) := by
  classical
  obtain ⟨N, hN⟩ := C78_calc_force_all F d (fun r => (Q r).map (Loaded.toEp ct cs)) hS X hX
    (fun ei ej => ftr (ei.map fun p => p.data.1) (ej.map (image cs))) (fun ei ej => by simp [hftr])
  refine ⟨N, fun fuel hfu b hb => ?_⟩
  obtain ⟨forces', out, e, hlen, calls, hperm, hgood, hout⟩ := hN fuel hfu b hb
  rw [List.length_map] at hlen hperm
  -- every force is written
  obtain ⟨forces, rfl⟩ : ∃ forces : List R, forces' = forces.map some := by
    have : ∀ x ∈ forces', x ≠ none := by
      intro x hx hn
      obtain ⟨i, hi, hix⟩ := List.getElem_of_mem hx
      have him : i ∈ calls.flatMap Force.Call.is := by rw [hperm.mem_iff, List.mem_range]; omega
      obtain ⟨c, hc, hic⟩ := List.mem_flatMap.1 him
      have h1 := (hgood c hc).2
      have h2 : forces'[i]? ∈ c.is.map (fun (i : ℕ) => forces'[i]?) := List.mem_map_of_mem hic
      rw [h1, List.mem_map] at h2
      obtain ⟨y, -, hy⟩ := h2
      rw [List.getElem?_eq_getElem hi, hix, hn] at hy
      simp at hy
    refine ⟨forces'.filterMap id, ?_⟩
    clear hgood hlen hout e
    induction forces' with
    | nil => rfl
    | cons x l ih =>
      cases x with
      | none => exact absurd rfl (this none (by simp))
      | some y => simpa using ih fun z hz => this z (by simp [hz])
  rw [List.length_map] at hlen
  let K : List Idx := ((calls.flatMap Force.Call.js).map fun o => o.2.2).dedup
  have hK : ∀ k, k ∈ K ↔ ∃ c ∈ calls, ∃ o ∈ c.js, o.2.2 = k := by
    intro k
    simp only [K, List.mem_dedup, List.mem_map, List.mem_flatMap]
    exact ⟨fun ⟨o, ⟨c, hc, ho⟩, h⟩ => ⟨c, hc, o, ho, h⟩, fun ⟨c, hc, o, ho, h⟩ => ⟨o, ⟨c, hc, ho⟩, h⟩⟩
  have hKa : ∀ k ∈ K, Allowed d.pa k := by
    intro k hk
    obtain ⟨c, hc, o, ho, rfl⟩ := (hK k).1 hk
    exact ((hgood c hc).1.valid o ho).2
  let img : Loaded T S → Idx → MixEPJ S := fun q k =>
    (q.oldJ.copyFromFP ct cs q.fp).setPos cs ((q.oldJ.copyFromFP ct cs q.fp).getPos cs + box d k)
  let world : List (MixEPJ S) := (List.range d.n).flatMap fun a => (Q a).flatMap fun q => K.map fun k => img q k
  let W : List (ℕ × ℕ × Idx) := (List.range d.n).flatMap fun a => (List.range (Q a).length).flatMap fun j => K.map fun k => (a, j, k)
  let f : ℕ × ℕ × Idx → Option (MixEPJ S) := fun o => ((Q o.1)[o.2.1]?).map fun q => img q o.2.2
  have hcopy : ∀ o, (Force.copyAt d (fun r => (Q r).map (Loaded.toEp ct cs)) o).map (image cs) = f o := by
    intro o
    simp only [Force.copyAt, f, List.getElem?_map, Option.map_map]
    rfl
  have hWm : ∀ o, o ∈ W ↔ o.1 < d.n ∧ o.2.1 < (Q o.1).length ∧ o.2.2 ∈ K := by
    rintro ⟨a, j, k⟩
    simp only [W, List.mem_flatMap, List.mem_range, List.mem_map, Prod.mk.injEq]
    constructor
    · rintro ⟨_, h1, _, h2, _, h3, rfl, rfl, rfl⟩
      exact ⟨h1, h2, h3⟩
    · rintro ⟨h1, h2, h3⟩
      exact ⟨a, h1, j, h2, k, h3, rfl, rfl, rfl⟩
  have hWn : W.Nodup := by
    refine List.nodup_flatMap.2 ⟨fun a _ => List.nodup_flatMap.2 ⟨fun j _ => (List.nodup_dedup _).map fun k k' h => by simpa using h, ?_⟩, ?_⟩
    · refine List.nodup_range.imp fun {j j'} hne => ?_
      rw [Function.onFun, List.disjoint_left]
      intro o h1 h2
      obtain ⟨k, -, rfl⟩ := List.mem_map.1 h1
      obtain ⟨k', -, h3⟩ := List.mem_map.1 h2
      simp only [Prod.mk.injEq] at h3
      exact hne h3.2.1.symm
    · refine List.nodup_range.imp fun {a a'} hne => ?_
      rw [Function.onFun, List.disjoint_left]
      intro o h1 h2
      simp only [List.mem_flatMap, List.mem_map] at h1 h2
      obtain ⟨j, -, k, -, rfl⟩ := h1
      obtain ⟨j', -, k', -, h3⟩ := h2
      simp only [Prod.mk.injEq] at h3
      exact hne h3.1.symm
  have hworldW : world.map some = W.map f := by
    simp only [world, W, List.map_flatMap]
    refine flatMap_map_congr fun a _ => ?_
    rw [flatMap_index (Q a)]
    refine flatMap_map_congr fun j hj => ?_
    rw [List.mem_range] at hj
    rw [List.getElem?_eq_getElem hj]
    simp only [Option.map_some, Option.getD_some, List.map_map]
    refine List.map_congr_left fun k _ => ?_
    simp only [Function.comp, f, List.getElem?_eq_getElem hj, Option.map_some]
  -- positions and radii
  have hpos : ∀ q : Loaded T S, (q.toEp ct cs).pos = q.fp.getPos ct cs ∧ (q.toEp ct cs).rs = q.fp.getRadius ct cs := fun q =>
    ⟨(C57_copies lt ls q.oldI q.oldJ q.fp).2.1, (C57_copies lt ls q.oldI q.oldJ q.fp).2.2.2.1⟩
  have himg : ∀ q k, (img q k).getPos cs = q.fp.getPos ct cs + box d k ∧ (img q k).radius = q.fp.getRadius ct cs := by
    intro q k
    have h1 := (C57_copies lt ls q.oldI q.oldJ q.fp)
    simp only at h1
    simp only [img, MixEPJ.setPos]
    split_ifs with hs
    · exact ⟨by simp only [MixEPJ.getPos, hs, if_true, ls.get_set]; rw [← h1.2.1]; simp only [MixEPJ.getPos, hs, if_true], h1.2.2.2.1⟩
    · refine ⟨?_, h1.2.2.2.1⟩
      have : (q.oldJ.copyFromFP ct cs q.fp).srcFlag = false := by simpa using hs
      simp only [MixEPJ.getPos, this]
      rw [← h1.2.1]
      simp [MixEPJ.getPos, this]
  -- pairs that are near are offered
  have hcomp : ∀ c ∈ calls, ∀ i ∈ c.is, ∀ q, (Q b)[i]? = some q → ∀ (a j : ℕ) (k : Idx) (q' : Loaded T S), a < d.n → Allowed d.pa k → (Q a)[j]? = some q' →
      V3.normSq (q.fp.getPos ct cs - (q'.fp.getPos ct cs + box d k)) ≤ max (q.fp.getRadius ct cs ^ 2) (q'.fp.getRadius ct cs ^ 2) → (a, j, k) ∈ c.js := by
    intro c hc i hi q hq a j k q' ha hk hq' hle
    refine (hgood c hc).1.complete i hi a j k (q.toEp ct cs) ⟨(q'.toEp ct cs).pos + box d k, (q'.toEp ct cs).rs, (q'.toEp ct cs).data⟩ ha hk ?_ ?_ ?_
    · simp [hq]
    · simp only [Force.copyAt, List.getElem?_map, hq', Option.map_some]
      rfl
    · simp only
      rw [(hpos q).1, (hpos q').1, (hpos q).2, (hpos q').2, ← pow_two, ← pow_two]
      exact hle
  refine ⟨forces, out, e, K, world, List.nodup_dedup _, hKa, ?_, ⟨by simpa using hlen, calls.map fun c => (c.is, c.ei.map (fun p => p.data.1), c.ej.map (image cs)), ?_, ?_, ?_⟩, ?_⟩
  · unfold IsWorld
    have h1 : ((List.range d.n).map fun r => (Q r).map Loaded.fp).flatten ×ˢ K.map (box d)
        = (((List.range d.n).flatMap Q) ×ˢ K).map fun q => (q.1.fp, box d q.2) := by
      rw [← List.flatMap_def, ← List.map_flatMap]
      generalize (List.range d.n).flatMap Q = l
      induction l with
      | nil => rfl
      | cons q l ih => simp only [List.map_cons, List.product_cons, List.map_append, ih, List.map_map]; rfl
    have h2 : world = (((List.range d.n).flatMap Q) ×ˢ K).map fun q => img q.1 q.2 := by
      simp only [world]
      rw [← List.flatMap_assoc]
      generalize (List.range d.n).flatMap Q = l
      induction l with
      | nil => rfl
      | cons q l ih => simp only [List.flatMap_cons, List.product_cons, List.map_append, ih, List.map_map]; rfl
    rw [h1, h2, List.forall₂_map_left_iff, List.forall₂_map_right_iff, List.forall₂_same]
    rintro ⟨q, k⟩ -
    exact ⟨q.oldJ, rfl⟩
  · rw [List.flatMap_map, List.length_map]
    exact hperm
  · intro c' hc'
    obtain ⟨c, hc, rfl⟩ := List.mem_map.1 hc'
    have hei := forall₂_of_map _ _ _ (hgood c hc).1.ei
    refine ⟨?_, ?_, ?_⟩
    · simp only
      rw [List.forall₂_map_right_iff]
      refine hei.imp fun i p h => ?_
      simp only [List.getElem?_map, Option.map_eq_some_iff] at h
      obtain ⟨q, hq, rfl⟩ := h
      exact ⟨q.fp, q.oldI, by simp [hq], rfl⟩
    · simp only
      have h1 := (hgood c hc).2
      have h2 : ((ftr (c.ei.map fun p => p.data.1) (c.ej.map (image cs))).1).map some = c.is.map fun (i : ℕ) => forces[i]? := by
        have := congrArg (List.map (Option.getD · none)) h1
        simp only [List.map_map] at this
        rw [show ((fun x : Option (Option R) => x.getD none) ∘ fun r : R => some (some r)) = some from rfl] at this
        rw [← this]
        refine List.map_congr_left fun i _ => ?_
        simp only [Function.comp, List.getElem?_map]
        cases forces[i]? <;> rfl
      exact forall₂_of_map _ _ _ h2
    · intro x hx
      simp only at hx ⊢
      obtain ⟨p, hp, rfl⟩ := List.mem_map.1 hx
      obtain ⟨i, hi, q, hq, rfl⟩ : ∃ i ∈ c.is, ∃ q, (Q b)[i]? = some q ∧ p = q.toEp ct cs := by
        have h1 : some p ∈ c.ei.map some := List.mem_map_of_mem hp
        rw [(hgood c hc).1.ei, List.mem_map] at h1
        obtain ⟨i, hi, h2⟩ := h1
        simp only [List.getElem?_map, Option.map_eq_some_iff] at h2
        obtain ⟨q, hq, h3⟩ := h2
        exact ⟨i, hi, q, hq, h3.symm⟩
      have hej : (c.ej.map (image cs)).map some = c.js.map f := by
        have := congrArg (List.map (Option.map (image cs))) (hgood c hc).1.ej
        simp only [List.map_map] at this ⊢
        rw [show (Option.map (image cs) ∘ some) = (some ∘ image (T := T) cs) from rfl] at this
        rw [this]
        exact List.map_congr_left fun o _ => hcopy o
      refine filter_perm f _ hej hworldW (hgood c hc).1.nodup hWn ?_
      rintro ⟨a, j, k⟩ y hy hnear
      simp only [f, Option.map_eq_some_iff] at hy
      obtain ⟨q', hq', rfl⟩ := hy
      have hI := C57_copies lt ls q.oldI q.oldJ q.fp
      simp only at hI
      constructor
      · intro ho
        exact (hWm _).2 ⟨((hgood c hc).1.valid _ ho).1, (List.getElem?_eq_some_iff.1 hq').1, (hK k).2 ⟨c, hc, _, ho, rfl⟩⟩
      · intro ho
        obtain ⟨h1, h2, h3⟩ := (hWm _).1 ho
        refine hcomp c hc i hi q hq a j k q' h1 (hKa k h3) hq' ?_
        simp only [near, Loaded.toEp, (himg q' k).1, (himg q' k).2, hI.1, hI.2.2.1, decide_eq_true_eq] at hnear
        exact le_max_iff.2 (hnear.elim (fun h => Or.inr h.le) fun h => Or.inl h.le)
  · rw [hout, List.flatMap_map]
  · intro k hk hkK q hq a ha q' hq'
    obtain ⟨i, hi, rfl⟩ := List.getElem_of_mem hq
    obtain ⟨j, hj, rfl⟩ := List.getElem_of_mem hq'
    have him : i ∈ calls.flatMap Force.Call.is := by rw [hperm.mem_iff, List.mem_range]; exact hi
    obtain ⟨c, hc, hic⟩ := List.mem_flatMap.1 him
    have hno : ¬ V3.normSq ((Q b)[i].fp.getPos ct cs - ((Q a)[j].fp.getPos ct cs + box d k)) ≤
        max ((Q b)[i].fp.getRadius ct cs ^ 2) ((Q a)[j].fp.getRadius ct cs ^ 2) := fun hle =>
      hkK ((hK k).2 ⟨c, hc, _, hcomp c hc i hic _ (List.getElem?_eq_getElem hi) a j k _ ha hk (List.getElem?_eq_getElem hj) hle, rfl⟩)
    rw [not_le, max_lt_iff] at hno
    exact hno

/-- **C85**: with targets and sources on the ranks that own their (wrapped) places, `computeForce` with the functor of the test ends on every rank, and counts and records for each target of
the rank, in the order of the targets, the periodic images of the sources of all ranks within one of the two search radii, each once. -/
theorem C85_mix (lt : Lawful ct) (ls : Lawful cs) (dd : Stats.Domain) (w : V3 → V3) (hw : ∀ p, AdjustPos id dd p (w p)) (trg : ℕ → List FT) (src : ℕ → List FS)
    (F : Force.Config) (d : Dinfo) (Q : ℕ → List (Loaded T S)) (hQ : ∀ r < d.n, ∃ old, UpdateSystem ct cs dd old (trg r) (src r) ((Q r).map Loaded.fp))
    (hS : Force.Setup F d (fun r => (Q r).map (Loaded.toEp ct cs)))
    (X : ℕ → Force.RankExec (MixEPI T × MixEPJ S)) (hX : ∀ r < d.n, (X r).Valid F ((Q r).map (Loaded.toEp ct cs))) :
    ∃ N, ∀ fuel, N ≤ fuel → ∀ b < d.n, ∃ forces out res, treeForce ct cs F d Q X (findPairs ct cs) b fuel = some (forces.map some, out) ∧
      forceResult (trg b).length forces = some res ∧ ∃ K : List Idx, K.Nodup ∧ (∀ k ∈ K, Allowed d.pa k) ∧
      (∀ k, Allowed d.pa k → k ∉ K → ∀ t ∈ trg b, ∀ a < d.n, ∀ s ∈ src a, ¬ Touch ct cs (placedT ct w t) (placedS cs w s (box d k))) ∧
      res = (trg b).map (fun t => (pairsOf ct cs w ((List.range d.n).flatMap src) (K.map (box d)) t).length) ∧
      out.Perm ((trg b).flatMap (pairsOf ct cs w ((List.range d.n).flatMap src) (K.map (box d)))) := by
  obtain ⟨N, hN⟩ := C85_tree lt ls F d Q hS X hX (findPairs ct cs) (by simp [findPairs])
  refine ⟨N, fun fuel hfu b hb => ?_⟩
  obtain ⟨forces, out, e, K, world, hK, hKa, hworld, hcalc, hno⟩ := hN fuel hfu b hb
  obtain ⟨res, h1, h2, h3⟩ := C57_mix lt ls dd w hw ((List.range d.n).map fun r => (trg r, src r, (Q r).map Loaded.fp)) (by
      intro r hr
      obtain ⟨a, ha, rfl⟩ := List.mem_map.1 hr
      exact hQ a (List.mem_range.1 ha)) (K.map (box d)) world (by simpa [List.map_map, Function.comp_def] using hworld)
    (trg b, src b, (Q b).map Loaded.fp) (List.mem_map.2 ⟨b, List.mem_range.2 hb, rfl⟩) forces out hcalc
  simp only [List.flatMap_map] at h2 h3
  refine ⟨forces, out, res, e, h1, K, hK, hKa, ?_, h2, h3⟩
  intro k hk hkK t ht a ha s hs
  obtain ⟨old, hu⟩ := hQ b hb
  obtain ⟨old', hu'⟩ := hQ a ha
  have e1 := update_eq hw hu
  have e2 := update_eq hw hu'
  obtain ⟨q, hq, q1, q2⟩ : ∃ q ∈ Q b, q.fp.trgFlag = true ∧ q.fp.epTrg = placedT ct w t := by
    obtain ⟨i, hi, rfl⟩ := List.getElem_of_mem ht
    have : (⟨true, placedT ct w (trg b)[i], (old i).epSrc⟩ : MixFP T S) ∈ (Q b).map Loaded.fp := by
      rw [e1]
      exact List.mem_append_left _ (List.mem_mapIdx.2 ⟨i, hi, rfl⟩)
    obtain ⟨q, hq, h⟩ := List.mem_map.1 this
    exact ⟨q, hq, by rw [h], by rw [h]⟩
  obtain ⟨q', hq', q3, q4⟩ : ∃ q ∈ Q a, q.fp.trgFlag = false ∧ q.fp.epSrc = cs.setPos (cs.copyFromFP s) (w (cs.getPos (cs.copyFromFP s))) := by
    obtain ⟨i, hi, rfl⟩ := List.getElem_of_mem hs
    have : (⟨false, (old' (i + (trg a).length)).epTrg, cs.setPos (cs.copyFromFP (src a)[i]) (w (cs.getPos (cs.copyFromFP (src a)[i])))⟩ : MixFP T S) ∈ (Q a).map Loaded.fp := by
      rw [e2]
      exact List.mem_append_right _ (List.mem_mapIdx.2 ⟨i, hi, rfl⟩)
    obtain ⟨q, hq, h⟩ := List.mem_map.1 this
    exact ⟨q, hq, by rw [h], by rw [h]⟩
  have := hno k hk hkK q hq a ha q' hq'
  simp only [MixFP.getRadius, MixFP.getPos, q1, q3, if_true, q2, q4, ls.get_set, ls.search_set, Bool.false_eq_true, if_false] at this
  simp only [Touch, placedS, ls.get_set, ls.search_set, not_or, not_lt]
  exact ⟨this.2.le, this.1.le⟩

end

/-- A target and a source on two ranks, on the two sides of a periodic face: they find each other. -/
example : ∃ (F : Force.Config) (d : Dinfo) (Q : ℕ → List (Loaded (V3 × ℝ) (V3 × ℝ))) (X : ℕ → Force.RankExec (MixEPI (V3 × ℝ) × MixEPJ (V3 × ℝ))) (fuel : ℕ)
    (forces : List ℕ) (out : List (Pair (V3 × ℝ) (V3 × ℝ))) (m : ℕ), d.n = 2 ∧
    treeForce pointClass pointClass F d Q X (findPairs pointClass pointClass) 1 fuel = some (forces.map some, out) ∧ forceResult 1 forces = some [m + 1] := by
  let dd : Stats.Domain := ⟨.xyz, fun _ => true, fun _ => 0, fun _ => 1⟩
  let d : Dinfo := ⟨⟨true, true, true⟩, ⟨⟨0, 0, 0⟩, ⟨1, 1, 1⟩⟩, halves, 2⟩
  have hex : ∀ p, ∃ q, AdjustPos id dd p q := by
    intro p
    choose x hx using fun k => axis_exact (show dd.low k < dd.high k by norm_num [dd]) (Near.comp p k)
    refine ⟨⟨x 0, x 1, x 2⟩, fun k => ?_⟩
    have : Near.comp ⟨x 0, x 1, x 2⟩ k = x k := by fin_cases k <;> simp [Near.comp]
    rw [this]
    exact (hx k).1
  choose w hw using hex
  have hfix : ∀ p : V3, (∀ k, 0 ≤ Near.comp p k ∧ Near.comp p k < 1) → w p = p := by
    intro p hp
    apply comp_ext
    intro k
    exact axis_unique (hw p k) (axis_fixed id (hp k).1 (hp k).2)
  let pt : V3 × ℝ := (⟨0.9, 0.5, 0.5⟩, 0.3)
  let ps : V3 × ℝ := (⟨0.1, 0.5, 0.5⟩, 0.1)
  have wt : w ⟨0.9, 0.5, 0.5⟩ = ⟨0.9, 0.5, 0.5⟩ := hfix _ (by intro k; fin_cases k <;> norm_num [Near.comp])
  have ws : w ⟨0.1, 0.5, 0.5⟩ = ⟨0.1, 0.5, 0.5⟩ := hfix _ (by intro k; fin_cases k <;> norm_num [Near.comp])
  let trg : ℕ → List (V3 × ℝ) := fun r => if r = 1 then [pt] else []
  let src : ℕ → List (V3 × ℝ) := fun r => if r = 0 then [ps] else []
  let oi : MixEPI (V3 × ℝ) := ⟨true, 0, 0, pt⟩
  let oj : MixEPJ (V3 × ℝ) := ⟨true, 0, 0, ps⟩
  let Q : ℕ → List (Loaded (V3 × ℝ) (V3 × ℝ)) := fun r => if r = 0 then [⟨⟨false, pt, ps⟩, oi, oj⟩] else if r = 1 then [⟨⟨true, pt, ps⟩, oi, oj⟩] else []
  have hu : ∀ r < d.n, ∃ old, UpdateSystem pointClass pointClass dd old (trg r) (src r) ((Q r).map Loaded.fp) := by
    intro r hr
    refine ⟨fun _ => ⟨true, pt, ps⟩, ?_⟩
    have h2 : r = 0 ∨ r = 1 := by simp only [d] at hr; omega
    rcases h2 with rfl | rfl
    · refine List.Forall₂.cons ⟨_, hw _, ?_⟩ .nil
      simp only [MixFP.setPos, MixFP.getPos, pointClass, id, ps, Bool.false_eq_true, if_false, ws]
    · refine List.Forall₂.cons ⟨_, hw _, ?_⟩ .nil
      simp only [MixFP.setPos, MixFP.getPos, pointClass, id, pt, if_true, wt]
  have hmem : ∀ r, ∀ q ∈ Q r, (r = 0 ∧ q.toEp pointClass pointClass = ⟨⟨0.1, 0.5, 0.5⟩, 0.1, (oi.copyFromFP pointClass pointClass q.fp, oj.copyFromFP pointClass pointClass q.fp)⟩) ∨
      (r = 1 ∧ q.toEp pointClass pointClass = ⟨⟨0.9, 0.5, 0.5⟩, 0.3, (oi.copyFromFP pointClass pointClass q.fp, oj.copyFromFP pointClass pointClass q.fp)⟩) := by
    intro r q hq
    simp only [Q] at hq
    split_ifs at hq with h0 h1 <;> simp only [List.mem_singleton, List.not_mem_nil] at hq
    · left; subst hq; refine ⟨h0, ?_⟩; simp [Loaded.toEp, MixEPJ.copyFromFP, MixEPJ.getPos, MixEPJ.setPos, MixFP.getRadius, MixFP.getPos, pointClass, ps]
    · right; subst hq; refine ⟨h1, ?_⟩; simp [Loaded.toEp, MixEPJ.copyFromFP, MixEPJ.getPos, MixEPJ.setPos, MixFP.getRadius, MixFP.getPos, pointClass, pt]
  have hti : ∀ r < 2, Box.Proper (halves r) ∧ ∀ p, Box.Mem p (halves r) → Box.Mem p d.root := halves_grid.tiles.1
  have hS : Force.Setup ⟨100, 1, 2, 3⟩ d (fun r => (Q r).map (Loaded.toEp pointClass pointClass)) := by
    refine ⟨?_, ?_, fun r hr => (hti r hr).1, fun r hr => (hti r hr).2, ⟨fun _ => ?_, fun _ => ?_, fun _ => ?_⟩, ⟨fun _ => ?_, fun _ => ?_, fun _ => ?_⟩,
      fun _ _ _ _ => Or.inl ?_, fun _ r _ e he => ?_, by norm_num, by norm_num, by norm_num⟩
    · intro r _ e he
      obtain ⟨q, hq, rfl⟩ := List.mem_map.1 he
      rcases hmem r q hq with ⟨rfl, h⟩ | ⟨rfl, h⟩ <;> rw [h] <;> norm_num [Box.MemHalf, halves, d]
    · intro r _ e he
      obtain ⟨q, hq, rfl⟩ := List.mem_map.1 he
      rcases hmem r q hq with ⟨rfl, h⟩ | ⟨rfl, h⟩ <;> rw [h] <;> norm_num
    all_goals try norm_num [d, Dinfo.size, Axes.some]
    obtain ⟨q, hq, rfl⟩ := List.mem_map.1 he
    rcases hmem r q hq with ⟨rfl, h⟩ | ⟨rfl, h⟩ <;> rw [h] <;> norm_num
  obtain ⟨N, hN⟩ := C85_mix pointClass_lawful pointClass_lawful dd w hw trg src ⟨100, 1, 2, 3⟩ d Q hu hS
    (fun r => Force.plainExec 3 ((Q r).map (Loaded.toEp pointClass pointClass))) (fun r _ => Force.plainExec_valid (c := ⟨100, 1, 2, 3⟩) (by norm_num) _)
  obtain ⟨forces, out, res, e, h1, K, -, -, h2, h3, -⟩ := hN N le_rfl 1 (by norm_num [d])
  have ht : Touch pointClass pointClass (placedT pointClass w pt) (placedS pointClass w ps (box d ⟨1, 0, 0⟩)) := by
    right
    simp only [placedT, placedS, pointClass, id, pt, ps, wt, ws, box, d]
    norm_num [V3.normSq, V3.dot]
  have hk : (⟨1, 0, 0⟩ : Idx) ∈ K := by
    by_contra hk
    exact h2 ⟨1, 0, 0⟩ (by simp [Allowed, d]) hk pt (by simp [trg]) 0 (by norm_num [d]) ps (by simp [src]) ht
  have hpos : 0 < (pairsOf pointClass pointClass w ((List.range d.n).flatMap src) (K.map (box d)) pt).length := by
    rw [List.length_pos_iff_exists_mem]
    refine ⟨_, List.mem_map.2 ⟨(ps, box d ⟨1, 0, 0⟩), List.mem_filter.2 ⟨?_, by simpa using ht⟩, rfl⟩⟩
    rw [List.mem_product]
    exact ⟨List.mem_flatMap.2 ⟨0, by simp [d], by simp [src]⟩, List.mem_map.2 ⟨_, hk, rfl⟩⟩
  obtain ⟨m, hm⟩ := Nat.exists_eq_succ_of_ne_zero hpos.ne'
  refine ⟨_, d, Q, _, N, forces, out, m, rfl, e, ?_⟩
  have h4 : (trg 1).length = 1 := rfl
  rw [h4] at h1
  rw [h1, h3, show trg 1 = [pt] from rfl, List.map_singleton, hm]

end Verif
