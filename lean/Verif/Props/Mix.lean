import Verif.Model.Mix
import Verif.Props.Wrap
/-! Property C57: interaction between targets and sources. -/
namespace Verif
open Stats Wrap Mix

section
variable {FT FS T S : Type} (ct : Class FT T) (cs : Class FS S)

/-! ### what the bodies are -/

/-- The target `t` as it takes part, with positions wrapped by `w`: the particle with the data of `t` at the wrapped position. -/
noncomputable def placedT (w : V3 → V3) (t : FT) : T := ct.setPos (ct.copyFromFP t) (w (ct.getPos (ct.copyFromFP t)))

/-- The image of the source `s` moved by `v`. -/
noncomputable def placedS (w : V3 → V3) (s : FS) (v : V3) : S := cs.setPos (cs.copyFromFP s) (w (cs.getPos (cs.copyFromFP s)) + v)

/-- The two are within one of their search radii. -/
def Touch (t : T) (s : S) : Prop :=
  V3.normSq (ct.getPos t - cs.getPos s) < cs.getRSearch s ^ 2 ∨ V3.normSq (ct.getPos t - cs.getPos s) < ct.getRSearch t ^ 2

/-- The pair of the two. -/
noncomputable def pairOf (t : T) (s : S) : Pair T S := ⟨t, s, Real.sqrt (V3.normSq (ct.getPos t - cs.getPos s)), ct.getPos t, cs.getPos s⟩

open Classical in
/-- The pairs a target has with images of sources. -/
noncomputable def pairsOf (w : V3 → V3) (srcs : List FS) (shifts : List V3) (t : FT) : List (Pair T S) :=
  ((srcs ×ˢ shifts).filter fun q => Touch ct cs (placedT ct w t) (placedS cs w q.1 q.2)).map fun q => pairOf ct cs (placedT ct w t) (placedS cs w q.1 q.2)

/-! ### copies -/

variable {ct cs}

theorem epi_target (lt : Lawful ct) (old : MixEPI T) (fp : MixFP T S) (h : fp.trgFlag = true) :
    old.copyFromFP ct cs fp = ⟨true, ct.getRSearch fp.epTrg, old.pos, fp.epTrg⟩ := by
  simp [MixEPI.copyFromFP, h, MixEPI.setPos, MixFP.getRadius, MixFP.getPos, lt.set_get]

theorem epi_source (old : MixEPI T) (fp : MixFP T S) (h : fp.trgFlag = false) :
    old.copyFromFP ct cs fp = ⟨false, cs.getRSearch fp.epSrc, cs.getPos fp.epSrc, old.epTrg⟩ := by
  simp [MixEPI.copyFromFP, h, MixEPI.setPos, MixFP.getRadius, MixFP.getPos]

theorem epj_source (ls : Lawful cs) (old : MixEPJ S) (fp : MixFP T S) (h : fp.trgFlag = false) :
    old.copyFromFP ct cs fp = ⟨true, cs.getRSearch fp.epSrc, old.pos, fp.epSrc⟩ := by
  simp [MixEPJ.copyFromFP, h, MixEPJ.setPos, MixFP.getRadius, MixFP.getPos, ls.set_get]

theorem epj_target (old : MixEPJ S) (fp : MixFP T S) (h : fp.trgFlag = true) :
    old.copyFromFP ct cs fp = ⟨false, ct.getRSearch fp.epTrg, ct.getPos fp.epTrg, old.epSrc⟩ := by
  simp [MixEPJ.copyFromFP, h, MixEPJ.setPos, MixFP.getRadius, MixFP.getPos]

/-- **C57**, copies: whatever the objects held before, the copies of a mixed particle for the tree have its position and its radius; the data of a target are those of the first copy and only of that, the data of a source are
those of the second copy and only of that. -/
theorem C57_copies (lt : Lawful ct) (ls : Lawful cs) (i : MixEPI T) (j : MixEPJ S) (fp : MixFP T S) :
    let I := i.copyFromFP ct cs fp
    let J := j.copyFromFP ct cs fp
    I.getPos ct = fp.getPos ct cs ∧ J.getPos cs = fp.getPos ct cs ∧ I.radius = fp.getRadius ct cs ∧ J.radius = fp.getRadius ct cs ∧
    I.trgFlag = fp.trgFlag ∧ J.srcFlag = !fp.trgFlag ∧ (fp.trgFlag = true → I.epTrg = fp.epTrg) ∧ (fp.trgFlag = false → J.epSrc = fp.epSrc) := by
  cases h : fp.trgFlag with
  | true =>
    rw [epi_target lt i fp h, epj_target j fp h]
    simp [MixEPI.getPos, MixEPJ.getPos, MixFP.getPos, MixFP.getRadius, h]
  | false =>
    rw [epi_source i fp h, epj_source ls j fp h]
    simp [MixEPI.getPos, MixEPJ.getPos, MixFP.getPos, MixFP.getRadius, h]

/-! ### the mixed system -/

theorem map_mapIdx {α β γ : Type} (l : List α) (f : ℕ → α → β) (g : β → γ) : (l.mapIdx f).map g = l.mapIdx fun i a => g (f i a) := by
  apply List.ext_getElem?
  intro i
  simp [List.getElem?_mapIdx, Function.comp_def]


theorem update_eq {d : Domain} {w : V3 → V3} (hw : ∀ p, AdjustPos id d p (w p)) {old : ℕ → MixFP T S} {trg : List FT} {src : List FS} {sys : List (MixFP T S)}
    (h : UpdateSystem ct cs d old trg src sys) :
    sys = trg.mapIdx (fun i t => ⟨true, placedT ct w t, (old i).epSrc⟩) ++
      src.mapIdx (fun i s => ⟨false, (old (i + trg.length)).epTrg, cs.setPos (cs.copyFromFP s) (w (cs.getPos (cs.copyFromFP s)))⟩) := by
  have h1 := forall₂_det (fun fp : MixFP T S => fp.setPos ct cs (w (fp.getPos ct cs))) h (by
    rintro fp _ fp' ⟨p, hp, rfl⟩
    rw [show p = w (fp.getPos ct cs) from comp_ext fun k => axis_unique (hp k) (hw _ k)])
  rw [h1]
  unfold fill
  rw [List.map_append, map_mapIdx, map_mapIdx]
  rfl

theorem update_length {d : Domain} {w : V3 → V3} (hw : ∀ p, AdjustPos id d p (w p)) {old : ℕ → MixFP T S} {trg : List FT} {src : List FS} {sys : List (MixFP T S)}
    (h : UpdateSystem ct cs d old trg src sys) : sys.length = trg.length + src.length := by
  rw [update_eq hw h]
  simp

/-! ### the functor -/

theorem findPair_near (t : MixEPI T) (js : List (MixEPJ S)) : findPair ct cs t js = findPair ct cs t (js.filter (near ct cs t)) := by
  unfold findPair
  split_ifs with h
  · rfl
  · rw [List.filterMap_filter]
    apply List.filterMap_congr
    intro j _
    by_cases hj : j.srcFlag = true
    · simp only [hj, near]
      by_cases hn : V3.normSq (t.getPos ct - j.getPos cs) < j.radius ^ 2 ∨ V3.normSq (t.getPos ct - j.getPos cs) < t.radius ^ 2
      · simp [hn]
      · simp [hn]
    · simp [hj]

theorem findPair_perm (t : MixEPI T) {js ks : List (MixEPJ S)} (h : js.Perm ks) : (findPair ct cs t js).Perm (findPair ct cs t ks) := by
  unfold findPair
  split_ifs
  · exact List.Perm.refl _
  · exact h.filterMap _

theorem filterMap_forall₂ {α β γ : Type} {R : α → β → Prop} (f : α → Option γ) (g : β → Option γ) {l : List α} {m : List β} (h : List.Forall₂ R l m)
    (hfg : ∀ a b, R a b → g b = f a) : m.filterMap g = l.filterMap f := by
  induction h with
  | nil => rfl
  | cons h1 _ ih => rw [List.filterMap_cons, List.filterMap_cons, hfg _ _ h1, ih]

theorem flatMap_mapIdx {α β γ : Type} (l : List α) (f : ℕ → α → β) (g : β → List γ) (k : α → List γ) (h : ∀ i a, g (f i a) = k a) :
    (l.mapIdx f).flatMap g = l.flatMap k := by
  induction l generalizing f with
  | nil => rfl
  | cons a l ih =>
    rw [List.mapIdx_cons, List.flatMap_cons, List.flatMap_cons, h, ih (fun i => f (i + 1)) fun i => h (i + 1)]

theorem product_filterMap {α β γ : Type} (l : List α) (m : List β) (f : α × β → Option γ) :
    (l ×ˢ m).filterMap f = l.flatMap fun a => m.filterMap fun b => f (a, b) := by
  induction l with
  | nil => rfl
  | cons a l ih => rw [List.product_cons, List.filterMap_append, ih, List.flatMap_cons, List.filterMap_map]; rfl

/-- On the whole world, a target finds its pairs. -/
theorem findPair_world (lt : Lawful ct) (ls : Lawful cs) {d : Domain} {w : V3 → V3} (hw : ∀ p, AdjustPos id d p (w p))
    (ranks : List (List FT × List FS × List (MixFP T S))) (hr : ∀ r ∈ ranks, ∃ old, UpdateSystem ct cs d old r.1 r.2.1 r.2.2)
    (shifts : List V3) (world : List (MixEPJ S)) (hworld : IsWorld ct cs (ranks.map fun r => r.2.2) shifts world) (t : FT) (x : V3) :
    findPair ct cs ⟨true, ct.getRSearch (placedT ct w t), x, placedT ct w t⟩ world = pairsOf ct cs w (ranks.flatMap fun r => r.2.1) shifts t := by
  classical
  let g : MixFP T S × V3 → Option (Pair T S) := fun q =>
    if q.1.trgFlag then none
    else if Touch ct cs (placedT ct w t) (cs.setPos q.1.epSrc (cs.getPos q.1.epSrc + q.2)) then
      some (pairOf ct cs (placedT ct w t) (cs.setPos q.1.epSrc (cs.getPos q.1.epSrc + q.2))) else none
  have h1 : findPair ct cs ⟨true, ct.getRSearch (placedT ct w t), x, placedT ct w t⟩ world = ((ranks.map fun r => r.2.2).flatten ×ˢ shifts).filterMap g := by
    unfold findPair
    rw [if_neg (by simp)]
    refine filterMap_forall₂ g _ hworld ?_
    rintro ⟨fp, v⟩ e ⟨old, rfl⟩
    cases hf : fp.trgFlag with
    | true =>
      rw [epj_target old fp hf]
      simp [MixEPJ.setPos, g, hf]
    | false =>
      rw [epj_source ls old fp hf]
      simp only [MixEPJ.setPos, MixEPJ.getPos, if_true, MixEPI.getPos, g, hf, Bool.not_true, Bool.false_eq_true, if_false, Touch, pairOf, ls.search_set]
  rw [h1, product_filterMap]
  have h2 : pairsOf ct cs w (ranks.flatMap fun r => r.2.1) shifts t = (ranks.flatMap fun r => r.2.1).flatMap fun s => shifts.filterMap fun v =>
      if Touch ct cs (placedT ct w t) (placedS cs w s v) then some (pairOf ct cs (placedT ct w t) (placedS cs w s v)) else none := by
    rw [← product_filterMap (f := fun q => if Touch ct cs (placedT ct w t) (placedS cs w q.1 q.2) then some (pairOf ct cs (placedT ct w t) (placedS cs w q.1 q.2)) else none)]
    unfold pairsOf
    generalize (ranks.flatMap fun r => r.2.1) ×ˢ shifts = l
    induction l with
    | nil => rfl
    | cons q l ih =>
      by_cases hq : Touch ct cs (placedT ct w t) (placedS cs w q.1 q.2)
      · simp [hq, ih]
      · simp [hq, ih]
  rw [h2]
  clear h1 h2 hworld
  induction ranks with
  | nil => rfl
  | cons r ranks ih =>
    rw [List.map_cons, List.flatten_cons, List.flatMap_append, ih fun r' h => hr r' (by simp [h]), List.flatMap_cons, List.flatMap_append]
    congr 1
    obtain ⟨old, ho⟩ := hr r (by simp)
    rw [update_eq hw ho, List.flatMap_append,
      flatMap_mapIdx r.1 _ _ (fun _ => []) (by intro i a; simp [g]),
      flatMap_mapIdx r.2.1 _ _ (fun s => shifts.filterMap fun v =>
        if Touch ct cs (placedT ct w t) (placedS cs w s v) then some (pairOf ct cs (placedT ct w t) (placedS cs w s v)) else none) (by
        intro i s
        apply List.filterMap_congr
        intro v _
        have e : cs.setPos (cs.setPos (cs.copyFromFP s) (w (cs.getPos (cs.copyFromFP s)))) (cs.getPos (cs.setPos (cs.copyFromFP s) (w (cs.getPos (cs.copyFromFP s)))) + v) = placedS cs w s v := by
          rw [ls.get_set, ls.set_set]
          rfl
        simp only [g, Bool.false_eq_true, if_false, e])]
    simp

/-- The pairs of the local particle `i`. -/
noncomputable def hitsAt (w : V3 → V3) (srcs : List FS) (shifts : List V3) (trg : List FT) (i : ℕ) : List (Pair T S) :=
  match trg[i]? with
  | some t => pairsOf ct cs w srcs shifts t
  | none => []

theorem hitsAt_range (w : V3 → V3) (srcs : List FS) (shifts : List V3) (trg : List FT) :
    (List.range trg.length).flatMap (hitsAt (ct := ct) (cs := cs) w srcs shifts trg) = trg.flatMap (pairsOf ct cs w srcs shifts) := by
  induction trg with
  | nil => rfl
  | cons t trg ih =>
    rw [List.length_cons, List.range_succ_eq_map, List.flatMap_cons, List.flatMap_map, List.flatMap_cons, ← ih]
    rfl

theorem forall₂_mem_left {α β : Type} {R : α → β → Prop} {l : List α} {m : List β} (h : List.Forall₂ R l m) {a : α} (ha : a ∈ l) : ∃ b ∈ m, R a b := by
  induction h with
  | nil => simp at ha
  | cons h1 _ ih =>
    rcases List.mem_cons.1 ha with rfl | ha
    · exact ⟨_, by simp, h1⟩
    · obtain ⟨b, hb, hab⟩ := ih ha
      exact ⟨b, by simp [hb], hab⟩

theorem forall₂_join {α β γ : Type} {R : α → β → Prop} {Q : α → γ → Prop} (f : β → γ) {l : List α} {m : List β} (h : List.Forall₂ R l m) (h' : List.Forall₂ Q l (m.map f)) {a : α} (ha : a ∈ l) :
    ∃ b ∈ m, R a b ∧ Q a (f b) := by
  induction h with
  | nil => simp at ha
  | cons h1 _ ih =>
    rw [List.map_cons] at h'
    cases h' with
    | cons h2 h3 =>
      rcases List.mem_cons.1 ha with rfl | ha
      · exact ⟨_, by simp, h1, h2⟩
      · obtain ⟨b, hb, hab⟩ := ih h3 ha
        exact ⟨b, by simp [hb], hab⟩

theorem mapM_some {α β : Type} (l : List α) (f : α → Option β) (g : α → β) (h : ∀ a ∈ l, f a = some (g a)) : l.mapM f = some (l.map g) := by
  induction l with
  | nil => rfl
  | cons a l ih => simp [List.mapM_cons, h a (by simp), ih fun b hb => h b (by simp [hb])]

theorem mixMapM_length {α β : Type} (f : α → Option β) (l : List α) (bs : List β) (h : l.mapM f = some bs) : bs.length = l.length := by
  induction l generalizing bs with
  | nil => simp at h; subst h; rfl
  | cons a l ih =>
    simp only [List.mapM_cons, Option.bind_eq_bind, Option.bind_eq_some_iff, Option.pure_def, Option.some.injEq] at h
    obtain ⟨b, -, bs', h2, rfl⟩ := h
    simp [ih bs' h2]

theorem mapM_getElem? {α β : Type} (f : α → Option β) (l : List α) (bs : List β) (h : l.mapM f = some bs) (i : ℕ) : bs[i]? = l[i]?.bind f := by
  induction l generalizing bs i with
  | nil => simp at h; subst h; rfl
  | cons a l ih =>
    simp only [List.mapM_cons, Option.bind_eq_bind, Option.bind_eq_some_iff, Option.pure_def, Option.some.injEq] at h
    obtain ⟨b, h1, bs', h2, rfl⟩ := h
    cases i with
    | zero => simp [h1]
    | succ i => simpa using ih bs' h2 i

theorem flatMap_forall₂ {α β γ : Type} {R : α → β → Prop} (f : α → List γ) (g : β → List γ) {l : List α} {m : List β} (h : List.Forall₂ R l m)
    (hfg : ∀ a b, R a b → b ∈ m → (g b).Perm (f a)) : (m.flatMap g).Perm (l.flatMap f) := by
  induction h with
  | nil => exact List.Perm.refl _
  | cons h1 _ ih =>
    rw [List.flatMap_cons, List.flatMap_cons]
    exact (hfg _ _ h1 (by simp)).append (ih fun a b hab hb => hfg a b hab (by simp [hb]))

/-- **C57**.  Let every rank have updated its mixed system from its targets and sources, with `w` the wrap into the root domain, and let the tree do what is assumed of it (`CalcForceAll`) on
one of the ranks.  Then with the functor `FindPair` the result has one entry for each target of this rank, in the order of the targets; each is the number of images of
sources, of all ranks, within one of the search radii of the target; and the pairs recorded on the rank are exactly these, each once. -/
theorem C57_mix (lt : Lawful ct) (ls : Lawful cs) (d : Domain) (w : V3 → V3) (hw : ∀ p, AdjustPos id d p (w p))
    (ranks : List (List FT × List FS × List (MixFP T S))) (hr : ∀ r ∈ ranks, ∃ old, UpdateSystem ct cs d old r.1 r.2.1 r.2.2)
    (shifts : List V3) (world : List (MixEPJ S)) (hworld : IsWorld ct cs (ranks.map fun r => r.2.2) shifts world)
    (r : List FT × List FS × List (MixFP T S)) (hmem : r ∈ ranks) (forces : List ℕ) (out : List (Pair T S))
    (hcalc : CalcForceAll ct cs (findPairs ct cs) r.2.2 world forces out) :
    ∃ res, forceResult r.1.length forces = some res ∧ res = r.1.map (fun t => (pairsOf ct cs w (ranks.flatMap fun r => r.2.1) shifts t).length) ∧
      out.Perm (r.1.flatMap (pairsOf ct cs w (ranks.flatMap fun r => r.2.1) shifts)) := by
  obtain ⟨trg, src, sys⟩ := r
  simp only at hcalc ⊢
  obtain ⟨old, ho⟩ := hr _ hmem
  simp only at ho
  have hsys := update_eq hw ho
  have hn := update_length hw ho
  obtain ⟨hlen, calls, hp, hc, hout⟩ := hcalc
  set srcs := ranks.flatMap fun r => r.2.1 with hsrcs
  -- what a call gives for one particle
  have hone : ∀ c ∈ calls, ∀ (i : ℕ) (e : MixEPI T), (∃ fp old, sys[i]? = some fp ∧ e = MixEPI.copyFromFP ct cs old fp) → e ∈ c.2.1 →
      (findPair ct cs e c.2.2).Perm (hitsAt (ct := ct) (cs := cs) w srcs shifts trg i) := by
    rintro c hcm i e ⟨fp, o, hfp, he⟩ hem
    have hnear := (hc c hcm).2.2 e hem
    have h1 : (findPair ct cs e c.2.2).Perm (findPair ct cs e world) := by
      rw [findPair_near e c.2.2, findPair_near e world]
      exact findPair_perm e hnear
    refine h1.trans ?_
    unfold hitsAt
    rw [hsys] at hfp
    by_cases hi : i < trg.length
    · rw [List.getElem?_append_left (by simpa using hi), List.getElem?_mapIdx, List.getElem?_eq_getElem hi] at hfp
      rw [List.getElem?_eq_getElem hi]
      simp only [Option.map_some, Option.some.injEq] at hfp
      rw [he, epi_target lt o fp (by rw [← hfp]), ← hfp]
      simp only
      rw [findPair_world lt ls hw ranks hr shifts world hworld]
    · rw [List.getElem?_append_right (by simpa using hi), List.getElem?_mapIdx, Option.map_eq_some_iff] at hfp
      obtain ⟨s, -, hfp⟩ := hfp
      rw [List.getElem?_eq_none (by simpa using hi), he, epi_source o fp (by rw [← hfp])]
      simp [findPair]
  have hhits : (List.range sys.length).flatMap (hitsAt (ct := ct) (cs := cs) w srcs shifts trg) = trg.flatMap (pairsOf ct cs w srcs shifts) := by
    rw [hn, List.range_add, List.flatMap_append]
    have e1 : ((List.range src.length).map fun x => trg.length + x).flatMap (hitsAt (ct := ct) (cs := cs) w srcs shifts trg) = [] := by
      rw [List.flatMap_eq_nil_iff]
      intro i hi
      obtain ⟨j, -, rfl⟩ := List.mem_map.1 hi
      unfold hitsAt
      rw [List.getElem?_eq_none (by omega)]
    rw [e1, List.append_nil]
    exact hitsAt_range w srcs shifts trg
  have hforce : ∀ (i : ℕ) (hi : i < trg.length), forces[i]? = some (pairsOf ct cs w srcs shifts trg[i]).length := by
    intro i hi
    have him : i ∈ calls.flatMap fun c => c.1 := by
      rw [hp.mem_iff, List.mem_range]
      omega
    obtain ⟨c, hcm, hic⟩ := List.mem_flatMap.1 him
    obtain ⟨h1, h2, -⟩ := hc c hcm
    obtain ⟨e, he, h3, h4⟩ := forall₂_join (fun t => (findPair ct cs t c.2.2).length) h1 h2 hic
    rw [h4, (hone c hcm i e h3 he).length_eq]
    unfold hitsAt
    rw [List.getElem?_eq_getElem hi]
  refine ⟨_, ?_, rfl, ?_⟩
  · unfold forceResult
    have h1 := mapM_some (List.range trg.length) (fun i : ℕ => forces[i]?) (fun i => (forces[i]?).getD 0) (by
      intro i hi
      rw [hforce i (by simpa using hi)]
      rfl)
    rw [h1]
    congr 1
    apply List.ext_getElem
    · simp
    · intro i h1 h2
      simp only [List.getElem_range, List.getElem_map]
      rw [hforce i (by simpa using h1)]
      rfl
  · refine hout.trans ?_
    have h1 : (calls.flatMap fun c => (findPairs ct cs c.2.1 c.2.2).2).Perm (calls.flatMap fun c => c.1.flatMap (hitsAt (ct := ct) (cs := cs) w srcs shifts trg)) := by
      apply List.Perm.flatMap_left
      intro c hcm
      exact flatMap_forall₂ _ _ (hc c hcm).1 fun i e h he => hone c hcm i e h he
    refine h1.trans ?_
    rw [← hhits]
    have h2 := hp.flatMap_right (hitsAt (ct := ct) (cs := cs) w srcs shifts trg)
    rwa [List.flatMap_assoc] at h2

/-- **C57** for any functor: the result has one entry for each target, in order, and the entry of a target is what some call of the functor gave at the place at which it was given this target, flagged as a target,
with its data, position and radius; the flagged particles near to it in the second list of this call are the images of sources of the `world` near to it, each once. -/
theorem C57_order (lt : Lawful ct) (d : Domain) (w : V3 → V3) (hw : ∀ p, AdjustPos id d p (w p)) (old : ℕ → MixFP T S) (trg : List FT) (src : List FS) (sys : List (MixFP T S))
    (hu : UpdateSystem ct cs d old trg src sys) (world : List (MixEPJ S)) {R O : Type} (ftr : List (MixEPI T) → List (MixEPJ S) → List R × List O) (forces : List R) (out : List O)
    (hcalc : CalcForceAll ct cs ftr sys world forces out) :
    ∃ res, forceResult trg.length forces = some res ∧ res.length = trg.length ∧ ∀ (i : ℕ) (t : FT), trg[i]? = some t →
      ∃ (is : List (MixEPI T)) (js : List (MixEPJ S)) (n : ℕ) (e : MixEPI T), is[n]? = some e ∧ res[i]? = (ftr is js).1[n]? ∧ res[i]? ≠ none ∧
        e.trgFlag = true ∧ e.epTrg = placedT ct w t ∧ e.radius = ct.getRSearch (placedT ct w t) ∧ e.getPos ct = w (ct.getPos (ct.copyFromFP t)) ∧
        ((js.filter (near ct cs e)).filter fun j => j.srcFlag).Perm ((world.filter (near ct cs e)).filter fun j => j.srcFlag) := by
  have hsys := update_eq hw hu
  have hn := update_length hw hu
  obtain ⟨hlen, calls, hp, hc, -⟩ := hcalc
  have hget : ∀ i < trg.length, ∃ f, forces[i]? = some f := fun i hi => ⟨_, List.getElem?_eq_getElem (by omega)⟩
  obtain ⟨res, hres⟩ : ∃ res, forceResult trg.length forces = some res := by
    unfold forceResult
    have hne : trg.length = 0 ∨ 0 < trg.length := Nat.eq_zero_or_pos _
    rcases hne with h0 | h0
    · rw [h0]
      exact ⟨[], rfl⟩
    · obtain ⟨f0, -⟩ := hget 0 h0
      exact ⟨_, mapM_some (List.range trg.length) (fun i : ℕ => forces[i]?) (fun i => (forces[i]?).getD f0) (by
        intro i hi
        obtain ⟨f, hf⟩ := hget i (by simpa using hi)
        rw [hf]
        rfl)⟩
  have hrl : res.length = trg.length := by
    have := mixMapM_length _ _ _ hres
    simpa using this
  have hri : ∀ i, i < trg.length → res[i]? = forces[i]? := by
    intro i hi
    have h1 := hres
    unfold forceResult at h1
    have h2 := mapM_getElem? _ _ _ h1 i
    rw [h2, List.getElem?_range hi]
    rfl
  refine ⟨res, hres, hrl, ?_⟩
  intro i t ht
  have hi := (List.getElem?_eq_some_iff.1 ht).1
  have him : i ∈ calls.flatMap fun c => c.1 := by
    rw [hp.mem_iff, List.mem_range]
    omega
  obtain ⟨c, hcm, hic⟩ := List.mem_flatMap.1 him
  obtain ⟨h1, h2, h3⟩ := hc c hcm
  obtain ⟨n, hnl, hni⟩ := List.getElem_of_mem hic
  rw [List.forall₂_iff_get] at h1 h2
  obtain ⟨fp, o, hfp, he⟩ := h1.2 n hnl (h1.1 ▸ hnl)
  have hf := h2.2 n hnl (h2.1 ▸ hnl)
  simp only [List.get_eq_getElem] at hfp he hf
  rw [hni] at hfp hf
  rw [hsys, List.getElem?_append_left (by simpa using hi), List.getElem?_mapIdx, ht] at hfp
  simp only [Option.map_some, Option.some.injEq] at hfp
  have hft : fp.trgFlag = true := by rw [← hfp]
  have he' := he
  rw [epi_target lt o fp hft, ← hfp] at he'
  refine ⟨c.2.1, c.2.2, n, c.2.1[n]'(h1.1 ▸ hnl), List.getElem?_eq_getElem _, ?_, ?_, by rw [he'], by rw [he'], by rw [he'], ?_, ?_⟩
  · rw [hri i hi, hf]
    exact (List.getElem?_eq_getElem _).symm
  · rw [hri i hi, hf]
    simp
  · rw [he']
    simp [MixEPI.getPos, placedT, lt.get_set]
  · exact (h3 _ (List.getElem_mem _)).filter _

/-- A tree that makes one call is one that does what is assumed. -/
theorem one_call {R O : Type} (ftr : List (MixEPI T) → List (MixEPJ S) → List R × List O) (hl : ∀ is js, (ftr is js).1.length = is.length) (sys : List (MixFP T S)) (world : List (MixEPJ S)) (e : MixEPI T) :
    ∃ forces out, CalcForceAll ct cs ftr sys world forces out := by
  refine ⟨(ftr (sys.map (e.copyFromFP ct cs)) world).1, (ftr (sys.map (e.copyFromFP ct cs)) world).2, by simp [hl],
    [(List.range sys.length, sys.map (e.copyFromFP ct cs), world)], by simp, ?_, by simp⟩
  intro c hc
  simp only [List.mem_singleton] at hc
  subst hc
  refine ⟨?_, ?_, fun _ _ => List.Perm.refl _⟩
  · rw [List.forall₂_map_right_iff, List.forall₂_iff_get]
    refine ⟨by simp, fun i h1 h2 => ⟨_, e, ?_, rfl⟩⟩
    simp only [List.get_eq_getElem, List.getElem_range]
    exact List.getElem?_eq_getElem _
  · rw [List.forall₂_iff_get]
    refine ⟨by simp [hl], fun i h1 h2 => ?_⟩
    simp only [List.get_eq_getElem, List.getElem_range]
    exact List.getElem?_eq_getElem _

end

/-- Points with a search radius, MixPairInteraction_test.cpp:8-36. -/
def pointClass : Class (V3 × ℝ) (V3 × ℝ) := ⟨id, Prod.fst, fun e p => (p, e.2), Prod.snd⟩

theorem pointClass_lawful : Lawful pointClass := ⟨fun _ _ => rfl, fun _ => rfl, fun _ _ _ => rfl, fun _ _ => rfl⟩

/-- One target and one source on the two sides of a periodic face, on one rank: they find each other through the image, if it is among those the tree makes. -/
example : ∃ (d : Domain) (sys : List (MixFP (V3 × ℝ) (V3 × ℝ))) (old : ℕ → MixFP (V3 × ℝ) (V3 × ℝ)) (world : List (MixEPJ (V3 × ℝ))) (forces : List ℕ) (out : List (Pair (V3 × ℝ) (V3 × ℝ))),
    UpdateSystem pointClass pointClass d old [(⟨9, 5, 5⟩, 3)] [(⟨1, 5, 5⟩, 1)] sys ∧
    IsWorld pointClass pointClass [sys] [0, ⟨10, 0, 0⟩] world ∧
    CalcForceAll pointClass pointClass (findPairs pointClass pointClass) sys world forces out ∧
    forceResult 1 forces = some [1] := by
  let d : Domain := ⟨.xyz, fun _ => true, fun _ => 0, fun _ => 10⟩
  have hex : ∀ p, ∃ q, AdjustPos id d p q := by
    intro p
    choose x hx using fun k => axis_exact (show d.low k < d.high k by norm_num [d]) (Near.comp p k)
    refine ⟨⟨x 0, x 1, x 2⟩, fun k => ?_⟩
    have : Near.comp ⟨x 0, x 1, x 2⟩ k = x k := by fin_cases k <;> simp [Near.comp]
    rw [this]
    exact (hx k).1
  choose w hw using hex
  have hfix : ∀ p : V3, (∀ k, 0 ≤ Near.comp p k ∧ Near.comp p k < 10) → w p = p := by
    intro p hp
    apply comp_ext
    intro k
    exact axis_unique (hw p k) (axis_fixed id (hp k).1 (hp k).2)
  let pt : V3 × ℝ := (⟨9, 5, 5⟩, 3)
  let ps : V3 × ℝ := (⟨1, 5, 5⟩, 1)
  have wt : w ⟨9, 5, 5⟩ = ⟨9, 5, 5⟩ := hfix _ (by intro k; fin_cases k <;> norm_num [Near.comp])
  have ws : w ⟨1, 5, 5⟩ = ⟨1, 5, 5⟩ := hfix _ (by intro k; fin_cases k <;> norm_num [Near.comp])
  let old : ℕ → MixFP (V3 × ℝ) (V3 × ℝ) := fun _ => ⟨true, pt, ps⟩
  let sys := (fill pointClass pointClass old [pt] [ps]).map fun fp => fp.setPos pointClass pointClass (w (fp.getPos pointClass pointClass))
  have hu : UpdateSystem pointClass pointClass d old [pt] [ps] sys := by
    unfold UpdateSystem
    rw [List.forall₂_map_right_iff, List.forall₂_same]
    intro fp _
    exact ⟨_, hw _, rfl⟩
  let o : MixEPJ (V3 × ℝ) := ⟨true, 0, 0, ps⟩
  let world := ([sys].flatten ×ˢ [0, ⟨10, 0, 0⟩]).map fun q : MixFP (V3 × ℝ) (V3 × ℝ) × V3 =>
    (o.copyFromFP pointClass pointClass q.1).setPos pointClass ((o.copyFromFP pointClass pointClass q.1).getPos pointClass + q.2)
  have hworld : IsWorld pointClass pointClass [sys] [0, ⟨10, 0, 0⟩] world := by
    unfold IsWorld
    rw [List.forall₂_map_right_iff, List.forall₂_same]
    intro q _
    exact ⟨o, rfl⟩
  obtain ⟨forces, out, hc⟩ := one_call (ct := pointClass) (cs := pointClass) (findPairs pointClass pointClass) (by simp [findPairs]) sys world ⟨true, 0, 0, pt⟩
  obtain ⟨res, h1, h2, -⟩ := C57_mix pointClass_lawful pointClass_lawful d w hw [([pt], [ps], sys)] (by simpa using ⟨old, hu⟩) [0, ⟨10, 0, 0⟩] world hworld
    ([pt], [ps], sys) (by simp) forces out hc
  refine ⟨d, sys, old, world, forces, out, hu, hworld, hc, ?_⟩
  rw [List.length_singleton] at h1
  rw [h1, h2]
  have hT1 : ¬ Touch pointClass pointClass (placedT pointClass w pt) (placedS pointClass w ps 0) := by
    norm_num [Touch, placedT, placedS, pointClass, pt, ps, wt, ws, V3.normSq, V3.dot]
  have hT2 : Touch pointClass pointClass (placedT pointClass w pt) (placedS pointClass w ps ⟨10, 0, 0⟩) := by
    norm_num [Touch, placedT, placedS, pointClass, pt, ps, wt, ws, V3.normSq, V3.dot]
  simp [pairsOf, hT1, hT2]

end Verif
