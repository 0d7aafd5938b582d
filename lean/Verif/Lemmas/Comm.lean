import Verif.Model.Comm
import Verif.Lemmas.Sort
import Verif.Spec.Comm
import Mathlib.Data.List.Forall2
import Mathlib.Data.List.Perm.Basic
import Mathlib.Data.List.Nodup
import Mathlib.Algebra.BigOperators.Group.List.Basic
import Mathlib.Data.Multiset.Bind
/-! Helper lemmas for the all-to-all exchange. -/
namespace Verif.Comm
open Spec

theorem countLoop_aux (ds : List ℤ) : ∀ (c : List ℕ), (∀ d ∈ ds, 0 ≤ d ∧ d < c.length) →
    ds.foldlM countOne c = some (c.mapIdx (fun k x => x + ds.count (k : ℤ))) := by
  induction ds with
  | nil => intro c _; simp only [List.count_nil, Nat.add_zero, List.foldlM_nil]; congr 1; apply List.ext_getElem <;> simp
  | cons d ds ih =>
    intro c h
    have hd := h d List.mem_cons_self
    have h1 : 0 ≤ d ∧ d.toNat < c.length := ⟨hd.1, by omega⟩
    simp only [List.foldlM_cons, countOne, if_pos h1]
    rw [Option.bind_eq_bind, Option.bind_some, ih]
    · congr 1
      apply List.ext_getElem
      · simp
      · intro i hi1 hi2
        simp only [List.getElem_mapIdx, List.getElem_modify, List.count_cons]
        by_cases hk : d.toNat = i
        · have : d = (i : ℤ) := by omega
          simp [this]; omega
        · have : d ≠ (i : ℤ) := by omega
          simp [hk, this]
    · intro x hx
      rw [List.length_modify]
      exact h x (List.mem_cons_of_mem _ hx)

theorem countLoop_eq (n : ℕ) (ds : List ℤ) (h : ∀ d ∈ ds, 0 ≤ d ∧ d < n) :
    countLoop n ds = some ((List.range n).map (fun k : ℕ => ds.count (k : ℤ))) := by
  unfold countLoop
  rw [countLoop_aux]
  · congr 1
    apply List.ext_getElem
    · simp
    · intro i h1 h2; simp
  · simpa using h

theorem countLoop_none (n : ℕ) (ds : List ℤ) (h : ∃ d ∈ ds, ¬ (0 ≤ d ∧ d < n)) :
    countLoop n ds = none := by
  unfold countLoop
  have key : ∀ (ds : List ℤ) (c : List ℕ), (∃ d ∈ ds, ¬ (0 ≤ d ∧ d < c.length)) →
      ds.foldlM countOne c = none := by
    intro ds
    induction ds with
    | nil => intro c h; simp at h
    | cons e ds ih =>
      intro c ⟨d, hd, hn⟩
      rw [List.foldlM_cons]
      unfold countOne
      split
      · rename_i hc
        rw [Option.bind_eq_bind, Option.bind_some]
        apply ih
        refine ⟨d, ?_, by simpa using hn⟩
        rcases List.mem_cons.mp hd with rfl | h
        · exfalso; apply hn; omega
        · exact h
      · rfl
  apply key
  simpa using h

/-- The order of the (atomic) increments does not matter. -/
theorem countLoop_perm (n : ℕ) (ds ds' : List ℤ) (h : ds.Perm ds') : countLoop n ds = countLoop n ds' := by
  by_cases hr : ∀ d ∈ ds, 0 ≤ d ∧ d < n
  · rw [countLoop_eq n ds hr, countLoop_eq n ds' (fun d hd => hr d (h.mem_iff.mpr hd))]
    simp [h.count_eq]
  · push Not at hr
    obtain ⟨d, hd, hn⟩ := hr
    rw [countLoop_none n ds ⟨d, hd, by omega⟩, countLoop_none n ds' ⟨d, h.mem_iff.mp hd, by omega⟩]

theorem displsFrom_getElem? (cs : List ℕ) : ∀ (s r : ℕ), r ≤ cs.length →
    (displsFrom s cs)[r]? = some (s + (cs.take r).sum) := by
  induction cs with
  | nil => intro s r h; simp at h; subst h; simp [displsFrom]
  | cons c cs ih =>
    intro s r h
    cases r with
    | zero => simp [displsFrom]
    | succ r =>
      simp only [displsFrom, List.getElem?_cons_succ, List.take_succ_cons, List.sum_cons]
      rw [ih _ _ (by simpa using h)]
      simp; omega

theorem displsFrom_getLast? (cs : List ℕ) : ∀ (s : ℕ),
    (displsFrom s cs).getLast? = some (s + cs.sum) := by
  induction cs with
  | nil => intro s; simp [displsFrom]
  | cons c cs ih =>
    intro s
    have hne : displsFrom (s + c) cs ≠ [] := by cases cs <;> simp [displsFrom]
    rw [displsFrom, List.getLast?_cons_of_ne_nil hne, ih]
    simp; omega

theorem sum_counts (ds : List ℤ) (h : ∀ d ∈ ds, 0 ≤ d) (r : ℕ) :
    ((List.range r).map (fun k : ℕ => ds.count (k : ℤ))).sum = ds.countP (fun d : ℤ => decide (d < (r : ℤ))) := by
  induction r with
  | zero =>
    simp only [List.range_zero, List.map_nil, List.sum_nil]
    symm; rw [List.countP_eq_zero]
    intro d hd
    have := h d hd
    simp; omega
  | succ r ih =>
    rw [List.range_succ, List.map_append, List.sum_append, ih]
    simp only [List.map_cons, List.map_nil, List.sum_cons, List.sum_nil, Nat.add_zero]
    clear ih h
    induction ds with
    | nil => simp
    | cons d ds ih =>
      simp only [List.countP_cons, List.count_cons]
      rcases lt_trichotomy d (r : ℤ) with h | h | h
      · have h1 : d < ((r + 1 : ℕ) : ℤ) := by omega
        have h2 : d ≠ (r : ℤ) := by omega
        have h4 : d < ((r : ℤ) + 1) := by omega
        simp [h, h4, h2] at ih ⊢; omega
      · have h1 : d < ((r + 1 : ℕ) : ℤ) := by omega
        have h2 : ¬ d < (r : ℤ) := by omega
        simp [h] at ih ⊢; omega
      · have h1 : ¬ d < ((r + 1 : ℕ) : ℤ) := by omega
        have h2 : ¬ d < (r : ℤ) := by omega
        have h3 : d ≠ (r : ℤ) := by omega
        have h4 : ¬ d < ((r : ℤ) + 1) := by omega
        simp [h2, h3, h4] at ih ⊢; omega

theorem sorted_split {α : Type} (l : List (ℤ × α)) (hs : l.Pairwise (fun p q => p.1 ≤ q.1)) (r : ℤ) :
    l = l.filter (fun p => decide (p.1 < r)) ++ (l.filter (fun p => decide (p.1 = r)) ++
      l.filter (fun p => decide (r < p.1))) := by
  induction l with
  | nil => simp
  | cons a l ih =>
    rw [List.pairwise_cons] at hs
    have ih := ih hs.2
    rcases lt_trichotomy a.1 r with h | h | h
    · have h2 : a.1 ≠ r := by omega
      have h3 : ¬ r < a.1 := by omega
      simp only [List.filter_cons, h, h2, h3, decide_true, decide_false, if_true, Bool.false_eq_true, if_false]
      rw [List.cons_append, ← ih]
    · have h2 : ¬ a.1 < r := by omega
      have h3 : ¬ r < a.1 := by omega
      have he : l.filter (fun p => decide (p.1 < r)) = [] := by
        rw [List.filter_eq_nil_iff]; intro b hb; have := hs.1 b hb; simp; omega
      rw [he] at ih
      simp only [List.filter_cons, h, h2, h3, decide_true, decide_false, if_true, Bool.false_eq_true, if_false, he]
      simp only [lt_irrefl, decide_false, Bool.false_eq_true, if_false]
      rw [List.nil_append, List.cons_append]
      congr 1
    · have h2 : ¬ a.1 < r := by omega
      have h3 : a.1 ≠ r := by omega
      have he : l.filter (fun p => decide (p.1 < r)) = [] := by
        rw [List.filter_eq_nil_iff]; intro b hb; have := hs.1 b hb; simp; omega
      have he' : l.filter (fun p => decide (p.1 = r)) = [] := by
        rw [List.filter_eq_nil_iff]; intro b hb; have := hs.1 b hb; simp; omega
      rw [he, he'] at ih
      simp only [List.filter_cons, h, h2, h3, decide_true, decide_false, if_true, Bool.false_eq_true, if_false, he, he']
      rw [List.nil_append, List.nil_append]
      congr 1

theorem resize_length {α : Type} [Inhabited α] (old : List α) (n : ℕ) : (resize old n).length = n := by
  simp [resize]

theorem placeAll_concat {α : Type} (segs : List (List α)) : ∀ (pre buf : List α),
    buf.length = (segs.map List.length).sum →
    placeAll (pre ++ buf) ((displsFrom pre.length (segs.map List.length)).zip segs)
      = some (pre ++ segs.flatten) := by
  induction segs with
  | nil => intro pre buf h; simp at h; simp [displsFrom, placeAll, h]
  | cons s segs ih =>
    intro pre buf h
    simp only [List.map_cons, List.sum_cons] at h
    simp only [List.map_cons, displsFrom, List.zip_cons_cons, placeAll]
    have hc : copyInto (pre ++ buf) pre.length s = some ((pre ++ s) ++ buf.drop s.length) := by
      unfold copyInto
      rw [if_pos (by simp; omega)]
      congr 1
      simp [List.take_append, List.drop_append]
    rw [hc]
    have := ih (pre ++ s) (buf.drop s.length) (by simp; omega)
    rw [List.length_append] at this
    simp only [Option.bind_eq_bind, Option.bind_some, this]
    simp

/-- What the send side of one rank looks like. -/
theorem sendSide_eq {α : Type} (n : ℕ) (dest : List ℤ) (data : List α) (hl : dest.length = data.length)
    (hd : ∀ d ∈ dest, 0 ≤ d ∧ d < n) :
    ∃ L : List (ℤ × α), L.Perm (dest.zip data) ∧ L.Pairwise (fun p q => p.1 ≤ q.1) ∧
      (∀ t, L.filter (fun p => decide (p.1 = t)) = (dest.zip data).filter (fun p => decide (p.1 = t))) ∧
      sendSide n dest data = some ⟨L.map Prod.snd, (List.range n).map (fun k : ℕ => (L.map Prod.fst).count (k : ℤ)),
        displs ((List.range n).map (fun k : ℕ => (L.map Prod.fst).count (k : ℤ)))⟩ := by
  refine ⟨(dest.zip data).mergeSort (fun p q => decide (p.1 ≤ q.1)), List.mergeSort_perm _ _, ?_, ?_, ?_⟩
  · refine (List.pairwise_mergeSort TagSort.le_trans' TagSort.le_total' _).imp ?_
    intro a b hab
    simpa using hab
  · exact fun t => TagSort.filter_mergeSort _ t
  · unfold sendSide
    rw [TagSort.sortDataWithTag_eq _ _ hl]
    simp only [Option.bind_eq_bind, Option.bind_some]
    rw [countLoop_eq]
    · rfl
    · intro d h
      rw [List.mem_map] at h
      obtain ⟨p, hp, rfl⟩ := h
      rw [List.mem_mergeSort] at hp
      exact hd _ (List.of_mem_zip (a := p.1) (b := p.2) hp).1

theorem count_fst {α : Type} (L : List (ℤ × α)) (r : ℤ) :
    (L.map Prod.fst).count r = (L.filter (fun p => decide (p.1 = r))).length := by
  rw [List.count, List.countP_map, List.countP_eq_length_filter]
  congr 1

/-- The segment a rank receives from one sender. -/
theorem segment_eq {α : Type} (n r : ℕ) (hr : r < n) (L : List (ℤ × α))
    (hs : L.Pairwise (fun p q => p.1 ≤ q.1)) (h0 : ∀ p ∈ L, 0 ≤ p.1) :
    (do let d ← (displs ((List.range n).map (fun k : ℕ => (L.map Prod.fst).count (k : ℤ))))[r]?
        let c ← ((List.range n).map (fun k : ℕ => (L.map Prod.fst).count (k : ℤ)))[r]?
        subArray (L.map Prod.snd) d c)
      = some ((L.filter (fun p => decide (p.1 = (r : ℤ)))).map Prod.snd) := by
  rw [displs, displsFrom_getElem? _ _ _ (by simp; omega)]
  simp only [Option.bind_eq_bind, Option.bind_some, List.getElem?_map, List.getElem?_range hr, Option.map_some]
  rw [← List.map_take, List.take_range, Nat.min_eq_left hr.le, sum_counts, Nat.zero_add]
  · have hc : (L.map Prod.fst).countP (fun d : ℤ => decide (d < (r : ℤ)))
        = (L.filter (fun p => decide (p.1 < (r : ℤ)))).length := by
      rw [List.countP_map, List.countP_eq_length_filter]; rfl
    rw [hc, count_fst]
    have hsp := sorted_split L hs r
    have hmap := congrArg (List.map Prod.snd) hsp
    simp only [List.map_append] at hmap
    unfold subArray
    rw [hmap, if_pos (by simp)]
    congr 1
    rw [List.drop_left' (by simp), List.take_left' (by simp)]
  · intro d hd
    rw [List.mem_map] at hd
    obtain ⟨p, hp, rfl⟩ := hd
    exact h0 p hp

theorem mapM_some_of {α β : Type} (f : α → Option β) (g : α → β) : ∀ (l : List α),
    (∀ a ∈ l, f a = some (g a)) → l.mapM f = some (l.map g)
  | [], _ => by simp
  | a :: l, h => by
    rw [List.mapM_cons, h a List.mem_cons_self, mapM_some_of f g l (fun b hb => h b (List.mem_cons_of_mem _ hb))]
    simp

theorem mapM_exists {α β : Type} (f : α → Option β) (P : α → β → Prop) : ∀ (l : List α),
    (∀ a ∈ l, ∃ b, f a = some b ∧ P a b) → ∃ bs, l.mapM f = some bs ∧ List.Forall₂ P l bs
  | [], _ => ⟨[], by simp⟩
  | a :: l, h => by
    obtain ⟨b, hb, hp⟩ := h a List.mem_cons_self
    obtain ⟨bs, hbs, hps⟩ := mapM_exists f P l (fun b hb => h b (List.mem_cons_of_mem _ hb))
    refine ⟨b :: bs, ?_, List.Forall₂.cons hp hps⟩
    rw [List.mapM_cons, hb, hbs]; simp

theorem mapM_none_of {α β : Type} (f : α → Option β) : ∀ (l : List α),
    (∃ a ∈ l, f a = none) → l.mapM f = none
  | [], h => by simp at h
  | a :: l, ⟨x, hx, hn⟩ => by
    rw [List.mapM_cons]
    cases hfa : f a with
    | none => rfl
    | some b =>
      have hx' : x ∈ l := by
        rcases List.mem_cons.mp hx with rfl | h
        · rw [hn] at hfa; exact absurd hfa (by simp)
        · exact h
      rw [mapM_none_of f l ⟨x, hx', hn⟩]; rfl

/-- The receive side, from the sorted lists of the senders. -/
theorem recvSide_eq {α : Type} [Inhabited α] (n r : ℕ) (hr : r < n) (Ls : List (List (ℤ × α)))
    (hs : ∀ L ∈ Ls, L.Pairwise (fun p q => p.1 ≤ q.1)) (h0 : ∀ L ∈ Ls, ∀ p ∈ L, 0 ≤ p.1)
    (oldSrc : List ℕ) (oldData : List α) :
    recvSide (Ls.map (fun L => (⟨L.map Prod.snd, (List.range n).map (fun k : ℕ => (L.map Prod.fst).count (k : ℤ)),
        displs ((List.range n).map (fun k : ℕ => (L.map Prod.fst).count (k : ℤ)))⟩ : SendSide α))) r oldSrc oldData
      = some (((List.range Ls.length).zip Ls).flatMap (fun p => List.replicate
                (p.2.filter (fun q => decide (q.1 = (r : ℤ)))).length p.1),
              Ls.flatMap (fun L => (L.filter (fun q => decide (q.1 = (r : ℤ)))).map Prod.snd)) := by
  unfold recvSide segmentsFor
  rw [mapM_some_of _ (fun s : SendSide α => s.counts.getD r 0)]
  rotate_left
  · intro s hs'
    rw [List.mem_map] at hs'
    obtain ⟨L, hL, rfl⟩ := hs'
    simp [List.getElem?_range hr]
  have hsegs : (Ls.map (fun L => (⟨L.map Prod.snd, (List.range n).map (fun k : ℕ => (L.map Prod.fst).count (k : ℤ)),
        displs ((List.range n).map (fun k : ℕ => (L.map Prod.fst).count (k : ℤ)))⟩ : SendSide α))).mapM
      (fun s => do
        let d ← s.displs[r]?
        let c ← s.counts[r]?
        subArray s.data d c)
      = some (Ls.map (fun L => (L.filter (fun q => decide (q.1 = (r : ℤ)))).map Prod.snd)) := by
    rw [List.mapM_map]
    apply mapM_some_of
    intro L hL
    exact segment_eq n r hr L (hs L hL) (h0 L hL)
  simp only [Option.bind_eq_bind] at hsegs
  simp only [Option.bind_eq_bind, hsegs, Option.bind_some]
  set segs := Ls.map (fun L => (L.filter (fun q => decide (q.1 = (r : ℤ)))).map Prod.snd) with hsegsdef
  have hcounts : (Ls.map (fun L => (⟨L.map Prod.snd, (List.range n).map (fun k : ℕ => (L.map Prod.fst).count (k : ℤ)),
        displs ((List.range n).map (fun k : ℕ => (L.map Prod.fst).count (k : ℤ)))⟩ : SendSide α))).map
        (fun s => s.counts.getD r 0) = segs.map List.length := by
    rw [hsegsdef, List.map_map, List.map_map]
    apply List.map_congr_left
    intro L _
    simp [List.getElem?_range hr, count_fst]
  rw [hcounts, List.length_map]
  set srcs := ((List.range Ls.length).zip (segs.map List.length)).map (fun p => List.replicate p.2 p.1) with hsrcs
  have hlen : srcs.map List.length = segs.map List.length := by
    rw [hsrcs, List.map_map]
    apply List.ext_getElem
    · simp [hsegsdef]
    · intro i h1 h2; simp
  rw [displs, displsFrom_getLast?, Nat.zero_add]
  simp only [Option.bind_some]
  have p1 := placeAll_concat segs [] (resize oldData (segs.map List.length).sum) (resize_length _ _)
  have p2 := placeAll_concat srcs [] (resize oldSrc (segs.map List.length).sum) (by rw [resize_length, hlen])
  rw [hlen] at p2
  simp only [List.nil_append, List.length_nil] at p1 p2
  rw [p1]
  simp only [Option.bind_some]
  rw [p2]
  simp only [Option.bind_some]
  congr 2
  · rw [hsrcs, List.flatMap_def]
    congr 1
    apply List.ext_getElem
    · simp [hsegsdef]
    · intro i h1 h2; simp [hsegsdef]

theorem exists_of_forall₂ {α β : Type} {R : α → β → Prop} {l : List α} {m : List β} (h : List.Forall₂ R l m) :
    ∀ b ∈ m, ∃ a ∈ l, R a b := by
  induction h with
  | nil => simp
  | cons hd _ ih =>
    intro b hb
    rcases List.mem_cons.mp hb with rfl | hb
    · exact ⟨_, List.mem_cons_self, hd⟩
    · obtain ⟨a, ha, hr⟩ := ih b hb
      exact ⟨a, List.mem_cons_of_mem _ ha, hr⟩

theorem received_aux {α : Type} (r : ℕ) (ins : List (List ℤ × List α)) (Ls : List (List (ℤ × α)))
    (hF : List.Forall₂ (fun (p : List ℤ × List α) L => L.Perm (p.1.zip p.2) ∧ L.Pairwise (fun p q => p.1 ≤ q.1) ∧
        (∀ t, L.filter (fun q => decide (q.1 = t)) = (p.1.zip p.2).filter (fun q => decide (q.1 = t)))) ins Ls) :
    ∀ k, ((((ins.zipIdx k).flatMap (fun p => (p.1.1.zip p.1.2).map (fun q => (p.2, q.1, q.2)))).filter
            (fun e => decide (e.2.1 = (r : ℤ)))).map (fun e => (e.1, e.2.2)))
      = (List.zip (((List.range' k Ls.length).zip Ls).flatMap (fun p => List.replicate
                (p.2.filter (fun q => decide (q.1 = (r : ℤ)))).length p.1))
              (Ls.flatMap (fun L => (L.filter (fun q => decide (q.1 = (r : ℤ)))).map Prod.snd)))
        ∧ (((List.range' k Ls.length).zip Ls).flatMap (fun p => List.replicate
                (p.2.filter (fun q => decide (q.1 = (r : ℤ)))).length p.1)).length =
              (Ls.flatMap (fun L => (L.filter (fun q => decide (q.1 = (r : ℤ)))).map Prod.snd)).length := by
  induction hF with
  | nil => intro k; simp
  | @cons p L ins Ls hd _ ih =>
    intro k
    obtain ⟨ih1, ih2⟩ := ih (k + 1)
    simp only [List.zipIdx_cons, List.flatMap_cons, List.filter_append, List.map_append, List.length_cons,
      List.range'_succ, List.zip_cons_cons]
    constructor
    · rw [ih1, List.zip_append (by simp)]
      congr 1
      rw [hd.2.2 (r : ℤ), List.filter_map, List.map_map]
      simp only [Function.comp_def]
      generalize (p.1.zip p.2).filter (fun q => decide (q.1 = (r : ℤ))) = M
      induction M with
      | nil => simp
      | cons m M ihM => simp [List.replicate_succ, ihM]
    · simp only [List.length_append, ih2]; simp

theorem exchange_aux {α : Type} [Inhabited α] (ins : List (List ℤ × List α)) (olds : ℕ → List ℕ × List α)
    (h : Admissible ins) :
    exchange ins olds = some ((List.range ins.length).map (fun r =>
      ((received ins r).map Prod.fst, (received ins r).map Prod.snd))) := by
  have h1 : ∀ p ∈ ins, ∃ s, sendSide ins.length p.1 p.2 = some s ∧
      (∃ L : List (ℤ × α), L.Perm (p.1.zip p.2) ∧ L.Pairwise (fun p q => p.1 ≤ q.1) ∧
      (∀ t, L.filter (fun q => decide (q.1 = t)) = (p.1.zip p.2).filter (fun q => decide (q.1 = t))) ∧
      s = ⟨L.map Prod.snd, (List.range ins.length).map (fun k : ℕ => (L.map Prod.fst).count (k : ℤ)),
        displs ((List.range ins.length).map (fun k : ℕ => (L.map Prod.fst).count (k : ℤ)))⟩) := by
    intro p hp
    obtain ⟨L, a, b, c, d⟩ := sendSide_eq ins.length p.1 p.2 (h p hp).1 (h p hp).2
    exact ⟨_, d, L, a, b, c, rfl⟩
  obtain ⟨sides, hsides, hP⟩ := mapM_exists _ _ ins h1
  -- collect the sorted lists
  have h2 : ∃ Ls : List (List (ℤ × α)), sides = Ls.map (fun L => (⟨L.map Prod.snd,
        (List.range ins.length).map (fun k : ℕ => (L.map Prod.fst).count (k : ℤ)),
        displs ((List.range ins.length).map (fun k : ℕ => (L.map Prod.fst).count (k : ℤ)))⟩ : SendSide α)) ∧
      List.Forall₂ (fun (p : List ℤ × List α) L => L.Perm (p.1.zip p.2) ∧ L.Pairwise (fun p q => p.1 ≤ q.1) ∧
        (∀ t, L.filter (fun q => decide (q.1 = t)) = (p.1.zip p.2).filter (fun q => decide (q.1 = t)))) ins Ls := by
    clear hsides h1 h
    generalize ins.length = n at hP
    induction hP with
    | nil => exact ⟨[], rfl, List.Forall₂.nil⟩
    | cons hd _ ih =>
      obtain ⟨Ls, e, f⟩ := ih
      obtain ⟨L, a, b, c, d⟩ := hd
      exact ⟨L :: Ls, by rw [e, d]; rfl, List.Forall₂.cons ⟨a, b, c⟩ f⟩
  obtain ⟨Ls, rfl, hF⟩ := h2
  unfold exchange
  rw [hsides]
  simp only [Option.bind_eq_bind, Option.bind_some]
  apply mapM_some_of
  intro r hr
  rw [List.mem_range] at hr
  rw [recvSide_eq ins.length r hr Ls]
  · congr 1
    obtain ⟨k1, k2⟩ := received_aux r ins Ls hF 0
    have k3 : received ins r = _ := k1
    rw [k3, List.range_eq_range', List.map_fst_zip (by rw [k2]), List.map_snd_zip (by rw [k2])]
  · intro L hL
    obtain ⟨p, hp, hR⟩ := exists_of_forall₂ hF L hL
    exact hR.2.1
  · intro L hL q hq
    obtain ⟨p, hp, hR⟩ := exists_of_forall₂ hF L hL
    exact ((h p hp).2 _ (List.of_mem_zip (a := q.1) (b := q.2) (hR.1.mem_iff.mp hq)).1).1

theorem perm_insert {α : Type} (e : ℕ × ℤ × α) (l : List (ℕ × ℤ × α)) : ∀ (n : ℕ), 0 ≤ e.2.1 ∧ e.2.1 < n →
    ((List.range n).flatMap (fun r : ℕ => (e :: l).filter (fun e => decide (e.2.1 = (r : ℤ))))).Perm
      (e :: (List.range n).flatMap (fun r : ℕ => l.filter (fun e => decide (e.2.1 = (r : ℤ)))))
  | 0, h => by omega
  | n + 1, h => by
    rw [List.range_succ, List.flatMap_append, List.flatMap_append]
    by_cases hn : e.2.1 = (n : ℤ)
    · have h1 : (List.range n).flatMap (fun r : ℕ => (e :: l).filter (fun e => decide (e.2.1 = (r : ℤ))))
          = (List.range n).flatMap (fun r : ℕ => l.filter (fun e => decide (e.2.1 = (r : ℤ)))) := by
        rw [List.flatMap_def, List.flatMap_def]
        congr 1
        apply List.map_congr_left
        intro r hr
        rw [List.mem_range] at hr
        have : e.2.1 ≠ (r : ℤ) := by omega
        simp [List.filter_cons, this]
      rw [h1]
      have h2 : (e :: l).filter (fun e => decide (e.2.1 = (n : ℤ)))
          = e :: l.filter (fun e => decide (e.2.1 = (n : ℤ))) := by simp [List.filter_cons, hn]
      simp only [List.flatMap_cons, List.flatMap_nil, List.append_nil]
      rw [h2]
      exact List.perm_middle
    · have ih := perm_insert e l n ⟨h.1, by omega⟩
      have h2 : (e :: l).filter (fun e => decide (e.2.1 = (n : ℤ)))
          = l.filter (fun e => decide (e.2.1 = (n : ℤ))) := by simp [List.filter_cons, hn]
      simp only [List.flatMap_cons, List.flatMap_nil, List.append_nil]
      rw [h2]
      exact ih.append_right _

end Verif.Comm
