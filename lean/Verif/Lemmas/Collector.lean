import Verif.Spec.Collector
import Mathlib.Data.List.Basic
import Mathlib.Algebra.BigOperators.Group.List.Basic
import Mathlib.Data.List.Nodup
namespace Verif.Mem

/-- Writes of consecutive values. -/
def idxWrites {α : Type} (k : ℕ) (vs : List α) : List (ℕ × α) := vs.mapIdx (fun i v => (k + i, v))

theorem idxWrites_append {α : Type} (k : ℕ) (a b : List α) :
    idxWrites k (a ++ b) = idxWrites k a ++ idxWrites (k + a.length) b := by
  unfold idxWrites
  rw [List.mapIdx_append]
  congr 1
  apply List.ext_getElem <;> simp
  intro i h; omega

theorem writeAll_spec {α : Type} : ∀ (ws : List (ℕ × α)) (a : List α), (ws.map Prod.fst).Nodup →
    (∀ w ∈ ws, w.1 < a.length) →
    ∃ b, writeAll a ws = some b ∧ b.length = a.length ∧ (∀ w ∈ ws, b[w.1]? = some w.2) ∧
      ∀ i, (∀ w ∈ ws, w.1 ≠ i) → b[i]? = a[i]? := by
  intro ws
  induction ws with
  | nil => intro a _ _; exact ⟨a, rfl, rfl, by simp, by simp⟩
  | cons w ws ih =>
    intro a hn hb
    obtain ⟨i, v⟩ := w
    simp only [List.map_cons, List.nodup_cons] at hn
    have hi : i < a.length := hb (i, v) (by simp)
    obtain ⟨b, h1, h2, h3, h4⟩ := ih (a.set i v) hn.2 (by intro w hw; simpa using hb w (by simp [hw]))
    refine ⟨b, by simp [writeAll, hi, h1], by simpa using h2, ?_, ?_⟩
    · intro w hw
      rcases List.mem_cons.1 hw with rfl | hw
      · rw [h4 i (by intro w hw hwi; exact hn.1 (hwi ▸ List.mem_map_of_mem hw))]
        simp [hi]
      · exact h3 w hw
    · intro k hk
      rw [h4 k (fun w hw => hk w (by simp [hw]))]
      have : i ≠ k := hk (i, v) (by simp)
      simp [List.getElem?_set, this]

theorem mem_idxWrites {α : Type} (k : ℕ) (vs : List α) (w : ℕ × α) :
    w ∈ idxWrites k vs ↔ ∃ i, w.1 = k + i ∧ vs[i]? = some w.2 := by
  obtain ⟨p, v⟩ := w
  unfold idxWrites
  rw [List.mem_iff_getElem?]
  constructor
  · rintro ⟨i, hi⟩
    rw [List.getElem?_mapIdx] at hi
    cases h : vs[i]? with
    | none => simp [h] at hi
    | some u => simp [h] at hi; exact ⟨i, hi.1.symm, by rw [h, hi.2]⟩
  · rintro ⟨i, h1, h2⟩
    refine ⟨i, ?_⟩
    rw [List.getElem?_mapIdx, h2]
    simp at h1
    simp [h1]

theorem idxWrites_fst {α : Type} (k : ℕ) (vs : List α) : (idxWrites k vs).map Prod.fst = List.range' k vs.length := by
  unfold idxWrites
  apply List.ext_getElem <;> simp

/-- Writes of consecutive places in any order give the values in their order. -/
theorem writeAll_perm {α : Type} (vs : List α) (a : List α) (order : List (ℕ × α)) (ha : a.length = vs.length)
    (h : order.Perm (idxWrites 0 vs)) : writeAll a order = some vs := by
  have hn : (order.map Prod.fst).Nodup := by
    rw [(h.map Prod.fst).nodup_iff, idxWrites_fst]; exact List.nodup_range'
  obtain ⟨b, h1, h2, h3, -⟩ := writeAll_spec order a hn (by
    intro w hw
    obtain ⟨i, hi, hv⟩ := (mem_idxWrites _ _ _).1 (h.mem_iff.1 hw)
    have := (List.getElem?_eq_some_iff.1 hv).1
    omega)
  rw [h1]
  congr 1
  apply List.ext_getElem?
  intro i
  by_cases hi : i < vs.length
  · have : (i, vs[i]) ∈ order := h.mem_iff.2 ((mem_idxWrites _ _ _).2 ⟨i, by simp, by simp [hi]⟩)
    have := h3 _ this
    simp at this
    simp [this, hi]
  · rw [List.getElem?_eq_none (by omega), List.getElem?_eq_none (by omega)]

end Verif.Mem

namespace Verif.Collector
open Verif.Mem Verif.Spec.Collector Verif.V3

/-- The entries of a block, in order. -/
def blockEntries (b : Block) : List Entry :=
  sideEntries b.globalIndexI b.normI b.posI ++
    if b.oneSide then [] else sideEntries b.globalIndexJ b.normJ b.posJ

theorem length_blockEntries (b : Block) : (blockEntries b).length = blockNNZ b := by
  unfold blockEntries blockNNZ; cases b.oneSide <;> simp [sideEntries]

theorem writesAt_eq (kk : ℕ) (es : List Entry) : writesAt kk es = idxWrites kk es := rfl

theorem fillQueue_eq (q : List Block) : ∀ kk, fillQueue kk q = idxWrites kk (q.flatMap blockEntries) := by
  induction q with
  | nil => intro kk; rfl
  | cons b q ih =>
    intro kk
    simp only [fillQueue, List.flatMap_cons, writesAt_eq]
    rw [idxWrites_append, blockEntries]
    cases hb : b.oneSide
    · rw [if_neg (by simp), if_neg (by simp), ih, idxWrites_append, List.append_assoc]
      rfl
    · rw [if_pos rfl, if_pos rfl, ih]
      simp [sideEntries]

theorem countQueue_snd (q : List Block) : ∀ c, (countQueue c q).2 = c + (q.flatMap blockEntries).length := by
  induction q with
  | nil => intro c; rfl
  | cons b q ih =>
    intro c
    simp only [countQueue, ih, List.flatMap_cons, List.length_append, length_blockEntries]
    omega

theorem countQueue_append (q r : List Block) : ∀ c,
    (countQueue c (q ++ r)).1 = (countQueue c q).1 ++ (countQueue (countQueue c q).2 r).1 := by
  induction q with
  | nil => intro c; rfl
  | cons b q ih => intro c; simp [countQueue, ih]

theorem countPool_fst (pool : Pool) : ∀ c, (countPool c pool).1 = (countQueue c pool.flatten).1 := by
  induction pool with
  | nil => intro c; rfl
  | cons q pool ih => intro c; simp [countPool, ih, countQueue_append]

theorem countPool_fill (pool : Pool) : ∀ c,
    (((c :: (countPool c pool).2).zip pool).map (fun p => fillQueue p.1 p.2)).flatten
      = idxWrites c (pool.flatten.flatMap blockEntries) := by
  induction pool with
  | nil => intro c; rfl
  | cons q pool ih =>
    intro c
    simp only [countPool, List.zip_cons_cons, List.map_cons, List.flatten_cons, ih]
    rw [fillQueue_eq, countQueue_snd, List.flatMap_append, idxWrites_append]

theorem matrixWrites_eq (pool : Pool) : matrixWrites pool = idxWrites 0 (pool.flatten.flatMap blockEntries) :=
  countPool_fill pool 0

theorem length_countQueue (q : List Block) : ∀ c, (countQueue c q).1.length = q.length := by
  induction q with
  | nil => intro c; rfl
  | cons b q ih => intro c; simp [countQueue, ih]

theorem countQueue_getElem? (q : List Block) : ∀ c r, r ≤ q.length →
    (c :: (countQueue c q).1)[r]? = some (c + ((q.take r).flatMap blockEntries).length) := by
  induction q with
  | nil => intro c r hr; simp at hr; simp [hr]
  | cons b q ih =>
    intro c r hr
    cases r with
    | zero => simp
    | succ r =>
      simp only [List.getElem?_cons_succ, countQueue]
      rw [ih _ r (by simpa using hr)]
      simp [length_blockEntries]
      simp [Nat.add_assoc]

theorem countPool_getLast (pool : Pool) : ∀ c,
    (c :: (countPool c pool).2).getLast? = some (c + (pool.flatten.flatMap blockEntries).length) := by
  induction pool with
  | nil => intro c; simp [countPool]
  | cons q pool ih =>
    intro c
    simp only [countPool, List.getLast?_cons_cons]
    rw [ih, countQueue_snd]
    simp [Nat.add_assoc]

theorem countQueue_getLast (q : List Block) (c : ℕ) :
    (c :: (countQueue c q).1).getLast? = some (c + (q.flatMap blockEntries).length) := by
  rw [List.getLast?_eq_getElem?]
  have := countQueue_getElem? q c q.length le_rfl
  simp only [List.length_cons, length_countQueue, Nat.add_sub_cancel]
  rw [this]; simp

theorem queIndex_getElem? (sizes : List ℕ) : ∀ acc i, i ≤ sizes.length →
    (queIndexFrom acc sizes)[i]? = some (acc + (sizes.take i).sum) := by
  induction sizes with
  | nil => intro acc i hi; simp at hi; simp [queIndexFrom, hi]
  | cons s rest ih =>
    intro acc i hi
    cases i with
    | zero => simp [queIndexFrom]
    | succ i =>
      simp only [queIndexFrom, List.getElem?_cons_succ]
      rw [ih _ i (by simpa using hi)]
      simp; omega

theorem length_queIndex (sizes : List ℕ) : ∀ acc, (queIndexFrom acc sizes).length = sizes.length + 1 := by
  induction sizes with
  | nil => intro acc; rfl
  | cons s rest ih => intro acc; simp [queIndexFrom, ih]

theorem queIndex_getLast (sizes : List ℕ) (acc : ℕ) : (queIndexFrom acc sizes).getLast? = some (acc + sizes.sum) := by
  rw [List.getLast?_eq_getElem?, length_queIndex, Nat.add_sub_cancel, queIndex_getElem? _ _ _ le_rfl]
  simp

theorem buildConIndex_last (pool : Pool) : (buildConIndex pool).2.getLast? = some pool.flatten.length := by
  unfold buildConIndex
  simp only
  rw [queIndex_getLast, List.length_flatten, Nat.zero_add]

theorem mem_unique (l : List ℤ) (c : ℤ) : c ∈ unique l ↔ c ∈ l := by
  fun_induction unique l with
  | case1 => simp
  | case2 => simp
  | case3 a l ih => rw [ih]; simp
  | case4 a b l h ih => simp [ih]

theorem mem_colMapOf (mobMin mobMax : ℤ) (cols : List ℤ) (c : ℤ) (h : c ∈ cols) : c ∈ colMapOf mobMin mobMax cols := by
  unfold colMapOf
  rw [mem_unique, List.mem_mergeSort, List.mem_append]
  by_cases hr : c < mobMin ∨ mobMax < c
  · right; simp [h, hr]
  · left
    push Not at hr
    rw [List.mem_map]
    exact ⟨(c - mobMin).toNat, by rw [List.mem_range]; omega, by omega⟩

theorem idxOf?_of_mem (l : List ℤ) (c : ℤ) (h : c ∈ l) : ∃ i, l.idxOf? c = some i ∧ l[i]? = some c := by
  cases hi : l.idxOf? c with
  | none => exact absurd h (List.idxOf?_eq_none_iff.1 hi)
  | some i =>
    refine ⟨i, rfl, ?_⟩
    rw [List.idxOf?_eq_some_iff] at hi
    obtain ⟨h1, h2, _⟩ := hi
    rw [List.getElem?_eq_getElem h1, h2]

end Verif.Collector

namespace Verif.Collector
open Verif.Mem Verif.Spec.Collector Verif.V3

theorem mapM_map_some {α β : Type} (f : α → Option β) : ∀ (l : List α) (g : α → β), (∀ a ∈ l, f a = some (g a)) →
    l.mapM f = some (l.map g) := by
  intro l
  induction l with
  | nil => intro g _; rfl
  | cons a l ih =>
    intro g h
    rw [List.mapM_cons, h a (by simp), ih g (fun x hx => h x (by simp [hx]))]
    rfl

theorem take_drop_flatMap {α β : Type} (f : α → List β) (l : List α) (r : ℕ) (a : α) (h : l[r]? = some a) :
    ((l.flatMap f).drop ((l.take r).flatMap f).length).take
      (((l.take (r + 1)).flatMap f).length - ((l.take r).flatMap f).length) = f a := by
  obtain ⟨hr, rfl⟩ := List.getElem?_eq_some_iff.1 h
  have e : l = l.take r ++ l[r] :: l.drop (r + 1) := by
    rw [List.getElem_cons_drop, List.take_append_drop]
  have h1 : l.flatMap f = (l.take r).flatMap f ++ (f l[r] ++ (l.drop (r + 1)).flatMap f) := by
    have : l.flatMap f = (l.take r ++ l[r] :: l.drop (r + 1)).flatMap f := congrArg _ e
    rw [this, List.flatMap_append, List.flatMap_cons]
  have h2 : (l.take (r + 1)).flatMap f = (l.take r).flatMap f ++ f l[r] := by
    rw [List.take_add_one, List.getElem?_eq_getElem hr, List.flatMap_append]; simp [List.flatMap_cons]
  rw [h1, h2, List.drop_left]
  simp

/-- What `buildMatrix` amounts to. -/
theorem buildMatrix_eq (pool : Pool) (mobMin mobMax : ℤ) (order : List (ℕ × Entry))
    (ho : order.Perm (matrixWrites pool)) :
    (buildMatrix pool mobMin mobMax order = none ∧
      ¬ (pool.flatten.all blockFits = true ∧ ((pool.flatten.flatMap blockEntries).length : ℤ) ≤ intMax ∧
        0 ≤ mobMax - mobMin + 1)) ∨
    ((pool.flatten.all blockFits = true ∧ ((pool.flatten.flatMap blockEntries).length : ℤ) ≤ intMax ∧
        0 ≤ mobMax - mobMin + 1) ∧
      ∃ A, buildMatrix pool mobMin mobMax order = some A ∧ A.rows = some (pool.flatten.map blockEntries) ∧
        A.colMap = colMapOf mobMin mobMax ((pool.flatten.flatMap blockEntries).map Prod.fst) ∧
        A.rowPtr.length = pool.flatten.length + 1) := by
  have hl : (0 :: (countPool 0 pool).1).getLast? = some (pool.flatten.flatMap blockEntries).length := by
    rw [countPool_fst, countQueue_getLast]; simp
  have hl2 := countPool_getLast pool 0
  rw [Nat.zero_add] at hl2
  set E := pool.flatten.flatMap blockEntries with hE
  have hw : writeAll (List.replicate E.length ((0 : ℤ), (0 : ℝ))) order = some E :=
    writeAll_perm E _ order (by simp) (by rw [← matrixWrites_eq]; exact ho)
  have hlen : (countPool 0 pool).1.length = pool.flatten.length := by
    rw [countPool_fst, length_countQueue]
  set cm := colMapOf mobMin mobMax (E.map Prod.fst) with hcm
  have hidx : ∀ e ∈ E, ∃ i, cm.idxOf? e.1 = some i ∧ cm[i]? = some e.1 := fun e he =>
    idxOf?_of_mem _ _ (mem_colMapOf _ _ _ _ (List.mem_map_of_mem he))
  let loc : Entry → ℕ × ℝ := fun e => ((cm.idxOf? e.1).getD 0, e.2)
  have hm : E.mapM (fun e => (cm.idxOf? e.1).map (fun c => (c, e.2))) = some (E.map loc) := by
    apply mapM_map_some
    intro e he
    obtain ⟨i, hi, -⟩ := hidx e he
    simp [loc, hi]
  have key : buildMatrix pool mobMin mobMax order =
      if !(pool.flatten.all blockFits) || intMax < (E.length : ℤ) then none
      else if mobMax - mobMin + 1 < 0 then none
      else some ⟨0 :: (countPool 0 pool).1, E.map loc, cm⟩ := by
    unfold buildMatrix
    simp only [buildConIndex_last, hl, hl2, Option.bind_eq_bind, Option.bind_some, hlen, hw]
    split
    · rfl
    · simp only [ne_eq, not_true_eq_false, if_false]
      split
      · rfl
      · rw [← hcm, hm]; rfl
  by_cases h1 : pool.flatten.all blockFits = true ∧ (E.length : ℤ) ≤ intMax ∧ 0 ≤ mobMax - mobMin + 1
  · right
    refine ⟨h1, ⟨0 :: (countPool 0 pool).1, E.map loc, cm⟩, ?_, ?_, rfl, by rw [List.length_cons, hlen]⟩
    · rw [key, if_neg (by simp only [h1.1]; simp; exact h1.2.1), if_neg (by omega)]
    · unfold Crs.rows
      simp only [List.length_cons, Nat.add_sub_cancel, hlen]
      have : pool.flatten.map blockEntries
          = (List.range pool.flatten.length).map (fun r => ((pool.flatten[r]?).map blockEntries).getD []) := by
        apply List.ext_getElem
        · rw [List.length_map, List.length_map, List.length_range]
        · intro i h1 h2
          rw [List.length_map] at h1
          rw [List.getElem_map, List.getElem_map, List.getElem_range, List.getElem?_eq_getElem h1]
          rfl
      rw [this]
      apply mapM_map_some
      intro r hr
      have hr := List.mem_range.1 hr
      have hb : pool.flatten[r]? = some pool.flatten[r] := List.getElem?_eq_getElem hr
      rw [hb]
      unfold Crs.row
      simp only [countPool_fst]
      rw [countQueue_getElem? _ _ _ (by omega), countQueue_getElem? _ _ _ (by omega)]
      simp only [Option.bind_eq_bind, Option.bind_some, Nat.zero_add, Option.map_some, Option.getD_some]
      have ht := take_drop_flatMap blockEntries _ r _ hb
      rw [← List.map_drop, ← List.map_take, ht]
      have hsub : ∀ e ∈ blockEntries pool.flatten[r], e ∈ E := by
        intro e he
        rw [hE, List.mem_flatMap]
        exact ⟨_, List.getElem_mem hr, he⟩
      rw [mapM_map_some _ _ (fun p => ((cm[p.1]?).getD 0, p.2))]
      · congr 1
        rw [List.map_map]
        conv_rhs => rw [← List.map_id (blockEntries pool.flatten[r])]
        apply List.map_congr_left
        intro e he
        obtain ⟨i, hi, hc⟩ := hidx e (hsub e he)
        simp [loc, hi, hc]
      · intro p hp
        obtain ⟨e, he, rfl⟩ := List.mem_map.1 hp
        obtain ⟨i, hi, hc⟩ := hidx e (hsub e he)
        simp [loc, hi, hc]
  · left
    refine ⟨?_, h1⟩
    rw [key]
    by_cases h2 : (!(pool.flatten.all blockFits) || decide (intMax < (E.length : ℤ))) = true
    · rw [if_pos h2]
    · rw [if_neg h2]
      simp only [Bool.or_eq_true, Bool.not_eq_true', decide_eq_true_eq, not_or, not_lt, Bool.not_eq_false] at h2
      rw [if_pos]
      by_contra h3
      exact h1 ⟨h2.1, h2.2, by omega⟩

/-! ### sums -/

theorem side_apply (x : ℤ → ℝ) (U W : ℤ → V3) (h : IsVelocity x U W) (g : ℤ) (n p : V3) :
    ((sideEntries g n p).map (fun e => e.2 * x e.1)).sum = dot n (U g + cross (W g) p) := by
  simp only [sideEntries, List.map_cons, List.map_nil, List.sum_cons, List.sum_nil, h.ux, h.uy, h.uz, h.wx, h.wy, h.wz]
  simp [dot]; ring

theorem block_apply (x : ℤ → ℝ) (U W : ℤ → V3) (h : IsVelocity x U W) (b : Block) :
    ((blockEntries b).map (fun e => e.2 * x e.1)).sum = gapRate U W b := by
  unfold blockEntries gapRate
  rw [List.map_append, List.sum_append, side_apply x U W h]
  cases b.oneSide
  · simp [side_apply x U W h]
  · simp

/-- Component `k` of a force and torque pair. -/
def comp (k : Fin 6) (f t : V3) : ℝ :=
  match k with
  | 0 => f.x | 1 => f.y | 2 => f.z | 3 => t.x | 4 => t.y | 5 => t.z

theorem side_trans (g' g : ℤ) (k : Fin 6) (n p : V3) (c : ℝ) :
    (((sideEntries g' n p).filter (fun e => e.1 = 6 * g + (k : ℤ))).map (fun e => e.2 * c)).sum
      = if g' = g then c * comp k n (cross p n) else 0 := by
  by_cases hg : g' = g
  · subst hg
    rw [if_pos rfl]
    match k with
    | 0 => simp [sideEntries, comp]; ring
    | 1 => simp [sideEntries, comp]; ring
    | 2 => simp [sideEntries, comp]; ring
    | 3 => simp [sideEntries, comp]; ring
    | 4 => simp [sideEntries, comp]; ring
    | 5 => simp [sideEntries, comp]; ring
  · rw [if_neg hg]
    have hk : (k : ℤ) < 6 := by omega
    have hk0 : 0 ≤ (k : ℤ) := by omega
    have : (sideEntries g' n p).filter (fun e => e.1 = 6 * g + (k : ℤ)) = [] := by
      rw [List.filter_eq_nil_iff]
      intro e he
      simp only [sideEntries, List.mem_cons, List.not_mem_nil, or_false] at he
      simp only [decide_eq_true_eq]
      rcases he with rfl | rfl | rfl | rfl | rfl | rfl <;> simp only <;> omega
    rw [this]; rfl

theorem comp_add (k : Fin 6) (f f' t t' : V3) : comp k (f + f') (t + t') = comp k f t + comp k f' t' := by
  match k with
  | 0 | 1 | 2 | 3 | 4 | 5 => simp [comp]

theorem comp_smul (k : Fin 6) (c : ℝ) (f t : V3) : comp k (c • f) (c • t) = c * comp k f t := by
  match k with
  | 0 | 1 | 2 | 3 | 4 | 5 => simp [comp]

theorem comp_zero (k : Fin 6) : comp k 0 0 = 0 := by
  match k with
  | 0 | 1 | 2 | 3 | 4 | 5 => simp [comp]

theorem block_trans (b : Block) (g : ℤ) (k : Fin 6) (c : ℝ) :
    (((blockEntries b).filter (fun e => e.1 = 6 * g + (k : ℤ))).map (fun e => e.2 * c)).sum
      = comp k (c • unitForce b g) (c • unitTorque b g) := by
  unfold blockEntries
  rw [List.filter_append, List.map_append, List.sum_append, side_trans, comp_smul]
  unfold unitForce unitTorque
  rw [comp_add]
  have h1 : comp k (if b.globalIndexI = g then b.normI else 0) (if b.globalIndexI = g then cross b.posI b.normI else 0)
      = if b.globalIndexI = g then comp k b.normI (cross b.posI b.normI) else 0 := by
    split <;> simp [comp_zero]
  have h2 : comp k (if b.oneSide = false ∧ b.globalIndexJ = g then b.normJ else 0)
      (if b.oneSide = false ∧ b.globalIndexJ = g then cross b.posJ b.normJ else 0)
      = if b.oneSide = false ∧ b.globalIndexJ = g then comp k b.normJ (cross b.posJ b.normJ) else 0 := by
    split <;> simp [comp_zero]
  rw [h1, h2]
  cases b.oneSide
  · simp only [Bool.false_eq_true, if_false, side_trans, true_and]
    split <;> split <;> ring
  · simp

theorem blocks_trans (g : ℤ) (k : Fin 6) : ∀ (bs : List Block) (gamma : List ℝ),
    applyTransposed (bs.map blockEntries) gamma (6 * g + (k : ℤ))
      = comp k (force (bs.zip gamma) g) (torque (bs.zip gamma) g) := by
  intro bs
  induction bs with
  | nil => intro gamma; simp [applyTransposed, force, torque, vsum, comp_zero]
  | cons b bs ih =>
    intro gamma
    cases gamma with
    | nil => simp [applyTransposed, force, torque, vsum, comp_zero]
    | cons c gamma =>
      have := ih gamma
      unfold applyTransposed force torque at this ⊢
      simp only [List.map_cons, List.zip_cons_cons, List.sum_cons, vsum]
      rw [this, comp_add, ← block_trans]

end Verif.Collector
