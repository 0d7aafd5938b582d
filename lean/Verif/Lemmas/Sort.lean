import Verif.Model.Sort
import Mathlib.Data.List.Sort
import Mathlib.Data.List.GetD
/-! Helper lemmas for the sorting and exchange properties. -/
namespace Verif.TagSort

theorem gather_eq {α : Type} (v : List α) (d : α) : ∀ (idx : List ℕ), (∀ i ∈ idx, i < v.length) →
    gather v idx = some (idx.map (fun i => v.getD i d))
  | [], _ => by simp [gather]
  | i :: idx, h => by
    have ih := gather_eq v d idx (fun j hj => h j (List.mem_cons_of_mem _ hj))
    have hi : i < v.length := h i List.mem_cons_self
    unfold gather at ih ⊢
    rw [List.mapM_cons, ih]
    simp [List.getElem?_eq_getElem hi]

theorem notGreater_eq {Tag : Type} [LinearOrder Tag] (tags : List Tag) (d : Tag) (i j : ℕ)
    (hi : i < tags.length) (hj : j < tags.length) :
    notGreater tags i j = decide (tags.getD i d ≤ tags.getD j d) := by
  unfold notGreater
  simp [List.getElem?_eq_getElem hi, List.getElem?_eq_getElem hj]

/-- `sortDataWithTag` is a stable merge sort of the tagged data. -/
theorem sortDataWithTag_eq {Tag Data : Type} [LinearOrder Tag] (tags : List Tag) (data : List Data)
    (h : tags.length = data.length) :
    sortDataWithTag tags data =
      some ((((tags.zip data).mergeSort (fun p q => decide (p.1 ≤ q.1))).map Prod.fst),
            (((tags.zip data).mergeSort (fun p q => decide (p.1 ≤ q.1))).map Prod.snd)) := by
  unfold sortDataWithTag
  rw [if_pos h]
  match tags, data, h with
  | [], [], _ => simp [gather]
  | t :: ts, d :: ds, h =>
    set tags := t :: ts with htags
    set data := d :: ds with hdata
    set idx := (List.range tags.length).mergeSort (notGreater tags) with hidx
    have hmem : ∀ i ∈ idx, i < tags.length := by
      intro i hi
      rw [hidx, List.mem_mergeSort, List.mem_range] at hi
      exact hi
    have hmem' : ∀ i ∈ idx, i < data.length := fun i hi => h ▸ hmem i hi
    simp only [gather_eq tags t idx hmem, gather_eq data d idx hmem']
    have hmap : idx.map (fun i => (tags.getD i t, data.getD i d))
        = (tags.zip data).mergeSort (fun p q => decide (p.1 ≤ q.1)) := by
      rw [hidx, List.map_mergeSort (s := fun p q : Tag × Data => decide (p.1 ≤ q.1))]
      · congr 1
        apply List.ext_getElem
        · simp [h]
        · intro i h1 h2
          have hi : i < tags.length := by simpa using h1
          have hi' : i < data.length := h ▸ hi
          simp [List.getElem?_eq_getElem hi, List.getElem?_eq_getElem hi']
      · intro a ha b hb
        rw [List.mem_range] at ha hb
        exact notGreater_eq tags t a b ha hb
    rw [← hmap]
    simp [List.map_map, Function.comp_def]

theorem le_trans' {Tag Data : Type} [LinearOrder Tag] (a b c : Tag × Data)
    (h1 : decide (a.1 ≤ b.1) = true) (h2 : decide (b.1 ≤ c.1) = true) : decide (a.1 ≤ c.1) = true := by
  simp only [decide_eq_true_eq] at *
  exact le_trans h1 h2

theorem le_total' {Tag Data : Type} [LinearOrder Tag] (a b : Tag × Data) :
    (decide (a.1 ≤ b.1) || decide (b.1 ≤ a.1)) = true := by
  simp [le_total]

/-- Stability of the merge sort by tag: items with one tag stay in order. -/
theorem filter_mergeSort {Tag Data : Type} [LinearOrder Tag] (l : List (Tag × Data)) (t : Tag) :
    (l.mergeSort (fun p q => decide (p.1 ≤ q.1))).filter (fun p => decide (p.1 = t))
      = l.filter (fun p => decide (p.1 = t)) := by
  have hs : (l.filter (fun p => decide (p.1 = t))).Sublist
      (l.mergeSort (fun p q => decide (p.1 ≤ q.1))) := by
    apply List.sublist_mergeSort le_trans' le_total' _ List.filter_sublist
    rw [List.pairwise_iff_forall_sublist]
    intro a b hab
    have ha := List.mem_filter.mp (hab.subset (by simp : a ∈ [a, b]))
    have hb := List.mem_filter.mp (hab.subset (by simp : b ∈ [a, b]))
    simp only [decide_eq_true_eq] at ha hb ⊢
    rw [ha.2, hb.2]
  have hs2 := hs.filter (fun p => decide (p.1 = t))
  rw [List.filter_filter] at hs2
  simp only [Bool.and_self] at hs2
  symm
  apply hs2.eq_of_length
  exact ((List.mergeSort_perm l _).filter _).length_eq.symm

end Verif.TagSort
