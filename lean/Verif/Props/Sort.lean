import Verif.Lemmas.Sort
/-! Property C07: `sortDataWithTag`. -/
namespace Verif
open TagSort

/-- C07.  For vectors of equal length the call succeeds; the new tags are in non-decreasing order, the pairs
(tag, datum) are a permutation of the old pairs, and for each tag value the data carrying it are in their
original order. -/
theorem C07_sortDataWithTag {Tag Data : Type} [LinearOrder Tag] (tags : List Tag) (data : List Data)
    (h : tags.length = data.length) :
    ∃ tags' data', sortDataWithTag tags data = some (tags', data') ∧
      tags'.length = tags.length ∧ data'.length = data.length ∧
      tags'.Pairwise (· ≤ ·) ∧
      (tags'.zip data').Perm (tags.zip data) ∧
      ∀ t, (tags'.zip data').filter (fun p => decide (p.1 = t))
            = (tags.zip data).filter (fun p => decide (p.1 = t)) := by
  refine ⟨_, _, sortDataWithTag_eq tags data h, ?_, ?_, ?_, ?_, ?_⟩
  · simp [h]
  · simp [h]
  · rw [List.pairwise_map]
    refine (List.pairwise_mergeSort le_trans' le_total' _).imp ?_
    intro a b hab
    simpa using hab
  · rw [← List.unzip_fst, ← List.unzip_snd, List.zip_unzip]
    exact List.mergeSort_perm _ _
  · intro t
    rw [← List.unzip_fst, ← List.unzip_snd, List.zip_unzip]
    exact filter_mergeSort _ t

example : ([3, 1, 3, 2] : List ℤ).length = (["a", "b", "c", "d"] : List String).length := rfl

/-- C07: vectors of different length are not sorted (assertion failure). -/
theorem C07_length_mismatch {Tag Data : Type} [LinearOrder Tag] (tags : List Tag) (data : List Data)
    (h : tags.length ≠ data.length) : sortDataWithTag tags data = none := by
  simp [sortDataWithTag, h]

example : ([3] : List ℤ).length ≠ ([] : List ℤ).length := by decide

end Verif
