import Verif.Lemmas.TreeLink
/-! C70: construction of the oct-tree. -/
namespace Verif
open Tree Morton

/-- The binary search returns the first particle of the requested octant, or -1 if the range has none. -/
theorem C70_partition_search (keys : List (BitVec 64)) (left right ref lev : ℕ) (hlr : left < right)
    (hr : right < keys.length)
    (hm : ∀ i j k l, left ≤ i → i ≤ j → j ≤ right → keys[i]? = some k → keys[j]? = some l →
      getCellID lev k ≤ getCellID lev l) :
    (∃ p k, getPartitionID keys left right ref lev = some (some p) ∧ left ≤ p ∧ p ≤ right ∧ keys[p]? = some k ∧
        getCellID lev k = ref ∧ ∀ i l, left ≤ i → i < p → keys[i]? = some l → getCellID lev l ≠ ref) ∨
    (getPartitionID keys left right ref lev = some none ∧
      ∀ i l, left ≤ i → i ≤ right → keys[i]? = some l → getCellID lev l ≠ ref) := by
  have hdg : ∀ i (h : i < keys.length), dg keys lev i = getCellID lev keys[i] := fun i h => by
    unfold dg; rw [List.getElem?_eq_getElem h]
  obtain ⟨b, h0, h8, hb1, hb2, hb3⟩ := exists_bounds (dg keys lev) left (right + 1 - left)
    (fun i j h1 h2 h3 => by
      rw [hdg i (by omega), hdg j (by omega)]
      exact hm i j _ _ h1 h2 (by omega) (List.getElem?_eq_getElem (by omega)) (List.getElem?_eq_getElem (by omega)))
    (dg_lt keys lev)
  have hB : Bounds keys lev left (right + 1 - left) b := ⟨h0, h8, fun j => (hb1 j).1, fun j => (hb1 j).2, hb2, hb3⟩
  have he := getPartitionID_eq keys lev left (right + 1 - left) ref b (by omega) (by omega) hB
  rw [show left + (right + 1 - left) - 1 = right by omega] at he
  rw [he]
  have hg := hB.ge ref
  have hl := hB.le (ref + 1)
  by_cases hlt : b ref < b (ref + 1)
  · left
    rw [if_pos hlt]
    refine ⟨b ref, keys[b ref]'(by omega), rfl, hg, by omega, List.getElem?_eq_getElem (by omega), ?_, ?_⟩
    · rw [← hdg]; exact hB.dg_eq (le_refl _) hlt
    · intro i l h1 h2 h3 h4
      have h5 := (hB.iff ref i h1 (by omega)).mpr h2
      have hi : i < keys.length := by omega
      rw [List.getElem?_eq_getElem hi] at h3
      rw [hdg i hi, Option.some.inj h3] at h5
      omega
  · right
    rw [if_neg hlt]
    refine ⟨rfl, fun i l h1 h2 h3 h4 => hlt ?_⟩
    have hi : i < keys.length := by omega
    rw [List.getElem?_eq_getElem hi] at h3
    have h5 : dg keys lev i = ref := by rw [hdg i hi, Option.some.inj h3]; exact h4
    have e1 := hB.iff ref i h1 (by omega)
    have e2 := hB.iff (ref + 1) i h1 (by omega)
    omega

example : getPartitionID [0#64, 1#64, 1#64, 5#64] 0 3 1 21 = some (some 1) := by
  have h1 : searchLoop [0#64, 1#64, 1#64, 5#64] 1 21 0 3 = some (some 1) := by
    rw [searchLoop]
    simp [getCellID, levMax]
    rw [searchLoop]
    simp [getCellID, levMax]
  simp [getPartitionID, h1, getCellID, levMax]

/-- A cell with a single particle is never split: for a range of one particle the search always returns -1, even for
the octant of that particle. -/
theorem C70_partition_search_single_false :
    getPartitionID [5#64] 0 0 5 21 = some none ∧ getCellID 21 5#64 = 5 := by
  constructor
  · have h1 : searchLoop [5#64] 5 21 0 0 = some none := by rw [searchLoop]; simp
    simp [getPartitionID, h1, getCellID, levMax]
  · decide

/-- For every sorted particle array, leaf limit, old contents of the arrays and order of the parallel loops, `LinkCell`
stays inside its arrays and builds a tree over all particles. -/
theorem C70_linkCell_builds_tree (keys : List (BitVec 64)) (hs : SortedKeys keys) (limit : ℕ) (hlim : 1 ≤ limit)
    (order : ℕ → ℕ → List ℕ) (hord : ∀ l r, (order l r).Perm (List.range' l (r - l))) (part : ℕ → ℕ) (m : Mem) :
    ∃ r, linkCell keys limit order part m = some r ∧ Linked r keys limit := by
  obtain ⟨r, R, h1, h2⟩ := linkCell_final keys hs limit hlim order hord part m
  exact ⟨r, h1, linked_of_final keys limit R r h2⟩

example : SortedKeys [0#64, 3#64, 3#64, 9#64] ∧ ∃ r, linkCell [0#64, 3#64, 3#64, 9#64] 1
    (fun l r => (List.range' l (r - l)).reverse) (fun _ => 77) (fun _ => ⟨5, some 3, none, 2⟩) = some r ∧
      IsTree r [0#64, 3#64, 3#64, 9#64] 1 0 0 0 4 := by
  have hs : SortedKeys [0#64, 3#64, 3#64, 9#64] := ⟨by simp, by simp⟩
  refine ⟨hs, ?_⟩
  obtain ⟨r, h1, h2⟩ := C70_linkCell_builds_tree [0#64, 3#64, 3#64, 9#64] hs 1 (le_refl _)
    (fun l r => (List.range' l (r - l)).reverse) (fun l r => List.reverse_perm _) (fun _ => 77)
    (fun _ => ⟨5, some 3, none, 2⟩)
  exact ⟨r, h1, h2.root⟩

/-- The cells of one level are the ones between two entries of the level table, and the children of different cells
never share memory: the iterations of the parallel loop over the parents write to different cells. -/
theorem C70_levels_and_blocks (keys : List (BitVec 64)) (hs : SortedKeys keys) (limit : ℕ) (hlim : 1 ≤ limit)
    (order : ℕ → ℕ → List ℕ) (hord : ∀ l r, (order l r).Perm (List.range' l (r - l))) (part : ℕ → ℕ) (m : Mem)
    (r : Result) (h : linkCell keys limit order part m = some r) :
    r.part 0 = 0 ∧ r.part (r.levMax + 1) ≤ r.size ∧
    (∀ lev c, lev ≤ r.levMax → r.part lev ≤ c → c < r.part (lev + 1) → (r.mem c).level = lev) ∧
    (∀ c c' t t', c < c' → c' < r.part (r.levMax + 1) → (r.mem c).isLeaf limit = false →
      (r.mem c').isLeaf limit = false → (r.mem c).adrTc = some t → (r.mem c').adrTc = some t' → t + 8 ≤ t') := by
  obtain ⟨r', R, h1, h2⟩ := linkCell_final keys hs limit hlim order hord part m
  rw [h] at h1
  obtain rfl := Option.some.inj h1
  have hleaf : ∀ c < R, (r.mem c).isLeaf limit = false → limit < (r.mem c).n ∧ (r.mem c).level < 21 := by
    intro c hc h
    have := h2.level c hc
    have := h2.levMax
    simp only [Cell.isLeaf, Bool.or_eq_false_iff, decide_eq_false_iff_not] at h
    have h21 : levelLimit = 21 := rfl
    omega
  refine ⟨h2.part0, by rw [h2.part]; exact h2.size, fun lev c l p1 p2 => (h2.inLevel lev c l p1 p2).2, ?_⟩
  rw [h2.part]
  intro c c' t t' hcc hc' l1 l2 t1 t2
  obtain ⟨a1, a2⟩ := hleaf c (by omega) l1
  obtain ⟨b1, b2⟩ := hleaf c' hc' l2
  exact h2.order c c' t t' hcc hc' a1 b1 a2 b2 t1 t2

example : ∃ r, linkCell [0#64, 3#64, 3#64, 9#64] 1 (fun l r => List.range' l (r - l)) (fun _ => 77)
    (fun _ => ⟨5, some 3, none, 2⟩) = some r := by
  have hs : SortedKeys [0#64, 3#64, 3#64, 9#64] := ⟨by simp, by simp⟩
  obtain ⟨r, h, _⟩ := C70_linkCell_builds_tree [0#64, 3#64, 3#64, 9#64] hs 1 (le_refl _)
    (fun l r => List.range' l (r - l)) (fun l r => List.Perm.refl _) (fun _ => 77) (fun _ => ⟨5, some 3, none, 2⟩)
  exact ⟨r, h⟩

/-- A leaf limit of 0 is not usable: already for one particle the construction fails. -/
theorem C70_leaf_limit_zero_false (m : Mem) (part : ℕ → ℕ) :
    linkCell [5#64] 0 (fun l r => List.range' l (r - l)) part m = none := by
  have hg : ∀ j, getPartitionID [5#64] 0 (0 + 1 - 1) j (0 + 1) = some none := by
    intro j
    have h1 : ∀ j, searchLoop [5#64] j 1 0 0 = some none := fun j => by rw [searchLoop]; simp
    simp only [getPartitionID, Nat.add_sub_cancel, Nat.zero_add]
    rw [List.getElem?_eq_getElem (by simp)]
    simp only [h1, ite_self]
  have hc : ∀ js m', (∀ j ∈ js, j < 8) → ∃ m'', childPhase [5#64] 0 8 0 1 16 js m' = some (m'', []) := by
    intro js
    induction js with
    | nil => intro m' _; exact ⟨m', rfl⟩
    | cons j js ih =>
      intro m' hj
      have := hj j List.mem_cons_self
      simp only [childPhase, hg, if_pos (by omega : 8 + j < 16)]
      exact ih _ (fun k hk => hj k (List.mem_cons_of_mem _ hk))
  have hp : linkParent [5#64] 0 0 16 (rootCells 1 m) 0 = none := by
    obtain ⟨m'', h⟩ := hc (List.range nChildren) (rootCells 1 m) (fun j hj => List.mem_range.mp hj)
    have hr0 : rootCells 1 m 0 = ⟨1, some 8, some 0, 0⟩ := by simp [rootCells, nChildren]
    simp only [linkParent, hr0]
    rw [if_neg (by omega)]
    simp only [h]
    rfl
  have hr : List.range' 0 (nChildren - 0) = 0 :: List.range' 1 7 := by decide
  have hl : linkCell [5#64] 0 (fun l r => List.range' l (r - l)) part m =
      linkLoop [5#64] 0 (fun l r => List.range' l (r - l)) (20 + 1) 0 nChildren (nChildren * 2)
        (setPart (setPart part 0 0) 1 nChildren) (rootCells 1 m) := by
    simp [linkCell, levelLimit]
  rw [hl, linkLoop]
  simp only [hr, linkParents, levelLimit]
  have : nChildren * 2 = 16 := rfl
  simp only [this, Nat.sub_self, hp]

end Verif
