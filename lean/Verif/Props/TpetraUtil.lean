import Verif.Lemmas.TpetraUtil
/-! Properties C52 and C53: global indices and two-block maps. -/
namespace Verif
open TpetraUtil

/-- C52.  For `sizes` bodies per rank: the global indices of all bodies, rank after rank, are `0, 1, ..., N-1` in this
order, each rank numbers all its bodies, and the mobility map gives to the bodies of a rank, in order, the
six degrees of freedom `6 g, ..., 6 g + 5` of a body with global index `g`. -/
theorem C52_global_indices (sizes : List ℕ) :
    (updateSylinderMap sizes).1.flatten = List.range sizes.sum ∧
    (updateSylinderMap sizes).1.map List.length = sizes ∧
    (updateSylinderMap sizes).2 = (updateSylinderMap sizes).1.map
      (fun l => l.flatMap (fun g => (List.range 6).map (fun j => 6 * g + j))) := by
  have h := globalIndices_eq sizes 0
  unfold updateSylinderMap mapFromLocalSize Comm.displs
  simp only [h]
  refine ⟨?_, fromLocal_lengths sizes 0, ?_⟩
  · rw [fromLocal_flatten, List.range_eq_range']
  · have := mobility_eq sizes 0
    simpa using this

example : (updateSylinderMap [2, 0, 1]).1 = [[0, 1], [], [2]] := by decide

/-- C53, map.  For two contiguous maps over the same ranks the two-block map exists; a rank owns its indices of the
first map followed by those of the second shifted by the size of the first; and all ranks together own each
index below `N1 + N2` exactly once. -/
theorem C53_two_block_map (sizes1 sizes2 : List ℕ) (h : sizes1.length = sizes2.length) :
    ∃ m, mapFromTwoBlock (mapFromLocalSize sizes1) (mapFromLocalSize sizes2) = some m ∧
      m.length = sizes1.length ∧
      (∀ (r : ℕ) (g1 g2 : List ℕ), (mapFromLocalSize sizes1)[r]? = some g1 → (mapFromLocalSize sizes2)[r]? = some g2 →
        m[r]? = some (g1 ++ g2.map (fun g => sizes1.sum + g))) ∧
      m.flatten.Perm (List.range (sizes1.sum + sizes2.sum)) := by
  have l1 : (mapFromLocalSize sizes1).map List.length = sizes1 := fromLocal_lengths sizes1 0
  have l2 : (mapFromLocalSize sizes2).map List.length = sizes2 := fromLocal_lengths sizes2 0
  have n1 : (mapFromLocalSize sizes1).length = sizes1.length := by
    have := congrArg List.length l1; simpa using this
  have n2 : (mapFromLocalSize sizes2).length = sizes2.length := by
    have := congrArg List.length l2; simpa using this
  refine ⟨((mapFromLocalSize sizes1).zip (mapFromLocalSize sizes2)).map
    (fun p => twoBlockLocal p.1 p.2 sizes1.sum), ?_, ?_, ?_, ?_⟩
  · unfold mapFromTwoBlock isContiguous globalSize
    rw [l1, l2]; simp
  · simp [n1, n2, h]
  · intro r g1 g2 h1 h2
    rw [List.getElem?_map, List.getElem?_zip_eq_some (z := (g1, g2)) |>.mpr ⟨h1, h2⟩]
    simp [twoBlockLocal, Nat.add_comm]
  · have key : ∀ (a b : List (List ℕ)) (N : ℕ), a.length = b.length →
        ((a.zip b).map (fun p => twoBlockLocal p.1 p.2 N)).flatten.Perm
          (a.flatten ++ b.flatten.map (· + N)) := by
      intro a
      induction a with
      | nil => intro b N hl; cases b with
        | nil => simp
        | cons _ _ => simp at hl
      | cons x a ih => intro b N hl; cases b with
        | nil => simp at hl
        | cons y b =>
          simp only [List.zip_cons_cons, List.map_cons, List.flatten_cons, twoBlockLocal, List.map_append,
            List.append_assoc]
          apply List.Perm.append_left
          refine ((ih b N (by simpa using hl)).append_left _).trans ?_
          rw [← List.append_assoc, ← List.append_assoc]
          exact List.Perm.append_right _ List.perm_append_comm
    refine (key _ _ _ (by rw [n1, n2, h])).trans ?_
    have f1 : (mapFromLocalSize sizes1).flatten = List.range sizes1.sum := by
      rw [List.range_eq_range']; exact fromLocal_flatten sizes1 0
    have f2 : (mapFromLocalSize sizes2).flatten = List.range sizes2.sum := by
      rw [List.range_eq_range']; exact fromLocal_flatten sizes2 0
    rw [f1, f2, List.range_add]
    apply List.Perm.of_eq
    congr 1
    apply List.map_congr_left
    intro i _; omega

example : ([2, 0, 1] : List ℕ).length = ([1, 1, 0] : List ℕ).length := rfl

/-- C53, vector.  Entry `i` of the first vector ends up at global index `i`, entry `j` of the second at `N1 + j`:
on every rank the pairs (global index, value) of the result are those of the first vector followed by those of
the second with shifted index. -/
theorem C53_two_block_vector (sizes1 sizes2 : List ℕ) (v1 v2 : List (List ℝ))
    (h1 : v1.map List.length = sizes1) (h2 : v2.map List.length = sizes2) (h : sizes1.length = sizes2.length) :
    ∃ m v, vecFromTwoBlock (mapFromLocalSize sizes1) v1 (mapFromLocalSize sizes2) v2 = some (m, v) ∧
      m.length = sizes1.length ∧ v.length = sizes1.length ∧
      ∀ (r : ℕ) (g1 g2 : List ℕ) (x1 x2 : List ℝ), (mapFromLocalSize sizes1)[r]? = some g1 → (mapFromLocalSize sizes2)[r]? = some g2 →
        v1[r]? = some x1 → v2[r]? = some x2 →
        ∃ (g : List ℕ) (x : List ℝ), m[r]? = some g ∧ v[r]? = some x ∧ g.length = x.length ∧
          g.zip x = g1.zip x1 ++ (g2.zip x2).map (fun p => (sizes1.sum + p.1, p.2)) := by
  obtain ⟨m, hm, hlen, hloc, -⟩ := C53_two_block_map sizes1 sizes2 h
  have l1 : (mapFromLocalSize sizes1).map List.length = sizes1 := fromLocal_lengths sizes1 0
  have l2 : (mapFromLocalSize sizes2).map List.length = sizes2 := fromLocal_lengths sizes2 0
  have n1 : (mapFromLocalSize sizes1).length = sizes1.length := by
    have := congrArg List.length l1; simpa using this
  have n2 : (mapFromLocalSize sizes2).length = sizes2.length := by
    have := congrArg List.length l2; simpa using this
  have nv1 : v1.length = sizes1.length := by rw [← h1]; simp
  have nv2 : v2.length = sizes2.length := by rw [← h2]; simp
  have len1 : ∀ (r : ℕ) (g1 : List ℕ) (x1 : List ℝ), (mapFromLocalSize sizes1)[r]? = some g1 → v1[r]? = some x1 →
      g1.length = x1.length := by
    intro r g1 x1 a b
    have e1 := congrArg (fun l => l[r]?) l1
    have e2 := congrArg (fun l => l[r]?) h1
    simp only [List.getElem?_map, a, b, Option.map_some] at e1 e2
    rw [← e2] at e1; simpa using e1
  have len2 : ∀ (r : ℕ) (g1 : List ℕ) (x1 : List ℝ), (mapFromLocalSize sizes2)[r]? = some g1 → v2[r]? = some x1 →
      g1.length = x1.length := by
    intro r g1 x1 a b
    have e1 := congrArg (fun l => l[r]?) l2
    have e2 := congrArg (fun l => l[r]?) h2
    simp only [List.getElem?_map, a, b, Option.map_some] at e1 e2
    rw [← e2] at e1; simpa using e1
  refine ⟨m, (v1.zip v2).map (fun p => p.1 ++ p.2), ?_, hlen, by simp [nv1, nv2, h], ?_⟩
  · unfold vecFromTwoBlock
    rw [hm]
    simp only [Option.bind_eq_bind, Option.bind_some]
    rw [Comm.mapM_some_of _ (fun p => p.2.1 ++ p.2.2)]
    · simp only [Option.bind_some, Option.some.injEq, Prod.mk.injEq, true_and]
      apply List.ext_getElem
      · simp [hlen, n1, nv1, nv2]
      · intro i a b; simp
    · rintro ⟨⟨g, g1⟩, x1, x2⟩ hp
      obtain ⟨r, hr⟩ := List.mem_iff_getElem?.mp hp
      rw [List.getElem?_zip_eq_some, List.getElem?_zip_eq_some, List.getElem?_zip_eq_some] at hr
      obtain ⟨⟨hg, hg1⟩, hx1, hx2⟩ := hr
      simp only at hg hg1 hx1 hx2
      have hr2 : r < sizes2.length := by
        have := (List.getElem?_eq_some_iff.mp hx2).1; omega
      obtain ⟨g2, hg2⟩ : ∃ g2, (mapFromLocalSize sizes2)[r]? = some g2 :=
        ⟨_, List.getElem?_eq_getElem (by omega)⟩
      have e := hloc r g1 g2 hg1 hg2
      rw [hg, Option.some.injEq] at e
      have a1 := len1 r g1 x1 hg1 hx1
      have a2 := len2 r g2 x2 hg2 hx2
      subst e
      simp only [Comm.copyInto, List.length_append, List.length_map, List.length_replicate]
      rw [if_pos (by omega)]
      simp only [Option.bind_some, List.take_zero, List.nil_append, Nat.zero_add, List.drop_replicate]
      rw [if_pos (by simp; omega), a1, List.take_left, List.drop_eq_nil_of_le (by simp; omega)]
      simp
  · intro r g1 g2 x1 x2 a b c d
    refine ⟨_, x1 ++ x2, hloc r g1 g2 a b, ?_, ?_, ?_⟩
    · rw [List.getElem?_map, List.getElem?_zip_eq_some (z := (x1, x2)) |>.mpr ⟨c, d⟩]; rfl
    · simp [len1 r g1 x1 a c, len2 r g2 x2 b d]
    · rw [List.zip_append (len1 r g1 x1 a c)]
      congr 1
      rw [List.zip_map_left]
      apply List.map_congr_left
      rintro ⟨x, y⟩ _; rfl

example : ([[1.5, 2], [], [3]] : List (List ℝ)).map List.length = [2, 0, 1] := rfl

/-- C53, error branch: maps that are not contiguous are rejected. -/
theorem C53_not_contiguous (m1 m2 : DMap) (h : m1 ≠ mapFromLocalSize (m1.map List.length) ∨
    m2 ≠ mapFromLocalSize (m2.map List.length)) : mapFromTwoBlock m1 m2 = none := by
  unfold mapFromTwoBlock isContiguous
  rw [if_neg]
  simp only [Bool.and_eq_true, beq_iff_eq, not_and_or]
  exact h

example : ([[1], [0]] : DMap) ≠ mapFromLocalSize (([[1], [0]] : DMap).map List.length) := by decide

end Verif
