import Verif.Model.Moment
import Verif.Spec.Tree
import Verif.Lemmas.Box
import Mathlib.Data.List.Range
/-! Lemmas about the boxes of the tree cells. -/
namespace Verif.Tree

variable {α : Type}

theorem IsTree.cell {r : Result} {keys : List (BitVec 64)} {limit lev c a n : ℕ} (h : IsTree r keys limit lev c a n) :
    c < r.size ∧ r.part lev ≤ c ∧ c < r.part (lev + 1) ∧ lev ≤ r.levMax ∧ (r.mem c).n = n ∧ (r.mem c).level = lev := by
  cases h with
  | empty => exact ⟨‹_›, ‹_›, ‹_›, ‹_›, ‹_›, ‹_›⟩
  | leaf => exact ⟨‹_›, ‹_›, ‹_›, ‹_›, ‹_›, ‹_›⟩
  | node => exact ⟨‹_›, ‹_›, ‹_›, ‹_›, ‹_›, ‹_›⟩

/-- The particles `a, …, a + n - 1`. -/
def slice (eps : List (Ep α)) (a n : ℕ) : List (Ep α) := (eps.drop a).take n

/-- The moment of a list of particles. -/
noncomputable def hull (big : ℝ) (l : List (Ep α)) : Mom := l.foldl Mom.atLeaf (Mom.init big)

theorem slice_zero (eps : List (Ep α)) (a : ℕ) : slice eps a 0 = [] := by simp [slice]

theorem slice_append (eps : List (Ep α)) (a b c : ℕ) (h1 : a ≤ b) (h2 : b ≤ c) :
    slice eps a (c - a) = slice eps a (b - a) ++ slice eps b (c - b) := by
  unfold slice
  rw [show c - a = (b - a) + (c - b) by omega, List.take_add, List.drop_drop, show a + (b - a) = b by omega]

theorem slice_succ (eps : List (Ep α)) (a n : ℕ) (e : Ep α) (h : eps[a]? = some e) :
    slice eps a (n + 1) = e :: slice eps (a + 1) n := by
  obtain ⟨h1, h2⟩ := List.getElem?_eq_some_iff.mp h
  unfold slice
  rw [List.drop_eq_getElem_cons h1, List.take_succ_cons, h2]

theorem mem_slice (eps : List (Ep α)) (a n i : ℕ) (e : Ep α) (h1 : a ≤ i) (h2 : i < a + n) (h : eps[i]? = some e) :
    e ∈ slice eps a n := by
  unfold slice
  rw [List.mem_iff_getElem?]
  refine ⟨i - a, ?_⟩
  rw [List.getElem?_take_of_lt (by omega), List.getElem?_drop, show a + (i - a) = i by omega, h]

theorem leafMoment_eq (eps : List (Ep α)) : ∀ (n a : ℕ) (m : Mom), a + n ≤ eps.length →
    leafMoment eps (List.range' a n) m = some ((slice eps a n).foldl Mom.atLeaf m) := by
  intro n
  induction n with
  | zero => intro a m _; simp [leafMoment, slice]
  | succ n ih =>
    intro a m h
    have hk : eps[a]? = some (eps[a]'(by omega)) := List.getElem?_eq_getElem (by omega)
    rw [List.range'_succ, leafMoment, hk, slice_succ eps a n _ hk]
    simp only
    rw [ih (a + 1) _ (by omega)]
    rfl

theorem Mom.acc_assoc (a b c : Mom) : (a.acc b).acc c = a.acc (b.acc c) := by
  simp only [Mom.acc, Box.merge_assoc]

theorem Mom.acc_atLeaf (a b : Mom) (e : Ep α) : (a.acc b).atLeaf e = a.acc (b.atLeaf e) := by
  simp only [Mom.acc, Mom.atLeaf, Box.mergePos_eq, Box.mergeSphere_eq, Box.merge_assoc]

theorem foldl_acc (l : List (Ep α)) : ∀ a b : Mom, l.foldl Mom.atLeaf (a.acc b) = a.acc (l.foldl Mom.atLeaf b) := by
  induction l with
  | nil => intro a b; rfl
  | cons e l ih => intro a b; simp only [List.foldl_cons, Mom.acc_atLeaf, ih]

/-- Both boxes are contained. -/
def Mom.Le (a b : Mom) : Prop := Box.Le a.vin b.vin ∧ Box.Le a.vout b.vout

theorem Mom.Le.refl (a : Mom) : a.Le a := ⟨Box.Le.refl _, Box.Le.refl _⟩
theorem Mom.Le.trans {a b c : Mom} (h : a.Le b) (h' : b.Le c) : a.Le c := ⟨h.1.trans h'.1, h.2.trans h'.2⟩

theorem Mom.le_atLeaf (m : Mom) (e : Ep α) : m.Le (m.atLeaf e) :=
  ⟨Box.le_merge_left m.vin ⟨e.pos, e.pos⟩, Box.le_merge_left m.vout (Box.around e.pos e.rs)⟩

theorem Mom.le_acc_left (a b : Mom) : a.Le (a.acc b) := ⟨Box.le_merge_left _ _, Box.le_merge_left _ _⟩
theorem Mom.le_acc_right (a b : Mom) : b.Le (a.acc b) := ⟨Box.le_merge_right _ _, Box.le_merge_right _ _⟩

theorem Mom.acc_eq_left {a b : Mom} (h : b.Le a) : a.acc b = a := by
  simp only [Mom.acc]
  rw [Box.merge_comm a.vin, Box.merge_comm a.vout, Box.merge_eq_right h.1, Box.merge_eq_right h.2]

theorem le_foldl (l : List (Ep α)) : ∀ m : Mom, m.Le (l.foldl Mom.atLeaf m) := by
  induction l with
  | nil => intro m; exact Mom.Le.refl m
  | cons e l ih => intro m; exact (m.le_atLeaf e).trans (ih _)

theorem init_le_hull (big : ℝ) (l : List (Ep α)) : (Mom.init big).Le (hull big l) := le_foldl l _

theorem hull_append (big : ℝ) (l l' : List (Ep α)) : hull big (l ++ l') = (hull big l).acc (hull big l') := by
  have h : hull big l = (hull big l).acc (Mom.init big) := (Mom.acc_eq_left (init_le_hull big l)).symm
  conv_lhs => rw [hull, List.foldl_append]
  change List.foldl Mom.atLeaf (hull big l) l' = _
  conv_lhs => rw [h, foldl_acc]
  rfl

theorem hull_mono (big : ℝ) (eps : List (Ep α)) (a n a' n' : ℕ) (h1 : a ≤ a') (h2 : a' + n' ≤ a + n) :
    (hull big (slice eps a' n')).Le (hull big (slice eps a n)) := by
  have e1 := slice_append eps a a' (a + n) h1 (by omega)
  have e2 := slice_append eps a' (a' + n') (a + n) (by omega) h2
  rw [show a + n - a = n by omega] at e1
  rw [show a' + n' - a' = n' by omega] at e2
  rw [e1, e2, hull_append, hull_append]
  exact (Mom.le_acc_left _ _).trans (Mom.le_acc_right _ _)

theorem mem_hull (big : ℝ) {l : List (Ep α)} {e : Ep α} (h : e ∈ l) :
    Box.Mem e.pos (hull big l).vin ∧ Box.Le (Box.around e.pos e.rs) (hull big l).vout := by
  obtain ⟨l1, l2, rfl⟩ := List.append_of_mem h
  have h1 : ∀ m : Mom, Box.Mem e.pos (m.atLeaf e).vin ∧ Box.Le (Box.around e.pos e.rs) (m.atLeaf e).vout := fun m =>
    ⟨(Box.le_merge_right m.vin ⟨e.pos, e.pos⟩).mem ⟨⟨le_refl _, le_refl _⟩, ⟨le_refl _, le_refl _⟩, le_refl _, le_refl _⟩,
      Box.le_merge_right _ _⟩
  obtain ⟨h2, h3⟩ := h1 (l1.foldl Mom.atLeaf (Mom.init big))
  obtain ⟨h4, h5⟩ := le_foldl l2 ((l1.foldl Mom.atLeaf (Mom.init big)).atLeaf e)
  rw [hull, List.foldl_append, List.foldl_cons]
  exact ⟨h4.mem h2, h3.trans h5⟩

theorem hull_le (big : ℝ) {B C : Box} (hB : Box.Le (Box.negative big) B) (hC : Box.Le (Box.negative big) C) :
    ∀ {l : List (Ep α)}, (∀ e ∈ l, Box.Mem e.pos B ∧ Box.Le (Box.around e.pos e.rs) C) →
      Box.Le (hull big l).vin B ∧ Box.Le (hull big l).vout C := by
  intro l
  have : ∀ m : Mom, Box.Le m.vin B → Box.Le m.vout C → (∀ e ∈ l, Box.Mem e.pos B ∧ Box.Le (Box.around e.pos e.rs) C) →
      Box.Le (l.foldl Mom.atLeaf m).vin B ∧ Box.Le (l.foldl Mom.atLeaf m).vout C := by
    induction l with
    | nil => intro m h1 h2 _; exact ⟨h1, h2⟩
    | cons e l ih =>
      intro m h1 h2 h
      obtain ⟨g1, g2⟩ := h e List.mem_cons_self
      exact ih (m.atLeaf e) (Box.merge_le (b := ⟨e.pos, e.pos⟩) h1 ⟨⟨g1.1.1, g1.1.2⟩, ⟨g1.2.1.1, g1.2.1.2⟩, g1.2.2.1, g1.2.2.2⟩)
        (Box.merge_le h2 g2) (fun e' he => h e' (List.mem_cons_of_mem _ he))
  exact this _ hB hC

/-- All cells of level `lev` and below have the right moments. -/
def MomOk (big : ℝ) (r : Result) (keys : List (BitVec 64)) (limit : ℕ) (eps : List (Ep α)) (mom : ℕ → Mom) (i : ℕ) :
    Prop :=
  ∀ lev c a n, i ≤ lev → IsTree r keys limit lev c a n → mom c = hull big (slice eps a n)

theorem childMoment_eq (big : ℝ) (r : Result) (keys : List (BitVec 64)) (limit lev t : ℕ) (eps : List (Ep α))
    (mom : ℕ → Mom) (b : ℕ → ℕ) (hm : ∀ j < 8, b j ≤ b (j + 1))
    (hc : ∀ j < 8, IsTree r keys limit lev (t + j) (b j) (b (j + 1) - b j))
    (hmom : ∀ j < 8, mom (t + j) = hull big (slice eps (b j) (b (j + 1) - b j))) :
    ∀ (k j : ℕ), j + k = 8 → b 0 ≤ b j →
      childMoment r mom t (List.range' j k) (hull big (slice eps (b 0) (b j - b 0))) =
        some (hull big (slice eps (b 0) (b 8 - b 0))) := by
  intro k
  induction k with
  | zero => intro j hj _; obtain rfl : j = 8 := by omega
            simp [childMoment]
  | succ k ih =>
    intro j hj hb
    have hstep := ih (j + 1) (by omega) (le_trans hb (hm j (by omega)))
    have hcell := (hc j (by omega)).cell
    have happ := slice_append eps (b 0) (b j) (b (j + 1)) hb (hm j (by omega))
    rw [List.range'_succ, childMoment, if_pos hcell.1]
    by_cases h0 : (r.mem (t + j)).n = 0
    · rw [if_pos h0, ← hstep]
      have : b (j + 1) = b j := by have := hm j (by omega); omega
      rw [this]
    · rw [if_neg h0, hmom j (by omega), ← hull_append, ← happ, hstep]

theorem cellMoment_eq (big : ℝ) (r : Result) (keys : List (BitVec 64)) (limit lev : ℕ) (eps : List (Ep α))
    (hlen : eps.length = keys.length) (mom : ℕ → Mom) (hmom : MomOk big r keys limit eps mom (lev + 1)) (c a n : ℕ)
    (h : IsTree r keys limit lev c a n) : cellMoment big limit r eps mom c = some (hull big (slice eps a n)) := by
  cases h with
  | empty _ _ _ h1 h2 h3 h4 h5 h6 => rw [cellMoment, if_pos h1, if_pos h5, slice_zero]; rfl
  | leaf _ _ _ _ h1 h2 h3 h4 h5 h6 h7 h8 h9 h10 =>
    have hl : (r.mem c).isLeaf limit = true := by
      simp only [Cell.isLeaf, Bool.or_eq_true, decide_eq_true_eq]
      rw [h5, h6]; exact h10
    rw [cellMoment, if_pos h1, if_neg (by omega), if_pos hl, h8]
    simp only
    rw [leafMoment_eq eps _ _ _ (by omega), h5]; rfl
  | node _ _ _ _ t b h1 h2 h3 h4 h5 h6 h7 h8 h9 h10 h11 h12 h13 h14 h15 h16 =>
    have hl : ¬ (r.mem c).isLeaf limit = true := by
      simp only [Cell.isLeaf, Bool.or_eq_true, decide_eq_true_eq]
      rw [h5, h6]; omega
    rw [cellMoment, if_pos h1, if_neg (by omega), if_neg hl, h11]
    simp only
    have := childMoment_eq big r keys limit (lev + 1) t eps mom b h14 h16
      (fun j hj => hmom (lev + 1) _ _ _ (le_refl _) (h16 j hj)) 8 0 rfl (le_refl _)
    rw [Nat.sub_self, slice_zero, h13, h12, show a + n - a = n by omega] at this
    rw [← this]; rfl

theorem levelMoments_eq (big : ℝ) (r : Result) (keys : List (BitVec 64)) (limit lev : ℕ) (eps : List (Ep α))
    (hlen : eps.length = keys.length) : ∀ (js : List ℕ) (mom : ℕ → Mom), MomOk big r keys limit eps mom (lev + 1) →
      (∀ j ∈ js, ∃ a n, IsTree r keys limit lev j a n) →
      ∃ mom', levelMoments big limit r eps js mom = some mom' ∧ MomOk big r keys limit eps mom' (lev + 1) ∧
        ∀ c a n, IsTree r keys limit lev c a n → (c ∈ js ∨ mom c = hull big (slice eps a n)) →
          mom' c = hull big (slice eps a n) := by
  intro js
  induction js with
  | nil => intro mom h _; exact ⟨mom, rfl, h, fun c a n _ h => h.resolve_left (by simp)⟩
  | cons j js ih =>
    intro mom h hj
    obtain ⟨a, n, ht⟩ := hj j List.mem_cons_self
    have hok : MomOk big r keys limit eps (setMom mom j (hull big (slice eps a n))) (lev + 1) := by
      intro lev' c a' n' hl ht'
      have h1 := ht.cell
      have h2 := ht'.cell
      rw [setMom, if_neg (fun e => by subst e; omega)]
      exact h lev' c a' n' hl ht'
    obtain ⟨mom', e1, e2, e3⟩ := ih _ hok (fun k hk => hj k (List.mem_cons_of_mem _ hk))
    refine ⟨mom', ?_, e2, ?_⟩
    · rw [levelMoments, cellMoment_eq big r keys limit lev eps hlen mom h j a n ht]; exact e1
    · intro c a' n' ht' hc
      apply e3 c a' n' ht'
      by_cases hcj : c = j
      · right
        subst hcj
        rw [setMom, if_pos rfl]
        have e1 := cellMoment_eq big r keys limit lev eps hlen mom h c a n ht
        have e2 := cellMoment_eq big r keys limit lev eps hlen mom h c a' n' ht'
        exact Option.some.inj (e1.symm.trans e2)
      · rcases hc with hc | hc
        · left
          exact (List.mem_cons.mp hc).resolve_left hcj
        · right; rw [setMom, if_neg hcj]; exact hc

theorem momentLevels_eq (big : ℝ) (r : Result) (keys : List (BitVec 64)) (limit : ℕ) (order : ℕ → ℕ → List ℕ)
    (hord : ∀ l r, (order l r).Perm (List.range' l (r - l))) (eps : List (Ep α)) (hL : Linked r keys limit)
    (hlen : eps.length = keys.length) : ∀ (i : ℕ) (mom : ℕ → Mom), i ≤ r.levMax + 1 → MomOk big r keys limit eps mom i →
      ∃ mom', momentLevels big limit order r eps i mom = some mom' ∧ MomOk big r keys limit eps mom' 0 := by
  intro i
  induction i with
  | zero => intro mom _ h; exact ⟨mom, rfl, h⟩
  | succ i ih =>
    intro mom hi h
    have hmem : ∀ j, j ∈ order (r.part i) (r.part (i + 1)) ↔ r.part i ≤ j ∧ j < r.part (i + 1) := by
      intro j
      rw [(hord _ _).mem_iff, List.mem_range'_1]
      omega
    obtain ⟨mom', e1, e2, e3⟩ := levelMoments_eq big r keys limit i eps hlen _ mom h
      (fun j hj => hL.cells i j (by omega) ((hmem j).mp hj).1 ((hmem j).mp hj).2)
    have hok : MomOk big r keys limit eps mom' i := by
      intro lev c a n hl ht
      rcases Nat.lt_or_eq_of_le hl with h1 | h1
      · exact e2 lev c a n h1 ht
      · subst h1
        have hc := ht.cell
        exact e3 c a n ht (Or.inl ((hmem c).mpr ⟨hc.2.1, hc.2.2.1⟩))
    obtain ⟨mom'', f1, f2⟩ := ih mom' (by omega) hok
    exact ⟨mom'', by rw [momentLevels, e1]; exact f1, f2⟩

theorem calcMoment_eq (big : ℝ) (r : Result) (keys : List (BitVec 64)) (limit : ℕ) (order : ℕ → ℕ → List ℕ)
    (hord : ∀ l r, (order l r).Perm (List.range' l (r - l))) (eps : List (Ep α)) (hL : Linked r keys limit)
    (hlen : eps.length = keys.length) (mom : ℕ → Mom) :
    ∃ mom', calcMoment big limit order r eps mom = some mom' ∧ MomOk big r keys limit eps mom' 0 :=
  momentLevels_eq big r keys limit order hord eps hL hlen _ mom (le_refl _) (fun lev c a n hl ht => by
    have := ht.cell; omega)

end Verif.Tree
