import Verif.Lemmas.Walk
import Mathlib.Tactic.Linarith
/-! The walks of the tree code. -/
namespace Verif.Tree
open Classical

variable {α β : Type}

theorem normSq_around {p q : V3} {r : ℝ} (hr : 0 ≤ r) (h : (q - p).normSq ≤ r * r) : Box.Mem q (Box.around p r) := by
  simp only [V3.normSq, V3.dot, V3.sub_x, V3.sub_y, V3.sub_z] at h
  have key : ∀ u : ℝ, u * u ≤ r * r → -r ≤ u ∧ u ≤ r := fun u hu => by
    constructor <;> nlinarith
  obtain ⟨x1, x2⟩ := key (q.x - p.x) (by nlinarith [mul_self_nonneg (q.y - p.y), mul_self_nonneg (q.z - p.z)])
  obtain ⟨y1, y2⟩ := key (q.y - p.y) (by nlinarith [mul_self_nonneg (q.x - p.x), mul_self_nonneg (q.z - p.z)])
  obtain ⟨z1, z2⟩ := key (q.z - p.z) (by nlinarith [mul_self_nonneg (q.y - p.y), mul_self_nonneg (q.x - p.x)])
  refine ⟨⟨?_, ?_⟩, ⟨?_, ?_⟩, ?_, ?_⟩ <;> simp only [Box.around] <;> linarith

theorem distMinSq_attained (b : Box) (p : V3) (hb : Box.Proper b) : ∃ q, Box.Mem q b ∧ b.distMinSq p = (q - p).normSq := by
  obtain ⟨h1, h2, h3⟩ := hb
  obtain ⟨qx, x1, x2, x3⟩ := Box.axisDist_attained _ _ p.x h1
  obtain ⟨qy, y1, y2, y3⟩ := Box.axisDist_attained _ _ p.y h2
  obtain ⟨qz, z1, z2, z3⟩ := Box.axisDist_attained _ _ p.z h3
  refine ⟨⟨qx, qy, qz⟩, ⟨⟨x1, x2⟩, ⟨y1, y2⟩, z1, z2⟩, ?_⟩
  simp only [Box.distMinSq, V3.normSq, V3.dot, V3.sub_x, V3.sub_y, V3.sub_z]
  rw [x3, y3, z3]

theorem distMinSq_le (b : Box) (p q : V3) (hq : Box.Mem q b) : b.distMinSq p ≤ (q - p).normSq := by
  obtain ⟨⟨h1, h2⟩, ⟨h3, h4⟩, h5, h6⟩ := hq
  have hx := Box.axisDist_le _ _ p.x q.x h1 h2
  have hy := Box.axisDist_le _ _ p.y q.y h3 h4
  have hz := Box.axisDist_le _ _ p.z q.z h5 h6
  simp only [Box.distMinSq, V3.normSq, V3.dot, V3.sub_x, V3.sub_y, V3.sub_z]
  linarith

section one
variable {big : ℝ} {keys : List (BitVec 64)} {T : MTree α}

theorem Good.mom_eq (hG : Good big keys T) {lev c a n : ℕ} (ht : IsTree T.r keys T.limit lev c a n) :
    T.mom c = hull big (slice T.eps a n) := hG.mom lev c a n (Nat.zero_le _) ht

theorem Good.mem_box (hG : Good big keys T) {lev c a n i : ℕ} {e : Ep α} (ht : IsTree T.r keys T.limit lev c a n)
    (h1 : a ≤ i) (h2 : i < a + n) (he : T.eps[i]? = some e) :
    Box.Mem e.pos (T.mom c).vin ∧ Box.Le (Box.around e.pos e.rs) (T.mom c).vout := by
  rw [hG.mom_eq ht]
  exact mem_hull big (mem_slice T.eps a n i e h1 h2 he)

theorem Good.leaf_le (hG : Good big keys T) {lev c a n i l : ℕ} (ht : IsTree T.r keys T.limit lev c a n)
    (h : InLeaf T i c l) : (T.mom l).Le (T.mom c) := by
  obtain ⟨_, lev', a', n', f1, f2, f3, f4, f5, _⟩ := h.range hG.limit ht
  rw [hG.mom_eq ht, hG.mom_eq f1]
  exact hull_mono big T.eps a n a' n' f4 f5

theorem interactionList_spec (hG : Good big keys T) (tb : Target) (hb : Box.Proper tb.vin)
    (hr : ∀ e ∈ T.eps, 0 ≤ e.rs) : ∃ L, interactionList T tb = some L ∧ L.Pairwise (· < ·) ∧
      ∀ i, i ∈ L ↔ ∃ e, T.eps[i]? = some e ∧ tb.isInEpList e := by
  obtain ⟨L, e1, e2, _, e4⟩ := makeList_spec hG tb.openSymmetry tb.isInEpList True
    (fun _ i => ∃ e, T.eps[i]? = some e ∧ tb.isInEpList e)
    (by
      rintro i c l lev a n ht hin ⟨e, he, hk⟩
      obtain ⟨h1, h2⟩ := (hin.range hG.limit ht).1
      obtain ⟨m1, m2⟩ := hG.mem_box ht h1 h2 he
      rcases hk with hk | hk
      · left
        obtain ⟨q, q1, q2⟩ := distMinSq_attained tb.vin e.pos hb
        exact Box.overlapped_of_mem q1 (m2.mem (normSq_around (hr e (List.mem_of_getElem? he)) (by rw [← q2]; exact hk)))
      · right
        exact Box.overlapped_of_mem ((Box.overlappedPos_iff _ _).mp hk) m1)
    (by
      intro i l e _ _ he
      constructor
      · exact fun h => ⟨e, he, h⟩
      · rintro ⟨e', he', h⟩
        rw [he] at he'
        rw [Option.some.inj he']
        exact h)
    hG.linked.root depth (by decide) (Or.inr trivial)
  refine ⟨L, e1, e2, fun i => ?_⟩
  rw [e4]
  constructor
  · rintro ⟨_, _, h⟩; exact h
  · rintro ⟨e, he, hk⟩
    have hlt := (List.getElem?_eq_some_iff.mp he).1
    have hlen := hG.len
    obtain ⟨l, hl⟩ := exists_inLeaf hG.linked.root i (Nat.zero_le _) (by omega)
    exact ⟨l, hl, e, he, hk⟩

theorem scatterList_spec (hG : Good big keys T) (tb : Target) : ∃ L, scatterList T tb = some L ∧ L.Pairwise (· < ·) ∧
      ∀ i, i ∈ L ↔ ∃ l, InLeaf T i 0 l ∧ tb.vin.overlapped (T.mom l).vout := by
  have hmono : ∀ i c l lev a n, IsTree T.r keys T.limit lev c a n → InLeaf T i c l →
      tb.vin.overlapped (T.mom l).vout → tb.openScatter (T.mom c) := fun i c l lev a n ht hin hs =>
    (hG.leaf_le ht hin).2.overlapped hs
  rw [scatterList]
  by_cases hop : tb.openScatter (T.mom 0) ∧ 0 < (T.r.mem 0).n
  · rw [if_pos hop]
    obtain ⟨L, e1, e2, _, e4⟩ := makeList_spec hG tb.openScatter (fun _ => True) False
      (fun l _ => tb.vin.overlapped (T.mom l).vout) hmono
      (fun i l e _ ho _ => by
        simp only [true_iff]
        exact ho.resolve_right id)
      hG.linked.root depth (by decide) (Or.inl hop.1)
    exact ⟨L, e1, e2, e4⟩
  · rw [if_neg hop]
    refine ⟨[], rfl, List.Pairwise.nil, fun i => ?_⟩
    constructor
    · intro h; simp at h
    · rintro ⟨l, h, hs⟩
      have h1 := (h.range hG.limit hG.linked.root).1
      have h2 := hG.linked.root.cell.2.2.2.2.1
      exact absurd ⟨hmono i 0 l _ _ _ hG.linked.root h hs, by omega⟩ hop

/-- A particle below `c` in a leaf whose outer box meets `box`. -/
def Meets (T : MTree α) (box : Box) (c : ℕ) : Prop := ∃ i l, InLeaf T i c l ∧ (T.mom l).vout.overlapped box

theorem overlapLoop_spec (box : Box) (rec : ℕ → Option Bool) (t : ℕ)
    (hsize : ∀ j < 8, t + j < T.r.size)
    (h0 : ∀ j < 8, (T.r.mem (t + j)).n = 0 → ¬ Meets T box (t + j))
    (h1 : ∀ j < 8, (T.r.mem (t + j)).n ≠ 0 → ¬ (T.mom (t + j)).vout.overlapped box → ¬ Meets T box (t + j))
    (h2 : ∀ j < 8, (T.r.mem (t + j)).n ≠ 0 → (T.mom (t + j)).vout.overlapped box →
      (T.r.mem (t + j)).isLeaf T.limit = true → Meets T box (t + j))
    (h3 : ∀ j < 8, (T.r.mem (t + j)).n ≠ 0 → (T.r.mem (t + j)).isLeaf T.limit = false →
      ∃ t', (T.r.mem (t + j)).adrTc = some t' ∧ ∃ o, rec t' = some o ∧ (o = true ↔ Meets T box (t + j))) :
    ∀ (k j : ℕ), j + k = 8 → ∃ o, overlapLoop T box rec t (List.range' j k) = some o ∧
      (o = true ↔ ∃ m, j ≤ m ∧ m < 8 ∧ Meets T box (t + m)) := by
  intro k
  induction k with
  | zero =>
    intro j hj
    refine ⟨false, rfl, ?_⟩
    constructor
    · intro h; simp at h
    · rintro ⟨m, m1, m2, _⟩; omega
  | succ k ih =>
    intro j hj
    obtain ⟨o, e1, e2⟩ := ih (j + 1) (by omega)
    have hno : ¬ Meets T box (t + j) → (o = true ↔ ∃ m, j ≤ m ∧ m < 8 ∧ Meets T box (t + m)) := by
      intro hm
      rw [e2]
      constructor
      · rintro ⟨m, m1, m2, m3⟩; exact ⟨m, by omega, m2, m3⟩
      · rintro ⟨m, m1, m2, m3⟩
        rcases Nat.lt_or_eq_of_le m1 with q | q
        · exact ⟨m, q, m2, m3⟩
        · subst q; exact absurd m3 hm
    rw [List.range'_succ, overlapLoop, if_pos (hsize j (by omega))]
    by_cases q0 : (T.r.mem (t + j)).n = 0
    · rw [if_pos q0]; exact ⟨o, e1, hno (h0 j (by omega) q0)⟩
    · rw [if_neg q0]
      by_cases q1 : (T.mom (t + j)).vout.overlapped box
      · rw [if_pos q1]
        cases q2 : (T.r.mem (t + j)).isLeaf T.limit with
        | true =>
          refine ⟨true, rfl, ?_⟩
          simp only [true_iff]
          exact ⟨j, le_refl _, by omega, h2 j (by omega) q0 q1 q2⟩
        | false =>
          obtain ⟨t', ht', o', f1, f2⟩ := h3 j (by omega) q0 q2
          simp only [ht', f1, if_neg Bool.false_ne_true]
          cases o' with
          | true =>
            refine ⟨true, rfl, ?_⟩
            simp only [true_iff]
            exact ⟨j, le_refl _, by omega, f2.mp rfl⟩
          | false =>
            exact ⟨o, e1, hno (fun h => by simpa using f2.mpr h)⟩
      · rw [if_neg q1]; exact ⟨o, e1, hno (h1 j (by omega) q0 q1)⟩

theorem isOverlapped_spec (hG : Good big keys T) (box : Box) {lev c a n : ℕ}
    (ht : IsTree T.r keys T.limit lev c a n) : ∀ f, 22 ≤ f + lev → (T.r.mem c).isLeaf T.limit = false →
      ∃ t, (T.r.mem c).adrTc = some t ∧ ∃ o, isOverlapped T box f t = some o ∧ (o = true ↔ Meets T box c) := by
  induction ht with
  | empty lev c a h1 h2 h3 h4 h5 h6 =>
    intro f _ hl
    rw [← Bool.not_eq_true, isLeaf_iff] at hl
    omega
  | leaf lev c a n g1 g2 g3 g4 g5 g6 g7 g8 g9 g10 =>
    intro f _ hl
    rw [← Bool.not_eq_true, isLeaf_iff, g5, g6] at hl
    exact absurd g10 hl
  | node lev c a n t b h1 h2 h3 h4 h5 h6 h7 h8 h9 h10 h11 h12 h13 h14 h15 h16 ih =>
    intro f hf hnl
    have hlm := hG.linked.levMax
    obtain ⟨f, rfl⟩ : ∃ g, f = g + 1 := ⟨f - 1, by omega⟩
    refine ⟨t, h11, ?_⟩
    rw [isOverlapped, range8]
    obtain ⟨o, e1, e2⟩ := overlapLoop_spec box (isOverlapped T box f) t (fun j hj => (h16 j hj).cell.1)
      (fun j hj h0 => by
        rintro ⟨i, l, h, _⟩
        have := (h.range hG.limit (h16 j hj)).1
        have := (h16 j hj).cell.2.2.2.2.1
        omega)
      (fun j hj _ hno => by
        rintro ⟨i, l, h, hs⟩
        exact hno ((Box.overlapped_comm _ _).mp ((hG.leaf_le (h16 j hj) h).2.overlapped ((Box.overlapped_comm _ _).mp hs))))
      (fun j hj hn ho hl => by
        have hcell := (h16 j hj).cell.2.2.2.2.1
        obtain ⟨l, hin⟩ := exists_inLeaf (h16 j hj) (b j) (le_refl _) (by omega)
        refine ⟨b j, t + j, ?_, ho⟩
        cases hin with
        | leaf => exact InLeaf.leaf _ _ ‹_› ‹_› ‹_› ‹_›
        | child _ _ _ _ h0 => rw [hl] at h0; simp at h0)
      (fun j hj hn hl => ih j hj f (by omega) hl) 8 0 rfl
    refine ⟨o, e1, ?_⟩
    rw [e2]
    constructor
    · rintro ⟨m, _, m2, i, l, h, hs⟩
      exact ⟨i, l, InLeaf.child c t m l hnl h11 m2 h, hs⟩
    · rintro ⟨i, l, h, hs⟩
      cases h with
      | leaf _ _ h0 => rw [hnl] at h0; simp at h0
      | child _ t' j _ k1 k2 k3 k4 =>
        obtain rfl := Option.some.inj (h11.symm.trans k2)
        exact ⟨j, by omega, k3, i, l, k4, hs⟩

theorem isOverlappedTop_spec (hG : Good big keys T) (hne : keys ≠ []) (box : Box) :
    ∃ o, isOverlappedTop T box = some o ∧ (o = true ↔ Meets T box 0) := by
  rw [isOverlappedTop]
  cases hl : (T.r.mem 0).isLeaf T.limit with
  | true =>
    refine ⟨decide ((T.mom 0).vout.overlapped box), if_pos rfl, ?_⟩
    have hpos : 0 < keys.length := List.length_pos_iff.mpr hne
    have hin0 : InLeaf T 0 0 0 := InLeaf.leaf 0 0 hl hG.linked.rootAdr (le_refl _) (by
      have := hG.linked.root.cell.2.2.2.2.1; omega)
    simp only [decide_eq_true_eq]
    constructor
    · exact fun h => ⟨0, 0, hin0, h⟩
    · rintro ⟨i, l, h, hs⟩
      exact (Box.overlapped_comm _ _).mp ((hG.leaf_le hG.linked.root h).2.overlapped ((Box.overlapped_comm _ _).mp hs))
  | false =>
    obtain ⟨t, h1, o, h2, h3⟩ := isOverlapped_spec hG box hG.linked.root depth (by decide) hl
    rw [hG.linked.rootChild] at h1
    obtain rfl := Option.some.inj h1
    exact ⟨o, by rw [if_neg Bool.false_ne_true]; exact h2, h3⟩

end one

section two
variable {bigA bigB : ℝ} {keysA keysB : List (BitVec 64)} {A : MTree α} {B : MTree β}

theorem Meets.mono {A : MTree α} {box box' : Box} (h : Box.Le box box') {c : ℕ} (hm : Meets A box c) : Meets A box' c := by
  obtain ⟨i, l, h1, h2⟩ := hm
  exact ⟨i, l, h1, h.overlapped h2⟩

/-- What the double walk sends: particles of leaves that do not reach the domain but whose positions are near some
particle of `A`. -/
def Wanted (A : MTree α) (domain : Box) (B : MTree β) (l : ℕ) : Prop :=
  ¬ (B.mom l).vout.overlapped domain ∧ Meets A (B.mom l).vin 0

theorem openDouble_spec (hA : Good bigA keysA A) (hne : keysA ≠ []) (domain : Box) (c : ℕ) :
    ∃ o, openDouble A domain B c = some o ∧
      (o = true ↔ (B.mom c).vout.overlapped domain ∨ Meets A (B.mom c).vin 0) := by
  rw [openDouble]
  by_cases h : (B.mom c).vout.overlapped domain
  · exact ⟨true, if_pos h, by simp [h]⟩
  · obtain ⟨o, h1, h2⟩ := isOverlappedTop_spec hA hne (B.mom c).vin
    exact ⟨o, by rw [if_neg h]; exact h1, by rw [h2]; simp [h]⟩

/-- The contribution of one child to `MakeListDoubleWalk`. -/
noncomputable def doubleContrib (A : MTree α) (domain : Box) (B : MTree β) (rec : ℕ → Option (List ℕ)) (t i : ℕ) :
    Option (List ℕ) :=
  if t + i < B.r.size then
    match openDouble A domain B (t + i) with
    | none => none
    | some o =>
      if (B.r.mem (t + i)).n = 0 then some []
      else if o = true then
        if (B.r.mem (t + i)).isLeaf B.limit then
          if domain.overlapped (B.mom (t + i)).vout then some [] else leafRange (B.r.mem (t + i))
        else
          match (B.r.mem (t + i)).adrTc with
          | none => none
          | some t' => rec t'
      else some []
  else none

theorem doubleLoop_eq (A : MTree α) (domain : Box) (B : MTree β) (rec : ℕ → Option (List ℕ)) (t : ℕ) (is : List ℕ) :
    doubleLoop A domain B rec t is = concatLoop (doubleContrib A domain B rec t) is := by
  induction is with
  | nil => rfl
  | cons i is ih =>
    have hnil : doubleContrib A domain B rec t i = some [] →
        concatLoop (doubleContrib A domain B rec t) (i :: is) = doubleLoop A domain B rec t is := fun h => by
      rw [concatLoop_nil _ _ _ h, ih]
    have hcons : concatLoop (doubleContrib A domain B rec t) (i :: is) =
        match doubleContrib A domain B rec t i, doubleLoop A domain B rec t is with
        | some l, some l' => some (l ++ l')
        | _, _ => none := by
      rw [concatLoop, ih]
      generalize doubleContrib A domain B rec t i = x
      generalize concatLoop (doubleContrib A domain B rec t) is = y
      cases x <;> cases y <;> rfl
    rw [doubleLoop]
    by_cases h1 : t + i < B.r.size
    · rw [if_pos h1]
      cases h2 : openDouble A domain B (t + i) with
      | none =>
        simp only
        rw [hcons, doubleContrib, if_pos h1, h2]
      | some o =>
        simp only
        by_cases h3 : (B.r.mem (t + i)).n = 0
        · rw [if_pos h3, hnil (by rw [doubleContrib, if_pos h1, h2]; simp only; rw [if_pos h3])]
        · rw [if_neg h3]
          by_cases h4 : o = true
          · rw [if_pos h4]
            by_cases h5 : (B.r.mem (t + i)).isLeaf B.limit = true
            · rw [if_pos h5]
              by_cases h6 : domain.overlapped (B.mom (t + i)).vout
              · rw [if_pos h6, hnil (by
                  rw [doubleContrib, if_pos h1, h2]; simp only
                  rw [if_neg h3, if_pos h4, if_pos h5, if_pos h6])]
              · rw [if_neg h6, hcons, doubleContrib, if_pos h1, h2]
                simp only
                rw [if_neg h3, if_pos h4, if_pos h5, if_neg h6]
                generalize leafRange _ = x
                generalize doubleLoop A domain B rec t is = y
                cases x <;> cases y <;> rfl
            · rw [if_neg h5, hcons, doubleContrib, if_pos h1, h2]
              simp only
              rw [if_neg h3, if_pos h4, if_neg h5]
              cases h7 : (B.r.mem (t + i)).adrTc with
              | none => rfl
              | some t' =>
                simp only
                generalize rec t' = x
                generalize doubleLoop A domain B rec t is = y
                cases x <;> cases y <;> rfl
          · rw [if_neg h4, hnil (by
              rw [doubleContrib, if_pos h1, h2]; simp only
              rw [if_neg h3, if_neg h4])]
    · rw [if_neg h1, hcons, doubleContrib, if_neg h1]

theorem leafRange_spec (hB : Good bigB keysB B) {lev c a n : ℕ} (ht : IsTree B.r keysB B.limit lev c a n)
    (hl : (B.r.mem c).isLeaf B.limit = true) : ∃ L, leafRange (B.r.mem c) = some L ∧ L.Pairwise (· < ·) ∧
      (∀ i ∈ L, a ≤ i ∧ i < a + n) ∧ ∀ i, i ∈ L ↔ InLeaf B i c c := by
  have hc := ht.cell
  by_cases h0 : n = 0
  · refine ⟨[], by rw [leafRange, if_pos (by omega)], List.Pairwise.nil, by simp, fun i => ?_⟩
    constructor
    · intro h; simp at h
    · intro h
      have := (h.range hB.limit ht).1
      omega
  · have ha : (B.r.mem c).adr = some a := by
      cases ht with
      | empty => omega
      | leaf => assumption
      | node => assumption
    refine ⟨List.range' a n, by rw [leafRange, if_neg (by omega), ha, hc.2.2.2.2.1], List.pairwise_lt_range', ?_, fun i => ?_⟩
    · intro i hi; rwa [List.mem_range'_1] at hi
    · rw [List.mem_range'_1]
      constructor
      · rintro ⟨h1, h2⟩; exact InLeaf.leaf c a hl ha h1 (by omega)
      · exact fun h => (h.range hB.limit ht).1

theorem doubleWalk_spec (hA : Good bigA keysA A) (hne : keysA ≠ []) (domain : Box) (hB : Good bigB keysB B)
    {lev c a n : ℕ} (ht : IsTree B.r keysB B.limit lev c a n) : ∀ f, 22 ≤ f + lev → (B.r.mem c).isLeaf B.limit = false →
      ∃ t, (B.r.mem c).adrTc = some t ∧ ∃ L, doubleWalk A domain B f t = some L ∧ L.Pairwise (· < ·) ∧
        (∀ i ∈ L, a ≤ i ∧ i < a + n) ∧ ∀ i, i ∈ L ↔ ∃ l, InLeaf B i c l ∧ Wanted A domain B l := by
  induction ht with
  | empty lev c a h1 h2 h3 h4 h5 h6 =>
    intro f _ hl
    rw [← Bool.not_eq_true, isLeaf_iff] at hl
    omega
  | leaf lev c a n g1 g2 g3 g4 g5 g6 g7 g8 g9 g10 =>
    intro f _ hl
    rw [← Bool.not_eq_true, isLeaf_iff, g5, g6] at hl
    exact absurd g10 hl
  | node lev c a n t b h1 h2 h3 h4 h5 h6 h7 h8 h9 h10 h11 h12 h13 h14 h15 h16 ih =>
    intro f hf hnl
    have hlm := hB.linked.levMax
    obtain ⟨f, rfl⟩ : ∃ g, f = g + 1 := ⟨f - 1, by omega⟩
    refine ⟨t, h11, ?_⟩
    rw [doubleWalk, range8, doubleLoop_eq]
    obtain ⟨L, e1, e2, e3, e4, e5⟩ := concatLoop_spec (doubleContrib A domain B (doubleWalk A domain B f) t) b
      (fun j i => ∃ l, InLeaf B i (t + j) l ∧ Wanted A domain B l) h14 (by
      intro j hj
      have hc := (h16 j hj).cell
      obtain ⟨o, o1, o2⟩ := openDouble_spec (B := B) hA hne domain (t + j)
      rw [doubleContrib, if_pos hc.1, o1]
      simp only
      have hempty : (∀ i l, InLeaf B i (t + j) l → ¬ Wanted A domain B l) →
          ∀ i, i ∈ ([] : List ℕ) ↔ ∃ l, InLeaf B i (t + j) l ∧ Wanted A domain B l := by
        intro h i
        constructor
        · intro h; simp at h
        · rintro ⟨l, l1, l2⟩; exact absurd l2 (h i l l1)
      by_cases q0 : (B.r.mem (t + j)).n = 0
      · rw [if_pos q0]
        refine ⟨[], rfl, List.Pairwise.nil, by simp, hempty (fun i l h _ => ?_)⟩
        have := (h.range hB.limit (h16 j hj)).1
        omega
      · rw [if_neg q0]
        by_cases q1 : o = true
        · rw [if_pos q1]
          cases q2 : (B.r.mem (t + j)).isLeaf B.limit with
          | true =>
            rw [if_pos rfl]
            have honly : ∀ i l, InLeaf B i (t + j) l → l = t + j := by
              intro i l h
              cases h with
              | leaf => rfl
              | child _ _ _ _ h0 => rw [q2] at h0; simp at h0
            by_cases q3 : domain.overlapped (B.mom (t + j)).vout
            · rw [if_pos q3]
              refine ⟨[], rfl, List.Pairwise.nil, by simp, hempty (fun i l h w => ?_)⟩
              rw [honly i l h] at w
              exact w.1 ((Box.overlapped_comm _ _).mp q3)
            · rw [if_neg q3]
              obtain ⟨L, l1, l2, l3, l4⟩ := leafRange_spec hB (h16 j hj) q2
              refine ⟨L, l1, l2, fun i hi => ?_, fun i => ?_⟩
              · have := l3 i hi
                have := h14 j hj
                omega
              · rw [l4]
                have hno : ¬ (B.mom (t + j)).vout.overlapped domain := fun h => q3 ((Box.overlapped_comm _ _).mp h)
                constructor
                · exact fun h => ⟨t + j, h, hno, (o2.mp q1).resolve_left hno⟩
                · rintro ⟨l, h, _⟩
                  obtain rfl := honly i l h
                  exact h
          | false =>
            rw [if_neg Bool.false_ne_true]
            obtain ⟨t', t1, L, l1, l2, l3, l4⟩ := ih j hj f (by omega) q2
            rw [t1]
            refine ⟨L, l1, l2, fun i hi => ?_, l4⟩
            have := l3 i hi
            have := h14 j hj
            omega
        · rw [if_neg q1]
          refine ⟨[], rfl, List.Pairwise.nil, by simp, hempty (fun i l h w => q1 (o2.mpr (Or.inr ?_)))⟩
          exact w.2.mono (hB.leaf_le (h16 j hj) h).1) 8 0 rfl
    refine ⟨L, e1, e2, fun i hi => by have := e3 i hi; omega, fun i => ?_⟩
    rw [e5]
    constructor
    · rintro ⟨m, _, m2, l, h, hs⟩
      exact ⟨l, InLeaf.child c t m l hnl h11 m2 h, hs⟩
    · rintro ⟨l, h, hs⟩
      cases h with
      | leaf _ _ h0 => rw [hnl] at h0; simp at h0
      | child _ t' j _ k1 k2 k3 k4 =>
        obtain rfl := Option.some.inj (h11.symm.trans k2)
        exact ⟨j, by omega, k3, l, k4, hs⟩

/-- The root cell, if it is a leaf, is sent as a whole unless it reaches the domain. -/
theorem doubleWalkTop_spec (hA : Good bigA keysA A) (hne : keysA ≠ []) (domain : Box) (hB : Good bigB keysB B) :
    ∃ L, doubleWalkTop A domain B = some L ∧ L.Pairwise (· < ·) ∧ (∀ i ∈ L, i < keysB.length) ∧
      (∀ i l, InLeaf B i 0 l → Wanted A domain B l → i ∈ L) ∧
      (∀ i ∈ L, ∃ l, InLeaf B i 0 l ∧ ¬ (B.mom l).vout.overlapped domain) ∧
      ((B.r.mem 0).isLeaf B.limit = false → ∀ i ∈ L, ∃ l, InLeaf B i 0 l ∧ Wanted A domain B l) := by
  rw [doubleWalkTop]
  cases hl : (B.r.mem 0).isLeaf B.limit with
  | true =>
    rw [if_pos rfl]
    have honly : ∀ i l, InLeaf B i 0 l → l = 0 := by
      intro i l h
      generalize hc : (0 : ℕ) = c at h
      cases h with
      | leaf => rfl
      | child _ _ _ _ h0 => subst hc; rw [hl] at h0; simp at h0
    by_cases q : (B.mom 0).vout.overlapped domain
    · rw [if_pos q]
      refine ⟨[], rfl, List.Pairwise.nil, by simp, fun i l h w => ?_, by simp, fun h => by simp at h⟩
      rw [honly i l h] at w
      exact absurd q w.1
    · rw [if_neg q]
      obtain ⟨L, l1, l2, l3, l4⟩ := leafRange_spec hB hB.linked.root hl
      refine ⟨L, l1, l2, fun i hi => by have := l3 i hi; omega, fun i l h _ => ?_, fun i hi => ⟨0, (l4 i).mp hi, q⟩,
        fun h => by simp at h⟩
      rw [honly i l h] at h
      exact (l4 i).mpr h
  | false =>
    obtain ⟨t, h1, L, h2, h3, h4, h5⟩ := doubleWalk_spec hA hne domain hB hB.linked.root depth (by decide) hl
    rw [hB.linked.rootChild] at h1
    obtain rfl := Option.some.inj h1
    refine ⟨L, by rw [if_neg Bool.false_ne_true]; exact h2, h3, fun i hi => by have := h4 i hi; omega,
      fun i l h w => (h5 i).mpr ⟨l, h, w⟩, fun i hi => ?_, fun _ i hi => (h5 i).mp hi⟩
    obtain ⟨l, l1, l2⟩ := (h5 i).mp hi
    exact ⟨l, l1, l2.1⟩

end two

end Verif.Tree
