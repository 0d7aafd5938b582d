import Verif.Model.Stats
import Verif.Spec.Collector
import Verif.Props.Collector
import Verif.Lemmas.Mobility
/-! Properties C51, C54, C55, C56, C61: what is computed about all bodies. -/
namespace Verif
open Stats V3

/-! ### C51 -/

/-- The two ends of a body's axis. -/
noncomputable def IsEnd (s : Sylinder) (p : V3) : Prop :=
  p = s.pos - (s.length / 2) • s.direction ∨ p = s.pos + (s.length / 2) • s.direction

/-- `c` is a coordinate, along the axis `axis`, of an end of a body of some rank. -/
def IsCoord (axis : V3 → ℝ) (ranks : List (List Sylinder)) (c : ℝ) : Prop := ∃ r ∈ ranks, ∃ s ∈ r, ∃ p, IsEnd s p ∧ c = axis p

theorem foldMin {α : Type} (f g : α → ℝ) (l : List α) (m : ℝ) :
    IsLeast ({m} ∪ {c | ∃ s ∈ l, c = f s ∨ c = g s}) (l.foldl (fun a s => min (min a (f s)) (g s)) m) := by
  induction l generalizing m with
  | nil => simp [IsLeast, mem_lowerBounds]
  | cons s l ih =>
    obtain ⟨h1, h2⟩ := ih (min (min m (f s)) (g s))
    rw [List.foldl_cons]
    constructor
    · rcases h1 with h1 | ⟨t, ht, h1⟩
      · rw [Set.mem_singleton_iff] at h1
        rw [h1]
        rcases min_choice (min m (f s)) (g s) with h | h
        · rw [h]
          rcases min_choice m (f s) with h | h
          · rw [h]; exact Or.inl rfl
          · rw [h]; exact Or.inr ⟨s, by simp, Or.inl rfl⟩
        · rw [h]; exact Or.inr ⟨s, by simp, Or.inr rfl⟩
      · exact Or.inr ⟨t, List.mem_cons_of_mem _ ht, h1⟩
    · have h0 := h2 (Or.inl rfl)
      rintro c (hc | ⟨t, ht, hc⟩)
      · rw [Set.mem_singleton_iff] at hc
        rw [hc]
        exact h0.trans ((min_le_left _ _).trans (min_le_left _ _))
      · rcases List.mem_cons.1 ht with rfl | ht
        · rcases hc with rfl | rfl
          · exact h0.trans ((min_le_left _ _).trans (min_le_right _ _))
          · exact h0.trans (min_le_right _ _)
        · exact h2 (Or.inr ⟨t, ht, hc⟩)

theorem foldMax {α : Type} (f g : α → ℝ) (l : List α) (m : ℝ) :
    IsGreatest ({m} ∪ {c | ∃ s ∈ l, c = f s ∨ c = g s}) (l.foldl (fun a s => max (max a (f s)) (g s)) m) := by
  have h := foldMin (fun s => -f s) (fun s => -g s) l (-m)
  have e : ∀ (l : List α) (m : ℝ), l.foldl (fun a s => min (min a (-f s)) (-g s)) (-m) = -l.foldl (fun a s => max (max a (f s)) (g s)) m := by
    intro l
    induction l with
    | nil => intro m; rfl
    | cons s l ih =>
      intro m
      rw [List.foldl_cons, List.foldl_cons, ← ih]
      congr 1
      rw [min_neg_neg, min_neg_neg]
  rw [e] at h
  obtain ⟨h1, h2⟩ := h
  constructor
  · rcases h1 with h1 | ⟨s, hs, h1⟩
    · left
      rw [Set.mem_singleton_iff] at h1 ⊢
      linarith
    · right
      refine ⟨s, hs, ?_⟩
      rcases h1 with h1 | h1
      · left; linarith
      · right; linarith
  · rintro c (hc | ⟨s, hs, hc⟩)
    · rw [Set.mem_singleton_iff] at hc
      have := h2 (Or.inl rfl : -m ∈ _)
      linarith
    · have : -c ∈ ({-m} ∪ {c | ∃ s ∈ l, c = -f s ∨ c = -g s} : Set ℝ) := by
        right
        refine ⟨s, hs, ?_⟩
        rcases hc with rfl | rfl
        · exact Or.inl rfl
        · exact Or.inr rfl
      have := h2 this
      linarith

/-- The ends, as the code computes them. -/
noncomputable def pmOf (s : Sylinder) : V3 := s.pos - (s.length * 0.5) • s.direction
noncomputable def ppOf (s : Sylinder) : V3 := s.pos + (s.length * 0.5) • s.direction

theorem end_iff (s : Sylinder) (p : V3) : IsEnd s p ↔ p = pmOf s ∨ p = ppOf s := by
  unfold IsEnd pmOf ppOf
  rw [show s.length * 0.5 = s.length / 2 by norm_num; ring]

/-- The six numbers of a box, by axis. -/
theorem localBox_axis (bodies : List Sylinder) (b : Box) :
    let r := bodies.foldl boxStep b
    (r.low.x = bodies.foldl (fun a s => min (min a (pmOf s).x) (ppOf s).x) b.low.x ∧
     r.low.y = bodies.foldl (fun a s => min (min a (pmOf s).y) (ppOf s).y) b.low.y ∧
     r.low.z = bodies.foldl (fun a s => min (min a (pmOf s).z) (ppOf s).z) b.low.z) ∧
    (r.high.x = bodies.foldl (fun a s => max (max a (pmOf s).x) (ppOf s).x) b.high.x ∧
     r.high.y = bodies.foldl (fun a s => max (max a (pmOf s).y) (ppOf s).y) b.high.y ∧
     r.high.z = bodies.foldl (fun a s => max (max a (pmOf s).z) (ppOf s).z) b.high.z) := by
  induction bodies generalizing b with
  | nil => simp
  | cons s l ih => exact ih (boxStep b s)

/-- Along an axis: the fold over a rank and the fold over the ranks. -/
structure AxisBox (axis : V3 → ℝ) (low high : ℝ) (ranks : List (List Sylinder)) : Prop where
  low : IsLeast ({doubleMax} ∪ {c | IsCoord axis ranks c}) low
  high : IsGreatest ({doubleMin} ∪ {c | IsCoord axis ranks c}) high

theorem axis_local (axis : V3 → ℝ) (r : List Sylinder) :
    AxisBox axis (r.foldl (fun a s => min (min a (axis (pmOf s))) (axis (ppOf s))) doubleMax)
      (r.foldl (fun a s => max (max a (axis (pmOf s))) (axis (ppOf s))) doubleMin) [r] := by
  have e : {c | IsCoord axis [r] c} = {c | ∃ s ∈ r, c = axis (pmOf s) ∨ c = axis (ppOf s)} := by
    ext c
    simp only [IsCoord, Set.mem_setOf_eq, List.mem_singleton, exists_eq_left]
    constructor
    · rintro ⟨s, hs, p, hp, rfl⟩
      refine ⟨s, hs, ?_⟩
      rcases (end_iff s p).1 hp with rfl | rfl
      · exact Or.inl rfl
      · exact Or.inr rfl
    · rintro ⟨s, hs, rfl | rfl⟩
      · exact ⟨s, hs, _, (end_iff s _).2 (Or.inl rfl), rfl⟩
      · exact ⟨s, hs, _, (end_iff s _).2 (Or.inr rfl), rfl⟩
  constructor
  · rw [e]; exact foldMin _ _ r doubleMax
  · rw [e]; exact foldMax _ _ r doubleMin

theorem coord_append (axis : V3 → ℝ) (a b : List (List Sylinder)) : {c | IsCoord axis (a ++ b) c} = {c | IsCoord axis a c} ∪ {c | IsCoord axis b c} := by
  ext c
  simp only [IsCoord, List.mem_append, Set.mem_setOf_eq, Set.mem_union]
  constructor
  · rintro ⟨r, h | h, rest⟩
    · exact Or.inl ⟨r, h, rest⟩
    · exact Or.inr ⟨r, h, rest⟩
  · rintro (⟨r, h, rest⟩ | ⟨r, h, rest⟩)
    · exact ⟨r, Or.inl h, rest⟩
    · exact ⟨r, Or.inr h, rest⟩

theorem AxisBox.merge {axis : V3 → ℝ} {l1 h1 l2 h2 : ℝ} {a b : List (List Sylinder)} (x : AxisBox axis l1 h1 a) (y : AxisBox axis l2 h2 b) :
    AxisBox axis (min l1 l2) (max h1 h2) (a ++ b) := by
  have e : ∀ m : ℝ, ({m} ∪ {c | IsCoord axis (a ++ b) c} : Set ℝ) = ({m} ∪ {c | IsCoord axis a c}) ∪ ({m} ∪ {c | IsCoord axis b c}) := by
    intro m
    rw [coord_append]
    apply Set.ext
    intro c
    simp only [Set.mem_union, Set.mem_singleton_iff]
    tauto
  constructor
  · rw [e]; exact x.low.union y.low
  · rw [e]; exact x.high.union y.high

/-- A box is right along every axis. -/
def Boxed (b : Box) (ranks : List (List Sylinder)) : Prop :=
  AxisBox V3.x b.low.x b.high.x ranks ∧ AxisBox V3.y b.low.y b.high.y ranks ∧ AxisBox V3.z b.low.z b.high.z ranks

theorem localBox_boxed (r : List Sylinder) : Boxed (localBox r) [r] := by
  obtain ⟨⟨a1, a2, a3⟩, b1, b2, b3⟩ := localBox_axis r ⟨⟨doubleMax, doubleMax, doubleMax⟩, ⟨doubleMin, doubleMin, doubleMin⟩⟩
  unfold Boxed localBox
  rw [a1, a2, a3, b1, b2, b3]
  exact ⟨axis_local V3.x r, axis_local V3.y r, axis_local V3.z r⟩

theorem globalBox_boxed (ranks : List (List Sylinder)) (b : Box) (h : globalBox ranks = some b) : Boxed b ranks := by
  cases ranks with
  | nil => cases h
  | cons r rest =>
    simp only [globalBox, Option.some.injEq] at h
    subst h
    have key : ∀ (rest done : List (List Sylinder)) (b : Box), Boxed b done → Boxed ((rest.map localBox).foldl (fun a b =>
      ⟨⟨min a.low.x b.low.x, min a.low.y b.low.y, min a.low.z b.low.z⟩,
       ⟨max a.high.x b.high.x, max a.high.y b.high.y, max a.high.z b.high.z⟩⟩) b) (done ++ rest) := by
      intro rest
      induction rest with
      | nil => intro done b hb; simpa using hb
      | cons r rest ih =>
        intro done b hb
        rw [List.map_cons, List.foldl_cons, show done ++ r :: rest = (done ++ [r]) ++ rest by simp]
        apply ih
        have hr := localBox_boxed r
        exact ⟨hb.1.merge hr.1, hb.2.1.merge hr.2.1, hb.2.2.merge hr.2.2⟩
    exact key rest [r] (localBox r) (localBox_boxed r)

/-- The axis functions. -/
def IsAxis (axis : V3 → ℝ) : Prop := axis = V3.x ∨ axis = V3.y ∨ axis = V3.z

/-- **C51** (partial).  If there is a body and all coordinates are finite doubles, then along each axis the low corner of the box over all ranks is
the least coordinate of an end of a body on any rank; and the high corner is the greatest one **if some coordinate along
this axis is at least the smallest positive double** `2 ^ -1022`.

Missing: an axis along which all coordinates are negative or zero; there the high corner is `2 ^ -1022` (`C51_negative_false`). -/
theorem C51_box_partial (ranks : List (List Sylinder)) (hne : ∃ r ∈ ranks, r ≠ []) (axis : V3 → ℝ) (hax : IsAxis axis)
    (hfin : ∀ c, IsCoord axis ranks c → c ≤ doubleMax) :
    ∃ b, globalBox ranks = some b ∧ IsLeast {c | IsCoord axis ranks c} (axis b.low) ∧
      ((∃ c, IsCoord axis ranks c ∧ doubleMin ≤ c) → IsGreatest {c | IsCoord axis ranks c} (axis b.high)) ∧
      ((¬ ∃ c, IsCoord axis ranks c ∧ doubleMin ≤ c) → axis b.high = doubleMin) := by
  obtain ⟨r, hr, hr'⟩ := hne
  obtain ⟨s, hs⟩ := List.exists_mem_of_ne_nil r hr'
  have hc0 : IsCoord axis ranks (axis (pmOf s)) := ⟨r, hr, s, hs, _, (end_iff s _).2 (Or.inl rfl), rfl⟩
  obtain ⟨b, hb⟩ : ∃ b, globalBox ranks = some b := by
    cases ranks with
    | nil => simp at hr
    | cons a l => exact ⟨_, rfl⟩
  have hbox := globalBox_boxed ranks b hb
  have hA : AxisBox axis (axis b.low) (axis b.high) ranks := by
    rcases hax with rfl | rfl | rfl
    · exact hbox.1
    · exact hbox.2.1
    · exact hbox.2.2
  refine ⟨b, hb, ?_, ?_, ?_⟩
  · refine ⟨?_, fun c hc => hA.low.2 (Or.inr hc)⟩
    rcases hA.low.1 with h | h
    · rw [Set.mem_singleton_iff] at h
      have h1 := hA.low.2 (Or.inr hc0)
      have h2 := hfin _ hc0
      rw [show axis b.low = axis (pmOf s) by linarith]
      exact hc0
    · exact h
  · rintro ⟨c, hc, hle⟩
    refine ⟨?_, fun c hc => hA.high.2 (Or.inr hc)⟩
    rcases hA.high.1 with h | h
    · rw [Set.mem_singleton_iff] at h
      have h1 := hA.high.2 (Or.inr hc)
      rw [show axis b.high = c by linarith]
      exact hc
    · exact h
  · intro hno
    rcases hA.high.1 with h | h
    · exact h
    · exfalso
      exact hno ⟨_, h, hA.high.2 (Or.inl rfl)⟩

/-- A body at rest at a point, upright. -/
noncomputable def bodyAt (p : V3) : Sylinder := { Sylinder.make 0 1 1 2 2 with pos := p, orientation := ⟨1, 0, 0, 0⟩ }

theorem bodyAt_direction (p : V3) : (bodyAt p).direction = ⟨0, 0, 1⟩ := by
  simp [bodyAt, Sylinder.direction, Quat.rot, Quat.vec, V3.ext_iff]

theorem bodyAt_coord_x (p : V3) (c : ℝ) : IsCoord V3.x [[bodyAt p]] c ↔ c = p.x := by
  simp [IsCoord, IsEnd, bodyAt_direction]
  simp [bodyAt]

/-- **C51** is false for a body at negative coordinates: the high corner is not a coordinate of any end. -/
theorem C51_negative_false : ∃ b, globalBox [[bodyAt ⟨-5, -5, -5⟩]] = some b ∧ b.high.x = doubleMin ∧
    ¬ IsGreatest {c | IsCoord V3.x [[bodyAt ⟨-5, -5, -5⟩]] c} b.high.x := by
  have hpos : (0:ℝ) < doubleMin := by unfold doubleMin; positivity
  have hmax : (0:ℝ) < doubleMax := by unfold doubleMax; norm_num
  obtain ⟨b, hb, -, -, h⟩ := C51_box_partial [[bodyAt ⟨-5, -5, -5⟩]] ⟨_, List.mem_cons_self, by simp⟩ V3.x (Or.inl rfl) (by
    intro c hc
    rw [(bodyAt_coord_x _ _).1 hc]
    simp only
    linarith)
  have hh := h (by
    rintro ⟨c, hc, hle⟩
    rw [(bodyAt_coord_x _ _).1 hc] at hle
    simp only at hle
    linarith)
  refine ⟨b, hb, hh, ?_⟩
  rintro ⟨h1, -⟩
  have := (bodyAt_coord_x _ _).1 h1
  rw [hh] at this
  simp only at this
  linarith

/-- Two ranks with a body each: the hypotheses of `C51_box_partial` and of its second part hold. -/
example : (∃ r ∈ [[bodyAt ⟨1, 2, 3⟩], [bodyAt ⟨4, 5, 6⟩]], r ≠ []) ∧ (∃ c, IsCoord V3.x [[bodyAt ⟨1, 2, 3⟩], [bodyAt ⟨4, 5, 6⟩]] c ∧ doubleMin ≤ c) ∧
    ∀ c, IsCoord V3.x [[bodyAt ⟨1, 2, 3⟩], [bodyAt ⟨4, 5, 6⟩]] c → c ≤ doubleMax := by
  have hmin : doubleMin ≤ 1 := by unfold doubleMin; rw [div_le_one (by positivity)]; exact one_le_pow₀ (by norm_num)
  have hmax : (4:ℝ) ≤ doubleMax := by
    unfold doubleMax
    have : (2:ℝ) ^ 1023 = 2 ^ 1020 * 8 := by rw [show (1023:ℕ) = 1020 + 3 from rfl, pow_add]; norm_num
    have h1 : (1:ℝ) ≤ 2 ^ 1020 := one_le_pow₀ (by norm_num)
    rw [this, ← mul_assoc, mul_right_comm]
    have h2 : (4:ℝ) ≤ (2 - 1 / 2 ^ 52) * 8 := by norm_num
    calc (4:ℝ) ≤ (2 - 1 / 2 ^ 52) * 8 := h2
      _ = (2 - 1 / 2 ^ 52) * 8 * 1 := (mul_one _).symm
      _ ≤ (2 - 1 / 2 ^ 52) * 8 * 2 ^ 1020 := mul_le_mul_of_nonneg_left h1 (by linarith)
  have hc : ∀ c, IsCoord V3.x [[bodyAt ⟨1, 2, 3⟩], [bodyAt ⟨4, 5, 6⟩]] c ↔ c = 1 ∨ c = 4 := by
    intro c
    simp [IsCoord, IsEnd, bodyAt_direction]
    simp [bodyAt]
  refine ⟨⟨_, List.mem_cons_self, by simp⟩, ⟨1, (hc 1).2 (Or.inl rfl), hmin⟩, ?_⟩
  intro c h
  rcases (hc c).1 h with rfl | rfl <;> linarith

/-! ### C54 -/

/-- The number of bodies the current tree was made for, from the counts and decisions so far. -/
def builtFor (past : List (ℤ × Bool)) : Option ℤ := past.foldl (fun b p => if p.2 then some p.1 else b) none

/-- The history of one tree. -/
def oneHistory (t : Tree) : List ℤ → Option (List (Tree × Bool))
  | [] => some []
  | n :: rest => (setTree t n).bind fun r => (oneHistory r.1 rest).map fun h => r :: h

theorem mapM_replicate {α β : Type} (f : α → Option β) (t : α) (P : ℕ) (hP : 0 < P) :
    (List.replicate P t).mapM f = (f t).map (List.replicate P) := by
  cases h : f t with
  | none =>
    obtain ⟨P, rfl⟩ : ∃ Q, P = Q + 1 := ⟨P - 1, by omega⟩
    simp [List.replicate_succ, h]
  | some y =>
    clear hP
    induction P with
    | zero => simp
    | succ P ih => simp [List.replicate_succ, h, ih]

theorem setTrees_same (P : ℕ) (hP : 0 < P) (t : Tree) (n : ℤ) : setTrees (List.replicate P t) n = (setTree t n).map (List.replicate P) :=
  mapM_replicate _ t P hP

theorem updateTree_same (P : ℕ) (hP : 0 < P) (t : Tree) (n : ℤ) : updateTree (List.replicate P t) n = (setTree t n).map (List.replicate P) := by
  unfold updateTree
  rw [mapM_replicate _ t P hP]
  congr 1
  have hall : (List.replicate P t).all (fun t => t.capacity.isNone || decide (2 * n > 3 * t.number)) = (t.capacity.isNone || decide (2 * n > 3 * t.number)) := by
    obtain ⟨P, rfl⟩ : ∃ Q, P = Q + 1 := ⟨P - 1, by omega⟩
    rw [Bool.eq_iff_iff]
    simp
  simp only [hall]
  unfold setTree
  by_cases h : 2 * n > 3 * t.number ∨ t.capacity = none
  · rw [if_pos h, if_pos (by rcases h with h | h <;> simp [h])]
  · rw [if_neg h, if_neg (by push Not at h; simp [h.2]; omega)]

theorem treeHistory_same (update : List Tree → ℤ → Option (List (Tree × Bool))) (P : ℕ)
    (hu : ∀ t n, update (List.replicate P t) n = (setTree t n).map (List.replicate P)) (t : Tree) (ns : List ℤ) :
    treeHistory update (List.replicate P t) ns = (oneHistory t ns).map (List.map (List.replicate P)) := by
  induction ns generalizing t with
  | nil => rfl
  | cons n ns ih =>
    simp only [treeHistory, oneHistory, hu]
    cases setTree t n with
    | none => rfl
    | some r =>
      simp only [Option.map_some, Option.bind_some, List.map_replicate, ih]
      cases oneHistory r.1 ns <;> rfl

theorem oneHistory_spec (t : Tree) (b : Option ℤ) (ns : List ℤ) (hns : ∀ n ∈ ns, 0 ≤ n ∧ 2 * n ≤ Stats.intMax)
    (ht : t.capacity = none ∧ b = none ∨ t.capacity = some (2 * t.number) ∧ b = some t.number ∧ 0 ≤ t.number) :
    ∃ h, oneHistory t ns = some h ∧ h.length = ns.length ∧ ∀ k n, ns[k]? = some n → ∃ x c, h[k]? = some x ∧ x.1.capacity = some c ∧ n ≤ c ∧
      (x.2 = true ↔ ∀ m, ((ns.zip (h.map Prod.snd)).take k).foldl (fun (b : Option ℤ) (p : ℤ × Bool) => if p.2 then some p.1 else b) b = some m → 3 * m < 2 * n) := by
  induction ns generalizing t b with
  | nil => exact ⟨[], rfl, rfl, by simp⟩
  | cons n ns ih =>
    obtain ⟨hn0, hn1⟩ := hns n (by simp)
    obtain ⟨r, hr, hr'⟩ : ∃ r, setTree t n = some r ∧
        ((r = (⟨some (2 * n), n⟩, true) ∧ ∀ m, b = some m → 3 * m < 2 * n) ∨
          (r = (t, false) ∧ t.capacity = some (2 * t.number) ∧ b = some t.number ∧ 0 ≤ t.number ∧ 2 * n ≤ 3 * t.number)) := by
      unfold setTree
      by_cases h : 2 * n > 3 * t.number ∨ t.capacity = none
      · rw [if_pos h, if_pos hn1]
        refine ⟨_, rfl, Or.inl ⟨rfl, ?_⟩⟩
        rcases ht with ⟨h1, h2⟩ | ⟨h1, h2, h3⟩
        · intro m hm; rw [h2] at hm; cases hm
        · intro m hm
          rw [h2, Option.some.injEq] at hm
          rcases h with h | h
          · omega
          · rw [h1] at h; cases h
      · rw [if_neg h]
        push Not at h
        refine ⟨_, rfl, Or.inr ⟨rfl, ?_⟩⟩
        rcases ht with ⟨h1, h2⟩ | ⟨h1, h2, h3⟩
        · exact absurd h1 h.2
        · exact ⟨h1, h2, h3, h.1⟩
    obtain ⟨h, hh, hl, hk⟩ := ih r.1 (if r.2 then some n else b) (fun m hm => hns m (List.mem_cons_of_mem _ hm)) (by
      rcases hr' with ⟨rfl, -⟩ | ⟨rfl, h1, h2, h3, -⟩
      · right; exact ⟨rfl, rfl, hn0⟩
      · right; exact ⟨h1, by simpa using h2, h3⟩)
    refine ⟨r :: h, by simp [oneHistory, hr, hh], by simp [hl], ?_⟩
    intro k m hm
    cases k with
    | zero =>
      simp only [List.getElem?_cons_zero, Option.some.injEq] at hm
      subst hm
      rcases hr' with ⟨rfl, h1⟩ | ⟨rfl, h1, h2, h3, h4⟩
      · exact ⟨_, 2 * n, rfl, rfl, by omega, by simpa using h1⟩
      · refine ⟨_, 2 * t.number, rfl, h1, by omega, ?_⟩
        simp [h2]
        omega
    | succ k =>
      simp only [List.getElem?_cons_succ] at hm
      obtain ⟨x, c, hx, hc, hle, hd⟩ := hk k m hm
      refine ⟨x, c, by simpa using hx, hc, hle, ?_⟩
      rw [hd]
      simp

/-- **C54**.  Let `ns` be the numbers of bodies at the successive uses of the tree.  On `P` ranks that start without a tree, for
`setTreeSylinder` and for `updateTree`, the history goes through, and at each use: all ranks have taken the same decision, the capacity on
every rank is at least the number of bodies, and the tree was made anew if and only if there was none or the number of bodies was
more than one and a half times the number it was made for. -/
theorem C54_capacity (update : List Tree → ℤ → Option (List (Tree × Bool))) (hu : update = setTrees ∨ update = updateTree) (P : ℕ) (hP : 0 < P)
    (ns : List ℤ) (hns : ∀ n ∈ ns, 0 ≤ n ∧ 2 * n ≤ 2147483647) :
    ∃ hist ds, treeHistory update (List.replicate P Tree.start) ns = some hist ∧ hist.length = ns.length ∧ ds.length = ns.length ∧
      ∀ k n, ns[k]? = some n → ∃ rs d, hist[k]? = some rs ∧ ds[k]? = some d ∧ rs.length = P ∧
        (∀ x ∈ rs, x.2 = d ∧ ∃ c, x.1.capacity = some c ∧ n ≤ c) ∧
        (d = true ↔ ∀ m, builtFor ((ns.zip ds).take k) = some m → 3 * m < 2 * n) := by
  have hsame : ∀ t n, update (List.replicate P t) n = (setTree t n).map (List.replicate P) := by
    rcases hu with rfl | rfl
    · exact setTrees_same P hP
    · exact updateTree_same P hP
  obtain ⟨h, hh, hl, hk⟩ := oneHistory_spec Tree.start none ns hns (Or.inl ⟨rfl, rfl⟩)
  refine ⟨h.map (List.replicate P), h.map Prod.snd, ?_, by simp [hl], by simp [hl], ?_⟩
  · rw [treeHistory_same update P hsame, hh]
    rfl
  · intro k n hn
    obtain ⟨x, c, hx, hc, hle, hd⟩ := hk k n hn
    refine ⟨List.replicate P x, x.2, by simp [hx], by simp [hx], by simp, ?_, hd⟩
    intro y hy
    rw [List.eq_of_mem_replicate hy]
    exact ⟨rfl, c, hc, hle⟩

/-- Three uses with 10, 15 and 16 bodies on two ranks: built, kept, built. -/
example : ∃ hist, treeHistory updateTree (List.replicate 2 Tree.start) [10, 15, 16] = some hist ∧
    hist.map (fun rs => rs.map Prod.snd) = [[true, true], [false, false], [true, true]] ∧ (∀ n ∈ [(10:ℤ), 15, 16], 0 ≤ n ∧ 2 * n ≤ 2147483647) :=
  ⟨_, rfl, by decide, by decide⟩

/-! ### C55 -/

/-- The mean of a number over a list of bodies. -/
noncomputable def mean (f : Sylinder → ℝ) (bodies : List Sylinder) : ℝ := (bodies.map f).sum / (bodies.length : ℝ)

theorem foldl_add_eq {β : Type} (f : β → Fin 12 → ℝ) (l : List β) (acc : Fin 12 → ℝ) (i : Fin 12) :
    (l.foldl (fun acc s => acc + f s) acc) i = acc i + (l.map fun s => f s i).sum := by
  induction l generalizing acc with
  | nil => simp
  | cons s l ih => rw [List.foldl_cons, ih]; simp [add_assoc]

theorem orderLocal_eq (parts : List (List Sylinder)) (i : Fin 12) : orderLocal parts i = (parts.flatten.map fun s => orderTerm s i).sum := by
  unfold orderLocal
  have h := foldl_add_eq (fun p : Fin 12 → ℝ => p) (parts.map fun p => p.foldl (fun acc s => acc + orderTerm s) 0) 0 i
  rw [h]
  simp only [Pi.zero_apply, zero_add, List.map_map]
  induction parts with
  | nil => simp
  | cons p parts ih =>
    simp only [List.map_cons, List.sum_cons, List.flatten_cons, List.map_append, List.sum_append]
    rw [ih (foldl_add_eq _ _ _ _)]
    congr 1
    simp only [Function.comp_apply]
    rw [foldl_add_eq]
    simp

theorem order_value (ranks : List (List (List Sylinder))) (hne : ranks.flatten.flatten ≠ []) :
    ∃ r, calcOrderParameter ranks = some r ∧ ∀ i, r i = mean (fun s => orderTerm s i) ranks.flatten.flatten := by
  have hlen : (ranks.map fun parts => (parts.map List.length).sum).sum = ranks.flatten.flatten.length := by
    rw [List.length_flatten, List.map_flatten, List.sum_flatten, List.map_map]
    rfl
  unfold calcOrderParameter
  simp only [hlen]
  have h0 : ranks.flatten.flatten.length ≠ 0 := fun h => hne (List.length_eq_zero_iff.1 h)
  rw [if_neg h0]
  refine ⟨_, rfl, ?_⟩
  intro i
  have h := foldl_add_eq (fun p : Fin 12 → ℝ => p) (ranks.map orderLocal) 0 i
  rw [h]
  have : ((ranks.map orderLocal).map fun s => s i).sum = (ranks.flatten.flatten.map fun s => orderTerm s i).sum := by
    clear hlen h0 hne h
    induction ranks with
    | nil => simp
    | cons p ranks ih =>
      simp only [List.map_cons, List.sum_cons, List.flatten_cons, List.flatten_append, List.map_append, List.sum_append]
      rw [ih, orderLocal_eq]
  rw [this]
  simp only [Pi.zero_apply, zero_add, mean]
  rw [show (1.0 : ℝ) = 1 by norm_num]
  ring

/-- The components of a vector. -/
noncomputable def comp (d : V3) : Fin 3 → ℝ := ![d.x, d.y, d.z]

/-- The reported tensor, from the twelve numbers. -/
def tensor (r : Fin 12 → ℝ) (i j : Fin 3) : ℝ := r ⟨3 + 3 * i + j, by omega⟩

theorem orderTerm_tensor (s : Sylinder) (i j : Fin 3) :
    orderTerm s ⟨3 + 3 * i + j, by omega⟩ = comp s.direction i * comp s.direction j - if i = j then 1 / 3 else 0 := by
  fin_cases i <;> fin_cases j <;> simp [orderTerm, comp] <;> norm_num

theorem mean_mono (f g : Sylinder → ℝ) (l : List Sylinder) (h : ∀ s ∈ l, f s ≤ g s) : mean f l ≤ mean g l := by
  unfold mean
  apply div_le_div_of_nonneg_right _ (Nat.cast_nonneg _)
  exact List.sum_le_sum h

theorem mean_const (c : ℝ) (l : List Sylinder) (h : l ≠ []) : mean (fun _ => c) l = c := by
  unfold mean
  have : (l.length : ℝ) ≠ 0 := by
    rw [Nat.cast_ne_zero]
    exact fun h' => h (List.length_eq_zero_iff.1 h')
  simp
  field_simp

theorem mean_congr (f g : Sylinder → ℝ) (l : List Sylinder) (h : ∀ s ∈ l, f s = g s) : mean f l = mean g l := by
  unfold mean
  rw [List.map_congr_left h]

theorem mean_add (f g : Sylinder → ℝ) (l : List Sylinder) : mean (fun s => f s + g s) l = mean f l + mean g l := by
  unfold mean
  rw [List.sum_map_add]
  ring

theorem mean_smul (c : ℝ) (f : Sylinder → ℝ) (l : List Sylinder) : mean (fun s => c * f s) l = c * mean f l := by
  unfold mean
  rw [List.sum_map_mul_left]
  ring

/-- The quadratic form of a tensor. -/
def quad (Q : Fin 3 → Fin 3 → ℝ) (u : V3) : ℝ :=
  u.x * (Q 0 0 * u.x + Q 0 1 * u.y + Q 0 2 * u.z) + u.y * (Q 1 0 * u.x + Q 1 1 * u.y + Q 1 2 * u.z) + u.z * (Q 2 0 * u.x + Q 2 1 * u.y + Q 2 2 * u.z)

/-- `u` is an eigenvector of `Q` with the eigenvalue `k`. -/
def Eigen (Q : Fin 3 → Fin 3 → ℝ) (k : ℝ) (u : V3) : Prop :=
  u ≠ 0 ∧ ∀ i, Q i 0 * u.x + Q i 1 * u.y + Q i 2 * u.z = k * comp u i

theorem quad_mean (f : Sylinder → Fin 3 → Fin 3 → ℝ) (l : List Sylinder) (u : V3) :
    quad (fun i j => mean (fun s => f s i j) l) u = mean (fun s => quad (f s) u) l := by
  unfold quad
  rw [mean_add, mean_add, mean_smul, mean_smul, mean_smul]
  simp only [mean_add]
  simp only [mul_comm _ u.x, mul_comm _ u.y, mul_comm _ u.z]
  simp only [mean_smul]

/-- **C55**.  If there is a body and all orientations are unit quaternions, then the first three numbers reported are the mean director, the other nine are
the mean of `p pᵀ - 1/3`; this tensor is symmetric and has trace zero, its quadratic form on unit vectors and its eigenvalues are
between `-1/3` and `2/3`; and any other distribution of the same bodies over ranks and threads gives the same twelve numbers. -/
theorem C55_order (ranks : List (List (List Sylinder))) (hne : ranks.flatten.flatten ≠ [])
    (hu : ∀ s ∈ ranks.flatten.flatten, Spec.UnitQuat s.orientation) :
    ∃ r, calcOrderParameter ranks = some r ∧
      r 0 = mean (fun s => s.direction.x) ranks.flatten.flatten ∧ r 1 = mean (fun s => s.direction.y) ranks.flatten.flatten ∧
      r 2 = mean (fun s => s.direction.z) ranks.flatten.flatten ∧
      (∀ i j, tensor r i j = mean (fun s => comp s.direction i * comp s.direction j - if i = j then 1 / 3 else 0) ranks.flatten.flatten) ∧
      (∀ i j, tensor r i j = tensor r j i) ∧ tensor r 0 0 + tensor r 1 1 + tensor r 2 2 = 0 ∧
      (∀ u : V3, dot u u = 1 → -(1 / 3) ≤ quad (tensor r) u ∧ quad (tensor r) u ≤ 2 / 3) ∧
      (∀ k u, Eigen (tensor r) k u → -(1 / 3) ≤ k ∧ k ≤ 2 / 3) ∧
      ∀ ranks' : List (List (List Sylinder)), ranks'.flatten.flatten.Perm ranks.flatten.flatten → calcOrderParameter ranks' = some r := by
  obtain ⟨r, hr, hv⟩ := order_value ranks hne
  have ht : ∀ i j, tensor r i j = mean (fun s => comp s.direction i * comp s.direction j - if i = j then 1 / 3 else 0) ranks.flatten.flatten := by
    intro i j
    unfold tensor
    rw [hv]
    exact mean_congr _ _ _ (fun s _ => orderTerm_tensor s i j)
  have hunit : ∀ s ∈ ranks.flatten.flatten, dot s.direction s.direction = 1 := fun s hs => Mobility.direction_unit s (hu s hs)
  have hq : ∀ u : V3, dot u u = 1 → -(1 / 3) ≤ quad (tensor r) u ∧ quad (tensor r) u ≤ 2 / 3 := by
    intro u hu1
    have e : quad (tensor r) u = mean (fun s => dot s.direction u ^ 2 - 1 / 3) ranks.flatten.flatten := by
      rw [show tensor r = fun i j => mean (fun s => comp s.direction i * comp s.direction j - if i = j then 1 / 3 else 0) ranks.flatten.flatten from
        funext fun i => funext fun j => ht i j, quad_mean]
      apply mean_congr
      intro s _
      simp [quad, comp, dot] at hu1 ⊢
      linear_combination (-(1 / 3) : ℝ) * hu1
    rw [e]
    constructor
    · rw [← mean_const (-(1 / 3)) ranks.flatten.flatten hne]
      apply mean_mono
      intro s _
      nlinarith [sq_nonneg (dot s.direction u)]
    · rw [← mean_const (2 / 3) ranks.flatten.flatten hne]
      apply mean_mono
      intro s hs
      have h1 := V3.dot_sq_le s.direction u
      unfold V3.normSq at h1
      rw [hunit s hs, hu1] at h1
      linarith
  refine ⟨r, hr, ?_, ?_, ?_, ht, ?_, ?_, hq, ?_, ?_⟩
  · rw [hv]; rfl
  · rw [hv]; rfl
  · rw [hv]; rfl
  · intro i j
    rw [ht, ht]
    apply mean_congr
    intro s _
    rw [mul_comm]
    simp only [eq_comm]
  · rw [ht, ht, ht, ← mean_add, ← mean_add, ← mean_const 0 ranks.flatten.flatten hne]
    apply mean_congr
    intro s hs
    have := hunit s hs
    simp [comp, dot] at this ⊢
    linarith
  · intro k u ⟨hu0, he⟩
    have hn := V3.normSq_pos u hu0
    have hnn := V3.norm_pos u hu0
    have e1 := he 0
    have e2 := he 1
    have e3 := he 2
    simp [comp] at e1 e2 e3
    have hd : dot ((1 / u.norm) • u) ((1 / u.norm) • u) = 1 := by
      have : dot ((1 / u.norm) • u) ((1 / u.norm) • u) = (1 / u.norm) ^ 2 * V3.normSq u := by
        simp only [V3.normSq, dot, smul_x, smul_y, smul_z]; ring
      rw [this, ← V3.norm_sq]
      field_simp
    have hk : quad (tensor r) ((1 / u.norm) • u) = k := by
      have : quad (tensor r) ((1 / u.norm) • u) = (1 / u.norm) ^ 2 * (k * V3.normSq u) := by
        simp only [quad, V3.normSq, dot, smul_x, smul_y, smul_z]
        linear_combination (1 / u.norm) ^ 2 * (u.x * e1 + u.y * e2 + u.z * e3)
      rw [this, ← V3.norm_sq]
      field_simp
    rw [← hk]
    exact hq _ hd
  · intro ranks' hp
    obtain ⟨r', hr', hv'⟩ := order_value ranks' (by
      intro h0
      rw [h0] at hp
      exact hne hp.symm.eq_nil)
    rw [hr']
    congr 1
    funext i
    rw [hv, hv']
    unfold mean
    rw [hp.length_eq, (hp.map _).sum_eq]

/-- Without bodies nothing is reported: the code divides by zero. -/
theorem C55_empty : calcOrderParameter [[[]], [[]]] = none := by simp [calcOrderParameter]

/-- Two bodies on two ranks. -/
example : ([[[bodyAt ⟨1, 2, 3⟩]], [[], [bodyAt ⟨4, 5, 6⟩]]] : List (List (List Sylinder))).flatten.flatten ≠ [] ∧
    ∀ s ∈ ([[[bodyAt ⟨1, 2, 3⟩]], [[], [bodyAt ⟨4, 5, 6⟩]]] : List (List (List Sylinder))).flatten.flatten, Spec.UnitQuat s.orientation := by
  constructor
  · simp
  · intro s hs
    simp at hs
    rcases hs with rfl | rfl <;> simp [bodyAt, Spec.UnitQuat]

/-! ### C56 -/

/-- **C56**.  Starting from a fresh domain, for all eight flag combinations and all boxes: with `low ≤ high` on all axes the axis `k` is periodic exactly if
its flag is set; the root domain has the configured extent on periodic axes whose extent is positive and the initial one, huge, on all others.
A box with `high < low` on any axis, periodic or not, is rejected. -/
theorem C56_axes (pbc : Fin 3 → Bool) (low high : Fin 3 → ℝ) :
    ((∀ k, low k ≤ high k) → ∃ d, setDomainInfo Domain.start pbc low high = some d ∧ (∀ k, d.periodic k = pbc k) ∧
      (∀ k, pbc k = true → low k < high k → d.low k = low k ∧ d.high k = high k) ∧
      (∀ k, pbc k = false ∨ low k = high k → d.low k = -largeFloat ∧ d.high k = largeFloat)) ∧
    ((∃ k, high k < low k) → setDomainInfo Domain.start pbc low high = none) := by
  have hper : ∀ k, ((Domain.start.switch (choose pbc)).periodic k = pbc k) ∧
      (Domain.start.switch (choose pbc)).low = Domain.start.low ∧
      (Domain.start.switch (choose pbc)).high = Domain.start.high := by
    intro k
    cases h0 : pbc 0 <;> cases h1 : pbc 1 <;> cases h2 : pbc 2 <;>
      simp only [choose, Domain.switch, h0, h1, h2, if_true, Bool.false_eq_true, if_false] <;>
      refine ⟨?_, rfl, rfl⟩ <;> fin_cases k <;> simp [Domain.setBoundaryCondition, Domain.set, Domain.start, h0, h1, h2]
  constructor
  · intro h
    unfold setDomainInfo Domain.setPosRootDomain
    rw [if_neg (by push Not; exact h)]
    refine ⟨_, rfl, fun k => (hper k).1, ?_, ?_⟩
    · intro k hk hlt
      simp only [(hper k).1, hk, Bool.true_eq_false, if_false, hlt, if_true, and_self]
    · intro k hk
      simp only [(hper k).1, (hper k).2.1, (hper k).2.2]
      rcases hk with hk | hk
      · simp [hk, Domain.start]
      · simp [hk, Domain.start]
  · intro h
    unfold setDomainInfo Domain.setPosRootDomain
    rw [if_pos h]

/-- A box periodic in x and z. -/
example : ∃ d, setDomainInfo Domain.start ![true, false, true] ![0, 0, 0] ![10, 10, 10] = some d ∧ d.periodic 0 = true ∧ d.periodic 1 = false ∧
    d.low 0 = 0 ∧ d.high 2 = 10 := by
  obtain ⟨d, hd, hp, h1, -⟩ := (C56_axes ![true, false, true] ![0, 0, 0] ![10, 10, 10]).1 (by intro k; fin_cases k <;> simp)
  exact ⟨d, hd, hp 0, hp 1, (h1 0 rfl (by simp)).1, (h1 2 rfl (by simp)).2⟩

/-! ### C61 -/

/-- **C61**.  With bodies and a nonzero thermal energy, every entry of the two reported matrices is the sum, over all constraints on all ranks that
are not one sided and are (not) bilateral, of the stress entry, divided by the number of bodies times `KBT`; whatever the threads' order. -/
theorem C61_stress (nGlobal : ℕ) (KBT : ℝ) (hn : 0 < nGlobal) (hk : KBT ≠ 0) (ranks : List (Collector.Pool × List ℕ))
    (ho : ∀ r ∈ ranks, r.2.Perm (List.range r.1.length)) :
    ∃ m, calcConStress nGlobal KBT ranks = some m ∧ ∀ i j,
      m.1 i j = Spec.Collector.stressTotal false false (ranks.map fun r => r.1.flatten).flatten i j / (nGlobal * KBT) ∧
      m.2 i j = Spec.Collector.stressTotal false true (ranks.map fun r => r.1.flatten).flatten i j / (nGlobal * KBT) := by
  have hne : (nGlobal : ℝ) * KBT ≠ 0 := mul_ne_zero (by exact_mod_cast hn.ne') hk
  unfold calcConStress
  rw [if_neg hne]
  refine ⟨_, rfl, ?_⟩
  intro i j
  have key : ∀ (ranks : List (Collector.Pool × List ℕ)) (acc : Collector.Mat3 × Collector.Mat3), (∀ r ∈ ranks, r.2.Perm (List.range r.1.length)) →
      ((ranks.map fun r =>
        (((1 / ((nGlobal : ℝ) * KBT)) • (Collector.sumLocalConstraintStress r.1 false r.2).1 : Collector.Mat3),
          ((1 / ((nGlobal : ℝ) * KBT)) • (Collector.sumLocalConstraintStress r.1 false r.2).2 : Collector.Mat3))).foldl
        (fun acc s => (acc.1 + s.1, acc.2 + s.2)) acc).1 i j =
          acc.1 i j + Spec.Collector.stressTotal false false (ranks.map fun r => r.1.flatten).flatten i j / (nGlobal * KBT) ∧
      ((ranks.map fun r =>
        (((1 / ((nGlobal : ℝ) * KBT)) • (Collector.sumLocalConstraintStress r.1 false r.2).1 : Collector.Mat3),
          ((1 / ((nGlobal : ℝ) * KBT)) • (Collector.sumLocalConstraintStress r.1 false r.2).2 : Collector.Mat3))).foldl
        (fun acc s => (acc.1 + s.1, acc.2 + s.2)) acc).2 i j =
          acc.2 i j + Spec.Collector.stressTotal false true (ranks.map fun r => r.1.flatten).flatten i j / (nGlobal * KBT) := by
    intro ranks
    induction ranks with
    | nil => intro acc _; simp [Spec.Collector.stressTotal]
    | cons r ranks ih =>
      intro acc ho
      obtain ⟨h1, h2⟩ := C29_stress_total r.1 false r.2 (ho r (by simp)) i j
      obtain ⟨i1, i2⟩ := ih (acc.1 + ((1 / ((nGlobal : ℝ) * KBT)) • (Collector.sumLocalConstraintStress r.1 false r.2).1 : Collector.Mat3),
        acc.2 + ((1 / ((nGlobal : ℝ) * KBT)) • (Collector.sumLocalConstraintStress r.1 false r.2).2 : Collector.Mat3))
        (fun r' hr' => ho r' (List.mem_cons_of_mem _ hr'))
      rw [List.map_cons, List.foldl_cons, i1, i2]
      simp only [Matrix.add_apply, Matrix.smul_apply, smul_eq_mul, h1, h2, Spec.Collector.stressTotal, List.map_cons, List.flatten_cons,
        List.filter_append, List.map_append, List.sum_append]
      constructor <;> ring
  have := key ranks (0, 0) ho
  simpa using this

/-- **C61**, independence: other distributions of the same constraints over ranks, queues and threads give the same report. -/
theorem C61_distribution (nGlobal : ℕ) (KBT : ℝ) (hn : 0 < nGlobal) (hk : KBT ≠ 0) (ranks ranks' : List (Collector.Pool × List ℕ))
    (ho : ∀ r ∈ ranks, r.2.Perm (List.range r.1.length)) (ho' : ∀ r ∈ ranks', r.2.Perm (List.range r.1.length))
    (hp : (ranks.map fun r => r.1.flatten).flatten.Perm (ranks'.map fun r => r.1.flatten).flatten) :
    calcConStress nGlobal KBT ranks = calcConStress nGlobal KBT ranks' := by
  obtain ⟨m, hm, h⟩ := C61_stress nGlobal KBT hn hk ranks ho
  obtain ⟨m', hm', h'⟩ := C61_stress nGlobal KBT hn hk ranks' ho'
  rw [hm, hm']
  congr 1
  have hs : ∀ b i j, Spec.Collector.stressTotal false b (ranks.map fun r => r.1.flatten).flatten i j =
      Spec.Collector.stressTotal false b (ranks'.map fun r => r.1.flatten).flatten i j := by
    intro b i j
    unfold Spec.Collector.stressTotal
    exact ((hp.filter _).map _).sum_eq
  apply Prod.ext
  · ext i j
    rw [(h i j).1, (h' i j).1, hs]
  · ext i j
    rw [(h i j).2, (h' i j).2, hs]

/-- Without thermal energy the code divides by zero. -/
theorem C61_zero (nGlobal : ℕ) (ranks : List (Collector.Pool × List ℕ)) : calcConStress nGlobal 0 ranks = none := by simp [calcConStress]

/-- Two ranks, the second with two queues done in the order 1, 0. -/
example : ∃ m, calcConStress 2 1 [([[exBlock 0 1 false false]], [0]), ([[], [exBlock 0 1 false false]], [1, 0])] = some m ∧
    m.1 0 0 = (exBlock 0 1 false false).stress 0 ∧ m.2 0 0 = 0 := by
  obtain ⟨m, hm, h⟩ := C61_stress 2 1 (by norm_num) (by norm_num)
    [([[exBlock 0 1 false false]], [0]), ([[], [exBlock 0 1 false false]], [1, 0])] (by
    intro r hr
    simp at hr
    rcases hr with rfl | rfl
    · exact List.Perm.refl _
    · exact List.Perm.swap _ _ _)
  refine ⟨m, hm, ?_, ?_⟩
  · rw [(h 0 0).1]
    simp [Spec.Collector.stressTotal, Spec.Collector.counted, exBlock]
  · rw [(h 0 0).2]
    simp [Spec.Collector.stressTotal, Spec.Collector.counted, exBlock]

end Verif
