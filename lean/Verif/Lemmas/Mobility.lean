import Verif.Model.Mobility
import Verif.Spec.Mobility
import Verif.Lemmas.Comm
import Verif.Lemmas.Boundary
import Mathlib.Tactic.IntervalCases
namespace Verif.Mobility
open Verif.V3 Verif.Spec.Mobility

/-! ### lists -/

theorem flatMap_getElem? {α β : Type} (f : α → List β) (L : ℕ) (hf : ∀ a, (f a).length = L) :
    ∀ (l : List α) (i t : ℕ), t < L → (l.flatMap f)[L * i + t]? = (l[i]?).bind fun a => (f a)[t]? := by
  intro l
  induction l with
  | nil => intro i t _; simp
  | cons a l ih =>
    intro i t ht
    rw [List.flatMap_cons]
    cases i with
    | zero => rw [List.getElem?_append_left (by rw [hf]; omega)]; simp
    | succ i =>
      rw [List.getElem?_append_right (by rw [hf, Nat.mul_succ]; omega), hf,
        show L * (i + 1) + t - L = L * i + t by rw [Nat.mul_succ]; omega, ih i t ht]
      simp

theorem flatMap_length {α β : Type} (f : α → List β) (L : ℕ) (hf : ∀ a, (f a).length = L) :
    ∀ l : List α, (l.flatMap f).length = L * l.length := by
  intro l
  induction l with
  | nil => simp
  | cons a l ih => rw [List.flatMap_cons, List.length_append, hf, ih, List.length_cons, Nat.mul_succ]; omega

theorem flat6_length (xs : List (V3 × V3)) : (flat6 xs).length = 6 * xs.length := flatMap_length _ 6 (fun _ => rfl) xs

theorem flat6_getElem? (xs : List (V3 × V3)) (i t : ℕ) (ht : t < 6) : (flat6 xs)[6 * i + t]? =
    (xs[i]?).bind fun p => [p.1.x, p.1.y, p.1.z, p.2.x, p.2.y, p.2.z][t]? := flatMap_getElem? _ 6 (fun _ => rfl) xs i t ht

theorem flat6_cons (p : V3 × V3) (xs : List (V3 × V3)) :
    flat6 (p :: xs) = p.1.x :: p.1.y :: p.1.z :: p.2.x :: p.2.y :: p.2.z :: flat6 xs := rfl

/-- Every vector of the right size is of this form. -/
theorem exists_flat6 : ∀ (n : ℕ) (v : List ℝ), v.length = 6 * n → ∃ xs, xs.length = n ∧ flat6 xs = v := by
  intro n
  induction n with
  | zero => intro v h; exact ⟨[], rfl, (List.length_eq_zero_iff.1 h).symm⟩
  | succ n ih =>
    intro v h
    rcases v with _ | ⟨a, _ | ⟨b, _ | ⟨c, _ | ⟨d, _ | ⟨e, _ | ⟨f, v⟩⟩⟩⟩⟩⟩ <;> simp only [List.length_cons, List.length_nil] at h <;>
      try omega
    obtain ⟨xs, h1, h2⟩ := ih v (by omega)
    exact ⟨(⟨a, b, c⟩, ⟨d, e, f⟩) :: xs, by simp [h1], by rw [flat6_cons, h2]⟩

theorem flat6_injective : ∀ (xs ys : List (V3 × V3)), flat6 xs = flat6 ys → xs = ys := by
  intro xs
  induction xs with
  | nil => intro ys h; cases ys with
    | nil => rfl
    | cons p ys => simp [flat6] at h
  | cons p xs ih =>
    intro ys h
    cases ys with
    | nil => simp [flat6] at h
    | cons r ys =>
      rw [flat6_cons, flat6_cons] at h
      injection h with h1 h; injection h with h2 h; injection h with h3 h
      injection h with h4 h; injection h with h5 h; injection h with h6 h
      rw [ih ys h]
      congr 1
      exact Prod.ext (V3.ext h1 h2 h3) (V3.ext h4 h5 h6)

/-! ### drag -/

theorem log_le_of_le_half (x : ℝ) (h0 : 0 < x) (h : x ≤ 1 / 2) : Real.log x < -(1 / 2) := by
  have h1 : Real.log x ≤ Real.log (1 / 2) := Real.log_le_log h0 h
  have h2 : Real.log (1 / 2) < 1 / 2 - 1 := Real.log_lt_sub_one_of_pos (by norm_num) (by norm_num)
  linarith

theorem Pi_pos : 0 < Pi := by norm_num [Pi]

theorem drag_pos (s : Sylinder) (hr : 0 < s.radius) (hl : 0 ≤ s.length) (mu : ℝ) (hm : 0 < mu) :
    ∃ para perp rot, s.calcDragCoeff Pi mu = some (para, perp, rot) ∧ 0 < para ∧ 0 < perp ∧ 0 < rot := by
  have hp := Pi_pos
  unfold Sylinder.calcDragCoeff
  by_cases hs : s.isSphere = true
  · rw [if_pos hs]
    have : 0 < 0.5 * s.length + s.radius := by norm_num; linarith
    refine ⟨_, _, _, rfl, ?_, ?_, ?_⟩ <;> positivity
  · rw [if_neg hs]
    have hL : s.radius * 2 ≤ s.length := by
      simpa [Sylinder.isSphere] using hs
    have hLp : 0 < s.length := by linarith
    have hx : 0 < s.radius / s.length := by positivity
    have hx2 : s.radius / s.length ≤ 1 / 2 := by rw [div_le_iff₀ hLp]; linarith
    have hlog := log_le_of_le_half _ hx hx2
    have hb : 0 < -(1 + 2 * Real.log (s.radius / s.length)) := by linarith
    rw [if_neg (by push Not; exact ⟨hLp.ne', hx⟩)]
    simp only
    rw [if_neg (by push Not; exact ⟨by positivity, by positivity⟩)]
    refine ⟨_, _, _, rfl, ?_, ?_, ?_⟩ <;> positivity

theorem dragInv_pos (s : Sylinder) (hr : 0 < s.radius) (hl : 0 ≤ s.length) (mu : ℝ) (hm : 0 < mu) (him : s.isImmovable = false) :
    ∃ para perp rot, s.calcDragCoeff Pi mu = some (para, perp, rot) ∧ 0 < para ∧ 0 < perp ∧ 0 < rot ∧
      dragInv s mu = some (1 / para, 1 / perp, 1 / rot) := by
  obtain ⟨para, perp, rot, h, h1, h2, h3⟩ := drag_pos s hr hl mu hm
  refine ⟨para, perp, rot, h, h1, h2, h3, ?_⟩
  unfold dragInv
  rw [him]
  simp only [Bool.false_eq_true, if_false, h]
  rw [if_neg (by push Not; exact ⟨h1.ne', h2.ne', h3.ne'⟩)]

theorem direction_unit (s : Sylinder) (h : Verif.Spec.UnitQuat s.orientation) : dot s.direction s.direction = 1 := by
  have h : s.orientation.w ^ 2 + s.orientation.x ^ 2 + s.orientation.y ^ 2 +
    s.orientation.z ^ 2 = 1 := h
  simp only [Sylinder.direction, Quat.rot, Quat.vec, dot, V3.cross, add_x, add_y, add_z, smul_x, smul_y, smul_z]
  linear_combination 4 * (s.orientation.x * s.orientation.x + s.orientation.y * s.orientation.y) * h

/-- The mobility of one body, as a function. -/
noncomputable def mobFun (ip ie ir : ℝ) (d : V3) (x : V3 × V3) : V3 × V3 :=
  (ip • (dot d x.1 • d) + ie • (x.1 - dot d x.1 • d), ir • x.2)

theorem mul3_trans (ip ie : ℝ) (d v : V3) : mul3 (ip • outer d + ie • (1 - outer d)) v = ip • (dot d v • d) + ie • (v - dot d v • d) := by
  ext <;> simp [mul3, outer, dot, Matrix.add_apply, Matrix.sub_apply, Matrix.smul_apply] <;> ring

theorem mul3_rot (ir : ℝ) (d v : V3) : mul3 (ir • outer d + ir • (1 - outer d)) v = ir • v := by
  have : ir • outer d + ir • (1 - outer d) = ir • (1 : Mat3) := by rw [← smul_add]; simp
  rw [this]
  ext <;> simp [mul3]

theorem mobFun_drag (p e r : ℝ) (hp : p ≠ 0) (he : e ≠ 0) (hr : r ≠ 0) (d : V3) (hd : dot d d = 1) (x : V3 × V3) :
    drag p e r d (mobFun (1 / p) (1 / e) (1 / r) d x) = x := by
  have h1 : dot d (mobFun (1 / p) (1 / e) (1 / r) d x).1 = 1 / p * dot d x.1 := by
    have : dot d (mobFun (1 / p) (1 / e) (1 / r) d x).1 =
        1 / p * dot d x.1 * dot d d + 1 / e * (dot d x.1 - dot d x.1 * dot d d) := by
      simp only [mobFun, dot, add_x, add_y, add_z, sub_x, sub_y, sub_z, smul_x, smul_y, smul_z]; ring
    rw [this, hd]; ring
  unfold drag
  rw [h1]
  apply Prod.ext
  · simp only [mobFun]
    ext <;> simp <;> field_simp <;> ring
  · simp only [mobFun]
    ext <;> simp <;> field_simp

/-! ### the matrix -/

/-- The matrix of a list of blocks. -/
noncomputable def csrOf (blocks : List (Mat3 × Mat3)) : Csr :=
  { rowPointers := (List.range (blocks.length * 6 + 1)).map (3 * ·)
    columnIndices := (List.range blocks.length).flatMap bodyColumns
    values := blocks.flatMap fun b => bodyValues b.1 b.2 }

theorem mapM_length {α β : Type} (f : α → Option β) : ∀ (l : List α) (bs : List β), l.mapM f = some bs → bs.length = l.length
  | [], bs, h => by simp at h; subst h; rfl
  | a :: l, bs, h => by
    rw [List.mapM_cons] at h
    cases hfa : f a with
    | none => rw [hfa] at h; simp at h
    | some b =>
      rw [hfa] at h
      cases hl : l.mapM f with
      | none => rw [hl] at h; simp at h
      | some bs' =>
        rw [hl] at h
        simp at h
        subst h
        simp [mapM_length f l bs' hl]

theorem calcMobMatrix_eq (mu : ℝ) (bodies : List Sylinder) (blocks : List (Mat3 × Mat3))
    (h : (bodies.mapM fun s => mobBlocks s mu) = some blocks) : calcMobMatrix mu bodies = some (csrOf blocks) := by
  have hl := mapM_length _ _ _ h
  unfold calcMobMatrix
  simp only [h, Option.map_some, csrOf, hl]

theorem csrOf_apply (blocks : List (Mat3 × Mat3)) (xs : List (V3 × V3)) (hx : xs.length = blocks.length) :
    (csrOf blocks).apply (flat6 xs) =
      some (flat6 (List.zipWith (fun b x => (mul3 b.1 x.1, mul3 b.2 x.2)) blocks xs)) := by
  set ys := List.zipWith (fun (b : Mat3 × Mat3) (x : V3 × V3) => (mul3 b.1 x.1, mul3 b.2 x.2)) blocks xs with hys
  have hyl : ys.length = blocks.length := by rw [hys]; simp [hx]
  have hfl : (flat6 ys).length = blocks.length * 6 := by rw [flat6_length, hyl]; ring
  unfold Csr.apply
  have hrl : (csrOf blocks).rowPointers.length - 1 = blocks.length * 6 := by simp [csrOf]
  rw [hrl]
  have key : ∀ r ∈ List.range (blocks.length * 6), (match (csrOf blocks).rowPointers[r]?, (csrOf blocks).rowPointers[r + 1]? with
      | some a, some b => rowSum (csrOf blocks) (flat6 xs) a (b - a)
      | _, _ => none) = some ((flat6 ys).getD r 0) := by
    intro r hr
    rw [List.mem_range] at hr
    have h1 : (csrOf blocks).rowPointers[r]? = some (3 * r) := by simp only [csrOf, List.getElem?_map]; rw [List.getElem?_range (by omega)]; rfl
    have h2 : (csrOf blocks).rowPointers[r + 1]? = some (3 * (r + 1)) := by simp only [csrOf, List.getElem?_map]; rw [List.getElem?_range (by omega)]; rfl
    rw [h1, h2]
    simp only
    rw [show 3 * (r + 1) - 3 * r = 3 by omega]
    obtain ⟨i, k, hk, hrk⟩ : ∃ i k, k < 6 ∧ r = 6 * i + k := ⟨r / 6, r % 6, Nat.mod_lt _ (by norm_num), by omega⟩
    have hi : i < blocks.length := by omega
    have hcol : ∀ t, t < 18 → (csrOf blocks).columnIndices[18 * i + t]? = (bodyColumns i)[t]? := by
      intro t ht
      simp only [csrOf]
      rw [flatMap_getElem? bodyColumns 18 (fun _ => rfl) _ i t ht, List.getElem?_range hi]
      rfl
    have hval : ∀ t, t < 18 → (csrOf blocks).values[18 * i + t]? = (bodyValues blocks[i].1 blocks[i].2)[t]? := by
      intro t ht
      simp only [csrOf]
      rw [flatMap_getElem? (fun b : Mat3 × Mat3 => bodyValues b.1 b.2) 18 (fun _ => rfl) _ i t ht, List.getElem?_eq_getElem hi]
      rfl
    have hxs : ∀ t, t < 6 → (flat6 xs)[6 * i + t]? =
        [(xs[i]'(by omega)).1.x, (xs[i]'(by omega)).1.y, (xs[i]'(by omega)).1.z, (xs[i]'(by omega)).2.x, (xs[i]'(by omega)).2.y,
          (xs[i]'(by omega)).2.z][t]? := by
      intro t ht
      rw [flat6_getElem? xs i t ht, List.getElem?_eq_getElem (by omega)]
      rfl
    have hy : (flat6 ys).getD r 0 = [(ys[i]'(by omega)).1.x, (ys[i]'(by omega)).1.y, (ys[i]'(by omega)).1.z, (ys[i]'(by omega)).2.x,
        (ys[i]'(by omega)).2.y, (ys[i]'(by omega)).2.z].getD k 0 := by
      rw [List.getD_eq_getElem?_getD, List.getD_eq_getElem?_getD, hrk, flat6_getElem? ys i k hk, List.getElem?_eq_getElem (by omega)]
      rfl
    have hyi : ys[i]'(by omega) = (mul3 blocks[i].1 (xs[i]'(by omega)).1, mul3 blocks[i].2 (xs[i]'(by omega)).2) := by
      simp [hys]
    rw [hy, hyi, hrk]
    have hx0 := hxs 0 (by norm_num); have hx1 := hxs 1 (by norm_num); have hx2 := hxs 2 (by norm_num)
    have hx3 := hxs 3 (by norm_num); have hx4 := hxs 4 (by norm_num); have hx5 := hxs 5 (by norm_num)
    simp only [Nat.add_zero] at hx0
    have e : ∀ t, 3 * (6 * i + k) + t = 18 * i + (3 * k + t) := fun t => by ring
    have e0 := e 0; rw [Nat.add_zero] at e0
    have c0 := hcol (3 * k) (by omega); have c1 := hcol (3 * k + 1) (by omega); have c2 := hcol (3 * k + 2) (by omega)
    have v0 := hval (3 * k) (by omega); have v1 := hval (3 * k + 1) (by omega); have v2 := hval (3 * k + 2) (by omega)
    have e1 : 3 * (6 * i + k) + 1 = 18 * i + (3 * k + 1) := e 1
    have e2 : 3 * (6 * i + k) + 1 + 1 = 18 * i + (3 * k + 2) := e 2
    have e0 : 3 * (6 * i + k) = 18 * i + (3 * k) := e 0
    unfold rowSum
    unfold rowSum
    unfold rowSum
    unfold rowSum
    rw [e2, e1, e0, c0, c1, c2, v0, v1, v2]
    interval_cases k <;>
      simp [bodyColumns, bodyValues, hx0, hx1, hx2, hx3, hx4, hx5, mul3, add_assoc]
  refine (Comm.mapM_some_of _ _ _ key).trans ?_
  congr 1
  apply List.ext_getElem
  · simp [hfl]
  · intro j h1 h2
    simp [List.getD_eq_getElem?_getD, List.getElem?_eq_getElem h2]

theorem forall₂_of_getElem {α β : Type} {R : α → β → Prop} {l : List α} {m : List β} (h : List.Forall₂ R l m) (i : ℕ) (a : α) (b : β)
    (ha : l[i]? = some a) (hb : m[i]? = some b) : R a b := by
  induction h generalizing i with
  | nil => simp at ha
  | cons h1 _ ih =>
    cases i with
    | zero => simp at ha hb; subst ha hb; exact h1
    | succ i => exact ih i (by simpa using ha) (by simpa using hb)

/-- The blocks of all bodies. -/
theorem blocks_exist (mu : ℝ) (hm : 0 < mu) (bodies : List Sylinder) (hv : ∀ s ∈ bodies, Valid s) :
    ∃ blocks, (bodies.mapM fun s => mobBlocks s mu) = some blocks ∧ List.Forall₂ (fun s b =>
      (s.isImmovable = true ∧ b = (0, 0)) ∨ (s.isImmovable = false ∧ ∃ p e r, s.calcDragCoeff Pi mu = some (p, e, r) ∧ 0 < p ∧ 0 < e ∧
        0 < r ∧ b = ((1 / p) • outer s.direction + (1 / e) • (1 - outer s.direction),
          (1 / r) • outer s.direction + (1 / r) • (1 - outer s.direction)))) bodies blocks := by
  apply Comm.mapM_exists
  intro s hs
  obtain ⟨hr, hl, -⟩ := hv s hs
  cases him : s.isImmovable with
  | true =>
    refine ⟨(0, 0), ?_, Or.inl ⟨rfl, rfl⟩⟩
    simp [mobBlocks, dragInv, him]
  | false =>
    obtain ⟨p, e, r, h, h1, h2, h3, h4⟩ := dragInv_pos s hr hl mu hm him
    refine ⟨_, ?_, Or.inr ⟨rfl, p, e, r, h, h1, h2, h3, rfl⟩⟩
    unfold mobBlocks
    rw [h4]
    rfl

/-- Mobility of one body as it should be: nothing moves an immovable body, and the drag of a movable one balances the
force. -/
def MobOf (mu : ℝ) (s : Sylinder) (x y : V3 × V3) : Prop :=
  (s.isImmovable = true ∧ y = (0, 0)) ∨ (s.isImmovable = false ∧ ∃ p e r, s.calcDragCoeff Pi mu = some (p, e, r) ∧ 0 < p ∧ 0 < e ∧ 0 < r ∧
    y = mobFun (1 / p) (1 / e) (1 / r) s.direction x)

theorem mob_apply (mu : ℝ) (hm : 0 < mu) (bodies : List Sylinder) (hv : ∀ s ∈ bodies, Valid s) :
    ∃ m, calcMobMatrix mu bodies = some m ∧ ∀ xs : List (V3 × V3), xs.length = bodies.length →
      ∃ ys, ys.length = bodies.length ∧ m.apply (flat6 xs) = some (flat6 ys) ∧
        ∀ (i : ℕ) (s : Sylinder) (x y : V3 × V3), bodies[i]? = some s → xs[i]? = some x → ys[i]? = some y → MobOf mu s x y := by
  obtain ⟨blocks, h1, h2⟩ := blocks_exist mu hm bodies hv
  have hl := mapM_length _ _ _ h1
  refine ⟨csrOf blocks, calcMobMatrix_eq mu bodies blocks h1, ?_⟩
  intro xs hx
  refine ⟨_, ?_, csrOf_apply blocks xs (by omega), ?_⟩
  · simp [hl, hx]
  · intro i s x y hs hx hy
    have hb : ∃ b, blocks[i]? = some b := by
      have : i < blocks.length := by rw [hl]; exact (List.getElem?_eq_some_iff.1 hs).1
      exact ⟨_, List.getElem?_eq_getElem this⟩
    obtain ⟨b, hb⟩ := hb
    rw [List.getElem?_zipWith, hb, hx] at hy
    simp only [Option.some.injEq] at hy
    subst hy
    rcases forall₂_of_getElem h2 i s b hs hb with ⟨h, rfl⟩ | ⟨h, p, e, r, hc, hp, he, hr, rfl⟩
    · refine Or.inl ⟨h, ?_⟩
      apply Prod.ext <;> ext <;> simp [mul3]
    · refine Or.inr ⟨h, p, e, r, hc, hp, he, hr, ?_⟩
      exact Prod.ext (mul3_trans _ _ _ _) (mul3_rot _ _ _)

/-! ### inner products -/

theorem dotL_flat6 : ∀ (xs ys : List (V3 × V3)), dotL (flat6 xs) (flat6 ys) =
    (List.zipWith (fun a b => dot a.1 b.1 + dot a.2 b.2) xs ys).sum
  | [], _ => by simp [flat6, dotL]
  | _ :: _, [] => by simp [flat6, dotL]
  | x :: xs, y :: ys => by
    have ih := dotL_flat6 xs ys
    unfold dotL at ih ⊢
    simp only [flat6_cons, List.zipWith_cons_cons, List.sum_cons, ih, dot]
    ring

theorem mobOf_symm (mu : ℝ) (s : Sylinder) (x y X Y : V3 × V3) (hx : MobOf mu s x X) (hy : MobOf mu s y Y) :
    dot x.1 Y.1 + dot x.2 Y.2 = dot X.1 y.1 + dot X.2 y.2 := by
  rcases hx with ⟨h, rfl⟩ | ⟨h, p, e, r, hc, -, -, -, rfl⟩
  · rcases hy with ⟨-, rfl⟩ | ⟨h', -⟩
    · simp [dot]
    · rw [h] at h'; cases h'
  · rcases hy with ⟨h', -⟩ | ⟨-, p', e', r', hc', -, -, -, rfl⟩
    · rw [h] at h'; cases h'
    · rw [hc] at hc'
      cases hc'
      simp only [mobFun, dot, add_x, add_y, add_z, sub_x, sub_y, sub_z, smul_x, smul_y, smul_z]
      ring

theorem mobOf_nonneg (mu : ℝ) (s : Sylinder) (hu : dot s.direction s.direction = 1) (x X : V3 × V3) (hx : MobOf mu s x X) :
    0 ≤ dot x.1 X.1 + dot x.2 X.2 ∧ (s.isImmovable = false → x ≠ (0, 0) → 0 < dot x.1 X.1 + dot x.2 X.2) := by
  rcases hx with ⟨h, rfl⟩ | ⟨h, p, e, r, hc, hp, he, hr, rfl⟩
  · refine ⟨by simp [dot], fun h' => ?_⟩
    rw [h] at h'; cases h'
  · set d := s.direction
    have hq : dot x.1 (mobFun (1 / p) (1 / e) (1 / r) d x).1 + dot x.2 (mobFun (1 / p) (1 / e) (1 / r) d x).2 =
        1 / p * dot d x.1 ^ 2 + 1 / e * (dot x.1 x.1 - dot d x.1 ^ 2) + 1 / r * dot x.2 x.2 := by
      simp only [mobFun, dot, add_x, add_y, add_z, sub_x, sub_y, sub_z, smul_x, smul_y, smul_z]
      ring
    have hcs : dot d x.1 ^ 2 ≤ dot x.1 x.1 := by
      have := dot_sq_le d x.1
      rw [show normSq d = dot d d from rfl, show normSq x.1 = dot x.1 x.1 from rfl, hu, one_mul] at this
      exact this
    have h1 : 0 ≤ 1 / p * dot d x.1 ^ 2 := by positivity
    have h2 : 0 ≤ 1 / e * (dot x.1 x.1 - dot d x.1 ^ 2) := mul_nonneg (by positivity) (by linarith)
    have h3 : 0 ≤ 1 / r * dot x.2 x.2 := mul_nonneg (by positivity) (normSq_nonneg _)
    rw [hq]
    refine ⟨by linarith, fun _ hne => ?_⟩
    by_contra hcon
    have z1 : 1 / p * dot d x.1 ^ 2 = 0 := by linarith
    have z2 : 1 / e * (dot x.1 x.1 - dot d x.1 ^ 2) = 0 := by linarith
    have z3 : 1 / r * dot x.2 x.2 = 0 := by linarith
    have w1 : dot d x.1 ^ 2 = 0 := by
      rcases mul_eq_zero.1 z1 with h | h
      · exact absurd h (by positivity)
      · exact h
    have w2 : dot x.1 x.1 = 0 := by
      rcases mul_eq_zero.1 z2 with h | h
      · exact absurd h (by positivity)
      · linarith
    have w3 : dot x.2 x.2 = 0 := by
      rcases mul_eq_zero.1 z3 with h | h
      · exact absurd h (by positivity)
      · exact h
    exact hne (Prod.ext ((normSq_eq_zero _).1 w2) ((normSq_eq_zero _).1 w3))

theorem sum_zipWith_congr (f g : V3 × V3 → V3 × V3 → ℝ) (x y x' y' : List (V3 × V3)) (n : ℕ) (h1 : x.length = n)
    (h2 : y.length = n) (h3 : x'.length = n) (h4 : y'.length = n)
    (h : ∀ (i : ℕ) (a b a' b' : V3 × V3), x[i]? = some a → y[i]? = some b → x'[i]? = some a' → y'[i]? = some b' → f a b = g a' b') :
    (List.zipWith f x y).sum = (List.zipWith g x' y').sum := by
  congr 1
  apply List.ext_getElem
  · simp [h1, h2, h3, h4]
  · intro i hi hi'
    simp only [List.length_zipWith] at hi hi'
    simp only [List.getElem_zipWith]
    exact h i _ _ _ _ (List.getElem?_eq_getElem _) (List.getElem?_eq_getElem _) (List.getElem?_eq_getElem _)
      (List.getElem?_eq_getElem _)

theorem sum_pos_of {l : List ℝ} (h : ∀ a ∈ l, 0 ≤ a) (hex : ∃ a ∈ l, 0 < a) : 0 < l.sum := by
  induction l with
  | nil => simp at hex
  | cons a l ih =>
    rw [List.sum_cons]
    have h0 : 0 ≤ l.sum := List.sum_nonneg (fun b hb => h b (List.mem_cons_of_mem _ hb))
    have ha := h a List.mem_cons_self
    obtain ⟨b, hb, hbp⟩ := hex
    rcases List.mem_cons.1 hb with rfl | hb
    · linarith
    · have := ih (fun b hb => h b (List.mem_cons_of_mem _ hb)) ⟨b, hb, hbp⟩
      linarith

/-! ### reading and writing vectors -/

theorem get6_flat6 : ∀ (xs : List (V3 × V3)) (i : ℕ), get6 (flat6 xs) i = xs[i]?
  | [], i => by simp [flat6, get6]
  | x :: xs, 0 => by simp [flat6_cons, get6]
  | x :: xs, i + 1 => by
    have := get6_flat6 xs i
    unfold get6 at this ⊢
    rw [flat6_cons, show 6 * (i + 1) = 6 * i + 1 + 1 + 1 + 1 + 1 + 1 by ring]
    simp only [List.drop_succ_cons, List.getElem?_cons_succ]
    exact this

theorem zipIdx_mapM {α β γ : Type} (f : α → γ → β) (g : ℕ → Option γ) : ∀ (l : List α) (vs : List γ) (k : ℕ), vs.length = l.length →
    (∀ i, g (k + i) = vs[i]?) → ((l.zipIdx k).mapM fun (s, i) => (g i).map (f s)) = some (List.zipWith f l vs)
  | [], vs, k, _, _ => by simp
  | a :: l, [], k, h, _ => by simp at h
  | a :: l, v :: vs, k, h, hg => by
    rw [List.zipIdx_cons, List.mapM_cons]
    have h0 := hg 0
    simp only [Nat.add_zero, List.getElem?_cons_zero] at h0
    simp only [h0, Option.map_some]
    have ih := zipIdx_mapM f g l vs (k + 1) (by simpa using h) (fun i => by
      have := hg (i + 1)
      rw [List.getElem?_cons_succ] at this
      rw [← this]; congr 1; ring)
    rw [ih]
    simp

theorem store_flat6 (put : Sylinder → V3 → V3 → Sylinder) (vs : List (V3 × V3)) (bodies : List Sylinder)
    (h : vs.length = bodies.length) :
    store put (flat6 vs) bodies = some (List.zipWith (fun s x => put s x.1 x.2) bodies vs) := by
  unfold store
  have := zipIdx_mapM (fun (s : Sylinder) (x : V3 × V3) => put s x.1 x.2) (get6 (flat6 vs)) bodies vs 0 h
    (fun i => by rw [Nat.zero_add, get6_flat6])
  exact this

/-- The restriction of one body to the plane. -/
def mask1 (x : V3 × V3) : V3 × V3 := (⟨x.1.x, x.1.y, 0⟩, ⟨0, 0, x.2.z⟩)

theorem set_flat6 : ∀ (xs : List (V3 × V3)) (k : ℕ),
    (((flat6 xs).set (6 * k + 2) 0).set (6 * k + 3) 0).set (6 * k + 4) 0 = flat6 (xs.modify k mask1)
  | [], k => by simp [flat6]
  | x :: xs, 0 => by simp [flat6_cons, mask1]
  | x :: xs, k + 1 => by
    have := set_flat6 xs k
    rw [List.modify_succ_cons, flat6_cons, flat6_cons, ← this,
      show 6 * (k + 1) + 2 = 6 * k + 2 + 1 + 1 + 1 + 1 + 1 + 1 by ring,
      show 6 * (k + 1) + 3 = 6 * k + 3 + 1 + 1 + 1 + 1 + 1 + 1 by ring,
      show 6 * (k + 1) + 4 = 6 * k + 4 + 1 + 1 + 1 + 1 + 1 + 1 by ring]
    simp only [List.set_cons_succ]

theorem fold_flat6 (xs : List (V3 × V3)) (k : ℕ) :
    maskMono k (flat6 xs) = flat6 ((List.range k).foldl (fun zs i => zs.modify i mask1) xs) := by
  unfold maskMono
  induction k with
  | zero => rfl
  | succ k ih => rw [List.range_succ, List.foldl_append, List.foldl_append, ih]; exact set_flat6 _ k

theorem fold_modify (f : V3 × V3 → V3 × V3) (xs : List (V3 × V3)) (k j : ℕ) :
    ((List.range k).foldl (fun zs i => zs.modify i f) xs)[j]? = if j < k then (xs[j]?).map f else xs[j]? := by
  induction k with
  | zero => simp
  | succ k ih =>
    rw [List.range_succ, List.foldl_append]
    simp only [List.foldl_cons, List.foldl_nil, List.getElem?_modify, ih]
    by_cases h : k = j
    · subst h; simp
    · simp only [h, if_false]
      by_cases h2 : j < k
      · simp [h2, show j < k + 1 by omega]
      · simp [h2, show ¬ j < k + 1 by omega]

theorem maskMono_flat6 (xs : List (V3 × V3)) : maskMono xs.length (flat6 xs) = flat6 (xs.map mask1) := by
  rw [fold_flat6]
  congr 1
  apply List.ext_getElem?
  intro j
  rw [fold_modify, List.getElem?_map]
  split
  · rfl
  · rename_i h
    rw [List.getElem?_eq_none (by omega)]; rfl

theorem zipWith_flat6 : ∀ (xs ys : List (V3 × V3)), List.zipWith (· + ·) (flat6 xs) (flat6 ys) = flat6 (List.zipWith (· + ·) xs ys)
  | [], _ => by simp [flat6]
  | _ :: _, [] => by simp [flat6]
  | x :: xs, y :: ys => by
    rw [List.zipWith_cons_cons, flat6_cons, flat6_cons, flat6_cons, ← zipWith_flat6 xs ys]
    simp

theorem update1_flat6 (xs ys : List (V3 × V3)) (h : xs.length = ys.length) :
    update1 (flat6 xs) (flat6 ys) = some (flat6 (List.zipWith (· + ·) xs ys)) := by
  unfold update1
  rw [if_pos (by rw [flat6_length, flat6_length, h]), zipWith_flat6]

theorem zero_flat6 (n : ℕ) : List.replicate (6 * n) (0 : ℝ) = flat6 (List.replicate n (0, 0)) := by
  induction n with
  | zero => rfl
  | succ n ih =>
    rw [List.replicate_succ, flat6_cons, ← ih, show 6 * (n + 1) = 6 * n + 1 + 1 + 1 + 1 + 1 + 1 by ring]
    simp only [List.replicate_succ]
    rfl

end Verif.Mobility
