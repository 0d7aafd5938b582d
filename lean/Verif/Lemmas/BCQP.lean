import Verif.Spec.BCQP
import Mathlib.Tactic.Linarith
import Mathlib.Tactic.Positivity
import Mathlib.Tactic.Ring
import Mathlib.Algebra.Order.BigOperators.Ring.Finset
/-! Helper lemmas for the projected gradient solvers. -/
namespace Verif.BCQP
open Spec

variable {n : ℕ}

theorem dblEps_pos : 0 < dblEps := by unfold dblEps; positivity

theorem bind_ok {ε α β : Type} (x : Except ε α) (f : α → Except ε β) (b : β) :
    (x >>= f) = .ok b ↔ ∃ a, x = .ok a ∧ f a = .ok b := by
  cases x with
  | error e => simp [bind, Except.bind]
  | ok a => simp [bind, Except.bind]

theorem norm2_nonneg (x : Vec n) : 0 ≤ norm2 x := Real.sqrt_nonneg _

theorem dot_self_nonneg (x : Vec n) : 0 ≤ dot x x := Finset.sum_nonneg (fun i _ => mul_self_nonneg _)

theorem norm2_sq (x : Vec n) : norm2 x ^ 2 = dot x x := Real.sq_sqrt (dot_self_nonneg x)

theorem norm2_eq_zero (x : Vec n) : norm2 x = 0 ↔ ∀ i, x i = 0 := by
  unfold norm2
  rw [Real.sqrt_eq_zero (dot_self_nonneg x)]
  unfold dot
  rw [Finset.sum_eq_zero_iff_of_nonneg (fun i _ => mul_self_nonneg _)]
  simp

theorem residualAt_exact (lb ub x y : ℝ) : ∃ q, residualAt id lb ub x y = some q := by
  unfold residualAt
  have := dblEps_pos
  simp only [id]
  split
  · exact ⟨_, rfl⟩
  · split
    · exact ⟨_, rfl⟩
    · rw [if_pos ⟨by linarith, by linarith⟩]
      exact ⟨_, rfl⟩

theorem check_ok (fl : ℝ → ℝ) (lb ub x y q : Vec n) :
    checkProjectionResidual fl lb ub x y = .ok q ↔ ∀ i, residualAt fl (lb i) (ub i) (x i) (y i) = some (q i) := by
  unfold checkProjectionResidual
  constructor
  · intro h
    split at h
    · exact absurd h (by simp)
    · rename_i hn
      injection h with h
      intro i
      cases hr : residualAt fl (lb i) (ub i) (x i) (y i) with
      | none => exact absurd ⟨i, hr⟩ hn
      | some r => rw [← h]; simp [hr]
  · intro h
    rw [if_neg (by rintro ⟨i, hi⟩; rw [h i] at hi; simp at hi)]
    congr 1
    funext i
    simp [h i]

theorem check_exact (lb ub x y : Vec n) : ∃ q, checkProjectionResidual id lb ub x y = .ok q := by
  choose q hq using fun i => residualAt_exact (lb i) (ub i) (x i) (y i)
  exact ⟨q, (check_ok id lb ub x y q).mpr hq⟩

theorem boundProjection_inBox (lb ub v : Vec n) (h : ∀ i, lb i ≤ ub i) : InBox lb ub (boundProjection lb ub v) := by
  intro i
  exact ⟨le_min (le_max_right _ _) (h i), min_le_right _ _⟩

/-- The loop of the Barzilai-Borwein method: what holds before and after. -/
theorem bbLoop_spec (p : Problem n) (step : ℕ → Vec n → Vec n → Except Stop ℝ) (stag : ℝ → Prop)
    [DecidablePred stag] (tol : ℝ) (P : Vec n → Prop) (hP : ∀ v, P (p.proj v)) :
    ∀ (left ite mv : ℕ) (alpha : ℝ) (xk xkm1 g : Vec n) (hist : List Hist) (out : Out n),
      g = p.A xkm1 + p.b → P xk → P xkm1 →
      (∃ pre last, hist = pre ++ [last] ∧ ResidualIs p xkm1 last.res) →
      bbLoop p step stag tol left ite mv alpha xk xkm1 g hist = .ok out →
      P out.x ∧ ∃ new, out.history = hist ++ new ∧ new.length ≤ left ∧
        ((out.ret = 0 ∧ ∃ pre last, new = pre ++ [last] ∧ last.res < tol ∧ ResidualIs p out.x last.res ∧
            out.applied = out.x ∧ ∀ h ∈ pre, tol ≤ h.res) ∨
         (out.ret = 1 ∧ ∃ pre last, new = pre ++ [last] ∧ tol ≤ last.res ∧ ResidualIs p out.x last.res ∧
            out.applied = out.x ∧ ∀ h ∈ pre, tol ≤ h.res) ∨
         (out.ret = 0 ∧ new.length = left ∧ (∀ h ∈ new, tol ≤ h.res) ∧
            (left = 0 → out.x = xk) ∧
            (0 < left → ∃ pre h1 h2, out.history = pre ++ [h1, h2] ∧ ResidualIs p out.x h1.res))) := by
  intro left
  induction left with
  | zero =>
    intro ite mv alpha xk xkm1 g hist out hg hxk hxkm1 hh h
    unfold bbLoop at h
    injection h with h
    subst h
    exact ⟨hxk, [], by simp, by simp, Or.inr (Or.inr ⟨rfl, rfl, by simp, fun _ => rfl, fun h => absurd h (by omega)⟩)⟩
  | succ left ih =>
    intro ite mv alpha xk xkm1 g hist out hg hxk hxkm1 hh h
    obtain ⟨pre0, last0, hhist, hres0⟩ := hh
    unfold bbLoop at h
    simp only [bind_ok] at h
    obtain ⟨q, hq, h⟩ := h
    have hnn : |norm2 q| = norm2 q := abs_of_nonneg (norm2_nonneg q)
    rw [hnn] at h
    have hR : ResidualIs p (p.proj (-alpha • g + xkm1)) (norm2 q) := ⟨q, hq, rfl⟩
    split at h
    · rename_i hlt
      injection h with h
      subst h
      refine ⟨hP _, _, rfl, by simp, Or.inl ⟨rfl, [], _, rfl, hlt, hR, rfl, by simp⟩⟩
    · rename_i hlt
      simp only [bind_ok] at h
      obtain ⟨a, ha, h⟩ := h
      split at h
      · injection h with h
        subst h
        exact ⟨hP _, _, rfl, by simp, Or.inr (Or.inl ⟨rfl, [], _, rfl, not_lt.mp hlt, hR, rfl, by simp⟩)⟩
      · obtain ⟨h1, new, hn, hl, hc⟩ := ih _ _ _ _ _ _ _ _ rfl hxkm1 (hP _)
          ⟨hist, _, rfl, hR⟩ h
        refine ⟨h1, _ :: new, by rw [hn, List.append_assoc]; rfl, by simp; omega, ?_⟩
        rcases hc with ⟨hr, pre, last, e, hlast, hres, hap, hp⟩ | ⟨hr, pre, last, e, hlast, hres, hap, hp⟩ |
          ⟨hr, e, hp, hx, hx2⟩
        · refine Or.inl ⟨hr, _ :: pre, last, by rw [e]; rfl, hlast, hres, hap, ?_⟩
          intro h hh
          rcases List.mem_cons.mp hh with rfl | hh
          · exact not_lt.mp hlt
          · exact hp h hh
        · refine Or.inr (Or.inl ⟨hr, _ :: pre, last, by rw [e]; rfl, hlast, hres, hap, ?_⟩)
          intro h hh
          rcases List.mem_cons.mp hh with rfl | hh
          · exact not_lt.mp hlt
          · exact hp h hh
        · refine Or.inr (Or.inr ⟨hr, by simp [e], ?_, fun h => absurd h (by omega), fun _ => ?_⟩)
          · intro h hh
            rcases List.mem_cons.mp hh with rfl | hh
            · exact not_lt.mp hlt
            · exact hp h hh
          · by_cases hl0 : left = 0
            · have hnew : new = [] := List.eq_nil_of_length_eq_zero (by omega)
              refine ⟨pre0, last0, ⟨ite + 1, alpha, norm2 q, mv + 1⟩, ?_, ?_⟩
              · rw [hn, hnew, hhist, List.append_nil, List.append_assoc]; rfl
              · rw [hx hl0]; exact hres0
            · exact hx2 (by omega)

theorem lipLoop_spec (p : Problem n) (yk g : Vec n) (r12 : ℝ) :
    ∀ (fuel : ℕ) (x : Vec n) (Lk tk : ℝ) (mv : ℕ) (x' Ax' : Vec n) (Lk' tk' : ℝ) (mv' : ℕ),
      lipLoop p yk g r12 fuel x Lk tk mv = .ok (x', Ax', Lk', tk', mv') →
      Ax' = p.A x' ∧ (x' = x ∨ ∃ v, x' = p.proj v) := by
  intro fuel
  induction fuel with
  | zero => intro x Lk tk mv x' Ax' Lk' tk' mv' h; unfold lipLoop at h; exact absurd h (by simp)
  | succ fuel ih =>
    intro x Lk tk mv x' Ax' Lk' tk' mv' h
    unfold lipLoop at h
    simp only at h
    split at h
    · simp only [Except.ok.injEq, Prod.mk.injEq] at h
      obtain ⟨rfl, rfl, -⟩ := h
      exact ⟨rfl, Or.inl rfl⟩
    · simp only [bind_ok] at h
      obtain ⟨t, -, h⟩ := h
      obtain ⟨h1, h2⟩ := ih _ _ _ _ _ _ _ _ _ h
      refine ⟨h1, Or.inr ?_⟩
      rcases h2 with h2 | h2
      · exact ⟨_, h2⟩
      · exact h2

/-- What the main loop of the accelerated method knows about its best vector. -/
def BestInv (p : Problem n) (P : Vec n → Prop) (es : List Hist) (xhat : Vec n) (resmin : ℝ) : Prop :=
  ((∀ i, xhat i = 1) ∧ resmin = dblMax ∧ ∀ e ∈ es, dblMax ≤ e.res) ∨
  (P xhat ∧ ResidualIs p xhat resmin ∧ SmallestRes resmin es)

theorem apLoop_spec (p : Problem n) (stag : ℝ → Prop) [DecidablePred stag] (tol : ℝ) (fuel : ℕ) (P : Vec n → Prop)
    (hP : ∀ v, P (p.proj v)) :
    ∀ (left ite mv : ℕ) (xk yk xhat applied : Vec n) (thetak Lk tk resmin : ℝ) (hist es : List Hist) (out : Out n),
      BestInv p P es xhat resmin → (∀ e ∈ es, tol ≤ e.res) →
      apLoop p stag tol fuel left ite mv xk yk xhat applied thetak Lk tk resmin (hist ++ es) = .ok out →
      ∃ new resmin', out.history = hist ++ (es ++ new) ∧ new.length ≤ left ∧ BestInv p P (es ++ new) out.x resmin' ∧
        ((out.ret = 0 ∧ ∃ pre last, new = pre ++ [last] ∧ last.res < tol ∧ ResidualIs p out.applied last.res ∧
            (last.res < dblMax → out.applied = out.x) ∧ ∀ e ∈ es ++ pre, tol ≤ e.res) ∨
         (out.ret = 1 ∧ ∀ e ∈ es ++ new, tol ≤ e.res) ∨
         (out.ret = 0 ∧ new.length = left ∧ ∀ e ∈ es ++ new, tol ≤ e.res)) := by
  intro left
  induction left with
  | zero =>
    intro ite mv xk yk xhat applied thetak Lk tk resmin hist es out hb htol h
    unfold apLoop at h
    injection h with h
    subst h
    exact ⟨[], resmin, by simp, by simp, by simpa using hb, Or.inr (Or.inr ⟨rfl, rfl, by simpa using htol⟩)⟩
  | succ left ih =>
    intro ite mv xk yk xhat applied thetak Lk tk resmin hist es out hb htol h
    unfold apLoop at h
    simp only [bind_ok] at h
    obtain ⟨⟨x', Ax', Lk', tk', mv'⟩, hlip, h⟩ := h
    obtain ⟨hA, hx'⟩ := lipLoop_spec _ _ _ _ _ _ _ _ _ _ _ _ _ _ hlip
    have hPx : P x' := by
      rcases hx' with rfl | ⟨v, rfl⟩
      · exact hP _
      · exact hP _
    simp only at h
    split at h
    · injection h with h
      subst h
      exact ⟨[], resmin, by simp, by simp, by simpa using hb, Or.inr (Or.inl ⟨rfl, by simpa using htol⟩)⟩
    · simp only [bind_ok] at h
      obtain ⟨beta, -, q, hq, h⟩ := h
      have hnn : |norm2 q| = norm2 q := abs_of_nonneg (norm2_nonneg q)
      rw [hnn] at h
      have hR : ResidualIs p x' (norm2 q) := ⟨q, by rw [hA] at hq; exact hq, rfl⟩
      have hb' : ∀ e : Hist, e.res = norm2 q →
          BestInv p P (es ++ [e]) (if norm2 q < resmin then x' else xhat)
            (if norm2 q < resmin then norm2 q else resmin) := by
        intro e he
        by_cases hlt : norm2 q < resmin
        · rw [if_pos hlt, if_pos hlt]
          refine Or.inr ⟨hPx, hR, ⟨e, by simp, he⟩, ?_⟩
          intro e' he'
          rcases List.mem_append.mp he' with he' | he'
          · rcases hb with ⟨-, hm, hall⟩ | ⟨-, -, -, hall⟩
            · exact le_trans hlt.le (hm ▸ hall e' he')
            · exact le_trans hlt.le (hall e' he')
          · rw [List.mem_singleton.mp he', he]
        · rw [if_neg hlt, if_neg hlt]
          rcases hb with ⟨h1, hm, hall⟩ | ⟨h1, h2, ⟨e0, he0, he0r⟩, hall⟩
          · refine Or.inl ⟨h1, hm, ?_⟩
            intro e' he'
            rcases List.mem_append.mp he' with he' | he'
            · exact hall e' he'
            · rw [List.mem_singleton.mp he', he, ← hm]; exact not_lt.mp hlt
          · refine Or.inr ⟨h1, h2, ⟨e0, by simp [he0], he0r⟩, ?_⟩
            intro e' he'
            rcases List.mem_append.mp he' with he' | he'
            · exact hall e' he'
            · rw [List.mem_singleton.mp he', he]; exact not_lt.mp hlt
      split at h
      · rename_i hlt
        injection h with h
        subst h
        refine ⟨[⟨ite + 1, tk', norm2 q, mv'⟩], _, by simp only [List.append_assoc], by simp, hb' _ rfl,
          Or.inl ⟨rfl, [], _, rfl, hlt, hR, ?_, by simpa using htol⟩⟩
        intro hmax
        have : norm2 q < resmin := by
          rcases hb with ⟨-, hm, -⟩ | ⟨-, -, ⟨e0, he0, he0r⟩, -⟩
          · rw [hm]; exact hmax
          · rw [← he0r]; exact lt_of_lt_of_le hlt (htol e0 he0)
        simp only [if_pos this]
      · rename_i hlt
        simp only [bind_ok] at h
        obtain ⟨tk2, -, h⟩ := h
        rw [List.append_assoc] at h
        obtain ⟨new, resmin', hn, hl, hbest, hc⟩ := ih _ _ _ _ _ _ _ _ _ _ _ _ _ (hb' _ rfl) (by
          intro e he
          rcases List.mem_append.mp he with he | he
          · exact htol e he
          · rw [List.mem_singleton.mp he]; exact not_lt.mp hlt) h
        refine ⟨⟨ite + 1, tk', norm2 q, mv'⟩ :: new, resmin', by rw [hn]; simp only [List.append_assoc, List.singleton_append], by simp; omega,
          by simpa only [List.append_assoc, List.singleton_append] using hbest, ?_⟩
        rcases hc with ⟨hr, pre, last, e, hlast, hra, hap, hp⟩ | ⟨hr, hp⟩ | ⟨hr, e, hp⟩
        · exact Or.inl ⟨hr, ⟨ite + 1, tk', norm2 q, mv'⟩ :: pre, last, by rw [e]; rfl, hlast, hra, hap,
            by simpa only [List.append_assoc, List.singleton_append] using hp⟩
        · exact Or.inr (Or.inl ⟨hr, by simpa only [List.append_assoc, List.singleton_append] using hp⟩)
        · exact Or.inr (Or.inr ⟨hr, by simp [e], by simpa only [List.append_assoc, List.singleton_append] using hp⟩)

theorem safe_ne_zero (b : ℝ) : (if |b| < 10 * dblEps then b + 10 * dblEps else b) ≠ 0 := by
  have := dblEps_pos
  split
  · rename_i h
    rw [abs_lt] at h
    linarith [h.1]
  · rename_i h
    rintro rfl
    simp at h
    linarith

theorem stepAlternating_ok (ite : ℕ) (x g : Vec n) : ∃ a, stepAlternating ite x g = .ok a := by
  unfold stepAlternating rdiv
  simp only
  rw [if_neg (safe_ne_zero _)]
  exact ⟨_, rfl⟩

theorem stepFirst_ok (ite : ℕ) (x g : Vec n) : ∃ a, stepFirst ite x g = .ok a := by
  unfold stepFirst rdiv
  simp only
  rw [if_neg (safe_ne_zero _)]
  exact ⟨_, rfl⟩

theorem bbLoop_terminates (p : Problem n) (step : ℕ → Vec n → Vec n → Except Stop ℝ) (stag : ℝ → Prop)
    [DecidablePred stag] (tol : ℝ) (hres : ∀ x y, ∃ q, p.resid x y = .ok q)
    (hstep : ∀ i x g, ∃ a, step i x g = .ok a) :
    ∀ (left ite mv : ℕ) (alpha : ℝ) (xk xkm1 g : Vec n) (hist : List Hist),
      ∃ out, bbLoop p step stag tol left ite mv alpha xk xkm1 g hist = .ok out := by
  intro left
  induction left with
  | zero => intros; exact ⟨_, rfl⟩
  | succ left ih =>
    intro ite mv alpha xk xkm1 g hist
    unfold bbLoop
    simp only
    obtain ⟨q, hq⟩ := hres (p.proj (-alpha • g + xkm1)) (p.A (p.proj (-alpha • g + xkm1)) + p.b)
    rw [hq]
    show ∃ out, (if |norm2 q| < tol then _ else _) = _
    split
    · exact ⟨_, rfl⟩
    · obtain ⟨a, ha⟩ := hstep (ite + 1) (p.proj (-alpha • g + xkm1) - xkm1)
        (p.A (p.proj (-alpha • g + xkm1)) + p.b - g)
      rw [ha]
      show ∃ out, (if stag a then _ else _) = _
      split
      · exact ⟨_, rfl⟩
      · exact ih _ _ _ _ _ _ _

/-- Without the test for stagnation the loop never reports it. -/
theorem bbLoop_noStag (p : Problem n) (step : ℕ → Vec n → Vec n → Except Stop ℝ) (tol : ℝ) :
    ∀ (left ite mv : ℕ) (alpha : ℝ) (xk xkm1 g : Vec n) (hist : List Hist) (out : Out n),
      bbLoop p step (fun _ => False) tol left ite mv alpha xk xkm1 g hist = .ok out → out.ret = 0 := by
  intro left
  induction left with
  | zero =>
    intro ite mv alpha xk xkm1 g hist out h
    unfold bbLoop at h
    injection h with h
    rw [← h]
  | succ left ih =>
    intro ite mv alpha xk xkm1 g hist out h
    unfold bbLoop at h
    simp only [bind_ok] at h
    obtain ⟨q, hq, h⟩ := h
    split at h
    · injection h with h
      rw [← h]
    · simp only [bind_ok] at h
      obtain ⟨a, -, h⟩ := h
      rw [if_neg id] at h
      exact ih _ _ _ _ _ _ _ _ h

/-! ### Algebra of the objective -/

theorem dot_add_left (x y z : Vec n) : dot (x + y) z = dot x z + dot y z := by
  unfold dot; rw [← Finset.sum_add_distrib]; exact Finset.sum_congr rfl (fun i _ => by simp [add_mul])

theorem dot_comm (x y : Vec n) : dot x y = dot y x := Finset.sum_congr rfl (fun i _ => mul_comm _ _)

theorem dot_add_right (x y z : Vec n) : dot x (y + z) = dot x y + dot x z := by
  rw [dot_comm, dot_add_left, dot_comm y, dot_comm z]

theorem dot_mulVec_symm (M : Matrix (Fin n) (Fin n) ℝ) (hM : M.transpose = M) (x y : Vec n) :
    dot x (M.mulVec y) = dot y (M.mulVec x) := by
  have h1 : dot x (M.mulVec y) = ∑ i, ∑ j, x i * (M i j * y j) := by
    unfold dot
    refine Finset.sum_congr rfl (fun i _ => ?_)
    simp only [Matrix.mulVec, dotProduct, Finset.mul_sum]
  have h2 : dot y (M.mulVec x) = ∑ i, ∑ j, y i * (M i j * x j) := by
    unfold dot
    refine Finset.sum_congr rfl (fun i _ => ?_)
    simp only [Matrix.mulVec, dotProduct, Finset.mul_sum]
  rw [h1, h2, Finset.sum_comm]
  refine Finset.sum_congr rfl (fun i _ => Finset.sum_congr rfl (fun j _ => ?_))
  have : M j i = M i j := congrFun (congrFun hM i) j
  rw [this]; ring

theorem mulVec_bound (M : Matrix (Fin n) (Fin n) ℝ) (d : Vec n) :
    dot d (M.mulVec d) ≤ (∑ i, ∑ j, |M i j|) * dot d d := by
  have h1 : dot d (M.mulVec d) = ∑ i, ∑ j, d i * (M i j * d j) := by
    unfold dot
    refine Finset.sum_congr rfl (fun i _ => ?_)
    simp only [Matrix.mulVec, dotProduct, Finset.mul_sum]
  have hd : ∀ i, d i * d i ≤ dot d d := fun i =>
    Finset.single_le_sum (f := fun i => d i * d i) (fun i _ => mul_self_nonneg _) (Finset.mem_univ i)
  rw [h1, Finset.sum_mul]
  refine Finset.sum_le_sum (fun i _ => ?_)
  rw [Finset.sum_mul]
  refine Finset.sum_le_sum (fun j _ => ?_)
  have : |d i * d j| ≤ dot d d := by
    rw [abs_le]
    constructor <;> nlinarith [hd i, hd j, mul_self_nonneg (d i + d j), mul_self_nonneg (d i - d j)]
  calc d i * (M i j * d j) = M i j * (d i * d j) := by ring
    _ ≤ |M i j * (d i * d j)| := le_abs_self _
    _ = |M i j| * |d i * d j| := abs_mul _ _
    _ ≤ |M i j| * dot d d := mul_le_mul_of_nonneg_left this (abs_nonneg _)

/-- The objective along a displacement. -/
theorem objective_shift (M : Matrix (Fin n) (Fin n) ℝ) (hM : M.transpose = M) (b y d : Vec n) :
    dot (y + d) (M.mulVec (y + d)) * (1 / 2) + dot (y + d) b =
      dot y (M.mulVec y) * (1 / 2) + dot y b + dot (b + M.mulVec y) d + dot d (M.mulVec d) * (1 / 2) := by
  rw [Matrix.mulVec_add]
  simp only [dot_add_left, dot_add_right]
  rw [dot_mulVec_symm M hM y d, dot_comm b d, dot_comm (M.mulVec y) d]
  ring

theorem lipLoop_terminates (p : Problem n) (M : Matrix (Fin n) (Fin n) ℝ) (hM : M.transpose = M)
    (hA : ∀ x, p.A x = M.mulVec x) (K : ℝ) (hK : ∀ d : Vec n, dot d (M.mulVec d) ≤ K * dot d d) (yk : Vec n) :
    ∀ (m : ℕ) (x : Vec n) (Lk tk : ℝ) (mv : ℕ), 0 < Lk → tk = 1 / Lk → K ≤ 2 ^ m * Lk →
      ∃ x' Ax' Lk' tk' mv', lipLoop p yk (p.b + p.A yk) (dot yk (p.A yk) * (1 / 2) + dot yk p.b) (m + 1) x Lk tk mv =
        .ok (x', Ax', Lk', tk', mv') ∧ Lk ≤ Lk' ∧ tk' = 1 / Lk' := by
  have key : ∀ (x : Vec n) (Lk : ℝ), K ≤ Lk →
      dot x (p.A x) * (1 / 2) + dot x p.b ≤ dot yk (p.A yk) * (1 / 2) + dot yk p.b + dot (p.b + p.A yk) (x - yk) +
        1 / 2 * Lk * norm2 (x - yk) ^ 2 := by
    intro x Lk hL
    have := objective_shift M hM p.b yk (x - yk)
    rw [add_sub_cancel] at this
    simp only [hA]
    rw [this, norm2_sq]
    have h1 := hK (x - yk)
    have h2 := mul_le_mul_of_nonneg_right hL (dot_self_nonneg (x - yk))
    linarith
  intro m
  induction m with
  | zero =>
    intro x Lk tk mv hL ht hle
    unfold lipLoop
    simp only
    rw [if_pos (key x Lk (by simpa using hle))]
    exact ⟨_, _, _, _, _, rfl, le_refl _, ht⟩
  | succ m ih =>
    intro x Lk tk mv hL ht hle
    unfold lipLoop
    simp only
    split
    · exact ⟨_, _, _, _, _, rfl, le_refl _, ht⟩
    · have hd : rdiv 1 (Lk * 2) = .ok (1 / (Lk * 2)) := by
        unfold rdiv; rw [if_neg (by positivity)]
      obtain ⟨x', Ax', Lk', tk', mv', h1, h2, h3⟩ := ih (p.proj (yk + (-(1 / (Lk * 2))) • (p.b + p.A yk))) (Lk * 2)
        (1 / (Lk * 2)) (mv + 1) (by positivity) rfl (by rw [pow_succ] at hle; linarith)
      refine ⟨x', Ax', Lk', tk', mv', ?_, by linarith, h3⟩
      rw [hd]
      exact h1

theorem apLoop_terminates (p : Problem n) (M : Matrix (Fin n) (Fin n) ℝ) (hM : M.transpose = M)
    (hA : ∀ x, p.A x = M.mulVec x) (hres : ∀ x y, ∃ q, p.resid x y = .ok q)
    (stag : ℝ → Prop) [DecidablePred stag] (tol : ℝ) (K : ℝ) (hK : ∀ d : Vec n, dot d (M.mulVec d) ≤ K * dot d d)
    (m : ℕ) :
    ∀ (left ite mv : ℕ) (xk yk xhat applied : Vec n) (thetak Lk tk resmin : ℝ) (hist : List Hist),
      0 < Lk → tk = 1 / Lk → K ≤ 2 ^ m * (Lk * (9 / 10) ^ left) → 0 < thetak →
      ∃ out, apLoop p stag tol (m + 1) left ite mv xk yk xhat applied thetak Lk tk resmin hist = .ok out := by
  intro left
  induction left with
  | zero => intros; exact ⟨_, rfl⟩
  | succ left ih =>
    intro ite mv xk yk xhat applied thetak Lk tk resmin hist hL ht hle hth
    have hle' : K ≤ 2 ^ m * Lk := by
      refine hle.trans ?_
      have h1 : (9 / 10 : ℝ) ^ (left + 1) ≤ 1 := pow_le_one₀ (by norm_num) (by norm_num)
      have h2 : (0 : ℝ) < 2 ^ m := by positivity
      nlinarith [mul_le_mul_of_nonneg_left h1 hL.le]
    obtain ⟨x', Ax', Lk', tk', mv', h1, h2, h3⟩ := lipLoop_terminates p M hM hA K hK yk m
      (p.proj (yk + (-tk) • (p.b + p.A yk))) Lk tk (mv + 1) hL ht hle'
    have hL' : 0 < Lk' := lt_of_lt_of_le hL h2
    unfold apLoop
    simp only [h1]
    show ∃ out, (if stag tk' then _ else _) = _
    split
    · exact ⟨_, rfl⟩
    · have hs : thetak < Real.sqrt (4 + thetak * thetak) := by
        rw [Real.lt_sqrt hth.le]; nlinarith
      have hth' : 0 < (-thetak * thetak + thetak * Real.sqrt (4 + thetak * thetak)) / 2 := by nlinarith
      have hd : rdiv (thetak * (1 - thetak)) (thetak * thetak +
          (-thetak * thetak + thetak * Real.sqrt (4 + thetak * thetak)) / 2) = .ok (thetak * (1 - thetak) /
          (thetak * thetak + (-thetak * thetak + thetak * Real.sqrt (4 + thetak * thetak)) / 2)) := by
        unfold rdiv; rw [if_neg (by nlinarith)]
      obtain ⟨q, hq⟩ := hres x' (Ax' + p.b)
      simp only [hd, hq]
      show ∃ out, (if |norm2 q| < tol then _ else _) = _
      split
      · exact ⟨_, rfl⟩
      · have hd2 : rdiv 1 (Lk' * (9 / 10)) = .ok (1 / (Lk' * (9 / 10))) := by
          unfold rdiv; rw [if_neg (by positivity)]
        rw [hd2]
        refine ih _ _ _ _ _ _ _ _ _ _ _ (by positivity) rfl ?_ ?_
        · refine hle.trans ?_
          have h4 : (0 : ℝ) < 2 ^ m := by positivity
          have h5 : (0 : ℝ) < (9 / 10) ^ left := by positivity
          refine mul_le_mul_of_nonneg_left ?_ h4.le
          rw [pow_succ]
          nlinarith
        · split
          · exact one_pos
          · exact hth'

theorem apgd_returns (p : Problem n) (M : Matrix (Fin n) (Fin n) ℝ) (hM : M.transpose = M)
    (hA : ∀ x, p.A x = M.mulVec x) (hres : ∀ x y, ∃ q, p.resid x y = .ok q) (stag : ℝ → Prop) [DecidablePred stag]
    (x0 : Vec n) (tol : ℝ) (iteMax : ℕ) (hist : List Hist) (hx0 : M.mulVec (x0 - fun _ => 1) ≠ 0) :
    ∃ fuel out, apgd p stag fuel x0 tol iteMax hist = .ok out := by
  have hd : (-(fun _ => 1 : Vec n) + x0) = x0 - fun _ => 1 := by rw [neg_add_eq_sub]
  have hne : ∀ v : Vec n, v ≠ 0 → 0 < norm2 v := by
    intro v hv
    refine lt_of_le_of_ne (norm2_nonneg _) (fun h => hv ?_)
    funext i
    exact (norm2_eq_zero v).mp h.symm i
  have h1 := hne _ hx0
  have h2 : 0 < norm2 (x0 - fun _ => 1) := hne _ (by
    intro h
    rw [h] at hx0
    exact hx0 (Matrix.mulVec_zero M))
  have hL : 0 < norm2 (M.mulVec (x0 - fun _ => 1)) / norm2 (x0 - fun _ => 1) := div_pos h1 h2
  obtain ⟨m, hm⟩ := pow_unbounded_of_one_lt ((∑ i, ∑ j, |M i j|) /
    (norm2 (M.mulVec (x0 - fun _ => 1)) / norm2 (x0 - fun _ => 1) * (9 / 10) ^ iteMax)) (by norm_num : (1 : ℝ) < 2)
  refine ⟨m + 1, ?_⟩
  unfold apgd
  simp only [hd]
  have r1 : rdiv (norm2 (p.A (x0 - fun _ => 1))) (norm2 (x0 - fun _ => 1)) =
      .ok (norm2 (M.mulVec (x0 - fun _ => 1)) / norm2 (x0 - fun _ => 1)) := by
    unfold rdiv
    rw [if_neg h2.ne', hA]
  have r2 : rdiv 1 (norm2 (M.mulVec (x0 - fun _ => 1)) / norm2 (x0 - fun _ => 1)) =
      .ok (1 / (norm2 (M.mulVec (x0 - fun _ => 1)) / norm2 (x0 - fun _ => 1))) := by
    unfold rdiv
    rw [if_neg hL.ne']
  rw [r1]
  show ∃ out, (rdiv 1 _ >>= _) = _
  rw [r2]
  refine apLoop_terminates p M hM hA hres stag tol _
    (mulVec_bound M) m iteMax _ _ _ _ _ _ _ _ _ _ _ hL rfl ?_ one_pos
  rw [div_lt_iff₀ (by positivity)] at hm
  exact hm.le

end Verif.BCQP
