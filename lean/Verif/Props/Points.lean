import Verif.Model.Points
import Verif.Spec.Points
import Mathlib.Tactic
/-!
C112: the generators of points.
-/
namespace Verif
open Points Spec.Points

namespace Points

theorem place_id (box shift c : ℝ) : place id box shift c = c * box + shift := rfl

theorem fmod1_mem {v : ℝ} (h : 0 ≤ v) : 0 ≤ fmod1 v ∧ fmod1 v < 1 := by
  unfold fmod1
  rw [if_pos h]
  exact ⟨sub_nonneg.2 (Int.floor_le v), by linarith [Int.lt_floor_add_one v]⟩

theorem place_mem {box shift c : ℝ} (hb : 0 < box) (h0 : 0 ≤ c) (h1 : c < 1) : shift ≤ place id box shift c ∧ place id box shift c < shift + box := by
  rw [place_id]
  constructor <;> nlinarith

/-- The numbers that a defined call of `randomPoints` gives. -/
theorem random_eq (fl : ℝ → ℝ) (normal : ℤ → ℕ → ℝ) (n : ℤ) (box shift : ℝ) (old : List ℝ) (h0 : -1 ≤ n) (h1 : n + 1 ≤ maxInt) (h2 : 3 * (n + 1) ^ 3 ≤ maxSize) :
    randomPoints fl normal n box shift old = some ((List.range (3 * (n + 1).toNat ^ 3)).map fun k => place fl box shift (fmod1 (Real.exp (normal 0 k)))) := by
  have hs : 0 ≤ (n + 1) ^ 3 * 3 := by have : 0 ≤ n + 1 := by omega
                                      positivity
  obtain ⟨m, hm⟩ : ∃ m : ℕ, n + 1 = m := ⟨(n + 1).toNat, by omega⟩
  have ht : ((n + 1) ^ 3 * 3).toNat = 3 * (n + 1).toNat ^ 3 := by
    rw [hm, Int.toNat_natCast]
    rw [show ((m : ℤ) ^ 3 * 3) = ((3 * m ^ 3 : ℕ) : ℤ) by push_cast; ring]
    rfl
  unfold randomPoints
  rw [if_neg (by omega)]
  simp only
  rw [if_neg (by omega)]
  unfold randomLogNormalFill
  rw [if_pos one_pos]
  simp only [Option.bind_eq_bind, Option.bind_some, List.map_map, Real.log_one, add_zero, one_mul, ht]
  congr 2
  rw [List.length_append, List.length_take, List.length_replicate]
  congr 1
  omega

theorem scaleAt_spec (fl : ℝ → ℝ) (shift : Fin 3 → ℝ) (scale : ℝ) (pts : List ℝ) (i : ℕ) (h : 3 * i + 2 < pts.length) :
    ∃ l, scaleAt fl shift scale pts i = some l ∧ l.length = pts.length ∧
      ∀ j, l[j]? = if j = 3 * i then pts[j]?.map (place fl scale (shift 0)) else if j = 3 * i + 1 then pts[j]?.map (place fl scale (shift 1))
        else if j = 3 * i + 2 then pts[j]?.map (place fl scale (shift 2)) else pts[j]? := by
  unfold scaleAt
  rw [List.getElem?_eq_getElem (by omega : 3 * i < pts.length), List.getElem?_eq_getElem (by omega : 3 * i + 1 < pts.length), List.getElem?_eq_getElem h]
  refine ⟨_, rfl, by simp, fun j => ?_⟩
  simp only [List.getElem?_set, List.length_set]
  have a1 := List.getElem?_eq_getElem (by omega : 3 * i < pts.length)
  have a2 := List.getElem?_eq_getElem (by omega : 3 * i + 1 < pts.length)
  have a3 := List.getElem?_eq_getElem h
  by_cases h0 : j = 3 * i
  · subst h0
    rw [if_neg (by omega), if_neg (by omega), if_pos rfl, if_pos (by omega), if_pos rfl, a1]
    rfl
  by_cases h1 : j = 3 * i + 1
  · subst h1
    rw [if_neg (by omega), if_pos rfl, if_pos (by omega), if_neg (by omega), if_pos rfl, a2]
    rfl
  by_cases h2 : j = 3 * i + 2
  · subst h2
    rw [if_pos rfl, if_pos (by omega), if_neg (by omega), if_neg (by omega), if_pos rfl, a3]
    rfl
  rw [if_neg (by omega), if_neg (by omega), if_neg (by omega), if_neg h0, if_neg h1, if_neg h2]

theorem loop_spec (fl : ℝ → ℝ) (shift : Fin 3 → ℝ) (scale : ℝ) (pts : List ℝ) (n : ℕ) (hn : 3 * n ≤ pts.length) :
    ∃ l, (List.range n).foldlM (scaleAt fl shift scale) pts = some l ∧ l.length = pts.length ∧
      ∀ j, l[j]? = if j < 3 * n then pts[j]?.map (place fl scale (shift ⟨j % 3, Nat.mod_lt _ (by norm_num)⟩)) else pts[j]? := by
  induction n with
  | zero => exact ⟨pts, rfl, rfl, fun j => by simp⟩
  | succ n ih =>
    obtain ⟨l, h1, h2, h3⟩ := ih (by omega)
    obtain ⟨l', g1, g2, g3⟩ := scaleAt_spec fl shift scale l n (by omega)
    refine ⟨l', ?_, g2.trans h2, fun j => ?_⟩
    · rw [List.range_succ, List.foldlM_append, h1]
      simp [g1]
    · rw [g3, h3]
      by_cases a0 : j = 3 * n
      · subst a0
        rw [if_pos rfl, if_neg (by omega), if_pos (by omega)]
        congr 3
        ext
        simp
      by_cases a1 : j = 3 * n + 1
      · subst a1
        rw [if_neg (by omega), if_pos rfl, if_neg (by omega), if_pos (by omega)]
        congr 3
        ext
        show 1 = (3 * n + 1) % 3
        omega
      by_cases a2 : j = 3 * n + 2
      · subst a2
        rw [if_neg (by omega), if_neg (by omega), if_pos rfl, if_neg (by omega), if_pos (by omega)]
        congr 3
        ext
        show 2 = (3 * n + 2) % 3
        omega
      rw [if_neg a0, if_neg a1, if_neg a2]
      by_cases b : j < 3 * n
      · rw [if_pos b, if_pos (by omega)]
      · rw [if_neg b, if_neg (by omega)]

end Points

/-- C112: one, two or four fixed points are appended; they are different and inside the box.  Any other number empties the vector.  The four points carry no total charge
and no dipole if their charges are 1, -1, -1, 1, but a quadrupole. -/
theorem C112_fixed (n : ℤ) (box shift : ℝ) (hb : 0 < box) (src : List ℝ) :
    (n = 1 ∨ n = 2 ∨ n = 4 → ∃ l, fixedPoints id n box shift src = src ++ l ∧ Distinct l n.toNat ∧ ∀ v ∈ l, shift < v ∧ v < shift + box) ∧
      (n ≠ 1 ∧ n ≠ 2 ∧ n ≠ 4 → fixedPoints id n box shift src = []) ∧
      (n = 4 → src = [] → ∀ c e : Fin 3, let p := fun i => comp (fixedPoints id n box shift src) i c; let r := fun i => comp (fixedPoints id n box shift src) i e
        p 0 - p 1 - p 2 + p 3 = 0 ∧ 0 < p 0 * r 0 - p 1 * r 1 - p 2 * r 2 + p 3 * r 3) := by
  refine ⟨?_, ?_, ?_⟩
  · rintro (rfl | rfl | rfl)
    · refine ⟨_, by unfold fixedPoints; rw [if_pos rfl], ⟨rfl, fun i hi j hj hij => ?_⟩, ?_⟩
      · simp at hi hj; omega
      · simp only [place_id, List.forall_mem_cons, List.not_mem_nil, false_imp_iff, implies_true, and_true]
        norm_num
        refine ⟨?_, ?_, ?_⟩ <;> constructor <;> linarith
    · refine ⟨_, by unfold fixedPoints; rw [if_neg (by norm_num), if_pos rfl], ⟨rfl, fun i hi j hj hij => ⟨0, ?_⟩⟩, ?_⟩
      · simp at hi hj
        have : (i = 0 ∧ j = 1) ∨ (i = 1 ∧ j = 0) := by omega
        rcases this with ⟨rfl, rfl⟩ | ⟨rfl, rfl⟩ <;> simp [comp, place_id] <;> norm_num <;> exact hb.ne'
      · simp only [place_id, List.forall_mem_cons, List.not_mem_nil, false_imp_iff, implies_true, and_true]
        norm_num
        refine ⟨?_, ?_, ?_, ?_, ?_, ?_⟩ <;> constructor <;> linarith
    · refine ⟨_, by unfold fixedPoints; rw [if_neg (by norm_num), if_neg (by norm_num), if_pos rfl], ⟨rfl, fun i hi j hj hij => ⟨0, ?_⟩⟩, ?_⟩
      · simp only [Int.reduceToNat] at hi hj
        have hi' : i = 0 ∨ i = 1 ∨ i = 2 ∨ i = 3 := by omega
        have hj' : j = 0 ∨ j = 1 ∨ j = 2 ∨ j = 3 := by omega
        rcases hi' with rfl | rfl | rfl | rfl <;> rcases hj' with rfl | rfl | rfl | rfl <;> first | exact absurd rfl hij | (simp [comp, place_id]; norm_num; exact hb.ne')
      · simp only [place_id, List.forall_mem_cons, List.not_mem_nil, false_imp_iff, implies_true, and_true]
        norm_num
        refine ⟨?_, ?_, ?_, ?_⟩ <;> constructor <;> linarith
  · rintro ⟨h1, h2, h3⟩
    unfold fixedPoints
    rw [if_neg h1, if_neg h2, if_neg h3]
  · rintro rfl rfl c e
    have hp : ∀ c : Fin 3, ∀ i < 4, comp (fixedPoints id 4 box shift []) i c = (i + 1) / 10 * box + shift := by
      intro c i hi
      unfold fixedPoints
      rw [if_neg (by norm_num), if_neg (by norm_num), if_pos rfl]
      interval_cases i <;> fin_cases c <;> simp [comp, place_id] <;> norm_num
    have q := hp c
    have r := hp e
    simp only
    rw [q 0 (by norm_num), q 1 (by norm_num), q 2 (by norm_num), q 3 (by norm_num), r 0 (by norm_num), r 1 (by norm_num), r 2 (by norm_num), r 3 (by norm_num)]
    push_cast
    constructor
    · ring
    · have : 0 < box * box := mul_pos hb hb
      nlinarith

example : (0 : ℝ) < 2 ∧ ((4 : ℤ) = 1 ∨ (4 : ℤ) = 2 ∨ (4 : ℤ) = 4) := by norm_num

/-- C112: `randomPoints` gives `(n + 1)^3` points in the half-open box whatever the vector held, with the same numbers in every call: those for fewer points come first among those
for more.  For `n < -1`, or a number of points that is too large, the call is not defined. -/
theorem C112_random (normal : ℤ → ℕ → ℝ) (n : ℤ) (box shift : ℝ) (hb : 0 < box) (old : List ℝ) :
    (-1 ≤ n → n + 1 ≤ maxInt → 3 * (n + 1) ^ 3 ≤ maxSize → ∃ l, randomPoints id normal n box shift old = some l ∧ l.length = 3 * (n + 1).toNat ^ 3 ∧ Inside l shift box ∧
        ∀ m old' l', n ≤ m → randomPoints id normal m box shift old' = some l' → l <+: l') ∧
      (n < -1 ∨ 3 * (n + 1) ^ 3 > maxSize → randomPoints id normal n box shift old = none) := by
  constructor
  · intro h0 h1 h2
    refine ⟨_, random_eq id normal n box shift old h0 h1 h2, by simp, ?_, ?_⟩
    · intro v hv
      obtain ⟨k, -, rfl⟩ := List.mem_map.1 hv
      obtain ⟨g1, g2⟩ := fmod1_mem (Real.exp_pos (normal 0 k)).le
      exact place_mem hb g1 g2
    · intro m old' l' hm hl
      have h1' : m + 1 ≤ maxInt := by
        by_contra hc
        unfold randomPoints at hl
        rw [if_pos (by omega)] at hl
        cases hl
      have h2' : 3 * (m + 1) ^ 3 ≤ maxSize := by
        by_contra hc
        unfold randomPoints at hl
        rw [if_neg (by omega)] at hl
        simp only at hl
        rw [if_pos (by omega)] at hl
        cases hl
      rw [random_eq id normal m box shift old' (by omega) h1' h2'] at hl
      cases hl
      have hle : 3 * (n + 1).toNat ^ 3 ≤ 3 * (m + 1).toNat ^ 3 := by
        have : (n + 1).toNat ≤ (m + 1).toNat := by omega
        have := Nat.pow_le_pow_left this 3
        omega
      obtain ⟨d, hd⟩ := Nat.exists_eq_add_of_le hle
      rw [hd, List.range_add, List.map_append]
      exact List.prefix_append _ _
  · intro h
    unfold randomPoints
    by_cases h0 : n + 1 > maxInt
    · rw [if_pos h0]
    · rw [if_neg h0]
      simp only
      rw [if_pos]
      rcases h with h | h
      · left
        have h1 : n + 1 ≤ -1 := by omega
        have : (n + 1) ^ 3 ≤ -1 := by nlinarith [sq_nonneg (n + 1)]
        omega
      · right
        omega

example : (-1 : ℤ) ≤ 4 ∧ (4 : ℤ) + 1 ≤ maxInt ∧ 3 * ((4 : ℤ) + 1) ^ 3 ≤ maxSize := by norm_num [maxInt, maxSize]

/-- C112: `randomUniformFill` replaces every entry by a number of the half-open interval; entry `k` depends on the seed and `k` alone. -/
theorem C112_uniform (canonical : ℤ → ℕ → ℝ) (hc : ∀ s k, 0 ≤ canonical s k ∧ canonical s k < 1) (vec : List ℝ) (low high : ℝ) (hlt : low < high) (seed : ℤ) :
    (randomUniformFill id canonical vec low high seed).length = vec.length ∧ (∀ v ∈ randomUniformFill id canonical vec low high seed, low ≤ v ∧ v < high) ∧
      ∀ vec' : List ℝ, vec.length ≤ vec'.length → randomUniformFill id canonical vec low high seed <+: randomUniformFill id canonical vec' low high seed := by
  unfold randomUniformFill
  refine ⟨by simp, ?_, ?_⟩
  · intro v hv
    obtain ⟨k, -, rfl⟩ := List.mem_map.1 hv
    obtain ⟨h1, h2⟩ := place_mem (shift := low) (sub_pos.2 hlt) (hc seed k).1 (hc seed k).2
    exact ⟨h1, by simp only [id] at *; linarith⟩
  · intro vec' h
    obtain ⟨d, hd⟩ := Nat.exists_eq_add_of_le h
    rw [hd, List.range_add, List.map_append]
    exact List.prefix_append _ _

example : ∀ (_ : ℤ) (_ : ℕ), (0 : ℝ) ≤ 1 / 2 ∧ (1 / 2 : ℝ) < 1 := by norm_num

/-- C112: `shiftAndScalePoints` multiplies every component by the scale and adds the shift of its axis; numbers that do not make a whole point stay.  Scaling back with `1 / scale` and
`-shift / scale` restores the vector. -/
theorem C112_scale (pts : List ℝ) (shift : Fin 3 → ℝ) (scale : ℝ) (hn : ((pts.length / 3 : ℕ) : ℤ) ≤ maxInt) :
    ∃ l, shiftAndScalePoints id pts shift scale = some l ∧ l.length = pts.length ∧
      (∀ i c, 3 * i + 2 < pts.length → comp l i c = scale * comp pts i c + shift c) ∧ (∀ j, 3 * (pts.length / 3) ≤ j → l[j]? = pts[j]?) ∧
      (scale ≠ 0 → shiftAndScalePoints id l (fun c => -shift c / scale) (1 / scale) = some pts) := by
  have key : ∀ (pts : List ℝ) (shift : Fin 3 → ℝ) (scale : ℝ), ((pts.length / 3 : ℕ) : ℤ) ≤ maxInt → ∃ l, shiftAndScalePoints id pts shift scale = some l ∧ l.length = pts.length ∧
      ∀ j, l[j]? = if j < 3 * (pts.length / 3) then pts[j]?.map (place id scale (shift ⟨j % 3, Nat.mod_lt _ (by norm_num)⟩)) else pts[j]? := by
    intro pts shift scale hn
    unfold shiftAndScalePoints
    rw [if_neg (by omega)]
    exact loop_spec id shift scale pts _ (by omega)
  obtain ⟨l, h1, h2, h3⟩ := key pts shift scale hn
  refine ⟨l, h1, h2, ?_, ?_, ?_⟩
  · intro i c hi
    have hlt : 3 * i + (c : ℕ) < pts.length := by have := c.2; omega
    unfold comp
    rw [List.getD_eq_getElem?_getD, List.getD_eq_getElem?_getD, h3, if_pos (by have := c.2; omega), List.getElem?_eq_getElem hlt]
    have : (⟨(3 * i + (c : ℕ)) % 3, Nat.mod_lt _ (by norm_num)⟩ : Fin 3) = c := by
      ext
      show (3 * i + (c : ℕ)) % 3 = c
      have := c.2
      omega
    rw [this]
    simp [place_id, mul_comm]
  · intro j hj
    rw [h3, if_neg (by omega)]
  · intro hs
    obtain ⟨l', g1, g2, g3⟩ := key l (fun c => -shift c / scale) (1 / scale) (by rw [h2]; exact hn)
    rw [g1]
    congr 1
    refine List.ext_getElem? fun j => ?_
    rw [g3, h3, h2]
    split_ifs
    · cases pts[j]? with
      | none => rfl
      | some v =>
        simp only [Option.map_some, place_id, Option.some.injEq]
        field_simp
        ring
    · rfl

example : (((List.replicate 7 (1 : ℝ)).length / 3 : ℕ) : ℤ) ≤ maxInt ∧ (2 : ℝ) ≠ 0 := by norm_num [maxInt]

/-- C112 in rounded arithmetic, what remains: with any monotone rounding for which `0`, `box`, `shift` are representable, the points are in the closed box with the rounded upper end.
Missing: that they are below it. -/
theorem C112_rounded_partial (fl : ℝ → ℝ) (hm : Monotone fl) (h0 : fl 0 = 0) (normal : ℤ → ℕ → ℝ) (n : ℤ) (box shift : ℝ) (hb : 0 < box) (hfb : fl box = box) (hfs : fl shift = shift) (old l : List ℝ)
    (hn : -1 ≤ n) (h : randomPoints fl normal n box shift old = some l) : ∀ v ∈ l, shift ≤ v ∧ v ≤ fl (shift + box) := by
  have h1 : n + 1 ≤ maxInt := by
    by_contra hc
    unfold randomPoints at h
    rw [if_pos (by omega)] at h
    cases h
  have h2 : 3 * (n + 1) ^ 3 ≤ maxSize := by
    by_contra hc
    unfold randomPoints at h
    rw [if_neg (by omega)] at h
    simp only at h
    rw [if_pos (by omega)] at h
    cases h
  rw [random_eq fl normal n box shift old hn h1 h2] at h
  cases h
  intro v hv
  obtain ⟨k, -, rfl⟩ := List.mem_map.1 hv
  obtain ⟨g1, g2⟩ := fmod1_mem (Real.exp_pos (normal 0 k)).le
  have k1 : 0 ≤ fl (fmod1 (Real.exp (normal 0 k)) * box) := by
    have := hm (show 0 ≤ fmod1 (Real.exp (normal 0 k)) * box by positivity)
    rwa [h0] at this
  have k2 : fl (fmod1 (Real.exp (normal 0 k)) * box) ≤ box := by
    conv_rhs => rw [← hfb]
    exact hm (by nlinarith)
  unfold place
  constructor
  · conv_lhs => rw [← hfs]
    exact hm (by linarith)
  · exact hm (by linarith)

example : Monotone (id : ℝ → ℝ) ∧ (id : ℝ → ℝ) 0 = 0 ∧ (id : ℝ → ℝ) 1 = 1 := ⟨monotone_id, rfl, rfl⟩

/-- C112 is false in rounded arithmetic: the draw `1 - 2^-53`, the largest number below one, in the box from 1 to 2 becomes `2 - 2^-53`, which is half way between two doubles and rounded
to the even one, 2.  The same happens to `randomUniformFill`. -/
theorem C112_rounding_false (fl : ℝ → ℝ) (h1 : fl 1 = 1) (hv : fl (1 - 1 / 2 ^ 53) = 1 - 1 / 2 ^ 53) (h2 : fl (2 - 1 / 2 ^ 53) = 2) :
    (∃ normal l, randomPoints fl normal 0 1 1 [] = some l ∧ ∃ v ∈ l, ¬ v < 1 + 1) ∧
      ∃ canonical : ℤ → ℕ → ℝ, (∀ s k, 0 ≤ canonical s k ∧ canonical s k < 1) ∧ ∃ v ∈ randomUniformFill fl canonical [0] 1 2 0, ¬ v < 2 := by
  have hp : place fl 1 1 (1 - 1 / 2 ^ 53) = 2 := by
    unfold place
    rw [mul_one, hv, show (1 - 1 / 2 ^ 53 + 1 : ℝ) = 2 - 1 / 2 ^ 53 by ring, h2]
  have hpos : (0 : ℝ) < 1 - 1 / 2 ^ 53 := by norm_num
  constructor
  · refine ⟨fun _ _ => Real.log (1 - 1 / 2 ^ 53), _, random_eq fl _ 0 1 1 [] (by norm_num) (by norm_num [maxInt]) (by norm_num [maxSize]), 2, ?_, by norm_num⟩
    refine List.mem_map.2 ⟨0, by simp, ?_⟩
    rw [Real.exp_log hpos, show fmod1 (1 - 1 / 2 ^ 53) = 1 - 1 / 2 ^ 53 from ?_, hp]
    unfold fmod1
    rw [if_pos hpos.le, Int.floor_eq_zero_iff.2 ⟨hpos.le, by norm_num⟩]
    simp
  · refine ⟨fun _ _ => 1 - 1 / 2 ^ 53, fun _ _ => by norm_num, 2, List.mem_map.2 ⟨0, by simp, ?_⟩, by norm_num⟩
    rw [show (2 - 1 : ℝ) = 1 by norm_num, h1, hp]

example : ∃ fl : ℝ → ℝ, fl 1 = 1 ∧ fl (1 - 1 / 2 ^ 53) = 1 - 1 / 2 ^ 53 ∧ fl (2 - 1 / 2 ^ 53) = 2 :=
  ⟨fun x => if x = 2 - 1 / 2 ^ 53 then 2 else x, by norm_num, by norm_num, by norm_num⟩

end Verif
