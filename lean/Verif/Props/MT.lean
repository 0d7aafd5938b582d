import Verif.Model.MT
import Verif.Spec.MT
import Verif.Props.Domain
import Mathlib.Tactic.Linarith
import Mathlib.Tactic.NormNum
/-! C86: the random numbers of FDPS. -/
namespace Verif
namespace MT

/-- A word of 32 bits in one of 64. -/
def up (x : BitVec 32) : Word := x.setWidth 64

theorem up_xor (a b : BitVec 32) : up a ^^^ up b = up (a ^^^ b) := by simp [up]

theorem up_shr (a : BitVec 32) (n : ℕ) : up a >>> n = up (a >>> n) := by
  apply BitVec.eq_of_getLsbD_eq
  intro i hi
  simp only [up, BitVec.getLsbD_ushiftRight, BitVec.getLsbD_setWidth, hi, decide_true, Bool.true_and]
  by_cases h : n + i < 64
  · simp [h]
  · rw [decide_eq_false h, BitVec.getLsbD_of_ge a (n + i) (by omega), Bool.false_and]

theorem up_shl_and (a m : BitVec 32) (n : ℕ) : (up a <<< n) &&& up m = up ((a <<< n) &&& m) := by
  apply BitVec.eq_of_getLsbD_eq
  intro i hi
  simp only [up, BitVec.getLsbD_and, BitVec.getLsbD_shiftLeft, BitVec.getLsbD_setWidth, hi, decide_true, Bool.true_and]
  by_cases h : i < 32
  · simp [h, show i - n < 64 by omega]
  · rw [BitVec.getLsbD_of_ge m i (by omega)]
    simp

theorem up_and (a m : BitVec 32) : up a &&& up m = up (a &&& m) := by simp [up]

theorem low_mask (x : Word) : x &&& 0xffffffff#64 = up (x.setWidth 32) := by
  apply BitVec.eq_of_getLsbD_eq
  intro i hi
  have hm : (0xffffffff#64).getLsbD i = decide (i < 32) := by
    have : (0xffffffff#64) = (BitVec.allOnes 32).setWidth 64 := by decide
    rw [this, BitVec.getLsbD_setWidth, BitVec.getLsbD_allOnes]
    simp [hi]
  rw [BitVec.getLsbD_and, hm]
  simp [up, BitVec.getLsbD_setWidth, hi, Bool.and_comm]

theorem down_up (x : BitVec 32) : (up x).setWidth 32 = x := by
  apply BitVec.eq_of_getLsbD_eq
  intro i hi
  simp [up, BitVec.getLsbD_setWidth, hi]

theorem seed_word (p : BitVec 32) (i : ℕ) :
    (1812433253#64 * (up p ^^^ (up p >>> 30)) + BitVec.ofNat 64 i) &&& 0xffffffff#64 = up (1812433253#32 * (p ^^^ (p >>> 30)) + BitVec.ofNat 32 i) := by
  rw [low_mask, up_shr, up_xor, BitVec.setWidth_add _ _ (by omega), BitVec.setWidth_mul _ _ (by omega), down_up]
  congr 2
  apply BitVec.eq_of_toNat_eq
  simp

theorem twist_word (u v w : BitVec 32) :
    up w ^^^ (((up u &&& 0x80000000#64) ||| (up v &&& 0x7fffffff#64)) >>> 1) ^^^
      (if ((up u &&& 0x80000000#64) ||| (up v &&& 0x7fffffff#64)) &&& 1#64 = 0#64 then 0#64 else 0x9908b0df#64) = up (w ^^^ mulA u v) := by
  have h1 : (0x80000000#64) = up 0x80000000#32 := by decide
  have h2 : (0x7fffffff#64) = up 0x7fffffff#32 := by decide
  have h3 : (up u &&& 0x80000000#64) ||| (up v &&& 0x7fffffff#64) = up ((u &&& 0x80000000#32) ||| (v &&& 0x7fffffff#32)) := by
    rw [h1, h2, up_and, up_and]
    simp [up]
  rw [h3]
  have h4 : ((u &&& 0x80000000#32) ||| (v &&& 0x7fffffff#32)) >>> 1 = (0#1 ++ u.extractLsb' 31 1 ++ v.extractLsb' 1 30 : BitVec 32) := by
    have m1 : ∀ i < 32, (0x80000000#32).getLsbD (1 + i) = decide (i = 30) := by decide
    have m2 : ∀ i < 32, (0x7fffffff#32).getLsbD (1 + i) = decide (i < 30) := by decide
    apply BitVec.eq_of_getLsbD_eq
    intro i hi
    rw [BitVec.getLsbD_ushiftRight, BitVec.getLsbD_or, BitVec.getLsbD_and, BitVec.getLsbD_and, m1 i hi, m2 i hi, BitVec.getLsbD_append, BitVec.getLsbD_append,
      BitVec.getLsbD_extractLsb', BitVec.getLsbD_extractLsb']
    rcases lt_trichotomy i 30 with h | h | h
    · simp [h, h.ne]
    · subst h
      simp
    · have : i = 31 := by omega
      subst this
      simp
  have h5 : (up ((u &&& 0x80000000#32) ||| (v &&& 0x7fffffff#32)) &&& 1#64 = 0#64) ↔ v.getLsbD 0 = false := by
    constructor
    · intro h
      have := congrArg (fun x => BitVec.getLsbD x 0) h
      simpa [up, BitVec.getLsbD_setWidth] using this
    · intro h
      apply BitVec.eq_of_getLsbD_eq
      intro i hi
      rw [BitVec.getLsbD_and, BitVec.getLsbD_zero]
      rcases Nat.eq_zero_or_pos i with h0 | h0
      · subst h0
        simpa [up, BitVec.getLsbD_setWidth] using h
      · have : (1#64).getLsbD i = false := by
          rw [BitVec.getLsbD_one]
          simp
          omega
        rw [this, Bool.and_false]
  rw [up_shr, h4]
  have h6 : (if up ((u &&& 0x80000000#32) ||| (v &&& 0x7fffffff#32)) &&& 1#64 = 0#64 then 0#64 else 0x9908b0df#64) =
      up (if v.getLsbD 0 then 0x9908b0df#32 else 0#32) := by
    by_cases h : v.getLsbD 0 = true
    · rw [if_neg (by rw [h5]; simp [h]), if_pos h]; decide
    · rw [if_pos (by rw [h5]; simpa using h), if_neg h]; decide
  rw [h6, up_xor, up_xor, mulA, BitVec.xor_assoc]

/-- The words from number `base` on, the first `kk` of them already those 624 places further. -/
def Holds (seed : BitVec 32) (base kk : ℕ) (l : List Word) : Prop :=
  l.length = 624 ∧ ∀ i < 624, l[i]? = some (up (word seed (if i < kk then base + 624 + i else base + i)))

theorem seedLoop_spec (seed : BitVec 32) : ∀ (k i : ℕ) (l : List Word), 1 ≤ i → i + k = 624 → l.length = 624 →
    (∀ j < i, l[j]? = some (up (word seed j))) → ∃ l', seedLoop k i l = some l' ∧ Holds seed 0 0 l' := by
  intro k
  induction k with
  | zero =>
    intro i l _ hik hl h
    exact ⟨l, rfl, hl, fun j hj => by simpa using h j (by omega)⟩
  | succ k ih =>
    intro i l hi hik hl h
    simp only [seedLoop, h (i - 1) (by omega), hl, show i < 624 by omega, if_true, seed_word]
    refine ih (i + 1) _ (by omega) (by omega) (by simpa using hl) fun j hj => ?_
    rcases Nat.lt_or_ge j i with hji | hji
    · rw [List.getElem?_set_ne (by omega), h j hji]
    · have : j = i := by omega
      subst this
      rw [List.getElem?_set_self (by omega)]
      rw [word.eq_def seed j, if_neg (by omega), if_pos (by omega)]

theorem init_spec (s : Word) (st : State) (h : st.mt.length = 624) : ∃ l, initGenrand s st = some ⟨l, 624⟩ ∧ Holds (s.setWidth 32) 0 0 l := by
  obtain ⟨l, h1, h2⟩ := seedLoop_spec (s.setWidth 32) 623 1 (st.mt.set 0 (s &&& 0xffffffff#64)) le_rfl rfl (by simpa using h) (by
    intro j hj
    have : j = 0 := by omega
    subst this
    rw [List.getElem?_set_self (by omega), low_mask, word, if_pos rfl])
  refine ⟨l, ?_, h2⟩
  simp only [initGenrand, h, show 0 < 624 by omega, if_true, h1]

theorem twist_spec (seed : BitVec 32) (base kk b c : ℕ) (l : List Word) (h : Holds seed base kk l) (hk : kk < 624)
    (hb : b < 624) (hc : c < 624) (eb : (if b < kk then base + 624 + b else base + b) = base + kk + 1)
    (ec : (if c < kk then base + 624 + c else base + c) = base + kk + 397) : ∃ l', twistAt l kk b c = some l' ∧ Holds seed base (kk + 1) l' := by
  have e1 := h.2 kk hk
  have e2 := h.2 b hb
  have e3 := h.2 c hc
  rw [if_neg (by omega)] at e1
  rw [eb] at e2
  rw [ec] at e3
  simp only [twistAt, e1, e2, e3, twist_word]
  refine ⟨_, rfl, by simpa using h.1, fun i hi => ?_⟩
  rcases eq_or_ne i kk with rfl | hne
  · rw [List.getElem?_set_self (by rw [h.1]; omega), if_pos (by omega), word.eq_def seed (base + 624 + i), if_neg (by omega), if_neg (by omega), show base + 624 + i - 227 = base + i + 397 by omega, show base + 624 + i - 624 = base + i by omega,
      show base + 624 + i - 623 = base + i + 1 by omega]
  · rw [List.getElem?_set_ne (Ne.symm hne), h.2 i hi]
    congr 3
    split_ifs <;> omega

theorem loop1_spec (seed : BitVec 32) (base : ℕ) : ∀ (k kk : ℕ) (l : List Word), kk + k = 227 → Holds seed base kk l →
    ∃ l', loop1 k kk l = some l' ∧ Holds seed base 227 l' := by
  intro k
  induction k with
  | zero => intro kk l hk h; exact ⟨l, rfl, by rw [← hk]; exact h⟩
  | succ k ih =>
    intro kk l hk h
    obtain ⟨l', e, h'⟩ := twist_spec seed base kk (kk + 1) (kk + 397) l h (by omega) (by omega) (by omega) (by rw [if_neg (by omega)]; omega) (by rw [if_neg (by omega)]; omega)
    simp only [loop1, e]
    exact ih (kk + 1) l' (by omega) h'

theorem loop2_spec (seed : BitVec 32) (base : ℕ) : ∀ (k kk : ℕ) (l : List Word), 227 ≤ kk → kk + k = 623 → Holds seed base kk l →
    ∃ l', loop2 k kk l = some l' ∧ Holds seed base 623 l' := by
  intro k
  induction k with
  | zero => intro kk l _ hk h; exact ⟨l, rfl, by rw [← hk]; exact h⟩
  | succ k ih =>
    intro kk l hk0 hk h
    obtain ⟨l', e, h'⟩ := twist_spec seed base kk (kk + 1) (kk - 227) l h (by omega) (by omega) (by omega) (by rw [if_neg (by omega)]; omega) (by rw [if_pos (by omega)]; omega)
    simp only [loop2, e]
    exact ih (kk + 1) l' (by omega) (by omega) h'

theorem generate_spec (seed : BitVec 32) (base : ℕ) (l : List Word) (h : Holds seed base 0 l) : ∃ l', generate l = some l' ∧ Holds seed (base + 624) 0 l' := by
  obtain ⟨l1, e1, h1⟩ := loop1_spec seed base 227 0 l rfl h
  obtain ⟨l2, e2, h2⟩ := loop2_spec seed base 396 227 l1 le_rfl rfl h1
  obtain ⟨l3, e3, h3⟩ := twist_spec seed base 623 0 396 l2 h2 (by omega) (by omega) (by omega) (by rw [if_pos (by omega)]) (by rw [if_pos (by omega)])
  refine ⟨l3, by simp only [generate, e1, e2, e3], h3.1, fun i hi => ?_⟩
  rw [h3.2 i hi, if_pos (by omega), if_neg (by omega)]

/-- `n` numbers were taken since the seed was given. -/
def At (seed : BitVec 32) (n : ℕ) (st : State) : Prop :=
  ∃ base, Holds seed base 0 st.mt ∧ st.mti ≤ 624 ∧ base + st.mti = n + 624

theorem temper_up (y : BitVec 32) : temper (up y) = up (tempered y) := by
  have h1 : (0x9d2c5680#64) = up 0x9d2c5680#32 := by decide
  have h2 : (0xefc60000#64) = up 0xefc60000#32 := by decide
  simp only [temper, tempered, h1, h2, up_shr, up_xor, up_shl_and]

theorem next_spec (seed : BitVec 32) (n : ℕ) (st : State) (h : At seed n st) :
    ∃ st', genrandInt32 st = some (up (output seed n), st') ∧ At seed (n + 1) st' := by
  obtain ⟨base, hb, hm, hn⟩ := h
  obtain ⟨st1, e1, base', hb', hm', hn'⟩ : ∃ st1, refill st = some st1 ∧ ∃ base', Holds seed base' 0 st1.mt ∧ st1.mti < 624 ∧ base' + st1.mti = n + 624 := by
    unfold refill
    rcases Nat.lt_or_ge st.mti 624 with h0 | h0
    · rw [if_neg (by omega)]
      exact ⟨st, rfl, base, hb, h0, hn⟩
    · rw [if_pos h0]
      obtain ⟨l, e, hl⟩ := generate_spec seed base st.mt hb
      simp only [show ¬ st.mti = 625 by omega, if_false, e]
      exact ⟨_, rfl, base + 624, hl, by simp, by simp only; omega⟩
  have e2 := hb'.2 st1.mti hm'
  rw [if_neg (by omega), hn'] at e2
  refine ⟨⟨st1.mt, st1.mti + 1⟩, ?_, base', hb', by simp only; omega, by simp only; omega⟩
  simp only [genrandInt32, e1, e2, temper_up, output]

theorem calls_spec {α : Type} (f : State → Option (α × State)) (seed : BitVec 32) (k : ℕ) (g : ℕ → α)
    (hf : ∀ n st, At seed n st → ∃ st', f st = some (g n, st') ∧ At seed (n + k) st') :
    ∀ (m n : ℕ) (st : State), At seed n st → ∃ st', calls f m st = some ((List.range m).map fun j => g (n + j * k), st') ∧ At seed (n + m * k) st' := by
  intro m
  induction m with
  | zero => intro n st h; exact ⟨st, rfl, by simpa using h⟩
  | succ m ih =>
    intro n st h
    obtain ⟨st1, e1, h1⟩ := hf n st h
    obtain ⟨st2, e2, h2⟩ := ih (n + k) st1 h1
    refine ⟨st2, ?_, by rw [show n + (m + 1) * k = n + k + m * k by ring]; exact h2⟩
    simp only [calls, e1, e2, List.range_succ_eq_map, List.map_cons, List.map_map, Nat.zero_mul, Nat.add_zero]
    congr 3
    refine List.map_congr_left fun j _ => ?_
    simp only [Function.comp]
    congr 1
    rw [Nat.succ_eq_add_one]
    ring

end MT
open MT

/-- **C86**: after `init_genrand` any number of calls of `genrand_int32` return the numbers of MT19937 with this seed, one after the other, each
below 2^32; without `init_genrand` those with the seed 5489.  No call reads or writes outside of the array. -/
theorem C86_sequence (st : State) (hst : st.mt.length = 624) (s : Word) (m : ℕ) :
    (∃ st0 st', initGenrand s st = some st0 ∧ calls genrandInt32 m st0 = some ((List.range m).map fun n => (output (s.setWidth 32) n).setWidth 64, st')) ∧
    (st.mti = 625 → ∃ st', calls genrandInt32 m st = some ((List.range m).map fun n => (output 5489#32 n).setWidth 64, st')) := by
  have hf : ∀ seed n st, At seed n st → ∃ st', genrandInt32 st = some (up (output seed n), st') ∧ At seed (n + 1) st' := fun seed n st h => next_spec seed n st h
  constructor
  · obtain ⟨l, e, hl⟩ := init_spec s st hst
    obtain ⟨st', e', -⟩ := calls_spec genrandInt32 (s.setWidth 32) 1 _ (hf _) m 0 ⟨l, 624⟩ ⟨0, hl, le_rfl, rfl⟩
    refine ⟨_, st', e, ?_⟩
    rw [e']
    simp [up]
  · intro h625
    cases m with
    | zero => exact ⟨st, rfl⟩
    | succ m =>
      obtain ⟨l, e, hl⟩ := init_spec 5489#64 st hst
      have h1 : genrandInt32 st = genrandInt32 ⟨l, 624⟩ := by
        simp [genrandInt32, refill, h625, e]
      obtain ⟨st', e', -⟩ := calls_spec genrandInt32 5489#32 1 _ (hf _) (m + 1) 0 ⟨l, 624⟩ ⟨0, hl, le_rfl, rfl⟩
      refine ⟨st', ?_⟩
      have h2 : calls genrandInt32 (m + 1) st = calls genrandInt32 (m + 1) ⟨l, 624⟩ := by simp only [calls, h1]
      rw [h2, e']
      simp [up]

namespace MT

theorem up_lt (x : BitVec 32) : (up x).toNat < 2 ^ 32 := by
  have := x.isLt
  simp only [up, BitVec.toNat_setWidth]
  omega

/-- The value of `genrand_res53` from two words. -/
noncomputable def res53 (seed : BitVec 32) (n : ℕ) : ℝ :=
  ((((output seed n).toNat / 2 ^ 5 * 2 ^ 26 + (output seed (n + 1)).toNat / 2 ^ 6 : ℕ) : ℝ)) / 2 ^ 53

theorem res53_range (seed : BitVec 32) (n : ℕ) : InRange .res53 (res53 seed n) := by
  have h1 := (output seed n).isLt
  have h2 := (output seed (n + 1)).isLt
  refine ⟨by unfold res53; positivity, ?_, _, rfl⟩
  unfold res53
  rw [div_lt_one (by norm_num)]
  have : (output seed n).toNat / 2 ^ 5 * 2 ^ 26 + (output seed (n + 1)).toNat / 2 ^ 6 < 2 ^ 53 := by omega
  exact_mod_cast this

theorem res53_spec (seed : BitVec 32) (n : ℕ) (st : State) (h : At seed n st) :
    ∃ st', genrandRes53 st = some (res53 seed n, st') ∧ At seed (n + 2) st' := by
  obtain ⟨s1, e1, h1⟩ := next_spec seed n st h
  obtain ⟨s2, e2, h2⟩ := next_spec seed (n + 1) s1 h1
  refine ⟨s2, ?_, h2⟩
  simp only [genrandRes53, e1, e2]
  congr 2
  have k1 : (up (output seed n) >>> 5).toNat = (output seed n).toNat / 2 ^ 5 := by
    rw [up_shr, up, BitVec.toNat_setWidth, BitVec.toNat_ushiftRight, Nat.shiftRight_eq_div_pow]
    have := (output seed n).isLt
    exact Nat.mod_eq_of_lt (by omega)
  have k2 : (up (output seed (n + 1)) >>> 6).toNat = (output seed (n + 1)).toNat / 2 ^ 6 := by
    rw [up_shr, up, BitVec.toNat_setWidth, BitVec.toNat_ushiftRight, Nat.shiftRight_eq_div_pow]
    have := (output seed (n + 1)).isLt
    exact Nat.mod_eq_of_lt (by omega)
  rw [k1, k2, res53]
  push_cast
  norm_num
  ring

theorem call_spec (seed : BitVec 32) (n : ℕ) (st : State) (h : At seed n st) (f : Fn) : ∃ r st' n', call f st = some (r, st') ∧ InRange f r ∧ At seed n' st' := by
  obtain ⟨st', e, h'⟩ := next_spec seed n st h
  have hlt := up_lt (output seed n)
  have hR : ((up (output seed n)).toNat : ℝ) < 2 ^ 32 := by exact_mod_cast hlt
  have hle : ((up (output seed n)).toNat : ℝ) ≤ 4294967295 := by
    have : (up (output seed n)).toNat ≤ 4294967295 := by omega
    exact_mod_cast this
  have h0 : (0 : ℝ) ≤ (up (output seed n)).toNat := by positivity
  cases f with
  | int31 =>
    refine ⟨_, st', n + 1, by simp only [call, genrandInt31, e]; rfl, ⟨_, ?_, rfl⟩, h'⟩
    rw [BitVec.toNat_ushiftRight, Nat.shiftRight_eq_div_pow]
    omega
  | real1 =>
    refine ⟨_, st', n + 1, by simp only [call, genrandReal1, e]; rfl, ⟨by positivity, ?_⟩, h'⟩
    norm_num
    linarith
  | real2 =>
    refine ⟨_, st', n + 1, by simp only [call, genrandReal2, e]; rfl, ⟨by positivity, ?_⟩, h'⟩
    norm_num at hR ⊢
    linarith
  | real3 =>
    refine ⟨_, st', n + 1, by simp only [call, genrandReal3, e]; rfl, ⟨by positivity, ?_⟩, h'⟩
    norm_num
    linarith
  | res53 =>
    obtain ⟨s2, e2, h2⟩ := res53_spec seed n st h
    exact ⟨_, s2, n + 2, e2, res53_range seed n, h2⟩

theorem run_spec (seed : BitVec 32) : ∀ (fs : List Fn) (n : ℕ) (st : State), At seed n st → ∃ rs st' n', run fs st = some (rs, st') ∧
    List.Forall₂ InRange fs rs ∧ At seed n' st' := by
  intro fs
  induction fs with
  | nil => intro n st h; exact ⟨[], st, n, rfl, .nil, h⟩
  | cons f fs ih =>
    intro n st h
    obtain ⟨r, s1, n1, e1, h1, h2⟩ := call_spec seed n st h f
    obtain ⟨rs, s2, n2, e2, h3, h4⟩ := ih n1 s1 h2
    exact ⟨r :: rs, s2, n2, by simp only [run, e1, e2], .cons h1 h3, h4⟩

end MT

/-- **C86**: after `init_genrand`, any calls of the functions that draw end without a fault and return numbers in the ranges promised. -/
theorem C86_ranges (st : State) (hst : st.mt.length = 624) (s : Word) (fs : List Fn) :
    ∃ st0 rs st', initGenrand s st = some st0 ∧ run fs st0 = some (rs, st') ∧ List.Forall₂ InRange fs rs := by
  obtain ⟨l, e, hl⟩ := init_spec s st hst
  obtain ⟨rs, st', n', e', h, -⟩ := run_spec (s.setWidth 32) fs 0 ⟨l, 624⟩ ⟨0, hl, le_rfl, rfl⟩
  exact ⟨_, rs, st', e, e', h⟩

/-- **C86**, use by `getSampleParticle` (C81): after `init_genrand` with the number of the rank and any calls, the samples drawn with the next numbers of `genrand_res53` are
distinct particles of the rank. -/
theorem C86_samples (st : State) (hst : st.mt.length = 624) (rank : Word) (fs : List Fn) {α : Type} (pos : α → V3) (all target : ℕ) (hall : 1 ≤ all) (l : List α) :
    ∃ st0 rs st1 u samples, initGenrand rank st = some st0 ∧ run fs st0 = some (rs, st1) ∧
      (∀ m, ∃ st2, calls genrandRes53 m st1 = some ((List.range m).map u, st2)) ∧ Domain.getSample pos u all target l = some (samples, l) ∧ samples.Subperm (l.map pos) := by
  obtain ⟨l0, e, hl⟩ := init_spec rank st hst
  obtain ⟨rs, st1, n1, e1, -, h1⟩ := run_spec (rank.setWidth 32) fs 0 ⟨l0, 624⟩ ⟨0, hl, le_rfl, rfl⟩
  obtain ⟨samples, h2, -, h3⟩ := C81_samples pos (fun j => res53 (rank.setWidth 32) (n1 + j * 2)) (fun j => ⟨(res53_range _ _).1, (res53_range _ _).2.1⟩) all target hall l
  refine ⟨_, rs, st1, _, samples, e, e1, fun m => ?_, h2, h3⟩
  obtain ⟨st2, e2, -⟩ := calls_spec genrandRes53 (rank.setWidth 32) 2 _ (res53_spec _) m n1 st1 h1
  exact ⟨st2, e2⟩

/-- The state of the program at the start, and three calls after `init_genrand(3)`. -/
example : ∃ st st0 rs st', st.mt.length = 624 ∧ st.mti = 625 ∧ initGenrand 3#64 st = some st0 ∧ run [.res53, .int31, .real3] st0 = some (rs, st') ∧ rs.length = 3 := by
  have hl : (List.replicate 624 0#64).length = 624 := List.length_replicate
  obtain ⟨st0, rs, st', e0, e, h⟩ := C86_ranges ⟨List.replicate 624 0#64, 625⟩ hl 3#64 [.res53, .int31, .real3]
  exact ⟨_, st0, rs, st', hl, rfl, e0, e, h.length_eq.symm⟩

end Verif
