import Verif.Spec.Morton
import Mathlib.Tactic.IntervalCases
import Mathlib.Tactic.Positivity
import Mathlib.Tactic.FieldSimp
import Mathlib.Tactic.Ring
import Mathlib.Tactic.Linarith
import Mathlib.Data.Nat.Bitwise
import Mathlib.Algebra.Order.Floor.Semiring
import Mathlib.Algebra.Order.Floor.Ring
/-! Lemmas about Morton keys. -/
namespace Verif.Morton

theorem high_bit {n : BitVec 64} (h : n.toNat < 2 ^ 21) {k : ℕ} (hk : 21 ≤ k) : n.getLsbD k = false := by
  rw [BitVec.getLsbD, Nat.testBit_lt_two_pow]
  exact lt_of_lt_of_le h (Nat.pow_le_pow_right (by omega) hk)

theorem separateBit_bit (n : BitVec 64) (h : n.toNat < 2 ^ 21) (i : ℕ) :
    (separateBit n).getLsbD i = (decide (i % 3 = 0) && n.getLsbD (i / 3)) := by
  by_cases hi : i < 64
  · have hb : ∀ k, 21 ≤ k → n.getLsbD k = false := fun k hk => high_bit h hk
    have hb' : ∀ (k : ℕ) (hk : k < 64), 21 ≤ k → n[k] = false := fun k hk hk' => by
      rw [← BitVec.getLsbD_eq_getElem]; exact hb k hk'
    unfold separateBit
    interval_cases i <;> simp [hb, hb']
  · rw [BitVec.getLsbD_of_ge _ _ (by omega), high_bit h (by omega)]
    simp

/-- The bit of a key: bit `i / 3` of the index of the axis `i % 3`. -/
theorem combine_bit (nx ny nz : BitVec 64) (hx : nx.toNat < 2 ^ 21) (hy : ny.toNat < 2 ^ 21)
    (hz : nz.toNat < 2 ^ 21) (i : ℕ) :
    (combine nx ny nz).toNat.testBit i =
      (if i % 3 = 2 then nx.toNat.testBit (i / 3)
       else if i % 3 = 1 then ny.toNat.testBit (i / 3) else nz.toNat.testBit (i / 3)) := by
  change (combine nx ny nz).getLsbD i = (if i % 3 = 2 then nx.getLsbD (i / 3)
       else if i % 3 = 1 then ny.getLsbD (i / 3) else nz.getLsbD (i / 3))
  by_cases hi : i < 64
  · unfold combine
    simp only [BitVec.getLsbD_or, BitVec.getLsbD_shiftLeft, separateBit_bit _ hx, separateBit_bit _ hy,
      separateBit_bit _ hz, hi, decide_true, Bool.true_and]
    have h3 : i % 3 = 0 ∨ i % 3 = 1 ∨ i % 3 = 2 := by omega
    rcases h3 with h | h | h
    · have e1 : (i - 2) % 3 = 0 → i < 2 := by omega
      have e2 : (i - 1) % 3 = 0 → i < 1 := by omega
      by_cases h0 : i = 0
      · subst h0; simp
      · have h2 : ¬ (i - 2) % 3 = 0 := by omega
        have h1 : ¬ (i - 1) % 3 = 0 := by omega
        simp [h, h1, h2]
    · have e0 : ¬ i % 3 = 0 := by omega
      have e1 : (i - 1) % 3 = 0 := by omega
      have e2 : (i - 1) / 3 = i / 3 := by omega
      have e3 : ¬ i < 1 := by omega
      by_cases h1 : i = 1
      · subst h1; simp
      · have e4 : ¬ (i - 2) % 3 = 0 := by omega
        simp [h, e1, e2, e3, e4]
    · have e1 : ¬ (i - 1) % 3 = 0 := by omega
      have e2 : (i - 2) % 3 = 0 := by omega
      have e3 : (i - 2) / 3 = i / 3 := by omega
      have e4 : ¬ i < 2 := by omega
      simp [h, e1, e2, e3, e4]
  · rw [BitVec.getLsbD_of_ge _ _ (by omega), high_bit hx (by omega), high_bit hy (by omega), high_bit hz (by omega)]
    simp

theorem combine_lt (nx ny nz : BitVec 64) (hx : nx.toNat < 2 ^ 21) (hy : ny.toNat < 2 ^ 21)
    (hz : nz.toNat < 2 ^ 21) : (combine nx ny nz).toNat < 2 ^ 63 := by
  apply Nat.lt_pow_two_of_testBit
  intro i hi
  rw [combine_bit _ _ _ hx hy hz]
  have h : ∀ n : BitVec 64, n.toNat < 2 ^ 21 → n.toNat.testBit (i / 3) = false := fun n hn => by
    have := high_bit hn (k := i / 3) (by omega)
    rwa [BitVec.getLsbD] at this
  rw [h _ hx, h _ hy, h _ hz]
  simp

theorem combine_prefix (nx ny nz mx my mz : BitVec 64) (hx : nx.toNat < 2 ^ 21) (hy : ny.toNat < 2 ^ 21)
    (hz : nz.toNat < 2 ^ 21) (hx' : mx.toNat < 2 ^ 21) (hy' : my.toNat < 2 ^ 21) (hz' : mz.toNat < 2 ^ 21) (k : ℕ) :
    (combine nx ny nz).toNat / 2 ^ (k * 3) = (combine mx my mz).toNat / 2 ^ (k * 3) ↔
      nx.toNat / 2 ^ k = mx.toNat / 2 ^ k ∧ ny.toNat / 2 ^ k = my.toNat / 2 ^ k ∧
        nz.toNat / 2 ^ k = mz.toNat / 2 ^ k := by
  have tb : ∀ n j : ℕ, ∀ i, (n / 2 ^ j).testBit i = n.testBit (j + i) := fun n j i => by
    rw [Nat.testBit_div_two_pow, Nat.add_comm]
  constructor
  · intro h
    have hb : ∀ i, (combine nx ny nz).toNat.testBit (k * 3 + i) = (combine mx my mz).toNat.testBit (k * 3 + i) := by
      intro i; rw [← tb, ← tb, h]
    simp only [combine_bit _ _ _ hx hy hz, combine_bit _ _ _ hx' hy' hz'] at hb
    refine ⟨?_, ?_, ?_⟩ <;> apply Nat.eq_of_testBit_eq <;> intro i <;> rw [tb, tb]
    · have e : (k * 3 + (3 * i + 2)) % 3 = 2 := by omega
      have e' : (k * 3 + (3 * i + 2)) / 3 = k + i := by omega
      simpa [e, e'] using hb (3 * i + 2)
    · have e : (k * 3 + (3 * i + 1)) % 3 = 1 := by omega
      have e' : (k * 3 + (3 * i + 1)) / 3 = k + i := by omega
      simpa [e, e'] using hb (3 * i + 1)
    · have e : (k * 3 + 3 * i) % 3 = 0 := by omega
      have e' : (k * 3 + 3 * i) / 3 = k + i := by omega
      simpa [e, e'] using hb (3 * i)
  · rintro ⟨h1, h2, h3⟩
    apply Nat.eq_of_testBit_eq
    intro i
    rw [tb, tb, combine_bit _ _ _ hx hy hz, combine_bit _ _ _ hx' hy' hz']
    have e : (k * 3 + i) / 3 = k + i / 3 := by omega
    rw [e, ← tb, ← tb, ← tb, ← tb, ← tb, ← tb, h1, h2, h3]

theorem cellID_combine (nx ny nz : BitVec 64) (hx : nx.toNat < 2 ^ 21) (hy : ny.toNat < 2 ^ 21)
    (hz : nz.toNat < 2 ^ 21) (lev : ℕ) :
    getCellID lev (combine nx ny nz) =
      4 * (nx.toNat / 2 ^ (21 - lev) % 2) + 2 * (ny.toNat / 2 ^ (21 - lev) % 2) +
        nz.toNat / 2 ^ (21 - lev) % 2 := by
  have tb : ∀ n i : ℕ, n / 2 ^ i % 2 = (n.testBit i).toNat := fun n i => by
    rw [Nat.testBit_eq_decide_div_mod_eq]
    rcases Nat.mod_two_eq_zero_or_one (n / 2 ^ i) with h | h <;> simp [h]
  have h8 : getCellID lev (combine nx ny nz) = (combine nx ny nz).toNat / 2 ^ ((21 - lev) * 3) % 8 := by
    unfold getCellID levMax
    rw [BitVec.toNat_and, BitVec.toNat_ushiftRight, Nat.shiftRight_eq_div_pow]
    exact Nat.and_two_pow_sub_one_eq_mod _ 3
  have hsplit : ∀ m : ℕ, m % 8 = 4 * (m / 4 % 2) + 2 * (m / 2 % 2) + m % 2 := by omega
  set K := (combine nx ny nz).toNat with hK
  set j := 21 - lev with hj
  have k2 : K / 2 ^ (j * 3) / 4 % 2 = nx.toNat / 2 ^ j % 2 := by
    rw [Nat.div_div_eq_div_mul, show 2 ^ (j * 3) * 4 = 2 ^ (j * 3 + 2) from (pow_add 2 (j * 3) 2).symm, tb, tb, hK,
      combine_bit _ _ _ hx hy hz]
    have e : (j * 3 + 2) % 3 = 2 := by omega
    have e' : (j * 3 + 2) / 3 = j := by omega
    simp [e, e']
  have k1 : K / 2 ^ (j * 3) / 2 % 2 = ny.toNat / 2 ^ j % 2 := by
    rw [Nat.div_div_eq_div_mul, show 2 ^ (j * 3) * 2 = 2 ^ (j * 3 + 1) from (pow_add 2 (j * 3) 1).symm, tb, tb, hK,
      combine_bit _ _ _ hx hy hz]
    have e : (j * 3 + 1) % 3 = 1 := by omega
    have e' : (j * 3 + 1) / 3 = j := by omega
    simp [e, e']
  have k0 : K / 2 ^ (j * 3) % 2 = nz.toNat / 2 ^ j % 2 := by
    rw [tb, tb, hK, combine_bit _ _ _ hx hy hz]
    have e : (j * 3) % 3 = 0 := by omega
    have e' : (j * 3) / 3 = j := by omega
    simp [e, e']
  rw [h8, hsplit, k2, k1, k0]

/-- The index of a coordinate inside the root cell. -/
theorem toU64_index (c h t : ℝ) (hh : 0 < h) (h1 : c - h ≤ t) (h2 : t < c + h) :
    ∃ n : BitVec 64, toU64 ((t - c + h) * ((1 / (h * 2)) * 2 ^ levMax)) = some n ∧ n.toNat < 2 ^ 21 ∧
      ∀ lev ≤ 21, ((n.toNat / 2 ^ (21 - lev) : ℕ) : ℤ) = slice c h lev t := by
  set y := (t - c + h) * ((1 / (h * 2)) * 2 ^ levMax) with hy
  have hy0 : 0 ≤ y := by
    apply mul_nonneg (by linarith) (by positivity)
  have hu : (t - c + h) / (2 * h) < 1 := by rw [div_lt_one (by positivity)]; linarith
  have hy1 : y < 2 ^ 21 := by
    have : y = (t - c + h) / (2 * h) * 2 ^ 21 := by rw [hy, levMax]; field_simp
    rw [this]
    have := mul_lt_mul_of_pos_right hu (show (0 : ℝ) < 2 ^ 21 by positivity)
    linarith
  have hfl : ⌊y⌋₊ < 2 ^ 21 := by
    rw [Nat.floor_lt hy0]; exact_mod_cast hy1
  have hmod : (BitVec.ofNat 64 ⌊y⌋₊).toNat = ⌊y⌋₊ := by
    rw [BitVec.toNat_ofNat]
    exact Nat.mod_eq_of_lt (lt_trans hfl (by norm_num))
  refine ⟨BitVec.ofNat 64 ⌊y⌋₊, ?_, by rw [hmod]; exact hfl, ?_⟩
  · rw [toU64, if_pos ⟨by linarith, lt_trans hy1 (by norm_num)⟩]
  · intro lev hl
    rw [hmod, slice]
    have e : (t - (c - h)) / (2 * h / 2 ^ lev) = y / ((2 ^ (21 - lev) : ℕ) : ℝ) := by
      have hp : (2 : ℝ) ^ 21 = 2 ^ lev * 2 ^ (21 - lev) := by rw [← pow_add]; congr 1; omega
      rw [hy, levMax, hp]
      push_cast
      field_simp
      ring
    rw [e, Int.floor_div_natCast, Int.natCast_div]
    congr 1
    exact Int.natCast_floor_eq_floor hy0

/-- The key of a point of the root cell. -/
theorem getKey_index (f : Frame) (p : V3) (hh : 0 < f.halfLen) (hp : InRoot f p) :
    ∃ nx ny nz : BitVec 64, getKey f p = some (combine nx ny nz) ∧ nx.toNat < 2 ^ 21 ∧ ny.toNat < 2 ^ 21 ∧
      nz.toNat < 2 ^ 21 ∧ ∀ lev ≤ 21,
        ((nx.toNat / 2 ^ (21 - lev) : ℕ) : ℤ) = slice f.center.x f.halfLen lev p.x ∧
        ((ny.toNat / 2 ^ (21 - lev) : ℕ) : ℤ) = slice f.center.y f.halfLen lev p.y ∧
        ((nz.toNat / 2 ^ (21 - lev) : ℕ) : ℤ) = slice f.center.z f.halfLen lev p.z := by
  obtain ⟨⟨a1, a2⟩, ⟨b1, b2⟩, c1, c2⟩ := hp
  obtain ⟨nx, x1, x2, x3⟩ := toU64_index _ _ _ hh a1 a2
  obtain ⟨ny, y1, y2, y3⟩ := toU64_index _ _ _ hh b1 b2
  obtain ⟨nz, z1, z2, z3⟩ := toU64_index _ _ _ hh c1 c2
  refine ⟨nx, ny, nz, ?_, x2, y2, z2, fun lev hl => ⟨x3 lev hl, y3 lev hl, z3 lev hl⟩⟩
  simp only [getKey, Frame.factor, x1, y1, z1]

end Verif.Morton
