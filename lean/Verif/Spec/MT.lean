import Verif.Model.MT
/-! The generator MT19937 of Matsumoto and Nishimura (ACM TOMACS 8, 1998, and the initialisation of 2002) as an infinite sequence of words of 32 bits. -/
namespace Verif.MT

/-- Multiplication by the matrix of the recurrence: the highest bit of `u` and the other bits of `v`, shifted; the lowest bit decides on adding `a`. -/
def mulA (u v : BitVec 32) : BitVec 32 :=
  ((0#1 ++ u.extractLsb' 31 1 ++ v.extractLsb' 1 30 : BitVec 32)) ^^^ (if v.getLsbD 0 then 0x9908b0df#32 else 0#32)

/-- The words: 624 from the seed, then the recurrence of degree 624. -/
def word (seed : BitVec 32) (n : ℕ) : BitVec 32 :=
  if n = 0 then seed
  else if n < 624 then 1812433253#32 * (word seed (n - 1) ^^^ (word seed (n - 1) >>> 30)) + BitVec.ofNat 32 n
  else word seed (n - 227) ^^^ mulA (word seed (n - 624)) (word seed (n - 623))
termination_by n

/-- The tempering. -/
def tempered (y : BitVec 32) : BitVec 32 :=
  let y := y ^^^ (y >>> 11)
  let y := y ^^^ ((y <<< 7) &&& 0x9d2c5680#32)
  let y := y ^^^ ((y <<< 15) &&& 0xefc60000#32)
  y ^^^ (y >>> 18)

/-- The number number `n` of the generator. -/
def output (seed : BitVec 32) (n : ℕ) : BitVec 32 := tempered (word seed (n + 624))

/-- The ranges the comments of the functions promise. -/
def InRange : Fn → ℝ → Prop
  | .int31, r => ∃ k : ℕ, k < 2 ^ 31 ∧ r = k
  | .real1, r => 0 ≤ r ∧ r ≤ 1
  | .real2, r => 0 ≤ r ∧ r < 1
  | .real3, r => 0 < r ∧ r < 1
  | .res53, r => 0 ≤ r ∧ r < 1 ∧ ∃ k : ℕ, r = k / 2 ^ 53

end Verif.MT
