import Mathlib.Data.Real.Basic
/-! FDPS/MT.hpp: the generator `MT` (class of lines 55-214, with one instance).  `unsigned long` has 64 bits.  The real numbers are exact. -/
namespace Verif.MT

abbrev Word := BitVec 64

/-- `mt` and `mti` (MT.hpp:67-68). -/
structure State where
  mt : List Word
  mti : ℕ

/-- MT.hpp:161-165: the loop of `init_genrand` from `i` on, `k` rounds left; `none` outside of the array. -/
def seedLoop : ℕ → ℕ → List Word → Option (List Word)
  | 0, _, l => some l
  | k + 1, i, l =>
    match l[i - 1]? with
    | none => none
    | some p =>
      if i < l.length then
        seedLoop k (i + 1) (l.set i ((1812433253#64 * (p ^^^ (p >>> 30)) + BitVec.ofNat 64 i) &&& 0xffffffff#64))
      else none

/-- MT.hpp:155-166 `init_genrand`. -/
def initGenrand (s : Word) (st : State) : Option State :=
  if 0 < st.mt.length then
    match seedLoop 623 1 (st.mt.set 0 (s &&& 0xffffffff#64)) with
    | none => none
    | some l => some ⟨l, 624⟩
  else none

/-- MT.hpp:127-128, 131-132, 134-135: one element; `a`, `b`, `c` are the places that are read, besides `kk`. -/
def twistAt (l : List Word) (kk b c : ℕ) : Option (List Word) :=
  match l[kk]?, l[b]?, l[c]? with
  | some u, some v, some w =>
    let y := (u &&& 0x80000000#64) ||| (v &&& 0x7fffffff#64)
    some (l.set kk (w ^^^ (y >>> 1) ^^^ (if y &&& 1#64 = 0#64 then 0#64 else 0x9908b0df#64)))
  | _, _, _ => none

/-- MT.hpp:126-129: the first loop. -/
def loop1 : ℕ → ℕ → List Word → Option (List Word)
  | 0, _, l => some l
  | k + 1, kk, l =>
    match twistAt l kk (kk + 1) (kk + 397) with
    | none => none
    | some l' => loop1 k (kk + 1) l'

/-- MT.hpp:130-133: the second loop. -/
def loop2 : ℕ → ℕ → List Word → Option (List Word)
  | 0, _, l => some l
  | k + 1, kk, l =>
    match twistAt l kk (kk + 1) (kk - 227) with
    | none => none
    | some l' => loop2 k (kk + 1) l'

/-- MT.hpp:126-135: all words are made anew. -/
def generate (l : List Word) : Option (List Word) :=
  match loop1 227 0 l with
  | none => none
  | some l1 =>
    match loop2 396 227 l1 with
    | none => none
    | some l2 => twistAt l2 623 0 396

/-- MT.hpp:143-146. -/
def temper (y : Word) : Word :=
  let y := y ^^^ (y >>> 11)
  let y := y ^^^ ((y <<< 7) &&& 0x9d2c5680#64)
  let y := y ^^^ ((y <<< 15) &&& 0xefc60000#64)
  y ^^^ (y >>> 18)

/-- MT.hpp:120-138: the part of `genrand_int32` before a word is taken. -/
def refill (st : State) : Option State :=
  if st.mti ≥ 624 then
    match (if st.mti = 625 then initGenrand 5489#64 st else some st) with
    | none => none
    | some st' =>
      match generate st'.mt with
      | none => none
      | some l => some ⟨l, 0⟩
  else some st

/-- MT.hpp:113-149 `genrand_int32`. -/
def genrandInt32 (st : State) : Option (Word × State) :=
  match refill st with
  | none => none
  | some st' =>
    match st'.mt[st'.mti]? with
    | none => none
    | some y => some (temper y, ⟨st'.mt, st'.mti + 1⟩)

/-- MT.hpp:169-172 `genrand_int31`. -/
def genrandInt31 (st : State) : Option (ℕ × State) :=
  match genrandInt32 st with
  | none => none
  | some (y, st') => some ((y >>> 1).toNat, st')

/-- MT.hpp:175-179 `genrand_real1`. -/
noncomputable def genrandReal1 (st : State) : Option (ℝ × State) :=
  match genrandInt32 st with
  | none => none
  | some (y, st') => some ((y.toNat : ℝ) * (1.0 / 4294967295.0), st')

/-- MT.hpp:182-186 `genrand_real2`. -/
noncomputable def genrandReal2 (st : State) : Option (ℝ × State) :=
  match genrandInt32 st with
  | none => none
  | some (y, st') => some ((y.toNat : ℝ) * (1.0 / 4294967296.0), st')

/-- MT.hpp:189-193 `genrand_real3`. -/
noncomputable def genrandReal3 (st : State) : Option (ℝ × State) :=
  match genrandInt32 st with
  | none => none
  | some (y, st') => some (((y.toNat : ℝ) + 0.5) * (1.0 / 4294967296.0), st')

/-- MT.hpp:196-200 `genrand_res53`. -/
noncomputable def genrandRes53 (st : State) : Option (ℝ × State) :=
  match genrandInt32 st with
  | none => none
  | some (y, st') =>
    match genrandInt32 st' with
    | none => none
    | some (z, st'') => some ((((y >>> 5).toNat : ℝ) * (67108864.0 : ℝ) + ((z >>> 6).toNat : ℝ)) * (1.0 / 9007199254740992.0 : ℝ), st'')

/-- `n` calls of a function of the generator one after another. -/
def calls {α : Type} (f : State → Option (α × State)) : ℕ → State → Option (List α × State)
  | 0, st => some ([], st)
  | n + 1, st =>
    match f st with
    | none => none
    | some (a, st') =>
      match calls f n st' with
      | none => none
      | some (as, st'') => some (a :: as, st'')

/-- The public functions that draw (MT.hpp:168-200). -/
inductive Fn where
  | int31
  | real1
  | real2
  | real3
  | res53

/-- A call of one of them. -/
noncomputable def call (f : Fn) (st : State) : Option (ℝ × State) :=
  match f with
  | .int31 =>
    match genrandInt31 st with
    | none => none
    | some (k, st') => some ((k : ℝ), st')
  | .real1 => genrandReal1 st
  | .real2 => genrandReal2 st
  | .real3 => genrandReal3 st
  | .res53 => genrandRes53 st

/-- Calls one after another. -/
noncomputable def run : List Fn → State → Option (List ℝ × State)
  | [], st => some ([], st)
  | f :: fs, st =>
    match call f st with
    | none => none
    | some (r, st') =>
      match run fs st' with
      | none => none
      | some (rs, st'') => some (r :: rs, st'')

end Verif.MT
