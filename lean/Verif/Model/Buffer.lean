import Mathlib.Data.Nat.Notation
import Mathlib.Data.Int.Notation
/-!
Model of `Util/Buffer.hpp`: a vector of bytes with a read position.

The msgpack library enters as a `Codec`: packing a value of type `t` makes a series of `write` calls (the chunks),
unpacking reads from a byte string and tells how many bytes it took; `none` when msgpack throws.
-/
namespace Verif.Buffer

/-- msgpack for a family of types `V t`. -/
structure Codec (ι : Type) (V : ι → Type) where
  enc : (t : ι) → V t → List (List (BitVec 8))
  dec : (t : ι) → List (BitVec 8) → Option (V t × ℕ)

/-- Buffer.hpp:15-18: the state. -/
structure Buf where
  readPos : ℕ
  content : List (BitVec 8)

/-- Buffer.hpp:37-40: construction around an existing vector. -/
def ofVector (buf : List (BitVec 8)) : Buf := { readPos := 0, content := buf }

/-- Conversion of a `size_t` to `int`. -/
def toInt32 (n : ℕ) : ℤ := if n % 2 ^ 32 < 2 ^ 31 then (n % 2 ^ 32 : ℕ) else (n % 2 ^ 32 : ℕ) - 2 ^ 32

/-- Buffer.hpp:79-88.  `currentSize` is an `int`, `currentSize + length` a `size_t`; `resize` throws beyond the
largest vector (2^63-1 bytes); copying to `end - length` is undefined if that is before the beginning. -/
def write (b : Buf) (chunk : List (BitVec 8)) : Option Buf :=
  let currentSize : ℤ := toInt32 b.content.length
  let newSize : ℕ := ((currentSize + chunk.length) % 2 ^ 64).toNat
  if newSize ≥ 2 ^ 63 then none
  else
    let resized := b.content.take newSize ++ List.replicate (newSize - b.content.length) 0#8
    if newSize < chunk.length then none
    else some { b with content := resized.take (newSize - chunk.length) ++ chunk }

/-- The writes of one `pack`. -/
def writeAll (b : Buf) : List (List (BitVec 8)) → Option Buf
  | [] => some b
  | c :: cs => (write b c).bind (fun b => writeAll b cs)

variable {ι : Type} {V : ι → Type}

/-- Buffer.hpp:99-101. -/
def pack (m : Codec ι V) (b : Buf) (t : ι) (v : V t) : Option Buf := writeAll b (m.enc t v)

/-- Buffer.hpp:113-121, reading from the content of the buffer itself. -/
def unpack (m : Codec ι V) (b : Buf) (t : ι) : Option (V t × Buf) :=
  let offset := b.readPos
  (m.dec t (b.content.drop offset)).map (fun r => (r.1, { b with readPos := offset + r.2 }))

/-- A use of the buffer. -/
inductive Op (ι : Type) (V : ι → Type) where
  | pack (t : ι) (v : V t)
  | unpack (t : ι)

/-- A history of uses: the values read, in order; `none` if some use threw or was undefined. -/
def run (m : Codec ι V) (b : Buf) : List (Op ι V) → Option (List (Sigma V) × Buf)
  | [] => some ([], b)
  | .pack t v :: ops => (pack m b t v).bind (fun b => run m b ops)
  | .unpack t :: ops =>
    (unpack m b t).bind (fun r => (run m r.2 ops).map (fun s => (⟨t, r.1⟩ :: s.1, s.2)))

end Verif.Buffer
