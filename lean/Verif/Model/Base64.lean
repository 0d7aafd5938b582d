/-
Model of `Util/Base64.hpp` and `Util/Base64.cpp` (class `B64Converter`).

Bytes are `BitVec 8`.  The encoder works on the sequence of input bytes.  The decoder works on an input
buffer and an output buffer given as lists of bytes with explicit positions; every read or write outside
these buffers is the distinct outcome `none` (undefined behaviour in C++).
-/
namespace Verif.Base64

/-- `unsigned char` -/
abbrev Byte := BitVec 8

/-- Base64.cpp:4-6, `kwsysBase64EncodeTable` (65 entries, the last one is the terminating NUL). -/
def encodeTable : List Byte :=
  [ 0x41, 0x42, 0x43, 0x44, 0x45, 0x46, 0x47, 0x48, 0x49, 0x4A, 0x4B, 0x4C, 0x4D,
    0x4E, 0x4F, 0x50, 0x51, 0x52, 0x53, 0x54, 0x55, 0x56, 0x57, 0x58, 0x59, 0x5A,
    0x61, 0x62, 0x63, 0x64, 0x65, 0x66, 0x67, 0x68, 0x69, 0x6A, 0x6B, 0x6C, 0x6D,
    0x6E, 0x6F, 0x70, 0x71, 0x72, 0x73, 0x74, 0x75, 0x76, 0x77, 0x78, 0x79, 0x7A,
    0x30, 0x31, 0x32, 0x33, 0x34, 0x35, 0x36, 0x37, 0x38, 0x39, 0x2B, 0x2F,
    0x00 ]

/-- Base64.cpp:8-23, `kwsysBase64DecodeTable` (256 entries, copied line by line). -/
def decodeTable : List Byte :=
  [ 0xFF, 0xFF, 0xFF, 0xFF, 0xFF, 0xFF, 0xFF, 0xFF, 0xFF, 0xFF, 0xFF, 0xFF, 0xFF, 0xFF, 0xFF, 0xFF, 0xFF, 0xFF, 0xFF,
    0xFF, 0xFF, 0xFF, 0xFF, 0xFF, 0xFF, 0xFF, 0xFF, 0xFF, 0xFF, 0xFF, 0xFF, 0xFF, 0xFF, 0xFF, 0xFF, 0xFF, 0xFF, 0xFF,
    0xFF, 0xFF, 0xFF, 0xFF, 0xFF, 0x3E, 0xFF, 0xFF, 0xFF, 0x3F, 0x34, 0x35, 0x36, 0x37, 0x38, 0x39, 0x3A, 0x3B, 0x3C,
    0x3D, 0xFF, 0xFF, 0xFF, 0x00, 0xFF, 0xFF, 0xFF, 0x00, 0x01, 0x02, 0x03, 0x04, 0x05, 0x06, 0x07, 0x08, 0x09, 0x0A,
    0x0B, 0x0C, 0x0D, 0x0E, 0x0F, 0x10, 0x11, 0x12, 0x13, 0x14, 0x15, 0x16, 0x17, 0x18, 0x19, 0xFF, 0xFF, 0xFF, 0xFF,
    0xFF, 0xFF, 0x1A, 0x1B, 0x1C, 0x1D, 0x1E, 0x1F, 0x20, 0x21, 0x22, 0x23, 0x24, 0x25, 0x26, 0x27, 0x28, 0x29, 0x2A,
    0x2B, 0x2C, 0x2D, 0x2E, 0x2F, 0x30, 0x31, 0x32, 0x33, 0xFF, 0xFF, 0xFF, 0xFF, 0xFF,
    0xFF, 0xFF, 0xFF, 0xFF, 0xFF, 0xFF, 0xFF, 0xFF, 0xFF, 0xFF, 0xFF, 0xFF, 0xFF, 0xFF, 0xFF, 0xFF, 0xFF, 0xFF, 0xFF,
    0xFF, 0xFF, 0xFF, 0xFF, 0xFF, 0xFF, 0xFF, 0xFF, 0xFF, 0xFF, 0xFF, 0xFF, 0xFF, 0xFF, 0xFF, 0xFF, 0xFF, 0xFF, 0xFF,
    0xFF, 0xFF, 0xFF, 0xFF, 0xFF, 0xFF, 0xFF, 0xFF, 0xFF, 0xFF, 0xFF, 0xFF, 0xFF, 0xFF, 0xFF, 0xFF, 0xFF, 0xFF, 0xFF,
    0xFF, 0xFF, 0xFF, 0xFF, 0xFF, 0xFF, 0xFF, 0xFF, 0xFF, 0xFF, 0xFF, 0xFF, 0xFF, 0xFF, 0xFF, 0xFF, 0xFF, 0xFF, 0xFF,
    0xFF, 0xFF, 0xFF, 0xFF, 0xFF, 0xFF, 0xFF, 0xFF, 0xFF, 0xFF, 0xFF, 0xFF, 0xFF, 0xFF, 0xFF, 0xFF, 0xFF, 0xFF, 0xFF,
    0xFF, 0xFF, 0xFF, 0xFF, 0xFF, 0xFF, 0xFF, 0xFF, 0xFF, 0xFF, 0xFF, 0xFF, 0xFF, 0xFF, 0xFF, 0xFF, 0xFF, 0xFF, 0xFF,
    0xFF, 0xFF, 0xFF, 0xFF, 0xFF, 0xFF, 0xFF, 0xFF, 0xFF, 0xFF, 0xFF, 0xFF, 0xFF, 0xFF ]

/-- The character `'='`. -/
def eqChar : Byte := 0x3D

/-- Base64.hpp:31, `kwsysBase64EncodeChar`.  An index of 65 or more would be an out-of-bounds read in
C++; all callers mask the index to 6 bits, so the default `0` is never used (lemma `encodeChar_inb`). -/
def encodeChar (c : Byte) : Byte := encodeTable.getD c.toNat 0

/-- Base64.hpp:33, `kwsysBase64DecodeChar`; the table has an entry for every byte
(lemma `decodeTable_length`), so the default is never used. -/
def decodeChar (c : Byte) : Byte := decodeTable.getD c.toNat 0

/-- Base64.hpp:41-46, `kwsysBase64_Encode3`.  C++ computes in `int` and masks; with the masks used the
8-bit computation gives the same low bits. -/
def encode3 (s0 s1 s2 : Byte) : List Byte :=
  [ encodeChar ((s0 >>> 2) &&& 0x3F#8),
    encodeChar (((s0 <<< 4) &&& 0x30#8) ||| ((s1 >>> 4) &&& 0x0F#8)),
    encodeChar (((s1 <<< 2) &&& 0x3C#8) ||| ((s2 >>> 6) &&& 0x03#8)),
    encodeChar (s2 &&& 0x3F#8) ]

/-- Base64.hpp:54-59, `kwsysBase64_Encode2` -/
def encode2 (s0 s1 : Byte) : List Byte :=
  [ encodeChar ((s0 >>> 2) &&& 0x3F#8),
    encodeChar (((s0 <<< 4) &&& 0x30#8) ||| ((s1 >>> 4) &&& 0x0F#8)),
    encodeChar ((s1 <<< 2) &&& 0x3C#8),
    eqChar ]

/-- Base64.hpp:67-72, `kwsysBase64_Encode1` -/
def encode1 (s0 : Byte) : List Byte :=
  [ encodeChar ((s0 >>> 2) &&& 0x3F#8),
    encodeChar ((s0 <<< 4) &&& 0x30#8),
    eqChar,
    eqChar ]

/-- Base64.hpp:149-182, the characters appended by `kwsysBase64_Encode`: the loop over complete triplets
followed by the two-byte tail, the one-byte tail or the end mark. -/
def encodeBody (markEnd : Bool) : List Byte → List Byte
  | s0 :: s1 :: s2 :: rest => encode3 s0 s1 s2 ++ encodeBody markEnd rest
  | [s0, s1] => encode2 s0 s1
  | [s0] => encode1 s0
  | [] => if markEnd then [eqChar, eqChar, eqChar, eqChar] else []

/-- Base64.hpp:135-185, `kwsysBase64_Encode`: the new value of `output` and the returned count
`output.size() - s0`. -/
def encode (input : List Byte) (output : List Byte) (markEnd : Bool) : List Byte × Nat :=
  let out := output ++ encodeBody markEnd input
  (out, out.length - output.length)

/-- Write one byte at position `p`; `none` when outside the buffer. -/
def writeAt (buf : List Byte) (p : Nat) (b : Byte) : Option (List Byte) :=
  if p < buf.length then some (buf.set p b) else none

/-- The part of `kwsysBase64_Decode3` (Base64.hpp:80-109) that does not touch `dest`: the decoded bytes and
the returned count, `none` for the early `return 0` of line 91. -/
def decodeQuad (c0 c1 c2 c3 : Byte) : Option (Byte × Byte × Byte × Nat) :=
  let d0 := decodeChar c0
  let d1 := decodeChar c1
  let d2 := decodeChar c2
  let d3 := decodeChar c3
  if d0 = 0xFF#8 ∨ d1 = 0xFF#8 ∨ d2 = 0xFF#8 ∨ d3 = 0xFF#8 then none
  else
    some (((d0 <<< 2) &&& 0xFC#8) ||| ((d1 >>> 4) &&& 0x03#8),
          ((d1 <<< 4) &&& 0xF0#8) ||| ((d2 >>> 2) &&& 0x0F#8),
          ((d2 <<< 6) &&& 0xC0#8) ||| ((d3 >>> 0) &&& 0x3F#8),
          if c2 = eqChar then 1 else if c3 = eqChar then 2 else 3)

/-- Base64.hpp:80-109, `kwsysBase64_Decode3(src + p, dest + q)`: the new contents of the `dest` buffer and
the returned count; `none` when it reads outside `src` or writes outside `dest`. -/
def decode3 (src : List Byte) (p : Nat) (dst : List Byte) (q : Nat) : Option (List Byte × Nat) := do
  let c0 ← src[p]?
  let c1 ← src[p + 1]?
  let c2 ← src[p + 2]?
  let c3 ← src[p + 3]?
  match decodeQuad c0 c1 c2 c3 with
  | none => some (dst, 0)
  | some (b0, b1, b2, n) =>
    let dst ← writeAt dst q b0
    let dst ← writeAt dst (q + 1) b1
    let dst ← writeAt dst (q + 2) b2
    some (dst, n)

/-- Base64.hpp:203-212 and 247: `kwsysBase64_Decode` with `max_input_length ≠ 0`, from read position `p`
and write position `q`; the result is the output buffer and the returned count. -/
def decodeMax (src : List Byte) (endp : Nat) (p : Nat) (dst : List Byte) (q : Nat) :
    Option (List Byte × Nat) :=
  if p < endp then
    match decode3 src p dst q with
    | none => none
    | some (dst', len) =>
      if len < 3 then some (dst', q + len) else decodeMax src endp (p + 4) dst' (q + len)
  else some (dst, q)
termination_by endp - p

/-- Base64.hpp:224-247: the last one or two bytes of `kwsysBase64_Decode` in known-length mode.  `temp` is a
local array of 3 bytes (its initial contents are irrelevant, zeros here). -/
def decodeTail (src : List Byte) (oend : Nat) (p : Nat) (dst : List Byte) (q : Nat) :
    Option (List Byte × Nat) :=
  if oend - q = 2 then
    match decode3 src p [0, 0, 0] 0 with
    | none => none
    | some (temp, len) => do
      let t0 ← temp[0]?
      let t1 ← temp[1]?
      if len ≥ 2 then
        let dst ← writeAt dst q t0
        let dst ← writeAt dst (q + 1) t1
        some (dst, q + 2)
      else if len > 0 then
        let dst ← writeAt dst q t0
        some (dst, q + 1)
      else some (dst, q)
  else if oend - q = 1 then
    match decode3 src p [0, 0, 0] 0 with
    | none => none
    | some (temp, len) => do
      let t0 ← temp[0]?
      if len > 0 then
        let dst ← writeAt dst q t0
        some (dst, q + 1)
      else some (dst, q)
  else some (dst, q)

/-- Base64.hpp:214-247: `kwsysBase64_Decode` with `max_input_length = 0`; `oend` is the position
`length` in the output buffer.  `oend - q` never becomes negative because `q` grows only by 3 when
`oend - q ≥ 3`. -/
def decodeLen (src : List Byte) (oend : Nat) (p : Nat) (dst : List Byte) (q : Nat) :
    Option (List Byte × Nat) :=
  if 3 ≤ oend - q then
    match decode3 src p dst q with
    | none => none
    | some (dst', len) =>
      if len < 3 then some (dst', q + len) else decodeLen src oend (p + 4) dst' (q + len)
  else decodeTail src oend p dst q
termination_by oend - q

/-- Base64.hpp:196-248, `kwsysBase64_Decode(input, length, output, max_input_length)`: new contents of the
output buffer and the returned length; `none` is an out-of-bounds access. -/
def decode (input : List Byte) (length : Nat) (output : List Byte) (maxInputLength : Nat) :
    Option (List Byte × Nat) :=
  if maxInputLength ≠ 0 then decodeMax input maxInputLength 0 output 0
  else decodeLen input length 0 output 0

/-- The 4 bytes of a `uint32_t` on a little-endian machine (Base64.hpp:264, `reinterpret_cast` of
`&length`).  Endianness is an assumption of the model. -/
def u32bytes (n : BitVec 32) : List Byte :=
  [ n.extractLsb' 0 8, n.extractLsb' 8 8, n.extractLsb' 16 8, n.extractLsb' 24 8 ]

/-- Base64.hpp:258-268, `getBase64FromVector`, as a function of the bytes of the vector
(`vec.size() * sizeof(T)` of them) and the previous content of `result`.  The length is converted to
`uint32_t`, which drops the high bits. -/
def getBase64FromBytes (bytes : List Byte) (result : List Byte) : List Byte :=
  let length : BitVec 32 := BitVec.ofNat 32 bytes.length
  let r1 := (encode (u32bytes length) result false).1
  (encode bytes r1 false).1

end Verif.Base64
