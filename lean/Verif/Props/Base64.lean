import Verif.Model.Base64
import Verif.Spec.Base64
import Verif.Lemmas.Base64
/-! Properties C01-C04: base64 encoding and decoding. -/
namespace Verif
open Base64

/-- C01.  Decoding what `kwsysBase64_Encode` appended for `bytes`, with the known length and an output buffer
of exactly that length, succeeds without any out-of-bounds access (`some`), fills the buffer with `bytes` and
returns the length. -/
theorem C01_base64_roundtrip (bytes prior buf : List Byte) (markEnd : Bool)
    (hbuf : buf.length = bytes.length) :
    decode ((encode bytes prior markEnd).1.drop prior.length) bytes.length buf 0
      = some (bytes, bytes.length) := by
  have h := decodeLen_encodeBody markEnd bytes [] [] [] buf [] hbuf
  simpa [decode, encode] using h

/-- Also with a larger buffer and trailing text the decoder touches only the first `length` bytes. -/
theorem C01_base64_roundtrip_in_place (bytes prior buf tail post : List Byte) (markEnd : Bool)
    (hbuf : buf.length = bytes.length) :
    decode ((encode bytes prior markEnd).1.drop prior.length ++ post) bytes.length (buf ++ tail) 0
      = some (bytes ++ tail, bytes.length) := by
  have h := decodeLen_encodeBody markEnd bytes [] post [] buf tail hbuf
  simpa [decode, encode] using h

example : ([1, 2, 3, 4] : List Byte).length = ([0xDE, 0xAD, 0xBE, 0xEF] : List Byte).length := rfl

/-- C02.  `kwsysBase64_Encode` appends exactly the RFC 4648 text (followed by `====` when an end mark is asked
for and the length is a multiple of three) and returns the number of characters appended. -/
theorem C02_base64_rfc4648 (bytes prior : List Byte) (markEnd : Bool) :
    ∃ text, encode bytes prior markEnd = (prior ++ text, text.length) ∧
      text = Spec.rfc4648 bytes ++
        (if markEnd = true ∧ bytes.length % 3 = 0 then [Spec.pad, Spec.pad, Spec.pad, Spec.pad] else []) ∧
      text.length = 4 * ((bytes.length + 2) / 3)
        + (if markEnd = true ∧ bytes.length % 3 = 0 then 4 else 0) := by
  refine ⟨encodeBody markEnd bytes, ?_, encodeBody_rfc markEnd bytes, encodeBody_length markEnd bytes⟩
  simp [encode]

/-- C03 is false: with the end mark, decoding a 3-byte message in stream mode into a buffer that fits it runs
out of bounds, and into a larger buffer it reports a fourth byte that was never encoded. -/
theorem C03_stream_decode_false :
    ¬ (∀ (bytes buf : List Byte), buf.length = bytes.length →
        decode (encode bytes [] true).1 0 buf (encode bytes [] true).1.length
          = some (bytes, bytes.length)) := by
  intro h
  have h1 := h [1, 2, 3] [0, 0, 0] rfl
  revert h1
  decide +kernel

/-- The end mark does not stop the decoder: one spurious byte is reported for *every* message whose length is
a multiple of three, however large the buffer. -/
theorem C03_end_mark_decodes_as_byte (bytes buf : List Byte) (length : Nat)
    (h3 : bytes.length % 3 = 0) (hbuf : bytes.length + 3 ≤ buf.length) :
    ∃ out, decode (encode bytes [] true).1 length buf (encode bytes [] true).1.length
      = some (out, bytes.length + 1) := by
  have hz : zone true bytes = bytes.length + 3 := by
    rw [zone_eq]; simp [h3]; omega
  obtain ⟨extra, _, h⟩ := decodeMax_encodeBody true bytes [] [] (buf.take (zone true bytes))
    (buf.drop (zone true bytes)) (by simp; omega)
  have hl : (encode bytes [] true).1.length ≠ 0 := by
    simp [encode]
    intro h0
    have := encodeBody_length true bytes
    rw [h0] at this
    simp [h3] at this
  refine ⟨bytes ++ (extra ++ buf.drop (zone true bytes)), ?_⟩
  unfold decode
  rw [if_pos hl]
  simp only [encode, List.nil_append, List.length_nil, Nat.zero_add, List.take_append_drop] at h ⊢
  rw [h]
  simp [reported, h3]

example : ([7, 8, 9] : List Byte).length % 3 = 0 ∧ 3 + 3 ≤ (List.replicate 6 (0 : Byte)).length := by decide

/-- C03, the part that holds.  In stream mode the decoder needs room for three bytes per four characters
(`need`); with that room it restores the message as a prefix of the buffer, touches nothing beyond `need`
bytes, and reports the message length, plus one when the message length is a multiple of three and an end mark
was written.  With less room it writes out of bounds.  Missing with respect to C03: exact-fit buffers for
messages whose length is not a multiple of three, and the end mark. -/
theorem C03_stream_decode_partial (bytes buf : List Byte) (markEnd : Bool) (length need : Nat)
    (hne : (encode bytes [] markEnd).1 ≠ [])
    (hneed : need = 3 * ((encode bytes [] markEnd).1.length / 4)) :
    (buf.length < need →
      decode (encode bytes [] markEnd).1 length buf (encode bytes [] markEnd).1.length = none) ∧
    (need ≤ buf.length →
      ∃ out, decode (encode bytes [] markEnd).1 length buf (encode bytes [] markEnd).1.length
          = some (out, bytes.length + if markEnd = true ∧ bytes.length % 3 = 0 then 1 else 0) ∧
        bytes.length ≤ need ∧ out.length = buf.length ∧
        out.take bytes.length = bytes ∧ out.drop need = buf.drop need) := by
  have hl : (encode bytes [] markEnd).1.length ≠ 0 := by
    simpa using hne
  have hz : need = zone markEnd bytes := by simpa [zone, encode] using hneed
  unfold decode
  rw [if_pos hl]
  constructor
  · intro hb
    have h := decodeMax_oob markEnd bytes [] [] buf (by omega)
    simpa [encode] using h
  · intro hb
    obtain ⟨extra, he, h⟩ := decodeMax_encodeBody markEnd bytes [] [] (buf.take need)
      (buf.drop need) (by simp; omega)
    refine ⟨bytes ++ (extra ++ buf.drop need), ?_, ?_, ?_, ?_, ?_⟩
    · simp only [encode, List.nil_append, List.length_nil, Nat.zero_add, List.take_append_drop] at h ⊢
      rw [h]; rfl
    · omega
    · simp; omega
    · simp
    · rw [← List.append_assoc]
      have : need = (bytes ++ extra).length := by simp; omega
      calc List.drop need (bytes ++ extra ++ List.drop need buf)
          = List.drop (bytes ++ extra).length (bytes ++ extra ++ List.drop need buf) := by rw [← this]
        _ = List.drop need buf := List.drop_left

example : (encode [1, 2, 3, 4] [] false).1 ≠ [] ∧ 6 = 3 * ((encode [1, 2, 3, 4] [] false).1.length / 4) := by
  decide

/-- C04, for vectors of less than 2^32 bytes: a reader that decodes the first 8 appended characters as a
4-byte little-endian count learns the byte count, and decoding the remaining characters with that count gives
the bytes back.  Missing with respect to C04: longer vectors, see `C04_header_truncates`. -/
theorem C04_vtk_header_partial (bytes prior buf4 : List Byte) (hb4 : buf4.length = 4)
    (hlen : bytes.length < 2 ^ 32) :
    ∃ hdr body count, getBase64FromBytes bytes prior = prior ++ hdr ++ body ∧ hdr.length = 8 ∧
      decode hdr 4 buf4 0 = some (count, 4) ∧ Spec.leNat count = bytes.length ∧
      ∀ buf : List Byte, buf.length = Spec.leNat count →
        decode body (Spec.leNat count) buf 0 = some (bytes, bytes.length) := by
  refine ⟨encodeBody false (u32bytes (BitVec.ofNat 32 bytes.length)), encodeBody false bytes,
    u32bytes (BitVec.ofNat 32 bytes.length), ?_, ?_, ?_, ?_, ?_⟩
  · simp [getBase64FromBytes, encode]
  · rw [encodeBody_length]; simp [u32bytes]
  · have := C01_base64_roundtrip (u32bytes (BitVec.ofNat 32 bytes.length)) [] buf4 false
      (by rw [hb4]; rfl)
    simpa [encode, (show (u32bytes (BitVec.ofNat 32 bytes.length)).length = 4 from rfl)] using this
  · rw [leNat_u32bytes, BitVec.toNat_ofNat]; omega
  · intro buf hbuf
    have e : Spec.leNat (u32bytes (BitVec.ofNat 32 bytes.length)) = bytes.length := by
      rw [leNat_u32bytes, BitVec.toNat_ofNat]; omega
    rw [e] at hbuf ⊢
    have := C01_base64_roundtrip bytes [] buf false hbuf
    simpa [encode] using this

example : ([0, 0, 0, 0] : List Byte).length = 4 ∧ ([1, 2, 3] : List Byte).length < 2 ^ 32 := by decide

/-- C04 fails for 2^32 bytes or more: the count in the header is then never the byte count. -/
theorem C04_header_truncates (bytes prior buf4 : List Byte) (hb4 : buf4.length = 4)
    (hlen : 2 ^ 32 ≤ bytes.length) :
    ∃ count, decode (((getBase64FromBytes bytes prior).drop prior.length).take 8) 4 buf4 0 = some (count, 4) ∧
      Spec.leNat count = bytes.length % 2 ^ 32 ∧ Spec.leNat count ≠ bytes.length := by
  refine ⟨u32bytes (BitVec.ofNat 32 bytes.length), ?_, ?_, ?_⟩
  · have := C01_base64_roundtrip (u32bytes (BitVec.ofNat 32 bytes.length)) [] buf4 false
      (by rw [hb4]; rfl)
    have h8 : (encodeBody false (u32bytes (BitVec.ofNat 32 bytes.length))).length = 8 := by
      rw [encodeBody_length]; simp [u32bytes]
    have e : ((getBase64FromBytes bytes prior).drop prior.length).take 8
        = encodeBody false (u32bytes (BitVec.ofNat 32 bytes.length)) := by
      simp only [getBase64FromBytes, encode, List.append_assoc, List.drop_left]
      rw [← h8, List.take_left]
    rw [e]
    simpa [encode, (show (u32bytes (BitVec.ofNat 32 bytes.length)).length = 4 from rfl)] using this
  · rw [leNat_u32bytes, BitVec.toNat_ofNat]
  · rw [leNat_u32bytes, BitVec.toNat_ofNat]
    have : bytes.length % 2 ^ 32 < 2 ^ 32 := Nat.mod_lt _ (by decide)
    omega

example : 2 ^ 32 ≤ (List.replicate (2 ^ 32 + 5) (0 : Byte)).length := by
  rw [List.length_replicate]; decide

end Verif
