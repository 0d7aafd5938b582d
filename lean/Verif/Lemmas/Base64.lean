import Verif.Model.Base64
import Verif.Spec.Base64
/-! Helper lemmas for the base64 properties. -/
namespace Verif.Base64

theorem decodeTable_length : decodeTable.length = 256 := by decide +kernel
theorem encodeTable_length : encodeTable.length = 65 := by decide

/-- The two tables are inverse on 6-bit values, and no encoded character is invalid or `=`. -/
theorem dec_enc : ∀ c : Byte, c.toNat < 64 →
    decodeChar (encodeChar c) = c ∧ encodeChar c ≠ eqChar := by decide +kernel

theorem decodeChar_eq : decodeChar eqChar = 0 := by decide

/-- Every index the encoder uses is inside the 65-entry table. -/
theorem encodeChar_inb (s0 s1 : Byte) :
    ((s0 >>> 2) &&& 0x3F#8).toNat < 64 ∧
    (((s0 <<< 4) &&& 0x30#8) ||| ((s1 >>> 4) &&& 0x0F#8)).toNat < 64 ∧
    (((s0 <<< 2) &&& 0x3C#8) ||| ((s1 >>> 6) &&& 0x03#8)).toNat < 64 ∧
    (s0 &&& 0x3F#8).toNat < 64 ∧ ((s0 <<< 2) &&& 0x3C#8).toNat < 64 ∧ ((s0 <<< 4) &&& 0x30#8).toNat < 64 := by
  have h64 : (64 : Nat) = 2 ^ 6 := rfl
  have hm : ∀ x : Byte, (x &&& 0x3F#8).toNat < 64 := by decide +kernel
  have hp : ∀ x : Byte, (x &&& 0x30#8).toNat < 64 := by decide +kernel
  have hq : ∀ x : Byte, (x &&& 0x3C#8).toNat < 64 := by decide +kernel
  have hr : ∀ x : Byte, (x &&& 0x0F#8).toNat < 64 := by decide +kernel
  have hs : ∀ x : Byte, (x &&& 0x03#8).toNat < 64 := by decide +kernel
  refine ⟨hm _, ?_, ?_, hm _, hq _, hp _⟩
  · rw [BitVec.toNat_or]; exact h64 ▸ Nat.or_lt_two_pow (h64 ▸ hp _) (h64 ▸ hr _)
  · rw [BitVec.toNat_or]; exact h64 ▸ Nat.or_lt_two_pow (h64 ▸ hq _) (h64 ▸ hs _)

theorem bits0 (s0 s1 : Byte) :
    ((((s0 >>> 2) &&& 0x3F#8) <<< 2) &&& 0xFC#8) |||
      (((((s0 <<< 4) &&& 0x30#8) ||| ((s1 >>> 4) &&& 0x0F#8)) >>> 4) &&& 0x03#8) = s0 := by
  apply BitVec.eq_of_getLsbD_eq
  intro i hi
  match i, hi with
  | 0, _ | 1, _ | 2, _ | 3, _ | 4, _ | 5, _ | 6, _ | 7, _ => simp

theorem bits0' (s0 : Byte) :
    ((((s0 >>> 2) &&& 0x3F#8) <<< 2) &&& 0xFC#8) ||| ((((s0 <<< 4) &&& 0x30#8) >>> 4) &&& 0x03#8) = s0 := by
  apply BitVec.eq_of_getLsbD_eq
  intro i hi
  match i, hi with
  | 0, _ | 1, _ | 2, _ | 3, _ | 4, _ | 5, _ | 6, _ | 7, _ => simp

theorem bits1 (s0 s1 s2 : Byte) :
    (((((s0 <<< 4) &&& 0x30#8) ||| ((s1 >>> 4) &&& 0x0F#8)) <<< 4) &&& 0xF0#8) |||
      (((((s1 <<< 2) &&& 0x3C#8) ||| ((s2 >>> 6) &&& 0x03#8)) >>> 2) &&& 0x0F#8) = s1 := by
  apply BitVec.eq_of_getLsbD_eq
  intro i hi
  match i, hi with
  | 0, _ | 1, _ | 2, _ | 3, _ | 4, _ | 5, _ | 6, _ | 7, _ => simp

theorem bits1' (s0 s1 : Byte) :
    (((((s0 <<< 4) &&& 0x30#8) ||| ((s1 >>> 4) &&& 0x0F#8)) <<< 4) &&& 0xF0#8) |||
      ((((s1 <<< 2) &&& 0x3C#8) >>> 2) &&& 0x0F#8) = s1 := by
  apply BitVec.eq_of_getLsbD_eq
  intro i hi
  match i, hi with
  | 0, _ | 1, _ | 2, _ | 3, _ | 4, _ | 5, _ | 6, _ | 7, _ => simp

theorem bits2 (s1 s2 : Byte) :
    (((((s1 <<< 2) &&& 0x3C#8) ||| ((s2 >>> 6) &&& 0x03#8)) <<< 6) &&& 0xC0#8) |||
      (((s2 &&& 0x3F#8) >>> 0) &&& 0x3F#8) = s2 := by
  apply BitVec.eq_of_getLsbD_eq
  intro i hi
  match i, hi with
  | 0, _ | 1, _ | 2, _ | 3, _ | 4, _ | 5, _ | 6, _ | 7, _ => simp

theorem ne_ff_of_lt {c : Byte} (h : c.toNat < 64) : ¬ c = 0xFF#8 := by
  intro he; subst he; revert h; decide

theorem decodeQuad_encode3 (s0 s1 s2 : Byte) :
    decodeQuad (encodeChar ((s0 >>> 2) &&& 0x3F#8))
      (encodeChar (((s0 <<< 4) &&& 0x30#8) ||| ((s1 >>> 4) &&& 0x0F#8)))
      (encodeChar (((s1 <<< 2) &&& 0x3C#8) ||| ((s2 >>> 6) &&& 0x03#8)))
      (encodeChar (s2 &&& 0x3F#8)) = some (s0, s1, s2, 3) := by
  have i0 := (encodeChar_inb s0 s1).1
  have i1 := (encodeChar_inb s0 s1).2.1
  have i2 := (encodeChar_inb s1 s2).2.2.1
  have i3 := (encodeChar_inb s2 s1).2.2.2.1
  unfold decodeQuad
  simp only [(dec_enc _ i0).1, (dec_enc _ i1).1, (dec_enc _ i2).1, (dec_enc _ i3).1,
    ne_ff_of_lt i0, ne_ff_of_lt i1, ne_ff_of_lt i2, ne_ff_of_lt i3, (dec_enc _ i2).2, (dec_enc _ i3).2,
    bits0, bits1, bits2, or_self, if_false]

theorem decodeQuad_encode2 (s0 s1 : Byte) :
    ∃ x, decodeQuad (encodeChar ((s0 >>> 2) &&& 0x3F#8))
      (encodeChar (((s0 <<< 4) &&& 0x30#8) ||| ((s1 >>> 4) &&& 0x0F#8)))
      (encodeChar ((s1 <<< 2) &&& 0x3C#8)) eqChar = some (s0, s1, x, 2) := by
  have i0 := (encodeChar_inb s0 s1).1
  have i1 := (encodeChar_inb s0 s1).2.1
  have i2 := (encodeChar_inb s1 s1).2.2.2.2.1
  unfold decodeQuad
  simp only [(dec_enc _ i0).1, (dec_enc _ i1).1, (dec_enc _ i2).1, decodeChar_eq,
    ne_ff_of_lt i0, ne_ff_of_lt i1, ne_ff_of_lt i2, (dec_enc _ i2).2, bits0, bits1', or_self, if_false,
    (by decide : ¬ ((0 : Byte) = 0xFF#8)), if_true]
  exact ⟨_, rfl⟩

theorem decodeQuad_encode1 (s0 : Byte) :
    ∃ x y, decodeQuad (encodeChar ((s0 >>> 2) &&& 0x3F#8)) (encodeChar ((s0 <<< 4) &&& 0x30#8))
      eqChar eqChar = some (s0, x, y, 1) := by
  have i0 := (encodeChar_inb s0 s0).1
  have i1 := (encodeChar_inb s0 s0).2.2.2.2.2
  unfold decodeQuad
  simp only [(dec_enc _ i0).1, (dec_enc _ i1).1, decodeChar_eq,
    ne_ff_of_lt i0, ne_ff_of_lt i1, bits0', or_self, if_false,
    (by decide : ¬ ((0 : Byte) = 0xFF#8)), if_true]
  exact ⟨_, _, rfl⟩

theorem decodeQuad_mark : decodeQuad eqChar eqChar eqChar eqChar = some (0, 0, 0, 1) := by decide

/-- Reading the four characters at the start of `cs` in `pre ++ cs`. -/
theorem decode3_at (pre post : List Byte) (c0 c1 c2 c3 : Byte) (dst : List Byte) (q : Nat) :
    decode3 (pre ++ c0 :: c1 :: c2 :: c3 :: post) pre.length dst q =
      match decodeQuad c0 c1 c2 c3 with
      | none => some (dst, 0)
      | some (b0, b1, b2, n) =>
        if q + 3 ≤ dst.length then some (((dst.set q b0).set (q + 1) b1).set (q + 2) b2, n) else none := by
  unfold decode3
  have h0 : (pre ++ c0 :: c1 :: c2 :: c3 :: post)[pre.length]? = some c0 := by simp
  have h1 : (pre ++ c0 :: c1 :: c2 :: c3 :: post)[pre.length + 1]? = some c1 := by
    simp
  have h2 : (pre ++ c0 :: c1 :: c2 :: c3 :: post)[pre.length + 2]? = some c2 := by
    simp
  have h3 : (pre ++ c0 :: c1 :: c2 :: c3 :: post)[pre.length + 3]? = some c3 := by
    simp
  rw [h0, h1, h2, h3]
  simp only [Option.bind_eq_bind, Option.bind_some]
  cases hd : decodeQuad c0 c1 c2 c3 with
  | none => rfl
  | some r =>
    obtain ⟨b0, b1, b2, n⟩ := r
    simp only [writeAt]
    by_cases hq : q + 3 ≤ dst.length
    · have a0 : q < dst.length := by omega
      have a1 : q + 1 < dst.length := by omega
      have a2 : q + 2 < dst.length := by omega
      simp [a0, a1, a2, hq]
    · by_cases a0 : q < dst.length
      · by_cases a1 : q + 1 < dst.length
        · have a2 : ¬ q + 2 < dst.length := by omega
          simp [a0, a1, a2, hq]
        · simp [a0, a1, hq]
      · simp [a0, hq]

/-- Three consecutive writes replace three elements. -/
theorem set3 (a : List Byte) (x y z : Byte) (b : List Byte) (u v w : Byte) :
    (((a ++ u :: v :: w :: b).set a.length x).set (a.length + 1) y).set (a.length + 2) z
      = a ++ x :: y :: z :: b := by
  simp

/-- Known-length decoding of the rest of an encoded text, with the write position at the end of `done`. -/
theorem decodeLen_encodeBody (m : Bool) : ∀ (bytes pre post done junk tail : List Byte),
    junk.length = bytes.length →
    decodeLen (pre ++ (encodeBody m bytes ++ post)) (done.length + bytes.length) pre.length
      (done ++ (junk ++ tail)) done.length
      = some (done ++ (bytes ++ tail), done.length + bytes.length)
  | s0 :: s1 :: s2 :: rest, pre, post, done, junk, tail, hj => by
    match junk, hj with
    | j0 :: j1 :: j2 :: junk, hj =>
      have hj' : junk.length = rest.length := by simpa using hj
      have ih := decodeLen_encodeBody m rest (pre ++ encode3 s0 s1 s2) post (done ++ [s0, s1, s2]) junk tail hj'
      rw [decodeLen]
      have hc : 3 ≤ done.length + (s0 :: s1 :: s2 :: rest).length - done.length := by
        simp
      rw [if_pos hc]
      simp only [encodeBody, encode3, List.cons_append, List.nil_append]
      rw [decode3_at, decodeQuad_encode3]
      simp only []
      rw [if_pos (by simp)]
      simp only [Nat.lt_irrefl, if_false]
      rw [set3]
      simp only [encode3, List.append_assoc, List.cons_append, List.nil_append, List.length_append,
        List.length_cons, List.length_nil] at ih
      simp only [List.length_cons]
      have e1 : done.length + (rest.length + 1 + 1 + 1) = done.length + (0 + 1 + 1 + 1) + rest.length := by
        omega
      rw [e1]
      exact ih
  | [s0, s1], pre, post, done, junk, tail, hj => by
    match junk, hj with
    | [j0, j1], _ =>
      rw [decodeLen]
      have hc : ¬ 3 ≤ done.length + [s0, s1].length - done.length := by simp
      rw [if_neg hc]
      unfold decodeTail
      have h2 : done.length + [s0, s1].length - done.length = 2 := by simp
      rw [if_pos h2]
      simp only [encodeBody, encode2, List.cons_append, List.nil_append]
      obtain ⟨x, hx⟩ := decodeQuad_encode2 s0 s1
      rw [decode3_at, hx]
      simp [writeAt]
  | [s0], pre, post, done, junk, tail, hj => by
    match junk, hj with
    | [j0], _ =>
      rw [decodeLen]
      have hc : ¬ 3 ≤ done.length + [s0].length - done.length := by simp
      rw [if_neg hc]
      unfold decodeTail
      have h2 : ¬ done.length + [s0].length - done.length = 2 := by simp
      have h1 : done.length + [s0].length - done.length = 1 := by simp
      rw [if_neg h2, if_pos h1]
      simp only [encodeBody, encode1, List.cons_append, List.nil_append]
      obtain ⟨x, y, hx⟩ := decodeQuad_encode1 s0
      rw [decode3_at, hx]
      simp [writeAt]
  | [], pre, post, done, junk, tail, hj => by
    have : junk = [] := List.length_eq_zero_iff.mp (by simpa using hj)
    subst this
    rw [decodeLen]
    simp [decodeTail]

/-- Size of the zone the stream decoder writes: three bytes per four characters. -/
def zone (m : Bool) (bytes : List Byte) : Nat := 3 * ((encodeBody m bytes).length / 4)

/-- Number of bytes the stream decoder reports for an encoded text. -/
def reported (m : Bool) (bytes : List Byte) : Nat :=
  bytes.length + (if m = true ∧ bytes.length % 3 = 0 then 1 else 0)

theorem encodeBody_length (m : Bool) : ∀ bytes : List Byte,
    (encodeBody m bytes).length
      = 4 * ((bytes.length + 2) / 3) + (if m = true ∧ bytes.length % 3 = 0 then 4 else 0)
  | s0 :: s1 :: s2 :: rest => by
    have ih := encodeBody_length m rest
    simp only [encodeBody, encode3, List.length_append, List.length_cons, List.length_nil, ih]
    have : (rest.length + 1 + 1 + 1) % 3 = rest.length % 3 := by omega
    simp only [this]
    omega
  | [s0, s1] => by simp [encodeBody, encode2]
  | [s0] => by simp [encodeBody, encode1]
  | [] => by cases m <;> simp [encodeBody]

theorem zone_eq (m : Bool) (bytes : List Byte) :
    zone m bytes = 3 * ((bytes.length + 2) / 3) + (if m = true ∧ bytes.length % 3 = 0 then 3 else 0) := by
  unfold zone
  rw [encodeBody_length]
  split <;> omega

/-- Stream decoding of the rest of an encoded text when the buffer holds the whole zone. -/
theorem decodeMax_encodeBody (m : Bool) : ∀ (bytes pre done junk tail : List Byte),
    junk.length = zone m bytes →
    ∃ extra : List Byte,
    bytes.length + extra.length = zone m bytes ∧
    decodeMax (pre ++ encodeBody m bytes) (pre.length + (encodeBody m bytes).length) pre.length
      (done ++ (junk ++ tail)) done.length
      = some (done ++ (bytes ++ (extra ++ tail)), done.length + reported m bytes)
  | s0 :: s1 :: s2 :: rest, pre, done, junk, tail, hj => by
    have hz : zone m (s0 :: s1 :: s2 :: rest) = zone m rest + 3 := by
      rw [zone_eq, zone_eq]
      simp only [List.length_cons]
      have : (rest.length + 1 + 1 + 1) % 3 = rest.length % 3 := by omega
      simp only [this]; omega
    have hr : reported m (s0 :: s1 :: s2 :: rest) = reported m rest + 3 := by
      unfold reported
      simp only [List.length_cons]
      have : (rest.length + 1 + 1 + 1) % 3 = rest.length % 3 := by omega
      simp only [this]; omega
    rw [hz] at hj
    match junk, hj with
    | j0 :: j1 :: j2 :: junk, hj =>
      have hj' : junk.length = zone m rest := by simpa using hj
      obtain ⟨extra, he, ih⟩ :=
        decodeMax_encodeBody m rest (pre ++ encode3 s0 s1 s2) (done ++ [s0, s1, s2]) junk tail hj'
      refine ⟨extra, by rw [hz]; simp only [List.length_cons]; omega, ?_⟩
      rw [decodeMax]
      rw [if_pos (by simp [encodeBody, encode3])]
      simp only [encodeBody, encode3, List.cons_append, List.nil_append]
      rw [decode3_at, decodeQuad_encode3]
      simp only []
      rw [if_pos (by simp)]
      simp only [Nat.lt_irrefl, if_false]
      rw [set3]
      simp only [encode3, List.append_assoc, List.cons_append, List.nil_append, List.length_append,
        List.length_cons, List.length_nil] at ih
      simp only [List.length_cons]
      rw [hr]
      have e1 : pre.length + ((encodeBody m rest).length + 1 + 1 + 1 + 1)
          = pre.length + (0 + 1 + 1 + 1 + 1) + (encodeBody m rest).length := by omega
      have e2 : done.length + (reported m rest + 3) = done.length + (0 + 1 + 1 + 1) + reported m rest := by
        omega
      rw [e1, e2]
      exact ih
  | [s0, s1], pre, done, junk, tail, hj => by
    have hz : zone m [s0, s1] = 3 := by simp [zone_eq]
    rw [hz] at hj
    match junk, hj with
    | [j0, j1, j2], _ =>
      obtain ⟨x, hx⟩ := decodeQuad_encode2 s0 s1
      refine ⟨[x], by rw [hz]; simp, ?_⟩
      rw [decodeMax]
      rw [if_pos (by simp [encodeBody, encode2])]
      simp only [encodeBody, encode2, List.cons_append, List.nil_append]
      rw [decode3_at, hx]
      simp [reported]
  | [s0], pre, done, junk, tail, hj => by
    have hz : zone m [s0] = 3 := by simp [zone_eq]
    rw [hz] at hj
    match junk, hj with
    | [j0, j1, j2], _ =>
      obtain ⟨x, y, hx⟩ := decodeQuad_encode1 s0
      refine ⟨[x, y], by rw [hz]; simp, ?_⟩
      rw [decodeMax]
      rw [if_pos (by simp [encodeBody, encode1])]
      simp only [encodeBody, encode1, List.cons_append, List.nil_append]
      rw [decode3_at, hx]
      simp [reported]
  | [], pre, done, junk, tail, hj => by
    cases m with
    | false =>
      have hz : zone false [] = 0 := by simp [zone_eq]
      rw [hz] at hj
      have : junk = [] := List.length_eq_zero_iff.mp hj
      subst this
      refine ⟨[], by rw [hz]; simp, ?_⟩
      rw [decodeMax]
      simp [encodeBody, reported]
    | true =>
      have hz : zone true [] = 3 := by simp [zone_eq]
      rw [hz] at hj
      match junk, hj with
      | [j0, j1, j2], _ =>
        refine ⟨[0, 0, 0], by rw [hz]; simp, ?_⟩
        rw [decodeMax]
        rw [if_pos (by simp [encodeBody])]
        simp only [encodeBody, if_true]
        rw [decode3_at, decodeQuad_mark]
        simp [reported]

/-- Stream decoding runs out of bounds whenever the buffer is smaller than the zone. -/
theorem decodeMax_oob (m : Bool) : ∀ (bytes pre done buf : List Byte),
    buf.length < zone m bytes →
    decodeMax (pre ++ encodeBody m bytes) (pre.length + (encodeBody m bytes).length) pre.length
      (done ++ buf) done.length = none
  | s0 :: s1 :: s2 :: rest, pre, done, buf, hb => by
    have hz : zone m (s0 :: s1 :: s2 :: rest) = zone m rest + 3 := by
      rw [zone_eq, zone_eq]
      simp only [List.length_cons]
      have : (rest.length + 1 + 1 + 1) % 3 = rest.length % 3 := by omega
      simp only [this]; omega
    rw [hz] at hb
    rw [decodeMax]
    rw [if_pos (by simp [encodeBody, encode3])]
    simp only [encodeBody, encode3, List.cons_append, List.nil_append]
    rw [decode3_at, decodeQuad_encode3]
    simp only []
    by_cases h3 : done.length + 3 ≤ (done ++ buf).length
    · rw [if_pos h3]
      have hb3 : 3 ≤ buf.length := by simpa using h3
      match buf, hb3, hb with
      | b0 :: b1 :: b2 :: buf, _, hb =>
        have hb' : buf.length < zone m rest := by simpa using hb
        have ih := decodeMax_oob m rest (pre ++ encode3 s0 s1 s2) (done ++ [s0, s1, s2]) buf hb'
        simp only [encode3, List.append_assoc, List.cons_append, List.nil_append, List.length_append,
          List.length_cons, List.length_nil] at ih
        simp only [Nat.lt_irrefl, if_false]
        rw [set3]
        simp only [List.length_cons]
        have e1 : pre.length + ((encodeBody m rest).length + 1 + 1 + 1 + 1)
            = pre.length + (0 + 1 + 1 + 1 + 1) + (encodeBody m rest).length := by omega
        rw [e1]
        exact ih
    · rw [if_neg h3]
  | [s0, s1], pre, done, buf, hb => by
    have hz : zone m [s0, s1] = 3 := by simp [zone_eq]
    rw [hz] at hb
    obtain ⟨x, hx⟩ := decodeQuad_encode2 s0 s1
    rw [decodeMax]
    rw [if_pos (by simp [encodeBody, encode2])]
    simp only [encodeBody, encode2, List.cons_append, List.nil_append]
    rw [decode3_at, hx]
    have : ¬ done.length + 3 ≤ (done ++ buf).length := by simp; omega
    simp only [if_neg this]
  | [s0], pre, done, buf, hb => by
    have hz : zone m [s0] = 3 := by simp [zone_eq]
    rw [hz] at hb
    obtain ⟨x, y, hx⟩ := decodeQuad_encode1 s0
    rw [decodeMax]
    rw [if_pos (by simp [encodeBody, encode1])]
    simp only [encodeBody, encode1, List.cons_append, List.nil_append]
    rw [decode3_at, hx]
    have : ¬ done.length + 3 ≤ (done ++ buf).length := by simp; omega
    simp only [if_neg this]
  | [], pre, done, buf, hb => by
    cases m with
    | false => simp [zone_eq] at hb
    | true =>
      have hz : zone true [] = 3 := by simp [zone_eq]
      rw [hz] at hb
      rw [decodeMax]
      rw [if_pos (by simp [encodeBody])]
      simp only [encodeBody, if_true]
      rw [decode3_at, decodeQuad_mark]
      have : ¬ done.length + 3 ≤ (done ++ buf).length := by simp; omega
      simp only [if_neg this]

/-! Relation to the RFC specification. -/

theorem digit_eq : ∀ c : Byte, c.toNat < 64 → encodeChar c = Spec.digit c.toNat := by decide +kernel

theorem nib (a : Byte) : ((a >>> 2) &&& 0x3F#8).toNat = a.toNat / 4 ∧
    ((a <<< 4) &&& 0x30#8).toNat = a.toNat % 4 * 16 ∧ ((a >>> 4) &&& 0x0F#8).toNat = a.toNat / 16 ∧
    ((a <<< 2) &&& 0x3C#8).toNat = a.toNat % 16 * 4 ∧ ((a >>> 6) &&& 0x03#8).toNat = a.toNat / 64 ∧
    (a &&& 0x3F#8).toNat = a.toNat % 64 := by
  revert a; decide +kernel

theorem or16 (x y : Nat) (hx : x < 4) (hy : y < 16) : (x * 16) ||| y = x * 16 + y := by
  have : ∀ x : Fin 4, ∀ y : Fin 16, (x.val * 16) ||| y.val = x.val * 16 + y.val := by decide +kernel
  exact this ⟨x, hx⟩ ⟨y, hy⟩

theorem or4 (x y : Nat) (hx : x < 16) (hy : y < 4) : (x * 4) ||| y = x * 4 + y := by
  have : ∀ x : Fin 16, ∀ y : Fin 4, (x.val * 4) ||| y.val = x.val * 4 + y.val := by decide +kernel
  exact this ⟨x, hx⟩ ⟨y, hy⟩

theorem encodeBody_rfc (m : Bool) : ∀ bytes : List Byte,
    encodeBody m bytes = Spec.rfc4648 bytes ++
      (if m = true ∧ bytes.length % 3 = 0 then [Spec.pad, Spec.pad, Spec.pad, Spec.pad] else [])
  | a :: b :: c :: rest => by
    have ih := encodeBody_rfc m rest
    have ha := a.isLt
    have hb := b.isLt
    have hc := c.isLt
    simp only [encodeBody, encode3, Spec.rfc4648, ih]
    rw [digit_eq _ (encodeChar_inb a b).1, digit_eq _ (encodeChar_inb a b).2.1,
      digit_eq _ (encodeChar_inb b c).2.2.1, digit_eq _ (encodeChar_inb c c).2.2.2.1]
    rw [BitVec.toNat_or, BitVec.toNat_or, (nib a).1, (nib a).2.1, (nib b).2.2.1, (nib b).2.2.2.1,
      (nib c).2.2.2.2.1, (nib c).2.2.2.2.2]
    rw [or16 _ _ (by omega) (by omega), or4 _ _ (by omega) (by omega)]
    have hl : (a :: b :: c :: rest).length % 3 = rest.length % 3 := by
      simp only [List.length_cons]; omega
    simp only [hl]
    have e0 : a.toNat / 4 = (a.toNat * 65536 + b.toNat * 256 + c.toNat) / 262144 := by omega
    have e1 : a.toNat % 4 * 16 + b.toNat / 16 = (a.toNat * 65536 + b.toNat * 256 + c.toNat) / 4096 % 64 := by
      omega
    have e2 : b.toNat % 16 * 4 + c.toNat / 64 = (a.toNat * 65536 + b.toNat * 256 + c.toNat) / 64 % 64 := by
      omega
    have e3 : c.toNat % 64 = (a.toNat * 65536 + b.toNat * 256 + c.toNat) % 64 := by omega
    rw [← e0, ← e1, ← e2, ← e3]
    simp
  | [a, b] => by
    have ha := a.isLt
    have hb := b.isLt
    simp only [encodeBody, encode2, Spec.rfc4648]
    rw [digit_eq _ (encodeChar_inb a b).1, digit_eq _ (encodeChar_inb a b).2.1,
      digit_eq _ (encodeChar_inb b b).2.2.2.2.1]
    rw [BitVec.toNat_or, (nib a).1, (nib a).2.1, (nib b).2.2.1, (nib b).2.2.2.1]
    rw [or16 _ _ (by omega) (by omega)]
    have e0 : a.toNat / 4 = (a.toNat * 65536 + b.toNat * 256) / 262144 := by omega
    have e1 : a.toNat % 4 * 16 + b.toNat / 16 = (a.toNat * 65536 + b.toNat * 256) / 4096 % 64 := by omega
    have e2 : b.toNat % 16 * 4 = (a.toNat * 65536 + b.toNat * 256) / 64 % 64 := by omega
    rw [← e0, ← e1, ← e2]
    simp [eqChar, Spec.pad]
  | [a] => by
    have ha := a.isLt
    simp only [encodeBody, encode1, Spec.rfc4648]
    rw [digit_eq _ (encodeChar_inb a a).1, digit_eq _ (encodeChar_inb a a).2.2.2.2.2]
    rw [(nib a).1, (nib a).2.1]
    have e0 : a.toNat / 4 = (a.toNat * 65536) / 262144 := by omega
    have e1 : a.toNat % 4 * 16 = (a.toNat * 65536) / 4096 % 64 := by omega
    rw [← e0, ← e1]
    simp [eqChar, Spec.pad]
  | [] => by cases m <;> simp [encodeBody, Spec.rfc4648, eqChar, Spec.pad]

theorem leNat_u32bytes (n : BitVec 32) : Spec.leNat (u32bytes n) = n.toNat := by
  have := n.isLt
  simp only [u32bytes, Spec.leNat, BitVec.extractLsb'_toNat, Nat.shiftRight_eq_div_pow]
  omega

end Verif.Base64
