import Verif.Lemmas.Buffer
import Mathlib.Tactic.NormNum
/-! Property C17: the byte buffer. -/
namespace Verif
open Buffer Spec

/-- A codec for the examples: one type, bytes as themselves. -/
def byteCodec : Codec Unit (fun _ => BitVec 8) where
  enc := fun _ v => [[v]]
  dec := fun _ l => match l with | [] => none | x :: _ => some (x, 1)

theorem byteCodec_faithful : Codec.Faithful byteCodec := fun _ _ _ => rfl

/-- C17: a buffer on an empty vector is a first-in-first-out queue: for every history of packing and unpacking in which
reads do not overtake writes (and ask for the type that was written), each read returns the oldest value not yet read.
Proved while fewer than 2^31 bytes are packed in all; beyond that the claim fails (`C17_overflow`). -/
theorem C17_fifo_partial {ι : Type} {V : ι → Type} [DecidableEq ι] (m : Codec ι V) (hm : Codec.Faithful m)
    (ops : List (Op ι V)) (outs : List (Sigma V)) (hs : bytesPacked m ops < 2 ^ 31) (hq : queue [] ops = some outs) :
    ∃ b', run m (ofVector []) ops = some (outs, b') :=
  run_queue m hm ops [] (ofVector []) outs (by simp [ofVector]) (by simp [ofVector]) (by simpa [ofVector] using hs) hq

example : Codec.Faithful byteCodec ∧
    bytesPacked byteCodec [.pack () 5#8, .pack () 7#8, .unpack (), .pack () 9#8, .unpack ()] < 2 ^ 31 ∧
    queue (V := fun _ : Unit => BitVec 8) [] [.pack () 5#8, .pack () 7#8, .unpack (), .pack () 9#8, .unpack ()] =
      some [⟨(), 5#8⟩, ⟨(), 7#8⟩] :=
  ⟨byteCodec_faithful, by decide, rfl⟩

/-- C17 is false for large buffers: once the buffer holds 2^31 bytes or more (below 2^32), the next packing throws. -/
theorem C17_overflow (b : Buf) (c : List (BitVec 8)) (h1 : 2 ^ 31 ≤ b.content.length) (h2 : b.content.length < 2 ^ 32)
    (hc : c.length < 2 ^ 30) : write b c = none := by
  have hi : toInt32 b.content.length = (b.content.length : ℤ) - 2 ^ 32 := by
    unfold toInt32
    rw [Nat.mod_eq_of_lt (by omega), if_neg (by omega)]
  unfold write
  simp only [hi]
  by_cases h : (((b.content.length : ℤ) - 2 ^ 32 + (c.length : ℤ)) % 2 ^ 64).toNat ≥ 2 ^ 63
  · rw [if_pos h]
  · rw [if_neg h, if_pos (by omega)]

example : ∃ b : Buf, 2 ^ 31 ≤ b.content.length ∧ b.content.length < 2 ^ 32 := by
  obtain ⟨l, hl⟩ : ∃ l : List (BitVec 8), l.length = 2 ^ 31 := ⟨List.replicate _ 0#8, List.length_replicate⟩
  exact ⟨⟨0, l⟩, by rw [hl]; norm_num⟩

/-- C17 is false for very large buffers: at 2^32 bytes or more (below 2^32 + 2^31), packing silently truncates the
buffer: all but the first `length - 2^32` bytes written before are lost. -/
theorem C17_truncation (b : Buf) (c : List (BitVec 8)) (h1 : 2 ^ 32 ≤ b.content.length)
    (h2 : b.content.length < 2 ^ 32 + 2 ^ 31) (hc : c.length < 2 ^ 30) :
    write b c = some { b with content := b.content.take (b.content.length - 2 ^ 32) ++ c } := by
  have hi : toInt32 b.content.length = (b.content.length - 2 ^ 32 : ℕ) := by
    unfold toInt32
    have : b.content.length % 2 ^ 32 = b.content.length - 2 ^ 32 := by omega
    rw [this, if_pos (by omega)]
  have hn : ((toInt32 b.content.length + (c.length : ℤ)) % 2 ^ 64).toNat =
      (b.content.length - 2 ^ 32) + c.length := by
    rw [hi]; omega
  unfold write
  simp only [hn]
  rw [if_neg (by omega), if_neg (by omega)]
  have h3 : b.content.length - 2 ^ 32 + c.length - c.length = b.content.length - 2 ^ 32 := Nat.add_sub_cancel _ _
  have h4 : (b.content.take (b.content.length - 2 ^ 32 + c.length) ++
      List.replicate (b.content.length - 2 ^ 32 + c.length - b.content.length) 0#8).take (b.content.length - 2 ^ 32) =
      b.content.take (b.content.length - 2 ^ 32) := by
    rw [List.take_append_of_le_length (by rw [List.length_take]; omega), List.take_take, Nat.min_eq_left (by omega)]
  rw [h3, h4]

example : ∃ b : Buf, 2 ^ 32 ≤ b.content.length ∧ b.content.length < 2 ^ 32 + 2 ^ 31 := by
  obtain ⟨l, hl⟩ : ∃ l : List (BitVec 8), l.length = 2 ^ 32 := ⟨List.replicate _ 0#8, List.length_replicate⟩
  exact ⟨⟨0, l⟩, by rw [hl]; norm_num⟩

/-- The refutation of the full claim: with a faithful codec there is a history of two packings and two readings that a
queue serves but the buffer does not. -/
theorem C17_fifo_false : ∃ (m : Codec Bool (fun _ => Bool)) (ops : List (Op Bool (fun _ => Bool)))
    (outs : List (Sigma fun _ : Bool => Bool)),
    Codec.Faithful m ∧ queue [] ops = some outs ∧ ∀ b', run m (ofVector []) ops ≠ some (outs, b') := by
  obtain ⟨big, hbig⟩ : ∃ l : List (BitVec 8), l.length = 2 ^ 31 := ⟨List.replicate _ 0#8, List.length_replicate⟩
  let m : Codec Bool (fun _ => Bool) :=
    { enc := fun t v => if t then [[if v then 1#8 else 0#8] ++ big] else [[if v then 1#8 else 0#8]]
      dec := fun t l => match l with
        | [] => none
        | x :: _ => some (x == 1#8, if t then 2 ^ 31 + 1 else 1) }
  refine ⟨m, [.pack true true, .pack false true, .unpack true, .unpack false], _, ?_, rfl, ?_⟩
  · intro t v rest
    cases t <;> cases v <;> simp [m, hbig]
  · intro b'
    have e1 : write (ofVector []) ([1#8] ++ big) = some ⟨0, [1#8] ++ big⟩ := by
      have hn : ((toInt32 0 + ((([1#8] ++ big).length : ℕ) : ℤ)) % 2 ^ 64).toNat = 2 ^ 31 + 1 := by
        rw [List.length_append, hbig]; rfl
      unfold write
      simp only [ofVector, List.length_nil, hn]
      rw [if_neg (by decide), if_neg (by rw [List.length_append, hbig]; decide)]
      have : 2 ^ 31 + 1 - ([1#8] ++ big).length = 0 := by rw [List.length_append, hbig]; rfl
      rw [this]
      rfl
    have e2 : write ⟨0, [1#8] ++ big⟩ [1#8] = none :=
      C17_overflow _ _ (by simp only [List.length_append, hbig]; decide)
        (by simp only [List.length_append, hbig]; decide) (by decide)
    have p1 : pack m (ofVector []) true true = some ⟨0, [1#8] ++ big⟩ := by
      show (write (ofVector []) ([1#8] ++ big)).bind _ = _
      rw [e1]; rfl
    have p2 : pack m ⟨0, [1#8] ++ big⟩ false true = none := by
      show (write ⟨0, [1#8] ++ big⟩ [1#8]).bind _ = _
      rw [e2]; rfl
    unfold run
    rw [p1, Option.bind_some]
    unfold run
    rw [p2]
    simp

/-- The header says that the vector is empty after construction; it keeps its content, which is then read first. -/
theorem C17_constructor_keeps (buf : List (BitVec 8)) : (ofVector buf).content = buf ∧ (ofVector buf).readPos = 0 :=
  ⟨rfl, rfl⟩

end Verif
