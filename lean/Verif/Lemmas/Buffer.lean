import Verif.Spec.Buffer
/-! Helper lemmas for the buffer. -/
namespace Verif.Buffer
open Spec

theorem toInt32_small (n : ℕ) (h : n < 2 ^ 31) : toInt32 n = n := by
  unfold toInt32
  rw [Nat.mod_eq_of_lt (by omega), if_pos h]

theorem write_small (b : Buf) (c : List (BitVec 8)) (h : b.content.length + c.length < 2 ^ 31) :
    write b c = some { b with content := b.content ++ c } := by
  have hn : ((toInt32 b.content.length + (c.length : ℤ)) % 2 ^ 64).toNat = b.content.length + c.length := by
    rw [toInt32_small _ (by omega)]
    omega
  unfold write
  simp only [hn]
  rw [if_neg (by omega), if_neg (by omega)]
  congr 2
  have h1 : b.content.take (b.content.length + c.length) = b.content := List.take_of_length_le (by omega)
  rw [h1, Nat.add_sub_cancel, List.take_left]

theorem writeAll_small : ∀ (cs : List (List (BitVec 8))) (b : Buf),
    b.content.length + cs.flatten.length < 2 ^ 31 →
    writeAll b cs = some { b with content := b.content ++ cs.flatten }
  | [], b, _ => by simp [writeAll]
  | c :: cs, b, h => by
    simp only [List.flatten_cons, List.length_append] at h
    unfold writeAll
    rw [write_small b c (by omega), Option.bind_some, writeAll_small cs _ (by simp only [List.length_append]; omega)]
    simp

theorem run_queue {ι : Type} {V : ι → Type} [DecidableEq ι] (m : Codec ι V) (hm : Codec.Faithful m) :
    ∀ (ops : List (Op ι V)) (q : List (Sigma V)) (b : Buf) (outs : List (Sigma V)),
      b.content.drop b.readPos = (q.map (fun x => (m.enc x.1 x.2).flatten)).flatten →
      b.readPos ≤ b.content.length →
      b.content.length + bytesPacked m ops < 2 ^ 31 →
      queue q ops = some outs →
      ∃ b', run m b ops = some (outs, b')
  | [], q, b, outs, _, _, _, hq => by
    unfold queue at hq
    injection hq with hq
    subst hq
    exact ⟨b, rfl⟩
  | .pack t v :: ops, q, b, outs, hb, hl, hs, hq => by
    unfold bytesPacked at hs
    unfold queue at hq
    unfold run pack
    rw [writeAll_small _ b (by omega), Option.bind_some]
    refine run_queue m hm ops _ _ outs ?_ ?_ ?_ hq
    · simp only [List.drop_append_of_le_length hl, hb]
      simp
    · simp; omega
    · simp only [List.length_append]; omega
  | .unpack t :: ops, [], b, outs, hb, hl, hs, hq => by
    unfold queue at hq
    exact absurd hq (by simp)
  | .unpack t :: ops, ⟨t', v⟩ :: q, b, outs, hb, hl, hs, hq => by
    unfold bytesPacked at hs
    unfold queue at hq
    by_cases ht : t' = t
    · subst ht
      rw [if_pos rfl] at hq
      cases hq' : queue q ops with
      | none => rw [hq'] at hq; exact absurd hq (by simp)
      | some os =>
        rw [hq'] at hq
        simp only [Option.map_some, Option.some.injEq] at hq
        subst hq
        have hlen : (m.enc t' v).flatten.length ≤ b.content.length - b.readPos := by
          rw [← List.length_drop, hb]; simp
        have hd : m.dec t' (b.content.drop b.readPos) = some (v, (m.enc t' v).flatten.length) := by
          rw [hb, List.map_cons, List.flatten_cons]
          exact hm t' v _
        unfold run unpack
        simp only [hd, Option.map_some, Option.bind_some]
        obtain ⟨b', hb'⟩ := run_queue m hm ops q { b with readPos := b.readPos + (m.enc t' v).flatten.length } os
          (by
            simp only [← List.drop_drop, hb, List.map_cons, List.flatten_cons]
            rw [List.drop_left])
          (by simp only; omega) hs hq'
        exact ⟨b', by rw [hb']; rfl⟩
    · rw [if_neg ht] at hq
      exact absurd hq (by simp)

end Verif.Buffer
