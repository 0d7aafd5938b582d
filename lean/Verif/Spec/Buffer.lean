import Verif.Model.Buffer
/-! Specification of the buffer: a queue of values. -/
namespace Verif.Spec
open Buffer

variable {ι : Type} {V : ι → Type}

/-- The msgpack contract: what was packed is read back, whatever follows it, and its bytes are consumed. -/
def Codec.Faithful (m : Codec ι V) : Prop :=
  ∀ (t : ι) (v : V t) (rest : List (BitVec 8)),
    m.dec t ((m.enc t v).flatten ++ rest) = some (v, (m.enc t v).flatten.length)

/-- What a queue does: `some` values read iff every read finds a value, of the type asked for, at the head. -/
def queue [DecidableEq ι] : List (Sigma V) → List (Op ι V) → Option (List (Sigma V))
  | _, [] => some []
  | q, .pack t v :: ops => queue (q ++ [⟨t, v⟩]) ops
  | [], .unpack _ :: _ => none
  | x :: q, .unpack t :: ops => if x.1 = t then (queue q ops).map (fun s => x :: s) else none

/-- Number of bytes that a history packs. -/
def bytesPacked (m : Codec ι V) : List (Op ι V) → ℕ
  | [] => 0
  | .pack t v :: ops => (m.enc t v).flatten.length + bytesPacked m ops
  | .unpack _ :: ops => bytesPacked m ops

end Verif.Spec
