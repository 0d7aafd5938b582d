import Verif.Model.LogSinks
/-!
What a sink of a logger should get, without looking at other sinks.
-/
namespace Verif.Spec.LogSinks
open _root_.Verif.LogSinks (Msg Ev Op)

/-- The settings of the logger: its level, from which level it flushes, and, if there is a backtrace, its length and the messages since it was turned on or printed last. -/
structure Settings where
  level : ℕ
  flushLevel : ℕ
  trace : Option (ℕ × List Msg)

/-- The settings of a new logger. -/
def fresh : Settings := ⟨2, 6, none⟩

/-- The latest `n`. -/
def latest (n : ℕ) (l : List Msg) : List Msg := l.drop (l.length - n)

/-- A message that is passed on: to this sink, if it has the level and the sink takes it, with a flush behind it if it is important enough. -/
def emit (level : ℕ) (fails : Msg → Bool) (s : Settings) (m : Msg) : List Ev :=
  (if level ≤ m.lvl ∧ fails m = false then [.log m] else []) ++ if s.flushLevel ≤ m.lvl ∧ m.lvl ≠ 6 then [.flush] else []

/-- The settings after a call. -/
def next (s : Settings) : Op → Settings
  | .log m => { s with trace := s.trace.map fun t => (t.1, t.2 ++ [m]) }
  | .enable n => { s with trace := some (n, []) }
  | .disable => { s with trace := none }
  | .dump => { s with trace := s.trace.map fun t => (t.1, []) }
  | .setLevel l => { s with level := l }
  | .flushOn l => { s with flushLevel := l }
  | .flush => s

/-- The lines around a backtrace. -/
def mark (text : String) : Msg := ⟨2, text.toList⟩

/-- What the sink gets from a call. -/
def gets (level : ℕ) (fails : Msg → Bool) (s : Settings) : Op → List Ev
  | .log m => if s.level ≤ m.lvl then emit level fails s m else []
  | .dump => match s.trace with
    | none => []
    | some (n, l) => emit level fails s (mark "****************** Backtrace Start ******************") ++ (latest n l).flatMap (emit level fails s) ++
        emit level fails s (mark "****************** Backtrace End ********************")
  | .flush => [.flush]
  | _ => []

/-- What the sink gets. -/
def received (level : ℕ) (fails : Msg → Bool) : Settings → List Op → List Ev
  | _, [] => []
  | s, o :: ops => gets level fails s o ++ received level fails (next s o) ops

/-- The settings after calls. -/
def settings (s : Settings) (ops : List Op) : Settings := ops.foldl next s

/-- A call that does not turn the backtrace on or off, nor print it. -/
def Quiet : Op → Prop
  | .enable _ => False
  | .disable => False
  | .dump => False
  | _ => True

/-- The messages among the calls. -/
def msgs (ops : List Op) : List Msg := ops.filterMap fun
  | .log m => some m
  | _ => none

end Verif.Spec.LogSinks
