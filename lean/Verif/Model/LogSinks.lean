import Verif.Model.CircularQ
import Verif.Model.Text
/-!
A logger of spdlog with its sinks and its backtrace (spdlog/logger.h, spdlog/logger-inl.h, spdlog/details/backtracer-inl.h).

A message is its level and its text.  A sink may throw instead of taking a message; the exception is caught (`SPDLOG_LOGGER_CATCH`), and what the error handler does is not modelled.
One thread.
-/
namespace Verif.LogSinks
open Text (Str)
open CircularQ (CQ)

/-- `log_msg`: level and text. -/
structure Msg where
  lvl : ℕ
  text : Str
  deriving DecidableEq, Inhabited

/-- What is called of a sink. -/
inductive Ev where
  | log (m : Msg)
  | flush
  deriving DecidableEq

/-- A sink: its level, the messages on which it throws, and the calls so far. -/
structure Sink where
  level : ℕ
  fails : Msg → Bool
  got : List Ev

/-- The members of a logger (spdlog/logger.h:319-325) and of its `backtracer` (spdlog/details/backtracer.h:18-20). -/
structure Logger where
  level : ℕ
  flushLevel : ℕ
  enabled : Bool
  messages : CQ Msg
  sinks : List Sink

/-- `level::info` and `level::off` (spdlog/common.h). -/
def info : ℕ := 2
/-- See `info`. -/
def off : ℕ := 6

/-- logger-inl.h:198-208: `flush_`. -/
def flush (lg : Logger) : Logger := { lg with sinks := lg.sinks.map fun s => { s with got := s.got ++ [.flush] } }

/-- logger-inl.h:221-225: `should_flush_`. -/
def shouldFlush (lg : Logger) (m : Msg) : Bool := decide (m.lvl ≥ lg.flushLevel) && decide (m.lvl ≠ off)

/-- logger-inl.h:178-196: `sink_it_`; the level of a sink is in spdlog/sinks/sink-inl.h:12-15. -/
def sinkIt (lg : Logger) (m : Msg) : Logger :=
  let lg := { lg with sinks := lg.sinks.map fun s => if m.lvl ≥ s.level then (if s.fails m then s else { s with got := s.got ++ [.log m] }) else s }
  if shouldFlush lg m then flush lg else lg

/-- spdlog/logger.h:159-170 and spdlog/logger-inl.h:166-176: `log` and `log_it_`. -/
def log (lg : Logger) (m : Msg) : Option Logger :=
  let logEnabled := decide (m.lvl ≥ lg.level)
  let tracebackEnabled := lg.enabled
  if !logEnabled && !tracebackEnabled then some lg
  else
    let lg := if logEnabled then sinkIt lg m else lg
    if tracebackEnabled then (CircularQ.push lg.messages m).map fun q => { lg with messages := q } else some lg

/-- logger-inl.h:215: the first line of a backtrace. -/
def startMark : Msg := ⟨info, "****************** Backtrace Start ******************".toList⟩

/-- logger-inl.h:217: the last line of a backtrace. -/
def endMark : Msg := ⟨info, "****************** Backtrace End ********************".toList⟩

/-- logger-inl.h:210-219 and backtracer-inl.h:58-67: `dump_backtrace_`.  The loop needs at most as many rounds as the queue has places. -/
def dump (lg : Logger) : Option Logger :=
  if lg.enabled then
    let lg := sinkIt lg startMark
    (CircularQ.foreachPop lg.messages.maxItems lg.messages).map fun r => sinkIt { r.1.foldl sinkIt lg with messages := r.2 } endMark
  else some lg

/-- Calls of a logger. -/
inductive Op where
  | log (m : Msg)
  | enable (n : ℕ)
  | disable
  | dump
  | setLevel (l : ℕ)
  | flushOn (l : ℕ)
  | flush

/-- One call (logger-inl.h:67-70, 108-117, 119-133, backtracer-inl.h:33-44). -/
def step (lg : Logger) : Op → Option Logger
  | .log m => log lg m
  | .enable n => some { lg with enabled := true, messages := CircularQ.new n }
  | .disable => some { lg with enabled := false }
  | .dump => dump lg
  | .setLevel l => some { lg with level := l }
  | .flushOn l => some { lg with flushLevel := l }
  | .flush => some (flush lg)

/-- Calls one after the other. -/
def run : Logger → List Op → Option Logger
  | lg, [] => some lg
  | lg, o :: ops => (step lg o).bind fun lg' => run lg' ops

/-- A logger as the constructor makes it: level `info`, no flushing, no backtrace (spdlog/logger.h:45-50, 322-323). -/
def new (sinks : List Sink) : Logger := ⟨info, off, false, CircularQ.disabled, sinks⟩

end Verif.LogSinks
