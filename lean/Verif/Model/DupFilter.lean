import Verif.Model.Text

/-!
`spdlog::sinks::dup_filter_sink` (spdlog/sinks/dup_filter_sink.h) on top of `dist_sink` (spdlog/sinks/dist_sink.h).

Times are in nanoseconds since the epoch of `log_clock`; their differences do not overflow.  The sinks behind the filter are
lists of what they get.  Their formatters are not modelled, and locks neither: the mutex of `base_sink`
(spdlog/sinks/base_sink-inl.h:25-30) lets one message pass after the other.
-/

namespace Verif.DupFilter

open Text (Str dec)

/-- What is modelled of `details::log_msg` (spdlog/details/log_msg.h:12-29). -/
structure Msg where
  time : ℤ
  logger : Str
  level : ℕ
  payload : Str
  deriving DecidableEq

/-- What a sink gets: a message without its time. -/
structure Line where
  logger : Str
  level : ℕ
  payload : Str
  deriving DecidableEq

/-- A message for the sinks. -/
def Msg.line (m : Msg) : Line := ⟨m.logger, m.level, m.payload⟩

/-- A sink behind the filter: `level_` (spdlog/sinks/sink.h:27), and what it has got. -/
structure Sub where
  level : ℕ
  got : List Line
  deriving DecidableEq

/-- spdlog/sinks/dup_filter_sink.h:48-51 -/
structure Filter where
  maxSkip : ℤ
  lastTime : ℤ
  lastPayload : Str
  skip : ℕ
  sinks : List Sub

/-- spdlog/sinks/dup_filter_sink.h:42-45: the constructor, with `max_skip_duration` in microseconds, and `add_sink`. -/
def start (maxSkip : ℤ) (levels : List ℕ) : Filter := ⟨1000 * maxSkip, 0, [], 0, levels.map fun l => ⟨l, []⟩⟩

/-- spdlog/sinks/dist_sink.h:58-67: `dist_sink::sink_it_`, with `sink::should_log` (spdlog/sinks/sink-inl.h:12-15). -/
def dist (l : Line) (sinks : List Sub) : List Sub := sinks.map fun s => if l.level ≥ s.level then { s with got := s.got ++ [l] } else s

/-- spdlog/sinks/dup_filter_sink.h:79-83: `filter_`. -/
def filter (f : Filter) (m : Msg) : Bool := decide (m.time - f.lastTime > f.maxSkip) || m.payload != f.lastPayload

/-- spdlog/sinks/dup_filter_sink.h:66: the text for `n` messages. -/
def skippedText (n : ℕ) : Str := "Skipped ".toList ++ (dec n ++ " duplicate messages..".toList)

/-- spdlog/sinks/dup_filter_sink.h:53-76: `sink_it_`. `level::info` is 2. -/
def sinkIt (f : Filter) (m : Msg) : Filter :=
  if !filter f m then { f with skip := (f.skip + 1) % 2 ^ 64 }
  else
    let sinks := if f.skip > 0 then dist ⟨m.logger, 2, skippedText f.skip⟩ f.sinks else f.sinks
    { f with sinks := dist m.line sinks, lastTime := m.time, skip := 0, lastPayload := m.payload }

/-- One message after the other. -/
def run (f : Filter) (msgs : List Msg) : Filter := msgs.foldl sinkIt f

end Verif.DupFilter
