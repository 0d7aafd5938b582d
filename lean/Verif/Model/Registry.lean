import Mathlib.Data.List.Basic

/-!
`Logger` (Util/Logger.hpp:27-80) and the registry of loggers of spdlog that it is written for (spdlog/details/registry-inl.h,
spdlog/logger-inl.h).

Loggers are objects on a heap, and `shared_ptr`s to them are positions on the heap.  Every logger has one sink, whose level is
the default `trace` (spdlog/sinks/sink.h:27), so that the sink lets every message pass (spdlog/logger-inl.h:180-182).
Backtraces are off, as they are unless `enable_backtrace` is called (see `Model/CircularQ.lean` for these).  Formatting and
exceptions of sinks are not modelled, and locks neither: one thread at a time uses the registry.
-/

namespace Verif.Registry

/-- `level_enum` (spdlog/common.h:142-152), an enumeration of 0 to 7 without a fixed type: these are all of its values. -/
abbrev Level := Fin 8

/-- `level::info` -/
def info : Level := 2

/-- `level::err` -/
def err : Level := 4

/-- `level::off` -/
def off : Level := 6

/-- What is modelled of `spdlog::logger` (spdlog/logger.h:320-325). -/
structure Lg where
  name : String
  level : Level
  deriving DecidableEq

/-- `spdlog::details::registry` (spdlog/details/registry.h:96-110), the loggers, and what has been written to the terminal:
the logger, the level and the text of each message. -/
structure Reg where
  heap : List Lg
  loggers : List (String × Nat)
  default : Option Nat
  global : Level
  levels : List (String × Level)
  auto : Bool
  shown : List (Nat × Level × String)

/-- `loggers_.find` and `log_levels_.find` -/
def find {α : Type} (m : List (String × α)) (n : String) : Option α := (m.find? fun e => e.1 == n).map (·.2)

/-- `loggers_.erase` -/
def erase (m : List (String × Nat)) (n : String) : List (String × Nat) := m.filter fun e => !(e.1 == n)

/-- `loggers_[n] = p` -/
def insert (m : List (String × Nat)) (n : String) (p : Nat) : List (String × Nat) := erase m n ++ [(n, p)]

/-- `logger::set_level` (spdlog/logger-inl.h:67-70) -/
def setLevelOf (heap : List Lg) (p : Nat) (l : Level) : List Lg := heap.modify p fun g => { g with level := l }

/-- `registry::registry` (spdlog/details/registry-inl.h:33-50): a default logger with the empty name. -/
def start : Reg :=
  { heap := [⟨"", info⟩], loggers := [("", 0)], default := some 0, global := info, levels := [], auto := true, shown := [] }

/-- `registry::get` (spdlog/details/registry-inl.h:88-93) -/
def get (r : Reg) (n : String) : Option Nat := find r.loggers n

/-- `registry::set_level` (spdlog/details/registry-inl.h:171-179) -/
def setLevel (r : Reg) (l : Level) : Reg :=
  { r with heap := r.loggers.foldl (fun h e => setLevelOf h e.2 l) r.heap, global := l }

/-- The map when the default logger has been removed (spdlog/details/registry-inl.h:115-119). -/
def rest (r : Reg) : Option (List (String × Nat)) :=
  match r.default with
  | none => some r.loggers
  | some d => do let g ← r.heap[d]?; some (erase r.loggers g.name)

/-- `registry::set_default_logger` (spdlog/details/registry-inl.h:112-125).  `none` is a pointer to no object. -/
def setDefault (r : Reg) (p : Option Nat) : Option Reg := do
  let m ← rest r
  match p with
  | none => some { r with loggers := m, default := none }
  | some p => do
    let g ← r.heap[p]?
    some { r with loggers := insert m g.name p, default := some p }

/-- `registry::register_logger_` (spdlog/details/registry-inl.h:305-310) with `throw_if_exists_` (:297-303): with an exception
nothing changes. -/
def register (r : Reg) (p : Nat) : Option Reg := do
  let g ← r.heap[p]?
  if (find r.loggers g.name).isSome then some r else some { r with loggers := insert r.loggers g.name p }

/-- `registry::initialize_logger` (spdlog/details/registry-inl.h:60-86) -/
def init (r : Reg) (p : Nat) : Option Reg := do
  let g ← r.heap[p]?
  let r1 := { r with heap := setLevelOf r.heap p ((find r.levels g.name).getD r.global) }
  if r.auto then register r1 p else some r1

/-- `registry::set_levels` (spdlog/details/registry-inl.h:270-289) -/
def setLevels (r : Reg) (levels : List (String × Level)) (global : Option Level) : Reg :=
  { r with
    levels := levels
    global := global.getD r.global
    heap := r.loggers.foldl (fun h e =>
      match find levels e.1, global with
      | some l, _ => setLevelOf h e.2 l
      | none, some l => setLevelOf h e.2 l
      | none, none => h) r.heap }

/-- `registry::drop` (spdlog/details/registry-inl.h:226-234) -/
def drop (r : Reg) (n : String) : Option Reg := do
  let m := erase r.loggers n
  match r.default with
  | none => some { r with loggers := m }
  | some d => do
    let g ← r.heap[d]?
    some { r with loggers := m, default := if g.name = n then none else some d }

/-- `registry::drop_all` (spdlog/details/registry-inl.h:236-241) -/
def dropAll (r : Reg) : Reg := { r with loggers := [], default := none }

/-- `logger::log_` (spdlog/logger.h:328-345) with `should_log` (:274-277), `log_it_` and `sink_it_`
(spdlog/logger-inl.h:166-196). -/
def logTo (r : Reg) (p : Nat) (lvl : Level) (text : String) : Option Reg := do
  let g ← r.heap[p]?
  if lvl ≥ g.level then some { r with shown := r.shown ++ [(p, lvl, text)] } else some r

/-- `spdlog::log` and its kin (spdlog/spdlog.h:131-225) by `default_logger_raw`; a null pointer is followed if there is no
default logger. -/
def log (r : Reg) (lvl : Level) (text : String) : Option Reg := do
  let d ← r.default
  logTo r d lvl text

/-- `static_cast<level_enum>`: undefined for numbers that are not values of the enumeration. -/
def cast (l : Int) : Option Level := if h : 0 ≤ l ∧ l < 8 then some ⟨l.toNat, by omega⟩ else none

/-- `Logger::set_level` (Util/Logger.hpp:72-79) -/
def ownSetLevel (rank : Nat) (r : Reg) (level : Int) : Option Reg :=
  if rank = 0 then do let l ← cast level; some (setLevel r l) else some (setLevel r err)

/-- The name of the logger of a rank. -/
def rankName (rank : Nat) : String := "rank " ++ toString rank

/-- `Logger::setup_mpi_spdlog` (Util/Logger.hpp:35-70) -/
def setup (rank : Nat) (r : Reg) (level : Int) : Option Reg := do
  let r1 ← setDefault { r with heap := r.heap ++ [⟨rankName rank, info⟩] } (some r.heap.length)
  ownSetLevel rank r1 level

/-- Calls that programs make. -/
inductive Op where
  /-- `make_shared<logger>(name, sink)` (spdlog/logger.h:52-62) -/
  | create (name : String)
  | init (p : Nat)
  | register (p : Nat)
  | setDefault (p : Option Nat)
  | setLevel (l : Level)
  | setLevels (levels : List (String × Level)) (global : Option Level)
  | drop (name : String)
  | dropAll
  /-- `set_automatic_registration` (spdlog/details/registry-inl.h:264-268) -/
  | setAuto (b : Bool)
  /-- `logger::set_level` of one logger -/
  | levelOf (p : Nat) (l : Level)
  | setup (level : Int)
  | ownSetLevel (level : Int)
  | log (lvl : Level) (text : String)
  | logTo (p : Nat) (lvl : Level) (text : String)

/-- One call on a rank; `none` is undefined behaviour. -/
def step (rank : Nat) (r : Reg) : Op → Option Reg
  | .create n => some { r with heap := r.heap ++ [⟨n, info⟩] }
  | .init p => init r p
  | .register p => register r p
  | .setDefault p => setDefault r p
  | .setLevel l => some (setLevel r l)
  | .setLevels ls g => some (setLevels r ls g)
  | .drop n => drop r n
  | .dropAll => some (dropAll r)
  | .setAuto b => some { r with auto := b }
  | .levelOf p l => if p < r.heap.length then some { r with heap := setLevelOf r.heap p l } else none
  | .setup l => setup rank r l
  | .ownSetLevel l => ownSetLevel rank r l
  | .log lvl t => log r lvl t
  | .logTo p lvl t => logTo r p lvl t

/-- A program. -/
def run (rank : Nat) (r : Reg) (prog : List Op) : Option Reg := prog.foldlM (step rank) r

end Verif.Registry
