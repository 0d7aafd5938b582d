import Verif.Model.Registry
import Verif.Model.Text

/-!
Levels of loggers from the command line or the environment (spdlog/cfg/helpers-inl.h, spdlog/cfg/argv.h, spdlog/cfg/env.h).
A character stands for a byte.  The order in which an `unordered_map` is gone through is a parameter.
-/

namespace Verif.LoadLevels

open Text (Str)
open Registry (Reg Level)

/-- spdlog/cfg/helpers-inl.h:24-29: `to_lower_` of one character. -/
def lower (c : Char) : Char := if 'A' ≤ c ∧ c ≤ 'Z' then Char.ofNat (c.toNat + ('a'.toNat - 'A'.toNat)) else c

/-- spdlog/cfg/helpers-inl.h:34 -/
def spaces : Str := [' ', '\n', '\r', '\t']

/-- spdlog/cfg/helpers-inl.h:32-38: `trim_`.  If there is nothing but spaces, `find_last_not_of` is `npos`, and `npos + 1` is 0. -/
def trim (s : Str) : Str :=
  let s := (s.reverse.dropWhile (spaces.contains ·)).reverse
  s.dropWhile (spaces.contains ·)

/-- spdlog/cfg/helpers-inl.h:47-61: `extract_kv_`. -/
def extractKv (sep : Char) (s : Str) : Str × Str :=
  if s.contains sep then (trim (s.takeWhile (· != sep)), trim ((s.dropWhile (· != sep)).drop 1)) else (trim [], trim s)

/-- `rv[k] = v` for an `unordered_map`. -/
def put {β : Type} (m : List (Str × β)) (k : Str) (v : β) : List (Str × β) := m.filter (fun e => !(e.1 == k)) ++ [(k, v)]

/-- spdlog/cfg/helpers-inl.h:70-78: the loop of `extract_key_vals_` over what is left of the stream; `getline` fails at its end.
The bound is the number of characters: every line takes one at least. -/
def keyVals : ℕ → Str → List (Str × Str) → List (Str × Str)
  | 0, _, rv => rv
  | n + 1, s, rv =>
    if s = [] then rv
    else
      let token := s.takeWhile (· != ',')
      let rest := (s.dropWhile (· != ',')).drop 1
      if token = [] then keyVals n rest rv
      else
        let kv := extractKv '=' token
        keyVals n rest (put rv kv.1 kv.2)

/-- The names of the levels (spdlog/common.h:154-159). -/
def levelNames : List Str :=
  ["trace".toList, "debug".toList, "info".toList, "warning".toList, "error".toList, "critical".toList, "off".toList]

/-- spdlog/common-inl.h:32-52: `from_str`. -/
def fromStr (name : Str) : Level :=
  if levelNames.contains name then Fin.ofNat 8 (levelNames.idxOf name)
  else if name = "warn".toList then 3
  else if name = "err".toList then Registry.err
  else Registry.off

/-- spdlog/cfg/helpers-inl.h:90-113: the loop of `load_levels`; the levels of names, and the global one. -/
def collect : List (Str × Str) → List (Str × Level) × Option Level → List (Str × Level) × Option Level
  | [], acc => acc
  | e :: es, acc =>
    let levelName := e.2.map lower
    let level := fromStr levelName
    if level = Registry.off ∧ levelName ≠ "off".toList then collect es acc
    else if e.1 = [] then collect es (acc.1, some level)
    else collect es (put acc.1 e.1 level, acc.2)

/-- spdlog/cfg/helpers-inl.h:82-116: `load_levels`.  `order` is how the map is gone through. -/
def loadLevels (order : List (Str × Str) → List (Str × Str)) (input : Str) (r : Reg) : Reg :=
  if input = [] ∨ 512 < input.length then r
  else
    let c := collect (order (keyVals input.length input [])) ([], none)
    Registry.setLevels r (c.1.map fun e => (String.ofList e.1, e.2)) c.2

/-- spdlog/cfg/argv.h:24-36: `load_argv_levels`, for the arguments after the name of the program. -/
def loadArgv (order : List (Str × Str) → List (Str × Str)) (args : List Str) (r : Reg) : Reg :=
  args.foldl (fun r arg =>
    if "SPDLOG_LEVEL=".toList.isPrefixOf arg then loadLevels order (arg.drop "SPDLOG_LEVEL=".toList.length) r else r) r

/-- spdlog/cfg/env.h:28-35: `load_env_levels`, with the value of the variable; an unset variable is an empty one. -/
def loadEnv (order : List (Str × Str) → List (Str × Str)) (value : Str) (r : Reg) : Reg :=
  if value ≠ [] then loadLevels order value r else r

end Verif.LoadLevels
