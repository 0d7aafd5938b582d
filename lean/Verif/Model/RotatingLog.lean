import Verif.Model.Text
import Mathlib.Logic.Function.Basic

/-!
`spdlog::sinks::rotating_file_sink` (spdlog/sinks/rotating_file_sink-inl.h) with `spdlog::details::file_helper`
(spdlog/details/file_helper-inl.h), on Linux.

A text is a list of bytes, written as characters.  The file system is a map from paths to contents; nobody else changes it.
Calls of `rename` and attempts to open a file may fail; the outcomes are part of the state.  Not modelled: folders
(`create_dir`), writes that fail, the buffer of `FILE` (a write reaches the file at once), the formatter (a message is its
formatted text), and locks (one thread at a time).  The name of the file is not empty (`reopen` would throw).
-/

namespace Verif.RotatingLog

open Text (Str dec)

/-- The contents of all files. -/
abbrev Files := Str → Option Str

/-- `rfind(c)`: the last position of a character. -/
def rfind (c : Char) : Str → Option ℕ
  | [] => none
  | a :: l =>
    match rfind c l with
    | some i => some (i + 1)
    | none => if a = c then some 0 else none

/-- spdlog/details/file_helper-inl.h:124-144: `split_by_extension`.  The folder separator is `/` (spdlog/details/os.h:32-44). -/
def splitByExtension (fname : Str) : Str × Str :=
  match rfind '.' fname with
  | none => (fname, [])
  | some extIndex =>
    if extIndex = 0 ∨ extIndex = fname.length - 1 then (fname, [])
    else
      match rfind '/' fname with
      | none => (fname.take extIndex, fname.drop extIndex)
      | some folderIndex =>
        if folderIndex ≥ extIndex - 1 then (fname, []) else (fname.take extIndex, fname.drop extIndex)

/-- spdlog/sinks/rotating_file_sink-inl.h:43-54: `calc_filename`. -/
def calcFilename (fname : Str) (index : ℕ) : Str :=
  if index = 0 then fname
  else (splitByExtension fname).1 ++ '.' :: (dec index ++ (splitByExtension fname).2)

/-- What comes out of the tries of `file_helper::open` (spdlog/details/file_helper-inl.h:28-62): the file is open; it is not;
it is not, although it could be truncated. -/
inductive Opened where
  | opened
  | refused
  | emptied
  deriving DecidableEq

/-- spdlog/sinks/rotating_file_sink.h:45-47 -/
structure Conf where
  base : Str
  maxSize : ℕ
  maxFiles : ℕ

/-- The members that change (spdlog/sinks/rotating_file_sink.h:48-49), the files, and the outcomes of the calls of `rename`
and of the attempts to open a file that are still to come, in their order; those beyond the end of the lists succeed. -/
structure Sink where
  files : Files
  /-- `fd_ != nullptr` -/
  isOpen : Bool
  size : ℕ
  renames : List Bool
  opens : List Opened

/-- The name of the file with a number. -/
def Conf.name (c : Conf) (i : ℕ) : Str := calcFilename c.base i

/-- spdlog/sinks/rotating_file_sink-inl.h:122-128: `rename_file_`, and whether it succeeds.  The target is removed in any case. -/
def renameFile (src target : Str) (s : Sink) : Bool × Sink :=
  let files := Function.update s.files target none
  let ok := s.renames.headD true
  (ok, { s with
    files := if ok then Function.update (Function.update files target (files src)) src none else files
    renames := s.renames.tail })

/-- spdlog/sinks/rotating_file_sink-inl.h:94-116: the loop of `rotate_` from `i`, and whether it gets to its end. -/
def rotateLoop (c : Conf) : ℕ → Sink → Bool × Sink
  | 0, s => (true, s)
  | i + 1, s =>
    if s.files (c.name i) = none then rotateLoop c i s
    else
      let (ok, s) := renameFile (c.name i) (c.name (i + 1)) s
      if ok then rotateLoop c i s
      else
        let (ok, s) := renameFile (c.name i) (c.name (i + 1)) s
        if ok then rotateLoop c i s else (false, s)

/-- spdlog/details/file_helper-inl.h:28-71: `open(filename_, truncate)`; `false` if it throws. -/
def openFile (c : Conf) (truncate : Bool) (s : Sink) : Bool × Sink :=
  let was := s.files (c.name 0)
  let s' := { s with isOpen := false, opens := s.opens.tail }
  match s.opens.headD .opened with
  | .opened =>
    (true, { s' with isOpen := true, files := Function.update s.files (c.name 0) (some (if truncate then [] else was.getD [])) })
  | .refused => (false, s')
  | .emptied => (false, if truncate then { s' with files := Function.update s.files (c.name 0) (some []) } else s')

/-- spdlog/sinks/rotating_file_sink-inl.h:88-118: `rotate_`; `false` if it throws. -/
def rotate (c : Conf) (s : Sink) : Bool × Sink :=
  let (ok, s) := rotateLoop c c.maxFiles { s with isOpen := false }
  if ok then openFile c true s
  else
    let (ok, s) := openFile c true s
    (false, if ok then { s with size := 0 } else s)

/-- `std::size_t` -/
def sizeT (n : ℕ) : ℕ := n % 2 ^ 64

/-- spdlog/sinks/rotating_file_sink-inl.h:63-75 and spdlog/details/file_helper-inl.h:87-95: `sink_it_`, and whether the message
was written (otherwise there was an exception); `none` if `fwrite` gets a null pointer. -/
def sinkIt (c : Conf) (msg : Str) (s : Sink) : Option (Bool × Sink) :=
  let s := { s with size := sizeT (s.size + msg.length) }
  let r := if s.size > c.maxSize then (let r := rotate c s; (r.1, if r.1 then { r.2 with size := msg.length } else r.2)) else (true, s)
  if r.1 then
    if r.2.isOpen then
      some (true, { r.2 with files := Function.update r.2.files (c.name 0) (some ((r.2.files (c.name 0)).getD [] ++ msg)) })
    else none
  else some (false, r.2)

/-- spdlog/sinks/rotating_file_sink-inl.h:26-39: the constructor; `none` if it throws. -/
def create (c : Conf) (rotateOnOpen : Bool) (files : Files) (renames : List Bool) (opens : List Opened) : Option Sink :=
  let (ok, s) := openFile c false { files := files, isOpen := false, size := 0, renames := renames, opens := opens }
  if ok then
    let s := { s with size := ((s.files (c.name 0)).getD []).length }
    if rotateOnOpen ∧ s.size > 0 then
      let (ok, s) := rotate c s
      if ok then some s else none
    else some s
  else none

/-- One message after the other; the logger catches the exceptions (spdlog/logger-inl.h:178-190), reports them and goes on. -/
def sinkAll (c : Conf) : List Str → Sink → Option Sink
  | [], s => some s
  | m :: l, s => (sinkIt c m s).bind fun r => sinkAll c l r.2

end Verif.RotatingLog
