import Verif.Model.PointDist

/-!
`dumpPoints` (Util/PointDistribution.cpp:82-107) as it runs on all ranks at once: every rank opens the same file, collects, and
writes what it then has.

A rank is a list of the things that it has left to do.  `MPI_Barrier` (in `collectPts`, Util/PointDistribution.cpp:220,237) holds
a rank until all have come; the gathers are taken not to hold anybody (they may, which only rules out some runs).  What
`fprintf` writes reaches the file in pieces of any sizes, at the position of the rank's own stream.
-/

namespace Verif.Dump

/-- What a rank does. -/
inductive Act where
  /-- `fopen(.., "w")` (Util/PointDistribution.cpp:84) -/
  | open
  /-- `MPI_Barrier` -/
  | barrier
  /-- a piece of what was printed reaches the file -/
  | write (piece : List Char)
  /-- `fclose` (Util/PointDistribution.cpp:106) -/
  | close
  /-- `std::exit(1)` (Util/PointDistribution.cpp:94) -/
  | exit
  deriving DecidableEq

/-- A rank: the position of its stream and what it has left to do. -/
structure Proc where
  pos : Nat
  prog : List Act
  deriving DecidableEq

/-- The file and the ranks. -/
structure Conf where
  file : List Char
  procs : List Proc

/-- Bytes are put at a position; a gap is filled with zeros. -/
def writeAt (file : List Char) (pos : Nat) (piece : List Char) : List Char :=
  file.take pos ++ List.replicate (pos - file.length) '\x00' ++ piece ++ file.drop (pos + piece.length)

/-- The effect of an act on the file and the position. -/
def exec (file : List Char) (pos : Nat) : Act → List Char × Nat
  | .open => ([], 0)
  | .write piece => (writeAt file pos piece, pos + piece.length)
  | .barrier => (file, pos)
  | .close => (file, pos)
  | .exit => (file, pos)

/-- One rank goes on, or all pass a barrier. -/
inductive Step : Conf → Conf → Prop
  | act (file : List Char) (a b : List Proc) (pos : Nat) (x : Act) (rest : List Act) : x ≠ .barrier →
      Step ⟨file, a ++ ⟨pos, x :: rest⟩ :: b⟩ ⟨(exec file pos x).1, a ++ ⟨(exec file pos x).2, rest⟩ :: b⟩
  | barrier (file : List Char) (procs : List Proc) : procs ≠ [] → (∀ p ∈ procs, p.prog.head? = some .barrier) →
      Step ⟨file, procs⟩ ⟨file, procs.map fun p => ⟨p.pos, p.prog.tail⟩⟩

/-- The barriers of `collectPts` (Util/PointDistribution.cpp:206-255): none if there is one rank (:212-214). -/
def sync (nProcs : Nat) : List Act := if nProcs = 1 then [] else [.barrier, .barrier]

/-- The line of point `i` (Util/PointDistribution.cpp:97-102); `fmt` is `%6f`.  `none`: an index beyond the end. -/
def line (fmt : ℝ → List Char) (dim : Nat) (coord value : List ℝ) (i : Nat) : Option (List Char) := do
  let x ← coord[3 * i]?
  let y ← coord[3 * i + 1]?
  let z ← coord[3 * i + 2]?
  let vs ← (List.range dim).mapM fun j => (value[dim * i + j]?).map fun v => ' ' :: fmt v
  some (fmt x ++ ' ' :: fmt y ++ ' ' :: fmt z ++ ';' :: vs.flatten ++ [' ', '\n'])

/-- What a rank prints once it has collected (Util/PointDistribution.cpp:91-103), or `none` for `std::exit(1)`.  Undefined if a
product overflows. -/
def text (fmt : ℝ → List Char) (dim : Nat) (coord value : List ℝ) : Option (Option (List Char)) :=
  let npts := coord.length / 3
  if dim * npts > PointDist.intMax then none
  else if value.length ≠ dim * npts then some none
  else do
    let ls ← (List.range npts).mapM (line fmt dim coord value)
    some (some ls.flatten)

/-- What a rank does from the beginning (Util/PointDistribution.cpp:82-107), when `coord` and `value` are what it has collected. -/
def IsProgram (fmt : ℝ → List Char) (dim nProcs : Nat) (coord value : List ℝ) (prog : List Act) : Prop :=
  (text fmt dim coord value = some none ∧ prog = .open :: (sync nProcs ++ sync nProcs ++ [.exit])) ∨
  ∃ pieces : List (List Char), text fmt dim coord value = some (some pieces.flatten) ∧
    prog = .open :: (sync nProcs ++ sync nProcs ++ (pieces.map .write ++ [.close]))

/-- All ranks have called `dumpPoints` with their parts of the points and values; the file may have any content. -/
def Start (fmt : ℝ → List Char) (dim : Nat) (coords values : List (List ℝ)) (c : Conf) : Prop :=
  ∃ cs vs, PointDist.collectPts coords = some cs ∧ PointDist.collectPts values = some vs ∧ c.procs.length = coords.length ∧
    ∀ (i : Nat) (p : Proc), c.procs[i]? = some p → p.pos = 0 ∧
      ∃ co va, cs[i]? = some co ∧ vs[i]? = some va ∧ IsProgram fmt dim coords.length co va p.prog

end Verif.Dump
