import Verif.Model.Output
/-!
Model of the folders a run writes into: `Util/IOHelper.hpp` 63-75 (`makeSubFolder`), and in which order the ranks create folders and open files: `Sylinder/SylinderSystem.cpp`
83-86 (`initialize`), 535-551 (`writeBox`), 489-533 (`writeAscii`, `writeTimeStepInfo`, `writeVTK`), 553-560 (`writeResult`), with the names of `Sylinder/Sylinder.hpp`
395-397, `Constraint/ConstraintCollector.cpp` 99, 186-188 and of `getResultFolderWithID` (`Model/Output.lean`).

The file system: what is at a path below the working directory.  A call of `mkdir` or `fopen` is atomic.  Left out: permissions, full disks, links, other programs that change
the folders during the run.
-/
namespace Verif.Folders
open Text

/-- What is at a path. -/
inductive Kind where
  | dir
  | file
  deriving DecidableEq

/-- The file system below the working directory; a path is the list of the names. -/
abbrev Disk := List Str → Option Kind

/-- The parts of a path between slashes. -/
def comps : Str → List Str
  | [] => [[]]
  | c :: s =>
    if c = '/' then [] :: comps s
    else match comps s with
      | [] => [[c]]
      | h :: t => (c :: h) :: t

/-- Path resolution: follow the names from folder `cur`; all have to be folders.  Leaving the working directory by `..` is not modelled. -/
def walk (d : Disk) : List Str → List Str → Option (List Str)
  | cur, [] => some cur
  | cur, c :: cs =>
    if c = ['.'] then walk d cur cs
    else if c = ['.', '.'] then (if cur = [] then none else walk d cur.dropLast cs)
    else if d (cur ++ [c]) = some .dir then walk d (cur ++ [c]) cs
    else none

/-- Where a new entry with this path name would be; repeated and trailing slashes do not count. -/
def locate (d : Disk) (p : Str) : Option (List Str) :=
  match ((comps p).filter fun c => c ≠ []).reverse with
  | [] => none
  | c :: cs => if c = ['.'] ∨ c = ['.', '.'] then none else (walk d [] cs.reverse).map (· ++ [c])

/-- The two values of `errno` that matter. -/
inductive Errno where
  | eexist
  | other
  deriving DecidableEq

/-- `mkdir`: the error or the new file system. -/
def mkdir (d : Disk) (p : Str) : Except Errno Disk :=
  match locate d p with
  | none => .error .other
  | some q => if d q = none then .ok (Function.update d q (some .dir)) else .error .eexist

/-- IOHelper.hpp:63-75: `none` is `std::exit(1)`; otherwise `errno` and the file system.  `mkdir` leaves the old value `e` of `errno` if it succeeds; `errno` is looked at first. -/
def makeSubFolder (e : Errno) (d : Disk) (p : Str) : Option (Errno × Disk) :=
  let (err, e', d') : ℤ × Errno × Disk := match mkdir d p with
    | .ok d' => (0, e, d')
    | .error e' => (-1, e', d)
  if e' = .eexist then some (e', d')
  else if err ≠ 0 then none
  else some (e', d')

/-- `fopen` for writing or appending, or the constructor of `std::ofstream`; `none`: a null pointer, or a stream in the fail state. -/
def create (d : Disk) (p : Str) : Option Disk :=
  match locate d p with
  | none => none
  | some q => if d q = some .dir then none else some (Function.update d q (some .file))

/-- An action of a rank on the file system. -/
inductive Act where
  | folder (p : Str)
  | fopen (p : Str)
  | stream (p : Str)

/-- SylinderSystem.cpp:83-86, 536: rank 0, at the end of `initialize`. -/
def startActs (r : ℕ) : List Act := if r = 0 then [.folder "./result".toList, .fopen "./result/simBox.vtk".toList] else []

/-- SylinderSystem.cpp:493, 496, 499: rank 0 opens the file twice, first `writeParticleAscii`, then for the links. -/
def asciiActs (base : Str) (n r : ℕ) : List Act :=
  let p := base ++ ("SylinderAscii_".toList ++ dec n ++ ".dat".toList)
  if r = 0 then [.fopen p, .fopen p] else []

/-- SylinderSystem.cpp:523-533, 511-514 with Sylinder.hpp:395-397, ConstraintCollector.cpp:99, 186-188. -/
def vtkActs (base : Str) (n r : ℕ) : List Act :=
  [.stream (base ++ ("Sylinder_r".toList ++ dec r ++ "_".toList ++ dec n ++ ".vtp".toList)),
    .stream (base ++ ('/' :: ("ConBlock_r".toList ++ dec r ++ "_".toList ++ dec n ++ ".vtp".toList)))] ++
  if r = 0 then
    [.stream (base ++ ("Sylinder_".toList ++ dec n ++ ".pvtp".toList)),
      .stream (base ++ ('/' :: ("ConBlock_".toList ++ dec n ++ ".pvtp".toList))),
      .fopen (base ++ "../../TimeStepInfo.txt".toList)]
  else []

/-- A run with `N` snapshots, the first with number `s0`, in the folders `base`.  `fresh`: it begins with `initialize`, otherwise with `reinitialize`, which creates
no folder.  `direct`: `writeResult` is called without a collective operation after `initialize`. -/
structure Plan where
  fresh : Bool
  direct : Bool
  s0 : ℕ
  N : ℕ
  base : ℕ → Str

/-- What rank `r` does in phase `k`; phases are separated by collective operations, which no rank leaves before all have entered: the reductions of `prepareStep` and `runStep`, `getNumberOfParticleGlobal` (491) and the
barrier (505).  Phase 0 is the end of `initialize`; phases `3 j + 1` to `3 j + 3` are `writeResult` for snapshot `s0 + j`.  Time steps without output do nothing here. -/
def ops (c : Plan) (k r : ℕ) : List Act :=
  match k with
  | 0 => (if c.fresh then startActs r else []) ++ (if c.direct then [.folder (c.base c.s0)] else [])
  | k + 1 =>
    let j := k / 3
    let n := c.s0 + j
    if c.N ≤ j then []
    else if k % 3 = 0 then (if c.direct ∧ j = 0 then [] else [.folder (c.base n)])
    else if k % 3 = 1 then asciiActs (c.base n) n r
    else vtkActs (c.base n) n r

/-- A state: the phase, how far every rank is in it, the file system, `errno` of every rank, the ranks that ended in `std::exit` or with a null pointer in `fprintf`,
and the streams that could not be opened (the code does not notice). -/
structure State where
  phase : ℕ
  done : ℕ → ℕ
  disk : Disk
  errno : ℕ → Errno
  dead : ℕ → Bool
  lost : List Str

/-- The effect of an action of rank `r`. -/
def State.act (st : State) (r : ℕ) (a : Act) : State :=
  let st' := { st with done := Function.update st.done r (st.done r + 1) }
  match a with
  | .folder p =>
    match makeSubFolder (st.errno r) st.disk p with
    | none => { st' with dead := Function.update st.dead r true }
    | some (e, d) => { st' with errno := Function.update st.errno r e, disk := d }
  | .fopen p =>
    match create st.disk p with
    | none => { st' with dead := Function.update st.dead r true }
    | some d => { st' with disk := d }
  | .stream p =>
    match create st.disk p with
    | none => { st' with lost := p :: st.lost }
    | some d => { st' with disk := d }

/-- The states of a run on `P` ranks, with any interleaving; the run begins with the files `d0` and any values of `errno`. -/
inductive Reach (c : Plan) (P : ℕ) (d0 : Disk) (e0 : ℕ → Errno) : State → Prop
  | init : Reach c P d0 e0 ⟨0, fun _ => 0, d0, e0, fun _ => false, []⟩
  | step (st : State) (r : ℕ) (a : Act) : Reach c P d0 e0 st → r < P → st.dead r = false → (ops c st.phase r)[st.done r]? = some a → Reach c P d0 e0 (st.act r a)
  | sync (st : State) : Reach c P d0 e0 st → (∀ r < P, st.dead r = false ∧ st.done r = (ops c st.phase r).length) →
      Reach c P d0 e0 { st with phase := st.phase + 1, done := fun _ => 0 }

end Verif.Folders
