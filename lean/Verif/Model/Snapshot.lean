import Verif.Model.Output
import Verif.Model.Sylinder
import Verif.Model.Orient
/-!
Model of the snapshot files and of reading them back: `Sylinder/Sylinder.cpp` lines 101-109 (`writeAscii`),
`Sylinder/Sylinder.hpp` lines 218-453 (`writePVTP`, `writeVTP`, the arrays that a restart reads) and 459-464 (header),
`Sylinder/SylinderSystem.cpp` lines 106-175 (`reinitialize`), 314-476 (`setInitialFromFile`, `setLinkMapFromFile`,
`setInitialFromVTKFile`), 489-533 and 553-560 (`writeAscii`, `writeTimeStepInfo`, `writeVTK`, `writeResult`).

Printing and reading of floating point numbers are functions `print`, `scan` (what is assumed of them is in
`Verif.Spec.Snapshot`).  The text form of a VTP file (C01, C03, C62) is left out: a file is the list of the values of its
arrays, one record per body; `r32` is the conversion from `double` to `float`.  `ConBlock` files are left out.  The VTK reader
of a parallel file gives the concatenation of its pieces, found in the folder of the parallel file.  FDPS'
`writeParticleAscii` writes the header and then the particles of all ranks in the order of the ranks.
-/
namespace Verif.Snapshot
open Verif.Text Verif.V3

/-- `fprintf` of a `double` with `%.8g`, with `%lf`, and extraction of a `double` from a stream. -/
structure Fmt where
  print : ℝ → Str
  printF : ℝ → Str
  scan : Str → Option (ℝ × Str)

/-! ### ascii -/

/-- A real number after a blank. -/
def field (F : Fmt) (x : ℝ) : Str := ' ' :: F.print x

/-- Sylinder.cpp:103, 104: the ends of a body. -/
noncomputable def minusEnd (s : Sylinder) : V3 := s.pos - (0.5 * s.length) • s.direction
noncomputable def plusEnd (s : Sylinder) : V3 := s.pos + (0.5 * s.length) • s.direction

/-- Sylinder.cpp:101-109, without the end of the line. -/
noncomputable def bodyLine (F : Fmt) (s : Sylinder) : Str :=
  (if s.isImmovable then 'S' else 'C') :: (' ' :: decInt s.gid ++ (field F s.radius ++
    (field F (minusEnd s).x ++ (field F (minusEnd s).y ++ (field F (minusEnd s).z ++
    (field F (plusEnd s).x ++ (field F (plusEnd s).y ++ (field F (plusEnd s).z ++ (' ' :: decInt s.group)))))))))

/-- SylinderSystem.cpp:501, without the end of the line. -/
def linkLine (l : ℤ × ℤ) : Str := 'L' :: (' ' :: decInt l.1 ++ (' ' :: decInt l.2))

/-- Lines with their end marks. -/
def unlines (ls : List Str) : Str := ls.flatMap fun l => l ++ ['\n']

/-- SylinderSystem.cpp:489-504 with Sylinder.hpp:463: the text of the ascii file; the links in any order (the map is
unordered). -/
noncomputable def asciiText (F : Fmt) (time : ℝ) (bodies : List Sylinder) (links : List (ℤ × ℤ)) : Str :=
  unlines ((decInt bodies.length ++ [' ']) :: (' ' :: F.printF time) :: (bodies.map (bodyLine F) ++ links.map linkLine))

/-- SylinderSystem.cpp:326-327: the group, `-1` at the end of the line, `0` if there is no number. -/
def readGroup (s : Str) : ℤ := if skipWs s = [] then -1 else ((readInt s).map Prod.fst).getD 0

/-- SylinderSystem.cpp:317-344: a body from a line; `none` if an extraction fails.  `blank` is the default constructed
body. -/
noncomputable def parseBody (F : Fmt) (svdAxis : V3 → V3 → V3) (blank : Sylinder) (line : Str) : Option Sylinder := do
  let (type, s) ← readChar line
  let (gid, s) ← readInt s
  let (radius, s) ← F.scan s
  let (mx, s) ← F.scan s
  let (my, s) ← F.scan s
  let (mz, s) ← F.scan s
  let (px, s) ← F.scan s
  let (py, s) ← F.scan s
  let (pz, s) ← F.scan s
  let group := readGroup s
  let length := Real.sqrt ((px - mx) ^ 2 + (py - my) ^ 2 + (pz - mz) ^ 2)
  some { blank with
    pos := ⟨(mx + px) * 0.5, (my + py) * 0.5, (mz + pz) * 0.5⟩
    gid := gid
    group := group
    isImmovable := type == 'S'
    radius := radius
    radiusCollision := radius
    length := length
    lengthCollision := length
    orientation :=
      if length > 1 / 10 ^ 7 then Orient.fromTwoVectors svdAxis ⟨0, 0, 1⟩ ⟨px - mx, py - my, pz - mz⟩
      else Orient.fromTwoVectors svdAxis ⟨0, 0, 1⟩ ⟨0, 0, 1⟩ }

/-- SylinderSystem.cpp:346-375: the bodies, on rank 0. -/
noncomputable def setInitialFromFile (F : Fmt) (svdAxis : V3 → V3 → V3) (blank : Sylinder) (text : Str) : Option (List Sylinder) :=
  ((((lines text).drop 2).filter fun l => l.head? == some 'C' || l.head? == some 'S').mapM (parseBody F svdAxis blank)).map
    fun bodies => bodies.map Sylinder.clear

/-- SylinderSystem.cpp:380-385: a link from a line. -/
def parseLink (line : Str) : Option (ℤ × ℤ) := do
  let (_, s) ← readChar line
  let (prev, s) ← readInt s
  let (next, _) ← readInt s
  some (prev, next)

/-- SylinderSystem.cpp:387-401: the links of a file. -/
def readLinks (text : Str) : Option (List (ℤ × ℤ)) :=
  (((lines text).drop 2).filter fun l => l.head? == some 'L').mapM parseLink

/-! ### VTK files and restart -/

/-- Sylinder.hpp:282-453: the values of one body that a restart reads. -/
structure Record where
  end0 : V3
  end1 : V3
  gid : ℤ
  group : ℤ
  isImmovable : ℕ
  radius : ℝ
  radiusCollision : ℝ
  length : ℝ
  lengthCollision : ℝ
  vel : V3
  omega : V3
  znorm : V3

/-- A vector converted to `float`. -/
def v32 (r32 : ℝ → ℝ) (v : V3) : V3 := ⟨r32 v.x, r32 v.y, r32 v.z⟩

/-- Sylinder.hpp:330-397 -/
noncomputable def record (r32 : ℝ → ℝ) (s : Sylinder) : Record where
  end0 := s.pos - (s.length * 0.5) • s.direction
  end1 := s.pos + (s.length * 0.5) • s.direction
  gid := s.gid
  group := s.group
  isImmovable := if s.isImmovable then 1 else 0
  radius := r32 s.radius
  radiusCollision := r32 s.radiusCollision
  length := r32 s.length
  lengthCollision := r32 s.lengthCollision
  vel := v32 r32 s.vel
  omega := v32 r32 s.omega
  znorm := v32 r32 s.direction

/-- SylinderSystem.cpp:443-470 -/
noncomputable def fromRecord (svdAxis : V3 → V3 → V3) (blank : Sylinder) (r : Record) : Sylinder :=
  { blank with
    pos := (0.5 : ℝ) • (r.end0 + r.end1)
    gid := r.gid
    group := r.group
    isImmovable := decide (r.isImmovable > 0)
    length := r.length
    lengthCollision := r.lengthCollision
    radius := r.radius
    radiusCollision := r.radiusCollision
    orientation := Orient.fromTwoVectors svdAxis ⟨0, 0, 1⟩ r.znorm
    vel := r.vel
    omega := r.omega }

/-- A file. -/
inductive File where
  | text (s : Str)
  | piece (r : List Record)
  | head (pieces : List Str)

/-- The files, by path. -/
def Disk := Str → Option File

/-- No files. -/
def Disk.empty : Disk := fun _ => none

/-- A file is written. -/
def Disk.put (d : Disk) (path : Str) (f : File) : Disk := fun p => if p = path then some f else d p

/-- Sylinder.hpp:259 and 400: the name of the piece of a rank. -/
def pieceName (rank snap : ℕ) : Str := "Sylinder_".toList ++ "r".toList ++ dec rank ++ "_".toList ++ dec snap ++ ".vtp".toList

/-- The restart file; `baseFolder + "../../TimeStepInfo.txt"` is this file. -/
def infoPath : Str := "TimeStepInfo.txt".toList

/-- The pieces of all ranks. -/
noncomputable def putPieces (r32 : ℝ → ℝ) (folder : Str) (snap : ℕ) (d : Disk) (ranks : List (List Sylinder)) : Disk :=
  ranks.zipIdx.foldl (fun d b => d.put (folder ++ pieceName b.2 snap) (.piece (b.1.map (record r32)))) d

/-- SylinderSystem.cpp:553-559 on all ranks, without failures; `ranks` are the bodies of every rank. -/
noncomputable def writeResult (F : Fmt) (r32 : ℝ → ℝ) (dt : ℝ) (seed step snap : ℕ) (ranks : List (List Sylinder))
    (links : List (ℤ × ℤ)) (d : Disk) : Option Disk :=
  (Output.resultFolder ranks.length snap).map fun folder =>
    let d := d.put (folder ++ Output.asciiName snap) (.text (asciiText F (step * dt) ranks.flatten links))
    let d := putPieces r32 folder snap d ranks
    let d := d.put (folder ++ Output.pvtpName snap) (.head ((List.range ranks.length).map (pieceName · snap)))
    d.put infoPath (.text (Output.writeInfo seed step snap))

/-- What `reinitialize` sets up. -/
structure Restarted where
  seed : ℕ
  stepCount : ℕ
  snapID : ℕ
  bodies : List Sylinder
  links : List (ℤ × ℤ)

/-- The text of a text file. -/
def Disk.textAt (d : Disk) (path : Str) : Option Str :=
  match d path with
  | some (.text s) => some s
  | _ => none

/-- The records of a piece. -/
def Disk.pieceAt (d : Disk) (path : Str) : Option (List Record) :=
  match d path with
  | some (.piece r) => some r
  | _ => none

/-- The names of the pieces in a parallel file. -/
def Disk.headAt (d : Disk) (path : Str) : Option (List Str) :=
  match d path with
  | some (.head names) => some names
  | _ => none

/-- The VTK reader: the records of all pieces. -/
def readPieces (d : Disk) (folder pvtp : Str) : Option (List Record) :=
  (d.headAt (folder ++ pvtp)).bind fun names => (names.mapM fun n => d.pieceAt (folder ++ n)).map List.flatten

/-- SylinderSystem.cpp:106-159 on `size` ranks with `eulerStep`; a missing ascii file has no links; a missing VTK file is
`none`. -/
noncomputable def reinitialize (svdAxis : V3 → V3 → V3) (blank : Sylinder) (fixed : Bool) (dt : ℝ) (size : ℕ) (d : Disk) :
    Option Restarted := do
  let info ← (d.textAt infoPath).bind Output.readInfo
  let ascii ← Output.asciiOf info.pvtp
  let folder ← Output.resultFolder size info.snapID
  let records ← readPieces d folder info.pvtp
  let bodies := records.map (fromRecord svdAxis blank)
  let links ← (d.textAt (folder ++ ascii)).elim (some []) readLinks
  let bodies := if fixed then bodies else bodies.map (fun s => s.stepEuler dt)
  let (seed, step, snap) ← Output.restartCounters info
  some ⟨seed, step, snap, bodies, links⟩

/-! ### histories of restarts -/

/-- The counters at the start of a run: SylinderSystem.cpp:37-38 without a restart file, 115-116 and 158-159 with one. -/
def startCounters : Option (ℤ × ℤ) → Output.Run
  | none => ⟨0, 0, []⟩
  | some (step, snap) => ⟨step + 1, snap + 1, []⟩

/-- A number of steps. -/
def steps (every : ℤ) : ℕ → Output.Run → Option Output.Run
  | 0, r => some r
  | n + 1, r => (Output.runStep every r).bind (steps every n)

/-- Runs of `ms` steps, each ended by a crash, each begun from the restart file of the last snapshot: all snapshots written. -/
def history (every : ℤ) : Option (ℤ × ℤ) → List ℕ → Option (List (ℤ × ℤ))
  | _, [] => some []
  | file, m :: ms => do
    let r ← steps every m (startCounters file)
    let rest ← history every (r.log.getLast?.or file) ms
    some (r.log ++ rest)

/-- SylinderSystem.cpp:41 and 120: the seed of a run. -/
def runSeed (rngSeed : ℕ) : Option ℕ → ℕ
  | none => rngSeed
  | some s => (s + 1) % 2 ^ 32

/-- SylinderSystem.cpp:41 and 120, 515: the seeds of successive runs, each with whether it lived to write a snapshot;
`file` is the seed in the restart file. -/
def seeds (rngSeed : ℕ) : Option ℕ → List Bool → List (ℕ × Bool)
  | _, [] => []
  | file, wrote :: rest =>
    (runSeed rngSeed file, wrote) :: seeds rngSeed (if wrote then some (runSeed rngSeed file) else file) rest

end Verif.Snapshot
