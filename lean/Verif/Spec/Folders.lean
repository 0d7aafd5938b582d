import Verif.Model.Folders
/-! The folders and files of a run. -/
namespace Verif.Spec.Folders
open Text Verif.Folders

/-- The name of the folder of the snapshots `low` to `high`. -/
def folderName (low high : ℕ) : Str := "result".toList ++ dec low ++ "-".toList ++ dec high

/-- The files a complete snapshot `n` on `P` ranks consists of. -/
def snapshotFiles (P n : ℕ) : List Str :=
  ["SylinderAscii_".toList ++ dec n ++ ".dat".toList, "Sylinder_".toList ++ dec n ++ ".pvtp".toList, "ConBlock_".toList ++ dec n ++ ".pvtp".toList] ++
  (List.range P).flatMap fun r => ["Sylinder_r".toList ++ dec r ++ "_".toList ++ dec n ++ ".vtp".toList, "ConBlock_r".toList ++ dec r ++ "_".toList ++ dec n ++ ".vtp".toList]

/-- Nothing is in the way: the folders of the run are missing or folders, the files missing or files. -/
structure Clear (d : Disk) : Prop where
  result : d ["result".toList] ≠ some .file
  folders : ∀ low high, d ["result".toList, folderName low high] ≠ some .file
  box : d ["result".toList, "simBox.vtk".toList] ≠ some .dir
  info : d ["TimeStepInfo.txt".toList] ≠ some .dir
  files : ∀ f g, d ["result".toList, f, g] ≠ some .dir

end Verif.Spec.Folders
