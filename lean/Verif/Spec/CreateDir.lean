import Verif.Model.Folders
/-!
Paths and folders.
-/
namespace Verif.Spec.CreateDir
open Text Folders

/-- The name of a file or folder. -/
def Name (c : Str) : Prop := c ≠ [] ∧ '/' ∉ c ∧ c ≠ ['.'] ∧ c ≠ ['.', '.']

/-- The path of what lies in the folders `names`, one in the other. -/
def path (names : List Str) : Str := List.intercalate ['/'] names

/-- What is in a folder is in a folder. -/
def Tree (d : Disk) : Prop := ∀ q c, d (q ++ [c]) ≠ none → q ≠ [] → d q = some .dir

/-- The file system with the folder `names` and those around it. -/
noncomputable def withFolders (d : Disk) (names : List Str) : Disk :=
  open Classical in fun q => if q ≠ [] ∧ q <+: names then some .dir else d q

end Verif.Spec.CreateDir
