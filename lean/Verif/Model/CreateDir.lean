import Verif.Model.Folders
/-!
How spdlog makes the folders of a log file and opens it (spdlog/details/os-inl.h 186-200, 508-567, spdlog/details/file_helper-inl.h 28-62), on the file system of
`Model/Folders.lean`.  Paths are relative: they do not begin with a slash.
-/
namespace Verif.CreateDir
open Text Folders

/-- os-inl.h:187-200: what `stat` finds at a path.  A path that ends with a slash is a folder or nothing. -/
def stat (d : Disk) (p : Str) : Option Kind :=
  if p = [] then none
  else match ((comps p).filter fun c => c ≠ []).reverse with
    | [] => some .dir
    | c :: cs => (walk d [] cs.reverse).bind fun cur =>
      let k := if c = ['.'] then some .dir else if c = ['.', '.'] then (if cur = [] then none else some .dir) else d (cur ++ [c])
      if p.getLast? = some '/' ∧ k = some .file then none else k

/-- os-inl.h:548, 508-520: one folder is made unless there is something with its name; `none` if it cannot be made. -/
def ensure (d : Disk) (subdir : Str) : Option Disk :=
  if subdir = [] ∨ stat d subdir ≠ none then some d
  else match mkdir d subdir with
    | .ok d' => some d'
    | .error _ => none

/-- os-inl.h:536-555: the loop of `create_dir`.  `front` is the path before `search_offset`, `rest` is what follows.  The bound is the number of characters. -/
def loop : ℕ → Disk → Str → Str → Bool × Disk
  | 0, d, _, _ => (true, d)
  | n + 1, d, front, rest =>
    let subdir := front ++ rest.takeWhile (· != '/')
    let next := (rest.dropWhile (· != '/')).drop 1
    match ensure d subdir with
    | none => (false, d)
    | some d' => if next = [] then (true, d') else loop n d' (subdir ++ ['/']) next

/-- os-inl.h:524-556: `create_dir`; the result, and the file system. -/
def createDir (d : Disk) (p : Str) : Bool × Disk :=
  if stat d p ≠ none then (true, d)
  else if p = [] then (false, d)
  else loop p.length d [] p

/-- os-inl.h:563-567: `dir_name`. -/
def dirName (p : Str) : Str := if '/' ∈ p then ((p.reverse.dropWhile (· != '/')).drop 1).reverse else []

/-- file_helper-inl.h:36-61: `open` with the tries that are left; `none` if it throws.  What is written to the file is not modelled, so that with `truncate` the file is opened
twice.  `open_tries_` is 5 (file_helper.h:49). -/
def openTries (truncate : Bool) : ℕ → Disk → Str → Option Disk
  | 0, _, _ => none
  | n + 1, d, p =>
    let d1 := (createDir d (dirName p)).2
    let d2 := if truncate then create d1 p else some d1
    match d2 with
    | none => openTries truncate n d1 p
    | some d2 =>
      match create d2 p with
      | some d3 => some d3
      | none => openTries truncate n d2 p

end Verif.CreateDir
