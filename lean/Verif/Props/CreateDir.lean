import Verif.Lemmas.CreateDir
/-!
C123: the folders of a log file are made, one in the other, and the file is opened.
-/
namespace Verif
open Text Folders CreateDir Spec.CreateDir

/-- C123: if no file is in the way, `create_dir` reports success, the folder and all folders around it are there, and nothing else has changed. -/
theorem C123_made (d : Disk) (names : List Str) (hne : names ≠ []) (hn : ∀ c ∈ names, Name c) (hf : ∀ q, q ≠ [] → q <+: names → d q ≠ some .file) :
    createDir d (path names) = (true, withFolders d names) := createDir_makes d names hne hn hf

/-- C123: if something around the folder is a file, `create_dir` reports failure and has made nothing. -/
theorem C123_stopped (d : Disk) (hd : Tree d) (names : List Str) (hn : ∀ c ∈ names, Name c) (k : ℕ) (h0 : 0 < k) (hk : k < names.length)
    (hf : d (names.take k) = some .file) : createDir d (path names) = (false, d) := createDir_stops hd names hn k h0 hk hf

/-- C123: opening a log file succeeds, with any positive number of tries, exactly if no file is in the way and the name is not that of a folder.  Afterwards its folders and the
file are there, and nothing else has changed. -/
theorem C123_opened (d : Disk) (hd : Tree d) (truncate : Bool) (tries : ℕ) (names : List Str) (f : Str) (hn : ∀ c ∈ names ++ [f], Name c) :
    (((∀ q, q ≠ [] → q <+: names → d q ≠ some .file) ∧ d (names ++ [f]) ≠ some .dir) →
      openTries truncate (tries + 1) d (path (names ++ [f])) = some (Function.update (withFolders d names) (names ++ [f]) (some .file))) ∧
    (¬ ((∀ q, q ≠ [] → q <+: names → d q ≠ some .file) ∧ d (names ++ [f]) ≠ some .dir) → openTries truncate (tries + 1) d (path (names ++ [f])) = none) := by
  refine ⟨fun h => opens truncate tries d names f hn h.1 h.2, fun h => not_opens truncate (tries + 1) hd names f hn ?_⟩
  by_contra hc
  push Not at hc
  exact h ⟨hc.1, hc.2⟩

/-- A file called `logs`. -/
def logsFile : Disk := fun q => if q = ["logs".toList] then some .file else none

/-- C123 is false in one case: the comment (os-inl.h:523) says that success means that the directory is there, but it is also reported if there is a file of that name. -/
theorem C123_file_false : ∃ (d : Disk) (names : List Str), Tree d ∧ names ≠ [] ∧ (∀ c ∈ names, Name c) ∧ (createDir d (path names)).1 = true ∧
    (createDir d (path names)).2 names ≠ some .dir := by
  have hd : Tree logsFile := by
    intro q c h hq
    exfalso
    apply h
    unfold logsFile
    rw [if_neg]
    intro e
    have := congrArg List.length e
    simp at this
    exact hq this
  have hn : ∀ c ∈ ["logs".toList], Name c := by
    intro c hc
    rw [List.mem_singleton] at hc
    subst hc
    exact ⟨by decide, by decide, by decide, by decide⟩
  refine ⟨logsFile, ["logs".toList], hd, by simp, hn, ?_⟩
  rw [createDir_file hd _ (by simp) hn (by decide)]
  exact ⟨rfl, by decide⟩

/-- A file system with the folder `a` only. -/
def folderA : Disk := fun q => if q = ["a".toList] then some .dir else none

/-- C123 is met: `a/b/c` in it, with `a` there. -/
example : createDir folderA (path ["a".toList, "b".toList, "c".toList]) = (true, withFolders folderA ["a".toList, "b".toList, "c".toList]) := by
  refine C123_made _ _ (by simp) ?_ ?_
  · intro c hc
    simp only [List.mem_cons, List.not_mem_nil, or_false] at hc
    rcases hc with rfl | rfl | rfl <;> exact ⟨by decide, by decide, by decide, by decide⟩
  · intro q _ _ h
    unfold folderA at h
    split_ifs at h
    cases h

/-- The same by computation. -/
example : let r := createDir folderA "a/b/c".toList
    r.1 = true ∧ r.2 ["a".toList, "b".toList] = some .dir ∧ r.2 ["a".toList, "b".toList, "c".toList] = some .dir ∧ r.2 ["b".toList] = none := by decide +kernel

/-- C123 is met: `logs/run/log.txt` cannot be opened, since `logs` is a file. -/
example : createDir logsFile "logs/run".toList = (false, logsFile) := by
  have := C123_stopped logsFile (by
    intro q c h hq
    exfalso
    apply h
    unfold logsFile
    rw [if_neg]
    intro e
    have := congrArg List.length e
    simp at this
    exact hq this) ["logs".toList, "run".toList] (by
    intro c hc
    simp only [List.mem_cons, List.not_mem_nil, or_false] at hc
    rcases hc with rfl | rfl <;> exact ⟨by decide, by decide, by decide, by decide⟩) 1 (by simp) (by simp) (by decide)
  exact this

/-- Both outcomes of `open`. -/
example : (openTries true 5 folderA "a/b/log.txt".toList).map (fun d => (d ["a".toList, "b".toList], d ["a".toList, "b".toList, "log.txt".toList])) = some (some .dir, some .file) ∧
    (openTries false 5 logsFile "logs/log.txt".toList).isNone = true := by decide +kernel

end Verif
