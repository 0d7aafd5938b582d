import Verif.Lemmas.Config
/-! Property C12: the configuration file. -/
namespace Verif
open Config Spec

/-- Conversions for the examples: every scalar means the same value. -/
noncomputable def sampleConv : Conv where
  int := fun n => match n with | .scalar _ => some 3 | _ => none
  real := fun n => match n with | .scalar _ => some 5 | _ => none
  bool := fun n => match n with | .scalar _ => some true | _ => none
  str := fun n => match n with | .scalar s => some s | _ => none

/-- A list of three numbers for the examples. -/
def sampleThree : Node := .seq [.scalar "5", .scalar "5", .scalar "5"]

/-- A file for the examples: all required keys and one boundary of type `t`. -/
def sampleFile (t : String) : Node := .map
  [("rngSeed", .scalar "3"), ("simBoxLow", sampleThree), ("simBoxHigh", sampleThree), ("simBoxPBC", sampleThree),
   ("viscosity", .scalar "5"), ("KBT", .scalar "5"), ("sylinderNumber", .scalar "3"), ("sylinderLength", .scalar "5"),
   ("sylinderDiameter", .scalar "5"), ("dt", .scalar "5"), ("timeTotal", .scalar "5"), ("timeSnap", .scalar "5"),
   ("conResTol", .scalar "5"), ("conMaxIte", .scalar "3"), ("conSolverChoice", .scalar "3"), ("linkGap", .scalar "5"),
   ("boundaries", .seq [.map [("type", .scalar t), ("center", sampleThree), ("norm", sampleThree)]])]

/-- C12, first part: if the constructor comes back, every field has the value of the file where the key is present, and
the documented default where it is absent (the table `Matches`). -/
theorem C12_fields (cv : Conv) (file : Node) (c : Cfg) (h : construct cv file = .ok c) : Matches cv file c :=
  ((construct_ok cv file c).mp h).1

example : ∃ c, construct sampleConv (sampleFile "wall") = .ok c := ⟨_, rfl⟩

/-- C12: and the constructor does come back whenever the table can be filled and each boundary is described. -/
theorem C12_complete (cv : Conv) (file : Node) (c : Cfg) (l : List Node) (h : Matches cv file c)
    (hl : file.lookup "boundaries" = some (.seq l)) (hb : List.Forall₂ (BoundaryIs cv) l c.boundaries) :
    construct cv file = .ok c := by
  rw [construct_ok]
  refine ⟨h, ?_⟩
  unfold readBoundaries
  rw [hl]
  exact readBoundaryList_of cv l _ hb

example : ∃ (c : Cfg) (l : List Node), Matches sampleConv (sampleFile "wall") c ∧
    (sampleFile "wall").lookup "boundaries" = some (.seq l) ∧ List.Forall₂ (BoundaryIs sampleConv) l c.boundaries := by
  refine ⟨_, _, C12_fields _ _ _ rfl, rfl, List.Forall₂.cons ⟨rfl, ⟨(5, 5, 5), Or.inl ⟨_, rfl, ?_⟩, rfl⟩,
    ⟨(5, 5, 5), Or.inl ⟨_, rfl, ?_⟩, rfl⟩⟩ List.Forall₂.nil⟩ <;> exact ⟨_, _, _, rfl, rfl, rfl, rfl⟩

/-- C12: a missing required key ends the program. -/
theorem C12_missing (cv : Conv) (file : Node) (key : String) (hk : key ∈ requiredKeys) (hm : file.lookup key = none) :
    ∃ e, construct cv file = .error e := by
  cases h : construct cv file with
  | error e => exact ⟨e, rfl⟩
  | ok c =>
    exfalso
    have m := C12_fields cv file c h
    have one : ∀ {T : Type} (as : Node → Option T) (v : T), ¬ ValueIs as file key none v := by
      rintro T as v (⟨n, h1, -⟩ | ⟨-, h1⟩)
      · rw [hm] at h1; exact absurd h1 (by simp)
      · exact absurd h1 (by simp)
    have three : ∀ {T : Type} (as : Node → Option T) (v : T × T × T), ¬ TripleIs as file key none v := by
      rintro T as v (⟨n, h1, -⟩ | ⟨-, h1⟩)
      · rw [hm] at h1; exact absurd h1 (by simp)
      · exact absurd h1 (by simp)
    simp only [requiredKeys, List.mem_cons, List.not_mem_nil, or_false] at hk
    rcases hk with rfl | rfl | rfl | rfl | rfl | rfl | rfl | rfl | rfl | rfl | rfl | rfl | rfl | rfl | rfl
    · exact one _ _ m.rngSeed
    · exact three _ _ m.simBoxLow
    · exact three _ _ m.simBoxHigh
    · exact three _ _ m.simBoxPBC
    · exact one _ _ m.viscosity
    · exact one _ _ m.KBT
    · exact one _ _ m.sylinderNumber
    · exact one _ _ m.sylinderLength
    · exact one _ _ m.sylinderDiameter
    · exact one _ _ m.dt
    · exact one _ _ m.timeTotal
    · exact one _ _ m.timeSnap
    · exact one _ _ m.conResTol
    · exact one _ _ m.conMaxIte
    · exact one _ _ m.conSolverChoice

example : "KBT" ∈ requiredKeys ∧ (Node.map [("rngSeed", .scalar "3")]).lookup "KBT" = none := ⟨by decide, rfl⟩

/-- C12: the order of the keys does not matter. -/
theorem C12_order (cv : Conv) (entries entries' : List (String × Node)) (hp : entries.Perm entries')
    (hn : (entries.map Prod.fst).Nodup) : construct cv (.map entries) = construct cv (.map entries') :=
  construct_congr cv _ _ (fun k => lookup_perm hp hn k)

example : ([("dt", Node.scalar "1"), ("KBT", .scalar "2")]).Perm [("KBT", .scalar "2"), ("dt", .scalar "1")] :=
  List.Perm.swap _ _ _

/-- C12, boundaries, as far as it holds: the entries of a known type yield, in order, the boundary they describe.
Missing from the full claim: an entry of an unknown type is passed over (next theorem). -/
theorem C12_boundaries_partial (cv : Conv) (file : Node) (c : Cfg) (l : List Node) (h : construct cv file = .ok c)
    (hl : file.lookup "boundaries" = some (.seq l)) :
    (∀ b ∈ l, (boundaryType cv b).isSome) ∧
    List.Forall₂ (BoundaryIs cv) (l.filter (fun b => decide (∃ t ∈ knownTypes, boundaryType cv b = some t)))
      c.boundaries := by
  have hb := ((construct_ok cv file c).mp h).2
  unfold readBoundaries at hb
  rw [hl] at hb
  exact readBoundaryList_ok cv l _ hb

/-- C12: without the key there are no boundaries. -/
theorem C12_no_boundaries (cv : Conv) (file : Node) (c : Cfg) (h : construct cv file = .ok c)
    (hl : file.lookup "boundaries" = none) : c.boundaries = [] := by
  have hb := ((construct_ok cv file c).mp h).2
  unfold readBoundaries at hb
  rw [hl] at hb
  injection hb with hb
  exact hb.symm

/-- C12, boundaries, when all types are known: each entry yields the boundary it describes. -/
theorem C12_boundaries_known (cv : Conv) (file : Node) (c : Cfg) (l : List Node) (h : construct cv file = .ok c)
    (hl : file.lookup "boundaries" = some (.seq l)) (hk : ∀ b ∈ l, ∃ t ∈ knownTypes, boundaryType cv b = some t) :
    List.Forall₂ (BoundaryIs cv) l c.boundaries := by
  have := (C12_boundaries_partial cv file c l h hl).2
  rwa [List.filter_eq_self.mpr (by simpa using hk)] at this

example : ∃ (c : Cfg) (l : List Node), construct sampleConv (sampleFile "wall") = .ok c ∧
    (sampleFile "wall").lookup "boundaries" = some (.seq l) ∧
    (∀ b ∈ l, ∃ t ∈ knownTypes, boundaryType sampleConv b = some t) ∧ l ≠ [] := by
  refine ⟨_, _, rfl, rfl, ?_, by simp⟩
  intro b hb
  simp only [List.mem_cons, List.not_mem_nil, or_false] at hb
  subst hb
  exact ⟨"wall", by decide, rfl⟩

/-- The claim about boundaries is false: a file with a boundary of type `cone` is accepted, and the boundary is
silently dropped. -/
theorem C12_boundaries_false : ∃ (cv : Conv) (file : Node) (c : Cfg) (b : Node),
    construct cv file = .ok c ∧ file.lookup "boundaries" = some (.seq [b]) ∧ boundaryType cv b = some "cone" ∧
    c.boundaries = [] :=
  ⟨sampleConv, sampleFile "cone", _, _, rfl, rfl, rfl, rfl⟩

end Verif
