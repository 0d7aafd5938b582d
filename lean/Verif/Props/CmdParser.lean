import Verif.Lemmas.CmdParser
/-! Property C11: command line parsing. -/
namespace Verif
open Cmd Spec

/-- The option objects on which the two parse stages work. -/
private theorem stages (stoi : Word → Option ℤ) (opts : List Opt) (args : List Word) (cmds : List CmdObj)
    (h : run stoi opts args = .ok cmds) : allOwned opts [] args ∧
    ∃ mid, parseStage stoi true (opts.mapIdx (fun i o =>
        (⟨o, decide (given opts i [] args), valuesOf opts i [] args⟩ : CmdObj))) = .ok mid ∧
      mid.any (fun c => c.opt.required && !c.handled) = false ∧ parseStage stoi false mid = .ok cmds := by
  unfold run at h
  simp only at h
  obtain ⟨h1, h2⟩ := assign_eq opts args
  by_cases hA : allOwned opts [] args
  · refine ⟨hA, ?_⟩
    rw [h1 hA] at h
    simp only at h
    cases hm : parseStage stoi true (opts.mapIdx (fun i o =>
        (⟨o, decide (given opts i [] args), valuesOf opts i [] args⟩ : CmdObj))) with
    | ok mid =>
      rw [hm] at h
      simp only at h
      refine ⟨mid, rfl, ?_⟩
      by_cases hr : mid.any (fun c => c.opt.required && !c.handled) = true
      · rw [if_pos hr] at h; simp at h
      · rw [if_neg hr] at h; exact ⟨by simpa using hr, h⟩
    | failed => rw [hm] at h; simp at h
    | exits => rw [hm] at h; simp at h
  · rw [h2 hA] at h
    simp at h

/-- C11, soundness of success: if `run` succeeds, then every value word belongs to an option, every required option was
given, the value of a given option is the meaning of exactly the words that belong to it (so the number of words fits
its type), and an option that was not given keeps its default. -/
theorem C11_run_ok (stoi : Word → Option ℤ) (opts : List Opt) (args : List Word) (cmds : List CmdObj)
    (h : run stoi opts args = .ok cmds) :
    allOwned opts [] args ∧ cmds.length = opts.length ∧
    ∀ (i : ℕ) (o : Opt), opts[i]? = some o → ∃ c, cmds[i]? = some c ∧ c.opt.name = o.name ∧
      (o.required = true → given opts i [] args) ∧
      (given opts i [] args → meaning stoi (valuesOf opts i [] args) o.value = some c.opt.value) ∧
      (¬ given opts i [] args → c.opt.value = o.value) := by
  obtain ⟨hA, mid, hm, hr, hc⟩ := stages stoi opts args cmds h
  rw [parseStage_ok] at hm hc
  have hlen : mid.length = opts.length := by have := hm.length_eq; simpa using this.symm
  have hlen' : cmds.length = mid.length := hc.length_eq.symm
  refine ⟨hA, by omega, ?_⟩
  intro i o ho
  obtain ⟨hi, -⟩ := List.getElem?_eq_some_iff.mp ho
  have hmi : mid[i]? = some mid[i] := List.getElem?_eq_getElem (by omega)
  have hci : cmds[i]? = some cmds[i] := List.getElem?_eq_getElem (by omega)
  have r1 := (forall₂_mapIdx_left _ _ _ _ hm).2 i o _ ho hmi
  have r2 := (List.forall₂_iff_get.mp hc).2 i (by omega) (by omega)
  simp only [List.get_eq_getElem] at r2
  have hreq : ¬ ((mid[i]).opt.required = true ∧ (mid[i]).handled = false) := by
    intro hh
    rw [List.any_eq_false] at hr
    exact absurd hh (by simpa using hr _ (List.getElem_mem _))
  refine ⟨cmds[i], hci, ?_⟩
  generalize cmds[i] = c at *
  generalize mid[i] = m at *
  simp only at r1
  by_cases hg : given opts i [] args
  · by_cases hd : o.dominant = true
    · rw [if_pos (by simp [hg, hd])] at r1
      obtain ⟨v, hv, rfl⟩ := r1
      rw [if_neg (by simp [hd])] at r2
      subst r2
      exact ⟨rfl, fun _ => hg, fun _ => hv, fun hn => absurd hg hn⟩
    · rw [if_neg (by simp [hd])] at r1
      subst r1
      rw [if_pos (by simp [hg, hd])] at r2
      obtain ⟨v, hv, rfl⟩ := r2
      exact ⟨rfl, fun _ => hg, fun _ => hv, fun hn => absurd hg hn⟩
  · rw [if_neg (by simp [hg])] at r1
    subst r1
    rw [if_neg (by simp [hg])] at r2
    subst r2
    refine ⟨rfl, fun hq => ?_, fun hx => absurd hx hg, fun _ => rfl⟩
    exact absurd ⟨hq, by simp [hg]⟩ hreq

/-- C11, completeness: `run` succeeds when every value word belongs to an option, every required option is given and
the words of every given option have a meaning. -/
theorem C11_run_complete (stoi : Word → Option ℤ) (opts : List Opt) (args : List Word)
    (hA : allOwned opts [] args)
    (hreq : ∀ (i : ℕ) (o : Opt), opts[i]? = some o → o.required = true → given opts i [] args)
    (hval : ∀ (i : ℕ) (o : Opt), opts[i]? = some o → given opts i [] args →
      meaning stoi (valuesOf opts i [] args) o.value ≠ none) :
    ∃ cmds, run stoi opts args = .ok cmds := by
  unfold run
  simp only
  rw [(assign_eq opts args).1 hA]
  simp only
  have build : ∀ (dom : Bool) (cs : List CmdObj), (∀ c ∈ cs, c.handled = true → c.opt.dominant = dom →
      meaning stoi c.arguments c.opt.value ≠ none) → ∃ cs', parseStage stoi dom cs = .ok cs' := by
    intro dom cs
    induction cs with
    | nil => intro _; exact ⟨[], rfl⟩
    | cons c cs ih =>
      intro hc
      obtain ⟨cs', hcs'⟩ := ih (fun x hx => hc x (List.mem_cons_of_mem _ hx))
      unfold parseStage
      split
      · rename_i hh
        simp only [Bool.and_eq_true, beq_iff_eq] at hh
        obtain ⟨v, hv⟩ := Option.ne_none_iff_exists'.mp (hc c List.mem_cons_self hh.1 hh.2)
        rw [(parseVal_value stoi c.arguments c.opt.value v).mpr hv, hcs']
        exact ⟨_, rfl⟩
      · rw [hcs']; exact ⟨_, rfl⟩
  have hmem : ∀ c ∈ (opts.mapIdx (fun i o => (⟨o, decide (given opts i [] args), valuesOf opts i [] args⟩ : CmdObj))),
      ∃ i o, opts[i]? = some o ∧ c = ⟨o, decide (given opts i [] args), valuesOf opts i [] args⟩ := by
    intro c hc
    obtain ⟨i, hi⟩ := List.mem_iff_getElem?.mp hc
    rw [List.getElem?_mapIdx] at hi
    cases ho : opts[i]? with
    | none => rw [ho] at hi; simp at hi
    | some o => rw [ho] at hi; simp at hi; exact ⟨i, o, ho, hi.symm⟩
  obtain ⟨mid, hm⟩ := build true (opts.mapIdx (fun i o =>
      (⟨o, decide (given opts i [] args), valuesOf opts i [] args⟩ : CmdObj))) (by
    intro c hc hh _
    obtain ⟨i, o, ho, rfl⟩ := hmem c hc
    exact hval i o ho (by simpa using hh))
  rw [hm]
  simp only
  rw [parseStage_ok] at hm
  have hmid : ∀ m ∈ mid, ∃ c ∈ (opts.mapIdx (fun i o =>
      (⟨o, decide (given opts i [] args), valuesOf opts i [] args⟩ : CmdObj))),
      m.handled = c.handled ∧ m.arguments = c.arguments ∧ m.opt.required = c.opt.required ∧
      m.opt.dominant = c.opt.dominant ∧ (m.opt.dominant = false → m = c) := by
    intro m hmm
    obtain ⟨i, hi⟩ := List.mem_iff_getElem?.mp hmm
    obtain ⟨hi', hie⟩ := List.getElem?_eq_some_iff.mp hi
    have hl := hm.length_eq
    have := (List.forall₂_iff_get.mp hm).2 i (by omega) hi'
    refine ⟨_, List.getElem_mem (by omega : i < _), ?_⟩
    simp only [List.get_eq_getElem] at this
    rw [hie] at this
    revert this
    generalize (opts.mapIdx (fun i o =>
      (⟨o, decide (given opts i [] args), valuesOf opts i [] args⟩ : CmdObj)))[i]'(by omega) = c
    intro this
    split at this
    · rename_i hh
      obtain ⟨v, -, rfl⟩ := this
      simp only [Bool.and_eq_true, beq_iff_eq] at hh
      exact ⟨rfl, rfl, rfl, rfl, fun hf => by simp [hh.2] at hf⟩
    · subst this; exact ⟨rfl, rfl, rfl, rfl, fun _ => rfl⟩
  rw [if_neg]
  · apply build
    intro m hmm hh hd
    obtain ⟨c, hc, -, -, -, -, hx⟩ := hmid m hmm
    have := hx hd
    subst this
    obtain ⟨i, o, ho, rfl⟩ := hmem m hc
    exact hval i o ho (by simpa using hh)
  · simp only [List.any_eq_true, Bool.and_eq_true, Bool.not_eq_true', not_exists, not_and]
    intro m hmm hq hh
    obtain ⟨c, hc, e1, e2, e3, -, -⟩ := hmid m hmm
    obtain ⟨i, o, ho, rfl⟩ := hmem c hc
    have := hreq i o ho (by rw [← hq, e3])
    rw [e1] at hh
    simp [this] at hh

/-- A small option table: help, a flag, a number, a positional word. -/
def sampleOpts : List Opt :=
  [⟨['h'], ['h','e','l','p'], false, true, .help⟩, ⟨['f'], ['f','l','a','g'], false, false, .bool false⟩,
   ⟨['n'], ['n','u','m'], true, false, .int 0⟩, ⟨[], [], false, false, .str []⟩]

/-- `-f -n 7 file` parses (so do the hypotheses of `C11_run_complete`, and `C11_run_ok` applies). -/
example : (match run (fun w => if w = ['7'] then some 7 else none) sampleOpts [['-','f'], ['-','n'], ['7'], ['x']] with
    | .ok cmds => [get cmds ['f'], get cmds ['n'], get cmds []]
    | _ => []) = [some (.bool true), some (.int 7), some (.str ['x'])] := by decide

/-- C11: a word that belongs to no option makes `run` fail. -/
theorem C11_homeless_word (stoi : Word → Option ℤ) (opts : List Opt) (args : List Word)
    (h : ¬ allOwned opts [] args) : run stoi opts args = .failed := by
  unfold run
  simp only
  rw [(assign_eq opts args).2 h]

example : ¬ allOwned (sampleOpts.take 3) [] [['x']] := by
  simp only [sampleOpts, allOwned, owner, namedBy, positional]; decide

/-- C11: values do not depend on the order of option groups.  Take a command line in which two adjacent groups `g1` and
`g2` start with an option name and are followed by nothing or by another option name.  If no option receives values
from both groups, exchanging the groups does not change the outcome of `run`. -/
theorem C11_reorder (stoi : Word → Option ℤ) (opts : List Opt) (pre g1 g2 post : List Word)
    (h1 : startsWithName opts g1) (h2 : startsWithName opts g2) (h3 : startsWithName opts post)
    (hdisj : ∀ i, valuesOf opts i [] g1 = [] ∨ valuesOf opts i [] g2 = []) :
    run stoi opts (pre ++ g1 ++ g2 ++ post) = run stoi opts (pre ++ g2 ++ g1 ++ post) := by
  have hv : ∀ i, valuesOf opts i [] (pre ++ g1 ++ g2 ++ post) = valuesOf opts i [] (pre ++ g2 ++ g1 ++ post) := by
    intro i
    simp only [valuesOf_append]
    rw [valuesOf_starts opts i g1 h1 _ [], valuesOf_starts opts i g2 h2 _ [],
      valuesOf_starts opts i post h3 _ [], valuesOf_starts opts i g1 h1 (_ ++ _) [],
      valuesOf_starts opts i g2 h2 (_ ++ _) [], valuesOf_starts opts i post h3 ((pre ++ g2 ++ g1).reverse ++ []) []]
    rcases hdisj i with h | h <;> simp [h]
  have ha : allOwned opts [] (pre ++ g1 ++ g2 ++ post) ↔ allOwned opts [] (pre ++ g2 ++ g1 ++ post) := by
    simp only [allOwned_append]
    rw [allOwned_starts opts g1 h1 _ [], allOwned_starts opts g2 h2 _ [],
      allOwned_starts opts post h3 _ [], allOwned_starts opts g1 h1 (_ ++ _) [],
      allOwned_starts opts g2 h2 (_ ++ _) [], allOwned_starts opts post h3 ((pre ++ g2 ++ g1).reverse ++ []) []]
    tauto
  have hg : ∀ i, given opts i [] (pre ++ g1 ++ g2 ++ post) ↔ given opts i [] (pre ++ g2 ++ g1 ++ post) := by
    intro i
    unfold given
    rw [hv]
    have : (∃ w ∈ pre ++ g1 ++ g2 ++ post, namedBy opts w = some i) ↔
        (∃ w ∈ pre ++ g2 ++ g1 ++ post, namedBy opts w = some i) := by
      constructor <;> rintro ⟨w, hw, hn⟩ <;> refine ⟨w, ?_, hn⟩ <;> simp only [List.mem_append] at hw ⊢ <;> tauto
    rw [this]
  unfold run
  simp only
  by_cases hA : allOwned opts [] (pre ++ g1 ++ g2 ++ post)
  · rw [(assign_eq opts _).1 hA, (assign_eq opts _).1 (ha.mp hA)]
    simp only [hv, hg]
  · rw [(assign_eq opts _).2 hA, (assign_eq opts _).2 (fun h => hA (ha.mpr h))]

example : startsWithName sampleOpts [['-','f']] ∧ startsWithName sampleOpts [['-','n'], ['7']] ∧
    startsWithName sampleOpts [] ∧ ∀ i, valuesOf sampleOpts i [] [['-','f']] = [] := by
  refine ⟨?_, ?_, ?_, ?_⟩
  · intro w hw; simp at hw; subst hw; decide
  · intro w hw; simp at hw; subst hw; decide
  · intro w hw; simp at hw
  · intro i
    rw [valuesOf, if_neg (fun h => absurd h.1 (by decide))]
    rfl

/-- C11 is false for positional words: directly behind a flag (an option without values) a positional word is taken as a
value of the flag, and parsing does not succeed, whatever the other options and words are. -/
theorem C11_positional_after_flag (stoi : Word → Option ℤ) (opts : List Opt) (pre post : List Word) (f w : Word)
    (i : ℕ) (o : Opt) (b : Bool) (hf : namedBy opts f = some i) (hw : namedBy opts w = none) (ho : opts[i]? = some o)
    (hb : o.value = .bool b) (cmds : List CmdObj) :
    run stoi opts (pre ++ f :: w :: post) ≠ .ok cmds := by
  intro h
  obtain ⟨-, -, h⟩ := C11_run_ok stoi opts _ cmds h
  obtain ⟨c, -, -, -, hm, -⟩ := h i o ho
  have hg : given opts i [] (pre ++ f :: w :: post) := Or.inl ⟨f, by simp, hf⟩
  have := hm hg
  rw [hb, valuesOf_append] at this
  simp only [valuesOf, owner, hf, hw, true_and, if_true, meaning] at this
  simp at this

/-- The same, as a refutation of the last clause of C11: `-n 7 x -f` is accepted, `-n 7 -f x` is not. -/
theorem C11_positional_false : ∃ (stoi : Word → Option ℤ) (opts : List Opt),
    (∃ cmds, run stoi opts [['-','n'], ['7'], ['x'], ['-','f']] = .ok cmds) ∧
    run stoi opts [['-','n'], ['7'], ['-','f'], ['x']] = .failed := by
  refine ⟨fun w => if w = ['7'] then some 7 else none, sampleOpts, ⟨_, rfl⟩, rfl⟩

end Verif
