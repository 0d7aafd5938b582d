import Verif.Spec.CmdParser
import Mathlib.Data.List.Forall2
import Mathlib.Data.List.Basic
import Mathlib.Tactic.Tauto
/-! Helper lemmas for the command line parser. -/
namespace Verif.Cmd
open Spec

theorem parseVal_value (stoi : Word → Option ℤ) (ws : List Word) (old v : Val) :
    parseVal stoi ws old = .value v ↔ meaning stoi ws old = some v := by
  cases old with
  | int x =>
    match ws with
    | [] => simp [parseVal, meaning]
    | [e] =>
      simp only [parseVal, meaning, List.length_singleton, if_true, List.headD_cons]
      cases stoi e <;> simp
    | _ :: _ :: _ => simp [parseVal, meaning]
  | bool b => match ws with
    | [] => simp [parseVal, meaning]
    | _ :: _ => simp [parseVal, meaning]
  | str s => match ws with
    | [] => simp [parseVal, meaning]
    | [e] => simp [parseVal, meaning]
    | _ :: _ :: _ => simp [parseVal, meaning]
  | ints l =>
    simp only [parseVal, meaning]
    cases ws.mapM stoi <;> simp
  | strs l => simp [parseVal, meaning]
  | help => simp [parseVal, meaning]

theorem find_eq (opts : List Opt) (cmds : List CmdObj) (h : cmds.map CmdObj.opt = opts) (w : Word) :
    (if (w.length > 0 && w.head? == some '-') then find cmds w else none) = namedBy opts w := by
  subst h
  unfold find namedBy
  rw [List.findIdx?_map]
  by_cases hw : (w.length > 0 && w.head? == some '-') = true
  · rw [if_pos hw]
    congr 1
    funext c
    simp only [Function.comp, Opt.is, Opt.command, Opt.altCommand]
    have hne : w ≠ [] := by
      rintro rfl; simp at hw
    cases hn : c.opt.name <;> cases ha : c.opt.alternative <;> simp [hne]
  · rw [if_neg hw]
    symm
    rw [List.findIdx?_eq_none_iff]
    intro c _
    simp only [Function.comp]
    cases w with
    | nil => simp
    | cons a w =>
      have : a ≠ '-' := by
        intro h; subst h; simp at hw
      simp [this]

theorem findDefault_eq (opts : List Opt) (cmds : List CmdObj) (h : cmds.map CmdObj.opt = opts) :
    findDefault cmds = positional opts := by
  subst h
  unfold findDefault positional
  rw [List.findIdx?_map]
  rfl

theorem takesList_eq (opts : List Opt) (cmds : List CmdObj) (h : cmds.map CmdObj.opt = opts) (j : ℕ) :
    (cmds[j]?.map (fun c => c.opt.value.variadic)).getD false = takesList opts j := by
  subst h
  unfold takesList
  rw [List.getElem?_map]
  cases cmds[j]? with
  | none => rfl
  | some c => simp only [Option.map_some, Option.getD_some]; cases c.opt.value <;> rfl

/-- State of the option objects after the words `rest`, preceded by `before`. -/
def after (opts : List Opt) (before rest : List Word) (cmds : List CmdObj) : List CmdObj :=
  cmds.mapIdx (fun i c => { c with
    arguments := c.arguments ++ valuesOf opts i before rest,
    handled := c.handled || decide (given opts i before rest) })

theorem map_opt_modify (cmds : List CmdObj) (i : ℕ) (f : CmdObj → CmdObj) (hf : ∀ c, (f c).opt = c.opt) :
    (cmds.modify i f).map CmdObj.opt = cmds.map CmdObj.opt := by
  apply List.ext_getElem
  · simp
  · intro k h1 h2
    simp only [List.getElem_map, List.getElem_modify]
    split <;> simp [hf]

theorem assignLoop_eq (opts : List Opt) (rest : List Word) : ∀ (before : List Word) (cmds : List CmdObj),
    cmds.map CmdObj.opt = opts →
    ((allOwned opts before rest → assignLoop cmds (owner opts before) rest = some (after opts before rest cmds)) ∧
     (¬ allOwned opts before rest → assignLoop cmds (owner opts before) rest = none)) := by
  induction rest with
  | nil =>
    intro before cmds h
    refine ⟨fun _ => ?_, fun hn => absurd trivial hn⟩
    simp only [assignLoop, after, Option.some.injEq]
    apply List.ext_getElem
    · simp
    · intro i h1 h2; simp [valuesOf, given]
  | cons w rest ih =>
    intro before cmds h
    unfold assignLoop
    simp only
    have hf := find_eq opts cmds h w
    simp only [hf]
    cases hn : namedBy opts w with
    | some i =>
      have hmod := map_opt_modify cmds i (fun c => { c with handled := true }) (fun _ => rfl)
      obtain ⟨ih1, ih2⟩ := ih (w :: before) (cmds.modify i (fun c => { c with handled := true })) (hmod.trans h)
      have ho : owner opts (w :: before) = some i := by simp [owner, hn]
      rw [ho] at ih1 ih2
      have hall : allOwned opts before (w :: rest) ↔ allOwned opts (w :: before) rest := by
        simp [allOwned, hn]
      refine ⟨fun hA => ?_, fun hA => ?_⟩
      · simp only []
        rw [ih1 (hall.mp hA)]
        congr 1
        apply List.ext_getElem
        · simp [after]
        · intro k h1 h2
          simp only [after, List.getElem_mapIdx, List.getElem_modify]
          have hv : valuesOf opts k before (w :: rest) = valuesOf opts k (w :: before) rest := by
            simp [valuesOf, hn]
          have hg : given opts k before (w :: rest) ↔ (i = k ∨ given opts k (w :: before) rest) := by
            unfold given
            rw [hv]
            simp only [List.mem_cons, exists_eq_or_imp, hn, Option.some.injEq]
            rw [or_assoc]
          rw [hv]
          by_cases hk : i = k
          · have hg' := hg.mpr (Or.inl hk)
            simp [hk, hg']
          · have hg' : given opts k before (w :: rest) ↔ given opts k (w :: before) rest := by
              rw [hg]; simp [hk]
            have hd : decide (given opts k before (w :: rest)) = decide (given opts k (w :: before) rest) :=
              decide_eq_decide.mpr hg'
            rw [hd]; simp [hk]
      · simp only []
        exact ih2 (fun hx => hA (hall.mpr hx))
    | none =>
      cases ho : owner opts before with
      | none =>
        refine ⟨fun hA => ?_, fun _ => rfl⟩
        exact absurd ho (hA.1 hn)
      | some j =>
        simp only []
        have hmod := map_opt_modify cmds j (fun c => { c with arguments := c.arguments ++ [w], handled := true })
          (fun _ => rfl)
        obtain ⟨ih1, ih2⟩ := ih (w :: before)
          (cmds.modify j (fun c => { c with arguments := c.arguments ++ [w], handled := true })) (hmod.trans h)
        have ho' : owner opts (w :: before) = if takesList opts j then some j else positional opts := by
          simp [owner, hn, ho]
        rw [takesList_eq opts cmds h, findDefault_eq opts _ (hmod.trans h), ← ho']
        have hall : allOwned opts before (w :: rest) ↔ allOwned opts (w :: before) rest := by
          simp [allOwned, ho]
        refine ⟨fun hA => ?_, fun hA => ih2 (fun hx => hA (hall.mpr hx))⟩
        rw [ih1 (hall.mp hA)]
        congr 1
        apply List.ext_getElem
        · simp [after]
        · intro k h1 h2
          simp only [after, List.getElem_mapIdx, List.getElem_modify]
          by_cases hk : j = k
          · subst hk
            have hv : valuesOf opts j before (w :: rest) = w :: valuesOf opts j (w :: before) rest := by
              simp [valuesOf, hn, ho]
            have hg : given opts j before (w :: rest) := by
              right; rw [hv]; simp
            simp [hv, hg]
          · have hv : valuesOf opts k before (w :: rest) = valuesOf opts k (w :: before) rest := by
              simp [valuesOf, hn, ho, hk]
            have hg : given opts k before (w :: rest) ↔ given opts k (w :: before) rest := by
              unfold given
              rw [hv]
              simp only [List.mem_cons, exists_eq_or_imp, hn]
              simp
            have hd : decide (given opts k before (w :: rest)) = decide (given opts k (w :: before) rest) :=
              decide_eq_decide.mpr hg
            rw [hv, hd]; simp [hk]

/-- One parse stage succeeds exactly when all its commands parse. -/
theorem parseStage_ok (stoi : Word → Option ℤ) (dom : Bool) (cmds cmds' : List CmdObj) :
    parseStage stoi dom cmds = .ok cmds' ↔
      List.Forall₂ (fun c c' => if c.handled && (c.opt.dominant == dom) then
          ∃ v, meaning stoi c.arguments c.opt.value = some v ∧ c' = { c with opt := { c.opt with value := v } }
        else c' = c) cmds cmds' := by
  induction cmds generalizing cmds' with
  | nil =>
    simp only [parseStage, Outcome.ok.injEq, List.forall₂_nil_left_iff]
    exact eq_comm
  | cons c cs ih =>
    unfold parseStage
    by_cases hc : (c.handled && (c.opt.dominant == dom)) = true
    · simp only [hc, if_true]
      rw [List.forall₂_cons_left_iff]
      simp only [hc, if_true]
      have hpv := parseVal_value stoi c.arguments c.opt.value
      cases hp : parseVal stoi c.arguments c.opt.value with
      | value v =>
        have hm := (hpv v).mp hp
        cases hs : parseStage stoi dom cs with
        | ok cs' =>
          simp only [Outcome.ok.injEq, hm, Option.some.injEq]
          constructor
          · rintro rfl
            exact ⟨_, cs', ⟨v, rfl, rfl⟩, (ih cs').mp hs, rfl⟩
          · rintro ⟨b, u, ⟨v', rfl, rfl⟩, hF, rfl⟩
            have := (ih u).mpr hF
            rw [hs] at this
            injection this with this
            rw [this]
        | failed =>
          simp only [reduceCtorEq, false_iff]
          rintro ⟨b, u, -, hF, rfl⟩
          have := (ih u).mpr hF
          rw [hs] at this
          exact absurd this (by simp)
        | exits =>
          simp only [reduceCtorEq, false_iff]
          rintro ⟨b, u, -, hF, rfl⟩
          have := (ih u).mpr hF
          rw [hs] at this
          exact absurd this (by simp)
      | failed =>
        simp only [reduceCtorEq, false_iff]
        rintro ⟨b, u, ⟨v, hv, -⟩, -, -⟩
        rw [← hpv v, hp] at hv
        exact absurd hv (by simp)
      | exits =>
        simp only [reduceCtorEq, false_iff]
        rintro ⟨b, u, ⟨v, hv, -⟩, -, -⟩
        rw [← hpv v, hp] at hv
        exact absurd hv (by simp)
    · simp only [hc]
      rw [List.forall₂_cons_left_iff]
      simp only [hc]
      cases hs : parseStage stoi dom cs with
      | ok cs' =>
        constructor
        · intro h
          simp only [Bool.false_eq_true, if_false, Outcome.ok.injEq] at h
          subst h
          exact ⟨c, cs', by simp, (ih cs').mp hs, rfl⟩
        · rintro ⟨b, u, hb, hF, rfl⟩
          simp only [Bool.false_eq_true, if_false] at hb
          subst hb
          have := (ih u).mpr hF
          rw [hs] at this
          injection this with this
          simp [this]
      | failed =>
        simp only [Bool.false_eq_true, if_false, reduceCtorEq, false_iff]
        rintro ⟨b, u, -, hF, rfl⟩
        have := (ih u).mpr hF
        rw [hs] at this
        exact absurd this (by simp)
      | exits =>
        simp only [Bool.false_eq_true, if_false, reduceCtorEq, false_iff]
        rintro ⟨b, u, -, hF, rfl⟩
        have := (ih u).mpr hF
        rw [hs] at this
        exact absurd this (by simp)

/-- The assignment phase of `run`. -/
theorem assign_eq (opts : List Opt) (args : List Word) :
    (allOwned opts [] args → (if args.length > 0 then
        assignLoop (opts.map CmdObj.fresh) (findDefault (opts.map CmdObj.fresh)) args else some (opts.map CmdObj.fresh))
      = some (opts.mapIdx (fun i o => (⟨o, decide (given opts i [] args), valuesOf opts i [] args⟩ : CmdObj)))) ∧
    (¬ allOwned opts [] args → (if args.length > 0 then
        assignLoop (opts.map CmdObj.fresh) (findDefault (opts.map CmdObj.fresh)) args else some (opts.map CmdObj.fresh))
      = none) := by
  have hopt : (opts.map CmdObj.fresh).map CmdObj.opt = opts := by
    rw [List.map_map]; exact List.map_id _
  have hd := findDefault_eq opts _ hopt
  obtain ⟨h1, h2⟩ := assignLoop_eq opts args [] (opts.map CmdObj.fresh) hopt
  have ho : owner opts [] = positional opts := rfl
  rw [ho, ← hd] at h1 h2
  have hafter : after opts [] args (opts.map CmdObj.fresh)
      = opts.mapIdx (fun i o => (⟨o, decide (given opts i [] args), valuesOf opts i [] args⟩ : CmdObj)) := by
    apply List.ext_getElem
    · simp [after]
    · intro i a b; simp [after, CmdObj.fresh]
  rw [hafter] at h1
  cases args with
  | nil =>
    refine ⟨fun _ => ?_, fun hn => absurd trivial hn⟩
    have := h1 trivial
    rw [assignLoop] at this
    simpa using this
  | cons a args => exact ⟨fun h => by rw [if_pos (by simp)]; exact h1 h, fun h => by rw [if_pos (by simp)]; exact h2 h⟩

theorem forall₂_mapIdx_left {α β γ : Type} (f : ℕ → α → β) (R : β → γ → Prop) (l : List α) (m : List γ)
    (h : List.Forall₂ R (l.mapIdx f) m) : m.length = l.length ∧
    ∀ (i : ℕ) a c, l[i]? = some a → m[i]? = some c → R (f i a) c := by
  constructor
  · have := h.length_eq; simpa using this.symm
  · intro i a c ha hc
    rw [List.forall₂_iff_get] at h
    obtain ⟨hi, ha'⟩ := List.getElem?_eq_some_iff.mp ha
    obtain ⟨hi', hc'⟩ := List.getElem?_eq_some_iff.mp hc
    have := h.2 i (by simpa using hi) hi'
    simpa [ha', hc'] using this

theorem valuesOf_append (opts : List Opt) (i : ℕ) (g rest : List Word) : ∀ before,
    valuesOf opts i before (g ++ rest) = valuesOf opts i before g ++ valuesOf opts i (g.reverse ++ before) rest := by
  induction g with
  | nil => intro before; simp [valuesOf]
  | cons w g ih =>
    intro before
    simp only [List.cons_append, valuesOf, ih, List.reverse_cons, List.append_assoc, List.singleton_append]
    split <;> simp

theorem allOwned_append (opts : List Opt) (g rest : List Word) : ∀ before,
    allOwned opts before (g ++ rest) ↔ allOwned opts before g ∧ allOwned opts (g.reverse ++ before) rest := by
  induction g with
  | nil => intro before; simp [allOwned]
  | cons w g ih =>
    intro before
    simp only [List.cons_append, allOwned, ih, List.reverse_cons, List.append_assoc, List.singleton_append]
    tauto

/-- Behind an option name, ownership does not depend on what stands before the name. -/
theorem owner_congr (opts : List Opt) (f : Word) (hf : namedBy opts f ≠ none) (g b b' : List Word) :
    owner opts (g ++ f :: b) = owner opts (g ++ f :: b') := by
  induction g with
  | nil =>
    simp only [List.nil_append, owner]
    cases h : namedBy opts f with
    | none => exact absurd h hf
    | some i => rfl
  | cons w g ih => simp only [List.cons_append, owner, ih]

theorem valuesOf_congr (opts : List Opt) (i : ℕ) (f : Word) (hf : namedBy opts f ≠ none) (rest : List Word) :
    ∀ (g b b' : List Word), valuesOf opts i (g ++ f :: b) rest = valuesOf opts i (g ++ f :: b') rest := by
  induction rest with
  | nil => intros; rfl
  | cons w rest ih =>
    intro g b b'
    simp only [valuesOf, owner_congr opts f hf g b b']
    have := ih (w :: g) b b'
    simp only [List.cons_append] at this
    rw [this]

theorem allOwned_congr (opts : List Opt) (f : Word) (hf : namedBy opts f ≠ none) (rest : List Word) :
    ∀ (g b b' : List Word), allOwned opts (g ++ f :: b) rest ↔ allOwned opts (g ++ f :: b') rest := by
  induction rest with
  | nil => intros; rfl
  | cons w rest ih =>
    intro g b b'
    simp only [allOwned, owner_congr opts f hf g b b']
    have := ih (w :: g) b b'
    simp only [List.cons_append] at this
    rw [this]

/-- The values in a group that starts with an option name do not depend on what stands before. -/
theorem valuesOf_group (opts : List Opt) (i : ℕ) (f : Word) (hf : namedBy opts f ≠ none) (vs b b' : List Word) :
    valuesOf opts i b (f :: vs) = valuesOf opts i b' (f :: vs) := by
  simp only [valuesOf]
  rw [if_neg (by tauto), if_neg (by tauto)]
  exact valuesOf_congr opts i f hf vs [] b b'

theorem allOwned_group (opts : List Opt) (f : Word) (hf : namedBy opts f ≠ none) (vs b b' : List Word) :
    allOwned opts b (f :: vs) ↔ allOwned opts b' (f :: vs) := by
  simp only [allOwned]
  have := allOwned_congr opts f hf vs [] b b'
  simp only [List.nil_append] at this
  rw [this]
  tauto

/-- A list of words that starts, if it is not empty, with an option name. -/
def startsWithName (opts : List Opt) (l : List Word) : Prop := ∀ w, l.head? = some w → namedBy opts w ≠ none

theorem valuesOf_starts (opts : List Opt) (i : ℕ) (l : List Word) (h : startsWithName opts l) (b b' : List Word) :
    valuesOf opts i b l = valuesOf opts i b' l := by
  cases l with
  | nil => rfl
  | cons f vs => exact valuesOf_group opts i f (h f rfl) vs b b'

theorem allOwned_starts (opts : List Opt) (l : List Word) (h : startsWithName opts l) (b b' : List Word) :
    allOwned opts b l ↔ allOwned opts b' l := by
  cases l with
  | nil => rfl
  | cons f vs => exact allOwned_group opts f (h f rfl) vs b b'

end Verif.Cmd
