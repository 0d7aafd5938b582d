import Verif.Props.CmdParser
/-!
C11, continued: what a program reads after the command line was parsed.
-/
namespace Verif
open Cmd Spec

/-- **C11**, reading: after a successful run, reading a name gives the value of the first option registered under it: the meaning of its words if it was given, else its default; and it fails
exactly if no option has this name. -/
theorem C11_get (stoi : Word → Option ℤ) (opts : List Opt) (args : List Word) (cmds : List CmdObj) (h : run stoi opts args = .ok cmds) (name : Word) :
    (get cmds name = none ↔ ∀ o ∈ opts, o.name ≠ name) ∧
    ∀ (i : ℕ) (o : Opt), opts[i]? = some o → o.name = name → (∀ j < i, ∀ o', opts[j]? = some o' → o'.name ≠ name) →
      (given opts i [] args → get cmds name = meaning stoi (valuesOf opts i [] args) o.value) ∧ (¬ given opts i [] args → get cmds name = some o.value) := by
  obtain ⟨-, hlen, hall⟩ := C11_run_ok stoi opts args cmds h
  have hname : ∀ (i : ℕ) (c : CmdObj), cmds[i]? = some c → ∃ o, opts[i]? = some o ∧ c.opt.name = o.name := by
    intro i c hc
    obtain ⟨hi, -⟩ := List.getElem?_eq_some_iff.1 hc
    have ho : opts[i]? = some (opts[i]'(hlen ▸ hi)) := List.getElem?_eq_getElem _
    obtain ⟨c', hc', hn, -⟩ := hall i _ ho
    rw [hc] at hc'
    obtain rfl := Option.some.inj hc'
    exact ⟨_, ho, hn⟩
  constructor
  · unfold Cmd.get
    rw [Option.map_eq_none_iff, List.find?_eq_none]
    constructor
    · intro hf o ho hn
      obtain ⟨i, hi⟩ := List.getElem?_of_mem ho
      obtain ⟨c, hc, hcn, -⟩ := hall i o hi
      exact hf c (List.mem_of_getElem? hc) (by simp [hcn, hn])
    · intro hf c hc
      obtain ⟨i, hi⟩ := List.getElem?_of_mem hc
      obtain ⟨o, ho, hn⟩ := hname i c hi
      simpa [hn] using hf o (List.mem_of_getElem? ho)
  · intro i o ho hn hfirst
    obtain ⟨c, hc, hcn, -, hg, hd⟩ := hall i o ho
    have hget : get cmds name = some c.opt.value := by
      unfold Cmd.get
      have : cmds.find? (fun c => c.opt.name == name) = some c := by
        obtain ⟨hi, he⟩ := List.getElem?_eq_some_iff.1 hc
        rw [List.find?_eq_some_iff_getElem]
        refine ⟨by simp [hcn, hn], i, hi, he, fun j hj => ?_⟩
        obtain ⟨o', ho', hn'⟩ := hname j _ (List.getElem?_eq_getElem (by omega))
        simpa [hn'] using hfirst j hj o' ho'
      rw [this]
      rfl
    rw [hget]
    exact ⟨fun g => (hg g).symm, fun g => by rw [hd g]⟩

/-- C11 is met: `-n 7` is read back, the flag has its default, and there is no option `z`. -/
example : ∃ cmds, run (fun w => if w = ['7'] then some 7 else none) sampleOpts [['-','n'], ['7']] = .ok cmds ∧
    get cmds ['n'] = some (.int 7) ∧ get cmds ['f'] = some (.bool false) ∧ get cmds ['z'] = none := ⟨_, rfl, rfl, rfl, rfl⟩

end Verif
