import Verif.Lemmas.Registry

/-!
C107: every rank prints the messages that it should.
-/

namespace Verif

open Registry Registry.Spec

/-- Whatever calls are made, `get` finds loggers under their names, and the default logger is found under its own. -/
theorem C107_registry (rank : Nat) (prog : List Op) (r : Reg) (hr : run rank start prog = some r) :
    (∀ n p, get r n = some p → ∃ g, r.heap[p]? = some g ∧ g.name = n) ∧
    ∀ d, r.default = some d → ∃ g, r.heap[d]? = some g ∧ get r g.name = some d := by
  have h := inv_run inv_start prog hr
  refine ⟨fun n p hn => h.named (n, p) ((find_iff h.nodup n p).1 hn), fun d hd => ?_⟩
  obtain ⟨g, h1, h2⟩ := h.dflt d hd
  exact ⟨g, h1, (find_iff h.nodup _ _).2 h2⟩

/-- Whatever calls were made before, from the first call of `Logger` on a rank prints exactly the messages that have at least the
level that was asked for last (rank 0) or are errors (all others).  This is so for the default logger and for all others that
are registered when `Logger` is called, but for the default logger of before and one with the name that `Logger` uses.  The calls are defined if and
only if the levels are, on rank 0; the other ranks do not look at them. -/
theorem C107_printed (rank : Nat) (before : List Op) (r : Reg) (hr : run rank start before = some r) (others : Nat → Prop)
    (ho : ∀ p, others p → ∃ g, r.heap[p]? = some g ∧ get r g.name = some p ∧ r.default ≠ some p ∧ g.name ≠ rankName rank)
    (first : Op) (level : Int) (hf : first = .setup level ∨ first = .ownSetLevel level ∧ r.default ≠ none) (prog : List Op) (hp : Plain others prog) :
    ((run rank r (first :: prog)).isSome ↔ (rank = 0 → InRange (first :: prog))) ∧
    ∀ s, run rank r (first :: prog) = some s → s.shown.map (·.2) = r.shown.map (·.2) ++ printed rank (threshold rank level) prog := by
  have h := inv_run inv_start before hr
  refine headed_run ⟨h, fun p hp => ?_⟩ first level prog hp hf
  obtain ⟨g, h1, h2, h3, h4⟩ := ho p hp
  exact ⟨g, h1, (find_iff h.nodup _ _).1 h2, h3, h4⟩

/-- `registry::set_level` reaches every registered logger, and new loggers that `initialize_logger` prepares get that level too unless another was
configured for their names. -/
theorem C107_level (rank : Nat) (before : List Op) (r : Reg) (hr : run rank start before = some r) (l : Level) :
    (∀ n p, get r n = some p → ∃ g, (setLevel r l).heap[p]? = some g ∧ g.level = l) ∧
    ∀ p g s, r.heap[p]? = some g → find r.levels g.name = none → init (setLevel r l) p = some s → ∃ g', s.heap[p]? = some g' ∧ g'.level = l := by
  have h := inv_run inv_start before hr
  refine ⟨fun n p hn => ?_, fun p g s hg hn hs => ?_⟩
  · obtain ⟨g, h1, h2⟩ := h.named (n, p) ((find_iff h.nodup n p).1 hn)
    obtain ⟨g', k1, -, k3⟩ := setLevel_heap r l p g h1
    exact ⟨g', k1, k3 (List.mem_map.2 ⟨_, (find_iff h.nodup n p).1 hn, rfl⟩)⟩
  · obtain ⟨g', k1, k2, -⟩ := setLevel_heap r l p g hg
    have hlv : ∃ g'', (setLevelOf (setLevel r l).heap p l)[p]? = some g'' ∧ g''.level = l := by
      have := level_setLevelOf (setLevel r l).heap p l p
      rw [if_pos rfl, k1] at this
      cases hq : (setLevelOf (setLevel r l).heap p l)[p]? with
      | none => simp [hq] at this
      | some g'' => simp [hq] at this; exact ⟨g'', rfl, this⟩
    have hfind : find (setLevel r l).levels g'.name = none := by rw [k2]; exact hn
    unfold init at hs
    simp only [k1, Option.bind_eq_bind, Option.bind_some, hfind, Option.getD_none] at hs
    change (if _ then register { setLevel r l with heap := setLevelOf (setLevel r l).heap p l } p else some { setLevel r l with heap := setLevelOf (setLevel r l).heap p l }) = some s at hs
    split at hs
    · unfold register at hs
      obtain ⟨g'', q1, q2⟩ := hlv
      simp only [q1, Option.bind_eq_bind, Option.bind_some] at hs
      split at hs <;> cases hs <;> exact ⟨g'', q1, q2⟩
    · cases hs; exact hlv

/-- The default logger of before `setup_mpi_spdlog` is forgotten: whoever holds it goes on printing when printing is switched off. -/
theorem C107_old_default_false : ∃ s, run 0 start [.setup 2, .ownSetLevel 6, .logTo 0 info "x"] = some s ∧ s.shown = [(0, info, "x")] := by
  refine ⟨_, rfl, ?_⟩
  decide +kernel

/-- A new default logger does not get the level that was asked for before. -/
theorem C107_new_default_false : ∃ s, run 0 start [.setup 6, .create "a", .setDefault (some 2), .log info "x"] = some s ∧ s.shown = [(2, info, "x")] := by
  refine ⟨_, rfl, ?_⟩
  decide +kernel

/-- Messages of level `off` are printed when the level is `off`. -/
theorem C107_off_false : ∃ s, run 0 start [.setup 6, .log off "x"] = some s ∧ s.shown = [(1, off, "x")] := by
  refine ⟨_, rfl, ?_⟩
  decide +kernel

/-- A logger "a" is registered before `setup`; then the main program of a run (Sylinder/SylinderSystem_main.cpp:20,
Sylinder/SylinderSystem.cpp:48) on ranks 0 and 3. -/
example : ∃ r, run 3 start [.create "a", .register 1] = some r ∧ (∃ g, r.heap[1]? = some g ∧ get r g.name = some 1 ∧ r.default ≠ some 1 ∧ g.name ≠ rankName 3) ∧
    Plain (· = 1) [.log 3 "x", .ownSetLevel 1, .logTo 1 1 "y", .log 4 "z"] ∧ InRange [.setup 2, .log 3 "x", .ownSetLevel 1, .logTo 1 1 "y", .log 4 "z"] ∧
    printed 3 (threshold 3 2) [.log 3 "x", .ownSetLevel 1, .logTo 1 1 "y", .log 4 "z"] = [(4, "z")] ∧
    printed 0 (threshold 0 2) [.log 3 "x", .ownSetLevel 1, .logTo 1 1 "y", .log 4 "z"] = [(3, "x"), (1, "y"), (4, "z")] := by
  refine ⟨_, rfl, ⟨_, rfl, by decide +kernel, by decide +kernel, by decide +kernel⟩, ⟨rfl, trivial⟩, ?_, by decide +kernel, by decide +kernel⟩
  intro l hl
  simp at hl
  omega

end Verif
