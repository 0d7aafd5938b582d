import Verif.Lemmas.LoadLevels

/-!
C122: the levels of loggers that are given on the command line or in the environment.
-/

namespace Verif

open LoadLevels LoadLevels.Spec
open Text (Str)
open Registry (Reg Level start run get init info)

/-- Every text, whatever is in it, has a reading as a list of levels. -/
theorem C122_read (input : Str) : ∃ es, Asks input es := asks_exists input

/-- A text of at most 512 characters is obeyed, in whatever order the map is gone through.  A registered logger gets the level of
the last item with its name if that is a level, otherwise the level without a name, and keeps its own one if there is neither.  Other loggers stay as they are.
A logger that is initialised later gets its level in the same way, with the global level of before if there is neither. -/
theorem C122_levels (rank : ℕ) (before : List Registry.Op) (r : Reg) (hr : run rank start before = some r)
    (order : List (Str × Str) → List (Str × Str)) (ho : ∀ m, (order m).Perm m) (input : Str) (es : List (Str × Option Level))
    (hin : Asks input es) (h0 : input ≠ []) (hl : input.length ≤ 512) :
    (∀ n p g, get r n = some p → r.heap[p]? = some g → ∃ g', (loadLevels order input r).heap[p]? = some g' ∧ g'.name = n ∧
      g'.level = ((levelOf es n.toList).or (levelOf es [])).getD g.level) ∧
    (∀ p, (∀ n, get r n ≠ some p) → (loadLevels order input r).heap[p]? = r.heap[p]?) ∧
    (∀ n, get (loadLevels order input r) n = get r n) ∧
    ∀ p g s, (loadLevels order input r).heap[p]? = some g → init (loadLevels order input r) p = some s →
      ∃ g', s.heap[p]? = some g' ∧ g'.name = g.name ∧ g'.level = ((levelOf es g.name.toList).or (levelOf es [])).getD r.global := by
  have h := Registry.inv_run Registry.inv_start before hr
  obtain ⟨levels, h1, h2⟩ := load_spec order ho input es hin h0 hl r
  rw [h1]
  refine ⟨fun n p g hn hg => ?_, fun p hp => ?_, fun n => rfl, fun p g s hg hs => ?_⟩
  · have hm := (Registry.find_iff h.nodup n p).1 hn
    obtain ⟨g0, k1, k2⟩ := h.named _ hm
    obtain ⟨i1, -, i3⟩ := setLevels_fold levels (levelOf es []) r.loggers r.heap p
    have i3 := i3 n (fun e he hep => by
      obtain ⟨g1, q1, q2⟩ := h.named e he
      rw [hep] at q1
      simp only at k1 k2
      rw [k1] at q1
      cases q1
      rw [← q2, k2]) (List.mem_map.2 ⟨_, hm, rfl⟩)
    rw [← setLevels_heap, hg] at i1 i3
    simp only at k1 k2
    rw [hg] at k1
    cases k1
    cases hh : (Registry.setLevels r levels (levelOf es [])).heap[p]? with
    | none => rw [hh] at i1; cases i1
    | some g' =>
      rw [hh] at i1 i3
      simp only [Option.map_some, Option.some.injEq] at i1 i3
      exact ⟨g', rfl, by rw [i1, k2], by rw [i3, h2]⟩
  · rw [setLevels_heap]
    refine (setLevels_fold levels (levelOf es []) r.loggers r.heap p).2.1 fun hm => ?_
    obtain ⟨e, he, rfl⟩ := List.mem_map.1 hm
    exact hp e.1 ((Registry.find_iff h.nodup _ _).2 he)
  · have hlev : (Registry.find (Registry.setLevels r levels (levelOf es [])).levels g.name).getD (Registry.setLevels r levels (levelOf es [])).global =
        ((levelOf es g.name.toList).or (levelOf es [])).getD r.global := by
      rw [← h2]
      change (Registry.find levels g.name).getD ((levelOf es []).getD r.global) = _
      cases Registry.find levels g.name <;> simp
    unfold init at hs
    simp only [hg, Option.bind_eq_bind, Option.bind_some] at hs
    rw [hlev] at hs
    have hset : ∃ g', (Registry.setLevelOf (Registry.setLevels r levels (levelOf es [])).heap p (((levelOf es g.name.toList).or (levelOf es [])).getD r.global))[p]? = some g' ∧
        g'.name = g.name ∧ g'.level = ((levelOf es g.name.toList).or (levelOf es [])).getD r.global := by
      unfold Registry.setLevelOf
      rw [List.getElem?_modify, hg]
      exact ⟨{ g with level := ((levelOf es g.name.toList).or (levelOf es [])).getD r.global }, by simp, rfl, rfl⟩
    split at hs
    · unfold Registry.register at hs
      obtain ⟨g'', q1, q2⟩ := hset
      simp only [q1, Option.bind_eq_bind, Option.bind_some] at hs
      split at hs <;> cases hs <;> exact ⟨g'', q1, q2⟩
    · cases hs; exact hset

/-- A longer text, and an empty one, are passed over without a word. -/
theorem C122_ignored (order : List (Str × Str) → List (Str × Str)) (input : Str) (r : Reg) (h : input = [] ∨ 512 < input.length) :
    loadLevels order input r = r := by
  unfold loadLevels
  rw [if_pos h]

/-- The level of a logger after the text was loaded, which is registered before. -/
def levelAfterLoad (input name : String) : Option Level := do
  let r ← run 0 start [.create name, .register 1]
  let g ← (loadEnv id input.toList r).heap[1]?
  some g.level

/-- The example of spdlog/cfg/env.h:19-20, "turn off all logging except for logger1", turns nothing off: `*` is taken for the name of
a logger.  The one of spdlog/cfg/env.h:23-24 does as it says. -/
theorem C122_star_false :
    levelAfterLoad "*=off,logger1=debug" "logger1" = some 1 ∧ levelAfterLoad "*=off,logger1=debug" "logger2" = some info ∧
    levelAfterLoad "off,logger1=debug,logger2=info" "logger3" = some Registry.off := by
  decide +kernel

/-- A blank after the last comma is an item without a name and without a level, and the level without a name is lost. -/
theorem C122_blank_false : levelAfterLoad "debug," "a" = some 1 ∧ levelAfterLoad "debug, " "a" = some info := by
  decide +kernel

/-- An unrecognised level is not ignored (spdlog/cfg/helpers-inl.h:99): the level that the name was given before it is lost. -/
theorem C122_unrecognised_false : levelAfterLoad "a=debug" "a" = some 1 ∧ levelAfterLoad "a=debug,a=verbose" "a" = some info := by
  decide +kernel

/-- The second argument makes the first one forgotten for loggers that do not exist yet. -/
theorem C122_argv_false : ∃ s, init (loadArgv id ["SPDLOG_LEVEL=a=debug".toList, "SPDLOG_LEVEL=b=debug".toList]
      { start with heap := start.heap ++ [⟨"a", info⟩] }) 1 = some s ∧ s.heap[1]? = some ⟨"a", info⟩ ∧
    ∃ s', init (loadArgv id ["SPDLOG_LEVEL=a=debug".toList] { start with heap := start.heap ++ [⟨"a", info⟩] }) 1 = some s' ∧ s'.heap[1]? = some ⟨"a", 1⟩ := by
  refine ⟨_, rfl, ?_, _, rfl, ?_⟩ <;> decide +kernel

/-- A text with blanks, capitals, a level without a name and an unknown level. -/
example : Asks " a = WARN,err,,b=x".toList [("a".toList, some 3), ([], some 4), ("b".toList, none)] ∧
    levelOf [("a".toList, some 3), ([], some 4), ("b".toList, none)] "a".toList = some 3 ∧
    levelOf [("a".toList, some 3), ([], some 4), ("b".toList, none)] "b".toList = none ∧
    (∃ r, run 0 start [.create "a", .register 1] = some r ∧ get r "a" = some 1) := by
  refine ⟨⟨[" a = WARN".toList, "err".toList, [], "b=x".toList], by decide +kernel, by decide +kernel, ?_⟩, by decide +kernel,
    by decide +kernel, _, rfl, by decide +kernel⟩
  have hf : [" a = WARN".toList, "err".toList, [], "b=x".toList].filter (· ≠ []) = [" a = WARN".toList, "err".toList, "b=x".toList] := by
    decide +kernel
  have edge : ∀ (w : Str) (c d : Char) (u v : Str), w = c :: u → w = v ++ [d] → ¬Blank [c] → ¬Blank [d] →
      (∀ c u, w = c :: u → ¬Blank [c]) ∧ ∀ c u, w = u ++ [c] → ¬Blank [c] := by
    intro w c d u v h1 h2 h3 h4
    refine ⟨fun c' u' h => ?_, fun c' u' h => ?_⟩
    · rw [h1] at h; cases h; exact h3
    · rw [h2] at h
      have := (List.append_inj' h rfl).2
      cases this
      exact h4
  have nb : ∀ c : Char, c.toNat > 32 → ¬Blank [c] := by
    intro c hc hb
    rcases hb c (by simp) with rfl | rfl | rfl | rfl <;> revert hc <;> decide
  have bl : Blank [' '] := fun c hc => .inl (by simpa using hc)
  have b0 : Blank [] := fun c hc => by cases hc
  rw [hf]
  refine .cons ⟨"WARN".toList, ⟨"warn", by decide +kernel, by decide +kernel⟩, .inl ⟨" a ".toList, " WARN".toList, by decide +kernel, by decide +kernel,
      ⟨[' '], [' '], by decide +kernel, bl, bl, edge _ 'a' 'a' [] [] (by decide +kernel) (by decide +kernel) (nb _ (by decide)) (nb _ (by decide))⟩,
      ⟨[' '], [], by decide +kernel, bl, b0, edge _ 'W' 'N' "ARN".toList "WAR".toList (by decide +kernel) (by decide +kernel) (nb _ (by decide)) (nb _ (by decide))⟩⟩⟩
    (.cons ⟨"err".toList, ⟨"err", by decide +kernel, by decide +kernel⟩, .inr ⟨by decide +kernel, rfl,
      ⟨[], [], by decide +kernel, b0, b0, edge _ 'e' 'r' "rr".toList "er".toList (by decide +kernel) (by decide +kernel) (nb _ (by decide)) (nb _ (by decide))⟩⟩⟩
    (.cons ⟨"x".toList, ?_, .inl ⟨"b".toList, "x".toList, by decide +kernel, by decide +kernel,
      ⟨[], [], by decide +kernel, b0, b0, edge _ 'b' 'b' [] [] (by decide +kernel) (by decide +kernel) (nb _ (by decide)) (nb _ (by decide))⟩,
      ⟨[], [], by decide +kernel, b0, b0, edge _ 'x' 'x' [] [] (by decide +kernel) (by decide +kernel) (nb _ (by decide)) (nb _ (by decide))⟩⟩⟩ .nil))
  rintro l ⟨word, hw, h⟩
  have : ∀ e ∈ words, "x".toList.map Char.toLower ≠ e.1.toList := by decide +kernel
  exact this _ hw h

end Verif
