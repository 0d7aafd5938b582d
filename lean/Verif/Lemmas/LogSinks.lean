import Verif.Lemmas.CircularQ
import Verif.Spec.LogSinks
/-!
The sinks of a logger.
-/
namespace Verif.LogSinks
open CircularQ (CQ Rep)
open Spec.LogSinks (Settings latest emit gets next received)

/-- Sinks that have got something more. -/
def more (base : List Sink) (f : Sink → List Ev) : List Sink := base.map fun k => ⟨k.level, k.fails, f k⟩

/-- The logger has these settings. -/
structure Inv (lg : Logger) (s : Settings) : Prop where
  level : lg.level = s.level
  flushLevel : lg.flushLevel = s.flushLevel
  enabled : lg.enabled = s.trace.isSome
  trace : ∀ n l, s.trace = some (n, l) → Rep lg.messages (latest n l) ∧ lg.messages.maxItems = n + 1

theorem latest_push (n : ℕ) (l : List Msg) (m : Msg) : (latest n l ++ [m]).drop ((latest n l ++ [m]).length - n) = latest n (l ++ [m]) := by
  unfold latest
  have h : l.drop (l.length - n) ++ [m] = (l ++ [m]).drop (l.length - n) := by rw [List.drop_append_of_le_length (by omega)]
  rw [h, List.drop_drop]
  congr 1
  simp
  omega

theorem sinkIt_more (lg : Logger) (s : Settings) (hf : lg.flushLevel = s.flushLevel) (base : List Sink) (f : Sink → List Ev) (h : lg.sinks = more base f) (m : Msg) :
    sinkIt lg m = { lg with sinks := more base fun k => f k ++ emit k.level k.fails s m } := by
  have hs : (lg.sinks.map fun s => if m.lvl ≥ s.level then (if s.fails m then s else { s with got := s.got ++ [.log m] }) else s) =
      more base fun k => f k ++ if k.level ≤ m.lvl ∧ k.fails m = false then [.log m] else [] := by
    rw [h]
    unfold more
    rw [List.map_map]
    refine List.map_congr_left fun k _ => ?_
    simp only [Function.comp_apply]
    by_cases h1 : k.level ≤ m.lvl
    · cases h2 : k.fails m <;> simp [h1]
    · simp [h1]
  unfold sinkIt
  simp only [hs]
  unfold shouldFlush
  by_cases hc : s.flushLevel ≤ m.lvl ∧ m.lvl ≠ 6
  · rw [if_pos (by simp [hf, hc, off])]
    unfold flush more
    simp [emit, hc]
  · rw [if_neg (by
      rw [Bool.and_eq_true, decide_eq_true_eq, decide_eq_true_eq]
      simp only [hf, off]
      exact hc)]
    simp [emit, hc]

theorem fold_more (s : Settings) (base : List Sink) (l : List Msg) : ∀ (lg : Logger) (f : Sink → List Ev), lg.flushLevel = s.flushLevel → lg.sinks = more base f →
    l.foldl sinkIt lg = { lg with sinks := more base fun k => f k ++ l.flatMap (emit k.level k.fails s) } := by
  induction l with
  | nil =>
    intro lg f hf h
    simp [← h]
  | cons m l ih =>
    intro lg f hf h
    rw [List.foldl_cons, sinkIt_more lg s hf base f h]
    rw [ih { lg with sinks := more base fun k => f k ++ emit k.level k.fails s m } (fun k => f k ++ emit k.level k.fails s m) hf rfl]
    simp

theorem step_inv (lg : Logger) (s : Settings) (hi : Inv lg s) (base : List Sink) (f : Sink → List Ev) (h : lg.sinks = more base f) (o : Op) :
    ∃ lg', step lg o = some lg' ∧ Inv lg' (next s o) ∧ lg'.sinks = more base fun k => f k ++ gets k.level k.fails s o := by
  obtain ⟨h1, h2, h3, h4⟩ := hi
  cases o with
  | log m =>
    have hd : ∀ lg1 : Logger, lg1.level = s.level → lg1.flushLevel = s.flushLevel → lg1.enabled = lg.enabled → lg1.messages = lg.messages →
        lg1.sinks = more base (fun k => f k ++ gets k.level k.fails s (.log m)) →
        ∃ lg', (if lg.enabled then (CircularQ.push lg1.messages m).map fun q => { lg1 with messages := q } else some lg1) = some lg' ∧ Inv lg' (next s (.log m)) ∧
          lg'.sinks = more base fun k => f k ++ gets k.level k.fails s (.log m) := by
      intro lg1 e1 e2 e3 e4 e5
      cases ht : s.trace with
      | none =>
        have he : lg.enabled = false := by rw [h3, ht]; rfl
        exact ⟨lg1, by simp [he], ⟨e1, e2, by simp [next, ht, e3, he], by simp [next, ht]⟩, e5⟩
      | some t =>
        obtain ⟨n, l⟩ := t
        have he : lg.enabled = true := by rw [h3, ht]; rfl
        obtain ⟨r, hm⟩ := h4 n l ht
        obtain ⟨q', hp, hr, hq⟩ := CircularQ.pushAll_rep [m] lg.messages _ r
        have hp' : CircularQ.push lg.messages m = some q' := by
          simp only [CircularQ.pushAll] at hp
          cases hx : CircularQ.push lg.messages m with
          | none => simp [hx] at hp
          | some y => simpa [hx] using hp
        refine ⟨{ lg1 with messages := q' }, by simp [he, e4, hp'], ⟨e1, e2, by simp [next, ht, e3, he], ?_⟩, e5⟩
        intro n' l' e
        simp only [next, ht, Option.map_some, Option.some.injEq, Prod.mk.injEq] at e
        obtain ⟨rfl, rfl⟩ := e
        rw [hm, Nat.add_sub_cancel, latest_push] at hr
        exact ⟨hr, by rw [hq, hm]⟩
    show ∃ lg', log lg m = some lg' ∧ _
    unfold log
    by_cases hl : s.level ≤ m.lvl
    · have hc : decide (m.lvl ≥ lg.level) = true := by simpa [h1] using hl
      simp only [hc, Bool.not_true, Bool.false_and, Bool.false_eq_true, if_false, if_true]
      refine hd (sinkIt lg m) ?_ ?_ ?_ ?_ ?_ <;> rw [sinkIt_more lg s h2 base f h]
      · exact h1
      · exact h2
      · simp [gets, hl]
    · have hc : decide (m.lvl ≥ lg.level) = false := by simpa [h1] using hl
      have hg : ∀ k : Sink, gets k.level k.fails s (.log m) = [] := fun k => by simp [gets, hl]
      have := hd lg h1 h2 rfl rfl (by simpa [hg] using h)
      by_cases he : lg.enabled = true
      · rw [if_pos he] at this
        simp only [hc, Bool.not_false, Bool.true_and, Bool.false_eq_true, if_false]
        rw [if_neg (by simp [he]), if_pos he]
        exact this
      · rw [if_neg he] at this
        simp only [hc, Bool.not_false, Bool.true_and, Bool.false_eq_true, if_false]
        rw [if_pos (by simpa using he)]
        exact this
  | enable n =>
    refine ⟨_, rfl, ⟨h1, h2, rfl, ?_⟩, by simpa [gets] using h⟩
    intro n' l' e
    simp only [next, Option.some.injEq, Prod.mk.injEq] at e
    obtain ⟨rfl, rfl⟩ := e
    exact ⟨by simpa [latest] using CircularQ.rep_new (α := Msg) n, rfl⟩
  | disable => exact ⟨_, rfl, ⟨h1, h2, rfl, by simp [next]⟩, by simpa [gets] using h⟩
  | setLevel l => exact ⟨_, rfl, ⟨rfl, h2, h3, h4⟩, by simpa [gets] using h⟩
  | flushOn l => exact ⟨_, rfl, ⟨h1, rfl, h3, h4⟩, by simpa [gets] using h⟩
  | flush =>
    refine ⟨_, rfl, ⟨h1, h2, h3, h4⟩, ?_⟩
    simp only [flush, h, more, List.map_map, gets]
    rfl
  | dump =>
    show ∃ lg', dump lg = some lg' ∧ _
    unfold dump
    cases ht : s.trace with
    | none =>
      have he : lg.enabled = false := by rw [h3, ht]; rfl
      exact ⟨lg, by simp [he], ⟨h1, h2, by simp [next, ht, he], by simp [next, ht]⟩, by simpa [gets, ht] using h⟩
    | some t =>
      obtain ⟨n, l⟩ := t
      have he : lg.enabled = true := by rw [h3, ht]; rfl
      obtain ⟨r, hm⟩ := h4 n l ht
      have hlen := r.room
      obtain ⟨q', hp, hr⟩ := CircularQ.foreachPop_rep _ lg.messages lg.messages.maxItems r hlen.le
      have hmax : ∀ (fuel : ℕ) (q : CQ Msg) (x : List Msg × CQ Msg), CircularQ.foreachPop fuel q = some x → x.2.maxItems = q.maxItems := by
        intro fuel
        induction fuel with
        | zero =>
          intro q x hx
          unfold CircularQ.foreachPop at hx
          split at hx
          · obtain rfl := Option.some.inj hx
            rfl
          · simp at hx
        | succ k ih =>
          intro q x hx
          unfold CircularQ.foreachPop at hx
          split at hx
          · obtain rfl := Option.some.inj hx
            rfl
          · obtain ⟨a, -, hx⟩ := Option.bind_eq_some_iff.1 hx
            obtain ⟨q1, hq1, hx⟩ := Option.bind_eq_some_iff.1 hx
            obtain ⟨y, hy, rfl⟩ := Option.map_eq_some_iff.1 hx
            have := ih q1 y hy
            unfold CircularQ.pop at hq1
            split at hq1
            · simp at hq1
            · obtain rfl := Option.some.inj hq1
              exact this
      have e1 := sinkIt_more lg s h2 base f h startMark
      have e2 := fold_more s base (latest n l) { lg with sinks := more base fun k => f k ++ emit k.level k.fails s startMark } _ h2 rfl
      have e3 := sinkIt_more { lg with messages := q', sinks := more base fun k => f k ++ emit k.level k.fails s startMark ++ (latest n l).flatMap (emit k.level k.fails s) } s h2 base _ rfl
        endMark
      rw [if_pos he]
      simp only [e1, hp, Option.map_some, e2, e3]
      refine ⟨_, rfl, ⟨h1, h2, by simp [next, ht, he], ?_⟩, ?_⟩
      · intro n' l' e
        simp only [next, ht, Option.map_some, Option.some.injEq, Prod.mk.injEq] at e
        obtain ⟨rfl, rfl⟩ := e
        exact ⟨by simpa [latest] using hr, by rw [hmax _ _ _ hp, hm]⟩
      · simp only [gets, ht, List.append_assoc]
        rfl

theorem run_inv' (ops : List Op) : ∀ (lg : Logger) (s : Settings) (base : List Sink) (f : Sink → List Ev), Inv lg s → lg.sinks = more base f →
    ∃ lg', run lg ops = some lg' ∧ Inv lg' (Spec.LogSinks.settings s ops) ∧ lg'.sinks = more base fun k => f k ++ received k.level k.fails s ops := by
  induction ops with
  | nil =>
    intro lg s base f hi h
    exact ⟨lg, rfl, hi, by simpa [received] using h⟩
  | cons o ops ih =>
    intro lg s base f hi h
    obtain ⟨lg1, e1, hi1, hs1⟩ := step_inv lg s hi base f h o
    obtain ⟨lg2, e2, hi2, hs2⟩ := ih lg1 (next s o) base _ hi1 hs1
    exact ⟨lg2, by rw [run, e1, Option.bind_some, e2], hi2, by rw [hs2]; simp [received]⟩

theorem run_inv (ops : List Op) (lg : Logger) (s : Settings) (base : List Sink) (f : Sink → List Ev) (hi : Inv lg s) (h : lg.sinks = more base f) :
    ∃ lg', run lg ops = some lg' ∧ lg'.sinks = more base fun k => f k ++ received k.level k.fails s ops := by
  obtain ⟨lg', h1, -, h2⟩ := run_inv' ops lg s base f hi h
  exact ⟨lg', h1, h2⟩

theorem quiet_trace (ops : List Op) (h : ∀ o ∈ ops, Spec.LogSinks.Quiet o) : ∀ (s : Settings) (n : ℕ) (l : List Msg), s.trace = some (n, l) →
    (Spec.LogSinks.settings s ops).trace = some (n, l ++ Spec.LogSinks.msgs ops) := by
  induction ops with
  | nil => intro s n l e; simpa [Spec.LogSinks.settings, Spec.LogSinks.msgs] using e
  | cons o ops ih =>
    intro s n l e
    have ho := h o (by simp)
    have hr := ih fun x hx => h x (by simp [hx])
    unfold Spec.LogSinks.settings at *
    rw [List.foldl_cons]
    cases o with
    | log m =>
      rw [hr (next s (.log m)) n (l ++ [m]) (by simp [next, e])]
      simp [Spec.LogSinks.msgs]
    | enable k => exact ho.elim
    | disable => exact ho.elim
    | dump => exact ho.elim
    | setLevel k => rw [hr _ n l (by simp [next, e])]; simp [Spec.LogSinks.msgs]
    | flushOn k => rw [hr _ n l (by simp [next, e])]; simp [Spec.LogSinks.msgs]
    | flush => rw [hr _ n l (by simp [next, e])]; simp [Spec.LogSinks.msgs]

end Verif.LogSinks
