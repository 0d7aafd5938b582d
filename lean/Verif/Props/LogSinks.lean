import Verif.Lemmas.LogSinks
/-!
C127: the sinks of a logger and its backtrace.
-/
namespace Verif
open LogSinks (Msg Ev Op Sink run)
open Spec.LogSinks (received settings latest emit mark msgs Quiet)

/-- **C127**: all calls of a new logger are defined, and every sink gets what it should get, whatever the other sinks are and do. -/
theorem C127_sinks (sinks : List Sink) (ops : List Op) :
    ∃ lg, run (LogSinks.new sinks) ops = some lg ∧
      lg.sinks = sinks.map fun k => ⟨k.level, k.fails, k.got ++ received k.level k.fails Spec.LogSinks.fresh ops⟩ :=
  LogSinks.run_inv ops (LogSinks.new sinks) Spec.LogSinks.fresh sinks Sink.got ⟨rfl, rfl, rfl, by simp [Spec.LogSinks.fresh]⟩ (by simp [LogSinks.new, LogSinks.more])

/-- **C127**, the backtrace: after it was turned on with length `n`, printing it gives a sink the first line, the latest `n` messages since then in order, whatever the level of the logger
was, and the last line, of each what its own level lets through; printing it again at once gives the two lines only. -/
theorem C127_trace (sinks : List Sink) (before : List Op) (n : ℕ) (ops : List Op) (hq : ∀ o ∈ ops, Quiet o) :
    ∃ lg lg' lg'', run (LogSinks.new sinks) (before ++ .enable n :: ops) = some lg ∧ LogSinks.step lg .dump = some lg' ∧ LogSinks.step lg' .dump = some lg'' ∧
      (let s := settings Spec.LogSinks.fresh (before ++ .enable n :: ops)
       let e := fun k : Sink => emit k.level k.fails s
       let first := mark "****************** Backtrace Start ******************"
       let last := mark "****************** Backtrace End ********************"
       lg'.sinks = lg.sinks.map (fun k => ⟨k.level, k.fails, k.got ++ (e k first ++ (latest n (msgs ops)).flatMap (e k) ++ e k last)⟩) ∧
       lg''.sinks = lg'.sinks.map (fun k => ⟨k.level, k.fails, k.got ++ (e k first ++ e k last)⟩)) := by
  obtain ⟨lg, h1, hi, h2⟩ := LogSinks.run_inv' (before ++ .enable n :: ops) (LogSinks.new sinks) Spec.LogSinks.fresh sinks Sink.got
    ⟨rfl, rfl, rfl, by simp [Spec.LogSinks.fresh]⟩ (by simp [LogSinks.new, LogSinks.more])
  have ht : (settings Spec.LogSinks.fresh (before ++ .enable n :: ops)).trace = some (n, msgs ops) := by
    have := LogSinks.quiet_trace ops hq (Spec.LogSinks.next (settings Spec.LogSinks.fresh before) (.enable n)) n [] rfl
    simpa [settings, List.foldl_append] using this
  obtain ⟨lg', d1, hi', d2⟩ := LogSinks.step_inv lg _ hi lg.sinks Sink.got (by simp [LogSinks.more]) .dump
  obtain ⟨lg'', f1, -, f2⟩ := LogSinks.step_inv lg' _ hi' lg'.sinks Sink.got (by simp [LogSinks.more]) .dump
  refine ⟨lg, lg', lg'', h1, d1, f1, ?_, ?_⟩
  · rw [d2]
    simp only [LogSinks.more, Spec.LogSinks.gets, ht]
  · rw [f2]
    simp only [LogSinks.more, Spec.LogSinks.gets, Spec.LogSinks.next, ht, Option.map_some, latest, List.drop_nil, List.flatMap_nil, List.append_nil]
    rfl

/-- **C127**, without backtrace: a sink that does not throw gets exactly the messages that have its level and that of the logger, in order. -/
theorem C127_plain (k : Sink) (others : List Sink) (hk : k.fails = fun _ => false) (hg : k.got = []) (l : ℕ) (ms : List Msg) (hl : ∀ m ∈ ms, m.lvl ≤ 6) :
    ∃ lg, run (LogSinks.new (k :: others)) (.setLevel l :: ms.map Op.log) = some lg ∧
      lg.sinks.head?.map Sink.got = some ((ms.filter fun m => decide (l ≤ m.lvl) && decide (k.level ≤ m.lvl)).map Ev.log) := by
  obtain ⟨lg, h1, h2⟩ := C127_sinks (k :: others) (.setLevel l :: ms.map Op.log)
  refine ⟨lg, h1, ?_⟩
  have key : ∀ ms : List Msg, (∀ m ∈ ms, m.lvl ≤ 6) → received k.level k.fails ⟨l, 6, none⟩ (ms.map Op.log) =
      (ms.filter fun m => decide (l ≤ m.lvl) && decide (k.level ≤ m.lvl)).map Ev.log := by
    intro ms
    induction ms with
    | nil => intro _; rfl
    | cons m ms ih =>
      intro h
      have hm := h m (by simp)
      have hf : ¬(6 ≤ m.lvl ∧ m.lvl ≠ 6) := by omega
      have hr := ih fun x hx => h x (by simp [hx])
      rw [hk] at hr ⊢
      simp only [List.map_cons, received, Spec.LogSinks.gets, Spec.LogSinks.next, Option.map_none, hr, emit, hf, if_false, and_true, List.append_nil, List.filter_cons]
      by_cases a : l ≤ m.lvl <;> by_cases b : k.level ≤ m.lvl <;> simp [a, b]
  have hrec : received k.level k.fails Spec.LogSinks.fresh (.setLevel l :: ms.map Op.log) = received k.level k.fails ⟨l, 6, none⟩ (ms.map Op.log) := rfl
  rw [h2, List.map_cons, List.head?_cons, Option.map_some, hg, hrec, key ms hl, List.nil_append]

/-- **C127**: it is false that a sink gets a message once: one that was passed on when it was logged is in the backtrace also. -/
theorem C127_once_false (n : ℕ) (hn : 0 < n) (k : Sink) (hk : k.fails = fun _ => false) (hg : k.got = []) (m : Msg) (h2 : 2 ≤ m.lvl) (h6 : m.lvl ≤ 6) (hlv : k.level ≤ m.lvl) :
    ∃ lg, run (LogSinks.new [k]) [.enable n, .log m, .dump] = some lg ∧ ∃ g, lg.sinks.map Sink.got = [g] ∧ 2 ≤ g.count (.log m) := by
  obtain ⟨lg, h1, hs⟩ := C127_sinks [k] [.enable n, .log m, .dump]
  have hf : ¬(6 ≤ m.lvl ∧ m.lvl ≠ 6) := by omega
  have hlat : latest n [m] = [m] := by
    have : ([m].length - n) = 0 := by simp; omega
    rw [latest, this, List.drop_zero]
  have he : emit k.level k.fails ⟨2, 6, some (n, [m])⟩ m = [.log m] := by simp only [emit, hk, hlv, hf, and_self, if_true, if_false, List.append_nil]
  refine ⟨lg, h1, _, by rw [hs]; rfl, ?_⟩
  have hrec : received k.level k.fails Spec.LogSinks.fresh [.enable n, .log m, .dump] =
      [.log m] ++ (emit k.level k.fails ⟨2, 6, some (n, [m])⟩ (mark "****************** Backtrace Start ******************") ++ [.log m] ++
        emit k.level k.fails ⟨2, 6, some (n, [m])⟩ (mark "****************** Backtrace End ********************")) := by
    have he' : emit k.level k.fails ⟨2, 6, some (n, [])⟩ m = [.log m] := by simp only [emit, hk, hlv, hf, and_self, if_true, if_false, List.append_nil]
    simp only [received, Spec.LogSinks.gets, Spec.LogSinks.next, Spec.LogSinks.fresh, Option.map_some, List.nil_append, h2, if_true, he', hlat, List.flatMap_cons, List.flatMap_nil, he,
      List.append_nil]
  show 2 ≤ (k.got ++ received k.level k.fails Spec.LogSinks.fresh [.enable n, .log m, .dump]).count (.log m)
  rw [hg, hrec]
  simp only [List.nil_append, List.count_append, List.count_singleton_self]
  omega

/-- A debug message, below the level of a new logger, and an error. -/
def debugThenError : List Msg := [⟨1, ['d']⟩, ⟨4, ['e']⟩]

/-- A sink that takes everything, and one that takes errors only. -/
def allAndErrors : List Sink := [⟨0, fun _ => false, []⟩, ⟨4, fun _ => false, []⟩]

/-- C127 is met: with a backtrace of two messages both sinks have what they should have, the debug message being in the backtrace only. -/
example : (∀ o ∈ debugThenError.map Op.log, Quiet o) ∧
    (run (LogSinks.new allAndErrors) ([] ++ .enable 2 :: debugThenError.map Op.log ++ [.dump])).map (fun lg => lg.sinks.map Sink.got) =
      some [[.log ⟨4, ['e']⟩, .log LogSinks.startMark, .log ⟨1, ['d']⟩, .log ⟨4, ['e']⟩, .log LogSinks.endMark], [.log ⟨4, ['e']⟩, .log ⟨4, ['e']⟩]] := by
  refine ⟨?_, by decide +kernel⟩
  intro o ho
  simp only [debugThenError, List.map_cons, List.map_nil, List.mem_cons, List.not_mem_nil, or_false] at ho
  rcases ho with rfl | rfl <;> trivial

/-- C127 is met without backtrace. -/
example : (∀ m ∈ debugThenError, m.lvl ≤ 6) ∧
    (run (LogSinks.new allAndErrors) (.setLevel 1 :: debugThenError.map Op.log)).map (fun lg => lg.sinks.map Sink.got) =
      some [[.log ⟨1, ['d']⟩, .log ⟨4, ['e']⟩], [.log ⟨4, ['e']⟩]] := by
  refine ⟨?_, by decide +kernel⟩
  intro m hm
  simp only [debugThenError, List.mem_cons, List.not_mem_nil, or_false] at hm
  rcases hm with rfl | rfl <;> decide

end Verif
