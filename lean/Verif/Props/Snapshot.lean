import Verif.Lemmas.Snapshot
import Verif.Props.Output
import Verif.Lemmas.Turn
import Mathlib.Data.Int.Log
import Mathlib.Algebra.Order.Round
/-! C46: a restart continues the run.  C50: the ascii round trip. -/
namespace Verif
open Verif.Snapshot Verif.Text Verif.V3 Verif.Spec.Snapshot

/-! ### C46 -/

/-- The values of a body that are written in single precision keep their value. -/
structure Stored (r32 : ℝ → ℝ) (s : Sylinder) : Prop where
  radius : r32 s.radius = s.radius
  length : r32 s.length = s.length
  vel : v32 r32 s.vel = s.vel
  omega : v32 r32 s.omega = s.omega
  direction : v32 r32 s.direction = s.direction

theorem flag_back : ∀ b : Bool, decide ((if b = true then 1 else 0) > 0) = b := by decide

/-- The centre of the record is the centre of the body. -/
theorem fromRecord_pos (r32 : ℝ → ℝ) (svd : V3 → V3 → V3) (blank s : Sylinder) : (fromRecord svd blank (record r32 s)).pos = s.pos := by
  simp only [fromRecord, record]
  ext <;> simp <;> ring

theorem fromRecord_same (r32 : ℝ → ℝ) (svd : V3 → V3 → V3) (hsvd : SvdOk svd) (blank s : Sylinder) (hu : Verif.Spec.UnitQuat s.orientation)
    (hr : Regular s.direction) (hx : Stored r32 s) :
    Same (fromRecord svd blank (record r32 s)) s ∧ (fromRecord svd blank (record r32 s)).vel = s.vel ∧
      (fromRecord svd blank (record r32 s)).omega = s.omega := by
  have hd := Mobility.direction_unit s hu
  have ho := orient_of svd hsvd s.direction hd hr 1 one_pos
  have h1 : (1 : ℝ) • s.direction = s.direction := by ext <;> simp
  rw [h1] at ho
  refine ⟨⟨rfl, rfl, ?_, hx.radius, hx.length, fromRecord_pos r32 svd blank s, ?_, ?_⟩, hx.vel, hx.omega⟩
  · simp only [fromRecord, record]
    exact flag_back _
  · simp only [fromRecord, record, hx.direction]
    exact ho.2
  · simp only [fromRecord, record, hx.direction]
    exact ho.1

theorem same_stepEuler {u s : Sylinder} (h : Same u s) (hu : Verif.Spec.UnitQuat s.orientation) (hv : u.vel = s.vel) (ho : u.omega = s.omega) (dt : ℝ) :
    Same (u.stepEuler dt) (s.stepEuler dt) := by
  refine ⟨h.gid, h.group, h.isImmovable, h.radius, h.length, ?_, ?_, ?_⟩
  · simp only [Sylinder.stepEuler, Equatn.stepEuler]
    rw [h.pos, hv]
  · simp only [Sylinder.stepEuler, Equatn.stepEuler, Sylinder.direction]
    have hd : u.orientation.rot ⟨0, 0, 1⟩ = s.orientation.rot ⟨0, 0, 1⟩ := h.direction
    rw [ho]
    by_cases hw : Equatn.fltEps ≤ s.omega.norm
    · rw [C13_rotation _ _ _ h.unit hw, C13_rotation _ _ _ hu hw, hd]
    · rw [C13_small _ _ _ (not_le.1 hw), C13_small _ _ _ (not_le.1 hw), hd]
  · exact C13_unit _ _ _ h.unit

/-- **C46** (partial).  A snapshot of any bodies on any number of ranks, written at the end of step `step` and then read by
`reinitialize` on as many ranks, gives the next step number, the next snapshot number, the seed plus one, the same links, and,
body by body in the order of the ranks, the ids, groups, flags, sizes, centre and direction that the running program has after
the Euler step that follows the snapshot (with fixed bodies: no step).

Missing: values stored in single precision are assumed to be single precision numbers (see `C46_rounded_partial` and
`C46_rounded_false`); directions nearly opposite to z are excluded (`Regular`); the number of ranks is the same
(see `C46_folder_false`). -/
theorem C46_restart_partial (F : Fmt) (r8 : ℝ → ℝ) (hF : FmtOk F r8) (r32 : ℝ → ℝ) (svd : V3 → V3 → V3) (hsvd : SvdOk svd) (blank : Sylinder)
    (fixed : Bool) (dt : ℝ) (seed step snap : ℕ) (ranks : List (List Sylinder)) (links : List (ℤ × ℤ)) (d : Disk)
    (hsnap : (snap : ℤ) + 400 ≤ Output.intMax) (hstep : (step : ℤ) < Output.intMax) (hseed : seed < 2 ^ 32)
    (hl : ∀ l ∈ links, Int32 l.1 ∧ Int32 l.2)
    (hb : ∀ s ∈ ranks.flatten, Verif.Spec.UnitQuat s.orientation ∧ Regular s.direction ∧ Stored r32 s) :
    ∃ d' R, writeResult F r32 dt seed step snap ranks links d = some d' ∧ reinitialize svd blank fixed dt ranks.length d' = some R ∧
      R.seed = (seed + 1) % 2 ^ 32 ∧ R.stepCount = step + 1 ∧ R.snapID = snap + 1 ∧ R.links = links ∧
      List.Forall₂ Same R.bodies (ranks.flatten.map fun s => if fixed then s else s.stepEuler dt) := by
  obtain ⟨d', hw, hr⟩ := reinit_eq F r8 hF r32 svd blank fixed dt seed step snap ranks links d hsnap hstep hseed hl
  refine ⟨d', _, hw, hr, rfl, rfl, rfl, rfl, ?_⟩
  cases fixed
  · simp only [Bool.false_eq_true, if_false, List.forall₂_map_left_iff, List.forall₂_map_right_iff]
    rw [List.forall₂_same]
    intro s hs
    obtain ⟨hu, hreg, hst⟩ := hb s hs
    obtain ⟨h1, h2, h3⟩ := fromRecord_same r32 svd hsvd blank s hu hreg hst
    exact same_stepEuler h1 hu h2 h3 dt
  · simp only [if_true, List.forall₂_map_left_iff, List.forall₂_map_right_iff]
    rw [List.forall₂_same]
    intro s hs
    obtain ⟨hu, hreg, hst⟩ := hb s hs
    exact (fromRecord_same r32 svd hsvd blank s hu hreg hst).1

/-- **C46** (partial): with single precision of relative error `ε`, the bodies differ only by rounding: ids, groups and flags are
kept, sizes are kept up to `ε`, centres are exact before the step and are `ε dt |v|` away after it, directions are off by at most
`2 ε` before the step and by `2 ε + dt (ε |ω| + fltEps)` after it, where `fltEps` is the angular velocity below which the code does
not turn a body.  Missing: directions nearly opposite to z are excluded. -/
theorem C46_rounded_partial (r32 : ℝ → ℝ) (ε : ℝ) (hε : 0 ≤ ε) (hε1 : ε < 1) (hr : ∀ x, |r32 x - x| ≤ ε * |x|) (svd : V3 → V3 → V3) (blank s : Sylinder)
    (hu : Verif.Spec.UnitQuat s.orientation) (hz : -1 + 2 * ε + 1 / 10 ^ 12 ≤ s.direction.z) (dt : ℝ) (hdt : 0 ≤ dt) :
    let u := fromRecord svd blank (record r32 s)
    u.gid = s.gid ∧ u.group = s.group ∧ u.isImmovable = s.isImmovable ∧ |u.radius - s.radius| ≤ ε * |s.radius| ∧
      |u.length - s.length| ≤ ε * |s.length| ∧ u.pos = s.pos ∧ V3.norm ((u.stepEuler dt).pos - (s.stepEuler dt).pos) ≤ ε * (dt * V3.norm s.vel) ∧
      V3.norm (u.direction - s.direction) ≤ 2 * ε ∧ Verif.Spec.UnitQuat u.orientation ∧
      V3.norm ((u.stepEuler dt).direction - (s.stepEuler dt).direction) ≤ 2 * ε + dt * (ε * V3.norm s.omega + Equatn.fltEps) := by
  have hd := Mobility.direction_unit s hu
  have hn : V3.norm s.direction = 1 := by
    have : V3.norm s.direction ^ 2 = 1 := by rw [V3.norm_sq]; exact hd
    nlinarith [V3.norm_nonneg s.direction]
  have hv := v32_err r32 ε hε hr s.direction
  rw [hn, mul_one] at hv
  have hnz : v32 r32 s.direction ≠ 0 := by
    intro h0
    rw [h0] at hv
    have e : (0 : V3) - s.direction = -s.direction := by ext <;> simp
    rw [e, V3.norm_neg, hn] at hv
    linarith
  have hde := dir_err_unit (v32 r32 s.direction) s.direction 1 one_pos hnz hn
  have h1 : (1 : ℝ) • s.direction = s.direction := by ext <;> simp
  rw [h1, div_one] at hde
  have hdir : V3.norm ((v32 r32 s.direction).normalized - s.direction) ≤ 2 * ε := by linarith
  have hzc : |((v32 r32 s.direction).normalized - s.direction).z| ≤ 2 * ε := by
    refine le_trans ?_ hdir
    generalize (v32 r32 s.direction).normalized - s.direction = w
    rw [← Real.sqrt_sq_eq_abs]
    apply Real.sqrt_le_sqrt
    simp only [normSq, dot]
    nlinarith [sq_nonneg w.x, sq_nonneg w.y]
  have ho := Orient.fromTwoVectors_regular svd ⟨0, 0, 1⟩ (v32 r32 s.direction) ez_ne hnz (by
    rw [ez_normalized]
    simp only [dot, Orient.dummyPrecision]
    rw [sub_z] at hzc
    have := (abs_le.1 hzc).1
    norm_num at hz ⊢
    linarith)
  rw [ez_normalized] at ho
  have hdir' : V3.norm ((fromRecord svd blank (record r32 s)).direction - s.direction) ≤ 2 * ε := by
    have : (fromRecord svd blank (record r32 s)).direction = (v32 r32 s.direction).normalized := ho.2
    rw [this]
    exact hdir
  refine ⟨rfl, rfl, ?_, hr _, hr _, fromRecord_pos r32 svd blank s, ?_, hdir', ho.1, ?_⟩
  · simp only [fromRecord, record]
    exact flag_back _
  · simp only [Sylinder.stepEuler, Equatn.stepEuler, fromRecord_pos]
    have e : s.pos + dt • (fromRecord svd blank (record r32 s)).vel - (s.pos + dt • s.vel) = dt • (v32 r32 s.vel - s.vel) := by
      simp only [fromRecord, record]
      ext <;> simp <;> ring
    rw [e, V3.norm_smul, abs_of_nonneg hdt]
    nlinarith [v32_err r32 ε hε hr s.vel]
  · have h2 := Equatn.direction_err s.orientation (fromRecord svd blank (record r32 s)).orientation hu ho.1 s.omega (v32 r32 s.omega) dt hdt ⟨0, 0, 1⟩ hn.le
    refine h2.trans (add_le_add hdir' (mul_le_mul_of_nonneg_left ?_ hdt))
    linarith [v32_err r32 ε hε hr s.omega]

/-- **C46** is false as stated: a body whose velocity is not a single precision number is not at the place after the restart at
which the running program has it, whatever the rounding. -/
theorem C46_rounded_false (r32 : ℝ → ℝ) (svd : V3 → V3 → V3) (blank s : Sylinder) (hx : r32 s.vel.x ≠ s.vel.x) (dt : ℝ) (hdt : dt ≠ 0) :
    ((fromRecord svd blank (record r32 s)).stepEuler dt).pos ≠ (s.stepEuler dt).pos := by
  intro h
  have h' := congrArg V3.x h
  simp only [Sylinder.stepEuler, Equatn.stepEuler, fromRecord_pos, add_x, smul_x] at h'
  simp only [fromRecord, record, v32] at h'
  have : dt * (r32 s.vel.x - s.vel.x) = 0 := by linarith
  rcases mul_eq_zero.1 this with h | h
  · exact hdt h
  · exact hx (by linarith)

/-- **C46** is false for another number of ranks: the folder is computed from the number of ranks, so that a snapshot 500
written by one rank is not found by two ranks. -/
theorem C46_folder_false (F : Fmt) (r32 : ℝ → ℝ) (svd : V3 → V3 → V3) (blank : Sylinder) (fixed : Bool) (dt : ℝ) (seed step : ℕ) (hseed : seed < 2 ^ 32)
    (hstep : step < 2 ^ 31) (bodies : List Sylinder) (links : List (ℤ × ℤ)) :
    ∃ d', writeResult F r32 dt seed step 500 [bodies] links Disk.empty = some d' ∧ reinitialize svd blank fixed dt 2 d' = none := by
  have f1 : Output.resultFolder 1 500 = some ("./result/result".toList ++ dec 400 ++ "-".toList ++ dec 799 ++ "/".toList) := rfl
  have f2 : Output.resultFolder 2 500 = some ("./result/result".toList ++ dec 400 ++ "-".toList ++ dec 599 ++ "/".toList) := rfl
  have hne : ∀ a b : Str, "./result/result".toList ++ dec 400 ++ "-".toList ++ dec 599 ++ "/".toList ++ a ≠
      "./result/result".toList ++ dec 400 ++ "-".toList ++ dec 799 ++ "/".toList ++ b := by
    intro a b h
    have e1 : "./result/result".toList ++ dec 400 ++ "-".toList ++ dec 599 ++ "/".toList = "./result/result400-599/".toList := rfl
    have e2 : "./result/result".toList ++ dec 400 ++ "-".toList ++ dec 799 ++ "/".toList = "./result/result400-799/".toList := rfl
    rw [e1, e2] at h
    have h' := congrArg (List.take 23) h
    have l1 : "./result/result400-599/".toList.length = 23 := rfl
    have l2 : "./result/result400-799/".toList.length = 23 := rfl
    rw [List.take_append_of_le_length (by rw [l1]), List.take_append_of_le_length (by rw [l2]),
      List.take_of_length_le (by rw [l1]), List.take_of_length_le (by rw [l2])] at h'
    revert h'
    decide
  have hfo := folder_head 2 500 _ f2
  generalize "./result/result".toList ++ dec 400 ++ "-".toList ++ dec 599 ++ "/".toList = g at f2 hne hfo
  generalize hfd : "./result/result".toList ++ dec 400 ++ "-".toList ++ dec 799 ++ "/".toList = f at f1 hne
  have f1' : Output.resultFolder [bodies].length 500 = some f := f1
  unfold writeResult
  rw [f1']
  simp only [Option.map_some, Option.some.injEq, exists_eq_left']
  generalize hd1 : Disk.put Disk.empty (f ++ Output.asciiName 500) (.text (asciiText F (step * dt) [bodies].flatten links)) = d1
  generalize hd2 : putPieces r32 f 500 d1 [bodies] = d2
  generalize hd3 : d2.put (f ++ Output.pvtpName 500) (.head ((List.range [bodies].length).map (pieceName · 500))) = d3
  generalize hd4 : d3.put infoPath (.text (Output.writeInfo seed step 500)) = d4
  have hr : (d4.textAt infoPath).bind Output.readInfo = some ⟨seed, step, 500, Output.pvtpName 500⟩ := by
    have : d4.textAt infoPath = some (Output.writeInfo seed step 500) := by
      unfold Disk.textAt
      rw [← hd4, put_same]
    rw [this, Option.bind_some]
    exact readInfo_writeInfo _ _ _ hseed hstep (by norm_num)
  have hp : readPieces d4 g (Output.pvtpName 500) = none := by
    unfold readPieces
    have : d4.headAt (g ++ Output.pvtpName 500) = none := by
      unfold Disk.headAt
      rw [← hd4, put_other _ _ _ _ (hfo _), ← hd3, put_other _ _ _ _ (hne _ _), ← hd2, putPieces_other _ _ _ _ _ _ (fun r => hne _ _), ← hd1,
        put_other _ _ _ _ (hne _ _)]
      rfl
    rw [this, Option.bind_none]
  unfold reinitialize
  rw [hr]
  simp only [Option.bind_eq_bind, Option.bind_some]
  rw [asciiOf_pvtpName]
  simp only [Option.bind_some]
  rw [f2]
  simp only [Option.bind_some]
  rw [hp]
  rfl

/-- `m` steps from counters between two snapshots. -/
theorem steps_spec (e : ℤ) (he : 0 < e) (m : ℕ) (c k : ℤ) (log : List (ℤ × ℤ)) (hc : 0 ≤ c) (hm : c + m ≤ Output.intMax) (h1 : (k - 1) * e < c) (h2 : c ≤ k * e) :
    ∃ K : ℕ, steps e m ⟨c, k, log⟩ = some ⟨c + m, k + K, log ++ (List.range K).map fun i : ℕ => ((k + (i : ℤ)) * e, k + (i : ℤ))⟩ ∧
      (k + K - 1) * e < c + m ∧ c + m ≤ (k + K) * e := by
  induction m generalizing c k log with
  | zero => exact ⟨0, by simp [steps], by simpa using h1, by simpa using h2⟩
  | succ m ih =>
    push_cast at hm
    obtain ⟨k', log', hs, h1', h2', hw, hn⟩ := runStep_write e c k log he hc (by omega) h1 h2
    obtain ⟨K, hK, hK1, hK2⟩ := ih (c + 1) k' log' (by omega) (by omega) h1' h2'
    have hcm : c + 1 + (m : ℤ) = c + ((m + 1 : ℕ) : ℤ) := by push_cast; ring
    rw [hcm] at hK hK1 hK2
    have hst : steps e (m + 1) ⟨c, k, log⟩ = steps e m ⟨c + 1, k', log'⟩ := by
      show (Output.runStep e ⟨c, k, log⟩).bind (steps e m) = _
      rw [hs, Option.bind_some]
    rw [hst, hK]
    by_cases h : c = k * e
    · obtain ⟨rfl, rfl⟩ := hw h
      refine ⟨K + 1, ?_, ?_, ?_⟩
      · have e1 : k + 1 + (K : ℤ) = k + ((K + 1 : ℕ) : ℤ) := by push_cast; ring
        rw [e1, List.range_succ_eq_map, List.map_cons, List.map_map, List.append_assoc, List.singleton_append]
        have e2 : ((k + ((0 : ℕ) : ℤ)) * e, k + ((0 : ℕ) : ℤ)) = (c, k) := by simp [h]
        rw [e2]
        have e3 : (fun i : ℕ => ((k + 1 + (i : ℤ)) * e, k + 1 + (i : ℤ))) = (fun i : ℕ => ((k + (i : ℤ)) * e, k + (i : ℤ))) ∘ Nat.succ := by
          funext i
          simp only [Function.comp, Nat.succ_eq_add_one]
          push_cast
          rw [add_assoc, add_comm (1 : ℤ)]
        rw [e3]
      · push_cast at hK1 ⊢
        have : k + ((K : ℤ) + 1) - 1 = k + 1 + K - 1 := by ring
        rw [this]
        exact hK1
      · push_cast at hK2 ⊢
        have : k + ((K : ℤ) + 1) = k + 1 + K := by ring
        rw [this]
        exact hK2
    · obtain ⟨rfl, rfl⟩ := hn h
      exact ⟨K, rfl, hK1, hK2⟩

theorem history_spec (e : ℤ) (he : 0 < e) (ms : List ℕ) (file : Option (ℤ × ℤ)) (c k : ℤ) (hs : startCounters file = ⟨c, k, []⟩) (hc : 0 ≤ c)
    (hm : c + ms.sum ≤ Output.intMax) (h1 : (k - 1) * e < c) (h2 : c ≤ k * e) :
    ∃ K : ℕ, history e file ms = some ((List.range K).map fun i : ℕ => ((k + (i : ℤ)) * e, k + (i : ℤ))) := by
  induction ms generalizing file c k with
  | nil => exact ⟨0, rfl⟩
  | cons m ms ih =>
    rw [List.sum_cons] at hm
    rw [Nat.cast_add] at hm
    have hnn : (0 : ℤ) ≤ ((ms.sum : ℕ) : ℤ) := Int.natCast_nonneg _
    obtain ⟨K, hK, hK1, hK2⟩ := steps_spec e he m c k [] hc (by omega) h1 h2
    rw [List.nil_append] at hK
    unfold history
    rw [hs, hK]
    simp only [Option.bind_eq_bind, Option.bind_some]
    cases K with
    | zero =>
      obtain ⟨K', hK'⟩ := ih file c k hs hc (by omega) h1 h2
      refine ⟨K', ?_⟩
      simp [hK']
    | succ K =>
      have hlast : ((List.range (K + 1)).map fun i : ℕ => ((k + (i : ℤ)) * e, k + (i : ℤ))).getLast? = some ((k + (K : ℤ)) * e, k + (K : ℤ)) := by
        rw [List.range_succ]
        simp
      rw [hlast]
      push_cast at hK1 hK2
      have hk1 : k + ((K : ℤ) + 1) - 1 = k + K := by ring
      rw [hk1] at hK1
      have hpos : 0 ≤ (k + (K : ℤ)) * e := by
        have : 0 ≤ k * e := le_trans hc h2
        nlinarith
      obtain ⟨K', hK'⟩ := ih (some ((k + (K : ℤ)) * e, k + (K : ℤ))) ((k + (K : ℤ)) * e + 1) (k + K + 1) rfl (by omega) (by omega)
        (by rw [add_sub_cancel_right]; omega) (by nlinarith)
      refine ⟨K + 1 + K', ?_⟩
      rw [show (some ((k + (K : ℤ)) * e, k + (K : ℤ))).or file = some ((k + (K : ℤ)) * e, k + (K : ℤ)) from rfl, hK']
      simp only [Option.bind_some]
      rw [show List.range (K + 1 + K') = List.range (K + 1) ++ (List.range K').map (K + 1 + ·) from List.range_add .., List.map_append, List.map_map]
      congr 2
      apply List.map_congr_left
      intro i _
      simp only [Function.comp]
      push_cast
      rw [show k + (K : ℤ) + 1 + i = k + (K + 1 + i) by ring]

/-- **C46**, all histories: however often and wherever the run crashes and is restarted from the last snapshot, the snapshots
written in all segments together are those of one uninterrupted run: number `j` at step `j · e`, each once, in order. -/
theorem C46_history (e : ℤ) (he : 0 < e) (ms : List ℕ) (hm : (ms.sum : ℤ) ≤ Output.intMax) :
    ∃ K : ℕ, history e none ms = some ((List.range K).map fun j : ℕ => ((j : ℤ) * e, (j : ℤ))) := by
  obtain ⟨K, hK⟩ := history_spec e he ms none 0 0 rfl le_rfl (by simpa using hm) (by linarith) (by simp)
  exact ⟨K, by simpa using hK⟩

example : history 3 none [5, 4, 1, 0, 7] = some [(0, 0), (3, 1), (6, 2), (9, 3), (12, 4)] := by decide

/-- The seed of a run, by the number of earlier runs that wrote a snapshot. -/
theorem seeds_spec (rngSeed : ℕ) (file : Option ℕ) (nxt : ℕ) (hn : nxt = runSeed rngSeed file) (hlt : nxt < 2 ^ 32)
    (ws : List Bool) (i : ℕ) (hi : i < ws.length) :
    (seeds rngSeed file ws)[i]? = some ((nxt + (ws.take i).count true) % 2 ^ 32, ws[i]) := by
  induction ws generalizing file nxt i with
  | nil => simp at hi
  | cons w ws ih =>
    unfold seeds
    rw [← hn]
    cases i with
    | zero =>
      have := Nat.mod_eq_of_lt hlt
      simp only [List.getElem?_cons_zero, List.take_zero, List.count_nil, add_zero, List.getElem_cons_zero, this]
    | succ i =>
      simp only [List.getElem?_cons_succ, List.take_succ_cons, List.getElem_cons_succ]
      have hi' : i < ws.length := by simpa using hi
      cases w with
      | false =>
        rw [if_neg (by simp), ih file nxt hn hlt i hi']
        simp
      | true =>
        rw [if_pos rfl, ih (some nxt) ((nxt + 1) % 2 ^ 32) rfl (Nat.mod_lt _ (by norm_num)) i hi']
        rw [List.count_cons_self, Nat.mod_add_mod, add_assoc, add_comm 1]

/-- **C46** (partial), seeds: in any history of fewer than `2 ^ 32` runs, no run uses the seed of an earlier run that lived to write a
snapshot.  Missing: a run that died before its first snapshot leaves no trace, and its seed is used again
(`C46_seed_false`); nothing of what it computed is kept. -/
theorem C46_seed_partial (rngSeed : ℕ) (hseed : rngSeed < 2 ^ 32) (ws : List Bool) (hlen : ws.length ≤ 2 ^ 32) (i j : ℕ) (hij : i < j) (hj : j < ws.length)
    (a b : ℕ × Bool) (ha : (seeds rngSeed none ws)[i]? = some a) (hb : (seeds rngSeed none ws)[j]? = some b) (hw : a.2 = true) : a.1 ≠ b.1 := by
  rw [seeds_spec rngSeed none rngSeed rfl hseed ws i (by omega)] at ha
  rw [seeds_spec rngSeed none rngSeed rfl hseed ws j hj] at hb
  simp only [Option.some.injEq] at ha hb
  subst ha
  subst hb
  simp only at hw ⊢
  have hsplit : ws.take j = ws.take i ++ ((ws.drop i).take (j - i)) := by
    rw [← List.take_add, show i + (j - i) = j by omega]
  have hc : (ws.take j).count true = (ws.take i).count true + ((ws.drop i).take (j - i)).count true := by
    rw [hsplit, List.count_append]
  have hpos : 0 < ((ws.drop i).take (j - i)).count true := by
    rw [List.count_pos_iff]
    have hd : ws.drop i = ws[i] :: ws.drop (i + 1) := List.drop_eq_getElem_cons (by omega)
    rw [hd, hw, show j - i = (j - i - 1) + 1 by omega, List.take_succ_cons]
    exact List.mem_cons_self
  have hle : ((ws.drop i).take (j - i)).count true ≤ j - i := le_trans List.count_le_length (by simp)
  omega

/-- **C46** is false for a run that died before its first snapshot: the third run uses the seed of the second. -/
theorem C46_seed_false (rngSeed : ℕ) : ((seeds rngSeed none [true, false, true]).map Prod.fst)[1]? = ((seeds rngSeed none [true, false, true]).map Prod.fst)[2]? := by
  simp [seeds]

example : seeds 7 none [true, false, true, true] = [(7, true), (8, false), (8, true), (9, true)] := by decide

/-! ### C50 -/

/-- The numbers printed for a body read back as they were. -/
structure Printed (r8 : ℝ → ℝ) (s : Sylinder) : Prop where
  radius : r8 s.radius = s.radius
  minus : v32 r8 (minusEnd s) = minusEnd s
  plus : v32 r8 (plusEnd s) = plusEnd s

theorem ends_sub (s : Sylinder) : plusEnd s - minusEnd s = s.length • s.direction := by
  unfold plusEnd minusEnd
  ext <;> simp <;> ring

theorem unit_norm (s : Sylinder) (hu : Verif.Spec.UnitQuat s.orientation) : V3.norm s.direction = 1 := by
  have hd := Mobility.direction_unit s hu
  have : V3.norm s.direction ^ 2 = 1 := by rw [V3.norm_sq]; exact hd
  nlinarith [V3.norm_nonneg s.direction]

theorem norm_ends (s : Sylinder) (hu : Verif.Spec.UnitQuat s.orientation) (hl : 0 ≤ s.length) : V3.norm (plusEnd s - minusEnd s) = s.length := by
  rw [ends_sub, V3.norm_smul, unit_norm s hu, abs_of_nonneg hl, mul_one]

theorem parsed_same (svd : V3 → V3 → V3) (hsvd : SvdOk svd) (blank : Sylinder) (r8 : ℝ → ℝ) (s : Sylinder) (hu : Verif.Spec.UnitQuat s.orientation)
    (hr : Regular s.direction) (hl : 1 / 10 ^ 7 < s.length) (hp : Printed r8 s) : Same (parsed svd blank r8 s).clear s := by
  have hl0 : 0 < s.length := lt_trans (by norm_num) hl
  have hn := norm_ends s hu hl0.le
  have ho := orient_of svd hsvd s.direction (Mobility.direction_unit s hu) hr s.length hl0
  have hor : (parsed svd blank r8 s).clear.orientation = Orient.fromTwoVectors svd ⟨0, 0, 1⟩ (s.length • s.direction) := by
    simp only [parsed, Sylinder.clear, hp.minus, hp.plus, hn]
    rw [if_pos hl, ends_sub]
  refine ⟨rfl, rfl, rfl, hp.radius, ?_, ?_, ?_, ?_⟩
  · simp only [parsed, Sylinder.clear, hp.minus, hp.plus, hn]
  · simp only [parsed, Sylinder.clear, hp.minus, hp.plus]
    unfold plusEnd minusEnd
    ext <;> simp <;> ring
  · unfold Sylinder.direction
    rw [hor]
    exact ho.2
  · rw [hor]
    exact ho.1

/-- **C50** (partial).  Reading the text of an ascii snapshot of any bodies and links gives the same bodies, in the same order, with the
same id, group, movability, radius, length, centre and direction, and the same links.

Missing: the numbers printed are assumed to survive eight digits (see `C50_rounded_partial`, `C50_digits_false`); lengths up to
`1e-7` lose the direction (`C50_short_false`); directions nearly opposite to z are excluded. -/
theorem C50_roundtrip_partial (F : Fmt) (r8 : ℝ → ℝ) (hF : FmtOk F r8) (svd : V3 → V3 → V3) (hsvd : SvdOk svd) (blank : Sylinder) (time : ℝ)
    (bodies : List Sylinder) (links : List (ℤ × ℤ)) (hl : ∀ l ∈ links, Int32 l.1 ∧ Int32 l.2)
    (hb : ∀ s ∈ bodies, Int32 s.gid ∧ Int32 s.group ∧ Verif.Spec.UnitQuat s.orientation ∧ Regular s.direction ∧ 1 / 10 ^ 7 < s.length ∧ Printed r8 s) :
    ∃ bodies', setInitialFromFile F svd blank (asciiText F time bodies links) = some bodies' ∧ List.Forall₂ Same bodies' bodies ∧
      readLinks (asciiText F time bodies links) = some links := by
  refine ⟨_, setInitial_ascii F r8 hF svd blank time bodies links (fun s hs => ⟨(hb s hs).1, (hb s hs).2.1⟩), ?_, readLinks_ascii F r8 hF time bodies links hl⟩
  rw [List.forall₂_map_left_iff, List.forall₂_same]
  intro s hs
  obtain ⟨-, -, hu, hr, hlen, hp⟩ := hb s hs
  exact parsed_same svd hsvd blank r8 s hu hr hlen hp

/-- What a round trip with relative error `ε` of the printed numbers leaves of a body. -/
structure Close (ε : ℝ) (u s : Sylinder) : Prop where
  gid : u.gid = s.gid
  group : u.group = s.group
  isImmovable : u.isImmovable = s.isImmovable
  radius : |u.radius - s.radius| ≤ ε * |s.radius|
  length : |u.length - s.length| ≤ ε * (V3.norm (minusEnd s) + V3.norm (plusEnd s))
  pos : V3.norm (u.pos - s.pos) ≤ ε * ((V3.norm (minusEnd s) + V3.norm (plusEnd s)) / 2)
  direction : V3.norm (u.direction - s.direction) ≤ 2 * (ε * (V3.norm (minusEnd s) + V3.norm (plusEnd s))) / s.length
  unit : Verif.Spec.UnitQuat u.orientation

theorem parsed_close (svd : V3 → V3 → V3) (blank : Sylinder) (r8 : ℝ → ℝ) (ε : ℝ) (hε : 0 ≤ ε) (hr8 : ∀ x, |r8 x - x| ≤ ε * |x|) (s : Sylinder)
    (hu : Verif.Spec.UnitQuat s.orientation) (hl : 1 / 10 ^ 7 + ε * (V3.norm (minusEnd s) + V3.norm (plusEnd s)) < s.length)
    (hz : -1 + 1 / 10 ^ 12 + 2 * (ε * (V3.norm (minusEnd s) + V3.norm (plusEnd s))) / s.length ≤ s.direction.z) : Close ε (parsed svd blank r8 s).clear s := by
  have hm := v32_err r8 ε hε hr8 (minusEnd s)
  have hp := v32_err r8 ε hε hr8 (plusEnd s)
  have hM := V3.norm_nonneg (minusEnd s)
  have hP := V3.norm_nonneg (plusEnd s)
  generalize hE : ε * (V3.norm (minusEnd s) + V3.norm (plusEnd s)) = E at hl hz
  have hE0 : 0 ≤ E := by rw [← hE]; positivity
  have hl0 : 0 < s.length := lt_trans (by positivity) hl
  have hn := norm_ends s hu hl0.le
  have hdiff : V3.norm ((v32 r8 (plusEnd s) - v32 r8 (minusEnd s)) - (plusEnd s - minusEnd s)) ≤ E := by
    have e : (v32 r8 (plusEnd s) - v32 r8 (minusEnd s)) - (plusEnd s - minusEnd s) = (v32 r8 (plusEnd s) - plusEnd s) + -(v32 r8 (minusEnd s) - minusEnd s) := by
      ext <;> simp <;> ring
    rw [e]
    have := V3.norm_add_le (v32 r8 (plusEnd s) - plusEnd s) (-(v32 r8 (minusEnd s) - minusEnd s))
    rw [V3.norm_neg] at this
    rw [← hE, mul_add]
    linarith
  have hlen : |V3.norm (v32 r8 (plusEnd s) - v32 r8 (minusEnd s)) - s.length| ≤ E := by
    have := V3.abs_norm_sub_le (v32 r8 (plusEnd s) - v32 r8 (minusEnd s)) (plusEnd s - minusEnd s)
    rw [hn] at this
    exact le_trans this hdiff
  have hgt : V3.norm (v32 r8 (plusEnd s) - v32 r8 (minusEnd s)) > 1 / 10 ^ 7 := by
    have := (abs_le.1 hlen).1
    linarith
  have hor : (parsed svd blank r8 s).clear.orientation = Orient.fromTwoVectors svd ⟨0, 0, 1⟩ (v32 r8 (plusEnd s) - v32 r8 (minusEnd s)) := by
    simp only [parsed, Sylinder.clear]
    rw [if_pos hgt]
  have hpos : V3.norm ((parsed svd blank r8 s).clear.pos - s.pos) ≤ E / 2 := by
    have e : (parsed svd blank r8 s).clear.pos - s.pos = (1 / 2 : ℝ) • ((v32 r8 (plusEnd s) - plusEnd s) + (v32 r8 (minusEnd s) - minusEnd s)) := by
      simp only [parsed, Sylinder.clear]
      generalize v32 r8 (plusEnd s) = a
      generalize v32 r8 (minusEnd s) = b
      unfold plusEnd minusEnd
      ext <;> simp <;> ring
    rw [e, V3.norm_smul]
    have := V3.norm_add_le (v32 r8 (plusEnd s) - plusEnd s) (v32 r8 (minusEnd s) - minusEnd s)
    rw [abs_of_pos (by norm_num), ← hE, mul_add]
    linarith
  have hle : (parsed svd blank r8 s).clear.length = V3.norm (v32 r8 (plusEnd s) - v32 r8 (minusEnd s)) := rfl
  generalize v32 r8 (plusEnd s) - v32 r8 (minusEnd s) = a at *
  have ha : a ≠ 0 := by
    intro h
    rw [h, V3.norm_zero] at hgt
    norm_num at hgt
  have hdir : V3.norm (a.normalized - s.direction) ≤ 2 * E / s.length := by
    refine le_trans (dir_err_unit a s.direction s.length hl0 ha (unit_norm s hu)) ?_
    rw [← ends_sub, div_le_div_iff_of_pos_right hl0]
    linarith
  have hzc : |(a.normalized - s.direction).z| ≤ 2 * E / s.length := by
    refine le_trans ?_ hdir
    generalize a.normalized - s.direction = w
    rw [← Real.sqrt_sq_eq_abs]
    apply Real.sqrt_le_sqrt
    simp only [normSq, dot]
    nlinarith [sq_nonneg w.x, sq_nonneg w.y]
  have ho := Orient.fromTwoVectors_regular svd ⟨0, 0, 1⟩ a ez_ne ha (by
    rw [ez_normalized]
    simp only [dot, Orient.dummyPrecision]
    rw [sub_z] at hzc
    have := (abs_le.1 hzc).1
    norm_num at hz ⊢
    linarith)
  rw [ez_normalized] at ho
  refine ⟨rfl, rfl, rfl, hr8 _, ?_, ?_, ?_, ?_⟩
  · rw [hle, hE]
    exact hlen
  · rw [← mul_div_assoc, hE]
    exact hpos
  · rw [hE]
    unfold Sylinder.direction
    rw [hor, ho.2]
    exact hdir
  · rw [hor]
    exact ho.1

/-- **C50** (partial): with numbers printed up to a relative error `ε`, the file reads back, with the same links, and the bodies differ
only by that error. -/
theorem C50_rounded_partial (F : Fmt) (r8 : ℝ → ℝ) (hF : FmtOk F r8) (svd : V3 → V3 → V3) (blank : Sylinder) (time : ℝ) (ε : ℝ) (hε : 0 ≤ ε)
    (hr8 : ∀ x, |r8 x - x| ≤ ε * |x|) (bodies : List Sylinder) (links : List (ℤ × ℤ)) (hl : ∀ l ∈ links, Int32 l.1 ∧ Int32 l.2)
    (hb : ∀ s ∈ bodies, Int32 s.gid ∧ Int32 s.group ∧ Verif.Spec.UnitQuat s.orientation ∧
      1 / 10 ^ 7 + ε * (V3.norm (minusEnd s) + V3.norm (plusEnd s)) < s.length ∧
      -1 + 1 / 10 ^ 12 + 2 * (ε * (V3.norm (minusEnd s) + V3.norm (plusEnd s))) / s.length ≤ s.direction.z) :
    ∃ bodies', setInitialFromFile F svd blank (asciiText F time bodies links) = some bodies' ∧ List.Forall₂ (Close ε) bodies' bodies ∧
      readLinks (asciiText F time bodies links) = some links := by
  refine ⟨_, setInitial_ascii F r8 hF svd blank time bodies links (fun s hs => ⟨(hb s hs).1, (hb s hs).2.1⟩), ?_, readLinks_ascii F r8 hF time bodies links hl⟩
  rw [List.forall₂_map_left_iff, List.forall₂_same]
  intro s hs
  obtain ⟨-, -, hu, hlen, hz⟩ := hb s hs
  exact parsed_close svd blank r8 ε hε hr8 s hu hlen hz

/-- The nearest number with eight significant decimal digits: what `%.8g` prints. -/
noncomputable def round8 (x : ℝ) : ℝ := (round (x / (10 : ℝ) ^ (Int.log 10 |x| - 7)) : ℝ) * (10 : ℝ) ^ (Int.log 10 |x| - 7)

/-- Eight digits are a relative error of `5e-8`. -/
theorem round8_error (x : ℝ) : |round8 x - x| ≤ 5 / 10 ^ 8 * |x| := by
  by_cases hx : x = 0
  · subst hx
    simp [round8]
  · have hp : (0 : ℝ) < (10 : ℝ) ^ (Int.log 10 |x| - 7) := by positivity
    have hlog : (10 : ℝ) ^ Int.log 10 |x| ≤ |x| := by
      have := Int.zpow_log_le_self (b := 10) (by norm_num) (abs_pos.2 hx)
      exact_mod_cast this
    have he : (10 : ℝ) ^ (Int.log 10 |x| - 7) = (10 : ℝ) ^ Int.log 10 |x| / 10 ^ 7 := by
      rw [zpow_sub₀ (by norm_num)]
      norm_num
    have hr := abs_sub_round (x / (10 : ℝ) ^ (Int.log 10 |x| - 7))
    have e : round8 x - x = -((x / (10 : ℝ) ^ (Int.log 10 |x| - 7) - round (x / (10 : ℝ) ^ (Int.log 10 |x| - 7))) * (10 : ℝ) ^ (Int.log 10 |x| - 7)) := by
      unfold round8
      rw [sub_mul, div_mul_cancel₀ _ hp.ne']
      ring
    rw [e, abs_neg, abs_mul, abs_of_pos hp]
    have h1 : |x / (10 : ℝ) ^ (Int.log 10 |x| - 7) - round (x / (10 : ℝ) ^ (Int.log 10 |x| - 7))| * (10 : ℝ) ^ (Int.log 10 |x| - 7) ≤
        1 / 2 * (10 : ℝ) ^ (Int.log 10 |x| - 7) := mul_le_mul_of_nonneg_right hr hp.le
    refine le_trans h1 ?_
    rw [he]
    linarith

/-- **C50** is false for short bodies: a body of length at most `1e-7` comes back along z, whatever its direction. -/
theorem C50_short_false (F : Fmt) (r8 : ℝ → ℝ) (hF : FmtOk F r8) (svd : V3 → V3 → V3) (blank : Sylinder) (time : ℝ) (s : Sylinder) (hg : Int32 s.gid)
    (hgr : Int32 s.group) (hu : Verif.Spec.UnitQuat s.orientation) (hl0 : 0 ≤ s.length) (hl : s.length ≤ 1 / 10 ^ 7) (hp : Printed r8 s)
    (hd : s.direction ≠ ⟨0, 0, 1⟩) :
    ∃ u, setInitialFromFile F svd blank (asciiText F time [s] []) = some [u] ∧ u.direction = ⟨0, 0, 1⟩ ∧ u.direction ≠ s.direction := by
  refine ⟨_, setInitial_ascii F r8 hF svd blank time [s] [] (by simpa using ⟨hg, hgr⟩), ?_⟩
  have hn := norm_ends s hu hl0
  have : (parsed svd blank r8 s).clear.direction = ⟨0, 0, 1⟩ := by
    simp only [Sylinder.direction, parsed, Sylinder.clear, hp.minus, hp.plus, hn]
    rw [if_neg (not_lt.2 hl)]
    exact (orient_z svd).2
  rw [this]
  exact ⟨rfl, fun h => hd h.symm⟩

/-- **C50** is false for numbers of more than eight digits: whenever `1 + 2⁻⁴⁰` prints as `1`, a body of this radius comes back with
another radius. -/
theorem C50_digits_false (F : Fmt) (r8 : ℝ → ℝ) (hF : FmtOk F r8) (h8 : r8 (1 + 1 / 2 ^ 40) = 1) (svd : V3 → V3 → V3) (blank : Sylinder) (time : ℝ)
    (s : Sylinder) (hg : Int32 s.gid) (hgr : Int32 s.group) (hr : s.radius = 1 + 1 / 2 ^ 40) :
    ∃ u, setInitialFromFile F svd blank (asciiText F time [s] []) = some [u] ∧ u.radius = 1 ∧ u.radius ≠ s.radius := by
  refine ⟨_, setInitial_ascii F r8 hF svd blank time [s] [] (by simpa using ⟨hg, hgr⟩), ?_⟩
  have : (parsed svd blank r8 s).clear.radius = 1 := by
    simp only [parsed, Sylinder.clear]
    rw [hr]
    exact h8
  rw [this, hr]
  exact ⟨rfl, by norm_num⟩

/-- Eight digits do print `1 + 2⁻⁴⁰` as `1`. -/
theorem round8_one : round8 (1 + 1 / 2 ^ 40) = 1 := by
  have habs : |(1 + 1 / 2 ^ 40 : ℝ)| = 1 + 1 / 2 ^ 40 := abs_of_pos (by norm_num)
  have hlog : Int.log 10 |(1 + 1 / 2 ^ 40 : ℝ)| = 0 := by
    rw [habs]
    apply le_antisymm
    · have : Int.log 10 (1 + 1 / 2 ^ 40 : ℝ) < 1 := by
        rw [← Int.lt_zpow_iff_log_lt (b := 10) (by norm_num) (by norm_num)]
        norm_num
      omega
    · rw [← Int.zpow_le_iff_le_log (b := 10) (by norm_num) (by norm_num)]
      norm_num
  unfold round8
  rw [hlog]
  have : round ((1 + 1 / 2 ^ 40 : ℝ) / (10 : ℝ) ^ ((0 : ℤ) - 7)) = 10000000 := by
    rw [round_eq, Int.floor_eq_iff]
    constructor <;> norm_num
  rw [this]
  norm_num

/-! ### the hypotheses can be met -/

/-- Printing on a grid of `1e-9`, of numbers that fit an `int`. -/
noncomputable def gridInt (x : ℝ) : ℤ := open Classical in if Int32 ⌊x * 10 ^ 9⌋ then ⌊x * 10 ^ 9⌋ else 0

noncomputable def gridFmt : Fmt where
  print x := decInt (gridInt x)
  printF x := decInt (gridInt x)
  scan s := (readInt s).map fun p => ((p.1 : ℝ) / 10 ^ 9, p.2)

noncomputable def gridRound (x : ℝ) : ℝ := (gridInt x : ℝ) / 10 ^ 9

theorem gridInt32 (x : ℝ) : Int32 (gridInt x) := by
  unfold gridInt
  split
  · assumption
  · exact ⟨by norm_num, by norm_num⟩

theorem gridFmt_ok : FmtOk gridFmt gridRound where
  scan x s hs := by
    unfold gridFmt
    simp only
    rw [readInt_ws _ _ (by decide), readInt_decInt _ _ (gridInt32 x).1 (gridInt32 x).2 (by
      intro c t h
      have := hs c t h
      by_contra hd
      rw [digit_not_space c (by simpa using hd)] at this
      simp at this)]
    rfl
  line x := newline_not_decInt _
  lineF x := newline_not_decInt _

theorem gridRound_of (z : ℤ) (h : Int32 z) : gridRound ((z : ℝ) / 10 ^ 9) = (z : ℝ) / 10 ^ 9 := by
  unfold gridRound gridInt
  rw [div_mul_cancel₀ _ (by norm_num), Int.floor_intCast, if_pos h]

/-- An axis orthogonal to a unit vector. -/
noncomputable def someAxis (v _w : V3) : V3 := if v.x = 0 ∧ v.y = 0 then ⟨1, 0, 0⟩ else V3.normalized ⟨v.y, -v.x, 0⟩

theorem someAxis_ok : SvdOk someAxis := by
  intro v _
  unfold someAxis
  split
  · rename_i h
    constructor
    · simp [V3.norm, normSq, dot]
    · simp [dot, h.1]
  · rename_i h
    have hne : (⟨v.y, -v.x, 0⟩ : V3) ≠ 0 := by
      intro h0
      have h1 := congrArg V3.x h0
      have h2 := congrArg V3.y h0
      simp at h1 h2
      exact h ⟨h2, h1⟩
    refine ⟨V3.norm_normalized _ hne, ?_⟩
    rw [normalized_eq _ hne]
    simp only [dot, smul_x, smul_y, smul_z]
    ring

/-- A rod along x. -/
noncomputable def rodX (length radius : ℝ) : Sylinder := Sylinder.make 3 radius radius length length 0 ⟨Real.sqrt 2 / 2, 0, Real.sqrt 2 / 2, 0⟩

theorem rodX_unit (length radius : ℝ) : Verif.Spec.UnitQuat (rodX length radius).orientation := by
  have h2 : Real.sqrt 2 * Real.sqrt 2 = 2 := Real.mul_self_sqrt (by norm_num)
  show (Real.sqrt 2 / 2) ^ 2 + 0 ^ 2 + (Real.sqrt 2 / 2) ^ 2 + 0 ^ 2 = 1
  nlinarith

theorem rodX_direction (length radius : ℝ) : (rodX length radius).direction = ⟨1, 0, 0⟩ := by
  have h2 : Real.sqrt 2 * Real.sqrt 2 = 2 := Real.mul_self_sqrt (by norm_num)
  show Quat.rot ⟨Real.sqrt 2 / 2, 0, Real.sqrt 2 / 2, 0⟩ ⟨0, 0, 1⟩ = _
  ext <;> simp [Quat.rot, Quat.vec, V3.cross] <;> nlinarith

theorem rodX_printed : Printed gridRound (rodX 1 (1 / 4)) := by
  have g0 : gridRound 0 = 0 := by simpa using gridRound_of 0 ⟨by norm_num, by norm_num⟩
  have gh : gridRound (1 / 2) = 1 / 2 := by
    have := gridRound_of 500000000 ⟨by norm_num, by norm_num⟩
    norm_num at this ⊢
    exact this
  have gm : gridRound (-(1 / 2)) = -(1 / 2) := by
    have := gridRound_of (-500000000) ⟨by norm_num, by norm_num⟩
    norm_num at this ⊢
    exact this
  have gq : gridRound (1 / 4) = 1 / 4 := by
    have := gridRound_of 250000000 ⟨by norm_num, by norm_num⟩
    norm_num at this ⊢
    exact this
  have hm : minusEnd (rodX 1 (1 / 4)) = ⟨-(1 / 2), 0, 0⟩ := by
    unfold minusEnd
    rw [rodX_direction]
    have h1 : (rodX 1 (1 / 4)).pos = 0 := rfl
    have h2 : (rodX 1 (1 / 4)).length = 1 := rfl
    rw [h1, h2]
    ext <;> norm_num
  have hp : plusEnd (rodX 1 (1 / 4)) = ⟨1 / 2, 0, 0⟩ := by
    unfold plusEnd
    rw [rodX_direction]
    have h1 : (rodX 1 (1 / 4)).pos = 0 := rfl
    have h2 : (rodX 1 (1 / 4)).length = 1 := rfl
    rw [h1, h2]
    ext <;> norm_num
  refine ⟨gq, ?_, ?_⟩
  · rw [hm]
    ext <;> simp only [v32, g0, gm]
  · rw [hp]
    ext <;> simp only [v32, g0, gh]

theorem grid0 : gridRound 0 = 0 := by simpa using gridRound_of 0 ⟨by norm_num, by norm_num⟩

theorem grid1 : gridRound 1 = 1 := by
  have := gridRound_of 1000000000 ⟨by norm_num, by norm_num⟩
  norm_num at this ⊢
  exact this

theorem gridq : gridRound (1 / 4) = 1 / 4 := by
  have := gridRound_of 250000000 ⟨by norm_num, by norm_num⟩
  norm_num at this ⊢
  exact this

theorem rodX_stored : Stored gridRound (rodX 1 (1 / 4)) := by
  have h0 : v32 gridRound 0 = 0 := by ext <;> simp [v32, grid0]
  refine ⟨gridq, grid1, h0, h0, ?_⟩
  rw [rodX_direction]
  ext <;> simp only [v32, grid0, grid1]

theorem rodX_regular (length radius : ℝ) : Regular (rodX length radius).direction := by
  left
  rw [rodX_direction]
  norm_num

theorem rodX_gid (length radius : ℝ) : Int32 (rodX length radius).gid ∧ Int32 (rodX length radius).group :=
  ⟨⟨by show (-2 ^ 31 : ℤ) ≤ 3; norm_num, by show (3 : ℤ) < 2 ^ 31; norm_num⟩, ⟨by show (-2 ^ 31 : ℤ) ≤ -1; norm_num, by show (-1 : ℤ) < 2 ^ 31; norm_num⟩⟩

/-- C46: two ranks, one body each, one link. -/
example (d : Disk) : ∃ d' R, writeResult gridFmt gridRound (1 / 8) 5 17 3 [[rodX 1 (1 / 4)], [rodX 1 (1 / 4)]] [(3, 4)] d = some d' ∧
    reinitialize someAxis (rodX 0 0) false (1 / 8) 2 d' = some R ∧ R.seed = 6 ∧ R.stepCount = 18 ∧ R.snapID = 4 ∧ R.links = [(3, 4)] ∧ R.bodies.length = 2 := by
  obtain ⟨d', R, h1, h2, h3, h4, h5, h6, h7⟩ := C46_restart_partial gridFmt gridRound gridFmt_ok gridRound someAxis someAxis_ok (rodX 0 0) false (1 / 8) 5 17 3
    [[rodX 1 (1 / 4)], [rodX 1 (1 / 4)]] [(3, 4)] d (by unfold Output.intMax; norm_num) (by unfold Output.intMax; norm_num) (by norm_num)
    (by intro l hl; simp at hl; subst hl; exact ⟨⟨by norm_num, by norm_num⟩, ⟨by norm_num, by norm_num⟩⟩)
    (by intro s hs; simp at hs; subst hs; exact ⟨rodX_unit _ _, rodX_regular _ _, by simpa using rodX_stored⟩)
  exact ⟨d', R, h1, h2, by rw [h3]; norm_num, h4, h5, h6, by rw [h7.length_eq]; simp⟩

/-- C46: the rounding to single precision fits the hypotheses of `C46_rounded_partial`. -/
example (r32 : ℝ → ℝ) (hr : ∀ x, |r32 x - x| ≤ 1 / 2 ^ 24 * |x|) (blank : Sylinder) :
    V3.norm ((fromRecord someAxis blank (record r32 (rodX 1 1))).direction - (rodX 1 1).direction) ≤ 2 * (1 / 2 ^ 24) :=
  (C46_rounded_partial r32 (1 / 2 ^ 24) (by norm_num) (by norm_num) hr someAxis blank (rodX 1 1) (rodX_unit _ _)
    (by rw [rodX_direction]; norm_num) 1 (by norm_num)).2.2.2.2.2.2.2.1

/-- C46: two runs that both wrote snapshots have different seeds. -/
example : (7 : ℕ) ≠ 8 := C46_seed_partial 7 (by norm_num) [true, false, true] (by norm_num) 0 2 (by norm_num) (by decide) (7, true) (8, true) (by decide) (by decide) rfl

/-- C50: two bodies and a link. -/
example : ∃ bodies', setInitialFromFile gridFmt someAxis (rodX 0 0) (asciiText gridFmt 1 [rodX 1 (1 / 4), rodX 1 (1 / 4)] [(3, -4)]) = some bodies' ∧
    List.Forall₂ Same bodies' [rodX 1 (1 / 4), rodX 1 (1 / 4)] ∧
    readLinks (asciiText gridFmt 1 [rodX 1 (1 / 4), rodX 1 (1 / 4)] [(3, -4)]) = some [(3, -4)] :=
  C50_roundtrip_partial gridFmt gridRound gridFmt_ok someAxis someAxis_ok (rodX 0 0) 1 _ _
    (by intro l hl; simp at hl; subst hl; exact ⟨⟨by norm_num, by norm_num⟩, ⟨by norm_num, by norm_num⟩⟩)
    (by
      intro s hs
      have hs : s = rodX 1 (1 / 4) := by simpa using hs
      subst hs
      exact ⟨(rodX_gid _ _).1, (rodX_gid _ _).2, rodX_unit _ _, rodX_regular _ _, by show 1 / 10 ^ 7 < (1 : ℝ); norm_num, rodX_printed⟩)

theorem rodX_ends (length radius : ℝ) : minusEnd (rodX length radius) = ⟨-(1 / 2 * length), 0, 0⟩ ∧ plusEnd (rodX length radius) = ⟨1 / 2 * length, 0, 0⟩ := by
  have h1 : (rodX length radius).pos = 0 := rfl
  have h2 : (rodX length radius).length = length := rfl
  constructor
  · unfold minusEnd
    rw [rodX_direction, h1, h2]
    ext <;> norm_num
  · unfold plusEnd
    rw [rodX_direction, h1, h2]
    ext <;> norm_num

/-- C50: eight digits fit the hypotheses of `C50_rounded_partial`. -/
example (F : Fmt) (hF : FmtOk F round8) (blank : Sylinder) : ∃ bodies', setInitialFromFile F someAxis blank (asciiText F 1 [rodX 1 (1 / 3)] []) = some bodies' ∧
    List.Forall₂ (Close (5 / 10 ^ 8)) bodies' [rodX 1 (1 / 3)] := by
  obtain ⟨b, h1, h2, -⟩ := C50_rounded_partial F round8 hF someAxis blank 1 (5 / 10 ^ 8) (by norm_num) round8_error [rodX 1 (1 / 3)] [] (by simp) (by
    intro s hs
    have hs : s = rodX 1 (1 / 3) := by simpa using hs
    subst hs
    have hn1 : V3.norm (⟨-(1 / 2 * 1), 0, 0⟩ : V3) = 1 / 2 := by
      have : V3.normSq (⟨-(1 / 2 * 1), 0, 0⟩ : V3) = (1 / 2) ^ 2 := by norm_num [normSq, dot]
      unfold V3.norm
      rw [this, Real.sqrt_sq (by norm_num)]
    have hn2 : V3.norm (⟨1 / 2 * 1, 0, 0⟩ : V3) = 1 / 2 := by
      have : V3.normSq (⟨1 / 2 * 1, 0, 0⟩ : V3) = (1 / 2) ^ 2 := by norm_num [normSq, dot]
      unfold V3.norm
      rw [this, Real.sqrt_sq (by norm_num)]
    have hlen : (rodX 1 (1 / 3)).length = 1 := rfl
    rw [(rodX_ends _ _).1, (rodX_ends _ _).2, hn1, hn2, rodX_direction, hlen]
    exact ⟨(rodX_gid _ _).1, (rodX_gid _ _).2, rodX_unit _ _, by norm_num, by norm_num⟩)
  exact ⟨b, h1, h2⟩

/-- C50: a rod of length `2e-8` along x comes back along z. -/
example : ∃ u, setInitialFromFile gridFmt someAxis (rodX 0 0) (asciiText gridFmt 1 [rodX (2 / 10 ^ 8) (1 / 4)] []) = some [u] ∧ u.direction = ⟨0, 0, 1⟩ ∧
    u.direction ≠ (rodX (2 / 10 ^ 8) (1 / 4)).direction := by
  refine C50_short_false gridFmt gridRound gridFmt_ok someAxis _ 1 _ (rodX_gid _ _).1 (rodX_gid _ _).2 (rodX_unit _ _) ?_ ?_ ?_ ?_
  · show (0 : ℝ) ≤ 2 / 10 ^ 8
    norm_num
  · show (2 / 10 ^ 8 : ℝ) ≤ 1 / 10 ^ 7
    norm_num
  · have g1 : gridRound (1 / 2 * (2 / 10 ^ 8)) = 1 / 2 * (2 / 10 ^ 8) := by
      have := gridRound_of 10 ⟨by norm_num, by norm_num⟩
      norm_num at this ⊢
      exact this
    have g2 : gridRound (-(1 / 2 * (2 / 10 ^ 8))) = -(1 / 2 * (2 / 10 ^ 8)) := by
      have := gridRound_of (-10) ⟨by norm_num, by norm_num⟩
      norm_num at this ⊢
      exact this
    refine ⟨gridq, ?_, ?_⟩
    · rw [(rodX_ends _ _).1]
      ext <;> simp only [v32, grid0, g2]
    · rw [(rodX_ends _ _).2]
      ext <;> simp only [v32, grid0, g1]
  · rw [rodX_direction]
    intro h
    have := congrArg V3.x h
    norm_num at this

/-- C50: a grid of nine decimals also prints `1 + 2⁻⁴⁰` as `1`. -/
example : gridRound (1 + 1 / 2 ^ 40) = 1 := by
  unfold gridRound gridInt
  have : ⌊(1 + 1 / 2 ^ 40 : ℝ) * 10 ^ 9⌋ = 1000000000 := by
    rw [Int.floor_eq_iff]
    constructor <;> norm_num
  rw [this, if_pos ⟨by norm_num, by norm_num⟩]
  norm_num

end Verif
