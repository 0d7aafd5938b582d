import Verif.Lemmas.FloatStep

/-!
C102: orientations stay unit, and positions and orientations stay near the exact motion, in floating-point
arithmetic.
-/

namespace Verif

open Spec.FloatStep FloatStep

/-- **C102, unit length.**  Whatever the steps and however many, the orientation is a unit quaternion up to
`12 u`: the error does not accumulate. -/
theorem C102_unit (A : Arith) (u T : ℝ) (hu : 0 ≤ u) (hA : Accurate A u) (hT : 1 ≤ T) (hs : 1500 * T * u ≤ 1) (pos : V3) (q : Quat)
    (hq : |qnorm q - 1| ≤ 12 * u) (moves : List Move) (hm : ∀ m ∈ moves, m.omega.norm * |m.dt| ≤ T) :
    |qnorm (run A pos q moves).2 - 1| ≤ 12 * u := by
  rw [run_snd]
  exact (orientation_close hu (by nlinarith) hA hT hs moves hm q q hq).1

/-- **C102, orientation.**  The distance to the exact orientation grows by at most `1500 T u` a step, and by the
turns that are left out because the angular velocity is below `2^-23`. -/
theorem C102_orientation (A : Arith) (u T : ℝ) (hu : 0 ≤ u) (hA : Accurate A u) (hT : 1 ≤ T) (hs : 1500 * T * u ≤ 1) (pos : V3) (q q' : Quat)
    (hq : |qnorm q - 1| ≤ 12 * u) (moves : List Move) (hm : ∀ m ∈ moves, m.omega.norm * |m.dt| ≤ T) :
    qdist (run A pos q moves).2 (exactOrientation q' moves) ≤ qdist q q' + 1500 * T * u * moves.length + slack moves := by
  rw [run_snd]
  exact (orientation_close hu (by nlinarith) hA hT hs moves hm q q' hq).2

/-- **C102, orientation.**  If no angular velocity is below `2^-22` but other than zero, the error after `n` steps is
that of the start plus `1500 T u n`. -/
theorem C102_orientation_fast (A : Arith) (u T : ℝ) (hu : 0 ≤ u) (hA : Accurate A u) (hT : 1 ≤ T) (hs : 1500 * T * u ≤ 1) (pos : V3)
    (q q' : Quat) (hq : |qnorm q - 1| ≤ 12 * u) (moves : List Move) (hm : ∀ m ∈ moves, m.omega.norm * |m.dt| ≤ T)
    (hf : ∀ m ∈ moves, m.omega = 0 ∨ 1 / 2 ^ 22 ≤ m.omega.norm) :
    qdist (run A pos q moves).2 (exactOrientation q' moves) ≤ qdist q q' + 1500 * T * u * moves.length := by
  have h := C102_orientation A u T hu hA hT hs pos q q' hq moves hm
  have e : slack moves = 0 := by
    unfold slack
    refine List.sum_eq_zero fun x hx => ?_
    obtain ⟨m, hmm, rfl⟩ := List.mem_map.1 hx
    rcases hf m hmm with h0 | h0
    · have : m.omega.norm = 0 := (V3.norm_eq_zero _).2 h0
      simp [this]
    · rw [if_neg]
      have : (2 : ℝ) / 2 ^ 23 = 1 / 2 ^ 22 := by norm_num
      rw [this]
      linarith
  linarith

/-- **C102, position.**  As long as the exact position stays within `L` of the origin, the error of the position
after `n` steps is at most `8 n u L`. -/
theorem C102_position (A : Arith) (u L : ℝ) (hu : 0 ≤ u) (hA : Accurate A u) (hL : 0 ≤ L) (pos : V3) (q : Quat) (moves : List Move)
    (hn : 4 * (moves.length : ℝ) * u ≤ 1) (hb : ∀ k, (exactPosition pos (moves.take k)).norm ≤ L) (hv : ∀ m ∈ moves, (m.dt • m.vel).norm ≤ L) :
    ((run A pos q moves).1 - exactPosition pos moves).norm ≤ 8 * moves.length * u * L :=
  position_close hu hA hL pos q moves hn hb hv

/-- **C102, slow turns.**  A body that turns at `2^-24` never turns in the program, not even without
rounding: after `2^25` steps of one unit of time its orientation is still the first one, while the exact one
has gone more than half a unit away.  There is no bound of the form `C u n` for all runs. -/
theorem C102_slow_false : ∃ (A : Arith) (pos : V3) (q : Quat) (moves : List Move), (∀ u, 0 ≤ u → Accurate A u) ∧ qnorm q = 1 ∧
    (∀ m ∈ moves, m.omega.norm * |m.dt| ≤ 1 / 2 ^ 24) ∧ (run A pos q moves).2 = q ∧ 1 / 2 ≤ qdist (run A pos q moves).2 (exactOrientation q moves) := by
  have hn : V3.norm ⟨0, 0, 1 / 2 ^ 24⟩ = 1 / 2 ^ 24 := by
    simp only [V3.norm, V3.normSq, V3.dot]
    rw [show (0 : ℝ) * 0 + 0 * 0 + 1 / 2 ^ 24 * (1 / 2 ^ 24) = (1 / 2 ^ 24) ^ 2 by ring, Real.sqrt_sq (by positivity)]
  have hst := slow_stays ⟨0, 0, 1 / 2 ^ 24⟩ 0 1 (by rw [hn]; unfold Equatn.fltEps; norm_num) (2 ^ 25) 0 ⟨1, 0, 0, 0⟩
  refine ⟨exactArith, 0, ⟨1, 0, 0, 0⟩, List.replicate (2 ^ 25) ⟨0, ⟨0, 0, 1 / 2 ^ 24⟩, 1⟩, fun u hu => exactArith_accurate hu, by simp [qnorm], ?_, hst, ?_⟩
  · intro m hm
    rw [List.eq_of_mem_replicate hm]
    simp only [hn, abs_one, mul_one, le_refl]
  · rw [hst]
    have e := exact_about_z (1 / 2 ^ 24) 1 (by positivity) 0 (2 ^ 25) 0
    rw [Real.cos_zero, Real.sin_zero] at e
    rw [e, show (0 : ℝ) + ((2 ^ 25 : ℕ) : ℝ) * (1 / 2 ^ 24 * 1 / 2) = 1 by push_cast; norm_num]
    refine Real.le_sqrt_of_sq_le ?_
    have := Real.cos_one_le
    have := Real.sin_sq_add_cos_sq 1
    simp only
    nlinarith

/-- **C102, the same program.**  Without rounding this is the model of `rotateEquatn` that the other properties
are about. -/
theorem C102_same (q : Quat) (omega : V3) (dt : ℝ) : rotateEquatn exactArith q omega dt = Equatn.rotateEquatn q omega dt := by
  unfold rotateEquatn Equatn.rotateEquatn
  change (if omega.norm < Equatn.fltEps then q else FloatStep.normalize exactArith (raw exactArith q omega dt omega.norm)) = _
  simp only
  by_cases h : omega.norm < Equatn.fltEps
  · rw [if_pos h, if_pos h]
  · rw [if_neg h, if_neg h]
    have e : raw exactArith q omega dt omega.norm = ⟨q.w * Real.cos (omega.norm * dt / 2) - V3.dot ⟨q.x, q.y, q.z⟩ omega * Real.sin (omega.norm * dt / 2) * (1 / omega.norm),
        ((1 / omega.norm) • ((q.w * Real.sin (omega.norm * dt / 2)) • omega) + Real.cos (omega.norm * dt / 2) • (⟨q.x, q.y, q.z⟩ : V3) + (Real.sin (omega.norm * dt / 2) * (1 / omega.norm)) • V3.cross omega ⟨q.x, q.y, q.z⟩).x,
        ((1 / omega.norm) • ((q.w * Real.sin (omega.norm * dt / 2)) • omega) + Real.cos (omega.norm * dt / 2) • (⟨q.x, q.y, q.z⟩ : V3) + (Real.sin (omega.norm * dt / 2) * (1 / omega.norm)) • V3.cross omega ⟨q.x, q.y, q.z⟩).y,
        ((1 / omega.norm) • ((q.w * Real.sin (omega.norm * dt / 2)) • omega) + Real.cos (omega.norm * dt / 2) • (⟨q.x, q.y, q.z⟩ : V3) + (Real.sin (omega.norm * dt / 2) * (1 / omega.norm)) • V3.cross omega ⟨q.x, q.y, q.z⟩).z⟩ := by
      simp only [raw, xyzAt, crossAt, FloatStep.dot, exactArith, id, V3.dot, V3.cross, V3.add_x, V3.add_y, V3.add_z, V3.smul_x, V3.smul_y, V3.smul_z, Quat.mk.injEq]
      refine ⟨trivial, ?_, ?_, ?_⟩ <;> ring
    rw [e]
    rfl

/-- Doubles with a rounding that is as bad as it may be: a thousand million steps of turns of up to one radian. -/
example (sinF cosF : ℝ → ℝ) (hs : ∀ x, |sinF x - Real.sin x| ≤ 2 * (1 / 2 ^ 53)) (hc : ∀ x, |cosF x - Real.cos x| ≤ 2 * (1 / 2 ^ 53)) :
    ∀ n ≤ 1000000000, qdist (run ⟨fun x => x * (1 + 1 / 2 ^ 53), sinF, cosF⟩ 0 ⟨1, 0, 0, 0⟩ (List.replicate n ⟨0, ⟨0, 0, 1⟩, 1⟩)).2
      (exactOrientation ⟨1, 0, 0, 0⟩ (List.replicate n ⟨0, ⟨0, 0, 1⟩, 1⟩)) ≤ 1 / 1000 := by
  intro n hn
  have h1 : V3.norm ⟨0, 0, 1⟩ = 1 := by simp [V3.norm, V3.normSq, V3.dot]
  have := C102_orientation_fast ⟨fun x => x * (1 + 1 / 2 ^ 53), sinF, cosF⟩ (1 / 2 ^ 53) 1 (by positivity)
    ⟨fun x => by
      rw [show x * (1 + 1 / 2 ^ 53) - x = 1 / 2 ^ 53 * x by ring, abs_mul, abs_of_pos (by positivity : (0 : ℝ) < 1 / 2 ^ 53)], hs, hc⟩
    le_rfl (by norm_num) 0 ⟨1, 0, 0, 0⟩ ⟨1, 0, 0, 0⟩ (by simp [qnorm]) (List.replicate n ⟨0, ⟨0, 0, 1⟩, 1⟩)
    (by intro m hm; rw [List.eq_of_mem_replicate hm]; simp [h1])
    (by intro m hm; rw [List.eq_of_mem_replicate hm]; right; simp only [h1]; norm_num)
  refine this.trans ?_
  have hn' : (n : ℝ) ≤ 1000000000 := by exact_mod_cast hn
  simp only [List.length_replicate, qdist, sub_self]
  norm_num
  linarith

example := C102_position ⟨fun x => x * (1 + 1 / 2 ^ 53), Real.sin, Real.cos⟩ (1 / 2 ^ 53) 10 (by positivity)
    ⟨fun x => by
      rw [show x * (1 + 1 / 2 ^ 53) - x = 1 / 2 ^ 53 * x by ring, abs_mul, abs_of_pos (by positivity : (0 : ℝ) < 1 / 2 ^ 53)],
      fun x => by simp, fun x => by simp⟩ (by norm_num) ⟨1, 0, 0⟩ ⟨1, 0, 0, 0⟩ [⟨⟨2, 0, 0⟩, ⟨0, 0, 1⟩, 1⟩] (by norm_num)
    (fun k => by
      cases k with
      | zero => simp [exactPosition, V3.norm, V3.normSq, V3.dot]
      | succ k =>
        simp only [List.take_succ_cons, List.take_nil, exactPosition, List.foldl_cons, List.foldl_nil, V3.norm, V3.normSq, V3.dot]
        refine Real.sqrt_le_iff.2 ⟨by norm_num, ?_⟩
        simp
        norm_num)
    (fun m hm => by
      simp only [List.mem_singleton] at hm
      subst hm
      refine Real.sqrt_le_iff.2 ⟨by norm_num, ?_⟩
      simp [V3.normSq, V3.dot]
      norm_num)

end Verif
