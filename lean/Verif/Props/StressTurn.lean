import Verif.Props.Rigid
/-!
C38 for bodies that are turned or mirrored.
-/
namespace Verif
open Near Collector Spec.Rigid Rigid V3

/-- When both bodies are turned or mirrored and displaced, the stress of a collision turns as a tensor. -/
theorem C38_turned (R : Collector.Mat3) (h : Orth R) (v dI dJ cI cJ : V3) (hI hJ rI rJ : ℝ) (P Q : V3) (hrI : 0 < rI) (hrJ : 0 < rJ)
    (h0I : 0 ≤ hI) (h0J : 0 ≤ hJ) (hdI : V3.norm dI = 1) (hdJ : V3.norm dJ = 1) :
    ∃ S, collideStress dI dJ cI cJ hI hJ rI rJ 1 P Q = some S ∧
      collideStress (turn R dI) (turn R dJ) (turn R cI + v) (turn R cJ + v) hI hJ rI rJ 1 (turn R P + v) (turn R Q + v) =
        some (R * S * R.transpose) := by
  obtain ⟨S, hS, -, -⟩ := collideStress_symm dI dJ cI cJ hI hJ rI rJ P Q hrI hrJ h0I h0J hdI hdJ
  refine ⟨S, hS, ?_⟩
  rw [Displace.stress_tr, stress_turn h, hS]
  rfl

/-- Two parallel rods, turned by 120 degrees and displaced. -/
example : Orth Rigid.cyc ∧ V3.norm (⟨1, 0, 0⟩ : V3) = 1 ∧ turn Rigid.cyc ⟨1, 0, 0⟩ ≠ ⟨1, 0, 0⟩ := by
  refine ⟨Rigid.cyc_rotation.toOrth, by simp [V3.norm, V3.normSq, V3.dot], ?_⟩
  intro h
  have := congrArg V3.x h
  simp [turn, Rigid.cyc] at this

end Verif
