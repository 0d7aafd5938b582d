import Verif.Props.Level
import Verif.Lemmas.Plane
/-! C111: a monolayer stays in its plane. -/
namespace Verif
open Domain Near Collector RunStep Mobility Sim

namespace Sim
variable {C C₀ : Cfg} {pbc : Fin 3 → Bool} {low high : Fin 3 → ℝ} {P B : ℕ → List Sylinder}

/-- A body whose director is horizontal is not upright. -/
theorem leans {q : Quat} (hq : Spec.UnitQuat q) (h : (q.rot ⟨0, 0, 1⟩).z = 0) : ¬ Upright q := by
  rintro ⟨h1, h2⟩
  have := NoCross.unit_direction q hq
  rw [show q.rot ⟨0, 0, 1⟩ = 0 from V3.ext h1 h2 h] at this
  simp [V3.norm_zero] at this

theorem InPlane.project {b : Sylinder} (svd : V3 → V3 → V3) (hf : C.place.flat = flat svd) (hm : C.place.monolayer = true) (hb : ¬ Upright b.orientation) :
    InPlane C (Place.project C.place b) := by
  have e : Place.project C.place b = { b with pos := ⟨b.pos.x, b.pos.y, C.place.monoZ⟩, orientation := flat svd b.orientation } := by
    unfold Place.project
    rw [hm, hf]
    rfl
  rw [e]
  exact ⟨rfl, (flat_spec svd _ hb).2.1⟩

/-- The bodies of a step, before and after. -/
theorem Planar.step {svd : V3 → V3 → V3} (hp : Planar svd pbc C) (h : Sound C.mend pbc low high P) {fl : ℝ → ℝ} {pre : Bool} {s s' : State} {q : Place.Sys} {ranks : List RankIn}
    {out : Out} (hi : Inv C.mend P s.sys) (hl : Leaning C s) (hs : Step C fl pre s q ranks out s') :
    (∀ b ∈ all C.place.g.n q.P, InPlane C b) ∧ ∀ b ∈ all C.place.g.n s'.sys.P, InPlane C b ∧ b.vel.z = 0 ∧ b.omega.x = 0 ∧ b.omega.y = 0 := by
  obtain ⟨g1, g2⟩ := hs.mend h hi hl
  have hin : ∀ r < C.place.g.n, ∀ b ∈ q.P r, InPlane C b := by
    intro r hr b hb
    obtain ⟨w, hw, rfl⟩ := g2 r hr b hb
    exact InPlane.project svd hp.flat hp.on.1 hw
  refine ⟨fun b hb => ?_, ?_⟩
  · obtain ⟨r, hr, hb⟩ := mem_all.1 hb
    exact hin r hr b hb
  · refine step_plane (C := C.mend) g1 h (g1.prepared h hi) hp.on.2 hp.open_z hp.bounds fun r hr x hx => ?_
    obtain ⟨b, hb, g, rfl⟩ := numbered_mem _ _ _ _ hx
    rw [cut_P (n := C.place.g.n) q hr] at hb
    exact hin r hr b hb

end Sim

section
variable {C C₀ : Sim.Cfg} {pbc : Fin 3 → Bool} {low high : Fin 3 → ℝ} {P B : ℕ → List Sylinder}

/-- C111.  Take a run of a monolayer (of a program that is sound but for the projection of upright bodies, without Brownian motion, see `Level`) in a box that is not periodic along z, with
boundaries perpendicular to the plane.  No body that is given, read from a file or added is exactly upright; whatever forces and velocities are given, whether the solver converges or not.  Then

* no body is ever upright when a step starts, so the theorems C91 about monolayers apply;
* in every step all bodies are exactly in the plane, with horizontal directors, when forces are computed, and still are when the step ends: no body has moved out of the plane or has turned its
  director out of it. -/
theorem C111_plane (svd : V3 → V3 → V3) (fl : ℝ → ℝ) (k : ℕ) (s : Sim.State)
    (hr : Sim.Run (fun C P => Sim.Sound C.mend pbc low high P ∧ Planar svd pbc C) fl C₀ B C P k s) (hlean : ∀ b ∈ all C.place.g.n P, ¬ Upright b.orientation) :
    (Lying (fun C P => Sim.Sound C.mend pbc low high P) fl C₀ B C P k s ∧ Leaning C s) ∧
    ∀ pre q ranks out s', Sim.Sound C.mend pbc low high P → Planar svd pbc C → Sim.Step C fl pre s q ranks out s' →
      (∀ b ∈ all C.place.g.n q.P, InPlane C b) ∧ ∀ b ∈ all C.place.g.n s'.sys.P, InPlane C b ∧ b.vel.z = 0 ∧ b.omega.x = 0 ∧ b.omega.y = 0 := by
  have key : Lying (fun C P => Sim.Sound C.mend pbc low high P) fl C₀ B C P k s ∧ Leaning C s := by
    have after : ∀ {C : Sim.Cfg} {P : ℕ → List Sylinder} {k : ℕ} {pre : Bool} {s s' : Sim.State} {q : Place.Sys} {ranks : List RankIn} {out : Out},
        Lying (fun C P => Sim.Sound C.mend pbc low high P) fl C₀ B C P k s → Leaning C s → Sim.Sound C.mend pbc low high P → Planar svd pbc C →
        Sim.Step C fl pre s q ranks out s' → Leaning C s' := by
      intro C P k pre s s' q ranks out hly hln hS hP hs b hb
      have hi := Sim.run_inv hly.run
      obtain ⟨g1, -⟩ := hs.mend hS hi hln
      have hi' : Inv C.mend P s'.sys := step_inv g1 hS (g1.prepared hS hi)
      exact leans (hi'.unit (fun b hb => (hS.valid b hb).unit) b hb) ((hP.step hS hi hln hs).2 b hb).1.2
    induction hr with
    | start junk x y s1 s2 h hx hy h1 h2 =>
      refine ⟨.start junk x y s1 s2 h.1 hx hy h1 h2, fun b hb => ?_⟩
      obtain ⟨a, ha, -, e, -⟩ := start_pos h.1 hx hy (Place.decompose_congr (c := C₀.place) (c' := C₀.mend.place) rfl rfl rfl rfl rfl h1) h2 b hb
      rw [e]
      exact hlean a ha
    | resume svd' blank d R s h hs hB =>
      refine ⟨.resume svd' blank d R s h.1 hs hB, fun b hb => ?_⟩
      subst hB
      obtain ⟨-, -, W, h3, h4⟩ := resume_parts h.1.place h.1.enough (show Resumes C₀.mend svd' blank d R s by
        obtain ⟨r1, r2, junk, x, y, Q, s1, s2, hx, hy, hQ, d1, d2, rfl⟩ := hs
        exact ⟨r1, r2, junk, x, y, Q, s1, s2, hx, hy, hQ, Place.decompose_congr (c := C₀.place) (c' := C₀.mend.place) rfl rfl rfl rfl rfl d1, d2, rfl⟩)
      obtain ⟨a, ha, -, e, -⟩ := carry_pos h3 h4 b hb
      rw [e]
      exact hlean a ha
    | pre C P k s q ranks out s' h1 h2 h3 h4 h5 h6 ih =>
      obtain ⟨i1, i2⟩ := ih hlean
      exact ⟨.pre C P k s q ranks out s' i1 h2.1 h3 h4 h5 i2 h6, after i1 i2 h2.1 h2.2 h6⟩
    | step C P k s q ranks out s' h1 h2 h3 h4 ih =>
      obtain ⟨i1, i2⟩ := ih hlean
      exact ⟨.step C P k s q ranks out s' i1 h2.1 h3 i2 h4, after i1 i2 h2.1 h2.2 h4⟩
    | bodies C P k s new ids s' h1 h2 h3 ih =>
      obtain ⟨i1, i2⟩ := ih fun b hb => by
        obtain ⟨r, hr, hb⟩ := mem_all.1 hb
        exact hlean b (mem_all.2 ⟨r, hr, List.mem_append_left _ hb⟩)
      refine ⟨.bodies C P k s new ids s' i1 h2 h3, fun b hb => ?_⟩
      obtain ⟨r, hr, hb⟩ := mem_all.1 hb
      rw [h3.spec.2.1 r hr] at hb
      rcases List.mem_append.1 hb with hb | hb
      · exact i2 b (mem_all.2 ⟨r, hr, hb⟩)
      · exact hlean b (mem_all.2 ⟨r, hr, List.mem_append_right _ hb⟩)
    | links C P k s new h1 h2 ih =>
      obtain ⟨i1, i2⟩ := ih hlean
      exact ⟨.links C P k s new i1 h2, i2⟩
  exact ⟨key, fun pre q ranks out s' hS hP hs => hP.step hS (Sim.run_inv key.1.run) key.2 hs⟩

/-- C111.  On a body that is in the plane the projection does nothing but turn it about its own axis. -/
theorem C111_projection (svd : V3 → V3 → V3) (hp : Planar svd pbc C) (b : Sylinder) (hb : InPlane C b) (hu : Spec.UnitQuat b.orientation) :
    (Place.project C.place b).pos = b.pos ∧ (Place.project C.place b).direction = b.direction ∧ Spec.UnitQuat (Place.project C.place b).orientation := by
  have e : Place.project C.place b = { b with pos := ⟨b.pos.x, b.pos.y, C.place.monoZ⟩, orientation := Sim.flat svd b.orientation } := by
    unfold Place.project
    rw [hp.on.1, hp.flat]
    rfl
  obtain ⟨h1, h2⟩ := hb
  have h2' : (b.orientation.rot ⟨0, 0, 1⟩).z = 0 := h2
  obtain ⟨f1, -, c, hc, f2⟩ := Sim.flat_spec svd _ (leans hu h2')
  have hd : (⟨(b.orientation.rot ⟨0, 0, 1⟩).x, (b.orientation.rot ⟨0, 0, 1⟩).y, 0⟩ : V3) = b.orientation.rot ⟨0, 0, 1⟩ := V3.ext rfl rfl h2'.symm
  rw [hd] at f2
  have hn := NoCross.unit_direction _ f1
  rw [f2, V3.norm_smul, NoCross.unit_direction _ hu, mul_one, abs_of_pos hc] at hn
  rw [hn] at f2
  rw [e]
  refine ⟨V3.ext rfl rfl h1.symm, ?_, f1⟩
  show (Sim.flat svd b.orientation).rot ⟨0, 0, 1⟩ = b.orientation.rot ⟨0, 0, 1⟩
  rw [f2]
  ext <;> simp

/-- The hypotheses of C111 can be met: a monolayer of two linked bodies on two ranks, and a step in which a force acts on every body. -/
example (svd : V3 → V3 → V3) (D : Draws) : ∃ (C : Sim.Cfg) (P : ℕ → List Sylinder) (s s' : Sim.State) (q : Place.Sys) (ranks : List RankIn) (out : Out),
    Sim.Sound C.mend (fun _ => false) (fun _ => 0) (fun _ => 1) P ∧ Planar svd (fun _ => false) C ∧ (∀ b ∈ all C.place.g.n P, ¬ Upright b.orientation) ∧
    Sim.Run (fun C P => Sim.Sound C.mend (fun _ => false) (fun _ => 0) (fun _ => 1) P ∧ Planar svd (fun _ => false) C) id C P C P 0 s ∧ Sim.Step C id false s q ranks out s' ∧
    C.linkMap = [(7, 9)] ∧ (all C.place.g.n P).length = 2 ∧ ∀ rk ∈ ranks, rk.force = some (List.replicate (6 * rk.bodies.length) 1) := by
  obtain ⟨C, P, s, s', q, ranks, out, ⟨h1, h2, -, h4, h5, h6, h7⟩, h8, -, -, h9, h10⟩ := Sim.layered svd D
  have hp : Planar svd (fun _ => false) C := ⟨⟨h2, h4⟩, h1, rfl, by rw [h5]; simp⟩
  exact ⟨C, P, s, s', q, ranks, out, h8, hp, h6, h7 _ ⟨h8, hp⟩, h9, h10⟩

/-- Each kind of boundary can be perpendicular to the plane. -/
example : Perpendicular 0.5 (.wall ⟨⟨0, 0, 0⟩, ⟨3 / 5, 4 / 5, 0⟩⟩) ∧ Perpendicular 0.5 (.sphere ⟨⟨1, 2, 0.5⟩, 3, true⟩) ∧ Perpendicular 0.5 (.tube ⟨⟨1, 2, 3⟩, ⟨0, 0, 1⟩, 3, true⟩) ∧
    Perpendicular 0.5 (.tube ⟨⟨1, 2, 0.5⟩, ⟨3 / 5, 4 / 5, 0⟩, 3, false⟩) := by
  refine ⟨rfl, rfl, .inl ⟨rfl, rfl, ?_⟩, .inr ⟨rfl, rfl⟩⟩
  rw [V3.norm, show V3.normSq (⟨0, 0, 1⟩ : V3) = 1 by simp [V3.normSq, V3.dot], Real.sqrt_one]

end

end Verif
