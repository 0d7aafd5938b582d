import Verif.Props.Motion
import Verif.Spec.Work
/-! Lemmas on the work of constraints. -/
namespace Verif.Work
open RunStep Mobility Collector Spec.Collector Spec.Momentum Spec.Motion Spec.Work Spec.RunStep Momentum

theorem sum_swap {α β : Type*} (l : List α) (m : List β) (f : α → β → ℝ) :
    (l.map fun a => (m.map fun b => f a b).sum).sum = (m.map fun b => (l.map fun a => f a b).sum).sum := by
  induction m with
  | nil => simp
  | cons b m ih => simp only [List.map_cons, List.sum_cons, List.sum_map_add, ih]

theorem sum_pick (N : ℕ) (i : ℤ) (f : ℤ → ℝ) (h0 : 0 ≤ i) (h1 : i < N) : ((List.range N).map fun g : ℕ => if i = g then f g else 0).sum = f i := by
  induction N with
  | zero => omega
  | succ N ih =>
    rw [List.range_succ, List.map_append, List.sum_append]
    by_cases h : i = N
    · subst h
      have : (List.range N).map (fun g : ℕ => if ((N : ℕ) : ℤ) = g then f g else 0) = (List.range N).map fun _ => 0 := by
        refine List.map_congr_left fun g hg => if_neg ?_
        have := List.mem_range.1 hg
        omega
      rw [this]
      simp
    · rw [ih (by push_cast at h1; omega)]
      simp [h]

theorem dot_vsum (l : List V3) (u : V3) : V3.dot (vsum l) u = (l.map fun a => V3.dot a u).sum := by
  induction l with
  | nil => simp [vsum, V3.dot]
  | cons a l ih =>
    rw [List.map_cons, List.sum_cons, ← ih]
    simp [vsum, V3.dot]; ring

theorem unit_power (N : ℕ) (U W : ℤ → V3) (b : Block) (hI : 0 ≤ b.globalIndexI ∧ b.globalIndexI < N)
    (hJ : b.oneSide = false → 0 ≤ b.globalIndexJ ∧ b.globalIndexJ < N) :
    ((List.range N).map fun g : ℕ => V3.dot (unitForce b g) (U g) + V3.dot (unitTorque b g) (W g)).sum = gapRate U W b := by
  have key : ∀ g : ℕ, V3.dot (unitForce b g) (U g) + V3.dot (unitTorque b g) (W g) =
      (if b.globalIndexI = g then V3.dot b.normI (U g + V3.cross (W g) b.posI) else 0) +
        (if b.globalIndexJ = g then (if b.oneSide then 0 else V3.dot b.normJ (U g + V3.cross (W g) b.posJ)) else 0) := by
    intro g
    unfold unitForce unitTorque
    cases b.oneSide <;> by_cases h1 : b.globalIndexI = g <;> by_cases h2 : b.globalIndexJ = g <;> simp [h1, h2, V3.dot] <;> ring
  simp only [key]
  rw [List.sum_map_add, sum_pick N b.globalIndexI (fun g => V3.dot b.normI (U g + V3.cross (W g) b.posI)) hI.1 hI.2]
  unfold gapRate
  congr 1
  cases h : b.oneSide
  · exact sum_pick N b.globalIndexJ (fun g => if false then 0 else V3.dot b.normJ (U g + V3.cross (W g) b.posJ)) (hJ h).1 (hJ h).2
  · simp

/-- The forces of constraints do the work of the constraints. -/
theorem virtual_work (N : ℕ) (U W : ℤ → V3) (cs : List (Block × ℝ)) (hI : ∀ p ∈ cs, 0 ≤ p.1.globalIndexI ∧ p.1.globalIndexI < N)
    (hJ : ∀ p ∈ cs, p.1.oneSide = false → 0 ≤ p.1.globalIndexJ ∧ p.1.globalIndexJ < N) :
    ((List.range N).map fun g : ℕ => power (force cs g, torque cs g) (U g, W g)).sum = (cs.map fun p => p.2 * gapRate U W p.1).sum := by
  have key : ∀ g : ℕ, power (force cs g, torque cs g) (U g, W g) =
      (cs.map fun p => p.2 * (V3.dot (unitForce p.1 g) (U g) + V3.dot (unitTorque p.1 g) (W g))).sum := by
    intro g
    unfold power force torque
    simp only [dot_vsum, List.map_map]
    rw [← List.sum_map_add]
    congr 1
    refine List.map_congr_left fun p _ => ?_
    simp only [Function.comp_apply, V3.dot, V3.smul_x, V3.smul_y, V3.smul_z]
    ring
  simp only [key]
  rw [sum_swap]
  congr 1
  refine List.map_congr_left fun p hp => ?_
  rw [List.sum_map_mul_left, unit_power N U W p.1 (hI p hp) (hJ p hp)]

theorem sum_forall₂ {α β : Type*} {R : α → β → Prop} {l : List α} {m : List β} (hl : List.Forall₂ R l m) (f e : α → ℝ) (g : α → β → ℝ)
    (h : ∀ a b, a ∈ l → R a b → f a = g a b + e a) : (l.map f).sum = (List.zipWith g l m).sum + (l.map e).sum := by
  induction hl with
  | nil => simp
  | cons hab hl ih =>
    rw [List.map_cons, List.zipWith_cons_cons, List.map_cons, List.sum_cons, List.sum_cons, List.sum_cons, ih (fun a b ha => h a b (List.mem_cons_of_mem _ ha)),
      h _ _ List.mem_cons_self hab]
    ring

theorem sum_le {α : Type*} (l : List α) (f g : α → ℝ) (h : ∀ a ∈ l, f a ≤ g a) : (l.map f).sum ≤ (l.map g).sum := by
  induction l with
  | nil => simp
  | cons a l ih =>
    rw [List.map_cons, List.map_cons, List.sum_cons, List.sum_cons]
    have := h a List.mem_cons_self
    have := ih fun b hb => h b (List.mem_cons_of_mem _ hb)
    linarith

/-- The work of one constraint that is solved. -/
theorem work_le (fl : ℝ → ℝ) (dt res tol : ℝ) (hdt : 0 < dt) (htol : 0 ≤ tol) (hres : res ≤ tol) (b : Block) (rate g : ℝ) (h : Solves fl dt res b rate g)
    (hup : g ≤ fl (BCQP.dblMax / 10 - BCQP.dblEps * 100)) (hlow : b.bilateral = true → fl (-(10 : ℝ) ^ 8 + BCQP.dblEps * 100) ≤ g) :
    elastic b (b.delta0 + dt * rate) + dt * (g * rate) ≤ elastic b b.delta0 + slack dt tol |fl (BCQP.dblEps * 100)| b (b.delta0 + dt * rate) g := by
  obtain ⟨δ', hδ⟩ : ∃ δ', δ' = b.delta0 + dt * rate := ⟨_, rfl⟩
  have hw : dt * (g * rate) = g * (δ' - b.delta0) := by rw [hδ]; ring
  have hs := h
  rw [← hδ, hw]
  have hd : dt * res ≤ dt * tol := mul_le_mul_of_nonneg_left hres hdt.le
  have hd0 : 0 ≤ dt * tol := mul_nonneg hdt.le htol
  have hsm : 0 ≤ |fl (BCQP.dblEps * 100)| * max δ' 0 := mul_nonneg (abs_nonneg _) (le_max_right _ _)
  unfold elastic slack
  by_cases hb : b.bilateral = true
  · by_cases hk : 0 < b.kappa
    · rw [if_pos ⟨hb, hk⟩, if_pos ⟨hb, hk⟩, if_pos ⟨hb, hk⟩]
      have h1 := ((h.bi hb hk).2.2 hup).2 (hlow hb)
      rw [← hδ] at h1
      obtain ⟨ε, hε⟩ : ∃ ε, ε = δ' + g / b.kappa := ⟨_, rfl⟩
      rw [← hε] at h1
      have hg : g = b.kappa * (ε - δ') := by rw [hε]; field_simp; ring
      have he : ε ^ 2 ≤ (dt * tol) ^ 2 := by
        rw [← sq_abs ε]
        exact pow_le_pow_left₀ (abs_nonneg _) (h1.trans hd) 2
      rw [hg]
      have : b.kappa / 2 * ε ^ 2 ≤ b.kappa / 2 * (dt * tol) ^ 2 := mul_le_mul_of_nonneg_left he (by linarith)
      nlinarith [mul_nonneg hk.le (sq_nonneg (δ' - b.delta0 - ε))]
    · rw [if_neg (fun h => hk h.2), if_neg (fun h => hk h.2), if_neg (fun h => hk h.2)]
      have h1 := ((h.rigid hb hk).2.2 hup).2 (hlow hb)
      rw [← hδ] at h1
      have h2 : g * δ' ≤ |g| * (dt * tol) := (le_abs_self _).trans (by rw [abs_mul]; exact mul_le_mul_of_nonneg_left (h1.trans hd) (abs_nonneg _))
      linarith
  · rw [if_neg (fun h => hb h.1), if_neg (fun h => hb h.1), if_neg (fun h => hb h.1)]
    obtain ⟨h0, -, h1⟩ := h.uni (by simpa using hb)
    obtain ⟨-, h2⟩ := h1 hup
    rw [← hδ] at h2
    rw [abs_of_nonneg h0]
    by_cases hf : fl (BCQP.dblEps * 100) ≤ g
    · have h3 : g * δ' ≤ g * (dt * tol) := mul_le_mul_of_nonneg_left ((le_abs_self _).trans ((h2 hf).trans hd)) h0
      linarith
    · have h3 : g * δ' ≤ |fl (BCQP.dblEps * 100)| * max δ' 0 :=
        (mul_le_mul_of_nonneg_left (le_max_left _ _) h0).trans (mul_le_mul_of_nonneg_right ((not_le.1 hf).le.trans (le_abs_self _)) (le_max_right _ _))
      have := mul_nonneg h0 hd0
      linarith

section
open Sim Near
variable {C : Sim.Cfg} {pbc : Fin 3 → Bool} {low high : Fin 3 → ℝ} {P₀ : ℕ → List Sylinder} {fl : ℝ → ℝ} {pre : Bool} {s s' : State} {q : Place.Sys}
  {ranks : List RankIn} {out : Out}

/-- What the last part of a step leaves alone. -/
theorem moved_loaded {β : Type*} (hs : Step C fl pre s q ranks out s') (h : Sound C pbc low high P₀) (hq : Sim.Prepared C P₀ q) (f : Sylinder → β)
    (hf : ∀ t : Sylinder, f (t.stepEuler C.mob.dt) = f t) : (all C.place.g.n s'.sys.P).map f = (loaded out).map f := by
  obtain ⟨h0, h1⟩ := step_bodies hs h hq
  unfold all loaded
  rw [List.map_flatMap, List.map_flatMap, List.flatMap_def, List.flatMap_def]
  congr 1
  apply List.ext_getElem?
  intro r
  rw [List.getElem?_map, List.getElem?_map]
  by_cases hr : r < C.place.g.n
  · obtain ⟨so, h2, h3, h4, h5⟩ := h1 r hr
    have hP : s'.sys.P r = so.moved := by rw [hs.moved]; simp only [after, h2]; rfl
    rw [h2, List.getElem?_range hr, Option.map_some, Option.map_some, hP]
    congr 1
    apply List.ext_getElem?
    intro i
    rw [List.getElem?_map, List.getElem?_map]
    rcases lt_or_ge i (numbered C.place.g.n q.P r).length with hi | hi
    · obtain ⟨t, u, k1, k2, -, -, -, -, k7⟩ := h5 i _ (List.getElem?_eq_getElem hi)
      rw [k1, k2, k7, Option.map_some, Option.map_some]
      split_ifs
      · rfl
      · rw [hf]
    · rw [numbered_length _ _ _ hr] at hi
      rw [List.getElem?_eq_none (by omega), List.getElem?_eq_none (by omega)]
  · rw [List.getElem?_eq_none (by simpa using hr), List.getElem?_eq_none (by omega)]
    rfl

/-- Velocities by global index are those of the solve. -/
theorem velocity_at (hs : Step C fl pre s q ranks out s') (h : Sound C pbc low high P₀) (hq : Sim.Prepared C P₀ q) {U W : ℤ → V3}
    (hU : ∀ r < C.place.g.n, ∀ (i : ℕ) (x u : Sylinder), (numbered C.place.g.n q.P r)[i]? = some x → (s'.sys.P r)[i]? = some u →
      U x.globalIndex = u.vel ∧ W x.globalIndex = u.omega) (g : ℤ) (h0 : 0 ≤ g) (h1 : g < (loaded out).length) : U g = velOf out g ∧ W g = omegaOf out g := by
  rw [loaded_length hs h hq] at h1
  have hl : ((List.range C.place.g.n).flatMap (numbered C.place.g.n q.P)).length = (sizes C.place.g.n q.P).sum := by
    rw [List.length_flatMap]
    unfold sizes
    congr 1
    exact List.map_congr_left fun r hr => numbered_length _ _ _ (List.mem_range.1 hr)
  have hg : g.toNat < ((List.range C.place.g.n).flatMap (numbered C.place.g.n q.P)).length := by omega
  have hx := List.getElem?_eq_getElem hg
  obtain ⟨x, hxd⟩ : ∃ x, ((List.range C.place.g.n).flatMap (numbered C.place.g.n q.P))[g.toNat]? = some x := ⟨_, hx⟩
  have hi := (numbered_at _ _ _ _ hxd).1
  obtain ⟨r, hr, hxm⟩ := List.mem_flatMap.1 (List.mem_of_getElem? hxd)
  have hr := List.mem_range.1 hr
  obtain ⟨i, hi', rfl⟩ := List.getElem_of_mem hxm
  obtain ⟨-, hb⟩ := step_bodies hs h hq
  obtain ⟨so, h2, h3, h4, h5⟩ := hb r hr
  obtain ⟨t, u, -, k2, -⟩ := h5 i _ (List.getElem?_eq_getElem hi')
  have hP : s'.sys.P r = so.moved := by rw [hs.moved]; simp only [after, h2]; rfl
  rw [← hP] at k2
  obtain ⟨v1, v2, -⟩ := step_vel hs h hq hr (List.getElem?_eq_getElem hi') k2
  obtain ⟨u1, u2⟩ := hU r hr i _ u (List.getElem?_eq_getElem hi') k2
  have he : (numbered C.place.g.n q.P r)[i].globalIndex = g := by rw [hi]; omega
  rw [he] at u1 u2 v1 v2
  exact ⟨u1.trans v1.symm, u2.trans v2.symm⟩

/-- The power of the forces of a step. -/
theorem step_work (hs : Step C fl pre s q ranks out s') (h : Sound C pbc low high P₀) (hq : Sim.Prepared C P₀ q) {mult : List ℝ} (hm : Applies ranks out mult)
    {U W : ℤ → V3} (hU : ∀ r < C.place.g.n, ∀ (i : ℕ) (x u : Sylinder), (numbered C.place.g.n q.P r)[i]? = some x → (s'.sys.P r)[i]? = some u →
      U x.globalIndex = u.vel ∧ W x.globalIndex = u.omega) :
    totalPower (all C.place.g.n s'.sys.P) = givenPower (all C.place.g.n s'.sys.P) (given ranks) +
      (((constraints ranks).zip mult).map fun x => x.2 * gapRate U W x.1).sum := by
  have hg := loaded_given hs h hq hm
  have hsh := shapes hs h hq
  set cs := (constraints ranks).zip mult with hcs
  have hmem : ∀ p ∈ cs, Shape pbc (loaded out).length (posOf out) p.1 := fun p hp => (hsh p.1 (List.of_mem_zip hp).1).1
  have hvel : ∀ t ∈ loaded out, U t.globalIndex = t.vel ∧ W t.globalIndex = t.omega := by
    intro t ht
    obtain ⟨g, hg, hgt⟩ := List.getElem_of_mem ht
    have h1 := summed_index hs h hq g t (by rw [← hgt]; exact List.getElem?_eq_getElem hg)
    obtain ⟨so, hso, hts⟩ := List.mem_flatMap.1 ht
    have h2 := velocities hs h hq so hso t hts
    have h3 := velocity_at hs h hq hU t.globalIndex (by omega) (by omega)
    exact ⟨h3.1.trans h2.1, h3.2.trans h2.2⟩
  have e1 : totalPower (all C.place.g.n s'.sys.P) = totalPower (loaded out) := by
    unfold totalPower
    rw [moved_loaded hs h hq (fun u => power (u.force, u.torque) (u.vel, u.omega)) fun _ => rfl]
  have e2 : givenPower (all C.place.g.n s'.sys.P) (given ranks) = givenPower (loaded out) (given ranks) := by
    have := moved_loaded hs h hq (fun u => (u.vel, u.omega)) fun _ => rfl
    unfold givenPower
    rw [show List.zipWith (fun (u : Sylinder) G => power G (u.vel, u.omega)) (all C.place.g.n s'.sys.P) (given ranks) =
      List.zipWith (fun v G => power G v) ((all C.place.g.n s'.sys.P).map fun u => (u.vel, u.omega)) (given ranks) by rw [List.zipWith_map_left], this,
      List.zipWith_map_left]
  rw [e1, e2]
  unfold totalPower givenPower
  rw [sum_forall₂ hg (fun u => power (u.force, u.torque) (u.vel, u.omega))
    (fun t => power (force cs t.globalIndex, torque cs t.globalIndex) (U t.globalIndex, W t.globalIndex)) (fun u G => power G (u.vel, u.omega)) ?_]
  · congr 1
    rw [← virtual_work (loaded out).length U W cs (fun p hp => (hmem p hp).1) (fun p hp ho => ((hmem p hp).2.2 ho).1)]
    congr 1
    apply List.ext_getElem
    · simp
    · intro g h1 h2
      have hg : g < (loaded out).length := by simpa using h1
      simp only [List.getElem_map, List.getElem_range, summed_index hs h hq g _ (List.getElem?_eq_getElem hg)]
  · intro t G ht ⟨h1, h2⟩
    obtain ⟨v1, v2⟩ := hvel t ht
    rw [h1, h2, v1, v2]
    unfold power
    simp only [V3.dot, V3.add_x, V3.add_y, V3.add_z]
    ring

/-- All constraints of a step that converged are solved. -/
theorem solved_all (hs : Step C fl pre s q ranks out s') (h : Sound C pbc low high P₀) (hq : Sim.Prepared C P₀ q) (hfree : C.mob.sylinderFixed = false) {res : ℝ}
    (hc : Converged C fl out res) : List.Forall₂ (fun b b' => b' = b.writeGamma b'.gamma ∧ Solves fl C.mob.dt res b (gapRate (velOf out) (omegaOf out) b) b'.gamma)
      (constraints ranks) (out.pools.flatMap fun p => p.flatten) := by
  obtain ⟨last, rfl, hst⟩ := step_converged hs h hq hfree hc
  obtain ⟨hmu, hdt, hfix, hno, hlen, hbod, hready, hm, hvv, hidx, hguess, ⟨sfuel, hout⟩, hlast, hres, hap, hbd, hUW⟩ := hst
  obtain ⟨hshape, hsolve, -⟩ := C88_step_partial _ hmu hdt _ fl sfuel ranks hready hm hvv hidx hguess hno out hout last hlast hres hap _ _ hUW
  have hl : out.pools.length = ranks.length := by simpa using congrArg List.length hshape
  have hz : List.Forall₂ (fun (rk : RankIn) (p : Pool) => ∃ r : ℕ, ranks[r]? = some rk ∧ out.pools[r]? = some p) ranks out.pools := by
    rw [List.forall₂_iff_get]
    exact ⟨hl.symm, fun i hi hj => ⟨i, List.getElem?_eq_getElem hi, List.getElem?_eq_getElem hj⟩⟩
  refine List.rel_flatMap hz ?_
  rintro rk p ⟨r, hr, hp⟩
  have hsr : p.map List.length = rk.pool.map List.length := by
    have := congrArg (fun l => l[r]?) hshape
    simpa [List.getElem?_map, hr, hp] using this
  refine List.rel_flatten ?_
  rw [List.forall₂_iff_get]
  have hpl : p.length = rk.pool.length := by simpa using congrArg List.length hsr
  refine ⟨hpl.symm, fun i hi hj => ?_⟩
  rw [List.forall₂_iff_get]
  have hil : (p.get ⟨i, hj⟩).length = (rk.pool.get ⟨i, hi⟩).length := by
    have := congrArg (fun l => l[i]?) hsr
    simpa [List.getElem?_map, List.getElem?_eq_getElem hi, List.getElem?_eq_getElem hj] using this
  refine ⟨hil.symm, fun j hj1 hj2 => ?_⟩
  obtain ⟨p', q', b', g1, g2, g3, g4, g5⟩ := hsolve r i j rk _ _ hr (List.getElem?_eq_getElem hi) (List.getElem?_eq_getElem hj1)
  rw [hp] at g1
  cases g1
  rw [List.getElem?_eq_getElem hj] at g2
  cases g2
  have g3' := List.getElem?_eq_getElem hj2
  simp only [List.get_eq_getElem] at g3' ⊢
  rw [g3'] at g3
  cases g3
  rw [(mobility_fields C pre).2.1] at g5
  exact ⟨g4, g5⟩

end

end Verif.Work
