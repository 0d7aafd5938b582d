import Verif.Props.Springs
import Verif.Spec.Momentum
namespace Verif.Momentum
open RunStep Mobility Collector ConOp BCQP Spec.Mobility Spec.Collector Spec.RunStep Spec.Momentum

/-- The forces that a step ends with: for some multipliers the given ones plus those of the constraints. -/
theorem step_forces (cfg : Mobility.Cfg) (hmu : 0 < cfg.viscosity) (hdt : 0 < cfg.dt) (c : ConOp.Control) (fl : ℝ → ℝ) (fuel : ℕ) (ranks : List RankIn)
    (hready : ∀ r ∈ ranks, C88_Ready r) (hm : ∀ r ∈ ranks, r.matOrder.Perm (matrixWrites r.pool)) (hv : ∀ r ∈ ranks, r.vecOrder.Perm (vectorWrites r.pool))
    (hidx : ∀ (g : ℕ) (W : Draws) (s : Sylinder), (ranks.flatMap RankIn.bodies)[g]? = some (W, s) → s.globalIndex = g)
    (hno : ¬ (cfg.monolayer = true ∧ cfg.KBT > 0)) (out : Out) (hout : runStepAll cfg c fl fuel ranks = some out) :
    ∃ mult : List ℝ, mult.length = (constraints ranks).length ∧ ∀ (r i : ℕ) (rk : RankIn) (D : Draws) (b : Sylinder), ranks[r]? = some rk → rk.bodies[i]? = some (D, b) →
      ∃ so t, out.steps[r]? = some so ∧ so.summed[i]? = some t ∧ (t.force, t.torque) = at6 (rk.force.getD []) i +
          (force ((constraints ranks).zip mult) b.globalIndex, torque ((constraints ranks).zip mult) b.globalIndex) := by
  have hok : ∀ r ∈ ranks, RankOk cfg r := fun r hr => C88_ok cfg r (hready r hr)
  obtain ⟨pre, hpre, hP⟩ := pre_spec cfg hmu hdt ranks hok
  have hsz := pre_sizes cfg ranks pre hP
  unfold runStepAll at hout
  rw [hpre] at hout
  simp only [Option.bind_eq_bind, Option.bind_some, Option.bind_eq_some_iff] at hout
  obtain ⟨sys, hsys, hout⟩ := hout
  set ns := ranks.map fun r => r.bodies.length with hns
  set sizes := pre.map fun p => p.2.1.length with hsizes
  set vnc := (pre.map fun p => p.2.1).flatten with hvnc
  set blocks := ranks.flatMap fun r => r.pool.flatten with hblocks
  obtain ⟨hcol, rfl⟩ := setupAll_eq' cfg.dt ranks _ sys hm hv hsys (pre.map Prod.fst) (by rw [List.map_map]; rfl) vnc
    (by rw [List.map_map]; rfl) sizes (by rw [List.map_map]; rfl)
  have hk : vnc.length = sizes.sum := by rw [hvnc, List.length_flatten, List.map_map]; rfl
  cases hs : (problemOf blocks (pre.map Prod.fst) sizes vnc cfg.dt).solveConstraints fl fuel c with
  | error e => rw [hs] at hout; cases hout
  | ok s =>
  rw [hs] at hout
  simp only [Option.bind_eq_some_iff, Option.some.injEq] at hout
  obtain ⟨pools, hpools, steps, hsteps, rfl⟩ := hout
  have fsteps := mapM_forall₂ _ _ _ hsteps
  obtain ⟨bo, -, -, hsum⟩ := C26_sum _ fl fuel c s hs
  have hforce : ∀ j : Fin vnc.length, s.forceU j + s.forceB j = applyTransposed (blocks.map blockEntries) (List.ofFn bo.applied) (j : ℕ) := by
    intro j
    have := congrFun hsum j
    rw [Pi.add_apply] at this
    rw [this]
    exact denseRow_trans (blocks.map blockEntries) bo.applied (j : ℕ)
  refine ⟨List.ofFn bo.applied, ?_, ?_⟩
  · rw [List.length_ofFn]
    show (blocks.map blockEntries).length = blocks.length
    simp
  · intro r i rk D b hr hi
    obtain ⟨p, hp, hP1, -, hP3⟩ := forall₂_at hP r rk hr
    have hilt : i < rk.bodies.length := (List.getElem?_eq_some_iff.1 hi).1
    have hnr : ns[r]? = some rk.bodies.length := by rw [hns, List.getElem?_map, hr]; rfl
    have hsr : sizes[r]? = some (6 * rk.bodies.length) := by rw [hsz, List.getElem?_map, hnr]; rfl
    obtain ⟨o, ho, ⟨a1, b1⟩, ⟨a2, b2⟩, ⟨a3, b3⟩, ⟨a4, b4⟩⟩ := solverOuts_at sizes s hk.symm r _ hsr
    obtain ⟨so, hso, hafter⟩ := forall₂_at fsteps r (p, o) (List.getElem?_zip_eq_some.2 ⟨hp, ho⟩)
    obtain ⟨so', hso', -, hall⟩ := afterSolve_spec cfg hmu hdt hno rk (hok rk (List.mem_of_getElem? hr)) p.1 p.2.1 p.2.2 hP1 o b1 b2 b3 b4
    have hafter : afterSolve cfg p.2.1 o p.2.2 = some so := hafter
    rw [hafter] at hso'
    cases hso'
    obtain ⟨t, u, h1, h2, h3, h3', h4, h5, h6, h7, h9, h8⟩ := hall i D b hi
    have hflat : ∀ f : Vec vnc.length, ∀ l, (parts sizes (List.ofFn f))[r]? = some l → at6 (List.ofFn f) ((ns.take r).sum + i) = at6 l i := by
      intro f l hl
      have hfl : sizes.sum = (List.ofFn f).length := by rw [List.length_ofFn, hk]
      have := at6_flatten (parts sizes (List.ofFn f)) ns (by rw [parts_sizes _ _ hfl, hsz]) r i l _ hl hnr hilt
      rwa [(parts_forall₂ sizes _ hfl).2] at this
    have hg : (ranks.flatMap RankIn.bodies)[(ns.take r).sum + i]? = some (D, b) := by
      have := flatten_getElem? (ranks.map RankIn.bodies) r i rk.bodies (D, b) (by rw [List.getElem?_map, hr]; rfl) hi
      rw [List.flatMap_def]
      rw [List.map_take, List.map_map] at this
      exact this
    refine ⟨so, t, hso, h1, ?_⟩
    have h7 : (t.force, t.torque) = at6 (rk.force.getD []) i + at6 (List.ofFn s.forceU) ((ns.take r).sum + i) + at6 (List.ofFn s.forceB) ((ns.take r).sum + i) := by
      rw [hflat _ _ a1, hflat _ _ a3]; exact h7
    have g5 := hidx _ D b hg
    obtain ⟨g, hgd⟩ : ∃ g, (ns.take r).sum + i = g := ⟨_, rfl⟩
    rw [hgd] at h7 g5
    have hlt : ∀ t6 : Fin 6, 6 * g + (t6 : ℕ) < vnc.length := by
      intro t6
      have hgl : g < ns.sum := by
        have hsplit : ns.sum = (ns.take r).sum + (ns.drop r).sum := by rw [← List.sum_append, List.take_append_drop]
        obtain ⟨hlt, hnr⟩ := List.getElem?_eq_some_iff.1 hnr
        rw [List.drop_eq_getElem_cons hlt, List.sum_cons, hnr] at hsplit
        omega
      have h2 : sizes.sum = 6 * ns.sum := by rw [hsz, List.sum_map_mul_left, List.map_id']
      have := t6.2
      omega
    have hcast : ∀ t6 : Fin 6, (((⟨6 * g + (t6 : ℕ), hlt t6⟩ : Fin vnc.length) : ℕ) : ℤ) = 6 * (g : ℤ) + (t6 : ℕ) := by
      intro t6; push_cast; rfl
    rw [h7, pair_assoc]
    congr 1
    apply pair_comp
    intro t6
    have hf := hforce ⟨6 * g + t6, hlt t6⟩
    rw [ofFn_at6 s.forceU g t6 _ rfl, ofFn_at6 s.forceB g t6 _ rfl, ← comp_add] at hf
    rw [hcast, blocks_trans] at hf
    rw [g5]
    exact hf

/-! ### sums of vectors -/

theorem add_zero' (a : V3) : a + 0 = a := by ext <;> simp
theorem zero_add' (a : V3) : 0 + a = a := by ext <;> simp
theorem swap4 (a b c d : V3) : a + b + (c + d) = a + c + (b + d) := by ext <;> simp <;> ring

theorem vsum_add {α : Type*} (l : List α) (f g : α → V3) : vsum (l.map fun a => f a + g a) = vsum (l.map f) + vsum (l.map g) := by
  induction l with
  | nil => simp [vsum, add_zero']
  | cons a l ih => simp only [List.map_cons, vsum, ih, swap4]

theorem vsum_zeros {α : Type*} (l : List α) : vsum (l.map fun _ => (0 : V3)) = 0 := by
  induction l with
  | nil => rfl
  | cons a l ih => simp only [List.map_cons, vsum, ih, add_zero']

theorem vsum_smul {α : Type*} (c : ℝ) (l : List α) (f : α → V3) : vsum (l.map fun a => c • f a) = c • vsum (l.map f) := by
  induction l with
  | nil => ext <;> simp [vsum]
  | cons a l ih =>
    simp only [List.map_cons, vsum, ih]
    ext <;> simp <;> ring

theorem vsum_cross {α : Type*} (c : V3) (l : List α) (f : α → V3) : vsum (l.map fun a => V3.cross c (f a)) = V3.cross c (vsum (l.map f)) := by
  induction l with
  | nil => ext <;> simp [vsum]
  | cons a l ih =>
    simp only [List.map_cons, vsum, ih]
    ext <;> simp <;> ring

theorem vsum_swap {α β : Type*} (l : List α) (m : List β) (f : α → β → V3) :
    vsum (l.map fun a => vsum (m.map fun b => f a b)) = vsum (m.map fun b => vsum (l.map fun a => f a b)) := by
  induction m with
  | nil => simpa [vsum] using vsum_zeros l
  | cons b m ih => simp only [List.map_cons, vsum, vsum_add, ih]

theorem vsum_append (l m : List V3) : vsum (l ++ m) = vsum l + vsum m := by
  induction l with
  | nil => simp [vsum, zero_add']
  | cons a l ih =>
    simp only [List.cons_append, vsum, ih]
    ext <;> simp [add_assoc]

/-- Only one body has a given index. -/
theorem vsum_pick (N : ℕ) (i : ℤ) (f : ℤ → V3) (h0 : 0 ≤ i) (h1 : i < N) : vsum ((List.range N).map fun g : ℕ => if i = g then f g else 0) = f i := by
  induction N with
  | zero => omega
  | succ N ih =>
    rw [List.range_succ, List.map_append, vsum_append]
    by_cases h : i = N
    · subst h
      have : (List.range N).map (fun g : ℕ => if ((N : ℕ) : ℤ) = g then f g else 0) = (List.range N).map fun _ => 0 := by
        refine List.map_congr_left fun g hg => if_neg ?_
        have := List.mem_range.1 hg
        omega
      rw [this, vsum_zeros]
      simp [vsum, zero_add', add_zero']
    · rw [ih (by push_cast at h1; omega)]
      simp [vsum, add_zero', h]

theorem vsum_congr {α : Type*} {l : List α} {f g : α → V3} (h : ∀ a ∈ l, f a = g a) : vsum (l.map f) = vsum (l.map g) :=
  congrArg vsum (List.map_congr_left h)

/-- Total force of a constraint with unit multiplier. -/
theorem unit_force (N : ℕ) (b : Block) (hI : 0 ≤ b.globalIndexI ∧ b.globalIndexI < N) (hJ : b.oneSide = false → 0 ≤ b.globalIndexJ ∧ b.globalIndexJ < N) :
    vsum ((List.range N).map fun g : ℕ => unitForce b g) = b.normI + if b.oneSide then 0 else b.normJ := by
  unfold unitForce
  rw [vsum_add, vsum_pick N b.globalIndexI (fun _ => b.normI) hI.1 hI.2]
  congr 1
  cases h : b.oneSide
  · simp only [true_and, Bool.false_eq_true, if_false]
    exact vsum_pick N b.globalIndexJ (fun _ => b.normJ) (hJ h).1 (hJ h).2
  · simp only [Bool.true_eq_false, false_and, if_false, if_true]
    exact vsum_zeros _

/-- Total moment of a constraint with unit multiplier. -/
theorem unit_moment (N : ℕ) (X : ℤ → V3) (c : V3) (b : Block) (hI : 0 ≤ b.globalIndexI ∧ b.globalIndexI < N)
    (hJ : b.oneSide = false → 0 ≤ b.globalIndexJ ∧ b.globalIndexJ < N) :
    vsum ((List.range N).map fun g : ℕ => unitTorque b g + V3.cross (X g - c) (unitForce b g)) =
      V3.cross (X b.globalIndexI + b.posI - c) b.normI + if b.oneSide then 0 else V3.cross (X b.globalIndexJ + b.posJ - c) b.normJ := by
  have key : ∀ g : ℕ, unitTorque b g + V3.cross (X g - c) (unitForce b g) =
      (if b.globalIndexI = (g : ℤ) then V3.cross (X (g : ℤ) + b.posI - c) b.normI else 0) +
        if b.oneSide = false ∧ b.globalIndexJ = (g : ℤ) then V3.cross (X (g : ℤ) + b.posJ - c) b.normJ else 0 := by
    intro g
    unfold unitTorque unitForce
    split_ifs <;> ext <;> simp <;> ring
  rw [vsum_congr (fun (g : ℕ) _ => key g), vsum_add, vsum_pick N b.globalIndexI (fun g => V3.cross (X g + b.posI - c) b.normI) hI.1 hI.2]
  congr 1
  cases h : b.oneSide
  · simp only [true_and, Bool.false_eq_true, if_false]
    exact vsum_pick N b.globalIndexJ (fun g => V3.cross (X g + b.posJ - c) b.normJ) (hJ h).1 (hJ h).2
  · simp only [Bool.true_eq_false, false_and, if_false, if_true]
    exact vsum_zeros _

theorem total_force (N : ℕ) (cs : List (Block × ℝ)) (hI : ∀ p ∈ cs, 0 ≤ p.1.globalIndexI ∧ p.1.globalIndexI < N)
    (hJ : ∀ p ∈ cs, p.1.oneSide = false → 0 ≤ p.1.globalIndexJ ∧ p.1.globalIndexJ < N) :
    vsum ((List.range N).map fun g : ℕ => force cs g) = vsum (cs.map fun p => p.2 • (p.1.normI + if p.1.oneSide then 0 else p.1.normJ)) := by
  unfold force
  rw [vsum_swap]
  refine vsum_congr fun p hp => ?_
  rw [vsum_smul, unit_force N p.1 (hI p hp) (hJ p hp)]

theorem total_moment (N : ℕ) (X : ℤ → V3) (c : V3) (cs : List (Block × ℝ)) (hI : ∀ p ∈ cs, 0 ≤ p.1.globalIndexI ∧ p.1.globalIndexI < N)
    (hJ : ∀ p ∈ cs, p.1.oneSide = false → 0 ≤ p.1.globalIndexJ ∧ p.1.globalIndexJ < N) :
    vsum ((List.range N).map fun g : ℕ => moment c (X g) (force cs g) (torque cs g)) = vsum (cs.map fun p => p.2 • (V3.cross (X p.1.globalIndexI + p.1.posI - c) p.1.normI +
      if p.1.oneSide then 0 else V3.cross (X p.1.globalIndexJ + p.1.posJ - c) p.1.normJ)) := by
  have key : ∀ g : ℕ, moment c (X g) (force cs g) (torque cs g) = vsum (cs.map fun p => p.2 • (unitTorque p.1 g + V3.cross (X g - c) (unitForce p.1 g))) := by
    intro g
    unfold moment force torque
    rw [← vsum_cross, ← vsum_add]
    refine vsum_congr fun p _ => ?_
    ext <;> simp <;> ring
  rw [vsum_congr (fun (g : ℕ) _ => key g), vsum_swap]
  refine vsum_congr fun p hp => ?_
  rw [vsum_smul, unit_moment N X c p.1 (hI p hp) (hJ p hp)]

theorem vsum_filter {α : Type*} (l : List α) (q : α → Bool) (f g : α → V3) (h0 : ∀ a ∈ l, q a = false → f a = 0) (h1 : ∀ a ∈ l, q a = true → f a = g a) :
    vsum (l.map f) = vsum ((l.filter q).map g) := by
  induction l with
  | nil => rfl
  | cons a l ih =>
    have ih := ih (fun a ha => h0 a (List.mem_cons_of_mem _ ha)) (fun a ha => h1 a (List.mem_cons_of_mem _ ha))
    rw [List.filter_cons]
    cases hq : q a
    · rw [if_neg (by simp), List.map_cons, vsum, ih, h0 a List.mem_cons_self hq, zero_add']
    · rw [if_pos rfl, List.map_cons, List.map_cons, vsum, vsum, ih, h1 a List.mem_cons_self hq]

theorem vsum_filter_comp {α : Type*} (k : Fin 3) (l : List α) (q : α → Bool) (f g : α → V3) (h0 : ∀ a ∈ l, q a = false → Near.comp (f a) k = 0)
    (h1 : ∀ a ∈ l, q a = true → f a = g a) : Near.comp (vsum (l.map f)) k = Near.comp (vsum ((l.filter q).map g)) k := by
  have hadd : ∀ a b : V3, Near.comp (a + b) k = Near.comp a k + Near.comp b k := by
    intro a b
    fin_cases k <;> rfl
  induction l with
  | nil => rfl
  | cons a l ih =>
    have ih := ih (fun a ha => h0 a (List.mem_cons_of_mem _ ha)) (fun a ha => h1 a (List.mem_cons_of_mem _ ha))
    rw [List.filter_cons]
    cases hq : q a
    · rw [if_neg (by simp), List.map_cons, vsum, hadd, ih, h0 a List.mem_cons_self hq, zero_add]
    · rw [if_pos rfl, List.map_cons, List.map_cons, vsum, vsum, hadd, hadd, ih, h1 a List.mem_cons_self hq]

/-! ### the bodies of all ranks -/

/-- The multipliers with which the forces of the step come about. -/
def Applies (ranks : List RankIn) (out : Out) (mult : List ℝ) : Prop :=
  mult.length = (constraints ranks).length ∧ ∀ (r i : ℕ) (rk : RankIn) (D : Draws) (b : Sylinder), ranks[r]? = some rk → rk.bodies[i]? = some (D, b) →
    ∃ so t, out.steps[r]? = some so ∧ so.summed[i]? = some t ∧ (t.force, t.torque) = at6 (rk.force.getD []) i +
      (force ((constraints ranks).zip mult) b.globalIndex, torque ((constraints ranks).zip mult) b.globalIndex)

section
open Sim Near
variable {C : Sim.Cfg} {pbc : Fin 3 → Bool} {low high : Fin 3 → ℝ} {P₀ : ℕ → List Sylinder} {fl : ℝ → ℝ} {pre : Bool} {s s' : State} {q : Place.Sys}
  {ranks : List RankIn} {out : Out}

theorem applies (hs : Step C fl pre s q ranks out s') (h : Sound C pbc low high P₀) (hq : Sim.Prepared C P₀ q) :
    ∃ mult, Applies ranks out mult ∧ ∀ res, C.mob.sylinderFixed = false → Converged C fl out res → mult = (out.pools.flatMap fun p => p.flatten).map Block.gamma := by
  by_cases hc : C.mob.sylinderFixed = false ∧ ∃ res, Converged C fl out res
  · obtain ⟨hfree, res, hc⟩ := hc
    obtain ⟨last, -, hst⟩ := step_converged hs h hq hfree hc
    obtain ⟨hmu, hdt, hfix, hno, hlen, hbod, hready, hm, hvv, hidx, hguess, ⟨sfuel, hout⟩, hlast, hres, hap, hbd, hUW⟩ := hst
    obtain ⟨hshape, -, hforce⟩ := C88_step_partial _ hmu hdt _ fl sfuel ranks hready hm hvv hidx hguess hno out hout last hlast hres hap _ _ hUW
    refine ⟨(out.pools.flatMap fun p => p.flatten).map Block.gamma, ⟨?_, ?_⟩, fun _ _ _ => rfl⟩
    · have := congrArg (fun l : List (List ℕ) => (l.map List.sum).sum) hshape
      simp only [List.map_map] at this
      unfold constraints
      rw [List.length_map, List.length_flatMap, List.length_flatMap]
      simp only [List.length_flatten]
      exact this
    · intro r i rk D b hr hi
      obtain ⟨so, t, u, g1, g2, -, -, -, g3, -⟩ := hforce r i rk D b hr hi
      exact ⟨so, t, g1, g2, g3⟩
  · obtain ⟨fuel, hout⟩ := hs.run
    obtain ⟨mult, hm⟩ := step_forces (C.mobility pre) h.viscosity h.dt C.ctl fl fuel ranks (hs.ready h hq) hs.matrix hs.vector (by
      intro g D x hx
      have hm : ((ranks.flatMap RankIn.bodies).map Prod.snd)[g]? = some x := by rw [List.getElem?_map, hx]; rfl
      rw [hs.index] at hm
      exact (numbered_at _ _ _ _ hm).1) (h.cold pre) out hout
    exact ⟨mult, hm, fun res hf hr => absurd ⟨hf, res, hr⟩ hc⟩

/-- Position of the body with global index `g`. -/
noncomputable def posOf (out : Out) (g : ℤ) : V3 := (((loaded out)[g.toNat]?).map Sylinder.pos).getD 0

theorem posOf_loaded (hs : Step C fl pre s q ranks out s') (h : Sound C pbc low high P₀) (hq : Sim.Prepared C P₀ q) :
    ∀ t ∈ loaded out, posOf out t.globalIndex = t.pos := by
  intro t ht
  obtain ⟨g, hg, hgt⟩ := List.getElem_of_mem ht
  have h1 : (loaded out)[g]? = some t := by rw [← hgt]; exact List.getElem?_eq_getElem hg
  unfold posOf
  rw [summed_index hs h hq g t h1, Int.toNat_natCast, h1]
  rfl

theorem posOf_body (hs : Step C fl pre s q ranks out s') (h : Sound C pbc low high P₀) (hq : Sim.Prepared C P₀ q) {r : ℕ} (hr : r < C.place.g.n) {x : Sylinder}
    (hx : x ∈ numbered C.place.g.n q.P r) : posOf out x.globalIndex = x.pos := by
  obtain ⟨-, h1⟩ := step_bodies hs h hq
  obtain ⟨so, h2, -, -, h5⟩ := h1 r hr
  obtain ⟨i, hi, rfl⟩ := List.getElem_of_mem hx
  obtain ⟨t, u, k1, -, k3, -, k5, -⟩ := h5 i _ (List.getElem?_eq_getElem hi)
  rw [← k3, ← k5]
  exact posOf_loaded hs h hq t (List.mem_flatMap.2 ⟨so, List.mem_of_getElem? h2, List.mem_of_getElem? k1⟩)

theorem loaded_length (hs : Step C fl pre s q ranks out s') (h : Sound C pbc low high P₀) (hq : Sim.Prepared C P₀ q) :
    (loaded out).length = (sizes C.place.g.n q.P).sum := by
  obtain ⟨h0, h1⟩ := step_bodies hs h hq
  unfold loaded sizes
  rw [List.length_flatMap]
  congr 1
  apply List.ext_getElem?
  intro r
  rw [List.getElem?_map, List.getElem?_map]
  by_cases hr : r < C.place.g.n
  · obtain ⟨so, h2, h3, -⟩ := h1 r hr
    rw [h2, List.getElem?_range hr, Option.map_some, Option.map_some, h3]
  · rw [List.getElem?_eq_none (by omega), List.getElem?_eq_none (by simpa using hr)]
    rfl

theorem loaded_given (hs : Step C fl pre s q ranks out s') (h : Sound C pbc low high P₀) (hq : Sim.Prepared C P₀ q) {mult : List ℝ} (hm : Applies ranks out mult) :
    List.Forall₂ (fun (t : Sylinder) (G : V3 × V3) => t.force = G.1 + force ((constraints ranks).zip mult) t.globalIndex ∧
      t.torque = G.2 + torque ((constraints ranks).zip mult) t.globalIndex) (loaded out) (given ranks) := by
  obtain ⟨h0, h1⟩ := step_bodies hs h hq
  unfold loaded given
  have hz : List.Forall₂ (fun (so : StepOut) (rk : RankIn) => ∃ r : ℕ, out.steps[r]? = some so ∧ ranks[r]? = some rk) out.steps ranks := by
    rw [List.forall₂_iff_get]
    refine ⟨by rw [h0, hs.size], fun i hi hj => ⟨i, List.getElem?_eq_getElem hi, List.getElem?_eq_getElem hj⟩⟩
  refine List.rel_flatMap hz ?_
  rintro so rk ⟨r, hso, hrk⟩
  have hr : r < C.place.g.n := by rw [← h0]; exact (List.getElem?_eq_some_iff.1 hso).1
  obtain ⟨so', h2, h3, -, h5⟩ := h1 r hr
  rw [hso] at h2
  cases h2
  obtain ⟨rk', g1, -, g2, g3⟩ := hs.rank hr
  rw [hrk] at g1
  cases g1
  rw [List.forall₂_iff_get]
  refine ⟨by simp [h3, g3], fun i hi hj => ?_⟩
  have hib : i < rk.bodies.length := by simpa using hj
  have hbi : rk.bodies[i]? = some rk.bodies[i] := List.getElem?_eq_getElem hib
  obtain ⟨D, b, hb⟩ : ∃ D b, rk.bodies[i]? = some (D, b) := ⟨_, _, hbi⟩
  obtain ⟨so', t, k1, k2, k3⟩ := hm.2 r i rk _ _ hrk hb
  rw [hso] at k1
  cases k1
  have hx : (numbered C.place.g.n q.P r)[i]? = some b := by rw [← g2, List.getElem?_map, hb]; rfl
  obtain ⟨t', u, m1, -, m3, -⟩ := h5 i b hx
  rw [k2] at m1
  cases m1
  have ht : so.summed.get ⟨i, hi⟩ = t := by
    have := List.getElem?_eq_getElem hi
    rw [k2] at this
    cases this
    rfl
  rw [ht, m3]
  simp only [List.get_eq_getElem, List.getElem_map, List.getElem_range]
  rw [Prod.ext_iff] at k3
  exact k3

/-- A constraint as it is in the pools when the solve starts. -/
def Shape (pbc : Fin 3 → Bool) (N : ℕ) (X : ℤ → V3) (b : Block) : Prop :=
  (0 ≤ b.globalIndexI ∧ b.globalIndexI < N) ∧ X b.globalIndexI + b.posI = b.labI ∧ (b.oneSide = false → (0 ≤ b.globalIndexJ ∧ b.globalIndexJ < N) ∧
    b.normJ = -b.normI ∧ b.labI - b.labJ = (b.labI - b.labJ).norm • b.normI ∧
    ∃ D : V3, (∀ k, pbc k = false → Near.comp D k = 0) ∧ X b.globalIndexJ + D + b.posJ = b.labJ)

open BoundaryCol in
theorem bodyBlocks_arm (b : Bound) (colBuf : ℝ) (sy : Sylinder) (l : List Block) (h : bodyBlocks b colBuf sy = some l) :
    ∀ blk ∈ l, sy.pos + blk.posI = blk.labI := by
  have hend : ∀ query radius l, checkEnd b colBuf sy query radius = some l → ∀ blk ∈ l, sy.pos + blk.posI = blk.labI := by
    intro query radius l h blk hb
    unfold checkEnd at h
    split at h
    · cases h; cases hb
    · dsimp only at h
      split_ifs at h
      · cases h
        rw [List.mem_singleton] at hb
        subst hb
        show sy.pos + (query - sy.pos) = query
        ext <;> simp
      · cases h
        rw [List.mem_singleton] at hb
        subst hb
        show sy.pos + (query - sy.pos) = query
        ext <;> simp
      · cases h; cases hb
  unfold bodyBlocks at h
  split_ifs at h
  · exact hend _ _ _ h
  · simp only [Option.bind_eq_some_iff, Option.some.injEq] at h
    obtain ⟨l1, h1, l2, h2, rfl⟩ := h
    intro blk hb
    rcases List.mem_append.1 hb with hb | hb
    · exact hend _ _ _ h1 blk hb
    · exact hend _ _ _ h2 blk hb

theorem shapes (hs : Step C fl pre s q ranks out s') (h : Sound C pbc low high P₀) (hq : Sim.Prepared C P₀ q) :
    ∀ b ∈ constraints ranks, Shape pbc (loaded out).length (posOf out) b ∧ (C.bounds = [] → b.oneSide = false) := by
  intro b hb
  obtain ⟨rk, hrk, hb⟩ := List.mem_flatMap.1 hb
  obtain ⟨r, hr, hr'⟩ := List.getElem_of_mem hrk
  have hr1 : ranks[r]? = some rk := by rw [← hr']; exact List.getElem?_eq_getElem hr
  have hrn : r < C.place.g.n := by rw [← hs.size]; exact hr
  obtain ⟨order, ho, hdir⟩ := hs.publish
  obtain ⟨X, hX, hcol⟩ := hs.collect
  have hcr := hcol r rk hr1
  rw [hdir] at hcr
  obtain ⟨-, hI, hJ⟩ := pool_spec hq h s.dir order ho X hX hrn rk.pool hcr b hb
  obtain ⟨L, blocks, bs, news, hperm, -, hcon, -, hbs, hsch, hlinks⟩ := pool_parts hq h s.dir order ho X hX hrn rk.pool hcr
  rw [loaded_length hs h hq]
  rcases List.mem_append.1 (hperm.mem_iff.1 hb) with hb | hb
  · rcases List.mem_append.1 hb with hb | hb
    · obtain ⟨k, hk, rfl⟩ := List.getElem_of_mem hb
      obtain ⟨hlen, hf⟩ := List.forall₂_iff_get.1 hcon
      obtain ⟨x, y, hx, hy, himg, -, hc, -⟩ := hf k (by omega) hk
      simp only [List.get_eq_getElem] at hx hy himg hc
      generalize blocks[k] = b at *
      generalize L[k] = o at *
      obtain ⟨i, r', j, m⟩ := o
      obtain ⟨z, hz, rfl⟩ := Option.map_eq_some_iff.1 hy
      refine ⟨⟨hI, ?_, fun hone => ⟨hJ hone, hc.normals.1, hc.normals.2, ⟨m.x * (C.place.d.high 0 - C.place.d.low 0), m.y * (C.place.d.high 1 - C.place.d.low 1),
        m.z * (C.place.d.high 2 - C.place.d.low 2)⟩, ?_, ?_⟩⟩, fun _ => hc.kind.1⟩
      · rw [hc.gid.2.2.1, show (EP.copyFromFP x).globalIndex = x.globalIndex from rfl, posOf_body hs h hq hrn (List.mem_of_getElem? hx)]
        exact hc.arms.1
      · intro k hk
        rw [← h.place.extent.2.1 k] at hk
        obtain ⟨-, i0, i1, i2⟩ := himg
        fin_cases k
        · show (m.x : ℝ) * _ = 0
          rw [show m.x = 0 from i0 hk]; simp
        · show (m.y : ℝ) * _ = 0
          rw [show m.y = 0 from i1 hk]; simp
        · show (m.z : ℝ) * _ = 0
          rw [show m.z = 0 from i2 hk]; simp
      · rw [hc.gid.2.2.2]
        show posOf out z.globalIndex + _ + _ = _
        rw [posOf_body hs h hq himg.1 (List.mem_of_getElem? hz)]
        exact hc.arms.2
    · obtain ⟨e, he, hb⟩ := List.mem_flatMap.1 hb
      obtain ⟨y, hy, hb⟩ := List.mem_flatMap.1 hb
      cases hbb : BoundaryCol.bodyBlocks e.1 C.place.colBuf y.2 with
      | none => rw [hbb] at hb; cases hb
      | some l =>
      rw [hbb] at hb
      obtain ⟨-, -, e3, e4⟩ := bodyBlocks_plain _ _ _ _ hbb b hb
      have harm := bodyBlocks_arm _ _ _ _ hbb b hb
      have hym : y.2 ∈ numbered C.place.g.n q.P r := (hsch e he).mem_iff.1 (List.mem_map_of_mem hy)
      refine ⟨⟨hI, ?_, fun hone => by rw [e3] at hone; cases hone⟩, fun hno => ?_⟩
      · rw [e4, posOf_body hs h hq hrn hym]
        exact harm
      · rw [hno, List.map_eq_nil_iff] at hbs
        rw [hbs] at he
        cases he
  · obtain ⟨k, hk, rfl⟩ := List.getElem_of_mem hb
    obtain ⟨hlen, hf⟩ := List.forall₂_iff_get.1 hlinks
    obtain ⟨e, hde, c, P, Q, hc, hP, hQ, -, -, h1, -, -, -, h2, h3, h4, h5, h6, h7, h8, h9, -⟩ := hf k (by omega) hk
    simp only [List.get_eq_getElem] at hde hc hP hQ h1 h2 h3 h4 h5 h6 h7 h8 h9
    have hp : (linkPairs C.linkMap (numbered C.place.g.n q.P r))[k]'(by omega) ∈ linkPairs C.linkMap (numbered C.place.g.n q.P r) := List.getElem_mem _
    generalize news[k] = b at *
    obtain ⟨I, hIm, hp⟩ := List.mem_flatMap.1 hp
    obtain ⟨g, hg, hp⟩ := List.mem_map.1 hp
    rw [← hp] at hde hc hP h2 h6
    obtain ⟨l, hl, hlg⟩ := List.mem_map.1 hg
    obtain ⟨r', hr', z, hz, -, hd⟩ := dir_spec hq h s.dir order ho l (List.mem_filter.1 hl).1
    simp only at hde hc hP h2 h6
    rw [← hlg, hd] at hde
    cases hde
    refine ⟨⟨hI, ?_, fun hone => ⟨hJ hone, h8, by rw [h4, h5]; exact h9, c - z.pos, ?_, ?_⟩⟩, fun _ => h1⟩
    · rw [h2, posOf_body hs h hq hrn hIm, h4]
      exact h6
    · intro k hk
      have := (hc k).1 (by rw [h.linkBox.1]; exact hk)
      have h0 : Near.comp c k = Near.comp z.pos k := this
      have : Near.comp (c - z.pos) k = Near.comp c k - Near.comp z.pos k := by fin_cases k <;> rfl
      rw [this, h0, sub_self]
    · rw [h3, show (EP.copyFromFP z).globalIndex = z.globalIndex from rfl, posOf_body hs h hq hr' hz, h5, ← h7]
      ext <;> simp

theorem all_loaded (hs : Step C fl pre s q ranks out s') (h : Sound C pbc low high P₀) (hq : Sim.Prepared C P₀ q) :
    (all C.place.g.n q.P).map Sylinder.pos = (loaded out).map Sylinder.pos ∧ (all C.place.g.n s'.sys.P).map Sylinder.force = (loaded out).map Sylinder.force ∧
      (all C.place.g.n s'.sys.P).map Sylinder.torque = (loaded out).map Sylinder.torque := by
  obtain ⟨h0, h1⟩ := step_bodies hs h hq
  have key : ∀ (f : Sylinder → V3) (P : ℕ → List Sylinder), (∀ r < C.place.g.n, ∀ so, out.steps[r]? = some so → (P r).map f = so.summed.map f) →
      (all C.place.g.n P).map f = (loaded out).map f := by
    intro f P hf
    unfold all loaded
    rw [List.map_flatMap, List.map_flatMap, List.flatMap_def, List.flatMap_def]
    congr 1
    apply List.ext_getElem?
    intro r
    rw [List.getElem?_map, List.getElem?_map]
    by_cases hr : r < C.place.g.n
    · obtain ⟨so, h2, -⟩ := h1 r hr
      rw [h2, List.getElem?_range hr, Option.map_some, Option.map_some, hf r hr so h2]
    · rw [List.getElem?_eq_none (by simpa using hr), List.getElem?_eq_none (by omega)]
      rfl
  have hmv : ∀ (f : Sylinder → V3), (∀ t : Sylinder, f (t.stepEuler C.mob.dt) = f t) → (all C.place.g.n s'.sys.P).map f = (loaded out).map f := by
    intro f hf
    refine key f _ fun r hr so hso => ?_
    obtain ⟨so', h2, h3, h4, h5⟩ := h1 r hr
    rw [hso] at h2
    cases h2
    have hP : s'.sys.P r = so.moved := by rw [hs.moved]; simp only [after, hso]; rfl
    rw [hP]
    apply List.ext_getElem?
    intro i
    rw [List.getElem?_map, List.getElem?_map]
    rcases lt_or_ge i (numbered C.place.g.n q.P r).length with hi | hi
    · obtain ⟨t, u, k1, k2, -, -, -, -, k7⟩ := h5 i _ (List.getElem?_eq_getElem hi)
      rw [k1, k2, k7, Option.map_some, Option.map_some]
      split_ifs
      · rfl
      · rw [hf]
    · rw [numbered_length _ _ _ hr] at hi
      rw [List.getElem?_eq_none (by omega), List.getElem?_eq_none (by omega)]
  refine ⟨key _ _ fun r hr so hso => ?_, hmv _ fun _ => rfl, hmv _ fun _ => rfl⟩
  obtain ⟨so', h2, h3, h4, h5⟩ := h1 r hr
  rw [hso] at h2
  cases h2
  apply List.ext_getElem?
  intro i
  rw [List.getElem?_map, List.getElem?_map]
  rcases lt_or_ge i (numbered C.place.g.n q.P r).length with hi | hi
  · obtain ⟨t, u, k1, -, -, -, k5, -⟩ := h5 i _ (List.getElem?_eq_getElem hi)
    obtain ⟨b, hb, g, hbg⟩ := numbered_get _ _ _ _ _ (List.getElem?_eq_getElem hi)
    rw [k1, hb, Option.map_some, Option.map_some, k5, hbg]
    rfl
  · rw [numbered_length _ _ _ hr] at hi
    rw [List.getElem?_eq_none (by omega), List.getElem?_eq_none (by omega)]

theorem range_loaded (hs : Step C fl pre s q ranks out s') (h : Sound C pbc low high P₀) (hq : Sim.Prepared C P₀ q) (f : ℤ → V3) :
    (loaded out).map (fun t => f t.globalIndex) = (List.range (loaded out).length).map fun g : ℕ => f g := by
  apply List.ext_getElem
  · simp
  · intro g h1 h2
    rw [List.getElem_map, List.getElem_map, List.getElem_range]
    have hg : g < (loaded out).length := by simpa using h1
    rw [summed_index hs h hq g _ (List.getElem?_eq_getElem hg)]

theorem map_at {α β : Type*} {f : α → β} {l m : List α} (e : l.map f = m.map f) (i : ℕ) (h1 : i < l.length) (h2 : i < m.length) : f l[i] = f m[i] := by
  have := congrArg (fun x => x[i]?) e
  simpa [List.getElem?_map, List.getElem?_eq_getElem h1, List.getElem?_eq_getElem h2] using this

theorem vsum_forall₂ {α β : Type*} {R : α → β → Prop} {l : List α} {m : List β} (hl : List.Forall₂ R l m) (f e : α → V3) (g : α → β → V3)
    (h : ∀ a b, a ∈ l → R a b → f a = g a b + e a) : vsum (l.map f) = vsum (List.zipWith g l m) + vsum (l.map e) := by
  induction hl with
  | nil => simp [vsum, add_zero']
  | cons hab hl ih =>
    rw [List.map_cons, List.zipWith_cons_cons, List.map_cons, vsum, vsum, vsum, ih (fun a b ha => h a b (List.mem_cons_of_mem _ ha)), h _ _ List.mem_cons_self hab, swap4]

end

end Verif.Momentum
