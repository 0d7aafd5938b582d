import Verif.Props.Layout
import Verif.Lemmas.Work
/-! Lemmas for C100: bodies move alike. -/
namespace Verif.Layout
open Verif.Near Verif.Collector Verif.Sim Verif.RunStep Verif.Mobility Verif.Spec.Layout Verif.Spec.Resume Verif.Spec.Momentum Verif.Spec.Mobility Verif.Spec.Motion Verif.Momentum Verif.Work
open Spec.Collector (gapRate force torque)
open Spec.RunStep (Solves)

/-! ### one constraint -/

/-- What is used of a solution with tolerance `tol`, in which multipliers below `small` count as zero. -/
structure Meets (small dt tol : ℝ) (b : Block) (rate g : ℝ) : Prop where
  uni : b.bilateral = false → 0 ≤ g ∧ -(dt * tol) ≤ b.delta0 + dt * rate ∧ (small ≤ g → |b.delta0 + dt * rate| ≤ dt * tol)
  bi : b.bilateral = true → 0 < b.kappa → |b.delta0 + dt * rate + g / b.kappa| ≤ dt * tol
  rigid : b.bilateral = true → ¬ 0 < b.kappa → |b.delta0 + dt * rate| ≤ dt * tol

theorem Meets.of {fl : ℝ → ℝ} {dt res tol : ℝ} (hdt : 0 < dt) (hres : res ≤ tol) {b : Block} {rate g : ℝ} (h : Solves fl dt res b rate g)
    (hup : g ≤ fl (BCQP.dblMax / 10 - BCQP.dblEps * 100)) (hlow : b.bilateral = true → fl (-(10 : ℝ) ^ 8 + BCQP.dblEps * 100) ≤ g) :
    Meets (fl (BCQP.dblEps * 100)) dt tol b rate g := by
  have hd : dt * res ≤ dt * tol := mul_le_mul_of_nonneg_left hres hdt.le
  refine ⟨fun hb => ?_, fun hb hk => (((h.bi hb hk).2.2 hup).2 (hlow hb)).trans hd, fun hb hk => (((h.rigid hb hk).2.2 hup).2 (hlow hb)).trans hd⟩
  obtain ⟨h0, -, h1⟩ := h.uni hb
  obtain ⟨h2, h3⟩ := h1 hup
  exact ⟨h0, by linarith, fun hs => (h3 hs).trans hd⟩

/-- Two approximate solutions at one constraint. -/
theorem monotone (small small' : ℝ) (dt tol tol' : ℝ) (hdt : 0 < dt) (htol : 0 ≤ tol) (htol' : 0 ≤ tol') (b b' : Block)
    (hbb : forget b = forget b') (rate rate' g g' : ℝ) (h : Meets small dt tol b rate g) (h' : Meets small' dt tol' b' rate' g') :
    dt * ((g - g') * (rate - rate')) ≤ loose dt tol tol' |small| b (b.delta0 + dt * rate) g +
      loose dt tol' tol |small'| b' (b'.delta0 + dt * rate') g' := by
  have e1 : b'.delta0 = b.delta0 := (congrArg Block.delta0 hbb).symm
  have e2 : b'.bilateral = b.bilateral := (congrArg Block.bilateral hbb).symm
  have e3 : b'.kappa = b.kappa := (congrArg Block.kappa hbb).symm
  have hu := h'.uni
  have hb' := h'.bi
  have hr' := h'.rigid
  rw [e1, e2] at hu
  rw [e1, e2, e3] at hb' hr'
  rw [e1]
  obtain ⟨δ, hδ⟩ : ∃ δ, δ = b.delta0 + dt * rate := ⟨_, rfl⟩
  obtain ⟨δ', hδ'⟩ : ∃ δ, δ = b.delta0 + dt * rate' := ⟨_, rfl⟩
  have hw : dt * ((g - g') * (rate - rate')) = (g - g') * (δ - δ') := by rw [hδ, hδ']; ring
  rw [hw, ← hδ, ← hδ']
  have hd0 : 0 ≤ dt * tol := mul_nonneg hdt.le htol
  have hd0' : 0 ≤ dt * tol' := mul_nonneg hdt.le htol'
  have hsm : 0 ≤ |small| * max δ 0 := mul_nonneg (abs_nonneg _) (le_max_right _ _)
  have hsm' : 0 ≤ |small'| * max δ' 0 := mul_nonneg (abs_nonneg _) (le_max_right _ _)
  unfold loose
  rw [e2, e3, mul_add dt tol tol', mul_add dt tol' tol]
  by_cases hb : b.bilateral = true
  · by_cases hk : 0 < b.kappa
    · rw [if_pos ⟨hb, hk⟩, if_pos ⟨hb, hk⟩]
      have h1 := h.bi hb hk
      have h2 := hb' hb hk
      rw [← hδ] at h1
      rw [← hδ'] at h2
      obtain ⟨ε, hε⟩ : ∃ ε, ε = δ + g / b.kappa := ⟨_, rfl⟩
      obtain ⟨ε', hε'⟩ : ∃ ε, ε = δ' + g' / b.kappa := ⟨_, rfl⟩
      rw [← hε] at h1
      rw [← hε'] at h2
      have hg : g = b.kappa * (ε - δ) := by rw [hε]; field_simp; ring
      have hg' : g' = b.kappa * (ε' - δ') := by rw [hε']; field_simp; ring
      have he : ε ^ 2 ≤ (dt * tol) ^ 2 := by
        rw [← sq_abs ε]
        exact pow_le_pow_left₀ (abs_nonneg _) h1 2
      have he' : ε' ^ 2 ≤ (dt * tol') ^ 2 := by
        rw [← sq_abs ε']
        exact pow_le_pow_left₀ (abs_nonneg _) h2 2
      rw [hg, hg']
      have a1 : b.kappa / 2 * ε ^ 2 ≤ b.kappa / 2 * (dt * tol) ^ 2 := mul_le_mul_of_nonneg_left he (by linarith)
      have a2 : b.kappa / 2 * ε' ^ 2 ≤ b.kappa / 2 * (dt * tol') ^ 2 := mul_le_mul_of_nonneg_left he' (by linarith)
      nlinarith [mul_nonneg hk.le (sq_nonneg (2 * (δ - δ') - (ε - ε'))), mul_nonneg hk.le (sq_nonneg (ε + ε'))]
    · rw [if_neg (fun h => hk h.2), if_neg (fun h => hk h.2)]
      have h1 := h.rigid hb hk
      have h2 := hr' hb hk
      rw [← hδ] at h1
      rw [← hδ'] at h2
      have h3 : |δ - δ'| ≤ dt * tol + dt * tol' := (abs_sub _ _).trans (add_le_add h1 h2)
      have h4 : (g - g') * (δ - δ') ≤ (|g| + |g'|) * (dt * tol + dt * tol') :=
        (le_abs_self _).trans (by rw [abs_mul]; exact mul_le_mul (abs_sub _ _) h3 (abs_nonneg _) (by positivity))
      nlinarith
  · rw [if_neg (fun h => hb h.1), if_neg (fun h => hb h.1)]
    have hb0 : b.bilateral = false := by simpa using hb
    obtain ⟨h0, h2, h3⟩ := h.uni hb0
    obtain ⟨k0, k2, k3⟩ := hu hb0
    rw [← hδ] at h2 h3
    rw [← hδ'] at k2 k3
    rw [abs_of_nonneg h0, abs_of_nonneg k0]
    have own : ∀ (f : ℝ) (g δ t : ℝ), 0 ≤ g → 0 ≤ t → (f ≤ g → |δ| ≤ t) → g * δ ≤ g * t + |f| * max δ 0 := by
      intro f g δ t hg ht hf
      by_cases hfg : f ≤ g
      · have : g * δ ≤ g * t := mul_le_mul_of_nonneg_left ((le_abs_self _).trans (hf hfg)) hg
        have := mul_nonneg (abs_nonneg f) (le_max_right δ 0)
        linarith
      · have : g * δ ≤ |f| * max δ 0 :=
          (mul_le_mul_of_nonneg_left (le_max_left _ _) hg).trans (mul_le_mul_of_nonneg_right ((not_le.1 hfg).le.trans (le_abs_self _)) (le_max_right _ _))
        have := mul_nonneg hg ht
        linarith
    have a1 := own _ g δ _ h0 hd0 h3
    have a2 := own _ g' δ' _ k0 hd0' k3
    have a3 : -(g * δ') ≤ g * (dt * tol') := by nlinarith
    have a4 : -(g' * δ) ≤ g' * (dt * tol) := by nlinarith
    nlinarith

/-! ### one body -/

theorem Moves.same {mu : ℝ} {x x' : Sylinder} (h : seen x = seen x') {F U : V3 × V3} (hm : Moves mu x' F U) : Moves mu x F U := by
  simp only [seen, kind, Prod.mk.injEq] at h
  obtain ⟨⟨-, -, h1, h2, h3⟩, -, h5⟩ := h
  have e : x.calcDragCoeff Pi mu = x'.calcDragCoeff Pi mu := by unfold Sylinder.calcDragCoeff Sylinder.isSphere; rw [h2, h3]; rfl
  unfold Moves
  rw [h1, h5, e]
  exact hm

/-- The drag on the difference of two motions. -/
theorem lag_le {mu : ℝ} {x : Sylinder} (hv : Valid x) {A A' P P' : V3 × V3} (h : Moves mu x A P) (h' : Moves mu x A' P') :
    lag mu x (P - P') ≤ power (A - A') (P - P') ∧ (x.isImmovable = true → P - P' = (0, 0)) := by
  rcases h with ⟨h1, rfl⟩ | ⟨h1, p, e, r, h2, hp, he, hr, rfl⟩
  · rcases h' with ⟨-, rfl⟩ | ⟨h, -⟩
    · have e0 : ((0, 0) : V3 × V3) - (0, 0) = (0, 0) := by refine Prod.ext (V3.ext ?_ ?_ ?_) (V3.ext ?_ ?_ ?_) <;> simp
      rw [e0]
      exact ⟨by simp [lag, h1, power, V3.dot], fun _ => rfl⟩
    · rw [h1] at h; cases h
  · rcases h' with ⟨h, -⟩ | ⟨-, p', e', r', k2, -, -, -, rfl⟩
    · rw [h1] at h; cases h
    · rw [h2] at k2
      simp only [Option.some.injEq, Prod.mk.injEq] at k2
      obtain ⟨rfl, rfl, rfl⟩ := k2
      refine ⟨?_, fun h => by rw [h1] at h; cases h⟩
      have hlin : drag p e r x.direction P - drag p e r x.direction P' = drag p e r x.direction (P - P') := by
        unfold drag
        refine Prod.ext (V3.ext ?_ ?_ ?_) (V3.ext ?_ ?_ ?_) <;> simp [V3.dot] <;> ring
      rw [hlin]
      unfold lag
      rw [h1, h2]
      simp only [Bool.false_eq_true, if_false]
      generalize P - P' = T
      have hd := direction_unit x hv.unit
      generalize x.direction = d at *
      obtain ⟨U, ω⟩ := T
      set c := V3.dot d U with hc
      set T := U - c • d with hT
      have hTd : V3.dot d T = 0 := by
        have : V3.dot d T = V3.dot d U - c * V3.dot d d := by rw [hT]; simp [V3.dot]; ring
        rw [this, hd, hc]; ring
      have hU : U = c • d + T := by rw [hT]; ext <;> simp
      have hpow : power (drag p e r d (U, ω)) (U, ω) = p * c ^ 2 + e * V3.dot T T + r * V3.dot ω ω := by
        have h1 : power (drag p e r d (U, ω)) (U, ω) = p * c * V3.dot d U + e * V3.dot T U + r * V3.dot ω ω := by
          unfold power drag
          simp only [← hc, ← hT]
          have hcc : c = d.x * U.x + d.y * U.y + d.z * U.z := rfl
          simp [V3.dot]
          linear_combination (-(p * c)) * hcc
        have h2 : V3.dot T U = V3.dot T T + c * V3.dot d T := by
          conv_lhs => rw [hU]
          simp [V3.dot]; ring
        rw [h1, h2, hTd, ← hc]; ring
      have hsq : V3.dot U U = c ^ 2 + V3.dot T T := by
        have : V3.dot U U = c ^ 2 * V3.dot d d + 2 * c * V3.dot d T + V3.dot T T := by
          conv_lhs => rw [hU]
          simp [V3.dot]; ring
        rw [this, hd, hTd]; ring
      have hpos : 0 ≤ V3.dot T T := by unfold V3.dot; nlinarith [sq_nonneg T.x, sq_nonneg T.y, sq_nonneg T.z]
      rw [hpow]
      show min p e * V3.dot U U + r * V3.dot ω ω ≤ _
      rw [hsq]
      have a1 : min p e * c ^ 2 ≤ p * c ^ 2 := mul_le_mul_of_nonneg_right (min_le_left _ _) (sq_nonneg _)
      have a2 : min p e * V3.dot T T ≤ e * V3.dot T T := mul_le_mul_of_nonneg_right (min_le_right _ _) hpos
      linarith

/-! ### one step -/

/-- The id of the body with the global index `g`. -/
def gidAt (E : List Sylinder) (g : ℤ) : ℤ := ((E[g.toNat]?).map Sylinder.gid).getD 0

theorem gidAt_mem {n : ℕ} {S : ℕ → List Sylinder} {x : Sylinder} (hx : x ∈ everyone n S) : gidAt (everyone n S) x.globalIndex = x.gid := by
  obtain ⟨g, hg, rfl⟩ := List.getElem_of_mem hx
  obtain ⟨h1, -⟩ := numbered_at n S g _ (List.getElem?_eq_getElem hg)
  unfold gidAt
  rw [show (everyone n S)[g].globalIndex = g from h1, Int.toNat_natCast, List.getElem?_eq_getElem hg]
  rfl

open BoundaryCol in
theorem bodyBlocks_gid (b : Bound) (colBuf : ℝ) (sy : Sylinder) (l : List Block) (h : bodyBlocks b colBuf sy = some l) :
    ∀ blk ∈ l, blk.gidI = sy.gid ∧ blk.globalIndexI = sy.globalIndex ∧ blk.oneSide = true := by
  have hend : ∀ query radius l, checkEnd b colBuf sy query radius = some l → ∀ blk ∈ l, blk.gidI = sy.gid ∧ blk.globalIndexI = sy.globalIndex ∧ blk.oneSide = true := by
    intro query radius l h blk hb
    unfold checkEnd at h
    split at h
    · cases h; cases hb
    · dsimp only at h
      split_ifs at h
      · cases h
        rw [List.mem_singleton] at hb
        subst hb
        exact ⟨rfl, rfl, rfl⟩
      · cases h
        rw [List.mem_singleton] at hb
        subst hb
        exact ⟨rfl, rfl, rfl⟩
      · cases h; cases hb
  unfold bodyBlocks at h
  split_ifs at h
  · exact hend _ _ _ h
  · simp only [Option.bind_eq_some_iff, Option.some.injEq] at h
    obtain ⟨l1, h1, l2, h2, rfl⟩ := h
    intro blk hb
    rcases List.mem_append.1 hb with hb | hb
    · exact hend _ _ _ h1 blk hb
    · exact hend _ _ _ h2 blk hb

section
variable {C : Sim.Cfg} {pbc : Fin 3 → Bool} {low high : Fin 3 → ℝ} {P₀ : ℕ → List Sylinder} {fl : ℝ → ℝ} {pre : Bool} {s s' : State} {q : Place.Sys}
  {ranks : List RankIn} {out : Out}

/-- The global indices of a constraint are those of the bodies with its ids. -/
theorem owner (hs : Step C fl pre s q ranks out s') (h : Sound C pbc low high P₀) (hq : Sim.Prepared C P₀ q) : ∀ b ∈ constraints ranks,
    gidAt (everyone C.place.g.n q.P) b.globalIndexI = b.gidI ∧ (b.oneSide = false → gidAt (everyone C.place.g.n q.P) b.globalIndexJ = b.gidJ) := by
  intro b hb
  obtain ⟨rk, hrk, hb⟩ := List.mem_flatMap.1 hb
  obtain ⟨r, hr, hr'⟩ := List.getElem_of_mem hrk
  have hr1 : ranks[r]? = some rk := by rw [← hr']; exact List.getElem?_eq_getElem hr
  have hrn : r < C.place.g.n := by rw [← hs.size]; exact hr
  obtain ⟨order, ho, hdir⟩ := hs.publish
  obtain ⟨X, hX, hcol⟩ := hs.collect
  have hcr := hcol r rk hr1
  rw [hdir] at hcr
  obtain ⟨L, blocks, bs, news, hperm, -, hcon, -, hbs, hsch, hlinks⟩ := pool_parts hq h s.dir order ho X hX hrn rk.pool hcr
  rcases List.mem_append.1 (hperm.mem_iff.1 hb) with hb | hb
  · rcases List.mem_append.1 hb with hb | hb
    · obtain ⟨k, hk, rfl⟩ := List.getElem_of_mem hb
      obtain ⟨hlen, hf⟩ := List.forall₂_iff_get.1 hcon
      obtain ⟨x, y, hx, hy, himg, -, hc, -⟩ := hf k (by omega) hk
      simp only [List.get_eq_getElem] at hx hy himg hc
      generalize blocks[k] = b at *
      generalize L[k] = o at *
      obtain ⟨i, r', j, m⟩ := o
      obtain ⟨z, hz, rfl⟩ := Option.map_eq_some_iff.1 hy
      obtain ⟨g1, g2, g3, g4⟩ := hc.gid
      rw [g1, g2, g3, g4]
      exact ⟨gidAt_mem (mem_everyone.2 ⟨r, hrn, List.mem_of_getElem? hx⟩), fun _ => gidAt_mem (x := z) (mem_everyone.2 ⟨r', himg.1, List.mem_of_getElem? hz⟩)⟩
    · obtain ⟨e, he, hb⟩ := List.mem_flatMap.1 hb
      obtain ⟨y, hy, hb⟩ := List.mem_flatMap.1 hb
      cases hbb : BoundaryCol.bodyBlocks e.1 C.place.colBuf y.2 with
      | none => rw [hbb] at hb; cases hb
      | some l =>
      rw [hbb] at hb
      obtain ⟨e1, e2, e3⟩ := bodyBlocks_gid _ _ _ _ hbb b hb
      have hym : y.2 ∈ numbered C.place.g.n q.P r := (hsch e he).mem_iff.1 (List.mem_map_of_mem hy)
      rw [e1, e2]
      exact ⟨gidAt_mem (mem_everyone.2 ⟨r, hrn, hym⟩), fun hone => by rw [e3] at hone; cases hone⟩
  · obtain ⟨k, hk, rfl⟩ := List.getElem_of_mem hb
    obtain ⟨hlen, hf⟩ := List.forall₂_iff_get.1 hlinks
    obtain ⟨e, hde, c, P, Q, -, -, -, -, -, -, -, g1, g2, h2, h3, -⟩ := hf k (by omega) hk
    simp only [List.get_eq_getElem] at hde g1 g2 h2 h3
    have hp : (linkPairs C.linkMap (numbered C.place.g.n q.P r))[k]'(by omega) ∈ linkPairs C.linkMap (numbered C.place.g.n q.P r) := List.getElem_mem _
    generalize news[k] = b at *
    obtain ⟨I, hIm, hp⟩ := List.mem_flatMap.1 hp
    obtain ⟨g, hg, hp⟩ := List.mem_map.1 hp
    rw [← hp] at hde g1 h2
    obtain ⟨l, hl, hlg⟩ := List.mem_map.1 hg
    obtain ⟨r', hr', z, hz, -, hd⟩ := dir_spec hq h s.dir order ho l (List.mem_filter.1 hl).1
    simp only at hde g1 h2
    rw [← hlg, hd] at hde
    cases hde
    rw [g1, g2, h2, h3]
    exact ⟨gidAt_mem (mem_everyone.2 ⟨r, hrn, hIm⟩), fun _ => gidAt_mem (x := z) (mem_everyone.2 ⟨r', hr', hz⟩)⟩

theorem gap_owner (hs : Step C fl pre s q ranks out s') (h : Sound C pbc low high P₀) (hq : Sim.Prepared C P₀ q) (T S : ℤ → V3) (b : Block) (hb : b ∈ constraints ranks) :
    gapRate (fun g => T (gidAt (everyone C.place.g.n q.P) g)) (fun g => S (gidAt (everyone C.place.g.n q.P) g)) b = gapOf T S b := by
  obtain ⟨h1, h2⟩ := owner hs h hq b hb
  unfold gapRate gapOf
  beta_reduce
  rw [h1]
  cases ho : b.oneSide
  · rw [h2 ho]
  · rfl

theorem everyone_length (n : ℕ) (S : ℕ → List Sylinder) : (everyone n S).length = (Sim.sizes n S).sum := by
  unfold everyone Sim.sizes
  rw [List.length_flatMap]
  congr 1
  exact List.map_congr_left fun r hr => numbered_length _ _ _ (List.mem_range.1 hr)

/-- The bodies and constraints of a step that converged, by ids. -/
theorem one (h : Sound C pbc low high P₀) (hs : Step C fl pre s q ranks out s') (hq : Sim.Prepared C P₀ q)
    (hfree : C.mob.sylinderFixed = false) {res : ℝ} (hc : Converged C fl out res)
    (hlow : ∀ p ∈ out.pools, ∀ b ∈ p.flatten, b.bilateral = true → fl (-(10 : ℝ) ^ 8 + BCQP.dblEps * 100) ≤ b.gamma)
    (hmov : ∀ r < C.place.g.n, ∀ (i : ℕ) (x : Sylinder), (numbered C.place.g.n q.P r)[i]? = some x → ∃ rk D u, ranks[r]? = some rk ∧ rk.bodies[i]? = some (D, x) ∧
      (s'.sys.P r)[i]? = some u ∧ u.gid = x.gid ∧ Moves C.mob.viscosity x (u.force, u.torque) ((u.vel, u.omega) - at6 (rk.velPart.getD []) i))
    {U W : ℤ → V3} {G V : ℤ → V3 × V3} (hU : Velocities (all C.place.g.n s'.sys.P) U W) (hG : Loads C.place.g.n q ranks G V) :
    let cs := (constraints ranks).zip ((out.pools.flatMap fun p => p.flatten).map Block.gamma)
    (∀ x ∈ everyone C.place.g.n q.P, Moves C.mob.viscosity x (G x.gid + (force cs x.globalIndex, torque cs x.globalIndex)) ((U x.gid, W x.gid) - V x.gid)) ∧
    (∀ T S : ℤ → V3, ((everyone C.place.g.n q.P).map fun x => power (force cs x.globalIndex, torque cs x.globalIndex) (T x.gid, S x.gid)).sum =
      (cs.map fun p => p.2 * gapOf T S p.1).sum) ∧
    (∀ p ∈ cs, Solves fl C.mob.dt res p.1 (gapOf U W p.1) p.2 ∧ p.2 ≤ fl (BCQP.dblMax / 10 - BCQP.dblEps * 100) ∧
      (p.1.bilateral = true → fl (-(10 : ℝ) ^ 8 + BCQP.dblEps * 100) ≤ p.2)) ∧ cs.map Prod.fst = constraints ranks := by
  intro cs
  obtain ⟨mult, hm, hcv⟩ := applies hs h hq
  rw [hcv res hfree hc] at hm
  have hall := solved_all hs h hq hfree hc
  have hsh := shapes hs h hq
  obtain ⟨last, -, hlr, hlt, -, hcap⟩ := hc
  have hmem : ∀ p ∈ cs, p.1 ∈ constraints ranks := fun p hp => (List.of_mem_zip hp).1
  refine ⟨?_, ?_, ?_, ?_⟩
  · intro x hx
    obtain ⟨r, hrn, hx⟩ := mem_everyone.1 hx
    obtain ⟨i, hi, hix⟩ := List.getElem_of_mem hx
    have hi' : (numbered C.place.g.n q.P r)[i]? = some x := by rw [← hix]; exact List.getElem?_eq_getElem hi
    obtain ⟨rk, D, u, g1, g2, g3, g4, g5⟩ := hmov r hrn i x hi'
    obtain ⟨l1, l2⟩ := hG r rk i x g1 hi'
    obtain ⟨u1, u2⟩ := hU u (mem_all.2 ⟨r, hrn, List.mem_of_getElem? g3⟩)
    obtain ⟨so, t, m1, m2, m3⟩ := hm.2 r i rk D x g1 g2
    obtain ⟨-, hbod⟩ := step_bodies hs h hq
    obtain ⟨so', b1, -, -, b5⟩ := hbod r hrn
    obtain ⟨t', u', k1, k2, -, -, -, -, k7⟩ := b5 i x hi'
    rw [m1] at b1
    cases b1
    rw [m2] at k1
    cases k1
    have hP : s'.sys.P r = so.moved := by rw [hs.moved]; simp only [after, m1]; rfl
    rw [hP, k2] at g3
    cases g3
    have hf : (u.force, u.torque) = (t.force, t.torque) := by
      rw [k7]
      split_ifs <;> rfl
    rw [l2, hf, m3, l1, ← u1, ← u2, g4] at g5
    exact g5
  · intro T S
    have hN : (loaded out).length = (everyone C.place.g.n q.P).length := by rw [loaded_length hs h hq, everyone_length]
    have hv := virtual_work (loaded out).length (fun g => T (gidAt (everyone C.place.g.n q.P) g)) (fun g => S (gidAt (everyone C.place.g.n q.P) g)) cs
      (fun p hp => (hsh p.1 (hmem p hp)).1.1) (fun p hp ho => ((hsh p.1 (hmem p hp)).1.2.2 ho).1)
    rw [show (cs.map fun p => p.2 * gapOf T S p.1) = cs.map fun p => p.2 * gapRate (fun g => T (gidAt (everyone C.place.g.n q.P) g))
      (fun g => S (gidAt (everyone C.place.g.n q.P) g)) p.1 from List.map_congr_left fun p hp => by rw [gap_owner hs h hq T S p.1 (hmem p hp)], ← hv, hN]
    congr 1
    apply List.ext_getElem
    · simp
    · intro g h1 h2
      have hg : g < (everyone C.place.g.n q.P).length := by simpa using h1
      have e1 := (numbered_at C.place.g.n q.P g _ (List.getElem?_eq_getElem hg)).1
      have e2 := gidAt_mem (List.getElem_mem hg)
      rw [show ((everyone C.place.g.n q.P)[g]).globalIndex = g from e1] at e2
      simp only [List.getElem_map, List.getElem_range]
      rw [show ((everyone C.place.g.n q.P)[g]).globalIndex = g from e1, e2]
  · intro p hp
    rw [show cs = (constraints ranks).zip ((out.pools.flatMap fun p => p.flatten).map Block.gamma) from rfl, List.zip_map_right] at hp
    obtain ⟨⟨b, b'⟩, hbb, rfl⟩ := List.mem_map.1 hp
    obtain ⟨hw, hsol⟩ := (List.forall₂_iff_zip.1 hall).2 hbb
    obtain ⟨hb1, hb2⟩ := List.of_mem_zip hbb
    obtain ⟨p, hp, hbp⟩ := List.mem_flatMap.1 hb2
    simp only [Prod.map_fst, Prod.map_snd, id]
    refine ⟨?_, hcap p hp b' hbp, fun hbi => hlow p hp b' hbp (by rw [hw]; exact hbi)⟩
    have hvel : ∀ r < C.place.g.n, ∀ (i : ℕ) (x u : Sylinder), (numbered C.place.g.n q.P r)[i]? = some x → (s'.sys.P r)[i]? = some u →
        U (gidAt (everyone C.place.g.n q.P) x.globalIndex) = u.vel ∧ W (gidAt (everyone C.place.g.n q.P) x.globalIndex) = u.omega := by
      intro r hrn i x u hx hu
      obtain ⟨rk, D, u', -, -, g3, g4, -⟩ := hmov r hrn i x hx
      rw [hu] at g3
      cases g3
      rw [gidAt_mem (mem_everyone.2 ⟨r, hrn, List.mem_of_getElem? hx⟩), ← g4]
      exact hU u (mem_all.2 ⟨r, hrn, List.mem_of_getElem? hu⟩)
    rw [← gap_owner hs h hq U W b hb1]
    have hgap : gapRate (fun g => U (gidAt (everyone C.place.g.n q.P) g)) (fun g => W (gidAt (everyone C.place.g.n q.P) g)) b = gapRate (velOf out) (omegaOf out) b := by
      obtain ⟨s1, -, s2⟩ := (hsh b hb1).1
      have key := fun (g : ℤ) h0 h1 => velocity_at hs h hq (U := fun g => U (gidAt (everyone C.place.g.n q.P) g)) (W := fun g => W (gidAt (everyone C.place.g.n q.P) g)) hvel g h0 h1
      unfold gapRate
      beta_reduce at key ⊢
      rw [(key _ s1.1 s1.2).1, (key _ s1.1 s1.2).2]
      cases ho : b.oneSide
      · obtain ⟨s3, -⟩ := s2 ho
        rw [(key _ s3.1 s3.2).1, (key _ s3.1 s3.2).2]
      · rfl
    rw [hgap]
    exact hsol
  · exact List.map_fst_zip (by rw [hm.1])

end

/-! ### two steps -/

theorem sum_two {α β : Type*} {R : α → β → Prop} {l : List α} {m : List β} (hl : List.Forall₂ R l m) (f : α → ℝ) (f' : β → ℝ) (g : α → ℝ) (g' : β → ℝ)
    (h : ∀ a b, a ∈ l → b ∈ m → R a b → f a - f' b ≤ g a + g' b) : (l.map f).sum - (m.map f').sum ≤ (l.map g).sum + (m.map g').sum := by
  induction hl with
  | nil => simp
  | cons hab hl ih =>
    simp only [List.map_cons, List.sum_cons]
    have := h _ _ List.mem_cons_self List.mem_cons_self hab
    have := ih fun a b ha hb => h a b (List.mem_cons_of_mem _ ha) (List.mem_cons_of_mem _ hb)
    linarith

theorem gapOf_forget (U W : ℤ → V3) (b : Block) : gapOf U W (forget b) = gapOf U W b := rfl

theorem gapOf_sub (U W U' W' : ℤ → V3) (b : Block) : gapOf (fun g => U g - U' g) (fun g => W g - W' g) b = gapOf U W b - gapOf U' W' b := by
  unfold gapOf
  cases b.oneSide <;> simp [V3.dot, V3.cross] <;> ring

/-- Two solutions of the same problem are close. -/
theorem two_meets {mu dt : ℝ} (hdt : 0 < dt) {small small' : ℝ} {E E' : List Sylinder} (hv : ∀ x ∈ E, Valid x) (hE : (E.map seen).Perm (E'.map seen)) {cs cs' : List (Block × ℝ)}
    (hcs : ((cs.map Prod.fst).map forget).Perm ((cs'.map Prod.fst).map forget)) {U W U' W' : ℤ → V3} {G V : ℤ → V3 × V3} {tol tol' : ℝ}
    (htol : 0 ≤ tol) (htol' : 0 ≤ tol')
    (m : ∀ x ∈ E, Moves mu x (G x.gid + (force cs x.globalIndex, torque cs x.globalIndex)) ((U x.gid, W x.gid) - V x.gid))
    (m' : ∀ x ∈ E', Moves mu x (G x.gid + (force cs' x.globalIndex, torque cs' x.globalIndex)) ((U' x.gid, W' x.gid) - V x.gid))
    (w : ∀ T S : ℤ → V3, (E.map fun x => power (force cs x.globalIndex, torque cs x.globalIndex) (T x.gid, S x.gid)).sum = (cs.map fun p => p.2 * gapOf T S p.1).sum)
    (w' : ∀ T S : ℤ → V3, (E'.map fun x => power (force cs' x.globalIndex, torque cs' x.globalIndex) (T x.gid, S x.gid)).sum = (cs'.map fun p => p.2 * gapOf T S p.1).sum)
    (c : ∀ p ∈ cs, Meets small dt tol p.1 (gapOf U W p.1) p.2) (c' : ∀ p ∈ cs', Meets small' dt tol' p.1 (gapOf U' W' p.1) p.2) :
    (∀ x ∈ E, x.isImmovable = true → U x.gid = U' x.gid ∧ W x.gid = W' x.gid) ∧
    dt * (E.map fun x => lag mu x (U x.gid - U' x.gid, W x.gid - W' x.gid)).sum ≤
      (cs.map fun p => loose dt tol tol' |small| p.1 (p.1.delta0 + dt * gapOf U W p.1) p.2).sum +
      (cs'.map fun p => loose dt tol' tol |small'| p.1 (p.1.delta0 + dt * gapOf U' W' p.1) p.2).sum := by
  obtain ⟨E'', hE1, hE2⟩ := align hE
  have hpair : ∀ a b, a ∈ E → b ∈ E'' → seen a = seen b → a.gid = b.gid ∧
      lag mu a (U a.gid - U' a.gid, W a.gid - W' a.gid) ≤ power (force cs a.globalIndex, torque cs a.globalIndex) (U a.gid - U' a.gid, W a.gid - W' a.gid) -
        power (force cs' b.globalIndex, torque cs' b.globalIndex) (U b.gid - U' b.gid, W b.gid - W' b.gid) ∧
      (a.isImmovable = true → U a.gid = U' a.gid ∧ W a.gid = W' a.gid) := by
    intro a b ha hb hab
    have hg : a.gid = b.gid := by have := congrArg (fun v : View => v.1.1) hab; exact this
    have h1 := m a ha
    have h2 := Moves.same hab (m' b (hE1.mem_iff.1 hb))
    obtain ⟨l1, l2⟩ := lag_le (hv a ha) h1 h2
    rw [← hg] at l1 l2 ⊢
    have e1 : (U a.gid, W a.gid) - V a.gid - ((U' a.gid, W' a.gid) - V a.gid) = (U a.gid - U' a.gid, W a.gid - W' a.gid) := by
      refine Prod.ext (V3.ext ?_ ?_ ?_) (V3.ext ?_ ?_ ?_) <;> simp
    rw [e1] at l1 l2
    refine ⟨rfl, l1.trans (le_of_eq ?_), fun hi => ?_⟩
    · unfold power
      simp [V3.dot]
      ring
    · have h3 := l2 hi
      simp only [Prod.mk.injEq] at h3
      have hz : ∀ a b : V3, a - b = 0 → a = b := by
        intro a b hab
        have hx := congrArg V3.x hab
        have hy := congrArg V3.y hab
        have hz := congrArg V3.z hab
        simp at hx hy hz
        exact V3.ext (by linarith) (by linarith) (by linarith)
      exact ⟨hz _ _ h3.1, hz _ _ h3.2⟩
  refine ⟨?_, ?_⟩
  · intro x hx
    obtain ⟨i, hi, rfl⟩ := List.getElem_of_mem hx
    obtain ⟨hl, hg⟩ := List.forall₂_iff_get.1 hE2
    exact (hpair _ _ hx (List.getElem_mem (by omega)) (hg i hi (by omega))).2.2
  · have s1 := sum_two hE2 (fun x => lag mu x (U x.gid - U' x.gid, W x.gid - W' x.gid)) (fun _ => 0)
      (fun x => power (force cs x.globalIndex, torque cs x.globalIndex) (U x.gid - U' x.gid, W x.gid - W' x.gid))
      (fun x => -power (force cs' x.globalIndex, torque cs' x.globalIndex) (U x.gid - U' x.gid, W x.gid - W' x.gid))
      (fun a b ha hb hab => by have := (hpair a b ha hb hab).2.1; linarith)
    have n0 : (E''.map fun x => -power (force cs' x.globalIndex, torque cs' x.globalIndex) (U x.gid - U' x.gid, W x.gid - W' x.gid)).sum =
        -(E'.map fun x => power (force cs' x.globalIndex, torque cs' x.globalIndex) (U x.gid - U' x.gid, W x.gid - W' x.gid)).sum := by
      rw [(hE1.map _).sum_eq]
      rw [List.sum_neg, List.map_map]
      rfl
    rw [n0, w (fun g => U g - U' g) (fun g => W g - W' g), w' (fun g => U g - U' g) (fun g => W g - W' g)] at s1
    simp only [List.map_const', List.sum_replicate, smul_zero, sub_zero] at s1
    rw [List.map_map, List.map_map] at hcs
    obtain ⟨ds, hd1, hd2⟩ := align hcs
    have s2 := sum_two hd2 (fun p => dt * (p.2 * gapOf (fun g => U g - U' g) (fun g => W g - W' g) p.1)) (fun p => dt * (p.2 * gapOf (fun g => U g - U' g) (fun g => W g - W' g) p.1))
      (fun p => loose dt tol tol' |small| p.1 (p.1.delta0 + dt * gapOf U W p.1) p.2)
      (fun p => loose dt tol' tol |small'| p.1 (p.1.delta0 + dt * gapOf U' W' p.1) p.2)
      (fun a b ha hb hab => by
        have hab' : forget a.1 = forget b.1 := hab
        have key := monotone small small' dt tol tol' hdt htol htol' a.1 b.1 hab' _ _ _ _ (c a ha) (c' b (hd1.mem_iff.1 hb))
        have e1 : gapOf U W b.1 = gapOf U W a.1 := by rw [← gapOf_forget, ← hab', gapOf_forget]
        have e2 : gapOf U' W' a.1 = gapOf U' W' b.1 := by rw [← gapOf_forget, hab', gapOf_forget]
        rw [gapOf_sub, gapOf_sub, e1, e2]
        linarith)
    rw [(hd1.map _).sum_eq, (hd1.map _).sum_eq, List.sum_map_mul_left, List.sum_map_mul_left] at s2
    nlinarith

/-- `two_meets` for what the solvers leave. -/
theorem two {mu dt : ℝ} (hdt : 0 < dt) {fl fl' : ℝ → ℝ} {E E' : List Sylinder} (hv : ∀ x ∈ E, Valid x) (hE : (E.map seen).Perm (E'.map seen)) {cs cs' : List (Block × ℝ)}
    (hcs : ((cs.map Prod.fst).map forget).Perm ((cs'.map Prod.fst).map forget)) {U W U' W' : ℤ → V3} {G V : ℤ → V3 × V3} {res res' tol tol' : ℝ}
    (htol : 0 ≤ tol) (htol' : 0 ≤ tol') (hres : res ≤ tol) (hres' : res' ≤ tol')
    (m : ∀ x ∈ E, Moves mu x (G x.gid + (force cs x.globalIndex, torque cs x.globalIndex)) ((U x.gid, W x.gid) - V x.gid))
    (m' : ∀ x ∈ E', Moves mu x (G x.gid + (force cs' x.globalIndex, torque cs' x.globalIndex)) ((U' x.gid, W' x.gid) - V x.gid))
    (w : ∀ T S : ℤ → V3, (E.map fun x => power (force cs x.globalIndex, torque cs x.globalIndex) (T x.gid, S x.gid)).sum = (cs.map fun p => p.2 * gapOf T S p.1).sum)
    (w' : ∀ T S : ℤ → V3, (E'.map fun x => power (force cs' x.globalIndex, torque cs' x.globalIndex) (T x.gid, S x.gid)).sum = (cs'.map fun p => p.2 * gapOf T S p.1).sum)
    (c : ∀ p ∈ cs, Solves fl dt res p.1 (gapOf U W p.1) p.2 ∧ p.2 ≤ fl (BCQP.dblMax / 10 - BCQP.dblEps * 100) ∧
      (p.1.bilateral = true → fl (-(10 : ℝ) ^ 8 + BCQP.dblEps * 100) ≤ p.2))
    (c' : ∀ p ∈ cs', Solves fl' dt res' p.1 (gapOf U' W' p.1) p.2 ∧ p.2 ≤ fl' (BCQP.dblMax / 10 - BCQP.dblEps * 100) ∧
      (p.1.bilateral = true → fl' (-(10 : ℝ) ^ 8 + BCQP.dblEps * 100) ≤ p.2)) :
    (∀ x ∈ E, x.isImmovable = true → U x.gid = U' x.gid ∧ W x.gid = W' x.gid) ∧
    dt * (E.map fun x => lag mu x (U x.gid - U' x.gid, W x.gid - W' x.gid)).sum ≤
      (cs.map fun p => loose dt tol tol' |fl (BCQP.dblEps * 100)| p.1 (p.1.delta0 + dt * gapOf U W p.1) p.2).sum +
      (cs'.map fun p => loose dt tol' tol |fl' (BCQP.dblEps * 100)| p.1 (p.1.delta0 + dt * gapOf U' W' p.1) p.2).sum :=
  two_meets hdt hv hE hcs htol htol' m m' w w' (fun p hp => Meets.of hdt hres (c p hp).1 (c p hp).2.1 (c p hp).2.2) (fun p hp => Meets.of hdt hres' (c' p hp).1 (c' p hp).2.1 (c' p hp).2.2)

end Verif.Layout
