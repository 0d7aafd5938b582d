import Verif.Lemmas.Motion
import Verif.Lemmas.Separate
import Verif.Spec.Dilute
/-! Lemmas on steps in which the constraints do not influence each other (C109). -/
namespace Verif.Dilute
open RunStep Motion Mobility Spec.Mobility ConOp BCQP Collector Spec.Collector Spec.Motion Spec.Dilute Verif.V3

/-! ### One body -/

theorem drag_mobFun (p e r : ℝ) (hp : p ≠ 0) (he : e ≠ 0) (hr : r ≠ 0) (d : V3) (hd : dot d d = 1) (v : V3 × V3) :
    mobFun (1 / p) (1 / e) (1 / r) d (drag p e r d v) = v := by
  have h1 : dot d (drag p e r d v).1 = p * dot d v.1 := by
    have : dot d (drag p e r d v).1 = p * dot d v.1 * dot d d + e * (dot d v.1 - dot d v.1 * dot d d) := by
      simp only [drag, V3.dot, add_x, add_y, add_z, sub_x, sub_y, sub_z, smul_x, smul_y, smul_z]; ring
    rw [this, hd]; ring
  unfold mobFun
  rw [h1]
  unfold drag
  refine Prod.ext (V3.ext ?_ ?_ ?_) (V3.ext ?_ ?_ ?_) <;> simp <;> field_simp <;> ring

/-- The velocity of a body is proportional to what pushes it. -/
theorem scaled {mu : ℝ} {b : Sylinder} (hv : Valid b) (c : ℝ) {F U y : V3 × V3} (h : MobOf mu b (c • F.1, c • F.2) y) (h' : Moves mu b F U) :
    y = (c • U.1, c • U.2) := by
  rcases h with ⟨h1, rfl⟩ | ⟨h1, p, e, r, h2, h3, h4, h5, rfl⟩
  · rcases h' with ⟨-, rfl⟩ | ⟨h, -⟩
    · refine Prod.ext (V3.ext ?_ ?_ ?_) (V3.ext ?_ ?_ ?_) <;> simp
    · rw [h1] at h; cases h
  · rcases h' with ⟨h, -⟩ | ⟨-, p', e', r', k2, -, -, -, rfl⟩
    · rw [h1] at h; cases h
    · rw [h2] at k2
      simp only [Option.some.injEq, Prod.mk.injEq] at k2
      obtain ⟨rfl, rfl, rfl⟩ := k2
      have hU := drag_mobFun p e r h3.ne' h4.ne' h5.ne' _ (direction_unit b hv.unit) U
      conv_rhs => rw [← hU]
      unfold mobFun
      refine Prod.ext (V3.ext ?_ ?_ ?_) (V3.ext ?_ ?_ ?_) <;> simp [V3.dot] <;> ring

/-- An immovable body does not move. -/
theorem fixed_zero {mu : ℝ} {b : Sylinder} (hb : b.isImmovable = true) {F U : V3 × V3} (h : Moves mu b F U) : U = (0, 0) := by
  rcases h with ⟨-, h⟩ | ⟨h, -⟩
  · exact h
  · rw [hb] at h; cases h

theorem mobOf_fixed {mu : ℝ} {b : Sylinder} (hb : b.isImmovable = true) {F U : V3 × V3} (h : MobOf mu b F U) : U = (0, 0) := by
  rcases h with ⟨-, h⟩ | ⟨h, -⟩
  · exact h
  · rw [hb] at h; cases h

/-! ### Forces of separate constraints -/

theorem vsum_all_zero : ∀ l : List V3, (∀ a ∈ l, a = 0) → vsum l = 0
  | [], _ => rfl
  | a :: l, h => by
    show a + vsum l = 0
    rw [h a (by simp), vsum_all_zero l fun x hx => h x (by simp [hx])]
    ext <;> simp

theorem vsum_single : ∀ (l : List V3) (i : ℕ) (v : V3), l[i]? = some v → (∀ (j : ℕ) (a : V3), l[j]? = some a → j ≠ i → a = 0) → vsum l = v
  | [], i, v, h, _ => by simp at h
  | a :: l, 0, v, h, h0 => by
    simp only [List.getElem?_cons_zero, Option.some.injEq] at h
    subst h
    show a + vsum l = a
    rw [vsum_all_zero l (by
      intro x hx
      obtain ⟨j, hj⟩ := List.mem_iff_getElem?.1 hx
      exact h0 (j + 1) x (by simpa using hj) (by omega))]
    ext <;> simp
  | a :: l, i + 1, v, h, h0 => by
    simp only [List.getElem?_cons_succ] at h
    show a + vsum l = v
    rw [h0 0 a rfl (by omega), vsum_single l i v h (fun j x hj hn => h0 (j + 1) x (by simpa using hj) (by omega))]
    ext <;> simp

theorem unitForce_zero {b : Block} {g : ℤ} (h : ¬ Touches b g) : unitForce b g = 0 ∧ unitTorque b g = 0 := by
  unfold Touches at h
  push Not at h
  unfold unitForce unitTorque
  have h2 : ¬ (b.oneSide = false ∧ b.globalIndexJ = g) := fun k => h.2 k.1 k.2
  rw [if_neg h.1, if_neg h2, if_neg h.1, if_neg h2]
  constructor <;> ext <;> simp

/-- The force and torque on a body that only constraint `i` pushes. -/
theorem only (blocks : List Block) (gam : List ℝ) (g : ℤ) (i : ℕ) (b : Block) (c : ℝ) (hb : blocks[i]? = some b) (hc : gam[i]? = some c)
    (h : ∀ (j : ℕ) (b' : Block), blocks[j]? = some b' → j ≠ i → ¬ Touches b' g) :
    force (blocks.zip gam) g = c • unitForce b g ∧ torque (blocks.zip gam) g = c • unitTorque b g := by
  have hz : (blocks.zip gam)[i]? = some (b, c) := List.getElem?_zip_eq_some.2 ⟨hb, hc⟩
  have key : ∀ (j : ℕ) (p : Block × ℝ), (blocks.zip gam)[j]? = some p → j ≠ i → unitForce p.1 g = 0 ∧ unitTorque p.1 g = 0 := by
    intro j p hp hj
    have := (List.getElem?_zip_eq_some (z := p)).1 hp
    exact unitForce_zero (h j p.1 this.1 hj)
  constructor
  · refine vsum_single _ i _ (by rw [List.getElem?_map, hz]; rfl) fun j a ha hj => ?_
    rw [List.getElem?_map] at ha
    obtain ⟨p, hp, rfl⟩ := Option.map_eq_some_iff.1 ha
    rw [(key j p hp hj).1]
    ext <;> simp
  · refine vsum_single _ i _ (by rw [List.getElem?_map, hz]; rfl) fun j a ha hj => ?_
    rw [List.getElem?_map] at ha
    obtain ⟨p, hp, rfl⟩ := Option.map_eq_some_iff.1 ha
    rw [(key j p hp hj).2]
    ext <;> simp

/-! ### The operator -/

theorem gapRate_scaled (U W U' W' : ℤ → V3) (c : ℝ) (b : Block) (hI : U b.globalIndexI = c • U' b.globalIndexI ∧ W b.globalIndexI = c • W' b.globalIndexI)
    (hJ : b.oneSide = false → U b.globalIndexJ = c • U' b.globalIndexJ ∧ W b.globalIndexJ = c • W' b.globalIndexJ) :
    gapRate U W b = c * gapRate U' W' b := by
  unfold gapRate
  rw [hI.1, hI.2]
  cases ho : b.oneSide with
  | true =>
    simp only [if_true]
    simp [V3.dot, cross]
    ring
  | false =>
    rw [(hJ ho).1, (hJ ho).2]
    simp only [Bool.false_eq_true, if_false]
    simp [V3.dot, cross]
    ring

/-- The velocity of a body of constraint `i`. -/
theorem body_velocity (mu : ℝ) (bodies : List Sylinder) (blocks : List Block) (gam : List ℝ) {k : ℕ} (F : Vec k) (hD : Dilute bodies blocks)
    (i : ℕ) (b : Block) (c : ℝ) (hb : blocks[i]? = some b) (hc : gam[i]? = some c) (n : ℕ) (s : Sylinder) (hs : bodies[n]? = some s) (hg : s.globalIndex = n)
    (hval : Valid s) (hk : 6 * n + 6 ≤ k) (hFj : ∀ j : Fin k, F j = applyTransposed (blocks.map blockEntries) gam ((j : ℕ) : ℤ)) (u w : V3)
    (hmo : MobOf mu s (at6 (List.ofFn F) n) (u, w)) (U' W' : ℤ → V3) (hmv : Moves mu s (unitForce b n, unitTorque b n) (U' n, W' n)) (ht : Touches b n) :
    u = c • U' n ∧ w = c • W' n := by
  cases him : s.isImmovable with
  | true =>
    have e1 := fixed_zero him hmv
    have e2 := mobOf_fixed him hmo
    rw [(Prod.mk.inj e1).1, (Prod.mk.inj e1).2, (Prod.mk.inj e2).1, (Prod.mk.inj e2).2]
    constructor <;> ext <;> simp
  | false =>
    obtain ⟨o1, o2⟩ := only blocks gam (n : ℤ) i b c hb hc (by
      intro j b' hb' hj ht'
      have := hD i j b b' hb hb' (fun h => hj h.symm) s (List.mem_of_getElem? hs) him
      rw [hg] at this
      exact this ⟨ht, ht'⟩)
    have hat : at6 (List.ofFn F) n = (c • unitForce b n, c • unitTorque b n) := by
      rw [← o1, ← o2]
      apply pair_comp
      intro t6
      have hlt : 6 * n + (t6 : ℕ) < k := by have := t6.2; omega
      rw [← ofFn_at6 F n t6 ⟨6 * n + t6, hlt⟩ rfl, hFj, ← blocks_trans]
      simp
    rw [hat] at hmo
    have := scaled (F := (unitForce b (n : ℤ), unitTorque b (n : ℤ))) (U := (U' n, W' n)) hval c hmo hmv
    exact ⟨(Prod.mk.inj this).1, (Prod.mk.inj this).2⟩

/-- The operator of the solver is diagonal when no movable body is pushed by two constraints. -/
theorem operator_diagonal (mu dt : ℝ) (bodies : List Sylinder) (hval : ∀ b ∈ bodies, Valid b) (hidx : ∀ (g : ℕ) (s : Sylinder), bodies[g]? = some s → s.globalIndex = g)
    (blocks : List Block) (ms : List Csr) (sizes : List ℕ) (vnc : List ℝ) (hk : vnc.length = 6 * bodies.length)
    (hmob : ∀ (F : Vec vnc.length) (g : ℕ) (b : Sylinder), bodies[g]? = some b →
      MobOf mu b (at6 (List.ofFn F) g) (at6 (List.ofFn (mobVec ms sizes vnc.length F)) g))
    (hrange : ∀ b ∈ blocks, (0 ≤ b.globalIndexI ∧ b.globalIndexI < bodies.length) ∧ (b.oneSide = false → 0 ≤ b.globalIndexJ ∧ b.globalIndexJ < bodies.length))
    (hD : Dilute bodies blocks) (lam : Fin (blocks.map blockEntries).length → ℝ)
    (hlam : ∀ (i : Fin (blocks.map blockEntries).length) (b : Block), blocks[(i : ℕ)]? = some b → Response mu dt bodies b (lam i))
    (x : Vec (blocks.map blockEntries).length) :
    ((problemOf blocks ms sizes vnc dt).op.applyCol x 0 1 0).1 = (Matrix.diagonal lam).mulVec x := by
  refine funext fun (i : Fin (blocks.map blockEntries).length) => ?_
  have hi : (i : ℕ) < blocks.length := by simpa using i.2
  obtain ⟨b, hb⟩ : ∃ b, blocks[(i : ℕ)]? = some b := ⟨_, List.getElem?_eq_getElem hi⟩
  have hbm := List.mem_of_getElem? hb
  obtain ⟨U', W', hm, hl⟩ := hlam i b hb
  -- force and velocity of the application
  obtain ⟨F, hF⟩ : ∃ F : Vec vnc.length, F = fun j : Fin vnc.length => ∑ l : Fin (blocks.map blockEntries).length, denseRow ((blocks.map blockEntries).get l) ((j : ℕ) : ℤ) * x l := ⟨_, rfl⟩
  have hFj : ∀ j : Fin vnc.length, F j = applyTransposed (blocks.map blockEntries) (List.ofFn x) ((j : ℕ) : ℤ) := by
    intro j
    rw [hF]
    exact denseRow_trans (blocks.map blockEntries) x _
  obtain ⟨v, hv⟩ : ∃ v, v = mobVec ms sizes vnc.length F := ⟨_, rfl⟩
  have happ : ((problemOf blocks ms sizes vnc dt).op.applyCol x 0 1 0).1 i =
      (1 * (∑ j : Fin vnc.length, denseRow ((blocks.map blockEntries).get i) ((j : ℕ) : ℤ) * v j) + 0 * 0) +
        1 * ((1 / dt) * ((blocks.map vecEntry).get (Fin.cast (by simp) i)).invKappa) * x i := by
    have hcrs : crsApply (problemOf blocks ms sizes vnc dt).op.D x 0 1 0 = F := by
      funext j
      show 1 * (∑ l, denseRow ((blocks.map blockEntries).get l) ((j : ℕ) : ℤ) * x l) + 0 * 0 = F j
      rw [hF]
      ring
    show (1 * (∑ j : Fin vnc.length, denseRow ((blocks.map blockEntries).get i) ((j : ℕ) : ℤ) * mobVec ms sizes vnc.length (crsApply (problemOf blocks ms sizes vnc dt).op.D x 0 1 0) j) + 0 * 0) + _ = _
    rw [hcrs, hv]
    rfl
  refine happ.trans ?_
  rw [Matrix.mulVec_diagonal, hl]
  -- velocities of the bodies
  obtain ⟨U, hU⟩ : ∃ U : ℤ → V3, U = fun g => (at6 (List.ofFn v) g.toNat).1 := ⟨_, rfl⟩
  obtain ⟨W, hW⟩ : ∃ W : ℤ → V3, W = fun g => (at6 (List.ofFn v) g.toNat).2 := ⟨_, rfl⟩
  have hX : ∀ j : Fin vnc.length, v j = velVec U W ((j : ℕ) : ℤ) := by
    intro j
    obtain ⟨t6, g, ht6⟩ : ∃ (t6 : Fin 6) (g : ℕ), (j : ℕ) = 6 * g + t6 := ⟨⟨(j : ℕ) % 6, by omega⟩, (j : ℕ) / 6, by simp only; omega⟩
    rw [ofFn_at6 v g t6 j ht6, ht6, show (((6 * g + (t6 : ℕ) : ℕ) : ℕ) : ℤ) = 6 * (g : ℤ) + (t6 : ℕ) by push_cast; rfl, velVec_at, hU, hW]
    simp
  have hcolb : ∀ e ∈ blockEntries b, 0 ≤ e.1 ∧ e.1 < (vnc.length : ℤ) := by
    obtain ⟨h1, h2⟩ := hrange b hbm
    rw [hk]; push_cast
    exact blockEntries_cols b _ h1 h2
  have hrow : (blocks.map blockEntries).get i = blockEntries b := by
    have := (List.getElem?_eq_some_iff.1 hb).2
    simp [this]
  have hent : (blocks.map vecEntry).get (Fin.cast (by simp) i) = vecEntry b := by
    have := (List.getElem?_eq_some_iff.1 hb).2
    simp [this]
  rw [hrow, hent, denseRow_apply v (velVec U W) hX (blockEntries b) hcolb, block_apply _ U W (velVec_is U W)]
  -- the bodies of the constraint
  have hbody : ∀ g : ℤ, 0 ≤ g → g < bodies.length → Touches b g → U g = x i • U' g ∧ W g = x i • W' g := by
    intro g h0 h1 ht
    obtain ⟨n, rfl⟩ := Int.eq_ofNat_of_zero_le h0
    have hn : n < bodies.length := by exact_mod_cast h1
    obtain ⟨s, hs⟩ : ∃ s, bodies[n]? = some s := ⟨_, List.getElem?_eq_getElem hn⟩
    have hUW : at6 (List.ofFn v) n = (U (n : ℤ), W (n : ℤ)) := by rw [hU, hW]; simp
    have hmo := hmob F n s hs
    rw [← hv, hUW] at hmo
    have hx : (List.ofFn x)[(i : ℕ)]? = some (x i) := List.getElem?_ofFn.trans (dif_pos i.2)
    have hmv := hm s (List.mem_of_getElem? hs)
    rw [hidx n s hs] at hmv
    refine body_velocity mu bodies blocks (List.ofFn x) F hD i b (x i) hb hx n s hs (hidx n s hs) (hval s (List.mem_of_getElem? hs)) ?_ hFj _ _ hmo U' W' hmv ht
    rw [hk]; omega
  obtain ⟨r1, r2⟩ := hrange b hbm
  rw [gapRate_scaled U W U' W' (x i) b (hbody _ r1.1 r1.2 (.inl rfl)) (fun ho => hbody _ (r2 ho).1 (r2 ho).2 (.inr ⟨ho, rfl⟩))]
  have hy : 1 / dt * (vecEntry b).invKappa = yield dt b := by
    unfold vecEntry yield
    cases b.bilateral with
    | false => simp
    | true =>
      simp only [if_true, true_and]
      split
      · ring
      · simp
  rw [one_mul, hy]
  ring

/-- The mobility of the bodies of all ranks, body by body. -/
theorem mob_bodies (cfg : Cfg) (hmu : 0 < cfg.viscosity) (ranks : List RankIn) (pre : List (Csr × List ℝ × List Sylinder))
    (hP : List.Forall₂ (Pre cfg) ranks pre) (hok : ∀ r ∈ ranks, RankOk cfg r) (k : ℕ) (hk : k = (pre.map fun p => p.2.1.length).sum)
    (F : Vec k) (g : ℕ) (b : Sylinder) (hb : ((ranks.flatMap RankIn.bodies).map Prod.snd)[g]? = some b) :
    MobOf cfg.viscosity b (at6 (List.ofFn F) g) (at6 (List.ofFn (mobVec (pre.map Prod.fst) (pre.map fun p => p.2.1.length) k F)) g) := by
  have hsz := pre_sizes cfg ranks pre hP
  have hfit := pre_fits cfg hmu ranks pre hP hok
  obtain ⟨ns, hns⟩ : ∃ ns, ns = ranks.map fun r => r.bodies.length := ⟨_, rfl⟩
  obtain ⟨sizes, hsizes⟩ : ∃ sizes, sizes = pre.map fun p => p.2.1.length := ⟨_, rfl⟩
  rw [← hsizes] at hsz hfit hk ⊢
  rw [← hns] at hsz
  have hglt : g < (ranks.map RankIn.bodies).flatten.length := by
    have := (List.getElem?_eq_some_iff.1 hb).1
    rwa [List.length_map, List.flatMap_def] at this
  obtain ⟨r, i, q, hq, hi, hpos⟩ := flatten_pos (ranks.map RankIn.bodies) g hglt
  rw [List.getElem?_map, Option.map_eq_some_iff] at hq
  obtain ⟨rk, hr, rfl⟩ := hq
  have hpos' : (ns.take r).sum + i = g := by
    rw [← hpos, List.map_take, List.map_map, hns]; rfl
  have hget : (ranks.flatMap RankIn.bodies)[g]? = some rk.bodies[i] := by
    have := flatten_getElem? (ranks.map RankIn.bodies) r i rk.bodies rk.bodies[i] (by rw [List.getElem?_map, hr]; rfl) (List.getElem?_eq_getElem hi)
    rw [List.flatMap_def, ← hpos]
    exact this
  rw [List.getElem?_map, hget] at hb
  have hb : (rk.bodies[i]).2 = b := Option.some.inj hb
  have hok' := hok rk (List.mem_of_getElem? hr)
  obtain ⟨p, hp, hP1, hP2, hP3⟩ := forall₂_at hP r rk hr
  have hnr : ns[r]? = some rk.bodies.length := by rw [hns, List.getElem?_map, hr]; rfl
  have hsr : sizes[r]? = some (6 * rk.bodies.length) := by rw [hsz, List.getElem?_map, hnr]; rfl
  have hflat : ∀ f : Vec k, ∀ l, (parts sizes (List.ofFn f))[r]? = some l → at6 (List.ofFn f) ((ns.take r).sum + i) = at6 l i := by
    intro f l hl
    have hfl : sizes.sum = (List.ofFn f).length := by rw [List.length_ofFn, hk]
    have := at6_flatten (parts sizes (List.ofFn f)) ns (by rw [parts_sizes _ _ hfl, hsz]) r i l _ hl hnr hi
    rwa [(parts_forall₂ sizes _ hfl).2] at this
  obtain ⟨lF, hlF, hlFl⟩ := parts_at sizes (List.ofFn F) (by rw [List.length_ofFn, hk]) r _ hsr
  obtain ⟨lV, hap, hlV⟩ := mobAll_at _ sizes hfit _ _ (by rw [List.length_ofFn, hk]) (mobVec_list _ sizes hfit _ hk F) r p.1 lF
    (by rw [List.getElem?_map, hp]; rfl) hlF
  have hmob := mob_at cfg.viscosity hmu (rk.bodies.map Prod.snd) (by
    intro x hx
    obtain ⟨y, hy, rfl⟩ := List.mem_map.1 hx
    exact hok'.valid y hy) p.1 hP2 lF lV (by rw [hlFl, List.length_map]) hap i b (by rw [List.getElem?_map, List.getElem?_eq_getElem hi, ← hb]; rfl)
  rw [← hpos', hflat _ _ hlF, hflat _ _ hlV]
  exact hmob

/-- The velocity without constraints, as the solver gets it. -/
theorem velocity (cfg : Cfg) (hmu : 0 < cfg.viscosity) (hdt : 0 < cfg.dt) (ranks : List RankIn) (hok : ∀ r ∈ ranks, RankOk cfg r)
    (pre : List (Csr × List ℝ × List Sylinder)) (hP : List.Forall₂ (Pre cfg) ranks pre)
    (hidx : ∀ (g : ℕ) (W : Draws) (s : Sylinder), (ranks.flatMap RankIn.bodies)[g]? = some (W, s) → s.globalIndex = g) (U W : ℤ → V3)
    (hUW : ∀ r ∈ ranks, ∀ so, runStep cfg r.force r.velPart (noConstraints r.bodies.length) r.bodies = some so →
      ∀ (i : ℕ) (D : Draws) (s : Sylinder), r.bodies[i]? = some (D, s) → at6 so.velNonCon i = (U s.globalIndex, W s.globalIndex))
    (j : Fin (pre.map fun p => p.2.1).flatten.length) : (pre.map fun p => p.2.1).flatten.get j = velVec U W ((j : ℕ) : ℤ) := by
  have hsz := pre_sizes cfg ranks pre hP
  obtain ⟨ns, hns⟩ : ∃ ns, ns = ranks.map fun r => r.bodies.length := ⟨_, rfl⟩
  obtain ⟨sizes, hsizes⟩ : ∃ sizes, sizes = pre.map fun p => p.2.1.length := ⟨_, rfl⟩
  rw [← hsizes] at hsz
  rw [← hns] at hsz
  have hk : (pre.map fun p => p.2.1).flatten.length = sizes.sum := by rw [hsizes, List.length_flatten, List.map_map]; rfl
  have hj : (j : ℕ) < 6 * ns.sum := by
    have h1 := j.2
    have h2 : sizes.sum = 6 * ns.sum := by rw [hsz, List.sum_map_mul_left, List.map_id']
    omega
  obtain ⟨r, i, q, hq, hi, hpos⟩ := flatten_pos (ranks.map RankIn.bodies) ((j : ℕ) / 6) (by
    have : (ranks.map RankIn.bodies).flatten.length = ns.sum := by rw [List.length_flatten, List.map_map, hns]; rfl
    omega)
  rw [List.getElem?_map, Option.map_eq_some_iff] at hq
  obtain ⟨rk, hr, rfl⟩ := hq
  have hpos : (ns.take r).sum + i = (j : ℕ) / 6 := by
    rw [← hpos, List.map_take, List.map_map, hns]; rfl
  obtain ⟨p, hp, hP1⟩ := forall₂_at hP r rk hr
  obtain ⟨so, hso⟩ := afterSolve_ex cfg hmu hdt rk (hok rk (List.mem_of_getElem? hr)) p.1 p.2.1 p.2.2 hP1.1
    ⟨flat6 (List.replicate rk.bodies.length (0, 0)), flat6 (List.replicate rk.bodies.length (0, 0)), flat6 (List.replicate rk.bodies.length (0, 0)),
      flat6 (List.replicate rk.bodies.length (0, 0))⟩ (by simp [flat6_length]) (by simp [flat6_length]) (by simp [flat6_length]) (by simp [flat6_length])
  have hrun : runStep cfg rk.force rk.velPart (noConstraints rk.bodies.length) rk.bodies = some so := by
    have := runStep_before cfg rk.force rk.velPart ⟨flat6 (List.replicate rk.bodies.length (0, 0)), flat6 (List.replicate rk.bodies.length (0, 0)),
      flat6 (List.replicate rk.bodies.length (0, 0)), flat6 (List.replicate rk.bodies.length (0, 0))⟩ rk.bodies p.1 p.2.1 p.2.2 hP1.1
    rw [hso] at this
    exact this
  have hvn : so.velNonCon = p.2.1 := by
    unfold afterSolve at hso
    simp only [Option.map_eq_some_iff] at hso
    obtain ⟨-, -, rfl⟩ := hso
    rfl
  have hat := hUW rk (List.mem_of_getElem? hr) so hrun i _ _ (List.getElem?_eq_getElem hi)
  rw [hvn] at hat
  have hg : (ranks.flatMap RankIn.bodies)[(ns.take r).sum + i]? = some rk.bodies[i] := by
    have := flatten_getElem? (ranks.map RankIn.bodies) r i rk.bodies rk.bodies[i] (by rw [List.getElem?_map, hr]; rfl) (List.getElem?_eq_getElem hi)
    rw [List.flatMap_def]
    rw [List.map_take, List.map_map] at this
    rw [hns]
    exact this
  have hgi := hidx _ _ _ hg
  have hv0 : at6 (pre.map fun p => p.2.1).flatten ((ns.take r).sum + i) = at6 p.2.1 i :=
    at6_flatten (pre.map fun p => p.2.1) ns (by rw [List.map_map, ← hsz, hsizes]; rfl) r i p.2.1 rk.bodies.length (by rw [List.getElem?_map, hp]; rfl)
      (by rw [hns, List.getElem?_map, hr]; rfl) hi
  obtain ⟨g, hgd⟩ : ∃ g, (ns.take r).sum + i = g := ⟨_, rfl⟩
  obtain ⟨t6, ht6⟩ : ∃ t6 : Fin 6, (j : ℕ) = 6 * g + t6 := ⟨⟨(j : ℕ) % 6, by omega⟩, by simp only; omega⟩
  rw [hgd] at hv0 hgi
  rw [hgi] at hat
  rw [get_at6 _ g t6 j ht6, ht6, show (((6 * g + (t6 : ℕ) : ℕ) : ℕ) : ℤ) = 6 * (g : ℤ) + (t6 : ℕ) by push_cast; rfl, velVec_at, hv0, hat]

/-- Every pool after a step is that of a rank. -/
theorem pools_length (cfg : Cfg) (c : Control) (fl : ℝ → ℝ) (fuel : ℕ) (ranks : List RankIn) (out : RunStep.Out) (h : runStepAll cfg c fl fuel ranks = some out) :
    out.pools.length ≤ ranks.length := by
  unfold runStepAll at h
  simp only [Option.bind_eq_bind, Option.bind_eq_some_iff] at h
  obtain ⟨pre, -, sys, -, h⟩ := h
  cases hs : sys.P.solveConstraints fl fuel c with
  | error e => rw [hs] at h; cases h
  | ok s =>
    rw [hs] at h
    simp only [Option.bind_eq_some_iff, Option.some.injEq] at h
    obtain ⟨pools, hpools, steps, -, rfl⟩ := h
    have := (mapM_forall₂ _ _ _ hpools).length_eq
    rw [List.length_zip] at this
    show pools.length ≤ _
    omega

end Verif.Dilute
