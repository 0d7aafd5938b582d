import Verif.Spec.Units
import Verif.Lemmas.Alike
/-! Lemmas for C117. -/
namespace Verif.Units
open Near Collector RunStep Mobility Sim Spec.Resume Spec.Momentum Spec.Layout Spec.Mobility Spec.Motion Layout Spec.Units Spec.Collector

/-! ### constraints -/

theorem contact_kappa (I J : EP) (b : Block) (h : recorded I J = some b) : b.kappa = 0 := by
  have hst : ∀ (a : Block) (S : Collector.Mat3), (a.setStress S).kappa = a.kappa := fun _ _ => rfl
  have hc : ∀ sep I J P Q, (contact sep I J P Q).kappa = 0 := fun _ _ _ _ _ => rfl
  have hrev : ∀ a : Block, a.reverseIJ.kappa = a.kappa := fun _ => rfl
  have hsp : ∀ I J rev, sp_sy I J rev = some (some b) → b.kappa = 0 := by
    intro I J rev hx
    unfold sp_sy at hx
    dsimp only at hx
    cases rev
    all_goals
      split_ifs at hx
      all_goals
        first
        | cases hx; done
        | simp only [Option.bind_eq_bind, Option.bind_eq_some_iff, Option.some.injEq] at hx
          obtain ⟨S, -, rfl⟩ := hx
          first | rw [hst, hrev, hc] | rw [hst, hc]
        | simp_all
  unfold recorded at h
  cases hx : collide I J with
  | none => rw [hx] at h; cases h
  | some x =>
    rw [hx] at h
    replace h : x = some b := h
    subst h
    unfold collide at hx
    split_ifs at hx
    · unfold sp_sp at hx
      dsimp only at hx
      split_ifs at hx
      · simp only [Option.bind_eq_bind, Option.bind_eq_some_iff, Option.some.injEq] at hx
        obtain ⟨S, -, rfl⟩ := hx
        rw [hst, hc]
      · cases hx
    · exact hsp _ _ _ hx
    · exact hsp _ _ _ hx
    · unfold sy_sy at hx
      simp only [Option.bind_eq_some_iff] at hx
      obtain ⟨q, -, hx⟩ := hx
      split_ifs at hx
      · simp only [Option.bind_eq_bind, Option.bind_eq_some_iff, Option.some.injEq] at hx
        obtain ⟨S, -, rfl⟩ := hx
        rw [hst, hc]
      · cases hx

open BoundaryCol in
theorem wall_kappa (b : Bound) (colBuf : ℝ) (sy : Sylinder) : ∀ blk ∈ (bodyBlocks b colBuf sy).getD [], blk.kappa = 0 := by
  have hend : ∀ query radius l, checkEnd b colBuf sy query radius = some l → ∀ blk ∈ l, blk.kappa = 0 := by
    intro query radius l h blk hb
    unfold checkEnd at h
    split at h
    · cases h; cases hb
    · dsimp only at h
      split_ifs at h
      · cases h
        rw [List.mem_singleton] at hb
        subst hb
        rfl
      · cases h
        rw [List.mem_singleton] at hb
        subst hb
        rfl
      · cases h; cases hb
  cases h : bodyBlocks b colBuf sy with
  | none => intro blk hb; cases hb
  | some l =>
    intro blk hb
    replace hb : blk ∈ l := hb
    unfold bodyBlocks at h
    split_ifs at h
    · exact hend _ _ _ h _ hb
    · simp only [Option.bind_eq_some_iff, Option.some.injEq] at h
      obtain ⟨l1, h1, l2, h2, rfl⟩ := h
      rcases List.mem_append.1 hb with hb | hb
      · exact hend _ _ _ h1 blk hb
      · exact hend _ _ _ h2 blk hb

theorem stiff_zero {φ : ℝ} {b : Block} (h : b.kappa = 0) : stiff φ b = b := by
  unfold stiff
  rw [h, mul_zero, ← h]

theorem block_stiff {cfg cfg' : Links.Cfg} {φ : ℝ} (hg : cfg'.linkGap = cfg.linkGap) (hk : cfg'.linkKappa = φ * cfg.linkKappa) (x : Sylinder) (e : EP) (c : V3) :
    Links.block cfg' x e c = (Links.block cfg x e c).map (stiff φ) := by
  unfold Links.block
  dsimp only
  rw [hg, hk, Option.map_map]
  rfl

theorem link_stiff {cfg cfg' : Links.Cfg} {φ : ℝ} (hg : cfg'.linkGap = cfg.linkGap) (hk : cfg'.linkKappa = φ * cfg.linkKappa) (hp : cfg'.pbc = cfg.pbc) (hl : cfg'.low = cfg.low)
    (hh : cfg'.high = cfg.high) {c : Place.Cfg} {V : List View} (k : View × ℤ) (b : Block) (h : LinkOf cfg c V k b) : LinkOf cfg' c V k (stiff φ b) := by
  obtain ⟨x, e, b', h1, h2, ⟨ctr, hi, hb⟩, rfl⟩ := h
  refine ⟨x, e, stiff φ b', h1, h2, ⟨ctr, ?_, ?_⟩, rfl⟩
  · unfold Links.Image at hi ⊢
    rw [hp, hl, hh]
    exact hi
  · rw [block_stiff hg hk, hb]
    rfl

/-! ### motion -/

theorem drag_units {c : ℝ} (x : Sylinder) (mu : ℝ) : x.calcDragCoeff Pi (c * mu) = (x.calcDragCoeff Pi mu).map fun d => (c * d.1, c * d.2.1, c * d.2.2) := by
  unfold Sylinder.calcDragCoeff
  dsimp only
  split_ifs
  · simp only [Option.map_some, Option.some.injEq, Prod.mk.injEq]
    refine ⟨?_, ?_, ?_⟩ <;> ring
  · rfl
  · rfl
  · simp only [Option.map_some, Option.some.injEq, Prod.mk.injEq]
    refine ⟨?_, ?_, ?_⟩ <;> ring

theorem moves_units {φ τ mu : ℝ} (hφ : 0 < φ) (hτ : 0 < τ) {x : Sylinder} {F U : V3 × V3} (h : Moves (φ * τ * mu) x F U) : Moves mu x (multiple φ⁻¹ F) (multiple τ U) := by
  have hc : 0 < φ * τ := mul_pos hφ hτ
  rcases h with ⟨h1, rfl⟩ | ⟨h1, p, e, r, h2, hp, he, hr, rfl⟩
  · left
    refine ⟨h1, ?_⟩
    unfold multiple
    refine Prod.ext (V3.ext ?_ ?_ ?_) (V3.ext ?_ ?_ ?_) <;> simp
  · right
    rw [drag_units] at h2
    obtain ⟨⟨p', e', r'⟩, h3, h4⟩ := Option.map_eq_some_iff.1 h2
    simp only [Prod.mk.injEq] at h4
    obtain ⟨rfl, rfl, rfl⟩ := h4
    refine ⟨h1, p', e', r', h3, (mul_pos_iff_of_pos_left hc).1 hp, (mul_pos_iff_of_pos_left hc).1 he, (mul_pos_iff_of_pos_left hc).1 hr, ?_⟩
    unfold drag multiple
    have hd : V3.dot x.direction (τ • U.1) = τ * V3.dot x.direction U.1 := by simp [V3.dot]; ring
    refine Prod.ext (V3.ext ?_ ?_ ?_) (V3.ext ?_ ?_ ?_) <;> simp only [hd] <;> simp <;> field_simp

theorem force_units {φ : ℝ} (cs : List (Block × ℝ)) (g : ℤ) :
    (force (cs.map fun p => (stiff φ p.1, φ * p.2)) g, torque (cs.map fun p => (stiff φ p.1, φ * p.2)) g) = multiple φ (force cs g, torque cs g) := by
  unfold force torque multiple
  rw [List.map_map, List.map_map, ← Momentum.vsum_smul, ← Momentum.vsum_smul]
  have hs : ∀ (c d : ℝ) (v : V3), (c * d) • v = c • d • v := fun c d v => by ext <;> simp [mul_assoc]
  refine Prod.ext (congrArg vsum (List.map_congr_left fun p _ => ?_)) (congrArg vsum (List.map_congr_left fun p _ => ?_))
  · exact hs _ _ _
  · exact hs _ _ _

/-! ### solutions -/

theorem gapOf_times (c : ℝ) (U W : ℤ → V3) (b : Block) : gapOf (fun g => c • U g) (fun g => c • W g) b = c * gapOf U W b := by
  unfold gapOf
  cases b.oneSide <;> simp [V3.dot, V3.cross] <;> ring

theorem gapOf_stiff (φ : ℝ) (U W : ℤ → V3) (b : Block) : gapOf U W (stiff φ b) = gapOf U W b := rfl

theorem meets_units {c τ small dt tol : ℝ} (hc : 0 < c) {b : Block} {rate g : ℝ} (h : Meets small (τ * dt) tol b rate g) :
    Meets (c * small) dt (τ * tol) (stiff c b) (τ * rate) (c * g) := by
  have e1 : dt * (τ * rate) = τ * dt * rate := by ring
  have e2 : dt * (τ * tol) = τ * dt * tol := by ring
  refine ⟨fun hb => ?_, fun hb hk => ?_, fun hb hk => ?_⟩
  · obtain ⟨h1, h2, h3⟩ := h.uni hb
    rw [e1, e2]
    exact ⟨mul_nonneg hc.le h1, h2, fun hs => h3 (le_of_mul_le_mul_left hs hc)⟩
  · rw [e1, e2]
    have hk' : 0 < b.kappa := (mul_pos_iff_of_pos_left hc).1 hk
    have := h.bi hb hk'
    show |b.delta0 + τ * dt * rate + c * g / (c * b.kappa)| ≤ _
    rwa [mul_div_mul_left _ _ hc.ne']
  · rw [e1, e2]
    exact h.rigid hb fun hk' => hk (mul_pos hc hk')

theorem loose_units {c τ small dt tol tol' : ℝ} (hc : 0 < c) (hτ : 0 < τ) (b : Block) (δ g : ℝ) :
    loose dt (τ * tol) tol' (c * small) (stiff c b) δ (c * g) = c * loose (τ * dt) tol (tol' / τ) small b δ g := by
  unfold loose
  have hk : 0 < (stiff c b).kappa ↔ 0 < b.kappa := ⟨fun h => (mul_pos_iff_of_pos_left hc).1 h, fun h => mul_pos hc h⟩
  by_cases h : b.bilateral = true ∧ 0 < b.kappa
  · rw [if_pos h, if_pos (show (stiff c b).bilateral = true ∧ _ from ⟨h.1, hk.2 h.2⟩)]
    show c * b.kappa / 2 * _ = _
    ring
  · rw [if_neg h, if_neg fun h' => h ⟨h'.1, hk.1 h'.2⟩, abs_mul, abs_of_pos hc]
    field_simp

/-- Two solutions of the same problem in different units are close. -/
theorem two_units {φ τ mu dt : ℝ} (hφ : 0 < φ) (hτ : 0 < τ) (hdt : 0 < dt) {small small' : ℝ} {E E' : List Sylinder} (hv : ∀ x ∈ E, Valid x) (hE : (E.map seen).Perm (E'.map seen)) {cs cs' : List (Block × ℝ)}
    (hcs : ((cs.map Prod.fst).map fun b => forget (stiff φ b)).Perm ((cs'.map Prod.fst).map forget)) {U W U' W' : ℤ → V3} {G V : ℤ → V3 × V3} {tol tol' : ℝ}
    (htol : 0 ≤ tol) (htol' : 0 ≤ tol')
    (m : ∀ x ∈ E, Moves mu x (G x.gid + (force cs x.globalIndex, torque cs x.globalIndex)) ((U x.gid, W x.gid) - V x.gid))
    (m' : ∀ x ∈ E', Moves (φ * τ * mu) x (multiple φ (G x.gid) + (force cs' x.globalIndex, torque cs' x.globalIndex)) ((U' x.gid, W' x.gid) - multiple τ⁻¹ (V x.gid)))
    (w : ∀ T S : ℤ → V3, (E.map fun x => power (force cs x.globalIndex, torque cs x.globalIndex) (T x.gid, S x.gid)).sum = (cs.map fun p => p.2 * gapOf T S p.1).sum)
    (w' : ∀ T S : ℤ → V3, (E'.map fun x => power (force cs' x.globalIndex, torque cs' x.globalIndex) (T x.gid, S x.gid)).sum = (cs'.map fun p => p.2 * gapOf T S p.1).sum)
    (c : ∀ p ∈ cs, Meets small dt tol p.1 (gapOf U W p.1) p.2) (c' : ∀ p ∈ cs', Meets small' (τ * dt) tol' p.1 (gapOf U' W' p.1) p.2) :
    (∀ x ∈ E, x.isImmovable = true → U x.gid = τ • U' x.gid ∧ W x.gid = τ • W' x.gid) ∧
    dt * (E.map fun x => lag mu x (U x.gid - τ • U' x.gid, W x.gid - τ • W' x.gid)).sum ≤
      (cs.map fun p => loose dt tol (τ * tol') |small| p.1 (p.1.delta0 + dt * gapOf U W p.1) p.2).sum +
      φ⁻¹ * (cs'.map fun p => loose (τ * dt) tol' (tol / τ) |small'| p.1 (p.1.delta0 + τ * dt * gapOf U' W' p.1) p.2).sum := by
  have hφ' : 0 < φ⁻¹ := inv_pos.2 hφ
  have hback : ∀ b, stiff φ⁻¹ (stiff φ b) = b := by
    intro b
    unfold stiff
    simp only [← mul_assoc, inv_mul_cancel₀ hφ.ne', one_mul]
  have key := two_meets (mu := mu) (dt := dt) (small := small) (small' := φ⁻¹ * small') (tol := tol) (tol' := τ * tol') hdt (E := E) (E' := E')
    (cs := cs) (cs' := cs'.map fun p => (stiff φ⁻¹ p.1, φ⁻¹ * p.2)) (U := U) (W := W) (U' := fun g => τ • U' g) (W' := fun g => τ • W' g) (G := G) (V := V) hv hE ?_ htol
    (mul_nonneg hτ.le htol') m ?_ w ?_ c ?_
  · obtain ⟨k1, k2⟩ := key
    refine ⟨k1, k2.trans (le_of_eq ?_)⟩
    congr 1
    rw [List.map_map, ← List.sum_map_mul_left]
    congr 1
    refine List.map_congr_left fun p hp => ?_
    show loose dt (τ * tol') tol |φ⁻¹ * small'| (stiff φ⁻¹ p.1) (p.1.delta0 + dt * gapOf (fun g => τ • U' g) (fun g => τ • W' g) p.1) (φ⁻¹ * p.2) = _
    rw [abs_mul, abs_of_pos hφ', loose_units hφ' hτ, gapOf_times]
    congr 3
    ring
  · have := hcs.map (stiff φ⁻¹)
    simp only [List.map_map] at this ⊢
    refine List.Perm.trans (List.Perm.of_eq (List.map_congr_left fun p hp => ?_)) this
    show forget p.1 = stiff φ⁻¹ (forget (stiff φ p.1))
    rw [show stiff φ⁻¹ (forget (stiff φ p.1)) = forget (stiff φ⁻¹ (stiff φ p.1)) from rfl, hback]
  · intro x hx
    have h1 := moves_units hφ hτ (m' x hx)
    rw [force_units]
    have e1 : multiple φ⁻¹ (multiple φ (G x.gid) + (force cs' x.globalIndex, torque cs' x.globalIndex)) = G x.gid + multiple φ⁻¹ (force cs' x.globalIndex, torque cs' x.globalIndex) := by
      unfold multiple
      refine Prod.ext (V3.ext ?_ ?_ ?_) (V3.ext ?_ ?_ ?_) <;> simp <;> field_simp
    have e2 : multiple τ ((U' x.gid, W' x.gid) - multiple τ⁻¹ (V x.gid)) = (τ • U' x.gid, τ • W' x.gid) - V x.gid := by
      unfold multiple
      refine Prod.ext (V3.ext ?_ ?_ ?_) (V3.ext ?_ ?_ ?_) <;> simp <;> field_simp
    rw [e1, e2] at h1
    exact h1
  · intro T S
    rw [List.map_map]
    have h1 := congrArg (fun a => φ⁻¹ * a) (w' T S)
    beta_reduce at h1
    rw [← List.sum_map_mul_left, ← List.sum_map_mul_left] at h1
    refine Eq.trans ?_ (h1.trans ?_)
    · congr 1
      refine List.map_congr_left fun x _ => ?_
      rw [force_units]
      unfold power multiple
      simp [V3.dot]
      ring
    · congr 1
      refine List.map_congr_left fun p _ => ?_
      show φ⁻¹ * (p.2 * gapOf T S p.1) = φ⁻¹ * p.2 * gapOf T S p.1
      ring
  · intro p hp
    obtain ⟨p', hp', rfl⟩ := List.mem_map.1 hp
    have := meets_units hφ' (c' p' hp')
    show Meets (φ⁻¹ * small') dt (τ * tol') (stiff φ⁻¹ p'.1) (gapOf (fun g => τ • U' g) (fun g => τ • W' g) p'.1) (φ⁻¹ * p'.2)
    rw [gapOf_times]
    exact this

end Verif.Units
