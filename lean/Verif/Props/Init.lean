import Verif.Model.Init
import Verif.Lemmas.Orient
import Verif.Props.Equatn
import Verif.Lemmas.Mobility
import Verif.Props.Links
/-! Property C59: the initial configuration. -/
namespace Verif
open V3 Init

/-! ### directors -/

/-- What `JacobiSVD` has to give for the axis: a unit vector orthogonal to both rows. -/
def SvdAxis (svd : V3 → V3 → V3) : Prop := ∀ u v, norm u = 1 → norm v = 1 → norm (svd u v) = 1 ∧ dot (svd u v) u = 0 ∧ dot (svd u v) v = 0

theorem fromTwoVectors_near (svd : V3 → V3 → V3) (a b : V3) (ha : a ≠ 0) (hb : b ≠ 0) (hc : dot b.normalized a.normalized < -1 + Orient.dummyPrecision)
    (hax : norm (svd a.normalized b.normalized) = 1 ∧ dot (svd a.normalized b.normalized) a.normalized = 0) :
    Spec.UnitQuat (Orient.fromTwoVectors svd a b) ∧ dot ((Orient.fromTwoVectors svd a b).rot a.normalized) a.normalized = dot b.normalized a.normalized := by
  have ha1 : dot a.normalized a.normalized = 1 := normSq_one_of_norm _ (norm_normalized a ha)
  have hb1 : dot b.normalized b.normalized = 1 := normSq_one_of_norm _ (norm_normalized b hb)
  have hx1 := normSq_one_of_norm _ hax.1
  have hlow : -1 ≤ dot b.normalized a.normalized := by
    have : 0 ≤ dot (b.normalized + a.normalized) (b.normalized + a.normalized) := by
      simp only [dot]
      nlinarith [sq_nonneg (b.normalized + a.normalized).x, sq_nonneg (b.normalized + a.normalized).y, sq_nonneg (b.normalized + a.normalized).z]
    have e : dot (b.normalized + a.normalized) (b.normalized + a.normalized) = dot b.normalized b.normalized + 2 * dot b.normalized a.normalized + dot a.normalized a.normalized := by
      simp [dot]
      ring
    linarith
  have hd : Orient.dummyPrecision ≤ 1 := by norm_num [Orient.dummyPrecision]
  unfold Orient.fromTwoVectors
  simp only
  rw [if_pos hc, max_eq_left hlow]
  set u := a.normalized
  set c := dot b.normalized u
  set n := svd u b.normalized
  have hx1 : n.x * n.x + n.y * n.y + n.z * n.z = 1 := hx1
  have hw : Real.sqrt ((1 + c) * 0.5) ^ 2 = (1 + c) * 0.5 := Real.sq_sqrt (by linarith)
  have hv : Real.sqrt (1 - (1 + c) * 0.5) ^ 2 = 1 - (1 + c) * 0.5 := Real.sq_sqrt (by linarith)
  set w := Real.sqrt ((1 + c) * 0.5)
  set v := Real.sqrt (1 - (1 + c) * 0.5)
  have hunit : w ^ 2 + (v * n.x) ^ 2 + (v * n.y) ^ 2 + (v * n.z) ^ 2 = 1 := by
    linear_combination hw + hv + v ^ 2 * hx1
  refine ⟨?_, ?_⟩
  · simp only [Spec.UnitQuat, smul_x, smul_y, smul_z]
    exact hunit
  · rw [Orient.rot_orthogonal]
    · have ha1 : u.x * u.x + u.y * u.y + u.z * u.z = 1 := ha1
      simp only [dot, add_x, add_y, add_z, smul_x, smul_y, smul_z, cross, Quat.vec]
      linear_combination (w ^ 2 - ((v * n.x) ^ 2 + (v * n.y) ^ 2 + (v * n.z) ^ 2)) * ha1 + hw - hv - v ^ 2 * hx1
    · have := hax.2
      simp only [Quat.vec, dot, smul_x, smul_y, smul_z] at this ⊢
      linear_combination v * this
    · simp only [smul_x, smul_y, smul_z]
      exact hunit

theorem ez_unit : norm (⟨0, 0, 1⟩ : V3) = 1 := by
  have : normSq (⟨0, 0, 1⟩ : V3) = 1 := by simp [normSq, dot]
  rw [V3.norm, this, Real.sqrt_one]

/-- `d` is the direction of `p`, up to 3e-6 if `p` is within 1.5e-6, but not exactly, opposite to z. -/
def Along (d p : V3) : Prop :=
  norm d = 1 ∧ norm (d - p.normalized) ≤ 3 / 10 ^ 6 ∧ (-1 + 1 / 10 ^ 12 ≤ p.normalized.z ∨ p.normalized = ⟨0, 0, -1⟩ → d = p.normalized)

theorem rot_ez_unit (q : Quat) (h : Spec.UnitQuat q) : norm (q.rot ⟨0, 0, 1⟩) = 1 := by
  have h1 := Mobility.direction_unit (Sylinder.make 0 1 1 1 1 0 q) h
  have h2 : normSq (q.rot ⟨0, 0, 1⟩) = 1 := h1
  rw [V3.norm, h2, Real.sqrt_one]

theorem ez_ne_zero : (⟨0, 0, 1⟩ : V3) ≠ 0 := by
  intro h
  have := congrArg V3.z h
  simp at this

theorem ez_normalized : (⟨0, 0, 1⟩ : V3).normalized = ⟨0, 0, 1⟩ := by
  rw [normalized_eq _ ez_ne_zero, ez_unit]
  ext <;> simp

/-- A unit vector that is almost opposite to z is close to it. -/
theorem near_minus_ez (d : V3) (hd : norm d = 1) (hz : d.z ≤ -1 + 1 / 10 ^ 12) : norm (d - ⟨0, 0, -1⟩) ≤ 3 / 2 / 10 ^ 6 := by
  have h1 := normSq_one_of_norm d hd
  have h2 : normSq (d - ⟨0, 0, -1⟩) ≤ (3 / 2 / 10 ^ 6) ^ 2 := by
    simp only [dot] at h1
    simp only [normSq, dot, sub_x, sub_y, sub_z]
    nlinarith
  unfold V3.norm
  rw [Real.sqrt_le_left (by norm_num)]
  exact h2

theorem fromTwoVectors_along (svd : V3 → V3 → V3) (hs : SvdAxis svd) (p : V3) (hp : p ≠ 0) :
    Spec.UnitQuat (Orient.fromTwoVectors svd ⟨0, 0, 1⟩ p) ∧ Along ((Orient.fromTwoVectors svd ⟨0, 0, 1⟩ p).rot ⟨0, 0, 1⟩) p := by
  have hpn := norm_normalized p hp
  have hdot : dot p.normalized (⟨0, 0, 1⟩ : V3).normalized = p.normalized.z := by
    rw [ez_normalized]
    simp [dot]
  obtain ⟨hx1, hx2, -⟩ := hs (⟨0, 0, 1⟩ : V3).normalized p.normalized (by rw [ez_normalized, ez_unit]) hpn
  have hz0 : norm (0 : V3) = 0 := V3.norm_zero
  by_cases hc : -1 + Orient.dummyPrecision ≤ dot p.normalized (⟨0, 0, 1⟩ : V3).normalized
  · obtain ⟨h1, h2⟩ := Orient.fromTwoVectors_regular svd ⟨0, 0, 1⟩ p ez_ne_zero hp hc
    rw [ez_normalized] at h2
    refine ⟨h1, rot_ez_unit _ h1, ?_, fun _ => h2⟩
    rw [h2, (V3.sub_eq_zero _ _).2 rfl, hz0]
    positivity
  · push Not at hc
    obtain ⟨h1, h2⟩ := fromTwoVectors_near svd ⟨0, 0, 1⟩ p ez_ne_zero hp hc ⟨hx1, hx2⟩
    rw [hdot, ez_normalized] at h2
    rw [hdot] at hc
    have hn := rot_ez_unit _ h1
    set d := (Orient.fromTwoVectors svd ⟨0, 0, 1⟩ p).rot ⟨0, 0, 1⟩
    have hdz : d.z = p.normalized.z := by simpa [dot] using h2
    have hle : p.normalized.z ≤ -1 + 1 / 10 ^ 12 := hc.le
    refine ⟨h1, hn, ?_, ?_⟩
    · have e1 := near_minus_ez d hn (by rw [hdz]; exact hle)
      have e2 := near_minus_ez p.normalized hpn hle
      have := norm_sub_le d ⟨0, 0, -1⟩ p.normalized
      rw [norm_sub_comm ⟨0, 0, -1⟩] at this
      linarith
    · rintro (h | h)
      · exact absurd hc (not_lt.2 h)
      · have := (Orient.fromTwoVectors_opposite svd ⟨0, 0, 1⟩ p ez_ne_zero (by
          rw [h, ez_normalized]
          ext <;> simp) ⟨hx1, hx2⟩).2
        rw [ez_normalized] at this
        exact this

/-! ### C59 -/

/-- Component `k` is random. -/
def Random (cfg : Cfg) (k : Fin 3) : Prop := cfg.orient k < -1 ∨ 1 < cfg.orient k

/-- The draws of `getU01` are in `[0, 1)`. -/
structure InUnit (d : Draws) : Prop where
  pos : ∀ k, 0 ≤ d.pos k ∧ d.pos k < 1
  vec : ∀ k, 0 ≤ d.vec k ∧ d.vec k < 1
  quat : ∀ k, 0 ≤ d.quat k ∧ d.quat k < 1
  circle : ∀ k, 0 ≤ d.circle k ∧ d.circle k < 1

/-- What a body has to be. -/
structure Good (cfg : Cfg) (s : Sylinder) : Prop where
  box : ∀ k, cfg.boxLow k ≤ Near.comp s.pos k ∧ Near.comp s.pos k ≤ cfg.boxHigh k
  inside : cfg.circularX = false → ∀ k, cfg.boxLow k < cfg.boxHigh k → Near.comp s.pos k < cfg.boxHigh k
  circle : cfg.circularX = true → ∃ r, 2 * r = min (cfg.boxHigh 1 - cfg.boxLow 1) (cfg.boxHigh 2 - cfg.boxLow 2) ∧
    (s.pos.y - (cfg.boxLow 1 + cfg.boxHigh 1) / 2) ^ 2 + (s.pos.z - (cfg.boxLow 2 + cfg.boxHigh 2) / 2) ^ 2 ≤ r ^ 2
  random_length : 0 < cfg.lengthSigma → ∀ k, 2 * s.length < cfg.boxHigh k - cfg.boxLow k
  fixed_length : cfg.lengthSigma ≤ 0 → s.length = cfg.length
  collision : s.lengthCollision = s.length ∧ s.radiusCollision = s.radius ∧ 2 * s.radius = cfg.diameter
  random_director : (∀ k, Random cfg k) → Spec.UnitQuat s.orientation
  director : ¬ (∀ k, Random cfg k) → ∃ p : V3, (∀ k, ¬ Random cfg k → Near.comp p k = cfg.orient k) ∧ (∀ k, Random cfg k → -1 ≤ Near.comp p k ∧ Near.comp p k < 1) ∧
    (p ≠ 0 → Spec.UnitQuat s.orientation ∧ Along s.direction p)

theorem getOrient_spec (svd : V3 → V3 → V3) (hs : SvdAxis svd) (cfg : Cfg) (vec quat : Fin 3 → ℝ) (hv : ∀ k, 0 ≤ vec k ∧ vec k < 1) (hq : ∀ k, 0 ≤ quat k ∧ quat k < 1) :
    ((∀ k, Random cfg k) → Spec.UnitQuat (getOrient svd cfg.orient vec quat)) ∧
    (¬ (∀ k, Random cfg k) → ∃ p : V3, (∀ k, ¬ Random cfg k → Near.comp p k = cfg.orient k) ∧ (∀ k, Random cfg k → -1 ≤ Near.comp p k ∧ Near.comp p k < 1) ∧
      (p ≠ 0 → Spec.UnitQuat (getOrient svd cfg.orient vec quat) ∧ Along ((getOrient svd cfg.orient vec quat).rot ⟨0, 0, 1⟩) p)) := by
  have hfix : ∀ k, ¬ Random cfg k → component (cfg.orient k) (vec k) = cfg.orient k := by
    intro k hk
    unfold component
    exact if_neg hk
  have hran : ∀ k, Random cfg k → component (cfg.orient k) (vec k) = 2 * vec k - 1 := by
    intro k hk
    unfold component
    exact if_pos hk
  have hne : ∀ k, Random cfg k ↔ cfg.orient k ≠ component (cfg.orient k) (vec k) := by
    intro k
    constructor
    · intro hk h
      rw [hran k hk] at h
      have := hv k
      rcases hk with hk | hk <;> linarith
    · intro h
      by_contra hk
      exact h (hfix k hk).symm
  unfold getOrient
  simp only
  constructor
  · intro h
    rw [if_pos ⟨(hne 0).1 (h 0), (hne 1).1 (h 1), (hne 2).1 (h 2)⟩]
    exact C14_orientation _ _ _ (hq 0).1 (hq 0).2.le
  · intro h
    rw [if_neg (by
      rintro ⟨h0, h1, h2⟩
      apply h
      intro k
      rw [hne]
      fin_cases k
      · exact h0
      · exact h1
      · exact h2)]
    have hc : ∀ k, Near.comp ⟨component (cfg.orient 0) (vec 0), component (cfg.orient 1) (vec 1), component (cfg.orient 2) (vec 2)⟩ k = component (cfg.orient k) (vec k) := by
      intro k
      fin_cases k <;> simp [Near.comp]
    refine ⟨⟨component (cfg.orient 0) (vec 0), component (cfg.orient 1) (vec 1), component (cfg.orient 2) (vec 2)⟩, ?_, ?_, ?_⟩
    · intro k hk
      rw [hc, hfix k hk]
    · intro k hk
      rw [hc, hran k hk]
      have := hv k
      constructor <;> linarith
    · exact fromTwoVectors_along svd hs _

theorem half (x : ℝ) : x * 0.5 = x / 2 := by norm_num; ring

theorem body_good (svd : V3 → V3 → V3) (hs : SvdAxis svd) (cfg : Cfg) (hbox : ∀ k, cfg.boxLow k ≤ cfg.boxHigh k) (i : ℕ) (d : Draws) (hd : InUnit d) (colBuf length : ℝ)
    (hl : Length cfg d.ln length) : Good cfg (if cfg.circularX then circular cfg d (body svd cfg i d colBuf length) else body svd cfg i d colBuf length) := by
  have hpos : ∀ k, cfg.boxLow k ≤ d.pos k * boxEdge cfg k + cfg.boxLow k ∧ d.pos k * boxEdge cfg k + cfg.boxLow k ≤ cfg.boxHigh k ∧
      (cfg.boxLow k < cfg.boxHigh k → d.pos k * boxEdge cfg k + cfg.boxLow k < cfg.boxHigh k) := by
    intro k
    have h1 := hd.pos k
    have h2 := hbox k
    unfold boxEdge
    refine ⟨by nlinarith, by nlinarith, fun h => by nlinarith⟩
  have hlen : (0 < cfg.lengthSigma → ∀ k, 2 * length < cfg.boxHigh k - cfg.boxLow k) ∧ (cfg.lengthSigma ≤ 0 → length = cfg.length) := by
    unfold Length at hl
    constructor
    · intro h k
      rw [if_pos h] at hl
      obtain ⟨n, -, hn, rfl⟩ := hl
      push Not at hn
      unfold maxLength at hn
      rw [half] at hn
      have : min (min (boxEdge cfg 0) (boxEdge cfg 1)) (boxEdge cfg 2) ≤ boxEdge cfg k := by
        fin_cases k
        · exact (min_le_left _ _).trans (min_le_left _ _)
        · exact (min_le_left _ _).trans (min_le_right _ _)
        · exact min_le_right _ _
      unfold boxEdge at this hn
      linarith
    · intro h
      rwa [if_neg (not_lt.2 h)] at hl
  obtain ⟨ho1, ho2⟩ := getOrient_spec svd hs cfg d.vec d.quat hd.vec hd.quat
  cases hc : cfg.circularX with
  | false =>
    rw [if_neg (by simp)]
    have hcomp : ∀ k, Near.comp (body svd cfg i d colBuf length).pos k = d.pos k * boxEdge cfg k + cfg.boxLow k := by
      intro k
      fin_cases k <;> rfl
    refine ⟨?_, ?_, by simp [hc], hlen.1, hlen.2, ⟨rfl, rfl, ?_⟩, ho1, ho2⟩
    · intro k
      rw [hcomp]
      exact ⟨(hpos k).1, (hpos k).2.1⟩
    · intro _ k
      rw [hcomp]
      exact (hpos k).2.2
    · show 2 * (cfg.diameter / 2) = cfg.diameter
      ring
  | true =>
    rw [if_pos rfl]
    have h1 := C14_circle (0.5 * min (cfg.boxHigh 2 - cfg.boxLow 2) (cfg.boxHigh 1 - cfg.boxLow 1)) (d.circle 0) (d.circle 1) (hd.circle 1).1 (hd.circle 1).2.le
    set yz := Equatn.getRandPointInCircle (0.5 * min (cfg.boxHigh 2 - cfg.boxLow 2) (cfg.boxHigh 1 - cfg.boxLow 1)) (d.circle 0) (d.circle 1) with hyz
    set r := 0.5 * min (cfg.boxHigh 2 - cfg.boxLow 2) (cfg.boxHigh 1 - cfg.boxLow 1) with hr
    have hr2 : 2 * r = min (cfg.boxHigh 1 - cfg.boxLow 1) (cfg.boxHigh 2 - cfg.boxLow 2) := by
      rw [hr, min_comm]
      norm_num
      ring
    have hr0 : 0 ≤ r := by
      have : 0 ≤ min (cfg.boxHigh 1 - cfg.boxLow 1) (cfg.boxHigh 2 - cfg.boxLow 2) := le_min (by linarith [hbox 1]) (by linarith [hbox 2])
      linarith
    have hy : |yz.1| ≤ r := by
      apply abs_le_of_sq_le_sq _ hr0
      nlinarith [sq_nonneg yz.2]
    have hz : |yz.2| ≤ r := by
      apply abs_le_of_sq_le_sq _ hr0
      nlinarith [sq_nonneg yz.1]
    rw [abs_le] at hy hz
    have hm1 : 2 * r ≤ cfg.boxHigh 1 - cfg.boxLow 1 := hr2 ▸ min_le_left _ _
    have hm2 : 2 * r ≤ cfg.boxHigh 2 - cfg.boxLow 2 := hr2 ▸ min_le_right _ _
    have ey : (circular cfg d (body svd cfg i d colBuf length)).pos.y = yz.1 + ((cfg.boxHigh 1 - cfg.boxLow 1) * 0.5 + cfg.boxLow 1) := rfl
    have ez : (circular cfg d (body svd cfg i d colBuf length)).pos.z = yz.2 + ((cfg.boxHigh 2 - cfg.boxLow 2) * 0.5 + cfg.boxLow 2) := rfl
    have ex : (circular cfg d (body svd cfg i d colBuf length)).pos.x = d.pos 0 * boxEdge cfg 0 + cfg.boxLow 0 := rfl
    rw [half] at ey ez
    refine ⟨?_, by simp [hc], ?_, hlen.1, hlen.2, ⟨rfl, rfl, ?_⟩, ho1, ho2⟩
    · intro k
      fin_cases k
      · show cfg.boxLow 0 ≤ (circular cfg d (body svd cfg i d colBuf length)).pos.x ∧ (circular cfg d (body svd cfg i d colBuf length)).pos.x ≤ cfg.boxHigh 0
        rw [ex]
        exact ⟨(hpos 0).1, (hpos 0).2.1⟩
      · show cfg.boxLow 1 ≤ (circular cfg d (body svd cfg i d colBuf length)).pos.y ∧ (circular cfg d (body svd cfg i d colBuf length)).pos.y ≤ cfg.boxHigh 1
        rw [ey]
        constructor <;> linarith
      · show cfg.boxLow 2 ≤ (circular cfg d (body svd cfg i d colBuf length)).pos.z ∧ (circular cfg d (body svd cfg i d colBuf length)).pos.z ≤ cfg.boxHigh 2
        rw [ez]
        constructor <;> linarith
    · intro _
      refine ⟨r, hr2, ?_⟩
      rw [ey, ez]
      have e1 : yz.1 + ((cfg.boxHigh 1 - cfg.boxLow 1) / 2 + cfg.boxLow 1) - (cfg.boxLow 1 + cfg.boxHigh 1) / 2 = yz.1 := by ring
      have e2 : yz.2 + ((cfg.boxHigh 2 - cfg.boxLow 2) / 2 + cfg.boxLow 2) - (cfg.boxLow 2 + cfg.boxHigh 2) / 2 = yz.2 := by ring
      rw [e1, e2]
      exact h1
    · show 2 * (cfg.diameter / 2) = cfg.diameter
      ring

/-- The length of body `i` that the draws lead to. -/
theorem length_unique {cfg : Cfg} {ln : ℕ → ℝ} {a b : ℝ} (ha : Length cfg ln a) (hb : Length cfg ln b) : a = b := by
  unfold Length at ha hb
  split_ifs at ha hb
  · obtain ⟨n, h1, h2, rfl⟩ := ha
    obtain ⟨m, h3, h4, rfl⟩ := hb
    rcases lt_trichotomy n m with h | h | h
    · exact absurd (h3 n h) h2
    · rw [h]
    · exact absurd (h1 m h) h4
  · rw [ha, hb]

/-- **C59** (partial).  Let `getU01` give numbers in `[0, 1)`, let the box have `low ≤ high`, and let, if lengths are random, every body sooner or later get a length below the maximum.  Then the call ends, with exactly one result; ranks other than 0
have no bodies; on rank 0 the bodies have the ids 0, 1, ..., and are what they have to be (`Good`).

Missing: lengths that are not random can be above the maximum (`C59_length_false`); directors with all components zero (`C59_zero_false`). -/
theorem C59_init_partial (svd : V3 → V3 → V3) (hs : SvdAxis svd) (cfg : Cfg) (hbox : ∀ k, cfg.boxLow k ≤ cfg.boxHigh k) (rank : ℕ) (draws : ℕ → Draws) (hu : ∀ i, InUnit (draws i)) (colBuf : ℕ → ℝ)
    (hln : 0 < cfg.lengthSigma → ∀ i, ∃ n, (draws i).ln n < maxLength cfg) :
    ∃ bodies, SetInitialFromConfig svd cfg rank draws colBuf bodies ∧ (∀ b, SetInitialFromConfig svd cfg rank draws colBuf b → b = bodies) ∧
      (rank ≠ 0 → bodies = []) ∧
      (rank = 0 → bodies.map Sylinder.gid = (List.range cfg.number).map (fun i : ℕ => (i : ℤ)) ∧ ∀ s ∈ bodies, Good cfg s) := by
  have hex : ∀ i, ∃ l, Length cfg (draws i).ln l := by
    intro i
    unfold Length
    split_ifs with h
    · have hn := hln h i
      classical
      refine ⟨(draws i).ln (Nat.find hn), Nat.find hn, ?_, not_le.2 (Nat.find_spec hn), rfl⟩
      intro j hj
      exact not_lt.1 (Nat.find_min hn hj)
    · exact ⟨_, rfl⟩
  choose len hlen using hex
  let mk : ℕ → Sylinder := fun i => body svd cfg i (draws i) (colBuf i) (len i)
  let first : List Sylinder := if rank ≠ 0 then [] else (List.range cfg.number).map mk
  have hfirst : ∀ f : List Sylinder, (if rank ≠ 0 then f = []
      else List.Forall₂ (fun (i : ℕ) (s : Sylinder) => ∃ length, Length cfg (draws i).ln length ∧ s = body svd cfg i (draws i) (colBuf i) length) (List.range cfg.number) f) ↔ f = first := by
    intro f
    by_cases hr : rank ≠ 0
    · rw [if_pos hr]
      simp only [first, if_pos hr]
    · rw [if_neg hr]
      simp only [first, if_neg hr]
      constructor
      · intro h
        refine forall₂_det mk h ?_
        rintro i _ s ⟨l, hl, rfl⟩
        rw [length_unique hl (hlen i)]
      · rintro rfl
        rw [List.forall₂_map_right_iff, List.forall₂_same]
        intro i _
        exact ⟨len i, hlen i, rfl⟩
  refine ⟨if cfg.circularX then first.mapIdx (fun i s => circular cfg (draws i) s) else first, ⟨first, (hfirst first).2 rfl, rfl⟩, ?_, ?_, ?_⟩
  · rintro b ⟨f, hf, rfl⟩
    rw [(hfirst f).1 hf]
  · intro hr
    have : first = [] := if_pos hr
    rw [this]
    simp
  · intro hr
    have hf : first = (List.range cfg.number).map mk := if_neg (by simp [hr])
    have hb : (if cfg.circularX then first.mapIdx (fun i s => circular cfg (draws i) s) else first) =
        (List.range cfg.number).map fun i : ℕ => if cfg.circularX then circular cfg (draws i) (mk i) else mk i := by
      split_ifs with hc
      · rw [hf]
        apply List.ext_getElem
        · simp
        · intro i h1 h2
          simp
      · exact hf
    rw [hb]
    constructor
    · rw [List.map_map]
      apply List.map_congr_left
      intro i _
      simp only [Function.comp]
      split_ifs <;> rfl
    · intro s hsm
      obtain ⟨i, -, rfl⟩ := List.mem_map.1 hsm
      exact body_good svd hs cfg hbox i (draws i) (hu i) (colBuf i) (len i) (hlen i)

/-- **C59** is false for lengths that are not random: they are not compared with the maximum. -/
theorem C59_length_false (svd : V3 → V3 → V3) (draws : ℕ → Draws) (colBuf : ℕ → ℝ) : ∃ (cfg : Cfg) (s : Sylinder), (∀ k, cfg.boxLow k < cfg.boxHigh k) ∧
    SetInitialFromConfig svd cfg 0 draws colBuf [s] ∧ maxLength cfg < s.length := by
  let cfg : Cfg := ⟨fun _ => 0, fun _ => 1, 1, 5, -1, 1, fun _ => 2, false⟩
  have hl : Length cfg (draws 0).ln 5 := by
    unfold Length
    rw [if_neg (by norm_num [cfg])]
  refine ⟨cfg, body svd cfg 0 (draws 0) (colBuf 0) 5, by norm_num [cfg], ⟨[body svd cfg 0 (draws 0) (colBuf 0) 5], ?_, rfl⟩, ?_⟩
  · rw [if_neg (by simp)]
    exact List.Forall₂.cons ⟨5, hl, rfl⟩ List.Forall₂.nil
  · show maxLength cfg < 5
    norm_num [maxLength, boxEdge, cfg]

/-- **C59** is false for a configured direction of length zero: the orientation is a quaternion of norm `√(1/2)`. -/
theorem C59_zero_false (svd : V3 → V3 → V3) (draws : ℕ → Draws) (colBuf : ℕ → ℝ) : ∃ (cfg : Cfg) (s : Sylinder), (∀ k, cfg.boxLow k < cfg.boxHigh k) ∧ (∀ k, cfg.orient k = 0) ∧
    SetInitialFromConfig svd cfg 0 draws colBuf [s] ∧ ¬ Spec.UnitQuat s.orientation := by
  let cfg : Cfg := ⟨fun _ => 0, fun _ => 10, 1, 1, -1, 1, fun _ => 0, false⟩
  have hl : Length cfg (draws 0).ln 1 := by
    unfold Length
    rw [if_neg (by norm_num [cfg])]
  refine ⟨cfg, body svd cfg 0 (draws 0) (colBuf 0) 1, by norm_num [cfg], by simp [cfg], ⟨[body svd cfg 0 (draws 0) (colBuf 0) 1], ?_, rfl⟩, ?_⟩
  · rw [if_neg (by simp)]
    exact List.Forall₂.cons ⟨1, hl, rfl⟩ List.Forall₂.nil
  · have ho : (body svd cfg 0 (draws 0) (colBuf 0) 1).orientation = getOrient svd (fun _ => 0) (draws 0).vec (draws 0).quat := rfl
    have hq : getOrient svd (fun _ => 0) (draws 0).vec (draws 0).quat = ⟨Real.sqrt ((1 + 0) * 2) * 0.5, 0, 0, 0⟩ := by
      have hcomp : ∀ u, component 0 u = 0 := by
        intro u
        unfold component
        rw [if_neg (by norm_num)]
      unfold getOrient
      simp only [hcomp]
      rw [if_neg (by simp)]
      have h0 : (⟨0, 0, 0⟩ : V3).normalized = 0 := normalized_zero
      unfold Orient.fromTwoVectors
      simp only [h0]
      have hz : dot (0 : V3) (⟨0, 0, 1⟩ : V3).normalized = 0 := by simp [dot]
      rw [hz, if_neg (by norm_num [Orient.dummyPrecision])]
      simp [V3.cross]
    rw [ho, hq]
    simp only [Spec.UnitQuat]
    rw [mul_pow, Real.sq_sqrt (by norm_num)]
    norm_num

/-- If no draw is below the maximum (as for a box without extent, since lengths drawn are positive) the call does not end. -/
theorem C59_diverges (svd : V3 → V3 → V3) (cfg : Cfg) (hn : 0 < cfg.number) (hs : 0 < cfg.lengthSigma) (draws : ℕ → Draws) (colBuf : ℕ → ℝ) (hln : ∀ n, maxLength cfg ≤ (draws 0).ln n) :
    ¬ ∃ bodies, SetInitialFromConfig svd cfg 0 draws colBuf bodies := by
  rintro ⟨_, first, h, -⟩
  rw [if_neg (by simp)] at h
  obtain ⟨k, hk⟩ : ∃ k, cfg.number = k + 1 := ⟨cfg.number - 1, by omega⟩
  rw [hk, List.range_succ_eq_map] at h
  cases h with
  | cons h _ =>
    obtain ⟨l, hl, -⟩ := h
    unfold Length at hl
    rw [if_pos hs] at hl
    obtain ⟨n, -, h2, -⟩ := hl
    exact h2 (hln n)

/-- The axis of two vectors: there is one. -/
theorem svdAxis_exists : ∃ svd, SvdAxis svd := by
  have key : ∀ u v : V3, ∃ n : V3, norm u = 1 → norm v = 1 → norm n = 1 ∧ dot n u = 0 ∧ dot n v = 0 := by
    intro u v
    by_cases hc : cross u v = 0
    · -- any unit vector orthogonal to `u`, of which `v` is a multiple
      obtain ⟨m, hm, hm1⟩ : ∃ m : V3, m ≠ 0 ∧ dot m u = 0 := by
        by_cases hx : u.x = 0 ∧ u.y = 0
        · exact ⟨⟨1, 0, 0⟩, by intro h; have := congrArg V3.x h; simp at this, by simp [dot, hx.1]⟩
        · refine ⟨⟨-u.y, u.x, 0⟩, ?_, by simp [dot]; ring⟩
          intro h
          have h1 := congrArg V3.x h
          have h2 := congrArg V3.y h
          simp at h1 h2
          exact hx ⟨h2, h1⟩
      refine ⟨m.normalized, fun hu hv => ⟨norm_normalized m hm, ?_, ?_⟩⟩
      · rw [normalized_eq m hm]
        simp only [dot, smul_x, smul_y, smul_z] at hm1 ⊢
        linear_combination (1 / norm m) * hm1
      · have hv' : v = dot u v • u := by
          have h1 := congrArg V3.x hc
          have h2 := congrArg V3.y hc
          have h3 := congrArg V3.z hc
          have hu1 := normSq_one_of_norm u hu
          simp only [cross, zero_x, zero_y, zero_z, dot] at h1 h2 h3 hu1
          ext
          · simp only [dot, smul_x]
            linear_combination (-v.x) * hu1 - u.y * h3 + u.z * h2
          · simp only [dot, smul_y]
            linear_combination (-v.y) * hu1 + u.x * h3 - u.z * h1
          · simp only [dot, smul_z]
            linear_combination (-v.z) * hu1 - u.x * h2 + u.y * h1
        rw [hv', normalized_eq m hm]
        simp only [dot, smul_x, smul_y, smul_z] at hm1 ⊢
        linear_combination (1 / norm m) * (u.x * v.x + u.y * v.y + u.z * v.z) * hm1
    · refine ⟨(cross u v).normalized, fun _ _ => ⟨norm_normalized _ hc, ?_, ?_⟩⟩
      · rw [normalized_eq _ hc]
        simp only [dot, smul_x, smul_y, smul_z, cross]
        ring
      · rw [normalized_eq _ hc]
        simp only [dot, smul_x, smul_y, smul_z, cross]
        ring
  choose svd h using key
  exact ⟨svd, fun u v => h u v⟩

/-- Three bodies with random lengths in a box, in a circle, with directors that have no y component. -/
example : ∃ (svd : V3 → V3 → V3) (cfg : Cfg) (draws : ℕ → Draws), SvdAxis svd ∧ (∀ k, cfg.boxLow k ≤ cfg.boxHigh k) ∧ (∀ i, InUnit (draws i)) ∧
    (0 < cfg.lengthSigma → ∀ i, ∃ n, (draws i).ln n < maxLength cfg) ∧ cfg.number = 3 ∧ 0 < cfg.lengthSigma ∧ cfg.circularX = true ∧ ¬ Random cfg 1 ∧ Random cfg 0 := by
  obtain ⟨svd, h⟩ := svdAxis_exists
  refine ⟨svd, ⟨fun _ => 0, fun _ => 10, 3, 1, 1 / 2, 1, ![2, 0, 2], true⟩, fun _ => ⟨fun n => if n = 0 then 7 else 1, fun _ => 1 / 2, fun _ => 1 / 4, fun _ => 1 / 2, fun _ => 1 / 2⟩,
    h, by norm_num, fun i => ⟨by norm_num, by norm_num, by norm_num, by norm_num⟩, fun _ i => ⟨1, by norm_num [maxLength, boxEdge]⟩, rfl, by norm_num, rfl, ?_, ?_⟩
  · norm_num [Random]
  · norm_num [Random]

end Verif
