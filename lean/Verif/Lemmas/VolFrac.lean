import Verif.Model.VolFrac
import Verif.Spec.VolFrac
import Verif.Lemmas.Volume
import Verif.Lemmas.NoCross
import Mathlib.Analysis.Real.Pi.Bounds

namespace Verif.VolFrac

open MeasureTheory Metric Set Spec

theorem body_eq (s : Sylinder) : body s = thickening s.radius (axis s) := by
  ext p
  simp [body, mem_thickening_iff]

theorem point_sub (a b : V3) : point a - point b = point (a - b) := by
  ext i
  fin_cases i <;> simp [point]

theorem norm_point (v : V3) : ‖point v‖ = V3.norm v := by
  rw [EuclideanSpace.norm_eq, Fin.sum_univ_three]
  simp [point, V3.norm, V3.normSq, V3.dot, sq]

theorem dist_point (a b : V3) : dist (point a) (point b) = V3.norm (a - b) := by
  rw [dist_eq_norm, point_sub, norm_point]

/-- The volume of a body. -/
noncomputable def trueVolume (s : Sylinder) : ℝ := Real.pi * s.radius ^ 2 * s.length + 4 / 3 * Real.pi * s.radius ^ 3

theorem axis_length (s : Sylinder) (h : Valid s) : dist (point (s.pos - (s.length / 2) • s.orientation.rot ⟨0, 0, 1⟩))
    (point (s.pos + (s.length / 2) • s.orientation.rot ⟨0, 0, 1⟩)) = s.length := by
  rw [dist_point]
  have h1 := NoCross.unit_direction s.orientation h.1
  have : s.pos - (s.length / 2) • s.orientation.rot ⟨0, 0, 1⟩ - (s.pos + (s.length / 2) • s.orientation.rot ⟨0, 0, 1⟩) = (-s.length) • s.orientation.rot ⟨0, 0, 1⟩ := by
    ext <;> simp <;> ring
  rw [this, V3.norm_smul, h1, abs_neg, abs_of_nonneg h.2.1, mul_one]

theorem volume_body (s : Sylinder) (h : Valid s) : volume (body s) = .ofReal (trueVolume s) := by
  rw [body_eq, axis, Volume.capsule_volume _ _ _ h.2.2, axis_length s h, trueVolume]

theorem trueVolume_nonneg (s : Sylinder) (h : Valid s) : 0 ≤ trueVolume s := by
  have := h.2.1
  have := h.2.2
  unfold trueVolume
  positivity

theorem bodyVolume_near (s : Sylinder) (h : Valid s) : |bodyVolume s - trueVolume s| ≤ 3 / 10 ^ 11 * trueVolume s := by
  have h1 := h.2.1
  have h2 := h.2.2
  have k : 0 ≤ s.length * s.radius ^ 2 + 4 / 3 * s.radius ^ 3 := by positivity
  have e1 : bodyVolume s = 3.1415926535 * (s.length * s.radius ^ 2 + 4 / 3 * s.radius ^ 3) := by unfold bodyVolume; ring
  have e2 : trueVolume s = Real.pi * (s.length * s.radius ^ 2 + 4 / 3 * s.radius ^ 3) := by unfold trueVolume; ring
  rw [e1, e2, ← sub_mul, abs_mul, abs_of_nonneg k, ← mul_assoc]
  refine mul_le_mul_of_nonneg_right ?_ k
  have p1 := Real.pi_gt_d20
  have p2 := Real.pi_lt_d20
  rw [abs_le]
  constructor <;> norm_num at p1 p2 ⊢ <;> linarith

theorem foldl_add (f : Sylinder → ℝ) (l : List Sylinder) (v : ℝ) : l.foldl (fun v s => v + f s) v = v + (l.map f).sum := by
  induction l generalizing v with
  | nil => simp
  | cons a l ih => simp [ih, add_assoc]

theorem volLocal_eq (threads : List (List Sylinder)) : volLocal threads = (threads.flatten.map bodyVolume).sum := by
  have : ∀ (l : List ℝ) (v : ℝ), l.foldl (fun v w => v + w) v = v + l.sum := by
    intro l
    induction l with
    | nil => simp
    | cons a l ih => intro v; simp [ih, add_assoc]
  unfold volLocal
  rw [this, zero_add]
  induction threads with
  | nil => rfl
  | cons t ts ih => rw [List.map_cons, List.sum_cons, ih, foldl_add, List.flatten_cons, List.map_append, List.sum_append, zero_add]

theorem volGlobal_eq (ranks : List (List (List Sylinder))) : volGlobal ranks = (ranks.flatten.flatten.map bodyVolume).sum := by
  unfold volGlobal
  induction ranks with
  | nil => rfl
  | cons t ts ih => simp [ih, volLocal_eq]

theorem taken_cons (s : Sylinder) (l : List Sylinder) : taken (s :: l) = body s ∪ taken l := by
  ext p
  simp [taken]

theorem measurable_body (s : Sylinder) : MeasurableSet (body s) := by
  rw [body_eq]
  exact isOpen_thickening.measurableSet

theorem measurable_taken (l : List Sylinder) : MeasurableSet (taken l) := by
  induction l with
  | nil => convert MeasurableSet.empty; ext p; simp [taken]
  | cons s l ih => rw [taken_cons]; exact (measurable_body s).union ih

theorem disjoint_bodies (s t : Sylinder) (h : Apart s t) : Disjoint (body s) (body t) := by
  rw [Set.disjoint_left]
  rintro p ⟨a, ha, h1⟩ ⟨b, hb, h2⟩
  have := h a ha b hb
  have h3 := dist_triangle a p b
  rw [dist_comm a p] at h3
  linarith

theorem volume_taken (l : List Sylinder) (hv : ∀ s ∈ l, Valid s) (h : l.Pairwise Apart) : volume (taken l) = .ofReal (l.map trueVolume).sum := by
  induction l with
  | nil =>
    have : taken [] = ∅ := by ext p; simp [taken]
    simp [this]
  | cons s l ih =>
    rw [List.pairwise_cons] at h
    rw [taken_cons, measure_union _ (measurable_taken l), ih (fun t ht => hv t (by simp [ht])) h.2, volume_body s (hv s (by simp)), List.map_cons, List.sum_cons,
      ENNReal.ofReal_add (trueVolume_nonneg s (hv s (by simp)))]
    · exact List.sum_nonneg fun x hx => by
        obtain ⟨t, ht, rfl⟩ := List.mem_map.1 hx
        exact trueVolume_nonneg t (hv t (by simp [ht]))
    · rw [Set.disjoint_left]
      rintro p h1 ⟨t, ht, h2⟩
      exact (Set.disjoint_left.1 (disjoint_bodies s t (h.1 t ht))) h1 h2

theorem volume_taken_le (l : List Sylinder) (hv : ∀ s ∈ l, Valid s) : volume (taken l) ≤ .ofReal (l.map trueVolume).sum := by
  induction l with
  | nil =>
    have : taken [] = ∅ := by ext p; simp [taken]
    simp [this]
  | cons s l ih =>
    rw [taken_cons, List.map_cons, List.sum_cons, ENNReal.ofReal_add (trueVolume_nonneg s (hv s (by simp)))]
    · refine (measure_union_le _ _).trans (add_le_add (volume_body s (hv s (by simp))).le (ih fun t ht => hv t (by simp [ht])))
    · exact List.sum_nonneg fun x hx => by
        obtain ⟨t, ht, rfl⟩ := List.mem_map.1 hx
        exact trueVolume_nonneg t (hv t (by simp [ht]))

theorem sum_near (l : List Sylinder) (hv : ∀ s ∈ l, Valid s) : |(l.map bodyVolume).sum - (l.map trueVolume).sum| ≤ 3 / 10 ^ 11 * (l.map trueVolume).sum := by
  induction l with
  | nil => simp
  | cons s l ih =>
    have h1 := ih fun t ht => hv t (by simp [ht])
    have h2 := bodyVolume_near s (hv s (by simp))
    simp only [List.map_cons, List.sum_cons]
    rw [abs_le] at *
    constructor <;> linarith

theorem sum_nonneg' (l : List Sylinder) (hv : ∀ s ∈ l, Valid s) : 0 ≤ (l.map trueVolume).sum :=
  List.sum_nonneg fun x hx => by
    obtain ⟨t, ht, rfl⟩ := List.mem_map.1 hx
    exact trueVolume_nonneg t (hv t ht)

theorem volume_box (low high : V3) (hx : low.x ≤ high.x) (hy : low.y ≤ high.y) (hz : low.z ≤ high.z) : volume (box low high) = .ofReal (boxVolume low high) := by
  have e : box low high = WithLp.ofLp ⁻¹' (Set.univ.pi fun i : Fin 3 => Icc ((![low.x, low.y, low.z] : Fin 3 → ℝ) i) ((![high.x, high.y, high.z] : Fin 3 → ℝ) i)) := by
    ext p
    rw [Set.mem_preimage, Set.mem_univ_pi, Fin.forall_fin_succ, Fin.forall_fin_succ, Fin.forall_fin_one]
    change _ ↔ (low.x ≤ p 0 ∧ p 0 ≤ high.x) ∧ (low.y ≤ p 1 ∧ p 1 ≤ high.y) ∧ (low.z ≤ p 2 ∧ p 2 ≤ high.z)
    simp only [box, Set.mem_setOf_eq]
    tauto
  rw [e, (PiLp.volume_preserving_ofLp (Fin 3)).measure_preimage (MeasurableSet.univ_pi fun i => measurableSet_Icc).nullMeasurableSet, volume_pi_pi, Fin.prod_univ_three]
  simp only [Real.volume_Icc]
  simp only [Matrix.cons_val_zero, Matrix.cons_val_one, Matrix.cons_val]
  rw [boxVolume, ENNReal.ofReal_mul (mul_nonneg (by linarith) (by linarith)), ENNReal.ofReal_mul (by linarith)]

end Verif.VolFrac
