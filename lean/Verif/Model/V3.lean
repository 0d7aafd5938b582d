import Mathlib.Data.Real.Sqrt
import Mathlib.Tactic.Ring
import Mathlib.Tactic.Linarith
import Mathlib.Tactic.Positivity
import Mathlib.Tactic.FieldSimp
/-!
Three-component real vectors: the reference meaning of the fixed size Eigen vectors (`Evec3`) used throughout `/repo`
(`Util/EigenDef.hpp` lines 20-60).  Components are real numbers (exact arithmetic).
-/
namespace Verif

@[ext] structure V3 where
  x : ℝ
  y : ℝ
  z : ℝ

namespace V3

noncomputable instance : Add V3 := ⟨fun a b => ⟨a.x + b.x, a.y + b.y, a.z + b.z⟩⟩
noncomputable instance : Sub V3 := ⟨fun a b => ⟨a.x - b.x, a.y - b.y, a.z - b.z⟩⟩
noncomputable instance : Neg V3 := ⟨fun a => ⟨-a.x, -a.y, -a.z⟩⟩
instance : Zero V3 := ⟨⟨0, 0, 0⟩⟩
noncomputable instance : SMul ℝ V3 := ⟨fun c a => ⟨c * a.x, c * a.y, c * a.z⟩⟩

@[simp] theorem add_x (a b : V3) : (a + b).x = a.x + b.x := rfl
@[simp] theorem add_y (a b : V3) : (a + b).y = a.y + b.y := rfl
@[simp] theorem add_z (a b : V3) : (a + b).z = a.z + b.z := rfl
@[simp] theorem sub_x (a b : V3) : (a - b).x = a.x - b.x := rfl
@[simp] theorem sub_y (a b : V3) : (a - b).y = a.y - b.y := rfl
@[simp] theorem sub_z (a b : V3) : (a - b).z = a.z - b.z := rfl
@[simp] theorem neg_x (a : V3) : (-a).x = -a.x := rfl
@[simp] theorem neg_y (a : V3) : (-a).y = -a.y := rfl
@[simp] theorem neg_z (a : V3) : (-a).z = -a.z := rfl
@[simp] theorem zero_x : (0 : V3).x = 0 := rfl
@[simp] theorem zero_y : (0 : V3).y = 0 := rfl
@[simp] theorem zero_z : (0 : V3).z = 0 := rfl
@[simp] theorem smul_x (c : ℝ) (a : V3) : (c • a).x = c * a.x := rfl
@[simp] theorem smul_y (c : ℝ) (a : V3) : (c • a).y = c * a.y := rfl
@[simp] theorem smul_z (c : ℝ) (a : V3) : (c • a).z = c * a.z := rfl

/-- `a.dot(b)` -/
def dot (a b : V3) : ℝ := a.x * b.x + a.y * b.y + a.z * b.z

/-- `a.cross(b)` -/
def cross (a b : V3) : V3 := ⟨a.y * b.z - a.z * b.y, a.z * b.x - a.x * b.z, a.x * b.y - a.y * b.x⟩

/-- `a.squaredNorm()` -/
def normSq (a : V3) : ℝ := dot a a

/-- `a.norm()` -/
noncomputable def norm (a : V3) : ℝ := Real.sqrt (normSq a)

/-- `a.normalized()`; Eigen returns a vector of zero squared norm unchanged. -/
noncomputable def normalized (a : V3) : V3 := if 0 < normSq a then (1 / norm a) • a else a

@[simp] theorem cross_x (a b : V3) : (cross a b).x = a.y * b.z - a.z * b.y := rfl
@[simp] theorem cross_y (a b : V3) : (cross a b).y = a.z * b.x - a.x * b.z := rfl
@[simp] theorem cross_z (a b : V3) : (cross a b).z = a.x * b.y - a.y * b.x := rfl

theorem normSq_nonneg (a : V3) : 0 ≤ normSq a := by
  unfold normSq dot; nlinarith [sq_nonneg a.x, sq_nonneg a.y, sq_nonneg a.z]

theorem norm_nonneg (a : V3) : 0 ≤ norm a := Real.sqrt_nonneg _

theorem norm_sq (a : V3) : norm a ^ 2 = normSq a := Real.sq_sqrt (normSq_nonneg a)

theorem norm_mul_self (a : V3) : norm a * norm a = normSq a := Real.mul_self_sqrt (normSq_nonneg a)

theorem normSq_eq_zero (a : V3) : normSq a = 0 ↔ a = 0 := by
  constructor
  · intro h
    unfold normSq dot at h
    have hx : a.x = 0 := by nlinarith [sq_nonneg a.x, sq_nonneg a.y, sq_nonneg a.z]
    have hy : a.y = 0 := by nlinarith [sq_nonneg a.x, sq_nonneg a.y, sq_nonneg a.z]
    have hz : a.z = 0 := by nlinarith [sq_nonneg a.x, sq_nonneg a.y, sq_nonneg a.z]
    ext <;> simp [hx, hy, hz]
  · rintro rfl; simp [normSq, dot]

theorem norm_eq_zero (a : V3) : norm a = 0 ↔ a = 0 := by
  rw [norm, Real.sqrt_eq_zero (normSq_nonneg a), normSq_eq_zero]

theorem normSq_pos (a : V3) (h : a ≠ 0) : 0 < normSq a :=
  lt_of_le_of_ne (normSq_nonneg a) (fun h' => h ((normSq_eq_zero a).mp h'.symm))

theorem norm_pos (a : V3) (h : a ≠ 0) : 0 < norm a := Real.sqrt_pos.mpr (normSq_pos a h)

theorem norm_normalized (a : V3) (h : a ≠ 0) : norm (normalized a) = 1 := by
  have hp := norm_pos a h
  unfold normalized
  rw [if_pos (normSq_pos a h)]
  have : normSq ((1 / norm a) • a) = 1 := by
    have e : normSq ((1 / norm a) • a) = (1 / norm a) ^ 2 * normSq a := by
      simp only [normSq, dot, smul_x, smul_y, smul_z]; ring
    rw [e, ← norm_sq]
    field_simp
  rw [norm, this, Real.sqrt_one]

theorem norm_smul_normalized (a : V3) : norm a • normalized a = a := by
  by_cases h : a = 0
  · subst h
    have : norm 0 = 0 := (norm_eq_zero 0).mpr rfl
    rw [this]; ext <;> simp
  · have hp := norm_pos a h
    unfold normalized
    rw [if_pos (normSq_pos a h)]
    ext <;> simp <;> field_simp

theorem dot_comm (a b : V3) : dot a b = dot b a := by unfold dot; ring

/-- Cauchy-Schwarz. -/
theorem dot_sq_le (a b : V3) : dot a b ^ 2 ≤ normSq a * normSq b := by
  unfold normSq dot
  nlinarith [sq_nonneg (a.x * b.y - a.y * b.x), sq_nonneg (a.y * b.z - a.z * b.y), sq_nonneg (a.z * b.x - a.x * b.z)]

theorem dot_le_norm_mul (a b : V3) : dot a b ≤ norm a * norm b := by
  have h : dot a b ^ 2 ≤ (norm a * norm b) ^ 2 := by
    rw [mul_pow, norm_sq, norm_sq]; exact dot_sq_le a b
  exact le_trans (le_abs_self _) (abs_le_of_sq_le_sq h (mul_nonneg (norm_nonneg a) (norm_nonneg b)))

/-- Triangle inequality. -/
theorem norm_add_le (a b : V3) : norm (a + b) ≤ norm a + norm b := by
  have h : normSq (a + b) ≤ (norm a + norm b) ^ 2 := by
    have e : normSq (a + b) = normSq a + 2 * dot a b + normSq b := by
      simp only [normSq, dot, add_x, add_y, add_z]; ring
    rw [e, add_sq, norm_sq, norm_sq]
    nlinarith [dot_le_norm_mul a b]
  rw [norm]
  exact Real.sqrt_le_iff.mpr ⟨add_nonneg (norm_nonneg a) (norm_nonneg b), h⟩

theorem norm_smul (c : ℝ) (a : V3) : norm (c • a) = |c| * norm a := by
  have e : normSq (c • a) = c ^ 2 * normSq a := by
    simp only [normSq, dot, smul_x, smul_y, smul_z]; ring
  rw [norm, e, Real.sqrt_mul (sq_nonneg c), Real.sqrt_sq_eq_abs, norm]

theorem norm_neg (a : V3) : norm (-a) = norm a := by
  have e : normSq (-a) = normSq a := by
    simp only [normSq, dot, neg_x, neg_y, neg_z]; ring
  rw [norm, e, norm]

theorem norm_sub_comm (a b : V3) : norm (a - b) = norm (b - a) := by
  have e : normSq (a - b) = normSq (b - a) := by
    simp only [normSq, dot, sub_x, sub_y, sub_z]; ring
  rw [norm, e, norm]

theorem norm_sub_le (a b c : V3) : norm (a - c) ≤ norm (a - b) + norm (b - c) := by
  have e : a - c = (a - b) + (b - c) := by ext <;> simp
  rw [e]; exact norm_add_le _ _

end V3
end Verif
