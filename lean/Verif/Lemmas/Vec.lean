import Mathlib.Tactic.Linarith
import Mathlib.Tactic.Ring
import Mathlib.Tactic.Positivity
import Mathlib.Tactic.FieldSimp
import Verif.Model.Vec

/-! # Lemmas on vectors -/

namespace Verif

namespace V2

theorem normSq_nonneg (u : V2) : 0 ≤ u.normSq := by
  simp only [normSq, dot]; nlinarith [mul_self_nonneg u.x, mul_self_nonneg u.y]

theorem normSq_eq_zero {u : V2} : u.normSq = 0 ↔ u = 0 := by
  constructor
  · intro h
    simp only [normSq, dot] at h
    ext
    · simp only [zero_x]; nlinarith [mul_self_nonneg u.x, mul_self_nonneg u.y]
    · simp only [zero_y]; nlinarith [mul_self_nonneg u.x, mul_self_nonneg u.y]
  · rintro rfl; simp [normSq, dot]

theorem norm_nonneg (u : V2) : 0 ≤ u.norm := Real.sqrt_nonneg _
theorem norm_sq (u : V2) : u.norm ^ 2 = u.normSq := Real.sq_sqrt u.normSq_nonneg
theorem norm_mul_self (u : V2) : u.norm * u.norm = u.normSq := Real.mul_self_sqrt u.normSq_nonneg
theorem norm_pos {u : V2} (h : 0 < u.normSq) : 0 < u.norm := Real.sqrt_pos.2 h
theorem norm_eq_zero {u : V2} : u.norm = 0 ↔ u = 0 := by
  rw [norm, Real.sqrt_eq_zero u.normSq_nonneg, normSq_eq_zero]

theorem cauchy (u v : V2) : (u.dot v) ^ 2 ≤ u.normSq * v.normSq := by
  simp only [normSq, dot]; nlinarith [sq_nonneg (u.x * v.y - u.y * v.x)]

theorem abs_dot_le (u v : V2) : |u.dot v| ≤ u.norm * v.norm := by
  refine abs_le_of_sq_le_sq ?_ (mul_nonneg u.norm_nonneg v.norm_nonneg) |> fun h => h
  rw [mul_pow, norm_sq, norm_sq]; exact cauchy u v

theorem dot_comm (u v : V2) : u.dot v = v.dot u := by simp only [dot]; ring

theorem normalized_eq {u : V2} (h : 0 < u.normSq) : u.normalized = (1 / u.norm) • u := by rw [normalized, if_pos h]

theorem dot_normalized {u v : V2} (hu : 0 < u.normSq) (hv : 0 < v.normSq) :
    u.normalized.dot v.normalized = u.dot v / (u.norm * v.norm) := by
  have h1 := norm_pos hu
  have h2 := norm_pos hv
  rw [normalized_eq hu, normalized_eq hv]
  simp only [dot, smul_x, smul_y]
  field_simp

theorem normSq_normalized {u : V2} (h : 0 < u.normSq) : u.normalized.normSq = 1 := by
  have h1 := norm_pos h
  rw [normSq, dot_normalized h h, norm_mul_self, normSq, div_self]
  exact h.ne'

theorem normSq_smul (k : ℝ) (u : V2) : (k • u).normSq = k ^ 2 * u.normSq := by
  simp only [normSq, dot, smul_x, smul_y]; ring

theorem norm_smul (k : ℝ) (u : V2) : (k • u).norm = |k| * u.norm := by
  rw [norm, normSq_smul, Real.sqrt_mul (sq_nonneg k), Real.sqrt_sq_eq_abs]; rfl

theorem norm_of_normSq_one {u : V2} (h : u.normSq = 1) : u.norm = 1 := by rw [norm, h, Real.sqrt_one]

theorem norm_normalized {u : V2} (h : 0 < u.normSq) : u.normalized.norm = 1 := norm_of_normSq_one (normSq_normalized h)

theorem normalized_of_unit {u : V2} (h : u.normSq = 1) : u.normalized = u := by
  rw [normalized_eq (by rw [h]; exact one_pos), norm_of_normSq_one h]; ext <;> simp

theorem normalized_normalized {u : V2} (h : 0 < u.normSq) : u.normalized.normalized = u.normalized :=
  normalized_of_unit (normSq_normalized h)

theorem normalized_smul {k : ℝ} (hk : 0 < k) {u : V2} (h : 0 < u.normSq) : (k • u).normalized = u.normalized := by
  have h1 := (norm_pos h).ne'
  rw [normalized_eq h, normalized_eq (by rw [normSq_smul]; positivity), norm_smul, abs_of_pos hk]
  ext <;> simp <;> field_simp

@[simp] theorem normalized_zero : (0 : V2).normalized = 0 := by simp [normalized, normSq, dot]
@[simp] theorem norm_zero : (0 : V2).norm = 0 := by simp [norm, normSq, dot]

theorem norm_smul_normalized (u : V2) : u.norm • u.normalized = u := by
  by_cases h : u.normSq = 0
  · rw [normSq_eq_zero.1 h]; ext <;> simp
  · have h3 : 0 < u.normSq := lt_of_le_of_ne u.normSq_nonneg (Ne.symm h)
    have := (norm_pos h3).ne'
    rw [normalized_eq h3]
    ext <;> simp <;> field_simp

end V2

namespace V3

theorem normSq_nonneg (u : V3) : 0 ≤ u.normSq := by
  simp only [normSq, dot]; nlinarith [mul_self_nonneg u.x, mul_self_nonneg u.y, mul_self_nonneg u.z]

theorem normSq_eq_zero {u : V3} : u.normSq = 0 ↔ u = 0 := by
  constructor
  · intro h
    simp only [normSq, dot] at h
    ext
    · simp only [zero_x]; nlinarith [mul_self_nonneg u.x, mul_self_nonneg u.y, mul_self_nonneg u.z]
    · simp only [zero_y]; nlinarith [mul_self_nonneg u.x, mul_self_nonneg u.y, mul_self_nonneg u.z]
    · simp only [zero_z]; nlinarith [mul_self_nonneg u.x, mul_self_nonneg u.y, mul_self_nonneg u.z]
  · rintro rfl; simp [normSq, dot]

theorem norm_nonneg (u : V3) : 0 ≤ u.norm := Real.sqrt_nonneg _
theorem norm_sq (u : V3) : u.norm ^ 2 = u.normSq := Real.sq_sqrt u.normSq_nonneg
theorem norm_mul_self (u : V3) : u.norm * u.norm = u.normSq := Real.mul_self_sqrt u.normSq_nonneg
theorem norm_pos {u : V3} (h : 0 < u.normSq) : 0 < u.norm := Real.sqrt_pos.2 h
theorem norm_eq_zero {u : V3} : u.norm = 0 ↔ u = 0 := by
  rw [norm, Real.sqrt_eq_zero u.normSq_nonneg, normSq_eq_zero]

theorem lagrange (u v : V3) : (u.cross v).normSq = u.normSq * v.normSq - (u.dot v) ^ 2 := by
  simp only [normSq, dot, cross]; ring

theorem cauchy (u v : V3) : (u.dot v) ^ 2 ≤ u.normSq * v.normSq := by
  linarith [lagrange u v, normSq_nonneg (u.cross v)]

theorem abs_dot_le (u v : V3) : |u.dot v| ≤ u.norm * v.norm := by
  refine abs_le_of_sq_le_sq ?_ (mul_nonneg u.norm_nonneg v.norm_nonneg) |> fun h => h
  rw [mul_pow, norm_sq, norm_sq]; exact cauchy u v

theorem dot_comm (u v : V3) : u.dot v = v.dot u := by simp only [dot]; ring

theorem normalized_eq {u : V3} (h : 0 < u.normSq) : u.normalized = (1 / u.norm) • u := by rw [normalized, if_pos h]

theorem dot_normalized {u v : V3} (hu : 0 < u.normSq) (hv : 0 < v.normSq) :
    u.normalized.dot v.normalized = u.dot v / (u.norm * v.norm) := by
  have h1 := norm_pos hu
  have h2 := norm_pos hv
  rw [normalized_eq hu, normalized_eq hv]
  simp only [dot, smul_x, smul_y, smul_z]
  field_simp

theorem normSq_normalized {u : V3} (h : 0 < u.normSq) : u.normalized.normSq = 1 := by
  have h1 := norm_pos h
  rw [normSq, dot_normalized h h, norm_mul_self, normSq, div_self]
  exact h.ne'

theorem normSq_smul (k : ℝ) (u : V3) : (k • u).normSq = k ^ 2 * u.normSq := by
  simp only [normSq, dot, smul_x, smul_y, smul_z]; ring

theorem norm_smul (k : ℝ) (u : V3) : (k • u).norm = |k| * u.norm := by
  rw [norm, normSq_smul, Real.sqrt_mul (sq_nonneg k), Real.sqrt_sq_eq_abs]; rfl

theorem norm_of_normSq_one {u : V3} (h : u.normSq = 1) : u.norm = 1 := by rw [norm, h, Real.sqrt_one]

theorem norm_normalized {u : V3} (h : 0 < u.normSq) : u.normalized.norm = 1 := norm_of_normSq_one (normSq_normalized h)

theorem normalized_of_unit {u : V3} (h : u.normSq = 1) : u.normalized = u := by
  rw [normalized_eq (by rw [h]; exact one_pos), norm_of_normSq_one h]; ext <;> simp

theorem normalized_normalized {u : V3} (h : 0 < u.normSq) : u.normalized.normalized = u.normalized :=
  normalized_of_unit (normSq_normalized h)

theorem normalized_smul {k : ℝ} (hk : 0 < k) {u : V3} (h : 0 < u.normSq) : (k • u).normalized = u.normalized := by
  have h1 := (norm_pos h).ne'
  rw [normalized_eq h, normalized_eq (by rw [normSq_smul]; positivity), norm_smul, abs_of_pos hk]
  ext <;> simp <;> field_simp

@[simp] theorem normalized_zero : (0 : V3).normalized = 0 := by simp [normalized, normSq, dot]
@[simp] theorem norm_zero : (0 : V3).norm = 0 := by simp [norm, normSq, dot]

theorem norm_smul_normalized (u : V3) : u.norm • u.normalized = u := by
  by_cases h : u.normSq = 0
  · rw [normSq_eq_zero.1 h]; ext <;> simp
  · have h3 : 0 < u.normSq := lt_of_le_of_ne u.normSq_nonneg (Ne.symm h)
    have := (norm_pos h3).ne'
    rw [normalized_eq h3]
    ext <;> simp <;> field_simp

end V3

end Verif
