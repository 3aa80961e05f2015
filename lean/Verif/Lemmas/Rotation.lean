import Mathlib.Tactic.LinearCombination
import Verif.Lemmas.Vec
import Verif.Lemmas.Angle
import Verif.Spec.Rotation

/-! # Lemmas on quaternions and matrices -/

namespace Verif

open Spec

namespace Quat

@[simp] theorem vec_x (q : Quat) : q.vec.x = q.x := rfl
@[simp] theorem vec_y (q : Quat) : q.vec.y = q.y := rfl
@[simp] theorem vec_z (q : Quat) : q.vec.z = q.z := rfl
@[simp] theorem mk'_x (v : V3) (s : ℝ) : (mk' v s).x = v.x := rfl
@[simp] theorem mk'_y (v : V3) (s : ℝ) : (mk' v s).y = v.y := rfl
@[simp] theorem mk'_z (v : V3) (s : ℝ) : (mk' v s).z = v.z := rfl
@[simp] theorem mk'_s (v : V3) (s : ℝ) : (mk' v s).s = s := rfl
@[simp] theorem mk'_vec (v : V3) (s : ℝ) : (mk' v s).vec = v := rfl
theorem mk'_vec_s (q : Quat) : mk' q.vec q.s = q := rfl
@[simp] theorem Unit_x : Unit.x = 0 := rfl
@[simp] theorem Unit_y : Unit.y = 0 := rfl
@[simp] theorem Unit_z : Unit.z = 0 := rfl
@[simp] theorem Unit_s : Unit.s = 1 := rfl
@[simp] theorem conj_x (q : Quat) : q.conj.x = -q.x := rfl
@[simp] theorem conj_y (q : Quat) : q.conj.y = -q.y := rfl
@[simp] theorem conj_z (q : Quat) : q.conj.z = -q.z := rfl
@[simp] theorem conj_s (q : Quat) : q.conj.s = q.s := rfl
@[simp] theorem scale_x (q : Quat) (k : ℝ) : (q.scale k).x = k * q.x := rfl
@[simp] theorem scale_y (q : Quat) (k : ℝ) : (q.scale k).y = k * q.y := rfl
@[simp] theorem scale_z (q : Quat) (k : ℝ) : (q.scale k).z = k * q.z := rfl
@[simp] theorem scale_s (q : Quat) (k : ℝ) : (q.scale k).s = q.s * k := rfl
@[simp] theorem plus_x (q p : Quat) : (q.plus p).x = q.x + p.x := rfl
@[simp] theorem plus_y (q p : Quat) : (q.plus p).y = q.y + p.y := rfl
@[simp] theorem plus_z (q p : Quat) : (q.plus p).z = q.z + p.z := rfl
@[simp] theorem plus_s (q p : Quat) : (q.plus p).s = q.s + p.s := rfl
@[simp] theorem cross_x (l r : Quat) : (l.cross r).x = r.s * l.x + l.s * r.x - (l.y * r.z - l.z * r.y) := rfl
@[simp] theorem cross_y (l r : Quat) : (l.cross r).y = r.s * l.y + l.s * r.y - (l.z * r.x - l.x * r.z) := rfl
@[simp] theorem cross_z (l r : Quat) : (l.cross r).z = r.s * l.z + l.s * r.z - (l.x * r.y - l.y * r.x) := rfl
@[simp] theorem cross_s (l r : Quat) : (l.cross r).s = l.s * r.s - (l.x * r.x + l.y * r.y + l.z * r.z) := rfl
@[simp] theorem dotMul_x (l r : Quat) : (l.dotMul r).x = r.s * l.x + l.s * r.x + (l.y * r.z - l.z * r.y) := rfl
@[simp] theorem dotMul_y (l r : Quat) : (l.dotMul r).y = r.s * l.y + l.s * r.y + (l.z * r.x - l.x * r.z) := rfl
@[simp] theorem dotMul_z (l r : Quat) : (l.dotMul r).z = r.s * l.z + l.s * r.z + (l.x * r.y - l.y * r.x) := rfl
@[simp] theorem dotMul_s (l r : Quat) : (l.dotMul r).s = l.s * r.s - (l.x * r.x + l.y * r.y + l.z * r.z) := rfl

theorem normSq_nonneg (q : Quat) : 0 ≤ q.normSq := by
  simp only [normSq]; nlinarith [mul_self_nonneg q.x, mul_self_nonneg q.y, mul_self_nonneg q.z, mul_self_nonneg q.s]
theorem norm_nonneg (q : Quat) : 0 ≤ q.norm := Real.sqrt_nonneg _
theorem norm_sq (q : Quat) : q.norm ^ 2 = q.normSq := Real.sq_sqrt q.normSq_nonneg
theorem norm_mul_self (q : Quat) : q.norm * q.norm = q.normSq := Real.mul_self_sqrt q.normSq_nonneg

theorem unitary_iff {q : Quat} : Unitary q ↔ q.normSq = 1 := by
  simp only [Unitary, normSq, pow_two]

theorem norm_eq_one {q : Quat} : q.norm = 1 ↔ q.normSq = 1 := by
  rw [norm, Real.sqrt_eq_one]

theorem unitary_iff_norm {q : Quat} : Unitary q ↔ q.norm = 1 := by rw [unitary_iff, norm_eq_one]

theorem normSq_cross (l r : Quat) : (l.cross r).normSq = l.normSq * r.normSq := by
  simp only [normSq, cross_x, cross_y, cross_z, cross_s]; ring

theorem norm_cross (l r : Quat) : (l.cross r).norm = l.norm * r.norm := by
  rw [norm, normSq_cross, Real.sqrt_mul l.normSq_nonneg]; rfl

theorem normSq_conj (q : Quat) : q.conj.normSq = q.normSq := by
  simp only [normSq, conj_x, conj_y, conj_z, conj_s]; ring

theorem normSq_scale (q : Quat) (k : ℝ) : (q.scale k).normSq = k ^ 2 * q.normSq := by
  simp only [normSq, scale_x, scale_y, scale_z, scale_s]; ring

theorem cross_assoc (a b c : Quat) : (a.cross b).cross c = a.cross (b.cross c) := by
  ext <;> simp only [cross_x, cross_y, cross_z, cross_s] <;> ring

theorem Unit_cross (q : Quat) : Unit.cross q = q := by
  ext <;> simp [cross_x, cross_y, cross_z, cross_s]
theorem cross_Unit (q : Quat) : q.cross Unit = q := by
  ext <;> simp [cross_x, cross_y, cross_z, cross_s]

theorem cross_conj (q : Quat) : q.cross q.conj = Unit.scale q.normSq := by
  ext <;> simp only [cross_x, cross_y, cross_z, cross_s, conj_x, conj_y, conj_z, conj_s, scale_x, scale_y, scale_z, scale_s,
    Unit_x, Unit_y, Unit_z, Unit_s, normSq] <;> ring
theorem conj_cross (q : Quat) : q.conj.cross q = Unit.scale q.normSq := by
  ext <;> simp only [cross_x, cross_y, cross_z, cross_s, conj_x, conj_y, conj_z, conj_s, scale_x, scale_y, scale_z, scale_s,
    Unit_x, Unit_y, Unit_z, Unit_s, normSq] <;> ring

theorem scale_one (q : Quat) : q.scale 1 = q := by
  ext <;> simp
theorem scale_cross (q p : Quat) (k : ℝ) : (q.scale k).cross p = (q.cross p).scale k := by
  ext <;> simp only [cross_x, cross_y, cross_z, cross_s, scale_x, scale_y, scale_z, scale_s] <;> ring
theorem cross_scale (q p : Quat) (k : ℝ) : q.cross (p.scale k) = (q.cross p).scale k := by
  ext <;> simp only [cross_x, cross_y, cross_z, cross_s, scale_x, scale_y, scale_z, scale_s] <;> ring
theorem scale_scale (q : Quat) (k l : ℝ) : (q.scale k).scale l = q.scale (k * l) := by
  ext <;> simp only [scale_x, scale_y, scale_z, scale_s] <;> ring

theorem isUnitary_of_unitary {q : Quat} (h : Unitary q) {tol : ℝ} (ht : 0 < tol) : q.isUnitary tol = .ok true := by
  simp [isUnitary, not_le.2 ht, unitary_iff_norm.1 h, ht.le]

theorem normalize_eq {eps : ℝ} {q : Quat} (h : eps ≤ q.norm) : q.normalize eps = .ok (q.scale (1 / q.norm)) := by
  have : ¬ |q.norm| < eps := by rw [abs_of_nonneg q.norm_nonneg]; exact not_lt.2 h
  simp only [normalize, this, if_false]
  congr 1
  ext <;> simp only [scale_x, scale_y, scale_z, scale_s] <;> ring

theorem normalize_error {eps : ℝ} {q : Quat} (h : q.norm < eps) : q.normalize eps = .error .runtimeError := by
  have : |q.norm| < eps := by rw [abs_of_nonneg q.norm_nonneg]; exact h
  simp only [normalize, this, if_true]

theorem normalize_of_unitary {eps : ℝ} {q : Quat} (h : Unitary q) (he : eps ≤ 1) : q.normalize eps = .ok q := by
  rw [normalize_eq (by rw [unitary_iff_norm.1 h]; exact he), unitary_iff_norm.1 h]
  simp [scale_one]

theorem unitary_scale_inv_norm {q : Quat} (h : 0 < q.norm) : Unitary (q.scale (1 / q.norm)) := by
  rw [unitary_iff, normSq_scale, ← norm_sq]
  field_simp

theorem inverse_eq {eps : ℝ} {q : Quat} (h : eps ≤ q.normSq) : q.inverse eps = .ok (q.conj.scale (1 / q.normSq)) := by
  have : ¬ |q.normSq| < eps := by rw [abs_of_nonneg q.normSq_nonneg]; exact not_lt.2 h
  simp only [inverse, this, if_false]
  congr 1
  ext <;> simp only [scale_x, scale_y, scale_z, scale_s, conj_x, conj_y, conj_z, conj_s] <;> ring

theorem inverse_of_unitary {eps : ℝ} {q : Quat} (h : Unitary q) (he : eps ≤ 1) : q.inverse eps = .ok q.conj := by
  rw [inverse_eq (by rw [unitary_iff.1 h]; exact he), unitary_iff.1 h]
  simp [scale_one]

theorem unitary_cross {q p : Quat} (hq : Unitary q) (hp : Unitary p) : Unitary (q.cross p) := by
  rw [unitary_iff] at *; rw [normSq_cross, hq, hp, one_mul]
theorem unitary_conj {q : Quat} (hq : Unitary q) : Unitary q.conj := by
  rw [unitary_iff] at *; rw [normSq_conj, hq]

theorem beq_iff {q p : Quat} : q.beq p = true ↔ q = p ∨ q = p.scale (-1) := by
  simp only [beq, Bool.or_eq_true, decide_eq_true_eq, Quat.ext_iff, scale_x, scale_y, scale_z, scale_s, neg_mul, one_mul, mul_neg,
    mul_one]

end Quat

namespace M3

theorem mul_assoc' (a b c : M3) : (a.mul b).mul c = a.mul (b.mul c) := by
  ext <;> simp only [mul] <;> ring
theorem mul_mulVec (a b : M3) (v : V3) : (a.mul b).mulVec v = a.mulVec (b.mulVec v) := by
  ext <;> simp only [mul, mulVec] <;> ring
theorem transpose_mul (a b : M3) : (a.mul b).transpose = b.transpose.mul a.transpose := by
  ext <;> simp only [mul, transpose] <;> ring
theorem one_mulVec (v : V3) : M3.one.mulVec v = v := by
  ext <;> simp [one, mulVec]

theorem ext_mulVec {a b : M3} (h : ∀ v, a.mulVec v = b.mulVec v) : a = b := by
  have hx := h V3.X
  have hy := h V3.Y
  have hz := h V3.Z
  simp only [mulVec, V3.X, V3.Y, V3.Z, V3.ext_iff, mul_one, mul_zero, add_zero, zero_add] at hx hy hz
  ext <;> tauto

/-- explicit determinant -/
def det (m : M3) : ℝ := m.m00 * (m.m11 * m.m22 - m.m12 * m.m21) - m.m01 * (m.m10 * m.m22 - m.m12 * m.m20) +
  m.m02 * (m.m10 * m.m21 - m.m11 * m.m20)

theorem toMatrix_mul (a b : M3) : toMatrix (a.mul b) = toMatrix a * toMatrix b := by
  ext i j
  fin_cases i <;> fin_cases j <;> simp [toMatrix, mul, Matrix.mul_apply, Fin.sum_univ_three]

theorem toMatrix_transpose (a : M3) : toMatrix a.transpose = (toMatrix a).transpose := by
  ext i j
  fin_cases i <;> fin_cases j <;> simp [toMatrix, transpose, Matrix.transpose_apply]

theorem toMatrix_one : toMatrix M3.one = 1 := by
  ext i j
  fin_cases i <;> fin_cases j <;> simp [toMatrix, one]

theorem toMatrix_det (a : M3) : (toMatrix a).det = a.det := by
  rw [Matrix.det_fin_three]; simp [toMatrix, det]; ring

theorem toMatrix_injective {a b : M3} (h : toMatrix a = toMatrix b) : a = b := by
  have e := fun i j => congrFun (congrFun h i) j
  ext
  · exact e 0 0
  · exact e 0 1
  · exact e 0 2
  · exact e 1 0
  · exact e 1 1
  · exact e 1 2
  · exact e 2 0
  · exact e 2 1
  · exact e 2 2

theorem isRotation_iff {m : M3} : IsRotation m ↔ m.mul m.transpose = M3.one ∧ m.det = 1 := by
  rw [IsRotation, Matrix.mem_specialOrthogonalGroup_iff, Matrix.mem_orthogonalGroup_iff, toMatrix_det]
  rw [← toMatrix_transpose, ← toMatrix_mul, ← toMatrix_one]
  exact and_congr_left fun _ => ⟨toMatrix_injective, fun h => by rw [h]⟩

theorem isRotation_iff' {m : M3} : IsRotation m ↔ m.transpose.mul m = M3.one ∧ m.det = 1 := by
  rw [IsRotation, Matrix.mem_specialOrthogonalGroup_iff, Matrix.mem_orthogonalGroup_iff', toMatrix_det]
  rw [← toMatrix_transpose, ← toMatrix_mul, ← toMatrix_one]
  exact and_congr_left fun _ => ⟨toMatrix_injective, fun h => by rw [h]⟩

theorem isRotation_one : IsRotation M3.one := by
  rw [isRotation_iff]; constructor
  · ext <;> simp [mul, transpose, one]
  · simp [det, one]

theorem det_mul (a b : M3) : (a.mul b).det = a.det * b.det := by
  simp only [det, mul]; ring
theorem det_transpose (a : M3) : a.transpose.det = a.det := by
  simp only [det, transpose]; ring

theorem isRotation_transpose {m : M3} (h : IsRotation m) : IsRotation m.transpose := by
  rw [isRotation_iff]
  rw [isRotation_iff'] at h
  exact ⟨h.1, by rw [det_transpose, h.2]⟩

theorem isRotation_mul {a b : M3} (ha : IsRotation a) (hb : IsRotation b) : IsRotation (a.mul b) := by
  rw [IsRotation, toMatrix_mul]; exact mul_mem ha hb

theorem one_mul' (a : M3) : M3.one.mul a = a := by ext <;> simp [mul, one]
theorem mul_one' (a : M3) : a.mul M3.one = a := by ext <;> simp [mul, one]

/-- the fifteen equations of a proper rotation in one place: columns, rows, cofactors -/
structure Eqs (m : M3) : Prop where
  c00 : m.m00 * m.m00 + m.m10 * m.m10 + m.m20 * m.m20 = 1
  c11 : m.m01 * m.m01 + m.m11 * m.m11 + m.m21 * m.m21 = 1
  c22 : m.m02 * m.m02 + m.m12 * m.m12 + m.m22 * m.m22 = 1
  c01 : m.m00 * m.m01 + m.m10 * m.m11 + m.m20 * m.m21 = 0
  c02 : m.m00 * m.m02 + m.m10 * m.m12 + m.m20 * m.m22 = 0
  c12 : m.m01 * m.m02 + m.m11 * m.m12 + m.m21 * m.m22 = 0
  r00 : m.m00 * m.m00 + m.m01 * m.m01 + m.m02 * m.m02 = 1
  r11 : m.m10 * m.m10 + m.m11 * m.m11 + m.m12 * m.m12 = 1
  r22 : m.m20 * m.m20 + m.m21 * m.m21 + m.m22 * m.m22 = 1
  r01 : m.m00 * m.m10 + m.m01 * m.m11 + m.m02 * m.m12 = 0
  r02 : m.m00 * m.m20 + m.m01 * m.m21 + m.m02 * m.m22 = 0
  r12 : m.m10 * m.m20 + m.m11 * m.m21 + m.m12 * m.m22 = 0
  f00 : m.m00 = m.m11 * m.m22 - m.m12 * m.m21
  f01 : m.m01 = m.m12 * m.m20 - m.m10 * m.m22
  f02 : m.m02 = m.m10 * m.m21 - m.m11 * m.m20
  f10 : m.m10 = m.m02 * m.m21 - m.m01 * m.m22
  f11 : m.m11 = m.m00 * m.m22 - m.m02 * m.m20
  f12 : m.m12 = m.m01 * m.m20 - m.m00 * m.m21
  f20 : m.m20 = m.m01 * m.m12 - m.m02 * m.m11
  f21 : m.m21 = m.m02 * m.m10 - m.m00 * m.m12
  f22 : m.m22 = m.m00 * m.m11 - m.m01 * m.m10

theorem eqs_of_isRotation {m : M3} (h : IsRotation m) : Eqs m := by
  obtain ⟨h1, hd⟩ := isRotation_iff.1 h
  obtain ⟨h2, -⟩ := isRotation_iff'.1 h
  simp only [M3.ext_iff, mul, transpose, one] at h1 h2
  obtain ⟨a00, a01, a02, a10, a11, a12, a20, a21, a22⟩ := h1
  obtain ⟨b00, b01, b02, b10, b11, b12, b20, b21, b22⟩ := h2
  simp only [det] at hd
  refine ⟨b00, b11, b22, b01, b02, b12, a00, a11, a22, a01, a02, a12, ?_, ?_, ?_, ?_, ?_, ?_, ?_, ?_, ?_⟩
  · linear_combination (-m.m00) * hd + (m.m11 * m.m22 - m.m12 * m.m21) * b00 + (m.m12 * m.m20 - m.m10 * m.m22) * b01 + (m.m10 * m.m21 - m.m11 * m.m20) * b02
  · linear_combination (-m.m01) * hd + (m.m11 * m.m22 - m.m12 * m.m21) * b10 + (m.m12 * m.m20 - m.m10 * m.m22) * b11 + (m.m10 * m.m21 - m.m11 * m.m20) * b12
  · linear_combination (-m.m02) * hd + (m.m11 * m.m22 - m.m12 * m.m21) * b20 + (m.m12 * m.m20 - m.m10 * m.m22) * b21 + (m.m10 * m.m21 - m.m11 * m.m20) * b22
  · linear_combination (-m.m10) * hd + (m.m21 * m.m02 - m.m22 * m.m01) * b00 + (m.m22 * m.m00 - m.m20 * m.m02) * b01 + (m.m20 * m.m01 - m.m21 * m.m00) * b02
  · linear_combination (-m.m11) * hd + (m.m21 * m.m02 - m.m22 * m.m01) * b10 + (m.m22 * m.m00 - m.m20 * m.m02) * b11 + (m.m20 * m.m01 - m.m21 * m.m00) * b12
  · linear_combination (-m.m12) * hd + (m.m21 * m.m02 - m.m22 * m.m01) * b20 + (m.m22 * m.m00 - m.m20 * m.m02) * b21 + (m.m20 * m.m01 - m.m21 * m.m00) * b22
  · linear_combination (-m.m20) * hd + (m.m01 * m.m12 - m.m02 * m.m11) * b00 + (m.m02 * m.m10 - m.m00 * m.m12) * b01 + (m.m00 * m.m11 - m.m01 * m.m10) * b02
  · linear_combination (-m.m21) * hd + (m.m01 * m.m12 - m.m02 * m.m11) * b10 + (m.m02 * m.m10 - m.m00 * m.m12) * b11 + (m.m00 * m.m11 - m.m01 * m.m10) * b12
  · linear_combination (-m.m22) * hd + (m.m01 * m.m12 - m.m02 * m.m11) * b20 + (m.m02 * m.m10 - m.m00 * m.m12) * b21 + (m.m00 * m.m11 - m.m01 * m.m10) * b22

end M3

namespace RotMat

theorem rotate_eq (q : Quat) (v : V3) : ((q.cross (Quat.mk' v 0)).cross q.conj).vec = (ofQuat q).mulVec v := by
  ext <;> simp only [Quat.vec_x, Quat.vec_y, Quat.vec_z, Quat.cross_x, Quat.cross_y, Quat.cross_z, Quat.cross_s, Quat.mk'_x, Quat.mk'_y,
    Quat.mk'_z, Quat.mk'_s, Quat.conj_x, Quat.conj_y, Quat.conj_z, Quat.conj_s, M3.mulVec, ofQuat] <;> ring

theorem ofQuat_cross (q p : Quat) : ofQuat (q.cross p) = (ofQuat q).mul (ofQuat p) := by
  ext <;> simp only [ofQuat, M3.mul, Quat.cross_x, Quat.cross_y, Quat.cross_z, Quat.cross_s] <;> ring

theorem ofQuat_conj (q : Quat) : ofQuat q.conj = (ofQuat q).transpose := by
  ext <;> simp only [ofQuat, M3.transpose, Quat.conj_x, Quat.conj_y, Quat.conj_z, Quat.conj_s] <;> ring

theorem ofQuat_scale (q : Quat) (k : ℝ) : (ofQuat (q.scale k)).m00 = k ^ 2 * (ofQuat q).m00 := by
  simp only [ofQuat, Quat.scale_x, Quat.scale_y, Quat.scale_z, Quat.scale_s]; ring

theorem ofQuat_isRotation {q : Quat} (h : Unitary q) : IsRotation (ofQuat q) := by
  have h' := Quat.unitary_iff.1 h
  simp only [Quat.normSq] at h'
  have e : ∀ a b c d : ℝ, a * a + b * b + c * c + d * d = 1 → d * d = 1 - a * a - b * b - c * c := by intros; linarith
  have hs := e _ _ _ _ h'
  rw [M3.isRotation_iff]
  constructor
  · ext <;> simp only [M3.mul, M3.transpose, ofQuat, M3.one]
    · linear_combination (q.x * q.x + q.y * q.y + q.z * q.z + q.s * q.s + 1) * h'
    · ring
    · ring
    · ring
    · linear_combination (q.x * q.x + q.y * q.y + q.z * q.z + q.s * q.s + 1) * h'
    · ring
    · ring
    · ring
    · linear_combination (q.x * q.x + q.y * q.y + q.z * q.z + q.s * q.s + 1) * h'
  · have : (ofQuat q).det = (q.x * q.x + q.y * q.y + q.z * q.z + q.s * q.s) ^ 3 := by
      simp only [M3.det, ofQuat]; ring
    rw [this, h', one_pow]

/-- A proper rotation passes the tests of the constructor. -/
theorem mk_of_isRotation {eps : ℝ} (he : 0 < eps) {m : M3} (h : IsRotation m) : mk eps m = .ok m := by
  obtain ⟨h2, -⟩ := M3.isRotation_iff'.1 h
  simp only [M3.ext_iff, M3.mul, M3.transpose, M3.one] at h2
  obtain ⟨b00, b01, b02, b10, b11, b12, b20, b21, b22⟩ := h2
  have n0 : m.col0.norm = 1 := by simp only [V3.norm, V3.normSq, V3.dot, M3.col0]; rw [b00]; exact Real.sqrt_one
  have n1 : m.col1.norm = 1 := by simp only [V3.norm, V3.normSq, V3.dot, M3.col1]; rw [b11]; exact Real.sqrt_one
  have n2 : m.col2.norm = 1 := by simp only [V3.norm, V3.normSq, V3.dot, M3.col2]; rw [b22]; exact Real.sqrt_one
  have d01 : m.col0.dot m.col1 = 0 := b01
  have d12 : m.col1.dot m.col2 = 0 := b12
  have d20 : m.col2.dot m.col0 = 0 := b20
  simp [mk, ctor, n0, n1, n2, d01, d12, d20, not_lt.2 he.le, bind, Except.bind, need]

end RotMat

end Verif
