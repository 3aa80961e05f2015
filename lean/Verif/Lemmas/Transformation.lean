import Verif.Spec.Geometry
import Verif.Lemmas.RotationConv

/-!
# Affine matrices
-/

namespace Verif

open Verif.Spec

set_option linter.flexible false

namespace M3

theorem dot_mulVec (l : M3) (u v : V3) : (l.mulVec u).dot (l.mulVec v) = u.dot ((l.transpose.mul l).mulVec v) := by
  simp only [V3.dot, mulVec, transpose, mul]; ring

theorem mulVec_dot {l : M3} (h : IsRotation l) (u v : V3) : (l.mulVec u).dot (l.mulVec v) = u.dot v := by
  rw [dot_mulVec, (isRotation_iff'.1 h).1, one_mulVec]

theorem mulVec_cross {l : M3} (h : IsRotation l) (u v : V3) : (l.mulVec u).cross (l.mulVec v) = l.mulVec (u.cross v) := by
  obtain ⟨-, -, -, -, -, -, -, -, -, -, -, -, f00, f01, f02, f10, f11, f12, f20, f21, f22⟩ := eqs_of_isRotation h
  ext <;> simp only [V3.cross, mulVec]
  · linear_combination (-(u.y * v.z - u.z * v.y)) * f00 - (u.z * v.x - u.x * v.z) * f01 - (u.x * v.y - u.y * v.x) * f02
  · linear_combination (-(u.y * v.z - u.z * v.y)) * f10 - (u.z * v.x - u.x * v.z) * f11 - (u.x * v.y - u.y * v.x) * f12
  · linear_combination (-(u.y * v.z - u.z * v.y)) * f20 - (u.z * v.x - u.x * v.z) * f21 - (u.x * v.y - u.y * v.x) * f22

theorem mulVec_sub (l : M3) (u v : V3) : l.mulVec u - l.mulVec v = l.mulVec (u - v) := by
  ext <;> simp [mulVec] <;> ring

theorem mulVec_add (l : M3) (u v : V3) : l.mulVec u + l.mulVec v = l.mulVec (u + v) := by
  ext <;> simp [mulVec] <;> ring

theorem mulVec_smul (l : M3) (k : ℝ) (u : V3) : l.mulVec (k • u) = k • l.mulVec u := by
  ext <;> simp [mulVec] <;> ring

theorem mulVec_normSq {l : M3} (h : IsRotation l) (u : V3) : (l.mulVec u).normSq = u.normSq := mulVec_dot h u u

theorem mulVec_norm {l : M3} (h : IsRotation l) (u : V3) : (l.mulVec u).norm = u.norm := by
  rw [V3.norm, mulVec_normSq h, V3.norm]

theorem mulVec_normalized {l : M3} (h : IsRotation l) (u : V3) : (l.mulVec u).normalized = l.mulVec u.normalized := by
  rw [V3.normalized, V3.normalized, mulVec_normSq h, mulVec_norm h]
  split_ifs
  · rw [mulVec_smul]
  · rfl

theorem transpose_mulVec {l : M3} (h : IsRotation l) (u : V3) : l.transpose.mulVec (l.mulVec u) = u := by
  rw [← mul_mulVec, (isRotation_iff'.1 h).1, one_mulVec]

theorem mulVec_transpose {l : M3} (h : IsRotation l) (u : V3) : l.mulVec (l.transpose.mulVec u) = u := by
  rw [← mul_mulVec, (isRotation_iff.1 h).1, one_mulVec]

theorem mulVec_injective {l : M3} (h : IsRotation l) {u v : V3} (e : l.mulVec u = l.mulVec v) : u = v := by
  rw [← transpose_mulVec h u, e, transpose_mulVec h]

end M3

namespace T3

/-- the matrix of the affine map `p ↦ l p + t` -/
def aff (l : M3) (t : V3) : Matrix (Fin 4) (Fin 4) ℝ :=
  !![l.m00, l.m01, l.m02, t.x; l.m10, l.m11, l.m12, t.y; l.m20, l.m21, l.m22, t.z; 0, 0, 0, 1]

theorem aff_one : aff M3.one 0 = 1 := by
  ext i j; fin_cases i <;> fin_cases j <;> simp [aff, M3.one]

theorem aff_mul (l l' : M3) (t t' : V3) : aff l t * aff l' t' = aff (l.mul l') (l.mulVec t' + t) := by
  ext i j
  fin_cases i <;> fin_cases j <;> simp [aff, M3.mul, M3.mulVec, Matrix.mul_apply, Fin.sum_univ_four]

theorem head_aff (l : M3) (t v : V3) (w : ℝ) : head (aff l t) v w = l.mulVec v + w • t := by
  ext <;> simp [head, aff, M3.mulVec, Matrix.mulVec, dotProduct, Fin.sum_univ_four, mul_comm]

theorem aff_injective {l l' : M3} {t t' : V3} (h : aff l t = aff l' t') : l = l' ∧ t = t' := by
  have e : ∀ i j, aff l t i j = aff l' t' i j := fun i j => by rw [h]
  constructor
  · ext
    · exact e 0 0
    · exact e 0 1
    · exact e 0 2
    · exact e 1 0
    · exact e 1 1
    · exact e 1 2
    · exact e 2 0
    · exact e 2 1
    · exact e 2 2
  · ext
    · exact e 0 3
    · exact e 1 3
    · exact e 2 3

theorem aff_inv_mul {l : M3} (h : IsRotation l) (t : V3) : aff l.transpose (-(l.transpose.mulVec t)) * aff l t = 1 := by
  rw [aff_mul, (M3.isRotation_iff'.1 h).1, ← aff_one]
  congr 1
  ext <;> simp

theorem aff_mul_inv {l : M3} (h : IsRotation l) (t : V3) : aff l t * aff l.transpose (-(l.transpose.mulVec t)) = 1 := by
  rw [aff_mul, (M3.isRotation_iff.1 h).1, ← aff_one]
  congr 1
  have : l.mulVec (-(l.transpose.mulVec t)) = -(l.mulVec (l.transpose.mulVec t)) := by ext <;> simp [M3.mulVec] <;> ring
  rw [this, M3.mulVec_transpose h]
  ext <;> simp

theorem inverse_aff {l : M3} (h : IsRotation l) (t : V3) :
    inverseMatrix (aff l t) = some (aff l.transpose (-(l.transpose.mulVec t))) := by
  have hu : IsUnit (aff l t).det := by
    rw [← Matrix.isUnit_iff_isUnit_det]
    exact IsUnit.of_mul_eq_one _ (aff_mul_inv h t)
  rw [inverseMatrix, if_neg hu.ne_zero, Matrix.inv_eq_right_inv (aff_mul_inv h t)]

/-- a matrix with last row `0 0 0 1` -/
theorem eq_aff {m : Matrix (Fin 4) (Fin 4) ℝ} (h : m 3 = ![0, 0, 0, 1]) :
    m = aff ⟨m 0 0, m 0 1, m 0 2, m 1 0, m 1 1, m 1 2, m 2 0, m 2 1, m 2 2⟩ ⟨m 0 3, m 1 3, m 2 3⟩ := by
  ext i j
  have e : m 3 j = (![0, 0, 0, 1] : Fin 4 → ℝ) j := by rw [h]
  fin_cases i <;> fin_cases j <;> simp [aff] at e ⊢ <;> exact e

end T3

namespace T2

/-- the matrix of the map that rotates by the angle with cosine `c` and sine `s`, then adds `t` -/
def aff (c s : ℝ) (t : V2) : Matrix (Fin 3) (Fin 3) ℝ := !![c, -s, t.x; s, c, t.y; 0, 0, 1]

/-- rotation of a vector -/
def turn (c s : ℝ) (v : V2) : V2 := ⟨c * v.x - s * v.y, s * v.x + c * v.y⟩

theorem aff_one : aff 1 0 0 = 1 := by
  ext i j; fin_cases i <;> fin_cases j <;> simp [aff]

theorem aff_mul (c s c' s' : ℝ) (t t' : V2) : aff c s t * aff c' s' t' = aff (c * c' - s * s') (s * c' + c * s') (turn c s t' + t) := by
  ext i j
  fin_cases i <;> fin_cases j <;> simp [aff, turn, Matrix.mul_apply, Fin.sum_univ_three] <;> ring

theorem head_aff (c s : ℝ) (t v : V2) (w : ℝ) : head (aff c s t) v w = turn c s v + w • t := by
  ext <;> simp [head, aff, turn, Matrix.mulVec, dotProduct, Fin.sum_univ_three] <;> ring

theorem turn_dot {c s : ℝ} (h : c ^ 2 + s ^ 2 = 1) (u v : V2) : (turn c s u).dot (turn c s v) = u.dot v := by
  simp only [V2.dot, turn]; linear_combination (u.x * v.x + u.y * v.y) * h

theorem turn_area {c s : ℝ} (h : c ^ 2 + s ^ 2 = 1) (u v : V2) :
    (turn c s u).x * (turn c s v).y - (turn c s u).y * (turn c s v).x = u.x * v.y - u.y * v.x := by
  simp only [turn]; linear_combination (u.x * v.y - u.y * v.x) * h

theorem turn_norm {c s : ℝ} (h : c ^ 2 + s ^ 2 = 1) (u : V2) : (turn c s u).norm = u.norm := by
  rw [V2.norm, V2.normSq, turn_dot h, V2.norm, V2.normSq]

theorem turn_sub (c s : ℝ) (u v : V2) : turn c s u - turn c s v = turn c s (u - v) := by
  ext <;> simp [turn] <;> ring

theorem turn_turn (c s c' s' : ℝ) (v : V2) : turn c s (turn c' s' v) = turn (c * c' - s * s') (s * c' + c * s') v := by
  ext <;> simp [turn] <;> ring

theorem aff_inv_mul {c s : ℝ} (h : c ^ 2 + s ^ 2 = 1) (t : V2) : aff c (-s) (-(turn c (-s) t)) * aff c s t = 1 := by
  rw [aff_mul, ← aff_one]
  congr 1
  · linear_combination h
  · ring
  · ext <;> simp

theorem aff_mul_inv {c s : ℝ} (h : c ^ 2 + s ^ 2 = 1) (t : V2) : aff c s t * aff c (-s) (-(turn c (-s) t)) = 1 := by
  rw [aff_mul, ← aff_one]
  congr 1
  · linear_combination h
  · ring
  · ext <;> simp [turn]
    · linear_combination (-t.x) * h
    · linear_combination (-t.y) * h

theorem inverse_aff {c s : ℝ} (h : c ^ 2 + s ^ 2 = 1) (t : V2) :
    inverseMatrix (aff c s t) = some (aff c (-s) (-(turn c (-s) t))) := by
  have hu : IsUnit (aff c s t).det := by
    rw [← Matrix.isUnit_iff_isUnit_det]
    exact IsUnit.of_mul_eq_one _ (aff_mul_inv h t)
  rw [inverseMatrix, if_neg hu.ne_zero, Matrix.inv_eq_right_inv (aff_mul_inv h t)]

end T2

end Verif
