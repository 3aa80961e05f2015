import Mathlib.Analysis.SpecialFunctions.Trigonometric.Inverse
import Mathlib.Analysis.SpecialFunctions.Trigonometric.Arctan
import Verif.Lemmas.Rotation

/-! # Lemmas on elementary rotations, rotation vectors and Euler angles -/

namespace Verif

open Spec

/-! ## `atan2` -/

theorem cos_atan2 {x y r : ℝ} (hr : 0 < r) (h : x ^ 2 + y ^ 2 = r ^ 2) : Real.cos (atan2 y x) = x / r := by
  have hn : ‖(⟨x, y⟩ : ℂ)‖ = r := by
    rw [Complex.norm_def, Complex.normSq_mk, ← pow_two, ← pow_two, h, Real.sqrt_sq hr.le]
  have hz : (⟨x, y⟩ : ℂ) ≠ 0 := by rw [← norm_ne_zero_iff, hn]; exact hr.ne'
  rw [atan2, Complex.cos_arg hz, hn]

theorem sin_atan2 {x y r : ℝ} (hr : 0 < r) (h : x ^ 2 + y ^ 2 = r ^ 2) : Real.sin (atan2 y x) = y / r := by
  have hn : ‖(⟨x, y⟩ : ℂ)‖ = r := by
    rw [Complex.norm_def, Complex.normSq_mk, ← pow_two, ← pow_two, h, Real.sqrt_sq hr.le]
  rw [atan2, Complex.sin_arg, hn]

theorem atan2_zero_zero : atan2 0 0 = 0 := by
  have : (⟨0, 0⟩ : ℂ) = 0 := rfl
  rw [atan2, this, Complex.arg_zero]

namespace RotMat

/-! ## Elementary rotations -/

/-- quaternions of the elementary rotations -/
noncomputable def qx (t : ℝ) : Quat := ⟨Real.sin (t / 2), 0, 0, Real.cos (t / 2)⟩
noncomputable def qy (t : ℝ) : Quat := ⟨0, Real.sin (t / 2), 0, Real.cos (t / 2)⟩
noncomputable def qz (t : ℝ) : Quat := ⟨0, 0, Real.sin (t / 2), Real.cos (t / 2)⟩

theorem cos_half (t : ℝ) : Real.cos t = Real.cos (t / 2) * Real.cos (t / 2) - Real.sin (t / 2) * Real.sin (t / 2) := by
  rw [← Real.cos_add]; congr 1; ring
theorem sin_half (t : ℝ) : Real.sin t = 2 * (Real.sin (t / 2) * Real.cos (t / 2)) := by
  have : t = t / 2 + t / 2 := by ring
  rw [this, Real.sin_add]; ring_nf

theorem half_sq (t : ℝ) : Real.sin (t / 2) * Real.sin (t / 2) + Real.cos (t / 2) * Real.cos (t / 2) = 1 := by
  have := Real.sin_sq_add_cos_sq (t / 2)
  rw [pow_two, pow_two] at this; exact this

theorem unitary_qx (t : ℝ) : Unitary (qx t) := by
  rw [Quat.unitary_iff]; simp only [qx, Quat.normSq]; linarith [half_sq t]
theorem unitary_qy (t : ℝ) : Unitary (qy t) := by
  rw [Quat.unitary_iff]; simp only [qy, Quat.normSq]; linarith [half_sq t]
theorem unitary_qz (t : ℝ) : Unitary (qz t) := by
  rw [Quat.unitary_iff]; simp only [qz, Quat.normSq]; linarith [half_sq t]

theorem ofQuat_qx (t : ℝ) : ofQuat (qx t) = rx t := by
  have h := half_sq t
  ext <;> simp only [ofQuat, qx, rx, cos_half t, sin_half t] <;> linarith
theorem ofQuat_qy (t : ℝ) : ofQuat (qy t) = ry t := by
  have h := half_sq t
  ext <;> simp only [ofQuat, qy, ry, cos_half t, sin_half t] <;> linarith
theorem ofQuat_qz (t : ℝ) : ofQuat (qz t) = rz t := by
  have h := half_sq t
  ext <;> simp only [ofQuat, qz, rz, cos_half t, sin_half t] <;> linarith

theorem isRotation_rx (t : ℝ) : IsRotation (rx t) := by rw [← ofQuat_qx]; exact ofQuat_isRotation (unitary_qx t)
theorem isRotation_ry (t : ℝ) : IsRotation (ry t) := by rw [← ofQuat_qy]; exact ofQuat_isRotation (unitary_qy t)
theorem isRotation_rz (t : ℝ) : IsRotation (rz t) := by rw [← ofQuat_qz]; exact ofQuat_isRotation (unitary_qz t)

theorem rx_mul (s t : ℝ) : (rx s).mul (rx t) = rx (s + t) := by
  ext <;> simp only [M3.mul, rx, Real.cos_add, Real.sin_add] <;> ring
theorem ry_mul (s t : ℝ) : (ry s).mul (ry t) = ry (s + t) := by
  ext <;> simp only [M3.mul, ry, Real.cos_add, Real.sin_add] <;> ring
theorem rz_mul (s t : ℝ) : (rz s).mul (rz t) = rz (s + t) := by
  ext <;> simp only [M3.mul, rz, Real.cos_add, Real.sin_add] <;> ring

theorem rx_transpose (t : ℝ) : (rx t).transpose = rx (-t) := by
  ext <;> simp [M3.transpose, rx]
theorem ry_transpose (t : ℝ) : (ry t).transpose = ry (-t) := by
  ext <;> simp [M3.transpose, ry]
theorem rz_transpose (t : ℝ) : (rz t).transpose = rz (-t) := by
  ext <;> simp [M3.transpose, rz]

theorem rx_eq_ofAxis (t : ℝ) : rx t = ofAxis V3.X t := by
  ext <;> simp [rx, ofAxis, V3.X]
theorem ry_eq_ofAxis (t : ℝ) : ry t = ofAxis V3.Y t := by
  ext <;> simp [ry, ofAxis, V3.Y]
theorem rz_eq_ofAxis (t : ℝ) : rz t = ofAxis V3.Z t := by
  ext <;> simp [rz, ofAxis, V3.Z]

/-! ## Rotation vectors -/

theorem unitary_axis {a : V3} (ha : a.normSq = 1) (t : ℝ) : Unitary (Quat.mk' (Real.sin (t / 2) • a) (Real.cos (t / 2))) := by
  rw [Quat.unitary_iff]
  simp only [V3.normSq, V3.dot] at ha
  simp only [Quat.normSq, Quat.mk'_x, Quat.mk'_y, Quat.mk'_z, Quat.mk'_s, V3.smul_x, V3.smul_y, V3.smul_z]
  linear_combination half_sq t + Real.sin (t / 2) * Real.sin (t / 2) * ha

theorem ofQuat_axis {a : V3} (ha : a.normSq = 1) (t : ℝ) :
    ofQuat (Quat.mk' (Real.sin (t / 2) • a) (Real.cos (t / 2))) = ofAxis a t := by
  have h := half_sq t
  simp only [V3.normSq, V3.dot] at ha
  ext <;> simp only [ofQuat, ofAxis, Quat.mk'_x, Quat.mk'_y, Quat.mk'_z, Quat.mk'_s, V3.smul_x, V3.smul_y, V3.smul_z, cos_half t, sin_half t]
  · linear_combination (-(Real.sin (t / 2) * Real.sin (t / 2))) * ha + a.x * a.x * h
  · linear_combination a.x * a.y * h
  · linear_combination a.x * a.z * h
  · linear_combination a.y * a.x * h
  · linear_combination (-(Real.sin (t / 2) * Real.sin (t / 2))) * ha + a.y * a.y * h
  · linear_combination a.y * a.z * h
  · linear_combination a.z * a.x * h
  · linear_combination a.z * a.y * h
  · linear_combination (-(Real.sin (t / 2) * Real.sin (t / 2))) * ha + a.z * a.z * h

theorem ofAxis_neg (a : V3) (t : ℝ) : ofAxis (-a) (-t) = ofAxis a t := by
  ext <;> simp [ofAxis]

theorem ofAxis_turns (a : V3) (t : ℝ) (k : ℤ) : ofAxis a (t + k * (2 * Real.pi)) = ofAxis a t := by
  simp only [ofAxis, Real.cos_add_int_mul_two_pi, Real.sin_add_int_mul_two_pi]

theorem ofAxis_zero (a : V3) : ofAxis a 0 = M3.one := by
  ext <;> simp [ofAxis, M3.one]

/-! ## Euler angles -/

/-- shifting the angles of a Tait-Bryan sequence -/
theorem zyx_shift (p t s : ℝ) :
    ((rx (s + Real.pi)).mul (ry (Real.pi - t))).mul (rz (p + Real.pi)) = ((rx s).mul (ry t)).mul (rz p) := by
  ext <;> simp only [M3.mul, rx, ry, rz, Real.cos_add_pi, Real.sin_add_pi, Real.cos_pi_sub, Real.sin_pi_sub] <;> ring
theorem xyz_shift (p t s : ℝ) :
    ((rz (s + Real.pi)).mul (ry (Real.pi - t))).mul (rx (p + Real.pi)) = ((rz s).mul (ry t)).mul (rx p) := by
  ext <;> simp only [M3.mul, rx, ry, rz, Real.cos_add_pi, Real.sin_add_pi, Real.cos_pi_sub, Real.sin_pi_sub] <;> ring
theorem zxy_shift (p t s : ℝ) :
    ((ry (s + Real.pi)).mul (rx (Real.pi - t))).mul (rz (p + Real.pi)) = ((ry s).mul (rx t)).mul (rz p) := by
  ext <;> simp only [M3.mul, rx, ry, rz, Real.cos_add_pi, Real.sin_add_pi, Real.cos_pi_sub, Real.sin_pi_sub] <;> ring

theorem cos_arcsin_sq {x : ℝ} (h : |x| < 1) : 0 < Real.cos (Real.arcsin x) ∧ Real.cos (Real.arcsin x) ^ 2 = 1 - x ^ 2 := by
  have hx : x ^ 2 < 1 := by rw [sq_lt_one_iff_abs_lt_one]; exact h
  rw [Real.cos_arcsin]
  exact ⟨Real.sqrt_pos.2 (by linarith), Real.sq_sqrt (by linarith)⟩

theorem zyx_extract {m : M3} (hm : IsRotation m) (h : |m.m02| < 1) :
    ((rx (atan2 m.m12 m.m22)).mul (ry (Real.arcsin (-m.m02)))).mul (rz (atan2 m.m01 m.m00)) = m := by
  obtain ⟨c00, c11, c22, c01, c02, c12, r00, r11, r22, r01, r02, r12, f00, f01, f02, f10, f11, f12, f20, f21, f22⟩ :=
    M3.eqs_of_isRotation hm
  have h' : |(-m.m02)| < 1 := by rwa [abs_neg]
  obtain ⟨hc, hc2⟩ := cos_arcsin_sq h'
  have hs : Real.sin (Real.arcsin (-m.m02)) = -m.m02 :=
    Real.sin_arcsin (by linarith [(abs_lt.1 h).2]) (by linarith [(abs_lt.1 h).1])
  set c := Real.cos (Real.arcsin (-m.m02)) with hcdef
  have k1 : m.m00 ^ 2 + m.m01 ^ 2 = c ^ 2 := by rw [hc2]; linarith
  have k2 : m.m22 ^ 2 + m.m12 ^ 2 = c ^ 2 := by rw [hc2]; linarith
  have e1 := cos_atan2 hc k1
  have e2 := sin_atan2 hc k1
  have e3 := cos_atan2 hc k2
  have e4 := sin_atan2 hc k2
  have hne : c ≠ 0 := hc.ne'
  ext <;> simp only [M3.mul, rx, ry, rz, e1, e2, e3, e4, hs, ← hcdef] <;> field_simp
  · ring
  · ring
  · ring
  · linear_combination (-m.m10) * hc2 - f10 - m.m02 * f21
  · linear_combination (-m.m11) * hc2 - f11 + m.m02 * f20
  · ring
  · linear_combination (-m.m20) * hc2 - f20 + m.m02 * f11
  · linear_combination (-m.m21) * hc2 - f21 - m.m02 * f10
  · ring

theorem xyz_extract {m : M3} (hm : IsRotation m) (h : |m.m20| < 1) :
    ((rz (atan2 (-m.m10) m.m00)).mul (ry (Real.arcsin m.m20))).mul (rx (atan2 (-m.m21) m.m22)) = m := by
  obtain ⟨c00, c11, c22, c01, c02, c12, r00, r11, r22, r01, r02, r12, f00, f01, f02, f10, f11, f12, f20, f21, f22⟩ :=
    M3.eqs_of_isRotation hm
  obtain ⟨hc, hc2⟩ := cos_arcsin_sq h
  have hs : Real.sin (Real.arcsin m.m20) = m.m20 :=
    Real.sin_arcsin (by linarith [(abs_lt.1 h).1]) (by linarith [(abs_lt.1 h).2])
  set c := Real.cos (Real.arcsin m.m20) with hcdef
  have k1 : m.m00 ^ 2 + (-m.m10) ^ 2 = c ^ 2 := by rw [hc2]; linarith
  have k2 : m.m22 ^ 2 + (-m.m21) ^ 2 = c ^ 2 := by rw [hc2]; linarith
  have e1 := cos_atan2 hc k1
  have e2 := sin_atan2 hc k1
  have e3 := cos_atan2 hc k2
  have e4 := sin_atan2 hc k2
  have hne : c ≠ 0 := hc.ne'
  ext <;> simp only [M3.mul, rx, ry, rz, e1, e2, e3, e4, hs, ← hcdef] <;> field_simp
  · ring
  · linear_combination (-m.m01) * hc2 - f01 - m.m20 * f12
  · linear_combination (-m.m02) * hc2 - f02 + m.m20 * f11
  · ring
  · linear_combination (-m.m11) * hc2 - f11 + m.m20 * f02
  · linear_combination (-m.m12) * hc2 - f12 - m.m20 * f01
  · ring
  · ring
  · ring

theorem zxy_extract {m : M3} (hm : IsRotation m) (h : |m.m12| < 1) :
    ((ry (atan2 (-m.m02) m.m22)).mul (rx (Real.arcsin m.m12))).mul (rz (atan2 (-m.m10) m.m11)) = m := by
  obtain ⟨c00, c11, c22, c01, c02, c12, r00, r11, r22, r01, r02, r12, f00, f01, f02, f10, f11, f12, f20, f21, f22⟩ :=
    M3.eqs_of_isRotation hm
  obtain ⟨hc, hc2⟩ := cos_arcsin_sq h
  have hs : Real.sin (Real.arcsin m.m12) = m.m12 :=
    Real.sin_arcsin (by linarith [(abs_lt.1 h).1]) (by linarith [(abs_lt.1 h).2])
  set c := Real.cos (Real.arcsin m.m12) with hcdef
  have k1 : m.m22 ^ 2 + (-m.m02) ^ 2 = c ^ 2 := by rw [hc2]; linarith
  have k2 : m.m11 ^ 2 + (-m.m10) ^ 2 = c ^ 2 := by rw [hc2]; linarith
  have e1 := cos_atan2 hc k1
  have e2 := sin_atan2 hc k1
  have e3 := cos_atan2 hc k2
  have e4 := sin_atan2 hc k2
  have hne : c ≠ 0 := hc.ne'
  ext <;> simp only [M3.mul, rx, ry, rz, e1, e2, e3, e4, hs, ← hcdef] <;> field_simp
  · linear_combination (-m.m00) * hc2 - f00 + m.m12 * f21
  · linear_combination (-m.m01) * hc2 - f01 - m.m12 * f20
  · ring
  · ring
  · ring
  · ring
  · linear_combination (-m.m20) * hc2 - f20 - m.m12 * f01
  · linear_combination (-m.m21) * hc2 - f21 + m.m12 * f00
  · ring

end RotMat

end Verif
