import Verif.Lemmas.RotationConv

/-!
# Exponential, logarithm and power of quaternions
-/

namespace Verif.Quat

open Verif Verif.Spec

set_option linter.flexible false

/-- the quaternion with the vector part `sin t` along `n` -/
noncomputable def axisQ (n : V3) (t : ℝ) : Quat := mk' (Real.sin t • n) (Real.cos t)

theorem axisQ_unitary {n : V3} (hn : n.normSq = 1) (t : ℝ) : Unitary (axisQ n t) := by
  have := RotMat.unitary_axis hn (2 * t)
  rwa [mul_div_cancel_left₀ t two_ne_zero] at this

theorem axisQ_cross {n : V3} (hn : n.normSq = 1) (a b : ℝ) : (axisQ n a).cross (axisQ n b) = axisQ n (a + b) := by
  simp only [V3.normSq, V3.dot] at hn
  ext <;> simp only [axisQ, cross_x, cross_y, cross_z, cross_s, mk'_x, mk'_y, mk'_z, mk'_s, V3.smul_x, V3.smul_y, V3.smul_z,
    Real.sin_add, Real.cos_add]
  · ring
  · ring
  · ring
  · linear_combination -Real.sin a * Real.sin b * hn

theorem axisQ_zero (n : V3) : axisQ n 0 = Unit := by ext <;> simp [axisQ]

theorem norm_smul_unit {n : V3} (hn : n.normSq = 1) (t : ℝ) : (t • n).norm = |t| := by
  rw [V3.norm_smul, V3.norm_of_normSq_one hn, mul_one]

theorem exp_axis {eps : ℝ} (h0 : 0 ≤ eps) {n : V3} (hn : n.normSq = 1) {t : ℝ} (ht : eps < |t|) (l : ℝ) :
    (mk' (t • n) l).exp eps = (axisQ n t).scale (Real.exp l) := by
  have ht0 : t ≠ 0 := by rintro rfl; rw [abs_zero] at ht; linarith
  have hs : Real.sin |t| / |t| * t = Real.sin t := by
    rcases abs_choice t with h | h <;> rw [h]
    · field_simp
    · rw [Real.sin_neg]; field_simp
  simp only [exp, mk'_vec, mk'_s, norm_smul_unit hn, not_le.2 ht, if_false, Real.cos_abs]
  ext <;> simp [axisQ, ← hs, mul_assoc]

theorem exp_small {eps : ℝ} {v : V3} {l : ℝ} (h : v.norm ≤ eps) : (mk' v l).exp eps = Unit := by
  simp only [exp, mk'_vec, h, if_true]

theorem log_small {eps : ℝ} {q : Quat} (h : q.vec.norm ≤ eps) : q.log eps = mk' 0 (Real.log q.norm) := by
  simp only [log, h, if_true]

/-- polar form of a quaternion with non-zero vector part, and its logarithm -/
theorem log_axis {eps : ℝ} (h0 : 0 ≤ eps) {q : Quat} (h : eps < q.vec.norm) :
    ∃ (n : V3) (t : ℝ), n.normSq = 1 ∧ 0 < t ∧ t < Real.pi ∧ q = (axisQ n t).scale q.norm ∧ q.log eps = mk' (t • n) (Real.log q.norm) ∧
      q.vec.norm = q.norm * Real.sin t ∧ q.s = q.norm * Real.cos t ∧ t = atan2 q.vec.norm q.s := by
  have hv : 0 < q.vec.norm := lt_of_le_of_lt h0 h
  have hvs : 0 < q.vec.normSq := by rw [← V3.norm_sq]; positivity
  have hsum : q.s ^ 2 + q.vec.norm ^ 2 = q.norm ^ 2 := by
    rw [V3.norm_sq, norm_sq]; simp only [V3.normSq, V3.dot, normSq, vec_x, vec_y, vec_z]; ring
  have hn : 0 < q.norm := by
    rcases q.norm_nonneg.lt_or_eq with h1 | h1
    · exact h1
    · rw [← h1] at hsum; nlinarith [sq_nonneg q.s]
  have hc := cos_atan2 hn hsum
  have hs := sin_atan2 hn hsum
  have ht0 : 0 < Real.sin (atan2 q.vec.norm q.s) := by rw [hs]; positivity
  have htr : -Real.pi < atan2 q.vec.norm q.s ∧ atan2 q.vec.norm q.s ≤ Real.pi := ⟨Complex.neg_pi_lt_arg _, Complex.arg_le_pi _⟩
  have htpos : 0 < atan2 q.vec.norm q.s := by
    by_contra hneg
    have := Real.sin_nonpos_of_nonpos_of_neg_pi_le (not_lt.1 hneg) htr.1.le
    linarith
  have htlt : atan2 q.vec.norm q.s < Real.pi := by
    rcases htr.2.lt_or_eq with h1 | h1
    · exact h1
    · rw [h1, Real.sin_pi] at ht0; exact absurd ht0 (lt_irrefl 0)
  have hvn := V3.norm_smul_normalized q.vec
  refine ⟨q.vec.normalized, atan2 q.vec.norm q.s, V3.normSq_normalized hvs, htpos, htlt, ?_, ?_, ?_, ?_, rfl⟩
  · have e : q.norm * Real.sin (atan2 q.vec.norm q.s) = q.vec.norm := by rw [hs]; field_simp
    have e' : Real.cos (atan2 q.vec.norm q.s) * q.norm = q.s := by rw [hc]; field_simp
    rw [V3.ext_iff] at hvn
    simp only [V3.smul_x, V3.smul_y, V3.smul_z, vec_x, vec_y, vec_z] at hvn
    ext
    · simp only [axisQ, scale_x, mk'_x, V3.smul_x, ← mul_assoc, e, hvn.1]
    · simp only [axisQ, scale_y, mk'_y, V3.smul_y, ← mul_assoc, e, hvn.2.1]
    · simp only [axisQ, scale_z, mk'_z, V3.smul_z, ← mul_assoc, e, hvn.2.2]
    · simp only [axisQ, scale_s, mk'_s, e']
  · simp only [log, not_le.2 h, if_false]
    congr 1
    rw [V3.normalized_eq hvs]
    ext <;> simp <;> ring
  · rw [hs]; field_simp
  · rw [hc]; field_simp

theorem scale_mk' (v : V3) (l k : ℝ) : (mk' v l).scale k = mk' (k • v) (k * l) := by
  ext <;> simp [mul_comm]

theorem pow_axis {eps : ℝ} (h0 : 0 ≤ eps) {q : Quat} {n : V3} {t : ℝ} (hn : n.normSq = 1) (ht : 0 < t)
    (hl : q.log eps = mk' (t • n) (Real.log q.norm)) {k : ℝ} (hk : eps < |k| * t) :
    q.pow eps k = (axisQ n (k * t)).scale (Real.exp (k * Real.log q.norm)) := by
  rw [pow, hl, scale_mk', show k • t • n = (k * t) • n by ext <;> simp [mul_assoc]]
  exact exp_axis h0 hn (by rw [abs_mul, abs_of_pos ht]; exact hk) _

theorem pow_axis_small {eps : ℝ} {q : Quat} {n : V3} {t : ℝ} (hn : n.normSq = 1) (ht : 0 < t)
    (hl : q.log eps = mk' (t • n) (Real.log q.norm)) {k : ℝ} (hk : |k| * t ≤ eps) : q.pow eps k = Unit := by
  rw [pow, hl, scale_mk', show k • t • n = (k * t) • n by ext <;> simp [mul_assoc]]
  exact exp_small (by rw [norm_smul_unit hn, abs_mul, abs_of_pos ht]; exact hk)

theorem pow_small {eps : ℝ} (h0 : 0 ≤ eps) {q : Quat} (h : q.vec.norm ≤ eps) (k : ℝ) : q.pow eps k = Unit := by
  rw [pow, log_small h, scale_mk']
  exact exp_small (by rw [show k • (0 : V3) = 0 by ext <;> simp, V3.norm_zero]; exact h0)

/-- a power of a unitary quaternion is unitary -/
theorem unitary_pow {eps : ℝ} (h0 : 0 ≤ eps) {q : Quat} (hq : Unitary q) (k : ℝ) : Unitary (q.pow eps k) := by
  have hU : Unitary Unit := by norm_num [Unitary, Unit]
  rcases le_or_gt q.vec.norm eps with h | h
  · rw [pow_small h0 h]; exact hU
  · obtain ⟨n, t, hn, ht, -, -, hl, -⟩ := log_axis h0 h
    rcases le_or_gt (|k| * t) eps with h1 | h1
    · rw [pow_axis_small hn ht hl h1]; exact hU
    · rw [pow_axis h0 hn ht hl h1, unitary_iff_norm.1 hq, Real.log_one, mul_zero, Real.exp_zero, scale_one]
      exact axisQ_unitary hn _

theorem pow_one_of {eps : ℝ} (h0 : 0 ≤ eps) {q : Quat} (hv : eps < q.vec.norm) (ht : eps < atan2 q.vec.norm q.s) : q.pow eps 1 = q := by
  obtain ⟨n, t, hn, ht0, -, hq, hl, -, -, rfl⟩ := log_axis h0 hv
  have hpos : 0 < q.norm := by
    rcases q.norm_nonneg.lt_or_eq with h1 | h1
    · exact h1
    · rw [← h1] at hq
      have : q.vec = 0 := by rw [hq]; ext <;> simp
      rw [this, V3.norm_zero] at hv; linarith
  rw [pow_axis h0 hn ht0 hl (by rw [abs_one, one_mul]; exact ht), one_mul, one_mul, Real.exp_log hpos, ← hq]

end Verif.Quat
