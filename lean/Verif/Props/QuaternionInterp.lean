import Mathlib.Geometry.Euclidean.Angle.Unoriented.TriangleInequality
import Mathlib.Analysis.InnerProductSpace.PiL2
import Mathlib.Analysis.SpecialFunctions.Trigonometric.Bounds
import Verif.Lemmas.QuaternionExp
import Verif.Props.Angle
import Verif.Props.Quaternion

/-!
# Quaternions: interpolation, exponential, angular difference, shortest rotation (C31 - C34, C69, C73)
-/

namespace Verif.Props

open Verif Verif.Spec

set_option linter.flexible false

/-! ## C33 -/

theorem angDiff_eq {eps : ℝ} (h0 : 0 < eps) (h1 : eps ≤ 1) {q p : Quat} (hq : Unitary q) (hp : Unitary p) :
    QuatObj.angularDifferenceWith eps (some q) (some p) = .ok ⟨some (2 * Real.arccos |q.dot p|), .radian⟩ := by
  have hpn : ¬ p.norm < eps := by rw [Quat.unitary_iff_norm.1 hp]; exact not_lt.2 h1
  have hd : q.div eps p = .ok (q.cross p.conj) := by
    simp only [Quat.div, hpn, if_false, Quat.inverse_of_unitary hp h1, bind, Except.bind, pure, Except.pure]
  have hs : (q.cross p.conj).s = q.dot p := by simp only [Quat.cross_s, Quat.conj_x, Quat.conj_y, Quat.conj_z, Quat.conj_s, Quat.dot]; ring
  simp only [QuatObj.angularDifferenceWith, need, Quat.angularDifference, Quat.isUnitary_of_unitary hq h0, Quat.isUnitary_of_unitary hp h0,
    bind, Except.bind, Bool.not_true, Bool.or_self, Bool.false_eq_true, if_false, hd,
    Quat.normalize_of_unitary (Quat.unitary_cross hq (Quat.unitary_conj hp)) h1, pure, Except.pure, hs]

theorem dot_sq_le {q p : Quat} (hq : Unitary q) (hp : Unitary p) : |q.dot p| ≤ 1 := by
  have h := Quat.norm_sq (q.cross p.conj)
  rw [Quat.unitary_iff] at hq hp
  rw [← sq_le_one_iff_abs_le_one]
  have e : (q.cross p.conj).normSq = 1 := by rw [Quat.normSq_cross, Quat.normSq_conj, hq, hp, one_mul]
  have hs : (q.cross p.conj).s = q.dot p := by simp only [Quat.cross_s, Quat.conj_x, Quat.conj_y, Quat.conj_z, Quat.conj_s, Quat.dot]; ring
  rw [Quat.normSq, hs] at e
  nlinarith [mul_self_nonneg (q.cross p.conj).x, mul_self_nonneg (q.cross p.conj).y, mul_self_nonneg (q.cross p.conj).z]

/-- equality in the Cauchy inequality -/
theorem abs_dot_eq_one {q p : Quat} (hq : Unitary q) (hp : Unitary p) : |q.dot p| = 1 ↔ SameUpToSign q p := by
  have hq' : q.x ^ 2 + q.y ^ 2 + q.z ^ 2 + q.s ^ 2 = 1 := hq
  have hp' : p.x ^ 2 + p.y ^ 2 + p.z ^ 2 + p.s ^ 2 = 1 := hp
  have zero : ∀ a b c d : ℝ, a ^ 2 + b ^ 2 + c ^ 2 + d ^ 2 = 0 → a = 0 ∧ b = 0 ∧ c = 0 ∧ d = 0 := by
    intro a b c d h
    refine ⟨?_, ?_, ?_, ?_⟩ <;> nlinarith [sq_nonneg a, sq_nonneg b, sq_nonneg c, sq_nonneg d]
  constructor
  · intro h
    rcases eq_or_eq_neg_of_abs_eq h with h | h <;> simp only [Quat.dot] at h
    · left
      obtain ⟨a, b, c, d⟩ := zero (q.x - p.x) (q.y - p.y) (q.z - p.z) (q.s - p.s) (by nlinarith)
      ext <;> simp <;> linarith
    · right
      obtain ⟨a, b, c, d⟩ := zero (q.x + p.x) (q.y + p.y) (q.z + p.z) (q.s + p.s) (by nlinarith)
      ext <;> simp <;> linarith
  · rintro (h | h)
    · have e1 := congrArg QuaternionAlgebra.imI h
      have e2 := congrArg QuaternionAlgebra.imJ h
      have e3 := congrArg QuaternionAlgebra.imK h
      have e4 := congrArg QuaternionAlgebra.re h
      simp at e1 e2 e3 e4
      have : q.dot p = 1 := by simp only [Quat.dot, e1, e2, e3, e4]; linarith
      rw [this, abs_one]
    · have e1 := congrArg QuaternionAlgebra.imI h
      have e2 := congrArg QuaternionAlgebra.imJ h
      have e3 := congrArg QuaternionAlgebra.imK h
      have e4 := congrArg QuaternionAlgebra.re h
      simp at e1 e2 e3 e4
      have : q.dot p = -1 := by simp only [Quat.dot, e1, e2, e3, e4]; linarith
      rw [this, abs_neg, abs_one]

/-- The angle in radians returned by `angularDifferenceWith`. -/
def Differ (eps : ℝ) (q p : Quat) (d : ℝ) : Prop := QuatObj.angularDifferenceWith eps (some q) (some p) = .ok ⟨some d, .radian⟩

/-- **C33.** The angular difference is the angle of the relative rotation: between 0 and π, with the cosine given by the trace of the
relative rotation matrix. It is symmetric, zero exactly for quaternions that are the same up to sign, and invariant. -/
theorem C33_distance (eps : ℝ) (h0 : 0 < eps) (h1 : eps ≤ 1) (q p r : Quat) (hq : Unitary q) (hp : Unitary p) (hr : Unitary r) :
    ∃ d, Differ eps q p d ∧ 0 ≤ d ∧ d ≤ Real.pi ∧ Differ eps p q d ∧ (d = 0 ↔ SameUpToSign q p) ∧
      Differ eps (r.cross q) (r.cross p) d ∧ Differ eps (q.cross r) (p.cross r) d ∧
      ∃ m, RotMat.Quaternion eps (some (q.cross p.conj)) = .ok m ∧ 1 + 2 * Real.cos d = m.m00 + m.m11 + m.m22 := by
  have hle := dot_sq_le hq hp
  have hrn := Quat.unitary_iff.1 hr
  refine ⟨2 * Real.arccos |q.dot p|, angDiff_eq h0 h1 hq hp, ?_, ?_, ?_, ?_, ?_, ?_, ?_⟩
  · linarith [Real.arccos_nonneg |q.dot p|]
  · have : Real.arccos |q.dot p| ≤ Real.pi / 2 := Real.arccos_le_pi_div_two.2 (abs_nonneg _)
    linarith
  · have : p.dot q = q.dot p := by simp only [Quat.dot]; ring
    rw [← this]; exact angDiff_eq h0 h1 hp hq
  · rw [mul_eq_zero, Real.arccos_eq_zero, ← abs_dot_eq_one hq hp]
    constructor
    · rintro (h | h)
      · norm_num at h
      · exact le_antisymm hle h
    · intro h; right; rw [h]
  · have : (r.cross q).dot (r.cross p) = q.dot p := by
      have e : (r.cross q).dot (r.cross p) = r.normSq * q.dot p := by
        simp only [Quat.dot, Quat.normSq, Quat.cross_x, Quat.cross_y, Quat.cross_z, Quat.cross_s]; ring
      rw [e, hrn, one_mul]
    rw [← this]; exact angDiff_eq h0 h1 (Quat.unitary_cross hr hq) (Quat.unitary_cross hr hp)
  · have : (q.cross r).dot (p.cross r) = q.dot p := by
      have e : (q.cross r).dot (p.cross r) = r.normSq * q.dot p := by
        simp only [Quat.dot, Quat.normSq, Quat.cross_x, Quat.cross_y, Quat.cross_z, Quat.cross_s]; ring
      rw [e, hrn, one_mul]
    rw [← this]; exact angDiff_eq h0 h1 (Quat.unitary_cross hq hr) (Quat.unitary_cross hp hr)
  · have hu := Quat.unitary_cross hq (Quat.unitary_conj hp)
    refine ⟨_, rotMat_quaternion_eq h0 hu, ?_⟩
    have hs : (q.cross p.conj).s = q.dot p := by
      simp only [Quat.cross_s, Quat.conj_x, Quat.conj_y, Quat.conj_z, Quat.conj_s, Quat.dot]; ring
    have hu' := Quat.unitary_iff.1 hu
    simp only [Quat.normSq] at hu'
    rw [Real.cos_two_mul, Real.cos_arccos (by linarith [abs_nonneg (q.dot p)]) hle, sq_abs, ← hs]
    simp only [RotMat.ofQuat]
    linarith

theorem toEuclidean_inner (q p : Quat) :
    inner ℝ (WithLp.toLp 2 ![q.x, q.y, q.z, q.s] : EuclideanSpace ℝ (Fin 4)) (WithLp.toLp 2 ![p.x, p.y, p.z, p.s]) = q.dot p := by
  simp [PiLp.inner_apply, Fin.sum_univ_four, Quat.dot]; ring

theorem arccos_triangle {q p r : Quat} (hq : Unitary q) (hp : Unitary p) (hr : Unitary r) :
    Real.arccos (q.dot r) ≤ Real.arccos (q.dot p) + Real.arccos (p.dot r) := by
  have hn : ∀ {a : Quat}, Unitary a → ‖(WithLp.toLp 2 ![a.x, a.y, a.z, a.s] : EuclideanSpace ℝ (Fin 4))‖ = 1 := by
    intro a ha
    have : ‖(WithLp.toLp 2 ![a.x, a.y, a.z, a.s] : EuclideanSpace ℝ (Fin 4))‖ ^ 2 = 1 := by
      rw [← real_inner_self_eq_norm_sq, toEuclidean_inner]
      have h : a.x ^ 2 + a.y ^ 2 + a.z ^ 2 + a.s ^ 2 = 1 := ha
      simp only [Quat.dot]; linarith
    exact (pow_eq_one_iff_of_nonneg (norm_nonneg _) two_ne_zero).1 this
  have ha : ∀ {a b : Quat}, Unitary a → Unitary b → InnerProductGeometry.angle
      (WithLp.toLp 2 ![a.x, a.y, a.z, a.s] : EuclideanSpace ℝ (Fin 4)) (WithLp.toLp 2 ![b.x, b.y, b.z, b.s]) = Real.arccos (a.dot b) := by
    intro a b ha hb
    rw [InnerProductGeometry.angle, hn ha, hn hb, toEuclidean_inner]; norm_num
  have := InnerProductGeometry.angle_le_angle_add_angle (WithLp.toLp 2 ![q.x, q.y, q.z, q.s] : EuclideanSpace ℝ (Fin 4))
    (WithLp.toLp 2 ![p.x, p.y, p.z, p.s]) (WithLp.toLp 2 ![r.x, r.y, r.z, r.s])
  rwa [ha hq hr, ha hq hp, ha hp hr] at this

/-- **C33.** Triangle inequality. -/
theorem C33_triangle (eps : ℝ) (h0 : 0 < eps) (h1 : eps ≤ 1) (q p r : Quat) (hq : Unitary q) (hp : Unitary p) (hr : Unitary r) :
    ∃ a b c, Differ eps q p a ∧ Differ eps p r b ∧ Differ eps q r c ∧ c ≤ a + b := by
  refine ⟨_, _, _, angDiff_eq h0 h1 hq hp, angDiff_eq h0 h1 hp hr, angDiff_eq h0 h1 hq hr, ?_⟩
  have neg : ∀ {a : Quat}, Unitary a → Unitary (a.scale (-1)) := by
    intro a ha; rw [Quat.unitary_iff] at *; rw [Quat.normSq_scale, ha]; norm_num
  have dl : ∀ a b : Quat, (a.scale (-1)).dot b = -a.dot b := by intro a b; simp [Quat.dot]; ring
  have dr : ∀ a b : Quat, a.dot (b.scale (-1)) = -a.dot b := by intro a b; simp [Quat.dot]; ring
  obtain ⟨q', hq', e1, e3⟩ : ∃ q', Unitary q' ∧ q'.dot p = |q.dot p| ∧ |q'.dot r| = |q.dot r| := by
    rcases abs_choice (q.dot p) with h | h
    · exact ⟨q, hq, h.symm, rfl⟩
    · exact ⟨q.scale (-1), neg hq, by rw [dl, h], by rw [dl, abs_neg]⟩
  obtain ⟨r', hr', e2, e4⟩ : ∃ r', Unitary r' ∧ p.dot r' = |p.dot r| ∧ |q'.dot r'| = |q'.dot r| := by
    rcases abs_choice (p.dot r) with h | h
    · exact ⟨r, hr, h.symm, rfl⟩
    · exact ⟨r.scale (-1), neg hr, by rw [dr, h], by rw [dr, abs_neg]⟩
  have h := arccos_triangle hq' hp hr'
  rw [e1, e2] at h
  have h2 : Real.arccos |q.dot r| ≤ Real.arccos (q'.dot r') := by
    rw [← e3, ← e4]; exact Real.arccos_le_arccos (le_abs_self _)
  linarith

/-- **C33.** Undefined operands throw; so do operands that are not unitary up to the tolerance. -/
theorem C33_throws (eps : ℝ) (h0 : 0 < eps) (q p : Quat) (o : Option Quat) :
    QuatObj.angularDifferenceWith eps none o = .error .undefined ∧
    (|q.norm - 1| ≤ eps → QuatObj.angularDifferenceWith eps (some q) none = .error .undefined) ∧
    (|q.norm - 1| > eps ∨ |p.norm - 1| > eps → QuatObj.angularDifferenceWith eps (some q) (some p) = .error .runtimeError) := by
  refine ⟨rfl, ?_, ?_⟩
  · intro h
    have : q.isUnitary eps = .ok true := by simp [Quat.isUnitary, not_le.2 h0, h]
    simp [QuatObj.angularDifferenceWith, need, this, bind, Except.bind]
  · have u : ∀ a : Quat, a.isUnitary eps = .ok (decide (|a.norm - 1| ≤ eps)) := fun a => by simp [Quat.isUnitary, not_le.2 h0]
    intro h
    by_cases hq : |q.norm - 1| ≤ eps
    · have hp : ¬ |p.norm - 1| ≤ eps := by
        rcases h with h | h
        · exact absurd hq (not_le.2 h)
        · exact not_le.2 h
      simp [QuatObj.angularDifferenceWith, Quat.angularDifference, need, u, hq, hp, bind, Except.bind]
    · simp [QuatObj.angularDifferenceWith, need, u, hq, bind, Except.bind]

example : ∃ d, Differ (1 / 1000) ⟨1 / 5, -2 / 5, 2 / 5, -4 / 5⟩ ⟨0, 3 / 5, 0, 4 / 5⟩ d ∧ 0 < d :=
  let ⟨d, h1, h2, _, _, h3, _⟩ := C33_distance (1 / 1000) (by norm_num) (by norm_num) _ _ _ unitary_example'.1 unitary_example'.2 unitary_example
  ⟨d, h1, lt_of_le_of_ne h2 (fun h => by
    rcases h3.1 h.symm with h | h <;> · have := congrArg QuaternionAlgebra.imI h; simp at this)⟩

/-! ## C69 -/

theorem inRadians_range {a : Angle} {x : ℝ} (h : Measures a x) {t : ℝ} (h1 : 0 ≤ t) (h2 : t < 2 * Real.pi)
    (hs : SameDirection (t / (2 * Real.pi)) x) : a.inRadians (some 0) (some (2 * Real.pi)) = .ok t := by
  obtain ⟨r, hr, -, -, -, hu⟩ := (C17_ranged_conversions.1).1 a x 0 (2 * Real.pi) h (by simp [perTurn])
  rw [hr, hu t h1 h2 hs]

/-- **C69.** `isNear` compares the angular difference with the tolerance, for a tolerance of less than one turn. Missing from the full
statement: negative tolerances and those of one turn or more, where it is false (`C69_negative_tolerance`, `C69_full_turn`). -/
theorem C69_isNear_partial (eps : ℝ) (h0 : 0 < eps) (h1 : eps ≤ 1) (q p : Quat) (hq : Unitary q) (hp : Unitary p) (tol : Angle) (x : ℝ)
    (ht : Measures tol x) (hx0 : 0 ≤ x) (hx1 : x < 1) :
    ∃ d, Differ eps q p d ∧ q.isNear eps p tol = .ok (decide (d ≤ 2 * Real.pi * x)) := by
  obtain ⟨d, hd, hd0, hd1, -⟩ := C33_distance eps h0 h1 q p q hq hp hq
  have hpi := Real.pi_pos
  refine ⟨d, hd, ?_⟩
  have hu : q.isUnitary eps = .ok true := Quat.isUnitary_of_unitary hq h0
  have hd' : q.angularDifference eps p = .ok ⟨some d, .radian⟩ := by
    simpa [Differ, QuatObj.angularDifferenceWith, need, hu, bind, Except.bind] using hd
  have hdm : Measures ⟨some d, .radian⟩ (d / (2 * Real.pi)) := by
    rw [Angle.measures_mk]; refine ⟨by simp, ?_⟩; simp only [perTurn]; field_simp
  have e1 := inRadians_range hdm hd0 (by linarith) ⟨0, by simp⟩
  have e2 := inRadians_range ht (t := 2 * Real.pi * x) (by positivity) (by nlinarith) ⟨0, by field_simp; simp⟩
  simp only [Quat.isNear, (Angle.defined_iff tol).2 ⟨x, ht⟩, Bool.not_true, Bool.false_eq_true, if_false, hd', e1, e2, bind, Except.bind,
    pure, Except.pure]

/-- **C69.** The property is false for a negative tolerance: within half a turn of zero it accepts everything. -/
theorem C69_negative_tolerance (eps : ℝ) (h0 : 0 < eps) (h1 : eps ≤ 1) (q p : Quat) (hq : Unitary q) (hp : Unitary p) (tol : Angle)
    (x : ℝ) (ht : Measures tol x) (hx0 : -1 / 2 ≤ x) (hx1 : x < 0) : q.isNear eps p tol = .ok true := by
  obtain ⟨d, hd, hd0, hd1, -⟩ := C33_distance eps h0 h1 q p q hq hp hq
  have hpi := Real.pi_pos
  have hu : q.isUnitary eps = .ok true := Quat.isUnitary_of_unitary hq h0
  have hd' : q.angularDifference eps p = .ok ⟨some d, .radian⟩ := by
    simpa [Differ, QuatObj.angularDifferenceWith, need, hu, bind, Except.bind] using hd
  have hdm : Measures ⟨some d, .radian⟩ (d / (2 * Real.pi)) := by
    rw [Angle.measures_mk]; refine ⟨by simp, ?_⟩; simp only [perTurn]; field_simp
  have e1 := inRadians_range hdm hd0 (by linarith) ⟨0, by simp⟩
  have e2 := inRadians_range ht (t := 2 * Real.pi * (x + 1)) (by nlinarith) (by nlinarith) ⟨1, by field_simp; simp⟩
  have hle : d ≤ 2 * Real.pi * (x + 1) := by nlinarith
  simp only [Quat.isNear, (Angle.defined_iff tol).2 ⟨x, ht⟩, Bool.not_true, Bool.false_eq_true, if_false, hd', e1, e2, bind, Except.bind,
    pure, Except.pure, hle, decide_true]

/-- **C69.** The property is false for a tolerance of one turn: it accepts only the same rotation. -/
theorem C69_full_turn (eps : ℝ) (h0 : 0 < eps) (h1 : eps ≤ 1) (q p : Quat) (hq : Unitary q) (hp : Unitary p) (h : ¬ SameUpToSign q p) :
    q.isNear eps p ⟨some 360, .degree⟩ = .ok false := by
  obtain ⟨d, hd, hd0, hd1, -, hz, -⟩ := C33_distance eps h0 h1 q p q hq hp hq
  have hpi := Real.pi_pos
  have ht : Measures ⟨some 360, .degree⟩ 1 := Angle.measures_mk.2 ⟨by decide, by norm_num [perTurn]⟩
  have hu : q.isUnitary eps = .ok true := Quat.isUnitary_of_unitary hq h0
  have hd' : q.angularDifference eps p = .ok ⟨some d, .radian⟩ := by
    simpa [Differ, QuatObj.angularDifferenceWith, need, hu, bind, Except.bind] using hd
  have hdm : Measures ⟨some d, .radian⟩ (d / (2 * Real.pi)) := by
    rw [Angle.measures_mk]; refine ⟨by simp, ?_⟩; simp only [perTurn]; field_simp
  have e1 := inRadians_range hdm hd0 (by linarith) ⟨0, by simp⟩
  have e2 := inRadians_range ht (t := 0) le_rfl (by linarith) ⟨-1, by simp⟩
  have hne : ¬ d ≤ 0 := fun hle => h (hz.1 (le_antisymm hle hd0))
  simp only [Quat.isNear, (Angle.defined_iff _).2 ⟨1, ht⟩, Bool.not_true, Bool.false_eq_true, if_false, hd', e1, e2, bind, Except.bind,
    pure, Except.pure, hne, decide_false]

example : (⟨1 / 5, -2 / 5, 2 / 5, -4 / 5⟩ : Quat).isNear (1 / 1000) ⟨0, 3 / 5, 0, 4 / 5⟩ ⟨some (-1), .degree⟩ = .ok true :=
  C69_negative_tolerance _ (by norm_num) (by norm_num) _ _ unitary_example'.1 unitary_example'.2 _ (-1 / 360)
    (Angle.measures_mk.2 ⟨by decide, by norm_num [perTurn]⟩) (by norm_num) (by norm_num)

/-! ## C34 -/

/-- the quaternion that `ShortestRotation` normalizes, for unit vectors -/
theorem shortest_unit {a b : V3} (h1 : a.normSq = 1) (h2 : b.normSq = 1) (hd : 0 < 1 + a.dot b) :
    ∀ w : Quat, w = ⟨(b.cross a).x, (b.cross a).y, (b.cross a).z, 1 + a.dot b⟩ →
      w.normSq = 2 * (1 + a.dot b) ∧ (RotMat.ofQuat w).mulVec a = (2 * (1 + a.dot b)) • b := by
  rintro w rfl
  have h1' : a.x ^ 2 + a.y ^ 2 + a.z ^ 2 = 1 := by simp only [V3.normSq, V3.dot] at h1; linarith
  have h2' : b.x ^ 2 + b.y ^ 2 + b.z ^ 2 = 1 := by simp only [V3.normSq, V3.dot] at h2; linarith
  constructor
  · have e := V3.lagrange b a
    rw [h1, h2, V3.dot_comm b a] at e
    simp only [V3.normSq, V3.dot] at e
    simp only [Quat.normSq, V3.dot]; linarith
  · have e : ∀ n m : ℝ, n = a.normSq → m = b.normSq → (RotMat.ofQuat ⟨(b.cross a).x, (b.cross a).y, (b.cross a).z, 1 + a.dot b⟩).mulVec a =
        (2 * n * (1 + a.dot b)) • b + (1 - n * m) • a := by
      rintro n m rfl rfl
      ext <;> simp only [RotMat.ofQuat, M3.mulVec, V3.add_x, V3.add_y, V3.add_z, V3.smul_x, V3.smul_y, V3.smul_z, V3.normSq, V3.dot,
        V3.cross] <;> ring
    rw [e _ _ rfl rfl, h1, h2]
    ext <;> simp

/-- **C34.** For non-zero vectors `ShortestRotation` throws exactly when they are too close to opposite; otherwise its result is unitary,
rotates the direction of the first vector on that of the second, and no rotation that does so turns less. -/
theorem C34_shortest_rotation (eps : ℝ) (h0 : 0 < eps) (u v : V3) (hu : u ≠ 0) (hv : v ≠ 0) :
    (QuatObj.ShortestRotation eps (some u) (some v) = .error .runtimeError ∧ 2 * (1 + u.dot v / (u.norm * v.norm)) < eps ^ 2) ∨
    ∃ q, QuatObj.ShortestRotation eps (some u) (some v) = .ok q ∧ Unitary q ∧ 0 ≤ q.s ∧
      QuatObj.rotateVector (some q) (some u.normalized) (some eps) = .ok v.normalized ∧
      2 * q.s ^ 2 - 1 = u.dot v / (u.norm * v.norm) ∧ eps ^ 2 ≤ 2 * (1 + u.dot v / (u.norm * v.norm)) ∧
      ∀ p, Unitary p → QuatObj.rotateVector (some p) (some u.normalized) (some eps) = .ok v.normalized → |p.s| ≤ q.s := by
  have hup : 0 < u.normSq := lt_of_le_of_ne u.normSq_nonneg (fun h => hu (V3.normSq_eq_zero.1 h.symm))
  have hvp : 0 < v.normSq := lt_of_le_of_ne v.normSq_nonneg (fun h => hv (V3.normSq_eq_zero.1 h.symm))
  rw [← V3.dot_normalized hup hvp]
  have h1 := V3.normSq_normalized hup
  have h2 := V3.normSq_normalized hvp
  simp only [QuatObj.ShortestRotation, need, bind, Except.bind, Quat.ShortestRotation]
  generalize u.normalized = a at *
  generalize v.normalized = b at *
  have hle : |a.dot b| ≤ 1 := by
    have := V3.abs_dot_le a b
    rwa [V3.norm_of_normSq_one h1, V3.norm_of_normSq_one h2, one_mul] at this
  obtain ⟨w, hw⟩ : ∃ w : Quat, w = ⟨(b.cross a).x, (b.cross a).y, (b.cross a).z, 1 + a.dot b⟩ := ⟨_, rfl⟩
  have hd0 : 0 ≤ 1 + a.dot b := by linarith [(abs_le.1 hle).1]
  have hn : w.normSq = 2 * (1 + a.dot b) := by
    have e := V3.lagrange b a
    rw [h1, h2, V3.dot_comm b a] at e
    simp only [V3.normSq, V3.dot] at e
    rw [hw]; simp only [Quat.normSq, V3.dot]; linarith
  rw [← hw]
  have hns : w.norm ^ 2 = 2 * (1 + a.dot b) := by rw [Quat.norm_sq, hn]
  rcases lt_or_ge w.norm eps with h | h
  · left
    refine ⟨Quat.normalize_error h, ?_⟩
    rw [← hns]; exact pow_lt_pow_left₀ h w.norm_nonneg two_ne_zero
  · right
    have hwp : 0 < w.norm := lt_of_lt_of_le h0 h
    have hdp : 0 < 1 + a.dot b := by nlinarith
    have hun := Quat.unitary_scale_inv_norm hwp
    have hss : (w.scale (1 / w.norm)).s ^ 2 = (1 + a.dot b) / 2 := by
      have : w.s = 1 + a.dot b := by rw [hw]
      rw [Quat.scale_s, this, mul_pow, div_pow, one_pow, hns]; field_simp
    have hs0 : 0 ≤ (w.scale (1 / w.norm)).s := by
      have : w.s = 1 + a.dot b := by rw [hw]
      rw [Quat.scale_s, this]; exact mul_nonneg hd0 (one_div_nonneg.2 w.norm_nonneg)
    refine ⟨_, Quat.normalize_eq h, hun, hs0, ?_, ?_, ?_, ?_⟩
    · rw [rotateVector_unitary h0 a hun]
      have e := (shortest_unit h1 h2 hdp w hw).2
      have e2 : (RotMat.ofQuat (w.scale (1 / w.norm))).mulVec a = (1 / w.norm ^ 2) • (RotMat.ofQuat w).mulVec a := by
        ext <;> simp [RotMat.ofQuat, M3.mulVec] <;> ring
      rw [e2, e, hns]
      congr 1
      ext <;> simp <;> field_simp
    · rw [hss]; ring
    · rw [← hns]; exact pow_le_pow_left₀ h0.le h 2
    · intro p hp hpr
      rw [rotateVector_unitary h0 a hp, Except.ok.injEq] at hpr
      have hp' : p.x ^ 2 + p.y ^ 2 + p.z ^ 2 + p.s ^ 2 = 1 := hp
      have h1' : a.x ^ 2 + a.y ^ 2 + a.z ^ 2 = 1 := by simp only [V3.normSq, V3.dot] at h1; linarith
      have hdot : a.dot b = 2 * p.s ^ 2 - 1 + 2 * (p.x * a.x + p.y * a.y + p.z * a.z) ^ 2 := by
        have e : a.dot ((RotMat.ofQuat p).mulVec a) = (p.s ^ 2 - (p.x ^ 2 + p.y ^ 2 + p.z ^ 2)) * a.normSq +
            2 * (p.x * a.x + p.y * a.y + p.z * a.z) ^ 2 := by
          simp only [V3.dot, V3.normSq, RotMat.ofQuat, M3.mulVec]; ring
        rw [hpr, h1] at e
        rw [e]; linarith
      rw [← abs_of_nonneg hs0, ← sq_le_sq, hss, hdot]
      nlinarith [sq_nonneg (p.x * a.x + p.y * a.y + p.z * a.z)]

/-- **C34.** Undefined vectors throw; a zero vector gives the identity. -/
theorem C34_special (eps : ℝ) (h1 : eps ≤ 1) (u v : Option V3) (a b : V3) :
    (u = none ∨ v = none → QuatObj.ShortestRotation eps u v = .error .undefined) ∧
    (a = 0 ∨ b = 0 → QuatObj.ShortestRotation eps (some a) (some b) = .ok Quat.Unit) := by
  constructor
  · rintro (rfl | rfl)
    · rfl
    · cases u <;> rfl
  · intro h
    have e : (⟨(b.normalized.cross a.normalized).x, (b.normalized.cross a.normalized).y, (b.normalized.cross a.normalized).z,
        1 + a.normalized.dot b.normalized⟩ : Quat) = Quat.Unit := by
      rcases h with rfl | rfl <;> ext <;> simp [V3.cross, V3.dot]
    simp only [QuatObj.ShortestRotation, need, bind, Except.bind, Quat.ShortestRotation, e]
    exact Quat.normalize_of_unitary (by norm_num [Unitary, Quat.Unit]) h1

example : ∃ q, QuatObj.ShortestRotation 1 (some ⟨2, 0, 0⟩) (some ⟨0, 3, 0⟩) = .ok q ∧ Unitary q := by
  rcases C34_shortest_rotation 1 one_pos ⟨2, 0, 0⟩ ⟨0, 3, 0⟩ (fun h => by simpa using congrArg V3.x h)
    (fun h => by simpa using congrArg V3.y h) with ⟨-, h⟩ | ⟨q, h1, h2, -⟩
  · norm_num [V3.dot] at h
  · exact ⟨q, h1, h2⟩

/-! ## C31 -/

/-- **C31.** `LERP` is affine; a ratio outside of [0, 1] throws, and so does any undefined argument. -/
theorem C31_lerp (q p : Quat) (r : ℝ) :
    (QuatObj.LERP (some q) (some p) (some 0) = .ok q ∧ QuatObj.LERP (some q) (some p) (some 1) = .ok p) ∧
    (0 ≤ r → r ≤ 1 → ∃ l, QuatObj.LERP (some q) (some p) (some r) = .ok l ∧
      hamilton l = (1 - r) • hamilton q + r • hamilton p) ∧
    (∀ a b : Option Quat, r < 0 ∨ 1 < r → QuatObj.LERP a b (some r) = .error .runtimeError) ∧
    (∀ (a b : Option Quat) (c : Option ℝ), a = none ∨ b = none ∨ c = none → ∃ e, QuatObj.LERP a b c = .error e) := by
  refine ⟨⟨?_, ?_⟩, ?_, ?_, ?_⟩
  · simp only [QuatObj.LERP, Quat.LERP, need, bind, Except.bind, lt_irrefl, not_lt.2 (zero_le_one' ℝ), or_self, if_false, Except.ok.injEq]
    ext <;> simp
  · simp only [QuatObj.LERP, Quat.LERP, need, bind, Except.bind, lt_irrefl, not_lt.2 (zero_le_one' ℝ), or_self, if_false, Except.ok.injEq]
    ext <;> simp
  · intro h0 h1
    refine ⟨(q.scale (1 - r)).plus (p.scale r), by simp [QuatObj.LERP, Quat.LERP, need, bind, Except.bind, not_lt.2 h0, not_lt.2 h1], ?_⟩
    ext <;> simp [mul_comm]
  · intro a b h
    simp [QuatObj.LERP, need, bind, Except.bind, h]
  · intro a b c h
    cases c with
    | none => exact ⟨_, rfl⟩
    | some c =>
      by_cases hc : c < 0 ∨ 1 < c
      · exact ⟨.runtimeError, by simp [QuatObj.LERP, need, bind, Except.bind, hc]⟩
      · cases a with
        | none => exact ⟨.undefined, by simp [QuatObj.LERP, need, bind, Except.bind, hc]⟩
        | some a =>
          cases b with
          | none => exact ⟨.undefined, by simp [QuatObj.LERP, need, bind, Except.bind, hc]⟩
          | some b => simp at h

/-- **C31.** `NLERP` throws exactly when the interpolated quaternion is too short; otherwise its result is unitary. It hits the end
points. -/
theorem C31_nlerp (eps : ℝ) (h0 : 0 < eps) (h1 : eps ≤ 1) (q p : Quat) (r : ℝ) (hr0 : 0 ≤ r) (hr1 : r ≤ 1) :
    (∃ l, q.LERP p r = .ok l ∧ ((l.norm < eps ∧ q.NLERP eps p r = .error .runtimeError) ∨
      (eps ≤ l.norm ∧ ∃ n, q.NLERP eps p r = .ok n ∧ Unitary n ∧ hamilton l = l.norm • hamilton n))) ∧
    (Unitary q → q.NLERP eps p 0 = .ok q) ∧ (Unitary p → q.NLERP eps p 1 = .ok p) := by
  refine ⟨?_, ?_, ?_⟩
  · have hl : q.LERP p r = .ok ((q.scale (1 - r)).plus (p.scale r)) := by simp [Quat.LERP, not_lt.2 hr0, not_lt.2 hr1]
    refine ⟨_, hl, ?_⟩
    simp only [Quat.NLERP, hl, bind, Except.bind]
    generalize (q.scale (1 - r)).plus (p.scale r) = l
    rcases lt_or_ge l.norm eps with h | h
    · exact Or.inl ⟨h, Quat.normalize_error h⟩
    · have hp : 0 < l.norm := lt_of_lt_of_le h0 h
      refine Or.inr ⟨h, _, Quat.normalize_eq h, Quat.unitary_scale_inv_norm hp, ?_⟩
      ext <;> simp <;> field_simp
  · intro hq
    have : q.LERP p 0 = .ok q := by
      have e : (q.scale (1 - 0)).plus (p.scale 0) = q := by ext <;> simp
      simp only [Quat.LERP, e, lt_irrefl, not_lt.2 (zero_le_one' ℝ), or_self, if_false]
    simp only [Quat.NLERP, this, bind, Except.bind, Quat.normalize_of_unitary hq h1]
  · intro hp
    have : q.LERP p 1 = .ok p := by
      have e : (q.scale (1 - 1)).plus (p.scale 1) = p := by ext <;> simp
      simp only [Quat.LERP, e, lt_irrefl, not_lt.2 (zero_le_one' ℝ), or_self, if_false]
    simp only [Quat.NLERP, this, bind, Except.bind, Quat.normalize_of_unitary hp h1]

/-- The relative rotation that `SLERP` takes a power of: along the shorter way. -/
def relative (q p : Quat) : Quat → Prop := fun x =>
  Unitary x ∧ 0 ≤ x.s ∧ x.s = |q.dot p| ∧ (q.cross x = p ∨ q.cross x = p.scale (-1))

theorem slerp_eq {eps : ℝ} (h0 : 0 < eps) (h1 : eps ≤ 1) {q p : Quat} (hq : Unitary q) (hp : Unitary p) {r : ℝ} (hr0 : 0 ≤ r) (hr1 : r ≤ 1) :
    ∃ x, relative q p x ∧ QuatObj.SLERP eps (some q) (some p) (some r) = .ok (q.cross (x.pow eps r)) := by
  have hqn := Quat.unitary_iff.1 hq
  have hx : Unitary (q.conj.cross p) := Quat.unitary_cross (Quat.unitary_conj hq) hp
  have hxs : (q.conj.cross p).s = q.dot p := by
    simp only [Quat.cross_s, Quat.conj_x, Quat.conj_y, Quat.conj_z, Quat.conj_s, Quat.dot]; ring
  have hqx : q.cross (q.conj.cross p) = p := by
    rw [← Quat.cross_assoc, Quat.cross_conj, hqn, Quat.scale_one, Quat.Unit_cross]
  have hno : ¬ (r < 0 ∨ 1 < r) := by push Not; exact ⟨hr0, hr1⟩
  by_cases hd : 0 ≤ q.dot p
  · refine ⟨q.conj.cross p, ⟨hx, by rw [hxs]; exact hd, by rw [hxs, abs_of_nonneg hd], Or.inl hqx⟩, ?_⟩
    simp only [QuatObj.SLERP, Quat.SLERP, need, bind, Except.bind, hno, if_false, Quat.inverse_of_unitary hq h1, hd, if_true]
    exact Quat.normalize_of_unitary (Quat.unitary_cross hq (Quat.unitary_pow h0.le hx r)) h1
  · have hx' : (q.conj.scale (-1)).cross p = (q.conj.cross p).scale (-1) := Quat.scale_cross _ _ _
    have hxu : Unitary ((q.conj.cross p).scale (-1)) := by
      rw [Quat.unitary_iff] at *; rw [Quat.normSq_scale, hx]; norm_num
    have hneg : q.dot p < 0 := not_le.1 hd
    refine ⟨(q.conj.cross p).scale (-1), ⟨hxu, by rw [Quat.scale_s, hxs]; linarith, by rw [Quat.scale_s, hxs, abs_of_neg hneg]; ring,
      Or.inr (by rw [Quat.cross_scale, hqx])⟩, ?_⟩
    simp only [QuatObj.SLERP, Quat.SLERP, need, bind, Except.bind, hno, if_false, Quat.inverse_of_unitary hq h1, hd, hx']
    exact Quat.normalize_of_unitary (Quat.unitary_cross hq (Quat.unitary_pow h0.le hxu r)) h1

/-- a unitary quaternion with small vector part is near the identity -/
theorem near_unit {x : Quat} (hx : Unitary x) (hs : 0 ≤ x.s) {eps : ℝ} (hv : x.vec.norm ≤ eps) :
    x.x ^ 2 + x.y ^ 2 + x.z ^ 2 + (x.s - 1) ^ 2 ≤ 2 * eps ^ 2 := by
  have hx' : x.x ^ 2 + x.y ^ 2 + x.z ^ 2 + x.s ^ 2 = 1 := hx
  have hv2 : x.x ^ 2 + x.y ^ 2 + x.z ^ 2 ≤ eps ^ 2 := by
    have e := V3.norm_sq x.vec
    simp only [V3.normSq, V3.dot, Quat.vec_x, Quat.vec_y, Quat.vec_z] at e
    have := pow_le_pow_left₀ (V3.norm_nonneg x.vec) hv 2
    linarith
  have h1 : x.s ≤ 1 := by nlinarith [sq_nonneg x.x, sq_nonneg x.y, sq_nonneg x.z]
  nlinarith [mul_nonneg hs (sub_nonneg.2 h1)]

theorem angle_gt {eps : ℝ} (h0 : 0 < eps) {x : Quat} (hx : Unitary x) (hv : eps < x.vec.norm) : eps < atan2 x.vec.norm x.s := by
  obtain ⟨n, t, hn, ht, -, -, -, hsin, -, rfl⟩ := Quat.log_axis h0.le hv
  rw [Quat.unitary_iff_norm.1 hx, one_mul] at hsin
  rw [hsin] at hv
  exact lt_of_lt_of_le hv (Real.sin_lt ht).le

/-- **C31.** `SLERP` of unitary quaternions returns a unitary quaternion for every ratio in [0, 1]. At 0 it gives the first one. At 1 it
gives the second one up to sign, exactly when the relative rotation is above the threshold, and otherwise up to `eps √2`. -/
theorem C31_slerp (eps : ℝ) (h0 : 0 < eps) (h1 : eps ≤ 1) (q p : Quat) (hq : Unitary q) (hp : Unitary p) :
    (∀ r, 0 ≤ r → r ≤ 1 → ∃ n, QuatObj.SLERP eps (some q) (some p) (some r) = .ok n ∧ Unitary n) ∧
    QuatObj.SLERP eps (some q) (some p) (some 0) = .ok q ∧
    (∃ n, QuatObj.SLERP eps (some q) (some p) (some 1) = .ok n ∧
      (eps ^ 2 < 1 - (q.dot p) ^ 2 → SameUpToSign n p) ∧
      ∃ m, SameUpToSign m p ∧ (n.x - m.x) ^ 2 + (n.y - m.y) ^ 2 + (n.z - m.z) ^ 2 + (n.s - m.s) ^ 2 ≤ 2 * eps ^ 2) := by
  have hqn : q.x ^ 2 + q.y ^ 2 + q.z ^ 2 + q.s ^ 2 = 1 := hq
  have sgn : ∀ m : Quat, m = p ∨ m = p.scale (-1) → SameUpToSign m p := by
    rintro m (rfl | rfl)
    · left; rfl
    · right; ext <;> simp
  refine ⟨?_, ?_, ?_⟩
  · intro r hr0 hr1
    obtain ⟨x, hx, hs⟩ := slerp_eq h0 h1 hq hp hr0 hr1
    exact ⟨_, hs, Quat.unitary_cross hq (Quat.unitary_pow h0.le hx.1 r)⟩
  · obtain ⟨x, hx, hs⟩ := slerp_eq h0 h1 hq hp le_rfl zero_le_one
    have : x.pow eps 0 = Quat.Unit := by
      rw [Quat.pow, show (x.log eps).scale 0 = Quat.mk' 0 0 by ext <;> simp]
      exact Quat.exp_small (by rw [V3.norm_zero]; exact h0.le)
    rw [hs, this, Quat.cross_Unit]
  · obtain ⟨x, hx, hs⟩ := slerp_eq h0 h1 hq hp zero_le_one le_rfl
    have hxu : x.x ^ 2 + x.y ^ 2 + x.z ^ 2 + x.s ^ 2 = 1 := hx.1
    have hvn : x.vec.norm ^ 2 = 1 - (q.dot p) ^ 2 := by
      rw [V3.norm_sq, ← sq_abs (q.dot p), ← hx.2.2.1]
      simp only [V3.normSq, V3.dot, Quat.vec_x, Quat.vec_y, Quat.vec_z]; linarith
    refine ⟨_, hs, ?_, ?_⟩
    · intro hbig
      have hv : eps < x.vec.norm := by
        rw [← hvn] at hbig
        exact lt_of_pow_lt_pow_left₀ 2 (V3.norm_nonneg _) hbig
      rw [Quat.pow_one_of h0.le hv (angle_gt h0 hx.1 hv)]
      exact sgn _ hx.2.2.2
    · refine ⟨q.cross x, sgn _ hx.2.2.2, ?_⟩
      rcases le_or_gt x.vec.norm eps with hv | hv
      · rw [Quat.pow_small h0.le hv, Quat.cross_Unit]
        have hnear := near_unit hx.1 hx.2.1 hv
        have e : (q.x - (q.cross x).x) ^ 2 + (q.y - (q.cross x).y) ^ 2 + (q.z - (q.cross x).z) ^ 2 + (q.s - (q.cross x).s) ^ 2 =
            (q.x ^ 2 + q.y ^ 2 + q.z ^ 2 + q.s ^ 2) * (x.x ^ 2 + x.y ^ 2 + x.z ^ 2 + (x.s - 1) ^ 2) := by
          simp only [Quat.cross_x, Quat.cross_y, Quat.cross_z, Quat.cross_s]; ring
        rw [e, hqn, one_mul]; exact hnear
      · rw [Quat.pow_one_of h0.le hv (angle_gt h0 hx.1 hv)]
        simp; positivity

/-- **C31.** A ratio outside of [0, 1] and undefined arguments make `SLERP` and `NLERP` throw. -/
theorem C31_throws (eps : ℝ) (q p : Quat) (a b : Option Quat) (c : Option ℝ) (r : ℝ) :
    (r < 0 ∨ 1 < r → QuatObj.SLERP eps a b (some r) = .error .runtimeError ∧ q.NLERP eps p r = .error .runtimeError) ∧
    (a = none ∨ b = none ∨ c = none → ∃ e, QuatObj.SLERP eps a b c = .error e) := by
  constructor
  · intro h
    simp [QuatObj.SLERP, Quat.NLERP, Quat.LERP, need, bind, Except.bind, h]
  · intro h
    cases c with
    | none => exact ⟨_, rfl⟩
    | some c =>
      by_cases hc : c < 0 ∨ 1 < c
      · exact ⟨.runtimeError, by simp [QuatObj.SLERP, need, bind, Except.bind, hc]⟩
      · cases a with
        | none => exact ⟨.undefined, by simp [QuatObj.SLERP, need, bind, Except.bind, hc]⟩
        | some a =>
          cases b with
          | none => exact ⟨.undefined, by simp [QuatObj.SLERP, need, bind, Except.bind, hc]⟩
          | some b => simp at h

example : ∃ n, QuatObj.SLERP (1 / 1000) (some ⟨1 / 5, -2 / 5, 2 / 5, -4 / 5⟩) (some ⟨0, 3 / 5, 0, 4 / 5⟩) (some 1) = .ok n ∧
    SameUpToSign n ⟨0, 3 / 5, 0, 4 / 5⟩ :=
  let ⟨n, h1, h2, _⟩ := (C31_slerp (1 / 1000) (by norm_num) (by norm_num) _ _ unitary_example'.1 unitary_example'.2).2.2
  ⟨n, h1, h2 (by norm_num [Quat.dot])⟩

/-! ## C73 -/

theorem dot_cross {q : Quat} (hq : Unitary q) (y : Quat) : q.dot (q.cross y) = y.s := by
  have hq' : q.x ^ 2 + q.y ^ 2 + q.z ^ 2 + q.s ^ 2 = 1 := hq
  have e : q.dot (q.cross y) = (q.x ^ 2 + q.y ^ 2 + q.z ^ 2 + q.s ^ 2) * y.s := by
    simp only [Quat.dot, Quat.cross_x, Quat.cross_y, Quat.cross_z, Quat.cross_s]; ring
  rw [e, hq', one_mul]

/-- **C73.** The angular difference between the first quaternion and the interpolated one is the ratio times the whole angular difference
when the interpolated angle and the relative rotation are above the threshold. In any case the two differ by at most `π eps`. -/
theorem C73_constant_speed (eps : ℝ) (h0 : 0 < eps) (h1 : eps ≤ 1) (q p : Quat) (hq : Unitary q) (hp : Unitary p) (r : ℝ) (hr0 : 0 ≤ r)
    (hr1 : r ≤ 1) :
    ∃ d n e, Differ eps q p d ∧ QuatObj.SLERP eps (some q) (some p) (some r) = .ok n ∧ Differ eps q n e ∧
      (eps < Real.sin (d / 2) → eps < r * (d / 2) → e = r * d) ∧ |e - r * d| ≤ Real.pi * eps := by
  obtain ⟨x, ⟨hxu, hxs, hxd, -⟩, hs⟩ := slerp_eq h0 h1 hq hp hr0 hr1
  have hle := dot_sq_le hq hp
  have hxn := Quat.unitary_iff_norm.1 hxu
  have hx2 : x.x ^ 2 + x.y ^ 2 + x.z ^ 2 + x.s ^ 2 = 1 := hxu
  have hd : Differ eps q p (2 * Real.arccos x.s) := by rw [hxd]; exact angDiff_eq h0 h1 hq hp
  have hsu : ∀ y : Quat, Unitary y → Differ eps q (q.cross y) (2 * Real.arccos |y.s|) := by
    intro y hy
    have := angDiff_eq h0 h1 hq (Quat.unitary_cross hq hy)
    rwa [dot_cross hq] at this
  have ht0 := Real.arccos_nonneg x.s
  have ht1 : Real.arccos x.s ≤ Real.pi / 2 := Real.arccos_le_pi_div_two.2 hxs
  have hsin : Real.sin (Real.arccos x.s) = x.vec.norm := by
    rw [Real.sin_arccos, V3.norm]
    congr 1
    simp only [V3.normSq, V3.dot, Quat.vec_x, Quat.vec_y, Quat.vec_z]; linarith
  have hpi := Real.two_le_pi
  refine ⟨_, _, 2 * Real.arccos |(x.pow eps r).s|, hd, hs, hsu _ (Quat.unitary_pow h0.le hxu r), ?_⟩
  rw [mul_div_cancel_left₀ _ two_ne_zero, hsin]
  have hone : 2 * Real.arccos |Quat.Unit.s| = 0 := by simp [Quat.Unit]
  rcases le_or_gt x.vec.norm eps with hv | hv
  · rw [Quat.pow_small h0.le hv, hone]
    refine ⟨fun h => absurd hv (not_le.2 h), ?_⟩
    have hj := Real.mul_le_sin ht0 ht1
    rw [hsin] at hj
    have hj2 : Real.arccos x.s * 2 ≤ Real.pi * eps := by
      have hp0 := Real.pi_pos
      have : 2 / Real.pi * Real.arccos x.s * Real.pi ≤ eps * Real.pi := mul_le_mul_of_nonneg_right (hj.trans hv) hp0.le
      have e : 2 / Real.pi * Real.arccos x.s * Real.pi = Real.arccos x.s * 2 := by field_simp
      linarith
    rw [zero_sub, abs_neg, abs_of_nonneg (by positivity)]
    nlinarith
  · obtain ⟨n, t, hn, htp, htpi, -, hl, -, hc, -⟩ := Quat.log_axis h0.le hv
    rw [hxn, one_mul] at hc
    have hta : Real.arccos x.s = t := by rw [hc, Real.arccos_cos htp.le htpi.le]
    rw [hta] at ht1 ⊢
    rcases le_or_gt (|r| * t) eps with h | h
    · rw [Quat.pow_axis_small hn htp hl h, hone]
      rw [abs_of_nonneg hr0] at h
      refine ⟨fun _ h2 => absurd h (not_le.2 h2), ?_⟩
      rw [zero_sub, abs_neg, abs_of_nonneg (by positivity)]
      nlinarith
    · rw [Quat.pow_axis h0.le hn htp hl h, hxn, Real.log_one, mul_zero, Real.exp_zero, Quat.scale_one]
      have hrt : r * t ≤ t := by nlinarith
      have hrt0 : 0 ≤ r * t := mul_nonneg hr0 htp.le
      have hcos : (Quat.axisQ n (r * t)).s = Real.cos (r * t) := rfl
      have e : 2 * Real.arccos |(Quat.axisQ n (r * t)).s| = r * (2 * t) := by
        rw [hcos, abs_of_nonneg (Real.cos_nonneg_of_neg_pi_div_two_le_of_le (by linarith) (by linarith)),
          Real.arccos_cos hrt0 (by linarith)]
        ring
      rw [e]
      refine ⟨fun _ _ => rfl, ?_⟩
      rw [sub_self, abs_zero]; positivity

example : ∃ d n e, Differ (1 / 1000) ⟨1 / 5, -2 / 5, 2 / 5, -4 / 5⟩ ⟨0, 3 / 5, 0, 4 / 5⟩ d ∧
    QuatObj.SLERP (1 / 1000) (some ⟨1 / 5, -2 / 5, 2 / 5, -4 / 5⟩) (some ⟨0, 3 / 5, 0, 4 / 5⟩) (some (1 / 3)) = .ok n ∧
    Differ (1 / 1000) ⟨1 / 5, -2 / 5, 2 / 5, -4 / 5⟩ n e ∧ |e - 1 / 3 * d| ≤ Real.pi * (1 / 1000) :=
  let ⟨d, n, e, h1, h2, h3, _, h5⟩ := C73_constant_speed (1 / 1000) (by norm_num) (by norm_num) _ _ unitary_example'.1 unitary_example'.2
    (1 / 3) (by norm_num) (by norm_num)
  ⟨d, n, e, h1, h2, h3, h5⟩

/-! ## C32 -/

/-- **C32** (partial). `exp (log q) = q` when the vector part and the angle of the quaternion are above the threshold; see
`C32_exp_log_loses_norm` for the others. -/
theorem C32_exp_log_partial (eps : ℝ) (h0 : 0 < eps) (q : Quat) (hv : eps < q.vec.norm) (ht : eps < atan2 q.vec.norm q.s) :
    (q.log eps).exp eps = q := by
  have h := Quat.pow_one_of h0.le hv ht
  rwa [Quat.pow, Quat.scale_one] at h

/-- **C32.** For unitary quaternions, `exp (log q) = q` when the vector part is above the threshold, and the identity, at a distance of at
most `eps √2` of `q` or `-q`, otherwise. -/
theorem C32_exp_log_unitary (eps : ℝ) (h0 : 0 < eps) (q : Quat) (hq : Unitary q) :
    (eps < q.vec.norm → (q.log eps).exp eps = q) ∧
    (q.vec.norm ≤ eps → (q.log eps).exp eps = Quat.Unit ∧ q.x ^ 2 + q.y ^ 2 + q.z ^ 2 + (|q.s| - 1) ^ 2 ≤ 2 * eps ^ 2) := by
  refine ⟨fun hv => C32_exp_log_partial eps h0 q hv (angle_gt h0 hq hv), fun hv => ⟨?_, ?_⟩⟩
  · rw [Quat.log_small hv]; exact Quat.exp_small (by rw [V3.norm_zero]; exact h0.le)
  · have hq' : q.x ^ 2 + q.y ^ 2 + q.z ^ 2 + q.s ^ 2 = 1 := hq
    have hx : Unitary ⟨q.x, q.y, q.z, |q.s|⟩ := by rw [Unitary, sq_abs]; exact hq'
    exact near_unit (x := ⟨q.x, q.y, q.z, |q.s|⟩) hx (abs_nonneg _) hv

/-- **C32** is false without the condition: the exponential of a quaternion with a small vector part is the identity, whatever its scalar
part, so the norm is lost. -/
theorem C32_exp_log_loses_norm (eps : ℝ) (h0 : 0 < eps) :
    ∃ q : Quat, q.norm = 2 ∧ (q.log eps).exp eps = Quat.Unit ∧ (q.log eps).exp eps ≠ q := by
  have hv : (⟨0, 0, 0, 2⟩ : Quat).vec.norm ≤ eps := by
    rw [show (⟨0, 0, 0, 2⟩ : Quat).vec = 0 from rfl, V3.norm_zero]; exact h0.le
  have he : ((⟨0, 0, 0, 2⟩ : Quat).log eps).exp eps = Quat.Unit := by
    rw [Quat.log_small hv]; exact Quat.exp_small (by rw [V3.norm_zero]; exact h0.le)
  refine ⟨⟨0, 0, 0, 2⟩, ?_, he, ?_⟩
  · rw [Quat.norm, show (⟨0, 0, 0, 2⟩ : Quat).normSq = 2 ^ 2 by norm_num [Quat.normSq]]
    exact Real.sqrt_sq (by norm_num)
  · rw [he]; intro h
    have := congrArg Quat.s h
    norm_num [Quat.Unit] at this

/-- **C32** (partial). `log (exp q) = q` for a vector part between the threshold and π whose exponential is above the threshold. -/
theorem C32_log_exp_partial (eps : ℝ) (h0 : 0 < eps) (q : Quat) (hv : eps < q.vec.norm) (hpi : q.vec.norm < Real.pi)
    (hbig : eps < Real.exp q.s * Real.sin q.vec.norm) : (q.exp eps).log eps = q := by
  have hv0 : 0 < q.vec.norm := h0.trans hv
  have hsin : 0 < Real.sin q.vec.norm := Real.sin_pos_of_pos_of_lt_pi hv0 hpi
  have hE := Real.exp_pos q.s
  have hexp : q.exp eps = (Quat.mk' ((Real.sin q.vec.norm / q.vec.norm) • q.vec) (Real.cos q.vec.norm)).scale (Real.exp q.s) := by
    rw [Quat.exp, if_neg (not_le.2 hv)]
  generalize hy : q.exp eps = y at hexp ⊢
  have hyv : y.vec = (Real.exp q.s * Real.sin q.vec.norm / q.vec.norm) • q.vec := by
    rw [hexp]; ext <;> simp <;> ring
  have hys : y.s = Real.exp q.s * Real.cos q.vec.norm := by rw [hexp]; simp [mul_comm]
  have hyn : y.vec.norm = Real.exp q.s * Real.sin q.vec.norm := by
    rw [hyv, V3.norm_smul, abs_of_pos (by positivity)]; field_simp
  have hnorm : y.norm = Real.exp q.s := by
    have e : y.norm ^ 2 = Real.exp q.s ^ 2 := by
      have h2 : y.norm ^ 2 = y.vec.norm ^ 2 + y.s ^ 2 := by
        rw [V3.norm_sq, Quat.norm_sq]; simp only [V3.normSq, V3.dot, Quat.normSq, Quat.vec_x, Quat.vec_y, Quat.vec_z]; ring
      rw [h2, hyn, hys]
      linear_combination Real.exp q.s ^ 2 * Real.sin_sq_add_cos_sq q.vec.norm
    exact (pow_left_inj₀ y.norm_nonneg hE.le two_ne_zero).1 e
  have hat : atan2 y.vec.norm y.s = q.vec.norm := by
    rw [hyn, hys]
    generalize Real.exp q.s = E at hE
    refine Eq.trans ?_ (Complex.arg_mul_cos_add_sin_mul_I hE (θ := q.vec.norm) ⟨by linarith [Real.pi_pos], hpi.le⟩)
    rw [atan2]
    congr 1
    apply Complex.ext <;> simp [Complex.cos_ofReal_re, Complex.sin_ofReal_re]
  have hyb : ¬ y.vec.norm ≤ eps := by rw [hyn]; exact not_le.2 hbig
  rw [Quat.log, if_neg hyb, hat, hyn, hyv, hnorm, Real.log_exp]
  ext <;> simp <;> field_simp

/-- **C32** (partial). `q ^ a * q ^ b = q ^ (a + b)` when the three angles are above the threshold, or the vector part below it. -/
theorem C32_pow_add_partial (eps : ℝ) (h0 : 0 < eps) (q : Quat) (a b : ℝ) :
    (eps < q.vec.norm → eps < |a| * atan2 q.vec.norm q.s → eps < |b| * atan2 q.vec.norm q.s → eps < |a + b| * atan2 q.vec.norm q.s →
      (q.pow eps a).cross (q.pow eps b) = q.pow eps (a + b)) ∧
    (q.vec.norm ≤ eps → (q.pow eps a).cross (q.pow eps b) = q.pow eps (a + b)) := by
  constructor
  · intro hv ha hb hab
    obtain ⟨n, t, hn, ht0, -, -, hl, -, -, rfl⟩ := Quat.log_axis h0.le hv
    rw [Quat.pow_axis h0.le hn ht0 hl ha, Quat.pow_axis h0.le hn ht0 hl hb, Quat.pow_axis h0.le hn ht0 hl hab, Quat.cross_scale,
      Quat.scale_cross, Quat.axisQ_cross hn, ← add_mul, add_mul a b (Real.log _), Real.exp_add]
    ext <;> simp <;> ring
  · intro hv
    rw [Quat.pow_small h0.le hv, Quat.pow_small h0.le hv, Quat.pow_small h0.le hv, Quat.Unit_cross]

/-- **C32** is false for small powers: each of two small powers is the identity, but the power of the sum is not. -/
theorem C32_pow_add_small (eps : ℝ) (h0 : 0 < eps) (h1 : eps < 1) :
    ∃ (q : Quat) (a : ℝ), Unitary q ∧ (q.pow eps a).cross (q.pow eps a) ≠ q.pow eps (a + a) := by
  have hn1 : (⟨1, 0, 0, 0⟩ : Quat).vec.norm = 1 := V3.norm_of_normSq_one (by norm_num [V3.normSq, V3.dot, Quat.vec])
  have hu : Unitary ⟨1, 0, 0, 0⟩ := by norm_num [Unitary]
  obtain ⟨n, t, hn, ht0, htpi, hq, hl, -, -, -⟩ := Quat.log_axis (q := ⟨1, 0, 0, 0⟩) h0.le (by rw [hn1]; exact h1)
  refine ⟨⟨1, 0, 0, 0⟩, eps / t, hu, ?_⟩
  have hp : 0 < eps / t := div_pos h0 ht0
  have e1 : |eps / t| * t = eps := by rw [abs_of_pos hp]; field_simp
  have e2 : |eps / t + eps / t| * t = eps + eps := by rw [abs_of_pos (by positivity)]; field_simp
  rw [Quat.pow_axis_small hn ht0 hl e1.le, Quat.pow_axis h0.le hn ht0 hl (by rw [e2]; linarith), Quat.Unit_cross,
    Quat.unitary_iff_norm.1 hu, Real.log_one, mul_zero, Real.exp_zero, Quat.scale_one]
  intro h
  have hs := congrArg Quat.s h
  have e3 : (eps / t + eps / t) * t = eps + eps := by field_simp
  rw [e3] at hs
  have hc : Real.cos (eps + eps) = 1 := by simpa [Quat.axisQ, Quat.Unit] using hs.symm
  have := Real.cos_lt_cos_of_nonneg_of_le_pi (x := 0) (y := eps + eps) le_rfl (by linarith [Real.two_le_pi]) (by linarith)
  rw [Real.cos_zero, hc] at this
  exact lt_irrefl _ this

theorem vec_example : (⟨1, 0, 0, 0⟩ : Quat).vec.norm = 1 := V3.norm_of_normSq_one (by norm_num [V3.normSq, V3.dot, Quat.vec])

example : ((⟨1, 0, 0, 0⟩ : Quat).exp (1 / 1000)).log (1 / 1000) = ⟨1, 0, 0, 0⟩ := by
  have hpi := Real.two_le_pi
  refine C32_log_exp_partial _ (by norm_num) _ ?_ ?_ ?_ <;> rw [vec_example]
  · norm_num
  · linarith
  · have h := Real.mul_le_sin (x := 1) zero_le_one (by linarith)
    have h4 : 2 / Real.pi * 1 ≥ 1 / 2 := by
      rw [mul_one, ge_iff_le, div_le_div_iff₀ two_pos (by linarith)]; linarith [Real.pi_le_four]
    simp only [Real.exp_zero]; linarith

example : ((⟨1, 0, 0, 0⟩ : Quat).pow (1 / 1000) (-1)).cross ((⟨1, 0, 0, 0⟩ : Quat).pow (1 / 1000) 3) =
    (⟨1, 0, 0, 0⟩ : Quat).pow (1 / 1000) (-1 + 3) := by
  have hpi := Real.two_le_pi
  have hat : atan2 1 0 = Real.pi / 2 := Complex.arg_I
  refine (C32_pow_add_partial _ (by norm_num) _ _ _).1 ?_ ?_ ?_ ?_ <;> rw [vec_example]
  · norm_num
  · simp only [hat, abs_neg, abs_one]; linarith
  · simp only [hat, show |(3 : ℝ)| = 3 by norm_num]; linarith
  · simp only [hat, show |(-1 + 3 : ℝ)| = 2 by norm_num]; linarith

example : ((⟨0, 3 / 5, 0, 4 / 5⟩ : Quat).log (1 / 1000)).exp (1 / 1000) = ⟨0, 3 / 5, 0, 4 / 5⟩ := by
  refine (C32_exp_log_unitary (1 / 1000) (by norm_num) _ unitary_example'.2).1 ?_
  rw [V3.norm, show (⟨0, 3 / 5, 0, 4 / 5⟩ : Quat).vec.normSq = (3 / 5) ^ 2 by norm_num [V3.normSq, V3.dot, Quat.vec],
    Real.sqrt_sq (by norm_num)]
  norm_num

end Verif.Props
