import Verif.Props.Transformation

/-!
# The rigid flag of a transformation of space made from a matrix (C38)
-/

namespace Verif.Props

open Verif Verif.Spec

set_option linter.flexible false

/-- A quadratic form with coefficients of at most `e` is at most `3 e` times the square of the length. -/
theorem flag_form_le {e a b c f g h x y z : ℝ} (ha : |a| ≤ e) (hb : |b| ≤ e) (hc : |c| ≤ e) (hf : |f| ≤ e) (hg : |g| ≤ e) (hh : |h| ≤ e) :
    |a * x ^ 2 + b * y ^ 2 + c * z ^ 2 + 2 * (f * (x * y)) + 2 * (g * (x * z)) + 2 * (h * (y * z))| ≤ 3 * e * (x ^ 2 + y ^ 2 + z ^ 2) := by
  have sq : ∀ k t : ℝ, |k| ≤ e → |k * t ^ 2| ≤ e * t ^ 2 := fun k t hk => by
    rw [abs_mul, abs_of_nonneg (sq_nonneg t)]
    exact mul_le_mul_of_nonneg_right hk (sq_nonneg t)
  have cr : ∀ k s t : ℝ, |k| ≤ e → |2 * (k * (s * t))| ≤ e * (s ^ 2 + t ^ 2) := fun k s t hk => by
    have h2 : 2 * |s * t| ≤ s ^ 2 + t ^ 2 := by
      rw [abs_mul, ← sq_abs s, ← sq_abs t]
      nlinarith [sq_nonneg (|s| - |t|)]
    rw [abs_mul, abs_mul, abs_two]
    calc 2 * (|k| * |s * t|) = |k| * (2 * |s * t|) := by ring
      _ ≤ e * (s ^ 2 + t ^ 2) := mul_le_mul hk h2 (by positivity) ((abs_nonneg k).trans hk)
  have h1 := abs_le.1 (sq a x ha)
  have h2 := abs_le.1 (sq b y hb)
  have h3 := abs_le.1 (sq c z hc)
  have h4 := abs_le.1 (cr f x y hf)
  have h5 := abs_le.1 (cr g x z hg)
  have h6 := abs_le.1 (cr h y z hh)
  rw [abs_le]
  constructor <;> linarith [h1.1, h1.2, h2.1, h2.2, h3.1, h3.2, h4.1, h4.2, h5.1, h5.2, h6.1, h6.2]

open Classical in
/-- **C38.** A transformation of space made from a matrix and flagged as rigid has the last row of an affine map and changes no squared
distance by more than three times the precision of the test. -/
theorem C38_matrix_partial (prec : ℝ) (m : Matrix (Fin 4) (Fin 4) ℝ) (t : T3) (h : T3.ctor prec (some m) = .ok t)
    (hr : t.isRigid = .ok true) :
    (m 3 0 = 0 ∧ m 3 1 = 0 ∧ m 3 2 = 0 ∧ m 3 3 = 1) ∧
    ∃ f, Moves t f ∧ ∀ p q, |(f p - f q).normSq - (p - q).normSq| ≤ 3 * prec * (p - q).normSq := by
  simp only [T3.ctor] at h
  split_ifs at h with hn
  rw [Except.ok.injEq] at h
  subst h
  have hr' : T3.IsRigid prec (some m) = true := by simpa [T3.isRigid, T3.isDefined] using hr
  simp only [T3.IsRigid] at hr'
  split_ifs at hr' with hl
  push Not at hl
  refine ⟨hl, fun p => T3.head m p 1, fun p => rfl, fun p q => ?_⟩
  have hi := @of_decide_eq_true _ _ hr'
  have hp : 0 ≤ prec := (abs_nonneg _).trans (by simpa using hn 0 1)
  have diag : ∀ a : ℝ, |a - 1| ≤ min |a| 1 * prec → |a - 1| ≤ prec := fun a ha =>
    ha.trans ((mul_le_mul_of_nonneg_right (min_le_right _ _) hp).trans (one_mul prec).le)
  have d0 := diag _ (by simpa using hi 0 0)
  have d1 := diag _ (by simpa using hi 1 1)
  have d2 := diag _ (by simpa using hi 2 2)
  have e01 := hi 0 1
  have e02 := hi 0 2
  have e12 := hi 1 2
  simp [Matrix.mul_apply, Fin.sum_univ_three, Fin.castLE] at d0 d1 d2 e01 e02 e12
  have := flag_form_le (x := p.x - q.x) (y := p.y - q.y) (z := p.z - q.z) d0 d1 d2 e01 e02 e12
  convert this using 1
  · congr 1
    simp [T3.head, Matrix.mulVec, dotProduct, Fin.sum_univ_four, V3.normSq, V3.dot]
    ring
  · simp only [V3.normSq, V3.dot, V3.sub_x, V3.sub_y, V3.sub_z]
    ring

/-- a matrix other than the identity which is accepted and flagged as rigid -/
example : ∃ t, T3.ctor 1 (some !![1, 0, 0, 1; 0, 1, 0, 0; 0, 0, 1, 0; 0, 0, 0, 1]) = .ok t ∧ t.isRigid = .ok true := by
  have hn : nearIdentity 1 !![1, 0, 0, 1; 0, 1, 0, 0; 0, 0, 1, 0; 0, 0, 0, (1 : ℝ)] := by
    intro i j
    fin_cases i <;> fin_cases j <;> simp
  refine ⟨_, if_pos hn, ?_⟩
  simp only [T3.isRigid, T3.isDefined, T3.IsRigid]
  simp [nearIdentity, Matrix.mul_apply, Fin.sum_univ_three, Fin.forall_fin_succ, Fin.castLE]

open Classical in
/-- **C38.** A transformation of space made from an affine matrix that keeps all distances is flagged as rigid. -/
theorem C38_matrix_complete (prec : ℝ) (m : Matrix (Fin 4) (Fin 4) ℝ) (t : T3) (h : T3.ctor prec (some m) = .ok t)
    (hl : m 3 0 = 0 ∧ m 3 1 = 0 ∧ m 3 2 = 0 ∧ m 3 3 = 1) (f : V3 → V3) (hf : Moves t f) (hk : KeepsDistances f) :
    t.isRigid = .ok true := by
  simp only [T3.ctor] at h
  split_ifs at h with hn
  rw [Except.ok.injEq] at h
  subst h
  have hp : 0 ≤ prec := (abs_nonneg _).trans (by simpa using hn 0 1)
  have ef : ∀ p, f p = T3.head m p 1 := by
    intro p
    have := hf p
    simp only [T3.applyTo, need, bind, Except.bind, pure, Except.pure, Option.map_some, Except.ok.injEq, Option.some.injEq] at this
    exact this.symm
  have key : ∀ x y z : ℝ, (m 0 0 * x + m 0 1 * y + m 0 2 * z) ^ 2 + (m 1 0 * x + m 1 1 * y + m 1 2 * z) ^ 2 +
      (m 2 0 * x + m 2 1 * y + m 2 2 * z) ^ 2 = x ^ 2 + y ^ 2 + z ^ 2 := by
    intro x y z
    have h := hk ⟨x, y, z⟩ ⟨0, 0, 0⟩
    rw [ef, ef, V3.norm, V3.norm, Real.sqrt_inj (by simp only [V3.normSq, V3.dot]; nlinarith [mul_self_nonneg (1 : ℝ), sq_nonneg x]) (by simp only [V3.normSq, V3.dot]; nlinarith)] at h
    simp [T3.head, Matrix.mulVec, dotProduct, Fin.sum_univ_four, V3.normSq, V3.dot] at h
    linarith
  have k1 := key 1 0 0
  have k2 := key 0 1 0
  have k3 := key 0 0 1
  have k4 := key 1 1 0
  have k5 := key 1 0 1
  have k6 := key 0 1 1
  have hr : T3.IsRigid prec (some m) = true := by
    simp only [T3.IsRigid]
    rw [if_neg (by push Not; exact hl)]
    apply decide_eq_true
    have e0 : m 0 0 * m 0 0 + m 1 0 * m 1 0 + m 2 0 * m 2 0 = 1 := by linarith
    have e1 : m 0 1 * m 0 1 + m 1 1 * m 1 1 + m 2 1 * m 2 1 = 1 := by linarith
    have e2 : m 0 2 * m 0 2 + m 1 2 * m 1 2 + m 2 2 * m 2 2 = 1 := by linarith
    have e3 : m 0 0 * m 0 1 + m 1 0 * m 1 1 + m 2 0 * m 2 1 = 0 := by linarith
    have e4 : m 0 0 * m 0 2 + m 1 0 * m 1 2 + m 2 0 * m 2 2 = 0 := by linarith
    have e5 : m 0 1 * m 0 2 + m 1 1 * m 1 2 + m 2 1 * m 2 2 = 0 := by linarith
    have e6 : m 0 1 * m 0 0 + m 1 1 * m 1 0 + m 2 1 * m 2 0 = 0 := by linarith
    have e7 : m 0 2 * m 0 0 + m 1 2 * m 1 0 + m 2 2 * m 2 0 = 0 := by linarith
    have e8 : m 0 2 * m 0 1 + m 1 2 * m 1 1 + m 2 2 * m 2 1 = 0 := by linarith
    intro i j
    fin_cases i <;> fin_cases j <;> simp [Matrix.mul_apply, Fin.sum_univ_three, Fin.castLE, e0, e1, e2, e3, e4, e5, e6, e7, e8, hp]
  simp [T3.isRigid, T3.isDefined, hr]

/-- a translation, which keeps all distances -/
example : ∃ t f, T3.ctor 1 (some !![1, 0, 0, 1; 0, 1, 0, 0; 0, 0, 1, 0; 0, 0, 0, 1]) = .ok t ∧ Moves t f ∧ KeepsDistances f := by
  have hn : nearIdentity 1 !![1, 0, 0, 1; 0, 1, 0, 0; 0, 0, 1, 0; 0, 0, 0, (1 : ℝ)] := by
    intro i j
    fin_cases i <;> fin_cases j <;> simp
  refine ⟨_, fun p => p + ⟨1, 0, 0⟩, if_pos hn, fun p => ?_, fun p q => ?_⟩
  · simp [T3.applyTo, need, bind, Except.bind, pure, Except.pure, T3.head, Matrix.mulVec, dotProduct, Fin.sum_univ_four]
    ext <;> simp
  · congr 1
    ext <;> simp

end Verif.Props
