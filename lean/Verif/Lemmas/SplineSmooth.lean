import Verif.Lemmas.Spline
import Mathlib.Analysis.Calculus.Deriv.Pow
import Mathlib.Analysis.Calculus.Deriv.Add
import Mathlib.Analysis.Calculus.Deriv.Mul
import Mathlib.Analysis.Calculus.Deriv.Comp
import Mathlib.Data.Real.Archimedean

/-! # The basis functions of cubic splines are smooth -/

namespace Verif

namespace SplineI

/-- powers of the positive part have the derivative of the power -/
theorem hasDerivAt_pos_pow (n : ℕ) (x : ℝ) : HasDerivAt (fun x : ℝ => max x 0 ^ (n + 2)) ((n + 2) * max x 0 ^ (n + 1)) x := by
  rcases lt_trichotomy x 0 with h | h | h
  · have e : (fun x : ℝ => max x 0 ^ (n + 2)) =ᶠ[nhds x] fun _ => 0 := by
      filter_upwards [gt_mem_nhds h] with z hz
      rw [max_eq_right hz.le, zero_pow (by omega)]
    rw [max_eq_right h.le, zero_pow (by omega), mul_zero]
    exact (hasDerivAt_const x (0 : ℝ)).congr_of_eventuallyEq e
  · subst h
    rw [max_self, zero_pow (by omega), mul_zero, hasDerivAt_iff_isLittleO_nhds_zero]
    simp only [zero_add, max_self, smul_zero, sub_zero]
    rw [zero_pow (by omega)]
    simp only [sub_zero]
    have h1 : (fun h : ℝ => max h 0 ^ (n + 2)) =O[nhds 0] fun h : ℝ => h ^ (n + 2) := by
      apply Asymptotics.IsBigO.of_bound 1
      filter_upwards with z
      rw [one_mul, norm_pow, norm_pow]
      apply pow_le_pow_left₀ (norm_nonneg _)
      rw [Real.norm_eq_abs, Real.norm_eq_abs]
      rcases le_total z 0 with hz | hz
      · rw [max_eq_right hz]; simp
      · rw [max_eq_left hz]
    refine h1.trans_isLittleO ?_
    exact Asymptotics.isLittleO_pow_id (by omega)
  · have e : (fun x : ℝ => max x 0 ^ (n + 2)) =ᶠ[nhds x] fun x => x ^ (n + 2) := by
      filter_upwards [lt_mem_nhds h] with z hz
      rw [max_eq_left hz.le]
    rw [max_eq_left h.le]
    have := (hasDerivAt_pow (n + 2) x).congr_of_eventuallyEq e
    simpa [Function.comp_def] using this

/-- the five truncated powers of which the basis function is made -/
noncomputable def trunc (n : ℕ) (x : ℝ) : ℝ :=
  max (x + 2) 0 ^ n - 4 * max (x + 1) 0 ^ n + 6 * max x 0 ^ n - 4 * max (x - 1) 0 ^ n + max (x - 2) 0 ^ n

theorem hasDerivAt_trunc (n : ℕ) (x : ℝ) : HasDerivAt (trunc (n + 2)) ((n + 2) * trunc (n + 1) x) x := by
  have h : ∀ c : ℝ, HasDerivAt (fun x : ℝ => max (x + c) 0 ^ (n + 2)) ((n + 2) * max (x + c) 0 ^ (n + 1)) x := by
    intro c
    have := HasDerivAt.comp x (hasDerivAt_pos_pow n (x + c)) ((hasDerivAt_id x).add_const c)
    simpa [Function.comp_def] using this
  have h2 := (((h 2).sub ((h 1).const_mul 4)).add ((h 0).const_mul 6)).sub ((h (-1)).const_mul 4) |>.add (h (-2))
  have e : trunc (n + 2) = fun x => max (x + 2) 0 ^ (n + 2) - 4 * max (x + 1) 0 ^ (n + 2) + 6 * max (x + 0) 0 ^ (n + 2) -
      4 * max (x + -1) 0 ^ (n + 2) + max (x + -2) 0 ^ (n + 2) := by
    funext x
    simp only [trunc, add_zero, ← sub_eq_add_neg]
  rw [e]
  refine HasDerivAt.congr_deriv (f := _) h2 ?_
  simp only [trunc, add_zero, ← sub_eq_add_neg]
  ring

theorem trunc_cases (P : ℝ → Prop) (x : ℝ) (h0 : x ≤ -2 → P x) (h1 : -2 ≤ x → x ≤ -1 → P x) (h2 : -1 ≤ x → x ≤ 0 → P x)
    (h3 : 0 ≤ x → x ≤ 1 → P x) (h4 : 1 ≤ x → x ≤ 2 → P x) (h5 : 2 ≤ x → P x) : P x := by
  rcases le_total x (-2) with a | a
  · exact h0 a
  rcases le_total x (-1) with b | b
  · exact h1 a b
  rcases le_total x 0 with c | c
  · exact h2 b c
  rcases le_total x 1 with d | d
  · exact h3 c d
  rcases le_total x 2 with e | e
  · exact h4 d e
  · exact h5 e

theorem trunc_left {n : ℕ} (hn : n ≠ 0) {x : ℝ} (h : x ≤ -2) : trunc n x = 0 := by
  unfold trunc
  rw [max_eq_right (by linarith), max_eq_right (by linarith), max_eq_right (by linarith), max_eq_right (by linarith), max_eq_right (by linarith),
    zero_pow hn]
  ring

theorem trunc_1 {n : ℕ} (hn : n ≠ 0) {x : ℝ} (h : -2 ≤ x) (h' : x ≤ -1) : trunc n x = (x + 2) ^ n := by
  unfold trunc
  rw [max_eq_left (by linarith), max_eq_right (by linarith), max_eq_right (by linarith), max_eq_right (by linarith), max_eq_right (by linarith),
    zero_pow hn]
  ring

theorem trunc_2 {n : ℕ} (hn : n ≠ 0) {x : ℝ} (h : -1 ≤ x) (h' : x ≤ 0) : trunc n x = (x + 2) ^ n - 4 * (x + 1) ^ n := by
  unfold trunc
  rw [max_eq_left (by linarith), max_eq_left (by linarith), max_eq_right (by linarith), max_eq_right (by linarith), max_eq_right (by linarith),
    zero_pow hn]
  ring

theorem trunc_3 {n : ℕ} (hn : n ≠ 0) {x : ℝ} (h : 0 ≤ x) (h' : x ≤ 1) : trunc n x = (x + 2) ^ n - 4 * (x + 1) ^ n + 6 * x ^ n := by
  unfold trunc
  rw [max_eq_left (by linarith), max_eq_left (by linarith), max_eq_left (by linarith), max_eq_right (by linarith), max_eq_right (by linarith),
    zero_pow hn]
  ring

theorem trunc_4 {n : ℕ} (hn : n ≠ 0) {x : ℝ} (h : 1 ≤ x) (h' : x ≤ 2) :
    trunc n x = (x + 2) ^ n - 4 * (x + 1) ^ n + 6 * x ^ n - 4 * (x - 1) ^ n := by
  unfold trunc
  rw [max_eq_left (by linarith), max_eq_left (by linarith), max_eq_left (by linarith), max_eq_left (by linarith), max_eq_right (by linarith),
    zero_pow hn]
  ring

theorem trunc_right {n : ℕ} {x : ℝ} (h : 2 ≤ x) :
    trunc n x = (x + 2) ^ n - 4 * (x + 1) ^ n + 6 * x ^ n - 4 * (x - 1) ^ n + (x - 2) ^ n := by
  unfold trunc
  rw [max_eq_left (by linarith), max_eq_left (by linarith), max_eq_left (by linarith), max_eq_left (by linarith), max_eq_left (by linarith)]

theorem b3_eq_trunc : b3 (α := ℝ) = fun x => 1 / 6 * trunc 3 x := by
  funext x
  apply trunc_cases (fun x => b3 x = 1 / 6 * trunc 3 x)
  · intro h
    rw [trunc_left (by omega) h, b3_far (by rw [abs_of_nonpos (by linarith)]; linarith)]
    ring
  · intro h h'
    rw [trunc_1 (by omega) h h']
    have := (b3_piece (u := x + 2) (by linarith) (by linarith)).2.2.2
    rw [show x + 2 - 2 = x by ring] at this
    rw [this]; ring
  · intro h h'
    rw [trunc_2 (by omega) h h']
    have := (b3_piece (u := x + 1) (by linarith) (by linarith)).2.2.1
    rw [show x + 1 - 1 = x by ring] at this
    rw [this]; ring
  · intro h h'
    rw [trunc_3 (by omega) h h', (b3_piece h h').2.1]
    ring
  · intro h h'
    rw [trunc_4 (by omega) h h']
    have := (b3_piece (u := x - 1) (by linarith) (by linarith)).1
    rw [show 1 + (x - 1) = x by ring] at this
    rw [this]; ring
  · intro h
    rw [trunc_right h, b3_far (by rw [abs_of_nonneg (by linarith)]; linarith)]
    ring

theorem b3Prime_eq_trunc : b3Prime (α := ℝ) = fun x => 1 / 2 * trunc 2 x := by
  funext x
  apply trunc_cases (fun x => b3Prime x = 1 / 2 * trunc 2 x)
  · intro h
    rw [trunc_left (by omega) h, b3Prime_far (by rw [abs_of_nonpos (by linarith)]; linarith)]
    ring
  · intro h h'
    rw [trunc_1 (by omega) h h']
    have := (b3Prime_piece (u := x + 2) (by linarith) (by linarith)).2.2.2
    rw [show x + 2 - 2 = x by ring] at this
    rw [this]; ring
  · intro h h'
    rw [trunc_2 (by omega) h h']
    have := (b3Prime_piece (u := x + 1) (by linarith) (by linarith)).2.2.1
    rw [show x + 1 - 1 = x by ring] at this
    rw [this]; ring
  · intro h h'
    rw [trunc_3 (by omega) h h', (b3Prime_piece h h').2.1]
    ring
  · intro h h'
    rw [trunc_4 (by omega) h h']
    have := (b3Prime_piece (u := x - 1) (by linarith) (by linarith)).1
    rw [show 1 + (x - 1) = x by ring] at this
    rw [this]; ring
  · intro h
    rw [trunc_right h, b3Prime_far (by rw [abs_of_nonneg (by linarith)]; linarith)]
    ring

theorem hasDerivAt_b3 (x : ℝ) : HasDerivAt (b3 (α := ℝ)) (b3Prime x) x := by
  rw [b3_eq_trunc, b3Prime_eq_trunc]
  refine ((hasDerivAt_trunc 1 x).const_mul (1 / 6)).congr_deriv ?_
  norm_num
  ring

theorem hasDerivAt_b3Prime (x : ℝ) : HasDerivAt (b3Prime (α := ℝ)) (trunc 1 x) x := by
  rw [b3Prime_eq_trunc]
  refine ((hasDerivAt_trunc 0 x).const_mul (1 / 2)).congr_deriv ?_
  norm_num
  ring

theorem continuous_trunc (n : ℕ) : Continuous (trunc n) := by
  unfold trunc
  fun_prop

end SplineI

end Verif
