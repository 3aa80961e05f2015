import Verif.Model.DoubleVec
import Verif.Lemmas.DoubleQuat

/-! # Lemmas on vectors in double precision -/

namespace Verif.DVec

open Verif Verif.Spec Verif.Double Verif.DQuat

/-- the computed sum of three numbers -/
noncomputable def sum3 (o : Bool) (a b c : ℝ) : ℝ := if o then rnd (a + rnd (b + c)) else rnd (rnd (a + b) + c)

/-- the computed dot product -/
noncomputable def dot3 (o : Bool) (a b c x y z : ℝ) : ℝ := sum3 o (rnd (a * x)) (rnd (b * y)) (rnd (c * z))

theorem mul_near (x y : ℝ) : |rnd (x * y) - x * y| ≤ u * |x * y| + t := by
  obtain ⟨d, h, kd, kh, e⟩ := DLinear.rnd_split (x * y)
  rw [e, show x * y * (1 + d) + h - x * y = x * y * d + h by ring]
  refine (abs_add_le _ _).trans (add_le_add ?_ kh)
  rw [abs_mul, mul_comm]
  exact mul_le_mul_of_nonneg_right kd (abs_nonneg _)

theorem sum3_aux {A B C a b c : ℝ} (hB : Representable B) (hC : Representable C) (hA : Representable A)
    (ka : |A - a| ≤ u * |a| + t) (kb : |B - b| ≤ u * |b| + t) (kc : |C - c| ≤ u * |c| + t) :
    |rnd (A + rnd (B + C)) - (a + b + c)| ≤ 301 / 100 * u * (|a| + |b| + |c|) + 31 / 10 * t := by
  have u0 := u_pos
  have u1 := u_small
  have t0 := t_pos
  obtain ⟨d, kd, e⟩ := DLinear.rnd_sum hB hC
  obtain ⟨f, kf, g⟩ := DLinear.rnd_sum hA (rnd_representable (B + C))
  have kd' : |d| ≤ u := kd
  have kf' : |f| ≤ u := kf
  rw [g, show (A + rnd (B + C)) * (1 + f) - (a + b + c) = (A - a) + (B - b) + (C - c) + (rnd (B + C) - (B + C)) + (A + rnd (B + C)) * f by ring]
  have hA' : |A| ≤ |a| + (u * |a| + t) := by have := abs_sub_abs_le_abs_sub A a; linarith
  have hB' : |B| ≤ |b| + (u * |b| + t) := by have := abs_sub_abs_le_abs_sub B b; linarith
  have hC' : |C| ≤ |c| + (u * |c| + t) := by have := abs_sub_abs_le_abs_sub C c; linarith
  have hBC : |B + C| ≤ |b| + |c| + u * (|b| + |c|) + 2 * t := by have := abs_add_le B C; linarith
  have a0 := abs_nonneg a
  have b0 := abs_nonneg b
  have c0 := abs_nonneg c
  have ub0 : 0 ≤ u * (|b| + |c|) := by positivity
  have ua0 : 0 ≤ u * |a| := by positivity
  have small : ∀ w : ℝ, 0 ≤ w → u * w ≤ 1 / 10000 * w := fun w hw => mul_le_mul_of_nonneg_right (by linarith) hw
  have h1 : |rnd (B + C) - (B + C)| ≤ u * (|b| + |c|) + 1 / 1000 * (u * (|b| + |c|)) + 1 / 1000 * t := by
    rw [e, show (B + C) * (1 + d) - (B + C) = (B + C) * d by ring, abs_mul]
    have := mul_le_mul hBC kd' (abs_nonneg _) ((abs_nonneg _).trans hBC)
    have s1 := small _ ub0
    have s2 := small _ t0.le
    nlinarith
  have h2 : |A + rnd (B + C)| ≤ |a| + |b| + |c| + 3 * u * (|a| + |b| + |c|) + 4 * t := by
    have q1 := abs_add_le A (rnd (B + C))
    have q2 : |rnd (B + C)| ≤ |B + C| + |rnd (B + C) - (B + C)| := by have := abs_sub_abs_le_abs_sub (rnd (B + C)) (B + C); linarith
    nlinarith
  have h3 : |(A + rnd (B + C)) * f| ≤ u * (|a| + |b| + |c|) + 1 / 1000 * (u * (|a| + |b| + |c|)) + 1 / 1000 * t := by
    rw [abs_mul]
    have := mul_le_mul h2 kf' (abs_nonneg _) ((abs_nonneg _).trans h2)
    have s1 := small _ (add_nonneg ua0 ub0)
    have s2 := small _ t0.le
    nlinarith
  have q1 := abs_add_le ((A - a) + (B - b) + (C - c) + (rnd (B + C) - (B + C))) ((A + rnd (B + C)) * f)
  have q2 := abs_add_le ((A - a) + (B - b) + (C - c)) (rnd (B + C) - (B + C))
  have q3 := abs_add_le ((A - a) + (B - b)) (C - c)
  have q4 := abs_add_le (A - a) (B - b)
  nlinarith

theorem sum3_near (o : Bool) {A B C a b c : ℝ} (hA : Representable A) (hB : Representable B) (hC : Representable C)
    (ka : |A - a| ≤ u * |a| + t) (kb : |B - b| ≤ u * |b| + t) (kc : |C - c| ≤ u * |c| + t) :
    |sum3 o A B C - (a + b + c)| ≤ 301 / 100 * u * (|a| + |b| + |c|) + 31 / 10 * t := by
  cases o
  · have := sum3_aux hA hB hC kc ka kb
    rw [show sum3 false A B C = rnd (C + rnd (A + B)) by rw [sum3]; simp [add_comm], show a + b + c = c + a + b by ring,
      show |a| + |b| + |c| = |c| + |a| + |b| by ring]
    exact this
  · simpa [sum3] using sum3_aux hB hC hA ka kb kc

theorem dot3_near (o : Bool) (a b c x y z : ℝ) :
    |dot3 o a b c x y z - (a * x + b * y + c * z)| ≤ 301 / 100 * u * (|a * x| + |b * y| + |c * z|) + 31 / 10 * t :=
  sum3_near o (rnd_representable _) (rnd_representable _) (rnd_representable _) (mul_near a x) (mul_near b y) (mul_near c z)

theorem sum3_representable (o : Bool) (a b c : ℝ) : Representable (sum3 o a b c) := by
  unfold sum3; split <;> exact rnd_representable _

theorem sum3_nonneg (o : Bool) {a b c : ℝ} (ha : 0 ≤ a) (hb : 0 ≤ b) (hc : 0 ≤ c) : 0 ≤ sum3 o a b c := by
  unfold sum3
  split
  · exact le_rnd representable_zero (add_nonneg ha (le_rnd representable_zero (add_nonneg hb hc)))
  · exact le_rnd representable_zero (add_nonneg (le_rnd representable_zero (add_nonneg ha hb)) hc)

theorem mul_fin2 {x y : ℝ} (hx : |x| ≤ 2 ^ 500) (hy : |y| ≤ 2 ^ 500) : (F64.fin x).mul (.fin y) = .fin (rnd (x * y)) ∧ |rnd (x * y)| ≤ 2 ^ 1000 := by
  have h1 : |x * y| ≤ 2 ^ 1000 := by
    rw [show (1000 : ℕ) = 500 + 500 by norm_num, pow_add, abs_mul]
    exact mul_le_mul hx hy (abs_nonneg _) (by positivity)
  have h2 : |rnd (x * y)| ≤ 2 ^ 1000 := DLinear.rnd_abs_le (rep_two 1000) h1
  exact ⟨F64.ofExact_fin (lt_of_le_of_lt h2 (two_lt (by norm_num))), h2⟩

theorem add_fin2 {a b : ℝ} {n : ℕ} (hn : n < 1022) (ha : |a| ≤ 2 ^ n) (hb : |b| ≤ 2 ^ n) :
    (F64.fin a).add (.fin b) = .fin (rnd (a + b)) ∧ |rnd (a + b)| ≤ 2 ^ (n + 1) := by
  have h1 : |a + b| ≤ 2 ^ (n + 1) := by rw [pow_succ]; have := abs_add_le a b; linarith
  have h2 : |rnd (a + b)| ≤ 2 ^ (n + 1) := DLinear.rnd_abs_le (rep_two _) h1
  exact ⟨F64.ofExact_fin (lt_of_le_of_lt h2 (two_lt (by omega))), h2⟩

theorem sub_fin2 {a b : ℝ} {n : ℕ} (hn : n < 1022) (ha : |a| ≤ 2 ^ n) (hb : |b| ≤ 2 ^ n) :
    (F64.fin a).sub (.fin b) = .fin (rnd (a - b)) ∧ |rnd (a - b)| ≤ 2 ^ (n + 1) := by
  have := add_fin2 hn ha (b := -b) (by rwa [abs_neg])
  rw [← sub_eq_add_neg] at this
  exact this

theorem sum_fin (o : Bool) {a b c : ℝ} (ha : |a| ≤ 2 ^ 1000) (hb : |b| ≤ 2 ^ 1000) (hc : |c| ≤ 2 ^ 1000) :
    sum o (.fin a) (.fin b) (.fin c) = .fin (sum3 o a b c) ∧ |sum3 o a b c| ≤ 2 ^ 1002 := by
  have p : (2 : ℝ) ^ 1000 ≤ 2 ^ 1001 := pow_le_pow_right₀ one_le_two (by norm_num)
  cases o
  · obtain ⟨e1, b1⟩ := add_fin2 (n := 1000) (by norm_num) ha hb
    obtain ⟨e2, b2⟩ := add_fin2 (n := 1001) (by norm_num) b1 (hc.trans p)
    simp only [sum, sum3, e1, e2, Bool.false_eq_true, if_false]
    exact ⟨trivial, b2⟩
  · obtain ⟨e1, b1⟩ := add_fin2 (n := 1000) (by norm_num) hb hc
    obtain ⟨e2, b2⟩ := add_fin2 (n := 1001) (by norm_num) (ha.trans p) b1
    simp only [sum, sum3, e1, e2, if_true]
    exact ⟨trivial, b2⟩

theorem dot_fin (o : Bool) {a b c x y z : ℝ} (ha : |a| ≤ 2 ^ 500) (hb : |b| ≤ 2 ^ 500) (hc : |c| ≤ 2 ^ 500) (hx : |x| ≤ 2 ^ 500) (hy : |y| ≤ 2 ^ 500)
    (hz : |z| ≤ 2 ^ 500) : dot o ⟨.fin a, .fin b, .fin c⟩ ⟨.fin x, .fin y, .fin z⟩ = .fin (dot3 o a b c x y z) ∧ |dot3 o a b c x y z| ≤ 2 ^ 1002 := by
  obtain ⟨e1, b1⟩ := mul_fin2 ha hx
  obtain ⟨e2, b2⟩ := mul_fin2 hb hy
  obtain ⟨e3, b3⟩ := mul_fin2 hc hz
  simp only [dot, e1, e2, e3]
  exact sum_fin o b1 b2 b3

/-- square roots of numbers that are near in the sense of a relative and an absolute error -/
theorem sqrt_near2 {a b c k : ℝ} (ha : 0 ≤ a) (hb : 0 ≤ b) (hk : 0 ≤ k) (hc : 0 ≤ c) (hc1 : c ≤ 1) (h : |a - b| ≤ (2 * c - c * c) * b + k) :
    |Real.sqrt a - Real.sqrt b| ≤ c * Real.sqrt b + Real.sqrt k := by
  obtain ⟨h1, h2⟩ := abs_le.1 h
  have eb : Real.sqrt b * Real.sqrt b = b := Real.mul_self_sqrt hb
  have ek : Real.sqrt k * Real.sqrt k = k := Real.mul_self_sqrt hk
  have ea : Real.sqrt a * Real.sqrt a = a := Real.mul_self_sqrt ha
  have sb := Real.sqrt_nonneg b
  have sk := Real.sqrt_nonneg k
  have sa := Real.sqrt_nonneg a
  refine abs_le.2 ⟨?_, ?_⟩
  · have : (1 - c) * Real.sqrt b ≤ Real.sqrt a + Real.sqrt k := by
      refine abs_le_of_sq_le_sq' ?_ (by positivity) |>.2
      nlinarith [mul_nonneg sa sk]
    linarith
  · have : Real.sqrt a ≤ (1 + c) * Real.sqrt b + Real.sqrt k := by
      refine abs_le_of_sq_le_sq' ?_ (by positivity) |>.2
      nlinarith [mul_nonneg sb sk, mul_nonneg hc (mul_nonneg sb sk), mul_nonneg (mul_nonneg hc hc) hb]
    linarith

theorem sqrt_t : Real.sqrt (32 / 10 * t) ≤ 2 ^ (-536 : ℤ) := by
  refine Real.sqrt_le_iff.2 ⟨(two_zpow_pos _).le, ?_⟩
  rw [← zpow_natCast, ← zpow_mul, t, show ((-536 : ℤ) * (2 : ℕ)) = 3 + -1075 by norm_num, zpow_add₀ two_ne_zero]
  refine mul_le_mul_of_nonneg_right (by norm_num) (two_zpow_pos _).le

/-- the rounded root of a number near a sum of squares -/
theorem root_near {S' S c : ℝ} (h0 : 0 ≤ S') (hS : 0 ≤ S) (hc : 0 ≤ c) (hc1 : c ≤ 100 * u) (h : |S' - S| ≤ (2 * c - c * c) * S + 32 / 10 * t) :
    |rnd (Real.sqrt S') - Real.sqrt S| ≤ (c + 101 / 100 * u) * Real.sqrt S + 2 ^ (-535 : ℤ) := by
  have u0 := u_pos
  have u1 := u_small
  have t0 := t_pos
  have k1 := sqrt_near2 h0 hS (by positivity) hc (by linarith) h
  have k2 := sqrt_t
  have s0 := Real.sqrt_nonneg S
  obtain ⟨d, g, kd, kg, e⟩ := DLinear.rnd_split (Real.sqrt S')
  have kd' : |d| ≤ u := kd
  have kg' : |g| ≤ t := kg
  have e1 : (2 : ℝ) ^ (-535 : ℤ) = 2 * 2 ^ (-536 : ℤ) := by rw [show (-535 : ℤ) = 1 + -536 by norm_num, zpow_add₀ two_ne_zero, zpow_one]
  have e2 : t ≤ 1 / 1000 * 2 ^ (-536 : ℤ) := by
    refine (t_small (k := -546) (by norm_num)).trans ?_
    rw [show (-546 : ℤ) = -10 + -536 by norm_num, zpow_add₀ two_ne_zero]
    exact mul_le_mul_of_nonneg_right (by norm_num) (two_zpow_pos _).le
  have r0 : (0 : ℝ) < 2 ^ (-536 : ℤ) := two_zpow_pos _
  rw [e1, e]
  generalize (2 : ℝ) ^ (-536 : ℤ) = r at *
  generalize Real.sqrt (32 / 10 * t) = w at *
  generalize Real.sqrt S' = A at *
  generalize Real.sqrt S = B at *
  rw [show A * (1 + d) + g - B = (A - B) + ((A - B) * d + B * d) + g by ring]
  have q1 := abs_add_le ((A - B) + ((A - B) * d + B * d)) g
  have q2 := abs_add_le (A - B) ((A - B) * d + B * d)
  have q3 := abs_add_le ((A - B) * d) (B * d)
  have q4 : |(A - B) * d| ≤ (c * B + r) * u := by
    rw [abs_mul]; exact mul_le_mul (by linarith) kd' (abs_nonneg _) (by positivity)
  have q5 : |B * d| ≤ B * u := by rw [abs_mul, abs_of_nonneg s0]; exact mul_le_mul_of_nonneg_left kd' s0
  have q6 : c * B * u ≤ 1 / 100 * (u * B) := by
    have : c ≤ 1 / 100 := by linarith
    nlinarith [mul_nonneg u0.le s0]
  have q7 : r * u ≤ 1 / 1000 * r := by nlinarith
  nlinarith

end Verif.DVec
