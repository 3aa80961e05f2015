import Verif.Lemmas.DoublePlane
import Verif.Model.DoubleEllipsoid

/-!
# Points of an ellipsoid in double precision: bounds on the terms
-/

namespace Verif.Props

open Verif Verif.Spec Verif.Double

/-- the computed square of a coordinate over the square of a half axis -/
noncomputable def termR (x a : ℝ) : ℝ := rnd (rnd (x * x) / rnd (a * a))

theorem t_over {a : ℝ} (ha : 2 ^ (-200 : ℤ) ≤ a) : DQuat.t / (a * a) ≤ DQuat.u / 10 ^ 20 := by
  have p : (0 : ℝ) < 2 ^ (-200 : ℤ) := by positivity
  have a0 := p.trans_le ha
  rw [div_le_iff₀ (mul_pos a0 a0)]
  have h : (2 : ℝ) ^ (-200 : ℤ) * 2 ^ (-200 : ℤ) ≤ a * a := mul_le_mul ha ha p.le a0.le
  rw [← zpow_add₀ two_ne_zero] at h
  have u0 := DQuat.u_pos
  refine le_trans ?_ (mul_le_mul_of_nonneg_left h (by positivity))
  have e1 : DQuat.t = 2 ^ (-1075 : ℤ) := rfl
  have e2 : DQuat.u = 2 ^ (-53 : ℤ) := by rw [DQuat.u]; norm_num
  rw [e1, e2, div_mul_eq_mul_div, ← zpow_add₀ two_ne_zero, le_div_iff₀ (by positivity)]
  have : (10 : ℝ) ^ 20 ≤ 2 ^ (80 : ℤ) := by norm_num
  refine (mul_le_mul_of_nonneg_left this (by positivity)).trans ?_
  rw [← zpow_add₀ two_ne_zero]
  exact zpow_le_zpow_right₀ one_le_two (by norm_num)

/-- the square of a half axis is computed with a small relative error -/
theorem axis_square {a : ℝ} (ha : 2 ^ (-200 : ℤ) ≤ a) : ∃ e, |e| ≤ 1001 / 1000 * DQuat.u ∧ rnd (a * a) = a * a * (1 + e) := by
  have p : (0 : ℝ) < 2 ^ (-200 : ℤ) := by positivity
  have a0 := p.trans_le ha
  have m0 : 0 < a * a := mul_pos a0 a0
  obtain ⟨d, h, hd, hh, e⟩ := DLinear.rnd_split (a * a)
  have tov := t_over ha
  have u0 := DQuat.u_pos
  refine ⟨d + h / (a * a), (abs_add_le _ _).trans ?_, ?_⟩
  · have hd' : |d| ≤ DQuat.u := hd
    have : |h / (a * a)| ≤ DQuat.t / (a * a) := by rw [abs_div, abs_of_pos m0]; exact div_le_div_of_nonneg_right hh m0.le
    linarith
  · rw [e, mul_add, mul_add, mul_add, mul_div_cancel₀ _ m0.ne']; ring

theorem scalar_term {X r η d1 e d2 h2 u T : ℝ} (u0 : 0 < u) (us : u ≤ 1 / 10 ^ 15) (X0 : 0 ≤ X) (hd1 : |d1| ≤ u) (he : |e| ≤ 1001 / 1000 * u) (hd2 : |d2| ≤ u) (hη : |η| ≤ u / 10 ^ 20) (hh : |h2| ≤ u / 10 ^ 20)
    (hr : r * (1 + e) = X * (1 + d1) + η) (hT : T = r * (1 + d2) + h2) : |T - X| ≤ 302 / 100 * u * X + u / 10 ^ 15 := by
  have r0 : |r| ≤ 1001 / 1000 * X + u / 10 ^ 19 := by
    have h1 : |r| * (1 - 1001 / 1000 * u) ≤ |r * (1 + e)| := by
      rw [abs_mul]
      refine mul_le_mul_of_nonneg_left ?_ (abs_nonneg _)
      have := abs_le.1 he
      rw [abs_of_nonneg (by linarith)]
      linarith
    have h2 : |X * (1 + d1) + η| ≤ X * (1 + u) + u / 10 ^ 20 := by
      refine (abs_add_le _ _).trans (add_le_add ?_ hη)
      rw [abs_mul, abs_of_nonneg X0]
      have := abs_le.1 hd1
      refine mul_le_mul_of_nonneg_left ?_ X0
      rw [abs_of_nonneg (by linarith)]; linarith
    rw [hr] at h1
    have k : |r| * (1 - 2 / 10 ^ 15) ≤ X * (1 + 1 / 10 ^ 15) + u / 10 ^ 20 := by
      have a1 : |r| * (1 - 2 / 10 ^ 15) ≤ |r| * (1 - 1001 / 1000 * u) := mul_le_mul_of_nonneg_left (by linarith) (abs_nonneg _)
      have a2 : X * (1 + u) ≤ X * (1 + 1 / 10 ^ 15) := mul_le_mul_of_nonneg_left (by linarith) X0
      linarith
    have := abs_nonneg r
    linarith
  have h1 : |r - X| ≤ 1001 / 1000 * u * |r| + u * X + u / 10 ^ 20 := by
    rw [show r - X = X * d1 - r * e + η by linarith]
    refine (abs_add_le _ _).trans (add_le_add ((abs_sub _ _).trans ?_) hη)
    rw [abs_mul, abs_mul, abs_of_nonneg X0]
    have a1 := mul_le_mul_of_nonneg_left hd1 X0
    have a2 := mul_le_mul_of_nonneg_left he (abs_nonneg r)
    linarith
  have h3 : |T - r| ≤ u * |r| + u / 10 ^ 20 := by
    rw [show T - r = r * d2 + h2 by rw [hT]; ring]
    refine (abs_add_le _ _).trans (add_le_add ?_ hh)
    rw [abs_mul, mul_comm]
    exact mul_le_mul_of_nonneg_right hd2 (abs_nonneg _)
  have h4 := abs_sub_le T r X
  have h5 : u * |r| ≤ u * (1001 / 1000 * X + u / 10 ^ 19) := mul_le_mul_of_nonneg_left r0 u0.le
  have h6 : u * u ≤ u * (1 / 10 ^ 15) := mul_le_mul_of_nonneg_left us u0.le
  have h7 : 0 ≤ u * X := mul_nonneg u0.le X0
  linarith

/-- **the computed term** -/
theorem term_near (x : ℝ) {a : ℝ} (ha : 2 ^ (-200 : ℤ) ≤ a) : |termR x a - (x / a) ^ 2| ≤ 302 / 100 * DQuat.u * (x / a) ^ 2 + DQuat.u / 10 ^ 15 := by
  have p : (0 : ℝ) < 2 ^ (-200 : ℤ) := by positivity
  have a0 := p.trans_le ha
  have m0 : 0 < a * a := mul_pos a0 a0
  have u0 := DQuat.u_pos
  have us := DQuat.u_small
  obtain ⟨d1, h1, hd1, hh1, e1⟩ := DLinear.rnd_split (x * x)
  obtain ⟨e, he, e2⟩ := axis_square ha
  obtain ⟨d2, h2, hd2, hh2, e3⟩ := DLinear.rnd_split (rnd (x * x) / rnd (a * a))
  have tu : DQuat.t ≤ DQuat.u / 10 ^ 20 := by
    have tt := t_over (a := 1) (zpow_le_one_of_nonpos₀ one_le_two (by norm_num))
    simpa using tt
  have tov := t_over ha
  have ne : (1 : ℝ) + e ≠ 0 := by
    have := abs_le.1 he
    have : 0 < 1 + e := by linarith
    exact this.ne'
  refine scalar_term (r := rnd (x * x) / rnd (a * a)) (η := h1 / (a * a)) u0 us (sq_nonneg _) hd1 he hd2 ?_ (le_trans hh2 tu) ?_ e3
  · rw [abs_div, abs_of_pos m0]
    exact (div_le_div_of_nonneg_right hh1 m0.le).trans tov
  · rw [e1, e2, div_pow]
    field_simp

theorem term_nonneg (x a : ℝ) : 0 ≤ termR x a := by
  refine le_rnd representable_zero (div_nonneg (le_rnd representable_zero (mul_self_nonneg _)) (le_rnd representable_zero (mul_self_nonneg _)))

/-- the computed sum of three terms -/
noncomputable def levelR (x y z a b c : ℝ) : ℝ := rnd (rnd (termR x a + termR y b) + termR z c)

theorem level_near (x y z : ℝ) {a b c : ℝ} (ha : 2 ^ (-200 : ℤ) ≤ a) (hb : 2 ^ (-200 : ℤ) ≤ b) (hc : 2 ^ (-200 : ℤ) ≤ c) :
    |levelR x y z a b c - ((x / a) ^ 2 + (y / b) ^ 2 + (z / c) ^ 2)| ≤ 504 / 100 * DQuat.u * ((x / a) ^ 2 + (y / b) ^ 2 + (z / c) ^ 2) + DQuat.u / 10 ^ 14 := by
  have u0 := DQuat.u_pos
  have us := DQuat.u_small
  have n1 := term_near x ha
  have n2 := term_near y hb
  have n3 := term_near z hc
  have p1 := term_nonneg x a
  have p2 := term_nonneg y b
  have p3 := term_nonneg z c
  obtain ⟨d, hd, e⟩ := DLinear.rnd_sum (rnd_representable (rnd (x * x) / rnd (a * a))) (rnd_representable (rnd (y * y) / rnd (b * b)))
  obtain ⟨f, hf, e'⟩ := DLinear.rnd_sum (rnd_representable (termR x a + termR y b)) (rnd_representable (rnd (z * z) / rnd (c * c)))
  have e : rnd (termR x a + termR y b) = (termR x a + termR y b) * (1 + d) := e
  have e' : levelR x y z a b c = (rnd (termR x a + termR y b) + termR z c) * (1 + f) := e'
  have hd : |d| ≤ DQuat.u := hd
  have hf : |f| ≤ DQuat.u := hf
  rw [e'] 
  rw [e]
  have x0 := sq_nonneg (x / a)
  have y0 := sq_nonneg (y / b)
  have z0 := sq_nonneg (z / c)
  generalize termR x a = A at *
  generalize termR y b = B at *
  generalize termR z c = C at *
  generalize (x / a) ^ 2 = X at *
  generalize (y / b) ^ 2 = Y at *
  generalize (z / c) ^ 2 = Z at *
  generalize DQuat.u = u at *
  have k : |((A + B) * (1 + d) + C) * (1 + f) - (A + B + C)| ≤ 2001 / 1000 * u * (A + B + C) := by
    rw [show ((A + B) * (1 + d) + C) * (1 + f) - (A + B + C) = (A + B) * d + (A + B + C) * f + (A + B) * (d * f) by ring]
    refine (abs_add_three _ _ _).trans ?_
    rw [abs_mul, abs_mul, abs_mul, abs_mul d f, abs_of_nonneg (add_nonneg p1 p2), abs_of_nonneg (add_nonneg (add_nonneg p1 p2) p3)]
    have a1 := mul_le_mul_of_nonneg_left hd (add_nonneg p1 p2)
    have a2 := mul_le_mul_of_nonneg_left hf (add_nonneg (add_nonneg p1 p2) p3)
    have a3 : |d| * |f| ≤ u * (1 / 10 ^ 15) := mul_le_mul hd (hf.trans us) (abs_nonneg _) u0.le
    have a4 := mul_le_mul_of_nonneg_left a3 (add_nonneg p1 p2)
    have a5 : 0 ≤ u * C := mul_nonneg u0.le p3
    have a6 : 0 ≤ u * A := mul_nonneg u0.le p1
    have a7 : 0 ≤ u * B := mul_nonneg u0.le p2
    linarith
  have s1 := abs_le.1 n1
  have s2 := abs_le.1 n2
  have s3 := abs_le.1 n3
  have q : |A + B + C - (X + Y + Z)| ≤ 302 / 100 * u * (X + Y + Z) + 3 * (u / 10 ^ 15) := by
    rw [abs_le]; constructor <;> linarith [s1.1, s1.2, s2.1, s2.2, s3.1, s3.2]
  have q2 := (abs_le.1 q).2
  have m0 : 0 ≤ X + Y + Z := add_nonneg (add_nonneg x0 y0) z0
  have b1 : u * (A + B + C) ≤ u * (1001 / 1000 * (X + Y + Z) + 1 / 10 ^ 15) := by
    refine mul_le_mul_of_nonneg_left ?_ u0.le
    have : u * (X + Y + Z) ≤ 1 / 10 ^ 15 * (X + Y + Z) := mul_le_mul_of_nonneg_right us m0
    linarith
  have b2 : 0 ≤ u * (X + Y + Z) := mul_nonneg u0.le m0
  have := abs_sub_le (((A + B) * (1 + d) + C) * (1 + f)) (A + B + C) (X + Y + Z)
  linarith

end Verif.Props
