import Verif.Model.DoubleLine2
import Verif.Lemmas.DoubleVec

/-! # Lemmas on lines of the plane in double precision -/

namespace Verif.DLine2

open Verif Verif.Spec Verif.Double Verif.DQuat

/-- an error relative to a sum -/
theorem add_near {x y : ℝ} (hx : Representable x) (hy : Representable y) : |rnd (x + y) - (x + y)| ≤ u * |x + y| := by
  have := rnd_add_error hx hy
  rwa [show (2 : ℝ) ^ (-53 : ℤ) = u by rw [u]; norm_num] at this

theorem sub_near {x y : ℝ} (hx : Representable x) (hy : Representable y) : |rnd (x - y) - (x - y)| ≤ u * |x - y| := by
  have := add_near hx (representable_neg hy)
  rwa [← sub_eq_add_neg] at this

/-- rounding a quotient -/
theorem div_near {x y : ℝ} (hy : y ≠ 0) : |y * rnd (x / y) - x| ≤ u * |x| + t * |y| := by
  have h := DVec.mul_near x y⁻¹
  rw [← div_eq_mul_inv] at h
  have e : y * rnd (x / y) - x = y * (rnd (x / y) - x / y) := by rw [mul_sub, mul_div_cancel₀ _ hy]
  rw [e, abs_mul]
  have h2 := mul_le_mul_of_nonneg_left h (abs_nonneg y)
  have e2 : |y| * (u * |x / y| + t) = u * |x| + t * |y| := by
    rw [abs_div]
    have : |y| ≠ 0 := abs_ne_zero.2 hy
    field_simp
  linarith

/-- a component of the direction, found again as a difference -/
theorem back_near {o d : ℝ} (ho : Representable o) (hd : Representable d) : |rnd (rnd (o + d) - o) - d| ≤ 2 * u * |o| + 3 * u * |d| := by
  have h1 := add_near ho hd
  have h2 := sub_near (rnd_representable (o + d)) ho
  generalize rnd (o + d) = a at *
  generalize rnd (a - o) = e at *
  have u0 := u_pos
  have u1 := u_small
  have s1 : |o + d| ≤ |o| + |d| := abs_add_le _ _
  have s2 : |a - o| ≤ |d| + |a - (o + d)| := by
    have := abs_add_le d (a - (o + d)); rwa [show d + (a - (o + d)) = a - o by ring] at this
  have s3 : |e - d| ≤ |e - (a - o)| + |a - (o + d)| := by
    have := abs_add_le (e - (a - o)) (a - (o + d)); rwa [show e - (a - o) + (a - (o + d)) = e - d by ring] at this
  have o0 := abs_nonneg o
  have d0 := abs_nonneg d
  have p1 : u * |o + d| ≤ u * (|o| + |d|) := mul_le_mul_of_nonneg_left s1 u0.le
  have s4 : |a - o| ≤ |d| + u * (|o| + |d|) := by linarith
  have p2 : u * |a - o| ≤ u * (|d| + u * (|o| + |d|)) := mul_le_mul_of_nonneg_left s4 u0.le
  have p3 : u * (u * (|o| + |d|)) ≤ u * (1 * (|o| + |d|)) := mul_le_mul_of_nonneg_left (mul_le_mul_of_nonneg_right (by linarith) (by positivity)) u0.le
  nlinarith

/-- a difference of different numbers is not rounded to zero -/
theorem sub_ne_zero' {x y : ℝ} (hx : Representable x) (hy : Representable y) (h : x ≠ y) : rnd (x - y) ≠ 0 := by
  intro h0
  have := sub_near hx hy
  rw [h0, zero_sub, abs_neg] at this
  have p := abs_pos.2 (sub_ne_zero.2 h)
  have u1 := u_small
  nlinarith

/-- what the test with the slope accepts is close to the line with the computed slope -/
theorem slope_near {ex ey oy X py w : ℝ} (hex : ex ≠ 0) (hoy : Representable oy) (hw : |w - X| ≤ u * |X|)
    (h : py = rnd (rnd (rnd (ey / ex) * w) + oy)) :
    |ex * (py - oy) - ey * X| ≤ 2 * u * |ex| * |py| + 4 * u * |ey| * |X| + 2 * t * |ex| * |X| + t * |ex| := by
  have h3 := div_near (x := ey) hex
  have h2 := DVec.mul_near (rnd (ey / ex)) w
  have h1 := add_near (rnd_representable (rnd (ey / ex) * w)) hoy
  rw [← h] at h1
  generalize rnd (rnd (ey / ex) * w) = r at *
  generalize rnd (ey / ex) = m at *
  have u0 := u_pos
  have u1 := u_small
  have t0 := t_pos
  have a1 : |py - (r + oy)| ≤ 2 * u * |py| := by
    have s : |r + oy| ≤ |py| + |py - (r + oy)| := by
      have := abs_sub py (py - (r + oy)); rwa [show py - (py - (r + oy)) = r + oy by ring] at this
    have s2 := mul_le_mul_of_nonneg_left s u0.le
    have := abs_nonneg (py - (r + oy))
    have := abs_nonneg py
    nlinarith
  have W : |w| ≤ (1 + u) * |X| := by
    have := abs_add_le X (w - X); rw [show X + (w - X) = w by ring] at this; linarith
  have X0 := abs_nonneg X
  have E0 := abs_nonneg ex
  have F0 := abs_nonneg ey
  have w0 := abs_nonneg w
  have EM : |ex * m| ≤ (1 + u) * |ey| + t * |ex| := by
    have := abs_add_le ey (ex * m - ey); rw [show ey + (ex * m - ey) = ex * m by ring] at this; linarith
  have key : ex * (py - oy) - ey * X = ex * (py - (r + oy)) + ex * (r - m * w) + (ex * m - ey) * w + ey * (w - X) := by ring
  have b1 : |ex * (py - (r + oy))| ≤ |ex| * (2 * u * |py|) := by rw [abs_mul]; exact mul_le_mul_of_nonneg_left a1 E0
  have b2 : |ex * (r - m * w)| ≤ u * (((1 + u) * |ey| + t * |ex|) * |w|) + t * |ex| := by
    rw [abs_mul]
    have k := mul_le_mul_of_nonneg_left h2 E0
    have e : |ex| * (u * |m * w| + t) = u * (|ex * m| * |w|) + t * |ex| := by rw [abs_mul m, abs_mul ex]; ring
    have k2 := mul_le_mul_of_nonneg_left (mul_le_mul_of_nonneg_right EM w0) u0.le
    linarith
  have b3 : |(ex * m - ey) * w| ≤ (u * |ey| + t * |ex|) * |w| := by rw [abs_mul]; exact mul_le_mul_of_nonneg_right h3 w0
  have b4 : |ey * (w - X)| ≤ |ey| * (u * |X|) := by rw [abs_mul]; exact mul_le_mul_of_nonneg_left hw F0
  have c : |ex * (py - oy) - ey * X| ≤ |ex * (py - (r + oy))| + |ex * (r - m * w)| + |(ex * m - ey) * w| + |ey * (w - X)| := by
    rw [key]; exact (abs_add_le _ _).trans (add_le_add_left ((abs_add_le _ _).trans (add_le_add_left (abs_add_le _ _) _)) _)
  have g1 : |ey| * |w| ≤ (1 + u) * (|ey| * |X|) := by have := mul_le_mul_of_nonneg_left W F0; linarith
  have g2 : |ex| * |w| ≤ (1 + u) * (|ex| * |X|) := by have := mul_le_mul_of_nonneg_left W E0; linarith
  have q1 : 0 ≤ |ey| * |X| := mul_nonneg F0 X0
  have q2 : 0 ≤ |ex| * |X| := mul_nonneg E0 X0
  have g3 : |ey| * |w| ≤ 101 / 100 * (|ey| * |X|) := g1.trans (mul_le_mul_of_nonneg_right (by linarith) q1)
  have g4 : |ex| * |w| ≤ 101 / 100 * (|ex| * |X|) := g2.trans (mul_le_mul_of_nonneg_right (by linarith) q2)
  have f3 := mul_le_mul_of_nonneg_left g3 u0.le
  have f4 := mul_le_mul_of_nonneg_left g4 t0.le
  have v0 : 0 ≤ u * (|ey| * |w|) := by positivity
  have v1 : 0 ≤ t * (|ex| * |w|) := by positivity
  have f5 : u * (u * (|ey| * |w|)) ≤ 1 / 100 * (u * (|ey| * |w|)) := mul_le_mul_of_nonneg_right (by linarith) v0
  have f6 : u * (t * (|ex| * |w|)) ≤ 1 / 100 * (t * (|ex| * |w|)) := mul_le_mul_of_nonneg_right (by linarith) v1
  have z1 : 0 ≤ u * (|ey| * |X|) := by positivity
  have z2 : 0 ≤ t * (|ex| * |X|) := by positivity
  nlinarith

end Verif.DLine2
