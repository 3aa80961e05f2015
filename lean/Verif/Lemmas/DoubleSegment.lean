import Verif.Lemmas.DoubleVec
import Verif.Lemmas.Cone

/-!
# Almost parallel vectors in double precision

Lemmas for C117.
-/

namespace Verif.DSegment

open Verif Verif.Spec Verif.Double Verif.DQuat

/-- a computed difference of products and the exact one -/
theorem det_near {a b c d : ℝ} : |rnd (rnd (a * b) - rnd (c * d)) - (a * b - c * d)| ≤ 201 / 100 * u * (|a * b| + |c * d|) + 3 * t := by
  have u0 := u_pos
  have u1 := u_small
  have t0 := t_pos
  have h1 := DVec.mul_near a b
  have h2 := DVec.mul_near c d
  obtain ⟨e, ke, ee⟩ := DLinear.rnd_sum (rnd_representable (a * b)) (representable_neg (rnd_representable (c * d)))
  have ke' : |e| ≤ u := ke
  rw [← sub_eq_add_neg] at ee
  rw [ee]
  generalize rnd (a * b) = p at *
  generalize rnd (c * d) = q at *
  generalize a * b = x at *
  generalize c * d = y at *
  have hp : |p| ≤ |x| + (u * |x| + t) := by have := abs_sub_abs_le_abs_sub p x; linarith
  have hq : |q| ≤ |y| + (u * |y| + t) := by have := abs_sub_abs_le_abs_sub q y; linarith
  have hpq : |p - q| ≤ (|x| + |y|) + (u * (|x| + |y|) + 2 * t) := by have := abs_sub p q; linarith
  rw [show (p - q) * (1 + e) - (x - y) = (p - x) - (q - y) + (p - q) * e by ring]
  have h3 : |(p - q) * e| ≤ ((|x| + |y|) + (u * (|x| + |y|) + 2 * t)) * u := by
    rw [abs_mul]; exact mul_le_mul hpq ke' (abs_nonneg _) ((abs_nonneg _).trans hpq)
  have h4 := abs_add_le ((p - x) - (q - y)) ((p - q) * e)
  have h5 := abs_sub (p - x) (q - y)
  have h6 : |p - x| + |q - y| ≤ u * (|x| + |y|) + 2 * t := by linarith
  have s0 : 0 ≤ |x| + |y| := add_nonneg (abs_nonneg _) (abs_nonneg _)
  generalize |x| + |y| = s at *
  have s1 : u * (u * s) ≤ 1 / 1000 * (u * s) := mul_le_mul_of_nonneg_right (by linarith) (by positivity)
  have s2 : u * t ≤ 1 / 1000 * t := mul_le_mul_of_nonneg_right (by linarith) t0.le
  have s3 : 0 ≤ u * s := by positivity
  nlinarith

/-- a number whose square is computed as zero -/
theorem small_of_sq {c : ℝ} (h : rnd (c * c) = 0) : |c| ≤ 2 ^ (-537 : ℤ) := by
  have k := DQuat.sq_near c
  rw [h, zero_sub, abs_neg, abs_of_nonneg (mul_self_nonneg c)] at k
  have u1 := u_small
  have t0 := t_pos
  refine abs_le_of_sq_le_sq ?_ (two_zpow_pos _).le
  have e : ((2 : ℝ) ^ (-537 : ℤ)) ^ 2 = 2 * t := by
    rw [← zpow_natCast, ← zpow_mul, t, show ((-537 : ℤ) * (2 : ℕ)) = 1 + -1075 by norm_num, zpow_add₀ two_ne_zero, zpow_one]
  rw [e, sq]
  have := mul_le_mul_of_nonneg_right u1 (mul_self_nonneg c)
  linarith

/-- a computed difference of products whose square is computed as zero -/
theorem det_small {a b c d : ℝ} (h : rnd (rnd (rnd (a * b) - rnd (c * d)) * rnd (rnd (a * b) - rnd (c * d))) = 0) :
    |a * b - c * d| ≤ 201 / 100 * u * (|a * b| + |c * d|) + 2 ^ (-536 : ℤ) := by
  have h1 := small_of_sq h
  have h2 := det_near (a := a) (b := b) (c := c) (d := d)
  have h3 : 3 * t ≤ (2 : ℝ) ^ (-537 : ℤ) := by
    rw [t, show (-1075 : ℤ) = -538 + -537 by norm_num, zpow_add₀ two_ne_zero, ← mul_assoc]
    refine mul_le_of_le_one_left (two_zpow_pos _).le ?_
    have : (2 : ℝ) ^ (-538 : ℤ) ≤ 2 ^ (-2 : ℤ) := zpow_le_zpow_right₀ one_le_two (by norm_num)
    have e2 : (2 : ℝ) ^ (-2 : ℤ) = 1 / 4 := by norm_num
    rw [e2] at this
    generalize (2 : ℝ) ^ (-538 : ℤ) = r at *
    linarith
  have h4 : (2 : ℝ) ^ (-536 : ℤ) = 2 * 2 ^ (-537 : ℤ) := by
    rw [show (-536 : ℤ) = 1 + -537 by norm_num, zpow_add₀ two_ne_zero, zpow_one]
  rw [h4]
  have h5 : |a * b - c * d| ≤ |rnd (rnd (a * b) - rnd (c * d))| + |rnd (rnd (a * b) - rnd (c * d)) - (a * b - c * d)| := by
    have := abs_sub_abs_le_abs_sub (a * b - c * d) (rnd (rnd (a * b) - rnd (c * d)))
    rw [abs_sub_comm _ (a * b - c * d)]
    linarith
  generalize (2 : ℝ) ^ (-537 : ℤ) = r at *
  linarith

theorem cross_small {v w : V3} {k r : ℝ} (hx : |v.y * w.z - v.z * w.y| ≤ k * (|v.y * w.z| + |v.z * w.y|) + r)
    (hy : |v.z * w.x - v.x * w.z| ≤ k * (|v.z * w.x| + |v.x * w.z|) + r) (hz : |v.x * w.y - v.y * w.x| ≤ k * (|v.x * w.y| + |v.y * w.x|) + r) :
    (v.cross w).normSq ≤ 4 * k ^ 2 * (v.normSq * w.normSq) + 6 * r ^ 2 := by
  have key : ∀ x y z : ℝ, |z| ≤ k * (|x| + |y|) + r → z ^ 2 ≤ 4 * k ^ 2 * (x ^ 2 + y ^ 2) + 2 * r ^ 2 := by
    intro x y z h
    have h1 : z ^ 2 ≤ (k * (|x| + |y|) + r) ^ 2 := by
      rw [← sq_abs z]; exact pow_le_pow_left₀ (abs_nonneg _) h 2
    have h2 : (|x| + |y|) ^ 2 ≤ 2 * (x ^ 2 + y ^ 2) := by
      rw [← sq_abs x, ← sq_abs y]; nlinarith [sq_nonneg (|x| - |y|)]
    have h3 := mul_le_mul_of_nonneg_left h2 (sq_nonneg k)
    nlinarith [sq_nonneg (k * (|x| + |y|) - r)]
  have kx := key _ _ _ hx
  have ky := key _ _ _ hy
  have kz := key _ _ _ hz
  have e : (v.cross w).normSq = (v.y * w.z - v.z * w.y) ^ 2 + (v.z * w.x - v.x * w.z) ^ 2 + (v.x * w.y - v.y * w.x) ^ 2 := by
    simp only [V3.normSq, V3.dot, V3.cross]; ring
  have e2 : (v.y * w.z) ^ 2 + (v.z * w.y) ^ 2 + ((v.z * w.x) ^ 2 + (v.x * w.z) ^ 2) + ((v.x * w.y) ^ 2 + (v.y * w.x) ^ 2) ≤ v.normSq * w.normSq := by
    simp only [V3.normSq, V3.dot]
    nlinarith [sq_nonneg (v.x * w.x), sq_nonneg (v.y * w.y), sq_nonneg (v.z * w.z)]
  rw [e]
  have := mul_le_mul_of_nonneg_left e2 (show 0 ≤ 4 * k ^ 2 by positivity)
  linarith

/-- a vector that is almost parallel to another -/
theorem to_line {v w : V3} {k r : ℝ} (hk : 0 ≤ k) (hr : 0 ≤ r) (hv : 0 < v.normSq) (h : (v.cross w).normSq ≤ 4 * k ^ 2 * (v.normSq * w.normSq) + 6 * r ^ 2) :
    (w - (v.dot w / v.normSq) • v).norm ≤ 2 * k * w.norm + 3 * (r / v.norm) := by
  have hn := V3.norm_pos hv
  have w0 := V3.norm_nonneg w
  have rn : 0 ≤ r / v.norm := div_nonneg hr hn.le
  refine Real.sqrt_le_iff.2 ⟨by positivity, ?_⟩
  have e : (w - (v.dot w / v.normSq) • v).normSq = (v.cross w).normSq / v.normSq := by
    rw [V3.lagrange, eq_div_iff hv.ne']
    have h1 : (w - (v.dot w / v.normSq) • v).normSq = w.normSq - 2 * (v.dot w / v.normSq) * v.dot w + (v.dot w / v.normSq) ^ 2 * v.normSq := by
      simp only [V3.normSq, V3.dot, V3.sub_x, V3.sub_y, V3.sub_z, V3.smul_x, V3.smul_y, V3.smul_z]; ring
    rw [h1]
    have := hv.ne'
    field_simp
    ring
  rw [e, div_le_iff₀ hv]
  refine h.trans ?_
  have e1 : (r / v.norm) ^ 2 * v.normSq = r ^ 2 := by rw [← V3.norm_sq v]; field_simp
  rw [← V3.norm_sq w]
  have e2 : 0 ≤ k * w.norm * (r / v.norm) * v.normSq := by positivity
  nlinarith [sq_nonneg r]

theorem abs_sum_le (v w : V3) : |v.x * w.x| + |v.y * w.y| + |v.z * w.z| ≤ v.norm * w.norm := by
  have h := V3.dot_le ⟨|v.x|, |v.y|, |v.z|⟩ ⟨|w.x|, |w.y|, |w.z|⟩
  have e : ∀ x : V3, (⟨|x.x|, |x.y|, |x.z|⟩ : V3).norm = x.norm := fun x => by
    simp only [V3.norm, V3.normSq, V3.dot, abs_mul_abs_self]
  rw [e, e] at h
  simpa only [V3.dot, ← abs_mul] using h

/-- a vector that is almost parallel to another, and whose computed projection is between zero and the computed square, is near a multiple by a number from zero to one -/
theorem near_multiple {v w : V3} {k l d : ℝ} (hv : 0 < v.normSq) (hd : 0 ≤ d) (hl : (w - (v.dot w / v.normSq) • v).norm ≤ k * w.norm + d * v.norm)
    (hk0 : 0 ≤ k) (hk : k ≤ 1 / 10000) (hl0 : 0 ≤ l) (hl1 : l ≤ 1 / 10000) (hd1 : d ≤ 1 / 10000)
    (h1 : -(l * (v.norm * w.norm)) - d * v.normSq ≤ v.dot w) (h2 : v.dot w ≤ v.normSq + l * v.normSq + l * (v.norm * w.norm) + d * v.normSq) :
    ∃ s : ℝ, 0 ≤ s ∧ s ≤ 1 ∧ (w - s • v).norm ≤ (1001 / 1000 * k + 2001 / 1000 * l + 2 * d) * v.norm ∧ w.norm ≤ 1001 / 1000 * v.norm := by
  set N := v.norm with hN
  set M := w.norm with hM
  have N0 : 0 < N := V3.norm_pos hv
  have M0 : 0 ≤ M := V3.norm_nonneg w
  have NN : v.normSq = N * N := (V3.norm_mul_self v).symm
  set s0 := v.dot w / v.normSq with hs0
  have e0 : v.dot w = s0 * (N * N) := by rw [hs0, NN]; field_simp
  rw [NN, e0] at h1 h2
  -- divide by the norm
  have g1 : -(l * M) - d * N ≤ s0 * N := by
    by_contra hh
    push Not at hh
    have := mul_lt_mul_of_pos_right hh N0
    nlinarith
  have g2 : s0 * N ≤ N + l * N + l * M + d * N := by
    by_contra hh
    push Not at hh
    have := mul_lt_mul_of_pos_right hh N0
    nlinarith
  have tri : M ≤ (w - s0 • v).norm + |s0| * N := by
    have := V3.norm_le_add w (s0 • v)
    rwa [V3.norm_smul] at this
  have a1 : |s0| * N ≤ N + l * N + l * M + d * N := by
    rw [← abs_of_pos N0, ← abs_mul, abs_of_pos N0]
    have := mul_nonneg hl0 M0
    have := mul_nonneg hl0 N0.le
    have := mul_nonneg hd N0.le
    exact abs_le.2 ⟨by linarith, g2⟩
  have m1 : l * N ≤ 1 / 10000 * N := mul_le_mul_of_nonneg_right hl1 N0.le
  have m2 : l * M ≤ 1 / 10000 * M := mul_le_mul_of_nonneg_right hl1 M0
  have m3 : k * M ≤ 1 / 10000 * M := mul_le_mul_of_nonneg_right hk M0
  have m4 : d * N ≤ 1 / 10000 * N := mul_le_mul_of_nonneg_right hd1 N0.le
  have hM1 : M ≤ 1001 / 1000 * N := by linarith
  have p1 : l * M ≤ l * (1001 / 1000 * N) := mul_le_mul_of_nonneg_left hM1 hl0
  have p2 : k * M ≤ k * (1001 / 1000 * N) := mul_le_mul_of_nonneg_left hM1 hk0
  have q1 : 0 ≤ l * N := mul_nonneg hl0 N0.le
  have q2 : 0 ≤ d * N := mul_nonneg hd N0.le
  -- the nearest number from zero to one
  have fin : ∀ s : ℝ, |s0 - s| * N ≤ 2001 / 1000 * l * N + d * N → (w - s • v).norm ≤ (1001 / 1000 * k + 2001 / 1000 * l + 2 * d) * N := fun s hs => by
    have e : w - s • v = (w - s0 • v) + (s0 - s) • v := by ext <;> simp <;> ring
    rw [e]
    refine (V3.norm_add_le _ _).trans ?_
    rw [V3.norm_smul]
    linarith
  rcases lt_or_ge s0 0 with h | h
  · refine ⟨0, le_rfl, zero_le_one, fin 0 ?_, hM1⟩
    rw [sub_zero, abs_of_neg h]
    linarith
  · rcases le_or_gt s0 1 with h' | h'
    · refine ⟨s0, h, h', fin s0 ?_, hM1⟩
      rw [sub_self, abs_zero, zero_mul]
      linarith
    · refine ⟨1, zero_le_one, le_rfl, fin 1 ?_, hM1⟩
      rw [abs_of_pos (by linarith)]
      linarith

/-- a quotient of quantities that are known within errors -/
theorem quotient_near {n l N V W u d : ℝ} (hV : 0 < V) (hW : 0 ≤ W) (hu : 0 ≤ u) (hu1 : u ≤ 1 / 10 ^ 15) (hd : 0 ≤ d) (hN : |N| ≤ W * V)
    (hn : |n - N| ≤ 61 / 10 * u * (W * V) + d * (V * V)) (hl : |l - V * V| ≤ 61 / 10 * u * (V * V)) :
    |n / l - N / (V * V)| * V ≤ 123 / 10 * u * W + 11 / 10 * d * V := by
  have L0 : 0 < V * V := mul_pos hV hV
  have k : 61 / 10 * u * (V * V) ≤ 1 / 1000 * (V * V) := mul_le_mul_of_nonneg_right (by linarith) L0.le
  obtain ⟨l1, l2⟩ := abs_le.1 hl
  have l3 : 999 / 1000 * (V * V) ≤ l := by linarith
  have l0 : 0 < l := by linarith
  have e : n / l - N / (V * V) = ((n - N) * (V * V) + N * (V * V - l)) / (l * (V * V)) := by field_simp; ring
  have b : |(n - N) * (V * V) + N * (V * V - l)| ≤ (122 / 10 * u * (W * V) + d * (V * V)) * (V * V) := by
    refine (abs_add_le _ _).trans ?_
    rw [abs_mul (n - N), abs_mul N, abs_of_pos L0, abs_sub_comm (V * V)]
    have h1 := mul_le_mul_of_nonneg_right hn L0.le
    have h2 := mul_le_mul hN hl (abs_nonneg _) (mul_nonneg hW hV.le)
    linarith
  rw [e, abs_div, abs_of_pos (mul_pos l0 L0), div_mul_eq_mul_div, div_le_iff₀ (mul_pos l0 L0)]
  have h3 := mul_le_mul_of_nonneg_right b hV.le
  refine h3.trans ?_
  have h4 : 0 ≤ 123 / 10 * u * W + 11 / 10 * d * V := by positivity
  have h5 := mul_le_mul_of_nonneg_left (mul_le_mul_of_nonneg_right l3 L0.le) h4
  refine le_trans ?_ h5
  have p1 : 0 ≤ u * W * (V * V) * (V * V) := by positivity
  have p2 : 0 ≤ d * V * (V * V) * (V * V) := by positivity
  nlinarith

end Verif.DSegment
