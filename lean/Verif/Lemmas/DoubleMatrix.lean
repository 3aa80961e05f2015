import Verif.Lemmas.DoubleRotate
import Verif.Lemmas.DoubleTransform
import Verif.Lemmas.DoubleBetween
import Verif.Model.DoubleMatrix

/-!
# Lemmas on rotation matrices in double precision
-/

namespace Verif.DRot

open Verif.Double Verif.Spec DQuat

/-- half a unit in the last place of the numbers below a power of two -/
theorem half {w : ℝ} {k : ℤ} (hk : -1000 ≤ k) (h : |w| ≤ 2 ^ k) : |rnd w - w| ≤ 2 ^ (k - 54) := by
  rcases eq_or_lt_of_le h with h | h
  · have : Representable w := by
      rcases abs_eq (two_zpow_pos k).le |>.1 h with h | h
      · rw [h]; exact F64.representable_pow (by omega)
      · rw [h]; exact representable_neg (F64.representable_pow (by omega))
    rw [rnd_exact this, sub_self, abs_zero]
    exact (two_zpow_pos _).le
  · rcases eq_or_ne w 0 with rfl | hw
    · rw [rnd_zero, sub_self, abs_zero]; exact (two_zpow_pos _).le
    · have lp : lastPlace w ≤ k - 53 := by
        rcases lastPlace_le hw with h' | h'
        · have := (zpow_lt_zpow_iff_right₀ (one_lt_two (α := ℝ))).1 (h'.trans_lt h)
          omega
        · omega
      refine (rnd_error w).trans ?_
      rw [show k - 54 = k - 53 - 1 by ring, zpow_sub_one₀ two_ne_zero, div_eq_mul_inv]
      exact mul_le_mul_of_nonneg_right (zpow_le_zpow_right₀ one_le_two lp) (by norm_num)

theorem u_zpow (n : ℤ) : (2 : ℝ) ^ (n - 53) = u * 2 ^ n := by
  rw [u, sub_eq_add_neg, zpow_add₀ two_ne_zero, DLinear.two_neg53, mul_comm]

theorem err2 {w : ℝ} (h : |w| ≤ 2) : |rnd w - w| ≤ u := by
  have := half (w := w) (k := 1) (by norm_num) (by rwa [zpow_one])
  rwa [show (1 : ℤ) - 54 = 0 - 53 by norm_num, u_zpow, zpow_zero, mul_one] at this

theorem err1 {w : ℝ} (h : |w| ≤ 1) : |rnd w - w| ≤ u / 2 := by
  have := half (w := w) (k := 0) (by norm_num) (by rwa [zpow_zero])
  rw [show (0 : ℤ) - 54 = -1 - 53 by norm_num, u_zpow] at this
  norm_num at this ⊢; linarith

theorem errh {w : ℝ} (h : |w| ≤ 1 / 2) : |rnd w - w| ≤ u / 4 := by
  have := half (w := w) (k := -1) (by norm_num) (by norm_num at h ⊢; linarith)
  rw [show (-1 : ℤ) - 54 = -2 - 53 by norm_num, u_zpow] at this
  norm_num at this ⊢; linarith

theorem errs {w : ℝ} (h : |w| ≤ 1 / 1024) : |rnd w - w| ≤ u / 2048 := by
  have := half (w := w) (k := -10) (by norm_num) (by norm_num at h ⊢; linarith)
  rw [show (-10 : ℤ) - 54 = -11 - 53 by norm_num, u_zpow] at this
  norm_num at this ⊢; linarith

theorem t_u : t ≤ u / 10 ^ 9 := by
  have h := t_small (k := -83) (by norm_num)
  rw [show (-83 : ℤ) = -30 - 53 by norm_num, u_zpow] at h
  have : (2 : ℝ) ^ (-30 : ℤ) ≤ 1 / 10 ^ 9 := by norm_num
  exact h.trans ((mul_le_mul_of_nonneg_left this u_pos.le).trans (by rw [mul_one_div]))

theorem near1 (a : ℝ) : |rnd a - a| ≤ u * |a| + t := by simpa using DVec.mul_near a 1

/-- a signed sum of four squares, computed from the left -/
theorem diag_near {a b c d : ℝ} (h : |a| + |b| + |c| + |d| ≤ 1 + 201 / 100 * u) :
    |DT3.sum4 .left (rnd a) (rnd b) (rnd c) (rnd d) - (a + b + c + d)| ≤ 251 / 100 * u ∨
      (|DT3.sum4 .left (rnd a) (rnd b) (rnd c) (rnd d) - (a + b + c + d)| ≤ 411 / 100 * u ∧ 1 - 20 * u ≤ |a + b + c + d|) := by
  have u0 := u_pos
  have us := u_small
  have t0 := t_pos
  have tu := t_u
  have r : ∀ x : ℝ, Representable (rnd x) := rnd_representable
  have crude := DT3.left_near (r a) (r b) (r c) (r d) (near1 a) (near1 b) (near1 c) (near1 d)
  have ea := near1 a
  have eb := near1 b
  have ec := near1 c
  have ed := near1 d
  simp only [DT3.sum4] at crude ⊢
  have uu : u * (|a| + |b| + |c| + |d|) ≤ u * (1 + 201 / 100 * u) := mul_le_mul_of_nonneg_left h u0.le
  have u2 : u * u ≤ u / 10 ^ 15 := by nlinarith
  have sq : |rnd a - a| + |rnd b - b| + |rnd c - c| + |rnd d - d| ≤ 1001 / 1000 * u := by
    have : u * |a| + u * |b| + u * |c| + u * |d| = u * (|a| + |b| + |c| + |d|) := by ring
    linarith
  set A := rnd a
  set B := rnd b
  set C := rnd c
  set D := rnd d
  set w1 := A + B with hw1
  set w2 := rnd w1 + C with hw2
  set w3 := rnd w2 + D with hw3
  have bound : |rnd w3 - (a + b + c + d)| ≤ 411 / 100 * u := by nlinarith
  have a0 := abs_nonneg a
  have b0 := abs_nonneg b
  have c0 := abs_nonneg c
  have d0 := abs_nonneg d
  have pa := abs_le.1 (le_refl |A - a|)
  have pb := abs_le.1 (le_refl |B - b|)
  have pc := abs_le.1 (le_refl |C - c|)
  have pd := abs_le.1 (le_refl |D - d|)
  have na := abs_le.1 (le_refl |a|)
  have nb := abs_le.1 (le_refl |b|)
  have nc := abs_le.1 (le_refl |c|)
  have nd := abs_le.1 (le_refl |d|)
  have w1b : |w1| ≤ 2 := abs_le.2 ⟨by linarith [abs_nonneg (A - a), abs_nonneg (B - b), abs_nonneg (C - c), abs_nonneg (D - d)],
    by linarith [abs_nonneg (A - a), abs_nonneg (B - b), abs_nonneg (C - c), abs_nonneg (D - d)]⟩
  have e1 := abs_le.1 (err2 w1b)
  have w2b : |w2| ≤ 2 := abs_le.2 ⟨by linarith [abs_nonneg (A - a), abs_nonneg (B - b), abs_nonneg (C - c), abs_nonneg (D - d)],
    by linarith [abs_nonneg (A - a), abs_nonneg (B - b), abs_nonneg (C - c), abs_nonneg (D - d)]⟩
  have e2 := abs_le.1 (err2 w2b)
  have zA := abs_nonneg (A - a)
  have zB := abs_nonneg (B - b)
  have zC := abs_nonneg (C - c)
  have zD := abs_nonneg (D - d)
  by_cases h1 : |w1| ≤ 1
  · by_cases h2 : |w2| ≤ 1
    · by_cases h3 : |w3| ≤ 1
      · left
        have f1 := abs_le.1 (err1 h1)
        have f2 := abs_le.1 (err1 h2)
        have f3 := abs_le.1 (err1 h3)
        exact abs_le.2 ⟨by linarith, by linarith⟩
      · right
        refine ⟨bound, ?_⟩
        rcases lt_abs.1 (not_le.1 h3) with k | k
        · exact le_abs.2 (Or.inl (by linarith))
        · exact le_abs.2 (Or.inr (by linarith))
    · right
      refine ⟨bound, ?_⟩
      rcases lt_abs.1 (not_le.1 h2) with k | k
      · exact le_abs.2 (Or.inl (by linarith))
      · exact le_abs.2 (Or.inr (by linarith))
  · right
    refine ⟨bound, ?_⟩
    rcases lt_abs.1 (not_le.1 h1) with k | k
    · exact le_abs.2 (Or.inl (by linarith))
    · exact le_abs.2 (Or.inr (by linarith))

/-- twice a sum of two products -/
theorem off_near {a c : ℝ} (h : 2 * |a| + 2 * |c| ≤ 1 + 201 / 100 * u) :
    |2 * rnd (rnd a + rnd c) - 2 * (a + c)| ≤ 151 / 100 * u ∨
      (|2 * rnd (rnd a + rnd c) - 2 * (a + c)| ≤ 411 / 100 * u ∧ 1 - 20 * u ≤ |2 * (a + c)|) := by
  have u0 := u_pos
  have us := u_small
  have t0 := t_pos
  have tu := t_u
  have ea := near1 a
  have ec := near1 c
  have uu : u * (2 * |a| + 2 * |c|) ≤ u * (1 + 201 / 100 * u) := mul_le_mul_of_nonneg_left h u0.le
  have u2 : u * u ≤ u / 10 ^ 15 := by nlinarith
  have sq : 2 * |rnd a - a| + 2 * |rnd c - c| ≤ 1001 / 1000 * u := by
    have : 2 * (u * |a|) + 2 * (u * |c|) = u * (2 * |a| + 2 * |c|) := by ring
    linarith
  set A := rnd a
  set C := rnd c
  have a0 := abs_nonneg a
  have c0 := abs_nonneg c
  have pa := abs_le.1 (le_refl |A - a|)
  have pc := abs_le.1 (le_refl |C - c|)
  have na := abs_le.1 (le_refl |a|)
  have nc := abs_le.1 (le_refl |c|)
  have zA := abs_nonneg (A - a)
  have zC := abs_nonneg (C - c)
  have wb : |A + C| ≤ 1 := abs_le.2 ⟨by linarith, by linarith⟩
  by_cases h1 : |A + C| ≤ 1 / 2
  · left
    have f := abs_le.1 (errh h1)
    exact abs_le.2 ⟨by linarith, by linarith⟩
  · right
    have f := abs_le.1 (err1 wb)
    refine ⟨abs_le.2 ⟨by linarith, by linarith⟩, ?_⟩
    rcases lt_abs.1 (not_le.1 h1) with k | k
    · exact le_abs.2 (Or.inl (by linarith))
    · exact le_abs.2 (Or.inr (by linarith))

/-- the error of a coefficient: either small, or the coefficient is near one -/
def Close (k R r : ℝ) : Prop := |R - r| ≤ k * u ∨ (|R - r| ≤ 411 / 100 * u ∧ 1 - 20 * u ≤ |r|)

theorem Close.le {k R r : ℝ} (hk : k ≤ 411 / 100) (h : Close k R r) : |R - r| ≤ 411 / 100 * u := by
  rcases h with h | h
  · exact h.trans (mul_le_mul_of_nonneg_right hk u_pos.le)
  · exact h.1

/-- beside a coefficient near one, the others are small -/
theorem beside {r s N : ℝ} (N0 : 0 ≤ N) (hN : N ≤ 1 + 201 / 100 * u) (hs : r ^ 2 + s ^ 2 ≤ N ^ 2) (h : 1 - 20 * u ≤ |r|) : |s| ≤ 1 / 10 ^ 6 := by
  have u0 := u_pos
  have us := u_small
  have h1 : (1 - 20 * u) ^ 2 ≤ r ^ 2 := by
    rw [← sq_abs r]
    exact pow_le_pow_left₀ (by linarith) h 2
  have h2 : N ^ 2 ≤ (1 + 201 / 100 * u) ^ 2 := pow_le_pow_left₀ N0 hN 2
  refine abs_le_of_sq_le_sq ?_ (by norm_num)
  have u2 : u * u ≤ u / 10 ^ 15 := by nlinarith
  nlinarith

theorem weight {r s R k N : ℝ} (N0 : 0 ≤ N) (hN : N ≤ 1 + 201 / 100 * u) (hk : 0 ≤ k) (hs : r ^ 2 + s ^ 2 ≤ N ^ 2) (h : Close k R r) :
    |s * (R - r)| ≤ k * |s| * u + u / 10 ^ 4 := by
  have u0 := u_pos
  have s0 := abs_nonneg s
  rw [abs_mul]
  rcases h with h | ⟨h, h'⟩
  · have := mul_le_mul_of_nonneg_left h s0
    nlinarith
  · have b := beside N0 hN hs h'
    have := mul_le_mul b h (abs_nonneg _) (by norm_num)
    have : 0 ≤ k * |s| * u := by positivity
    nlinarith

theorem lin3 {a b c N : ℝ} (N0 : 0 ≤ N) (h : a ^ 2 + b ^ 2 + c ^ 2 ≤ N ^ 2) : 251 / 100 * a + 151 / 100 * b + 151 / 100 * c ≤ 330 / 100 * N := by
  refine abs_le_of_sq_le_sq' ?_ (by positivity) |>.2
  nlinarith [sq_nonneg (151 * a - 251 * b), sq_nonneg (151 * a - 251 * c), sq_nonneg (b - c)]

theorem lin {k0 k1 k2 a b c N : ℝ} (N0 : 0 ≤ N) (h : a ^ 2 + b ^ 2 + c ^ 2 ≤ N ^ 2) (hN : N ≤ 1 + 201 / 100 * u)
    (hk : (k0 = 251 / 100 ∧ k1 = 151 / 100 ∧ k2 = 151 / 100) ∨ (k0 = 151 / 100 ∧ k1 = 251 / 100 ∧ k2 = 151 / 100) ∨ (k0 = 151 / 100 ∧ k1 = 151 / 100 ∧ k2 = 251 / 100)) :
    k0 * |a| + k1 * |b| + k2 * |c| ≤ 33001 / 10000 := by
  have us := u_small
  rw [← sq_abs a, ← sq_abs b, ← sq_abs c] at h
  rcases hk with ⟨rfl, rfl, rfl⟩ | ⟨rfl, rfl, rfl⟩ | ⟨rfl, rfl, rfl⟩
  · have := lin3 N0 h; linarith
  · have := lin3 (a := |b|) (b := |a|) (c := |c|) N0 (by linarith); linarith
  · have := lin3 (a := |c|) (b := |a|) (c := |b|) N0 (by linarith); linarith

/-- which of the coefficients of a column is on the diagonal -/
def Diagonal (k0 k1 k2 : ℝ) : Prop :=
  (k0 = 251 / 100 ∧ k1 = 151 / 100 ∧ k2 = 151 / 100) ∨ (k0 = 151 / 100 ∧ k1 = 251 / 100 ∧ k2 = 151 / 100) ∨ (k0 = 151 / 100 ∧ k1 = 151 / 100 ∧ k2 = 251 / 100)

theorem Diagonal.bounds {k0 k1 k2 : ℝ} (h : Diagonal k0 k1 k2) : (0 ≤ k0 ∧ k0 ≤ 411 / 100) ∧ (0 ≤ k1 ∧ k1 ≤ 411 / 100) ∧ 0 ≤ k2 ∧ k2 ≤ 411 / 100 := by
  rcases h with ⟨rfl, rfl, rfl⟩ | ⟨rfl, rfl, rfl⟩ | ⟨rfl, rfl, rfl⟩ <;> norm_num

/-- the errors of a column, against another column of the exact matrix -/
theorem across {k0 k1 k2 r0 r1 r2 s0 s1 s2 R0 R1 R2 N : ℝ} (hk : Diagonal k0 k1 k2) (N0 : 0 ≤ N) (hN : N ≤ 1 + 201 / 100 * u)
    (hs : s0 ^ 2 + s1 ^ 2 + s2 ^ 2 ≤ N ^ 2) (h0 : r0 ^ 2 + s0 ^ 2 ≤ N ^ 2) (h1 : r1 ^ 2 + s1 ^ 2 ≤ N ^ 2) (h2 : r2 ^ 2 + s2 ^ 2 ≤ N ^ 2)
    (c0 : Close k0 R0 r0) (c1 : Close k1 R1 r1) (c2 : Close k2 R2 r2) :
    |s0 * (R0 - r0) + s1 * (R1 - r1) + s2 * (R2 - r2)| ≤ 331 / 100 * u := by
  have u0 := u_pos
  obtain ⟨⟨b0, -⟩, ⟨b1, -⟩, b2, -⟩ := hk.bounds
  have l := lin N0 hs hN hk
  have w0 := weight N0 hN b0 h0 c0
  have w1 := weight N0 hN b1 h1 c1
  have w2 := weight N0 hN b2 h2 c2
  have l' := mul_le_mul_of_nonneg_right l u0.le
  have t1 := abs_add_le (s0 * (R0 - r0) + s1 * (R1 - r1)) (s2 * (R2 - r2))
  have t2 := abs_add_le (s0 * (R0 - r0)) (s1 * (R1 - r1))
  linarith

/-- the errors of a column, against the column itself -/
theorem along {k0 k1 k2 r0 r1 r2 R0 R1 R2 N : ℝ} (hk : Diagonal k0 k1 k2) (N0 : 0 ≤ N) (hN : N ≤ 1 + 201 / 100 * u)
    (hr : r0 ^ 2 + r1 ^ 2 + r2 ^ 2 ≤ N ^ 2) (c0 : Close k0 R0 r0) (c1 : Close k1 R1 r1) (c2 : Close k2 R2 r2) :
    |r0 * (R0 - r0) + r1 * (R1 - r1) + r2 * (R2 - r2)| ≤ 413 / 100 * u := by
  have u0 := u_pos
  have us := u_small
  obtain ⟨⟨b0, b0'⟩, ⟨b1, b1'⟩, b2, b2'⟩ := hk.bounds
  have d0 := c0.le b0'
  have d1 := c1.le b1'
  have d2 := c2.le b2'
  have t1 := abs_add_le (r0 * (R0 - r0) + r1 * (R1 - r1)) (r2 * (R2 - r2))
  have t2 := abs_add_le (r0 * (R0 - r0)) (r1 * (R1 - r1))
  have one : ∀ {r : ℝ}, r ^ 2 ≤ N ^ 2 → |r| ≤ 1 + 201 / 100 * u := fun h => (abs_le_of_sq_le_sq h N0).trans hN
  have big : ∀ {r R : ℝ}, r ^ 2 ≤ N ^ 2 → |R - r| ≤ 411 / 100 * u → |r * (R - r)| ≤ 412 / 100 * u := fun {r R} h h' => by
    rw [abs_mul]
    have := mul_le_mul (one h) h' (abs_nonneg _) (by linarith)
    nlinarith
  have small : ∀ {r s R : ℝ}, r ^ 2 + s ^ 2 ≤ N ^ 2 → 1 - 20 * u ≤ |r| → |R - s| ≤ 411 / 100 * u → |s * (R - s)| ≤ u / 10 ^ 4 := fun {r s R} h h' h'' => by
    rw [abs_mul]
    have := mul_le_mul (beside N0 hN h h') h'' (abs_nonneg _) (by norm_num)
    linarith
  rcases c0 with k0' | ⟨-, k0'⟩
  · rcases c1 with k1' | ⟨-, k1'⟩
    · rcases c2 with k2' | ⟨-, k2'⟩
      · have l := mul_le_mul_of_nonneg_right (lin N0 hr hN hk) u0.le
        have m0 := mul_le_mul_of_nonneg_left k0' (abs_nonneg r0)
        have m1 := mul_le_mul_of_nonneg_left k1' (abs_nonneg r1)
        have m2 := mul_le_mul_of_nonneg_left k2' (abs_nonneg r2)
        rw [← abs_mul] at m0 m1 m2
        linarith
      · have m0 := small (r := r2) (s := r0) (by nlinarith [sq_nonneg r1]) k2' d0
        have m1 := small (r := r2) (s := r1) (by nlinarith [sq_nonneg r0]) k2' d1
        have m2 := big (by nlinarith [sq_nonneg r0, sq_nonneg r1]) d2
        linarith
    · have m0 := small (r := r1) (s := r0) (by nlinarith [sq_nonneg r2]) k1' d0
      have m2 := small (r := r1) (s := r2) (by nlinarith [sq_nonneg r0]) k1' d2
      have m1 := big (by nlinarith [sq_nonneg r0, sq_nonneg r2]) d1
      linarith
  · have m1 := small (r := r0) (s := r1) (by nlinarith [sq_nonneg r2]) k0' d1
    have m2 := small (r := r0) (s := r2) (by nlinarith [sq_nonneg r1]) k0' d2
    have m0 := big (by nlinarith [sq_nonneg r1, sq_nonneg r2]) d0
    linarith

/-- the computed norm of a column -/
theorem norm_small (o : Bool) {k0 k1 k2 r0 r1 r2 R0 R1 R2 N : ℝ} (hk : Diagonal k0 k1 k2) (N0 : 0 ≤ N) (hN : N ≤ 1 + 201 / 100 * u)
    (hr : r0 ^ 2 + r1 ^ 2 + r2 ^ 2 ≤ N ^ 2) (c0 : Close k0 R0 r0) (c1 : Close k1 R1 r1) (c2 : Close k2 R2 r2) : DVec.nrm3 o R0 R1 R2 ≤ 1 + 89 / 10 * u := by
  have u0 := u_pos
  have us := u_small
  have tu := t_u
  have t0 := t_pos
  have u2 : u * u ≤ u / 10 ^ 15 := by nlinarith
  obtain ⟨⟨-, b0⟩, ⟨-, b1⟩, -, b2⟩ := hk.bounds
  have a := (abs_le.1 (along hk N0 hN hr c0 c1 c2)).2
  have sqd : ∀ {x : ℝ}, |x| ≤ 411 / 100 * u → x ^ 2 ≤ u / 10 ^ 10 := fun {x} h => by
    rw [← sq_abs]
    have := pow_le_pow_left₀ (abs_nonneg x) h 2
    nlinarith
  have e0 := sqd (c0.le b0)
  have e1 := sqd (c1.le b1)
  have e2 := sqd (c2.le b2)
  have N2 : N ^ 2 ≤ 1 + 403 / 100 * u := by nlinarith
  have S : R0 * R0 + R1 * R1 + R2 * R2 ≤ 1 + 1231 / 100 * u := by
    have : R0 * R0 + R1 * R1 + R2 * R2 = (r0 ^ 2 + r1 ^ 2 + r2 ^ 2) + 2 * (r0 * (R0 - r0) + r1 * (R1 - r1) + r2 * (R2 - r2)) +
        ((R0 - r0) ^ 2 + (R1 - r1) ^ 2 + (R2 - r2) ^ 2) := by ring
    linarith
  have d := (abs_le.1 (DVec.dot3_near o R0 R1 R2 R0 R1 R2)).2
  rw [abs_of_nonneg (mul_self_nonneg R0), abs_of_nonneg (mul_self_nonneg R1), abs_of_nonneg (mul_self_nonneg R2)] at d
  have S' : DVec.dot3 o R0 R1 R2 R0 R1 R2 ≤ 1 + 155 / 10 * u := by
    have := mul_le_mul_of_nonneg_left S (by positivity : 0 ≤ 301 / 100 * u)
    nlinarith
  have rt : Real.sqrt (DVec.dot3 o R0 R1 R2 R0 R1 R2) ≤ 1 + 775 / 100 * u := by
    refine Real.sqrt_le_iff.2 ⟨by positivity, S'.trans ?_⟩
    nlinarith
  have := (abs_le.1 (err2 (w := Real.sqrt (DVec.dot3 o R0 R1 R2 R0 R1 R2)) (by rw [abs_of_nonneg (Real.sqrt_nonneg _)]; linarith))).2
  rw [DVec.nrm3]
  linarith

/-- the computed sum of three rounded numbers whose sum is small -/
theorem sum_small (o : Bool) {x y z : ℝ} (hx : |x| ≤ 6 / 10) (hy : |y| ≤ 6 / 10) (hz : |z| ≤ 6 / 10) (h : |x + y + z| ≤ 663 / 100 * u) :
    |DVec.sum3 o (rnd x) (rnd y) (rnd z)| ≤ 87 / 10 * u := by
  have us := u_small
  have u0 := u_pos
  obtain ⟨x1, x2⟩ := abs_le.1 hx
  obtain ⟨y1, y2⟩ := abs_le.1 hy
  obtain ⟨z1, z2⟩ := abs_le.1 hz
  obtain ⟨t1, t2⟩ := abs_le.1 h
  obtain ⟨e1, e2⟩ := abs_le.1 (err1 (hx.trans (by norm_num)))
  obtain ⟨f1, f2⟩ := abs_le.1 (err1 (hy.trans (by norm_num)))
  obtain ⟨g1, g2⟩ := abs_le.1 (err1 (hz.trans (by norm_num)))
  generalize rnd x = A at *
  generalize rnd y = B at *
  generalize rnd z = C at *
  unfold DVec.sum3
  split
  · obtain ⟨k1, k2⟩ := abs_le.1 (err1 (w := B + C) (abs_le.2 ⟨by linarith, by linarith⟩))
    obtain ⟨l1, l2⟩ := abs_le.1 (errs (w := A + rnd (B + C)) (abs_le.2 ⟨by linarith, by linarith⟩))
    exact abs_le.2 ⟨by linarith, by linarith⟩
  · obtain ⟨k1, k2⟩ := abs_le.1 (err1 (w := A + B) (abs_le.2 ⟨by linarith, by linarith⟩))
    obtain ⟨l1, l2⟩ := abs_le.1 (errs (w := rnd (A + B) + C) (abs_le.2 ⟨by linarith, by linarith⟩))
    exact abs_le.2 ⟨by linarith, by linarith⟩

theorem five {v P Q X Y Z : ℝ} (v0 : 0 < v) (hP : |P| ≤ 331 / 100 * v) (hQ : |Q| ≤ 331 / 100 * v) (hX : |X| ≤ v / 10 ^ 10) (hY : |Y| ≤ v / 10 ^ 10)
    (hZ : |Z| ≤ v / 10 ^ 10) : |0 + P + Q + (X + Y + Z)| ≤ 663 / 100 * v := by
  obtain ⟨p1, p2⟩ := abs_le.1 hP
  obtain ⟨q1, q2⟩ := abs_le.1 hQ
  obtain ⟨x1, x2⟩ := abs_le.1 hX
  obtain ⟨y1, y2⟩ := abs_le.1 hY
  obtain ⟨z1, z2⟩ := abs_le.1 hZ
  exact abs_le.2 ⟨by linarith, by linarith⟩

/-- the computed dot product of two columns -/
theorem dot_small (o : Bool) {r0 r1 r2 s0 s1 s2 R0 R1 R2 S0 S1 S2 N : ℝ} (N0 : 0 ≤ N) (hN : N ≤ 1 + 201 / 100 * u) (orth : r0 * s0 + r1 * s1 + r2 * s2 = 0)
    (h0 : r0 ^ 2 + s0 ^ 2 ≤ N ^ 2) (h1 : r1 ^ 2 + s1 ^ 2 ≤ N ^ 2) (h2 : r2 ^ 2 + s2 ^ 2 ≤ N ^ 2)
    (a0 : |R0 - r0| ≤ 411 / 100 * u) (a1 : |R1 - r1| ≤ 411 / 100 * u) (a2 : |R2 - r2| ≤ 411 / 100 * u)
    (b0 : |S0 - s0| ≤ 411 / 100 * u) (b1 : |S1 - s1| ≤ 411 / 100 * u) (b2 : |S2 - s2| ≤ 411 / 100 * u)
    (p : |s0 * (R0 - r0) + s1 * (R1 - r1) + s2 * (R2 - r2)| ≤ 331 / 100 * u) (q : |r0 * (S0 - s0) + r1 * (S1 - s1) + r2 * (S2 - s2)| ≤ 331 / 100 * u) :
    |DVec.dot3 o R0 R1 R2 S0 S1 S2| ≤ 87 / 10 * u := by
  have u0 := u_pos
  have us := u_small
  have u2 : u * u ≤ u / 10 ^ 15 := by nlinarith
  have N2 : N ^ 2 ≤ 1 + 403 / 100 * u := by nlinarith
  have pr : ∀ {x y : ℝ}, |x| ≤ 411 / 100 * u → |y| ≤ 411 / 100 * u → |x * y| ≤ u / 10 ^ 10 := fun {x y} hx hy => by
    rw [abs_mul]
    have := mul_le_mul hx hy (abs_nonneg _) (by positivity)
    nlinarith
  have each : ∀ {r s R S : ℝ}, r ^ 2 + s ^ 2 ≤ N ^ 2 → |R - r| ≤ 411 / 100 * u → |S - s| ≤ 411 / 100 * u → |R * S| ≤ 6 / 10 := fun {r s R S} h hR hS => by
    have r1 : |r| ≤ 2 := abs_le_of_sq_le_sq (by nlinarith [sq_nonneg s]) (by norm_num)
    have s1 : |s| ≤ 2 := abs_le_of_sq_le_sq (by nlinarith [sq_nonneg r]) (by norm_num)
    have m1 := mul_le_mul s1 hR (abs_nonneg _) (by norm_num)
    have m2 := mul_le_mul r1 hS (abs_nonneg _) (by norm_num)
    rw [← abs_mul] at m1 m2
    have m1' := abs_le.1 m1
    have m2' := abs_le.1 m2
    have m3 := abs_le.1 (pr hR hS)
    have e : R * S = r * s + s * (R - r) + r * (S - s) + (R - r) * (S - s) := by ring
    rw [e]
    exact abs_le.2 ⟨by nlinarith [sq_nonneg (r + s)], by nlinarith [sq_nonneg (r - s)]⟩
  have total : |R0 * S0 + R1 * S1 + R2 * S2| ≤ 663 / 100 * u := by
    have e : R0 * S0 + R1 * S1 + R2 * S2 = (r0 * s0 + r1 * s1 + r2 * s2) + (s0 * (R0 - r0) + s1 * (R1 - r1) + s2 * (R2 - r2)) +
        (r0 * (S0 - s0) + r1 * (S1 - s1) + r2 * (S2 - s2)) + ((R0 - r0) * (S0 - s0) + (R1 - r1) * (S1 - s1) + (R2 - r2) * (S2 - s2)) := by ring
    rw [e, orth]
    exact five u0 p q (pr a0 b0) (pr a1 b1) (pr a2 b2)
  exact sum_small o (each h0 a0 b0) (each h1 a1 b1) (each h2 a2 b2) total

theorem mul_neg_fin (a b : ℝ) : ((F64.fin a).mul (.fin b)).neg = (F64.fin (-a)).mul (.fin b) := by
  rw [F64.mul, F64.mul, neg_mul, F64.ofExact_neg]

theorem sub_mul_fin (w : F64 ℝ) (a b : ℝ) : w.sub ((F64.fin a).mul (.fin b)) = w.add ((F64.fin (-a)).mul (.fin b)) := by
  rw [F64.sub, mul_neg_fin]

theorem representable_double {r : ℝ} (h : Representable r) : Representable (2 * r) := by
  obtain ⟨m, e, hm, he, rfl⟩ := h
  exact ⟨m, e + 1, hm, by omega, by rw [zpow_add_one₀ two_ne_zero]; ring⟩

/-- the computed coefficient `2 * (a * b + c * d)` -/
noncomputable def off (a b c d : ℝ) : ℝ := 2 * rnd (rnd (a * b) + rnd (c * d))

theorem off_fin {a b c d : ℝ} (ha : |a| ≤ 2 ^ 500) (hb : |b| ≤ 2 ^ 500) (hc : |c| ≤ 2 ^ 500) (hd : |d| ≤ 2 ^ 500) :
    (F64.fin 2).mul (((F64.fin a).mul (.fin b)).add ((F64.fin c).mul (.fin d))) = .fin (off a b c d) := by
  obtain ⟨e1, b1⟩ := DVec.mul_fin2 ha hb
  obtain ⟨e2, b2⟩ := DVec.mul_fin2 hc hd
  obtain ⟨e3, b3⟩ := DVec.add_fin2 (n := 1000) (by norm_num) b1 b2
  have rep := rnd_exact (representable_double (rnd_representable (rnd (a * b) + rnd (c * d))))
  rw [e1, e2, e3, F64.mul, F64.ofExact_fin, rep, off]
  rw [rep, abs_mul, abs_two]
  calc 2 * |rnd (rnd (a * b) + rnd (c * d))| ≤ 2 * 2 ^ (1000 + 1) := mul_le_mul_of_nonneg_left b3 zero_le_two
    _ = 2 ^ 1002 := by rw [← pow_succ']
    _ < 2 ^ 1024 := two_lt (by norm_num)

/-- the computed coefficients of the matrix of a quaternion -/
noncomputable def mat (q : Quat) : Fin 3 → Fin 3 → ℝ :=
  ![![DT3.dot4 .left q.x (-q.y) (-q.z) q.s q.x q.y q.z q.s, off q.x q.y q.z q.s, off q.x q.z (-q.y) q.s],
    ![off q.y q.x (-q.z) q.s, DT3.dot4 .left (-q.x) q.y (-q.z) q.s q.x q.y q.z q.s, off q.y q.z q.x q.s],
    ![off q.z q.x q.y q.s, off q.z q.y (-q.x) q.s, DT3.dot4 .left (-q.x) (-q.y) q.z q.s q.x q.y q.z q.s]]

theorem ofQuat_fin {q : Quat} (hx : |q.x| ≤ 2 ^ 500) (hy : |q.y| ≤ 2 ^ 500) (hz : |q.z| ≤ 2 ^ 500) (hs : |q.s| ≤ 2 ^ 500) :
    ofQuat (.of q) = fun i j => .fin (mat q i j) := by
  have nx : |-q.x| ≤ 2 ^ 500 := by rwa [abs_neg]
  have ny : |-q.y| ≤ 2 ^ 500 := by rwa [abs_neg]
  have nz : |-q.z| ≤ 2 ^ 500 := by rwa [abs_neg]
  have d : ∀ {a b c d : ℝ}, |a| ≤ 2 ^ 500 → |b| ≤ 2 ^ 500 → |c| ≤ 2 ^ 500 → |d| ≤ 2 ^ 500 →
      ((((F64.fin a).mul (.fin q.x)).add ((F64.fin b).mul (.fin q.y))).add ((F64.fin c).mul (.fin q.z))).add ((F64.fin d).mul (.fin q.s)) =
        .fin (DT3.dot4 .left a b c d q.x q.y q.z q.s) := fun ha hb hc hd => DT3.dot_fin .left ha hb hc hd hx hy hz hs
  funext i j
  fin_cases i <;> fin_cases j <;>
    simp only [ofQuat, DQuat.of, mat, sub_mul_fin, F64.neg, Fin.zero_eta, Fin.mk_one, Fin.reduceFinMk, Matrix.cons_val, Matrix.cons_val_zero, Matrix.cons_val_one]
  · exact d hx ny nz hs
  · exact off_fin hx hy hz hs
  · exact off_fin hx hz ny hs
  · exact off_fin hy hx nz hs
  · exact d nx hy nz hs
  · exact off_fin hy hz hx hs
  · exact off_fin hz hx hy hs
  · exact off_fin hz hy nx hs
  · exact d nx ny hz hs

/-- the exact coefficients -/
def exact (q : Quat) : Fin 3 → Fin 3 → ℝ :=
  ![![q.x * q.x + -q.y * q.y + -q.z * q.z + q.s * q.s, 2 * (q.x * q.y + q.z * q.s), 2 * (q.x * q.z + -q.y * q.s)],
    ![2 * (q.y * q.x + -q.z * q.s), -q.x * q.x + q.y * q.y + -q.z * q.z + q.s * q.s, 2 * (q.y * q.z + q.x * q.s)],
    ![2 * (q.z * q.x + q.y * q.s), 2 * (q.z * q.y + -q.x * q.s), -q.x * q.x + -q.y * q.y + q.z * q.z + q.s * q.s]]

/-- the coefficient of `Close` -/
noncomputable def tight (i j : Fin 3) : ℝ := if i = j then 251 / 100 else 151 / 100

theorem abs_mul_le (a b : ℝ) : 2 * |a * b| ≤ a * a + b * b := by
  rw [abs_mul, ← abs_mul_abs_self a, ← abs_mul_abs_self b]
  nlinarith [sq_nonneg (|a| - |b|)]

theorem mat_close {q : Quat} (h : q.x * q.x + q.y * q.y + q.z * q.z + q.s * q.s ≤ 1 + 201 / 100 * u) (i j : Fin 3) :
    Close (tight i j) (mat q i j) (exact q i j) := by
  have sq : ∀ a : ℝ, |a * a| = a * a := fun a => abs_mul_self a
  have ng : ∀ a : ℝ, |-a * a| = a * a := fun a => by rw [neg_mul, abs_neg, abs_mul_self]
  have ng' : ∀ a b : ℝ, |-a * b| = |a * b| := fun a b => by rw [neg_mul, abs_neg]
  have o : ∀ {a b c d : ℝ}, a * a + b * b + c * c + d * d ≤ 1 + 201 / 100 * u → 2 * |a * b| + 2 * |c * d| ≤ 1 + 201 / 100 * u := fun {a b c d} k => by
    have := abs_mul_le a b
    have := abs_mul_le c d
    linarith
  fin_cases i <;> fin_cases j
  · exact diag_near (by rw [sq, ng, ng, sq]; exact h)
  · exact off_near (o h)
  · exact off_near (by rw [ng']; exact o (by linarith))
  · exact off_near (by rw [ng']; exact o (by linarith))
  · exact diag_near (by rw [ng, sq, ng, sq]; exact h)
  · exact off_near (o (by linarith))
  · exact off_near (o (by linarith))
  · exact off_near (by rw [ng']; exact o (by linarith))
  · exact diag_near (by rw [ng, ng, sq, sq]; exact h)

/-- the columns of the exact matrix are orthogonal and have the norm of the quaternion, squared; so do its rows -/
theorem exact_orthogonal (q : Quat) :
    (∀ j, exact q 0 j ^ 2 + exact q 1 j ^ 2 + exact q 2 j ^ 2 = (q.x * q.x + q.y * q.y + q.z * q.z + q.s * q.s) ^ 2) ∧
    (∀ i, exact q i 0 ^ 2 + exact q i 1 ^ 2 + exact q i 2 ^ 2 = (q.x * q.x + q.y * q.y + q.z * q.z + q.s * q.s) ^ 2) ∧
    ∀ j k, j ≠ k → exact q 0 j * exact q 0 k + exact q 1 j * exact q 1 k + exact q 2 j * exact q 2 k = 0 := by
  refine ⟨fun j => ?_, fun i => ?_, fun j k h => ?_⟩
  · fin_cases j <;> simp [exact] <;> ring
  · fin_cases i <;> simp [exact] <;> ring
  · fin_cases j <;> fin_cases k <;> first | exact absurd rfl h | (simp [exact]; ring)

end Verif.DRot
