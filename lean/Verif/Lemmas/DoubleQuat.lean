import Verif.Model.DoubleQuat
import Verif.Lemmas.DoubleLinear
import Verif.Lemmas.DoubleConvert

/-! # Lemmas on quaternions in double precision -/

namespace Verif.DQuat

open Verif Verif.Spec Verif.Double

/-- the unit of rounding -/
noncomputable def u : ℝ := 1 / 2 ^ 53
/-- half the smallest positive double -/
noncomputable def t : ℝ := 2 ^ (-1075 : ℤ)

theorem u_pos : 0 < u := by unfold u; positivity
theorem u_small : u ≤ 1 / 10 ^ 15 := by unfold u; norm_num
theorem t_pos : 0 < t := two_zpow_pos _
theorem t_small {k : ℤ} (hk : -1075 ≤ k) : t ≤ 2 ^ k := zpow_le_zpow_right₀ one_le_two hk

theorem sq_near (x : ℝ) : |rnd (x * x) - x * x| ≤ u * (x * x) + t := by
  obtain ⟨d, h, kd, kh, e⟩ := DLinear.rnd_split (x * x)
  rw [e, show x * x * (1 + d) + h - x * x = x * x * d + h by ring]
  refine (abs_add_le _ _).trans (add_le_add ?_ kh)
  rw [abs_mul, abs_of_nonneg (mul_self_nonneg x), mul_comm]
  exact mul_le_mul_of_nonneg_right kd (mul_self_nonneg x)

theorem sq_nonneg' (x : ℝ) : 0 ≤ rnd (x * x) := le_rnd representable_zero (mul_self_nonneg x)

/-- adding a square to a sum that is near its exact value -/
theorem add_near {P p c k x : ℝ} (hP : Representable P) (hp : 0 ≤ p) (hc : u ≤ c) (hc1 : c ≤ 10 * u) (hk : 0 ≤ k) (hk1 : k ≤ 100) (h : |P - p| ≤ c * p + k * t) :
    |rnd (P + rnd (x * x)) - (p + x * x)| ≤ (c + 101 / 100 * u) * (p + x * x) + (k + 11 / 10) * t := by
  obtain ⟨d, kd, e⟩ := DLinear.rnd_sum hP (rnd_representable (x * x))
  have hs := sq_near x
  have hx := mul_self_nonneg x
  have u0 := u_pos
  have u1 := u_small
  have t0 := t_pos
  have hb : |P + rnd (x * x)| ≤ (1 + c) * p + k * t + ((1 + u) * (x * x) + t) := by
    refine (abs_add_le _ _).trans (add_le_add ?_ ?_)
    · have := abs_sub_abs_le_abs_sub P p
      rw [abs_of_nonneg hp] at this
      linarith
    · have := abs_sub_abs_le_abs_sub (rnd (x * x)) (x * x)
      rw [abs_of_nonneg hx] at this
      linarith
  rw [e, show (P + rnd (x * x)) * (1 + d) - (p + x * x) = (P - p) + (rnd (x * x) - x * x) + (P + rnd (x * x)) * d by ring]
  have h3 : |(P + rnd (x * x)) * d| ≤ ((1 + c) * p + k * t + ((1 + u) * (x * x) + t)) * u := by
    rw [abs_mul]
    exact mul_le_mul hb kd (abs_nonneg _) ((abs_nonneg _).trans hb)
  have h4 := abs_add_le ((P - p) + (rnd (x * x) - x * x)) ((P + rnd (x * x)) * d)
  have h5 := abs_add_le (P - p) (rnd (x * x) - x * x)
  have a1 : c * u * p ≤ 1 / 1000 * (u * p) := by
    have : c ≤ 1 / 1000 := by linarith
    nlinarith [mul_nonneg u0.le hp]
  have a2 : u * u * (x * x) ≤ 1 / 1000 * (u * (x * x)) := by
    have : u ≤ 1 / 1000 := by linarith
    nlinarith [mul_nonneg u0.le hx]
  have a3 : k * t * u ≤ 1 / 1000 * t := by
    have : k * u ≤ 1 / 1000 := by nlinarith
    nlinarith
  have a4 : t * u ≤ 1 / 1000 * t := by nlinarith
  have a5 : u * (x * x) ≤ c * (x * x) := mul_le_mul_of_nonneg_right hc hx
  nlinarith [mul_nonneg u0.le hx, mul_nonneg u0.le hp]

/-- the computed sum of squares -/
noncomputable def sumSq (x y z s : ℝ) : ℝ := rnd (rnd (rnd (rnd (x * x) + rnd (y * y)) + rnd (z * z)) + rnd (s * s))

theorem sumSq_near (x y z s : ℝ) : |sumSq x y z s - (x * x + y * y + z * z + s * s)| ≤ 41 / 10 * u * (x * x + y * y + z * z + s * s) + 5 * t := by
  have u0 := u_pos
  have t0 := t_pos
  have hx := mul_self_nonneg x
  have hy := mul_self_nonneg y
  have hz := mul_self_nonneg z
  have hs := mul_self_nonneg s
  have h1 : |rnd (x * x) - x * x| ≤ u * (x * x) + 1 * t := by rw [one_mul]; exact sq_near x
  have h2 := add_near (x := y) (rnd_representable _) hx le_rfl (by linarith) zero_le_one (by norm_num) h1
  have h3 := add_near (x := z) (rnd_representable _) (by linarith) (by linarith) (by linarith) (by norm_num) (by norm_num) h2
  have h4 := add_near (x := s) (rnd_representable _) (by linarith) (by linarith) (by linarith) (by norm_num) (by norm_num) h3
  refine h4.trans ?_
  have : 0 ≤ u * (x * x + y * y + z * z + s * s) := mul_nonneg u0.le (by linarith)
  nlinarith

theorem sumSq_le {x y z s : ℝ} : rnd (x * x) ≤ sumSq x y z s ∧ rnd (y * y) ≤ sumSq x y z s ∧ rnd (z * z) ≤ sumSq x y z s ∧ rnd (s * s) ≤ sumSq x y z s := by
  have hx := sq_nonneg' x
  have hy := sq_nonneg' y
  have hz := sq_nonneg' z
  have hs := sq_nonneg' s
  have a1 : rnd (x * x) ≤ rnd (rnd (x * x) + rnd (y * y)) := le_rnd (rnd_representable _) (by linarith)
  have a2 : rnd (y * y) ≤ rnd (rnd (x * x) + rnd (y * y)) := le_rnd (rnd_representable _) (by linarith)
  have a3 : rnd (rnd (x * x) + rnd (y * y)) ≤ rnd (rnd (rnd (x * x) + rnd (y * y)) + rnd (z * z)) := le_rnd (rnd_representable _) (by linarith)
  have a4 : rnd (z * z) ≤ rnd (rnd (rnd (x * x) + rnd (y * y)) + rnd (z * z)) := le_rnd (rnd_representable _) (by linarith)
  have a5 : rnd (rnd (rnd (x * x) + rnd (y * y)) + rnd (z * z)) ≤ sumSq x y z s := le_rnd (rnd_representable _) (by linarith)
  have a6 : rnd (s * s) ≤ sumSq x y z s := le_rnd (rnd_representable _) (by linarith)
  exact ⟨a1.trans (a3.trans a5), a2.trans (a3.trans a5), a4.trans a5, a6⟩

theorem sumSq_nonneg (x y z s : ℝ) : 0 ≤ sumSq x y z s := (sq_nonneg' x).trans sumSq_le.1

theorem rep_two (n : ℕ) : Representable ((2 : ℝ) ^ n) := by
  have := F64.representable_pow (α := ℝ) (e := n) (by omega)
  exact_mod_cast this

theorem two_lt {n : ℕ} (h : n < 1024) : (2 : ℝ) ^ n < 2 ^ 1024 := pow_lt_pow_right₀ one_lt_two h

theorem mul_fin {x : ℝ} (h : |x| ≤ 2 ^ 500) : (F64.fin x).mul (.fin x) = .fin (rnd (x * x)) ∧ rnd (x * x) ≤ 2 ^ 1000 := by
  have h1 : x * x ≤ 2 ^ 1000 := by
    rw [show (1000 : ℕ) = 500 + 500 by norm_num, pow_add, ← abs_mul_abs_self]
    exact mul_le_mul h h (abs_nonneg _) (by positivity)
  have h2 : rnd (x * x) ≤ 2 ^ 1000 := rnd_le (rep_two 1000) h1
  refine ⟨F64.ofExact_fin ?_, h2⟩
  rw [abs_of_nonneg (sq_nonneg' x)]
  exact lt_of_le_of_lt h2 (two_lt (by norm_num))

theorem add_fin {a b : ℝ} {n : ℕ} (hn : n < 1022) (ha : 0 ≤ a) (hb : 0 ≤ b) (ha' : a ≤ 2 ^ n) (hb' : b ≤ 2 ^ n) :
    (F64.fin a).add (.fin b) = .fin (rnd (a + b)) ∧ rnd (a + b) ≤ 2 ^ (n + 1) := by
  have h1 : a + b ≤ 2 ^ (n + 1) := by rw [pow_succ]; linarith
  have h2 : rnd (a + b) ≤ 2 ^ (n + 1) := rnd_le (rep_two _) h1
  refine ⟨F64.ofExact_fin ?_, h2⟩
  rw [abs_of_nonneg (le_rnd representable_zero (by linarith))]
  exact lt_of_le_of_lt h2 (two_lt (by omega))

theorem normSq_fin {x y z s : ℝ} (hx : |x| ≤ 2 ^ 500) (hy : |y| ≤ 2 ^ 500) (hz : |z| ≤ 2 ^ 500) (hs : |s| ≤ 2 ^ 500) :
    normSq ⟨.fin x, .fin y, .fin z, .fin s⟩ = .fin (sumSq x y z s) := by
  obtain ⟨ex, bx⟩ := mul_fin hx
  obtain ⟨ey, by'⟩ := mul_fin hy
  obtain ⟨ez, bz⟩ := mul_fin hz
  obtain ⟨es, bs⟩ := mul_fin hs
  have p1 : (2 : ℝ) ^ 1000 ≤ 2 ^ 1001 := pow_le_pow_right₀ one_le_two (by norm_num)
  have p2 : (2 : ℝ) ^ 1001 ≤ 2 ^ 1002 := pow_le_pow_right₀ one_le_two (by norm_num)
  obtain ⟨e1, b1⟩ := add_fin (n := 1000) (by norm_num) (sq_nonneg' x) (sq_nonneg' y) bx by'
  obtain ⟨e2, b2⟩ := add_fin (n := 1001) (by norm_num) (le_rnd representable_zero (add_nonneg (sq_nonneg' x) (sq_nonneg' y))) (sq_nonneg' z) b1 (bz.trans p1)
  obtain ⟨e3, b3⟩ := add_fin (n := 1002) (by norm_num) (le_rnd representable_zero (add_nonneg (le_rnd representable_zero (add_nonneg (sq_nonneg' x) (sq_nonneg' y)))
    (sq_nonneg' z))) (sq_nonneg' s) b2 (bs.trans (p1.trans p2))
  unfold normSq sumSq
  simp only [ex, ey, ez, es, e1, e2, e3]

theorem sqrt_near {a b c : ℝ} (hb : 0 ≤ b) (hc : 0 ≤ c) (hc1 : c ≤ 1) (h : |a - b| ≤ (2 * c - c * c) * b) : |Real.sqrt a - Real.sqrt b| ≤ c * Real.sqrt b := by
  obtain ⟨h1, h2⟩ := abs_le.1 h
  have e : Real.sqrt b * Real.sqrt b = b := Real.mul_self_sqrt hb
  have s0 := Real.sqrt_nonneg b
  refine abs_le.2 ⟨?_, ?_⟩
  · have : (1 - c) * Real.sqrt b ≤ Real.sqrt a := Real.le_sqrt_of_sq_le (by rw [mul_pow, sq (Real.sqrt b), e]; nlinarith)
    linarith
  · have : Real.sqrt a ≤ (1 + c) * Real.sqrt b := Real.sqrt_le_iff.2 ⟨by positivity, by rw [mul_pow, sq (Real.sqrt b), e]; nlinarith [mul_nonneg (mul_nonneg hc hc) hb]⟩
    linarith

/-- the computed norm -/
noncomputable def nrm (x y z s : ℝ) : ℝ := rnd (Real.sqrt (sumSq x y z s))

theorem norm_fin {x y z s : ℝ} (hx : |x| ≤ 2 ^ 500) (hy : |y| ≤ 2 ^ 500) (hz : |z| ≤ 2 ^ 500) (hs : |s| ≤ 2 ^ 500) :
    norm ⟨.fin x, .fin y, .fin z, .fin s⟩ = .ok (.fin (nrm x y z s)) := by
  have hd : isDefined ⟨.fin x, .fin y, .fin z, .fin s⟩ = true := by simp [isDefined]
  rw [norm, hd, normSq_fin hx hy hz hs, F64.sqrt, if_neg (not_lt.2 (sumSq_nonneg x y z s))]
  rfl

theorem nrm_near {x y z s : ℝ} (h : 2 ^ (-400 : ℤ) ≤ x * x + y * y + z * z + s * s) :
    |nrm x y z s - Real.sqrt (x * x + y * y + z * z + s * s)| ≤ 32 / 10 * u * Real.sqrt (x * x + y * y + z * z + s * s) := by
  set S := x * x + y * y + z * z + s * s with hS
  have u0 := u_pos
  have u1 := u_small
  have hS0 : 0 < S := lt_of_lt_of_le (two_zpow_pos _) h
  have ht : 5 * t ≤ 1 / 100 * u * S := by
    have a : t ≤ 2 ^ (-470 : ℤ) := t_small (by norm_num)
    have b : (5 : ℝ) * 2 ^ (-470 : ℤ) ≤ 1 / 100 * u * 2 ^ (-400 : ℤ) := by
      rw [show (-470 : ℤ) = -70 + -400 by norm_num, zpow_add₀ two_ne_zero, ← mul_assoc]
      refine mul_le_mul_of_nonneg_right ?_ (two_zpow_pos _).le
      unfold u; rw [zpow_neg]; norm_num
    have c : 1 / 100 * u * 2 ^ (-400 : ℤ) ≤ 1 / 100 * u * S := mul_le_mul_of_nonneg_left h (by positivity)
    linarith
  have h1 : |sumSq x y z s - S| ≤ (2 * (21 / 10 * u) - 21 / 10 * u * (21 / 10 * u)) * S := by
    refine (sumSq_near x y z s).trans ?_
    have : u * u * S ≤ 1 / 1000 * (u * S) := by nlinarith [mul_pos u0 hS0]
    rw [← hS]
    nlinarith [mul_pos u0 hS0]
  have h2 := sqrt_near hS0.le (by positivity) (by linarith) h1
  have s0 : 0 < Real.sqrt S := Real.sqrt_pos.2 hS0
  have hlow : (2 : ℝ) ^ (-200 : ℤ) ≤ Real.sqrt S := Real.le_sqrt_of_sq_le (by
    rw [← zpow_natCast, ← zpow_mul]; exact_mod_cast h)
  have h3 : (2 : ℝ) ^ (-1022 : ℤ) ≤ |Real.sqrt (sumSq x y z s)| := by
    have a : (2 : ℝ) ^ (-1022 : ℤ) ≤ 2 ^ (-201 : ℤ) := zpow_le_zpow_right₀ one_le_two (by norm_num)
    have b : (2 : ℝ) ^ (-201 : ℤ) = 2 ^ (-200 : ℤ) / 2 := by rw [show (-201 : ℤ) = -200 - 1 by norm_num, zpow_sub_one₀ two_ne_zero]; ring
    rw [abs_of_nonneg (Real.sqrt_nonneg _)]
    have c := (abs_le.1 h2).1
    have d : 21 / 10 * u * Real.sqrt S ≤ 1 / 2 * Real.sqrt S := mul_le_mul_of_nonneg_right (by linarith) s0.le
    rw [b] at a
    refine a.trans ?_
    clear a b h1 h ht
    generalize (2 : ℝ) ^ (-200 : ℤ) = r at hlow ⊢
    linarith
  obtain ⟨d, kd, e⟩ := DAngle.rnd_factor h3
  unfold nrm
  rw [e, show Real.sqrt (sumSq x y z s) * (1 + d) - Real.sqrt S = (Real.sqrt (sumSq x y z s) - Real.sqrt S) + (Real.sqrt (sumSq x y z s) - Real.sqrt S) * d + Real.sqrt S * d by ring]
  have a1 := abs_add_le ((Real.sqrt (sumSq x y z s) - Real.sqrt S) + (Real.sqrt (sumSq x y z s) - Real.sqrt S) * d) (Real.sqrt S * d)
  have a2 := abs_add_le (Real.sqrt (sumSq x y z s) - Real.sqrt S) ((Real.sqrt (sumSq x y z s) - Real.sqrt S) * d)
  have kd' : |d| ≤ u := kd
  have a3 : |(Real.sqrt (sumSq x y z s) - Real.sqrt S) * d| ≤ 21 / 10 * u * Real.sqrt S * u := by
    rw [abs_mul]; exact mul_le_mul h2 kd' (abs_nonneg _) (by positivity)
  have a4 : |Real.sqrt S * d| ≤ Real.sqrt S * u := by
    rw [abs_mul, abs_of_pos s0]; exact mul_le_mul_of_nonneg_left kd' s0.le
  have a5 : u * Real.sqrt S * u ≤ 1 / 1000 * (u * Real.sqrt S) := by nlinarith [mul_pos u0 s0]
  nlinarith [mul_pos u0 s0]

/-- in radix two, the square root of a square gives the number back -/
theorem sqrt_sq {x : ℝ} (hx : Representable x) (h : 2 ^ (-500 : ℤ) ≤ |x|) : rnd (Real.sqrt (rnd (x * x))) = |x| := by
  have hx0 : x ≠ 0 := by rintro rfl; rw [abs_zero] at h; exact absurd h (not_le.2 (two_zpow_pos _))
  have hax : Representable |x| := by rcases abs_choice x with h | h <;> rw [h] <;> [exact hx; exact representable_neg hx]
  rw [← abs_mul_abs_self x]
  generalize hy : |x| = w at *
  have w0 : 0 < w := lt_of_lt_of_le (two_zpow_pos _) h
  clear hx hx0 hy
  set e := lastPlace w with he
  have hlow : 2 ^ (e + 52) ≤ w := by
    rcases lastPlace_le w0.ne' with h1 | h1
    · rwa [abs_of_pos w0] at h1
    · exfalso
      have := lt_lastPlace w
      rw [h1, abs_of_pos w0] at this
      exact absurd (h.trans_lt this) (not_lt.2 (zpow_le_zpow_right₀ one_le_two (by norm_num)))
  have hup : w < 2 ^ (e + 53) := by have := lt_lastPlace w; rwa [abs_of_pos w0] at this
  have he500 : -553 ≤ e := by
    by_contra hc
    have : (2 : ℝ) ^ (e + 53) ≤ 2 ^ (-500 : ℤ) := zpow_le_zpow_right₀ one_le_two (by omega)
    exact absurd (lt_of_lt_of_le hup this) (not_lt.2 h)
  obtain ⟨k, hk⟩ := on_grid hax
  rw [← he] at hk
  have p53 : (2 : ℝ) ^ (e + 53) = 2 * 2 ^ (e + 52) := by rw [show e + 53 = 1 + (e + 52) by ring, zpow_add₀ two_ne_zero]; simp
  set b : ℝ := 2 ^ (e + 52) with hb
  have b0 : 0 < b := two_zpow_pos _
  have bb : b * b = 2 ^ (2 * e + 104) := by rw [hb, ← zpow_add₀ two_ne_zero]; congr 1; ring
  have be : (2 : ℝ) ^ e = b / 2 ^ 52 := by rw [hb, zpow_add₀ two_ne_zero]; norm_num
  have hw2 : 0 < w * w := mul_pos w0 w0
  have l1 : b * b ≤ w * w := mul_le_mul hlow hlow b0.le w0.le
  have l2 : w * w < 4 * (b * b) := by rw [p53] at hup; nlinarith
  -- the error of the square
  have rb : Representable (b * b) := by rw [bb]; exact F64.representable_pow (by omega)
  have main : ∃ c : ℝ, c ^ 2 * (b * b) ≤ w * w ∧ c ^ 2 * (b * b) ≤ rnd (w * w) ∧ 1 ≤ c ∧ |rnd (w * w) - w * w| ≤ 9 / 10 * c * (b * b / 2 ^ 52) := by
    have err : ∀ j : ℤ, lastPlace (w * w) = j → |rnd (w * w) - w * w| ≤ 2 ^ j / 2 := fun j hj => hj ▸ rnd_error (w * w)
    by_cases hc : w * w < 2 * (b * b)
    · refine ⟨1, by simpa using l1, by simpa using le_rnd rb l1, le_rfl, ?_⟩
      have := err (2 * e + 52) (lastPlace_eq (by omega) (by rw [abs_of_pos hw2, show 2 * e + 52 + 52 = 2 * e + 104 by ring, ← bb]; exact l1)
        (by rw [abs_of_pos hw2, show 2 * e + 52 + 53 = 1 + (2 * e + 104) by ring, zpow_add₀ two_ne_zero, ← bb]; simpa using hc))
      refine this.trans ?_
      rw [show 2 * e + 52 = (2 * e + 104) + (-52) by ring, zpow_add₀ two_ne_zero, ← bb, zpow_neg]
      norm_num
      nlinarith [mul_pos b0 b0]
    · have hc' := not_lt.1 hc
      have r2 : Representable (2 * (b * b)) := by
        rw [bb, show (2 : ℝ) * 2 ^ (2 * e + 104) = 2 ^ (1 + (2 * e + 104)) from by rw [zpow_add₀ two_ne_zero 1, zpow_one]]
        exact F64.representable_pow (by omega)
      have bb0 := mul_pos b0 b0
      refine ⟨14 / 10, by nlinarith, by have := le_rnd r2 hc'; nlinarith, by norm_num, ?_⟩
      have := err (2 * e + 53) (lastPlace_eq (by omega) (by
          rw [abs_of_pos hw2, show 2 * e + 53 + 52 = 1 + (2 * e + 104) by ring, zpow_add₀ two_ne_zero, ← bb]; simpa using hc')
        (by rw [abs_of_pos hw2, show 2 * e + 53 + 53 = 2 + (2 * e + 104) by ring, zpow_add₀ two_ne_zero, ← bb]; norm_num; exact l2))
      refine this.trans ?_
      rw [show 2 * e + 53 = (2 * e + 104) + (-51) by ring, zpow_add₀ two_ne_zero, ← bb, zpow_neg]
      norm_num
      nlinarith
  obtain ⟨c, c1, c2, c3, c4⟩ := main
  set y := Real.sqrt (rnd (w * w)) with hy
  have yy : y * y = rnd (w * w) := Real.mul_self_sqrt (sq_nonneg' w)
  have y0 : 0 ≤ y := Real.sqrt_nonneg _
  have cb : 0 < c * b := mul_pos (by linarith) b0
  have cy : c * b ≤ y := Real.le_sqrt_of_sq_le (by rw [mul_pow, sq b]; exact c2)
  have cw : c * b ≤ w := by nlinarith
  have hd : |y - w| ≤ 45 / 100 * 2 ^ e := by
    have h1 : |y - w| * (y + w) = |rnd (w * w) - w * w| := by
      rw [← yy, show y * y - w * w = (y - w) * (y + w) by ring, abs_mul, abs_of_nonneg (show 0 ≤ y + w by linarith)]
    have h2 : |y - w| * (2 * (c * b)) ≤ |y - w| * (y + w) := mul_le_mul_of_nonneg_left (by linarith) (abs_nonneg _)
    have h3 : |y - w| * (2 * (c * b)) ≤ 45 / 100 * (b / 2 ^ 52) * (2 * (c * b)) := by
      rw [h1] at h2; refine h2.trans (c4.trans (le_of_eq ?_)); ring
    rw [be]
    exact le_of_mul_le_mul_right h3 (by positivity)
  have ep : (0 : ℝ) < 2 ^ e := two_zpow_pos _
  have hkw : w = k * 2 ^ e := hk
  have klt : k + 1 ≤ 2 ^ 53 := by
    have : (k : ℝ) < 2 ^ 53 := by
      rw [hkw, zpow_add₀ two_ne_zero, mul_comm ((2 : ℝ) ^ e)] at hup
      exact_mod_cast lt_of_mul_lt_mul_right hup ep.le
    exact_mod_cast Int.add_one_le_of_lt (by exact_mod_cast this)
  have yup : y < 2 ^ (e + 53) := by
    have h1 : y ≤ (k + 45 / 100) * 2 ^ e := by rw [add_mul, ← hkw]; linarith [(abs_le.1 hd).2]
    have h2 : ((k : ℝ) + 45 / 100) * 2 ^ e < 2 ^ 53 * 2 ^ e := by
      refine mul_lt_mul_of_pos_right ?_ ep
      have : (k : ℝ) + 1 ≤ 2 ^ 53 := by exact_mod_cast klt
      linarith
    rw [add_comm e, zpow_add₀ two_ne_zero]
    refine lt_of_le_of_lt h1 (lt_of_lt_of_eq h2 ?_)
    norm_num
  have ylow : 2 ^ (e + 52) ≤ y := by
    refine le_trans ?_ cy
    show b ≤ c * b
    nlinarith
  rw [rnd_eq k e (by omega) (by rwa [abs_of_nonneg y0]) (by rwa [abs_of_nonneg y0]) ?_, hkw]
  left
  rw [← hkw, abs_sub_comm]
  linarith

end Verif.DQuat
