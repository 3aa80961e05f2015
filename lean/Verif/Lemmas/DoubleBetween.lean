import Verif.Lemmas.DoubleVec
import Verif.Props.DoubleQuat

/-!
# Normalised vectors in double precision

Lemmas for C115.
-/

namespace Verif.DVec

open Verif Verif.Spec Verif.Double Verif.DQuat

/-- the computed norm -/
noncomputable def nrm3 (o : Bool) (x y z : ℝ) : ℝ := rnd (Real.sqrt (dot3 o x y z x y z))

theorem sum3_ge (o : Bool) {a b c : ℝ} (ra : Representable a) (rb : Representable b) (rc : Representable c) (ha : 0 ≤ a) (hb : 0 ≤ b) (hc : 0 ≤ c) :
    a ≤ sum3 o a b c ∧ b ≤ sum3 o a b c ∧ c ≤ sum3 o a b c := by
  unfold sum3
  have b1 : b ≤ rnd (b + c) := le_rnd rb (by linarith)
  have b2 : c ≤ rnd (b + c) := le_rnd rc (by linarith)
  have a1 : a ≤ rnd (a + b) := le_rnd ra (by linarith)
  have a2 : b ≤ rnd (a + b) := le_rnd rb (by linarith)
  split
  · exact ⟨le_rnd ra (by linarith), le_rnd rb (by linarith), le_rnd rc (by linarith)⟩
  · exact ⟨le_rnd ra (by linarith), le_rnd rb (by linarith), le_rnd rc (by linarith)⟩

theorem nrm3_near (o : Bool) {x y z : ℝ} (h : 2 ^ (-100 : ℤ) ≤ dot3 o x y z x y z) :
    0 < x * x + y * y + z * z ∧ |nrm3 o x y z - Real.sqrt (x * x + y * y + z * z)| ≤ 32 / 10 * u * Real.sqrt (x * x + y * y + z * z) := by
  have u0 := u_pos
  have u1 := u_small
  have t0 := t_pos
  have k := dot3_near o x y z x y z
  simp only [abs_mul_self] at k
  have hS : 0 ≤ x * x + y * y + z * z := add_nonneg (add_nonneg (mul_self_nonneg _) (mul_self_nonneg _)) (mul_self_nonneg _)
  unfold nrm3
  generalize dot3 o x y z x y z = S' at *
  generalize x * x + y * y + z * z = S at *
  have p0 : (0 : ℝ) < 2 ^ (-100 : ℤ) := two_zpow_pos _
  have ht : t ≤ 1 / 100 * 2 ^ (-100 : ℤ) := by
    refine (t_small (k := -10 + -100) (by norm_num)).trans ?_
    rw [zpow_add₀ two_ne_zero]
    exact mul_le_mul_of_nonneg_right (by norm_num) p0.le
  have hbig : 1 / 2 * (2 : ℝ) ^ (-100 : ℤ) ≤ S := by
    obtain ⟨k1, k2⟩ := abs_le.1 k
    generalize (2 : ℝ) ^ (-100 : ℤ) = p at *
    have : 301 / 100 * u * S ≤ 1 / 100 * S := mul_le_mul_of_nonneg_right (by linarith) hS
    linarith
  have hS0 : 0 < S := lt_of_lt_of_le (by linarith) hbig
  refine ⟨hS0, ?_⟩
  have r := root_near (S' := S') (S := S) (c := 152 / 100 * u) (p0.le.trans h) hS (by positivity) (by linarith) (by
    refine k.trans (add_le_add (mul_le_mul_of_nonneg_right ?_ hS) (by linarith))
    clear k h ht hbig p0
    nlinarith)
  refine r.trans ?_
  have e1 : (2 : ℝ) ^ (-51 : ℤ) ≤ Real.sqrt S := by
    refine Real.le_sqrt_of_sq_le (le_trans (le_of_eq_of_le ?_ (?_ : (2 : ℝ) ^ (-102 : ℤ) ≤ _)) hbig)
    · rw [← zpow_natCast, ← zpow_mul]; norm_num
    · rw [show (-102 : ℤ) = -2 + -100 by norm_num, zpow_add₀ two_ne_zero]
      exact mul_le_mul_of_nonneg_right (by norm_num) p0.le
  have e2 : (2 : ℝ) ^ (-535 : ℤ) ≤ 1 / 10 * u * 2 ^ (-51 : ℤ) := by
    rw [show (-535 : ℤ) = -484 + -51 by norm_num, zpow_add₀ two_ne_zero]
    refine mul_le_mul_of_nonneg_right ?_ (two_zpow_pos _).le
    refine (zpow_le_zpow_right₀ one_le_two (by norm_num : (-484 : ℤ) ≤ -60)).trans ?_
    rw [u]; norm_num
  have e3 : 1 / 10 * u * 2 ^ (-51 : ℤ) ≤ 1 / 10 * u * Real.sqrt S := mul_le_mul_of_nonneg_left e1 (by positivity)
  have e4 : 0 ≤ u * Real.sqrt S := mul_nonneg u0.le (Real.sqrt_nonneg _)
  clear ht hbig h p0 e1
  generalize (2 : ℝ) ^ (-535 : ℤ) = q at *
  generalize (2 : ℝ) ^ (-51 : ℤ) = q' at *
  linarith

/-- a vector whose computed squared norm is not small is normalised to near the exact direction -/
theorem normalized_fin (o : Bool) {x y z : ℝ} (hx : Representable x ∧ |x| ≤ 2 ^ 500) (hy : Representable y ∧ |y| ≤ 2 ^ 500) (hz : Representable z ∧ |z| ≤ 2 ^ 500)
    (h : 2 ^ (-100 : ℤ) ≤ dot3 o x y z x y z) :
    ∃ a b c, normalized o ⟨.fin x, .fin y, .fin z⟩ = ⟨.fin a, .fin b, .fin c⟩ ∧ |a| ≤ 1 ∧ |b| ≤ 1 ∧ |c| ≤ 1 ∧
      |a - x / Real.sqrt (x * x + y * y + z * z)| ≤ 44 / 10 * u * |x / Real.sqrt (x * x + y * y + z * z)| + t ∧
      |b - y / Real.sqrt (x * x + y * y + z * z)| ≤ 44 / 10 * u * |y / Real.sqrt (x * x + y * y + z * z)| + t ∧
      |c - z / Real.sqrt (x * x + y * y + z * z)| ≤ 44 / 10 * u * |z / Real.sqrt (x * x + y * y + z * z)| + t := by
  obtain ⟨hS0, near⟩ := nrm3_near o h
  have N0 := Real.sqrt_pos.2 hS0
  have hpos : 0 < dot3 o x y z x y z := lt_of_lt_of_le (two_zpow_pos _) h
  obtain ⟨g1, g2, g3⟩ := sum3_ge o (rnd_representable (x * x)) (rnd_representable (y * y)) (rnd_representable (z * z)) (sq_nonneg' x) (sq_nonneg' y) (sq_nonneg' z)
  have hn : (2 : ℝ) ^ (-100 : ℤ) ≤ nrm3 o x y z := by
    refine (zpow_le_zpow_right₀ one_le_two (by norm_num : (-100 : ℤ) ≤ -50)).trans (le_rnd (F64.representable_pow (by norm_num)) (Real.le_sqrt_of_sq_le (le_of_eq_of_le ?_ h)))
    rw [← zpow_natCast, ← zpow_mul]; norm_num
  have n0 : 0 < nrm3 o x y z := lt_of_lt_of_le (two_zpow_pos _) hn
  obtain ⟨ex, bx⟩ := Props.div_fin n0 (Props.component_le hx.1 hn g1 rfl)
  obtain ⟨ey, by'⟩ := Props.div_fin n0 (Props.component_le hy.1 hn g2 rfl)
  obtain ⟨ez, bz⟩ := Props.div_fin n0 (Props.component_le hz.1 hn g3 rfl)
  refine ⟨_, _, _, ?_, bx, by', bz, Props.component_near N0 near, Props.component_near N0 near, Props.component_near N0 near⟩
  simp only [normalized, squaredNorm, (dot_fin o hx.2 hy.2 hz.2 hx.2 hy.2 hz.2).1, F64.lt, hpos, decide_true, if_true, F64.sqrt, if_neg (not_lt.2 hpos.le), div]
  rw [show rnd (Real.sqrt (dot3 o x y z x y z)) = nrm3 o x y z from rfl, ex, ey, ez]

/-- a product of numbers near two numbers -/
theorem prod_near {a b c d : ℝ} (hc : |c| ≤ 1) (hd : |d| ≤ 1) (h1 : |a - c| ≤ 44 / 10 * u * |c| + t) (h2 : |b - d| ≤ 44 / 10 * u * |d| + t) :
    |a * b - c * d| ≤ 881 / 100 * u * |c * d| + 3 * t := by
  have u0 := u_pos
  have u1 := u_small
  have t0 := t_pos
  have t1 : t ≤ 1 / 1000 := (t_small (k := -20) (by norm_num)).trans (by norm_num)
  rw [show a * b - c * d = (a - c) * d + c * (b - d) + (a - c) * (b - d) by ring, abs_mul c d]
  refine (abs_add_three _ _ _).trans ?_
  rw [abs_mul, abs_mul, abs_mul]
  have c0 := abs_nonneg c
  have d0 := abs_nonneg d
  have m1 := mul_le_mul_of_nonneg_right h1 d0
  have m2 := mul_le_mul_of_nonneg_left h2 c0
  have m3 := mul_le_mul h1 h2 (abs_nonneg _) (by positivity)
  generalize |c| = C at *
  generalize |d| = D at *
  have p0 : 0 ≤ C * D := mul_nonneg c0 d0
  have b1 : t * C ≤ t := mul_le_of_le_one_right t0.le hc
  have b2 : t * D ≤ t := mul_le_of_le_one_right t0.le hd
  have b3 : t * t ≤ 1 / 1000 * t := mul_le_mul_of_nonneg_right t1 t0.le
  have b4 : u * (t * C) ≤ 1 / 1000 * t := by nlinarith
  have b5 : u * (t * D) ≤ 1 / 1000 * t := by nlinarith
  have b6 : u * u * (C * D) ≤ 1 / 100000 * (u * (C * D)) := by
    rw [mul_assoc]
    exact mul_le_mul_of_nonneg_right (by linarith) (mul_nonneg u0.le p0)
  have e : (44 / 10 * u * C + t) * (44 / 10 * u * D + t) = 1936 / 100 * (u * u * (C * D)) + 44 / 10 * (u * (t * C)) + 44 / 10 * (u * (t * D)) + t * t := by ring
  rw [e] at m3
  have e1 : (44 / 10 * u * C + t) * D = 44 / 10 * (u * (C * D)) + t * D := by ring
  have e2 : C * (44 / 10 * u * D + t) = 44 / 10 * (u * (C * D)) + t * C := by ring
  rw [e1] at m1
  rw [e2] at m2
  have q0 : 0 ≤ u * (C * D) := mul_nonneg u0.le p0
  generalize u * u * (C * D) = w1 at *
  rw [mul_assoc]
  generalize u * (C * D) = w2 at *
  generalize u * (t * C) = w3 at *
  generalize u * (t * D) = w4 at *
  linarith

/-- the computed product of two computed directions -/
theorem cosine_near (o : Bool) {a b c x y z p q r l m n : ℝ} (h1 : p * p + q * q + r * r = 1) (h2 : l * l + m * m + n * n = 1)
    (ka : |a - p| ≤ 44 / 10 * u * |p| + t) (kb : |b - q| ≤ 44 / 10 * u * |q| + t) (kc : |c - r| ≤ 44 / 10 * u * |r| + t)
    (kx : |x - l| ≤ 44 / 10 * u * |l| + t) (ky : |y - m| ≤ 44 / 10 * u * |m| + t) (kz : |z - n| ≤ 44 / 10 * u * |n| + t) :
    |dot3 o a b c x y z - (p * l + q * m + r * n)| ≤ 12 * u := by
  have u0 := u_pos
  have u1 := u_small
  have t0 := t_pos
  have ht : t ≤ 1 / 10000 * u := by
    refine (t_small (k := -70) (by norm_num)).trans ?_
    rw [u]; norm_num
  have one : ∀ v w : ℝ, 0 ≤ w → v * v + w = 1 → |v| ≤ 1 := fun v w hw h => abs_le_one_iff_mul_self_le_one.2 (by linarith)
  have hp := one p (q * q + r * r) (add_nonneg (mul_self_nonneg _) (mul_self_nonneg _)) (by linarith)
  have hq := one q (p * p + r * r) (add_nonneg (mul_self_nonneg _) (mul_self_nonneg _)) (by linarith)
  have hr := one r (p * p + q * q) (add_nonneg (mul_self_nonneg _) (mul_self_nonneg _)) (by linarith)
  have hl := one l (m * m + n * n) (add_nonneg (mul_self_nonneg _) (mul_self_nonneg _)) (by linarith)
  have hm := one m (l * l + n * n) (add_nonneg (mul_self_nonneg _) (mul_self_nonneg _)) (by linarith)
  have hn := one n (l * l + m * m) (add_nonneg (mul_self_nonneg _) (mul_self_nonneg _)) (by linarith)
  have m1 := prod_near hp hl ka kx
  have m2 := prod_near hq hm kb ky
  have m3 := prod_near hr hn kc kz
  have k := dot3_near o a b c x y z
  have cs : |p * l| + |q * m| + |r * n| ≤ 1 := by
    rw [abs_mul, abs_mul, abs_mul]
    have e : ∀ v : ℝ, v * v = |v| * |v| := fun v => (abs_mul_abs_self v).symm
    rw [e p, e q, e r] at h1
    rw [e l, e m, e n] at h2
    nlinarith [sq_nonneg (|p| - |l|), sq_nonneg (|q| - |m|), sq_nonneg (|r| - |n|)]
  clear one h1 h2 ka kb kc kx ky kz hp hq hr hl hm hn
  generalize dot3 o a b c x y z = v at *
  have n1 : |a * x| ≤ |p * l| + |a * x - p * l| := by have := abs_add_le (p * l) (a * x - p * l); simpa using this
  have n2 : |b * y| ≤ |q * m| + |b * y - q * m| := by have := abs_add_le (q * m) (b * y - q * m); simpa using this
  have n3 : |c * z| ≤ |r * n| + |c * z - r * n| := by have := abs_add_le (r * n) (c * z - r * n); simpa using this
  have tri : |v - (p * l + q * m + r * n)| ≤ |v - (a * x + b * y + c * z)| + (|a * x - p * l| + |b * y - q * m| + |c * z - r * n|) := by
    rw [show v - (p * l + q * m + r * n) = (v - (a * x + b * y + c * z)) + ((a * x - p * l) + (b * y - q * m) + (c * z - r * n)) by ring]
    exact (abs_add_le _ _).trans (by gcongr; exact abs_add_three _ _ _)
  refine tri.trans ?_
  have s0 : |a * x - p * l| + |b * y - q * m| + |c * z - r * n| ≤ 881 / 100 * u * 1 + 9 * t := by
    have := mul_le_mul_of_nonneg_left cs (by positivity : 0 ≤ 881 / 100 * u)
    linarith
  have s1 : |a * x| + |b * y| + |c * z| ≤ 1001 / 1000 := by linarith
  have s2 := mul_le_mul_of_nonneg_left s1 (by positivity : 0 ≤ 301 / 100 * u)
  linarith

/-- angles between zero and a half turn whose cosines are near are near -/
theorem angle_near {a b : ℝ} (ha : 0 ≤ a) (ha' : a ≤ Real.pi) (hb : 0 ≤ b) (hb' : b ≤ Real.pi) (h : |Real.cos a - Real.cos b| ≤ 16 / 2 ^ 53) :
    |a - b| ≤ 2 ^ (-23 : ℤ) := by
  wlog hab : b ≤ a generalizing a b
  · rw [abs_sub_comm]; exact this hb hb' ha ha' (by rwa [abs_sub_comm]) (not_le.1 hab).le
  have d0 : 0 ≤ a - b := by linarith
  rw [abs_of_nonneg d0]
  have e : Real.cos b - Real.cos a = 2 * Real.sin ((a + b) / 2) * Real.sin ((a - b) / 2) := by
    have := Real.cos_sub_cos b a
    rw [this, show (b - a) / 2 = -((a - b) / 2) by ring, Real.sin_neg, show (b + a) / 2 = (a + b) / 2 by ring]; ring
  have pi0 := Real.pi_pos
  have s1 : 2 / Real.pi * ((a - b) / 2) ≤ Real.sin ((a - b) / 2) := Real.mul_le_sin (by linarith) (by linarith)
  have s2 : Real.sin ((a - b) / 2) ≤ Real.sin ((a + b) / 2) := by
    rcases le_total ((a + b) / 2) (Real.pi / 2) with hc | hc
    · exact Real.sin_le_sin_of_le_of_le_pi_div_two (by linarith) hc (by linarith)
    · rw [← Real.sin_pi_sub ((a + b) / 2)]
      exact Real.sin_le_sin_of_le_of_le_pi_div_two (by linarith) (by linarith) (by linarith)
  have h1 := (abs_le.1 h).1
  have p4 := Real.pi_le_four
  have s3 : (a - b) / 4 ≤ 2 / Real.pi * ((a - b) / 2) := by
    have : (1 : ℝ) / 4 ≤ 1 / Real.pi := one_div_le_one_div_of_le pi0 p4
    have := mul_le_mul_of_nonneg_right this d0
    calc (a - b) / 4 = 1 / 4 * (a - b) := by ring
      _ ≤ _ := this
      _ = _ := by ring
  have s4 : (a - b) / 4 ≤ Real.sin ((a - b) / 2) := s3.trans s1
  have s5 : 2 * ((a - b) / 4 * ((a - b) / 4)) ≤ 16 / 2 ^ 53 := by
    have : (a - b) / 4 * ((a - b) / 4) ≤ Real.sin ((a + b) / 2) * Real.sin ((a - b) / 2) :=
      mul_le_mul (s4.trans s2) s4 (by linarith) (by linarith)
    linarith
  refine le_of_sq_le_sq ?_ (two_zpow_pos _).le
  norm_num at s5 ⊢
  nlinarith

end Verif.DVec
