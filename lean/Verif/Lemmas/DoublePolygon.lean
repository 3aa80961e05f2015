import Verif.Model.DoublePolygon
import Verif.Props.DoubleMove
import Verif.Props.DoubleLine2
import Verif.Props.Polygon
import Verif.Lemmas.DoubleSlerp

/-!
# Lemmas for C146: polygons of space in double precision
-/

namespace Verif.Props

open Verif Verif.Spec Verif.Double

namespace Flat3

theorem doubles_inj {a b : V3} (h : doubles a = doubles b) : a = b := by
  simp only [doubles, DVec.mk.injEq, F64.fin.injEq] at h
  exact V3.ext h.1 h.2.1 h.2.2

/-- what is divided by, and how well -/
theorem scaled (o : Bool) {v : V3} (hv : Within v) (h : 1 / 2 ^ 40 ≤ ‖pure v‖) :
    ∃ (a : V3) (n : ℝ), DVec.normalized o (doubles v) = doubles a ∧ Move.Rep a ∧ |a.x| ≤ 1 ∧ |a.y| ≤ 1 ∧ |a.z| ≤ 1 ∧ ‖pure a - ‖pure v‖⁻¹ • pure v‖ ≤ 45 / 10 * DQuat.u ∧ 0 < n ∧
      |n - ‖pure v‖| ≤ 32 / 10 * DQuat.u * ‖pure v‖ ∧ |a.x - v.x / n| ≤ DQuat.u * |v.x / n| + DQuat.t ∧ |a.y - v.y / n| ≤ DQuat.u * |v.y / n| + DQuat.t ∧
      |a.z - v.z / n| ≤ DQuat.u * |v.z / n| + DQuat.t := by
  obtain ⟨a, e, r1, r2, r3, l1, l2, l3, near⟩ := normalized_any o hv h
  obtain ⟨x, y, z⟩ := v
  have p : (2 : ℝ) ^ 499 ≤ 2 ^ 500 := pow_le_pow_right₀ one_le_two (by norm_num)
  have hx : Representable x ∧ |x| ≤ 2 ^ 500 := ⟨hv.x.1, hv.x.2.trans p⟩
  have hy : Representable y ∧ |y| ≤ 2 ^ 500 := ⟨hv.y.1, hv.y.2.trans p⟩
  have hz : Representable z ∧ |z| ≤ 2 ^ 500 := ⟨hv.z.1, hv.z.2.trans p⟩
  have us := DQuat.u_small
  have n := pure_sq ⟨x, y, z⟩
  simp only at n
  have S : 1 / 2 ^ 80 ≤ x * x + y * y + z * z := by
    have : (1 / 2 ^ 40 : ℝ) ^ 2 ≤ ‖pure ⟨x, y, z⟩‖ ^ 2 := pow_le_pow_left₀ (by norm_num) h 2
    rw [n] at this
    norm_num at this ⊢
    linarith
  have hd : 2 ^ (-100 : ℤ) ≤ DVec.dot3 o x y z x y z := by
    have k := DVec.dot3_near o x y z x y z
    simp only [abs_mul_self] at k
    have k1 := (abs_le.1 k).1
    have : 301 / 100 * DQuat.u * (x * x + y * y + z * z) ≤ 1 / 100 * (x * x + y * y + z * z) := mul_le_mul_of_nonneg_right (by linarith) (by
      have : (0 : ℝ) < 1 / 2 ^ 80 := by norm_num
      linarith)
    have e : (2 : ℝ) ^ (-100 : ℤ) = 1 / 2 ^ 100 := by rw [zpow_neg]; norm_num
    have t2 : DQuat.t ≤ 1 / 2 ^ 100 := e ▸ DQuat.t_small (k := -100) (by norm_num)
    rw [e]
    norm_num at S t2 ⊢
    linarith
  obtain ⟨hS0, near'⟩ := DVec.nrm3_near o hd
  have N : Real.sqrt (x * x + y * y + z * z) = ‖pure ⟨x, y, z⟩‖ := by
    rw [← Real.sqrt_sq (norm_nonneg (pure ⟨x, y, z⟩)), n]; simp only [sq]
  rw [N] at near'
  have hpos : 0 < DVec.dot3 o x y z x y z := lt_of_lt_of_le (two_zpow_pos _) hd
  obtain ⟨g1, g2, g3⟩ := DVec.sum3_ge o (rnd_representable (x * x)) (rnd_representable (y * y)) (rnd_representable (z * z)) (DQuat.sq_nonneg' x) (DQuat.sq_nonneg' y) (DQuat.sq_nonneg' z)
  have hn : (2 : ℝ) ^ (-100 : ℤ) ≤ DVec.nrm3 o x y z := by
    refine (zpow_le_zpow_right₀ one_le_two (by norm_num : (-100 : ℤ) ≤ -50)).trans (le_rnd (F64.representable_pow (by norm_num)) (Real.le_sqrt_of_sq_le (le_of_eq_of_le ?_ hd)))
    rw [← zpow_natCast, ← zpow_mul]; norm_num
  have n0 : 0 < DVec.nrm3 o x y z := lt_of_lt_of_le (two_zpow_pos _) hn
  obtain ⟨ex, -⟩ := div_fin n0 (component_le hx.1 hn g1 rfl)
  obtain ⟨ey, -⟩ := div_fin n0 (component_le hy.1 hn g2 rfl)
  obtain ⟨ez, -⟩ := div_fin n0 (component_le hz.1 hn g3 rfl)
  have e' : DVec.normalized o (doubles ⟨x, y, z⟩) = doubles ⟨rnd (x / DVec.nrm3 o x y z), rnd (y / DVec.nrm3 o x y z), rnd (z / DVec.nrm3 o x y z)⟩ := by
    simp only [doubles, DVec.normalized, DVec.squaredNorm, (DVec.dot_fin o hx.2 hy.2 hz.2 hx.2 hy.2 hz.2).1, F64.lt, hpos, decide_true, if_true, F64.sqrt, if_neg (not_lt.2 hpos.le), DVec.div]
    rw [show rnd (Real.sqrt (DVec.dot3 o x y z x y z)) = DVec.nrm3 o x y z from rfl, ex, ey, ez]
  have ea := doubles_inj (e.symm.trans e')
  have q : ∀ w : ℝ, |rnd (w / DVec.nrm3 o x y z) - w / DVec.nrm3 o x y z| ≤ DQuat.u * |w / DVec.nrm3 o x y z| + DQuat.t := fun w => by
    have := DVec.mul_near w (DVec.nrm3 o x y z)⁻¹
    rwa [← div_eq_mul_inv] at this
  exact ⟨a, DVec.nrm3 o x y z, e, ⟨r1, r2, r3⟩, l1, l2, l3, near, n0, near', by rw [ea]; exact q x, by rw [ea]; exact q y, by rw [ea]; exact q z⟩

/-- a product of two rounded quotients -/
theorem prod2 {a b c d : ℝ} (hc : |c| ≤ 11 / 10) (hd : |d| ≤ 11 / 10) (h1 : |a - c| ≤ DQuat.u * |c| + DQuat.t) (h2 : |b - d| ≤ DQuat.u * |d| + DQuat.t) :
    |a * b - c * d| ≤ 201 / 100 * DQuat.u * |c * d| + 3 * DQuat.t := by
  have u0 := DQuat.u_pos
  have u1 := DQuat.u_small
  have t0 := DQuat.t_pos
  have t1 : DQuat.t ≤ 1 / 1000 := (DQuat.t_small (k := -20) (by norm_num)).trans (by norm_num)
  rw [show a * b - c * d = (a - c) * d + c * (b - d) + (a - c) * (b - d) by ring, abs_mul c d]
  refine (abs_add_three _ _ _).trans ?_
  rw [abs_mul, abs_mul, abs_mul]
  have c0 := abs_nonneg c
  have d0 := abs_nonneg d
  have A : |a - c| * |d| ≤ (DQuat.u * |c| + DQuat.t) * |d| := mul_le_mul_of_nonneg_right h1 d0
  have B : |c| * |b - d| ≤ |c| * (DQuat.u * |d| + DQuat.t) := mul_le_mul_of_nonneg_left h2 c0
  have C : |a - c| * |b - d| ≤ (DQuat.u * |c| + DQuat.t) * (DQuat.u * |d| + DQuat.t) := mul_le_mul h1 h2 (abs_nonneg _) (by positivity)
  have cd : 0 ≤ |c| * |d| := mul_nonneg c0 d0
  have k1 : DQuat.u * (DQuat.u * (|c| * |d|)) ≤ 1 / 1000 * (DQuat.u * (|c| * |d|)) := mul_le_mul_of_nonneg_right (by linarith) (by positivity)
  have k2 : DQuat.t * |d| ≤ DQuat.t * (11 / 10) := mul_le_mul_of_nonneg_left hd t0.le
  have k3 : DQuat.t * |c| ≤ DQuat.t * (11 / 10) := mul_le_mul_of_nonneg_left hc t0.le
  have k4 : DQuat.u * (DQuat.t * |c|) ≤ 1 / 1000 * (DQuat.t * |c|) := mul_le_mul_of_nonneg_right (by linarith) (by positivity)
  have k5 : DQuat.u * (DQuat.t * |d|) ≤ 1 / 1000 * (DQuat.t * |d|) := mul_le_mul_of_nonneg_right (by linarith) (by positivity)
  have k6 : DQuat.t * DQuat.t ≤ 1 / 1000 * DQuat.t := mul_le_mul_of_nonneg_right t1 t0.le
  have k7 : 0 ≤ DQuat.u * (|c| * |d|) := by positivity
  nlinarith

/-- the cosine of the angle between two vectors -/
noncomputable def cosine (v w : V3) : ℝ := v.dot w / (‖pure v‖ * ‖pure w‖)

theorem cauchy3 (v w : V3) : |v.x * w.x| + |v.y * w.y| + |v.z * w.z| ≤ ‖pure v‖ * ‖pure w‖ := by
  have := DQuat.cauchy ⟨v.x, v.y, v.z, 0⟩ ⟨w.x, w.y, w.z, 0⟩
  simp only [mul_zero, abs_zero, add_zero] at this
  exact this

/-- the scalar product of two computed unit vectors -/
theorem cosine_near (o : Bool) {v w a b : V3} {n m : ℝ} (v0 : 0 < ‖pure v‖) (w0 : 0 < ‖pure w‖) (n0 : 0 < n) (m0 : 0 < m) (hn : |n - ‖pure v‖| ≤ 32 / 10 * DQuat.u * ‖pure v‖)
    (hm : |m - ‖pure w‖| ≤ 32 / 10 * DQuat.u * ‖pure w‖) (a1 : |a.x - v.x / n| ≤ DQuat.u * |v.x / n| + DQuat.t) (a2 : |a.y - v.y / n| ≤ DQuat.u * |v.y / n| + DQuat.t)
    (a3 : |a.z - v.z / n| ≤ DQuat.u * |v.z / n| + DQuat.t) (b1 : |b.x - w.x / m| ≤ DQuat.u * |w.x / m| + DQuat.t) (b2 : |b.y - w.y / m| ≤ DQuat.u * |w.y / m| + DQuat.t)
    (b3 : |b.z - w.z / m| ≤ DQuat.u * |w.z / m| + DQuat.t) :
    |DVec.dot3 o a.x a.y a.z b.x b.y b.z - cosine v w| ≤ 66 / 10 * DQuat.u * |cosine v w| + 51 / 10 * DQuat.u := by
  have u0 := DQuat.u_pos
  have u1 := DQuat.u_small
  have t0 := DQuat.t_pos
  have tu := DRot.t_u
  have hV : ‖pure v‖ ≤ 1001 / 1000 * n := by
    have := (abs_le.1 hn).1
    have : 32 / 10 * DQuat.u * ‖pure v‖ ≤ 1 / 10000 * ‖pure v‖ := mul_le_mul_of_nonneg_right (by linarith) v0.le
    linarith
  have hW : ‖pure w‖ ≤ 1001 / 1000 * m := by
    have := (abs_le.1 hm).1
    have : 32 / 10 * DQuat.u * ‖pure w‖ ≤ 1 / 10000 * ‖pure w‖ := mul_le_mul_of_nonneg_right (by linarith) w0.le
    linarith
  obtain ⟨lv1, lv2, lv3⟩ := within_length v
  obtain ⟨lw1, lw2, lw3⟩ := within_length w
  rw [← pure_length] at lv1 lv2 lv3 lw1 lw2 lw3
  have q : ∀ {x k N : ℝ}, 0 < k → |x| ≤ N → N ≤ 1001 / 1000 * k → |x / k| ≤ 11 / 10 := fun {x k N} k0 h1 h2 => by
    rw [abs_div, abs_of_pos k0, div_le_iff₀ k0]; linarith
  have p1 := prod2 (q n0 lv1 hV) (q m0 lw1 hW) a1 b1
  have p2 := prod2 (q n0 lv2 hV) (q m0 lw2 hW) a2 b2
  have p3 := prod2 (q n0 lv3 hV) (q m0 lw3 hW) a3 b3
  have nm : 0 < n * m := mul_pos n0 m0
  -- the ratio of the exact lengths and the computed ones
  set K := ‖pure v‖ * ‖pure w‖ / (n * m) with hK
  have K1 : |K - 1| ≤ 65 / 10 * DQuat.u := by
    rw [hK, div_sub_one nm.ne', abs_div, abs_of_pos nm, div_le_iff₀ nm]
    have e : ‖pure v‖ * ‖pure w‖ - n * m = -((n - ‖pure v‖) * ‖pure w‖ + ‖pure v‖ * (m - ‖pure w‖) + (n - ‖pure v‖) * (m - ‖pure w‖)) := by ring
    rw [e, abs_neg]
    refine (abs_add_three _ _ _).trans ?_
    rw [abs_mul, abs_mul, abs_mul, abs_of_pos v0, abs_of_pos w0]
    have s1 := mul_le_mul_of_nonneg_right hn w0.le
    have s2 := mul_le_mul_of_nonneg_left hm v0.le
    have s3 : |n - ‖pure v‖| * |m - ‖pure w‖| ≤ _ := mul_le_mul hn hm (abs_nonneg _) (by positivity)
    have VW : 0 ≤ DQuat.u * (‖pure v‖ * ‖pure w‖) := by positivity
    have s4 : DQuat.u * (DQuat.u * (‖pure v‖ * ‖pure w‖)) ≤ 1 / 10 ^ 15 * (DQuat.u * (‖pure v‖ * ‖pure w‖)) := mul_le_mul_of_nonneg_right u1 VW
    have s5 : ‖pure v‖ * ‖pure w‖ ≤ 10002 / 10000 * (n * m) := by
      have f1 : ‖pure v‖ ≤ 100001 / 100000 * n := by
        have := (abs_le.1 hn).1
        have : 32 / 10 * DQuat.u * ‖pure v‖ ≤ 1 / 1000000 * ‖pure v‖ := mul_le_mul_of_nonneg_right (by linarith) v0.le
        linarith
      have f2 : ‖pure w‖ ≤ 100001 / 100000 * m := by
        have := (abs_le.1 hm).1
        have : 32 / 10 * DQuat.u * ‖pure w‖ ≤ 1 / 1000000 * ‖pure w‖ := mul_le_mul_of_nonneg_right (by linarith) w0.le
        linarith
      have := mul_le_mul f1 f2 w0.le (by positivity)
      linarith [mul_pos n0 m0]
    have s6 := mul_le_mul_of_nonneg_left s5 u0.le
    linarith
  have K2 : K ≤ 1001 / 1000 := by have := (abs_le.1 K1).2; linarith
  have dk : v.x / n * (w.x / m) + v.y / n * (w.y / m) + v.z / n * (w.z / m) = cosine v w * K := by
    rw [cosine, hK, V3.dot]
    field_simp
  have sk : |v.x / n * (w.x / m)| + |v.y / n * (w.y / m)| + |v.z / n * (w.z / m)| ≤ K := by
    have f : ∀ x y : ℝ, |x / n * (y / m)| = |x * y| / (n * m) := fun x y => by rw [div_mul_div_comm, abs_div, abs_of_pos nm]
    rw [f, f, f, ← add_div, ← add_div, hK]
    exact div_le_div_of_nonneg_right (cauchy3 v w) nm.le
  generalize v.x / n * (w.x / m) = A at *
  generalize v.y / n * (w.y / m) = B at *
  generalize v.z / n * (w.z / m) = C at *
  generalize cosine v w = c at *
  have d := DVec.dot3_near o a.x a.y a.z b.x b.y b.z
  have P1 := abs_sub_abs_le_abs_sub (a.x * b.x) A
  have P2 := abs_sub_abs_le_abs_sub (a.y * b.y) B
  have P3 := abs_sub_abs_le_abs_sub (a.z * b.z) C
  have e1 : DQuat.u * (|A| + |B| + |C|) ≤ DQuat.u * (1001 / 1000) := mul_le_mul_of_nonneg_left (sk.trans K2) u0.le
  have S : |a.x * b.x| + |a.y * b.y| + |a.z * b.z| ≤ 101 / 100 := by linarith
  have e2 : DQuat.u * (|a.x * b.x| + |a.y * b.y| + |a.z * b.z|) ≤ DQuat.u * (101 / 100) := mul_le_mul_of_nonneg_left S u0.le
  have e3 : |a.x * b.x + a.y * b.y + a.z * b.z - (A + B + C)| ≤ |a.x * b.x - A| + |a.y * b.y - B| + |a.z * b.z - C| := by
    rw [show a.x * b.x + a.y * b.y + a.z * b.z - (A + B + C) = (a.x * b.x - A) + (a.y * b.y - B) + (a.z * b.z - C) by ring]; exact abs_add_three _ _ _
  have e4 : |c * K - c| ≤ 65 / 10 * DQuat.u * |c| := by
    rw [show c * K - c = (K - 1) * c by ring, abs_mul]; exact mul_le_mul_of_nonneg_right K1 (abs_nonneg _)
  rw [dk] at e3
  have t1 := abs_sub_le (DVec.dot3 o a.x a.y a.z b.x b.y b.z) (a.x * b.x + a.y * b.y + a.z * b.z) c
  have t2 := abs_sub_le (a.x * b.x + a.y * b.y + a.z * b.z) (c * K) c
  have c0 : 0 ≤ DQuat.u * |c| := by positivity
  linarith

/-- lengths of vectors whose coordinates are bounded by others -/
theorem pure_mono {f g : V3} (h1 : |f.x| ≤ g.x) (h2 : |f.y| ≤ g.y) (h3 : |f.z| ≤ g.z) : ‖pure f‖ ≤ ‖pure g‖ := by
  refine le_of_sq_le_sq ?_ (norm_nonneg _)
  rw [pure_sq, pure_sq]
  have k : ∀ {a b : ℝ}, |a| ≤ b → a ^ 2 ≤ b ^ 2 := fun {a b} h => by rw [← sq_abs a]; exact pow_le_pow_left₀ (abs_nonneg _) h 2
  exact add_le_add (add_le_add (k h1) (k h2)) (k h3)

theorem pure_abs (v : V3) : ‖pure ⟨|v.x|, |v.y|, |v.z|⟩‖ = ‖pure v‖ := by
  have h : ‖pure ⟨|v.x|, |v.y|, |v.z|⟩‖ ^ 2 = ‖pure v‖ ^ 2 := by rw [pure_sq, pure_sq]; simp only [sq_abs]
  exact (pow_left_inj₀ (norm_nonneg _) (norm_nonneg _) two_ne_zero).1 h

theorem pure_three {f A B C : V3} {k l τ : ℝ} (k0 : 0 ≤ k) (l0 : 0 ≤ l) (τ0 : 0 ≤ τ) (h1 : |f.x| ≤ k * |A.x| + l * (|B.x| + |C.x|) + τ) (h2 : |f.y| ≤ k * |A.y| + l * (|B.y| + |C.y|) + τ)
    (h3 : |f.z| ≤ k * |A.z| + l * (|B.z| + |C.z|) + τ) : ‖pure f‖ ≤ k * ‖pure A‖ + l * (‖pure B‖ + ‖pure C‖) + 2 * τ := by
  refine (pure_mono (g := ⟨k * |A.x| + l * (|B.x| + |C.x|) + τ, k * |A.y| + l * (|B.y| + |C.y|) + τ, k * |A.z| + l * (|B.z| + |C.z|) + τ⟩) h1 h2 h3).trans ?_
  have e : pure ⟨k * |A.x| + l * (|B.x| + |C.x|) + τ, k * |A.y| + l * (|B.y| + |C.y|) + τ, k * |A.z| + l * (|B.z| + |C.z|) + τ⟩ =
      k • pure ⟨|A.x|, |A.y|, |A.z|⟩ + l • pure ⟨|B.x|, |B.y|, |B.z|⟩ + l • pure ⟨|C.x|, |C.y|, |C.z|⟩ + pure ⟨τ, τ, τ⟩ := by
    rw [pure_smul, pure_smul, pure_smul, ← pure_plus, ← pure_plus, ← pure_plus]
    congr 1
    ext <;> simp <;> ring
  rw [e]
  have t1 := norm_add_le (k • pure ⟨|A.x|, |A.y|, |A.z|⟩ + l • pure ⟨|B.x|, |B.y|, |B.z|⟩ + l • pure ⟨|C.x|, |C.y|, |C.z|⟩) (pure ⟨τ, τ, τ⟩)
  have t2 := norm_add_le (k • pure ⟨|A.x|, |A.y|, |A.z|⟩ + l • pure ⟨|B.x|, |B.y|, |B.z|⟩) (l • pure ⟨|C.x|, |C.y|, |C.z|⟩)
  have t3 := norm_add_le (k • pure ⟨|A.x|, |A.y|, |A.z|⟩) (l • pure ⟨|B.x|, |B.y|, |B.z|⟩)
  rw [norm_smul, norm_smul, pure_abs, pure_abs, Real.norm_of_nonneg k0, Real.norm_of_nonneg l0] at t3
  rw [norm_smul l, pure_abs, Real.norm_of_nonneg l0] at t2
  have t4 := Around.pure_each (v := ⟨τ, τ, τ⟩) (k := τ) (abs_of_nonneg τ0).le (abs_of_nonneg τ0).le (abs_of_nonneg τ0).le
  linarith

/-- one coordinate of a vertex -/
theorem coordinate {c x y a b : ℝ} (hc : Representable c ∧ |c| ≤ 2 ^ 500) (hx : |x| ≤ 2 ^ 500) (hy : |y| ≤ 2 ^ 500) (ha : |a| ≤ 2 ^ 500) (hb : |b| ≤ 2 ^ 500) :
    ∃ s r, ((F64.fin x).mul (.fin a)).add ((F64.fin y).mul (.fin b)) = .fin s ∧ (F64.fin c).add (.fin s) = .fin r ∧ Representable r ∧
      |r - (c + (x * a + y * b))| ≤ DQuat.u * |c| + 301 / 100 * DQuat.u * (|x * a| + |y * b|) + 3 * DQuat.t := by
  have u0 := DQuat.u_pos
  have u1 := DQuat.u_small
  have t0 := DQuat.t_pos
  obtain ⟨e1, k1⟩ := DVec.mul_fin2 hx ha
  obtain ⟨e2, k2⟩ := DVec.mul_fin2 hy hb
  obtain ⟨e3, k3⟩ := DVec.add_fin2 (n := 1000) (by norm_num) k1 k2
  obtain ⟨e4, k4⟩ := DVec.add_fin2 (n := 1001) (by norm_num) (hc.2.trans (pow_le_pow_right₀ one_le_two (by norm_num))) k3
  refine ⟨_, _, by rw [e1, e2, e3], e4, rnd_representable _, ?_⟩
  have m1 := DVec.mul_near x a
  have m2 := DVec.mul_near y b
  have m3 := DLine2.add_near (rnd_representable (x * a)) (rnd_representable (y * b))
  have m4 := DLine2.add_near hc.1 (rnd_representable (rnd (x * a) + rnd (y * b)))
  clear k1 k2 k3 k4 hx hy ha hb
  obtain ⟨rc, -⟩ := hc
  generalize rnd (rnd (x * a) + rnd (y * b)) = S at *
  generalize rnd (x * a) = p at *
  generalize rnd (y * b) = q at *
  generalize rnd (c + S) = r at *
  generalize x * a = X at *
  generalize y * b = Y at *
  have s1 : |p| ≤ |X| + |p - X| := by have := abs_add_le X (p - X); rwa [add_sub_cancel] at this
  have s2 : |q| ≤ |Y| + |q - Y| := by have := abs_add_le Y (q - Y); rwa [add_sub_cancel] at this
  have s3 := abs_add_le p q
  have s4 : |S| ≤ |p + q| + |S - (p + q)| := by have := abs_add_le (p + q) (S - (p + q)); rwa [add_sub_cancel] at this
  have s5 := abs_add_le c S
  have t1 : |r - (c + (X + Y))| ≤ |r - (c + S)| + |S - (p + q)| + |p - X| + |q - Y| := by
    rw [show r - (c + (X + Y)) = (r - (c + S)) + (S - (p + q)) + (p - X) + (q - Y) by ring]
    exact (abs_add_le _ _).trans (add_le_add ((abs_add_le _ _).trans (add_le_add (abs_add_le _ _) le_rfl)) le_rfl)
  have X0 := abs_nonneg X
  have Y0 := abs_nonneg Y
  set Z := |X| + |Y| with hZ
  have Z0 : 0 ≤ Z := by positivity
  have v1 : |p + q| ≤ Z + (DQuat.u * Z + 2 * DQuat.t) := by rw [hZ]; linarith
  have w1 : DQuat.u * |p + q| ≤ DQuat.u * (Z + (DQuat.u * Z + 2 * DQuat.t)) := mul_le_mul_of_nonneg_left v1 u0.le
  have x1 : DQuat.u * (DQuat.u * Z) ≤ 1 / 10 ^ 15 * (DQuat.u * Z) := mul_le_mul_of_nonneg_right u1 (by positivity)
  have x2 : DQuat.u * DQuat.t ≤ 1 / 10 ^ 15 * DQuat.t := mul_le_mul_of_nonneg_right u1 t0.le
  have x3 : 0 ≤ DQuat.u * Z := by positivity
  have x4 : DQuat.u * Z ≤ 1 / 10 ^ 15 * Z := mul_le_mul_of_nonneg_right u1 Z0
  have v2 : |S| ≤ Z + (21 / 10 * (DQuat.u * Z) + 3 * DQuat.t) := by linarith
  have w2 : DQuat.u * |c + S| ≤ DQuat.u * (|c| + (Z + (21 / 10 * (DQuat.u * Z) + 3 * DQuat.t))) := mul_le_mul_of_nonneg_left (by linarith) u0.le
  have y : |p - X| + |q - Y| ≤ DQuat.u * Z + 2 * DQuat.t := by rw [hZ]; linarith
  linarith

theorem axis_le {a : V3} (h : ‖pure a‖ ≤ 11 / 10) : |a.x| ≤ 2 ^ 500 ∧ |a.y| ≤ 2 ^ 500 ∧ |a.z| ≤ 2 ^ 500 := by
  obtain ⟨h1, h2, h3⟩ := within_length a
  rw [← pure_length] at h1 h2 h3
  have b : (11 / 10 : ℝ) ≤ 2 ^ 500 := by
    calc (11 / 10 : ℝ) ≤ 2 ^ 1 := by norm_num
      _ ≤ 2 ^ 500 := pow_le_pow_right₀ one_le_two (by norm_num)
  exact ⟨h1.trans (h.trans b), h2.trans (h.trans b), h3.trans (h.trans b)⟩

/-- a vertex is near its exact place in the computed frame -/
theorem place_near (P : Polygon2) {c a b : V3} (hc : Within c) (ha : ‖pure a‖ ≤ 11 / 10) (hb : ‖pure b‖ ≤ 11 / 10) {w : V2} (hw : Sized2 490 w) :
    ∃ v, Move.Rep v ∧ DPolygon.place ⟨P, doubles c, doubles a, doubles b⟩ w = .ok (doubles v) ∧
      ‖pure v - pure (inFrame c a b w)‖ ≤ 4 * DQuat.u * (‖pure c‖ + |w.x| + |w.y|) + 8 * DQuat.t := by
  have u0 := DQuat.u_pos
  have t0 := DQuat.t_pos
  have p : (2 : ℝ) ^ 499 ≤ 2 ^ 500 := pow_le_pow_right₀ one_le_two (by norm_num)
  have p' : (2 : ℝ) ^ 490 ≤ 2 ^ 500 := pow_le_pow_right₀ one_le_two (by norm_num)
  obtain ⟨a1, a2, a3⟩ := axis_le ha
  obtain ⟨b1, b2, b3⟩ := axis_le hb
  obtain ⟨s1, r1, e1, f1, g1, n1⟩ := coordinate ⟨hc.x.1, hc.x.2.trans p⟩ (hw.x.2.trans p') (hw.y.2.trans p') a1 b1
  obtain ⟨s2, r2, e2, f2, g2, n2⟩ := coordinate ⟨hc.y.1, hc.y.2.trans p⟩ (hw.x.2.trans p') (hw.y.2.trans p') a2 b2
  obtain ⟨s3, r3, e3, f3, g3, n3⟩ := coordinate ⟨hc.z.1, hc.z.2.trans p⟩ (hw.x.2.trans p') (hw.y.2.trans p') a3 b3
  refine ⟨⟨r1, r2, r3⟩, ⟨g1, g2, g3⟩, ?_, ?_⟩
  · have e : ((doubles a).scale (.fin w.x)).add ((doubles b).scale (.fin w.y)) = doubles ⟨s1, s2, s3⟩ := by
      simp only [doubles, DVec.scale, DVec.add, e1, e2, e3]
    simp only [DPolygon.place, e, doubles_defined]
    simp [doubles, DVec.add, f1, f2, f3]
  · rw [pure_sub]
    have := pure_three (f := (⟨r1, r2, r3⟩ : V3) - inFrame c a b w) (A := c) (B := w.x • a) (C := w.y • b) (k := DQuat.u) (l := 301 / 100 * DQuat.u) (τ := 3 * DQuat.t) u0.le (by positivity) (by positivity)
      (by simpa [inFrame] using n1) (by simpa [inFrame] using n2) (by simpa [inFrame] using n3)
    have s : ∀ (k : ℝ) (v : V3), ‖pure (k • v)‖ = |k| * ‖pure v‖ := fun k v => by
      rw [show k • v = ⟨k * v.x, k * v.y, k * v.z⟩ by ext <;> simp, ← pure_smul, norm_smul, Real.norm_eq_abs]
    rw [s, s] at this
    have q1 := mul_le_mul_of_nonneg_left ha (abs_nonneg w.x)
    have q2 := mul_le_mul_of_nonneg_left hb (abs_nonneg w.y)
    have c0 : 0 ≤ DQuat.u * ‖pure c‖ := mul_nonneg u0.le (norm_nonneg _)
    have q3 := mul_le_mul_of_nonneg_left q1 u0.le
    have q4 := mul_le_mul_of_nonneg_left q2 u0.le
    have x0 : 0 ≤ DQuat.u * |w.x| := mul_nonneg u0.le (abs_nonneg _)
    have y0 : 0 ≤ DQuat.u * |w.y| := mul_nonneg u0.le (abs_nonneg _)
    linarith

end Flat3

end Verif.Props
