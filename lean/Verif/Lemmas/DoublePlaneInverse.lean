import Verif.Lemmas.DoublePlaneProduct
import Verif.Model.DoublePlaneInverse

/-!
# Lemmas for C150: inverses of transformations of the plane in double precision
-/

namespace Verif.Props

open Verif Verif.Spec Verif.Double

namespace Inverse2

open Product (err err_bounds least least_pos least_t least_small entry_500 zero_500 one_500)
open Product2 (affine column block entry)

theorem product_near {x y X Y p q m n : ℝ} (h1 : |x - X| ≤ p) (h2 : |y - Y| ≤ q) (h3 : |y| ≤ m) (h4 : |X| ≤ n) : |x * y - X * Y| ≤ p * m + n * q := by
  rw [show x * y - X * Y = (x - X) * y + X * (y - Y) by ring]
  refine (abs_add_le _ _).trans ?_
  rw [abs_mul, abs_mul]
  exact add_le_add (mul_le_mul h1 h3 (abs_nonneg _) ((abs_nonneg _).trans h1)) (mul_le_mul h4 h2 (abs_nonneg _) ((abs_nonneg _).trans h4))

theorem near_one (a : ℝ) : |rnd a - a| ≤ DQuat.u * |a| + DQuat.t := by simpa using DVec.mul_near a 1

/-- one entry of the inverse -/
theorem scaled {v V i g p K : ℝ} (hv : |v - V| ≤ p) (hK : |v| ≤ K) (hg : g ≤ 1 / 2048) (hi : |i - 1| ≤ 43 / 10 * g) : |rnd (v * i) - V| ≤ 43 / 10 * g * K + p + DQuat.u * (101 / 100 * K) + DQuat.t := by
  have K0 := (abs_nonneg _).trans hK
  have u0 := DQuat.u_pos
  have i1 : |i| ≤ 101 / 100 := by rw [abs_le] at *; constructor <;> linarith
  have h1 := near_one (v * i)
  have h2 : |v * i| ≤ 101 / 100 * K := by rw [abs_mul, mul_comm]; exact mul_le_mul i1 hK (abs_nonneg _) (by norm_num)
  have h3 : |v * i - V| ≤ 43 / 10 * g * K + p := by
    rw [show v * i - V = (i - 1) * v + (v - V) by ring]
    refine (abs_add_le _ _).trans (add_le_add ?_ hv)
    rw [abs_mul]; exact mul_le_mul hi hK (abs_nonneg _) ((abs_nonneg _).trans hi)
  have h4 := abs_sub_le (rnd (v * i)) (v * i) V
  have := mul_le_mul_of_nonneg_left h2 u0.le
  linarith

/-- a difference of products as it is computed -/
theorem minor_near {a b c d A B C D g S : ℝ} (S0 : 0 ≤ S) (g1 : 128 * DQuat.u ≤ g) (ha : |a - A| ≤ g) (hc : |c - C| ≤ g) (hA : |A| ≤ 1) (hC : |C| ≤ 1) (ha' : |a| ≤ 41 / 40) (hc' : |c| ≤ 41 / 40) (hb : |b - B| ≤ g * (S + least))
    (hd : |d - D| ≤ g * (S + least)) (hb' : |b| ≤ 41 / 40 * (S + least)) (hd' : |d| ≤ 41 / 40 * (S + least)) :
    |rnd (rnd (a * b) - rnd (c * d)) - (A * B - C * D)| ≤ 42 / 10 * g * (S + least) := by
  have u0 := DQuat.u_pos
  have u1 := DQuat.u_small
  have l0 := least_pos
  have lt := least_t
  have h1 := product_near ha hb hb' hA
  have h2 := product_near hc hd hd' hC
  have n1 := DVec.mul_near a b
  have n2 := DVec.mul_near c d
  have n3 := near_one (rnd (a * b) - rnd (c * d))
  have m1 : |a * b| ≤ 41 / 40 * (41 / 40 * (S + least)) := by rw [abs_mul]; exact mul_le_mul ha' hb' (abs_nonneg _) (by norm_num)
  have m2 : |c * d| ≤ 41 / 40 * (41 / 40 * (S + least)) := by rw [abs_mul]; exact mul_le_mul hc' hd' (abs_nonneg _) (by norm_num)
  generalize hL : S + least = L at *
  have L0 : 0 < L := by linarith
  have tL : 4 * DQuat.t ≤ DQuat.u * L := by rw [← lt]; exact mul_le_mul_of_nonneg_left (by linarith) u0.le
  have k1 := mul_le_mul_of_nonneg_left m1 u0.le
  have k2 := mul_le_mul_of_nonneg_left m2 u0.le
  have uL : DQuat.u * L ≤ 1 / 10 ^ 15 * L := mul_le_mul_of_nonneg_right u1 L0.le
  have b1 : |rnd (a * b) - rnd (c * d)| ≤ 3 * L := by
    rw [abs_le] at *
    constructor <;> linarith
  have k3 := mul_le_mul_of_nonneg_left b1 u0.le
  have gL := mul_le_mul_of_nonneg_right g1 L0.le
  rw [abs_le] at *
  constructor <;> linarith

/-- the inverse of a matrix near a motion -/
theorem inverse_near (o : Bool) {R : Fin 2 → Fin 2 → ℝ} {t : Fin 2 → ℝ} {w s : ℂ} {g S : ℝ} (rR : ∀ i j, Representable (R i j)) (hw : ‖w‖ = 1) (hs : ‖s‖ ≤ S) (hS : S ≤ 2 ^ 490)
    (g1 : 128 * DQuat.u ≤ g) (g2 : g ≤ 1 / 2048) (hR : ∀ z, ‖block R z - w * z‖ ≤ g * ‖z‖) (hc : ‖column t - s‖ ≤ g * (S + least)) :
    ∃ (R' : Fin 2 → Fin 2 → ℝ) (t' : Fin 2 → ℝ) (l : ℝ), DT2.inverse o (affine R t) = ![![.fin (R' 0 0), .fin (R' 0 1), .fin (t' 0)], ![.fin (R' 1 0), .fin (R' 1 1), .fin (t' 1)], ![.fin 0, .fin 0, .fin l]] ∧
      (∀ i, Representable (t' i)) ∧ (∀ z, ‖block R' z - starRingEnd ℂ w * z‖ ≤ 22 * g * ‖z‖) ∧ ‖column t' - -(starRingEnd ℂ w * s)‖ ≤ 22 * g * (S + least) ∧ |l - 1| ≤ 9 * g := by
  have u0 := DQuat.u_pos
  have u1 := DQuat.u_small
  have t0 := DQuat.t_pos
  have tu := Product2.small_t
  have l0 := least_pos
  have lt := least_t
  have S0 : 0 ≤ S := (norm_nonneg s).trans hs
  have k := entry hw (by linarith) hR
  have k5 := fun i j => entry_500 (k i j)
  obtain ⟨c1, c2⟩ := Product2.column_le hs (by linarith) hc
  have c5 := Product2.column_at (Product2.column_500 hS c2)
  have c3 : ‖column t‖ ≤ 41 / 40 * (S + least) := by
    have := mul_le_mul_of_nonneg_right (show g ≤ 1 / 40 by linarith) (show 0 ≤ S + least by linarith)
    linarith
  have c4 := Product2.column_at c3
  have cr : |t 0 - s.re| ≤ g * (S + least) := (Complex.abs_re_le_norm (column t - s)).trans hc
  have ci : |t 1 - s.im| ≤ g * (S + least) := (Complex.abs_im_le_norm (column t - s)).trans hc
  have w1 : |w.re| ≤ 1 := (Complex.abs_re_le_norm w).trans hw.le
  have w2 : |w.im| ≤ 1 := (Complex.abs_im_le_norm w).trans hw.le
  have w3 : w.re * w.re + w.im * w.im = 1 := by
    have := Complex.normSq_apply w
    rw [← this, Complex.normSq_eq_norm_sq, hw]; norm_num
  obtain ⟨ea, ec⟩ : |R 0 0 - w.re| ≤ g ∧ |R 1 0 - w.im| ≤ g := by
    have h := hR 1
    rw [norm_one, mul_one, mul_one] at h
    have h1 := (Complex.abs_re_le_norm _).trans h
    have h2 := (Complex.abs_im_le_norm _).trans h
    simp [block] at h1 h2
    exact ⟨h1, h2⟩
  obtain ⟨eb, ee⟩ : |R 0 1 - -w.im| ≤ g ∧ |R 1 1 - w.re| ≤ g := by
    have h := hR Complex.I
    rw [Complex.norm_I, mul_one] at h
    have h1 := (Complex.abs_re_le_norm _).trans h
    have h2 := (Complex.abs_im_le_norm _).trans h
    simp [block] at h1 h2
    exact ⟨by simpa using h1, h2⟩
  have w2' : |-w.im| ≤ 1 := by rwa [abs_neg]
  -- the cofactors of the last row
  have hx := minor_near S0 g1 eb ee w2' w1 (k 0 1) (k 1 1) ci cr (c4 1) (c4 0)
  have hy := minor_near S0 g1 ec ea w2 w1 (k 1 0) (k 0 0) cr ci (c4 0) (c4 1)
  have hz : |rnd (rnd (R 0 0 * R 1 1) - rnd (R 0 1 * R 1 0)) - 1| ≤ 42 / 10 * g := by
    have h1 := product_near ea ee (k 1 1) w1
    have h2 := product_near eb ec (k 1 0) w2'
    have n1 := DVec.mul_near (R 0 0) (R 1 1)
    have n2 := DVec.mul_near (R 0 1) (R 1 0)
    have n3 := near_one (rnd (R 0 0 * R 1 1) - rnd (R 0 1 * R 1 0))
    have m1 : |R 0 0 * R 1 1| ≤ 41 / 40 * (41 / 40) := by rw [abs_mul]; exact mul_le_mul (k 0 0) (k 1 1) (abs_nonneg _) (by norm_num)
    have m2 : |R 0 1 * R 1 0| ≤ 41 / 40 * (41 / 40) := by rw [abs_mul]; exact mul_le_mul (k 0 1) (k 1 0) (abs_nonneg _) (by norm_num)
    have k1 := mul_le_mul_of_nonneg_left m1 u0.le
    have k2 := mul_le_mul_of_nonneg_left m2 u0.le
    rw [neg_mul] at h2
    have b1 : |rnd (R 0 0 * R 1 1) - rnd (R 0 1 * R 1 0)| ≤ 3 := by
      clear hS c5 k5
      rw [abs_le] at *
      constructor <;> linarith
    have k3 := mul_le_mul_of_nonneg_left b1 u0.le
    clear hS c5 k5
    rw [abs_le] at *
    constructor <;> linarith
  -- the determinant
  generalize hx' : rnd (rnd (R 0 1 * t 1) - rnd (R 1 1 * t 0)) = x at *
  generalize hy' : rnd (rnd (R 1 0 * t 0) - rnd (R 0 0 * t 1)) = y at *
  generalize hz' : rnd (rnd (R 0 0 * R 1 1) - rnd (R 0 1 * R 1 0)) = z at *
  have hd : |DVec.dot3 o (R 1 1) (-R 0 1) x (R 0 0) (R 1 0) 0 - 1| ≤ 42 / 10 * g := by
    have h1 := product_near ea ee (k 1 1) w1
    have h2 := product_near eb ec (k 1 0) w2'
    have n := DVec.dot3_near o (R 1 1) (-R 0 1) x (R 0 0) (R 1 0) 0
    rw [mul_zero, add_zero, abs_zero, add_zero, neg_mul, abs_neg, mul_comm (R 1 1)] at n
    have m1 : |R 0 0 * R 1 1| ≤ 41 / 40 * (41 / 40) := by rw [abs_mul]; exact mul_le_mul (k 0 0) (k 1 1) (abs_nonneg _) (by norm_num)
    have m2 : |R 0 1 * R 1 0| ≤ 41 / 40 * (41 / 40) := by rw [abs_mul]; exact mul_le_mul (k 0 1) (k 1 0) (abs_nonneg _) (by norm_num)
    have k1 := mul_le_mul_of_nonneg_left (add_le_add m1 m2) u0.le
    rw [neg_mul] at h2
    clear hS c5 k5
    rw [abs_le] at *
    constructor <;> linarith
  generalize hd' : DVec.dot3 o (R 1 1) (-R 0 1) x (R 0 0) (R 1 0) 0 = d at *
  have d1 : 997 / 1000 ≤ d := by rw [abs_le] at hd; linarith [hd.1]
  have d0 : 0 < d := by linarith
  have hv : |1 / d - 1| ≤ 4215 / 1000 * g := by
    rw [div_sub_one d0.ne', abs_div, abs_of_pos d0, div_le_iff₀ d0, abs_sub_comm]
    have := mul_le_mul_of_nonneg_left d1 (show 0 ≤ g by linarith)
    linarith
  have hi : |rnd (1 / d) - 1| ≤ 43 / 10 * g := by
    have h1 := near_one (1 / d)
    have h2 : |1 / d| ≤ 101 / 100 := by clear hS c5 k5; rw [abs_le] at *; constructor <;> linarith
    have h3 := mul_le_mul_of_nonneg_left h2 u0.le
    have h4 := abs_sub_le (rnd (1 / d)) (1 / d) 1
    linarith
  have fi : (F64.fin 1).div (.fin d) = .fin (rnd (1 / d)) := by
    rw [F64.div, if_neg d0.ne', F64.ofExact_fin]
    refine lt_of_le_of_lt (b := 2 ^ 1) ?_ (pow_lt_pow_right₀ one_lt_two (by norm_num))
    clear hS c5 k5
    rw [abs_le] at *
    constructor <;> linarith
  have i5 : |rnd (1 / d)| ≤ 2 ^ 500 := by
    refine le_trans (b := 2 ^ 1) ?_ (pow_le_pow_right₀ one_le_two (by norm_num))
    clear hS c5 k5
    rw [abs_le] at *
    constructor <;> linarith
  generalize hi' : rnd (1 / d) = i at *
  -- the sizes of the cofactors
  have nc : ‖-(starRingEnd ℂ w * s)‖ ≤ S := by rw [norm_neg, norm_mul, RCLike.norm_conj, hw, one_mul]; exact hs
  have eX : (-(starRingEnd ℂ w * s)).re = -w.im * s.im - w.re * s.re := by simp; ring
  have eY : (-(starRingEnd ℂ w * s)).im = w.im * s.re - w.re * s.im := by simp; ring
  have bX : |-w.im * s.im - w.re * s.re| ≤ S := by rw [← eX]; exact (Complex.abs_re_le_norm _).trans nc
  have bY : |w.im * s.re - w.re * s.im| ≤ S := by rw [← eY]; exact (Complex.abs_im_le_norm _).trans nc
  have gL := mul_le_mul_of_nonneg_right g2 (show 0 ≤ S + least by linarith)
  have bx : |x| ≤ 101 / 100 * (S + least) := by
    have := abs_sub_abs_le_abs_sub x (-w.im * s.im - w.re * s.re)
    linarith
  have by' : |y| ≤ 101 / 100 * (S + least) := by
    have := abs_sub_abs_le_abs_sub y (w.im * s.re - w.re * s.im)
    linarith
  have up : ∀ {v : ℝ}, |v| ≤ 101 / 100 * (S + least) → |v| ≤ 2 ^ 500 := fun {v} hv => by
    have l := least_small
    have e : (2 : ℝ) ^ 500 = 1024 * 2 ^ 490 := by rw [show (500 : ℕ) = 10 + 490 by norm_num, pow_add]; norm_num
    have p : (1 : ℝ) ≤ 2 ^ 490 := one_le_pow₀ one_le_two
    rw [e]
    clear e i5 c5 k5
    generalize (2 : ℝ) ^ 490 = B at *
    linarith
  have x5 := up bx
  have y5 := up by'
  have z5 : |z| ≤ 2 ^ 500 := by
    refine le_trans (b := 2 ^ 1) ?_ (pow_le_pow_right₀ one_le_two (by norm_num))
    clear hS c5 k5 i5 x5 y5 up
    rw [abs_le] at *
    constructor <;> linarith
  -- the inverse
  have lt24 : ∀ {v : ℝ}, |v| ≤ 2 ^ 500 → |v| < 2 ^ 1024 := fun hv => hv.trans_lt (pow_lt_pow_right₀ one_lt_two (by norm_num))
  have nR : ∀ i j, Representable (-R i j) := fun i j => by simpa using representable_neg (rR i j)
  have n5 : ∀ i j, |-R i j| ≤ 2 ^ 500 := fun i j => by rw [abs_neg]; exact k5 i j
  have sub0 : ∀ i j, (F64.fin (R i j)).sub (.fin 0) = .fin (R i j) := fun i j => by
    rw [F64.sub, F64.neg, neg_zero]; exact DT3.add_zero_fin (rR i j) (lt24 (k5 i j))
  have zsub : ∀ i j, (F64.fin 0).sub (.fin (R i j)) = .fin (-R i j) := fun i j => by
    rw [F64.sub, F64.neg]; exact DT3.zero_add_fin (nR i j) (lt24 (n5 i j))
  have zz : (F64.fin (0 : ℝ)).sub (.fin 0) = .fin 0 := by rw [F64.sub, F64.neg, neg_zero]; exact DT3.add_zero_fin representable_zero (by simp)
  have m1 := fun i j => DT3.mul_one_fin (rR i j) (lt24 (k5 i j))
  have m1' := fun i j => DT3.one_mul_fin (rR i j) (lt24 (k5 i j))
  have f00 : DT2.cofactor (affine R t) 0 0 = .fin (R 1 1) := by
    rw [show DT2.cofactor (affine R t) 0 0 = ((F64.fin (R 1 1)).mul (.fin 1)).sub ((F64.fin (t 1)).mul (.fin 0)) from rfl, m1, DT3.mul_zero_fin, sub0]
  have f10 : DT2.cofactor (affine R t) 1 0 = .fin (-R 0 1) := by
    rw [show DT2.cofactor (affine R t) 1 0 = ((F64.fin 0).mul (.fin (t 0))).sub ((F64.fin 1).mul (.fin (R 0 1))) from rfl, m1', DT3.zero_mul_fin, zsub]
  have f01 : DT2.cofactor (affine R t) 0 1 = .fin (-R 1 0) := by
    rw [show DT2.cofactor (affine R t) 0 1 = ((F64.fin (t 1)).mul (.fin 0)).sub ((F64.fin (R 1 0)).mul (.fin 1)) from rfl, m1, DT3.mul_zero_fin, zsub]
  have f11 : DT2.cofactor (affine R t) 1 1 = .fin (R 0 0) := by
    rw [show DT2.cofactor (affine R t) 1 1 = ((F64.fin 1).mul (.fin (R 0 0))).sub ((F64.fin 0).mul (.fin (t 0))) from rfl, m1', DT3.zero_mul_fin, sub0]
  have f02 : DT2.cofactor (affine R t) 0 2 = .fin 0 := by
    rw [show DT2.cofactor (affine R t) 0 2 = ((F64.fin (R 1 0)).mul (.fin 0)).sub ((F64.fin (R 1 1)).mul (.fin 0)) from rfl, DT3.mul_zero_fin, DT3.mul_zero_fin, zz]
  have f12 : DT2.cofactor (affine R t) 1 2 = .fin 0 := by
    rw [show DT2.cofactor (affine R t) 1 2 = ((F64.fin 0).mul (.fin (R 0 1))).sub ((F64.fin 0).mul (.fin (R 0 0))) from rfl, DT3.zero_mul_fin, DT3.zero_mul_fin, zz]
  have minor : ∀ {a b c d : ℝ}, |a| ≤ 2 ^ 500 → |b| ≤ 2 ^ 500 → |c| ≤ 2 ^ 500 → |d| ≤ 2 ^ 500 → ((F64.fin a).mul (.fin b)).sub ((F64.fin c).mul (.fin d)) = .fin (rnd (rnd (a * b) - rnd (c * d))) := fun ha hb hc hd => by
    obtain ⟨e1, b1⟩ := DVec.mul_fin2 ha hb
    obtain ⟨e2, b2⟩ := DVec.mul_fin2 hc hd
    rw [e1, e2, (DVec.sub_fin2 (n := 1000) (by norm_num) b1 b2).1]
  have f20 : DT2.cofactor (affine R t) 2 0 = .fin x := by
    rw [show DT2.cofactor (affine R t) 2 0 = ((F64.fin (R 0 1)).mul (.fin (t 1))).sub ((F64.fin (t 0)).mul (.fin (R 1 1))) from rfl, minor (k5 0 1) (c5 1) (c5 0) (k5 1 1), mul_comm (t 0), hx']
  have f21 : DT2.cofactor (affine R t) 2 1 = .fin y := by
    rw [show DT2.cofactor (affine R t) 2 1 = ((F64.fin (t 0)).mul (.fin (R 1 0))).sub ((F64.fin (R 0 0)).mul (.fin (t 1))) from rfl, minor (c5 0) (k5 1 0) (k5 0 0) (c5 1), mul_comm (t 0), hy']
  have f22 : DT2.cofactor (affine R t) 2 2 = .fin z := by
    rw [show DT2.cofactor (affine R t) 2 2 = ((F64.fin (R 0 0)).mul (.fin (R 1 1))).sub ((F64.fin (R 0 1)).mul (.fin (R 1 0))) from rfl, minor (k5 0 0) (k5 1 1) (k5 0 1) (k5 1 0), hz']
  have fd : DT2.det o (affine R t) = .fin d := by
    rw [DT2.det, f00, f10, f20, ← hd']
    exact (DVec.dot_fin o (k5 1 1) (n5 0 1) x5 (k5 0 0) (k5 1 0) zero_500).1
  have fe : DT2.inverse o (affine R t) = ![![.fin (rnd (R 1 1 * i)), .fin (rnd (-R 0 1 * i)), .fin (rnd (x * i))], ![.fin (rnd (-R 1 0 * i)), .fin (rnd (R 0 0 * i)), .fin (rnd (y * i))], ![.fin 0, .fin 0, .fin (rnd (z * i))]] := by
    funext p q
    rw [DT2.inverse, fd, fi]
    fin_cases p <;> fin_cases q <;> dsimp only [Fin.zero_eta, Fin.mk_one, Fin.reduceFinMk]
    · rw [f00, (DVec.mul_fin2 (k5 1 1) i5).1]; rfl
    · rw [f10, (DVec.mul_fin2 (n5 0 1) i5).1]; rfl
    · rw [f20, (DVec.mul_fin2 x5 i5).1]; rfl
    · rw [f01, (DVec.mul_fin2 (n5 1 0) i5).1]; rfl
    · rw [f11, (DVec.mul_fin2 (k5 0 0) i5).1]; rfl
    · rw [f21, (DVec.mul_fin2 y5 i5).1]; rfl
    · rw [f02, DT3.zero_mul_fin]; rfl
    · rw [f12, DT3.zero_mul_fin]; rfl
    · rw [f22, (DVec.mul_fin2 z5 i5).1]; rfl
  clear hS c5 k5 i5 x5 y5 z5 up lt24 nR n5 sub0 zsub zz m1 m1' minor f00 f01 f10 f11 f02 f12 f20 f21 f22
  -- the errors
  have neg : ∀ {v V : ℝ}, |v - V| ≤ g → |-v - -V| ≤ g := fun {v V} h => by rwa [show -v - -V = -(v - V) by ring, abs_neg]
  have E : ∀ {v V : ℝ}, |v - V| ≤ g → |v| ≤ 41 / 40 → |rnd (v * i) - V| ≤ 55 / 10 * g := fun h1 h2 => by
    have := scaled h1 h2 g2 hi
    linarith
  have F : ∀ {v V : ℝ}, |v - V| ≤ 42 / 10 * g * (S + least) → |v| ≤ 101 / 100 * (S + least) → |rnd (v * i) - V| ≤ 11 * g * (S + least) := fun h1 h2 => by
    have := scaled h1 h2 g2 hi
    have h3 := mul_le_mul_of_nonneg_right g1 (show 0 ≤ S + least by linarith)
    have h4 : 0 ≤ DQuat.u * S := by positivity
    linarith
  refine ⟨![![rnd (R 1 1 * i), rnd (-R 0 1 * i)], ![rnd (-R 1 0 * i), rnd (R 0 0 * i)]], ![rnd (x * i), rnd (y * i)], rnd (z * i), fe, fun j => ?_, fun v => ?_, ?_, ?_⟩
  · fin_cases j <;> exact rnd_representable _
  · have q1 := E ee (k 1 1)
    have q2 := E (neg eb) (by rw [abs_neg]; exact k 0 1)
    have q3 := E (neg ec) (by rw [abs_neg]; exact k 1 0)
    have q4 := E ea (k 0 0)
    rw [neg_neg] at q2
    have e : block ![![rnd (R 1 1 * i), rnd (-R 0 1 * i)], ![rnd (-R 1 0 * i), rnd (R 0 0 * i)]] v - starRingEnd ℂ w * v =
        ⟨(rnd (R 1 1 * i) - w.re) * v.re + (rnd (-R 0 1 * i) - w.im) * v.im, (rnd (-R 1 0 * i) - -w.im) * v.re + (rnd (R 0 0 * i) - w.re) * v.im⟩ := by
      apply Complex.ext <;> simp [block] <;> ring
    have L1 := Complex.abs_re_le_norm v
    have L2 := Complex.abs_im_le_norm v
    have q : ∀ {a b : ℝ}, |a| ≤ 55 / 10 * g → |b| ≤ 55 / 10 * g → |a * v.re + b * v.im| ≤ 11 * g * ‖v‖ := fun {a b} ha hb => by
      refine (abs_add_le _ _).trans ?_
      rw [abs_mul, abs_mul]
      have h1 := mul_le_mul ha L1 (abs_nonneg _) (by linarith)
      have h2 := mul_le_mul hb L2 (abs_nonneg _) (by linarith)
      linarith
    rw [e]
    refine (Product2.norm_each (q q1 q2) (q q3 q4)).trans (le_of_eq (by ring))
  · have e : column ![rnd (x * i), rnd (y * i)] - -(starRingEnd ℂ w * s) = ⟨rnd (x * i) - (-w.im * s.im - w.re * s.re), rnd (y * i) - (w.im * s.re - w.re * s.im)⟩ := by
      rw [← eX, ← eY]; rfl
    rw [e]
    refine (Product2.norm_each (F hx bx) (F hy by')).trans (le_of_eq (by ring))
  · have z1 : |z| ≤ 101 / 100 := by rw [abs_le] at *; constructor <;> linarith
    have := scaled hz z1 g2 hi
    linarith

/-- the inverse of a product of transformations made from angles, vectors, or points and angles -/
theorem inverse_acts (o' : Bool) {o : Bool} {sin cos : ℝ → ℝ} (hs : Accurate sin Real.sin) (hc : Accurate cos Real.cos) {T : DTrans2} {ms : List PlaneMotion} (h : Composed2 o sin cos T ms)
    (hn : ms.length ≤ 2 ^ 34) (hp : PlaneMotion.path ms ≤ 2 ^ 490) :
    ∃ (T' : DTrans2) (w s : ℂ), DTrans2.getInverse o' T = .ok T' ∧ T'.type = T.type ∧ T'.isDefined = true ∧ (∃ l : ℝ, T'.matrix 2 = ![.fin 0, .fin 0, .fin l] ∧ |l - 1| ≤ ms.length * 2 ^ (-41 : ℤ)) ∧
      ‖w‖ = 1 ∧ (∀ x, PlaneMotion.points ms x = w * x + s) ∧ (∀ x, PlaneMotion.directions ms x = w * x) ∧ ‖s‖ ≤ PlaneMotion.path ms ∧ ∀ (q : Bool) (x : V2), Sized2 490 x →
        (∃ b, DT2.applyTo q T'.matrix (doubles2 x) = .ok (doubles2 b) ∧ (Representable b.x ∧ Representable b.y) ∧
          ‖PlaneMotion.points ms (asComplex b) - asComplex x‖ ≤ 22 * (ms.length * 2 ^ (-45 : ℤ)) * (‖asComplex x‖ + PlaneMotion.path ms + least)) ∧
        (∃ b, DTrans2.boostPoint T'.matrix (doubles2 x) = doubles2 b ∧ ‖PlaneMotion.points ms (asComplex b) - asComplex x‖ ≤ 22 * (ms.length * 2 ^ (-45 : ℤ)) * (‖asComplex x‖ + PlaneMotion.path ms + least)) ∧
          ∃ b, DT2.applyToVector q T'.matrix (doubles2 x) = doubles2 b ∧ ‖PlaneMotion.directions ms (asComplex b) - asComplex x‖ ≤ 22 * (ms.length * 2 ^ (-45 : ℤ)) * (‖asComplex x‖ + least) := by
  obtain ⟨-, h1, h2⟩ := Product2.composed_comes hs hc h
  have hn' : ms.length ≤ 2 ^ 40 := hn.trans (by norm_num)
  have c := h2 hn' hp
  have pA := Product2.path_nonneg c
  obtain ⟨a1, a2, R, t, w, s, a4, a0, a5, a6, a7, a8, a9, a10⟩ := c
  obtain ⟨e1, e2, e3⟩ := err_bounds h1 hn'
  have u0 := DQuat.u_pos
  have l0 := least_pos
  have e4 : err ms.length ≤ 1 / 2048 := by
    have h3 : (ms.length : ℝ) ≤ 2 ^ 34 := by exact_mod_cast hn
    have h4 : (ms.length : ℝ) * 2 ^ (-45 : ℤ) ≤ 2 ^ 34 * 2 ^ (-45 : ℤ) := mul_le_mul_of_nonneg_right h3 (two_zpow_pos _).le
    norm_num at h4 e3
    linarith
  obtain ⟨R', t', l, f1, f2, f3, f4, f5⟩ := inverse_near o' a0.1 a5 a8 hp e1 e4 a9 a10
  have cw : ‖starRingEnd ℂ w‖ = 1 := by rw [RCLike.norm_conj, a5]
  have ww : w * starRingEnd ℂ w = 1 := by rw [Complex.mul_conj, Complex.normSq_eq_norm_sq, a5]; norm_num
  have ns : ‖-(starRingEnd ℂ w * s)‖ ≤ PlaneMotion.path ms := by rw [norm_neg, norm_mul, cw, one_mul]; exact a8
  refine ⟨⟨T.type, DT2.inverse o' T.matrix⟩, w, s, by rw [DTrans2.getInverse, a1]; rfl, rfl, a1, ⟨l, by rw [a4, f1]; rfl, ?_⟩, a5, a6, a7, a8, fun q x hx => ?_⟩
  · rw [show (2 : ℝ) ^ (-41 : ℤ) = 16 * 2 ^ (-45 : ℤ) by norm_num]
    linarith
  · obtain ⟨⟨b, b1, b2, b3⟩, ⟨b', b1', -, b3'⟩, b'', b1'', -, b3''⟩ :=
      Product2.acts q (M := DT2.inverse o' T.matrix) (by rw [a4, f1]; rfl) (by rw [a4, f1]; rfl) f2 cw ns hp (by linarith) (by linarith) f3 f4 hx
    have x0 := norm_nonneg (asComplex x)
    clear hp
    have k : 22 * err ms.length + 16 * DQuat.u ≤ 22 * (ms.length * 2 ^ (-45 : ℤ)) := by linarith
    have k1 := mul_le_mul_of_nonneg_right k (show 0 ≤ ‖asComplex x‖ + PlaneMotion.path ms + least by linarith)
    have k2 := mul_le_mul_of_nonneg_right k (show 0 ≤ ‖asComplex x‖ + least by linarith)
    have P : ∀ z : ℂ, ‖PlaneMotion.points ms z - asComplex x‖ = ‖z - (starRingEnd ℂ w * asComplex x + -(starRingEnd ℂ w * s))‖ := fun z => by
      have e : PlaneMotion.points ms z - asComplex x = w * (z - (starRingEnd ℂ w * asComplex x + -(starRingEnd ℂ w * s))) := by
        rw [a6]
        linear_combination (asComplex x - s) * ww
      rw [e, norm_mul, a5, one_mul]
    have Q : ∀ z : ℂ, ‖PlaneMotion.directions ms z - asComplex x‖ = ‖z - starRingEnd ℂ w * asComplex x‖ := fun z => by
      have e : PlaneMotion.directions ms z - asComplex x = w * (z - starRingEnd ℂ w * asComplex x) := by
        rw [a7]
        linear_combination (asComplex x) * ww
      rw [e, norm_mul, a5, one_mul]
    exact ⟨⟨b, b1, b2, by rw [P]; exact b3.trans k1⟩, ⟨b', b1', by rw [P]; exact b3'.trans k1⟩, b'', b1'', by rw [Q]; exact b3''.trans k2⟩

theorem sized {b : V2} {B : ℝ} (hb : Representable b.x ∧ Representable b.y) (h : ‖asComplex b‖ ≤ 3 * (B + least)) (hB : B ≤ 2 ^ 480) : Sized2 490 b := by
  have l := least_small
  have e : (2 : ℝ) ^ 490 = 1024 * 2 ^ 480 := by rw [show (490 : ℕ) = 10 + 480 by norm_num, pow_add]; norm_num
  have p : (1 : ℝ) ≤ 2 ^ 480 := one_le_pow₀ one_le_two
  have k : ‖asComplex b‖ ≤ 2 ^ 490 := by
    rw [e]
    clear e
    generalize (2 : ℝ) ^ 480 = C at *
    linarith
  exact ⟨⟨hb.1, (Complex.abs_re_le_norm (asComplex b)).trans k⟩, ⟨hb.2, (Complex.abs_im_le_norm (asComplex b)).trans k⟩⟩

end Inverse2

end Verif.Props
