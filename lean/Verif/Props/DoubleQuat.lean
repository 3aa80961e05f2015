import Verif.Lemmas.DoubleQuat

/-!
# Properties of quaternions in double precision

Property C113. Code: `src/OpenSpaceToolkit/Mathematics/Geometry/3D/Transformation/Rotation/Quaternion.cpp`.
-/

namespace Verif.Props

open Verif Verif.Spec Verif.Double

/-- four finite doubles, at most `2 ^ 500` in size -/
def Sized (x y z s : ℝ) : Prop := (Representable x ∧ |x| ≤ 2 ^ 500) ∧ (Representable y ∧ |y| ≤ 2 ^ 500) ∧ (Representable z ∧ |z| ≤ 2 ^ 500) ∧ (Representable s ∧ |s| ≤ 2 ^ 500)

/-- **C113.** The norm is within 3.2 units of rounding of the exact norm. -/
theorem C113_norm (x y z s : ℝ) (h : Sized x y z s) (hn : 2 ^ (-400 : ℤ) ≤ x * x + y * y + z * z + s * s) :
    ∃ n, DQuat.norm ⟨.fin x, .fin y, .fin z, .fin s⟩ = .ok (.fin n) ∧ Representable n ∧
      |n - Real.sqrt (x * x + y * y + z * z + s * s)| ≤ 32 / 10 / 2 ^ 53 * Real.sqrt (x * x + y * y + z * z + s * s) := by
  obtain ⟨⟨-, hx⟩, ⟨-, hy⟩, ⟨-, hz⟩, ⟨-, hs⟩⟩ := h
  refine ⟨_, DQuat.norm_fin hx hy hz hs, rnd_representable _, ?_⟩
  have := DQuat.nrm_near hn
  rwa [DQuat.u, mul_one_div] at this

theorem nrm_pos {x y z s : ℝ} (hn : 2 ^ (-400 : ℤ) ≤ x * x + y * y + z * z + s * s) : 0 < DQuat.nrm x y z s := by
  have h := (abs_le.1 (DQuat.nrm_near hn)).1
  have hp : 0 < Real.sqrt (x * x + y * y + z * z + s * s) := Real.sqrt_pos.2 (lt_of_lt_of_le (two_zpow_pos _) hn)
  have := DQuat.u_small
  have k : 32 / 10 * DQuat.u * Real.sqrt (x * x + y * y + z * z + s * s) ≤ 1 / 2 * Real.sqrt (x * x + y * y + z * z + s * s) :=
    mul_le_mul_of_nonneg_right (by linarith) hp.le
  linarith

/-- a quaternion that is not refused by `normalize` is not too small -/
theorem big_of_ok {e x y z s : ℝ} (he : 2 ^ (-100 : ℤ) ≤ e) (h : ¬ |DQuat.nrm x y z s| < e) : 2 ^ (-400 : ℤ) ≤ x * x + y * y + z * z + s * s := by
  by_contra hc
  rw [not_le] at hc
  apply h
  refine lt_of_lt_of_le ?_ he
  set S := x * x + y * y + z * z + s * s with hS
  have hS0 : 0 ≤ S := by
    have := mul_self_nonneg x; have := mul_self_nonneg y; have := mul_self_nonneg z; have := mul_self_nonneg s; linarith
  have h1 := (abs_le.1 (DQuat.sumSq_near x y z s)).2
  rw [← hS] at h1
  have h2 : DQuat.sumSq x y z s ≤ 2 ^ (-398 : ℤ) := by
    have ht : DQuat.t ≤ 2 ^ (-410 : ℤ) := DQuat.t_small (by norm_num)
    have e1 : (2 : ℝ) ^ (-398 : ℤ) = 4 * 2 ^ (-400 : ℤ) := by
      rw [show (-398 : ℤ) = 2 + -400 by norm_num, zpow_add₀ two_ne_zero]; norm_num
    have e2 : (2 : ℝ) ^ (-410 : ℤ) = 1 / 1024 * 2 ^ (-400 : ℤ) := by
      rw [show (-410 : ℤ) = -10 + -400 by norm_num, zpow_add₀ two_ne_zero]; norm_num
    rw [e2] at ht
    rw [e1]
    clear e1 e2 he h
    generalize (2 : ℝ) ^ (-400 : ℤ) = r at *
    have := DQuat.u_small
    have k : 41 / 10 * DQuat.u * S ≤ 1 * S := mul_le_mul_of_nonneg_right (by linarith) hS0
    linarith
  have h3 : Real.sqrt (DQuat.sumSq x y z s) ≤ 2 ^ (-199 : ℤ) := Real.sqrt_le_iff.2 ⟨(two_zpow_pos _).le, by
    rw [← zpow_natCast, ← zpow_mul]; exact_mod_cast h2⟩
  have h4 : DQuat.nrm x y z s ≤ 2 ^ (-199 : ℤ) := rnd_le (F64.representable_pow (by norm_num)) h3
  have h5 : 0 ≤ DQuat.nrm x y z s := le_rnd representable_zero (Real.sqrt_nonneg _)
  rw [abs_of_nonneg h5]
  exact lt_of_le_of_lt h4 (zpow_lt_zpow_right₀ one_lt_two (by norm_num))

/-- a component does not exceed the norm -/
theorem component_le {a n : ℝ} (ha : Representable a) (hn : 2 ^ (-100 : ℤ) ≤ n) {S : ℝ} (hS : rnd (a * a) ≤ S) (hnS : n = rnd (Real.sqrt S)) : |a| ≤ n := by
  by_cases h : 2 ^ (-500 : ℤ) ≤ |a|
  · rw [← DQuat.sqrt_sq ha h, hnS]
    exact rnd_mono (Real.sqrt_le_sqrt hS)
  · exact (not_le.1 h).le.trans ((zpow_le_zpow_right₀ one_le_two (by norm_num)).trans hn)

theorem div_fin {a n : ℝ} (hn : 0 < n) (h : |a| ≤ n) : (F64.fin a).div (.fin n) = .fin (rnd (a / n)) ∧ |rnd (a / n)| ≤ 1 := by
  have h1 : |a / n| ≤ 1 := by rw [abs_div, abs_of_pos hn]; exact (div_le_one hn).2 h
  have h2 : |rnd (a / n)| ≤ 1 := DLinear.rnd_abs_le (by simpa using representable_int (α := ℝ) (m := 1) (by norm_num)) h1
  refine ⟨?_, h2⟩
  simp only [F64.div, if_neg hn.ne']
  exact F64.ofExact_fin (lt_of_le_of_lt h2 (one_lt_pow₀ one_lt_two (by norm_num)))

/-- a normalised component and the exact one -/
theorem component_near {a n N : ℝ} (hN : 0 < N) (hn : |n - N| ≤ 32 / 10 * DQuat.u * N) : |rnd (a / n) - a / N| ≤ 44 / 10 * DQuat.u * |a / N| + DQuat.t := by
  have u0 := DQuat.u_pos
  have u1 := DQuat.u_small
  obtain ⟨d, h, kd, kh, e⟩ := DLinear.rnd_split (a / n)
  have hN' := hN.ne'
  set v := (n - N) / N with hv
  have hv1 : |v| ≤ 32 / 10 * DQuat.u := by rw [hv, abs_div, abs_of_pos hN]; exact (div_le_iff₀ hN).2 hn
  have en : n = N * (1 + v) := by rw [hv]; field_simp; ring
  have hp : 1 + v ≠ 0 := by have := (abs_le.1 hv1).1; intro h0; linarith
  have k1 : |(1 + d) - 1| ≤ DQuat.u := by rw [add_sub_cancel_left]; exact kd.trans_eq (by rw [DQuat.u])
  have k2 := DLinear.near_inv hv1 (by linarith)
  have k3 := DLinear.near_mul k2 k1
  have e2 : a / n = a / N * (1 / (1 + v)) := by rw [en]; field_simp
  rw [e, e2, show a / N * (1 / (1 + v)) * (1 + d) + h - a / N = a / N * (1 / (1 + v) * (1 + d) - 1) + h by ring]
  refine (abs_add_le _ _).trans (add_le_add ?_ kh)
  rw [abs_mul, mul_comm]
  refine mul_le_mul_of_nonneg_right (k3.trans ?_) (abs_nonneg _)
  nlinarith

theorem square_near {c x : ℝ} (hc : |c| ≤ 1) (h : |x - c| ≤ 44 / 10 * DQuat.u * |c| + DQuat.t) : |x * x - c * c| ≤ 89 / 10 * DQuat.u * (c * c) + 3 * DQuat.t := by
  have u0 := DQuat.u_pos
  have u1 := DQuat.u_small
  have t0 := DQuat.t_pos
  have t1 : DQuat.t ≤ 1 / 1000 := (DQuat.t_small (k := -20) (by norm_num)).trans (by norm_num)
  have hcc : |c| * |c| = c * c := abs_mul_abs_self c
  have c0 := abs_nonneg c
  rw [show x * x - c * c = (x - c) * (2 * c) + (x - c) * (x - c) by ring]
  refine (abs_add_le _ _).trans ?_
  have a1 : |(x - c) * (2 * c)| ≤ (44 / 10 * DQuat.u * |c| + DQuat.t) * (2 * |c|) := by
    rw [abs_mul, abs_mul 2 c, abs_two]
    exact mul_le_mul_of_nonneg_right h (by positivity)
  have a2 : |(x - c) * (x - c)| ≤ (44 / 10 * DQuat.u * |c| + DQuat.t) * (44 / 10 * DQuat.u * |c| + DQuat.t) := by
    rw [abs_mul]; exact mul_le_mul h h (abs_nonneg _) (by positivity)
  have b1 : DQuat.t * |c| ≤ DQuat.t := mul_le_of_le_one_right t0.le hc
  have b2 : DQuat.t * DQuat.t ≤ 1 / 1000 * DQuat.t := mul_le_mul_of_nonneg_right t1 t0.le
  have b3 : DQuat.u * (DQuat.t * |c|) ≤ 1 / 1000 * DQuat.t := by nlinarith
  have b4 : DQuat.u * DQuat.u * (c * c) ≤ 1 / 1000 * (DQuat.u * (c * c)) := by
    rw [mul_assoc]
    exact mul_le_mul_of_nonneg_right (by linarith) (mul_nonneg u0.le (mul_self_nonneg c))
  rw [← hcc] at b4 ⊢
  nlinarith

theorem sub_one_fin {a : ℝ} (h : |a - 1| ≤ 2 ^ (-50 : ℤ)) : (F64.fin a).sub (.fin 1) = .fin (rnd (a - 1)) ∧ |rnd (a - 1)| ≤ 2 ^ (-50 : ℤ) := by
  have hr : |rnd (a - 1)| ≤ 2 ^ (-50 : ℤ) := DLinear.rnd_abs_le (F64.representable_pow (by norm_num)) h
  refine ⟨?_, hr⟩
  show F64.ofExact (a + -1) = _
  rw [← sub_eq_add_neg]
  refine F64.ofExact_fin (lt_of_le_of_lt hr ?_)
  have h1 : (2 : ℝ) ^ (-50 : ℤ) ≤ 1 := zpow_le_one_of_nonpos₀ one_le_two (by norm_num)
  exact lt_of_le_of_lt h1 (one_lt_pow₀ one_lt_two (by norm_num))

theorem nrm_one {x y z s : ℝ} (h : |x * x + y * y + z * z + s * s - 1| ≤ 9 * DQuat.u) : |DQuat.nrm x y z s - 1| ≤ 2 ^ (-50 : ℤ) := by
  have u0 := DQuat.u_pos
  have u1 := DQuat.u_small
  have hn' := @DQuat.nrm_near x y z s
  generalize DQuat.nrm x y z s = n at *
  generalize x * x + y * y + z * z + s * s = S at *
  have hbig : (2 : ℝ) ^ (-400 : ℤ) ≤ S := by
    refine (zpow_le_zpow_right₀ one_le_two (by norm_num : (-400 : ℤ) ≤ -1)).trans ?_
    have := (abs_le.1 h).1
    rw [zpow_neg_one]; linarith
  have hn := hn' hbig
  have hsq : |Real.sqrt S - 1| ≤ 451 / 100 * DQuat.u := by
    have := DQuat.sqrt_near (a := S) (b := 1) (c := 451 / 100 * DQuat.u) zero_le_one (by positivity) (by linarith) (by
      refine h.trans ?_
      nlinarith)
    simpa using this
  have e : (2 : ℝ) ^ (-50 : ℤ) = 8 * DQuat.u := by unfold DQuat.u; rw [zpow_neg]; norm_num
  rw [e, show n - 1 = (n - Real.sqrt S) + (Real.sqrt S - 1) by ring]
  clear e hbig hn'
  refine (abs_add_le _ _).trans ?_
  have g1 : Real.sqrt S ≤ 1001 / 1000 := by linarith [(abs_le.1 hsq).2]
  have g2 : 32 / 10 * DQuat.u * Real.sqrt S ≤ 32 / 10 * DQuat.u * (1001 / 1000) := mul_le_mul_of_nonneg_left g1 (by positivity)
  linarith

/-- **C113.** A quaternion of finite components up to `2 ^ 500` that `normalize` accepts becomes one whose components are at most one in size, so that their arc cosines
exist, and which `isUnitary` accepts with any tolerance of at least eight units of rounding, such as 1e-15. -/
theorem C113_normalize (e : ℝ) (he : 2 ^ (-100 : ℤ) ≤ e) (x y z s : ℝ) (h : Sized x y z s) (q : DQuat)
    (hq : DQuat.normalize (.fin e) ⟨.fin x, .fin y, .fin z, .fin s⟩ = .ok q) :
    ∃ x' y' z' s', q = ⟨.fin x', .fin y', .fin z', .fin s'⟩ ∧ |x'| ≤ 1 ∧ |y'| ≤ 1 ∧ |z'| ≤ 1 ∧ |s'| ≤ 1 ∧
      |x' - x / Real.sqrt (x * x + y * y + z * z + s * s)| ≤ 5 / 2 ^ 53 ∧ |y' - y / Real.sqrt (x * x + y * y + z * z + s * s)| ≤ 5 / 2 ^ 53 ∧
      |z' - z / Real.sqrt (x * x + y * y + z * z + s * s)| ≤ 5 / 2 ^ 53 ∧ |s' - s / Real.sqrt (x * x + y * y + z * z + s * s)| ≤ 5 / 2 ^ 53 ∧
      ∀ tol : ℝ, 8 / 2 ^ 53 ≤ tol → DQuat.isUnitary (.fin tol) q = .ok true := by
  obtain ⟨⟨rx, hx⟩, ⟨ry, hy⟩, ⟨rz, hz⟩, ⟨rs, hs⟩⟩ := h
  rw [DQuat.normalize, DQuat.norm_fin hx hy hz hs] at hq
  simp only [bind, Except.bind, F64.abs, F64.lt, pure, Except.pure] at hq
  by_cases hlt : |DQuat.nrm x y z s| < e
  · simp [hlt] at hq
  simp only [hlt, decide_false, Bool.false_eq_true, if_false, Except.ok.injEq] at hq
  have hn := big_of_ok he hlt
  set S := x * x + y * y + z * z + s * s with hS
  set n := DQuat.nrm x y z s with hnn
  have n0 : 0 < n := nrm_pos hn
  rw [abs_of_pos n0, not_lt] at hlt
  have hn1 : 2 ^ (-100 : ℤ) ≤ n := he.trans hlt
  obtain ⟨lx, ly, lz, ls⟩ := DQuat.sumSq_le (x := x) (y := y) (z := z) (s := s)
  obtain ⟨ex, bx⟩ := div_fin n0 (component_le rx hn1 lx rfl)
  obtain ⟨ey, by'⟩ := div_fin n0 (component_le ry hn1 ly rfl)
  obtain ⟨ez, bz⟩ := div_fin n0 (component_le rz hn1 lz rfl)
  obtain ⟨es, bs⟩ := div_fin n0 (component_le rs hn1 ls rfl)
  rw [ex, ey, ez, es] at hq
  have u0 := DQuat.u_pos
  have u1 := DQuat.u_small
  have t0 := DQuat.t_pos
  have hS0 : 0 < S := lt_of_lt_of_le (two_zpow_pos _) hn
  set N := Real.sqrt S with hN
  have N0 : 0 < N := Real.sqrt_pos.2 hS0
  have NN : N * N = S := Real.mul_self_sqrt hS0.le
  have near := DQuat.nrm_near hn
  have cx := component_near (a := x) N0 near
  have cy := component_near (a := y) N0 near
  have cz := component_near (a := z) N0 near
  have cs := component_near (a := s) N0 near
  have sum1 : x / N * (x / N) + y / N * (y / N) + z / N * (z / N) + s / N * (s / N) = 1 := by
    have : x / N * (x / N) + y / N * (y / N) + z / N * (z / N) + s / N * (s / N) = S / (N * N) := by rw [hS]; field_simp
    rw [this, NN, div_self hS0.ne']
  have qx := mul_self_nonneg (x / N)
  have qy := mul_self_nonneg (y / N)
  have qz := mul_self_nonneg (z / N)
  have qs := mul_self_nonneg (s / N)
  have ax : |x / N| ≤ 1 := abs_le_one_iff_mul_self_le_one.2 (by linarith)
  have ay : |y / N| ≤ 1 := abs_le_one_iff_mul_self_le_one.2 (by linarith)
  have az : |z / N| ≤ 1 := abs_le_one_iff_mul_self_le_one.2 (by linarith)
  have as' : |s / N| ≤ 1 := abs_le_one_iff_mul_self_le_one.2 (by linarith)
  have tu : DQuat.t ≤ 1 / 1000 * DQuat.u := (DQuat.t_small (k := -63) (by norm_num)).trans (by unfold DQuat.u; rw [zpow_neg]; norm_num)
  have five : ∀ {c w : ℝ}, |c| ≤ 1 → |w - c| ≤ 44 / 10 * DQuat.u * |c| + DQuat.t → |w - c| ≤ 5 / 2 ^ 53 := by
    intro c w hc h
    refine h.trans ?_
    have : 44 / 10 * DQuat.u * |c| ≤ 44 / 10 * DQuat.u * 1 := mul_le_mul_of_nonneg_left hc (by positivity)
    rw [show (5 : ℝ) / 2 ^ 53 = 5 * DQuat.u by unfold DQuat.u; ring]
    linarith
  refine ⟨_, _, _, _, hq.symm, bx, by', bz, bs, five ax cx, five ay cy, five az cz, five as' cs, ?_⟩
  intro tol htol
  have d1 := square_near ax cx
  have d2 := square_near ay cy
  have d3 := square_near az cz
  have d4 := square_near as' cs
  set x' := rnd (x / n) with hx'
  set y' := rnd (y / n) with hy'
  set z' := rnd (z / n) with hz'
  set s' := rnd (s / n) with hs'
  set S' := x' * x' + y' * y' + z' * z' + s' * s' with hS'
  have hS1 : |S' - 1| ≤ 9 * DQuat.u := by
    have e1 : S' - 1 = (x' * x' - x / N * (x / N)) + (y' * y' - y / N * (y / N)) + (z' * z' - z / N * (z / N)) + (s' * s' - s / N * (s / N)) := by
      rw [← sum1]; ring
    rw [e1]
    have f1 := abs_add_le ((x' * x' - x / N * (x / N)) + (y' * y' - y / N * (y / N)) + (z' * z' - z / N * (z / N))) (s' * s' - s / N * (s / N))
    have f2 := abs_add_le ((x' * x' - x / N * (x / N)) + (y' * y' - y / N * (y / N))) (z' * z' - z / N * (z / N))
    have f3 := abs_add_le (x' * x' - x / N * (x / N)) (y' * y' - y / N * (y / N))
    have f4 : 89 / 10 * DQuat.u * (x / N * (x / N)) + 89 / 10 * DQuat.u * (y / N * (y / N)) + 89 / 10 * DQuat.u * (z / N * (z / N)) + 89 / 10 * DQuat.u * (s / N * (s / N)) =
      89 / 10 * DQuat.u := by rw [← mul_add, ← mul_add, ← mul_add, sum1, mul_one]
    linarith
  have hone : |DQuat.nrm x' y' z' s' - 1| ≤ 2 ^ (-50 : ℤ) := nrm_one hS1
  have p50 : (2 : ℝ) ^ (-50 : ℤ) ≤ tol := by
    refine le_trans ?_ htol
    rw [zpow_neg]; norm_num
  have tol0 : 0 < tol := lt_of_lt_of_le (two_zpow_pos _) p50
  have small : ∀ {a : ℝ}, |a| ≤ 1 → |a| ≤ 2 ^ 500 := fun h => h.trans (one_le_pow₀ one_le_two)
  obtain ⟨hsub, hr⟩ := sub_one_fin hone
  have hd : DQuat.isDefined ⟨.fin x', .fin y', .fin z', .fin s'⟩ = true := by simp [DQuat.isDefined]
  rw [← hq]
  simp only [DQuat.isUnitary, hd, Bool.not_true, Bool.false_eq_true, if_false, DQuat.norm_fin (small bx) (small by') (small bz) (small bs), bind, Except.bind, pure, Except.pure,
    hsub, F64.abs, F64.le, reduceCtorEq, false_or, decide_eq_true_eq, not_le.2 tol0, hr.trans p50, decide_true]

/-- the hypotheses of `C113_norm` and `C113_normalize` are met by (1, 2, 3, 4) -/
example : Sized 1 2 3 4 ∧ (2 : ℝ) ^ (-400 : ℤ) ≤ 1 * 1 + 2 * 2 + 3 * 3 + 4 * 4 ∧ (2 : ℝ) ^ (-100 : ℤ) ≤ 1 / 10 ^ 15 ∧ (8 : ℝ) / 2 ^ 53 ≤ 1 / 10 ^ 15 ∧
    ∃ q, DQuat.normalize (.fin (1 / 10 ^ 15)) ⟨.fin 1, .fin 2, .fin 3, .fin 4⟩ = .ok q := by
  have r : ∀ k : ℤ, |k| ≤ 2 ^ 53 → Representable (k : ℝ) := fun k h => representable_int h
  have p : ∀ a : ℝ, |a| ≤ 2 ^ 2 → |a| ≤ 2 ^ 500 := fun a h => h.trans (pow_le_pow_right₀ one_le_two (by norm_num))
  have h1 : |(1 : ℝ)| ≤ 2 ^ 500 := p 1 (by norm_num [abs_of_pos])
  have h2 : |(2 : ℝ)| ≤ 2 ^ 500 := p 2 (by norm_num [abs_of_pos])
  have h3 : |(3 : ℝ)| ≤ 2 ^ 500 := p 3 (by norm_num [abs_of_pos])
  have h4 : |(4 : ℝ)| ≤ 2 ^ 500 := p 4 (by norm_num [abs_of_pos])
  have big : (2 : ℝ) ^ (-400 : ℤ) ≤ 1 * 1 + 2 * 2 + 3 * 3 + 4 * 4 :=
    (zpow_le_zpow_right₀ one_le_two (by norm_num : (-400 : ℤ) ≤ 0)).trans (by norm_num)
  refine ⟨⟨⟨by simpa using r 1 (by norm_num), h1⟩, ⟨by simpa using r 2 (by norm_num), h2⟩, ⟨by simpa using r 3 (by norm_num), h3⟩, ⟨by simpa using r 4 (by norm_num), h4⟩⟩,
    big, ?_, by norm_num, ?_⟩
  · rw [zpow_neg]; norm_num
  · have hn : ¬ |DQuat.nrm 1 2 3 4| < 1 / 10 ^ 15 := by
      rw [abs_of_pos (nrm_pos big), not_lt]
      have := (abs_le.1 (DQuat.nrm_near big)).1
      have u1 := DQuat.u_small
      have hs : 1 ≤ Real.sqrt (1 * 1 + 2 * 2 + 3 * 3 + 4 * 4) := Real.one_le_sqrt.2 (by norm_num)
      have k : 32 / 10 * DQuat.u * Real.sqrt (1 * 1 + 2 * 2 + 3 * 3 + 4 * 4) ≤ 1 / 2 * Real.sqrt (1 * 1 + 2 * 2 + 3 * 3 + 4 * 4) :=
        mul_le_mul_of_nonneg_right (by linarith) (by linarith)
      have l : (1 : ℝ) / 10 ^ 15 ≤ 1 / 2 := by norm_num
      generalize Real.sqrt (1 * 1 + 2 * 2 + 3 * 3 + 4 * 4) = r at *
      generalize 32 / 10 * DQuat.u * r = v at *
      clear big h1 h2 h3 h4 p
      linarith
    rw [DQuat.normalize, DQuat.norm_fin h1 h2 h3 h4]
    simp only [bind, Except.bind, F64.abs, F64.lt, pure, Except.pure, hn, decide_false, Bool.false_eq_true, if_false]
    exact ⟨_, rfl⟩

theorem scalar_norm {a : ℝ} (h : Representable a) (h1 : 2 ^ (-500 : ℤ) ≤ |a|) (h2 : |a| ≤ 2 ^ 500) :
    DQuat.norm ⟨.fin 0, .fin 0, .fin 0, .fin a⟩ = .ok (.fin |a|) := by
  have z : |(0 : ℝ)| ≤ 2 ^ 500 := by rw [abs_zero]; exact (pow_pos two_pos _).le
  rw [DQuat.norm_fin z z z h2, ← DQuat.sqrt_sq h h1]
  simp [DQuat.nrm, DQuat.sumSq, rnd_zero, rnd_rnd]

/-- **C113, where it fails.** The product of two quaternions that `isUnitary` accepts with the tolerance 1e-15 need not be accepted: the scalar quaternion
1 + 2⁻⁵⁰ is, its square is not. -/
theorem C113_product_violated (o : Bool) : ∃ q : DQuat, DQuat.isUnitary (.fin (1 / 10 ^ 15)) q = .ok true ∧ DQuat.isUnitary (.fin (1 / 10 ^ 15)) (DQuat.crossMultiply o q q) = .ok false := by
  set a : ℝ := 1 + 1 / 2 ^ 50 with ha
  have ra : Representable a := ⟨2 ^ 50 + 1, -50, by norm_num, by norm_num, by rw [ha, zpow_neg]; norm_num⟩
  have p : ∀ b : ℝ, |b| ≤ 2 ^ 2 → |b| ≤ 2 ^ 500 := fun a h => h.trans (pow_le_pow_right₀ one_le_two (by norm_num))
  have q : ∀ b : ℝ, 1 ≤ b → 2 ^ (-500 : ℤ) ≤ |b| := fun b h => (zpow_le_one_of_nonpos₀ one_le_two (by norm_num)).trans (h.trans (le_abs_self b))
  set b : ℝ := 1 + 1 / 2 ^ 49 with hb
  have rb : Representable b := ⟨2 ^ 49 + 1, -49, by norm_num, by norm_num, by rw [hb, zpow_neg]; norm_num⟩
  have tiny : ∀ x : ℝ, |x| ≤ 4 → |x| < 2 ^ 1024 := fun x h => lt_of_le_of_lt (h.trans (by norm_num : (4 : ℝ) ≤ 2 ^ 3)) (pow_lt_pow_right₀ one_lt_two (by norm_num))
  have sq : rnd (a * a) = b := by
    have := rnd_eq (x := a * a) (2 ^ 52 + 8) (-52) (by norm_num) (by rw [ha]; norm_num [abs_of_pos]) (by rw [ha]; norm_num [abs_of_pos]) (Or.inl (by
      rw [ha, zpow_neg, abs_lt]; norm_num))
    rw [this, hb, zpow_neg]; norm_num
  have mz : ∀ x y : ℝ, x * y = 0 → (F64.fin x).mul (.fin y) = .fin 0 := by
    intro x y h
    simp only [F64.mul, h]
    rw [F64.ofExact_fin (by rw [rnd_zero, abs_zero]; exact pow_pos two_pos _), rnd_zero]
  have az : (F64.fin (0 : ℝ)).add (.fin 0) = .fin 0 := by
    simp only [F64.add, add_zero]
    rw [F64.ofExact_fin (by rw [rnd_zero, abs_zero]; exact pow_pos two_pos _), rnd_zero]
  have sz : ∀ x : ℝ, Representable x → |x| ≤ 4 → (F64.fin x).sub (.fin 0) = .fin x := by
    intro x h h4
    show F64.ofExact (x + -0) = _
    rw [neg_zero, add_zero, F64.ofExact_fin (by rw [rnd_exact h]; exact tiny x h4), rnd_exact h]
  have maa : (F64.fin a).mul (.fin a) = .fin b := by
    simp only [F64.mul]
    rw [F64.ofExact_fin (by rw [sq]; exact tiny b (by rw [hb]; norm_num [abs_of_pos])), sq]
  have prod : DQuat.crossMultiply o ⟨.fin 0, .fin 0, .fin 0, .fin a⟩ ⟨.fin 0, .fin 0, .fin 0, .fin a⟩ = ⟨.fin 0, .fin 0, .fin 0, .fin b⟩ := by
    simp only [DQuat.crossMultiply, ite_self, mz a 0 (mul_zero a), mz 0 0 (mul_zero 0), az, sz 0 representable_zero (by norm_num), maa,
      sz b rb (by rw [hb]; norm_num [abs_of_pos])]
  have hd : ∀ c : ℝ, DQuat.isDefined ⟨.fin 0, .fin 0, .fin 0, .fin c⟩ = true := by intro c; simp [DQuat.isDefined]
  have sub1 : ∀ c d : ℝ, c - 1 = d → Representable d → |d| ≤ 4 → (F64.fin c).sub (.fin 1) = .fin d := by
    intro c d h hd h4
    show F64.ofExact (c + -1) = _
    rw [← sub_eq_add_neg, h, F64.ofExact_fin (by rw [rnd_exact hd]; exact tiny d h4), rnd_exact hd]
  have a1 : (1 : ℝ) ≤ a := by rw [ha]; norm_num
  have b1 : (1 : ℝ) ≤ b := by rw [hb]; norm_num
  have na := scalar_norm ra (q a a1) (p a (by rw [ha]; norm_num [abs_of_pos]))
  have nb := scalar_norm rb (q b b1) (p b (by rw [hb]; norm_num [abs_of_pos]))
  rw [abs_of_pos (by linarith)] at na nb
  have sa := sub1 a (1 / 2 ^ 50) (by rw [ha]; ring) ⟨1, -50, by norm_num, by norm_num, by rw [zpow_neg]; norm_num⟩ (by norm_num [abs_of_pos])
  have sb := sub1 b (1 / 2 ^ 49) (by rw [hb]; ring) ⟨1, -49, by norm_num, by norm_num, by rw [zpow_neg]; norm_num⟩ (by norm_num [abs_of_pos])
  refine ⟨⟨.fin 0, .fin 0, .fin 0, .fin a⟩, ?_, ?_⟩
  · simp only [DQuat.isUnitary, hd, na, bind, Except.bind, pure, Except.pure, sa, F64.abs, F64.le]
    norm_num [abs_of_pos]
    exact nofun
  · rw [prod]
    simp only [DQuat.isUnitary, hd, nb, bind, Except.bind, pure, Except.pure, sb, F64.abs, F64.le]
    norm_num [abs_of_pos]
    exact nofun

/-- **C113, where it fails.** When the squares overflow, the norm is infinite and `normalize` gives the zero quaternion without an error. -/
theorem C113_overflow_violated (e : ℝ) :
    DQuat.normalize (.fin e) ⟨.fin (2 ^ 520), .fin 0, .fin 0, .fin (2 ^ 520)⟩ = .ok ⟨.fin 0, .fin 0, .fin 0, .fin 0⟩ := by
  have mz : (F64.fin (0 : ℝ)).mul (.fin 0) = .fin 0 := by
    simp only [F64.mul, mul_zero]
    rw [F64.ofExact_fin (by rw [rnd_zero, abs_zero]; exact pow_pos two_pos _), rnd_zero]
  have m : (F64.fin ((2 : ℝ) ^ 520)).mul (.fin (2 ^ 520)) = .inf false := by
    have hr : rnd ((2 : ℝ) ^ 520 * 2 ^ 520) = 2 ^ 1040 := by
      rw [← pow_add]
      exact rnd_exact (by have := F64.representable_pow (α := ℝ) (e := (1040 : ℕ)) (by norm_num); rwa [zpow_natCast] at this)
    simp only [F64.mul, F64.ofExact, hr]
    have h1 : ¬ |(2 : ℝ) ^ 1040| < 2 ^ 1024 := by
      rw [abs_of_pos (pow_pos two_pos _), not_lt]; exact pow_le_pow_right₀ one_le_two (by norm_num)
    have h2 : ¬ (2 : ℝ) ^ 520 * 2 ^ 520 < 0 := not_lt.2 (mul_nonneg (pow_pos two_pos _).le (pow_pos two_pos _).le)
    rw [if_pos (not_lt.1 h1), decide_eq_false h2]
  simp [DQuat.normalize, DQuat.norm, DQuat.isDefined, DQuat.normSq, m, mz, F64.add, F64.sqrt, F64.abs, F64.lt, F64.div, bind, Except.bind, pure, Except.pure]

end Verif.Props
