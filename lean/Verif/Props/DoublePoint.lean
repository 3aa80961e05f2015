import Verif.Lemmas.DoubleVec

/-!
# Distances of points in double precision

Property C114. Code: `src/OpenSpaceToolkit/Mathematics/Geometry/3D/Object/Point.cpp`.
-/

namespace Verif.Props

open Verif Verif.Spec Verif.Double

/-- three finite doubles, at most `2 ^ 499` in size -/
structure Within (a : V3) : Prop where
  x : Representable a.x ∧ |a.x| ≤ 2 ^ 499
  y : Representable a.y ∧ |a.y| ≤ 2 ^ 499
  z : Representable a.z ∧ |a.z| ≤ 2 ^ 499

/-- the point or vector with these coordinates -/
def doubles (a : V3) : DVec := ⟨.fin a.x, .fin a.y, .fin a.z⟩

/-- the distance of Euclid -/
noncomputable def euclid (a b : V3) : ℝ := Real.sqrt ((a.x - b.x) ^ 2 + (a.y - b.y) ^ 2 + (a.z - b.z) ^ 2)

/-- the computed distance -/
noncomputable def dist3 (o : Bool) (a b : V3) : ℝ :=
  rnd (Real.sqrt (DVec.dot3 o (rnd (a.x - b.x)) (rnd (a.y - b.y)) (rnd (a.z - b.z)) (rnd (a.x - b.x)) (rnd (a.y - b.y)) (rnd (a.z - b.z))))

theorem doubles_defined (a : V3) : (doubles a).isDefined = true := by simp [doubles, DVec.isDefined]

theorem doubles_sub {a b : V3} (ha : Within a) (hb : Within b) :
    (doubles a).sub (doubles b) = ⟨.fin (rnd (a.x - b.x)), .fin (rnd (a.y - b.y)), .fin (rnd (a.z - b.z))⟩ ∧
      |rnd (a.x - b.x)| ≤ 2 ^ 500 ∧ |rnd (a.y - b.y)| ≤ 2 ^ 500 ∧ |rnd (a.z - b.z)| ≤ 2 ^ 500 := by
  obtain ⟨e1, b1⟩ := DVec.sub_fin2 (n := 499) (by norm_num) ha.x.2 hb.x.2
  obtain ⟨e2, b2⟩ := DVec.sub_fin2 (n := 499) (by norm_num) ha.y.2 hb.y.2
  obtain ⟨e3, b3⟩ := DVec.sub_fin2 (n := 499) (by norm_num) ha.z.2 hb.z.2
  exact ⟨by simp only [doubles, DVec.sub, e1, e2, e3], b1, b2, b3⟩

theorem square_nonneg (o : Bool) (a b c : ℝ) : 0 ≤ DVec.dot3 o a b c a b c :=
  DVec.sum3_nonneg o (DQuat.sq_nonneg' a) (DQuat.sq_nonneg' b) (DQuat.sq_nonneg' c)

theorem norm_fin3 (o : Bool) {a b c : ℝ} (ha : |a| ≤ 2 ^ 500) (hb : |b| ≤ 2 ^ 500) (hc : |c| ≤ 2 ^ 500) :
    DVec.norm o ⟨.fin a, .fin b, .fin c⟩ = .fin (rnd (Real.sqrt (DVec.dot3 o a b c a b c))) := by
  rw [DVec.norm, DVec.squaredNorm, (DVec.dot_fin o ha hb hc ha hb hc).1, F64.sqrt, if_neg (not_lt.2 (square_nonneg o a b c))]

theorem distance_fin (o : Bool) {a b : V3} (ha : Within a) (hb : Within b) : DPoint.distanceTo o (doubles a) (doubles b) = .ok (.fin (dist3 o a b)) := by
  obtain ⟨e, b1, b2, b3⟩ := doubles_sub ha hb
  rw [DPoint.distanceTo, doubles_defined, doubles_defined, e, norm_fin3 o b1 b2 b3]
  rfl

theorem dist3_comm (o : Bool) (a b : V3) : dist3 o a b = dist3 o b a := by
  have h : ∀ x y : ℝ, rnd (x - y) = -rnd (y - x) := fun x y => by rw [← rnd_neg, neg_sub]
  simp only [dist3, DVec.dot3]
  rw [h a.x, h a.y, h a.z]
  simp only [neg_mul_neg]

theorem dist3_self (o : Bool) (a : V3) : dist3 o a a = 0 := by
  simp [dist3, DVec.dot3, rnd_zero, DVec.sum3]

/-- the squares of the computed differences -/
theorem diff_sq {x y : ℝ} (hx : Representable x) (hy : Representable y) : |rnd (x - y) * rnd (x - y) - (x - y) ^ 2| ≤ 201 / 100 * DQuat.u * (x - y) ^ 2 := by
  have u0 := DQuat.u_pos
  have u1 := DQuat.u_small
  obtain ⟨d, kd, e⟩ := DLinear.rnd_sum hx (representable_neg hy)
  have kd' : |d| ≤ DQuat.u := kd
  rw [← sub_eq_add_neg] at e
  rw [e, show (x - y) * (1 + d) * ((x - y) * (1 + d)) - (x - y) ^ 2 = (2 * d + d * d) * (x - y) ^ 2 by ring, abs_mul, abs_of_nonneg (sq_nonneg (x - y))]
  refine mul_le_mul_of_nonneg_right ?_ (sq_nonneg _)
  have h1 := abs_add_le (2 * d) (d * d)
  rw [abs_mul, abs_mul, abs_two] at h1
  have h2 : |d| * |d| ≤ 1 / 1000 * DQuat.u := by nlinarith [abs_nonneg d]
  linarith

theorem dist3_near (o : Bool) {a b : V3} (ha : Within a) (hb : Within b) : |dist3 o a b - euclid a b| ≤ 36 / 10 * DQuat.u * euclid a b + 2 ^ (-535 : ℤ) := by
  have u0 := DQuat.u_pos
  have u1 := DQuat.u_small
  have t0 := DQuat.t_pos
  have h1 := DVec.dot3_near o (rnd (a.x - b.x)) (rnd (a.y - b.y)) (rnd (a.z - b.z)) (rnd (a.x - b.x)) (rnd (a.y - b.y)) (rnd (a.z - b.z))
  have hx := diff_sq ha.x.1 hb.x.1
  have hy := diff_sq ha.y.1 hb.y.1
  have hz := diff_sq ha.z.1 hb.z.1
  have n0 := square_nonneg o (rnd (a.x - b.x)) (rnd (a.y - b.y)) (rnd (a.z - b.z))
  have x0 := sq_nonneg (a.x - b.x)
  have y0 := sq_nonneg (a.y - b.y)
  have z0 := sq_nonneg (a.z - b.z)
  have x1 := mul_self_nonneg (rnd (a.x - b.x))
  have y1 := mul_self_nonneg (rnd (a.y - b.y))
  have z1 := mul_self_nonneg (rnd (a.z - b.z))
  rw [abs_of_nonneg x1, abs_of_nonneg y1, abs_of_nonneg z1] at h1
  have hS : |DVec.dot3 o (rnd (a.x - b.x)) (rnd (a.y - b.y)) (rnd (a.z - b.z)) (rnd (a.x - b.x)) (rnd (a.y - b.y)) (rnd (a.z - b.z)) -
      ((a.x - b.x) ^ 2 + (a.y - b.y) ^ 2 + (a.z - b.z) ^ 2)| ≤
      (2 * (254 / 100 * DQuat.u) - 254 / 100 * DQuat.u * (254 / 100 * DQuat.u)) * ((a.x - b.x) ^ 2 + (a.y - b.y) ^ 2 + (a.z - b.z) ^ 2) + 32 / 10 * DQuat.t := by
    generalize DVec.dot3 o (rnd (a.x - b.x)) (rnd (a.y - b.y)) (rnd (a.z - b.z)) (rnd (a.x - b.x)) (rnd (a.y - b.y)) (rnd (a.z - b.z)) = N at *
    generalize rnd (a.x - b.x) * rnd (a.x - b.x) = X at *
    generalize rnd (a.y - b.y) * rnd (a.y - b.y) = Y at *
    generalize rnd (a.z - b.z) * rnd (a.z - b.z) = Z at *
    generalize (a.x - b.x) ^ 2 = p at *
    generalize (a.y - b.y) ^ 2 = q at *
    generalize (a.z - b.z) ^ 2 = r at *
    have hu : ∀ w : ℝ, 0 ≤ w → DQuat.u * (DQuat.u * w) ≤ 1 / 10000 * (DQuat.u * w) := fun w hw => mul_le_mul_of_nonneg_right (by linarith) (by positivity)
    have s1 := hu (p + q + r) (by positivity)
    obtain ⟨hx1, hx2⟩ := abs_le.1 hx
    obtain ⟨hy1, hy2⟩ := abs_le.1 hy
    obtain ⟨hz1, hz2⟩ := abs_le.1 hz
    obtain ⟨h2, h3⟩ := abs_le.1 h1
    have w0 : 0 ≤ DQuat.u * (p + q + r) := by positivity
    have s2 : DQuat.u * (X + Y + Z) ≤ DQuat.u * (p + q + r) + 201 / 100 * (DQuat.u * (DQuat.u * (p + q + r))) := by
      have : X + Y + Z ≤ (p + q + r) + 201 / 100 * DQuat.u * (p + q + r) := by nlinarith
      have := mul_le_mul_of_nonneg_left this u0.le
      nlinarith
    refine abs_le.2 ⟨?_, ?_⟩ <;> nlinarith
  have := DVec.root_near n0 (by positivity) (by positivity) (by linarith) hS
  refine this.trans ?_
  have e0 : 0 ≤ DQuat.u * euclid a b := mul_nonneg u0.le (Real.sqrt_nonneg _)
  unfold euclid at e0 ⊢
  generalize (2 : ℝ) ^ (-535 : ℤ) = r
  nlinarith

/-- **C114.** The distance of two points is a finite number that is not negative, the same in both directions, zero between equal points, and within 3.6 units of
rounding of the exact distance, up to `2 ^ -535`. -/
theorem C114_distance (o : Bool) {a b : V3} (ha : Within a) (hb : Within b) :
    ∃ d, DPoint.distanceTo o (doubles a) (doubles b) = .ok (.fin d) ∧ DPoint.distanceTo o (doubles b) (doubles a) = .ok (.fin d) ∧ 0 ≤ d ∧ (a = b → d = 0) ∧
      Representable d ∧ |d - euclid a b| ≤ 36 / 10 / 2 ^ 53 * euclid a b + 2 ^ (-535 : ℤ) := by
  refine ⟨dist3 o a b, distance_fin o ha hb, by rw [dist3_comm]; exact distance_fin o hb ha, le_rnd representable_zero (Real.sqrt_nonneg _), ?_,
    rnd_representable _, ?_⟩
  · rintro rfl; exact dist3_self o a
  · have := dist3_near o ha hb
    rwa [DQuat.u, mul_one_div] at this

/-- points that meet the hypotheses -/
example : Within ⟨0, 0, 0⟩ ∧ Within ⟨3, 4, 12⟩ ∧ euclid ⟨3, 4, 12⟩ ⟨0, 0, 0⟩ = 13 := by
  have h : ∀ n : ℤ, |n| ≤ 2 ^ 53 → Representable (n : ℝ) ∧ |(n : ℝ)| ≤ 2 ^ 499 := fun n hn => ⟨representable_int hn, by
    have h1 : (|(n : ℝ)|) ≤ 2 ^ 53 := by exact_mod_cast hn
    exact h1.trans (pow_le_pow_right₀ one_le_two (by norm_num))⟩
  have h0 := h 0 (by norm_num)
  have h3 := h 3 (by norm_num)
  have h4 := h 4 (by norm_num)
  have h12 := h 12 (by norm_num)
  push_cast at h0 h3 h4 h12
  refine ⟨⟨h0, h0, h0⟩, ⟨h3, h4, h12⟩, ?_⟩
  rw [euclid, show ((3 : ℝ) - 0) ^ 2 + (4 - 0) ^ 2 + (12 - 0) ^ 2 = 13 ^ 2 by norm_num]
  exact Real.sqrt_sq (by norm_num)

/-- **C114.** `isNear` says whether the distance is at most the tolerance, up to four units of rounding. -/
theorem C114_isNear (o : Bool) {a b : V3} (ha : Within a) (hb : Within b) (tol : ℝ) :
    ∃ r, DPoint.isNear o (doubles a) (doubles b) (.fin tol) = .ok r ∧ (r = true → euclid a b ≤ (1 + 4 / 2 ^ 53) * tol + 2 ^ (-534 : ℤ)) ∧
      ((1 + 4 / 2 ^ 53) * euclid a b + 2 ^ (-534 : ℤ) ≤ tol → r = true) := by
  refine ⟨decide (dist3 o a b ≤ tol), ?_, ?_, ?_⟩
  · rw [DPoint.isNear, if_neg (by simp), distance_fin o ha hb]
    rfl
  all_goals
    have h := abs_le.1 (dist3_near o ha hb)
    have e0 : 0 ≤ euclid a b := Real.sqrt_nonneg _
    have e1 : (2 : ℝ) ^ (-534 : ℤ) = 2 * 2 ^ (-535 : ℤ) := by rw [show (-534 : ℤ) = 1 + -535 by norm_num, zpow_add₀ two_ne_zero, zpow_one]
    have r0 : (0 : ℝ) < 2 ^ (-535 : ℤ) := two_zpow_pos _
    have hu : DQuat.u = 1 / 2 ^ 53 := rfl
    rw [e1]
    generalize (2 : ℝ) ^ (-535 : ℤ) = w at *
    rw [hu] at h
    generalize euclid a b = E at *
    rw [decide_eq_true_eq]
    intro hd
    norm_num at h hd ⊢
    linarith [h.1, h.2]

/-- **C114.** The triangle inequality holds up to eight units of rounding. -/
theorem C114_triangle (o : Bool) {a b c : V3} (ha : Within a) (hb : Within b) (hc : Within c) :
    ∃ ab bc ac, DPoint.distanceTo o (doubles a) (doubles b) = .ok (.fin ab) ∧ DPoint.distanceTo o (doubles b) (doubles c) = .ok (.fin bc) ∧
      DPoint.distanceTo o (doubles a) (doubles c) = .ok (.fin ac) ∧ ac ≤ (1 + 8 / 2 ^ 53) * (ab + bc) + 2 ^ (-533 : ℤ) := by
  refine ⟨_, _, _, distance_fin o ha hb, distance_fin o hb hc, distance_fin o ha hc, ?_⟩
  have t : euclid a c ≤ euclid a b + euclid b c := by
    have h1 := Real.sq_sqrt (show 0 ≤ (a.x - b.x) ^ 2 + (a.y - b.y) ^ 2 + (a.z - b.z) ^ 2 by positivity)
    have h2 := Real.sq_sqrt (show 0 ≤ (b.x - c.x) ^ 2 + (b.y - c.y) ^ 2 + (b.z - c.z) ^ 2 by positivity)
    have n1 := Real.sqrt_nonneg ((a.x - b.x) ^ 2 + (a.y - b.y) ^ 2 + (a.z - b.z) ^ 2)
    have n2 := Real.sqrt_nonneg ((b.x - c.x) ^ 2 + (b.y - c.y) ^ 2 + (b.z - c.z) ^ 2)
    refine Real.sqrt_le_iff.2 ⟨add_nonneg n1 n2, ?_⟩
    change _ ^ 2 = _ at h1
    unfold euclid
    generalize Real.sqrt ((a.x - b.x) ^ 2 + (a.y - b.y) ^ 2 + (a.z - b.z) ^ 2) = A at *
    generalize Real.sqrt ((b.x - c.x) ^ 2 + (b.y - c.y) ^ 2 + (b.z - c.z) ^ 2) = B at *
    have cs : (a.x - b.x) * (b.x - c.x) + (a.y - b.y) * (b.y - c.y) + (a.z - b.z) * (b.z - c.z) ≤ A * B := by
      refine abs_le_of_sq_le_sq' ?_ (mul_nonneg n1 n2) |>.2
      rw [mul_pow, h1, h2]
      nlinarith [sq_nonneg ((a.x - b.x) * (b.y - c.y) - (a.y - b.y) * (b.x - c.x)), sq_nonneg ((a.x - b.x) * (b.z - c.z) - (a.z - b.z) * (b.x - c.x)),
        sq_nonneg ((a.y - b.y) * (b.z - c.z) - (a.z - b.z) * (b.y - c.y))]
    nlinarith
  have hab := abs_le.1 (dist3_near o ha hb)
  have hbc := abs_le.1 (dist3_near o hb hc)
  have hac := abs_le.1 (dist3_near o ha hc)
  have e1 : (2 : ℝ) ^ (-533 : ℤ) = 4 * 2 ^ (-535 : ℤ) := by
    rw [show (-533 : ℤ) = 2 + -535 by norm_num, zpow_add₀ two_ne_zero]; norm_num
  have r0 : (0 : ℝ) < 2 ^ (-535 : ℤ) := two_zpow_pos _
  have hu : DQuat.u = 1 / 2 ^ 53 := rfl
  have n1 : 0 ≤ euclid a b := Real.sqrt_nonneg _
  have n2 : 0 ≤ euclid b c := Real.sqrt_nonneg _
  rw [e1]
  generalize (2 : ℝ) ^ (-535 : ℤ) = w at *
  rw [hu] at hab hbc hac
  generalize euclid a b = A at *
  generalize euclid b c = B at *
  generalize euclid a c = C at *
  norm_num at hab hbc hac ⊢
  linarith [hab.1, hbc.1, hac.2]

/-- **C114.** In the plane the distance is that of space. -/
theorem C114_plane (o : Bool) {a b : V3} (ha : Within a) (hb : Within b) (h : a.z = b.z) :
    DPoint.distanceTo2 ⟨.fin a.x, .fin a.y⟩ ⟨.fin b.x, .fin b.y⟩ = DPoint.distanceTo o (doubles a) (doubles b) := by
  obtain ⟨e, b1, b2, b3⟩ := doubles_sub ha hb
  obtain ⟨e1, k1⟩ := DVec.sub_fin2 (n := 499) (by norm_num) ha.x.2 hb.x.2
  obtain ⟨e2, k2⟩ := DVec.sub_fin2 (n := 499) (by norm_num) ha.y.2 hb.y.2
  obtain ⟨e3, k3⟩ := DVec.mul_fin2 b1 b1
  obtain ⟨e4, k4⟩ := DVec.mul_fin2 b2 b2
  obtain ⟨e5, k5⟩ := DVec.add_fin2 (n := 1000) (by norm_num) k3 k4
  rw [distance_fin o ha hb, DPoint.distanceTo2, if_neg (by simp), if_neg (by simp)]
  simp only [e1, e2, e3, e4, e5, F64.sqrt]
  have n0 : 0 ≤ rnd (rnd (rnd (a.x - b.x) * rnd (a.x - b.x)) + rnd (rnd (a.y - b.y) * rnd (a.y - b.y))) :=
    le_rnd representable_zero (add_nonneg (DQuat.sq_nonneg' _) (DQuat.sq_nonneg' _))
  rw [if_neg (not_lt.2 n0), dist3, DVec.dot3, h, sub_self, rnd_zero, mul_zero, rnd_zero]
  cases o <;> simp only [DVec.sum3, add_zero, rnd_rnd, Bool.false_eq_true, if_false, if_true]

/-- Disagreement: the squares underflow. Every two points less than `2 ^ -540` apart in each coordinate are at distance zero, different or not. -/
theorem C114_underflow_violated (o : Bool) {a b : V3} (ha : Within a) (hb : Within b) (hx : |a.x - b.x| ≤ 2 ^ (-540 : ℤ)) (hy : |a.y - b.y| ≤ 2 ^ (-540 : ℤ))
    (hz : |a.z - b.z| ≤ 2 ^ (-540 : ℤ)) : DPoint.distanceTo o (doubles a) (doubles b) = .ok (.fin 0) := by
  have hr : Representable ((2 : ℝ) ^ (-540 : ℤ)) := F64.representable_pow (by norm_num)
  have key : ∀ w : ℝ, |w| ≤ 2 ^ (-540 : ℤ) → rnd (rnd w * rnd w) = 0 := by
    intro w hw
    have h1 := DLinear.rnd_abs_le hr hw
    have h2 : rnd w * rnd w ≤ 2 ^ (-1080 : ℤ) := by
      rw [← abs_mul_abs_self, show (-1080 : ℤ) = -540 + -540 by norm_num, zpow_add₀ two_ne_zero]
      exact mul_le_mul h1 h1 (abs_nonneg _) (two_zpow_pos _).le
    have h3 := (rnd_nearest (rnd w * rnd w)).2 0 representable_zero
    have h0 := mul_self_nonneg (rnd w)
    have hn := DQuat.sq_nonneg' (rnd w)
    rw [zero_sub, abs_neg, abs_of_nonneg h0] at h3
    have h4 : rnd (rnd w * rnd w) ≤ 2 ^ (-1079 : ℤ) := by
      rw [show (-1079 : ℤ) = 1 + -1080 by norm_num, zpow_add₀ two_ne_zero, zpow_one]
      have := (abs_le.1 h3).2
      generalize (2 : ℝ) ^ (-1080 : ℤ) = r at *
      linarith
    obtain ⟨m, e, hm, he, hme⟩ := rnd_representable (rnd w * rnd w)
    by_contra hne
    have hm1 : 1 ≤ m := by
      by_contra hc
      have hm0 : (m : ℝ) ≤ 0 := by exact_mod_cast (by omega : m ≤ 0)
      rw [hme] at hn hne
      exact hne (le_antisymm (mul_nonpos_of_nonpos_of_nonneg hm0 (two_zpow_pos _).le) hn)
    have h5 : (2 : ℝ) ^ (-1074 : ℤ) ≤ rnd (rnd w * rnd w) := by
      rw [hme]
      have a1 : (2 : ℝ) ^ (-1074 : ℤ) ≤ 2 ^ e := zpow_le_zpow_right₀ one_le_two he
      have a2 : (1 : ℝ) ≤ m := by exact_mod_cast hm1
      exact a1.trans (le_mul_of_one_le_left (two_zpow_pos _).le a2)
    exact absurd (h5.trans h4) (not_le.2 (zpow_lt_zpow_right₀ one_lt_two (by norm_num)))
  rw [distance_fin o ha hb, dist3, DVec.dot3, key _ hx, key _ hy, key _ hz]
  simp [DVec.sum3, rnd_zero]

/-- different points at distance zero -/
example (o : Bool) : ∃ a b : V3, a ≠ b ∧ DPoint.distanceTo o (doubles a) (doubles b) = .ok (.fin 0) := by
  have h0 : Representable (0 : ℝ) ∧ |(0 : ℝ)| ≤ 2 ^ 499 := ⟨representable_zero, by simp⟩
  have hp := two_zpow_pos (α := ℝ) (-540)
  have h1 : Representable ((2 : ℝ) ^ (-540 : ℤ)) ∧ |(2 : ℝ) ^ (-540 : ℤ)| ≤ 2 ^ 499 := ⟨F64.representable_pow (by norm_num), by
    rw [abs_of_pos hp, ← zpow_natCast]; exact zpow_le_zpow_right₀ one_le_two (by norm_num)⟩
  refine ⟨⟨2 ^ (-540 : ℤ), 0, 0⟩, ⟨0, 0, 0⟩, fun h => hp.ne' (congrArg V3.x h), C114_underflow_violated o ⟨h1, h0, h0⟩ ⟨h0, h0, h0⟩ ?_ ?_ ?_⟩
  · simp only [sub_zero]; rw [abs_of_pos hp]
  · simp [hp.le]
  · simp [hp.le]

/-- Disagreement: the squares overflow. The points `(2 ^ 600, 0, 0)` and the origin are at infinite distance, and not near for any finite tolerance. -/
theorem C114_overflow_violated (o : Bool) : DPoint.distanceTo o (doubles ⟨2 ^ 600, 0, 0⟩) (doubles ⟨0, 0, 0⟩) = .ok (.inf false) ∧
    ∀ tol : ℝ, DPoint.isNear o (doubles ⟨2 ^ 600, 0, 0⟩) (doubles ⟨0, 0, 0⟩) (.fin tol) = .ok false := by
  have e1 : (F64.fin ((2 : ℝ) ^ 600)).sub (.fin 0) = .fin (2 ^ 600) := by
    rw [DAngle.sub_fin, sub_zero, F64.ofExact_fin] <;> rw [rnd_exact (DQuat.rep_two 600)]
    rw [abs_of_pos (by positivity)]
    exact DQuat.two_lt (by norm_num)
  have e2 : (F64.fin (0 : ℝ)).sub (.fin 0) = .fin 0 := DAngle.sub_self_fin 0
  have e3 : (F64.fin ((2 : ℝ) ^ 600)).mul (.fin (2 ^ 600)) = .inf false := by
    have : (2 : ℝ) ^ 600 * 2 ^ 600 = 2 ^ 1200 := by rw [← pow_add]
    simp only [F64.mul, F64.ofExact, this]
    rw [rnd_exact (DQuat.rep_two 1200), abs_of_pos (by positivity), if_pos (pow_le_pow_right₀ one_le_two (by norm_num))]
    congr 1
    simp [not_lt.2 (show (0 : ℝ) ≤ 2 ^ 1200 by positivity)]
  have e4 : (F64.fin (0 : ℝ)).mul (.fin 0) = .fin 0 := by
    have := (DVec.mul_fin2 (x := 0) (y := 0) (by simp) (by simp)).1
    rwa [mul_zero, rnd_zero] at this
  have e5 : (F64.fin (0 : ℝ)).add (.fin 0) = .fin 0 := by
    have := (DVec.add_fin2 (a := 0) (b := 0) (n := 0) (by norm_num) (by simp) (by simp)).1
    rwa [add_zero, rnd_zero] at this
  have h : DPoint.distanceTo o (doubles ⟨2 ^ 600, 0, 0⟩) (doubles ⟨0, 0, 0⟩) = .ok (.inf false) := by
    rw [DPoint.distanceTo, doubles_defined, doubles_defined]
    simp only [doubles, DVec.sub, e1, e2, DVec.norm, DVec.squaredNorm, DVec.dot, e3, e4, DVec.sum]
    cases o <;> simp only [Bool.false_eq_true, if_false, if_true, e5, Bool.not_true] <;> rfl
  refine ⟨h, fun tol => ?_⟩
  rw [DPoint.isNear, if_neg (by simp), h]
  rfl

end Verif.Props
