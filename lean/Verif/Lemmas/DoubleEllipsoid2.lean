import Verif.Lemmas.DoubleEllipsoid
import Verif.Props.DoubleTransform

/-!
# Points of an ellipsoid in double precision: the computed value and its distance from the exact one
-/

namespace Verif.Props

open Verif Verif.Spec Verif.Double

theorem term_fin {x a : ℝ} (hx : |x| ≤ 2 ^ 300) (h1 : 2 ^ (-200 : ℤ) ≤ a) (h2 : a ≤ 2 ^ 200) :
    (((F64.fin x).mul (.fin x)).div ((F64.fin a).mul (.fin a)) = .fin (termR x a)) ∧ |termR x a| ≤ 2 ^ 1000 := by
  have up : ∀ {m n : ℕ}, m ≤ n → (2 : ℝ) ^ m ≤ 2 ^ n := fun h => pow_le_pow_right₀ one_le_two h
  have p : (0 : ℝ) < 2 ^ (-200 : ℤ) := by positivity
  have a0 := p.trans_le h1
  obtain ⟨e1, -⟩ := DVec.mul_fin2 (hx.trans (up (by norm_num))) (hx.trans (up (by norm_num)))
  obtain ⟨e2, -⟩ := DVec.mul_fin2 (x := a) (y := a) (by rw [abs_of_pos a0]; exact h2.trans (up (by norm_num))) (by rw [abs_of_pos a0]; exact h2.trans (up (by norm_num)))
  have low : (2 : ℝ) ^ (-400 : ℤ) ≤ rnd (a * a) := by
    refine le_rnd (F64.representable_pow (by norm_num)) ?_
    rw [show (-400 : ℤ) = -200 + -200 by norm_num, zpow_add₀ two_ne_zero]
    exact mul_le_mul h1 h1 p.le a0.le
  have q0 : (0 : ℝ) < 2 ^ (-400 : ℤ) := by positivity
  have m0 := q0.trans_le low
  have b1 : |rnd (x * x)| ≤ 2 ^ 600 := by
    refine DLinear.rnd_abs_le (DQuat.rep_two 600) ?_
    rw [abs_mul, show (600 : ℕ) = 300 + 300 by norm_num, pow_add]
    exact mul_le_mul hx hx (abs_nonneg _) (by positivity)
  have b2 : |rnd (x * x) / rnd (a * a)| ≤ 2 ^ 1000 := by
    rw [abs_div, abs_of_pos m0, div_le_iff₀ m0]
    refine b1.trans ?_
    refine le_trans ?_ (mul_le_mul_of_nonneg_left low (by positivity))
    rw [← zpow_natCast, ← zpow_natCast, ← zpow_add₀ two_ne_zero]
    exact zpow_le_zpow_right₀ one_le_two (by norm_num)
  have b3 : |termR x a| ≤ 2 ^ 1000 := DLinear.rnd_abs_le (DQuat.rep_two 1000) b2
  refine ⟨?_, b3⟩
  rw [e1, e2]
  simp only [F64.div, if_neg m0.ne']
  exact F64.ofExact_fin (lt_of_le_of_lt b3 (DQuat.two_lt (by norm_num)))

theorem level_fin {x y z a b c eps : ℝ} (hx : |x| ≤ 2 ^ 300) (hy : |y| ≤ 2 ^ 300) (hz : |z| ≤ 2 ^ 300) (a1 : 2 ^ (-200 : ℤ) ≤ a) (a2 : a ≤ 2 ^ 200)
    (b1 : 2 ^ (-200 : ℤ) ≤ b) (b2 : b ≤ 2 ^ 200) (c1 : 2 ^ (-200 : ℤ) ≤ c) (c2 : c ≤ 2 ^ 200) :
    ((((((F64.fin x).mul (.fin x)).div ((F64.fin a).mul (.fin a))).add (((F64.fin y).mul (.fin y)).div ((F64.fin b).mul (.fin b)))).add
      (((F64.fin z).mul (.fin z)).div ((F64.fin c).mul (.fin c)))).sub (.fin 1)).abs.lt (.fin eps) = decide (|rnd (levelR x y z a b c - 1)| < eps) := by
  obtain ⟨e1, k1⟩ := term_fin hx a1 a2
  obtain ⟨e2, k2⟩ := term_fin hy b1 b2
  obtain ⟨e3, k3⟩ := term_fin hz c1 c2
  obtain ⟨e4, k4⟩ := DVec.add_fin2 (n := 1000) (by norm_num) k1 k2
  obtain ⟨e5, k5⟩ := DVec.add_fin2 (n := 1001) (by norm_num) k4 (k3.trans (pow_le_pow_right₀ one_le_two (by norm_num)))
  obtain ⟨e6, -⟩ := DVec.sub_fin2 (n := 1002) (b := 1) (by norm_num) k5 (by rw [abs_one]; exact one_le_pow₀ one_le_two)
  rw [e1, e2, e3, e4, e5, e6]
  rfl

theorem coord_bound (o : Bool) {u d : V3} (hu : u.norm ≤ 2) (hd : Bounded 201 d) : |dotR o u d| ≤ 2 ^ 300 := by
  have h := dotR_near o u d
  have k := abs_dot_le_norms u d
  have d1 : d.norm ≤ 1733 / 1000 * 2 ^ 201 := norm_le_each hd.1 hd.2.1 hd.2.2
  have u0 := DQuat.u_pos
  have us := DQuat.u_small
  have t1 : DQuat.t ≤ 1 := (DQuat.t_small (k := 0) (by norm_num)).trans (by norm_num)
  have n0 := V3.norm_nonneg d
  have m0 := V3.norm_nonneg u
  have p : u.norm * d.norm ≤ 2 * (1733 / 1000 * 2 ^ 201) := mul_le_mul hu d1 n0 (by norm_num)
  have q : DQuat.u * (u.norm * d.norm) ≤ 1 / 10 ^ 15 * (u.norm * d.norm) := mul_le_mul_of_nonneg_right us (mul_nonneg m0 n0)
  have s := abs_sub_abs_le_abs_sub (dotR o u d) (u.dot d)
  have g : (2 : ℝ) ^ 300 = 2 ^ 99 * 2 ^ 201 := by rw [← pow_add]
  have one : (1 : ℝ) ≤ 2 ^ 201 := one_le_pow₀ one_le_two
  rw [g]
  generalize u.norm * d.norm = N at *
  generalize (2 : ℝ) ^ 201 = P at *
  clear g hu hd d1
  have big : (4 : ℝ) * P * 2 ≤ 2 ^ 99 * P := by nlinarith
  linarith

/-- what `contains` computes, when the three axes are computed -/
theorem ellipsoid_value (o : Bool) {eps a b k : ℝ} {p c u v w : V3} {q : Quat} (hu : DQuat.rotateVector o (.fin eps) (.of q) (doubles ⟨1, 0, 0⟩) = .ok (doubles u))
    (hv : DQuat.rotateVector o (.fin eps) (.of q) (doubles ⟨0, 1, 0⟩) = .ok (doubles v)) (hw : DQuat.rotateVector o (.fin eps) (.of q) (doubles ⟨0, 0, 1⟩) = .ok (doubles w))
    (nu : u.norm ≤ 2) (nv : v.norm ≤ 2) (nw : w.norm ≤ 2) (hp : Bounded 200 p) (hc : Bounded 200 c) (a1 : 2 ^ (-200 : ℤ) ≤ a) (a2 : a ≤ 2 ^ 200)
    (b1 : 2 ^ (-200 : ℤ) ≤ b) (b2 : b ≤ 2 ^ 200) (k1 : 2 ^ (-200 : ℤ) ≤ k) (k2 : k ≤ 2 ^ 200) :
    DEllipsoid.contains o (.fin eps) ⟨doubles c, .fin a, .fin b, .fin k, .of q⟩ (doubles p) =
      .ok (decide (|rnd (levelR (dotR o u (diff3 p c)) (dotR o v (diff3 p c)) (dotR o w (diff3 p c)) a b k - 1)| < eps)) := by
  obtain ⟨ed, hd⟩ := sub_doubles (n := 200) (by norm_num) hp hc
  have hd' : Bounded 500 (diff3 p c) := hd.mono (by norm_num)
  have wide : ∀ {n : V3}, n.norm ≤ 2 → Bounded 500 n := fun h => (norm_le_two_bounded h).mono (by norm_num)
  have du : DEllipsoid.isDefined ⟨doubles c, .fin a, .fin b, .fin k, .of q⟩ = true := by
    simp [DEllipsoid.isDefined, doubles_defined, DQuat.of_defined]
  rw [DEllipsoid.contains, doubles_defined, du, if_neg (by simp), if_neg (by simp)]
  change (DQuat.rotateVector o (.fin eps) (.of q) (doubles ⟨1, 0, 0⟩) >>= _) = _
  rw [hu]
  change (DQuat.rotateVector o (.fin eps) (.of q) (doubles ⟨0, 1, 0⟩) >>= _) = _
  rw [hv]
  change (DQuat.rotateVector o (.fin eps) (.of q) (doubles ⟨0, 0, 1⟩) >>= _) = _
  rw [hw]
  change Except.ok (F64.lt (F64.abs (F64.sub (F64.add (F64.add (F64.div (F64.mul (DVec.dot o (doubles u) ((doubles p).sub (doubles c))) (DVec.dot o (doubles u) ((doubles p).sub (doubles c)))) _)
    (F64.div (F64.mul (DVec.dot o (doubles v) ((doubles p).sub (doubles c))) (DVec.dot o (doubles v) ((doubles p).sub (doubles c)))) _))
    (F64.div (F64.mul (DVec.dot o (doubles w) ((doubles p).sub (doubles c))) (DVec.dot o (doubles w) ((doubles p).sub (doubles c)))) _)) _)) _) = _
  rw [ed, dot_doubles o (wide nu) hd', dot_doubles o (wide nv) hd', dot_doubles o (wide nw) hd']
  exact congrArg _ (level_fin (coord_bound o nu hd) (coord_bound o nv hd) (coord_bound o nw hd) a1 a2 b1 b2 k1 k2)

/-- a computed coordinate -/
theorem coord_near (o : Bool) {p c u U : V3} {g : ℝ} (hp : Within p) (hc : Within c) (hU : U.norm = 1) (hg : (u - U).norm ≤ g) (hg' : g ≤ 2 / 5) :
    |dotR o u (diff3 p c) - (p - c).dot U| ≤ (g + 6 * DQuat.u) * (p - c).norm + 31 / 10 * DQuat.t := by
  have h := form_near o u hc hp
  have k := abs_dot_le_norms (u - U) (p - c)
  have n : u.norm ≤ 7 / 5 := by have := V3.norm_le_add u U; linarith
  have D0 := V3.norm_nonneg (p - c)
  have u0 := DQuat.u_pos
  have m := mul_le_mul_of_nonneg_right n D0
  have m2 := mul_le_mul_of_nonneg_left m u0.le
  have m3 := mul_le_mul_of_nonneg_right hg D0
  have m4 := mul_nonneg u0.le D0
  have e : dotR o u (diff3 p c) - (p - c).dot U = dotR o u (diff3 p c) - u.dot (p - c) + (u - U).dot (p - c) := by
    simp only [V3.dot, V3.sub_x, V3.sub_y, V3.sub_z]; ring
  rw [e]
  refine (abs_add_le _ _).trans ?_
  linarith

theorem axis_ratio_near {X x a D r G : ℝ} (a0 : 0 < a) (h : |X - x| ≤ (G - DQuat.u) * D + 31 / 10 * DQuat.t) (hx : |x| ≤ D) (hD : D ≤ r * a) (hr : 1 ≤ r) (hG : DQuat.u ≤ G)
    (ta : 31 / 10 * DQuat.t ≤ DQuat.u * a) : |X / a - x / a| ≤ G * r ∧ |x / a| ≤ r := by
  have u0 := DQuat.u_pos
  constructor
  · rw [← sub_div, abs_div, abs_of_pos a0, div_le_iff₀ a0]
    have h1 := mul_le_mul_of_nonneg_left hD (sub_nonneg.2 hG)
    have h2 : DQuat.u * a ≤ DQuat.u * (r * a) := mul_le_mul_of_nonneg_left (by nlinarith) u0.le
    linarith
  · rw [abs_div, abs_of_pos a0, div_le_iff₀ a0]; linarith

theorem squares_near {X x r G : ℝ} (h : |X - x| ≤ G * r) (hx : |x| ≤ r) (hr : 1 ≤ r) (G0 : 0 ≤ G) :
    |X ^ 2 - x ^ 2| ≤ (2 * G + G ^ 2) * r ^ 2 ∧ X ^ 2 ≤ (1 + G) ^ 2 * r ^ 2 := by
  have hX : |X| ≤ (1 + G) * r := by
    have := abs_sub_abs_le_abs_sub X x
    linarith
  constructor
  · rw [show X ^ 2 - x ^ 2 = (X - x) * (X + x) by ring, abs_mul]
    have h2 : |X + x| ≤ (2 + G) * r := (abs_add_le _ _).trans (by linarith)
    have := mul_le_mul h h2 (abs_nonneg _) (by positivity)
    linarith
  · rw [← sq_abs, ← mul_pow]
    exact pow_le_pow_left₀ (abs_nonneg _) hX 2

/-- **the computed sum** of three terms, from computed coordinates -/
theorem axis_sum_near {X Y Z x y z a b c r G : ℝ} (ha : 2 ^ (-200 : ℤ) ≤ a) (hb : 2 ^ (-200 : ℤ) ≤ b) (hc : 2 ^ (-200 : ℤ) ≤ c) (hr : 1 ≤ r) (G0 : 0 ≤ G) (G1 : G ≤ 3 / 10)
    (h1 : |X / a - x / a| ≤ G * r ∧ |x / a| ≤ r) (h2 : |Y / b - y / b| ≤ G * r ∧ |y / b| ≤ r) (h3 : |Z / c - z / c| ≤ G * r ∧ |z / c| ≤ r) :
    |levelR X Y Z a b c - ((x / a) ^ 2 + (y / b) ^ 2 + (z / c) ^ 2)| ≤ (7 * G + 26 * DQuat.u) * r ^ 2 := by
  have n := level_near X Y Z ha hb hc
  obtain ⟨s1, q1⟩ := squares_near h1.1 h1.2 hr G0
  obtain ⟨s2, q2⟩ := squares_near h2.1 h2.2 hr G0
  obtain ⟨s3, q3⟩ := squares_near h3.1 h3.2 hr G0
  have u0 := DQuat.u_pos
  have r1 : 1 ≤ r ^ 2 := one_le_pow₀ hr
  have k1 : (2 * G + G ^ 2) * r ^ 2 ≤ 23 / 10 * G * r ^ 2 := mul_le_mul_of_nonneg_right (by nlinarith) (by positivity)
  have k2 : (1 + G) ^ 2 * r ^ 2 ≤ 169 / 100 * r ^ 2 := mul_le_mul_of_nonneg_right (by nlinarith) (by positivity)
  generalize (X / a) ^ 2 = A at *
  generalize (Y / b) ^ 2 = B at *
  generalize (Z / c) ^ 2 = C at *
  generalize (x / a) ^ 2 = A' at *
  generalize (y / b) ^ 2 = B' at *
  generalize (z / c) ^ 2 = C' at *
  have w : DQuat.u * (A + B + C) ≤ DQuat.u * (507 / 100 * r ^ 2) := mul_le_mul_of_nonneg_left (by linarith) u0.le
  have w2 : DQuat.u * 1 ≤ DQuat.u * r ^ 2 := mul_le_mul_of_nonneg_left r1 u0.le
  rw [abs_le] at *
  have g0 : 0 ≤ G * r ^ 2 := by positivity
  constructor <;> linarith [n.1, n.2, s1.1, s1.2, s2.1, s2.2, s3.1, s3.2]

end Verif.Props
