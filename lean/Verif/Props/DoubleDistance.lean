import Verif.Props.DoubleSegment
import Verif.Props.Linear3

/-!
# C118: the distance from a point to a segment in double precision
-/

namespace Verif.Props

open Verif Verif.Spec Verif.Double

/-- the number of `[0, 1]` nearest to `x` -/
noncomputable def clamp01 (x : ℝ) : ℝ := max 0 (min 1 x)

theorem clamp01_near (x y : ℝ) : |clamp01 x - clamp01 y| ≤ |x - y| := by
  rw [clamp01, clamp01, max_comm 0, max_comm 0, min_comm 1, min_comm 1]
  refine (abs_max_sub_max_le_abs _ _ _).trans ?_
  have := abs_min_sub_min_le_max x 1 y 1
  simpa using this

theorem clamp01_mem (x : ℝ) : 0 ≤ clamp01 x ∧ clamp01 x ≤ 1 := ⟨le_max_left _ _, max_le zero_le_one (min_le_left _ _)⟩

/-- `std::max (0, std::min (1, x))` -/
theorem clamp_fin (x : ℝ) : DSegment.max (.fin 0) (DSegment.min (.fin 1) (.fin x)) = .fin (clamp01 x) := by
  have l : ∀ x y : ℝ, ((F64.fin x).lt (.fin y) = true) = (x < y) := fun x y => by simp [F64.lt]
  rw [DSegment.min, clamp01]
  rcases lt_or_ge x 1 with h | h
  · rw [if_pos ((l _ _).mpr h), min_eq_right h.le, DSegment.max]
    rcases lt_or_ge 0 x with k | k
    · rw [if_pos ((l _ _).mpr k), max_eq_right k.le]
    · rw [if_neg (by rw [l]; exact not_lt.2 k), max_eq_left k]
  · rw [if_neg (by rw [l]; exact not_lt.2 h), min_eq_left h, DSegment.max, if_pos ((l _ _).mpr zero_lt_one), max_eq_right zero_le_one]

/-- the quantities that underflow leaves are small beside a segment -/
theorem tiny {V : ℝ} (h : 2 ^ (-200 : ℤ) ≤ V) :
    31 / 10 * DQuat.t ≤ 1 / 100 * DQuat.u * (V * V) ∧ 2 * DQuat.t ≤ 1 / 100 * DQuat.u * V ∧ DQuat.t * V ≤ 1 / 100 * DQuat.u * V ∧
      2 ^ (-535 : ℤ) ≤ 1 / 100 * DQuat.u * V := by
  have q : (0 : ℝ) < 2 ^ (-200 : ℤ) := two_zpow_pos _
  have V0 : 0 < V := lt_of_lt_of_le q h
  have u0 := DQuat.u_pos
  have d0 : 0 ≤ 1 / 100 * DQuat.u := by positivity
  have e2 : (2 : ℝ) ^ (-535 : ℤ) ≤ 1 / 100 * DQuat.u * 2 ^ (-200 : ℤ) := by
    rw [show (-535 : ℤ) = -335 + -200 by norm_num, zpow_add₀ two_ne_zero]
    refine mul_le_mul_of_nonneg_right ?_ q.le
    have : (2 : ℝ) ^ (-335 : ℤ) ≤ 2 ^ (-100 : ℤ) := zpow_le_zpow_right₀ one_le_two (by norm_num)
    refine this.trans ?_
    rw [DQuat.u]; norm_num
  have e1 : 31 / 10 * DQuat.t ≤ 1 / 100 * DQuat.u * (2 ^ (-200 : ℤ) * 2 ^ (-200 : ℤ)) := by
    have : DQuat.t ≤ 2 ^ (-200 + (-200 + -200) : ℤ) := DQuat.t_small (by norm_num)
    rw [zpow_add₀ two_ne_zero] at this
    rw [← zpow_add₀ two_ne_zero]
    refine (mul_le_mul_of_nonneg_left this (by norm_num)).trans ?_
    rw [← mul_assoc]
    refine mul_le_mul_of_nonneg_right ?_ (two_zpow_pos _).le
    rw [DQuat.u]; norm_num
  have e3 : 2 * DQuat.t ≤ 2 ^ (-535 : ℤ) := by
    have : DQuat.t ≤ 2 ^ (-1 + -535 : ℤ) := DQuat.t_small (by norm_num)
    rw [zpow_add₀ two_ne_zero] at this
    have k : (2 : ℝ) ^ (-1 : ℤ) = 1 / 2 := by norm_num
    rw [k] at this
    generalize (2 : ℝ) ^ (-535 : ℤ) = r at *
    linarith
  have e4 : 1 / 100 * DQuat.u * 2 ^ (-200 : ℤ) ≤ 1 / 100 * DQuat.u * V := mul_le_mul_of_nonneg_left h d0
  refine ⟨e1.trans (mul_le_mul_of_nonneg_left (mul_le_mul h h q.le V0.le) d0), e3.trans (e2.trans e4), ?_, e2.trans e4⟩
  refine mul_le_mul_of_nonneg_right ?_ V0.le
  have : DQuat.t ≤ 2 ^ (-100 : ℤ) := DQuat.t_small (by norm_num)
  refine this.trans ?_
  rw [DQuat.u]; norm_num

theorem norm_mul_near {x y : V3} {k : ℝ} (h : (x - y).norm ≤ k * y.norm) : x.norm ≤ (1 + k) * y.norm := by
  have := V3.norm_le_add x y
  linarith

/-- a computed inner product of differences -/
theorem dot_diff_near (o : Bool) {a b p : V3} (ha : Small a) (hb : Small b) (hp : Small p) (hab : 2 ^ (-200 : ℤ) ≤ (b - a).norm) :
    |dotR o (diff3 p a) (diff3 b a) - (p - a).dot (b - a)| ≤
      51 / 10 * DQuat.u * ((p - a).norm * (b - a).norm) + 1 / 100 * DQuat.u * ((b - a).norm * (b - a).norm) := by
  have u0 := DQuat.u_pos
  have u1 := DQuat.u_small
  obtain ⟨t1, -⟩ := tiny hab
  have dv := diff3_near hb.within ha.within
  have dw := diff3_near hp.within ha.within
  have k := dotR_near o (diff3 p a) (diff3 b a)
  clear hab
  generalize diff3 p a = w at *
  generalize diff3 b a = v at *
  generalize p - a = W at *
  generalize b - a = V at *
  have V0 := V3.norm_nonneg V
  have W0 := V3.norm_nonneg W
  have nv := norm_mul_near dv
  have nw := norm_mul_near dw
  have z0 : 0 ≤ W.norm * V.norm := mul_nonneg W0 V0
  have e : w.dot v - W.dot V = w.dot (v - V) + (w - W).dot V := by simp only [V3.dot, V3.sub_x, V3.sub_y, V3.sub_z]; ring
  have h1 : |w.dot v - W.dot V| ≤ (2 + DQuat.u) * DQuat.u * (W.norm * V.norm) := by
    rw [e]
    refine (abs_add_le _ _).trans ?_
    have a1 := (V3.abs_dot_le w (v - V)).trans (mul_le_mul nw dv (V3.norm_nonneg _) (by positivity))
    have a2 := (V3.abs_dot_le (w - W) V).trans (mul_le_mul_of_nonneg_right dw V0)
    linarith
  have h2 : w.norm * v.norm ≤ (1 + DQuat.u) * W.norm * ((1 + DQuat.u) * V.norm) := mul_le_mul nw nv (V3.norm_nonneg _) (by positivity)
  have h3 : |dotR o w v - W.dot V| ≤ |dotR o w v - w.dot v| + |w.dot v - W.dot V| := abs_sub_le _ _ _
  have z1 : 0 ≤ DQuat.u * (W.norm * V.norm) := mul_nonneg u0.le z0
  have h4 : 301 / 100 * DQuat.u * (w.norm * v.norm) ≤ 302 / 100 * (DQuat.u * (W.norm * V.norm)) := by
    have := mul_le_mul_of_nonneg_left h2 (show 0 ≤ 301 / 100 * DQuat.u by positivity)
    refine this.trans ?_
    rw [show 301 / 100 * DQuat.u * ((1 + DQuat.u) * W.norm * ((1 + DQuat.u) * V.norm)) =
      301 / 100 * ((1 + DQuat.u) * (1 + DQuat.u)) * (DQuat.u * (W.norm * V.norm)) by ring]
    refine mul_le_mul_of_nonneg_right ?_ z1
    nlinarith
  have h5 : (2 + DQuat.u) * DQuat.u * (W.norm * V.norm) ≤ 201 / 100 * (DQuat.u * (W.norm * V.norm)) := by
    rw [mul_assoc]
    exact mul_le_mul_of_nonneg_right (by linarith) z1
  linarith

/-- the computed parameter of the projection -/
theorem param_near (o : Bool) {a b p : V3} (ha : Small a) (hb : Small b) (hp : Small p) (hab : 2 ^ (-200 : ℤ) ≤ (b - a).norm) :
    0 < dotR o (diff3 b a) (diff3 b a) ∧
    |dotR o (diff3 p a) (diff3 b a) / dotR o (diff3 b a) (diff3 b a)| * (b - a).norm ≤ 2 * (p - a).norm + (b - a).norm ∧
    |rnd (dotR o (diff3 p a) (diff3 b a) / dotR o (diff3 b a) (diff3 b a)) - (p - a).dot (b - a) / (b - a).normSq| * (b - a).norm ≤
      134 / 10 * DQuat.u * (p - a).norm + 1 / 10 * DQuat.u * (b - a).norm := by
  have u0 := DQuat.u_pos
  have u1 := DQuat.u_small
  obtain ⟨-, -, t3, -⟩ := tiny hab
  have V0 : 0 < (b - a).norm := lt_of_lt_of_le (two_zpow_pos _) hab
  have W0 := V3.norm_nonneg (p - a)
  have kn := dot_diff_near o ha hb hp hab
  have kl := dot_diff_near o ha hb hb hab
  have hN := V3.abs_dot_le (p - a) (b - a)
  rw [show (b - a).dot (b - a) = (b - a).normSq from rfl, ← V3.norm_mul_self] at kl
  rw [← V3.norm_mul_self]
  clear hab
  generalize dotR o (diff3 p a) (diff3 b a) = n at *
  generalize dotR o (diff3 b a) (diff3 b a) = l at *
  generalize (p - a).dot (b - a) = N at *
  generalize (p - a).norm = W at *
  generalize (b - a).norm = V at *
  have L0 : 0 < V * V := mul_pos V0 V0
  have z : 0 ≤ DQuat.u * (V * V) := by positivity
  have z' : 0 ≤ DQuat.u * (W * V) := by positivity
  have kl' : |l - V * V| ≤ 61 / 10 * DQuat.u * (V * V) := by linarith
  have kn' : |n - N| ≤ 61 / 10 * DQuat.u * (W * V) + 1 / 100 * DQuat.u * (V * V) := by linarith
  have q := DSegment.quotient_near V0 W0 u0.le u1 (by positivity) hN kn' kl'
  have k : 61 / 10 * DQuat.u * (V * V) ≤ 1 / 1000 * (V * V) := mul_le_mul_of_nonneg_right (by linarith) L0.le
  obtain ⟨l1, l2⟩ := abs_le.1 kl'
  have l0 : 0 < l := by linarith
  have x0 : |N / (V * V)| * V ≤ W := by
    rw [abs_div, abs_of_pos L0, div_mul_eq_mul_div, div_le_iff₀ L0]
    have := mul_le_mul_of_nonneg_right hN V0.le
    linarith
  have uW : DQuat.u * W ≤ 1 / 100000 * W := mul_le_mul_of_nonneg_right (by linarith) W0
  have uV : DQuat.u * V ≤ 1 / 100000 * V := mul_le_mul_of_nonneg_right (by linarith) V0.le
  have hx : |n / l| * V ≤ 1001 / 1000 * W + 1 / 1000 * V := by
    have : |n / l| * V ≤ (|n / l - N / (V * V)| + |N / (V * V)|) * V :=
      mul_le_mul_of_nonneg_right (by have := abs_add_le (n / l - N / (V * V)) (N / (V * V)); rwa [sub_add_cancel] at this) V0.le
    linarith
  refine ⟨l0, by linarith, ?_⟩
  have r := DVec.mul_near (n / l) 1
  rw [mul_one] at r
  have r' := mul_le_mul_of_nonneg_right r V0.le
  have r2 := mul_le_mul_of_nonneg_left hx u0.le
  have r3 : |rnd (n / l) - N / (V * V)| * V ≤ (|rnd (n / l) - n / l| + |n / l - N / (V * V)|) * V :=
    mul_le_mul_of_nonneg_right (abs_sub_le _ _ _) V0.le
  have z1 : 0 ≤ DQuat.u * V := by positivity
  have z2 : 0 ≤ DQuat.u * W := by positivity
  linarith

/-- the computed product of a number and a vector -/
noncomputable def scale3 (k : ℝ) (v : V3) : V3 := ⟨rnd (k * v.x), rnd (k * v.y), rnd (k * v.z)⟩

/-- the computed sum of a point and a vector -/
noncomputable def sum3' (a v : V3) : V3 := ⟨rnd (a.x + v.x), rnd (a.y + v.y), rnd (a.z + v.z)⟩

theorem norm_le_mul {x y : V3} {k : ℝ} (hk : 0 ≤ k) (h1 : |x.x| ≤ k * |y.x|) (h2 : |x.y| ≤ k * |y.y|) (h3 : |x.z| ≤ k * |y.z|) :
    x.norm ≤ k * y.norm := by
  refine Real.sqrt_le_iff.2 ⟨mul_nonneg hk (V3.norm_nonneg _), ?_⟩
  rw [mul_pow, V3.norm_sq]
  have key : ∀ a b : ℝ, |a| ≤ k * |b| → a * a ≤ k ^ 2 * (b * b) := fun a b h => by
    have := mul_self_le_mul_self (abs_nonneg a) h
    rw [abs_mul_abs_self] at this
    rwa [show k * |b| * (k * |b|) = k ^ 2 * (|b| * |b|) by ring, abs_mul_abs_self] at this
  have k1 := key _ _ h1
  have k2 := key _ _ h2
  have k3 := key _ _ h3
  simp only [V3.normSq, V3.dot]
  linarith

theorem scale3_near (k : ℝ) (v : V3) : (scale3 k v - k • v).norm ≤ DQuat.u * (|k| * v.norm) + 2 * DQuat.t := by
  have t0 := DQuat.t_pos
  obtain ⟨d1, h1, kd1, kh1, e1⟩ := DLinear.rnd_split (k * v.x)
  obtain ⟨d2, h2, kd2, kh2, e2⟩ := DLinear.rnd_split (k * v.y)
  obtain ⟨d3, h3, kd3, kh3, e3⟩ := DLinear.rnd_split (k * v.z)
  have e : scale3 k v - k • v = ⟨k * v.x * d1, k * v.y * d2, k * v.z * d3⟩ + ⟨h1, h2, h3⟩ := by
    ext
    · simp only [scale3, V3.sub_x, V3.smul_x, V3.add_x, e1]; ring
    · simp only [scale3, V3.sub_y, V3.smul_y, V3.add_y, e2]; ring
    · simp only [scale3, V3.sub_z, V3.smul_z, V3.add_z, e3]; ring
  rw [e, ← V3.norm_smul]
  refine (V3.norm_add_le _ _).trans (add_le_add (norm_le_mul DQuat.u_pos.le ?_ ?_ ?_) ?_)
  · rw [abs_mul, mul_comm]; exact mul_le_mul_of_nonneg_right kd1 (abs_nonneg _)
  · rw [abs_mul, mul_comm]; exact mul_le_mul_of_nonneg_right kd2 (abs_nonneg _)
  · rw [abs_mul, mul_comm]; exact mul_le_mul_of_nonneg_right kd3 (abs_nonneg _)
  · refine Real.sqrt_le_iff.2 ⟨by positivity, ?_⟩
    have key : ∀ h : ℝ, |h| ≤ DQuat.t → h * h ≤ DQuat.t * DQuat.t := fun h kh => by
      have := mul_self_le_mul_self (abs_nonneg h) kh
      rwa [abs_mul_abs_self] at this
    have a1 := key _ kh1
    have a2 := key _ kh2
    have a3 := key _ kh3
    simp only [V3.normSq, V3.dot]
    nlinarith

theorem sum3'_near {a v : V3} (ha : Within a) (hv : Within v) : (sum3' a v - (a + v)).norm ≤ DQuat.u * (a + v).norm := by
  have h : Within (-v) := ⟨⟨representable_neg hv.x.1, by rw [V3.neg_x, abs_neg]; exact hv.x.2⟩,
    ⟨representable_neg hv.y.1, by rw [V3.neg_y, abs_neg]; exact hv.y.2⟩, ⟨representable_neg hv.z.1, by rw [V3.neg_z, abs_neg]; exact hv.z.2⟩⟩
  have k := diff3_near ha h
  rw [show a - -v = a + v by ext <;> simp] at k
  rwa [show diff3 a (-v) = sum3' a v by simp [diff3, sum3']] at k

theorem diff_norm_le {a p : V3} (ha : Small a) (hp : Small p) : (p - a).norm ≤ 2 ^ 250 := by
  have key : ∀ x y : ℝ, |x| ≤ 2 ^ 248 → |y| ≤ 2 ^ 248 → (x - y) * (x - y) ≤ 2 ^ 249 * 2 ^ 249 := by
    intro x y hx hy
    have h : |x - y| ≤ 2 ^ 249 := by
      refine (abs_sub x y).trans ?_
      rw [show (249 : ℕ) = 248 + 1 by norm_num, pow_succ]
      linarith
    have := mul_self_le_mul_self (abs_nonneg _) h
    rwa [abs_mul_abs_self] at this
  refine Real.sqrt_le_iff.2 ⟨by positivity, ?_⟩
  have k1 := key _ _ hp.x.2 ha.x.2
  have k2 := key _ _ hp.y.2 ha.y.2
  have k3 := key _ _ hp.z.2 ha.z.2
  simp only [V3.normSq, V3.dot, V3.sub_x, V3.sub_y, V3.sub_z]
  have e : ((2 : ℝ) ^ 250) ^ 2 = 4 * (2 ^ 249 * 2 ^ 249) := by rw [show (250 : ℕ) = 249 + 1 by norm_num, pow_succ]; ring
  rw [e]
  have : (0 : ℝ) ≤ 2 ^ 249 * 2 ^ 249 := by positivity
  linarith

theorem clamp_any (x : F64 ℝ) : ∃ k : ℝ, 0 ≤ k ∧ k ≤ 1 ∧ DSegment.max (.fin 0) (DSegment.min (.fin 1) x) = .fin k := by
  match x with
  | .fin x => exact ⟨clamp01 x, (clamp01_mem x).1, (clamp01_mem x).2, clamp_fin x⟩
  | .inf true => exact ⟨0, le_rfl, zero_le_one, by simp [DSegment.min, DSegment.max, F64.lt]⟩
  | .inf false => exact ⟨1, zero_le_one, le_rfl, by simp [DSegment.min, DSegment.max, F64.lt]⟩
  | .nan => exact ⟨1, zero_le_one, le_rfl, by simp [DSegment.min, DSegment.max, F64.lt]⟩

/-- the parameter is the nearest number of `[0, 1]` to the computed quotient -/
theorem param_fin (o : Bool) {a b p : V3} (ha : Small a) (hb : Small b) (hp : Small p) (hab : 2 ^ (-200 : ℤ) ≤ (b - a).norm) :
    (F64.fin (dotR o (diff3 p a) (diff3 b a))).div (.fin (dotR o (diff3 b a) (diff3 b a))) =
      .fin (rnd (dotR o (diff3 p a) (diff3 b a) / dotR o (diff3 b a) (diff3 b a))) := by
  obtain ⟨l0, hx, -⟩ := param_near o ha hb hp hab
  have big : |dotR o (diff3 p a) (diff3 b a) / dotR o (diff3 b a) (diff3 b a)| ≤ 2 ^ 500 := by
    have hW := diff_norm_le ha hp
    generalize |dotR o (diff3 p a) (diff3 b a) / dotR o (diff3 b a) (diff3 b a)| = x at *
    by_contra hc
    push Not at hc
    have h1 : (2 : ℝ) ^ 499 ≤ x - 1 := by
      have e5 : (2 : ℝ) ^ 500 = 2 ^ 499 + 2 ^ 499 := by rw [show (500 : ℕ) = 499 + 1 by norm_num, pow_succ]; ring
      have o5 : (1 : ℝ) ≤ 2 ^ 499 := one_le_pow₀ one_le_two
      rw [e5] at hc
      generalize (2 : ℝ) ^ 499 = y at hc o5 ⊢
      linarith only [hc, o5]
    have h2 : (2 : ℝ) ^ 499 * 2 ^ (-200 : ℤ) ≤ (x - 1) * (b - a).norm :=
      mul_le_mul h1 hab (two_zpow_pos _).le ((by positivity : (0 : ℝ) ≤ 2 ^ 499).trans h1)
    have h3 : (2 : ℝ) ^ 499 * 2 ^ (-200 : ℤ) = 2 ^ 299 := by
      rw [← zpow_natCast, ← zpow_natCast, ← zpow_add₀ two_ne_zero]; norm_num
    have h4 : (2 : ℝ) ^ 251 < 2 ^ 299 := pow_lt_pow_right₀ one_lt_two (by norm_num)
    have h5 : (2 : ℝ) ^ 251 = 2 ^ 250 * 2 := by rw [show (251 : ℕ) = 250 + 1 by norm_num, pow_succ]
    rw [h3] at h2
    clear hab h3
    have h6 : (x - 1) * (b - a).norm = x * (b - a).norm - (b - a).norm := by ring
    rw [h6] at h2
    rw [h5] at h4
    generalize (2 : ℝ) ^ 250 = y1 at h4 hW
    generalize (2 : ℝ) ^ 299 = y2 at h4 h2
    linarith only [h2, h4, hW, hx]
  simp only [F64.div, if_neg l0.ne']
  exact F64.ofExact_fin (lt_of_le_of_lt (DLinear.rnd_abs_le (DQuat.rep_two 500) big) (DQuat.two_lt (by norm_num)))

/-- the computed distance to a segment that is not degenerate -/
theorem distance_segment (o : Bool) {a b p : V3} (ha : Small a) (hb : Small b) (hp : Small p) (hab : a ≠ b) :
    ∃ k : ℝ, 0 ≤ k ∧ k ≤ 1 ∧
      (2 ^ (-200 : ℤ) ≤ (b - a).norm → k = clamp01 (rnd (dotR o (diff3 p a) (diff3 b a) / dotR o (diff3 b a) (diff3 b a)))) ∧
      Within (scale3 k (diff3 b a)) ∧ Within (sum3' a (scale3 k (diff3 b a))) ∧
      DSegment.distanceTo o (doubles a) (doubles b) (doubles p) = .ok (.fin (dist3 o (sum3' a (scale3 k (diff3 b a))) p)) := by
  obtain ⟨e1, b1⟩ := sub_doubles (by norm_num) hb.bounded ha.bounded
  obtain ⟨e2, b2⟩ := sub_doubles (by norm_num) hp.bounded ha.bounded
  have c1 := b1.mono (show 249 ≤ 500 by norm_num)
  have c2 := b2.mono (show 249 ≤ 500 by norm_num)
  have hne : ¬(a.x = b.x ∧ a.y = b.y ∧ a.z = b.z) := fun ⟨h1, h2, h3⟩ => hab (by ext <;> assumption)
  obtain ⟨k, k0, k1, hk⟩ := clamp_any ((F64.fin (dotR o (diff3 p a) (diff3 b a))).div (.fin (dotR o (diff3 b a) (diff3 b a))))
  refine ⟨k, k0, k1, fun h => ?_, ?_⟩
  · rw [param_fin o ha hb hp h, clamp_fin, F64.fin.injEq] at hk
    exact hk.symm
  rw [DSegment.distanceTo, doubles_defined, doubles_defined, doubles_defined, doubles_eq, if_neg (by simp), if_neg (by simp), if_neg (by simpa using hne)]
  simp only [e1, e2, DVec.squaredNorm, dot_doubles o c1 c1, dot_doubles o c2 c1, hk]
  have one : |k| ≤ 1 := by rw [abs_of_nonneg k0]; exact k1
  have s : ∀ x : ℝ, |x| ≤ 2 ^ 249 → (F64.fin k).mul (.fin x) = .fin (rnd (k * x)) ∧ |rnd (k * x)| ≤ 2 ^ 249 := by
    intro x h
    have h1 : |k * x| ≤ 2 ^ 249 := by rw [abs_mul]; exact (mul_le_of_le_one_left (abs_nonneg _) one).trans h
    have h2 := DLinear.rnd_abs_le (DQuat.rep_two 249) h1
    exact ⟨F64.ofExact_fin (lt_of_le_of_lt h2 (DQuat.two_lt (by norm_num))), h2⟩
  obtain ⟨s1, g1⟩ := s _ b1.1
  obtain ⟨s2, g2⟩ := s _ b1.2.1
  obtain ⟨s3, g3⟩ := s _ b1.2.2
  have a' := ha.bounded.mono (show 248 ≤ 249 by norm_num)
  obtain ⟨r1, q1⟩ := DVec.add_fin2 (by norm_num) a'.1 g1
  obtain ⟨r2, q2⟩ := DVec.add_fin2 (by norm_num) a'.2.1 g2
  obtain ⟨r3, q3⟩ := DVec.add_fin2 (by norm_num) a'.2.2 g3
  have es : DVec.scale (.fin k) (doubles (diff3 b a)) = doubles (scale3 k (diff3 b a)) := by
    simp only [DVec.scale, doubles, s1, s2, s3, scale3]
  have eq : (doubles a).add (doubles (scale3 k (diff3 b a))) = doubles (sum3' a (scale3 k (diff3 b a))) := by
    simp only [DVec.add, doubles, scale3, r1, r2, r3, sum3']
  have p1 : (2 : ℝ) ^ 249 ≤ 2 ^ 499 := pow_le_pow_right₀ one_le_two (by norm_num)
  have p2 : (2 : ℝ) ^ (249 + 1) ≤ 2 ^ 499 := pow_le_pow_right₀ one_le_two (by norm_num)
  have w1 : Within (scale3 k (diff3 b a)) :=
    ⟨⟨rnd_representable _, g1.trans p1⟩, ⟨rnd_representable _, g2.trans p1⟩, ⟨rnd_representable _, g3.trans p1⟩⟩
  have w2 : Within (sum3' a (scale3 k (diff3 b a))) :=
    ⟨⟨rnd_representable _, q1.trans p2⟩, ⟨rnd_representable _, q2.trans p2⟩, ⟨rnd_representable _, q3.trans p2⟩⟩
  refine ⟨w1, w2, ?_⟩
  rw [es, doubles_defined, eq, if_neg (by simp), distance_fin o w2 hp.within]

theorem euclid_norm (a b : V3) : euclid a b = (a - b).norm := by
  simp only [euclid, V3.norm, V3.normSq, V3.dot, V3.sub_x, V3.sub_y, V3.sub_z, sq]

theorem dist3_nonneg (o : Bool) (a b : V3) : 0 ≤ dist3 o a b := by
  rw [dist3, ← rnd_zero (α := ℝ)]
  exact rnd_mono (Real.sqrt_nonneg _)

/-- the computed distance and the distance to a point of the segment -/
theorem assemble {a p v V S q : V3} {k k' r tt s E : ℝ} (k0 : 0 ≤ k) (k1 : k ≤ 1) (dv : (v - V).norm ≤ DQuat.u * V.norm)
    (hs : 0 ≤ s) (hE : 0 ≤ E) (sc : (S - k • v).norm ≤ DQuat.u * (k * v.norm) + s) (sm : (q - (a + S)).norm ≤ DQuat.u * (a + S).norm)
    (ds : |r - (q - p).norm| ≤ 36 / 10 * DQuat.u * (q - p).norm + tt) (first : (a + k' • V - p).norm ≤ (p - a).norm)
    (hk : |k - k'| * V.norm ≤ E) :
    |r - (a + k' • V - p).norm| ≤ DQuat.u * (11 / 10 * a.norm + 32 / 10 * V.norm + 37 / 10 * (p - a).norm) + 102 / 100 * s + 101 / 100 * E + tt := by
  have u0 := DQuat.u_pos
  have u1 := DQuat.u_small
  have A0 := V3.norm_nonneg a
  have V0 := V3.norm_nonneg V
  have W0 := V3.norm_nonneg (p - a)
  have nv := norm_mul_near dv
  have kv : k * v.norm ≤ v.norm := mul_le_of_le_one_left (V3.norm_nonneg _) k1
  have uV : DQuat.u * V.norm ≤ 1 / 100000 * V.norm := mul_le_mul_of_nonneg_right (by linarith) V0
  have us : DQuat.u * s ≤ 1 / 100000 * s := mul_le_mul_of_nonneg_right (by linarith) hs
  have uE : DQuat.u * E ≤ 1 / 100000 * E := mul_le_mul_of_nonneg_right (by linarith) hE
  have ukv := mul_le_mul_of_nonneg_left (kv.trans nv) u0.le
  have uuV := mul_le_mul_of_nonneg_left uV u0.le
  have zV : 0 ≤ DQuat.u * V.norm := mul_nonneg u0.le V0
  have zA : 0 ≤ DQuat.u * a.norm := mul_nonneg u0.le A0
  have zW : 0 ≤ DQuat.u * (p - a).norm := mul_nonneg u0.le W0
  have zs : 0 ≤ DQuat.u * s := mul_nonneg u0.le hs
  have nS : S.norm ≤ 1001 / 1000 * V.norm + s := by
    have h1 := V3.norm_le_add S (k • v)
    rw [V3.norm_smul, abs_of_nonneg k0] at h1
    linarith
  have naS : (a + S).norm ≤ a.norm + 1001 / 1000 * V.norm + s := (V3.norm_add_le _ _).trans (by linarith)
  have uaS := mul_le_mul_of_nonneg_left naS u0.le
  have dk : (k • (v - V)).norm ≤ DQuat.u * V.norm := by
    rw [V3.norm_smul, abs_of_nonneg k0]
    exact (mul_le_of_le_one_left (V3.norm_nonneg _) k1).trans dv
  have dkk : ((k - k') • V).norm ≤ E := by rwa [V3.norm_smul]
  have split : q - (a + k' • V) = (q - (a + S)) + ((S - k • v) + (k • (v - V) + (k - k') • V)) := by ext <;> simp <;> ring
  have near : (q - (a + k' • V)).norm ≤ DQuat.u * (a.norm + 31 / 10 * V.norm) + 101 / 100 * s + E := by
    rw [split]
    have h1 := V3.norm_add_le (q - (a + S)) ((S - k • v) + (k • (v - V) + (k - k') • V))
    have h2 := V3.norm_add_le (S - k • v) (k • (v - V) + (k - k') • V)
    have h3 := V3.norm_add_le (k • (v - V)) ((k - k') • V)
    linarith
  have uA : DQuat.u * a.norm ≤ 1 / 100000 * a.norm := mul_le_mul_of_nonneg_right (by linarith) A0
  have e1 : q - p = (q - (a + k' • V)) + (a + k' • V - p) := by ext <;> simp
  have up : (q - p).norm ≤ (q - (a + k' • V)).norm + (a + k' • V - p).norm := by rw [e1]; exact V3.norm_add_le _ _
  have down : (a + k' • V - p).norm ≤ (q - (a + k' • V)).norm + (q - p).norm := by
    have h := V3.norm_add_le (a + k' • V - q) (q - p)
    rw [V3.norm_sub_comm _ q, show a + k' • V - q + (q - p) = a + k' • V - p by ext <;> simp] at h
    exact h
  have qp : (q - p).norm ≤ 1 / 1000 * (a.norm + V.norm) + 102 / 100 * s + E + (p - a).norm := by linarith
  have uqp := mul_le_mul_of_nonneg_left qp u0.le
  have tri : |r - (a + k' • V - p).norm| ≤ |r - (q - p).norm| + |(q - p).norm - (a + k' • V - p).norm| := abs_sub_le _ _ _
  have close : |(q - p).norm - (a + k' • V - p).norm| ≤ (q - (a + k' • V)).norm := abs_le.2 ⟨by linarith, by linarith⟩
  linarith

/-- the point of a segment that is nearest to `p` -/
theorem nearest {a b : V3} (hab : a ≠ b) (p : V3) : ∃ k : ℝ, k = clamp01 ((p - a).dot (b - a) / (b - a).normSq) ∧
    IsDistance (SegSet a b) p (a + k • (b - a) - p).norm ∧ (a + k • (b - a) - p).norm ≤ (p - a).norm := by
  have hn : 0 < (b - a).normSq :=
    lt_of_le_of_ne (b - a).normSq_nonneg (fun e => hab (V3.sub_eq_zero'.1 (V3.normSq_eq_zero.1 e.symm)).symm)
  obtain ⟨c0, c1, c2⟩ := clamp_spec (m := (b - a).dot (p - a)) hn
  have h : IsDistance (SegSet a b) p (a + clamp01 ((p - a).dot (b - a) / (b - a).normSq) • (b - a) - p).norm := by
    rw [V3.dot_comm (p - a)]
    refine ⟨⟨_, ⟨_, c0, c1, rfl⟩, rfl⟩, ?_⟩
    rintro q ⟨t, t0, t1, rfl⟩
    rw [V3.norm_le_norm, normSq_param, normSq_param]
    have := c2 t t0 t1
    rw [clamp01]
    linarith
  refine ⟨_, rfl, h, ?_⟩
  have := h.2 a ⟨0, le_rfl, zero_le_one, by ext <;> simp⟩
  rwa [V3.norm_sub_comm a p] at this

theorem distance_point (o : Bool) {a p : V3} (ha : Small a) (hp : Small p) :
    ∃ r d : ℝ, DSegment.distanceTo o (doubles a) (doubles a) (doubles p) = .ok (.fin r) ∧ IsDistance (SegSet a a) p d ∧ 0 ≤ r ∧
      |r - d| ≤ 36 / 10 * DQuat.u * (p - a).norm + 2 ^ (-535 : ℤ) := by
  have ds := dist3_near o ha.within hp.within
  rw [euclid_norm] at ds
  refine ⟨_, (a - p).norm, ?_, ?_, dist3_nonneg o a p, ds.trans ?_⟩
  · rw [DSegment.distanceTo, doubles_defined, doubles_defined, doubles_eq, if_neg (by simp), if_neg (by simp), if_pos (by simp), distance_fin o ha.within hp.within]
  · rw [segSet_self]
    exact ⟨⟨a, rfl, rfl⟩, fun q hq => by rw [Set.mem_singleton_iff.1 hq]⟩
  · rw [V3.norm_sub_comm a p]

/-- **C118.** The distance from a point to a segment is accurate: for a segment that is not too short, within a few units of rounding of the distances
from the origin to the first point, between the two points, and from the first point to `p`. -/
theorem C118_distance (o : Bool) {a b p : V3} (ha : Small a) (hb : Small b) (hp : Small p) (hab : a = b ∨ 2 ^ (-200 : ℤ) ≤ (b - a).norm) :
    ∃ r d : ℝ, DSegment.distanceTo o (doubles a) (doubles b) (doubles p) = .ok (.fin r) ∧ IsDistance (SegSet a b) p d ∧ 0 ≤ r ∧
      |r - d| ≤ (2 * a.norm + 4 * (b - a).norm + 18 * (p - a).norm) / 2 ^ 53 + 2 ^ (-535 : ℤ) := by
  have u0 := DQuat.u_pos
  have zA := mul_nonneg u0.le (V3.norm_nonneg a)
  have zV := mul_nonneg u0.le (V3.norm_nonneg (b - a))
  have zW := mul_nonneg u0.le (V3.norm_nonneg (p - a))
  have eu : (2 * a.norm + 4 * (b - a).norm + 18 * (p - a).norm) / 2 ^ 53 = DQuat.u * (2 * a.norm + 4 * (b - a).norm + 18 * (p - a).norm) := by
    rw [DQuat.u]; ring
  rw [eu]
  rcases hab with rfl | hab
  · obtain ⟨r, d, h1, h2, h3, h4⟩ := distance_point o ha hp
    exact ⟨r, d, h1, h2, h3, by linarith⟩
  have V0 : 0 < (b - a).norm := lt_of_lt_of_le (two_zpow_pos _) hab
  have hne : a ≠ b := by rintro rfl; simp [V3.norm, V3.normSq, V3.dot] at V0
  obtain ⟨k, k0, k1, hk, w1, w2, e⟩ := distance_segment o ha hb hp hne
  obtain ⟨k', hk', dist, first⟩ := nearest hne p
  refine ⟨_, _, e, dist, dist3_nonneg o _ _, ?_⟩
  obtain ⟨-, -, hx⟩ := param_near o ha hb hp hab
  obtain ⟨-, t2, -, -⟩ := tiny hab
  have cl := clamp01_near (rnd (dotR o (diff3 p a) (diff3 b a) / dotR o (diff3 b a) (diff3 b a))) ((p - a).dot (b - a) / (b - a).normSq)
  rw [← hk hab, ← hk'] at cl
  have hx2 := (mul_le_mul_of_nonneg_right cl (V3.norm_nonneg (b - a))).trans hx
  have sc := scale3_near k (diff3 b a)
  rw [abs_of_nonneg k0] at sc
  have ds := dist3_near o w2 hp.within
  rw [euclid_norm] at ds
  have fin := assemble k0 k1 (diff3_near hb.within ha.within) (mul_nonneg zero_le_two DQuat.t_pos.le) (by linarith) sc (sum3'_near ha.within w1) ds first hx2
  linarith

/-- **C118.** For segments of any length. -/
theorem C118_short (o : Bool) {a b p : V3} (ha : Small a) (hb : Small b) (hp : Small p) :
    ∃ r d : ℝ, DSegment.distanceTo o (doubles a) (doubles b) (doubles p) = .ok (.fin r) ∧ IsDistance (SegSet a b) p d ∧ 0 ≤ r ∧
      |r - d| ≤ (2 * a.norm + 4 * (b - a).norm + 18 * (p - a).norm) / 2 ^ 53 + 2 ^ (-199 : ℤ) := by
  have u0 := DQuat.u_pos
  have big : (2 : ℝ) ^ (-535 : ℤ) ≤ 2 ^ (-199 : ℤ) := zpow_le_zpow_right₀ one_le_two (by norm_num)
  by_cases hab : a = b ∨ 2 ^ (-200 : ℤ) ≤ (b - a).norm
  · obtain ⟨r, d, h1, h2, h3, h4⟩ := C118_distance o ha hb hp hab
    exact ⟨r, d, h1, h2, h3, h4.trans (by gcongr)⟩
  push Not at hab
  obtain ⟨hne, hs⟩ := hab
  obtain ⟨k, k0, k1, -, w1, w2, e⟩ := distance_segment o ha hb hp hne
  obtain ⟨k', hk', dist, first⟩ := nearest hne p
  refine ⟨_, _, e, dist, dist3_nonneg o _ _, ?_⟩
  obtain ⟨j0, j1⟩ := clamp01_mem ((p - a).dot (b - a) / (b - a).normSq)
  rw [← hk'] at j0 j1
  have hx : |k - k'| * (b - a).norm ≤ 2 ^ (-200 : ℤ) :=
    (mul_le_of_le_one_left (V3.norm_nonneg _) (abs_le.2 ⟨by linarith, by linarith⟩)).trans hs.le
  have sc := scale3_near k (diff3 b a)
  rw [abs_of_nonneg k0] at sc
  have ds := dist3_near o w2 hp.within
  rw [euclid_norm] at ds
  have fin := assemble k0 k1 (diff3_near hb.within ha.within) (mul_nonneg zero_le_two DQuat.t_pos.le) (two_zpow_pos _).le sc (sum3'_near ha.within w1) ds first hx
  refine fin.trans ?_
  have eu : (2 * a.norm + 4 * (b - a).norm + 18 * (p - a).norm) / 2 ^ 53 = DQuat.u * (2 * a.norm + 4 * (b - a).norm + 18 * (p - a).norm) := by
    rw [DQuat.u]; ring
  rw [eu]
  have zA := mul_nonneg u0.le (V3.norm_nonneg a)
  have zV := mul_nonneg u0.le (V3.norm_nonneg (b - a))
  have zW := mul_nonneg u0.le (V3.norm_nonneg (p - a))
  have t1 : DQuat.t ≤ 2 ^ (-10 + -200 : ℤ) := DQuat.t_small (by norm_num)
  have t2 : (2 : ℝ) ^ (-535 : ℤ) ≤ 2 ^ (-10 + -200 : ℤ) := zpow_le_zpow_right₀ one_le_two (by norm_num)
  have t3 : (2 : ℝ) ^ (-199 : ℤ) = 2 * 2 ^ (-200 : ℤ) := by
    rw [show (-199 : ℤ) = 1 + -200 by norm_num, zpow_add₀ two_ne_zero]; norm_num
  rw [zpow_add₀ two_ne_zero, show (2 : ℝ) ^ (-10 : ℤ) = 1 / 1024 by norm_num] at t1 t2
  rw [t3]
  have p0 := (two_zpow_pos (α := ℝ) (-200)).le
  clear fin hx hs big t3 ds
  generalize (2 : ℝ) ^ (-535 : ℤ) = r1 at *
  generalize (2 : ℝ) ^ (-200 : ℤ) = r2 at *
  linarith

/-- points that meet the hypotheses -/
example : Small ⟨0, 0, 0⟩ ∧ Small ⟨4, 0, 0⟩ ∧ Small ⟨1, 3, 0⟩ ∧ (2 : ℝ) ^ (-200 : ℤ) ≤ ((⟨4, 0, 0⟩ : V3) - ⟨0, 0, 0⟩).norm := by
  have h : ∀ n : ℤ, |n| ≤ 2 ^ 53 → Representable (n : ℝ) ∧ |(n : ℝ)| ≤ 2 ^ 248 := fun n hn => ⟨representable_int hn, by
    have h1 : (|(n : ℝ)|) ≤ 2 ^ 53 := by exact_mod_cast hn
    exact h1.trans (pow_le_pow_right₀ one_le_two (by norm_num))⟩
  have h0 := h 0 (by norm_num)
  have h4 := h 4 (by norm_num)
  have h1 := h 1 (by norm_num)
  have h3 := h 3 (by norm_num)
  push_cast at h0 h4 h1 h3
  refine ⟨⟨h0, h0, h0⟩, ⟨h4, h0, h0⟩, ⟨h1, h3, h0⟩, ?_⟩
  have e : ((⟨4, 0, 0⟩ : V3) - ⟨0, 0, 0⟩).norm = 4 := by
    rw [V3.norm, show ((⟨4, 0, 0⟩ : V3) - ⟨0, 0, 0⟩).normSq = 4 ^ 2 by norm_num [V3.normSq, V3.dot], Real.sqrt_sq (by norm_num)]
  rw [e]
  exact (zpow_le_one_of_nonpos₀ one_le_two (by norm_num)).trans (by norm_num)

/-- **C118 does not hold for all coordinates.** The square of the length of the segment from the origin to `(2 ^ 512, 0, 0)` overflows, so that the
parameter is zero: the distance of the point `(1, 0, 0)` of the segment is `1`. -/
theorem C118_overflow_violated (o : Bool) : (⟨1, 0, 0⟩ : V3) ∈ SegSet ⟨0, 0, 0⟩ ⟨2 ^ 512, 0, 0⟩ ∧
    DSegment.distanceTo o (doubles ⟨0, 0, 0⟩) (doubles ⟨2 ^ 512, 0, 0⟩) (doubles ⟨1, 0, 0⟩) = .ok (.fin 1) := by
  have pos : (0 : ℝ) < 2 ^ 512 := by positivity
  refine ⟨⟨1 / 2 ^ 512, by positivity, (div_le_one pos).2 (one_le_pow₀ one_le_two), ?_⟩, ?_⟩
  · ext
    · simp only [V3.add_x, V3.smul_x, V3.sub_x, zero_add, sub_zero]
      rw [div_mul_cancel₀ _ pos.ne']
    · simp
    · simp
  have r1 : Representable (1 : ℝ) := by simpa using representable_int (α := ℝ) (m := 1) (by norm_num)
  have q1 : rnd (1 : ℝ) = 1 := rnd_exact r1
  have q2 : rnd ((2 : ℝ) ^ 512) = 2 ^ 512 := rnd_exact (DQuat.rep_two 512)
  have one : |(1 : ℝ)| < 2 ^ 1024 := by rw [abs_one]; exact one_lt_pow₀ one_lt_two (by norm_num)
  have e1 : (F64.fin ((2 : ℝ) ^ 512)).sub (.fin 0) = .fin (2 ^ 512) := by
    rw [DAngle.sub_fin, sub_zero, F64.ofExact_fin] <;> rw [q2]
    rw [abs_of_pos pos]
    exact DQuat.two_lt (by norm_num)
  have e2 : (F64.fin (0 : ℝ)).sub (.fin 0) = .fin 0 := DAngle.sub_self_fin 0
  have e3 : (F64.fin (1 : ℝ)).sub (.fin 0) = .fin 1 := by
    rw [DAngle.sub_fin, sub_zero, F64.ofExact_fin] <;> rw [q1]
    exact one
  have e4 := mul_overflow (m := 512) (n := 512) (by norm_num)
  have e5 : (F64.fin (1 : ℝ)).mul (.fin (2 ^ 512)) = .fin (2 ^ 512) := by
    simp only [F64.mul, one_mul]
    rw [F64.ofExact_fin] <;> rw [q2]
    rw [abs_of_pos pos]
    exact DQuat.two_lt (by norm_num)
  have add0 : ∀ x : ℝ, rnd x = x → |x| < 2 ^ 1024 → (F64.fin x).add (.fin 0) = .fin x ∧ (F64.fin 0).add (.fin x) = .fin x := by
    intro x hx hb
    simp only [F64.add, add_zero, zero_add]
    rw [F64.ofExact_fin (by rwa [hx]), hx]
    exact ⟨rfl, rfl⟩
  have big : |(2 : ℝ) ^ 512| < 2 ^ 1024 := by rw [abs_of_pos pos]; exact DQuat.two_lt (by norm_num)
  obtain ⟨a1, a2⟩ := add0 _ q2 big
  obtain ⟨a3, a4⟩ := add0 _ q1 one
  have s1 : ∀ x : F64 ℝ, x.add (.fin 0) = x → (F64.fin 0).add x = x → DVec.sum o x (.fin 0) (.fin 0) = x := fun x h h' => by
    cases o <;> simp [DVec.sum, h, h', zero_add_zero]
  have inf0 : (F64.inf false : F64 ℝ).add (.fin 0) = .inf false ∧ (F64.fin (0 : ℝ)).add (.inf false) = .inf false := ⟨rfl, rfl⟩
  have z1 : DVec.sub (doubles ⟨2 ^ 512, 0, 0⟩) (doubles ⟨0, 0, 0⟩) = doubles ⟨2 ^ 512, 0, 0⟩ := by simp only [DVec.sub, doubles, e1, e2]
  have z2 : DVec.sub (doubles ⟨1, 0, 0⟩) (doubles ⟨0, 0, 0⟩) = doubles ⟨1, 0, 0⟩ := by simp only [DVec.sub, doubles, e3, e2]
  have l2 : DVec.squaredNorm o (doubles ⟨2 ^ 512, 0, 0⟩) = .inf false := by
    simp only [DVec.squaredNorm, DVec.dot, doubles, e4, zero_mul_zero]
    exact s1 _ inf0.1 inf0.2
  have n : DVec.dot o (doubles ⟨1, 0, 0⟩) (doubles ⟨2 ^ 512, 0, 0⟩) = .fin (2 ^ 512) := by
    simp only [DVec.dot, doubles, e5, zero_mul_zero]
    exact s1 _ a1 a2
  have m0 : (F64.fin (0 : ℝ)).mul (.fin (2 ^ 512)) = .fin 0 := by
    simp only [F64.mul, zero_mul]
    rw [F64.ofExact_fin] <;> rw [rnd_zero]
    rw [abs_zero]; positivity
  have sc : DVec.scale (.fin 0) (doubles ⟨2 ^ 512, 0, 0⟩) = doubles ⟨0, 0, 0⟩ := by simp only [DVec.scale, doubles, m0, zero_mul_zero]
  have hne : ¬((0 : ℝ) = 2 ^ 512 ∧ (0 : ℝ) = 0 ∧ (0 : ℝ) = 0) := fun h => absurd h.1 pos.ne
  have c0 : clamp01 0 = 0 := by simp [clamp01]
  have ad : (doubles ⟨0, 0, 0⟩).add (doubles ⟨0, 0, 0⟩) = doubles ⟨0, 0, 0⟩ := by simp only [DVec.add, doubles, zero_add_zero]
  have w0 : Within ⟨0, 0, 0⟩ := by
    have : Representable (0 : ℝ) ∧ |(0 : ℝ)| ≤ 2 ^ 499 := ⟨representable_zero, by rw [abs_zero]; positivity⟩
    exact ⟨this, this, this⟩
  have w1 : Within ⟨1, 0, 0⟩ := ⟨⟨r1, by rw [abs_one]; exact one_le_pow₀ one_le_two⟩, w0.y, w0.z⟩
  have d1 : dist3 o ⟨0, 0, 0⟩ ⟨1, 0, 0⟩ = 1 := by
    rw [dist3_comm]
    cases o <;> simp [dist3, DVec.dot3, DVec.sum3, q1, rnd_zero]
  rw [DSegment.distanceTo, doubles_defined, doubles_defined, doubles_defined, doubles_eq, if_neg (by simp), if_neg (by simp), if_neg (by simpa using hne)]
  simp only [z1, z2, l2, n, show (F64.fin ((2 : ℝ) ^ 512)).div (.inf false) = .fin 0 from rfl, clamp_fin, c0, sc]
  rw [doubles_defined, ad, if_neg (by simp), distance_fin o w0 w1, d1]

end Verif.Props
