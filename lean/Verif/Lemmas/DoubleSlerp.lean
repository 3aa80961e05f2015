import Mathlib.Analysis.Complex.ExponentialBounds
import Verif.Spec.DoubleSlerp
import Verif.Props.DoubleShortest
import Verif.Props.DoubleEuler
import Verif.Props.DoubleDifference

/-!
# Lemmas on powers and `SLERP` of quaternions in double precision
-/

namespace Verif.Props

open Verif Verif.Spec Verif.Double


theorem turn_dist {m n : V3} (hm : m.normSq = 1) (hn : n.normSq = 1) (a b : ℝ) :
    ‖hamilton (turnQ m a) - hamilton (turnQ n b)‖ ^ 2 = 2 - 2 * Real.cos (a - b) + 2 * (Real.sin a * Real.sin b) * (1 - m.dot n) := by
  rw [hamilton_sub, DQuat.norm_hamilton, Real.cos_sub]
  simp only [turnQ, V3.normSq, V3.dot] at *
  have h1 := Real.sin_sq_add_cos_sq a
  have h2 := Real.sin_sq_add_cos_sq b
  linear_combination (Real.sin a) ^ 2 * hm + (Real.sin b) ^ 2 * hn + h1 + h2

theorem pure_dist {m n : V3} (hm : m.normSq = 1) (hn : n.normSq = 1) (a b : ℝ) :
    ‖a • pure m - b • pure n‖ ^ 2 = (a - b) ^ 2 + 2 * (a * b) * (1 - m.dot n) := by
  have e : ∀ v : V3, pure v = hamilton ⟨v.x, v.y, v.z, 0⟩ := fun v => rfl
  rw [e, e, hamilton_smul, hamilton_smul, hamilton_sub, DQuat.norm_hamilton]
  simp only [V3.normSq, V3.dot] at *
  linear_combination a ^ 2 * hm + b ^ 2 * hn

theorem unit_dot_le {m n : V3} (hm : m.normSq = 1) (hn : n.normSq = 1) : m.dot n ≤ 1 := by
  simp only [V3.normSq, V3.dot] at *
  nlinarith [sq_nonneg (m.x - n.x), sq_nonneg (m.y - n.y), sq_nonneg (m.z - n.z)]

theorem turnQ_norm {m : V3} (hm : m.normSq = 1) (a : ℝ) : ‖hamilton (turnQ m a)‖ = 1 := by
  refine norm_eq_of zero_le_one ?_
  simp only [turnQ, V3.normSq, V3.dot] at *
  have h1 := Real.sin_sq_add_cos_sq a
  linear_combination (Real.sin a) ^ 2 * hm + h1

/-- the exponential does not move vectors apart -/
theorem turn_apart {m n : V3} (hm : m.normSq = 1) (hn : n.normSq = 1) {a b : ℝ} (ha : 0 ≤ a) (hb : 0 ≤ b) :
    ‖hamilton (turnQ m a) - hamilton (turnQ n b)‖ ≤ ‖a • pure m - b • pure n‖ := by
  refine le_of_sq_le_sq ?_ (norm_nonneg _)
  rw [turn_dist hm hn, pure_dist hm hn]
  have g := unit_dot_le hm hn
  have c := Real.one_sub_sq_div_two_le_cos (x := a - b)
  have s : Real.sin a * Real.sin b ≤ a * b := by
    refine (le_abs_self _).trans ?_
    rw [abs_mul]
    exact mul_le_mul (Real.abs_sin_le_abs.trans (abs_of_nonneg ha).le) (Real.abs_sin_le_abs.trans (abs_of_nonneg hb).le) (abs_nonneg _) ha
  nlinarith [mul_le_mul_of_nonneg_right s (sub_nonneg.2 g)]

theorem sin_part {r t : ℝ} (r0 : 0 ≤ r) (r1 : r ≤ 1) (t0 : 0 ≤ t) (t1 : t ≤ Real.pi) (h : -(1 / 2) ≤ Real.cos t) : 0 ≤ Real.sin (r * t) ∧ Real.sin (r * t) ≤ 2 * Real.sin t := by
  have rt : r * t ≤ t := mul_le_of_le_one_left t0 r1
  have rt0 : 0 ≤ r * t := mul_nonneg r0 t0
  refine ⟨Real.sin_nonneg_of_nonneg_of_le_pi rt0 (rt.trans t1), ?_⟩
  rcases le_total t (Real.pi / 2) with k | k
  · have s := Real.sin_nonneg_of_nonneg_of_le_pi t0 t1
    have := Real.sin_le_sin_of_le_of_le_pi_div_two (by linarith [Real.pi_pos]) k rt
    linarith
  · have s := Real.sin_nonneg_of_nonneg_of_le_pi t0 t1
    have c0 := Real.cos_nonpos_of_pi_div_two_le_of_le k (by linarith [Real.pi_pos])
    have e := Real.sin_sq_add_cos_sq t
    have : 1 / 2 ≤ Real.sin t := by nlinarith
    linarith [Real.sin_le_one (r * t)]

/-- nor does a power between zero and one move unit quaternions apart by more than a factor, on a little more than the half sphere -/
theorem power_near {m n : V3} (hm : m.normSq = 1) (hn : n.normSq = 1) {r a b : ℝ} (r0 : 0 ≤ r) (r1 : r ≤ 1) (ha : 0 ≤ a) (ha' : a ≤ Real.pi) (hb : 0 ≤ b) (hb' : b ≤ Real.pi)
    (ca : -(1 / 2) ≤ Real.cos a) (cb : -(1 / 2) ≤ Real.cos b) :
    ‖hamilton (turnQ m (r * a)) - hamilton (turnQ n (r * b))‖ ≤ 2 * ‖hamilton (turnQ m a) - hamilton (turnQ n b)‖ := by
  refine le_of_sq_le_sq ?_ (by positivity)
  rw [mul_pow, turn_dist hm hn, turn_dist hm hn]
  have g := unit_dot_le hm hn
  obtain ⟨a1, a2⟩ := sin_part r0 r1 ha ha' ca
  obtain ⟨b1, b2⟩ := sin_part r0 r1 hb hb' cb
  have s := mul_le_mul a2 b2 b1 (a1.trans a2)
  have s' := mul_le_mul_of_nonneg_right s (sub_nonneg.2 g)
  have c : Real.cos (a - b) ≤ Real.cos (r * a - r * b) := by
    rw [← mul_sub, ← Real.cos_abs (a - b), ← Real.cos_abs (r * (a - b)), abs_mul, abs_of_nonneg r0]
    refine Real.cos_le_cos_of_nonneg_of_le_pi (by positivity) (abs_le.2 ⟨by linarith, by linarith⟩) (mul_le_of_le_one_left (abs_nonneg _) r1)
  have := Real.cos_le_one (a - b)
  linarith

/-- two angles are near if the points of the circle are -/
theorem angle_of_chord {a b e : ℝ} (ha : |a| ≤ Real.pi) (hb : 0 ≤ b) (hb' : b ≤ Real.pi) (cb : -(1 / 2) ≤ Real.cos b) (he : 0 ≤ e) (he' : e ≤ 1 / 10)
    (h : (Real.cos a - Real.cos b) ^ 2 + (Real.sin a - Real.sin b) ^ 2 ≤ e ^ 2) : |a - b| ≤ 158 / 100 * e := by
  have p3 := Real.pi_gt_three
  have p4 := Real.pi_lt_d2
  have b2 : b ≤ 2 * Real.pi / 3 := by
    by_contra k
    push Not at k
    have := Real.cos_lt_cos_of_nonneg_of_le_pi (by positivity) hb' k
    rw [show 2 * Real.pi / 3 = Real.pi - Real.pi / 3 by ring, Real.cos_pi_sub, Real.cos_pi_div_three] at this
    linarith
  have d : |a - b| ≤ 5 * Real.pi / 3 := by
    obtain ⟨h1, h2⟩ := abs_le.1 ha
    exact abs_le.2 ⟨by linarith, by linarith⟩
  set x := |a - b| / 2 with hx
  have x0 : 0 ≤ x := by positivity
  have s : Real.sin x ^ 2 = (1 - Real.cos (a - b)) / 2 := by
    rw [Real.sin_sq_eq_half_sub, hx, mul_div_cancel₀ _ two_ne_zero, Real.cos_abs]; ring
  have s2 : Real.sin x ≤ e / 2 := by
    refine le_of_sq_le_sq ?_ (by positivity)
    rw [s, Real.cos_sub]
    nlinarith [Real.sin_sq_add_cos_sq a, Real.sin_sq_add_cos_sq b]
  rcases le_total x (Real.pi / 2) with k | k
  · have := Real.mul_le_sin x0 k
    have q : x ≤ Real.pi / 2 * (e / 2) := by
      rw [div_mul_eq_mul_div, div_le_iff₀ Real.pi_pos] at this
      nlinarith
    have : |a - b| = 2 * x := by rw [hx]; ring
    rw [this]
    nlinarith
  · exfalso
    have := Real.mul_le_sin (x := Real.pi - x) (by rw [hx]; linarith) (by linarith)
    rw [Real.sin_pi_sub, div_mul_eq_mul_div, div_le_iff₀ Real.pi_pos] at this
    have x5 : x ≤ 5 * Real.pi / 6 := by rw [hx]; linarith
    nlinarith

/-- every quaternion but zero is a multiple of a turn -/
theorem exists_turn (q : Quat) (h : 0 < ‖hamilton q‖) : ∃ m t, V3.normSq m = 1 ∧ 0 ≤ t ∧ t ≤ Real.pi ∧ Real.cos t = q.s / ‖hamilton q‖ ∧ hamilton q = ‖hamilton q‖ • hamilton (turnQ m t) ∧
    pure ⟨q.x, q.y, q.z⟩ = (‖hamilton q‖ * Real.sin t) • pure m := by
  set K := ‖hamilton q‖ with hK
  have e := DQuat.norm_hamilton q
  rw [← hK] at e
  have c := DQuat.component_le q
  have c4 : |q.s / K| ≤ 1 := by rw [abs_div, abs_of_pos h, div_le_one h]; exact c.2.2.2
  have ct : Real.cos (Real.arccos (q.s / K)) = q.s / K := Real.cos_arccos (abs_le.1 c4).1 (abs_le.1 c4).2
  set V := Real.sqrt (q.x ^ 2 + q.y ^ 2 + q.z ^ 2) with hV
  have V2 : V ^ 2 = q.x ^ 2 + q.y ^ 2 + q.z ^ 2 := Real.sq_sqrt (by positivity)
  have st : K * Real.sin (Real.arccos (q.s / K)) = V := by
    rw [Real.sin_arccos, hV, ← Real.sqrt_sq h.le, ← Real.sqrt_mul (by positivity), Real.sqrt_sq h.le]
    congr 1
    field_simp
    linarith
  suffices ∃ m : V3, m.normSq = 1 ∧ q.x = V * m.x ∧ q.y = V * m.y ∧ q.z = V * m.z by
    obtain ⟨m, hm, hx, hy, hz⟩ := this
    refine ⟨m, _, hm, Real.arccos_nonneg _, Real.arccos_le_pi _, ct, ?_, ?_⟩
    · rw [hamilton_smul, turnQ, ct]
      have : q = ⟨K * (Real.sin (Real.arccos (q.s / K)) * m.x), K * (Real.sin (Real.arccos (q.s / K)) * m.y), K * (Real.sin (Real.arccos (q.s / K)) * m.z), K * (q.s / K)⟩ := by
        rw [← mul_assoc, ← mul_assoc, ← mul_assoc, st, ← hx, ← hy, ← hz, mul_div_cancel₀ _ h.ne']
      exact congrArg hamilton this
    · rw [st, show pure m = hamilton ⟨m.x, m.y, m.z, 0⟩ from rfl, hamilton_smul, ← hx, ← hy, ← hz, mul_zero]; rfl
  by_cases hv : V = 0
  · rw [hv] at V2
    refine ⟨V3.X, by simp [V3.normSq, V3.dot, V3.X], ?_, ?_, ?_⟩ <;> rw [hv, zero_mul] <;> nlinarith [sq_nonneg q.x, sq_nonneg q.y, sq_nonneg q.z]
  · refine ⟨⟨q.x / V, q.y / V, q.z / V⟩, ?_, ?_, ?_, ?_⟩
    · simp only [V3.normSq, V3.dot]; field_simp; linarith
    all_goals dsimp only; field_simp

theorem pure_norm (x y z : ℝ) : ‖pure ⟨x, y, z⟩‖ = Real.sqrt (x * x + y * y + z * z) := by
  have := norm_sqrt ⟨x, y, z, 0⟩
  rw [show pure ⟨x, y, z⟩ = hamilton ⟨x, y, z, 0⟩ from rfl, ← this]
  simp

theorem tiny_535 : (2 : ℝ) ^ (-535 : ℤ) ≤ DQuat.u / 1000 * 2 ^ (-100 : ℤ) := by
  have : DQuat.u = 2 ^ (-53 : ℤ) := by rw [DQuat.u]; norm_num
  rw [this]
  have h : (2 : ℝ) ^ (-535 : ℤ) ≤ 2 ^ (-10 : ℤ) * (2 ^ (-53 : ℤ) * 2 ^ (-100 : ℤ)) := by
    rw [← zpow_add₀ two_ne_zero, ← zpow_add₀ two_ne_zero]
    exact zpow_le_zpow_right₀ one_le_two (by norm_num)
  refine h.trans ?_
  have p : (0 : ℝ) < 2 ^ (-53 : ℤ) * 2 ^ (-100 : ℤ) := by positivity
  rw [div_mul_eq_mul_div, div_eq_mul_one_div _ (1000 : ℝ), mul_comm _ (1 / 1000 : ℝ)]
  exact mul_le_mul_of_nonneg_right (by norm_num) p.le

/-- the computed length of a vector, and what the test against `eps` tells -/
theorem vec_norm (o : Bool) {x y z e : ℝ} (hx : |x| ≤ 2 ^ 500) (hy : |y| ≤ 2 ^ 500) (hz : |z| ≤ 2 ^ 500) (he : 2 ^ (-100 : ℤ) ≤ e) :
    ∃ n, DVec.norm o ⟨.fin x, .fin y, .fin z⟩ = .fin n ∧ Representable n ∧
      ((n ≤ e ∧ ‖pure ⟨x, y, z⟩‖ ≤ 102 / 100 * e) ∨ (e < n ∧ 0 < ‖pure ⟨x, y, z⟩‖ ∧ |n - ‖pure ⟨x, y, z⟩‖| ≤ 26 / 10 * DQuat.u * ‖pure ⟨x, y, z⟩‖)) := by
  have u0 := DQuat.u_pos
  have u1 := DQuat.u_small
  have t0 := DQuat.t_pos
  refine ⟨_, norm_fin3 o hx hy hz, rnd_representable _, ?_⟩
  have k := DVec.dot3_near o x y z x y z
  simp only [abs_mul_self] at k
  have hS : 0 ≤ x * x + y * y + z * z := add_nonneg (add_nonneg (mul_self_nonneg _) (mul_self_nonneg _)) (mul_self_nonneg _)
  have r := DVec.root_near (S' := DVec.dot3 o x y z x y z) (S := x * x + y * y + z * z) (c := 152 / 100 * DQuat.u) (square_nonneg o x y z) hS (by positivity) (by linarith) (by
    refine k.trans (add_le_add (mul_le_mul_of_nonneg_right ?_ hS) (by linarith))
    clear k hx hy hz he
    nlinarith)
  rw [← pure_norm] at r
  have V0 : 0 ≤ ‖pure ⟨x, y, z⟩‖ := norm_nonneg _
  generalize rnd (Real.sqrt (DVec.dot3 o x y z x y z)) = n at *
  generalize ‖pure ⟨x, y, z⟩‖ = V at *
  clear k hx hy hz hS
  have t5 := tiny_535
  have p0 : (0 : ℝ) < 2 ^ (-100 : ℤ) := two_zpow_pos _
  generalize (2 : ℝ) ^ (-100 : ℤ) = p at *
  generalize (2 : ℝ) ^ (-535 : ℤ) = s at *
  obtain ⟨r1, r2⟩ := abs_le.1 r
  have uV : DQuat.u * V ≤ 1 / 1000 * V := mul_le_mul_of_nonneg_right (by linarith) V0
  have up : DQuat.u * p ≤ 1 / 1000 * p := mul_le_mul_of_nonneg_right (by linarith) p0.le
  rcases le_or_gt n e with h | h
  · left
    exact ⟨h, by linarith⟩
  · right
    have V1 : 1 / 2 * p ≤ V := by linarith
    have : DQuat.u * (1 / 2 * p) ≤ DQuat.u * V := mul_le_mul_of_nonneg_left V1 u0.le
    exact ⟨h, by linarith, r.trans (by linarith)⟩

theorem ratio_rel {n V : ℝ} (hV : 0 < V) (h : |n - V| ≤ 26 / 10 * DQuat.u * V) : |V / n - 1| ≤ 27 / 10 * DQuat.u := by
  have u0 := DQuat.u_pos
  have u1 := DQuat.u_small
  have h1 := abs_le.1 h
  have uV : DQuat.u * V ≤ 1 / 1000 * V := mul_le_mul_of_nonneg_right (by linarith) hV.le
  have n0 : 0 < n := by linarith
  rw [div_sub_one n0.ne', abs_div, abs_of_pos n0, div_le_iff₀ n0, abs_sub_comm]
  refine h.trans ?_
  have : DQuat.u * (990 / 1000 * V) ≤ DQuat.u * n := mul_le_mul_of_nonneg_left (by linarith) u0.le
  have : DQuat.u * V ≥ 0 := by positivity
  nlinarith

theorem tiny_t : DQuat.t / 2 ^ (-100 : ℤ) ≤ DQuat.u / 10000 := by
  have e : DQuat.t / 2 ^ (-100 : ℤ) = 2 ^ (-975 : ℤ) := by
    rw [DQuat.t, ← zpow_sub₀ two_ne_zero]; norm_num
  have : DQuat.u = 2 ^ (-53 : ℤ) := by rw [DQuat.u]; norm_num
  rw [e, this]
  have h : (2 : ℝ) ^ (-975 : ℤ) ≤ 2 ^ (-53 : ℤ) * 2 ^ (-14 : ℤ) := by
    rw [← zpow_add₀ two_ne_zero]; exact zpow_le_zpow_right₀ one_le_two (by norm_num)
  refine h.trans ?_
  rw [div_eq_mul_inv]
  exact mul_le_mul_of_nonneg_left (by norm_num) (by positivity)

theorem three_factors {g a b c : ℝ} (hg : |g - 1| ≤ 27 / 10 * DQuat.u) (ha : |a| ≤ DQuat.u) (hb : |b| ≤ DQuat.u) : |g * (1 + a) * (1 + b) * c - c| ≤ 48 / 10 * DQuat.u * |c| := by
  have u0 := DQuat.u_pos
  have u1 := DQuat.u_small
  rw [show g * (1 + a) * (1 + b) * c - c = (g * (1 + a) * (1 + b) - 1) * c by ring, abs_mul]
  refine mul_le_mul_of_nonneg_right ?_ (abs_nonneg _)
  have s : |a * b| ≤ DQuat.u * (1 / 1000) := by rw [abs_mul]; exact mul_le_mul ha (hb.trans (by linarith)) (abs_nonneg _) u0.le
  have k : |a + b + a * b| ≤ 2001 / 1000 * DQuat.u := by
    refine (abs_add_three _ _ _).trans (by linarith)
  have m : |(g - 1) * (a + b + a * b)| ≤ DQuat.u * (1 / 1000) * 3 := by
    rw [abs_mul]
    refine (mul_le_mul hg (k.trans (show _ ≤ 1 / 1000 by linarith)) (abs_nonneg _) (by positivity)).trans (by linarith)
  rw [show g * (1 + a) * (1 + b) - 1 = (g - 1) + (a + b + a * b) + (g - 1) * (a + b + a * b) by ring]
  refine (abs_add_three _ _ _).trans (by linarith)

/-- the quotient by the computed length, times a component -/
theorem log_factor {α n V μ : ℝ} (hV : 0 < V) (V5 : V ≤ 5) (h : |n - V| ≤ 26 / 10 * DQuat.u * V) (hμ : |μ| ≤ 1) :
    |rnd (rnd (α / n) * (V * μ)) - α * μ| ≤ 48 / 10 * DQuat.u * |α * μ| + DQuat.u / 1000 := by
  have u0 := DQuat.u_pos
  have u1 := DQuat.u_small
  have t0 := DQuat.t_pos
  have tu := DRot.t_u
  obtain ⟨d, g, hd, hg, e⟩ := DLinear.rnd_split (α / n)
  obtain ⟨d', g', hd', hg', e'⟩ := DLinear.rnd_split (rnd (α / n) * (V * μ))
  change |d| ≤ DQuat.u at hd
  change |d'| ≤ DQuat.u at hd'
  change |g| ≤ DQuat.t at hg
  change |g'| ≤ DQuat.t at hg'
  have r := three_factors (c := α * μ) (ratio_rel hV h) hd hd'
  rw [e', e, show (α / n * (1 + d) + g) * (V * μ) * (1 + d') + g' - α * μ = (V / n * (1 + d) * (1 + d') * (α * μ) - α * μ) + (g * (V * μ * (1 + d')) + g') by ring]
  refine (abs_add_le _ _).trans (add_le_add r ?_)
  have w : |V * μ * (1 + d')| ≤ 5 * 1 * 2 := by
    rw [abs_mul, abs_mul, abs_of_pos hV]
    exact mul_le_mul (mul_le_mul V5 hμ (abs_nonneg _) (by norm_num)) ((abs_add_le _ _).trans (by rw [abs_one]; linarith)) (abs_nonneg _) (by norm_num)
  refine (abs_add_le _ _).trans ?_
  rw [abs_mul]
  have := mul_le_mul hg w (abs_nonneg _) t0.le
  norm_num at tu
  linarith

/-- a component times the sine, divided by the computed length -/
theorem exp_factor {s n V μ : ℝ} (hV : 0 < V) (hn : 2 ^ (-100 : ℤ) < n) (h : |n - V| ≤ 26 / 10 * DQuat.u * V) :
    |rnd (rnd (s * (V * μ)) / n) - s * μ| ≤ 48 / 10 * DQuat.u * |s * μ| + DQuat.u / 1000 := by
  have u0 := DQuat.u_pos
  have u1 := DQuat.u_small
  have t0 := DQuat.t_pos
  have tu := DRot.t_u
  have tt := tiny_t
  have p0 : (0 : ℝ) < 2 ^ (-100 : ℤ) := two_zpow_pos _
  have n0 : 0 < n := p0.trans hn
  obtain ⟨d, g, hd, hg, e⟩ := DLinear.rnd_split (s * (V * μ))
  obtain ⟨d', g', hd', hg', e'⟩ := DLinear.rnd_split (rnd (s * (V * μ)) / n)
  change |d| ≤ DQuat.u at hd
  change |d'| ≤ DQuat.u at hd'
  change |g| ≤ DQuat.t at hg
  change |g'| ≤ DQuat.t at hg'
  have r := three_factors (c := s * μ) (ratio_rel hV h) hd hd'
  rw [e', e, show (s * (V * μ) * (1 + d) + g) / n * (1 + d') + g' - s * μ = (V / n * (1 + d) * (1 + d') * (s * μ) - s * μ) + (g / n * (1 + d') + g') by ring]
  refine (abs_add_le _ _).trans (add_le_add r ?_)
  have w : |g / n| ≤ DQuat.u / 10000 := by
    rw [abs_div, abs_of_pos n0]
    exact (div_le_div₀ t0.le hg p0 hn.le).trans tt
  have w2 : |1 + d'| ≤ 2 := (abs_add_le _ _).trans (by rw [abs_one]; linarith)
  refine (abs_add_le _ _).trans ?_
  rw [abs_mul]
  have := mul_le_mul w w2 (abs_nonneg _) (by positivity)
  norm_num at tu
  linarith

theorem le_500 {x : ℝ} (h : |x| ≤ 1000) : |x| ≤ 2 ^ 500 := h.trans ((show (1000 : ℝ) ≤ 2 ^ 10 by norm_num).trans (pow_le_pow_right₀ one_le_two (by norm_num)))

theorem quotient_fin {a n : ℝ} (ha : |a| ≤ 2 ^ 500) (hn : 2 ^ (-100 : ℤ) ≤ n) : (F64.fin a).div (.fin n) = .fin (rnd (a / n)) ∧ |rnd (a / n)| ≤ 2 ^ 600 := by
  have p0 : (0 : ℝ) < 2 ^ (-100 : ℤ) := two_zpow_pos _
  have n0 : 0 < n := p0.trans_le hn
  have h : |a / n| ≤ 2 ^ 600 := by
    rw [abs_div, abs_of_pos n0, div_le_iff₀ n0]
    refine ha.trans ?_
    have : (2 : ℝ) ^ 500 = 2 ^ 600 * 2 ^ (-100 : ℤ) := by
      rw [← zpow_natCast, ← zpow_natCast, ← zpow_add₀ two_ne_zero]; norm_num
    rw [this]
    exact mul_le_mul_of_nonneg_left hn (by positivity)
  have h2 : |rnd (a / n)| ≤ 2 ^ 600 := DLinear.rnd_abs_le (DQuat.rep_two 600) h
  refine ⟨?_, h2⟩
  simp only [F64.div, if_neg n0.ne']
  exact F64.ofExact_fin (lt_of_le_of_lt h2 (pow_lt_pow_right₀ one_lt_two (by norm_num)))

theorem pure_smul (k : ℝ) (v : V3) : k • pure v = pure ⟨k * v.x, k * v.y, k * v.z⟩ := by
  rw [pure, pure, hamilton_smul, mul_zero]

theorem pure_unit {m : V3} (hm : m.normSq = 1) : ‖pure m‖ = 1 := by
  refine norm_eq_of zero_le_one ?_
  simp only [V3.normSq, V3.dot] at hm
  linarith

theorem unit_component {m : V3} (hm : m.normSq = 1) : |m.x| ≤ 1 ∧ |m.y| ≤ 1 ∧ |m.z| ≤ 1 := by
  have := DQuat.component_le ⟨m.x, m.y, m.z, 0⟩
  rw [show hamilton ⟨m.x, m.y, m.z, 0⟩ = pure m from rfl, pure_unit hm] at this
  exact ⟨this.1, this.2.1, this.2.2.1⟩

/-- three components near, each relatively -/
theorem pure_rel_near {a b : V3} {k τ : ℝ} (k0 : 0 ≤ k) (t0 : 0 ≤ τ) (hx : |a.x - b.x| ≤ k * |b.x| + τ) (hy : |a.y - b.y| ≤ k * |b.y| + τ) (hz : |a.z - b.z| ≤ k * |b.z| + τ) :
    ‖pure a - pure b‖ ≤ k * ‖pure b‖ + 2 * τ :=
  four_rel_near (a := ⟨a.x, a.y, a.z, 0⟩) (b := ⟨b.x, b.y, b.z, 0⟩) k0 t0 hx hy hz (by simpa using t0)

/-- the angle that the computed length and the scalar part make -/
theorem atan_near {α n s V K θ : ℝ} (hK : 0 < K) (hα : |α| ≤ Real.pi) (θ0 : 0 ≤ θ) (θ1 : θ ≤ Real.pi) (c0 : -(1 / 2) ≤ Real.cos θ) (hs : s = K * Real.cos θ) (hV : V = K * Real.sin θ)
    (h : |n - V| ≤ 26 / 10 * DQuat.u * V) (h1 : |s - √(n ^ 2 + s ^ 2) * Real.cos α| ≤ 2 ^ (-51 : ℤ) * √(n ^ 2 + s ^ 2)) (h2 : |n - √(n ^ 2 + s ^ 2) * Real.sin α| ≤ 2 ^ (-51 : ℤ) * √(n ^ 2 + s ^ 2)) :
    |α - θ| ≤ 19 * DQuat.u := by
  have u0 := DQuat.u_pos
  have u1 := DQuat.u_small
  have e51 : (2 : ℝ) ^ (-51 : ℤ) = 4 * DQuat.u := by rw [DQuat.u]; norm_num
  rw [e51] at h1 h2
  have s1 : 0 ≤ Real.sin θ := Real.sin_nonneg_of_nonneg_of_le_pi θ0 θ1
  have VK : V ≤ K := by rw [hV]; exact mul_le_of_le_one_right hK.le (Real.sin_le_one _)
  have V0 : 0 ≤ V := by rw [hV]; positivity
  have nV : |n - V| ≤ 26 / 10 * DQuat.u * K := h.trans (mul_le_mul_of_nonneg_left VK (by positivity))
  have KK : √(V ^ 2 + s ^ 2) = K := by
    rw [hV, hs, show (K * Real.sin θ) ^ 2 + (K * Real.cos θ) ^ 2 = K ^ 2 * (Real.sin θ ^ 2 + Real.cos θ ^ 2) by ring, Real.sin_sq_add_cos_sq, mul_one, Real.sqrt_sq hK.le]
  have n0 : 0 ≤ n := by
    have := abs_le.1 h
    have uV : DQuat.u * V ≤ 1 / 1000 * V := mul_le_mul_of_nonneg_right (by linarith) V0
    linarith
  set ρ := √(n ^ 2 + s ^ 2) with hρ
  have ρ2 : ρ ^ 2 = n ^ 2 + s ^ 2 := Real.sq_sqrt (by positivity)
  have ρ0 : 0 ≤ ρ := Real.sqrt_nonneg _
  have K2 : K ^ 2 = V ^ 2 + s ^ 2 := by rw [← KK]; exact Real.sq_sqrt (by positivity)
  have nρ : n ≤ ρ := le_of_sq_le_sq (by nlinarith [sq_nonneg s]) ρ0
  have ρK : |ρ - K| ≤ |n - V| := by
    have p : (ρ - K) * (ρ + K) = (n - V) * (n + V) := by linear_combination ρ2 - K2
    have q : 0 < ρ + K := by linarith
    have : |ρ - K| * (ρ + K) ≤ |n - V| * (ρ + K) := by
      calc |ρ - K| * (ρ + K) = |(ρ - K) * (ρ + K)| := by rw [abs_mul, abs_of_pos q]
        _ = |n - V| * (n + V) := by rw [p, abs_mul, abs_of_nonneg (by linarith : 0 ≤ n + V)]
        _ ≤ |n - V| * (ρ + K) := mul_le_mul_of_nonneg_left (by linarith) (abs_nonneg _)
    exact le_of_mul_le_mul_right this q
  have ρK' := ρK.trans nV
  have ρ1 : ρ ≤ 1001 / 1000 * K := by
    have := abs_le.1 ρK'
    have : DQuat.u * K ≤ 1 / 10000 * K := mul_le_mul_of_nonneg_right (by linarith) hK.le
    linarith
  have uρ : DQuat.u * ρ ≤ DQuat.u * (1001 / 1000 * K) := mul_le_mul_of_nonneg_left ρ1 u0.le
  have uK : 0 < DQuat.u * K := by positivity
  have ca := Real.abs_cos_le_one α
  have sa := Real.abs_sin_le_one α
  have A : |Real.cos α - Real.cos θ| ≤ 661 / 100 * DQuat.u := by
    have : |K * (Real.cos α - Real.cos θ)| ≤ 661 / 100 * DQuat.u * K := by
      rw [show K * (Real.cos α - Real.cos θ) = -(s - ρ * Real.cos α) + -((ρ - K) * Real.cos α) by rw [hs]; ring]
      refine (abs_add_le _ _).trans ?_
      rw [abs_neg, abs_neg, abs_mul (ρ - K)]
      have := mul_le_mul ρK' ca (abs_nonneg _) (by positivity)
      linarith
    rw [abs_mul, abs_of_pos hK, mul_comm] at this
    exact le_of_mul_le_mul_right this hK
  have B : |Real.sin α - Real.sin θ| ≤ 921 / 100 * DQuat.u := by
    have : |K * (Real.sin α - Real.sin θ)| ≤ 921 / 100 * DQuat.u * K := by
      rw [show K * (Real.sin α - Real.sin θ) = -(n - ρ * Real.sin α) + -((ρ - K) * Real.sin α) + (n - V) by rw [hV]; ring]
      refine (abs_add_three _ _ _).trans ?_
      rw [abs_neg, abs_neg, abs_mul (ρ - K)]
      have := mul_le_mul ρK' sa (abs_nonneg _) (by positivity)
      linarith
    rw [abs_mul, abs_of_pos hK, mul_comm] at this
    exact le_of_mul_le_mul_right this hK
  have C := angle_of_chord (e := 12 * DQuat.u) hα θ0 θ1 c0 (by positivity) (by linarith) (by
    have a2 := sq_le_sq.2 (A.trans (le_abs_self _))
    have b2 := sq_le_sq.2 (B.trans (le_abs_self _))
    nlinarith)
  linarith

theorem log_abs_le {K : ℝ} (h1 : 1 / 5 ≤ K) (h2 : K ≤ 5) : |Real.log K| ≤ 4 := by
  have K0 : 0 < K := by linarith
  have a := Real.log_le_sub_one_of_pos K0
  have b := Real.one_sub_inv_le_log_of_pos K0
  have : K⁻¹ ≤ 5 := by rw [inv_le_comm₀ K0 (by norm_num)]; linarith
  exact abs_le.2 ⟨by linarith, by linarith⟩

theorem log_rel {K k : ℝ} (h : 0 < K) (hk : |k - K| ≤ 32 / 10 * DQuat.u * K) : |Real.log k - Real.log K| ≤ 4 * DQuat.u := by
  have u0 := DQuat.u_pos
  have u1 := DQuat.u_small
  obtain ⟨h1, h2⟩ := abs_le.1 hk
  have uK : DQuat.u * K ≤ 1 / 1000 * K := mul_le_mul_of_nonneg_right (by linarith) h.le
  have k0 : 0 < k := by linarith
  rw [← Real.log_div k0.ne' h.ne']
  have q0 : 0 < k / K := by positivity
  have a := Real.log_le_sub_one_of_pos q0
  have b := Real.one_sub_inv_le_log_of_pos q0
  rw [inv_div] at b
  have c : k / K ≤ 1 + 4 * DQuat.u := by rw [div_le_iff₀ h]; nlinarith
  have d : K / k ≤ 1 + 4 * DQuat.u := by
    rw [div_le_iff₀ k0]
    have : DQuat.u * (990 / 1000 * K) ≤ DQuat.u * k := mul_le_mul_of_nonneg_left (by linarith) u0.le
    nlinarith
  exact abs_le.2 ⟨by linarith, by linarith⟩

/-- **the logarithm in double precision** -/
theorem log_near (o : Bool) {L : MathLib} (hL : MathLib.Good L) {w : Quat} (hw : Tempered w) (k1 : 1 / 5 ≤ ‖hamilton w‖) (k2 : ‖hamilton w‖ ≤ 5) {m : V3} {θ : ℝ} (hm : m.normSq = 1) (θ0 : 0 ≤ θ) (θ1 : θ ≤ Real.pi)
    (c0 : -(1 / 2) ≤ Real.cos θ) (hw' : hamilton w = ‖hamilton w‖ • hamilton (turnQ m θ)) {e : ℝ} (he : 2 ^ (-100 : ℤ) ≤ e) (he' : e ≤ 1 / 1000) :
    ∃ l : Quat, DQuat.log o (.fin e) L (.of w) = .ok (.of l) ∧ ‖pure ⟨l.x, l.y, l.z⟩ - θ • pure m‖ ≤ 36 * DQuat.u + 9 * e ∧ |l.s - Real.log ‖hamilton w‖| ≤ 8 * DQuat.u := by
  have u0 := DQuat.u_pos
  have u1 := DQuat.u_small
  have p0 : (0 : ℝ) < 2 ^ (-100 : ℤ) := two_zpow_pos _
  set K := ‖hamilton w‖ with hK
  have K0 : 0 < K := by linarith
  obtain ⟨⟨rx, hx⟩, ⟨ry, hy⟩, ⟨rz, hz⟩, ⟨rs, hs⟩⟩ := hw
  have s1 : 0 ≤ Real.sin θ := Real.sin_nonneg_of_nonneg_of_le_pi θ0 θ1
  have S : 2 ^ (-400 : ℤ) ≤ w.x * w.x + w.y * w.y + w.z * w.z + w.s * w.s := by
    rw [norm_sq, ← hK]
    refine (zpow_le_zpow_right₀ one_le_two (show (-400 : ℤ) ≤ -5 by norm_num)).trans ?_
    norm_num
    nlinarith
  have nn : DQuat.norm (.of w) = .ok (.fin (DQuat.nrm w.x w.y w.z w.s)) := DQuat.norm_fin hx hy hz hs
  have nq := DQuat.nrm_near S
  rw [norm_sqrt, ← hK] at nq
  have uK : DQuat.u * K ≤ 1 / 1000 * K := mul_le_mul_of_nonneg_right (by linarith) K0.le
  obtain ⟨y, ey, -, hy'⟩ := hL.log (DQuat.nrm w.x w.y w.z w.s) (rnd_representable _) (by linarith [(abs_le.1 nq).1]) (by linarith [(abs_le.1 nq).2])
  have e51 : (2 : ℝ) ^ (-51 : ℤ) = 4 * DQuat.u := by rw [DQuat.u]; norm_num
  have yl : |y - Real.log K| ≤ 8 * DQuat.u := by
    have := abs_sub_le y (Real.log (DQuat.nrm w.x w.y w.z w.s)) (Real.log K)
    have := log_rel K0 nq
    rw [e51] at hy'
    linarith
  have h0 := congrArg (fun q : Quaternion ℝ => q.imI) hw'
  have h1 := congrArg (fun q : Quaternion ℝ => q.imJ) hw'
  have h2 := congrArg (fun q : Quaternion ℝ => q.imK) hw'
  have h3 := congrArg (fun q : Quaternion ℝ => q.re) hw'
  rw [hamilton_smul] at h0 h1 h2 h3
  change w.x = K * (Real.sin θ * m.x) at h0
  change w.y = K * (Real.sin θ * m.y) at h1
  change w.z = K * (Real.sin θ * m.z) at h2
  change w.s = K * Real.cos θ at h3
  set V := K * Real.sin θ with hV
  have V0 : 0 ≤ V := by positivity
  have pv : pure ⟨w.x, w.y, w.z⟩ = V • pure m := by
    rw [pure_smul, h0, h1, h2]; simp only [mul_assoc, hV]
  have nV : ‖pure ⟨w.x, w.y, w.z⟩‖ = V := by rw [pv, norm_smul, pure_unit hm, mul_one, Real.norm_of_nonneg V0]
  obtain ⟨n, en, rn, hn⟩ := vec_norm o hx hy hz he
  rw [nV] at hn
  have en' : DVec.norm o ⟨(DQuat.of w).x, (DQuat.of w).y, (DQuat.of w).z⟩ = .fin n := en
  rcases hn with ⟨ne, Ve⟩ | ⟨ne, Vp, hn⟩
  · refine ⟨⟨0, 0, 0, y⟩, ?_, ?_, yl⟩
    · rw [DQuat.log, DQuat.of_defined, if_neg (by simp), nn]
      simp only [bind, Except.bind, en', F64.le, ne, decide_true, if_true, ey]
      rfl
    · have c1 : 0 < Real.cos θ := by
        by_contra hc
        push Not at hc
        have := Real.sin_sq_add_cos_sq θ
        have s5 : Real.sin θ ≤ 1 / 100 := by
          have : 1 / 5 * Real.sin θ ≤ K * Real.sin θ := mul_le_mul_of_nonneg_right k1 s1
          linarith
        nlinarith
      have θ2 : θ ≤ Real.pi / 2 := by
        by_contra hc
        push Not at hc
        exact absurd (Real.cos_nonpos_of_pi_div_two_le_of_le hc.le (by linarith [Real.pi_pos])) (not_le.2 c1)
      have q := Real.mul_le_sin θ0 θ2
      have pp := Real.pi_lt_d2
      rw [div_mul_eq_mul_div, div_le_iff₀ Real.pi_pos] at q
      have s5 : Real.sin θ ≤ 51 / 10 * e := by
        have : 1 / 5 * Real.sin θ ≤ K * Real.sin θ := mul_le_mul_of_nonneg_right k1 s1
        linarith
      have : Real.sin θ * Real.pi ≤ Real.sin θ * 3.15 := mul_le_mul_of_nonneg_left pp.le s1
      have z : pure ⟨0, 0, 0⟩ = 0 := by ext <;> rfl
      show ‖pure ⟨0, 0, 0⟩ - θ • pure m‖ ≤ _
      rw [z, zero_sub, norm_neg, norm_smul, pure_unit hm, mul_one, Real.norm_of_nonneg θ0]
      linarith
  · obtain ⟨α, ea, ra, ha, ha1, ha2⟩ := hL.atan2 n w.s
    have απ : |α| ≤ Real.pi := ha.trans piD_near.2
    have pp := Real.pi_lt_d2
    have A := atan_near K0 απ θ0 θ1 c0 h3 hV hn ha1 ha2
    have hne : 2 ^ (-100 : ℤ) ≤ n := he.trans ne.le
    have g := quotient_fin (le_500 (by linarith : |α| ≤ 1000)) hne
    have V5 : V ≤ 5 := (mul_le_of_le_one_right K0.le (Real.sin_le_one _)).trans k2
    obtain ⟨m1, m2, m3⟩ := unit_component hm
    have g5 : |rnd (α / n)| ≤ 2 ^ 500 := by
      refine DLinear.rnd_abs_le (DQuat.rep_two 500) ?_
      have n0 : 0 < n := p0.trans_le hne
      rw [abs_div, abs_of_pos n0, div_le_iff₀ n0]
      have b : (4 : ℝ) ≤ 2 ^ 500 * 2 ^ (-100 : ℤ) := by
        rw [← zpow_natCast, ← zpow_add₀ two_ne_zero, show (4 : ℝ) = 2 ^ (2 : ℤ) by norm_num]
        exact zpow_le_zpow_right₀ one_le_two (by norm_num)
      exact (by linarith : |α| ≤ 4).trans (b.trans (mul_le_mul_of_nonneg_left hne (by positivity)))
    refine ⟨⟨rnd (rnd (α / n) * w.x), rnd (rnd (α / n) * w.y), rnd (rnd (α / n) * w.z), y⟩, ?_, ?_, yl⟩
    · rw [DQuat.log, DQuat.of_defined, if_neg (by simp), nn]
      have ea' : L.atan2 (.fin n) (DQuat.of w).s = .fin α := ea
      simp only [bind, Except.bind, en', F64.le, not_le.2 ne, decide_false, Bool.false_eq_true, if_false, ey, ea', DVec.scale, g.1]
      simp only [DQuat.of, (DVec.mul_fin2 g5 hx).1, (DVec.mul_fin2 g5 hy).1, (DVec.mul_fin2 g5 hz).1]
      rfl
    · have f1 := log_factor (α := α) Vp V5 hn m1
      have f2 := log_factor (α := α) Vp V5 hn m2
      have f3 := log_factor (α := α) Vp V5 hn m3
      rw [hV, mul_assoc, ← h0] at f1
      rw [hV, mul_assoc, ← h1] at f2
      rw [hV, mul_assoc, ← h2] at f3
      have f := pure_rel_near (a := ⟨rnd (rnd (α / n) * w.x), rnd (rnd (α / n) * w.y), rnd (rnd (α / n) * w.z)⟩) (b := ⟨α * m.x, α * m.y, α * m.z⟩) (by positivity) (by positivity) f1 f2 f3
      rw [← pure_smul, norm_smul, pure_unit hm, mul_one, Real.norm_eq_abs] at f
      have i := norm_sub_le_norm_sub_add_norm_sub (pure ⟨rnd (rnd (α / n) * w.x), rnd (rnd (α / n) * w.y), rnd (rnd (α / n) * w.z)⟩) (α • pure m) (θ • pure m)
      rw [← sub_smul, norm_smul, pure_unit hm, mul_one, Real.norm_eq_abs] at i
      have : DQuat.u * |α| ≤ DQuat.u * 3.15 := mul_le_mul_of_nonneg_left (by linarith) u0.le
      have : 0 < e := p0.trans_le he
      linarith

theorem exists_dir (v : V3) : ∃ m : V3, m.normSq = 1 ∧ v.x = ‖pure v‖ * m.x ∧ v.y = ‖pure v‖ * m.y ∧ v.z = ‖pure v‖ * m.z := by
  have e := DQuat.norm_hamilton ⟨v.x, v.y, v.z, 0⟩
  rw [show hamilton ⟨v.x, v.y, v.z, 0⟩ = pure v from rfl] at e
  simp only at e
  by_cases hv : ‖pure v‖ = 0
  · rw [hv] at e
    refine ⟨V3.X, by simp [V3.normSq, V3.dot, V3.X], ?_, ?_, ?_⟩ <;> rw [hv, zero_mul] <;> nlinarith [sq_nonneg v.x, sq_nonneg v.y, sq_nonneg v.z]
  · generalize ‖pure v‖ = N at *
    refine ⟨⟨v.x / N, v.y / N, v.z / N⟩, ?_, ?_, ?_, ?_⟩
    · simp only [V3.normSq, V3.dot]; field_simp; linarith
    all_goals dsimp only; field_simp

theorem exp_range {x : ℝ} (h : |x| ≤ 5) : 1 / 150 ≤ Real.exp x ∧ Real.exp x ≤ 150 := by
  have e5 : Real.exp 5 ≤ 150 := by
    have h1 := Real.exp_one_lt_d9
    have : Real.exp 5 = Real.exp 1 ^ 5 := by rw [← Real.exp_nat_mul]; norm_num
    rw [this]
    exact (pow_le_pow_left₀ (Real.exp_pos _).le h1.le 5).trans (by norm_num)
  obtain ⟨h1, h2⟩ := abs_le.1 h
  refine ⟨?_, (Real.exp_le_exp.2 h2).trans e5⟩
  have : Real.exp (-5) ≤ Real.exp x := Real.exp_le_exp.2 h1
  refine le_trans ?_ this
  rw [Real.exp_neg, one_div]
  exact inv_anti₀ (Real.exp_pos _) e5

theorem turnQ_zero (m : V3) : hamilton (turnQ m 0) = 1 := by
  simp only [turnQ, Real.sin_zero, Real.cos_zero, zero_mul]; ext <;> rfl

theorem scale_fin {q : Quat} {k : ℝ} (hx : |q.x| ≤ 2 ^ 500) (hy : |q.y| ≤ 2 ^ 500) (hz : |q.z| ≤ 2 ^ 500) (hs : |q.s| ≤ 2 ^ 500) (hk : |k| ≤ 2 ^ 500) :
    DQuat.scale (.of q) (.fin k) = .ok (.of ⟨rnd (q.x * k), rnd (q.y * k), rnd (q.z * k), rnd (q.s * k)⟩) := by
  rw [DQuat.scale, DQuat.of_defined, if_neg (by simp)]
  simp only [DQuat.of, (DVec.mul_fin2 hx hk).1, (DVec.mul_fin2 hy hk).1, (DVec.mul_fin2 hz hk).1, (DVec.mul_fin2 hs hk).1]

theorem scale_near (q : Quat) (k : ℝ) : ‖hamilton ⟨rnd (q.x * k), rnd (q.y * k), rnd (q.z * k), rnd (q.s * k)⟩ - k • hamilton q‖ ≤ DQuat.u * (|k| * ‖hamilton q‖) + 2 * DQuat.t := by
  have h := four_rel_near (a := ⟨rnd (q.x * k), rnd (q.y * k), rnd (q.z * k), rnd (q.s * k)⟩) (b := ⟨q.x * k, q.y * k, q.z * k, q.s * k⟩) DQuat.u_pos.le DQuat.t_pos.le (DRot.near1 _) (DRot.near1 _) (DRot.near1 _) (DRot.near1 _)
  have e : hamilton ⟨q.x * k, q.y * k, q.z * k, q.s * k⟩ = k • hamilton q := by
    rw [hamilton_smul]; simp only [mul_comm k]
  rw [e] at h
  rwa [norm_smul k, Real.norm_eq_abs] at h

theorem scaled_sum {k A N x : ℝ} (k1 : 1 / 160 ≤ k) (hA : A ≤ 2181 / 100 * DQuat.u) (na : N ≤ 1001 / 1000) (h : x ≤ DQuat.u * (k * N) + 2 * DQuat.t) :
    x + k * A ≤ 23 * DQuat.u * k := by
  have u0 := DQuat.u_pos
  have tu := DRot.t_u
  have k0 : 0 < k := by linarith
  have j1 := mul_le_mul_of_nonneg_left hA k0.le
  have j2 : DQuat.u * (k * N) ≤ DQuat.u * (k * (1001 / 1000)) := mul_le_mul_of_nonneg_left (mul_le_mul_of_nonneg_left na k0.le) u0.le
  have j3 : DQuat.u * (1 / 160) ≤ DQuat.u * k := mul_le_mul_of_nonneg_left k1 u0.le
  norm_num at tu
  linarith

theorem turn_parts {m : V3} (hm : m.normSq = 1) {s c Y : ℝ} (B1 : |s - Real.sin Y| ≤ 114 / 10 * DQuat.u) (B2 : |c - Real.cos Y| ≤ 114 / 10 * DQuat.u) :
    ‖hamilton ⟨s * m.x, s * m.y, s * m.z, c⟩ - hamilton (turnQ m Y)‖ ≤ 17 * DQuat.u := by
  have u0 := DQuat.u_pos
  refine le_of_sq_le_sq ?_ (by positivity)
  rw [hamilton_sub, DQuat.norm_hamilton]
  simp only [turnQ]
  have b1 := sq_le_sq.2 (B1.trans (le_abs_self _))
  have b2 := sq_le_sq.2 (B2.trans (le_abs_self _))
  simp only [V3.normSq, V3.dot] at hm
  have : (c - Real.cos Y) ^ 2 + (s * m.x - Real.sin Y * m.x) ^ 2 + (s * m.y - Real.sin Y * m.y) ^ 2 + (s * m.z - Real.sin Y * m.z) ^ 2 =
      (c - Real.cos Y) ^ 2 + (s - Real.sin Y) ^ 2 := by linear_combination (s - Real.sin Y) ^ 2 * hm
  rw [this]
  have u2 := sq_nonneg DQuat.u
  rw [mul_pow] at b1 b2 ⊢
  linarith

/-- **the exponential in double precision**: a multiple `k` of the turn; `k` is the exponential of the scalar part unless the vector part is short -/
theorem exp_near (o : Bool) {L : MathLib} (hL : MathLib.Good L) {y : Quat} {m : V3} {Y : ℝ} (hm : m.normSq = 1) (Y0 : 0 ≤ Y) (Y4 : Y ≤ 4) (hy : pure ⟨y.x, y.y, y.z⟩ = Y • pure m) (rs : Representable y.s) (s5 : |y.s| ≤ 5)
    {e : ℝ} (he : 2 ^ (-100 : ℤ) ≤ e) :
    ∃ (b : Quat) (k : ℝ), DQuat.exp o (.fin e) L (.of y) = .ok (.of b) ∧ Representable k ∧ 1 / 160 ≤ k ∧ k ≤ 160 ∧ (Y ≤ 102 / 100 * e ∧ k = 1 ∧ b = ⟨0, 0, 0, 1⟩ ∨ |k - Real.exp y.s| ≤ 4 * DQuat.u * Real.exp y.s ∧ ‖hamilton b - k • hamilton (turnQ m Y)‖ ≤ 23 * DQuat.u * k) ∧
      ‖hamilton b - k • hamilton (turnQ m Y)‖ ≤ (23 * DQuat.u + 102 / 100 * e) * k := by
  have u0 := DQuat.u_pos
  have u1 := DQuat.u_small
  have t0 := DQuat.t_pos
  have tu := DRot.t_u
  have p0 : (0 : ℝ) < 2 ^ (-100 : ℤ) := two_zpow_pos _
  have e0 : 0 < e := p0.trans_le he
  rw [pure_smul] at hy
  have h0 : y.x = Y * m.x := congrArg (fun q : Quaternion ℝ => q.imI) hy
  have h1 : y.y = Y * m.y := congrArg (fun q : Quaternion ℝ => q.imJ) hy
  have h2 : y.z = Y * m.z := congrArg (fun q : Quaternion ℝ => q.imK) hy
  rw [← pure_smul] at hy
  obtain ⟨m1, m2, m3⟩ := unit_component hm
  have bd : ∀ {μ : ℝ}, |μ| ≤ 1 → |Y * μ| ≤ 2 ^ 500 := fun h => le_500 (by
    rw [abs_mul, abs_of_nonneg Y0]
    exact (mul_le_mul Y4 h (abs_nonneg _) (by norm_num)).trans (by norm_num))
  have bx : |y.x| ≤ 2 ^ 500 := by rw [h0]; exact bd m1
  have by' : |y.y| ≤ 2 ^ 500 := by rw [h1]; exact bd m2
  have bz : |y.z| ≤ 2 ^ 500 := by rw [h2]; exact bd m3
  have nV : ‖pure ⟨y.x, y.y, y.z⟩‖ = Y := by rw [hy, norm_smul, pure_unit hm, mul_one, Real.norm_of_nonneg Y0]
  obtain ⟨n, en, rn, hn⟩ := vec_norm o bx by' bz he
  rw [nV] at hn
  have en' : DVec.norm o ⟨(DQuat.of y).x, (DQuat.of y).y, (DQuat.of y).z⟩ = .fin n := en
  rcases hn with ⟨ne, Ve⟩ | ⟨ne, Vp, hn⟩
  · refine ⟨⟨0, 0, 0, 1⟩, 1, ?_, rep_one, by norm_num, by norm_num, .inl ⟨Ve, rfl, rfl⟩, ?_⟩
    · rw [DQuat.exp, DQuat.of_defined, if_neg (by simp)]
      simp only [en', F64.le, ne, decide_true, if_true]
      rfl
    · have e1 : hamilton ⟨0, 0, 0, 1⟩ = 1 := by ext <;> rfl
      rw [one_smul, e1, ← turnQ_zero m]
      refine (turn_apart hm hm le_rfl Y0).trans ?_
      rw [zero_smul, zero_sub, norm_neg, norm_smul, pure_unit hm, mul_one, Real.norm_of_nonneg Y0]
      linarith
  · obtain ⟨k, ek, rk, hk⟩ := hL.exp y.s rs s5
    obtain ⟨E1, E2⟩ := exp_range s5
    have e51 : (2 : ℝ) ^ (-51 : ℤ) = 4 * DQuat.u := by rw [DQuat.u]; norm_num
    rw [e51] at hk
    have uE : DQuat.u * Real.exp y.s ≤ 1 / 1000 * Real.exp y.s := mul_le_mul_of_nonneg_right (by linarith) (Real.exp_pos _).le
    have k1 : 1 / 160 ≤ k := by linarith [(abs_le.1 hk).1]
    have k2 : k ≤ 160 := by linarith [(abs_le.1 hk).2]
    obtain ⟨-, sn1, sn2⟩ := hL.sin n rn
    obtain ⟨-, cn1, cn2⟩ := hL.cos n rn
    have hne : 2 ^ (-100 : ℤ) < n := lt_of_le_of_lt he ne
    have one5 : |L.sin n| ≤ 2 ^ 500 := le_500 (by linarith)
    have sb : ∀ {μ : ℝ}, |μ| ≤ 1 → |rnd (L.sin n * (Y * μ))| ≤ 2 ^ 500 := fun h => by
      refine DLinear.rnd_abs_le (DQuat.rep_two 500) (le_500 ?_)
      rw [abs_mul, abs_mul, abs_of_nonneg Y0]
      have := mul_le_mul Y4 h (abs_nonneg _) (by norm_num)
      exact (mul_le_mul sn1 this (by positivity) (by norm_num)).trans (by norm_num)
    have q1 := quotient_fin (sb m1) hne.le
    have q2 := quotient_fin (sb m2) hne.le
    have q3 := quotient_fin (sb m3) hne.le
    set a : Quat := ⟨rnd (rnd (L.sin n * (Y * m.x)) / n), rnd (rnd (L.sin n * (Y * m.y)) / n), rnd (rnd (L.sin n * (Y * m.z)) / n), L.cos n⟩ with ha
    have f1 := exp_factor (s := L.sin n) (μ := m.x) Vp hne hn
    have f2 := exp_factor (s := L.sin n) (μ := m.y) Vp hne hn
    have f3 := exp_factor (s := L.sin n) (μ := m.z) Vp hne hn
    have A1 : ‖hamilton a - hamilton ⟨L.sin n * m.x, L.sin n * m.y, L.sin n * m.z, L.cos n⟩‖ ≤ 481 / 100 * DQuat.u := by
      have f := pure_rel_near (a := ⟨a.x, a.y, a.z⟩) (b := ⟨L.sin n * m.x, L.sin n * m.y, L.sin n * m.z⟩) (by positivity) (by positivity) f1 f2 f3
      rw [← pure_smul, norm_smul, pure_unit hm, mul_one, Real.norm_eq_abs] at f
      have e : hamilton a - hamilton ⟨L.sin n * m.x, L.sin n * m.y, L.sin n * m.z, L.cos n⟩ = pure ⟨a.x, a.y, a.z⟩ - L.sin n • pure m := by
        rw [pure_smul, pure, pure, hamilton_sub, hamilton_sub, sub_self, sub_self]
      rw [e]
      refine f.trans ?_
      have : DQuat.u * |L.sin n| ≤ DQuat.u * 1 := mul_le_mul_of_nonneg_left sn1 u0.le
      linarith
    have nY : |n - Y| ≤ 104 / 10 * DQuat.u := by
      refine hn.trans ?_
      have : DQuat.u * Y ≤ DQuat.u * 4 := mul_le_mul_of_nonneg_left Y4 u0.le
      linarith
    rw [show (1 : ℝ) / 2 ^ 53 = DQuat.u from rfl] at sn2 cn2
    have B1 : |L.sin n - Real.sin Y| ≤ 114 / 10 * DQuat.u := by
      have := abs_sub_le (L.sin n) (Real.sin n) (Real.sin Y)
      have := Real.abs_sin_sub_sin_le n Y
      linarith
    have B2 : |L.cos n - Real.cos Y| ≤ 114 / 10 * DQuat.u := by
      have := abs_sub_le (L.cos n) (Real.cos n) (Real.cos Y)
      have := Real.abs_cos_sub_cos_le n Y
      linarith
    have A2 : ‖hamilton ⟨L.sin n * m.x, L.sin n * m.y, L.sin n * m.z, L.cos n⟩ - hamilton (turnQ m Y)‖ ≤ 17 * DQuat.u := by
      exact turn_parts hm B1 B2
    have A : ‖hamilton a - hamilton (turnQ m Y)‖ ≤ 2181 / 100 * DQuat.u := by
      have := norm_sub_le_norm_sub_add_norm_sub (hamilton a) (hamilton ⟨L.sin n * m.x, L.sin n * m.y, L.sin n * m.z, L.cos n⟩) (hamilton (turnQ m Y))
      linarith
    have na : ‖hamilton a‖ ≤ 1001 / 1000 := by
      have := norm_sub_norm_le (hamilton a) (hamilton (turnQ m Y))
      rw [turnQ_norm hm] at this
      linarith
    obtain ⟨c1, c2, c3, c4⟩ := DQuat.component_le a
    have sf := scale_fin (q := a) (k := k) (le_500 (by linarith)) (le_500 (by linarith)) (le_500 (by linarith)) (le_500 (by linarith)) (le_500 (abs_le.2 ⟨by linarith, by linarith⟩))
    have sn := scale_near a k
    have k0 : 0 < k := by linarith
    have fin : ‖hamilton ⟨rnd (a.x * k), rnd (a.y * k), rnd (a.z * k), rnd (a.s * k)⟩ - k • hamilton (turnQ m Y)‖ ≤ 23 * DQuat.u * k := by
      have i := norm_sub_le_norm_sub_add_norm_sub (hamilton ⟨rnd (a.x * k), rnd (a.y * k), rnd (a.z * k), rnd (a.s * k)⟩) (k • hamilton a) (k • hamilton (turnQ m Y))
      rw [← smul_sub, norm_smul, Real.norm_eq_abs] at i
      rw [abs_of_pos k0] at i sn
      exact i.trans (scaled_sum k1 A na sn)
    refine ⟨⟨rnd (a.x * k), rnd (a.y * k), rnd (a.z * k), rnd (a.s * k)⟩, k, ?_, rk, k1, k2, .inr ⟨hk, ?_⟩, ?_⟩
    rotate_left
    · exact fin
    · exact fin.trans (mul_le_mul_of_nonneg_right (by linarith) k0.le)
    · rw [DQuat.exp, DQuat.of_defined, if_neg (by simp)]
      have ek' : L.exp (DQuat.of y).s = .fin k := ek
      simp only [en', F64.le, not_le.2 ne, decide_false, Bool.false_eq_true, if_false, ek', libm, DVec.scale, DVec.div]
      rw [← sf]
      have g0 : (F64.fin (L.sin n)).mul (DQuat.of y).x = .fin (rnd (L.sin n * (Y * m.x))) := by rw [← h0]; exact (DVec.mul_fin2 one5 bx).1
      have g1 : (F64.fin (L.sin n)).mul (DQuat.of y).y = .fin (rnd (L.sin n * (Y * m.y))) := by rw [← h1]; exact (DVec.mul_fin2 one5 by').1
      have g2 : (F64.fin (L.sin n)).mul (DQuat.of y).z = .fin (rnd (L.sin n * (Y * m.z))) := by rw [← h2]; exact (DVec.mul_fin2 one5 bz).1
      rw [g0, g1, g2, q1.1, q2.1, q3.1]
      rfl

/-- **a power between zero and one in double precision** -/
theorem pow_near (o : Bool) {L : MathLib} (hL : MathLib.Good L) {w : Quat} (hw : Tempered w) (k1 : 1 / 5 ≤ ‖hamilton w‖) (k2 : ‖hamilton w‖ ≤ 5) {m : V3} {θ : ℝ} (hm : m.normSq = 1) (θ0 : 0 ≤ θ) (θ1 : θ ≤ Real.pi)
    (c0 : -(1 / 2) ≤ Real.cos θ) (hw' : hamilton w = ‖hamilton w‖ • hamilton (turnQ m θ)) {e : ℝ} (he : 2 ^ (-100 : ℤ) ≤ e) (he' : e ≤ 1 / 1000) {r : ℝ} (r0 : 0 ≤ r) (r1 : r ≤ 1) :
    ∃ (b : Quat) (k : ℝ), DQuat.pow o (.fin e) L (.of w) (.fin r) = .ok (.of b) ∧ 1 / 160 ≤ k ∧ k ≤ 160 ∧ (r * θ ≤ 11 * e + 40 * DQuat.u ∧ k = 1 ∨ |k - ‖hamilton w‖ ^ r| ≤ 40 * DQuat.u * ‖hamilton w‖ ^ r) ∧
      ‖hamilton b - k • hamilton (turnQ m (r * θ))‖ ≤ (63 * DQuat.u + 11 * e) * k := by
  have u0 := DQuat.u_pos
  have u1 := DQuat.u_small
  have t0 := DQuat.t_pos
  have tu := DRot.t_u
  have p0 : (0 : ℝ) < 2 ^ (-100 : ℤ) := two_zpow_pos _
  have e0 : 0 < e := p0.trans_le he
  obtain ⟨l, el, hl, hs⟩ := log_near o hL hw k1 k2 hm θ0 θ1 c0 hw' he he'
  have θ2 : θ ≤ 3.15 := θ1.trans Real.pi_lt_d2.le
  have lg := log_abs_le k1 k2
  have nl : ‖pure ⟨l.x, l.y, l.z⟩‖ ≤ 32 / 10 := by
    have := norm_sub_norm_le (pure ⟨l.x, l.y, l.z⟩) (θ • pure m)
    rw [norm_smul, pure_unit hm, mul_one, Real.norm_of_nonneg θ0] at this
    linarith
  have ls : |l.s| ≤ 401 / 100 := by
    have := abs_sub_abs_le_abs_sub l.s (Real.log ‖hamilton w‖)
    linarith
  obtain ⟨c1, c2, c3, -⟩ := DQuat.component_le ⟨l.x, l.y, l.z, 0⟩
  rw [show hamilton ⟨l.x, l.y, l.z, 0⟩ = pure ⟨l.x, l.y, l.z⟩ from rfl] at c1 c2 c3
  simp only at c1 c2 c3
  have ra : |r| ≤ 1 := by rw [abs_of_nonneg r0]; exact r1
  have sf := scale_fin (q := l) (k := r) (le_500 (by linarith)) (le_500 (by linarith)) (le_500 (by linarith)) (le_500 (by linarith)) (le_500 (by linarith))
  set y : Quat := ⟨rnd (l.x * r), rnd (l.y * r), rnd (l.z * r), rnd (l.s * r)⟩ with hy
  have sn := pure_rel_near (a := ⟨y.x, y.y, y.z⟩) (b := ⟨l.x * r, l.y * r, l.z * r⟩) u0.le t0.le (DRot.near1 _) (DRot.near1 _) (DRot.near1 _)
  have eb : pure ⟨l.x * r, l.y * r, l.z * r⟩ = r • pure ⟨l.x, l.y, l.z⟩ := by rw [pure_smul]; simp only [mul_comm r]
  rw [eb, norm_smul r, Real.norm_of_nonneg r0] at sn
  have rl : r * ‖pure ⟨l.x, l.y, l.z⟩‖ ≤ 32 / 10 := (mul_le_of_le_one_left (norm_nonneg _) r1).trans nl
  have sn' : ‖pure ⟨y.x, y.y, y.z⟩ - r • pure ⟨l.x, l.y, l.z⟩‖ ≤ 33 / 10 * DQuat.u := by
    refine sn.trans ?_
    have := mul_le_mul_of_nonneg_left rl u0.le
    norm_num at tu
    linarith
  have ny : ‖pure ⟨y.x, y.y, y.z⟩ - (r * θ) • pure m‖ ≤ 40 * DQuat.u + 9 * e := by
    have i := norm_sub_le_norm_sub_add_norm_sub (pure ⟨y.x, y.y, y.z⟩) (r • pure ⟨l.x, l.y, l.z⟩) ((r * θ) • pure m)
    rw [mul_smul, ← smul_sub, norm_smul r, Real.norm_of_nonneg r0] at i
    have := mul_le_of_le_one_left (norm_nonneg (pure ⟨l.x, l.y, l.z⟩ - θ • pure m)) r1
    rw [mul_smul]
    linarith
  have rθ : 0 ≤ r * θ := mul_nonneg r0 θ0
  have Y4 : ‖pure ⟨y.x, y.y, y.z⟩‖ ≤ 4 := by
    have := norm_sub_norm_le (pure ⟨y.x, y.y, y.z⟩) ((r * θ) • pure m)
    rw [norm_smul, pure_unit hm, mul_one, Real.norm_of_nonneg rθ] at this
    have := mul_le_of_le_one_left θ0 r1
    linarith
  have ys : |y.s - r * Real.log ‖hamilton w‖| ≤ 14 * DQuat.u := by
    have a := DRot.near1 (l.s * r)
    have b : |l.s * r| ≤ 401 / 100 := by
      rw [abs_mul]; exact (mul_le_of_le_one_right (abs_nonneg _) ra).trans ls
    have c : |l.s * r - r * Real.log ‖hamilton w‖| ≤ 8 * DQuat.u := by
      rw [show l.s * r - r * Real.log ‖hamilton w‖ = (l.s - Real.log ‖hamilton w‖) * r by ring, abs_mul]
      exact (mul_le_of_le_one_right (abs_nonneg _) ra).trans hs
    have := abs_sub_le y.s (l.s * r) (r * Real.log ‖hamilton w‖)
    have := mul_le_mul_of_nonneg_left b u0.le
    norm_num at tu
    linarith
  have y5 : |y.s| ≤ 5 := by
    have := abs_sub_abs_le_abs_sub y.s (r * Real.log ‖hamilton w‖)
    have b : |r * Real.log ‖hamilton w‖| ≤ 4 := by
      rw [abs_mul, abs_of_nonneg r0]; exact (mul_le_of_le_one_left (abs_nonneg _) r1).trans lg
    linarith
  obtain ⟨m', hm', hx, hy', hz⟩ := exists_dir ⟨y.x, y.y, y.z⟩
  have py : pure ⟨y.x, y.y, y.z⟩ = ‖pure ⟨y.x, y.y, y.z⟩‖ • pure m' := by
    rw [pure_smul, ← hx, ← hy', ← hz]
  set Y := ‖pure ⟨y.x, y.y, y.z⟩‖ with hY
  have Y0 : 0 ≤ Y := norm_nonneg _
  obtain ⟨b, k, ek, -, kl, ku, hk, hb⟩ := exp_near o hL hm' Y0 Y4 py (rnd_representable _) y5 he
  rw [py] at ny
  refine ⟨b, k, ?_, kl, ku, ?_, ?_⟩
  · rw [DQuat.pow, el]
    simp only [bind, Except.bind, sf]
    exact ek
  · rcases hk with ⟨Ye, hk, -⟩ | ⟨hk, -⟩
    · left
      refine ⟨?_, hk⟩
      have := norm_sub_norm_le ((r * θ) • pure m) (Y • pure m')
      rw [norm_smul, norm_smul, pure_unit hm, pure_unit hm', mul_one, mul_one, Real.norm_of_nonneg rθ, Real.norm_of_nonneg Y0, norm_sub_rev] at this
      linarith
    · right
      have K0 : 0 < ‖hamilton w‖ := by linarith
      rw [Real.rpow_def_of_pos K0, mul_comm (Real.log _)]
      set G := Real.exp (r * Real.log ‖hamilton w‖) with hG
      have G0 : 0 < G := Real.exp_pos _
      have eE : Real.exp y.s = G * Real.exp (y.s - r * Real.log ‖hamilton w‖) := by rw [hG, ← Real.exp_add]; congr 1; ring
      have x1 := Real.abs_exp_sub_one_le (x := y.s - r * Real.log ‖hamilton w‖) (ys.trans (by linarith))
      have x2 : |Real.exp (y.s - r * Real.log ‖hamilton w‖) - 1| ≤ 28 * DQuat.u := by linarith
      have d : |Real.exp y.s - G| ≤ 28 * DQuat.u * G := by
        rw [eE, show G * Real.exp (y.s - r * Real.log ‖hamilton w‖) - G = (Real.exp (y.s - r * Real.log ‖hamilton w‖) - 1) * G by ring, abs_mul, abs_of_pos G0]
        exact mul_le_mul_of_nonneg_right x2 G0.le
      have uG : DQuat.u * G ≤ 1 / 1000 * G := mul_le_mul_of_nonneg_right (by linarith) G0.le
      have E2 : Real.exp y.s ≤ 2 * G := by linarith [(abs_le.1 d).2]
      have := abs_sub_le k (Real.exp y.s) G
      have := mul_le_mul_of_nonneg_left E2 u0.le
      have : 0 < DQuat.u * G := by positivity
      linarith
  · have T := turn_apart hm' hm Y0 rθ
    have k0 : 0 < k := by linarith
    have i := norm_sub_le_norm_sub_add_norm_sub (hamilton b) (k • hamilton (turnQ m' Y)) (k • hamilton (turnQ m (r * θ)))
    rw [← smul_sub, norm_smul k, Real.norm_of_nonneg k0.le] at i
    have j := mul_le_mul_of_nonneg_left (T.trans ny) k0.le
    have : 0 < e * k := by positivity
    linarith

theorem re_swap (P Q : Quaternion ℝ) : (star P * Q).re = (Q * star P).re := by
  simp only [Quaternion.re_mul]; ring

/-- the power of the quotient carries the first point along the arc -/
theorem turn_arc {P Q : Quaternion ℝ} (hP : ‖P‖ = 1) {m : V3} {θ : ℝ} (θ0 : 0 ≤ θ) (θ1 : θ ≤ Real.pi) (c : -(1 / 2) ≤ Real.cos θ) (h : Q * star P = hamilton (turnQ m θ)) (r : ℝ) :
    hamilton (turnQ m (r * θ)) * P = arcPoint P Q r := by
  have re : (star P * Q).re = Real.cos θ := by rw [re_swap, h]; rfl
  have PP : star P * P = 1 := by rw [Quaternion.star_mul_self, Quaternion.normSq_eq_norm_mul_self, hP]; simp
  have QQ : hamilton (turnQ m θ) * P = Q := by rw [← h, mul_assoc, PP, mul_one]
  rw [arcPoint, re, Real.arccos_cos θ0 θ1]
  by_cases hs : Real.sin θ = 0
  · simp only [hs, if_true]
    have : θ = 0 := by
      by_contra hne
      have lt : θ < Real.pi := lt_of_le_of_ne θ1 (by rintro rfl; rw [Real.cos_pi] at c; linarith)
      exact (Real.sin_pos_of_pos_of_lt_pi (lt_of_le_of_ne θ0 (Ne.symm hne)) lt).ne' hs
    rw [this, mul_zero, turnQ_zero, one_mul]
  · simp only [hs, if_false]
    rw [← QQ, ← smul_mul_assoc]
    have one : (Real.sin ((1 - r) * θ) / Real.sin θ) • P = ((Real.sin ((1 - r) * θ) / Real.sin θ) • (1 : Quaternion ℝ)) * P := by rw [smul_mul_assoc, one_mul]
    rw [one, ← add_mul]
    congr 1
    rw [show (1 : Quaternion ℝ) = hamilton ⟨0, 0, 0, 1⟩ by ext <;> rfl, hamilton_smul, hamilton_smul, hamilton_add]
    congr 1
    simp only [turnQ, Quat.mk.injEq]
    refine ⟨by field_simp; ring, by field_simp; ring, by field_simp; ring, ?_⟩
    rw [sub_mul, one_mul, Real.sin_sub]
    field_simp
    ring

theorem abs_dot4_le (p q : Quat) : |p.x * q.x| + |p.y * q.y| + |p.z * q.z| + |p.s * q.s| ≤ ‖hamilton p‖ * ‖hamilton q‖ := by
  have h := re_le (star (hamilton ⟨|p.x|, |p.y|, |p.z|, |p.s|⟩) * hamilton ⟨|q.x|, |q.y|, |q.z|, |q.s|⟩)
  rw [norm_mul, norm_star, hamilton_abs, hamilton_abs] at h
  refine le_trans (le_of_eq ?_) ((le_abs_self _).trans h)
  simp only [Quaternion.re_mul, Quaternion.re_star, Quaternion.imI_star, Quaternion.imJ_star, Quaternion.imK_star]
  simp only [abs_mul]
  show _ = |p.s| * |q.s| - -|p.x| * |q.x| - -|p.y| * |q.y| - -|p.z| * |q.z|
  ring

theorem dotProduct_near {p q : Quat} (hp : Tempered p) (hq : Tempered q) :
    ∃ d, DQuat.dotProduct (.of p) (.of q) = .ok (.fin d) ∧ |d - (p.x * q.x + p.y * q.y + p.z * q.z + p.s * q.s)| ≤ 41 / 10 * DQuat.u * (‖hamilton p‖ * ‖hamilton q‖) + 5 * DQuat.t := by
  obtain ⟨⟨-, px⟩, ⟨-, py⟩, ⟨-, pz⟩, ⟨-, ps⟩⟩ := hp
  obtain ⟨⟨-, qx⟩, ⟨-, qy⟩, ⟨-, qz⟩, ⟨-, qs⟩⟩ := hq
  refine ⟨DT3.dot4 .left p.x p.y p.z p.s q.x q.y q.z q.s, ?_, ?_⟩
  · rw [DQuat.dotProduct, DQuat.of_defined, DQuat.of_defined, if_neg (by simp)]
    exact congrArg _ (DT3.dot_fin .left px py pz ps qx qy qz qs)
  · refine (DT3.dot4_near .left p.x p.y p.z p.s q.x q.y q.z q.s).trans ?_
    have := mul_le_mul_of_nonneg_left (abs_dot4_le p q) (show 0 ≤ 41 / 10 * DQuat.u by have := DQuat.u_pos; positivity)
    linarith

theorem along_norm {q : Quat} (h : 0 < ‖hamilton q‖) : ‖along q‖ = 1 := by
  rw [along, norm_smul, norm_inv, norm_norm, inv_mul_cancel₀ h.ne']

theorem along_smul {q : Quat} (h : 0 < ‖hamilton q‖) : hamilton q = ‖hamilton q‖ • along q := by
  rw [along, smul_smul, mul_inv_cancel₀ h.ne', one_smul]

theorem along_dot (p q : Quat) : (star (along p) * along q).re = (p.x * q.x + p.y * q.y + p.z * q.z + p.s * q.s) / (‖hamilton p‖ * ‖hamilton q‖) := by
  rw [along, along, Quaternion.star_smul, smul_mul_smul_comm, Quaternion.re_smul]
  have : (star (hamilton p) * hamilton q).re = p.x * q.x + p.y * q.y + p.z * q.z + p.s * q.s := by
    simp only [Quaternion.re_mul, Quaternion.re_star, Quaternion.imI_star, Quaternion.imJ_star, Quaternion.imK_star]
    show p.s * q.s - -p.x * q.x - -p.y * q.y - -p.z * q.z = _
    ring
  rw [this]
  rw [smul_eq_mul]
  rw [← mul_inv, div_eq_mul_inv, mul_comm]

/-- the quotient of which the power is taken -/
theorem relative_near (o : Bool) {p q i : Quat} (p1 : 1 / 2 ≤ ‖hamilton p‖) (p2 : ‖hamilton p‖ ≤ 2) (q1 : 1 / 2 ≤ ‖hamilton q‖) (q2 : ‖hamilton q‖ ≤ 2) {σ : ℝ} (hσ : |σ| = 1)
    (hi : ‖hamilton i - σ • (hamilton p)⁻¹‖ ≤ 64 / 10 * DQuat.u * ‖(hamilton p)⁻¹‖) :
    DQuat.product o (.of i) (.of q) = .ok (.of (DQuat.prod o i q)) ∧ Tempered (DQuat.prod o i q) ∧
      ‖hamilton (DQuat.prod o i q) - (‖hamilton q‖ / ‖hamilton p‖) • ((σ • along q) * star (along p))‖ ≤ 148 / 10 * DQuat.u * (‖hamilton q‖ / ‖hamilton p‖) := by
  have u0 := DQuat.u_pos
  have us := DQuat.u_small
  have t0 := DQuat.t_pos
  have tu := DRot.t_u
  have P0 : 0 < ‖hamilton p‖ := by linarith
  have Q0 : 0 < ‖hamilton q‖ := by linarith
  have ex : (‖hamilton q‖ / ‖hamilton p‖) • ((σ • along q) * star (along p)) = hamilton q * (σ • (hamilton p)⁻¹) := by
    have iv : (hamilton p)⁻¹ = (‖hamilton p‖ * ‖hamilton p‖)⁻¹ • star (hamilton p) := by rw [← Quaternion.normSq_eq_norm_mul_self]; rfl
    rw [iv, along, along, Quaternion.star_smul, mul_smul_comm, smul_mul_assoc, smul_mul_assoc, mul_smul_comm, mul_smul_comm]
    simp only [smul_smul]
    congr 1
    field_simp
  rw [ex]
  have ni : ‖(hamilton p)⁻¹‖ = 1 / ‖hamilton p‖ := by rw [norm_inv, one_div]
  have i1 : 1 / 2 ≤ 1 / ‖hamilton p‖ := one_div_le_one_div_of_le P0 p2
  have i2 : 1 / ‖hamilton p‖ ≤ 2 := by rw [div_le_iff₀ P0]; linarith
  rw [ni] at hi
  have PI : ‖hamilton q‖ / ‖hamilton p‖ = ‖hamilton q‖ * (1 / ‖hamilton p‖) := by rw [mul_one_div]
  rw [PI]
  have ns : ‖σ • (hamilton p)⁻¹‖ = 1 / ‖hamilton p‖ := by rw [norm_smul, Real.norm_eq_abs, hσ, one_mul, ni]
  set I := 1 / ‖hamilton p‖ with hI
  have uI : DQuat.u * I ≤ 1 / 100000 * I := mul_le_mul_of_nonneg_right (by linarith) (by linarith)
  have nr : ‖hamilton i‖ ≤ 1001 / 1000 * I := by
    have := norm_sub_norm_le (hamilton i) (σ • (hamilton p)⁻¹)
    rw [ns] at this
    linarith
  have pn := DQuat.prod_near o i q
  have near : ‖hamilton (DQuat.prod o i q) - hamilton q * (σ • (hamilton p)⁻¹)‖ ≤ 148 / 10 * DQuat.u * (‖hamilton q‖ * I) := by
    have i' := norm_sub_le_norm_sub_add_norm_sub (hamilton (DQuat.prod o i q)) (hamilton q * hamilton i) (hamilton q * (σ • (hamilton p)⁻¹))
    rw [← mul_sub, norm_mul] at i'
    have j := mul_le_mul_of_nonneg_left hi Q0.le
    have k : 82 / 10 * DQuat.u * (‖hamilton i‖ * ‖hamilton q‖) ≤ 82 / 10 * DQuat.u * ((1001 / 1000 * I) * ‖hamilton q‖) :=
      mul_le_mul_of_nonneg_left (mul_le_mul_of_nonneg_right nr Q0.le) (by positivity)
    have l : 1 / 4 ≤ ‖hamilton q‖ * I := by nlinarith
    have l2 : DQuat.u * (1 / 4) ≤ DQuat.u * (‖hamilton q‖ * I) := mul_le_mul_of_nonneg_left l u0.le
    norm_num at tu
    linarith
  have big : ∀ {x : ℝ}, |x| ≤ 100 → |x| ≤ 2 ^ 500 := fun h => le_500 (h.trans (by norm_num))
  refine ⟨DQuat.product_fin o ?_ ?_, ?_, near⟩
  · have := big (x := ‖hamilton i‖) (by rw [abs_norm]; linarith)
    rwa [abs_norm] at this
  · have := big (x := ‖hamilton q‖) (by rw [abs_norm]; linarith)
    rwa [abs_norm] at this
  · have nw : ‖hamilton (DQuat.prod o i q)‖ ≤ 100 := by
      have := norm_sub_norm_le (hamilton (DQuat.prod o i q)) (hamilton q * (σ • (hamilton p)⁻¹))
      rw [norm_mul, ns] at this
      have : ‖hamilton q‖ * I ≤ 2 * 2 := mul_le_mul q2 i2 (by positivity) (by norm_num)
      nlinarith
    obtain ⟨c1, c2, c3, c4⟩ := DQuat.component_le (DQuat.prod o i q)
    exact ⟨⟨rnd_representable _, big (c1.trans nw)⟩, ⟨rnd_representable _, big (c2.trans nw)⟩, ⟨rnd_representable _, big (c3.trans nw)⟩, ⟨rnd_representable _, big (c4.trans nw)⟩⟩

theorem hamilton_onto (a : Quaternion ℝ) : ∃ q, a = hamilton q := ⟨⟨a.imI, a.imJ, a.imK, a.re⟩, rfl⟩

/-- directions of quaternions that are near -/
theorem direction_near {T D : Quaternion ℝ} (hT : ‖T‖ = 1) (hD : ‖D‖ = 1) {K k c : ℝ} (hK : 0 ≤ K) (hk : 0 < k) (h : ‖K • T - k • D‖ ≤ c * k) : ‖T - D‖ ≤ 2 * c := by
  have n : |K - k| ≤ c * k := by
    have := abs_norm_sub_norm_le (K • T) (k • D)
    rw [norm_smul, norm_smul, hT, hD, mul_one, mul_one, Real.norm_of_nonneg hK, Real.norm_of_nonneg hk.le] at this
    exact this.trans h
  have i := norm_sub_le_norm_sub_add_norm_sub (k • T) (K • T) (k • D)
  rw [← sub_smul, norm_smul (k - K), hT, mul_one, Real.norm_eq_abs, abs_sub_comm, ← smul_sub, norm_smul k, Real.norm_of_nonneg hk.le] at i
  have : k * ‖T - D‖ ≤ k * (2 * c) := by linarith
  exact le_of_mul_le_mul_left this hk

/-- the two branches, after the inverse has been computed -/
theorem slerp_tail (o : Bool) {L : MathLib} (hL : MathLib.Good L) {p q i : Quat} (p1 : 1 / 2 ≤ ‖hamilton p‖) (p2 : ‖hamilton p‖ ≤ 2) (q1 : 1 / 2 ≤ ‖hamilton q‖) (q2 : ‖hamilton q‖ ≤ 2)
    {σ : ℝ} (hσ : |σ| = 1) (hi : ‖hamilton i - σ • (hamilton p)⁻¹‖ ≤ 64 / 10 * DQuat.u * ‖(hamilton p)⁻¹‖) (hd : -(8 * DQuat.u) ≤ σ * (star (along p) * along q).re)
    {e : ℝ} (he : 2 ^ (-100 : ℤ) ≤ e) (he' : e ≤ 1 / 1000) {r : ℝ} (r0 : 0 ≤ r) (r1 : r ≤ 1) :
    ∃ n, (do let x ← DQuat.product o (.of i) (.of q); let x ← x.pow o (.fin e) L (.fin r); let y ← DQuat.product o (.of p) x; y.normalize (.fin e)) = .ok (.of n) ∧
      Sized n.x n.y n.z n.s ∧ ‖hamilton n - arcPoint (along p) (σ • along q) r‖ ≤ 270 * DQuat.u + 22 * e ∧ |‖hamilton n‖ - 1| ≤ 45 / 10 * DQuat.u ∧
      ∀ tol : ℝ, 8 / 2 ^ 53 ≤ tol → DQuat.isUnitary (.fin tol) (.of n) = .ok true := by
  have u0 := DQuat.u_pos
  have us := DQuat.u_small
  have t0 := DQuat.t_pos
  have tu := DRot.t_u
  have e0 : 0 < e := lt_of_lt_of_le (two_zpow_pos _) he
  have P0 : 0 < ‖hamilton p‖ := by linarith
  have Q0 : 0 < ‖hamilton q‖ := by linarith
  obtain ⟨ew, tw, dw⟩ := relative_near o p1 p2 q1 q2 hσ hi
  set w := DQuat.prod o i q with hw
  set K0 := ‖hamilton q‖ / ‖hamilton p‖ with hK0
  have K1 : 1 / 4 ≤ K0 := by rw [hK0, le_div_iff₀ P0]; linarith
  have K2 : K0 ≤ 4 := by rw [hK0, div_le_iff₀ P0]; linarith
  have K00 : 0 < K0 := by linarith
  have nD : ‖(σ • along q) * star (along p)‖ = 1 := by rw [norm_mul, norm_smul, norm_star, along_norm P0, along_norm Q0, Real.norm_eq_abs, hσ]; norm_num
  obtain ⟨D, hD⟩ := hamilton_onto ((σ • along q) * star (along p))
  rw [hD] at nD dw
  obtain ⟨m₀, θ₀, hm₀, a0, a1, ac, aD, -⟩ := exists_turn D (by rw [nD]; exact one_pos)
  rw [nD, one_smul] at aD
  rw [nD, div_one] at ac
  have reD : D.s = σ * (star (along p) * along q).re := by
    have : D.s = ((σ • along q) * star (along p)).re := by rw [hD]; rfl
    rw [this, smul_mul_assoc, Quaternion.re_smul, re_swap, smul_eq_mul]
  rw [← reD, ← ac] at hd
  have nw : |‖hamilton w‖ - K0| ≤ 148 / 10 * DQuat.u * K0 := by
    have := abs_norm_sub_norm_le (hamilton w) (K0 • hamilton D)
    rw [norm_smul, nD, mul_one, Real.norm_of_nonneg K00.le] at this
    exact this.trans dw
  have uK : DQuat.u * K0 ≤ 1 / 100000 * K0 := mul_le_mul_of_nonneg_right (by linarith) K00.le
  have w1 : 1 / 5 ≤ ‖hamilton w‖ := by linarith [(abs_le.1 nw).1]
  have w2 : ‖hamilton w‖ ≤ 5 := by linarith [(abs_le.1 nw).2]
  obtain ⟨m, θ, hm, b0, b1, bc, bw, -⟩ := exists_turn w (by linarith)
  have close : ‖hamilton (turnQ m θ) - hamilton (turnQ m₀ θ₀)‖ ≤ 2 * (148 / 10 * DQuat.u) := by
    refine direction_near (turnQ_norm hm θ) (turnQ_norm hm₀ θ₀) (norm_nonneg (hamilton w)) K00 ?_
    rw [← bw, ← aD]
    exact dw
  have cθ : -(1 / 2) ≤ Real.cos θ := by
    have := re_le (hamilton (turnQ m θ) - hamilton (turnQ m₀ θ₀))
    have h : |Real.cos θ - Real.cos θ₀| ≤ ‖hamilton (turnQ m θ) - hamilton (turnQ m₀ θ₀)‖ := this
    have := abs_le.1 (h.trans close)
    linarith
  have cθ₀ : -(1 / 2) ≤ Real.cos θ₀ := by linarith
  obtain ⟨x, k, ex, k1, k2, -, dx⟩ := pow_near o hL tw w1 w2 hm b0 b1 cθ bw he he' r0 r1
  have k0 : 0 < k := by linarith
  have pw := power_near hm hm₀ r0 r1 b0 b1 a0 a1 cθ cθ₀
  have dx' : ‖hamilton x - k • hamilton (turnQ m₀ (r * θ₀))‖ ≤ (1222 / 10 * DQuat.u + 11 * e) * k := by
    have i := norm_sub_le_norm_sub_add_norm_sub (hamilton x) (k • hamilton (turnQ m (r * θ))) (k • hamilton (turnQ m₀ (r * θ₀)))
    rw [← smul_sub, norm_smul k, Real.norm_of_nonneg k0.le] at i
    have j := mul_le_mul_of_nonneg_left (pw.trans (mul_le_mul_of_nonneg_left close zero_le_two)) k0.le
    linarith
  have nx : ‖hamilton x‖ ≤ 102 / 100 * k := by
    have := norm_sub_norm_le (hamilton x) (k • hamilton (turnQ m₀ (r * θ₀)))
    rw [norm_smul, turnQ_norm hm₀, mul_one, Real.norm_of_nonneg k0.le] at this
    have : (1222 / 10 * DQuat.u + 11 * e) * k ≤ 2 / 100 * k := mul_le_mul_of_nonneg_right (by linarith) k0.le
    linarith
  have arc := turn_arc (along_norm P0) a0 a1 cθ₀ (hD.trans aD) r
  have big : ∀ {x : ℝ}, |x| ≤ 1000 → |x| ≤ 2 ^ 500 := fun h => le_500 h
  have px : DQuat.product o (.of p) (.of x) = .ok (.of (DQuat.prod o p x)) := by
    refine DQuat.product_fin o ?_ ?_
    · have := big (x := ‖hamilton p‖) (by rw [abs_norm]; linarith)
      rwa [abs_norm] at this
    · have := big (x := ‖hamilton x‖) (by rw [abs_norm]; linarith)
      rwa [abs_norm] at this
  have pn := DQuat.prod_near o p x
  set y := DQuat.prod o p x with hy
  set T := hamilton (turnQ m₀ (r * θ₀)) with hT
  have nT : ‖T * along p‖ = 1 := by rw [norm_mul, hT, turnQ_norm hm₀, along_norm P0, mul_one]
  have kp : 1 / 320 ≤ k * ‖hamilton p‖ := le_trans (by norm_num) (mul_le_mul k1 p1 (by norm_num) k0.le)
  have dy : ‖hamilton y - (k * ‖hamilton p‖) • (T * along p)‖ ≤ (131 * DQuat.u + 11 * e) * (k * ‖hamilton p‖) := by
    have e1 : (k * ‖hamilton p‖) • (T * along p) = (k • T) * hamilton p := by
      conv_rhs => rw [along_smul P0]
      rw [smul_mul_smul_comm]
    rw [e1]
    have i := norm_sub_le_norm_sub_add_norm_sub (hamilton y) (hamilton x * hamilton p) ((k • T) * hamilton p)
    rw [← sub_mul, norm_mul] at i
    have j1 := mul_le_mul_of_nonneg_right dx' P0.le
    have j2 : 82 / 10 * DQuat.u * (‖hamilton p‖ * ‖hamilton x‖) ≤ 82 / 10 * DQuat.u * (‖hamilton p‖ * (102 / 100 * k)) :=
      mul_le_mul_of_nonneg_left (mul_le_mul_of_nonneg_left nx P0.le) (by positivity)
    have j3 : DQuat.u * (1 / 320) ≤ DQuat.u * (k * ‖hamilton p‖) := mul_le_mul_of_nonneg_left kp u0.le
    norm_num at tu
    clear hi dw nw close pw hd
    linarith
  have ny : ‖hamilton y‖ ≤ 1000 := by
    have := norm_sub_norm_le (hamilton y) ((k * ‖hamilton p‖) • (T * along p))
    rw [norm_smul (k * ‖hamilton p‖), nT, mul_one, Real.norm_of_nonneg (by linarith)] at this
    have a : (131 * DQuat.u + 11 * e) * (k * ‖hamilton p‖) ≤ 1 / 10 * (k * ‖hamilton p‖) := mul_le_mul_of_nonneg_right (by linarith) (by linarith)
    have b : k * ‖hamilton p‖ ≤ 160 * 2 := mul_le_mul k2 p2 P0.le (by norm_num)
    linarith
  obtain ⟨c1, c2, c3, c4⟩ := DQuat.component_le y
  have sy : Sized y.x y.y y.z y.s := ⟨⟨rnd_representable _, big (c1.trans ny)⟩, ⟨rnd_representable _, big (c2.trans ny)⟩, ⟨rnd_representable _, big (c3.trans ny)⟩, ⟨rnd_representable _, big (c4.trans ny)⟩⟩
  obtain ⟨n, en, sn, dn, ln, un⟩ := normalize_any sy (p := T * along p) nT he (by linarith) (by linarith) dy
  refine ⟨n, ?_, sn, ?_, ln, un⟩
  · simp only [bind, Except.bind, ew, ex, px]
    exact en
  · rw [← arc]
    linarith

/-- `SLERP` in double precision -/
theorem slerp_near (o : Bool) {L : MathLib} (hL : MathLib.Good L) {p q : Quat} (hp : Tempered p) (hq : Tempered q) (p1 : 1 / 2 ≤ ‖hamilton p‖) (p2 : ‖hamilton p‖ ≤ 2) (q1 : 1 / 2 ≤ ‖hamilton q‖)
    (q2 : ‖hamilton q‖ ≤ 2) {e : ℝ} (he : 2 ^ (-100 : ℤ) ≤ e) (he' : e ≤ 1 / 1000) {r : ℝ} (r0 : 0 ≤ r) (r1 : r ≤ 1) :
    ∃ n σ, (σ = 1 ∨ σ = -1) ∧ -(8 * DQuat.u) ≤ σ * (star (along p) * along q).re ∧ DQuat.SLERP o (.fin e) L (.of p) (.of q) (.fin r) = .ok (.of n) ∧
      Sized n.x n.y n.z n.s ∧ ‖hamilton n - arcPoint (along p) (σ • along q) r‖ ≤ 270 * DQuat.u + 22 * e ∧ |‖hamilton n‖ - 1| ≤ 45 / 10 * DQuat.u ∧
      ∀ tol : ℝ, 8 / 2 ^ 53 ≤ tol → DQuat.isUnitary (.fin tol) (.of n) = .ok true := by
  have u0 := DQuat.u_pos
  have us := DQuat.u_small
  have t0 := DQuat.t_pos
  have tu := DRot.t_u
  have P0 : 0 < ‖hamilton p‖ := by linarith
  have Q0 : 0 < ‖hamilton q‖ := by linarith
  obtain ⟨d, ed, hd⟩ := dotProduct_near hp hq
  obtain ⟨i, ei, di⟩ := inverse_near hp p1 p2 (e := e) (by linarith)
  have ni : ‖(hamilton p)⁻¹‖ = 1 / ‖hamilton p‖ := by rw [norm_inv, one_div]
  have i1 : 1 / 2 ≤ ‖(hamilton p)⁻¹‖ := by rw [ni]; exact one_div_le_one_div_of_le P0 p2
  have i2 : ‖(hamilton p)⁻¹‖ ≤ 2 := by rw [ni, div_le_iff₀ P0]; linarith
  have ui : DQuat.u * (1 / 2) ≤ DQuat.u * ‖(hamilton p)⁻¹‖ := mul_le_mul_of_nonneg_left i1 u0.le
  have PQ : 1 / 4 ≤ ‖hamilton p‖ * ‖hamilton q‖ := by nlinarith
  have uPQ : DQuat.u * (1 / 4) ≤ DQuat.u * (‖hamilton p‖ * ‖hamilton q‖) := mul_le_mul_of_nonneg_left PQ u0.le
  have hd' : |d - (p.x * q.x + p.y * q.y + p.z * q.z + p.s * q.s)| ≤ 8 * DQuat.u * (‖hamilton p‖ * ‖hamilton q‖) := by
    refine hd.trans ?_
    norm_num at tu
    linarith
  have r2 : ¬ (F64.fin r = F64.nan) := by simp
  have r3 : ¬ ((F64.fin r).lt (.fin 0) || (F64.fin 1).lt (.fin r)) = true := by simp [F64.lt, r0, r1]
  obtain ⟨d1, d2⟩ := abs_le.1 hd'
  by_cases h : 0 ≤ d
  · obtain ⟨n, en, hn⟩ := slerp_tail o hL p1 p2 q1 q2 (σ := 1) abs_one (i := i) (by
      rw [one_smul]
      refine di.trans ?_
      norm_num at tu
      linarith) (by
      rw [one_mul, along_dot, le_div_iff₀ (by positivity)]
      linarith) he he' r0 r1
    refine ⟨n, 1, .inl rfl, ?_, ?_, hn⟩
    · rw [one_mul, along_dot, le_div_iff₀ (by positivity)]
      linarith
    · rw [DQuat.SLERP, if_neg r2, if_neg r3, ed, ei]
      simp only [bind, Except.bind, F64.le, h, decide_true, if_true] at en ⊢
      exact en
  · obtain ⟨c1, c2, c3, c4⟩ := DQuat.component_le i
    have inorm : ‖hamilton i‖ ≤ 1001 / 1000 * ‖(hamilton p)⁻¹‖ := by
      have := norm_sub_norm_le (hamilton i) (hamilton p)⁻¹
      have : DQuat.u * ‖(hamilton p)⁻¹‖ ≤ 1 / 100000 * ‖(hamilton p)⁻¹‖ := mul_le_mul_of_nonneg_right (by linarith) (by linarith)
      norm_num at tu
      linarith
    have m1 : |(-1 : ℝ)| = 1 := by norm_num
    have sf := scale_fin (q := i) (k := -1) (le_500 (by linarith)) (le_500 (by linarith)) (le_500 (by linarith)) (le_500 (by linarith)) (le_500 (by rw [m1]; norm_num))
    have sn := scale_near i (-1)
    rw [m1, one_mul] at sn
    obtain ⟨n, en, hn⟩ := slerp_tail o hL p1 p2 q1 q2 (σ := -1) m1 (i := ⟨rnd (i.x * -1), rnd (i.y * -1), rnd (i.z * -1), rnd (i.s * -1)⟩) (by
      have k := norm_sub_le_norm_sub_add_norm_sub (hamilton ⟨rnd (i.x * -1), rnd (i.y * -1), rnd (i.z * -1), rnd (i.s * -1)⟩) ((-1 : ℝ) • hamilton i) ((-1 : ℝ) • (hamilton p)⁻¹)
      rw [← smul_sub, norm_smul (-1 : ℝ), Real.norm_eq_abs, m1, one_mul] at k
      have l := mul_le_mul_of_nonneg_left inorm u0.le
      norm_num at tu
      linarith) (by
      rw [along_dot, neg_one_mul, neg_le_neg_iff, div_le_iff₀ (by positivity)]
      linarith) he he' r0 r1
    refine ⟨n, -1, .inr rfl, ?_, ?_, hn⟩
    · rw [along_dot, neg_one_mul, neg_le_neg_iff, div_le_iff₀ (by positivity)]
      linarith
    · rw [DQuat.SLERP, if_neg r2, if_neg r3, ed, ei]
      simp only [bind, Except.bind, F64.le, h, decide_false, Bool.false_eq_true, if_false, sf] at en ⊢
      exact en

/-- the exponential of a quaternion -/
theorem exp_turn {y : Quat} {m : V3} (hm : m.normSq = 1) {Y : ℝ} (Y0 : 0 ≤ Y) (hy : pure ⟨y.x, y.y, y.z⟩ = Y • pure m) : NormedSpace.exp (hamilton y) = Real.exp y.s • hamilton (turnQ m Y) := by
  have im : (hamilton y).im = Y • pure m := by rw [← hy]; rfl
  rw [Quaternion.exp_eq, im, norm_smul, pure_unit hm, mul_one, Real.norm_of_nonneg Y0, ← Real.exp_eq_exp_ℝ]
  congr 1
  rw [smul_smul]
  have : Real.sin Y / Y * Y = Real.sin Y := by
    by_cases h : Y = 0
    · simp [h]
    · rw [div_mul_cancel₀ _ h]
  rw [this]
  have e : ((Real.cos Y : ℝ) : Quaternion ℝ) = hamilton ⟨0, 0, 0, Real.cos Y⟩ := rfl
  rw [e, pure, hamilton_smul, hamilton_add]
  simp [turnQ]

/-- the correctly rounded functions are accurate -/
theorem exists_mathLib : ∃ L : MathLib, MathLib.Good L := by
  obtain ⟨atan2, ha⟩ := exists_arcTangent
  have u0 := DQuat.u_pos
  have e51 : (2 : ℝ) ^ (-51 : ℤ) = 4 * DQuat.u := by rw [DQuat.u]; norm_num
  have key : ∀ y : ℝ, |y| ≤ 1 → Representable (rnd y) ∧ |rnd y| ≤ 1 ∧ |rnd y - y| ≤ 1 / 2 ^ 53 := fun y hy => by
    refine ⟨rnd_representable _, DLinear.rnd_abs_le rep_one hy, (DRot.err1 hy).trans ?_⟩
    rw [show (1 : ℝ) / 2 ^ 53 = DQuat.u from rfl]; linarith
  refine ⟨⟨fun x => rnd (Real.sin x), fun x => rnd (Real.cos x), atan2, fun x => match x with | .fin x => .fin (rnd (Real.exp x)) | _ => .nan,
    fun x => match x with | .fin x => .fin (rnd (Real.log x)) | _ => .nan⟩,
    ⟨fun x _ => key _ (Real.abs_sin_le_one x), fun x _ => key _ (Real.abs_cos_le_one x), ha, fun x _ h => ⟨_, rfl, rnd_representable _, ?_⟩, fun x _ h1 h2 => ⟨_, rfl, rnd_representable _, ?_⟩⟩⟩
  · have n := DRot.near1 (Real.exp x)
    have e := (exp_range h).1
    have tu := DRot.t_u
    rw [abs_of_pos (Real.exp_pos x)] at n
    rw [e51]
    have := mul_le_mul_of_nonneg_left e u0.le
    norm_num at tu
    linarith
  · have x0 : 0 < x := by linarith
    have a := Real.log_le_sub_one_of_pos x0
    have b := Real.one_sub_inv_le_log_of_pos x0
    have : x⁻¹ ≤ 8 := by rw [inv_le_comm₀ x0 (by norm_num)]; linarith
    have h8 : |Real.log x| ≤ 2 ^ (3 : ℤ) := by norm_num; exact abs_le.2 ⟨by linarith, by linarith⟩
    have := DRot.half (by norm_num) h8
    refine this.trans (zpow_le_zpow_right₀ one_le_two (by norm_num))

theorem rnd_zero' : rnd (0 : ℝ) = 0 := Double.rnd_zero

theorem exp_scalar (o : Bool) (L : MathLib) {e : ℝ} (he : 0 ≤ e) (s : ℝ) : DQuat.exp o (.fin e) L (.of ⟨0, 0, 0, s⟩) = .ok (.of ⟨0, 0, 0, 1⟩) := by
  have n : DVec.norm o ⟨.fin 0, .fin 0, .fin 0⟩ = .fin 0 := by
    rw [norm_fin3 o (by simp) (by simp) (by simp)]
    have : DVec.dot3 o 0 0 0 0 0 0 = 0 := by cases o <;> simp [DVec.dot3, DVec.sum3, rnd_zero']
    rw [this, Real.sqrt_zero, rnd_zero']
  rw [DQuat.exp, DQuat.of_defined, if_neg (by simp)]
  have n' : DVec.norm o ⟨(DQuat.of ⟨0, 0, 0, s⟩).x, (DQuat.of ⟨0, 0, 0, s⟩).y, (DQuat.of ⟨0, 0, 0, s⟩).z⟩ = .fin 0 := n
  simp only [n', F64.le, he, decide_true, if_true]
  rfl

theorem slerp_unit_tail (o : Bool) {L : MathLib} (hL : MathLib.Good L) {a e : ℝ} (h : |a| ≤ e / 2) (he : 2 ^ (-100 : ℤ) ≤ e) (he' : e ≤ 1 / 1000) {r : ℝ} (r0 : 0 ≤ r) (r1 : r ≤ 1) :
    DQuat.pow o (.fin e) L (.of ⟨a, 0, 0, 1⟩) (.fin r) = .ok (.of ⟨0, 0, 0, 1⟩) := by
  have u0 := DQuat.u_pos
  have us := DQuat.u_small
  have a1 : |a| ≤ 1 / 2000 := by linarith
  have nV : ‖pure ⟨a, 0, 0⟩‖ = |a| := by rw [pure_norm]; simp [Real.sqrt_mul_self_eq_abs]
  obtain ⟨n, en, -, hn⟩ := vec_norm o (e := e) (le_500 (by linarith : |a| ≤ 1000)) (by simp : |(0 : ℝ)| ≤ 2 ^ 500) (by simp : |(0 : ℝ)| ≤ 2 ^ 500) he
  rw [nV] at hn
  have ne : n ≤ e := by
    rcases hn with hn | ⟨h1, h2, h3⟩
    · exact hn.1
    · have uA : DQuat.u * |a| ≤ 1 / 1000 * |a| := mul_le_mul_of_nonneg_right (by linarith) (abs_nonneg _)
      linarith [(abs_le.1 h3).2]
  have S : 2 ^ (-400 : ℤ) ≤ a * a + 0 * 0 + 0 * 0 + 1 * 1 := by
    refine (zpow_le_zpow_right₀ one_le_two (show (-400 : ℤ) ≤ 0 by norm_num)).trans ?_
    norm_num
    exact mul_self_nonneg a
  have nq := DQuat.nrm_near S
  have s1 : 1 ≤ Real.sqrt (a * a + 0 * 0 + 0 * 0 + 1 * 1) := Real.one_le_sqrt.2 (by nlinarith [mul_self_nonneg a])
  have s2 : Real.sqrt (a * a + 0 * 0 + 0 * 0 + 1 * 1) ≤ 2 := Real.sqrt_le_iff.2 ⟨by norm_num, by nlinarith [abs_le.1 a1]⟩
  obtain ⟨nq1, nq2⟩ := abs_le.1 nq
  have uq : DQuat.u * Real.sqrt (a * a + 0 * 0 + 0 * 0 + 1 * 1) ≤ 1 / 1000 * Real.sqrt (a * a + 0 * 0 + 0 * 0 + 1 * 1) := mul_le_mul_of_nonneg_right (by linarith) (Real.sqrt_nonneg _)
  obtain ⟨m1, m2⟩ : 1 / 5 ≤ DQuat.nrm a 0 0 1 ∧ DQuat.nrm a 0 0 1 ≤ 5 := by
    clear S he nq en hn
    generalize Real.sqrt (a * a + 0 * 0 + 0 * 0 + 1 * 1) = Z at *
    exact ⟨by linarith, by linarith⟩
  obtain ⟨y, ey, -, hy⟩ := hL.log (DQuat.nrm a 0 0 1) (rnd_representable _) (le_trans (by norm_num) m1) (m2.trans (by norm_num))
  have nn : DQuat.norm (.of ⟨a, 0, 0, 1⟩) = .ok (.fin (DQuat.nrm a 0 0 1)) := DQuat.norm_fin (le_500 (by linarith)) (by simp) (by simp) (le_500 (by norm_num))
  have l : DQuat.log o (.fin e) L (.of ⟨a, 0, 0, 1⟩) = .ok (.of ⟨0, 0, 0, y⟩) := by
    rw [DQuat.log, DQuat.of_defined, if_neg (by simp), nn]
    have en' : DVec.norm o ⟨(DQuat.of ⟨a, 0, 0, 1⟩).x, (DQuat.of ⟨a, 0, 0, 1⟩).y, (DQuat.of ⟨a, 0, 0, 1⟩).z⟩ = .fin n := en
    simp only [bind, Except.bind, en', F64.le, ne, decide_true, if_true, ey]
    rfl
  have y5 : |y| ≤ 1000 := by
    have := log_abs_le m1 m2
    have := abs_sub_abs_le_abs_sub y (Real.log (DQuat.nrm a 0 0 1))
    have e51 : (2 : ℝ) ^ (-51 : ℤ) ≤ 1 := by norm_num
    linarith
  have sf := scale_fin (q := ⟨0, 0, 0, y⟩) (k := r) (by simp) (by simp) (by simp) (le_500 y5) (le_500 (by rw [abs_of_nonneg r0]; linarith))
  simp only [zero_mul, rnd_zero'] at sf
  rw [DQuat.pow, l]
  simp only [bind, Except.bind, sf]
  exact exp_scalar o L ((two_zpow_pos _).le.trans he) _

end Verif.Props
