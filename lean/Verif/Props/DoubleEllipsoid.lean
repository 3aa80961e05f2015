import Verif.Lemmas.DoubleEllipsoid2

/-!
# C140: points of ellipsoids in double precision
-/

namespace Verif.Props

open Verif Verif.Spec Verif.Double

/-- `u` is the image of `x` under the rotation that `q` stands for -/
def Turned (q : Quat) (x u : V3) : Prop := pure u = (hamilton q)⁻¹ * pure x * hamilton q

theorem Turned.exists {q : Quat} (hq : hamilton q ≠ 0) (x : V3) : ∃ u, Turned q x u := by
  refine ⟨⟨((hamilton q)⁻¹ * pure x * hamilton q).imI, ((hamilton q)⁻¹ * pure x * hamilton q).imJ, ((hamilton q)⁻¹ * pure x * hamilton q).imK⟩, ?_⟩
  have r : ((hamilton q)⁻¹ * pure x * hamilton q).re = 0 := by
    have e : ((hamilton q)⁻¹ * pure x * hamilton q).re = (hamilton q * ((hamilton q)⁻¹ * pure x)).re := by
      simp only [Quaternion.re_mul]; ring
    rw [e, ← mul_assoc, mul_inv_cancel₀ hq, one_mul]
    rfl
  rw [Turned, pure, hamilton]
  ext <;> simp [r]

theorem Turned.norm {q : Quat} (hq : hamilton q ≠ 0) {x u : V3} (h : Turned q x u) : u.norm = x.norm := by
  rw [← pure_length, ← pure_length, h, norm_mul, norm_mul, norm_inv]
  have := norm_ne_zero_iff.2 hq
  field_simp

/-- the computed axes -/
theorem computed_axis (o : Bool) {q : Quat} (hq : Tempered q) {tol : ℝ} (ht : 0 < tol) (ht' : tol ≤ 1 / 8) (hr : Representable tol) {x U : V3} (hx : x.norm = 1) (hU : Turned q x U)
    {w : DVec} (h : DQuat.rotateVector o (.fin tol) (.of q) (doubles x) = .ok w) :
    ∃ u : V3, w = doubles u ∧ (u - U).norm ≤ 22 / 10 * tol + 33 * DQuat.u := by
  have big : ‖pure x‖ ≤ 2 ^ 490 := by rw [pure_length, hx]; exact one_le_pow₀ one_le_two
  obtain ⟨u, e, n⟩ := C120_rotate o hq ht ht' hr big h
  refine ⟨u, e, ?_⟩
  rw [← hU, pure_sub, pure_length, pure_length, hx] at n
  have u0 := DQuat.u_pos
  have tu := DRot.t_u
  have e1 : (32 / 2 ^ 53 : ℝ) = 32 * DQuat.u := by rw [DQuat.u]; ring
  have e2 : (2 : ℝ) ^ (-1075 : ℤ) = DQuat.t := rfl
  rw [e1, e2] at n
  norm_num at tu
  linarith

/-- Where a half axis is at least the distance to the centre over `r`, and half axes and coordinates are of moderate size. -/
structure EllipsoidSized (p c : V3) (a b k r : ℝ) : Prop where
  point : Within p
  center : Within c
  point' : Bounded 200 p
  center' : Bounded 200 c
  a1 : 2 ^ (-200 : ℤ) ≤ a
  a2 : a ≤ 2 ^ 200
  b1 : 2 ^ (-200 : ℤ) ≤ b
  b2 : b ≤ 2 ^ 200
  c1 : 2 ^ (-200 : ℤ) ≤ k
  c2 : k ≤ 2 ^ 200
  one : 1 ≤ r
  ra : (p - c).norm ≤ r * a
  rb : (p - c).norm ≤ r * b
  rc : (p - c).norm ≤ r * k

/-- the sum that is 1 on the ellipsoid -/
noncomputable def level (p c : V3) (a b k : ℝ) (u v w : V3) : ℝ := ((p - c).dot u / a) ^ 2 + ((p - c).dot v / b) ^ 2 + ((p - c).dot w / k) ^ 2

theorem small_over {a : ℝ} (ha : 2 ^ (-200 : ℤ) ≤ a) : 31 / 10 * DQuat.t ≤ DQuat.u * a := by
  have u0 := DQuat.u_pos
  refine le_trans ?_ (mul_le_mul_of_nonneg_left ha u0.le)
  have e1 : DQuat.t = 2 ^ (-1075 : ℤ) := rfl
  have e2 : DQuat.u = 2 ^ (-53 : ℤ) := by rw [DQuat.u]; norm_num
  have p : (0 : ℝ) < 2 ^ (-1075 : ℤ) := by positivity
  rw [e1, e2]
  calc (31 / 10 : ℝ) * 2 ^ (-1075 : ℤ) ≤ 2 ^ (2 : ℤ) * 2 ^ (-1075 : ℤ) := mul_le_mul_of_nonneg_right (by norm_num) p.le
    _ = 2 ^ (-1073 : ℤ) := by rw [← zpow_add₀ two_ne_zero]; norm_num
    _ ≤ 2 ^ (-253 : ℤ) := zpow_le_zpow_right₀ one_le_two (by norm_num)
    _ = _ := by rw [← zpow_add₀ two_ne_zero]; norm_num

/-- what `contains` decides, from the accuracy of the computed axes -/
theorem ellipsoid_decides (o : Bool) {eps g a b k r : ℝ} {p c u v w U V W : V3} {q : Quat} (M : EllipsoidSized p c a b k r)
    (hu : DQuat.rotateVector o (.fin eps) (.of q) (doubles ⟨1, 0, 0⟩) = .ok (doubles u))
    (hv : DQuat.rotateVector o (.fin eps) (.of q) (doubles ⟨0, 1, 0⟩) = .ok (doubles v))
    (hw : DQuat.rotateVector o (.fin eps) (.of q) (doubles ⟨0, 0, 1⟩) = .ok (doubles w))
    (nu : (u - U).norm ≤ g) (nv : (v - V).norm ≤ g) (nw : (w - W).norm ≤ g) (hU : U.norm = 1) (hV : V.norm = 1) (hW : W.norm = 1) (hg : g ≤ 29 / 100) :
    ∃ L : ℝ, DEllipsoid.contains o (.fin eps) ⟨doubles c, .fin a, .fin b, .fin k, .of q⟩ (doubles p) = .ok (decide (|rnd (L - 1)| < eps)) ∧
      |L - level p c a b k U V W| ≤ (7 * (g + 7 * DQuat.u) + 26 * DQuat.u) * r ^ 2 := by
  have u0 := DQuat.u_pos
  have us := DQuat.u_small
  have g0 : 0 ≤ g := (V3.norm_nonneg _).trans nu
  have two : ∀ {x X : V3}, (x - X).norm ≤ g → X.norm = 1 → x.norm ≤ 2 := fun {x X} h h' => by
    have := V3.norm_le_add x X; linarith
  have p200 : (0 : ℝ) < 2 ^ (-200 : ℤ) := by positivity
  refine ⟨_, ellipsoid_value o hu hv hw (two nu hU) (two nv hV) (two nw hW) M.point' M.center' M.a1 M.a2 M.b1 M.b2 M.c1 M.c2, ?_⟩
  have step : ∀ {x X : V3} {l : ℝ}, (x - X).norm ≤ g → X.norm = 1 → 2 ^ (-200 : ℤ) ≤ l → (p - c).norm ≤ r * l →
      |dotR o x (diff3 p c) / l - (p - c).dot X / l| ≤ (g + 7 * DQuat.u) * r ∧ |(p - c).dot X / l| ≤ r := by
    intro x X l h h' hl hr
    refine axis_ratio_near (p200.trans_le hl) ?_ ?_ hr M.one (by linarith) (small_over hl)
    · have := coord_near o M.point M.center h' h (by linarith)
      rw [show g + 7 * DQuat.u - DQuat.u = g + 6 * DQuat.u by ring]
      exact this
    · have := abs_dot_le_norms (p - c) X
      rwa [h', mul_one] at this
  exact axis_sum_near M.a1 M.b1 M.c1 M.one (by linarith) (by linarith) (step nu hU M.a1 M.ra) (step nv hV M.b1 M.rb) (step nw hW M.c1 M.rc)

theorem unit_axes : (⟨1, 0, 0⟩ : V3).norm = 1 ∧ (⟨0, 1, 0⟩ : V3).norm = 1 ∧ (⟨0, 0, 1⟩ : V3).norm = 1 := by
  refine ⟨?_, ?_, ?_⟩ <;> simp [V3.norm, V3.normSq, V3.dot]

/-- the point of an ellipsoid on the ray from the centre to a point -/
theorem radial {p c u v w : V3} {a b k E : ℝ} (h : |level p c a b k u v w - 1| ≤ E) (hE : E ≤ 1 / 2) :
    ∃ p' ∈ EllipsoidSet c a b k u v w, (p - p').norm ≤ E * (p - c).norm := by
  have b1 := (abs_le.1 h).1
  set F := level p c a b k u v w with hF
  have F0 : 1 / 2 ≤ F := by linarith
  have s2 := Real.sq_sqrt (show 0 ≤ F by linarith)
  have s0 : 7 / 10 ≤ √F := Real.le_sqrt_of_sq_le (by norm_num; linarith)
  have sp : 0 < √F := by linarith
  refine ⟨c + (1 / √F) • (p - c), ?_, ?_⟩
  · have e : c + (1 / √F) • (p - c) - c = (1 / √F) • (p - c) := by ext <;> simp
    have d : ∀ x : V3, ((1 / √F) • (p - c)).dot x = 1 / √F * (p - c).dot x := fun x => by simp only [V3.dot, V3.smul_x, V3.smul_y, V3.smul_z]; ring
    rw [EllipsoidSet, Set.mem_ofPred_eq, e, d, d, d]
    have : (1 / √F * (p - c).dot u / a) ^ 2 + (1 / √F * (p - c).dot v / b) ^ 2 + (1 / √F * (p - c).dot w / k) ^ 2 = F / √F ^ 2 := by
      have e' : F = ((p - c).dot u / a) ^ 2 + ((p - c).dot v / b) ^ 2 + ((p - c).dot w / k) ^ 2 := hF
      generalize √F = s at *
      rw [e']; ring
    rw [this, s2, div_self (by linarith)]
  · have e : p - (c + (1 / √F) • (p - c)) = (1 - 1 / √F) • (p - c) := by ext <;> simp <;> ring
    rw [e, V3.norm_smul]
    refine mul_le_mul_of_nonneg_right ?_ (V3.norm_nonneg _)
    have e2 : 1 - 1 / √F = (F - 1) / (√F * (√F + 1)) := by
      field_simp
      linear_combination s2
    rw [e2, abs_div, abs_of_pos (show 0 < √F * (√F + 1) by positivity), div_le_iff₀ (by positivity)]
    have E0 : 0 ≤ E := (abs_nonneg _).trans h
    nlinarith

theorem unitary_of_rotate {o : Bool} {tol : F64 ℝ} {q : DQuat} {v : V3} {w : DVec} (h : DQuat.rotateVector o tol q (doubles v) = .ok w) : DQuat.isUnitary tol q = .ok true := by
  rw [DQuat.rotateVector, doubles_defined, if_neg (by simp)] at h
  rcases e : DQuat.isUnitary tol q with x | b
  · rw [e] at h; cases h
  · rw [e] at h
    cases b
    · cases h
    · rfl

/-- the value does not depend on the tolerance -/
theorem rotate_tolerance (o : Bool) {e e' : F64 ℝ} {q : DQuat} {v : DVec} (h : DQuat.isUnitary e q = .ok true) (h' : DQuat.isUnitary e' q = .ok true) :
    DQuat.rotateVector o e q v = DQuat.rotateVector o e' q v := by
  rw [DQuat.rotateVector, DQuat.rotateVector, h, h']

/-- **C140.** A point that an ellipsoid contains, in double precision and at tolerance `eps`, is near a point of the ellipsoid: within `eps + (16 eps + 320 / 2^53) r^2` of its distance to the centre,
where `r` bounds the quotients of that distance by the half axes. -/
theorem C140_near (o : Bool) {eps a b k r : ℝ} {p c U V W : V3} {q : Quat} (M : EllipsoidSized p c a b k r) (hq : Tempered q) (h0 : 0 < eps) (h8 : eps ≤ 1 / 8) (hr : Representable eps)
    (hU : Turned q ⟨1, 0, 0⟩ U) (hV : Turned q ⟨0, 1, 0⟩ V) (hW : Turned q ⟨0, 0, 1⟩ W) (hE : eps + (16 * eps + 320 / 2 ^ 53) * r ^ 2 ≤ 1 / 2)
    (h : DEllipsoid.contains o (.fin eps) ⟨doubles c, .fin a, .fin b, .fin k, .of q⟩ (doubles p) = .ok true) :
    ∃ p' ∈ EllipsoidSet c a b k U V W, (p - p').norm ≤ (eps + (16 * eps + 320 / 2 ^ 53) * r ^ 2) * (p - c).norm := by
  have u0 := DQuat.u_pos
  have us := DQuat.u_small
  refine radial ?_ hE
  have axis : ∀ {x : V3} {X : V3}, x.norm = 1 → Turned q x X → (∃ y, DQuat.rotateVector o (.fin eps) (.of q) (doubles x) = .ok y) →
      ∃ y, DQuat.rotateVector o (.fin eps) (.of q) (doubles x) = .ok (doubles y) ∧ (y - X).norm ≤ 22 / 10 * eps + 33 * DQuat.u := by
    rintro x X hx hX ⟨y, hy⟩
    obtain ⟨z, e, n⟩ := computed_axis o hq h0 h8 hr hx hX hy
    exact ⟨z, by rw [hy, e], n⟩
  have hc := h
  rw [DEllipsoid.contains, doubles_defined, if_neg (by simp)] at hc
  split_ifs at hc
  change (DQuat.rotateVector o (.fin eps) (.of q) (doubles ⟨1, 0, 0⟩) >>= _) = _ at hc
  rcases e1 : DQuat.rotateVector o (.fin eps) (.of q) (doubles ⟨1, 0, 0⟩) with x | u'
  · rw [e1] at hc; cases hc
  rw [e1] at hc
  change (DQuat.rotateVector o (.fin eps) (.of q) (doubles ⟨0, 1, 0⟩) >>= _) = _ at hc
  rcases e2 : DQuat.rotateVector o (.fin eps) (.of q) (doubles ⟨0, 1, 0⟩) with x | v'
  · rw [e2] at hc; cases hc
  rw [e2] at hc
  change (DQuat.rotateVector o (.fin eps) (.of q) (doubles ⟨0, 0, 1⟩) >>= _) = _ at hc
  rcases e3 : DQuat.rotateVector o (.fin eps) (.of q) (doubles ⟨0, 0, 1⟩) with x | w'
  · rw [e3] at hc; cases hc
  obtain ⟨x1, x2, x3⟩ := unit_axes
  obtain ⟨u, hu, nu⟩ := axis x1 hU ⟨_, e1⟩
  obtain ⟨v, hv, nv⟩ := axis x2 hV ⟨_, e2⟩
  obtain ⟨w, hw, nw⟩ := axis x3 hW ⟨_, e3⟩
  have q0 : hamilton q ≠ 0 := by
    have un : DQuat.isUnitary (.fin eps) (.of q) = .ok true := unitary_of_rotate e1
    have := (abs_le.1 ((C120_unitary hq h0 h8 hr).2 un)).1
    have : (4 / 2 ^ 53 : ℝ) ≤ 1 / 2 := by norm_num
    exact norm_pos_iff.1 (by linarith)
  obtain ⟨L, eL, nL⟩ := ellipsoid_decides o M hu hv hw nu nv nw (by rw [hU.norm q0, x1]) (by rw [hV.norm q0, x2]) (by rw [hW.norm q0, x3]) (by linarith)
  rw [eL] at h
  have hL : |rnd (L - 1)| < eps := by simpa using h
  have hL' : |L - 1| ≤ eps := by
    by_contra hh
    push Not at hh
    rcases lt_abs.1 hh with g | g
    · have := le_rnd hr g.le
      have := le_abs_self (rnd (L - 1))
      linarith
    · have := le_rnd hr g.le
      rw [rnd_neg] at this
      have := neg_abs_le (rnd (L - 1))
      linarith
  have e320 : (320 / 2 ^ 53 : ℝ) = 320 * DQuat.u := by rw [DQuat.u]; ring
  rw [e320]
  have r0 := sq_nonneg r
  have f1 := mul_nonneg u0.le r0
  have f2 := mul_nonneg h0.le r0
  have := abs_sub_le (level p c a b k U V W) L 1
  rw [abs_sub_comm] at nL
  linarith

/-- **C140.** A point of an ellipsoid is contained, in double precision, if the quaternion is unitary within 4 units of rounding and the tolerance at least `440 r^2` of them. -/
theorem C140_found (o : Bool) {eps a b k r : ℝ} {p c U V W : V3} {q : Quat} (M : EllipsoidSized p c a b k r) (hq : Tempered q) (hr : Representable eps) (hn : |‖hamilton q‖ - 1| ≤ 4 / 2 ^ 53)
    (hU : Turned q ⟨1, 0, 0⟩ U) (hV : Turned q ⟨0, 1, 0⟩ V) (hW : Turned q ⟨0, 0, 1⟩ W) (he : 440 / 2 ^ 53 * r ^ 2 ≤ eps) (h8 : eps ≤ 1 / 8) (hp : p ∈ EllipsoidSet c a b k U V W) :
    DEllipsoid.contains o (.fin eps) ⟨doubles c, .fin a, .fin b, .fin k, .of q⟩ (doubles p) = .ok true := by
  have u0 := DQuat.u_pos
  have us := DQuat.u_small
  have e440 : (440 / 2 ^ 53 : ℝ) = 440 * DQuat.u := by rw [DQuat.u]; ring
  have e4 : (4 / 2 ^ 53 : ℝ) = 4 * DQuat.u := by rw [DQuat.u]; ring
  have r1 : 1 ≤ r ^ 2 := one_le_pow₀ M.one
  have f1 := mul_le_mul_of_nonneg_left r1 u0.le
  rw [e440] at he
  have rep : Representable (8 * DQuat.u) := by
    have := F64.representable_pow (α := ℝ) (e := -50) (by norm_num)
    rwa [show (2 : ℝ) ^ (-50 : ℤ) = 8 * DQuat.u by rw [DQuat.u]; norm_num] at this
  have t0 : 0 < 8 * DQuat.u := by linarith
  have t8 : 8 * DQuat.u ≤ 1 / 8 := by linarith
  have un : DQuat.isUnitary (.fin (8 * DQuat.u)) (.of q) = .ok true := (C120_unitary hq t0 t8 rep).1 (by rw [e4] at *; linarith)
  have un' : DQuat.isUnitary (.fin eps) (.of q) = .ok true := (C120_unitary hq (by linarith) h8 hr).1 (by rw [e4] at *; linarith)
  have axis : ∀ {x : V3} {X : V3}, x.norm = 1 → Turned q x X →
      ∃ y, DQuat.rotateVector o (.fin eps) (.of q) (doubles x) = .ok (doubles y) ∧ (y - X).norm ≤ 51 * DQuat.u := by
    intro x X hx hX
    obtain ⟨y, hy⟩ := C120_returns o hq t0 t8 rep (v := x) (by rw [pure_length, hx]; exact one_le_pow₀ one_le_two) (by rw [e4] at *; linarith)
    obtain ⟨z, e, n⟩ := computed_axis o hq t0 t8 rep hx hX hy
    exact ⟨z, by rw [rotate_tolerance o un' un, hy, e], by linarith⟩
  obtain ⟨x1, x2, x3⟩ := unit_axes
  obtain ⟨u, hu, nu⟩ := axis x1 hU
  obtain ⟨v, hv, nv⟩ := axis x2 hV
  obtain ⟨w, hw, nw⟩ := axis x3 hW
  have q0 : hamilton q ≠ 0 := by
    have := (abs_le.1 hn).1
    rw [e4] at this
    exact norm_pos_iff.1 (by linarith)
  obtain ⟨L, eL, nL⟩ := ellipsoid_decides o M hu hv hw nu nv nw (by rw [hU.norm q0, x1]) (by rw [hV.norm q0, x2]) (by rw [hW.norm q0, x3]) (by linarith)
  rw [eL, show level p c a b k U V W = 1 from hp] at *
  refine congrArg _ (decide_eq_true ?_)
  obtain ⟨d, hd, kd, kh, e⟩ := DLinear.rnd_split (L - 1)
  have kd : |d| ≤ DQuat.u := kd
  have kh : |hd| ≤ DQuat.t := kh
  have tu := DRot.t_u
  norm_num at tu
  rw [e]
  have m := mul_le_mul_of_nonneg_left kd (abs_nonneg (L - 1))
  have m2 := mul_le_mul_of_nonneg_left us (abs_nonneg (L - 1))
  have := abs_add_le ((L - 1) * (1 + d)) hd
  have k1 : |(L - 1) * (1 + d)| ≤ |L - 1| + |L - 1| * |d| := by
    rw [mul_add, mul_one, ← abs_mul]; exact abs_add_le _ _
  nlinarith

theorem prod_scalar_left (o : Bool) (s : ℝ) (v : V3) : DQuat.prod o ⟨0, 0, 0, s⟩ ⟨v.x, v.y, v.z, 0⟩ = ⟨rnd (s * v.x), rnd (s * v.y), rnd (s * v.z), 0⟩ := by
  have r : ∀ x : ℝ, rnd (rnd x) = rnd x := fun x => rnd_exact (rnd_representable x)
  cases o <;> simp [DQuat.prod, DQuat.vec4, DQuat.sca4, DVec.sum3, rnd_zero, r]

theorem prod_scalar_right (o : Bool) (s : ℝ) (v : V3) : DQuat.prod o ⟨v.x, v.y, v.z, 0⟩ ⟨-0, -0, -0, s⟩ = ⟨rnd (s * v.x), rnd (s * v.y), rnd (s * v.z), 0⟩ := by
  have r : ∀ x : ℝ, rnd (rnd x) = rnd x := fun x => rnd_exact (rnd_representable x)
  cases o <;> simp [DQuat.prod, DQuat.vec4, DQuat.sca4, DVec.sum3, rnd_zero, r]

/-- a vector of length 1 turned by a quaternion without vector part -/
theorem rotate_scalar (o : Bool) {eps s : ℝ} (hs : |s| ≤ 2) {v : V3} (hv : v.norm ≤ 1) (hu : DQuat.isUnitary (.fin eps) (.of ⟨0, 0, 0, s⟩) = .ok true) :
    DQuat.rotateVector o (.fin eps) (.of ⟨0, 0, 0, s⟩) (doubles v) = .ok (doubles ⟨rnd (s * rnd (s * v.x)), rnd (s * rnd (s * v.y)), rnd (s * rnd (s * v.z))⟩) := by
  have n1 : ‖hamilton ⟨0, 0, 0, s⟩‖ ≤ 2 := by
    rw [← norm_sqrt]
    simp only [mul_zero, zero_add]
    rwa [Real.sqrt_mul_self_eq_abs]
  have n1' : ‖hamilton ⟨-0, -0, -0, s⟩‖ ≤ 2 := by simpa using n1
  have up : (2 : ℝ) ≤ 2 ^ 500 := by simpa using pow_le_pow_right₀ (one_le_two (α := ℝ)) (show 1 ≤ 500 by norm_num)
  have n2 : ‖hamilton ⟨v.x, v.y, v.z, 0⟩‖ ≤ 2 := by
    have := pure_length v
    rw [pure] at this
    rw [this]; linarith
  have comp : ∀ x : ℝ, |x| ≤ v.norm → |rnd (s * x)| ≤ 2 := fun x hx => by
    refine DLinear.rnd_abs_le (by simpa using DQuat.rep_two 1) ?_
    rw [abs_mul]
    have := mul_le_mul hs (hx.trans hv) (abs_nonneg x) (by norm_num)
    linarith
  obtain ⟨cx, cy, cz, -⟩ := DQuat.component_le ⟨v.x, v.y, v.z, 0⟩
  have ev : ‖hamilton ⟨v.x, v.y, v.z, 0⟩‖ = v.norm := pure_length v
  rw [ev] at cx cy cz
  have n3 : ‖hamilton ⟨rnd (s * v.x), rnd (s * v.y), rnd (s * v.z), 0⟩‖ ≤ 4 := by
    have h := pure_length ⟨rnd (s * v.x), rnd (s * v.y), rnd (s * v.z)⟩
    have k := norm_le_each (v := ⟨rnd (s * v.x), rnd (s * v.y), rnd (s * v.z)⟩) (k := 2) (comp _ cx) (comp _ cy) (comp _ cz)
    rw [pure] at h
    rw [h]; linarith
  have up4 : (4 : ℝ) ≤ 2 ^ 500 := by
    have := pow_le_pow_right₀ (one_le_two (α := ℝ)) (show 2 ≤ 500 by norm_num)
    exact (by norm_num : (4 : ℝ) ≤ 2 ^ 2).trans this
  have e1 := DQuat.product_fin o (n1.trans up) (n2.trans up)
  rw [prod_scalar_left] at e1
  have e2 := DQuat.product_fin o (n3.trans up4) (n1'.trans up)
  rw [prod_scalar_right o s ⟨rnd (s * v.x), rnd (s * v.y), rnd (s * v.z)⟩] at e2
  exact rotate_value o hu e1 e2

theorem scalar_length {s : ℝ} (hs : 0 ≤ s) : ‖hamilton ⟨0, 0, 0, s⟩‖ = s := by
  rw [← norm_sqrt]
  simp only [mul_zero, zero_add]
  exact Real.sqrt_mul_self hs

theorem dot_axis (o : Bool) {d : V3} (s : ℝ) :
    dotR o ⟨s, 0, 0⟩ d = rnd (s * d.x) ∧ dotR o ⟨0, s, 0⟩ d = rnd (s * d.y) ∧ dotR o ⟨0, 0, s⟩ d = rnd (s * d.z) := by
  have r : ∀ x : ℝ, rnd (rnd x) = rnd x := fun x => rnd_exact (rnd_representable x)
  cases o <;> simp [dotR, DVec.dot3, DVec.sum3, rnd_zero, r]

/-- what `contains` decides for an ellipsoid along the axes of coordinates -/
theorem ellipsoid_unit (o : Bool) {eps a b k : ℝ} {p c : V3} (hp : Bounded 200 p) (hc : Bounded 200 c) (a1 : 2 ^ (-200 : ℤ) ≤ a) (a2 : a ≤ 2 ^ 200)
    (b1 : 2 ^ (-200 : ℤ) ≤ b) (b2 : b ≤ 2 ^ 200) (k1 : 2 ^ (-200 : ℤ) ≤ k) (k2 : k ≤ 2 ^ 200) (he : 9 / 2 ^ 53 ≤ eps) (h8 : eps ≤ 1 / 8) (hr : Representable eps) :
    DEllipsoid.contains o (.fin eps) ⟨doubles c, .fin a, .fin b, .fin k, .of ⟨0, 0, 0, 1⟩⟩ (doubles p) =
      .ok (decide (|rnd (levelR (diff3 p c).x (diff3 p c).y (diff3 p c).z a b k - 1)| < eps)) := by
  have one2 : |(1 : ℝ)| ≤ 2 := by norm_num
  have r1 : Representable (1 : ℝ) := by simpa using DQuat.rep_two 0
  have e0 : 0 < eps := lt_of_lt_of_le (by norm_num) he
  have un : DQuat.isUnitary (.fin eps) (.of ⟨0, 0, 0, 1⟩) = .ok true := by
    refine (C120_unitary (tempered_scalar representable_zero (by norm_num) r1 (by norm_num)) e0 h8 hr).1 ?_
    rw [scalar_length zero_le_one, sub_self, abs_zero]
    linarith [show (4 / 2 ^ 53 : ℝ) ≤ 9 / 2 ^ 53 by norm_num]
  obtain ⟨x1, x2, x3⟩ := unit_axes
  have w1 := rotate_scalar o one2 x1.le un
  have w2 := rotate_scalar o one2 x2.le un
  have w3 := rotate_scalar o one2 x3.le un
  simp only [one_mul, rnd_zero, rnd_exact r1] at w1 w2 w3
  rw [ellipsoid_value o w1 w2 w3 (by linarith) (by linarith) (by linarith) hp hc a1 a2 b1 b2 k1 k2]
  obtain ⟨d1, d2, d3⟩ := dot_axis o (d := diff3 p c) 1
  rw [d1, d2, d3]
  have q : ∀ x y : ℝ, rnd (1 * rnd (x - y)) = rnd (x - y) := fun x y => by rw [one_mul, rnd_exact (rnd_representable _)]
  rw [show (diff3 p c).x = rnd (p.x - c.x) from rfl, show (diff3 p c).y = rnd (p.y - c.y) from rfl, show (diff3 p c).z = rnd (p.z - c.z) from rfl, q, q, q]

theorem ratio_square {x X a : ℝ} (ha : 2 ^ (-200 : ℤ) ≤ a) (h : |x - X| ≤ DQuat.u * |X| + DQuat.t) (h1 : (X / a) ^ 2 ≤ 1) :
    |(x / a) ^ 2 - (X / a) ^ 2| ≤ 2 * DQuat.u * (X / a) ^ 2 + DQuat.u / 10 ^ 10 := by
  have p : (0 : ℝ) < 2 ^ (-200 : ℤ) := by positivity
  have a0 := p.trans_le ha
  have u0 := DQuat.u_pos
  have us := DQuat.u_small
  have ta : DQuat.t / a ≤ DQuat.u / 10 ^ 12 := by
    rw [div_le_iff₀ a0]
    have e1 : DQuat.t = 2 ^ (-1075 : ℤ) := rfl
    have e2 : DQuat.u = 2 ^ (-53 : ℤ) := by rw [DQuat.u]; norm_num
    refine le_trans ?_ (mul_le_mul_of_nonneg_left ha (by positivity))
    rw [e1, e2, div_mul_eq_mul_div, ← zpow_add₀ two_ne_zero, le_div_iff₀ (by positivity)]
    have : (10 : ℝ) ^ 12 ≤ 2 ^ (40 : ℤ) := by norm_num
    refine (mul_le_mul_of_nonneg_left this (by positivity)).trans ?_
    rw [← zpow_add₀ two_ne_zero]
    exact zpow_le_zpow_right₀ one_le_two (by norm_num)
  have e : |x / a - X / a| ≤ DQuat.u * |X / a| + DQuat.u / 10 ^ 12 := by
    rw [← sub_div, abs_div, abs_div, abs_of_pos a0]
    refine (div_le_div_of_nonneg_right h a0.le).trans ?_
    rw [add_div, mul_div_assoc]
    linarith
  generalize x / a = y at *
  generalize X / a = Y at *
  have hY : |Y| ≤ 1 := by rwa [← sq_le_one_iff_abs_le_one]
  have Y0 := abs_nonneg Y
  have e' : |y - Y| ≤ 11 / 10 * DQuat.u := by nlinarith
  have k : |y ^ 2 - Y ^ 2| ≤ 2 * |Y| * |y - Y| + |y - Y| * |y - Y| := by
    rw [show y ^ 2 - Y ^ 2 = 2 * Y * (y - Y) + (y - Y) * (y - Y) by ring]
    refine (abs_add_le _ _).trans ?_
    rw [abs_mul, abs_mul, abs_mul, abs_two]
  have k2 := mul_le_mul_of_nonneg_left e Y0
  have k3 : |y - Y| * |y - Y| ≤ 11 / 10 * DQuat.u * (11 / 10 * DQuat.u) := mul_le_mul e' e' (abs_nonneg _) (by positivity)
  have k4 : DQuat.u * DQuat.u ≤ DQuat.u * (1 / 10 ^ 15) := mul_le_mul_of_nonneg_left us u0.le
  have k5 : |Y| * |Y| = Y ^ 2 := by rw [← sq, sq_abs]
  have k6 : |Y| * DQuat.u ≤ DQuat.u := by nlinarith
  have k7 : |Y| * (DQuat.u * |Y| + DQuat.u / 10 ^ 12) = DQuat.u * Y ^ 2 + |Y| * DQuat.u / 10 ^ 12 := by rw [← k5]; ring
  rw [k7] at k2
  linarith

/-- the sum computed from coordinates with one rounding each -/
theorem level_once {x y z X Y Z a b k eps : ℝ} (a1 : 2 ^ (-200 : ℤ) ≤ a) (b1 : 2 ^ (-200 : ℤ) ≤ b) (k1 : 2 ^ (-200 : ℤ) ≤ k) (he : 9 / 2 ^ 53 ≤ eps)
    (h1 : |x - X| ≤ DQuat.u * |X| + DQuat.t) (h2 : |y - Y| ≤ DQuat.u * |Y| + DQuat.t) (h3 : |z - Z| ≤ DQuat.u * |Z| + DQuat.t)
    (hF : (X / a) ^ 2 + (Y / b) ^ 2 + (Z / k) ^ 2 = 1) : |rnd (levelR x y z a b k - 1)| < eps := by
  have u0 := DQuat.u_pos
  have us := DQuat.u_small
  have p1 := sq_nonneg (X / a)
  have p2 := sq_nonneg (Y / b)
  have p3 := sq_nonneg (Z / k)
  have s1 := ratio_square a1 h1 (by linarith)
  have s2 := ratio_square b1 h2 (by linarith)
  have s3 := ratio_square k1 h3 (by linarith)
  have n := level_near x y z a1 b1 k1
  have e9 : (9 / 2 ^ 53 : ℝ) = 9 * DQuat.u := by rw [DQuat.u]; ring
  rw [e9] at he
  have rep : Representable (8 * DQuat.u) := by
    have := F64.representable_pow (α := ℝ) (e := -50) (by norm_num)
    rwa [show (2 : ℝ) ^ (-50 : ℤ) = 8 * DQuat.u by rw [DQuat.u]; norm_num] at this
  refine lt_of_le_of_lt (DLinear.rnd_abs_le rep ?_) (by linarith : 8 * DQuat.u < eps)
  generalize (x / a) ^ 2 = A at *
  generalize (y / b) ^ 2 = B at *
  generalize (z / k) ^ 2 = C at *
  generalize (X / a) ^ 2 = A' at *
  generalize (Y / b) ^ 2 = B' at *
  generalize (Z / k) ^ 2 = C' at *
  have S : |A + B + C - 1| ≤ 2 * DQuat.u + 3 * (DQuat.u / 10 ^ 10) := by
    rw [abs_le] at *
    have : DQuat.u * (A' + B' + C') = DQuat.u := by rw [hF, mul_one]
    constructor <;> linarith [s1.1, s1.2, s2.1, s2.2, s3.1, s3.2]
  have S2 : A + B + C ≤ 1001 / 1000 := by have := (abs_le.1 S).2; linarith
  have S3 := mul_le_mul_of_nonneg_left S2 u0.le
  have := abs_sub_le (levelR x y z a b k) (A + B + C) 1
  linarith

/-- **C140.** An ellipsoid along the axes of coordinates contains its points at the tolerance of the code, `10^-15` (any tolerance of at least 9 units of rounding): those that are doubles exactly on it,
and, if the centre is the origin, the nearest doubles of every point of it. -/
theorem C140_axis (o : Bool) {eps a b k : ℝ} {p c : V3} (hp : Within p) (hc : Within c) (hp' : Bounded 200 p) (hc' : Bounded 200 c) (a1 : 2 ^ (-200 : ℤ) ≤ a) (a2 : a ≤ 2 ^ 200)
    (b1 : 2 ^ (-200 : ℤ) ≤ b) (b2 : b ≤ 2 ^ 200) (k1 : 2 ^ (-200 : ℤ) ≤ k) (k2 : k ≤ 2 ^ 200) (he : 9 / 2 ^ 53 ≤ eps) (h8 : eps ≤ 1 / 8) (hr : Representable eps)
    (h : p ∈ EllipsoidSet c a b k ⟨1, 0, 0⟩ ⟨0, 1, 0⟩ ⟨0, 0, 1⟩ ∨
      c = ⟨0, 0, 0⟩ ∧ ∃ P ∈ EllipsoidSet c a b k ⟨1, 0, 0⟩ ⟨0, 1, 0⟩ ⟨0, 0, 1⟩, p = ⟨rnd P.x, rnd P.y, rnd P.z⟩) :
    DEllipsoid.contains o (.fin eps) ⟨doubles c, .fin a, .fin b, .fin k, .of ⟨0, 0, 0, 1⟩⟩ (doubles p) = .ok true := by
  rw [ellipsoid_unit o hp' hc' a1 a2 b1 b2 k1 k2 he h8 hr]
  refine congrArg _ (decide_eq_true ?_)
  have near : ∀ x : ℝ, |rnd x - x| ≤ DQuat.u * |x| + DQuat.t := fun x => by simpa using DVec.mul_near 1 x
  have set : ∀ {x : V3}, x ∈ EllipsoidSet c a b k ⟨1, 0, 0⟩ ⟨0, 1, 0⟩ ⟨0, 0, 1⟩ → ((x.x - c.x) / a) ^ 2 + ((x.y - c.y) / b) ^ 2 + ((x.z - c.z) / k) ^ 2 = 1 := by
    intro x hx
    have := hx
    rw [EllipsoidSet, Set.mem_ofPred_eq] at this
    simpa [V3.dot] using this
  rcases h with h | ⟨rfl, P, hP, rfl⟩
  · exact level_once a1 b1 k1 he (near _) (near _) (near _) (set h)
  · have s := set hP
    simp only [sub_zero] at s
    refine level_once a1 b1 k1 he (X := P.x) (Y := P.y) (Z := P.z) ?_ ?_ ?_ s
    all_goals
      simp only [diff3, sub_zero]
      rw [rnd_exact (rnd_representable _)]
      exact near _

theorem turned_scalar {s : ℝ} (hs : s ≠ 0) (v : V3) : Turned ⟨0, 0, 0, s⟩ v v := by
  have e : hamilton ⟨0, 0, 0, s⟩ = (s : Quaternion ℝ) := by ext <;> simp [hamilton]
  have c : pure v * (s : Quaternion ℝ) = (s : Quaternion ℝ) * pure v := (Quaternion.coe_commutes s (pure v)).symm
  rw [Turned, e, mul_assoc, c, ← mul_assoc, inv_mul_cancel₀ (by rw [Ne, ← Quaternion.coe_zero, Quaternion.coe_inj]; exact hs), one_mul]

theorem rep_near_one {n : ℕ} (hn : n ≤ 52) : Representable (1 + 1 / 2 ^ n : ℝ) := by
  have h : (1 + 1 / 2 ^ n : ℝ) = ((2 ^ n + 1 : ℤ) : ℝ) * 2 ^ (-(n : ℤ)) := by
    rw [zpow_neg, zpow_natCast]; push_cast; field_simp
  rw [h]
  refine representable_of ?_ (by omega)
  rw [abs_of_pos (by positivity)]
  have : (2 : ℤ) ^ n ≤ 2 ^ 52 := pow_le_pow_right₀ (by norm_num) hn
  norm_num at this ⊢; omega

/-- **C140 is violated.** With the quaternion `(0, 0, 0, 1 + 2^-51)`, which the code takes for a unitary one at its tolerance of `10^-15`, the unit sphere about the origin does not contain the point
`(1, 0, 0)`: the axes are computed with the length `1 + 2^-50`. -/
theorem C140_own_violated (o : Bool) {eps : ℝ} (h1 : 8 / 2 ^ 53 ≤ eps) (h2 : eps < 16 / 2 ^ 53) (hr : Representable eps) :
    DQuat.isUnitary (.fin eps) (.of ⟨0, 0, 0, 1 + 1 / 2 ^ 51⟩) = .ok true ∧
      (∀ v, Turned ⟨0, 0, 0, 1 + 1 / 2 ^ 51⟩ v v) ∧ (⟨1, 0, 0⟩ : V3) ∈ EllipsoidSet ⟨0, 0, 0⟩ 1 1 1 ⟨1, 0, 0⟩ ⟨0, 1, 0⟩ ⟨0, 0, 1⟩ ∧
      DEllipsoid.contains o (.fin eps) ⟨doubles ⟨0, 0, 0⟩, .fin 1, .fin 1, .fin 1, .of ⟨0, 0, 0, 1 + 1 / 2 ^ 51⟩⟩ (doubles ⟨1, 0, 0⟩) = .ok false := by
  have rs := rep_near_one (n := 51) (by norm_num)
  have r1 : Representable (1 : ℝ) := by simpa using DQuat.rep_two 0
  have s2 : |(1 + 1 / 2 ^ 51 : ℝ)| ≤ 2 := by rw [abs_of_pos (by positivity)]; norm_num
  have e0 : 0 < eps := lt_of_lt_of_le (by norm_num) h1
  have e8 : eps ≤ 1 / 8 := h2.le.trans (by norm_num)
  have un : DQuat.isUnitary (.fin eps) (.of ⟨0, 0, 0, 1 + 1 / 2 ^ 51⟩) = .ok true := by
    refine (C120_unitary (tempered_scalar representable_zero (by norm_num) rs (s2.trans (by norm_num))) e0 e8 hr).1 ?_
    rw [scalar_length (by positivity), add_sub_cancel_left, abs_of_pos (by positivity)]
    refine le_trans ?_ (sub_le_sub_right h1 _)
    norm_num
  refine ⟨un, fun v => turned_scalar (by positivity) v, ?_, ?_⟩
  · rw [EllipsoidSet, Set.mem_ofPred_eq]; simp [V3.dot]
  have q1 : rnd ((1 + 1 / 2 ^ 51) * (1 + 1 / 2 ^ 51) : ℝ) = 1 + 1 / 2 ^ 50 := by
    rw [rnd_eq (2 ^ 52 + 2 ^ 2) (-52) (by norm_num) (by norm_num) (by norm_num [abs_of_pos]) (Or.inl (by norm_num [abs_of_pos, abs_of_neg]))]
    norm_num
  have q2 : rnd ((1 + 1 / 2 ^ 50) * (1 + 1 / 2 ^ 50) : ℝ) = 1 + 1 / 2 ^ 49 := by
    rw [rnd_eq (2 ^ 52 + 2 ^ 3) (-52) (by norm_num) (by norm_num) (by norm_num [abs_of_pos]) (Or.inl (by norm_num [abs_of_pos, abs_of_neg]))]
    norm_num
  obtain ⟨x1, x2, x3⟩ := unit_axes
  have w1 := rotate_scalar o s2 x1.le un
  have w2 := rotate_scalar o s2 x2.le un
  have w3 := rotate_scalar o s2 x3.le un
  simp only [mul_one, mul_zero, rnd_zero, rnd_exact rs, q1] at w1 w2 w3
  have m : (1 + 1 / 2 ^ 50 : ℝ) ≤ 8 / 5 := by norm_num
  have n1 : (⟨1 + 1 / 2 ^ 50, 0, 0⟩ : V3).norm ≤ 2 := by
    rw [V3.norm, Real.sqrt_le_left (by norm_num)]; simp only [V3.normSq, V3.dot]; norm_num
  have n2 : (⟨0, 1 + 1 / 2 ^ 50, 0⟩ : V3).norm ≤ 2 := by
    rw [V3.norm, Real.sqrt_le_left (by norm_num)]; simp only [V3.normSq, V3.dot]; norm_num
  have n3 : (⟨0, 0, 1 + 1 / 2 ^ 50⟩ : V3).norm ≤ 2 := by
    rw [V3.norm, Real.sqrt_le_left (by norm_num)]; simp only [V3.normSq, V3.dot]; norm_num
  have z200 : |(0 : ℝ)| ≤ 2 ^ 200 := by rw [abs_zero]; positivity
  have o200 : |(1 : ℝ)| ≤ 2 ^ 200 := by rw [abs_one]; exact one_le_pow₀ one_le_two
  have u1 : (2 : ℝ) ^ (-200 : ℤ) ≤ 1 := zpow_le_one_of_nonpos₀ one_le_two (by norm_num)
  have u2 : (1 : ℝ) ≤ 2 ^ 200 := one_le_pow₀ one_le_two
  rw [ellipsoid_value o w1 w2 w3 n1 n2 n3 ⟨o200, z200, z200⟩ ⟨z200, z200, z200⟩ u1 u2 u1 u2 u1 u2]
  obtain ⟨d1, d2, d3⟩ := dot_axis o (d := diff3 ⟨1, 0, 0⟩ ⟨0, 0, 0⟩) (1 + 1 / 2 ^ 50)
  rw [d1, d2, d3]
  refine congrArg _ (decide_eq_false ?_)
  have rep50 := rep_near_one (n := 50) (by norm_num)
  have rep49 := rep_near_one (n := 49) (by norm_num)
  simp only [diff3, sub_zero, rnd_zero, rnd_exact r1, mul_one, mul_zero, rnd_exact rep50, levelR, termR, q2, div_one, add_zero, rnd_exact rep49]
  have rp : Representable (1 / 2 ^ 49 : ℝ) := by
    have := F64.representable_pow (α := ℝ) (e := -49) (by norm_num)
    rwa [show (2 : ℝ) ^ (-49 : ℤ) = 1 / 2 ^ 49 by norm_num] at this
  rw [add_sub_cancel_left, rnd_exact rp, abs_of_pos (by positivity), not_lt]
  refine h2.le.trans (by norm_num)

/-- **C140.** An undefined point or ellipsoid is an error; so is a quaternion that is not unitary at the tolerance of the code, although the constructor takes it; the constructor takes half axes that are
not negative, and no others among the numbers. -/
theorem C140_errors (o : Bool) (eps : F64 ℝ) (e : DEllipsoid) (p center : DVec) (a b k : ℝ) (q : DQuat) :
    ((p.isDefined = false ∨ e.isDefined = false) → e.contains o eps p = .error .undefined) ∧
      (p.isDefined = true → e.isDefined = true → e.q.isUnitary eps = .ok false → e.contains o eps p = .error .runtimeError) ∧
      (DEllipsoid.ctor center (.fin a) (.fin b) (.fin k) q = if 0 ≤ a ∧ 0 ≤ b ∧ 0 ≤ k then .ok ⟨center, .fin a, .fin b, .fin k, q⟩ else .error .runtimeError) := by
  refine ⟨fun h => ?_, fun hp he hq => ?_, ?_⟩
  · rw [DEllipsoid.contains]
    rcases h with h | h
    · rw [h]; rfl
    · rw [h]; by_cases hp : p.isDefined <;> simp [hp]
  · rw [DEllipsoid.contains, hp, he, DQuat.rotateVector, hq]
    rfl
  · simp only [DEllipsoid.ctor, F64.lt, decide_eq_true_eq]
    split_ifs with h1 h2 h3 h4 h5 h6 h7 <;> first | rfl | grind

/-! ### Examples -/

theorem unit_sphere_moderate : EllipsoidSized ⟨1, 0, 0⟩ ⟨0, 0, 0⟩ 1 1 1 1 := by
  have r1 : Representable (1 : ℝ) := by simpa using DQuat.rep_two 0
  have z499 : Representable (0 : ℝ) ∧ |(0 : ℝ)| ≤ 2 ^ 499 := ⟨representable_zero, by rw [abs_zero]; positivity⟩
  have o499 : Representable (1 : ℝ) ∧ |(1 : ℝ)| ≤ 2 ^ 499 := ⟨r1, by rw [abs_one]; exact one_le_pow₀ one_le_two⟩
  have z200 : |(0 : ℝ)| ≤ 2 ^ 200 := by rw [abs_zero]; positivity
  have o200 : |(1 : ℝ)| ≤ 2 ^ 200 := by rw [abs_one]; exact one_le_pow₀ one_le_two
  have u1 : (2 : ℝ) ^ (-200 : ℤ) ≤ 1 := zpow_le_one_of_nonpos₀ one_le_two (by norm_num)
  have u2 : (1 : ℝ) ≤ 2 ^ 200 := one_le_pow₀ one_le_two
  have n : ((⟨1, 0, 0⟩ : V3) - ⟨0, 0, 0⟩).norm ≤ 1 * 1 := by simp [V3.norm, V3.normSq, V3.dot]
  exact ⟨⟨o499, z499, z499⟩, ⟨z499, z499, z499⟩, ⟨o200, z200, z200⟩, ⟨z200, z200, z200⟩, u1, u2, u1, u2, u1, u2, le_rfl, n, n, n⟩

/-- the hypotheses of `C140_found` and, with its conclusion, those of `C140_near` hold of the unit sphere and `(1, 0, 0)`, at the tolerance `2^-44` -/
example (o : Bool) : DEllipsoid.contains o (.fin (2 ^ (-44 : ℤ))) ⟨doubles ⟨0, 0, 0⟩, .fin 1, .fin 1, .fin 1, .of ⟨0, 0, 0, 1⟩⟩ (doubles ⟨1, 0, 0⟩) = .ok true ∧
    ∃ p' ∈ EllipsoidSet ⟨0, 0, 0⟩ 1 1 1 ⟨1, 0, 0⟩ ⟨0, 1, 0⟩ ⟨0, 0, 1⟩,
      (⟨1, 0, 0⟩ - p' : V3).norm ≤ ((2 ^ (-44 : ℤ)) + (16 * 2 ^ (-44 : ℤ) + 320 / 2 ^ 53) * 1 ^ 2) * ((⟨1, 0, 0⟩ : V3) - ⟨0, 0, 0⟩).norm := by
  have r1 : Representable (1 : ℝ) := by simpa using DQuat.rep_two 0
  have t : Tempered ⟨0, 0, 0, 1⟩ := tempered_scalar representable_zero (by norm_num) r1 (by norm_num)
  have re := F64.representable_pow (α := ℝ) (e := -44) (by norm_num)
  have k := C140_found o unit_sphere_moderate t re (by rw [scalar_length zero_le_one]; norm_num) (turned_scalar one_ne_zero _) (turned_scalar one_ne_zero _) (turned_scalar one_ne_zero _)
    (by norm_num) (by norm_num) (by rw [EllipsoidSet, Set.mem_ofPred_eq]; simp [V3.dot])
  exact ⟨k, C140_near o unit_sphere_moderate t (by norm_num) (by norm_num) re (turned_scalar one_ne_zero _) (turned_scalar one_ne_zero _) (turned_scalar one_ne_zero _) (by norm_num) k⟩

/-- the double `10^-15` is between 8 and 16 units of rounding and at least 9 of them -/
example : ∃ eps : ℝ, |eps - 1 / 10 ^ 15| ≤ 1 / 10 ^ 30 ∧ 9 / 2 ^ 53 ≤ eps ∧ eps < 16 / 2 ^ 53 ∧ Representable eps := by
  refine ⟨(5070602400912918 : ℤ) * 2 ^ (-102 : ℤ), by norm_num [abs_le], by norm_num, by norm_num, representable_of (by norm_num) (by norm_num)⟩

/-- the nearest doubles of the point `(1/3, 2/3, 2/3)` of the unit sphere are contained -/
example (o : Bool) {eps : ℝ} (he : 9 / 2 ^ 53 ≤ eps) (h8 : eps ≤ 1 / 8) (hr : Representable eps) :
    DEllipsoid.contains o (.fin eps) ⟨doubles ⟨0, 0, 0⟩, .fin 1, .fin 1, .fin 1, .of ⟨0, 0, 0, 1⟩⟩ (doubles ⟨rnd (1 / 3), rnd (2 / 3), rnd (2 / 3)⟩) = .ok true := by
  have r1 : Representable (1 : ℝ) := by simpa using DQuat.rep_two 0
  have le1 : ∀ x : ℝ, |x| ≤ 1 → |rnd x| ≤ 1 := fun x h => DLinear.rnd_abs_le r1 h
  have a := le1 (1 / 3) (by norm_num [abs_of_pos])
  have b := le1 (2 / 3) (by norm_num [abs_of_pos])
  have o499 : (1 : ℝ) ≤ 2 ^ 499 := one_le_pow₀ one_le_two
  have o200 : (1 : ℝ) ≤ 2 ^ 200 := one_le_pow₀ one_le_two
  have u1 : (2 : ℝ) ^ (-200 : ℤ) ≤ 1 := zpow_le_one_of_nonpos₀ one_le_two (by norm_num)
  refine C140_axis o ⟨⟨rnd_representable _, a.trans o499⟩, ⟨rnd_representable _, b.trans o499⟩, ⟨rnd_representable _, b.trans o499⟩⟩ unit_sphere_moderate.center
    ⟨a.trans o200, b.trans o200, b.trans o200⟩ unit_sphere_moderate.center' u1 o200 u1 o200 u1 o200 he h8 hr (Or.inr ⟨rfl, ⟨1 / 3, 2 / 3, 2 / 3⟩, ?_, rfl⟩)
  rw [EllipsoidSet, Set.mem_ofPred_eq]
  simp only [V3.dot, V3.sub_x, V3.sub_y, V3.sub_z]; norm_num

/-- a quaternion of length 2 is taken by the constructor and makes `contains` an error -/
example (o : Bool) : ∃ e, DEllipsoid.ctor (doubles ⟨0, 0, 0⟩) (.fin 1) (.fin 2) (.fin 3) (.of ⟨0, 0, 0, 2⟩) = .ok e ∧
    e.contains o (.fin (1 / 16)) (doubles ⟨1, 0, 0⟩) = .error .runtimeError := by
  refine ⟨_, ((C140_errors o (.fin (1 / 16)) ⟨doubles ⟨0, 0, 0⟩, .fin 1, .fin 2, .fin 3, .of ⟨0, 0, 0, 2⟩⟩ (doubles ⟨1, 0, 0⟩) (doubles ⟨0, 0, 0⟩) 1 2 3 (.of ⟨0, 0, 0, 2⟩)).2.2).trans
    (if_pos (by norm_num)), ?_⟩
  refine (C140_errors o (.fin (1 / 16)) _ (doubles ⟨1, 0, 0⟩) (doubles ⟨0, 0, 0⟩) 1 2 3 (.of ⟨0, 0, 0, 2⟩)).2.1 (doubles_defined _)
    (by simp [DEllipsoid.isDefined, doubles_defined, DQuat.of_defined]) ?_
  have r2 : Representable (2 : ℝ) := by simpa using DQuat.rep_two 1
  have t : Tempered ⟨0, 0, 0, 2⟩ := tempered_scalar representable_zero (by norm_num) r2 (by norm_num)
  have re : Representable (1 / 16 : ℝ) := by
    have := F64.representable_pow (α := ℝ) (e := -4) (by norm_num)
    rwa [show (2 : ℝ) ^ (-4 : ℤ) = 1 / 16 by norm_num] at this
  have h := (C120_unitary t (tol := 1 / 16) (by norm_num) (by norm_num) re).2
  rw [scalar_length (by norm_num)] at h
  rw [unitary_iff t (by norm_num)] at h ⊢
  refine congrArg _ (decide_eq_false fun k => ?_)
  have := h (congrArg _ (decide_eq_true k))
  norm_num at this

end Verif.Props
