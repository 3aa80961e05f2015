import Verif.Lemmas.DoubleDifference

/-!
# C133: inverse, quotient, angular difference and nearness of quaternions in double precision
-/

namespace Verif.Props

open Verif Verif.Spec Verif.Double

/-- the cosine of half the angle between the rotations that two quaternions stand for -/
noncomputable def halfCosine (p q : Quat) : ℝ := |p.x * q.x + p.y * q.y + p.z * q.z + p.s * q.s| / (‖hamilton p‖ * ‖hamilton q‖)

/-- **C133.** The inverse of a quaternion whose norm is between a half and two is within 5.3 units of rounding of the exact inverse. -/
theorem C133_inverse {q : Quat} (hq : Tempered q) (h1 : 1 / 2 ≤ ‖hamilton q‖) (h2 : ‖hamilton q‖ ≤ 2) {eps : ℝ} (he : eps ≤ 1 / 5) :
    ∃ r, DQuat.toInverse (.fin eps) (.of q) = .ok (.of r) ∧ ‖hamilton r - (hamilton q)⁻¹‖ ≤ 54 / 10 / 2 ^ 53 * ‖(hamilton q)⁻¹‖ := by
  obtain ⟨r, er, dr⟩ := inverse_near hq h1 h2 he
  refine ⟨r, er, dr.trans ?_⟩
  have u0 := DQuat.u_pos
  have tu := DRot.t_u
  have i1 : 1 / 2 ≤ ‖(hamilton q)⁻¹‖ := by rw [norm_inv, ← one_div]; exact one_div_le_one_div_of_le (by linarith) h2
  have : DQuat.u * (1 / 2) ≤ DQuat.u * ‖(hamilton q)⁻¹‖ := mul_le_mul_of_nonneg_left i1 u0.le
  rw [e53 (54 / 10)]
  norm_num at tu
  linarith

/-- **C133.** The quotient of two such quaternions is within 13.6 units of rounding of the exact one. -/
theorem C133_quotient (o : Bool) {p q : Quat} (hq : Tempered q) (p1 : 1 / 2 ≤ ‖hamilton p‖) (p2 : ‖hamilton p‖ ≤ 2) (q1 : 1 / 2 ≤ ‖hamilton q‖) (q2 : ‖hamilton q‖ ≤ 2) {eps : ℝ}
    (he : eps ≤ 1 / 5) :
    ∃ w, DQuat.divide o (.fin eps) (.of p) (.of q) = .ok (.of w) ∧ ‖hamilton w - (hamilton q)⁻¹ * hamilton p‖ ≤ 136 / 10 / 2 ^ 53 * (‖hamilton p‖ / ‖hamilton q‖) := by
  obtain ⟨w, dw, -, nw⟩ := divide_near o (p := p) hq p1 p2 q1 q2 he
  exact ⟨w, dw, by rw [e53 (136 / 10)]; exact nw⟩

/-- **C133.** No inverse is given of, and nothing is divided by, the zero quaternion. -/
theorem C133_zero (o : Bool) {eps : ℝ} (e0 : 0 < eps) (p : DQuat) :
    DQuat.toInverse (.fin eps) (.of ⟨0, 0, 0, 0⟩) = .error .runtimeError ∧ DQuat.divide o (.fin eps) p (.of ⟨0, 0, 0, 0⟩) = .error .runtimeError := by
  have z : |(0 : ℝ)| ≤ 2 ^ 500 := by simp
  have n : DQuat.normSq (.of ⟨0, 0, 0, 0⟩) = .fin 0 := by rw [DQuat.of, normSq_fin z z z z]; simp [DQuat.sumSq, rnd_zero]
  have m : DQuat.norm (.of ⟨0, 0, 0, 0⟩) = .ok (.fin 0) := by
    rw [DQuat.of, DQuat.norm_fin z z z z]; simp [DQuat.nrm, DQuat.sumSq, rnd_zero]
  constructor
  · rw [DQuat.toInverse, DQuat.of_defined, n]
    simp [F64.abs, F64.lt, e0]
  · rw [DQuat.divide, m]
    simp [bind, Except.bind, F64.lt, e0]

/-- **C133.** The angle between the rotations of two quaternions that are accepted as unit quaternions: the function ends with an angle in radians, never NaN; the cosine of its half is within
36 units of rounding of the exact one, and the angle is within 2^-21 of the exact one. -/
theorem C133_difference (o : Bool) {eps : ℝ} (e0 : 2 ^ (-100 : ℤ) ≤ eps) (he : eps ≤ 1 / 8) (er : Representable eps) {acos : ℝ → ℝ} (hacos : ArcCosine acos) {p q : Quat} (hp : Tempered p)
    (hq : Tempered q) (up : DQuat.isUnitary (.fin eps) (.of p) = .ok true) (uq : DQuat.isUnitary (.fin eps) (.of q) = .ok true) :
    ∃ d, DQuat.angularDifferenceWith o (.fin eps) acos (.of p) (.of q) = .ok ⟨.fin d, .radian⟩ ∧ Representable d ∧ 0 ≤ d ∧ |Real.cos (d / 2) - halfCosine p q| ≤ 36 / 2 ^ 53 ∧
      |d - 2 * Real.arccos (halfCosine p q)| ≤ 2 ^ (-21 : ℤ) := by
  have u0 := DQuat.u_pos
  have us := DQuat.u_small
  have e1 : 0 < eps := lt_of_lt_of_le (two_zpow_pos _) e0
  obtain ⟨p1, p2⟩ := accepted_range hp e1 he er up
  obtain ⟨q1, q2⟩ := accepted_range hq e1 he er uq
  obtain ⟨w, dw, tw, nw⟩ := divide_near o (p := p) hq (by linarith) (by linarith) (by linarith) (by linarith) (show eps ≤ 1 / 5 by linarith)
  have P0 : 0 < ‖hamilton p‖ := by linarith
  have Q0 : 0 < ‖hamilton q‖ := by linarith
  have k0 : 0 < ‖hamilton p‖ / ‖hamilton q‖ := div_pos P0 Q0
  have k1 : 1 / 4 ≤ ‖hamilton p‖ / ‖hamilton q‖ := by rw [le_div_iff₀ Q0]; linarith
  set k := ‖hamilton p‖ / ‖hamilton q‖ with hk
  set g := k⁻¹ • ((hamilton q)⁻¹ * hamilton p) with hg
  have ng : ‖g‖ = 1 := by
    rw [hg, norm_smul, norm_mul, norm_inv, norm_inv, Real.norm_of_nonneg k0.le, hk]
    field_simp
  have kg : k • g = (hamilton q)⁻¹ * hamilton p := by rw [hg, smul_smul, mul_inv_cancel₀ k0.ne', one_smul]
  rw [← kg] at nw
  obtain ⟨r, dr, -, nr, -, -⟩ := normalize_any tw ng e0 (show 2 * eps ≤ k by linarith) (by linarith) nw
  obtain ⟨x', y', z', s', eq, -, -, -, s1, -⟩ := C113_normalize eps e0 w.x w.y w.z w.s tw (.of r) dr
  have rs : |r.s| ≤ 1 := by
    have : r.s = s' := by
      have := congrArg DQuat.s eq
      simpa [DQuat.of] using this
    rwa [this]
  have gre : |g.re| = halfCosine p q := by
    have : g.re = k⁻¹ * ((hamilton q)⁻¹ * hamilton p).re := rfl
    rw [this, quotient_re p q, halfCosine, abs_mul, abs_div, abs_inv, abs_of_pos k0, hk, abs_of_pos (pow_pos Q0 2)]
    field_simp
  have near : |(|r.s|) - halfCosine p q| ≤ 32 * DQuat.u := by
    rw [← gre]
    refine (abs_abs_sub_abs_le_abs_sub _ _).trans ?_
    have c : |(hamilton r - g).re| ≤ ‖hamilton r - g‖ := re_le _
    have : (hamilton r - g).re = r.s - g.re := rfl
    rw [this] at c
    linarith
  have cc : |(|r.s|)| ≤ 1 := by rwa [abs_abs]
  obtain ⟨ra, a0, a1, da⟩ := hacos |r.s| cc
  have pi := piD_near.2
  have e51 : (2 : ℝ) ^ (-51 : ℤ) = 4 * DQuat.u := by unfold DQuat.u; rw [zpow_neg]; norm_num
  rw [e51] at da
  have h4 : |acos (|r.s|)| ≤ 4 := by rw [abs_of_nonneg a0]; exact (a1.trans pi).trans Real.pi_le_four
  have cn := (Real.abs_cos_sub_cos_le (acos (|r.s|)) (Real.arccos (|r.s|))).trans da
  rw [Real.cos_arccos (by linarith [abs_nonneg r.s]) rs] at cn
  have fin : |Real.cos (acos (|r.s|)) - halfCosine p q| ≤ 36 * DQuat.u := by
    have := abs_sub_le (Real.cos (acos (|r.s|))) (|r.s|) (halfCosine p q)
    linarith
  have hc0 : 0 ≤ halfCosine p q := by unfold halfCosine; positivity
  have hc1 : halfCosine p q ≤ 1 := by
    rw [← gre]
    exact (re_le g).trans ng.le
  refine ⟨2 * acos |r.s|, difference_steps o acos up uq dw dr rs ra h4, DRot.representable_double ra, by linarith, ?_, ?_⟩
  · rw [mul_div_cancel_left₀ _ (two_ne_zero), e53 36]; exact fin
  · have sq := angle_of_cos (b := Real.arccos (halfCosine p q)) a0 (a1.trans pi) (Real.arccos_nonneg _) (Real.arccos_le_pi _) (d := 36 * DQuat.u)
      (by rw [Real.cos_arccos (by linarith) hc1]; exact fin)
    have : |acos (|r.s|) - Real.arccos (halfCosine p q)| ≤ 1 / 2 ^ 22 := by
      refine abs_le_of_sq_le_sq (sq.trans ?_) (by norm_num)
      unfold DQuat.u
      norm_num
    rw [← mul_sub, abs_mul, abs_of_pos (by norm_num : (0 : ℝ) < 2)]
    norm_num at this ⊢
    linarith

/-- **C133.** Two quaternions within 2^-31 of one another, or of the opposite of one another, have no angle between them: the function gives exactly what twice the arc cosine of one is, zero. -/
theorem C133_close (o : Bool) {eps : ℝ} (e0 : 2 ^ (-100 : ℤ) ≤ eps) (he : eps ≤ 1 / 8) (er : Representable eps) {acos : ℝ → ℝ} (h1 : acos 1 = 0) {p q : Quat} (hp : Tempered p)
    (hq : Tempered q) (up : DQuat.isUnitary (.fin eps) (.of p) = .ok true) (uq : DQuat.isUnitary (.fin eps) (.of q) = .ok true)
    (h : ‖hamilton p - hamilton q‖ ≤ 1 / 2 ^ 31 ∨ ‖hamilton p + hamilton q‖ ≤ 1 / 2 ^ 31) :
    DQuat.angularDifferenceWith o (.fin eps) acos (.of p) (.of q) = .ok ⟨.fin 0, .radian⟩ := by
  have u0 := DQuat.u_pos
  have us := DQuat.u_small
  have e1 : 0 < eps := lt_of_lt_of_le (two_zpow_pos _) e0
  obtain ⟨p1, p2⟩ := accepted_range hp e1 he er up
  obtain ⟨q1, q2⟩ := accepted_range hq e1 he er uq
  obtain ⟨w, dw, tw, nw⟩ := divide_near o (p := p) hq (by linarith) (by linarith) (by linarith) (by linarith) (show eps ≤ 1 / 5 by linarith)
  have Q0 : 0 < ‖hamilton q‖ := by linarith
  have q0 : hamilton q ≠ 0 := norm_pos_iff.1 Q0
  have k2 : ‖hamilton p‖ / ‖hamilton q‖ ≤ 4 := by rw [div_le_iff₀ Q0]; linarith
  have i2 : ‖(hamilton q)⁻¹‖ ≤ 3 / 2 := by rw [norm_inv, inv_le_comm₀ Q0 (by norm_num)]; norm_num; linarith
  have small : ∀ D : Quaternion ℝ, ‖D‖ ≤ 1 / 2 ^ 31 → ‖(hamilton q)⁻¹ * D‖ ≤ 3 / 2 * (1 / 2 ^ 31) := fun D hD => by
    rw [norm_mul]
    exact mul_le_mul i2 hD (norm_nonneg _) (by norm_num)
  have nw' : ‖hamilton w - (hamilton q)⁻¹ * hamilton p‖ ≤ 55 * DQuat.u := by nlinarith
  have key : ∃ σ : ℝ, |σ| = 1 ∧ ‖hamilton w - (σ : Quaternion ℝ)‖ ≤ 1 / 2 ^ 30 := by
    rcases h with h | h
    · refine ⟨1, abs_one, ?_⟩
      have s := small _ h
      rw [mul_sub, inv_mul_cancel₀ q0] at s
      have := norm_sub_le_norm_sub_add_norm_sub (hamilton w) ((hamilton q)⁻¹ * hamilton p) 1
      rw [Quaternion.coe_one]
      norm_num at s ⊢
      linarith
    · refine ⟨-1, by rw [abs_neg, abs_one], ?_⟩
      have s := small _ h
      rw [mul_add, inv_mul_cancel₀ q0, ← sub_neg_eq_add] at s
      have := norm_sub_le_norm_sub_add_norm_sub (hamilton w) ((hamilton q)⁻¹ * hamilton p) (-1)
      rw [Quaternion.coe_neg, Quaternion.coe_one]
      rw [sub_neg_eq_add, sub_neg_eq_add] at *
      norm_num at s this ⊢
      linarith
  obtain ⟨σ, hσ, hw⟩ := key
  have ew : hamilton w - (σ : Quaternion ℝ) = hamilton ⟨w.x, w.y, w.z, w.s - σ⟩ := by
    ext
    · rfl
    · exact sub_zero _
    · exact sub_zero _
    · exact sub_zero _
  rw [ew] at hw
  obtain ⟨cx, cy, cz, cs⟩ := DQuat.component_le ⟨w.x, w.y, w.z, w.s - σ⟩
  have ws : 1 / 2 ≤ |w.s| := by
    have := abs_sub_abs_le_abs_sub σ w.s
    rw [abs_sub_comm, hσ] at this
    have := cs.trans hw
    norm_num at *
    linarith
  obtain ⟨r, dr, hr⟩ := normalize_flat tw (cx.trans hw) (cy.trans hw) (cz.trans hw) ws (show eps ≤ 1 / 2 by linarith)
  have := difference_steps o acos up uq dw dr hr.le (by rw [hr, h1]; exact representable_zero) (by rw [hr, h1, abs_zero]; norm_num)
  rw [this, hr, h1, mul_zero]

/-- **C133.** So a quaternion is at no angle from itself and from its opposite, which is the same rotation. -/
theorem C133_self (o : Bool) {eps : ℝ} (e0 : 2 ^ (-100 : ℤ) ≤ eps) (he : eps ≤ 1 / 8) (er : Representable eps) {acos : ℝ → ℝ} (h1 : acos 1 = 0) {q : Quat} (hq : Tempered q)
    (uq : DQuat.isUnitary (.fin eps) (.of q) = .ok true) (un : DQuat.isUnitary (.fin eps) (.of ⟨-q.x, -q.y, -q.z, -q.s⟩) = .ok true) :
    DQuat.angularDifferenceWith o (.fin eps) acos (.of q) (.of q) = .ok ⟨.fin 0, .radian⟩ ∧
      DQuat.angularDifferenceWith o (.fin eps) acos (.of q) (.of ⟨-q.x, -q.y, -q.z, -q.s⟩) = .ok ⟨.fin 0, .radian⟩ := by
  refine ⟨C133_close o e0 he er h1 hq hq uq uq (Or.inl (by rw [sub_self, norm_zero]; positivity)), ?_⟩
  obtain ⟨⟨rx, hx⟩, ⟨ry, hy⟩, ⟨rz, hz⟩, ⟨rs, hs⟩⟩ := hq
  refine C133_close o e0 he er h1 ⟨⟨rx, hx⟩, ⟨ry, hy⟩, ⟨rz, hz⟩, ⟨rs, hs⟩⟩
    ⟨⟨representable_neg rx, by rwa [abs_neg]⟩, ⟨representable_neg ry, by rwa [abs_neg]⟩, ⟨representable_neg rz, by rwa [abs_neg]⟩, ⟨representable_neg rs, by rwa [abs_neg]⟩⟩ uq un (Or.inr ?_)
  rw [hamilton_add]
  simp only [add_neg_cancel]
  have : ‖hamilton ⟨0, 0, 0, 0⟩‖ = 0 := norm_eq_of le_rfl (by ring)
  rw [this]; positivity

/-- **C133.** Nearness: for a tolerance of less than a full turn in radians it decides whether the exact angle is at most the tolerance, to within 2^-21. -/
theorem C133_near (o : Bool) (n : ℕ) {eps : ℝ} (e0 : 2 ^ (-100 : ℤ) ≤ eps) (he : eps ≤ 1 / 8) (er : Representable eps) {acos : ℝ → ℝ} (hacos : ArcCosine acos) {p q : Quat} (hp : Tempered p)
    (hq : Tempered q) (up : DQuat.isUnitary (.fin eps) (.of p) = .ok true) (uq : DQuat.isUnitary (.fin eps) (.of q) = .ok true) {t : ℝ} (t0 : 0 ≤ t)
    (t1 : t < 7074237752028440 * 2 ^ (-50 : ℤ)) :
    ∃ b, DQuat.isNear o n (.fin eps) acos (.of p) (.of q) ⟨.fin t, .radian⟩ = some (.ok b) ∧ (2 * Real.arccos (halfCosine p q) ≤ t - 2 ^ (-21 : ℤ) → b = true) ∧
      (b = true → 2 * Real.arccos (halfCosine p q) ≤ t + 2 ^ (-21 : ℤ)) := by
  obtain ⟨d, ed, -, d0, -, near⟩ := C133_difference o e0 he er hacos hp hq up uq
  have d1 : d < 7074237752028440 * 2 ^ (-50 : ℤ) := by
    have c : Real.arccos (halfCosine p q) ≤ Real.pi / 2 := Real.arccos_le_pi_div_two.2 (by unfold halfCosine; positivity)
    have := (abs_le.1 near).2
    have := Real.pi_lt_d2
    norm_num at near ⊢
    have := (abs_le.1 near).2
    linarith
  have l := abs_le.1 near
  refine ⟨decide (d ≤ t), ?_, fun h => by simp only [decide_eq_true_eq]; linarith [l.2], fun h => by simp only [decide_eq_true_eq] at h; linarith [l.1]⟩
  rw [DQuat.isNear, ed]
  simp only [in_turn n d0 d1, in_turn n t0 t1]
  rfl

/-- **C133, as the code does not have it.** Two quaternions that turn a vector differently are at no angle from one another, and near with a tolerance of zero: the arc cosine loses rotations of
less than about 2^-30 (a thousandth of a millionth of a radian). -/
theorem C133_small_violated (o : Bool) (n : ℕ) {eps : ℝ} (e0 : 9 / 2 ^ 53 ≤ eps) (he : eps ≤ 1 / 8) (er : Representable eps) {acos : ℝ → ℝ} (h1 : acos 1 = 0) :
    ∃ p q : Quat, (hamilton p)⁻¹ * pure ⟨0, 1, 0⟩ * hamilton p ≠ (hamilton q)⁻¹ * pure ⟨0, 1, 0⟩ * hamilton q ∧ DQuat.isUnitary (.fin eps) (.of p) = .ok true ∧
      DQuat.isUnitary (.fin eps) (.of q) = .ok true ∧ DQuat.angularDifferenceWith o (.fin eps) acos (.of p) (.of q) = .ok ⟨.fin 0, .radian⟩ ∧
      DQuat.isNear o n (.fin eps) acos (.of p) (.of q) ⟨.fin 0, .radian⟩ = some (.ok true) := by
  have two : ∀ k : ℤ, -1000 ≤ k → k ≤ 100 → Representable (2 ^ k : ℝ) := fun k h1 _ => F64.representable_pow (by omega)
  have r31 : Representable (1 / 2 ^ 31 : ℝ) := by
    have := two (-31) (by norm_num) (by norm_num)
    rwa [zpow_neg, ← one_div, show ((2 : ℝ) ^ (31 : ℤ)) = 2 ^ 31 by norm_num] at this
  have le1 : ∀ {x : ℝ}, |x| ≤ 1 → |x| ≤ 2 ^ 500 := fun h => h.trans (one_le_pow₀ one_le_two)
  have hp : Tempered ⟨0, 0, 0, 1⟩ := ⟨⟨representable_zero, le1 (by simp)⟩, ⟨representable_zero, le1 (by simp)⟩, ⟨representable_zero, le1 (by simp)⟩, ⟨rep_one, le1 (by simp)⟩⟩
  have hq : Tempered ⟨1 / 2 ^ 31, 0, 0, 1⟩ :=
    ⟨⟨r31, le1 (by rw [abs_of_pos (by norm_num)]; norm_num)⟩, ⟨representable_zero, le1 (by simp)⟩, ⟨representable_zero, le1 (by simp)⟩, ⟨rep_one, le1 (by simp)⟩⟩
  have e1 : 0 < eps := lt_of_lt_of_le (by norm_num) e0
  have np : ‖hamilton ⟨0, 0, 0, 1⟩‖ = 1 := norm_eq_of zero_le_one (by ring)
  have up : DQuat.isUnitary (.fin eps) (.of ⟨0, 0, 0, 1⟩) = .ok true := (C120_unitary hp e1 he er).1 (by rw [np, sub_self, abs_zero]; norm_num at e0 ⊢; linarith)
  have nq : ‖hamilton ⟨1 / 2 ^ 31, 0, 0, 1⟩‖ ^ 2 = 1 / 2 ^ 62 + 1 := by rw [← norm_sq]; norm_num
  have n0 := norm_nonneg (hamilton ⟨1 / 2 ^ 31, 0, 0, 1⟩)
  have uq : DQuat.isUnitary (.fin eps) (.of ⟨1 / 2 ^ 31, 0, 0, 1⟩) = .ok true := by
    refine (C120_unitary hq e1 he er).1 ?_
    have : ‖hamilton ⟨1 / 2 ^ 31, 0, 0, 1⟩‖ ≤ 1 + 1 / 2 ^ 62 := by
      refine le_of_sq_le_sq ?_ (by norm_num)
      rw [nq]; norm_num
    have : 1 ≤ ‖hamilton ⟨1 / 2 ^ 31, 0, 0, 1⟩‖ := by
      refine le_of_sq_le_sq ?_ n0
      rw [nq]; norm_num
    rw [abs_of_nonneg (by linarith)]
    norm_num at *
    linarith
  have e100 : (2 : ℝ) ^ (-100 : ℤ) ≤ eps := by
    refine le_trans ?_ e0
    rw [zpow_neg]; norm_num
  have diff := C133_close o e100 he er h1 hp hq up uq (Or.inl (by
    have : ‖hamilton ⟨0, 0, 0, 1⟩ - hamilton ⟨1 / 2 ^ 31, 0, 0, 1⟩‖ = 1 / 2 ^ 31 := by
      rw [hamilton_sub]
      exact norm_eq_of (by norm_num) (by norm_num)
    exact this.le))
  refine ⟨⟨0, 0, 0, 1⟩, ⟨1 / 2 ^ 31, 0, 0, 1⟩, ?_, up, uq, diff, ?_⟩
  · have one : hamilton ⟨0, 0, 0, 1⟩ = 1 := by ext <;> rfl
    have q0 : hamilton ⟨1 / 2 ^ 31, 0, 0, 1⟩ ≠ 0 := by
      intro h
      have := congrArg QuaternionAlgebra.re h
      exact one_ne_zero (α := ℝ) this
    rw [one, inv_one, one_mul, mul_one]
    intro h
    have h2 : hamilton ⟨1 / 2 ^ 31, 0, 0, 1⟩ * pure ⟨0, 1, 0⟩ = pure ⟨0, 1, 0⟩ * hamilton ⟨1 / 2 ^ 31, 0, 0, 1⟩ := by
      conv_lhs => rw [h]
      rw [mul_assoc, mul_inv_cancel_left₀ q0]
    have h3 := congrArg QuaternionAlgebra.imK h2
    rw [Quaternion.imK_mul, Quaternion.imK_mul] at h3
    change (1 : ℝ) * 0 + 1 / 2 ^ 31 * 1 - 0 * 0 + 0 * 0 = 0 * 0 + 0 * 0 - 1 * (1 / 2 ^ 31) + 0 * 1 at h3
    norm_num at h3
  · have t : (0 : ℝ) < 7074237752028440 * 2 ^ (-50 : ℤ) := by positivity
    rw [DQuat.isNear, diff]
    simp only [in_turn n le_rfl t]
    simp [DAngle.isDefined, F64.le]

/-- **C133, as the code does not have it.** A tolerance of a full turn is reduced to no tolerance: two rotations half a turn apart are not within a full turn of one another. -/
theorem C133_turn_violated (o : Bool) (n : ℕ) {eps : ℝ} (e0 : 9 / 2 ^ 53 ≤ eps) (he : eps ≤ 1 / 8) (er : Representable eps) {acos : ℝ → ℝ} (hacos : ArcCosine acos) :
    ∃ p q : Quat, DQuat.isUnitary (.fin eps) (.of p) = .ok true ∧ DQuat.isUnitary (.fin eps) (.of q) = .ok true ∧ 2 * Real.arccos (halfCosine p q) = Real.pi ∧
      DQuat.isNear o (n + 2) (.fin eps) acos (.of p) (.of q) ⟨DAngle.twoPi, .radian⟩ = some (.ok false) := by
  have e100 : (2 : ℝ) ^ (-100 : ℤ) ≤ eps := by
    refine le_trans ?_ e0
    rw [zpow_neg]; norm_num
  have up := accepted_one tempered_unit (norm_eq_of zero_le_one (by ring)) e0 he er
  have uq := accepted_one tempered_flip (norm_eq_of zero_le_one (by ring)) e0 he er
  obtain ⟨d, ed, -, d0, -, near⟩ := C133_difference o e100 he er hacos tempered_unit tempered_flip up uq
  have hc : halfCosine ⟨0, 0, 0, 1⟩ ⟨1, 0, 0, 0⟩ = 0 := by simp [halfCosine]
  have ha : 2 * Real.arccos (halfCosine ⟨0, 0, 0, 1⟩ ⟨1, 0, 0, 0⟩) = Real.pi := by rw [hc, Real.arccos_zero]; ring
  refine ⟨⟨0, 0, 0, 1⟩, ⟨1, 0, 0, 0⟩, up, uq, ha, ?_⟩
  rw [ha] at near
  have pl := Real.pi_lt_d2
  have pg := Real.pi_gt_three
  norm_num at near
  have l := abs_le.1 near
  have d1 : d < 7074237752028440 * 2 ^ (-50 : ℤ) := by norm_num; linarith [l.2]
  have t : (DAngle.twoPi : F64 ℝ).sub (.fin 0) = DAngle.twoPi := twoPi_sub
  have z : (DAngle.twoPi : F64 ℝ).sub DAngle.twoPi = .fin 0 := by
    rw [DAngle.twoPi, DAngle.sub_fin, sub_self]
    exact ofExact_rep representable_zero (by simp)
  have rt : DAngle.inRange (n + 2) .radian (⟨DAngle.twoPi, .radian⟩ : DAngle ℝ) (.fin 0) DAngle.twoPi = some (.ok (.fin 0)) := by
    rw [DAngle.inRange, t]
    have e : (DAngle.twoPi : F64 ℝ).eq (DAngle.turn .radian) = true := by simp [DAngle.turn, DAngle.twoPi, F64.eq]
    rw [if_neg (by simp), if_neg (by simp [DAngle.twoPi]), e]
    have i : DAngle.inUnit (⟨DAngle.twoPi, .radian⟩ : DAngle ℝ) .radian = .ok DAngle.twoPi := by simp [DAngle.inUnit, DAngle.isDefined, DAngle.twoPi]
    have pos : (0 : ℝ) < 7074237752028440 * 2 ^ (-50 : ℤ) := by positivity
    have a1 : (DAngle.twoPi : F64 ℝ).lt DAngle.twoPi = false := decide_eq_false (lt_irrefl _)
    have a2 : (DAngle.twoPi : F64 ℝ).lt (.fin 0) = false := decide_eq_false (not_lt.2 pos.le)
    have a3 : (DAngle.twoPi : F64 ℝ).le DAngle.twoPi = true := decide_eq_true le_rfl
    have a4 : (DAngle.twoPi : F64 ℝ).le (.fin 0) = false := decide_eq_false (not_le.2 pos)
    rw [i]
    simp only [Bool.not_true, Bool.false_eq_true, if_false, DAngle.reduceRange, a1, Bool.and_false, t, DAngle.raise, a2, Option.bind_some, DAngle.lower, a3, if_true, z, a4, Option.map_some]
  rw [DQuat.isNear, ed]
  simp only [in_turn (n + 2) d0 d1, rt]
  have : ¬ d ≤ 0 := by linarith [l.1]
  simp [DAngle.isDefined, F64.le, DAngle.twoPi, this]

/-- **C133.** Undefined quaternions and tolerances are refused, and so is a quaternion that is not of unit norm. -/
theorem C133_throws (o : Bool) (n : ℕ) (eps : F64 ℝ) (acos : ℝ → ℝ) (p q : DQuat) (tol : DAngle ℝ) :
    (p.isDefined = false → DQuat.angularDifferenceWith o eps acos p q = .error .undefined) ∧
      (p.isUnitary eps = .ok false → DQuat.angularDifferenceWith o eps acos p q = .error .runtimeError) ∧
      (p.isUnitary eps = .ok true → q.isDefined = false → DQuat.angularDifferenceWith o eps acos p q = .error .undefined) ∧
      (p.isUnitary eps = .ok true → q.isUnitary eps = .ok false → DQuat.angularDifferenceWith o eps acos p q = .error .runtimeError) ∧
      (tol.isDefined = false → DQuat.isNear o n eps acos p q tol = some (.error .undefined)) := by
  refine ⟨fun h => ?_, fun h => ?_, fun h h2 => ?_, fun h h2 => ?_, fun h => ?_⟩
  · simp [DQuat.angularDifferenceWith, DQuat.isUnitary, h, bind, Except.bind]
  · simp [DQuat.angularDifferenceWith, h, bind, Except.bind]
  · have : q.isUnitary eps = .error .undefined := by simp [DQuat.isUnitary, h2]
    simp [DQuat.angularDifferenceWith, h, this, bind, Except.bind]
  · simp [DQuat.angularDifferenceWith, h, h2, bind, Except.bind]
  · simp [DQuat.isNear, h]

example : ∃ acos, ArcCosine acos ∧ ∃ d, DQuat.angularDifferenceWith true (.fin (1 / 2 ^ 40)) acos (.of ⟨1, 0, 0, 0⟩) (.of ⟨0, 0, 0, 1⟩) = .ok ⟨.fin d, .radian⟩ ∧
    |d - Real.pi| ≤ 2 ^ (-21 : ℤ) := by
  obtain ⟨acos, ha⟩ := exists_arcCosine
  have e : Representable (1 / 2 ^ 40 : ℝ) := by
    have := F64.representable_pow (α := ℝ) (e := -40) (by norm_num)
    rwa [zpow_neg, ← one_div, show ((2 : ℝ) ^ (40 : ℤ)) = 2 ^ 40 by norm_num] at this
  have up := accepted_one tempered_unit (norm_eq_of zero_le_one (by ring)) (eps := 1 / 2 ^ 40) (by norm_num) (by norm_num) e
  have uq := accepted_one tempered_flip (norm_eq_of zero_le_one (by ring)) (eps := 1 / 2 ^ 40) (by norm_num) (by norm_num) e
  obtain ⟨d, h, -, -, -, near⟩ := C133_difference true (eps := 1 / 2 ^ 40) (by rw [zpow_neg]; norm_num) (by norm_num) e ha tempered_flip tempered_unit uq up
  refine ⟨acos, ha, d, h, ?_⟩
  have hc : halfCosine ⟨1, 0, 0, 0⟩ ⟨0, 0, 0, 1⟩ = 0 := by simp [halfCosine]
  rwa [hc, Real.arccos_zero, mul_div_cancel₀ _ (two_ne_zero)] at near

example : DQuat.angularDifferenceWith false (.fin (1 / 8)) Real.arccos (.of ⟨0, 0, 0, 1⟩) (.of ⟨0, 0, 0, 1⟩) = .ok ⟨.fin 0, .radian⟩ := by
  have e : Representable (1 / 8 : ℝ) := by
    have := F64.representable_pow (α := ℝ) (e := -3) (by norm_num)
    rwa [zpow_neg, ← one_div, show ((2 : ℝ) ^ (3 : ℤ)) = 8 by norm_num] at this
  have up := accepted_one tempered_unit (norm_eq_of zero_le_one (by ring)) (eps := 1 / 8) (by norm_num) le_rfl e
  exact C133_close false (by rw [zpow_neg]; norm_num) le_rfl e Real.arccos_one tempered_unit tempered_unit up up (Or.inl (by rw [sub_self, norm_zero]; positivity))

end Verif.Props
