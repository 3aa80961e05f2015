import Verif.Lemmas.DoubleToVector

/-!
# C130: rotation vectors from quaternions in double precision

Hypotheses: the arc cosine of the mathematical library is accurate (`ArcCosine`), and the tolerance `Real::Epsilon()` is a double between 9 units of rounding and one eighth, such as 1e-15.
The theorems marked partial leave out small rotations, for which the claim is false: `C130_small_violated`, `C130_above_violated` and `C130_below_violated`.
-/

namespace Verif.Props

open Verif Verif.Spec Verif.Double

/-- **C130.** A unitary quaternion that turns by more than the square root of the tolerance converts to a rotation vector in double precision, and the rotation about its axis by its angle is
the rotation of the quaternion, up to `2.2 ε + 50 u` divided by the sine of the half angle. -/
theorem C130_rotation_partial (o : Bool) {acos : ℝ → ℝ} (ha : ArcCosine acos) (neg : Res (F64 ℝ)) {q : Quat} (hq : Tempered q) {eps : ℝ} (h9 : 9 / 2 ^ 53 ≤ eps) (h1 : eps ≤ 1 / 8)
    (hr : Representable eps) (hu : DQuat.isUnitary (.fin eps) (.of q) = .ok true) (hv : 8 * eps + 100 / 2 ^ 53 ≤ q.x ^ 2 + q.y ^ 2 + q.z ^ 2) :
    ∃ a b c t : ℝ, DRotVec.Quaternion o (.fin eps) acos neg (.of q) = .ok ⟨⟨.fin a, .fin b, .fin c⟩, ⟨.fin t, .radian⟩⟩ ∧
      Representable t ∧ 0 ≤ t ∧ t ≤ 2 * Real.pi ∧ |Real.sqrt (a ^ 2 + b ^ 2 + c ^ 2) - 1| ≤ 5 / 2 ^ 53 ∧
      ‖turnAbout a b c t - hamilton q‖ ≤ (22 / 10 * eps + 50 / 2 ^ 53) / Real.sqrt (q.x ^ 2 + q.y ^ 2 + q.z ^ 2) := by
  have u0 := DQuat.u_pos
  have us := DQuat.u_small
  have t0 := DQuat.t_pos
  have tu := DRot.t_u
  simp only [e53] at h9 hv ⊢
  have e0 : 0 < eps := by linarith
  have near := (C120_unitary hq e0 h1 hr).2 hu
  rw [e53] at near
  obtain ⟨n1, n2⟩ := abs_le.1 near
  set v : Quaternion ℝ := pure ⟨q.x, q.y, q.z⟩ with hvdef
  have C2 : q.x ^ 2 + q.y ^ 2 + q.z ^ 2 = ‖v‖ ^ 2 := (pure_sq ⟨q.x, q.y, q.z⟩).symm
  have C2' := vector_part_sq q
  rw [C2, Real.sqrt_sq (norm_nonneg _)]
  rw [C2] at hv
  have c0 : 0 < ‖v‖ := lt_of_le_of_ne (norm_nonneg _) fun h => by rw [← h] at hv; norm_num at hv; linarith
  have s4 : |‖hamilton q‖ ^ 2 - 1| ≤ 22 / 10 * eps + 10 * DQuat.u := by
    rw [show ‖hamilton q‖ ^ 2 - 1 = (‖hamilton q‖ - 1) * (‖hamilton q‖ + 1) by ring, abs_mul, abs_of_pos (by linarith : 0 < ‖hamilton q‖ + 1)]
    calc |‖hamilton q‖ - 1| * (‖hamilton q‖ + 1) ≤ (eps + 4 * DQuat.u) * (2126 / 1000) := mul_le_mul near (by linarith) (by linarith) (by linarith)
      _ ≤ _ := by linarith
  have hD : |1 - q.s * q.s - ‖v‖ ^ 2| ≤ 22 / 10 * eps + 10 * DQuat.u := by
    rw [C2', show 1 - q.s * q.s - (‖hamilton q‖ ^ 2 - q.s * q.s) = -(‖hamilton q‖ ^ 2 - 1) by ring, abs_neg]; exact s4
  have ss : q.s * q.s < 1 := by
    have := (abs_le.1 hD).1
    linarith
  have s1 : |q.s| < 1 := by
    rw [← sq] at ss
    exact (sq_lt_one_iff_abs_lt_one _).1 ss
  have c1 : ‖v‖ ≤ 113 / 100 := by
    have h1 : ‖v‖ ^ 2 ≤ ‖hamilton q‖ ^ 2 := by rw [C2']; linarith [mul_self_nonneg q.s]
    have := abs_le_of_sq_le_sq' h1 (norm_nonneg _)
    linarith
  -- the divisor
  obtain ⟨em, lm⟩ := mul_le1 s1.le s1.le
  have m0 : 0 ≤ rnd (q.s * q.s) := DQuat.sq_nonneg' _
  have lm' := (le_abs_self _).trans lm
  have l2 : |1 + -rnd (q.s * q.s)| ≤ 1 := by rw [abs_le]; constructor <;> linarith
  have ed : (F64.fin 1).sub ((F64.fin q.s).mul (.fin q.s)) = .fin (rnd (1 + -rnd (q.s * q.s))) := by
    rw [em]; exact (exact_le8 (l2.trans (by norm_num))).1
  set d := rnd (1 + -rnd (q.s * q.s)) with hddef
  have dd : |d - (1 - q.s * q.s)| ≤ DQuat.u := by
    have k1 := DRot.err1 l2
    have k2 := DRot.err1 (show |q.s * q.s| ≤ 1 by rw [abs_mul]; exact mul_le_one₀ s1.le (abs_nonneg _) s1.le)
    rw [show d - (1 - q.s * q.s) = (d - (1 + -rnd (q.s * q.s))) + -(rnd (q.s * q.s) - q.s * q.s) by ring]
    refine (abs_add_le _ _).trans ?_
    rw [abs_neg]
    linarith
  obtain ⟨d0, r0, r1, r2⟩ := divisor_bounds hv hD e0.le dd rfl
  set r := rnd (Real.sqrt d) with hrdef
  obtain ⟨a1, b1, c1', a2, b2, c2, e1, la, lb, lc, un1, e2, un2, dir⟩ := axis_of o c0 r0 r1 r2
  -- the angle
  obtain ⟨k1, k2, k3⟩ := sine_near ha s1.le c0 hD
  obtain ⟨rA, A0, A1, -⟩ := ha q.s s1.le
  have A2 := A1.trans piD_near.2
  have lA : |2 * acos q.s| ≤ 8 := by rw [abs_of_nonneg (by linarith)]; linarith [Real.pi_le_four]
  have eA : (F64.fin 2).mul (.fin (acos q.s)) = .fin (2 * acos q.s) := by
    have := (exact_le8 lA).1
    rwa [rnd_exact (DRot.representable_double rA)] at this
  refine ⟨a2, b2, c2, 2 * acos q.s, ?_, DRot.representable_double rA, by linarith, by linarith, ?_, ?_⟩
  · have ne : ((DQuat.of q).beq DQuat.Unit || (DQuat.of q).s.abs.eq (.fin 1)) = false := by
      have h1 := (abs_lt.1 s1).1
      have h2 := (abs_lt.1 s1).2
      simp [DQuat.beq, DQuat.of, DQuat.Unit, F64.eq, F64.abs, F64.neg, s1.ne, h1.ne', h2.ne]
    rw [DRotVec.Quaternion, isDefined_of, hu]
    simp only [Bool.not_true, Bool.false_eq_true, if_false, bind, Except.bind, ne]
    rw [DQuat.getVectorPart, isDefined_of]
    simp only [Bool.not_true, Bool.false_eq_true, if_false]
    simp only [DQuat.of, ed, F64.lt, not_lt.2 d0.le, decide_false, Bool.false_eq_true, if_false, F64.sqrt]
    rw [← hrdef, e1]
    simp only [F64.abs, F64.le, s1.le, decide_true, if_true, libm, eA]
    rw [ctor_accepts o (by rw [e53]; exact h9) la lb lc un1, e2]
  · have N : Real.sqrt (a2 ^ 2 + b2 ^ 2 + c2 ^ 2) = ‖pure ⟨a2, b2, c2⟩‖ := by
      rw [← Real.sqrt_sq (norm_nonneg (pure ⟨a2, b2, c2⟩)), pure_sq]
    rw [N]
    linarith
  · rw [turnAbout_split, mul_div_cancel_left₀ _ two_ne_zero]
    exact rotation_error c0 c1 k1 k2 (Real.sin_le_one _) k3 dir

/-- **C130.** From a rotation vector to a quaternion and back: the same rotation, up to the tolerance and rounding, divided by the sine of the half angle. -/
theorem C130_round_trip_partial (o : Bool) {sin cos acos : ℝ → ℝ} (hs : Accurate sin Real.sin) (hc : Accurate cos Real.cos) (hac : ArcCosine acos) (neg : Res (F64 ℝ))
    {e : ℝ} (he : 9 / 2 ^ 53 ≤ e) (he' : e ≤ 1 / 8) (hr : Representable e)
    {x y z : ℝ} (hx : Representable x ∧ |x| ≤ 2 ^ 500) (hy : Representable y ∧ |y| ≤ 2 ^ 500) (hz : Representable z ∧ |z| ≤ 2 ^ 500)
    {a : DAngle ℝ} {t : ℝ} (ha : a.inUnit .radian = .ok (.fin t)) (ht : Representable t) (ht' : |t| < 2 ^ 1024)
    {r : DRotVec} (h : DRotVec.ctor o (.fin e) ⟨.fin x, .fin y, .fin z⟩ a = .ok r) (hsin : 8 * e + 200 / 2 ^ 53 ≤ Real.sin (t / 2) ^ 2) :
    ∃ (q : Quat) (i j k s : ℝ), DQuat.RotationVector (.fin e) sin cos r = .ok (.of q) ∧
      DRotVec.Quaternion o (.fin e) acos neg (.of q) = .ok ⟨⟨.fin i, .fin j, .fin k⟩, ⟨.fin s, .radian⟩⟩ ∧
      ‖turnAbout i j k s - turnAbout x y z t‖ ≤ (23 / 10 * e + 75 / 2 ^ 53) / |Real.sin (t / 2)| := by
  have u0 := DQuat.u_pos
  have us := DQuat.u_small
  have h100 : (2 : ℝ) ^ (-100 : ℤ) ≤ e := (zpow_le_zpow_right₀ one_le_two (show (-100 : ℤ) ≤ -50 by norm_num)).trans (le_trans (by norm_num) he)
  obtain ⟨q, e1, tq, near, un⟩ := C129_vector o hs hc h100 he' hx hy hz ha ht ht' h
  obtain ⟨-, hd⟩ := accepted_axis o he' hx hy hz h
  obtain ⟨hS0, -⟩ := DVec.nrm3_near o hd
  have hS : 0 < x ^ 2 + y ^ 2 + z ^ 2 := by simpa only [sq] using hS0
  have vp := (vector_part_turn hS t q).trans near
  simp only [e53] at vp near hsin he ⊢
  have hsin' : 8 * e + 200 * DQuat.u ≤ |Real.sin (t / 2)| ^ 2 := by rwa [sq_abs]
  obtain ⟨v0, v1, -⟩ := back_error he hsin' (abs_nonneg _) (Real.abs_sin_le_one _) vp le_rfl near
  have n := pure_sq ⟨q.x, q.y, q.z⟩
  simp only at n
  rw [n] at v1
  have N : Real.sqrt (q.x ^ 2 + q.y ^ 2 + q.z ^ 2) = ‖pure ⟨q.x, q.y, q.z⟩‖ := by
    rw [← Real.sqrt_sq (norm_nonneg (pure ⟨q.x, q.y, q.z⟩)), pure_sq]
  obtain ⟨i, j, k, s, e2, -, -, -, -, near'⟩ := C130_rotation_partial o hac neg tq (by rw [e53]; exact he) he' hr (un e (by rw [e53]; linarith)) (by rw [e53]; exact v1)
  rw [N, e53] at near'
  refine ⟨q, i, j, k, s, e1, e2, ?_⟩
  obtain ⟨-, -, fin⟩ := back_error he hsin' (abs_nonneg _) (Real.abs_sin_le_one _) vp near' near
  exact (norm_sub_le_norm_sub_add_norm_sub _ (hamilton q) _).trans fin

/-- C130 fails: the quaternion of the rotation by 2⁻²⁶ about the first axis, which is unitary with any tolerance from 9 units of rounding, such as 1e-15, becomes the rotation by zero -/
theorem C130_small_violated (o : Bool) (acos : ℝ → ℝ) (neg : Res (F64 ℝ)) {eps : ℝ} (h9 : 9 / 2 ^ 53 ≤ eps) (h1 : eps ≤ 1 / 8) (hr : Representable eps) :
    DQuat.isUnitary (.fin eps) (.of ⟨1 / 2 ^ 27, 0, 0, 1⟩) = .ok true ∧
      DRotVec.Quaternion o (.fin eps) acos neg (.of ⟨1 / 2 ^ 27, 0, 0, 1⟩) = .ok ⟨⟨.fin 0, .fin 0, .fin 1⟩, ⟨.fin 0, .radian⟩⟩ ∧
      ‖turnAbout 0 0 1 0 - hamilton ⟨1 / 2 ^ 27, 0, 0, 1⟩‖ = 1 / 2 ^ 27 := by
  have p : Representable ((1 : ℝ) / 2 ^ 27) := by
    have := F64.representable_pow (α := ℝ) (e := -27) (by norm_num)
    rwa [zpow_neg, ← one_div] at this
  have hu : DQuat.isUnitary (.fin eps) (.of ⟨1 / 2 ^ 27, 0, 0, 1⟩) = .ok true := by
    refine (C120_unitary (tempered_scalar p (by rw [abs_of_pos (by norm_num)]; norm_num) rep_one (by simp)) (by linarith [show (0 : ℝ) < 9 / 2 ^ 53 by norm_num]) h1 hr).1 ?_
    have n := DQuat.norm_hamilton ⟨1 / 2 ^ 27, 0, 0, 1⟩
    have n0 := norm_nonneg (hamilton ⟨1 / 2 ^ 27, 0, 0, 1⟩)
    simp only at n
    generalize ‖hamilton ⟨1 / 2 ^ 27, 0, 0, 1⟩‖ = N at n n0 ⊢
    have b1 : 1 ≤ N := by
      by_contra hh
      norm_num at n
      nlinarith
    have b2 : N ≤ 1 + 1 / 2 ^ 54 := by
      by_contra hh
      norm_num at n hh
      nlinarith
    rw [abs_of_nonneg (by linarith)]
    have : (1 : ℝ) / 2 ^ 54 ≤ 9 / 2 ^ 53 - 4 / 2 ^ 53 := by norm_num
    linarith
  refine ⟨hu, to_unit o h9 hu (by simp), ?_⟩
  rw [turnAbout_split]
  have e : hamilton ⟨0, 0, 0, Real.cos (0 / 2)⟩ + Real.sin (0 / 2) • (‖pure ⟨0, 0, 1⟩‖⁻¹ • pure ⟨0, 0, 1⟩) - hamilton ⟨1 / 2 ^ 27, 0, 0, 1⟩ = hamilton ⟨-(1 / 2 ^ 27), 0, 0, 0⟩ := by
    rw [zero_div, Real.sin_zero, zero_smul, add_zero, Real.cos_zero, hamilton_sub]; simp
  rw [e]
  exact norm_eq_of (by norm_num) (by ring)

/-- C130 fails: the next double after one, as a scalar, passes for unitary, and does not convert: the square root of a negative number is what it divides by. An error there is thrown on, and
with NaN no defined rotation vector results. -/
theorem C130_above_violated (o : Bool) (acos : ℝ → ℝ) {eps : ℝ} (h9 : 9 / 2 ^ 53 ≤ eps) (h1 : eps ≤ 1 / 8) (hr : Representable eps) :
    DQuat.isUnitary (.fin eps) (.of ⟨0, 0, 0, 1 + 2 / 2 ^ 53⟩) = .ok true ∧
      (∀ e, DRotVec.Quaternion o (.fin eps) acos (.error e) (.of ⟨0, 0, 0, 1 + 2 / 2 ^ 53⟩) = .error e) ∧
      ∀ r, DRotVec.Quaternion o (.fin eps) acos (.ok .nan) (.of ⟨0, 0, 0, 1 + 2 / 2 ^ 53⟩) = .ok r → r.isDefined = false := by
  have hs : Representable ((1 : ℝ) + 2 / 2 ^ 53) := by
    have := representable_of (α := ℝ) (m := 2 ^ 52 + 1) (e := -52) (by norm_num) (by norm_num)
    rw [zpow_neg] at this
    convert this using 1
    norm_num
  have hu := scalar_unitary hs (by rw [add_sub_cancel_left, abs_of_pos (by norm_num)]) h9 h1 hr
  set s : ℝ := 1 + 2 / 2 ^ 53 with hsdef
  have s1 : 1 < s := by rw [hsdef]; norm_num
  have s2 : s ≤ 2 := by rw [hsdef]; norm_num
  have lm : |s * s| ≤ 8 := by rw [abs_of_nonneg (by positivity)]; nlinarith
  obtain ⟨em, -, lm'⟩ := exact_le8 lm
  have m1 : s ≤ rnd (s * s) := le_rnd hs (by nlinarith)
  have m2 : rnd (s * s) ≤ 8 := (le_abs_self _).trans lm'
  have ed : (F64.fin 1).sub ((F64.fin s).mul (.fin s)) = .fin (rnd (1 + -rnd (s * s))) := by
    rw [F64.mul, em]
    exact (exact_le8 (by rw [abs_le]; constructor <;> linarith)).1
  have d0 : rnd (1 + -rnd (s * s)) < 0 := by
    have r : Representable (1 - s) := by
      have := F64.representable_pow (α := ℝ) (e := -52) (by norm_num)
      have := representable_neg this
      rw [zpow_neg] at this
      convert this using 1
      rw [hsdef]; norm_num
    exact lt_of_le_of_lt (rnd_le r (by linarith)) (by linarith)
  have a1 : |s| = s := abs_of_pos (by linarith)
  have ne : ((DQuat.of ⟨0, 0, 0, s⟩).beq DQuat.Unit || (DQuat.of ⟨0, 0, 0, s⟩).s.abs.eq (.fin 1)) = false := by
    simp [DQuat.beq, DQuat.of, DQuat.Unit, F64.eq, F64.abs, F64.neg, a1, s1.ne', (show s ≠ -1 by linarith)]
  refine ⟨hu, fun e => ?_, fun r h => ?_⟩
  · rw [DRotVec.Quaternion, isDefined_of, hu]
    simp only [Bool.not_true, Bool.false_eq_true, if_false, bind, Except.bind, ne]
    rw [DQuat.getVectorPart, isDefined_of]
    simp only [Bool.not_true, Bool.false_eq_true, if_false, DQuat.of, ed, F64.lt, d0, decide_true, if_true]
  · rw [DRotVec.Quaternion, isDefined_of, hu] at h
    simp only [Bool.not_true, Bool.false_eq_true, if_false, bind, Except.bind, ne] at h
    rw [DQuat.getVectorPart, isDefined_of] at h
    simp only [Bool.not_true, Bool.false_eq_true, if_false, DQuat.of, ed, F64.lt, d0, decide_true, if_true, F64.abs, F64.le, a1, not_le.2 s1, decide_false] at h
    rw [DRotVec.ctor] at h
    split at h
    · cases h
    · cases h
      simp [DRotVec.isDefined, DAngle.isDefined, F64.mul]

/-- C130 fails: the last double before one, as a scalar, passes for unitary, and its conversion throws, because its axis is the vector of norm zero -/
theorem C130_below_violated (o : Bool) (acos : ℝ → ℝ) (neg : Res (F64 ℝ)) {eps : ℝ} (h9 : 9 / 2 ^ 53 ≤ eps) (h1 : eps ≤ 1 / 8) (hr : Representable eps) :
    DQuat.isUnitary (.fin eps) (.of ⟨0, 0, 0, 1 - 1 / 2 ^ 53⟩) = .ok true ∧
      DRotVec.Quaternion o (.fin eps) acos neg (.of ⟨0, 0, 0, 1 - 1 / 2 ^ 53⟩) = .error .runtimeError := by
  have hs : Representable ((1 : ℝ) - 1 / 2 ^ 53) := by
    have := representable_of (α := ℝ) (m := 2 ^ 53 - 1) (e := -53) (by norm_num) (by norm_num)
    rw [zpow_neg] at this
    convert this using 1
    norm_num
  have hu := scalar_unitary hs (by rw [sub_sub_cancel_left, abs_neg, abs_of_pos (by norm_num)]; norm_num) h9 h1 hr
  refine ⟨hu, ?_⟩
  set s : ℝ := 1 - 1 / 2 ^ 53 with hsdef
  have s1 : s < 1 := by rw [hsdef]; norm_num
  have s2 : 0 < s := by rw [hsdef]; norm_num
  have lm : |s * s| ≤ 8 := by rw [abs_of_nonneg (by positivity)]; nlinarith
  obtain ⟨em, -, lm'⟩ := exact_le8 lm
  have m1 : rnd (s * s) ≤ s := rnd_le hs (by nlinarith)
  have m2 : 0 ≤ rnd (s * s) := DQuat.sq_nonneg' _
  have l2 : |1 + -rnd (s * s)| ≤ 8 := by rw [abs_le]; constructor <;> linarith
  have ed : (F64.fin 1).sub ((F64.fin s).mul (.fin s)) = .fin (rnd (1 + -rnd (s * s))) := by
    rw [F64.mul, em]
    exact (exact_le8 l2).1
  have r : Representable (1 - s) := by
    have := F64.representable_pow (α := ℝ) (e := -53) (by norm_num)
    rw [zpow_neg] at this
    convert this using 1
    rw [hsdef]; norm_num
  have d0 : 1 - s ≤ rnd (1 + -rnd (s * s)) := le_rnd r (by linarith)
  set d := rnd (1 + -rnd (s * s)) with hd
  have r0 : 1 - s ≤ rnd (Real.sqrt d) := by
    refine le_rnd r (d0.trans' le_rfl |>.trans ?_)
    refine Real.le_sqrt_of_sq_le ?_
    have : d ≤ 1 := by
      have := rnd_le rep_one (x := 1 + -rnd (s * s)) (by linarith)
      exact this
    nlinarith
  have rp : rnd (Real.sqrt d) ≠ 0 := by linarith
  have a1 : |s| = s := abs_of_pos s2
  have ne : ((DQuat.of ⟨0, 0, 0, s⟩).beq DQuat.Unit || (DQuat.of ⟨0, 0, 0, s⟩).s.abs.eq (.fin 1)) = false := by
    simp [DQuat.beq, DQuat.of, DQuat.Unit, F64.eq, F64.abs, F64.neg, a1, s1.ne, (show s ≠ -1 by linarith)]
  have e0 : F64.ofExact (0 : ℝ) = .fin 0 := by
    have := (exact_le8 (v := 0) (by simp)).1
    rwa [rnd_zero] at this
  have h0 : |(0 : ℝ)| ≤ 2 ^ 500 := by rw [abs_zero]; exact pow_nonneg zero_le_two _
  have sn : DVec.squaredNorm o ⟨.fin 0, .fin 0, .fin 0⟩ = .fin 0 := by
    rw [DVec.squaredNorm, (DVec.dot_fin o h0 h0 h0 h0 h0 h0).1]
    cases o <;> simp [DVec.dot3, DVec.sum3, rnd_zero]
  have no : (DVec.norm o ⟨.fin 0, .fin 0, .fin 0⟩).sub (.fin 1) = .fin (-1) := by
    have := (exact_le8 (v := 0 + -1) (by simp)).1
    rw [DVec.norm, sn, F64.sqrt, if_neg (lt_irrefl _), Real.sqrt_zero, rnd_zero]
    rw [zero_add, rnd_exact (representable_neg rep_one)] at this
    rw [← this]
    simp [F64.sub, F64.neg, F64.add]
  rw [DRotVec.Quaternion, isDefined_of, hu]
  simp only [Bool.not_true, Bool.false_eq_true, if_false, bind, Except.bind, ne]
  rw [DQuat.getVectorPart, isDefined_of]
  simp only [Bool.not_true, Bool.false_eq_true, if_false, DQuat.of, ed, F64.lt, not_lt.2 ((sub_nonneg.2 s1.le).trans d0), decide_false, F64.sqrt]
  have dv : DVec.div ⟨.fin 0, .fin 0, .fin 0⟩ (.fin (rnd (Real.sqrt d))) = ⟨.fin 0, .fin 0, .fin 0⟩ := by
    simp [DVec.div, F64.div, rp, e0]
  have nz : DVec.normalized o ⟨.fin 0, .fin 0, .fin 0⟩ = ⟨.fin 0, .fin 0, .fin 0⟩ := by simp [DVec.normalized, sn, F64.lt]
  rw [dv, nz, DRotVec.ctor, no]
  refine if_pos ?_
  simp [DVec.isDefined, F64.abs, F64.lt]
  linarith

/-- **C130.** What is undefined is refused, and so is what is not unitary. -/
theorem C130_refused (o : Bool) (acos : ℝ → ℝ) (neg : Res (F64 ℝ)) {eps : ℝ} (e0 : 0 < eps) :
    (∀ q : DQuat, (q.x = .nan ∨ q.y = .nan ∨ q.z = .nan ∨ q.s = .nan) → DRotVec.Quaternion o (.fin eps) acos neg q = .error .undefined) ∧
      ∀ q : Quat, Tempered q → Representable eps → eps ≤ 1 / 8 → eps + 4 / 2 ^ 53 < |‖hamilton q‖ - 1| → DRotVec.Quaternion o (.fin eps) acos neg (.of q) = .error .runtimeError := by
  refine ⟨fun q h => ?_, fun q hq hr h1 h => ?_⟩
  · have : q.isDefined = false := by rcases h with h | h | h | h <;> simp [DQuat.isDefined, h]
    rw [DRotVec.Quaternion, this]; rfl
  · have hu : DQuat.isUnitary (.fin eps) (.of q) = .ok false := by
      have k := unitary_iff hq e0
      rw [k]
      congr 1
      by_contra hh
      rw [Bool.not_eq_false] at hh
      rw [hh] at k
      exact absurd ((C120_unitary hq e0 h1 hr).2 k) (not_le.2 h)
    rw [DRotVec.Quaternion, isDefined_of, hu]
    rfl

/-! ## Examples -/

/-- the quaternion of a half turn about the first axis meets the hypotheses of `C130_rotation_partial` -/
example : (9 : ℝ) / 2 ^ 53 ≤ 1 / 1024 ∧ Representable ((1 : ℝ) / 1024) ∧ Tempered ⟨1, 0, 0, 0⟩ ∧ DQuat.isUnitary (.fin (1 / 1024)) (.of ⟨1, 0, 0, 0⟩) = .ok true ∧
    8 * (1 / 1024 : ℝ) + 100 / 2 ^ 53 ≤ 1 ^ 2 + 0 ^ 2 + 0 ^ 2 := by
  have r : Representable ((1 : ℝ) / 1024) := by
    have := F64.representable_pow (α := ℝ) (e := -10) (by norm_num)
    rw [zpow_neg] at this
    convert this using 1
    norm_num
  have T := tempered_scalar rep_one (by simp) representable_zero (s := 0) (by simp)
  have n : ‖hamilton ⟨1, 0, 0, 0⟩‖ = 1 := norm_eq_of zero_le_one (by norm_num)
  exact ⟨by norm_num, r, T, (C120_unitary T (by norm_num) (by norm_num) r).1 (by rw [n]; norm_num), by norm_num⟩

/-- the quaternion of norm two is refused -/
example : (1 / 1024 : ℝ) + 4 / 2 ^ 53 < |‖hamilton ⟨0, 0, 0, 2⟩‖ - 1| := by
  have n : ‖hamilton ⟨0, 0, 0, 2⟩‖ = 2 := norm_eq_of zero_le_two (by norm_num)
  rw [n]
  norm_num

end Verif.Props
