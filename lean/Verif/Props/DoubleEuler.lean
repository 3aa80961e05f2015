import Verif.Lemmas.DoubleEuler

/-!
# C134: Euler angles and rotation vectors from quaternions and matrices in double precision
-/

namespace Verif.Props

open Verif Verif.Spec Verif.Double

/-- **C134.** The Euler angles of a matrix, sequence ZYX: when the upper right coefficient is between -1 and 1, the angles are defined, the first one is between zero and π, and they tell the first row and
the last column of the matrix. -/
theorem C134_matrix {asin : ℝ → ℝ} (hs : ArcSine asin) {atan2 : F64 ℝ → F64 ℝ → F64 ℝ} (ha : ArcTangent atan2) (m : Fin 3 → Fin 3 → ℝ) (ht : |m 0 2| ≤ 1)
    (h1 : √(m 0 1 ^ 2 + m 0 0 ^ 2) ≤ 3 / 2) (h2 : √(m 1 2 ^ 2 + m 2 2 ^ 2) ≤ 3 / 2) :
    ∃ φ θ ψ, DEuler.RotationMatrix asin atan2 (entries m) .zyx = .ok ⟨⟨.fin φ, .radian⟩, ⟨.fin θ, .radian⟩, ⟨.fin ψ, .radian⟩, .zyx⟩ ∧ 0 ≤ φ ∧ φ ≤ piD ∧
      Tells (15 / 2 ^ 53) φ θ ψ (m 0 1) (m 0 0) (-m 0 2) (m 1 2) (m 2 2) := by
  obtain ⟨φ, θ, ψ, h, rest⟩ := adjusted_near hs ha (t := -m 0 2) (by rwa [abs_neg]) h1 h2
  refine ⟨φ, θ, ψ, ?_, rest⟩
  rw [← h, DEuler.RotationMatrix, entries_defined]
  rfl

/-- **C134.** Likewise for the sequences XYZ and ZXY, with other coefficients. -/
theorem C134_matrix_others {asin : ℝ → ℝ} (hs : ArcSine asin) {atan2 : F64 ℝ → F64 ℝ → F64 ℝ} (ha : ArcTangent atan2) (m : Fin 3 → Fin 3 → ℝ) :
    (|m 2 0| ≤ 1 → √((-m 2 1) ^ 2 + m 2 2 ^ 2) ≤ 3 / 2 → √((-m 1 0) ^ 2 + m 0 0 ^ 2) ≤ 3 / 2 →
      ∃ φ θ ψ, DEuler.RotationMatrix asin atan2 (entries m) .xyz = .ok ⟨⟨.fin φ, .radian⟩, ⟨.fin θ, .radian⟩, ⟨.fin ψ, .radian⟩, .zyx⟩ ∧ 0 ≤ φ ∧ φ ≤ piD ∧
        Tells (15 / 2 ^ 53) φ θ ψ (-m 2 1) (m 2 2) (m 2 0) (-m 1 0) (m 0 0)) ∧
    (|m 1 2| ≤ 1 → √((-m 1 0) ^ 2 + m 1 1 ^ 2) ≤ 3 / 2 → √((-m 0 2) ^ 2 + m 2 2 ^ 2) ≤ 3 / 2 →
      ∃ φ θ ψ, DEuler.RotationMatrix asin atan2 (entries m) .zxy = .ok ⟨⟨.fin φ, .radian⟩, ⟨.fin θ, .radian⟩, ⟨.fin ψ, .radian⟩, .zyx⟩ ∧ 0 ≤ φ ∧ φ ≤ piD ∧
        Tells (15 / 2 ^ 53) φ θ ψ (-m 1 0) (m 1 1) (m 1 2) (-m 0 2) (m 2 2)) := by
  refine ⟨fun ht h1 h2 => ?_, fun ht h1 h2 => ?_⟩ <;> obtain ⟨φ, θ, ψ, h, rest⟩ := adjusted_near hs ha ht h1 h2 <;> refine ⟨φ, θ, ψ, ?_, rest⟩ <;>
    rw [← h, DEuler.RotationMatrix, entries_defined] <;> rfl

/-- **C134.** Beyond one, by however little, the Euler angles come out undefined, without an exception. -/
theorem C134_matrix_undefined (asin : ℝ → ℝ) (atan2 : F64 ℝ → F64 ℝ → F64 ℝ) (m : Fin 3 → Fin 3 → ℝ) (sq : AxisSequence) {t : ℝ}
    (h : sq = .xyz ∧ t = m 2 0 ∨ sq = .zxy ∧ t = m 1 2 ∨ sq = .zyx ∧ t = -m 0 2) (ht : 1 < |t|) :
    ∃ e, DEuler.RotationMatrix asin atan2 (entries m) sq = .ok e ∧ e.isDefined = false ∧ e.theta.value = .nan := by
  rcases h with ⟨rfl, rfl⟩ | ⟨rfl, rfl⟩ | ⟨rfl, rfl⟩
  · exact ⟨_, by rw [DEuler.RotationMatrix, entries_defined]; rfl, (adjusted_nan _ _ ht).2, (adjusted_nan _ _ ht).1⟩
  · exact ⟨_, by rw [DEuler.RotationMatrix, entries_defined]; rfl, (adjusted_nan _ _ ht).2, (adjusted_nan _ _ ht).1⟩
  · exact ⟨_, by rw [DEuler.RotationMatrix, entries_defined]; rfl, (adjusted_nan _ _ ht).2, (adjusted_nan _ _ ht).1⟩

/-- **C134.** The Euler angles of a quaternion that is accepted as a unit quaternion, sequence ZYX. Away from where the second angle is a quarter turn the angles are defined, the first one is between zero
and π, and they tell the first row and the last column of the matrix of the quaternion. -/
theorem C134_quaternion (o : Bool) {eps : ℝ} (e0 : 0 < eps) (he : eps ≤ 1 / 8) (er : Representable eps) {asin : ℝ → ℝ} (hs : ArcSine asin) {atan2 : F64 ℝ → F64 ℝ → F64 ℝ} (ha : ArcTangent atan2)
    {q : Quat} (hq : Tempered q) (uq : DQuat.isUnitary (.fin eps) (.of q) = .ok true) (away : |2 * (q.x * q.z - q.y * q.s)| ≤ 1 - 6 / 2 ^ 53) :
    ∃ φ θ ψ, DEuler.Quaternion o (.fin eps) asin atan2 (.of q) .zyx = .ok ⟨⟨.fin φ, .radian⟩, ⟨.fin θ, .radian⟩, ⟨.fin ψ, .radian⟩, .zyx⟩ ∧ 0 ≤ φ ∧ φ ≤ piD ∧
      Tells (32 / 2 ^ 53) φ θ ψ (2 * (q.x * q.y + q.z * q.s)) (q.s * q.s + q.x * q.x - q.y * q.y - q.z * q.z) (2 * (q.y * q.s - q.x * q.z)) (2 * (q.y * q.z + q.x * q.s))
        (q.s * q.s + q.z * q.z - q.x * q.x - q.y * q.y) := by
  have u0 := DQuat.u_pos
  have us := DQuat.u_small
  obtain ⟨n1, n2⟩ := accepted_range hq e0 he er uq
  have hN := norm_sq q
  set N := q.x * q.x + q.y * q.y + q.z * q.z + q.s * q.s with eN
  have N1 : 1 / 2 ≤ N := by rw [hN]; nlinarith
  have N2 : N ≤ 128 / 100 := by rw [hN]; nlinarith
  have sq : ∀ a : ℝ, |a * a| = a * a := fun a => abs_mul_self a
  have ng : ∀ a : ℝ, |-a * a| = a * a := fun a => by rw [neg_mul, abs_neg, abs_mul_self]
  have ng' : ∀ a b : ℝ, |-a * b| = |a * b| := fun a b => by rw [neg_mul, abs_neg]
  have b1 := off_rel (a := q.x) (b := q.y) (c := q.s) (d := q.z) (N := N) (by linarith [DRot.abs_mul_le q.x q.y, DRot.abs_mul_le q.s q.z]) N1
  have b2 := sum4_rel (a := q.s * q.s) (b := -q.z * q.z) (c := -q.y * q.y) (d := q.x * q.x) (N := N) (by rw [sq, ng, ng, sq]; linarith) N1
  have b3 := off_rel (a := q.x) (b := q.z) (c := -q.y) (d := q.s) (N := N) (by rw [ng']; linarith [DRot.abs_mul_le q.x q.z, DRot.abs_mul_le q.y q.s]) N1
  have b4 := off_rel (a := q.y) (b := q.z) (c := q.x) (d := q.s) (N := N) (by linarith [DRot.abs_mul_le q.y q.z, DRot.abs_mul_le q.x q.s]) N1
  have b5 := sum4_rel (a := q.s * q.s) (b := q.z * q.z) (c := -q.y * q.y) (d := -q.x * q.x) (N := N) (by rw [sq, ng, sq, ng]; linarith) N1
  have kN : 41 / 10 * DQuat.u * N ≤ 53 / 10 * DQuat.u := by nlinarith
  replace b1 := b1.trans kN
  replace b2 := b2.trans kN
  replace b3 := b3.trans kN
  replace b4 := b4.trans kN
  replace b5 := b5.trans kN
  rw [zyx_fin o asin atan2 hq uq]
  set a := DRot.off q.x q.y q.s q.z
  set b := DT3.sum4 .left (rnd (q.s * q.s)) (rnd (-q.z * q.z)) (rnd (-q.y * q.y)) (rnd (q.x * q.x))
  set t := DRot.off q.x q.z (-q.y) q.s
  set c := DRot.off q.y q.z q.x q.s
  set d := DT3.sum4 .left (rnd (q.s * q.s)) (rnd (q.z * q.z)) (rnd (-q.y * q.y)) (rnd (-q.x * q.x))
  have hyp : ∀ {a b A B : ℝ}, |a - A| ≤ 53 / 10 * DQuat.u → |b - B| ≤ 53 / 10 * DQuat.u → A ^ 2 + B ^ 2 ≤ N ^ 2 → √(a ^ 2 + b ^ 2) ≤ 3 / 2 := fun {a b A B} p1 p2 p3 => by
    have h := (abs_le.1 (hypot_near p1 p2)).2
    have : √(A ^ 2 + B ^ 2) ≤ N := by
      rw [← Real.sqrt_sq (by linarith : (0 : ℝ) ≤ N)]
      exact Real.sqrt_le_sqrt p3
    linarith
  have ht : |-t| ≤ 1 := by
    rw [abs_neg]
    have := abs_sub_abs_le_abs_sub t (2 * (q.x * q.z + -q.y * q.s))
    rw [show 2 * (q.x * q.z + -q.y * q.s) = 2 * (q.x * q.z - q.y * q.s) by ring] at this b3
    rw [e53 6] at away
    linarith
  have h1 := hyp b1 b2 (by rw [eN]; nlinarith [sq_nonneg (2 * (q.x * q.z - q.y * q.s))])
  have h2 := hyp b4 b5 (by rw [eN]; nlinarith [sq_nonneg (2 * (q.x * q.z - q.y * q.s))])
  obtain ⟨φ, θ, ψ, h, φ0, φ1, tell⟩ := adjusted_near hs ha ht h1 h2
  refine ⟨φ, θ, ψ, by rw [h], φ0, φ1, ?_⟩
  have := tells_shift tell (by positivity : (0 : ℝ) ≤ 53 / 10 * DQuat.u) b1 b2 (T := -(2 * (q.x * q.z + -q.y * q.s))) (by rw [← neg_sub', abs_neg]; exact b3) b4 b5
  rw [e53 32]
  rw [e53 15] at this
  obtain ⟨σ, hσ, k1, k2, k3, k4, k5, k6⟩ := this
  have mono : 15 * DQuat.u + 3 * (53 / 10 * DQuat.u) ≤ 32 * DQuat.u := by linarith
  rw [show 2 * (q.x * q.y + q.z * q.s) = 2 * (q.x * q.y + q.s * q.z) by ring,
    show q.s * q.s + q.x * q.x - q.y * q.y - q.z * q.z = q.s * q.s + -q.z * q.z + -q.y * q.y + q.x * q.x by ring,
    show 2 * (q.y * q.s - q.x * q.z) = -(2 * (q.x * q.z + -q.y * q.s)) by ring,
    show q.s * q.s + q.z * q.z - q.x * q.x - q.y * q.y = q.s * q.s + q.z * q.z + -q.y * q.y + -q.x * q.x by ring]
  exact ⟨σ, hσ, k1.trans mono, k2.trans mono, k3.trans mono, by linarith, k5.trans mono, k6.trans mono⟩

/-- **C134, violated.** A quaternion that the code accepts, of a quarter turn about the axis Y, whose Euler angles come out undefined: the argument of the arc sine is above one by 2⁻⁵². -/
theorem C134_gimbal_violated (o : Bool) {eps : ℝ} (h9 : 9 / 2 ^ 53 ≤ eps) (he : eps ≤ 1 / 8) (er : Representable eps) (asin : ℝ → ℝ) (atan2 : F64 ℝ → F64 ℝ → F64 ℝ) :
    ∃ q : Quat, Tempered q ∧ |‖hamilton q‖ - 1| ≤ 2 / 2 ^ 53 ∧ DQuat.isUnitary (.fin eps) (.of q) = .ok true ∧
      ∃ e, DEuler.Quaternion o (.fin eps) asin atan2 (.of q) .zyx = .ok e ∧ e.isDefined = false := by
  have ry : Representable (6369051672525773 * 2 ^ (-53 : ℤ) : ℝ) := ⟨6369051672525773, -53, by norm_num, by norm_num, by norm_num⟩
  have yy : rnd ((6369051672525773 * 2 ^ (-53 : ℤ)) * (6369051672525773 * 2 ^ (-53 : ℤ)) : ℝ) = 1 / 2 + 2 ^ (-53 : ℤ) := by
    rw [rnd_eq (2 ^ 52 + 1) (-53) (by norm_num)]
    · push_cast
      norm_num
    · rw [abs_of_nonneg (by positivity)]
      norm_num
    · rw [abs_of_nonneg (by positivity)]
      norm_num
    · left
      rw [abs_lt]
      push_cast
      constructor <;> norm_num
  have ab : |(6369051672525773 * 2 ^ (-53 : ℤ) : ℝ)| ≤ 1 := by rw [abs_of_nonneg (by positivity)]; norm_num
  set y : ℝ := 6369051672525773 * 2 ^ (-53 : ℤ) with hy
  have y0 : 0 ≤ y := by rw [hy]; positivity
  have tq : Tempered ⟨0, y, 0, y⟩ := ⟨⟨representable_zero, by simp⟩, ⟨ry, big_one ab⟩, ⟨representable_zero, by simp⟩, ⟨ry, big_one ab⟩⟩
  have nq : |‖hamilton ⟨0, y, 0, y⟩‖ - 1| ≤ 2 / 2 ^ 53 := by
    have h := norm_sq ⟨0, y, 0, y⟩
    have n0 := norm_nonneg (hamilton ⟨0, y, 0, y⟩)
    have y2 : |2 * (y * y) - 1| ≤ 2 / 2 ^ 53 := by
      rw [hy, abs_le]
      constructor <;> norm_num
    simp only at h
    set n := ‖hamilton ⟨0, y, 0, y⟩‖
    rw [show 2 * (y * y) - 1 = (n - 1) * (n + 1) by linear_combination h, abs_mul, abs_of_nonneg (by linarith : (0 : ℝ) ≤ n + 1)] at y2
    nlinarith [abs_nonneg (n - 1)]
  have uq : DQuat.isUnitary (.fin eps) (.of ⟨0, y, 0, y⟩) = .ok true :=
    (C120_unitary tq (lt_of_lt_of_le (by norm_num) h9) he er).1 (nq.trans (by norm_num at h9 ⊢; linarith))
  refine ⟨⟨0, y, 0, y⟩, tq, nq, uq, _, zyx_fin o asin atan2 tq uq, ?_⟩
  have e : DRot.off 0 0 (-y) y = -(1 + 2 ^ (-52 : ℤ)) := by
    have r1 : rnd (-y * y) = -(1 / 2 + 2 ^ (-53 : ℤ)) := by rw [neg_mul, rnd_neg, yy]
    have re : Representable (-(1 / 2 + 2 ^ (-53 : ℤ)) : ℝ) := by rw [← r1]; exact rnd_representable _
    rw [DRot.off, r1, mul_zero, rnd_zero, zero_add, rnd_exact re, show (-52 : ℤ) = -53 + 1 by norm_num, zpow_add_one₀ two_ne_zero]
    ring
  exact (adjusted_nan _ _ (by rw [e, neg_neg, abs_of_nonneg (by positivity)]; linarith [two_zpow_pos (α := ℝ) (-52)])).2

/-- **C134.** The rotation vector of a matrix: away from the half turns and from the identity, the cosine of the angle is that of the matrix and the axis is along the skew part of it, up to rounding. -/
theorem C134_vector (o : Bool) {eps : ℝ} (h9 : 9 / 2 ^ 53 ≤ eps) {acos : ℝ → ℝ} (ha : ArcCosine acos) {m : Fin 3 → Fin 3 → ℝ} (h : ∀ i j, |m i j| ≤ 5 / 4)
    (away : |traceCosine m| ≤ 1 - 7 / 2 ^ 53) (large : traceCosine m ≤ 1 - eps ^ 2 / 2 - 11 / 2 ^ 53) (turned : 1 / 2 ^ 39 ≤ ‖pure (skew m)‖) :
    ∃ a t, DRotVec.RotationMatrix o (.fin eps) acos (entries m) = .ok ⟨doubles a, ⟨.fin t, .radian⟩⟩ ∧ 0 ≤ t ∧ t ≤ piD ∧ |Real.cos t - traceCosine m| ≤ 11 / 2 ^ 53 ∧
      ‖pure a - ‖pure (skew m)‖⁻¹ • pure (skew m)‖ ≤ 16 / 2 ^ 53 := by
  have u0 := DQuat.u_pos
  have us := DQuat.u_small
  obtain ⟨-, near⟩ := trace_fin o h
  rw [e53 7] at away
  rw [e53 11] at large ⊢
  rw [e53 16]
  have hc : |traceR o m| ≤ 1 := by
    have := abs_sub_abs_le_abs_sub (traceR o m) (traceCosine m)
    linarith
  obtain ⟨-, t0, t1, t2⟩ := ha _ hc
  have ct : |Real.cos (acos (traceR o m)) - traceCosine m| ≤ 11 * DQuat.u := by
    have h1 := (Real.abs_cos_sub_cos_le (acos (traceR o m)) (Real.arccos (traceR o m))).trans t2
    rw [Real.cos_arccos (abs_le.1 hc).1 (abs_le.1 hc).2, e51] at h1
    obtain ⟨f1, f2⟩ := abs_le.1 h1
    obtain ⟨g1, g2⟩ := abs_le.1 near
    exact abs_le.2 ⟨by linarith, by linarith⟩
  have ge : eps ≤ acos (traceR o m) := by
    by_contra lt
    push Not at lt
    have := Real.one_sub_sq_div_two_le_cos (x := acos (traceR o m))
    have l2 : acos (traceR o m) ^ 2 < eps ^ 2 := pow_lt_pow_left₀ lt t0 two_ne_zero
    linarith [(abs_le.1 ct).2]
  rw [vector_fin o acos h hc, if_neg (by rw [abs_of_nonneg t0]; exact not_lt.2 ge)]
  set W := pure (skew m) with hW
  have nW : 0 < ‖W‖ := lt_of_lt_of_le (by norm_num) turned
  have tt : DQuat.t ≤ DQuat.u / 2 ^ 60 := by
    have h := DQuat.t_small (k := -113) (by norm_num)
    rw [show (-113 : ℤ) = -60 - 53 by norm_num, DRot.u_zpow] at h
    have : (2 : ℝ) ^ (-60 : ℤ) ≤ 1 / 2 ^ 60 := by norm_num
    exact h.trans ((mul_le_mul_of_nonneg_left this u0.le).trans (by rw [mul_one_div]))
  set w : V3 := ⟨rnd (m 1 2 - m 2 1), rnd (m 2 0 - m 0 2), rnd (m 0 1 - m 1 0)⟩ with hw
  have d : ‖pure w - W‖ ≤ DQuat.u * ‖W‖ + 2 * DQuat.t := vec_near u0.le DQuat.t_pos.le (DRot.near1 _) (DRot.near1 _) (DRot.near1 _)
  have dE : ‖pure w - W‖ ≤ 101 / 100 * DQuat.u * ‖W‖ := by
    have : 2 * DQuat.t ≤ DQuat.u / 100 * ‖W‖ := by
      have := mul_le_mul_of_nonneg_left turned (by positivity : 0 ≤ DQuat.u / 100)
      refine le_trans ?_ this
      norm_num at tt ⊢
      linarith
    linarith
  have nŴ : ‖‖W‖⁻¹ • W‖ = 1 := by rw [norm_smul, norm_inv, norm_norm, inv_mul_cancel₀ nW.ne']
  have dir := dir_near (w := pure w) nŴ nW (E := 101 / 100 * DQuat.u) (by linarith) (by rwa [smul_smul, mul_inv_cancel₀ nW.ne', one_smul])
  have nw : 1 / 2 ^ 40 ≤ ‖pure w‖ := by
    have := abs_norm_sub_norm_le (pure w) W
    have h2 := (abs_le.1 (this.trans dE)).1
    have : (1 - 101 / 100 * DQuat.u) * ‖W‖ ≤ ‖pure w‖ := by linarith
    have h3 : (1 / 2 : ℝ) * (1 / 2 ^ 39) ≤ (1 - 101 / 100 * DQuat.u) * ‖W‖ := mul_le_mul (by linarith) turned (by norm_num) (by linarith)
    refine le_trans ?_ (h3.trans this)
    norm_num
  have sz : ∀ i j k l, Representable (rnd (m i j - m k l)) ∧ |rnd (m i j - m k l)| ≤ 2 ^ 499 := fun i j k l =>
    ⟨rnd_representable _, (DVec.sub_fin2 (n := 1) (by norm_num) ((h i j).trans (by norm_num)) ((h k l).trans (by norm_num))).2.trans (pow_le_pow_right₀ one_le_two (by norm_num))⟩
  obtain ⟨a, ea, ra, rb, rc, la, lb, lc, da⟩ := normalized_any o (v := w) ⟨sz _ _ _ _, sz _ _ _ _, sz _ _ _ _⟩ nw
  have nw' : ‖‖pure w‖⁻¹ • pure w‖ = 1 := by
    have : 0 < ‖pure w‖ := lt_of_lt_of_le (by norm_num) nw
    rw [norm_smul, norm_inv, norm_norm, inv_mul_cancel₀ this.ne']
  have na : |‖pure a‖ - 1| ≤ 45 / 10 * DQuat.u := by
    rw [← nw']
    exact (abs_norm_sub_norm_le _ _).trans da
  have na2 : 1 / 2 ≤ ‖pure a‖ := by linarith [(abs_le.1 na).1]
  obtain ⟨a, b, c⟩ := a
  obtain ⟨a', b', c', e', -, -, -, -, -, -, d'⟩ := normalized_dir o ⟨ra, big_one la⟩ ⟨rb, big_one lb⟩ ⟨rc, big_one lc⟩ na2
  refine ⟨⟨a', b', c'⟩, acos (traceR o m), ?_, t0, t1, ct, ?_⟩
  · rw [ea]
    have := ctor_accepts o h9 la lb lc na ⟨.fin (acos (traceR o m)), .radian⟩
    rw [e'] at this
    exact this
  · have flat : ‖‖pure ⟨a, b, c⟩‖⁻¹ • pure ⟨a, b, c⟩ - pure ⟨a, b, c⟩‖ ≤ 45 / 10 * DQuat.u := by
      have p0 : 0 < ‖pure ⟨a, b, c⟩‖ := by linarith
      have : ‖pure ⟨a, b, c⟩‖⁻¹ • pure ⟨a, b, c⟩ - pure ⟨a, b, c⟩ = (‖pure ⟨a, b, c⟩‖⁻¹ - 1) • pure ⟨a, b, c⟩ := by rw [sub_smul, one_smul]
      rw [this, norm_smul, Real.norm_eq_abs]
      have : (‖pure ⟨a, b, c⟩‖⁻¹ - 1) = (1 - ‖pure ⟨a, b, c⟩‖) * ‖pure ⟨a, b, c⟩‖⁻¹ := by field_simp
      rw [this, abs_mul, abs_of_nonneg (inv_nonneg.2 p0.le), mul_assoc, inv_mul_cancel₀ p0.ne', mul_one, abs_sub_comm]
      exact na
    have t1 := norm_sub_le_norm_sub_add_norm_sub (pure ⟨a', b', c'⟩) (‖pure ⟨a, b, c⟩‖⁻¹ • pure ⟨a, b, c⟩) (‖W‖⁻¹ • W)
    have t2 := norm_sub_le_norm_sub_add_norm_sub (‖pure ⟨a, b, c⟩‖⁻¹ • pure ⟨a, b, c⟩) (pure ⟨a, b, c⟩) (‖W‖⁻¹ • W)
    have t3 := norm_sub_le_norm_sub_add_norm_sub (pure ⟨a, b, c⟩) (‖pure w‖⁻¹ • pure w) (‖W‖⁻¹ • W)
    linarith

/-- **C134.** A matrix whose trace is above three or below minus one, beyond rounding, has no rotation vector. -/
theorem C134_vector_undefined (o : Bool) {eps : F64 ℝ} (acos : ℝ → ℝ) {m : Fin 3 → Fin 3 → ℝ} (h : ∀ i j, |m i j| ≤ 5 / 4) (far : 1 + 7 / 2 ^ 53 < |traceCosine m|) :
    DRotVec.RotationMatrix o eps acos (entries m) = .error .undefined := by
  obtain ⟨-, near⟩ := trace_fin o h
  rw [e53 7] at far
  refine vector_nan o acos h ?_
  have := abs_sub_abs_le_abs_sub (traceCosine m) (traceR o m)
  rw [abs_sub_comm] at this
  linarith

/-- **C134, violated.** A diagonal matrix, a unit in the last place off the identity, is accepted as a rotation matrix and its rotation vector is refused. -/
theorem C134_vector_violated (o : Bool) {eps : ℝ} (h9 : 9 / 2 ^ 53 ≤ eps) (acos : ℝ → ℝ) :
    ∃ m : Fin 3 → Fin 3 → ℝ, (∀ i j, |m i j - if i = j then 1 else 0| ≤ 2 / 2 ^ 53) ∧ DRot.ctor o (.fin eps) (entries m) = .ok (entries m) ∧
      DRotVec.RotationMatrix o (.fin eps) acos (entries m) = .error .undefined := by
  have u0 := DQuat.u_pos
  have us := DQuat.u_small
  have rv : Representable (1 + 2 * DQuat.u) := by
    rw [← e52]
    exact ⟨2 ^ 52 + 1, -52, by norm_num, by norm_num, by norm_num⟩
  set v := 1 + 2 * DQuat.u with hv
  have v54 : |v| ≤ 5 / 4 := by rw [abs_of_nonneg (by linarith)]; linarith
  have b : ∀ i j : Fin 3, |if i = j then v else 0| ≤ 5 / 4 := fun i j => by split_ifs <;> [exact v54; norm_num]
  have big : ∀ i j : Fin 3, |if i = j then v else 0| ≤ 2 ^ 500 := fun i j => ((b i j).trans (by norm_num : (5 : ℝ) / 4 ≤ 2)).trans (le_self_pow₀ one_le_two (by norm_num))
  refine ⟨fun i j => if i = j then v else 0, fun i j => ?_, (ctor_fin o eps big).1 ?_, vector_nan o acos b ?_⟩
  · rw [e53 2]
    beta_reduce
    split_ifs
    · rw [hv, add_sub_cancel_left, abs_of_nonneg (by linarith)]
    · rw [sub_zero, abs_zero]; linarith
  · have n : rnd (Real.sqrt (rnd (v * v))) = v := by
      rw [DQuat.sqrt_sq rv, abs_of_nonneg (by linarith)]
      rw [abs_of_nonneg (by linarith)]
      exact (zpow_le_one_of_nonpos₀ one_le_two (by norm_num)).trans (by linarith)
    have k : rnd (v - 1) ≤ eps := by
      rw [hv, add_sub_cancel_left, ← e52, rnd_exact (F64.representable_pow (by norm_num)), e52]
      rw [e53 9] at h9
      linarith
    have eps0 : 0 ≤ eps := le_trans (by norm_num) h9
    refine ⟨fun j => ?_, ?_, ?_, ?_⟩
    · have : DVec.nrm3 o (if (0 : Fin 3) = j then v else 0) (if (1 : Fin 3) = j then v else 0) (if (2 : Fin 3) = j then v else 0) = v := by
        fin_cases j <;> simp [DVec.nrm3, dot3_one, n]
      rw [this]
      exact k
    all_goals cases o <;> simp [DVec.dot3, DVec.sum3, rnd_zero, eps0]
  · have r3 : Representable (3 + 4 * DQuat.u) := by
      rw [← e51]
      exact ⟨3 * 2 ^ 51 + 1, -51, by norm_num, by norm_num, by norm_num⟩
    have r2 : Representable (2 + 4 * DQuat.u) := by
      rw [show 2 + 4 * DQuat.u = 2 * v by rw [hv]; ring]
      exact DRot.representable_double rv
    have s : 3 + 4 * DQuat.u ≤ DVec.sum3 o v v v := by
      have e2 : rnd (v + v) = v + v := rnd_exact (by rw [← two_mul]; exact DRot.representable_double rv)
      cases o <;> simp only [DVec.sum3, Bool.false_eq_true, if_false, if_true, e2] <;> exact le_rnd r3 (by rw [hv]; linarith)
    have s1 : 2 + 4 * DQuat.u ≤ rnd (DVec.sum3 o v v v - 1) := le_rnd r2 (by linarith)
    have s2 : v ≤ rnd (rnd (DVec.sum3 o v v v - 1) / 2) := le_rnd rv (by rw [hv]; linarith)
    rw [traceR]
    simp only [if_true]
    exact lt_of_lt_of_le (lt_of_lt_of_le (by linarith) s2) (le_abs_self _)

/-- **C134, violated.** A rotation by 2⁻²⁸, far above the tolerance, whose rotation vector is of an angle of at most 2⁻⁵¹ about another axis. -/
theorem C134_small_violated (o : Bool) {eps : ℝ} (h9 : 9 / 2 ^ 53 ≤ eps) {acos : ℝ → ℝ} (ha : ArcCosine acos) :
    ∃ m : Fin 3 → Fin 3 → ℝ, DRot.ctor o (.fin eps) (entries m) = .ok (entries m) ∧ skew m = ⟨0, 0, 1 / 2 ^ 27⟩ ∧
      ∃ t, DRotVec.RotationMatrix o (.fin eps) acos (entries m) = .ok ⟨doubles ⟨1, 0, 0⟩, ⟨.fin t, .radian⟩⟩ ∧ 0 ≤ t ∧ t ≤ 2 ^ (-51 : ℤ) := by
  have u0 := DQuat.u_pos
  have us := DQuat.u_small
  have eps0 : 0 ≤ eps := le_trans (by norm_num) h9
  have rs : Representable (1 / 2 ^ 28 : ℝ) := by
    have := F64.representable_pow (α := ℝ) (e := -28) (by norm_num)
    rwa [zpow_neg, ← one_div, show ((2 : ℝ) ^ (28 : ℤ)) = 2 ^ 28 by norm_num] at this
  have rq : Representable (1 / 2 ^ 28 * (1 / 2 ^ 28) : ℝ) := by
    have := F64.representable_pow (α := ℝ) (e := -56) (by norm_num)
    rwa [zpow_neg, ← one_div, show (1 / (2 : ℝ) ^ (56 : ℤ)) = 1 / 2 ^ 28 * (1 / 2 ^ 28) by norm_num] at this
  have s1 : |(1 / 2 ^ 28 : ℝ)| ≤ 1 := by rw [abs_of_nonneg (by norm_num)]; norm_num
  have ab : rnd (1 + 1 / 2 ^ 28 * (1 / 2 ^ 28) : ℝ) = 1 := rnd_absorb rep_one (by rw [abs_of_nonneg (by norm_num), abs_one]; norm_num)
  set s : ℝ := 1 / 2 ^ 28 with hs
  have b1 : ∀ i j, |(![![1, s, 0], ![-s, 1, 0], ![0, 0, 1]] : Fin 3 → Fin 3 → ℝ) i j| ≤ 1 := fun i j => by fin_cases i <;> fin_cases j <;> simp <;> simpa using s1
  have b : ∀ i j, |(![![1, s, 0], ![-s, 1, 0], ![0, 0, 1]] : Fin 3 → Fin 3 → ℝ) i j| ≤ 5 / 4 := fun i j => (b1 i j).trans (by norm_num)
  have big : ∀ i j, |(![![1, s, 0], ![-s, 1, 0], ![0, 0, 1]] : Fin 3 → Fin 3 → ℝ) i j| ≤ 2 ^ 500 := fun i j => big_one (b1 i j)
  have r1 := rnd_exact (rep_one)
  have tr : traceR o ![![1, s, 0], ![-s, 1, 0], ![0, 0, 1]] = 1 := by
    have r2 : rnd (2 : ℝ) = 2 := rnd_exact (by simpa using DRot.representable_double rep_one)
    have r3 : rnd (3 : ℝ) = 3 := rnd_exact ⟨3, 0, by norm_num, by norm_num, by norm_num⟩
    have a1 : (1 + 1 : ℝ) = 2 := by norm_num
    have a2 : (2 + 1 : ℝ) = 3 := by norm_num
    have a3 : (1 + 2 : ℝ) = 3 := by norm_num
    have a4 : (3 - 1 : ℝ) = 2 := by norm_num
    cases o <;> simp [traceR, DVec.sum3, a1, a2, a3, a4, r1, r2, r3]
  obtain ⟨-, t0, -, t2⟩ := ha 1 (by simp)
  rw [Real.arccos_one, sub_zero, abs_of_nonneg t0] at t2
  refine ⟨![![1, s, 0], ![-s, 1, 0], ![0, 0, 1]], (ctor_fin o eps big).1 ⟨fun j => ?_, ?_, ?_, ?_⟩, ?_, acos 1, ?_, t0, t2⟩
  · have : ∀ x y z : ℝ, DVec.dot3 o x y z x y z = 1 → rnd (DVec.nrm3 o x y z - 1) ≤ eps := fun x y z e => by
      rw [DVec.nrm3, e, Real.sqrt_one, r1, sub_self, rnd_zero]
      exact eps0
    have ab' : rnd (s * s + 1) = 1 := by rw [add_comm, ab]
    fin_cases j <;> refine this _ _ _ ?_ <;> cases o <;> simp [DVec.dot3, DVec.sum3, rnd_zero, r1, rnd_exact rq, ab, ab']
  · cases o <;> simp [DVec.dot3, DVec.sum3, rnd_zero, rnd_neg, rnd_exact rs, eps0]
  · cases o <;> simp [DVec.dot3, DVec.sum3, rnd_zero, eps0]
  · cases o <;> simp [DVec.dot3, DVec.sum3, rnd_zero, eps0]
  · simp [skew, hs]
    norm_num
  · rw [vector_fin o acos b (by rw [tr, abs_one]), tr, if_pos]
    · have n1 : ‖pure ⟨1, 0, 0⟩‖ = 1 := by
        have := pure_sq ⟨1, 0, 0⟩
        simp only at this
        have h0 := norm_nonneg (pure ⟨1, 0, 0⟩)
        nlinarith
      have := ctor_accepts o h9 (a := 1) (b := 0) (c := 0) (by simp) (by simp) (by simp) (by rw [n1, sub_self, abs_zero]; positivity) ⟨.fin (acos 1), .radian⟩
      exact this.trans (congrArg (fun x => Except.ok (⟨x, ⟨.fin (acos 1), .radian⟩⟩ : DRotVec)) (unit_x o))
    · rw [abs_of_nonneg t0]
      rw [e51] at t2
      rw [e53 9] at h9
      linarith

/-- **C134.** What is refused: undefined matrices and quaternions, quaternions that are not of unit norm, and the undefined sequence. -/
theorem C134_throws (o : Bool) (eps : F64 ℝ) (asin acos : ℝ → ℝ) (atan2 : F64 ℝ → F64 ℝ → F64 ℝ) (m : Fin 3 → Fin 3 → F64 ℝ) (q : DQuat) (sq : AxisSequence) :
    ((∃ i j, m i j = .nan) → DEuler.RotationMatrix asin atan2 m sq = .error .undefined ∧ DRotVec.RotationMatrix o eps acos m = .error .undefined) ∧
      ((∀ i j, m i j ≠ .nan) → DEuler.RotationMatrix asin atan2 m .undefined = .error .toBeImplemented) ∧
      (q.isDefined = false → DEuler.Quaternion o eps asin atan2 q sq = .error .undefined) ∧
      (q.isDefined = true → q.isUnitary eps = .ok false → DEuler.Quaternion o eps asin atan2 q sq = .error .runtimeError) := by
  refine ⟨fun h => ?_, fun h => ?_, fun h => ?_, fun h h2 => ?_⟩
  · obtain ⟨i, j, h⟩ := h
    have : DRot.isDefined m = false := by
      simp only [DRot.isDefined, decide_eq_false_iff_not]
      exact fun k => k i j h
    simp [DEuler.RotationMatrix, DRotVec.RotationMatrix, this]
  · have : DRot.isDefined m = true := by simpa only [DRot.isDefined, decide_eq_true_eq] using h
    simp [DEuler.RotationMatrix, this]
  · simp [DEuler.Quaternion, h]
  · simp [DEuler.Quaternion, h, h2, bind, Except.bind]

/-- **C134.** The sequences other than ZYX go through the rotation matrix of the quaternion, with the errors of it -/
theorem C134_others (o : Bool) (eps : F64 ℝ) (asin : ℝ → ℝ) (atan2 : F64 ℝ → F64 ℝ → F64 ℝ) {q : DQuat} (hd : q.isDefined = true) (hu : q.isUnitary eps = .ok true) {sq : AxisSequence} (hs : sq ≠ .zyx)
    {m : Fin 3 → Fin 3 → F64 ℝ} (hm : DRot.Quaternion o eps q = .ok m) : DEuler.Quaternion o eps asin atan2 q sq = DEuler.RotationMatrix asin atan2 m sq := by
  cases sq <;> first | exact absurd rfl hs | simp [DEuler.Quaternion, hd, hu, hm, bind, Except.bind]

/-- a quarter turn about the axis Z -/
def quarter : Fin 3 → Fin 3 → ℝ := ![![0, 1, 0], ![-1, 0, 0], ![0, 0, 1]]

theorem quarter_le (i j : Fin 3) : |quarter i j| ≤ 5 / 4 := by fin_cases i <;> fin_cases j <;> simp [quarter] <;> norm_num

example : ∃ asin atan2, ArcSine asin ∧ ArcTangent atan2 ∧ ∃ φ θ ψ, DEuler.RotationMatrix asin atan2 (entries quarter) .zyx = .ok ⟨⟨.fin φ, .radian⟩, ⟨.fin θ, .radian⟩, ⟨.fin ψ, .radian⟩, .zyx⟩ ∧
    |Real.sin θ| ≤ 15 / 2 ^ 53 ∧ |Real.cos φ| ≤ 15 / 2 ^ 53 := by
  obtain ⟨asin, hs⟩ := exists_arcSine
  obtain ⟨atan2, ha⟩ := exists_arcTangent
  obtain ⟨φ, θ, ψ, h, -, -, σ, hσ, h1, -, h3, -⟩ := C134_matrix hs ha quarter (by simp [quarter]) (by simp [quarter]; norm_num) (by simp [quarter]; norm_num)
  refine ⟨asin, atan2, hs, ha, φ, θ, ψ, h, by simpa [quarter] using h3, ?_⟩
  rcases hσ with rfl | rfl <;> simpa [quarter] using h1

example : ∃ asin atan2, ArcSine asin ∧ ArcTangent atan2 ∧ ∃ φ θ ψ, DEuler.RotationMatrix asin atan2 (entries quarter) .xyz = .ok ⟨⟨.fin φ, .radian⟩, ⟨.fin θ, .radian⟩, ⟨.fin ψ, .radian⟩, .zyx⟩ ∧
    |Real.sin θ| ≤ 15 / 2 ^ 53 := by
  obtain ⟨asin, hs⟩ := exists_arcSine
  obtain ⟨atan2, ha⟩ := exists_arcTangent
  obtain ⟨φ, θ, ψ, h, -, -, σ, hσ, -, -, h3, -⟩ := (C134_matrix_others hs ha quarter).1 (by simp [quarter]) (by simp [quarter]; norm_num) (by simp [quarter]; norm_num)
  exact ⟨asin, atan2, hs, ha, φ, θ, ψ, h, by simpa [quarter] using h3⟩

example (asin : ℝ → ℝ) (atan2 : F64 ℝ → F64 ℝ → F64 ℝ) : ∃ e, DEuler.RotationMatrix asin atan2 (entries (fun _ _ => 2)) .zyx = .ok e ∧ e.isDefined = false := by
  obtain ⟨e, h, d, -⟩ := C134_matrix_undefined asin atan2 (fun _ _ => 2) .zyx (t := -2) (Or.inr (Or.inr ⟨rfl, rfl⟩)) (by norm_num)
  exact ⟨e, h, d⟩

theorem rep_eighth : Representable (1 / 8 : ℝ) := by
  have := F64.representable_pow (α := ℝ) (e := -3) (by norm_num)
  rwa [zpow_neg, ← one_div, show ((2 : ℝ) ^ (3 : ℤ)) = 8 by norm_num] at this

example : ∃ asin atan2, ArcSine asin ∧ ArcTangent atan2 ∧ ∃ φ θ ψ, DEuler.Quaternion true (.fin (1 / 8)) asin atan2 (.of ⟨1, 0, 0, 0⟩) .zyx =
    .ok ⟨⟨.fin φ, .radian⟩, ⟨.fin θ, .radian⟩, ⟨.fin ψ, .radian⟩, .zyx⟩ ∧ |Real.sin θ| ≤ 32 / 2 ^ 53 := by
  obtain ⟨asin, hs⟩ := exists_arcSine
  obtain ⟨atan2, ha⟩ := exists_arcTangent
  have up := accepted_one tempered_flip (norm_eq_of zero_le_one (by ring)) (eps := 1 / 8) (by norm_num) le_rfl rep_eighth
  obtain ⟨φ, θ, ψ, h, -, -, σ, hσ, -, -, h3, -⟩ := C134_quaternion true (by norm_num) le_rfl rep_eighth hs ha tempered_flip up (by norm_num)
  exact ⟨asin, atan2, hs, ha, φ, θ, ψ, h, by simpa using h3⟩

example : ∃ acos, ArcCosine acos ∧ ∃ a t, DRotVec.RotationMatrix true (.fin (1 / 8)) acos (entries quarter) = .ok ⟨doubles a, ⟨.fin t, .radian⟩⟩ ∧ |Real.cos t| ≤ 11 / 2 ^ 53 := by
  obtain ⟨acos, ha⟩ := exists_arcCosine
  have hc : traceCosine quarter = 0 := by simp [traceCosine, quarter]
  have hw : skew quarter = ⟨0, 0, 2⟩ := by simp [skew, quarter]; norm_num
  have n := pure_sq ⟨0, 0, 2⟩
  have n0 := norm_nonneg (pure ⟨0, 0, 2⟩)
  simp only at n
  obtain ⟨a, t, h, -, -, h3, -⟩ := C134_vector true (eps := 1 / 8) (by norm_num) ha quarter_le (by rw [hc]; norm_num) (by rw [hc]; norm_num) (by
    rw [hw]
    refine le_trans (by norm_num : (1 : ℝ) / 2 ^ 39 ≤ 1) ?_
    nlinarith)
  exact ⟨acos, ha, a, t, h, by rwa [hc, sub_zero] at h3⟩

example (acos : ℝ → ℝ) : DRotVec.RotationMatrix false (.fin (1 / 8)) acos (entries (fun i j => if i = j then 5 / 4 else 0)) = .error .undefined :=
  C134_vector_undefined false acos (fun i j => by split_ifs <;> norm_num) (by simp [traceCosine]; norm_num [abs_of_nonneg])

end Verif.Props
