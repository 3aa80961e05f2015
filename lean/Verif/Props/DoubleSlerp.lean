import Verif.Lemmas.DoubleSlerp

/-!
# C137: powers and `SLERP` of quaternions in double precision

The specification is `arcPoint`, the formula of Shoemake over the real numbers, and the exponential of quaternions of Mathlib. `MathLib.Good` is what is assumed of the sine, cosine, arc tangent,
exponential and logarithm of the library; `exists_mathLib` shows that there are such functions.
-/

namespace Verif.Props

open Verif Verif.Spec Verif.Double

/-- **C137.** The formula of Shoemake divides the angle between two points of the sphere that are not opposite: the point is on the sphere, at the angle `r θ` of the first one and `(1 - r) θ` of the second. -/
theorem C137_arc {P Q : Quaternion ℝ} (hP : ‖P‖ = 1) (hQ : ‖Q‖ = 1) (h : -1 < (star P * Q).re) (r : ℝ) :
    ‖arcPoint P Q r‖ = 1 ∧ (star P * arcPoint P Q r).re = Real.cos (r * Real.arccos (star P * Q).re) ∧ (star Q * arcPoint P Q r).re = Real.cos ((1 - r) * Real.arccos (star P * Q).re) := by
  have PP : (star P * P).re = 1 := by rw [Quaternion.star_mul_self, Quaternion.normSq_eq_norm_mul_self, hP, mul_one]; rfl
  have QQ : (star Q * Q).re = 1 := by rw [Quaternion.star_mul_self, Quaternion.normSq_eq_norm_mul_self, hQ, mul_one]; rfl
  have QP : (star Q * P).re = (star P * Q).re := by simp only [Quaternion.re_mul, Quaternion.re_star, Quaternion.imI_star, Quaternion.imJ_star, Quaternion.imK_star]; ring
  have le : (star P * Q).re ≤ 1 := by
    have := re_le (star P * Q)
    rw [norm_mul, norm_star, hP, hQ, mul_one] at this
    exact (abs_le.1 this).2
  have ct : Real.cos (Real.arccos (star P * Q).re) = (star P * Q).re := Real.cos_arccos h.le le
  have nsq : ∀ A : Quaternion ℝ, ‖A‖ ^ 2 = (star A * A).re := fun A => by
    rw [Quaternion.star_mul_self, Quaternion.normSq_eq_norm_mul_self, sq]; rfl
  have t1 : Real.arccos (star P * Q).re < Real.pi := lt_of_le_of_ne (Real.arccos_le_pi _) (fun hc => by rw [hc, Real.cos_pi] at ct; linarith)
  set θ := Real.arccos (star P * Q).re with hθ
  by_cases hs : Real.sin θ = 0
  · have t0 : θ = 0 := by
      by_contra hne
      exact (Real.sin_pos_of_pos_of_lt_pi (lt_of_le_of_ne (Real.arccos_nonneg _) (Ne.symm hne)) t1).ne' hs
    have e : arcPoint P Q r = P := by rw [arcPoint]; simp only [← hθ, hs, if_true]
    rw [e, t0, mul_zero, mul_zero, Real.cos_zero, PP, QP, ← ct, t0, Real.cos_zero]
    exact ⟨hP, rfl, rfl⟩
  · have e : arcPoint P Q r = (Real.sin ((1 - r) * θ) / Real.sin θ) • P + (Real.sin (r * θ) / Real.sin θ) • Q := by rw [arcPoint]; simp only [← hθ, hs, if_false]
    have f1 : Real.sin ((1 - r) * θ) = Real.sin θ * Real.cos (r * θ) - Real.cos θ * Real.sin (r * θ) := by rw [sub_mul, one_mul, Real.sin_sub]
    have f2 : Real.cos ((1 - r) * θ) = Real.cos θ * Real.cos (r * θ) + Real.sin θ * Real.sin (r * θ) := by rw [sub_mul, one_mul, Real.cos_sub]
    have s1 := Real.sin_sq_add_cos_sq θ
    have s2 := Real.sin_sq_add_cos_sq (r * θ)
    have g1 : (star P * arcPoint P Q r).re = Real.cos (r * θ) := by
      rw [e, mul_add, mul_smul_comm, mul_smul_comm, Quaternion.re_add, Quaternion.re_smul, Quaternion.re_smul, PP, ← ct, f1]
      simp only [smul_eq_mul]
      field_simp
      ring
    have g2 : (star Q * arcPoint P Q r).re = Real.cos ((1 - r) * θ) := by
      rw [e, mul_add, mul_smul_comm, mul_smul_comm, Quaternion.re_add, Quaternion.re_smul, Quaternion.re_smul, QP, QQ, ← ct, f1, f2]
      simp only [smul_eq_mul]
      field_simp
      linear_combination (-Real.sin (r * θ)) * s1
    refine ⟨?_, g1, g2⟩
    have n2 : ‖arcPoint P Q r‖ ^ 2 = 1 := by
      have : (star (arcPoint P Q r) * arcPoint P Q r).re = Real.sin ((1 - r) * θ) / Real.sin θ * (star P * arcPoint P Q r).re + Real.sin (r * θ) / Real.sin θ * (star Q * arcPoint P Q r).re := by
        nth_rewrite 1 [e]
        rw [star_add, Quaternion.star_smul, Quaternion.star_smul, add_mul, smul_mul_assoc, smul_mul_assoc, Quaternion.re_add, Quaternion.re_smul, Quaternion.re_smul]
        rfl
      rw [nsq, this, g1, g2, f1, f2]
      field_simp
      linear_combination Real.sin θ * s2
    exact (pow_eq_one_iff_of_nonneg (norm_nonneg _) two_ne_zero).1 n2

/-- **C137.** `SLERP` in double precision: between any two quaternions whose norms are between one half and two, and for any ratio between zero and one, the answer is the point that divides the great arc between their
directions in the ratio, within `2 ^ -44` and 22 times `Real::Epsilon()`. The second quaternion is replaced by its opposite if that is nearer; which of the two is chosen when they are as far is left open. The answer passes for
unitary. -/
theorem C137_slerp (o : Bool) {L : MathLib} (hL : MathLib.Good L) {p q : Quat} (hp : Tempered p) (hq : Tempered q) (p1 : 1 / 2 ≤ ‖hamilton p‖) (p2 : ‖hamilton p‖ ≤ 2) (q1 : 1 / 2 ≤ ‖hamilton q‖)
    (q2 : ‖hamilton q‖ ≤ 2) {e : ℝ} (he : 2 ^ (-100 : ℤ) ≤ e) (he' : e ≤ 1 / 1000) {r : ℝ} (r0 : 0 ≤ r) (r1 : r ≤ 1) :
    ∃ n σ, DQuat.SLERP o (.fin e) L (.of p) (.of q) (.fin r) = .ok (.of n) ∧ (σ = 1 ∨ σ = -1) ∧ -(2 ^ (-50 : ℤ)) ≤ σ * (star (along p) * along q).re ∧
      ‖hamilton n - arcPoint (along p) (σ • along q) r‖ ≤ 2 ^ (-44 : ℤ) + 22 * e ∧ |‖hamilton n‖ - 1| ≤ 2 ^ (-50 : ℤ) ∧ ∀ tol : ℝ, 8 / 2 ^ 53 ≤ tol → DQuat.isUnitary (.fin tol) (.of n) = .ok true := by
  have u0 := DQuat.u_pos
  have e50 : (2 : ℝ) ^ (-50 : ℤ) = 8 * DQuat.u := by rw [DQuat.u]; norm_num
  have e44 : (2 : ℝ) ^ (-44 : ℤ) = 512 * DQuat.u := by rw [DQuat.u]; norm_num
  obtain ⟨n, σ, hσ, hd, en, -, dn, ln, un⟩ := slerp_near o hL hp hq p1 p2 q1 q2 he he' r0 r1
  rw [e50, e44]
  exact ⟨n, σ, en, hσ, hd, by linarith, by linarith, un⟩

/-- **C137.** At the ends of the interval, and against the wrong sign: the ratio 0 gives the first quaternion, the ratio 1 the second or its opposite, up to the norm. -/
theorem C137_ends (o : Bool) {L : MathLib} (hL : MathLib.Good L) {p q : Quat} (hp : Tempered p) (hq : Tempered q) (p1 : 1 / 2 ≤ ‖hamilton p‖) (p2 : ‖hamilton p‖ ≤ 2) (q1 : 1 / 2 ≤ ‖hamilton q‖)
    (q2 : ‖hamilton q‖ ≤ 2) {e : ℝ} (he : 2 ^ (-100 : ℤ) ≤ e) (he' : e ≤ 1 / 1000) :
    (∃ n, DQuat.SLERP o (.fin e) L (.of p) (.of q) (.fin 0) = .ok (.of n) ∧ ‖hamilton n - along p‖ ≤ 2 ^ (-44 : ℤ) + 22 * e) ∧
      ∃ n, DQuat.SLERP o (.fin e) L (.of p) (.of q) (.fin 1) = .ok (.of n) ∧ (‖hamilton n - along q‖ ≤ 2 ^ (-44 : ℤ) + 22 * e ∨ ‖hamilton n + along q‖ ≤ 2 ^ (-44 : ℤ) + 22 * e) := by
  have P0 : 0 < ‖hamilton p‖ := by linarith
  have Q0 : 0 < ‖hamilton q‖ := by linarith
  refine ⟨?_, ?_⟩
  · obtain ⟨n, σ, en, -, -, dn, -⟩ := C137_slerp o hL hp hq p1 p2 q1 q2 he he' le_rfl zero_le_one
    refine ⟨n, en, ?_⟩
    have : arcPoint (along p) (σ • along q) 0 = along p := by
      rw [arcPoint]
      split
      · rfl
      · rename_i h
        rw [sub_zero, one_mul, zero_mul, Real.sin_zero, zero_div, zero_smul, add_zero, div_self h, one_smul]
    rwa [this] at dn
  · obtain ⟨n, σ, en, hσ, hd, dn, -⟩ := C137_slerp o hL hp hq p1 p2 q1 q2 he he' zero_le_one le_rfl
    refine ⟨n, en, ?_⟩
    have nσ : ‖σ • along q‖ = 1 := by rw [norm_smul, along_norm Q0]; rcases hσ with h | h <;> simp [h]
    have re : (star (along p) * (σ • along q)).re = σ * (star (along p) * along q).re := by rw [mul_smul_comm, Quaternion.re_smul, smul_eq_mul]
    have : arcPoint (along p) (σ • along q) 1 = σ • along q := by
      have s : (0 : ℝ) < 2 ^ (-50 : ℤ) := by positivity
      have s1 : (2 : ℝ) ^ (-50 : ℤ) < 1 := by norm_num
      obtain ⟨a, -, c⟩ := C137_arc (along_norm P0) nσ (by rw [re]; linarith) 1
      rw [sub_self, zero_mul, Real.cos_zero] at c
      have z : ‖arcPoint (along p) (σ • along q) 1 - σ • along q‖ ^ 2 = 0 := by
        have nsq : ∀ A : Quaternion ℝ, ‖A‖ ^ 2 = (star A * A).re := fun A => by
          rw [Quaternion.star_mul_self, Quaternion.normSq_eq_norm_mul_self, sq]; rfl
        have aa := nsq (arcPoint (along p) (σ • along q) 1)
        have bb := nsq (σ • along q)
        rw [a] at aa
        rw [nσ] at bb
        rw [nsq]
        generalize arcPoint (along p) (σ • along q) 1 = A at *
        generalize σ • along q = B at *
        simp only [star_sub, Quaternion.re_mul, Quaternion.re_sub, Quaternion.imI_sub, Quaternion.imJ_sub, Quaternion.imK_sub, Quaternion.re_star, Quaternion.imI_star, Quaternion.imJ_star, Quaternion.imK_star] at aa bb c ⊢
        linarith
      exact sub_eq_zero.1 (norm_eq_zero.1 (pow_eq_zero_iff two_ne_zero |>.1 z))
    rw [this] at dn
    rcases hσ with h | h
    · left; rwa [h, one_smul] at dn
    · right; rwa [h, neg_one_smul, sub_neg_eq_add] at dn

/-- **C137.** A ratio that is not a number is refused, and so is one that is not between 0 and 1, an infinite one included; undefined quaternions are refused, and the quaternion zero as the first one, since it has no inverse. -/
theorem C137_throws (o : Bool) (eps : F64 ℝ) (L : MathLib) (p q : DQuat) :
    DQuat.SLERP o eps L p q .nan = .error .undefined ∧ (∀ r, r < 0 ∨ 1 < r → DQuat.SLERP o eps L p q (.fin r) = .error .runtimeError) ∧
      (∀ s, DQuat.SLERP o eps L p q (.inf s) = .error .runtimeError) ∧
      (∀ r, 0 ≤ r → r ≤ 1 → p.isDefined = false ∨ q.isDefined = false → DQuat.SLERP o eps L p q (.fin r) = .error .undefined) ∧
      (∀ r e, 0 ≤ r → r ≤ 1 → 0 < e → q.isDefined → DQuat.SLERP o (.fin e) L (.of ⟨0, 0, 0, 0⟩) q (.fin r) = .error .runtimeError) ∧
      (p.isDefined = false → DQuat.exp o eps L p = .error .undefined ∧ DQuat.log o eps L p = .error .undefined ∧ ∀ k, DQuat.pow o eps L p k = .error .undefined) := by
  refine ⟨by simp [DQuat.SLERP], fun r h => ?_, fun s => ?_, fun r h0 h1 h => ?_, fun r e h0 h1 he h => ?_, fun h => ?_⟩
  · rcases h with h | h <;> simp [DQuat.SLERP, F64.lt, h]
  · cases s <;> simp [DQuat.SLERP, F64.lt]
  · rcases h with h | h <;> simp [DQuat.SLERP, F64.lt, not_lt.2 h0, not_lt.2 h1, DQuat.dotProduct, h, bind, Except.bind]
  · have z : DQuat.normSq (.of ⟨0, 0, 0, 0⟩) = .fin 0 := by
      have := normSq_fin (x := 0) (y := 0) (z := 0) (s := 0) (by simp) (by simp) (by simp) (by simp)
      rw [DQuat.of, this]
      simp [DQuat.sumSq, rnd_zero']
    have i : DQuat.toInverse (.fin e) (.of ⟨0, 0, 0, 0⟩) = .error .runtimeError := by
      rw [DQuat.toInverse, DQuat.of_defined, z]
      simp [F64.abs, F64.lt, he]
    have d : DQuat.dotProduct (.of ⟨0, 0, 0, 0⟩) q = .ok ((((F64.fin 0).mul q.x).add ((F64.fin 0).mul q.y)).add ((F64.fin 0).mul q.z) |>.add ((F64.fin 0).mul q.s)) := by
      rw [DQuat.dotProduct, DQuat.of_defined, h]; rfl
    rw [DQuat.SLERP, d, i]
    simp [F64.lt, not_lt.2 h0, not_lt.2 h1, bind, Except.bind]
  · have l : DQuat.log o eps L p = .error .undefined := by simp [DQuat.log, h]
    exact ⟨by simp [DQuat.exp, h], l, fun k => by simp [DQuat.pow, l, bind, Except.bind]⟩

/-- **C137.** `exp` in double precision is the exponential of quaternions, within `2 ^ -48` of its size, if the vector part is longer than `Real::Epsilon()` by 2 percent. -/
theorem C137_exp_partial (o : Bool) {L : MathLib} (hL : MathLib.Good L) {y : Quat} (rs : Representable y.s) (s5 : |y.s| ≤ 5) {e : ℝ} (he : 2 ^ (-100 : ℤ) ≤ e)
    (h1 : 102 / 100 * e < ‖pure ⟨y.x, y.y, y.z⟩‖) (h2 : ‖pure ⟨y.x, y.y, y.z⟩‖ ≤ 4) :
    ∃ b, DQuat.exp o (.fin e) L (.of y) = .ok (.of b) ∧ ‖hamilton b - NormedSpace.exp (hamilton y)‖ ≤ 2 ^ (-48 : ℤ) * Real.exp y.s := by
  have u0 := DQuat.u_pos
  have us := DQuat.u_small
  obtain ⟨m, hm, hx, hy, hz⟩ := exists_dir ⟨y.x, y.y, y.z⟩
  have py : pure ⟨y.x, y.y, y.z⟩ = ‖pure ⟨y.x, y.y, y.z⟩‖ • pure m := by rw [pure_smul, ← hx, ← hy, ← hz]
  obtain ⟨b, k, ek, -, k1, -, hk, -⟩ := exp_near o hL hm (norm_nonneg _) h2 py rs s5 he
  refine ⟨b, ek, ?_⟩
  rw [exp_turn hm (norm_nonneg _) py]
  rcases hk with ⟨h, -⟩ | ⟨a, c⟩
  · linarith
  · set T := hamilton (turnQ m ‖pure ⟨y.x, y.y, y.z⟩‖) with hT
    have i := norm_sub_le_norm_sub_add_norm_sub (hamilton b) (k • T) (Real.exp y.s • T)
    rw [← sub_smul, norm_smul, hT, turnQ_norm hm, mul_one, Real.norm_eq_abs, ← hT] at i
    have e48 : (2 : ℝ) ^ (-48 : ℤ) = 32 * DQuat.u := by rw [DQuat.u]; norm_num
    rw [e48]
    have E0 := Real.exp_pos y.s
    have uE : DQuat.u * Real.exp y.s ≤ 1 / 1000 * Real.exp y.s := mul_le_mul_of_nonneg_right (by linarith) E0.le
    have kE : k ≤ 101 / 100 * Real.exp y.s := by linarith [(abs_le.1 a).2]
    have := mul_le_mul_of_nonneg_left kE u0.le
    have : 0 < DQuat.u * Real.exp y.s := by positivity
    linarith

/-- **C137.** `log` in double precision is a logarithm: of a quaternion whose norm is between 1/5 and 5, and whose angle is at most 120 degrees, it is a quaternion the exponential of which is that quaternion, within
`2 ^ -47` and 9 times `Real::Epsilon()` of its norm. -/
theorem C137_log_partial (o : Bool) {L : MathLib} (hL : MathLib.Good L) {q : Quat} (hq : Tempered q) (k1 : 1 / 5 ≤ ‖hamilton q‖) (k2 : ‖hamilton q‖ ≤ 5) (c : -(1 / 2) * ‖hamilton q‖ ≤ q.s)
    {e : ℝ} (he : 2 ^ (-100 : ℤ) ≤ e) (he' : e ≤ 1 / 1000) :
    ∃ l, DQuat.log o (.fin e) L (.of q) = .ok (.of l) ∧ ‖NormedSpace.exp (hamilton l) - hamilton q‖ ≤ (2 ^ (-47 : ℤ) + 9 * e) * ‖hamilton q‖ ∧ ‖pure ⟨l.x, l.y, l.z⟩‖ ≤ 3 := by
  have u0 := DQuat.u_pos
  have us := DQuat.u_small
  have K0 : 0 < ‖hamilton q‖ := by linarith
  obtain ⟨m, θ, hm, b0, b1, bc, bw, -⟩ := exists_turn q K0
  have cθ : -(1 / 2) ≤ Real.cos θ := by rw [bc, le_div_iff₀ K0]; exact c
  obtain ⟨l, el, hl, hs⟩ := log_near o hL hq k1 k2 hm b0 b1 cθ bw he he'
  have θ2 : θ ≤ 2 * Real.pi / 3 := by
    by_contra k
    push Not at k
    have := Real.cos_lt_cos_of_nonneg_of_le_pi (by positivity) b1 k
    rw [show 2 * Real.pi / 3 = Real.pi - Real.pi / 3 by ring, Real.cos_pi_sub, Real.cos_pi_div_three] at this
    linarith
  have pp := Real.pi_lt_d2
  have nl : ‖pure ⟨l.x, l.y, l.z⟩‖ ≤ 3 := by
    have := norm_sub_norm_le (pure ⟨l.x, l.y, l.z⟩) (θ • pure m)
    rw [norm_smul, pure_unit hm, mul_one, Real.norm_of_nonneg b0] at this
    linarith
  refine ⟨l, el, ?_, nl⟩
  obtain ⟨m', hm', hx, hy, hz⟩ := exists_dir ⟨l.x, l.y, l.z⟩
  have py : pure ⟨l.x, l.y, l.z⟩ = ‖pure ⟨l.x, l.y, l.z⟩‖ • pure m' := by rw [pure_smul, ← hx, ← hy, ← hz]
  rw [exp_turn hm' (norm_nonneg _) py]
  set Y := ‖pure ⟨l.x, l.y, l.z⟩‖ with hY
  have t := turn_apart hm' hm (norm_nonneg _) b0 (a := Y)
  rw [← py] at t
  replace t := t.trans hl
  have eE : Real.exp l.s = ‖hamilton q‖ * Real.exp (l.s - Real.log ‖hamilton q‖) := by
    nth_rewrite 1 [← Real.exp_log K0]
    rw [← Real.exp_add]
    congr 1
    ring
  have x1 := Real.abs_exp_sub_one_le (x := l.s - Real.log ‖hamilton q‖) (hs.trans (by linarith))
  have d : |Real.exp l.s - ‖hamilton q‖| ≤ 16 * DQuat.u * ‖hamilton q‖ := by
    rw [eE, show ‖hamilton q‖ * Real.exp (l.s - Real.log ‖hamilton q‖) - ‖hamilton q‖ = (Real.exp (l.s - Real.log ‖hamilton q‖) - 1) * ‖hamilton q‖ by ring, abs_mul, abs_norm]
    exact mul_le_mul_of_nonneg_right (by linarith) K0.le
  have i := norm_sub_le_norm_sub_add_norm_sub (Real.exp l.s • hamilton (turnQ m' Y)) (‖hamilton q‖ • hamilton (turnQ m' Y)) (‖hamilton q‖ • hamilton (turnQ m θ))
  rw [← sub_smul, norm_smul, turnQ_norm hm', mul_one, Real.norm_eq_abs, ← smul_sub, norm_smul, norm_norm, ← bw] at i
  have j := mul_le_mul_of_nonneg_left t K0.le
  have e47 : (2 : ℝ) ^ (-47 : ℤ) = 64 * DQuat.u := by rw [DQuat.u]; norm_num
  rw [e47]
  have : 0 < DQuat.u * ‖hamilton q‖ := by positivity
  linarith

/-- **C137.** A power between 0 and 1 in double precision: of the quaternion of norm `K` and angle `θ` about `m`, where the angle is at most 120 degrees, the quaternion of the angle `r θ` about `m`, and of the norm `K ^ r` unless the angle is
of the size of `Real::Epsilon()`, where the norm is one. -/
theorem C137_pow_partial (o : Bool) {L : MathLib} (hL : MathLib.Good L) {q : Quat} (hq : Tempered q) (k1 : 1 / 5 ≤ ‖hamilton q‖) (k2 : ‖hamilton q‖ ≤ 5) {m : V3} {θ : ℝ} (hm : m.normSq = 1) (θ0 : 0 ≤ θ) (θ1 : θ ≤ 2 * Real.pi / 3)
    (h : hamilton q = ‖hamilton q‖ • hamilton (turnQ m θ)) {e : ℝ} (he : 2 ^ (-100 : ℤ) ≤ e) (he' : e ≤ 1 / 1000) {r : ℝ} (r0 : 0 ≤ r) (r1 : r ≤ 1) :
    ∃ b k, DQuat.pow o (.fin e) L (.of q) (.fin r) = .ok (.of b) ∧ (k = 1 ∧ r * θ ≤ 11 * e + 2 ^ (-47 : ℤ) ∨ |k - ‖hamilton q‖ ^ r| ≤ 2 ^ (-47 : ℤ) * ‖hamilton q‖ ^ r) ∧
      ‖hamilton b - k • hamilton (turnQ m (r * θ))‖ ≤ (2 ^ (-47 : ℤ) + 11 * e) * k := by
  have u0 := DQuat.u_pos
  have e47 : (2 : ℝ) ^ (-47 : ℤ) = 64 * DQuat.u := by rw [DQuat.u]; norm_num
  have pp := Real.pi_pos
  have c : -(1 / 2) ≤ Real.cos θ := by
    have := Real.cos_le_cos_of_nonneg_of_le_pi θ0 (show 2 * Real.pi / 3 ≤ Real.pi by linarith) θ1
    rwa [show 2 * Real.pi / 3 = Real.pi - Real.pi / 3 by ring, Real.cos_pi_sub, Real.cos_pi_div_three] at this
  obtain ⟨b, k, eb, kl, -, hk, hb⟩ := pow_near o hL hq k1 k2 hm θ0 (by linarith) c h he he' r0 r1
  rw [e47]
  refine ⟨b, k, eb, ?_, hb.trans (mul_le_mul_of_nonneg_right (by linarith) (by linarith))⟩
  rcases hk with ⟨h1, h2⟩ | hk
  · exact .inl ⟨h2, by linarith⟩
  · refine .inr (hk.trans (mul_le_mul_of_nonneg_right (by linarith) (Real.rpow_nonneg (norm_nonneg _) _)))

/-- **C137.** The exponential of a quaternion without a vector part is one, whatever its scalar part; the exponential of 1 should be 2.718… -/
theorem C137_scalar_violated (o : Bool) (L : MathLib) {e : ℝ} (he : 0 ≤ e) (s : ℝ) :
    DQuat.exp o (.fin e) L (.of ⟨0, 0, 0, s⟩) = .ok (.of ⟨0, 0, 0, 1⟩) ∧ 2 ≤ ‖NormedSpace.exp (hamilton ⟨0, 0, 0, 1⟩)‖ ∧ ‖hamilton ⟨0, 0, 0, 1⟩‖ = 1 := by
  refine ⟨exp_scalar o L he s, ?_, norm_eq_of zero_le_one (by ring)⟩
  · rw [exp_turn (m := V3.X) (by simp [V3.normSq, V3.dot, V3.X]) le_rfl (by rw [zero_smul]; ext <;> rfl), norm_smul, turnQ_norm (by simp [V3.normSq, V3.dot, V3.X]), mul_one, Real.norm_of_nonneg (Real.exp_pos _).le]
    have := Real.add_one_le_exp (1 : ℝ)
    linarith

/-- **C137.** A rotation by an angle below `Real::Epsilon()` is lost: `SLERP` from the identity to a quaternion that differs from it by less answers the identity, for every ratio, even 1. -/
theorem C137_end_violated (o : Bool) {L : MathLib} (hL : MathLib.Good L) {a e : ℝ} (ha : Representable a) (a0 : a ≠ 0) (h : |a| ≤ e / 2) (he : 2 ^ (-100 : ℤ) ≤ e) (he' : e ≤ 1 / 1000) {r : ℝ} (r0 : 0 ≤ r) (r1 : r ≤ 1) :
    DQuat.SLERP o (.fin e) L (.of ⟨0, 0, 0, 1⟩) (.of ⟨a, 0, 0, 1⟩) (.fin r) = .ok (.of ⟨0, 0, 0, 1⟩) ∧ ∀ k : ℝ, k • hamilton ⟨a, 0, 0, 1⟩ ≠ hamilton ⟨0, 0, 0, 1⟩ := by
  refine ⟨?_, fun k hk => ?_⟩
  · have one : rnd (1 : ℝ) = 1 := rnd_exact rep_one
    have ra : rnd a = a := rnd_exact ha
    have a1 : |a| ≤ 1 / 2000 := by linarith
    have b1 : |(1 : ℝ)| ≤ 2 ^ 500 := le_500 (by norm_num)
    have b0 : |(0 : ℝ)| ≤ 2 ^ 500 := le_500 (by norm_num)
    have d : DQuat.dotProduct (.of ⟨0, 0, 0, 1⟩) (.of ⟨a, 0, 0, 1⟩) = .ok (.fin 1) := by
      rw [DQuat.dotProduct, DQuat.of_defined, DQuat.of_defined, if_neg (by simp)]
      have := DT3.dot_fin .left b0 b0 b0 b1 (le_500 (by linarith : |a| ≤ 1000)) b0 b0 b1
      refine congrArg _ (this.trans ?_)
      simp [DT3.dot4, DT3.sum4, rnd_zero', one]
    have z : DQuat.normSq (.of ⟨0, 0, 0, 1⟩) = .fin 1 := by
      have := normSq_fin b0 b0 b0 b1
      rw [DQuat.of, this]
      simp [DQuat.sumSq, rnd_zero', one]
    have d0 : (F64.fin (0 : ℝ)).div (.fin 1) = .fin 0 := by have := (div_fin (a := 0) one_pos (by simp)).1; rwa [zero_div, rnd_zero'] at this
    have d1 : (F64.fin (1 : ℝ)).div (.fin 1) = .fin 1 := by have := (div_fin (a := 1) one_pos (by simp)).1; rwa [div_one, one] at this
    have i : DQuat.toInverse (.fin e) (.of ⟨0, 0, 0, 1⟩) = .ok (.of ⟨0, 0, 0, 1⟩) := by
      rw [DQuat.toInverse, DQuat.of_defined, z]
      have : ¬ (1 : ℝ) < e := by linarith
      simp [F64.abs, F64.lt, this, DQuat.of, F64.neg, d0, d1]
    have nu : ‖hamilton ⟨0, 0, 0, 1⟩‖ = 1 := norm_eq_of zero_le_one (by ring)
    have na : ‖hamilton ⟨a, 0, 0, 1⟩‖ ≤ 2 ^ 500 := by
      have : ‖hamilton ⟨a, 0, 0, 1⟩‖ ≤ 2 := le_of_sq_le_sq (by rw [DQuat.norm_hamilton]; nlinarith [abs_le.1 a1]) (by norm_num)
      have := le_500 (x := ‖hamilton ⟨a, 0, 0, 1⟩‖) (by rw [abs_norm]; linarith)
      rwa [abs_norm] at this
    have n5 : ‖hamilton ⟨0, 0, 0, 1⟩‖ ≤ 2 ^ 500 := by rw [nu]; exact one_le_pow₀ one_le_two
    have pr : DQuat.product o (.of ⟨0, 0, 0, 1⟩) (.of ⟨a, 0, 0, 1⟩) = .ok (.of ⟨a, 0, 0, 1⟩) := by
      rw [DQuat.product_fin o n5 na]
      cases o <;> simp [DQuat.prod, DQuat.vec4, DQuat.sca4, DVec.sum3, rnd_zero', one, ra]
    have pu : DQuat.product o (.of ⟨0, 0, 0, 1⟩) (.of ⟨0, 0, 0, 1⟩) = .ok (.of ⟨0, 0, 0, 1⟩) := by
      rw [DQuat.product_fin o n5 n5]
      cases o <;> simp [DQuat.prod, DQuat.vec4, DQuat.sca4, DVec.sum3, rnd_zero', one]
    have no : DQuat.normalize (.fin e) (.of ⟨0, 0, 0, 1⟩) = .ok (.of ⟨0, 0, 0, 1⟩) := by
      have nn : DQuat.norm (.of ⟨0, 0, 0, 1⟩) = .ok (.fin (DQuat.nrm 0 0 0 1)) := DQuat.norm_fin b0 b0 b0 b1
      have n1 : DQuat.nrm 0 0 0 1 = 1 := by simp [DQuat.nrm, DQuat.sumSq, rnd_zero', one]
      have : ¬ (1 : ℝ) < e := by linarith
      rw [DQuat.normalize, nn, n1]
      simp [bind, Except.bind, F64.abs, F64.lt, this, DQuat.of, d0, d1]
      rfl
    have r2 : ¬ (F64.fin r = F64.nan) := by simp
    have r3 : ¬ ((F64.fin r).lt (.fin 0) || (F64.fin 1).lt (.fin r)) = true := by simp [F64.lt, r0, r1]
    rw [DQuat.SLERP, if_neg r2, if_neg r3, d, i]
    simp only [bind, Except.bind, F64.le, zero_le_one, decide_true, if_true, pr, slerp_unit_tail o hL h he he' r0 r1, pu, no]
  · rw [hamilton_smul] at hk
    have h1 : k * a = 0 := congrArg (fun q : Quaternion ℝ => q.imI) hk
    have h2 : k * 1 = 1 := congrArg (fun q : Quaternion ℝ => q.re) hk
    rw [mul_one] at h2
    rw [h2, one_mul] at h1
    exact a0 h1

example : ∃ L n, MathLib.Good L ∧ DQuat.SLERP true (.fin (2 ^ (-52 : ℤ))) L (.of ⟨0, 0, 0, 1⟩) (.of ⟨1, 0, 0, 0⟩) (.fin (1 / 2)) = .ok (.of n) ∧
    ∃ σ, (σ = 1 ∨ σ = -1) ∧ ‖hamilton n - hamilton ⟨σ * (√2 / 2), 0, 0, √2 / 2⟩‖ ≤ 2 ^ (-43 : ℤ) := by
  obtain ⟨L, hL⟩ := exists_mathLib
  have n1 : ‖hamilton ⟨0, 0, 0, 1⟩‖ = 1 := norm_eq_of zero_le_one (by ring)
  have n2 : ‖hamilton ⟨1, 0, 0, 0⟩‖ = 1 := norm_eq_of zero_le_one (by ring)
  obtain ⟨n, σ, en, hσ, -, dn, -⟩ := C137_slerp true hL tempered_unit tempered_flip (by rw [n1]; norm_num) (by rw [n1]; norm_num) (by rw [n2]; norm_num) (by rw [n2]; norm_num) (e := 2 ^ (-52 : ℤ))
    (zpow_le_zpow_right₀ one_le_two (by norm_num)) (by norm_num) (r := 1 / 2) (by norm_num) (by norm_num)
  refine ⟨L, n, hL, en, σ, hσ, ?_⟩
  have a1 : along ⟨0, 0, 0, 1⟩ = hamilton ⟨0, 0, 0, 1⟩ := by rw [along, n1, inv_one, one_smul]
  have a2 : along ⟨1, 0, 0, 0⟩ = hamilton ⟨1, 0, 0, 0⟩ := by rw [along, n2, inv_one, one_smul]
  have ar : arcPoint (along ⟨0, 0, 0, 1⟩) (σ • along ⟨1, 0, 0, 0⟩) (1 / 2) = hamilton ⟨σ * (√2 / 2), 0, 0, √2 / 2⟩ := by
    have re : (star (along ⟨0, 0, 0, 1⟩) * (σ • along ⟨1, 0, 0, 0⟩)).re = 0 := by
      rw [mul_smul_comm, Quaternion.re_smul, along_dot]; simp
    rw [arcPoint, re, Real.arccos_zero]
    simp only [Real.sin_pi_div_two, one_ne_zero, if_false, div_one]
    rw [show (1 - 1 / 2) * (Real.pi / 2) = Real.pi / 4 by ring, show 1 / 2 * (Real.pi / 2) = Real.pi / 4 by ring, Real.sin_pi_div_four, a1, a2, hamilton_smul, hamilton_smul, hamilton_smul, hamilton_add]
    congr 1
    simp [mul_comm]
  rw [ar] at dn
  refine dn.trans ?_
  norm_num

example : ∃ L b, MathLib.Good L ∧ DQuat.exp false (.fin (2 ^ (-52 : ℤ))) L (.of ⟨1, 0, 0, 2⟩) = .ok (.of b) ∧ ‖hamilton b - NormedSpace.exp (hamilton ⟨1, 0, 0, 2⟩)‖ ≤ 2 ^ (-48 : ℤ) * Real.exp 2 := by
  obtain ⟨L, hL⟩ := exists_mathLib
  have n : ‖pure ⟨1, 0, 0⟩‖ = 1 := norm_eq_of zero_le_one (by ring)
  have r2 : Representable (2 : ℝ) := by simpa using F64.representable_pow (α := ℝ) (e := 1) (by norm_num)
  obtain ⟨b, h1, h2⟩ := C137_exp_partial false hL (y := ⟨1, 0, 0, 2⟩) r2 (by norm_num) (e := 2 ^ (-52 : ℤ)) (zpow_le_zpow_right₀ one_le_two (by norm_num)) (by rw [n]; norm_num) (by rw [n]; norm_num)
  exact ⟨L, b, hL, h1, h2⟩

example : ∃ L l, MathLib.Good L ∧ DQuat.log false (.fin (2 ^ (-52 : ℤ))) L (.of ⟨1, 0, 0, 0⟩) = .ok (.of l) ∧ ‖NormedSpace.exp (hamilton l) - hamilton ⟨1, 0, 0, 0⟩‖ ≤ 2 ^ (-46 : ℤ) := by
  obtain ⟨L, hL⟩ := exists_mathLib
  have n : ‖hamilton ⟨1, 0, 0, 0⟩‖ = 1 := norm_eq_of zero_le_one (by ring)
  obtain ⟨l, h1, h2, -⟩ := C137_log_partial false hL tempered_flip (by rw [n]; norm_num) (by rw [n]; norm_num) (by rw [n]; norm_num) (e := 2 ^ (-52 : ℤ)) (zpow_le_zpow_right₀ one_le_two (by norm_num)) (by norm_num)
  refine ⟨L, l, hL, h1, h2.trans ?_⟩
  rw [n]
  norm_num

example : ∃ L b k, MathLib.Good L ∧ DQuat.pow true (.fin (2 ^ (-52 : ℤ))) L (.of ⟨1, 0, 0, 0⟩) (.fin (1 / 3)) = .ok (.of b) ∧ ‖hamilton b - k • hamilton (turnQ V3.X (Real.pi / 6))‖ ≤ 2 ^ (-46 : ℤ) * k := by
  obtain ⟨L, hL⟩ := exists_mathLib
  have n : ‖hamilton ⟨1, 0, 0, 0⟩‖ = 1 := norm_eq_of zero_le_one (by ring)
  have pp := Real.pi_pos
  obtain ⟨b, k, h1, h2, h3⟩ := C137_pow_partial true hL tempered_flip (by rw [n]; norm_num) (by rw [n]; norm_num) (m := V3.X) (θ := Real.pi / 2) (by simp [V3.normSq, V3.dot, V3.X]) (by linarith) (by linarith)
    (by rw [n, one_smul]; simp [turnQ, V3.X]) (e := 2 ^ (-52 : ℤ)) (zpow_le_zpow_right₀ one_le_two (by norm_num)) (by norm_num) (r := 1 / 3) (by norm_num) (by norm_num)
  refine ⟨L, b, k, hL, h1, ?_⟩
  rw [show 1 / 3 * (Real.pi / 2) = Real.pi / 6 by ring] at h3
  have k0 : 0 ≤ k := by
    rcases h2 with h | h
    · rw [h.1]; norm_num
    · rw [n, Real.one_rpow, mul_one] at h
      have := (abs_le.1 h).1
      have : (2 : ℝ) ^ (-47 : ℤ) ≤ 1 := by norm_num
      linarith
  refine h3.trans (mul_le_mul_of_nonneg_right ?_ k0)
  norm_num

example : ∃ L, MathLib.Good L ∧ DQuat.SLERP true (.fin (2 ^ (-52 : ℤ))) L (.of ⟨0, 0, 0, 1⟩) (.of ⟨2 ^ (-60 : ℤ), 0, 0, 1⟩) (.fin 1) = .ok (.of ⟨0, 0, 0, 1⟩) := by
  obtain ⟨L, hL⟩ := exists_mathLib
  exact ⟨L, hL, (C137_end_violated true hL (F64.representable_pow (by norm_num)) (by positivity) (by rw [abs_of_pos (by positivity)]; norm_num) (zpow_le_zpow_right₀ one_le_two (by norm_num)) (by norm_num) zero_le_one le_rfl).1⟩

end Verif.Props
