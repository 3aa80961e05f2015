import Verif.Lemmas.DoubleShortest

/-!
# C132: `ShortestRotation`, `LERP` and `NLERP` in double precision
-/

namespace Verif.Props

open Verif Verif.Spec Verif.Double

/-- **C132.** Two vectors that are not nearly opposite: `ShortestRotation` gives a unit quaternion whose rotation takes the direction of the first vector to the direction of the
second, and whose angle is the angle between them. With `c` the cosine of half that angle, the direction is missed by at most `41 u / c`, and the quaternion itself by at most `20 u / c`. -/
theorem C132_shortest (o : Bool) (eps : ℝ) (he : 2 ^ (-100 : ℤ) ≤ eps) {a b : V3} (ha : Within a) (hb : Within b) (na : 1 / 2 ^ 40 ≤ ‖pure a‖) (nb : 1 / 2 ^ 40 ≤ ‖pure b‖)
    (c : ℝ) (hc : c = Real.cos (Real.arccos (cosine a b) / 2)) (c1 : eps ≤ c) (c2 : 32 / 2 ^ 53 ≤ c) :
    ∃ r, DQuat.ShortestRotation o (.fin eps) (doubles a) (doubles b) = .ok (.of r) ∧ Tempered r ∧ (∀ tol : ℝ, 8 / 2 ^ 53 ≤ tol → DQuat.isUnitary (.fin tol) (.of r) = .ok true) ∧
      |r.s - c| ≤ 20 / 2 ^ 53 / c ∧
      ‖(hamilton r)⁻¹ * pure a * hamilton r - (‖pure a‖ / ‖pure b‖) • pure b‖ ≤ 41 / 2 ^ 53 / c * ‖pure a‖ := by
  have u0 := DQuat.u_pos
  have us := DQuat.u_small
  rw [e53] at c2
  rw [e53 20, e53 41]
  have p40 : (0 : ℝ) < 1 / 2 ^ 40 := by norm_num
  have A0 : 0 < ‖pure a‖ := by linarith
  have B0 : 0 < ‖pure b‖ := by linarith
  obtain ⟨ht, h0⟩ := angle_of A0 B0
  rw [← hc] at h0
  have nA := norm_direction A0.ne'
  have nB := norm_direction B0.ne'
  have W := shortest_norm nA nB ht (hc ▸ h0)
  rw [← hc] at W
  have T := shortest_turns nA nB
  have c0 : 0 < c := by linarith
  have cle : c ≤ 1 := hc ▸ Real.cos_le_one _
  obtain ⟨a', ea, -, -, -, a1, a2, a3, da⟩ := normalized_any o ha na
  obtain ⟨b', eb, -, -, -, b1, b2, b3, db⟩ := normalized_any o hb nb
  rw [← pure_direction] at da db
  have A1 := unit_near_norm nA da
  have B1 := unit_near_norm nB db
  obtain ⟨w, ew, sw, dw⟩ := shortest_raw o a1 a2 a3 b1 b2 b3 (by linarith) (by linarith)
  have D := star_mul_near nA da db (by linarith)
  set X := 1 + pure (direction a) * star (pure (direction b)) with hX
  set p := (2 * c)⁻¹ • X with hp
  have p1 : ‖p‖ = 1 := by
    rw [hp, norm_smul, W, norm_inv, Real.norm_of_nonneg (by linarith), inv_mul_cancel₀ (by linarith)]
  have pX : (2 * c) • p = X := by rw [hp, smul_smul, mul_inv_cancel₀ (by linarith), one_smul]
  have DW : ‖hamilton w - (2 * c) • p‖ ≤ 155 / 10 * DQuat.u / (2 * c) * (2 * c) := by
    rw [pX, div_mul_cancel₀ _ (by linarith)]
    have := norm_sub_le_norm_sub_add_norm_sub (hamilton w) (1 + pure a' * star (pure b')) X
    linarith
  have E4 : 155 / 10 * DQuat.u / (2 * c) ≤ 1 / 4 := by
    rw [div_le_iff₀ (by linarith)]; linarith
  obtain ⟨r, er, sr, dr, r1, hu⟩ := normalize_any sw p1 he (by linarith) E4 DW
  have dr' : ‖hamilton r - p‖ ≤ 20 * DQuat.u / c := by
    refine dr.trans ?_
    have : 45 / 10 * DQuat.u ≤ 45 / 10 * DQuat.u / c := by
      rw [le_div_iff₀ c0]; nlinarith
    have e : 2 * (155 / 10 * DQuat.u / (2 * c)) + 45 / 10 * DQuat.u / c = 20 * DQuat.u / c := by field_simp; ring
    linarith
  refine ⟨r, ?_, sr, hu, ?_, ?_⟩
  · rw [DQuat.ShortestRotation]
    have d1 : (doubles a).isDefined = true := by simp [DVec.isDefined, doubles]
    have d2 : (doubles b).isDefined = true := by simp [DVec.isDefined, doubles]
    simp only [d1, d2, Bool.not_true, Bool.false_eq_true, if_false]
    rw [ea, eb, ew, er]
  · have s1 : (hamilton r - p).re = r.s - c := by
      rw [Quaternion.re_sub, hp, Quaternion.re_smul, hX, ← cross_dot]
      have e := Real.cos_sq (Real.arccos (cosine a b) / 2)
      rw [mul_div_cancel₀ _ two_ne_zero, ht, ← hc] at e
      have : (hamilton r).re = r.s := rfl
      rw [this]
      simp only [hamilton, smul_eq_mul]
      rw [show 1 + ((direction a).x * (direction b).x + (direction a).y * (direction b).y + (direction a).z * (direction b).z) = (2 * c) * c by linarith, ← mul_assoc,
        inv_mul_cancel₀ (by linarith), one_mul]
    rw [← s1]
    refine le_trans ?_ dr'
    rw [← Real.sqrt_sq_eq_abs]
    refine Real.sqrt_le_iff.2 ⟨norm_nonneg _, ?_⟩
    rw [sq (‖_‖), ← Quaternion.normSq_eq_norm_mul_self, Quaternion.normSq_def']
    nlinarith [sq_nonneg (hamilton r - p).imI, sq_nonneg (hamilton r - p).imJ, sq_nonneg (hamilton r - p).imK]
  · have p0 : p ≠ 0 := norm_pos_iff.1 (by rw [p1]; norm_num)
    have tp : p⁻¹ * pure a * p = (‖pure a‖ / ‖pure b‖) • pure b := by
      have x : pure a = ‖pure a‖ • pure (direction a) := by rw [pure_direction, smul_smul, mul_inv_cancel₀ A0.ne', one_smul]
      have y : (‖pure a‖ / ‖pure b‖) • pure b = ‖pure a‖ • pure (direction b) := by rw [pure_direction, smul_smul, div_eq_mul_inv]
      rw [y, mul_assoc, inv_mul_eq_iff_eq_mul₀ p0]
      conv_lhs => rw [x]
      rw [hp, smul_mul_assoc, mul_smul_comm, T, smul_mul_assoc, mul_smul_comm, smul_comm]
    rw [← tp]
    refine (conj_near p1 (d := 45 / 10 * DQuat.u) (by linarith) r1 dr').trans (mul_le_mul_of_nonneg_right ?_ (norm_nonneg _))
    rw [← mul_div_assoc]
    refine div_le_div_of_nonneg_right ?_ c0.le
    rw [← mul_assoc]
    exact mul_le_mul_of_nonneg_right (by norm_num) u0.le

/-- **C132.** From a vector to itself the rotation is the unit quaternion, to the last bit. -/
theorem C132_same (o : Bool) (eps : ℝ) (he : eps ≤ 1) {a : V3} (ha : Within a) (na : 1 / 2 ^ 40 ≤ ‖pure a‖) :
    DQuat.ShortestRotation o (.fin eps) (doubles a) (doubles a) = .ok ⟨.fin 0, .fin 0, .fin 0, .fin 1⟩ := by
  obtain ⟨a', ea, -, -, -, a1, a2, a3, -⟩ := normalized_any o ha na
  have d1 : (doubles a).isDefined = true := by simp [DVec.isDefined, doubles]
  simp only [DQuat.ShortestRotation, d1, Bool.not_true, Bool.false_eq_true, if_false, ea]
  have ed := (DVec.dot_fin o (big_one a1) (big_one a2) (big_one a3) (big_one a1) (big_one a2) (big_one a3)).1
  have c0 : (doubles a').cross (doubles a') = ⟨.fin 0, .fin 0, .fin 0⟩ := by
    simp only [DVec.cross, doubles, (crossR_fin a2 a3 a3 a2).1, (crossR_fin a3 a1 a1 a3).1, (crossR_fin a1 a2 a2 a1).1, crossR_self]
  have D0 := dot3_self o a'.x a'.y a'.z
  have ed' : (doubles a').dot o (doubles a') = .fin (DVec.dot3 o a'.x a'.y a'.z a'.x a'.y a'.z) := ed
  have D1 : DVec.dot3 o a'.x a'.y a'.z a'.x a'.y a'.z ≤ 2 ^ 3 := by
    have d := (abs_le.1 (DVec.dot3_near o a'.x a'.y a'.z a'.x a'.y a'.z)).2
    simp only [abs_mul_self] at d
    have s : ∀ {x : ℝ}, |x| ≤ 1 → x * x ≤ 1 := fun {x} h => by rw [← abs_mul_abs_self]; exact mul_le_one₀ h (abs_nonneg _) h
    have := s a1; have := s a2; have := s a3
    have us := DQuat.u_small
    have tu := DRot.t_u
    have u0 := DQuat.u_pos
    have : 301 / 100 * DQuat.u * (a'.x * a'.x + a'.y * a'.y + a'.z * a'.z) ≤ 301 / 100 * DQuat.u * 3 := mul_le_mul_of_nonneg_left (by linarith) (by positivity)
    norm_num at us tu ⊢
    linarith
  obtain ⟨es, ls⟩ := DVec.add_fin2 (a := 1) (b := DVec.dot3 o a'.x a'.y a'.z a'.x a'.y a'.z) (n := 3) (by norm_num) (by norm_num) (by rwa [abs_of_nonneg D0])
  have s1 : 1 ≤ rnd (1 + DVec.dot3 o a'.x a'.y a'.z a'.x a'.y a'.z) := le_rnd rep_one (by linarith)
  rw [c0, ed', es]
  refine normalize_scalar (rnd_representable _) ((zpow_le_one_of_nonpos₀ one_le_two (by norm_num)).trans s1) ?_ (he.trans s1)
  exact (le_abs_self _).trans (ls.trans (pow_le_pow_right₀ one_le_two (by norm_num)))

/-- **C132.** A zero vector gives the unit quaternion. -/
theorem C132_zero (o : Bool) (eps : ℝ) (he : eps ≤ 1) {a b : V3} (ha : a = 0 ∨ Within a ∧ 1 / 2 ^ 40 ≤ ‖pure a‖) (hb : b = 0 ∨ Within b ∧ 1 / 2 ^ 40 ≤ ‖pure b‖) (h : a = 0 ∨ b = 0) :
    DQuat.ShortestRotation o (.fin eps) (doubles a) (doubles b) = .ok ⟨.fin 0, .fin 0, .fin 0, .fin 1⟩ := by
  have oe : F64.ofExact (0 : ℝ) = .fin 0 := ofExact_rep representable_zero (by simp)
  have z0 : DVec.normalized o (doubles 0) = doubles 0 := by
    have : DVec.squaredNorm o (doubles 0) = .fin 0 := by
      show DVec.dot o ⟨.fin 0, .fin 0, .fin 0⟩ ⟨.fin 0, .fin 0, .fin 0⟩ = _
      cases o <;> simp [DVec.dot, DVec.sum, F64.mul, F64.add, oe]
    rw [DVec.normalized, this]
    simp [F64.lt]
  have n : ∀ v : V3, v = 0 ∨ Within v ∧ 1 / 2 ^ 40 ≤ ‖pure v‖ → ∃ w : V3, DVec.normalized o (doubles v) = doubles w ∧ (v = 0 → w = 0) := by
    rintro v (rfl | ⟨h1, h2⟩)
    · exact ⟨0, z0, fun _ => rfl⟩
    · obtain ⟨w, e, -⟩ := normalized_any o h1 h2
      refine ⟨w, e, fun h => ?_⟩
      subst h
      exfalso
      have : ‖pure (0 : V3)‖ = 0 := by
        rw [← sq_eq_zero_iff, pure_sq]; simp
      rw [this] at h2
      norm_num at h2
  obtain ⟨a', ea, za⟩ := n a ha
  obtain ⟨b', eb, zb⟩ := n b hb
  have d1 : (doubles a).isDefined = true := by simp [DVec.isDefined, doubles]
  have d2 : (doubles b).isDefined = true := by simp [DVec.isDefined, doubles]
  simp only [DQuat.ShortestRotation, d1, d2, Bool.not_true, Bool.false_eq_true, if_false, ea, eb]
  have one : F64.ofExact (1 : ℝ) = .fin 1 := ofExact_rep rep_one (big_one (by simp))
  have key : (⟨((doubles b').cross (doubles a')).x, ((doubles b').cross (doubles a')).y, ((doubles b').cross (doubles a')).z, (F64.fin 1).add ((doubles a').dot o (doubles b'))⟩ : DQuat) =
      ⟨.fin 0, .fin 0, .fin 0, .fin 1⟩ := by
    rcases h with h | h
    · rw [za h]
      cases o <;> simp [DVec.cross, DVec.dot, DVec.sum, doubles, F64.mul, F64.add, F64.sub, F64.neg, oe, one]
    · rw [zb h]
      cases o <;> simp [DVec.cross, DVec.dot, DVec.sum, doubles, F64.mul, F64.add, F64.sub, F64.neg, oe, one]
  rw [key]
  exact normalize_scalar rep_one (zpow_le_one_of_nonpos₀ one_le_two (by norm_num)) (one_le_pow₀ one_le_two) he

/-- **C132.** Undefined vectors, undefined quaternions and undefined ratios throw; so does a ratio that is not between zero and one, whatever the quaternions. -/
theorem C132_throws (o : Bool) (eps : F64 ℝ) (a b : DVec) (p q : DQuat) (r : F64 ℝ) :
    (a.isDefined = false ∨ b.isDefined = false → DQuat.ShortestRotation o eps a b = .error .undefined) ∧
    (r = .nan → DQuat.LERP p q r = .error .undefined ∧ DQuat.NLERP eps p q r = .error .undefined) ∧
    (r.lt (.fin 0) = true ∨ (F64.fin 1).lt r = true → DQuat.LERP p q r = .error .runtimeError ∧ DQuat.NLERP eps p q r = .error .runtimeError) ∧
    (∀ x : ℝ, r = .fin x → 0 ≤ x → x ≤ 1 → p.isDefined = false ∨ q.isDefined = false → DQuat.LERP p q r = .error .undefined ∧ DQuat.NLERP eps p q r = .error .undefined) := by
  have nl : ∀ {e : Err}, DQuat.LERP p q r = .error e → DQuat.NLERP eps p q r = .error e := fun h => by rw [DQuat.NLERP, h]; rfl
  refine ⟨?_, ?_, ?_, ?_⟩
  · rintro (h | h)
    · simp [DQuat.ShortestRotation, h]
    · cases ha : a.isDefined <;> simp [DQuat.ShortestRotation, h, ha]
  · intro h
    have : DQuat.LERP p q r = .error .undefined := by rw [DQuat.LERP, if_pos h]
    exact ⟨this, nl this⟩
  · intro h
    have n : r ≠ .nan := by rintro rfl; rcases h with h | h <;> simp [F64.lt] at h
    have : DQuat.LERP p q r = .error .runtimeError := by
      rw [DQuat.LERP, if_neg n, if_pos (by simpa using h)]
    exact ⟨this, nl this⟩
  · rintro x rfl x0 x1 h
    have : DQuat.LERP p q (.fin x) = .error .undefined := by
      rw [DQuat.LERP, if_neg (by simp), if_neg (by simp [F64.lt, x0, x1])]
      rcases h with h | h
      · simp [DQuat.scale, h, bind, Except.bind]
      · cases hp : p.isDefined <;> simp [DQuat.scale, h, hp, bind, Except.bind]
    exact ⟨this, nl this⟩

/-- components that are finite doubles, at most `2 ^ 499` in size -/
structure Modest (q : Quat) : Prop where
  x : |q.x| ≤ 2 ^ 499
  y : |q.y| ≤ 2 ^ 499
  z : |q.z| ≤ 2 ^ 499
  s : |q.s| ≤ 2 ^ 499

/-- the exact mean -/
noncomputable def lerp (r : ℝ) (p q : Quat) : Quaternion ℝ := (1 - r) • hamilton p + r • hamilton q

/-- **C132.** `LERP` is within 3.02 units of rounding of the exact mean. -/
theorem C132_lerp {p q : Quat} (hp : Modest p) (hq : Modest q) {r : ℝ} (hr : Representable r) (r0 : 0 ≤ r) (r1 : r ≤ 1) :
    ∃ m : Quat, DQuat.LERP (.of p) (.of q) (.fin r) = .ok (.of m) ∧ Tempered m ∧
      ‖hamilton m - lerp r p q‖ ≤ 302 / 100 / 2 ^ 53 * ((1 - r) * ‖hamilton p‖ + r * ‖hamilton q‖) + 5 * 2 ^ (-1075 : ℤ) := by
  obtain ⟨ex, lx, ax, bx⟩ := lerpR_fin r0 r1 hp.x hq.x
  obtain ⟨ey, ly, ay, by'⟩ := lerpR_fin r0 r1 hp.y hq.y
  obtain ⟨ez, lz, az, bz⟩ := lerpR_fin r0 r1 hp.z hq.z
  obtain ⟨es, ls, as, bs⟩ := lerpR_fin r0 r1 hp.s hq.s
  refine ⟨⟨lerpR r p.x q.x, lerpR r p.y q.y, lerpR r p.z q.z, lerpR r p.s q.s⟩, ?_, ⟨⟨rnd_representable _, lx⟩, ⟨rnd_representable _, ly⟩, ⟨rnd_representable _, lz⟩, ⟨rnd_representable _, ls⟩⟩, ?_⟩
  · have dp : (DQuat.of p).isDefined = true := by simp [DQuat.isDefined, DQuat.of]
    have dq : (DQuat.of q).isDefined = true := by simp [DQuat.isDefined, DQuat.of]
    rw [DQuat.LERP, if_neg (by simp), if_neg (by simp [F64.lt, r0, r1])]
    simp only [DQuat.scale, dp, dq, Bool.not_true, Bool.false_eq_true, if_false, bind, Except.bind]
    simp only [DQuat.of]
    rw [DQuat.plus, if_neg (by simp [DQuat.isDefined, ax, ay, az, as]), if_neg (by simp [DQuat.isDefined, bx, by', bz, bs])]
    simp only [ex, ey, ez, es]
  · rw [e53]
    have nx := lerpR_near hr r0 r1 p.x q.x
    have ny := lerpR_near hr r0 r1 p.y q.y
    have nz := lerpR_near hr r0 r1 p.z q.z
    have ns := lerpR_near hr r0 r1 p.s q.s
    have u0 := DQuat.u_pos
    have t0 := DQuat.t_pos
    have tt : (2 : ℝ) ^ (-1075 : ℤ) = DQuat.t := rfl
    rw [tt]
    have e : hamilton ⟨lerpR r p.x q.x, lerpR r p.y q.y, lerpR r p.z q.z, lerpR r p.s q.s⟩ - lerp r p q =
        hamilton ⟨lerpR r p.x q.x - (p.x * (1 - r) + q.x * r), lerpR r p.y q.y - (p.y * (1 - r) + q.y * r), lerpR r p.z q.z - (p.z * (1 - r) + q.z * r), lerpR r p.s q.s - (p.s * (1 - r) + q.s * r)⟩ := by
      rw [lerp, hamilton_smul, hamilton_smul, hamilton_add, hamilton_sub]
      congr 2 <;> ring
    rw [e]
    refine (hamilton_mono (e := ⟨_, _, _, _⟩) nx ny nz ns).trans ?_
    have e2 : ∀ k τ : ℝ, hamilton ⟨k * ((1 - r) * |p.x| + r * |q.x|) + τ, k * ((1 - r) * |p.y| + r * |q.y|) + τ, k * ((1 - r) * |p.z| + r * |q.z|) + τ, k * ((1 - r) * |p.s| + r * |q.s|) + τ⟩ =
        k • ((1 - r) • hamilton ⟨|p.x|, |p.y|, |p.z|, |p.s|⟩ + r • hamilton ⟨|q.x|, |q.y|, |q.z|, |q.s|⟩) + hamilton ⟨τ, τ, τ, τ⟩ := by
      intro k τ
      rw [hamilton_smul, hamilton_smul, hamilton_add, hamilton_smul, hamilton_add]
    rw [e2]
    have e3 : ‖hamilton ⟨21 / 10 * DQuat.t, 21 / 10 * DQuat.t, 21 / 10 * DQuat.t, 21 / 10 * DQuat.t⟩‖ = 42 / 10 * DQuat.t := norm_eq_of (by positivity) (by ring)
    refine (norm_add_le _ _).trans ?_
    rw [e3, norm_smul, Real.norm_of_nonneg (by positivity)]
    have e4 := norm_add_le ((1 - r) • hamilton ⟨|p.x|, |p.y|, |p.z|, |p.s|⟩) (r • hamilton ⟨|q.x|, |q.y|, |q.z|, |q.s|⟩)
    rw [norm_smul, norm_smul, hamilton_abs, hamilton_abs, Real.norm_of_nonneg r0, Real.norm_of_nonneg (by linarith)] at e4
    have := mul_le_mul_of_nonneg_left e4 (show 0 ≤ 302 / 100 * DQuat.u by positivity)
    linarith

/-- **C132.** `LERP` gives back its ends: the first quaternion at zero, the second at one. -/
theorem C132_ends {p q : Quat} (hp : Sized p.x p.y p.z p.s) (hq : Sized q.x q.y q.z q.s) (mp : Modest p) (mq : Modest q) :
    DQuat.LERP (.of p) (.of q) (.fin 0) = .ok (.of p) ∧ DQuat.LERP (.of p) (.of q) (.fin 1) = .ok (.of q) := by
  have z : ∀ {a b : ℝ}, Representable a → lerpR 0 a b = a := fun h => by
    rw [lerpR, sub_zero, rnd_exact rep_one, mul_one, mul_zero, rnd_zero, add_zero, rnd_rnd, rnd_exact h]
  have w : ∀ {a b : ℝ}, Representable b → lerpR 1 a b = b := fun h => by
    rw [lerpR, sub_self, rnd_zero, mul_zero, mul_one, rnd_zero, zero_add, rnd_rnd, rnd_exact h]
  have dp : (DQuat.of p).isDefined = true := by simp [DQuat.isDefined, DQuat.of]
  have dq : (DQuat.of q).isDefined = true := by simp [DQuat.isDefined, DQuat.of]
  have main : ∀ r : ℝ, 0 ≤ r → r ≤ 1 → DQuat.LERP (.of p) (.of q) (.fin r) = .ok (.of ⟨lerpR r p.x q.x, lerpR r p.y q.y, lerpR r p.z q.z, lerpR r p.s q.s⟩) := by
    intro r r0 r1
    obtain ⟨ex, lx, ax, bx⟩ := lerpR_fin r0 r1 mp.x mq.x
    obtain ⟨ey, ly, ay, by'⟩ := lerpR_fin r0 r1 mp.y mq.y
    obtain ⟨ez, lz, az, bz⟩ := lerpR_fin r0 r1 mp.z mq.z
    obtain ⟨es, ls, as, bs⟩ := lerpR_fin r0 r1 mp.s mq.s
    rw [DQuat.LERP, if_neg (by simp), if_neg (by simp [F64.lt, r0, r1])]
    simp only [DQuat.scale, dp, dq, Bool.not_true, Bool.false_eq_true, if_false, bind, Except.bind]
    simp only [DQuat.of]
    rw [DQuat.plus, if_neg (by simp [DQuat.isDefined, ax, ay, az, as]), if_neg (by simp [DQuat.isDefined, bx, by', bz, bs])]
    simp only [ex, ey, ez, es]
  obtain ⟨⟨p1, -⟩, ⟨p2, -⟩, ⟨p3, -⟩, ⟨p4, -⟩⟩ := hp
  obtain ⟨⟨q1, -⟩, ⟨q2, -⟩, ⟨q3, -⟩, ⟨q4, -⟩⟩ := hq
  refine ⟨(main 0 le_rfl zero_le_one).trans ?_, (main 1 zero_le_one le_rfl).trans ?_⟩
  · rw [z p1, z p2, z p3, z p4]
  · rw [w q1, w q2, w q3, w q4]

/-- **C132.** `NLERP` is a unit quaternion near the direction of the exact mean. With `N` the norm of the exact mean and `M` the mean of the norms, the error is at most
`6.1 u M / N + 4.5 u`. -/
theorem C132_nlerp (eps : ℝ) (he : 2 ^ (-100 : ℤ) ≤ eps) {p q : Quat} (hp : Modest p) (hq : Modest q) {r : ℝ} (hr : Representable r) (r0 : 0 ≤ r) (r1 : r ≤ 1)
    (N M : ℝ) (hN : N = ‖lerp r p q‖) (hM : M = (1 - r) * ‖hamilton p‖ + r * ‖hamilton q‖) (n1 : 2 * eps ≤ N) (n2 : 13 / 2 ^ 53 * M ≤ N) :
    ∃ m : Quat, DQuat.NLERP (.fin eps) (.of p) (.of q) (.fin r) = .ok (.of m) ∧ Tempered m ∧ (∀ tol : ℝ, 8 / 2 ^ 53 ≤ tol → DQuat.isUnitary (.fin tol) (.of m) = .ok true) ∧
      ‖hamilton m - N⁻¹ • lerp r p q‖ ≤ 61 / 10 / 2 ^ 53 * (M / N) + 45 / 10 / 2 ^ 53 := by
  have u0 := DQuat.u_pos
  obtain ⟨w, ew, sw, dw⟩ := C132_lerp hp hq hr r0 r1
  rw [← hM, e53] at dw
  rw [e53] at n2
  rw [e53 (61 / 10), e53 (45 / 10)]
  have e0 : 0 < eps := lt_of_lt_of_le (two_zpow_pos _) he
  have N0 : 0 < N := by linarith
  have NM : N ≤ M := by
    rw [hN, hM, lerp]
    refine (norm_add_le _ _).trans (le_of_eq ?_)
    rw [norm_smul, norm_smul, Real.norm_of_nonneg r0, Real.norm_of_nonneg (by linarith)]
  have p1 : ‖N⁻¹ • lerp r p q‖ = 1 := by rw [norm_smul, ← hN, Real.norm_of_nonneg (by positivity), inv_mul_cancel₀ N0.ne']
  have pX : N • N⁻¹ • lerp r p q = lerp r p q := by rw [smul_smul, mul_inv_cancel₀ N0.ne', one_smul]
  have tt : 5 * (2 : ℝ) ^ (-1075 : ℤ) ≤ 1 / 100 * DQuat.u * M := by
    have h := t_tiny
    have : 1 / 100 * DQuat.u * 2 ^ (-100 : ℤ) ≤ 1 / 100 * DQuat.u * M := mul_le_mul_of_nonneg_left (by linarith) (by positivity)
    exact h.trans this
  have D : ‖hamilton w - N • N⁻¹ • lerp r p q‖ ≤ 305 / 100 * DQuat.u * M / N * N := by
    rw [pX, div_mul_cancel₀ _ N0.ne']
    have : 0 ≤ DQuat.u * M := mul_nonneg u0.le (by linarith)
    nlinarith
  have E : 305 / 100 * DQuat.u * M / N ≤ 1 / 4 := by rw [div_le_iff₀ N0]; linarith
  obtain ⟨m, em, sm, dm, -, hu⟩ := normalize_any sw p1 he n1 E D
  refine ⟨m, ?_, sm, hu, dm.trans (le_of_eq ?_)⟩
  · rw [DQuat.NLERP, ew]; exact em
  · field_simp; ring

/-- **C132.** The x axis and a vector that misses the opposite direction by `y`, at most `2 ^ -28`: the function throws when `y` is below `Real::Epsilon()` although the vectors
are not opposite, and gives exactly a half turn about the z axis otherwise. -/
theorem C132_flat (o : Bool) (eps y : ℝ) (hy : Representable y) (y1 : |y| ≤ 1 / 2 ^ 28) (y0 : 2 ^ (-500 : ℤ) ≤ |y|) :
    DQuat.ShortestRotation o (.fin eps) (doubles ⟨1, 0, 0⟩) (doubles ⟨-1, y, 0⟩) =
      if |y| < eps then .error .runtimeError else .ok ⟨.fin 0, .fin 0, .fin (-(y / |y|)), .fin 0⟩ := by
  have a0 : 0 < |y| := lt_of_lt_of_le (two_zpow_pos _) y0
  have yy : |y| ≤ 1 := y1.trans (by norm_num)
  have d1 : (doubles ⟨1, 0, 0⟩).isDefined = true := by simp [DVec.isDefined, doubles]
  have d2 : (doubles ⟨-1, y, 0⟩).isDefined = true := by simp [DVec.isDefined, doubles]
  have o0 : F64.ofExact (0 : ℝ) = .fin 0 := ofExact_rep representable_zero (by simp)
  have o1 : F64.ofExact (-1 : ℝ) = .fin (-1) := ofExact_rep (representable_neg rep_one) (big_one (by simp))
  have oy : F64.ofExact y = .fin y := ofExact_rep hy (big_one yy)
  have ny : F64.ofExact (-y) = .fin (-y) := ofExact_rep (representable_neg hy) (big_one (by rwa [abs_neg]))
  simp only [DQuat.ShortestRotation, d1, d2, Bool.not_true, Bool.false_eq_true, if_false, unit_x, flat_norm o y1, rnd_exact hy]
  have key : (⟨((doubles ⟨-1, y, 0⟩).cross (doubles ⟨1, 0, 0⟩)).x, ((doubles ⟨-1, y, 0⟩).cross (doubles ⟨1, 0, 0⟩)).y, ((doubles ⟨-1, y, 0⟩).cross (doubles ⟨1, 0, 0⟩)).z,
      (F64.fin 1).add ((doubles ⟨1, 0, 0⟩).dot o (doubles ⟨-1, y, 0⟩))⟩ : DQuat) = ⟨.fin 0, .fin 0, .fin (-y), .fin 0⟩ := by
    cases o <;> simp [DVec.cross, DVec.dot, DVec.sum, doubles, F64.mul, F64.add, F64.sub, F64.neg, o0, o1, oy, ny]
  rw [key]
  have z : |(0 : ℝ)| ≤ 2 ^ 500 := by rw [abs_zero]; positivity
  have n : DQuat.nrm 0 0 (-y) 0 = |y| := by
    rw [DQuat.nrm, DQuat.sumSq]
    simp only [mul_zero, rnd_zero, add_zero, zero_add, rnd_rnd]
    rw [DQuat.sqrt_sq (representable_neg hy) (by rwa [abs_neg]), abs_neg]
  have e1 : (F64.fin (0 : ℝ)).div (.fin |y|) = .fin 0 := (div_fin a0 (by simp)).1.trans (by rw [zero_div, rnd_zero])
  have e2 : (F64.fin (-y)).div (.fin |y|) = .fin (-(y / |y|)) := by
    refine (div_fin a0 (by rw [abs_neg])).1.trans ?_
    rw [neg_div]
    rcases abs_choice y with h | h
    · rw [h, div_self (by rw [← h]; exact a0.ne'), rnd_exact (representable_neg rep_one)]
    · rw [h, div_neg, div_self (by rintro rfl; simp at a0), _root_.neg_neg, rnd_exact rep_one]
  rw [DQuat.normalize, DQuat.norm_fin z z (by rw [abs_neg]; exact big_one yy) z, n]
  simp only [bind, Except.bind, F64.abs, F64.lt, abs_abs, e1, e2]
  by_cases h : |y| < eps <;> (simp [h]; try rfl)

/-- **C132 is violated** near opposite vectors: the two vectors below are not opposite, yet the function throws. -/
theorem C132_opposite_violated : ∃ a b : V3, Within a ∧ Within b ∧ (∀ k : ℝ, b ≠ ⟨k * a.x, k * a.y, k * a.z⟩) ∧
    ∀ o, DQuat.ShortestRotation o (.fin (1 / 2 ^ 52)) (doubles a) (doubles b) = .error .runtimeError := by
  have r60 : Representable ((2 : ℝ) ^ (-60 : ℤ)) := F64.representable_pow (by norm_num)
  have p : (0 : ℝ) < 2 ^ (-60 : ℤ) := two_zpow_pos _
  have e : (2 : ℝ) ^ (-60 : ℤ) = 1 / 2 ^ 60 := by rw [zpow_neg]; norm_num
  have one : (1 : ℝ) ≤ 2 ^ 499 := one_le_pow₀ one_le_two
  have s : |(2 : ℝ) ^ (-60 : ℤ)| ≤ 1 := by rw [abs_of_pos p, e]; norm_num
  refine ⟨⟨1, 0, 0⟩, ⟨-1, 2 ^ (-60 : ℤ), 0⟩, ⟨⟨rep_one, by simpa using one⟩, ⟨representable_zero, by simp⟩, ⟨representable_zero, by simp⟩⟩,
    ⟨⟨representable_neg rep_one, by simpa using one⟩, ⟨r60, s.trans one⟩, ⟨representable_zero, by simp⟩⟩, ?_, ?_⟩
  · intro k h
    have := congrArg V3.y h
    simp only [mul_zero] at this
    exact p.ne' this
  · intro o
    rw [C132_flat o _ _ r60 (by rw [abs_of_pos p, e]; norm_num) (by rw [abs_of_pos p]; exact zpow_le_zpow_right₀ one_le_two (by norm_num)), if_pos (by rw [abs_of_pos p, e]; norm_num)]

/-- **C132 is violated** for the accuracy of doubles: the direction of the second vector may be missed by more than `2 ^ -30`, eight million times the unit of rounding. -/
theorem C132_digits_violated : ∃ a b : V3, Within a ∧ Within b ∧ ∀ o, ∃ r, DQuat.ShortestRotation o (.fin (1 / 2 ^ 52)) (doubles a) (doubles b) = .ok (.of r) ∧
    1 / 2 ^ 30 * ‖pure a‖ < ‖(hamilton r)⁻¹ * pure a * hamilton r - (‖pure a‖ / ‖pure b‖) • pure b‖ := by
  have r28 : Representable ((2 : ℝ) ^ (-28 : ℤ)) := F64.representable_pow (by norm_num)
  have p : (0 : ℝ) < 2 ^ (-28 : ℤ) := two_zpow_pos _
  have e : (2 : ℝ) ^ (-28 : ℤ) = 1 / 2 ^ 28 := by rw [zpow_neg]; norm_num
  have one : (1 : ℝ) ≤ 2 ^ 499 := one_le_pow₀ one_le_two
  have s : |(2 : ℝ) ^ (-28 : ℤ)| ≤ 1 := by rw [abs_of_pos p, e]; norm_num
  refine ⟨⟨1, 0, 0⟩, ⟨-1, 2 ^ (-28 : ℤ), 0⟩, ⟨⟨rep_one, by simpa using one⟩, ⟨representable_zero, by simp⟩, ⟨representable_zero, by simp⟩⟩,
    ⟨⟨representable_neg rep_one, by simpa using one⟩, ⟨r28, s.trans one⟩, ⟨representable_zero, by simp⟩⟩, fun o => ⟨⟨0, 0, -1, 0⟩, ?_, ?_⟩⟩
  · rw [C132_flat o _ _ r28 (by rw [abs_of_pos p, e]) (by rw [abs_of_pos p]; exact zpow_le_zpow_right₀ one_le_two (by norm_num)), if_neg (by rw [abs_of_pos p, e]; norm_num),
      abs_of_pos p, div_self p.ne']
    rfl
  · have na : ‖pure ⟨1, 0, 0⟩‖ = 1 := norm_eq_of (by norm_num) (by norm_num)
    have nb : ‖pure ⟨-1, 2 ^ (-28 : ℤ), 0⟩‖ ≤ 2 := by
      refine le_of_sq_le_sq ?_ (by norm_num)
      rw [pure_sq, e]; norm_num
    have nb0 : 0 < ‖pure ⟨-1, 2 ^ (-28 : ℤ), 0⟩‖ := by
      refine lt_of_pow_lt_pow_left₀ 2 (norm_nonneg _) ?_
      rw [pure_sq, e]; norm_num
    have turn : (hamilton ⟨0, 0, -1, 0⟩)⁻¹ * pure ⟨1, 0, 0⟩ * hamilton ⟨0, 0, -1, 0⟩ = pure ⟨-1, 0, 0⟩ := by
      have n1 : ‖hamilton ⟨0, 0, -1, 0⟩‖ = 1 := norm_eq_of (by norm_num) (by norm_num)
      have h0 : hamilton ⟨0, 0, -1, 0⟩ ≠ 0 := norm_pos_iff.1 (by rw [n1]; norm_num)
      rw [mul_assoc, inv_mul_eq_iff_eq_mul₀ h0]
      ext <;> simp only [Quaternion.re_mul, Quaternion.imI_mul, Quaternion.imJ_mul, Quaternion.imK_mul] <;> simp only [pure, hamilton] <;> norm_num
    rw [turn, na, mul_one]
    set N := ‖pure ⟨-1, 2 ^ (-28 : ℤ), 0⟩‖ with hN
    have e2 : (1 / N) • pure ⟨-1, 2 ^ (-28 : ℤ), 0⟩ = pure ⟨1 / N * -1, 1 / N * 2 ^ (-28 : ℤ), 1 / N * 0⟩ := by
      rw [pure, hamilton_smul, mul_zero]; rfl
    rw [e2, pure_sub]
    refine lt_of_pow_lt_pow_left₀ 2 (norm_nonneg _) ?_
    rw [pure_sq, e]
    have i : 1 / 2 ≤ 1 / N := one_div_le_one_div_of_le nb0 nb
    have j : (1 / 2 ^ 30 : ℝ) < 1 / N * (1 / 2 ^ 28) := by
      have := mul_le_mul_of_nonneg_right i (show (0 : ℝ) ≤ 1 / 2 ^ 28 by norm_num)
      refine lt_of_lt_of_le ?_ this
      norm_num
    have k := pow_lt_pow_left₀ j (by norm_num) two_ne_zero
    show (1 / 2 ^ 30 : ℝ) ^ 2 < (-1 - 1 / N * -1) ^ 2 + (0 - 1 / N * (1 / 2 ^ 28)) ^ 2 + (0 - 1 / N * 0) ^ 2
    have z := sq_nonneg (-1 - 1 / N * -1)
    rw [zero_sub, neg_sq, mul_zero, sub_zero]
    linarith [sq_nonneg (0 : ℝ)]

/-- two perpendicular vectors meet the hypotheses -/
example : ∃ r, DQuat.ShortestRotation true (.fin (1 / 2 ^ 52)) (doubles ⟨1, 0, 0⟩) (doubles ⟨0, 3, 0⟩) = .ok (.of r) ∧
    ‖(hamilton r)⁻¹ * pure ⟨1, 0, 0⟩ * hamilton r - (‖pure ⟨1, 0, 0⟩‖ / ‖pure ⟨0, 3, 0⟩‖) • pure ⟨0, 3, 0⟩‖ ≤ 41 / 2 ^ 53 / Real.cos (Real.pi / 4) * ‖pure ⟨1, 0, 0⟩‖ := by
  have na : ‖pure ⟨1, 0, 0⟩‖ = 1 := norm_eq_of (by norm_num) (by norm_num)
  have nb : ‖pure ⟨0, 3, 0⟩‖ = 3 := norm_eq_of (by norm_num) (by norm_num)
  have one : (1 : ℝ) ≤ 2 ^ 499 := one_le_pow₀ one_le_two
  have three : (3 : ℝ) ≤ 2 ^ 499 := (show (3 : ℝ) ≤ 2 ^ 2 by norm_num).trans (pow_le_pow_right₀ one_le_two (by norm_num))
  have r3 : Representable (3 : ℝ) := by exact_mod_cast representable_int (α := ℝ) (m := 3) (by norm_num)
  have hc : Real.cos (Real.pi / 4) = Real.cos (Real.arccos (cosine ⟨1, 0, 0⟩ ⟨0, 3, 0⟩) / 2) := by
    have : cosine ⟨1, 0, 0⟩ ⟨0, 3, 0⟩ = 0 := by simp [cosine]
    rw [this, Real.arccos_zero]
    congr 1; ring
  have c : (1 / 2 : ℝ) ≤ Real.cos (Real.pi / 4) := by
    rw [Real.cos_pi_div_four]
    have : (1 : ℝ) ≤ Real.sqrt 2 := Real.one_le_sqrt.2 (by norm_num)
    linarith
  have e : (2 : ℝ) ^ (-100 : ℤ) = 1 / 2 ^ 100 := by rw [zpow_neg]; norm_num
  obtain ⟨r, h, -, -, -, k⟩ := C132_shortest true (1 / 2 ^ 52) (by rw [e]; norm_num) (a := ⟨1, 0, 0⟩) (b := ⟨0, 3, 0⟩)
    ⟨⟨rep_one, by simpa using one⟩, ⟨representable_zero, by simp⟩, ⟨representable_zero, by simp⟩⟩
    ⟨⟨representable_zero, by simp⟩, ⟨r3, by simpa using three⟩, ⟨representable_zero, by simp⟩⟩
    (by rw [na]; norm_num) (by rw [nb]; norm_num) _ hc (by refine le_trans ?_ c; norm_num) (by refine le_trans ?_ c; norm_num)
  exact ⟨r, h, k⟩

/-- the mean of two quaternions of different norms meets the hypotheses -/
example : ∃ m : Quat, DQuat.NLERP (.fin (1 / 2 ^ 52)) (.of ⟨0, 0, 0, 1⟩) (.of ⟨0, 0, 0, 3⟩) (.fin (1 / 2)) = .ok (.of m) ∧
    ‖hamilton m - (2 : ℝ)⁻¹ • lerp (1 / 2) ⟨0, 0, 0, 1⟩ ⟨0, 0, 0, 3⟩‖ ≤ 61 / 10 / 2 ^ 53 * (2 / 2) + 45 / 10 / 2 ^ 53 := by
  have one : (1 : ℝ) ≤ 2 ^ 499 := one_le_pow₀ one_le_two
  have three : (3 : ℝ) ≤ 2 ^ 499 := (show (3 : ℝ) ≤ 2 ^ 2 by norm_num).trans (pow_le_pow_right₀ one_le_two (by norm_num))
  have n : ‖hamilton ⟨0, 0, 0, 1⟩‖ = 1 := norm_eq_of (by norm_num) (by norm_num)
  have n3 : ‖hamilton ⟨0, 0, 0, 3⟩‖ = 3 := norm_eq_of (by norm_num) (by norm_num)
  have e : (2 : ℝ) ^ (-100 : ℤ) = 1 / 2 ^ 100 := by rw [zpow_neg]; norm_num
  have half : Representable (1 / 2 : ℝ) := by
    have := F64.representable_pow (α := ℝ) (e := -1) (by norm_num)
    rwa [zpow_neg_one, ← one_div] at this
  have l : ‖lerp (1 / 2) ⟨0, 0, 0, 1⟩ ⟨0, 0, 0, 3⟩‖ = 2 := by
    rw [lerp, hamilton_smul, hamilton_smul, hamilton_add]
    exact norm_eq_of (by norm_num) (by norm_num)
  obtain ⟨m, h, -, -, k⟩ := C132_nlerp (1 / 2 ^ 52) (by rw [e]; norm_num) (p := ⟨0, 0, 0, 1⟩) (q := ⟨0, 0, 0, 3⟩) ⟨by simp, by simp, by simp, by simpa using one⟩
    ⟨by simp, by simp, by simp, by simpa using three⟩ half (by norm_num) (by norm_num) 2 2 l.symm (by rw [n, n3]; norm_num) (by norm_num) (by norm_num)
  exact ⟨m, h, k⟩

end Verif.Props
