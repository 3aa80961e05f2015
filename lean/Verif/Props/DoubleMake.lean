import Verif.Lemmas.DoubleMake

/-!
# C129: quaternions from rotation vectors, Euler angles and matrices in double precision

Hypotheses: the sine and the cosine of the mathematical library are accurate to `2 ^ -53` (`Accurate`), and the tolerance `Real::Epsilon()` lies between `2 ^ -100` and one eighth.
-/

namespace Verif.Props

open Verif Verif.Spec Verif.Double

/-- the correctly rounded sine and cosine are accurate -/
example : Accurate (fun x => rnd (Real.sin x)) Real.sin ∧ Accurate (fun x => rnd (Real.cos x)) Real.cos := by
  have key : ∀ y : ℝ, |y| ≤ 1 → Representable (rnd y) ∧ |rnd y| ≤ 1 ∧ |rnd y - y| ≤ 1 / 2 ^ 53 := fun y hy => by
    have u0 := DQuat.u_pos
    have r1 : Representable (1 : ℝ) := by simpa using F64.representable_pow (α := ℝ) (e := 0) (by norm_num)
    refine ⟨rnd_representable _, DLinear.rnd_abs_le r1 hy, (DRot.err1 hy).trans ?_⟩
    rw [show (1 : ℝ) / 2 ^ 53 = DQuat.u from rfl]; linarith
  exact ⟨fun x _ => key _ (Real.abs_sin_le_one x), fun x _ => key _ (Real.abs_cos_le_one x)⟩

/-- **C129.** A rotation vector in double precision becomes the quaternion of the rotation: whatever axis and angle the constructor accepts, the quaternion
is within 18 units of rounding of the exact one, and passes for unitary. -/
theorem C129_vector (o : Bool) {sin cos : ℝ → ℝ} (hs : Accurate sin Real.sin) (hc : Accurate cos Real.cos) {e : ℝ} (he : 2 ^ (-100 : ℤ) ≤ e) (he' : e ≤ 1 / 8)
    {x y z : ℝ} (hx : Representable x ∧ |x| ≤ 2 ^ 500) (hy : Representable y ∧ |y| ≤ 2 ^ 500) (hz : Representable z ∧ |z| ≤ 2 ^ 500)
    {a : DAngle ℝ} {t : ℝ} (ha : a.inUnit .radian = .ok (.fin t)) (ht : Representable t) (ht' : |t| < 2 ^ 1024)
    {r : DRotVec} (h : DRotVec.ctor o (.fin e) ⟨.fin x, .fin y, .fin z⟩ a = .ok r) :
    ∃ q : Quat, DQuat.RotationVector (.fin e) sin cos r = .ok (.of q) ∧ Tempered q ∧ ‖hamilton q - turnAbout x y z t‖ ≤ 18 / 2 ^ 53 ∧
      ∀ tol : ℝ, 8 / 2 ^ 53 ≤ tol → DQuat.isUnitary (.fin tol) (.of q) = .ok true := by
  obtain ⟨rfl, hd⟩ := accepted_axis o he' hx hy hz h
  have u0 := DQuat.u_pos
  have us := DQuat.u_small
  obtain ⟨hS0, -⟩ := DVec.nrm3_near o hd
  obtain ⟨a1, a2, a3, en, b1, b2, b3, c1, c2, c3⟩ := DVec.normalized_fin o hx hy hz hd
  obtain ⟨σ, es, rs, hσ, dσ⟩ := half_angle hs Real.abs_sin_sub_sin_le ht ht'
  obtain ⟨κ, ec, rc, hκ, dκ⟩ := half_angle hc Real.abs_cos_sub_cos_le ht ht'
  have hdef : a.isDefined = true := by
    by_contra hh
    rw [DAngle.inUnit, Bool.eq_false_iff.2 hh] at ha
    simp at ha
  obtain ⟨m1, l1⟩ := mul_le1 hσ b1
  obtain ⟨m2, l2⟩ := mul_le1 hσ b2
  obtain ⟨m3, l3⟩ := mul_le1 hσ b3
  have conv : DQuat.RotationVector (.fin e) sin cos ⟨DVec.normalized o ⟨.fin x, .fin y, .fin z⟩, a⟩ =
      DQuat.normalize (.fin e) (.of ⟨rnd (σ * a1), rnd (σ * a2), rnd (σ * a3), κ⟩) := by
    rw [DQuat.RotationVector, en]
    simp only [DRotVec.isDefined, DVec.isDefined, hdef, ha, bind, Except.bind, es, ec, DVec.scale, m1, m2, m3]
    simp [DQuat.of]
  have big : ∀ {a : ℝ}, |a| ≤ 1 → |a| ≤ 2 ^ 500 := fun h => h.trans (one_le_pow₀ one_le_two)
  have hS : 0 < x ^ 2 + y ^ 2 + z ^ 2 := by simpa only [sq] using hS0
  have sq' : Real.sqrt (x * x + y * y + z * z) = Real.sqrt (x ^ 2 + y ^ 2 + z ^ 2) := by simp only [sq]
  rw [sq'] at c1 c2 c3
  set N := Real.sqrt (x ^ 2 + y ^ 2 + z ^ 2) with hN
  have N2 : (x / N) ^ 2 + (y / N) ^ 2 + (z / N) ^ 2 = 1 := by
    have n0 := Real.sqrt_pos.2 hS
    rw [div_pow, div_pow, div_pow, Real.sq_sqrt hS.le]; field_simp
  have q := fun a => sq_nonneg (a / N)
  have b : ∀ a : ℝ, (a / N) ^ 2 ≤ 1 → |a / N| ≤ 1 := fun a h => abs_le_one_iff_mul_self_le_one.2 (by nlinarith)
  have k1 := b x (by linarith [q x, q y, q z])
  have k2 := b y (by linarith [q x, q y, q z])
  have k3 := b z (by linarith [q x, q y, q z])
  have g1 := square_component k1 (vector_component c1 hσ dσ)
  have g2 := square_component k2 (vector_component c2 hσ dσ)
  have g3 := square_component k3 (vector_component c3 hσ dσ)
  have g4 : (κ - Real.cos (t / 2)) ^ 2 ≤ (101 / 100 * DQuat.u) ^ 2 := by rw [← sq_abs]; exact pow_le_pow_left₀ (abs_nonneg _) dκ 2
  have close : ‖hamilton ⟨rnd (σ * a1), rnd (σ * a2), rnd (σ * a3), κ⟩ - (1 : ℝ) • turnAbout x y z t‖ ≤ 66 / 10 * DQuat.u * 1 := by
    rw [one_smul, mul_one, show hamilton ⟨rnd (σ * a1), rnd (σ * a2), rnd (σ * a3), κ⟩ - turnAbout x y z t =
      hamilton ⟨rnd (σ * a1) - x / N * Real.sin (t / 2), rnd (σ * a2) - y / N * Real.sin (t / 2), rnd (σ * a3) - z / N * Real.sin (t / 2), κ - Real.cos (t / 2)⟩ from
        hamilton_sub _ ⟨x / N * Real.sin (t / 2), y / N * Real.sin (t / 2), z / N * Real.sin (t / 2), Real.cos (t / 2)⟩]
    refine le_of_sq_le_sq ?_ (by positivity)
    rw [DQuat.norm_hamilton]
    have := vector_sum N2 g1 g2 g3 g4
    linarith
  obtain ⟨p, e1, e0, e2, e3⟩ := normalize_near (w := ⟨rnd (σ * a1), rnd (σ * a2), rnd (σ * a3), κ⟩)
    ⟨⟨rnd_representable _, big l1⟩, ⟨rnd_representable _, big l2⟩, ⟨rnd_representable _, big l3⟩, ⟨rc, big hκ⟩⟩
    (turnAbout_norm hS t) (k := 1) (E := 66 / 10 * DQuat.u) (by norm_num) (by linarith) close he he'
  refine ⟨p, conv.trans e1, e0, e2.trans ?_, e3⟩
  rw [e53]
  linarith

/-- **C129.** Euler angles in double precision become the quaternion of the three rotations one after the other: it is within 41 units of rounding of the exact product,
and passes for unitary. -/
theorem C129_euler {sin cos : ℝ → ℝ} (hs : Accurate sin Real.sin) (hc : Accurate cos Real.cos) {e : ℝ} (he : 2 ^ (-100 : ℤ) ≤ e) (he' : e ≤ 1 / 8)
    {E : DEuler} {p t s : ℝ} (hp : E.phi.inUnit .radian = .ok (.fin p) ∧ Representable p ∧ |p| < 2 ^ 1024) (ht : E.theta.inUnit .radian = .ok (.fin t) ∧ Representable t ∧ |t| < 2 ^ 1024)
    (hps : E.psi.inUnit .radian = .ok (.fin s) ∧ Representable s ∧ |s| < 2 ^ 1024) (hq : E.sequence ≠ .undefined) :
    ∃ q : Quat, DQuat.EulerAngle (.fin e) sin cos E = .ok (.of q) ∧ ‖hamilton q - threeTurns p t s E.sequence‖ ≤ 41 / 2 ^ 53 ∧
      ∀ tol : ℝ, 8 / 2 ^ 53 ≤ tol → DQuat.isUnitary (.fin tol) (.of q) = .ok true := by
  have hdef : ∀ {a : DAngle ℝ} {v}, a.inUnit .radian = .ok v → a.isDefined = true := fun {a v} ha => by
    by_contra hh
    rw [DAngle.inUnit, Bool.eq_false_iff.2 hh] at ha
    simp at ha
  obtain ⟨s1, es1, -, ls1, ds1⟩ := half_angle hs Real.abs_sin_sub_sin_le hp.2.1 hp.2.2
  obtain ⟨s2, es2, -, ls2, ds2⟩ := half_angle hs Real.abs_sin_sub_sin_le ht.2.1 ht.2.2
  obtain ⟨s3, es3, -, ls3, ds3⟩ := half_angle hs Real.abs_sin_sub_sin_le hps.2.1 hps.2.2
  obtain ⟨c1, ec1, -, lc1, dc1⟩ := half_angle hc Real.abs_cos_sub_cos_le hp.2.1 hp.2.2
  obtain ⟨c2, ec2, -, lc2, dc2⟩ := half_angle hc Real.abs_cos_sub_cos_le ht.2.1 ht.2.2
  obtain ⟨c3, ec3, -, lc3, dc3⟩ := half_angle hc Real.abs_cos_sub_cos_le hps.2.1 hps.2.2
  have S := Real.abs_sin_le_one
  have C := Real.abs_cos_le_one
  have d : E.isDefined = true := by
    rw [DEuler.isDefined, hdef hp.1, hdef ht.1, hdef hps.1]
    simpa using hq
  have N := threeTurns_norm p t s E.sequence
  rw [DQuat.EulerAngle, d]
  simp only [Bool.not_true, Bool.false_eq_true, if_false, hp.1, ht.1, hps.1, bind, Except.bind, es1, es2, es3, ec1, ec2, ec3]
  have sss := triple_near ls1 ls2 ls3 (S _) (S _) ds1 ds2 ds3
  have ssc := triple_near ls1 ls2 lc3 (S _) (S _) ds1 ds2 dc3
  have scs := triple_near ls1 lc2 ls3 (S _) (C _) ds1 dc2 ds3
  have scc := triple_near ls1 lc2 lc3 (S _) (C _) ds1 dc2 dc3
  have css := triple_near lc1 ls2 ls3 (C _) (S _) dc1 ds2 ds3
  have csc := triple_near lc1 ls2 lc3 (C _) (S _) dc1 ds2 dc3
  have ccs := triple_near lc1 lc2 ls3 (C _) (C _) dc1 dc2 ds3
  have ccc := triple_near lc1 lc2 lc3 (C _) (C _) dc1 dc2 dc3
  cases hseq : E.sequence with
  | undefined => exact absurd hseq hq
  | xyz =>
    have e0 : threeTurns p t s .xyz = hamilton ⟨Real.sin (p / 2) * Real.cos (t / 2) * Real.cos (s / 2) + Real.cos (p / 2) * Real.sin (t / 2) * Real.sin (s / 2), Real.cos (p / 2) * Real.sin (t / 2) * Real.cos (s / 2) - Real.sin (p / 2) * Real.cos (t / 2) * Real.sin (s / 2), Real.cos (p / 2) * Real.cos (t / 2) * Real.sin (s / 2) + Real.sin (p / 2) * Real.sin (t / 2) * Real.cos (s / 2), Real.cos (p / 2) * Real.cos (t / 2) * Real.cos (s / 2) - Real.sin (p / 2) * Real.sin (t / 2) * Real.sin (s / 2)⟩ := by
      simp only [threeTurns, turnAbout_axes]
      refine hamilton_three _ _ _ ?_ ?_ ?_ ?_ <;> ring
    rw [hseq, e0] at N
    rw [e0]
    exact four_near N he he' (two_near scc css) (two_near_sub csc scs) (two_near ccs ssc) (two_near_sub ccc sss)
  | zxy =>
    have e0 : threeTurns p t s .zxy = hamilton ⟨Real.cos (p / 2) * Real.sin (t / 2) * Real.cos (s / 2) - Real.sin (p / 2) * Real.cos (t / 2) * Real.sin (s / 2), Real.cos (p / 2) * Real.cos (t / 2) * Real.sin (s / 2) + Real.sin (p / 2) * Real.sin (t / 2) * Real.cos (s / 2), Real.cos (p / 2) * Real.sin (t / 2) * Real.sin (s / 2) + Real.sin (p / 2) * Real.cos (t / 2) * Real.cos (s / 2), Real.cos (p / 2) * Real.cos (t / 2) * Real.cos (s / 2) - Real.sin (p / 2) * Real.sin (t / 2) * Real.sin (s / 2)⟩ := by
      simp only [threeTurns, turnAbout_axes]
      refine hamilton_three _ _ _ ?_ ?_ ?_ ?_ <;> ring
    rw [hseq, e0] at N
    rw [e0]
    exact four_near N he he' (two_near_sub csc scs) (two_near ccs ssc) (two_near css scc) (two_near_sub ccc sss)
  | zyx =>
    have e0 : threeTurns p t s .zyx = hamilton ⟨Real.cos (p / 2) * Real.cos (t / 2) * Real.sin (s / 2) - Real.sin (p / 2) * Real.sin (t / 2) * Real.cos (s / 2), Real.cos (p / 2) * Real.sin (t / 2) * Real.cos (s / 2) + Real.sin (p / 2) * Real.cos (t / 2) * Real.sin (s / 2), Real.sin (p / 2) * Real.cos (t / 2) * Real.cos (s / 2) - Real.cos (p / 2) * Real.sin (t / 2) * Real.sin (s / 2), Real.cos (p / 2) * Real.cos (t / 2) * Real.cos (s / 2) + Real.sin (p / 2) * Real.sin (t / 2) * Real.sin (s / 2)⟩ := by
      simp only [threeTurns, turnAbout_axes]
      refine hamilton_three _ _ _ ?_ ?_ ?_ ?_ <;> ring
    rw [hseq, e0] at N
    rw [e0]
    exact four_near N he he' (two_near_sub ccs ssc) (two_near csc scs) (two_near_sub scc css) (two_near ccc sss)

/-- **C129.** A matrix in double precision that turns every vector as the rotation by `q` does, up to `d` times its length, becomes a quaternion within `5 d` and 18 units of rounding
of `q` (made unitary) or of its opposite, which is the same rotation; the conversion never throws, and the quaternion passes for unitary. -/
theorem C129_matrix (o : Bool) {M : Fin 3 → Fin 3 → ℝ} (hM : ∀ i j, Representable (M i j)) {q : Quat} (hq : hamilton q ≠ 0) {d : ℝ} (hd : d ≤ 1 / 100)
    (h : ∀ v, ‖pure (turn M v) - (hamilton q)⁻¹ * pure v * hamilton q‖ ≤ d * ‖pure v‖) {e : ℝ} (he : 2 ^ (-100 : ℤ) ≤ e) (he' : e ≤ 1 / 8) :
    ∃ r : Quat, DQuat.RotationMatrix o (.fin e) (entries M) = .ok (.of r) ∧ Tempered r ∧
      (‖hamilton r - ‖hamilton q‖⁻¹ • hamilton q‖ ≤ 5 * d + 18 / 2 ^ 53 ∨ ‖hamilton r + ‖hamilton q‖⁻¹ • hamilton q‖ ≤ 5 * d + 18 / 2 ^ 53) ∧
      ∀ tol : ℝ, 8 / 2 ^ 53 ≤ tol → DQuat.isUnitary (.fin tol) (.of r) = .ok true := by
  have n0 : ‖hamilton q‖ ≠ 0 := norm_ne_zero_iff.2 hq
  have i0 := inv_ne_zero n0
  rw [hamilton_smul]
  set p : Quat := ⟨‖hamilton q‖⁻¹ * q.x, ‖hamilton q‖⁻¹ * q.y, ‖hamilton q‖⁻¹ * q.z, ‖hamilton q‖⁻¹ * q.s⟩ with hp
  have e1 : hamilton p = ‖hamilton q‖⁻¹ • hamilton q := by rw [hamilton_smul]
  have N : ‖hamilton p‖ = 1 := by rw [e1, norm_smul, norm_inv, norm_norm, inv_mul_cancel₀ n0]
  refine matrix_core o hM N hd (entries_near N fun v => ?_) he he'
  have e2 : (hamilton p)⁻¹ * pure v * hamilton p = (hamilton q)⁻¹ * pure v * hamilton q := by
    have e3 : (‖hamilton q‖⁻¹ • hamilton q)⁻¹ = ‖hamilton q‖⁻¹⁻¹ • (hamilton q)⁻¹ :=
      inv_eq_of_mul_eq_one_right (by rw [smul_mul_smul_comm, mul_inv_cancel₀ i0, mul_inv_cancel₀ hq, one_smul])
    rw [e1, e3, mul_smul_comm, smul_mul_assoc, smul_mul_assoc, smul_smul, mul_inv_cancel₀ i0, one_smul]
  rw [e2]
  exact h v

/-- **C129.** From a quaternion to a matrix and back: the same quaternion or its opposite, up to the tolerance and rounding. -/
theorem C129_round_trip (o : Bool) {q : Quat} (hq : Tempered q) {eps : ℝ} (h0 : 2 ^ (-100 : ℤ) ≤ eps) (h1 : eps ≤ 1 / 1000) (hr : Representable eps) {m}
    (h : DRot.Quaternion o (.fin eps) (.of q) = .ok m) :
    ∃ r : Quat, DQuat.RotationMatrix o (.fin eps) m = .ok (.of r) ∧
      (‖hamilton r - hamilton q‖ ≤ 12 * eps + 132 / 2 ^ 53 ∨ ‖hamilton r + hamilton q‖ ≤ 12 * eps + 132 / 2 ^ 53) := by
  have u0 := DQuat.u_pos
  have us := DQuat.u_small
  have hp : 0 < eps := lt_of_lt_of_le (two_zpow_pos _) h0
  obtain ⟨e, near⟩ := returned o hq hp (by linarith) hr h
  obtain ⟨n1, n2⟩ := abs_le.1 near
  have n0 : 0 < ‖hamilton q‖ := by linarith
  have hne : hamilton q ≠ 0 := norm_pos_iff.1 n0
  have R : ∀ i j, Representable (DRot.mat q i j) := mat_representable q
  obtain ⟨r, e1, -, e2, -⟩ := C129_matrix o R hne (d := 22 / 10 * eps + 22 * DQuat.u) (by linarith) (near_rotation (by linarith) near) h0 (by linarith)
  rw [← e] at e1
  rw [e53] at e2
  refine ⟨r, e1, ?_⟩
  have c : ‖‖hamilton q‖⁻¹ • hamilton q - hamilton q‖ ≤ eps + 4 * DQuat.u := by
    rw [show ‖hamilton q‖⁻¹ • hamilton q - hamilton q = (‖hamilton q‖⁻¹ - 1) • hamilton q by rw [sub_smul, one_smul], norm_smul, Real.norm_eq_abs,
      ← abs_of_pos n0, ← abs_mul, abs_of_pos n0, sub_mul, inv_mul_cancel₀ n0.ne', one_mul, abs_sub_comm]
    exact near
  rw [e53]
  rcases e2 with e2 | e2
  · left
    have := norm_sub_le_norm_sub_add_norm_sub (hamilton r) (‖hamilton q‖⁻¹ • hamilton q) (hamilton q)
    linarith
  · right
    have := norm_sub_le_norm_sub_add_norm_sub (hamilton r) (-(‖hamilton q‖⁻¹ • hamilton q)) (-hamilton q)
    rw [sub_neg_eq_add, sub_neg_eq_add, show -(‖hamilton q‖⁻¹ • hamilton q) - -hamilton q = -(‖hamilton q‖⁻¹ • hamilton q - hamilton q) by abel, norm_neg] at this
    linarith

/-- **C129.** What is undefined is refused. -/
theorem C129_undefined (o : Bool) (e : F64 ℝ) (sin cos : ℝ → ℝ) :
    (∀ r : DRotVec, (r.axis.x = .nan ∨ r.axis.y = .nan ∨ r.axis.z = .nan ∨ r.angle.value = .nan ∨ r.angle.unit = .undefined) → DQuat.RotationVector e sin cos r = .error .undefined) ∧
      (∀ m : Fin 3 → Fin 3 → F64 ℝ, (∃ i j, m i j = .nan) → DQuat.RotationMatrix o e m = .error .undefined) ∧
      ∀ E : DEuler, (E.phi.value = .nan ∨ E.theta.value = .nan ∨ E.psi.value = .nan ∨ E.sequence = .undefined) → DQuat.EulerAngle e sin cos E = .error .undefined := by
  refine ⟨fun r h => ?_, fun m h => ?_, fun E h => ?_⟩
  · have : r.isDefined = false := by
      rcases h with h | h | h | h | h <;> simp [DRotVec.isDefined, DVec.isDefined, DAngle.isDefined, h]
    rw [DQuat.RotationVector, this]; rfl
  · have : DRot.isDefined m = false := by
      obtain ⟨i, j, h⟩ := h
      simp only [DRot.isDefined, decide_eq_false_iff_not, not_forall]
      exact ⟨i, j, fun hh => hh h⟩
    rw [DQuat.RotationMatrix, this]; rfl
  · have : E.isDefined = false := by
      rcases h with h | h | h | h <;> simp [DEuler.isDefined, DAngle.isDefined, h]
    rw [DQuat.EulerAngle, this]; rfl

/-! ## Examples -/

/-- a tolerance, and a rotation by one radian about the third axis, meet the hypotheses of `C129_vector` -/
example (o : Bool) : (2 : ℝ) ^ (-100 : ℤ) ≤ 9 / 2 ^ 53 ∧ (9 : ℝ) / 2 ^ 53 ≤ 1 / 8 ∧
    (⟨.fin 1, .radian⟩ : DAngle ℝ).inUnit .radian = .ok (.fin 1) ∧ ∃ r, DRotVec.ctor o (.fin (9 / 2 ^ 53)) ⟨.fin 0, .fin 0, .fin 1⟩ ⟨.fin 1, .radian⟩ = .ok r := by
  refine ⟨?_, by norm_num, by simp [DAngle.inUnit, DAngle.isDefined], ?_⟩
  · exact (zpow_le_zpow_right₀ one_le_two (show (-100 : ℤ) ≤ -50 by norm_num)).trans (by norm_num)
  · have z : |(0 : ℝ)| ≤ 2 ^ 500 := by rw [abs_zero]; exact pow_nonneg zero_le_two _
    have w : |(1 : ℝ)| ≤ 2 ^ 500 := by rw [abs_one]; exact one_le_pow₀ one_le_two
    rw [DRotVec.ctor, norm_fin3 o z z w, show rnd (Real.sqrt (DVec.dot3 o 0 0 1 0 0 1)) = DVec.nrm3 o 0 0 1 from rfl, sub_one2 (nrm3_le o z z w), (axis_norm o rep_one le_rfl).2.2,
      sub_self, rnd_zero]
    refine ⟨_, if_neg ?_⟩
    simp only [F64.abs, F64.lt, abs_zero, Bool.and_eq_true, decide_eq_true_eq, not_and, not_lt]
    exact fun _ => by positivity

/-- the angles of `C129_euler` may be any finite doubles, in radians -/
example : (⟨⟨.fin 1, .radian⟩, ⟨.fin 2, .radian⟩, ⟨.fin (-3), .radian⟩, .zyx⟩ : DEuler).psi.inUnit .radian = .ok (.fin (-3)) := by
  simp [DAngle.inUnit, DAngle.isDefined]

/-- the matrix of a quarter turn meets the hypotheses of `C129_matrix` with no error at all -/
example : (∀ i j, Representable ((![![0, 1, 0], ![-1, 0, 0], ![0, 0, 1]] : Fin 3 → Fin 3 → ℝ) i j)) ∧ hamilton ⟨0, 0, 1, 1⟩ ≠ 0 ∧
    ∀ v, ‖pure (turn ![![0, 1, 0], ![-1, 0, 0], ![0, 0, 1]] v) - (hamilton ⟨0, 0, 1, 1⟩)⁻¹ * pure v * hamilton ⟨0, 0, 1, 1⟩‖ ≤ 0 * ‖pure v‖ := by
  have ne : hamilton ⟨0, 0, 1, 1⟩ ≠ 0 := fun h => by
    have : (hamilton ⟨0, 0, 1, 1⟩).re = 0 := by rw [h]; rfl
    exact one_ne_zero this
  refine ⟨fun i j => ?_, ne, fun v => ?_⟩
  · fin_cases i <;> fin_cases j <;> simp <;> first | exact representable_zero | exact rep_one | exact representable_neg rep_one
  · obtain ⟨-, xs⟩ := exact_rotation ⟨0, 0, 1, 1⟩ v ne
    rw [← turn_exact, DQuat.norm_hamilton] at xs
    have e : turn (DRot.exact ⟨0, 0, 1, 1⟩) v = (2 : ℝ) • turn ![![0, 1, 0], ![-1, 0, 0], ![0, 0, 1]] v := by
      ext <;> simp [turn, DRot.exact] <;> norm_num <;> ring_nf <;> simp
    have e' : pure ((2 : ℝ) • turn ![![0, 1, 0], ![-1, 0, 0], ![0, 0, 1]] v) = (2 : ℝ) • pure (turn ![![0, 1, 0], ![-1, 0, 0], ![0, 0, 1]] v) := by
      rw [pure, pure, hamilton_smul]; simp
    rw [e, e'] at xs
    norm_num at xs
    rw [xs, sub_self, norm_zero, zero_mul]

/-- the quaternion of a half turn meets the hypotheses of `C129_round_trip` -/
example : (9 : ℝ) / 2 ^ 53 ≤ 1 / 1000 ∧ Tempered ⟨1, 0, 0, 0⟩ := by
  have o1 : Representable (1 : ℝ) ∧ |(1 : ℝ)| ≤ 2 ^ 500 := ⟨rep_one, by rw [abs_one]; exact one_le_pow₀ one_le_two⟩
  have o0 : Representable (0 : ℝ) ∧ |(0 : ℝ)| ≤ 2 ^ 500 := ⟨representable_zero, by rw [abs_zero]; exact pow_nonneg zero_le_two _⟩
  exact ⟨by norm_num, o1, o0, o0, o0⟩

end Verif.Props
