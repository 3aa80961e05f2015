import Verif.Props.Ellipsoid

/-!
# Equality of ellipsoids

Property C116. Code: `src/OpenSpaceToolkit/Mathematics/Geometry/3D/Object/Ellipsoid.cpp`, `operator ==`.
-/

namespace Verif.Props

open Verif Verif.Spec Classical

/-- the quadratic form whose value is one on the surface of an ellipsoid around the origin: half axes of lengths `a`, `b`, `c` along `u`, `v`, `w` -/
noncomputable def quadForm (a b c : ℝ) (u v w x : V3) : ℝ := (x.dot u / a) ^ 2 + (x.dot v / b) ^ 2 + (x.dot w / c) ^ 2

/-- the form of the ellipsoid with orientation `q` -/
noncomputable def formOf (a b c : ℝ) (q : Quat) (x : V3) : ℝ := quadForm a b c (RotMat.ofQuat q).row0 (RotMat.ofQuat q).row1 (RotMat.ofQuat q).row2 x

theorem form_le (m n : M3) (x : V3) : |x.dot (m.mulVec x) - x.dot (n.mulVec x)| ≤ Ellipsoid3.matrixDistance m n * x.normSq := by
  have hx : 0 ≤ x.normSq := by rw [V3.normSq, V3.dot]; nlinarith [sq_nonneg x.x, sq_nonneg x.y, sq_nonneg x.z]
  refine abs_le_of_sq_le_sq ?_ (mul_nonneg (Real.sqrt_nonneg _) hx)
  have h := Finset.sum_mul_sq_le_sq_mul_sq (Finset.univ : Finset (Fin 9))
    ![m.m00 - n.m00, m.m01 - n.m01, m.m02 - n.m02, m.m10 - n.m10, m.m11 - n.m11, m.m12 - n.m12, m.m20 - n.m20, m.m21 - n.m21, m.m22 - n.m22]
    ![x.x * x.x, x.x * x.y, x.x * x.z, x.y * x.x, x.y * x.y, x.y * x.z, x.z * x.x, x.z * x.y, x.z * x.z]
  simp only [Fin.sum_univ_succ, Matrix.cons_val_zero, Matrix.cons_val_succ, Fin.succ_zero_eq_one, Matrix.cons_val_one, Finset.univ_eq_empty, Finset.sum_empty,
    Matrix.cons_val_fin_one, Finset.univ_unique, Finset.sum_const, Finset.card_singleton, one_smul, Fin.default_eq_zero] at h
  rw [Ellipsoid3.matrixDistance, mul_pow, Real.sq_sqrt (by positivity)]
  refine le_trans (le_of_eq ?_) (h.trans (le_of_eq ?_))
  · simp only [V3.dot, M3.mulVec]; ring
  · simp only [V3.normSq, V3.dot]; ring

theorem entry_le {m n : M3} (hm : m.transpose = m) (hn : n.transpose = n) {k : ℝ} (h : ∀ x : V3, |x.dot (m.mulVec x) - x.dot (n.mulVec x)| ≤ k * x.normSq) :
    Ellipsoid3.matrixDistance m n ≤ 3 * k := by
  have m1 : m.m10 = m.m01 := congrArg M3.m01 hm
  have m2 : m.m20 = m.m02 := congrArg M3.m02 hm
  have m3 : m.m21 = m.m12 := congrArg M3.m12 hm
  have n1 : n.m10 = n.m01 := congrArg M3.m01 hn
  have n2 : n.m20 = n.m02 := congrArg M3.m02 hn
  have n3 : n.m21 = n.m12 := congrArg M3.m12 hn
  have hx := h ⟨1, 0, 0⟩
  have hy := h ⟨0, 1, 0⟩
  have hz := h ⟨0, 0, 1⟩
  have hxy := h ⟨1, 1, 0⟩
  have hxy' := h ⟨1, -1, 0⟩
  have hyz := h ⟨0, 1, 1⟩
  have hyz' := h ⟨0, 1, -1⟩
  have hxz := h ⟨1, 0, 1⟩
  have hxz' := h ⟨1, 0, -1⟩
  simp only [V3.dot, V3.normSq, M3.mulVec, m1, m2, m3, n1, n2, n3] at hx hy hz hxy hxy' hyz hyz' hxz hxz'
  norm_num at hx hy hz hxy hxy' hyz hyz' hxz hxz'
  rw [abs_le] at hx hy hz hxy hxy' hyz hyz' hxz hxz'
  have k0 : 0 ≤ k := by linarith [hx.1, hx.2]
  have sq : ∀ d : ℝ, -k ≤ d → d ≤ k → d ^ 2 ≤ k ^ 2 := fun d h1 h2 => sq_le_sq' h1 h2
  refine Real.sqrt_le_iff.2 ⟨by linarith, ?_⟩
  rw [m1, m2, m3, n1, n2, n3]
  have a1 := sq (m.m00 - n.m00) (by linarith) (by linarith)
  have a2 := sq (m.m11 - n.m11) (by linarith) (by linarith)
  have a3 := sq (m.m22 - n.m22) (by linarith) (by linarith)
  have a4 := sq (m.m01 - n.m01) (by linarith) (by linarith)
  have a5 := sq (m.m02 - n.m02) (by linarith) (by linarith)
  have a6 := sq (m.m12 - n.m12) (by linarith) (by linarith)
  nlinarith

theorem gte_symmetric (p : V3) (a b c : ℝ) (m : M3) : (gteOf p a b c m).getM.transpose = (gteOf p a b c m).getM := by
  ext <;> simp only [M3.transpose, Gte.Ellipsoid.getM, Gte.plus, Gte.outer] <;> ring

theorem gte_form (p : V3) (a b c : ℝ) (q : Quat) (x : V3) : x.dot ((gteOf p a b c (RotMat.ofQuat q)).getM.mulVec x) = formOf a b c q x :=
  Gte.Ellipsoid.form_eq _ x

theorem ofQuat_beq {q r : Quat} (h : q.beq r = true) : RotMat.ofQuat q = RotMat.ofQuat r := by
  simp only [Quat.beq, Bool.or_eq_true, decide_eq_true_eq] at h
  rcases h with ⟨h1, h2, h3, h4⟩ | ⟨h1, h2, h3, h4⟩ <;> simp only [RotMat.ofQuat, h1, h2, h3, h4, neg_mul_neg]

theorem eq_cases {eps : ℝ} (h0 : 0 < eps) (p p' : V3) (a b c a' b' c' : ℝ) {q q' : Quat} (hq : Unitary q) (hq' : Unitary q') :
    ∃ r, (ell p a b c q).eq eps (ell p' a' b' c' q') = .ok r ∧ (r = true ↔ p = p' ∧
      Ellipsoid3.matrixDistance (gteOf p a b c (RotMat.ofQuat q)).getM (gteOf p' a' b' c' (RotMat.ofQuat q')).getM ≤ eps) := by
  have hp : P3.eq (some p) (some p') = decide (p = p') := by
    rw [Bool.eq_iff_iff, decide_eq_true_iff]
    simp only [P3.eq, Bool.and_eq_true, decide_eq_true_eq]
    exact ⟨fun h => V3.ext h.1.1 h.1.2 h.2, fun h => by rw [h]; exact ⟨⟨rfl, rfl⟩, rfl⟩⟩
  have e1 : (ell p a b c q).need = .ok ⟨p, a, b, c, q⟩ := rfl
  have e2 : (ell p' a' b' c' q').need = .ok ⟨p', a', b', c', q'⟩ := rfl
  simp only [Ellipsoid3.eq, e1, e2, hp, matrix_eq h0 p a b c hq, matrix_eq h0 p' a' b' c' hq', bind, Except.bind, pure, Except.pure]
  by_cases h : p = p'
  · subst h
    simp only [decide_true, if_true, true_and]
    by_cases h2 : a = a' ∧ b = b' ∧ c = c' ∧ QuatObj.eq (some q) (some q') = true
    · rw [if_pos h2]
      obtain ⟨rfl, rfl, rfl, h2⟩ := h2
      refine ⟨true, rfl, iff_of_true rfl ?_⟩
      rw [ofQuat_beq h2, Ellipsoid3.matrixDistance]
      simp [h0.le]
    · rw [if_neg h2]
      exact ⟨_, rfl, decide_eq_true_iff⟩
  · simp only [h, decide_false, Bool.false_eq_true, if_false, false_and]
    exact ⟨false, rfl, by simp⟩

/-- **C116.** Equality of ellipsoids, whatever their orientations: equal ellipsoids have one centre and quadratic forms within the tolerance of each other; ellipsoids with
one centre whose forms are within a third of the tolerance are equal, and so are ellipsoids that are the same set of points. The order does not matter. -/
theorem C116_equality (eps : ℝ) (h0 : 0 < eps) (p p' : V3) (a b c a' b' c' : ℝ) (ha : 0 < a) (hb : 0 < b) (hc : 0 < c) (ha' : 0 < a') (hb' : 0 < b') (hc' : 0 < c')
    (q q' : Quat) (hq : Unitary q) (hq' : Unitary q') :
    ∃ r, (ell p a b c q).eq eps (ell p' a' b' c' q') = .ok r ∧ (ell p' a' b' c' q').eq eps (ell p a b c q) = .ok r ∧
      (r = true → p = p' ∧ ∀ x, |formOf a b c q x - formOf a' b' c' q' x| ≤ eps * x.normSq) ∧
      (p = p' → (∀ x, |formOf a b c q x - formOf a' b' c' q' x| ≤ eps / 3 * x.normSq) → r = true) ∧
      (p = p' → EllipsoidSet p a b c (RotMat.ofQuat q).row0 (RotMat.ofQuat q).row1 (RotMat.ofQuat q).row2 =
        EllipsoidSet p' a' b' c' (RotMat.ofQuat q').row0 (RotMat.ofQuat q').row1 (RotMat.ofQuat q').row2 → r = true) := by
  obtain ⟨r, e1, h1⟩ := eq_cases h0 p p' a b c a' b' c' hq hq'
  obtain ⟨s, e2, h2⟩ := eq_cases h0 p' p a' b' c' a b c hq' hq
  have hd : Ellipsoid3.matrixDistance (gteOf p a b c (RotMat.ofQuat q)).getM (gteOf p' a' b' c' (RotMat.ofQuat q')).getM =
      Ellipsoid3.matrixDistance (gteOf p' a' b' c' (RotMat.ofQuat q')).getM (gteOf p a b c (RotMat.ofQuat q)).getM := by
    simp only [Ellipsoid3.matrixDistance]; congr 1; ring
  have hrs : r = s := by
    rw [Bool.eq_iff_iff, h1, h2, hd, eq_comm]
  subst hrs
  have suff : p = p' → (∀ x, |formOf a b c q x - formOf a' b' c' q' x| ≤ eps / 3 * x.normSq) → r = true := fun hp h => by
    refine h1.2 ⟨hp, ?_⟩
    have := entry_le (gte_symmetric p a b c (RotMat.ofQuat q)) (gte_symmetric p' a' b' c' (RotMat.ofQuat q')) (k := eps / 3) (fun x => by
      rw [gte_form, gte_form]; exact h x)
    linarith
  refine ⟨r, e1, e2, fun h => ?_, suff, fun hp hs => suff hp fun x => ?_⟩
  · obtain ⟨hp, hm⟩ := h1.1 h
    refine ⟨hp, fun x => ?_⟩
    have hx : 0 ≤ x.normSq := by rw [V3.normSq, V3.dot]; nlinarith [sq_nonneg x.x, sq_nonneg x.y, sq_nonneg x.z]
    have := form_le (gteOf p a b c (RotMat.ofQuat q)).getM (gteOf p' a' b' c' (RotMat.ofQuat q')).getM x
    rw [gte_form, gte_form] at this
    exact this.trans (mul_le_mul_of_nonneg_right hm hx)
  · have hx : 0 ≤ x.normSq := by rw [V3.normSq, V3.dot]; nlinarith [sq_nonneg x.x, sq_nonneg x.y, sq_nonneg x.z]
    have key : formOf a b c q x = formOf a' b' c' q' x := by
      by_cases h : x = 0
      · subst h; simp [formOf, quadForm, V3.dot]
      have pos := gte_pos (RotMat.ofQuat_isRotation hq) p ha hb hc h
      rw [gte_form] at pos
      have scale : ∀ k a b c (q : Quat), formOf a b c q (k • x) = k ^ 2 * formOf a b c q x := fun k a b c q => by
        simp only [formOf, quadForm, V3.dot, V3.smul_x, V3.smul_y, V3.smul_z]; ring
      set k := 1 / Real.sqrt (formOf a b c q x)
      have hk : k ^ 2 * formOf a b c q x = 1 := by
        rw [div_pow, Real.sq_sqrt pos.le, one_pow, one_div, inv_mul_cancel₀ pos.ne']
      have hk0 : k ^ 2 ≠ 0 := fun h => by rw [h, zero_mul] at hk; exact zero_ne_one hk
      have mem : p + k • x ∈ EllipsoidSet p a b c (RotMat.ofQuat q).row0 (RotMat.ofQuat q).row1 (RotMat.ofQuat q).row2 := by
        show formOf a b c q (p + k • x - p) = 1
        rw [show p + k • x - p = k • x by ext <;> simp, scale, hk]
      rw [hs] at mem
      have mem' : formOf a' b' c' q' (p + k • x - p') = 1 := mem
      rw [← hp, show p + k • x - p = k • x by ext <;> simp, scale] at mem'
      exact mul_left_cancel₀ hk0 (hk.trans mem'.symm)
    rw [key, sub_self, abs_zero]
    positivity

/-- ellipsoids that meet the hypotheses: one set of points with two orientations -/
example : Unitary ⟨0, 0, 0, 1⟩ ∧ Unitary ⟨1, 0, 0, 0⟩ ∧ ∀ x, formOf 1 2 3 ⟨0, 0, 0, 1⟩ x = formOf 1 2 3 ⟨1, 0, 0, 0⟩ x := by
  refine ⟨by norm_num [Unitary, Quat.normSq], by norm_num [Unitary, Quat.normSq], fun x => ?_⟩
  simp [formOf, quadForm, RotMat.ofQuat, M3.row0, M3.row1, M3.row2, V3.dot]
  ring

/-- Disagreement: the forms of large ellipsoids are small, so that large ellipsoids of quite different sizes are equal. In metres, spheres of the radii 6378137 and 6400000
are equal with the tolerance 1e-15, though no point is on both. -/
theorem C116_large_violated :
    (ell 0 6378137 6378137 6378137 ⟨0, 0, 0, 1⟩).eq (1 / 10 ^ 15) (ell 0 6400000 6400000 6400000 ⟨0, 0, 0, 1⟩) = .ok true ∧
    (∀ x : V3, ¬((ell 0 6378137 6378137 6378137 ⟨0, 0, 0, 1⟩).contains (1 / 10 ^ 15) (some x) = .ok true ∧
      (ell 0 6400000 6400000 6400000 ⟨0, 0, 0, 1⟩).contains (1 / 10 ^ 15) (some x) = .ok true)) ∧
    (ell 0 6400000 6400000 6400000 ⟨0, 0, 0, 1⟩).contains (1 / 10 ^ 15) (some ⟨6400000, 0, 0⟩) = .ok true := by
  have hq : Unitary ⟨0, 0, 0, 1⟩ := by norm_num [Unitary, Quat.normSq]
  have h0 : (0 : ℝ) < 1 / 10 ^ 15 := by norm_num
  refine ⟨?_, fun x => ?_, ?_⟩
  · obtain ⟨r, e, -, -, h, -⟩ := C116_equality (1 / 10 ^ 15) h0 0 0 6378137 6378137 6378137 6400000 6400000 6400000 (by norm_num) (by norm_num) (by norm_num) (by norm_num)
      (by norm_num) (by norm_num) ⟨0, 0, 0, 1⟩ ⟨0, 0, 0, 1⟩ hq hq
    rw [e, h rfl fun x => ?_]
    simp only [formOf, quadForm, RotMat.ofQuat, M3.row0, M3.row1, M3.row2, V3.dot, V3.normSq]
    rw [abs_le]
    constructor <;> nlinarith [sq_nonneg x.x, sq_nonneg x.y, sq_nonneg x.z]
  · rw [contains_eq h0 _ _ _ _ hq, contains_eq h0 _ _ _ _ hq]
    simp only [Except.ok.injEq]
    rintro ⟨h1, h2⟩
    have h1 := of_decide_eq_true h1
    have h2 := of_decide_eq_true h2
    simp only [RotMat.ofQuat, M3.mulVec, V3.dot, V3.X, V3.Y, V3.Z, V3.sub_x, V3.sub_y, V3.sub_z, V3.zero_x, V3.zero_y, V3.zero_z] at h1 h2
    rw [abs_lt] at h1 h2
    nlinarith [h1.1, h1.2, h2.1, h2.2]
  · rw [contains_eq h0 _ _ _ _ hq]
    simp only [RotMat.ofQuat, M3.mulVec, V3.dot, V3.X, V3.Y, V3.Z, V3.sub_x, V3.sub_y, V3.sub_z, V3.zero_x, V3.zero_y, V3.zero_z]
    norm_num

end Verif.Props
