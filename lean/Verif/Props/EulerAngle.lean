import Verif.Props.RotationMatrix

/-!
# Euler angles (C29, C30, C68)

The three angles of an Euler angle object are given in turns: `p`, `t`, `s` for `phi`, `theta`, `psi`.
-/

namespace Verif.Props

open Verif Verif.Spec

set_option linter.flexible false

/-- The rotation matrix of the quaternion conversion, from elementary rotations in radians: `Quaternion::EulerAngle` composes the
elementary rotations of the sequence in the order of its name, each about the axis of its letter. -/
noncomputable def quatEuler (p t s : ℝ) : AxisSequence → M3
  | .xyz => ((RotMat.rz s).mul (RotMat.ry t)).mul (RotMat.rx p)
  | .zxy => ((RotMat.ry s).mul (RotMat.rx t)).mul (RotMat.rz p)
  | .zyx => ((RotMat.rx s).mul (RotMat.ry t)).mul (RotMat.rz p)
  | .undefined => M3.one

/-- What `RotationMatrix::EulerAngle` computes. -/
noncomputable def matEuler (p t s : ℝ) : AxisSequence → M3
  | .xyz => ((RotMat.rx p).mul (RotMat.ry t)).mul (RotMat.rz s)
  | .zxy => ((RotMat.rx s).mul (RotMat.ry p)).mul (RotMat.rz t)
  | .zyx => ((RotMat.rx s).mul (RotMat.ry t)).mul (RotMat.rz p)
  | .undefined => M3.one

theorem euler_defined {e : Euler} {p t s : ℝ} (hp : Measures e.phi p) (ht : Measures e.theta t) (hs : Measures e.psi s)
    (h : e.sequence ≠ .undefined) : e.isDefined = true := by
  simp only [Euler.isDefined, (Angle.defined_iff _).2 ⟨p, hp⟩, (Angle.defined_iff _).2 ⟨t, ht⟩, (Angle.defined_iff _).2 ⟨s, hs⟩,
    Bool.true_and, decide_eq_true_eq]
  exact h

theorem mul_rotations {eps : ℝ} (h0 : 0 < eps) {a b : M3} (ha : IsRotation a) (hb : IsRotation b) :
    RotMat.mul eps (some a) (some b) = .ok (a.mul b) := by
  simp only [RotMat.mul, need, bind, Except.bind, RotMat.mk_of_isRotation h0 (M3.isRotation_mul ha hb)]

theorem matEuler_eq {eps : ℝ} (h0 : 0 < eps) {e : Euler} {p t s : ℝ} (hp : Measures e.phi p) (ht : Measures e.theta t)
    (hs : Measures e.psi s) (h : e.sequence ≠ .undefined) :
    RotMat.EulerAngle eps e = .ok (matEuler (p * (2 * Real.pi)) (t * (2 * Real.pi)) (s * (2 * Real.pi)) e.sequence) := by
  have hd := euler_defined hp ht hs h
  have rx := fun t => RotMat.isRotation_rx t
  have ry := fun t => RotMat.isRotation_ry t
  have rz := fun t => RotMat.isRotation_rz t
  have xy := fun t u => mul_rotations h0 (rx t) (ry u)
  have xyz := fun t u v => mul_rotations h0 (M3.isRotation_mul (rx t) (ry u)) (rz v)
  simp only [RotMat.EulerAngle, hd, Bool.not_true, Bool.false_eq_true, if_false]
  cases hq : e.sequence with
  | undefined => exact absurd hq h
  | _ =>
    simp only [RotMat.RX, RotMat.RY, RotMat.RZ, inRadian hp, inRadian ht, inRadian hs, bind, Except.bind,
      RotMat.mk_of_isRotation h0 (rx _), RotMat.mk_of_isRotation h0 (ry _), RotMat.mk_of_isRotation h0 (rz _),
      xy, xyz, matEuler]

theorem matEuler_isRotation (p t s : ℝ) (sq : AxisSequence) : IsRotation (matEuler p t s sq) ∧ IsRotation (quatEuler p t s sq) := by
  have x := RotMat.isRotation_rx
  have y := RotMat.isRotation_ry
  have z := RotMat.isRotation_rz
  have m := fun {a b c : M3} (ha : IsRotation a) (hb : IsRotation b) (hc : IsRotation c) =>
    M3.isRotation_mul (M3.isRotation_mul ha hb) hc
  cases sq
  · exact ⟨M3.isRotation_one, M3.isRotation_one⟩
  · exact ⟨m (x _) (y _) (z _), m (z _) (y _) (x _)⟩
  · exact ⟨m (x _) (y _) (z _), m (y _) (x _) (z _)⟩
  · exact ⟨m (x _) (y _) (z _), m (x _) (y _) (z _)⟩

/-- the product of three elementary quaternions that `Quaternion::EulerAngle` writes out -/
noncomputable def quatEulerQ (p t s : ℝ) : AxisSequence → Quat
  | .xyz => ((RotMat.qz s).cross (RotMat.qy t)).cross (RotMat.qx p)
  | .zxy => ((RotMat.qy s).cross (RotMat.qx t)).cross (RotMat.qz p)
  | .zyx => ((RotMat.qx s).cross (RotMat.qy t)).cross (RotMat.qz p)
  | .undefined => Quat.Unit

theorem quatEulerQ_unitary (p t s : ℝ) (sq : AxisSequence) : Unitary (quatEulerQ p t s sq) := by
  have x := RotMat.unitary_qx
  have y := RotMat.unitary_qy
  have z := RotMat.unitary_qz
  have m := fun {a b c : Quat} (ha : Unitary a) (hb : Unitary b) (hc : Unitary c) => Quat.unitary_cross (Quat.unitary_cross ha hb) hc
  cases sq
  · norm_num [Unitary, quatEulerQ, Quat.Unit]
  · exact m (z _) (y _) (x _)
  · exact m (y _) (x _) (z _)
  · exact m (x _) (y _) (z _)

theorem quatEulerQ_matrix (p t s : ℝ) (sq : AxisSequence) : RotMat.ofQuat (quatEulerQ p t s sq) = quatEuler p t s sq := by
  cases sq <;> simp only [quatEulerQ, quatEuler, RotMat.ofQuat_cross, RotMat.ofQuat_qx, RotMat.ofQuat_qy, RotMat.ofQuat_qz]
  ext <;> simp [RotMat.ofQuat, M3.one]

theorem quatEuler_eq {eps : ℝ} (h1 : eps ≤ 1) {e : Euler} {p t s : ℝ} (hp : Measures e.phi p) (ht : Measures e.theta t)
    (hs : Measures e.psi s) (h : e.sequence ≠ .undefined) :
    Quat.EulerAngle eps e = .ok (quatEulerQ (p * (2 * Real.pi)) (t * (2 * Real.pi)) (s * (2 * Real.pi)) e.sequence) := by
  have hd := euler_defined hp ht hs h
  simp only [Quat.EulerAngle, hd, Bool.not_true, Bool.false_eq_true, if_false, inRadian hp, inRadian ht, inRadian hs, bind, Except.bind]
  cases hq : e.sequence with
  | undefined => exact absurd hq h
  | _ =>
    simp only
    rw [← Quat.normalize_of_unitary (quatEulerQ_unitary _ _ _ _) h1]
    congr 1
    ext <;> simp [quatEulerQ, RotMat.qx, RotMat.qy, RotMat.qz] <;> ring

/-! ## C29 -/

/-- **C29.** What the quaternion conversion computes, for all sequences: the product of the three elementary rotations, the first named
axis acting first. -/
theorem C29_quaternion (eps : ℝ) (h0 : 0 < eps) (h1 : eps ≤ 1) (e : Euler) (p t s : ℝ) (hp : Measures e.phi p) (ht : Measures e.theta t)
    (hs : Measures e.psi s) (h : e.sequence ≠ .undefined) :
    ∃ q m rp rt rs, Quat.EulerAngle eps e = .ok q ∧ Unitary q ∧ RotMat.Quaternion eps (some q) = .ok m ∧
      (match e.sequence with
        | .xyz => RotMat.RX eps e.phi = .ok rp ∧ RotMat.RY eps e.theta = .ok rt ∧ RotMat.RZ eps e.psi = .ok rs
        | .zxy => RotMat.RZ eps e.phi = .ok rp ∧ RotMat.RX eps e.theta = .ok rt ∧ RotMat.RY eps e.psi = .ok rs
        | .zyx => RotMat.RZ eps e.phi = .ok rp ∧ RotMat.RY eps e.theta = .ok rt ∧ RotMat.RX eps e.psi = .ok rs
        | .undefined => False) ∧
      ∀ v, m.mulVec v = rs.mulVec (rt.mulVec (rp.mulVec v)) := by
  have hq := quatEulerQ_unitary (p * (2 * Real.pi)) (t * (2 * Real.pi)) (s * (2 * Real.pi)) e.sequence
  have hm := quatEulerQ_matrix (p * (2 * Real.pi)) (t * (2 * Real.pi)) (s * (2 * Real.pi)) e.sequence
  have hx := fun t => RotMat.mk_of_isRotation h0 (RotMat.isRotation_rx t)
  have hy := fun t => RotMat.mk_of_isRotation h0 (RotMat.isRotation_ry t)
  have hz := fun t => RotMat.mk_of_isRotation h0 (RotMat.isRotation_rz t)
  have key : ∀ rp rt rs : M3, quatEuler (p * (2 * Real.pi)) (t * (2 * Real.pi)) (s * (2 * Real.pi)) e.sequence = (rs.mul rt).mul rp →
      ∀ v, (RotMat.ofQuat (quatEulerQ (p * (2 * Real.pi)) (t * (2 * Real.pi)) (s * (2 * Real.pi)) e.sequence)).mulVec v =
        rs.mulVec (rt.mulVec (rp.mulVec v)) := by
    intro rp rt rs hr v
    rw [hm, hr, M3.mul_mulVec, M3.mul_mulVec]
  cases hsq : e.sequence with
  | undefined => exact absurd hsq h
  | xyz =>
    refine ⟨_, _, RotMat.rx (p * (2 * Real.pi)), RotMat.ry (t * (2 * Real.pi)), RotMat.rz (s * (2 * Real.pi)),
      quatEuler_eq h1 hp ht hs h, hq, rotMat_quaternion_eq h0 hq, ?_, key _ _ _ (by rw [hsq]; rfl)⟩
    simp only [RotMat.RX, RotMat.RY, RotMat.RZ, inRadian hp, inRadian ht, inRadian hs, bind, Except.bind, hx, hy, hz, and_self]
  | zxy =>
    refine ⟨_, _, RotMat.rz (p * (2 * Real.pi)), RotMat.rx (t * (2 * Real.pi)), RotMat.ry (s * (2 * Real.pi)),
      quatEuler_eq h1 hp ht hs h, hq, rotMat_quaternion_eq h0 hq, ?_, key _ _ _ (by rw [hsq]; rfl)⟩
    simp only [RotMat.RX, RotMat.RY, RotMat.RZ, inRadian hp, inRadian ht, inRadian hs, bind, Except.bind, hx, hy, hz, and_self]
  | zyx =>
    refine ⟨_, _, RotMat.rz (p * (2 * Real.pi)), RotMat.ry (t * (2 * Real.pi)), RotMat.rx (s * (2 * Real.pi)),
      quatEuler_eq h1 hp ht hs h, hq, rotMat_quaternion_eq h0 hq, ?_, key _ _ _ (by rw [hsq]; rfl)⟩
    simp only [RotMat.RX, RotMat.RY, RotMat.RZ, inRadian hp, inRadian ht, inRadian hs, bind, Except.bind, hx, hy, hz, and_self]

/-- **C29.** The two conversions agree for the sequence ZYX. Missing from the full statement: the sequences XYZ and ZXY, where it is
false (`C29_xyz_disagree`, `C29_zxy_disagree`). -/
theorem C29_agree_partial (eps : ℝ) (h0 : 0 < eps) (h1 : eps ≤ 1) (e : Euler) (p t s : ℝ) (hp : Measures e.phi p)
    (ht : Measures e.theta t) (hs : Measures e.psi s) (h : e.sequence = .zyx) :
    ∃ q m, Quat.EulerAngle eps e = .ok q ∧ RotMat.EulerAngle eps e = .ok m ∧ RotMat.Quaternion eps (some q) = .ok m := by
  have hne : e.sequence ≠ .undefined := by rw [h]; decide
  refine ⟨_, _, quatEuler_eq h1 hp ht hs hne, matEuler_eq h0 hp ht hs hne, ?_⟩
  rw [rotMat_quaternion_eq h0 (quatEulerQ_unitary _ _ _ _), quatEulerQ_matrix, h]; rfl

/-- An Euler angle with quarter turns for `phi` and `theta`. -/
noncomputable def quarterEuler (sq : AxisSequence) : Euler := ⟨⟨some 90, .degree⟩, ⟨some 90, .degree⟩, ⟨some 0, .degree⟩, sq⟩

theorem zero_degrees : Measures ⟨some 0, .degree⟩ 0 := Angle.measures_mk.2 ⟨by decide, by norm_num [perTurn]⟩

example : ∃ q m, Quat.EulerAngle 1 (quarterEuler .zyx) = .ok q ∧ RotMat.EulerAngle 1 (quarterEuler .zyx) = .ok m ∧
    RotMat.Quaternion 1 (some q) = .ok m :=
  C29_agree_partial 1 one_pos le_rfl _ _ _ _ quarter_degrees quarter_degrees zero_degrees rfl

theorem quarter_angle : 1 / 4 * (2 * Real.pi) = Real.pi / 2 := by ring

/-- **C29.** The property is false for XYZ. -/
theorem C29_xyz_disagree (eps : ℝ) (h0 : 0 < eps) (h1 : eps ≤ 1) :
    ∃ q m, Quat.EulerAngle eps (quarterEuler .xyz) = .ok q ∧ RotMat.EulerAngle eps (quarterEuler .xyz) = .ok m ∧
      RotMat.Quaternion eps (some q) ≠ .ok m := by
  have hp : Measures (quarterEuler .xyz).phi (1 / 4) := quarter_degrees
  have ht : Measures (quarterEuler .xyz).theta (1 / 4) := quarter_degrees
  have hs : Measures (quarterEuler .xyz).psi 0 := zero_degrees
  refine ⟨_, _, quatEuler_eq h1 hp ht hs (by decide), matEuler_eq h0 hp ht hs (by decide), ?_⟩
  rw [rotMat_quaternion_eq h0 (quatEulerQ_unitary _ _ _ _), quatEulerQ_matrix, quarter_angle]
  intro h
  rw [Except.ok.injEq] at h
  have := congrArg M3.m01 h
  simp [quatEuler, matEuler, quarterEuler, RotMat.rx, RotMat.ry, RotMat.rz, M3.mul] at this

/-- **C29.** The property is false for ZXY. -/
theorem C29_zxy_disagree (eps : ℝ) (h0 : 0 < eps) (h1 : eps ≤ 1) :
    ∃ q m, Quat.EulerAngle eps (quarterEuler .zxy) = .ok q ∧ RotMat.EulerAngle eps (quarterEuler .zxy) = .ok m ∧
      RotMat.Quaternion eps (some q) ≠ .ok m := by
  have hp : Measures (quarterEuler .zxy).phi (1 / 4) := quarter_degrees
  have ht : Measures (quarterEuler .zxy).theta (1 / 4) := quarter_degrees
  have hs : Measures (quarterEuler .zxy).psi 0 := zero_degrees
  refine ⟨_, _, quatEuler_eq h1 hp ht hs (by decide), matEuler_eq h0 hp ht hs (by decide), ?_⟩
  rw [rotMat_quaternion_eq h0 (quatEulerQ_unitary _ _ _ _), quatEulerQ_matrix, quarter_angle]
  intro h
  rw [Except.ok.injEq] at h
  have h1 := congrArg M3.m00 h
  have h2 := congrArg M3.m01 h
  have h3 := congrArg M3.m02 h
  have h4 := congrArg M3.m12 h
  have h5 := congrArg M3.m20 h
  simp [quatEuler, matEuler, quarterEuler, RotMat.rx, RotMat.ry, RotMat.rz, M3.mul] at h1 h2 h3 h4 h5

/-- **C29.** An undefined Euler angle throws in both conversions. -/
theorem C29_undefined (eps : ℝ) (e : Euler) (h : e.isDefined = false) :
    RotMat.EulerAngle eps e = .error .undefined ∧ Quat.EulerAngle eps e = .error .undefined := by
  simp [RotMat.EulerAngle, Quat.EulerAngle, h]

/-! ## C30 -/

/-- the angles that the extraction computes before the adjustment -/
noncomputable def extracted (m : M3) : AxisSequence → ℝ × ℝ × ℝ
  | .xyz => (atan2 (-m.m21) m.m22, Real.arcsin m.m20, atan2 (-m.m10) m.m00)
  | .zxy => (atan2 (-m.m10) m.m11, Real.arcsin m.m12, atan2 (-m.m02) m.m22)
  | _ => (atan2 m.m01 m.m00, Real.arcsin (-m.m02), atan2 m.m12 m.m22)

/-- The element whose absolute value is one exactly in the gimbal lock of the sequence. -/
def lockElement (m : M3) : AxisSequence → ℝ
  | .xyz => m.m20
  | .zxy => m.m12
  | _ => m.m02

theorem adjusted_spec (p t s : ℝ) (sq : AxisSequence) : ∃ p' t' s', Euler.adjusted p t s = ⟨⟨some p', .radian⟩, ⟨some t', .radian⟩,
    ⟨some s', .radian⟩, .zyx⟩ ∧ quatEuler p' t' s' sq = quatEuler p t s sq ∧ (-Real.pi < p → p ≤ Real.pi → 0 ≤ p' ∧ p' ≤ Real.pi) := by
  by_cases h : p < 0
  · refine ⟨p + Real.pi, Real.pi - t, s + Real.pi, by simp [Euler.adjusted, h], ?_, fun h1 h2 => ⟨by linarith, by linarith⟩⟩
    cases sq <;> simp only [quatEuler, RotMat.xyz_shift, RotMat.zxy_shift, RotMat.zyx_shift]
  · exact ⟨p, t, s, by simp [Euler.adjusted, h], rfl, fun _ h2 => ⟨by linarith, h2⟩⟩

theorem radian_turns (t : ℝ) : t / (2 * Real.pi) * (2 * Real.pi) = t := by
  have := Real.pi_ne_zero
  field_simp

theorem rotationMatrix_eq (m : M3) {sq : AxisSequence} (h : sq ≠ .undefined) :
    Euler.RotationMatrix (some m) sq = .ok (Euler.adjusted (extracted m sq).1 (extracted m sq).2.1 (extracted m sq).2.2) := by
  cases sq <;> first | exact absurd rfl h | rfl

theorem extracted_quatEuler {m : M3} (hm : IsRotation m) {sq : AxisSequence} (h : |lockElement m sq| < 1) (hsq : sq ≠ .undefined) :
    quatEuler (extracted m sq).1 (extracted m sq).2.1 (extracted m sq).2.2 sq = m := by
  cases sq with
  | undefined => exact absurd rfl hsq
  | xyz => exact RotMat.xyz_extract hm h
  | zxy => exact RotMat.zxy_extract hm h
  | zyx => exact RotMat.zyx_extract hm h

/-- **C30.** Extraction with the sequence ZYX, away from the gimbal lock, followed by the conversion to a matrix, gives the matrix back;
the first angle is between 0 and half a turn. Missing from the full statement: the sequences XYZ and ZXY, for which the returned object
carries the sequence ZYX (`C30_wrong_sequence`). -/
theorem C30_zyx_roundtrip_partial (eps : ℝ) (h0 : 0 < eps) (m : M3) (hm : IsRotation m) (hl : |m.m02| < 1) :
    ∃ e p, Euler.RotationMatrix (some m) .zyx = .ok e ∧ e.sequence = .zyx ∧ RotMat.EulerAngle eps e = .ok m ∧ Measures e.phi p ∧
      0 ≤ p ∧ p ≤ 1 / 2 := by
  obtain ⟨p, t, s, ha, hq, hr⟩ := adjusted_spec (extracted m .zyx).1 (extracted m .zyx).2.1 (extracted m .zyx).2.2 .zyx
  have hpi := Real.pi_pos
  have hr' := hr (Complex.neg_pi_lt_arg _) (Complex.arg_le_pi _)
  refine ⟨_, p / (2 * Real.pi), (rotationMatrix_eq m (by decide)).trans (by rw [ha]), rfl, ?_, measures_radian p, by
    exact div_nonneg hr'.1 (by linarith), by rw [div_le_iff₀ (by linarith)]; linarith [hr'.2]⟩
  rw [matEuler_eq h0 (measures_radian p) (measures_radian t) (measures_radian s) (by simp)]
  rw [radian_turns, radian_turns, radian_turns]
  exact congrArg _ (hq.trans (extracted_quatEuler hm (sq := .zyx) hl (by decide)))

/-- **C30.** For every sequence, the extracted angles are right for the quaternion conversion once the object is given the requested
sequence. -/
theorem C30_relabelled (eps : ℝ) (h0 : 0 < eps) (h1 : eps ≤ 1) (m : M3) (hm : IsRotation m) (sq : AxisSequence) (hsq : sq ≠ .undefined)
    (hl : |lockElement m sq| < 1) :
    ∃ e q, Euler.RotationMatrix (some m) sq = .ok e ∧ Quat.EulerAngle eps { e with sequence := sq } = .ok q ∧
      RotMat.Quaternion eps (some q) = .ok m := by
  obtain ⟨p, t, s, ha, hq, -⟩ := adjusted_spec (extracted m sq).1 (extracted m sq).2.1 (extracted m sq).2.2 sq
  refine ⟨_, _, (rotationMatrix_eq m hsq).trans (by rw [ha]), quatEuler_eq h1 (measures_radian p) (measures_radian t)
    (measures_radian s) hsq, ?_⟩
  rw [rotMat_quaternion_eq h0 (quatEulerQ_unitary _ _ _ _), quatEulerQ_matrix, radian_turns, radian_turns, radian_turns]
  exact congrArg _ (hq.trans (extracted_quatEuler hm hl hsq))

/-- **C30.** The property is false: for every requested sequence the returned object carries the sequence ZYX. -/
theorem C30_wrong_sequence (m : M3) (sq : AxisSequence) (hsq : sq ≠ .undefined) :
    ∃ e, Euler.RotationMatrix (some m) sq = .ok e ∧ e.sequence = .zyx := by
  obtain ⟨p, t, s, ha, -⟩ := adjusted_spec (extracted m sq).1 (extracted m sq).2.1 (extracted m sq).2.2 sq
  exact ⟨_, (rotationMatrix_eq m hsq).trans (by rw [ha]), rfl⟩

/-- **C30.** The property is false: the rotation by a quarter turn about X, extracted with XYZ, converts to another matrix. -/
theorem C30_xyz_wrong_matrix (eps : ℝ) (h0 : 0 < eps) :
    ∃ m e n, IsRotation m ∧ |lockElement m .xyz| < 1 ∧ Euler.RotationMatrix (some m) .xyz = .ok e ∧ RotMat.EulerAngle eps e = .ok n ∧
      n ≠ m := by
  have ha : atan2 1 0 = Real.pi / 2 := by
    rw [atan2, show (⟨0, 1⟩ : ℂ) = Complex.I from rfl, Complex.arg_I]
  have hone : atan2 0 1 = 0 := by
    rw [atan2, show (⟨1, 0⟩ : ℂ) = 1 from rfl, Complex.arg_one]
  have hx : extracted (RotMat.rx (Real.pi / 2)) .xyz = (Real.pi / 2, 0, 0) := by
    simp [extracted, RotMat.rx, ha, hone]
  have hne : ¬ Real.pi / 2 < 0 := by linarith [Real.pi_pos]
  refine ⟨RotMat.rx (Real.pi / 2), ⟨⟨some (Real.pi / 2), .radian⟩, ⟨some 0, .radian⟩, ⟨some 0, .radian⟩, .zyx⟩, _,
    RotMat.isRotation_rx _, by simp [lockElement, RotMat.rx], ?_,
    matEuler_eq h0 (measures_radian _) (measures_radian _) (measures_radian _) (by simp), ?_⟩
  · rw [rotationMatrix_eq _ (by decide), hx]; simp [Euler.adjusted, hne]
  · intro h
    have := congrArg M3.m00 h
    simp only [radian_turns] at this
    simp [matEuler, RotMat.rx, RotMat.ry, RotMat.rz, M3.mul] at this

/-- **C30.** The gimbal lock is lost: the matrix of the angles (quarter turn, quarter turn, 0) is not recovered. -/
theorem C30_gimbal_lock (eps : ℝ) (h0 : 0 < eps) :
    ∃ m e n, IsRotation m ∧ Euler.RotationMatrix (some m) .zyx = .ok e ∧ RotMat.EulerAngle eps e = .ok n ∧ n ≠ m := by
  have hq := Real.pi_pos
  have hm := (matEuler_isRotation (Real.pi / 2) (Real.pi / 2) 0 .zyx).1
  have h2 : matEuler (Real.pi / 2) (Real.pi / 2) 0 .zyx = ⟨0, 0, -1, -1, 0, 0, 0, 1, 0⟩ := by
    ext <;> simp [matEuler, RotMat.rx, RotMat.ry, RotMat.rz, M3.mul]
  have hx : extracted (⟨0, 0, -1, -1, 0, 0, 0, 1, 0⟩ : M3) .zyx = (0, Real.pi / 2, 0) := by
    simp [extracted, atan2_zero_zero]
  refine ⟨_, ⟨⟨some 0, .radian⟩, ⟨some (Real.pi / 2), .radian⟩, ⟨some 0, .radian⟩, .zyx⟩, _, hm, ?_,
    matEuler_eq h0 (measures_radian _) (measures_radian _) (measures_radian _) (by simp), ?_⟩
  · rw [h2, rotationMatrix_eq _ (by decide), hx]; simp [Euler.adjusted]
  · intro h
    have := congrArg M3.m10 h
    simp only [radian_turns] at this
    simp [matEuler, RotMat.rx, RotMat.ry, RotMat.rz, M3.mul] at this

/-- **C30.** Extraction from a unitary quaternion is extraction from its matrix. -/
theorem C30_quaternion (eps : ℝ) (h0 : 0 < eps) (q : Quat) (hq : Unitary q) (sq : AxisSequence) :
    ∃ m, RotMat.Quaternion eps (some q) = .ok m ∧ Euler.Quaternion eps (some q) sq = Euler.RotationMatrix (some m) sq := by
  refine ⟨_, rotMat_quaternion_eq h0 hq, ?_⟩
  simp only [Euler.Quaternion, need, Quat.isUnitary_of_unitary hq h0, bind, Except.bind, Bool.not_true, Bool.false_eq_true, if_false]
  cases sq with
  | zyx =>
    simp only [Euler.RotationMatrix, need, bind, Except.bind, RotMat.ofQuat]
    congr 2 <;> congr 1 <;> ring
  | _ => simp only [rotMat_quaternion_eq h0 hq]

example : ∃ m e q, IsRotation m ∧ Euler.RotationMatrix (some m) .zxy = .ok e ∧ Quat.EulerAngle 1 { e with sequence := .zxy } = .ok q ∧
    RotMat.Quaternion 1 (some q) = .ok m := by
  obtain ⟨e, q, h⟩ := C30_relabelled 1 one_pos le_rfl (RotMat.rx 1) (RotMat.isRotation_rx 1) .zxy (by decide) (by
    simp only [lockElement, RotMat.rx]
    rw [← sq_lt_one_iff_abs_lt_one]
    have := Real.sin_sq_add_cos_sq 1
    have := sq_pos_of_pos Real.cos_one_pos
    linarith)
  exact ⟨_, e, q, RotMat.isRotation_rx 1, h⟩

/-! ## C68 -/

theorem sameDirection_add {x y : ℝ} (h : SameDirection x y) : ∃ k : ℤ, x * (2 * Real.pi) = y * (2 * Real.pi) + k * (2 * Real.pi) := by
  obtain ⟨k, hk⟩ := h
  exact ⟨k, by rw [← hk]; ring⟩

theorem quatEuler_turns {p t s p' t' s' : ℝ} (hp : SameDirection p p') (ht : SameDirection t t') (hs : SameDirection s s')
    (sq : AxisSequence) :
    quatEuler (p * (2 * Real.pi)) (t * (2 * Real.pi)) (s * (2 * Real.pi)) sq =
      quatEuler (p' * (2 * Real.pi)) (t' * (2 * Real.pi)) (s' * (2 * Real.pi)) sq ∧
    matEuler (p * (2 * Real.pi)) (t * (2 * Real.pi)) (s * (2 * Real.pi)) sq =
      matEuler (p' * (2 * Real.pi)) (t' * (2 * Real.pi)) (s' * (2 * Real.pi)) sq := by
  obtain ⟨k, hk⟩ := sameDirection_add hp
  obtain ⟨l, hl⟩ := sameDirection_add ht
  obtain ⟨n, hn⟩ := sameDirection_add hs
  have x : ∀ (a : ℝ) (k : ℤ), RotMat.rx (a + k * (2 * Real.pi)) = RotMat.rx a := fun a k => by
    simp only [RotMat.rx, Real.cos_add_int_mul_two_pi, Real.sin_add_int_mul_two_pi]
  have y : ∀ (a : ℝ) (k : ℤ), RotMat.ry (a + k * (2 * Real.pi)) = RotMat.ry a := fun a k => by
    simp only [RotMat.ry, Real.cos_add_int_mul_two_pi, Real.sin_add_int_mul_two_pi]
  have z : ∀ (a : ℝ) (k : ℤ), RotMat.rz (a + k * (2 * Real.pi)) = RotMat.rz a := fun a k => by
    simp only [RotMat.rz, Real.cos_add_int_mul_two_pi, Real.sin_add_int_mul_two_pi]
  rw [hk, hl, hn]
  cases sq <;> simp only [quatEuler, matEuler, x, y, z, and_self]

theorem eq3_true {a b c : Bool} (h : Euler.eq3 (.ok a) (.ok b) (.ok c) = .ok true) : a = true ∧ b = true ∧ c = true := by
  cases a <;> cases b <;> cases c <;> simp [Euler.eq3, bind, Except.bind, pure, Except.pure] at h ⊢

/-- The two ways in which `==` can hold. -/
theorem euler_eq_cases {e f : Euler} (h : e.eq f = .ok true) : e.sequence ≠ .undefined ∧ e.sequence = f.sequence ∧
    ∃ p t s p' t' s', Measures e.phi p ∧ Measures e.theta t ∧ Measures e.psi s ∧ Measures f.phi p' ∧ Measures f.theta t' ∧
      Measures f.psi s' ∧ ((SameDirection p p' ∧ SameDirection t t' ∧ SameDirection s s') ∨
        (SameDirection (p + 1 / 2) p' ∧ SameDirection (1 / 2 - t) t' ∧ SameDirection (s + 1 / 2) s')) := by
  simp only [Euler.eq] at h
  split_ifs at h with hd hq
  · simp [pure, Except.pure] at h
  · simp [pure, Except.pure] at h
  simp only [Bool.or_eq_true, Bool.not_eq_true', not_or, Bool.not_eq_false] at hd
  push Not at hq
  obtain ⟨hd1, hd2⟩ := hd
  simp only [Euler.isDefined, Bool.and_eq_true, decide_eq_true_eq] at hd1 hd2
  obtain ⟨⟨⟨⟨p, hp⟩, ⟨t, ht⟩⟩, ⟨s, hs⟩⟩, hsq⟩ : (((∃ p, Measures e.phi p) ∧ (∃ t, Measures e.theta t)) ∧ ∃ s, Measures e.psi s) ∧
      e.sequence ≠ .undefined := by simpa only [Angle.defined_iff] using hd1
  obtain ⟨⟨⟨⟨p', hp'⟩, ⟨t', ht'⟩⟩, ⟨s', hs'⟩⟩, -⟩ : (((∃ p, Measures f.phi p) ∧ (∃ t, Measures f.theta t)) ∧ ∃ s, Measures f.psi s) ∧
      f.sequence ≠ .undefined := by simpa only [Angle.defined_iff] using hd2
  refine ⟨hsq, hq, p, t, s, p', t', s', hp, ht, hs, hp', ht', hs', ?_⟩
  have hP : Measures Angle.Pi (1 / 2) := Angle.measures_mk.2 ⟨by decide, by simp [perTurn]⟩
  obtain ⟨a, ha, ha'⟩ := Angle.eq_spec hp hp'
  obtain ⟨b, hb, hb'⟩ := Angle.eq_spec ht ht'
  obtain ⟨c, hc, hc'⟩ := Angle.eq_spec hs hs'
  obtain ⟨x, hx, hxm, -⟩ := (C19_arithmetic e.phi Angle.Pi p (1 / 2) hp hP 1).1
  obtain ⟨y, hy, hym, -⟩ := (C19_arithmetic Angle.Pi e.theta (1 / 2) t hP ht 1).2.1
  obtain ⟨z, hz, hzm, -⟩ := (C19_arithmetic e.psi Angle.Pi s (1 / 2) hs hP 1).1
  obtain ⟨a2, ha2, ha2'⟩ := Angle.eq_spec hxm hp'
  obtain ⟨b2, hb2, hb2'⟩ := Angle.eq_spec hym ht'
  obtain ⟨c2, hc2, hc2'⟩ := Angle.eq_spec hzm hs'
  rw [ha, hb, hc] at h
  cases hr : Euler.eq3 (.ok a) (.ok b) (.ok c) with
  | error er => rw [hr] at h; cases h
  | ok r =>
    cases r with
    | true =>
      obtain ⟨h1, h2, h3⟩ := eq3_true hr
      exact Or.inl ⟨ha'.1 h1, hb'.1 h2, hc'.1 h3⟩
    | false =>
      simp only [hr, bind, Except.bind, Bool.false_eq_true, if_false, Euler.eqShifted, hx, hy, hz, ha2, hb2, hc2] at h
      obtain ⟨h1, h2, h3⟩ := eq3_true h
      exact Or.inr ⟨ha2'.1 h1, hb2'.1 h2, hc2'.1 h3⟩

theorem half_turn_mul (x : ℝ) : (x + 1 / 2) * (2 * Real.pi) = x * (2 * Real.pi) + Real.pi ∧
    (1 / 2 - x) * (2 * Real.pi) = Real.pi - x * (2 * Real.pi) := ⟨by ring, by ring⟩

/-- **C68.** Euler angles that are `==` have the same sequence and are the same rotation by the quaternion conversion, for all
sequences, and by the matrix conversion for ZYX and XYZ. Missing from the full statement: the matrix conversion for ZXY
(`C68_zxy_matrix_differs`). -/
theorem C68_equal_rotation_partial (eps : ℝ) (h0 : 0 < eps) (h1 : eps ≤ 1) (e f : Euler) (h : e.eq f = .ok true) :
    e.sequence = f.sequence ∧ ∃ q r, Quat.EulerAngle eps e = .ok q ∧ Quat.EulerAngle eps f = .ok r ∧
      RotMat.Quaternion eps (some q) = RotMat.Quaternion eps (some r) ∧
      (e.sequence ≠ .zxy → RotMat.EulerAngle eps e = RotMat.EulerAngle eps f) := by
  obtain ⟨hsq, hq, p, t, s, p', t', s', hp, ht, hs, hp', ht', hs', hcase⟩ := euler_eq_cases h
  refine ⟨hq, _, _, quatEuler_eq h1 hp ht hs hsq, quatEuler_eq h1 hp' ht' hs' (hq ▸ hsq), ?_, ?_⟩
  · rw [rotMat_quaternion_eq h0 (quatEulerQ_unitary _ _ _ _), rotMat_quaternion_eq h0 (quatEulerQ_unitary _ _ _ _),
      quatEulerQ_matrix, quatEulerQ_matrix, ← hq]
    congr 1
    rcases hcase with ⟨h1, h2, h3⟩ | ⟨h1, h2, h3⟩
    · exact (quatEuler_turns h1 h2 h3 _).1
    · rw [← (quatEuler_turns h1 h2 h3 _).1, (half_turn_mul p).1, (half_turn_mul t).2, (half_turn_mul s).1]
      cases e.sequence <;> simp only [quatEuler, RotMat.xyz_shift, RotMat.zxy_shift, RotMat.zyx_shift]
  · intro hne
    rw [matEuler_eq h0 hp ht hs hsq, matEuler_eq h0 hp' ht' hs' (hq ▸ hsq), ← hq]
    congr 1
    rcases hcase with ⟨h1, h2, h3⟩ | ⟨h1, h2, h3⟩
    · exact (quatEuler_turns h1 h2 h3 _).2
    · rw [← (quatEuler_turns h1 h2 h3 _).2, (half_turn_mul p).1, (half_turn_mul t).2, (half_turn_mul s).1]
      cases hsq' : e.sequence with
      | undefined => rfl
      | zxy => exact absurd hsq' hne
      | xyz => simp only [matEuler, RotMat.zyx_shift]
      | zyx => simp only [matEuler, RotMat.zyx_shift]

/-- **C68.** Equal Euler angles with different matrices: (90°, 0°, 0°) and (270°, 180°, 180°) with the sequence ZXY. -/
theorem C68_zxy_matrix_differs (eps : ℝ) (h0 : 0 < eps) :
    ∃ e f m n, e.eq f = .ok true ∧ e.sequence = .zxy ∧ RotMat.EulerAngle eps e = .ok m ∧ RotMat.EulerAngle eps f = .ok n ∧ m ≠ n := by
  have d180 : Measures ⟨some 180, .degree⟩ (1 / 2) := Angle.measures_mk.2 ⟨by decide, by norm_num [perTurn]⟩
  have d270 : Measures ⟨some 270, .degree⟩ (3 / 4) := Angle.measures_mk.2 ⟨by decide, by norm_num [perTurn]⟩
  have hP : Measures Angle.Pi (1 / 2) := Angle.measures_mk.2 ⟨by decide, by simp [perTurn]⟩
  refine ⟨⟨⟨some 90, .degree⟩, ⟨some 0, .degree⟩, ⟨some 0, .degree⟩, .zxy⟩, ⟨⟨some 270, .degree⟩, ⟨some 180, .degree⟩, ⟨some 180, .degree⟩, .zxy⟩,
    _, _, ?_, rfl, matEuler_eq h0 quarter_degrees zero_degrees zero_degrees (by simp), matEuler_eq h0 d270 d180 d180 (by simp), ?_⟩
  · obtain ⟨a, ha, ha'⟩ := Angle.eq_spec quarter_degrees d270
    have hna : a = false := by
      rw [← Bool.not_eq_true, ha']
      rintro ⟨k, hk⟩
      have h1 : (-1 : ℝ) < k := by rw [← hk]; norm_num
      have h2 : (k : ℝ) < 0 := by rw [← hk]; norm_num
      have h3 : (-1 : ℤ) < k := by exact_mod_cast h1
      have h4 : k < 0 := by exact_mod_cast h2
      omega
    obtain ⟨x, hx, hxm, -⟩ := (C19_arithmetic ⟨some 90, .degree⟩ Angle.Pi _ _ quarter_degrees hP 1).1
    obtain ⟨y, hy, hym, -⟩ := (C19_arithmetic Angle.Pi ⟨some 0, .degree⟩ _ _ hP zero_degrees 1).2.1
    obtain ⟨z, hz, hzm, -⟩ := (C19_arithmetic ⟨some 0, .degree⟩ Angle.Pi _ _ zero_degrees hP 1).1
    obtain ⟨a2, ha2, ha2'⟩ := Angle.eq_spec hxm d270
    obtain ⟨b2, hb2, hb2'⟩ := Angle.eq_spec hym d180
    obtain ⟨c2, hc2, hc2'⟩ := Angle.eq_spec hzm d180
    have e1 : a2 = true := ha2'.2 ⟨0, by norm_num⟩
    have e2 : b2 = true := hb2'.2 ⟨0, by norm_num⟩
    have e3 : c2 = true := hc2'.2 ⟨0, by norm_num⟩
    subst hna; subst e1; subst e2; subst e3
    have hd : ∀ x y z : ℝ, Euler.isDefined ⟨⟨some x, .degree⟩, ⟨some y, .degree⟩, ⟨some z, .degree⟩, .zxy⟩ = true := by
      intro x y z; simp [Euler.isDefined, Angle.isDefined]
    simp only [Euler.eq, hd, Bool.not_true, Bool.or_self, Bool.false_eq_true, if_false, ne_eq, not_true_eq_false, ha, Euler.eqShifted, hx, hy,
      hz, ha2, hb2, hc2, Euler.eq3, bind, Except.bind, pure, Except.pure, if_true]
  · intro h
    have := congrArg M3.m20 h
    rw [quarter_angle, show (3 : ℝ) / 4 * (2 * Real.pi) = Real.pi / 2 + Real.pi by ring, show (1 : ℝ) / 2 * (2 * Real.pi) = Real.pi by ring] at this
    simp [matEuler, RotMat.rx, RotMat.ry, RotMat.rz, M3.mul, Real.cos_add_pi, Real.sin_add_pi] at this
    norm_num at this

end Verif.Props
