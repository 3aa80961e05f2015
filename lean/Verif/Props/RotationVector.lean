import Verif.Lemmas.RotationConv
import Verif.Props.Angle
import Verif.Props.Quaternion

/-!
# Rotation vectors and elementary rotations (C27, C28, C70, C71)
-/

namespace Verif.Props

open Verif Verif.Spec

set_option linter.flexible false

/-- An angle of `x` turns in radians. -/
theorem inRadian {a : Angle} {x : ℝ} (h : Measures a x) : a.inUnit .radian = .ok (x * (2 * Real.pi)) :=
  Angle.inUnit_eq h (by simp)

theorem measures_radian (t : ℝ) : Measures ⟨some t, .radian⟩ (t / (2 * Real.pi)) := by
  rw [Angle.measures_mk]
  refine ⟨by simp, ?_⟩
  have := Real.pi_ne_zero
  simp only [perTurn]; field_simp

/-! ## C27 -/

/-- **C27.** A defined rotation vector made by a constructor has a unit axis. -/
theorem C27_axis_unit (eps : ℝ) (heps : eps < 1) (a : V3) (t : Angle) (r : RotVec) (u : AUnit) :
    (RotVec.mk1 eps (some a) t = .ok r → ∃ b : V3, r.axis = some b ∧ b.norm = 1 ∧ b = (1 / a.norm) • a ∧ r.angle = t) ∧
    (∃ b : V3, (RotVec.mk2 (some a) u).axis = some b ∧ b.norm = 1 ∧ (a ≠ 0 → a.norm • b = a) ∧
      (RotVec.mk2 (some a) u).angle = ⟨some a.norm, u⟩) := by
  constructor
  · intro h
    simp only [RotVec.mk1] at h
    split_ifs at h with h1
    have h2 : 0 < a.norm := by
      have := (abs_le.1 (not_lt.1 h1)).1
      linarith
    have h3 : 0 < a.normSq := by rw [← V3.norm_sq]; positivity
    cases h
    exact ⟨a.normalized, rfl, V3.norm_of_normSq_one (V3.normSq_normalized h3), V3.normalized_eq h3, rfl⟩
  · by_cases h : a.normSq = 0
    · have h0 := V3.normSq_eq_zero.1 h
      have hz : a.normalized = 0 := by rw [V3.normalized, if_neg (by rw [h]; exact lt_irrefl 0), h0]
      simp only [RotVec.mk2, hz, if_true]
      exact ⟨V3.Z, rfl, by simp [V3.norm, V3.normSq, V3.dot, V3.Z], fun h => absurd h0 h, trivial⟩
    · have h3 : 0 < a.normSq := lt_of_le_of_ne a.normSq_nonneg (Ne.symm h)
      have hz : a.normalized ≠ 0 := by
        intro hz
        have := V3.normSq_normalized h3
        rw [hz] at this
        simp [V3.normSq, V3.dot] at this
      simp only [RotVec.mk2, hz, if_false]
      refine ⟨a.normalized, rfl, V3.norm_of_normSq_one (V3.normSq_normalized h3), fun _ => ?_, trivial⟩
      have := (V3.norm_pos h3).ne'
      rw [V3.normalized_eq h3]
      ext <;> simp <;> field_simp

example : ∃ b : V3, (RotVec.mk2 (some ⟨3, 0, 4⟩) .degree).axis = some b ∧ b.norm = 1 :=
  let ⟨b, h1, h2, _⟩ := (C27_axis_unit (1 / 2) (by norm_num) ⟨3, 0, 4⟩ Angle.Zero ⟨none, Angle.Zero⟩ .degree).2
  ⟨b, h1, h2⟩

/-- **C27.** The quaternion and the matrix of a rotation vector are the same proper rotation, given by Rodrigues' formula:
it fixes the axis and has the trace `1 + 2 cos`. -/
theorem C27_conversions (eps : ℝ) (h0 : 0 < eps) (h1 : eps ≤ 1) (a : V3) (ha : a.norm = 1) (t : Angle) (x : ℝ) (ht : Measures t x) :
    ∃ q m, Quat.RotationVector eps ⟨some a, t⟩ = .ok q ∧ RotMat.RotationVector eps ⟨some a, t⟩ = .ok m ∧
      Unitary q ∧ IsRotation m ∧ RotMat.Quaternion eps (some q) = .ok m ∧ m.mulVec a = a ∧
      m.m00 + m.m11 + m.m22 = 1 + 2 * Real.cos (2 * Real.pi * x) ∧
      ∀ v : V3, m.mulVec v = Real.cos (2 * Real.pi * x) • v + ((1 - Real.cos (2 * Real.pi * x)) * a.dot v) • a -
        Real.sin (2 * Real.pi * x) • a.cross v := by
  have hs : a.normSq = 1 := by rw [← V3.norm_sq, ha, one_pow]
  have hu := RotMat.unitary_axis hs (x * (2 * Real.pi))
  have hm := RotMat.ofQuat_axis hs (x * (2 * Real.pi))
  have hr : IsRotation (RotMat.ofAxis a (x * (2 * Real.pi))) := by rw [← hm]; exact RotMat.ofQuat_isRotation hu
  have hc : x * (2 * Real.pi) = 2 * Real.pi * x := by ring
  have hrod : ∀ v : V3, (RotMat.ofAxis a (x * (2 * Real.pi))).mulVec v = Real.cos (2 * Real.pi * x) • v +
      ((1 - Real.cos (2 * Real.pi * x)) * a.dot v) • a - Real.sin (2 * Real.pi * x) • a.cross v := by
    intro v
    rw [hc]
    ext <;> simp [RotMat.ofAxis, M3.mulVec, V3.dot, V3.cross] <;> ring
  refine ⟨_, _, ?_, ?_, hu, hr, ?_, ?_, ?_, hrod⟩
  · simp only [Quat.RotationVector, need, inRadian ht, bind, Except.bind, Quat.normalize_of_unitary hu h1]
  · simp only [RotMat.RotationVector, need, inRadian ht, bind, Except.bind, RotMat.mk_of_isRotation h0 hr]
  · rw [← hm]; exact rotMat_quaternion_eq h0 hu
  · rw [hrod]
    have : a.dot a = 1 := hs
    rw [this]
    ext <;> simp [V3.cross] <;> ring
  · simp only [V3.normSq, V3.dot] at hs
    rw [← hc]; simp only [RotMat.ofAxis]
    linear_combination (1 - Real.cos (x * (2 * Real.pi))) * hs

example : ∃ m, RotMat.RotationVector (1 / 1000) ⟨some ⟨0, 3 / 5, 4 / 5⟩, ⟨some 90, .degree⟩⟩ = .ok m ∧ m.m00 + m.m11 + m.m22 = 1 := by
  have hn : (⟨0, 3 / 5, 4 / 5⟩ : V3).norm = 1 := by norm_num [V3.norm, V3.normSq, V3.dot]
  obtain ⟨q, m, -, h2, -, -, -, -, h, -⟩ := C27_conversions (1 / 1000) (by norm_num) (by norm_num) _ hn _ _ quarter_degrees
  refine ⟨m, h2, ?_⟩
  rw [h, show 2 * Real.pi * (1 / 4) = Real.pi / 2 by ring]; simp

/-- **C27.** Negating axis and angle, or adding turns, does not change the rotation. -/
theorem C27_same_rotation (eps : ℝ) (a : V3) (t t' : Angle) (x y : ℝ) (ht : Measures t x) (ht' : Measures t' y) :
    (SameDirection x y → RotMat.RotationVector eps ⟨some a, t⟩ = RotMat.RotationVector eps ⟨some a, t'⟩) ∧
    (SameDirection x (-y) → RotMat.RotationVector eps ⟨some a, t⟩ = RotMat.RotationVector eps ⟨some (-a), t'⟩) := by
  constructor
  · rintro ⟨k, hk⟩
    simp only [RotMat.RotationVector, need, inRadian ht, inRadian ht', bind, Except.bind]
    rw [show x * (2 * Real.pi) = y * (2 * Real.pi) + k * (2 * Real.pi) by rw [← hk]; ring, RotMat.ofAxis_turns]
  · rintro ⟨k, hk⟩
    simp only [RotMat.RotationVector, need, inRadian ht, inRadian ht', bind, Except.bind]
    rw [show x * (2 * Real.pi) = -(y * (2 * Real.pi)) + k * (2 * Real.pi) by rw [← hk]; ring, RotMat.ofAxis_turns,
      ← RotMat.ofAxis_neg, neg_neg]

/-- **C27.** Rotation vectors that are `==` are the same rotation. -/
theorem C27_equal_vectors (eps : ℝ) (r s : RotVec) (h : r.eq s = .ok true) :
    RotMat.RotationVector eps r = RotMat.RotationVector eps s := by
  obtain ⟨ra, rt⟩ := r
  obtain ⟨sa, st⟩ := s
  cases hd : RotVec.isDefined ⟨ra, rt⟩ with
  | false => simp [RotVec.eq, hd, pure, Except.pure] at h
  | true =>
  cases hd' : RotVec.isDefined ⟨sa, st⟩ with
  | false => simp [RotVec.eq, hd, hd', pure, Except.pure] at h
  | true =>
  simp only [RotVec.isDefined, Bool.and_eq_true, Option.isSome_iff_exists] at hd hd'
  obtain ⟨⟨a, rfl⟩, h1⟩ := hd
  obtain ⟨⟨b, rfl⟩, h2⟩ := hd'
  obtain ⟨x, hx⟩ := (Angle.defined_iff rt).1 h1
  obtain ⟨y, hy⟩ := (Angle.defined_iff st).1 h2
  have zx := Angle.isZero_eq hx
  have zy := Angle.isZero_eq hy
  obtain ⟨n, hn, hny, -⟩ := (C19_arithmetic st st y y hy hy 0).2.2.2.2.1
  obtain ⟨e1, he1, hf1⟩ := Angle.eq_spec hx hy
  obtain ⟨e2, he2, hf2⟩ := Angle.eq_spec hx hny
  simp only [RotVec.eq, RotVec.isDefined, Option.isSome_some, h1, h2, Bool.and_self, zx, zy, hn, he1, he2, bind, Except.bind, pure,
    Except.pure] at h
  by_cases hz : x = 0 ∧ y = 0
  · obtain ⟨rfl, rfl⟩ := hz
    simp only [RotMat.RotationVector, need, inRadian hx, inRadian hy, bind, Except.bind, zero_mul, RotMat.ofAxis_zero]
  · have hz' : ¬ (decide (x = 0) && decide (y = 0)) = true := by
      simpa only [Bool.and_eq_true, decide_eq_true_eq] using hz
    simp only [hz', Bool.false_eq_true, if_false, Except.ok.injEq, Bool.or_eq_true, Bool.and_eq_true, decide_eq_true_eq] at h
    rcases h with ⟨rfl, h⟩ | ⟨rfl, h⟩
    · exact (C27_same_rotation eps a rt st x y hx hy).1 (hf1.1 h)
    · have := (C27_same_rotation eps (-b) rt st x y hx hy).2 (hf2.1 h)
      rw [show - -b = b by ext <;> simp] at this
      exact this

/-- **C27.** From a unitary quaternion to a rotation vector and back. -/
theorem C27_quaternion_roundtrip (eps : ℝ) (h0 : 0 < eps) (h1 : eps ≤ 1) (q : Quat) (hq : Unitary q) :
    ∃ r p, RotVec.Quaternion eps (some q) = .ok r ∧ Quat.RotationVector eps r = .ok p ∧ SameUpToSign p q := by
  have hs : q.x ^ 2 + q.y ^ 2 + q.z ^ 2 + q.s ^ 2 = 1 := hq
  by_cases hu : (q.beq Quat.Unit || decide (|q.s| = 1)) = true
  · have hs1 : q = Quat.Unit ∨ q = Quat.Unit.scale (-1) := by
      simp only [Bool.or_eq_true, decide_eq_true_eq, Quat.beq_iff] at hu
      rcases hu with hu | hu
      · exact hu
      · have hss : q.s ^ 2 = 1 := by rw [← sq_abs, hu, one_pow]
        have hx : q.x = 0 := by nlinarith [sq_nonneg q.x, sq_nonneg q.y, sq_nonneg q.z]
        have hy : q.y = 0 := by nlinarith [sq_nonneg q.x, sq_nonneg q.y, sq_nonneg q.z]
        have hz : q.z = 0 := by nlinarith [sq_nonneg q.x, sq_nonneg q.y, sq_nonneg q.z]
        rcases eq_or_eq_neg_of_abs_eq hu with hu | hu
        · left; ext <;> simp [hx, hy, hz, hu]
        · right; ext <;> simp [hx, hy, hz, hu]
    have hZ : V3.Z.norm = 1 := by simp [V3.norm, V3.normSq, V3.dot, V3.Z]
    have hZn : V3.Z.normalized = V3.Z := by
      rw [V3.normalized_eq (by simp [V3.normSq, V3.dot, V3.Z]), hZ]; ext <;> simp
    refine ⟨⟨some V3.Z, Angle.Zero⟩, Quat.Unit, ?_, ?_, ?_⟩
    · simp only [RotVec.Quaternion, need, Quat.isUnitary_of_unitary hq h0, bind, Except.bind, hu, if_true, RotVec.Unit, RotVec.mk1, hZ,
        hZn, sub_self, abs_zero, not_lt.2 h0.le, if_false, Bool.not_true, Bool.false_eq_true, gt_iff_lt]
    · have hz : Angle.Zero.inUnit .radian = .ok 0 := by simp [Angle.inUnit, Angle.Zero, Angle.isDefined]
      have : Quat.mk' (Real.sin (0 / 2) • V3.Z) (Real.cos (0 / 2)) = Quat.Unit := by ext <;> simp
      simp only [Quat.RotationVector, need, hz, bind, Except.bind, this]
      exact Quat.normalize_of_unitary (by norm_num [Unitary, Quat.Unit]) h1
    · rcases hs1 with rfl | rfl
      · left; rfl
      · right; ext <;> simp
  · have hns : q.s ^ 2 ≠ 1 := by
      intro h
      apply hu
      have : |q.s| = 1 := by rw [← sq_eq_sq₀ (abs_nonneg _) zero_le_one, sq_abs, h, one_pow]
      simp [this]
    have hv : 0 < 1 - q.s * q.s := by
      rcases lt_or_eq_of_le (show q.s ^ 2 ≤ 1 by nlinarith [sq_nonneg q.x, sq_nonneg q.y, sq_nonneg q.z]) with h | h
      · nlinarith
      · exact absurd h hns
    have hr : 0 < √ (1 - q.s * q.s) := Real.sqrt_pos.2 hv
    have hr2 : √ (1 - q.s * q.s) * √ (1 - q.s * q.s) = 1 - q.s * q.s := Real.mul_self_sqrt hv.le
    have hsl : -1 ≤ q.s ∧ q.s ≤ 1 := abs_le.1 (abs_le_one_iff_mul_self_le_one.2 (by linarith))
    obtain ⟨r, hrdef⟩ : ∃ r, r = √ (1 - q.s * q.s) := ⟨_, rfl⟩
    rw [← hrdef] at hr hr2
    obtain ⟨a, hadef⟩ : ∃ a : V3, a = (1 / r) • q.vec := ⟨_, rfl⟩
    have hnorm : a.normSq = 1 := by
      simp only [hadef, V3.normSq, V3.dot, V3.smul_x, V3.smul_y, V3.smul_z, Quat.vec_x, Quat.vec_y, Quat.vec_z]
      field_simp
      linarith
    have han : a.normalized = a := by
      rw [V3.normalized_eq (by rw [hnorm]; exact one_pos), V3.norm_of_normSq_one hnorm]; ext <;> simp
    refine ⟨⟨some a, ⟨some (2 * Real.arccos q.s), .radian⟩⟩, q, ?_, ?_, Or.inl rfl⟩
    · simp only [RotVec.Quaternion, need, Quat.isUnitary_of_unitary hq h0, bind, Except.bind, hu, if_false, RotVec.mk1, ← hrdef, ← hadef, han,
        V3.norm_of_normSq_one hnorm, sub_self, abs_zero, not_lt.2 h0.le, Bool.not_true, Bool.false_eq_true, gt_iff_lt]
    · have hz : (⟨some (2 * Real.arccos q.s), .radian⟩ : Angle).inUnit .radian = .ok (2 * Real.arccos q.s) := by
        simp [Angle.inUnit, Angle.isDefined]
      have : Quat.mk' (Real.sin (2 * Real.arccos q.s / 2) • a) (Real.cos (2 * Real.arccos q.s / 2)) = q := by
        rw [mul_div_cancel_left₀ _ (two_ne_zero), Real.cos_arccos hsl.1 hsl.2, Real.sin_arccos, pow_two, ← hrdef]
        ext <;> simp [hadef] <;> field_simp
      simp only [Quat.RotationVector, need, hz, bind, Except.bind, this]
      exact Quat.normalize_of_unitary hq h1

example : ∃ r p, RotVec.Quaternion (1 / 1000) (some ⟨1 / 5, -2 / 5, 2 / 5, -4 / 5⟩) = .ok r ∧
    Quat.RotationVector (1 / 1000) r = .ok p ∧ SameUpToSign p ⟨1 / 5, -2 / 5, 2 / 5, -4 / 5⟩ :=
  C27_quaternion_roundtrip _ (by norm_num) (by norm_num) _ unitary_example'.1

/-- **C27.** Conversions of an undefined rotation vector throw. -/
theorem C27_undefined (eps : ℝ) (r : RotVec) (h : r.isDefined = false) :
    RotMat.RotationVector eps r = .error .undefined ∧ Quat.RotationVector eps r = .error .undefined ∧ r.rectify = .error .undefined := by
  obtain ⟨a, t⟩ := r
  cases a with
  | none => exact ⟨rfl, rfl, by simp [RotVec.rectify, h]⟩
  | some a =>
    have ht : t.isDefined = false := by simpa [RotVec.isDefined] using h
    refine ⟨?_, ?_, by simp [RotVec.rectify, h]⟩ <;>
      simp [RotMat.RotationVector, Quat.RotationVector, need, Angle.inUnit_undefined ht, bind, Except.bind]

/-! ## C28 -/

/-- **C28.** An elementary rotation is a proper rotation and the rotation about its axis. -/
theorem C28_elementary (eps : ℝ) (h0 : 0 < eps) (a : Angle) (x : ℝ) (ha : Measures a x) :
    (∃ m, RotMat.RX eps a = .ok m ∧ IsRotation m ∧ RotMat.RotationVector eps ⟨some ⟨1, 0, 0⟩, a⟩ = .ok m ∧
      m.mulVec ⟨0, 1, 0⟩ = ⟨0, Real.cos (2 * Real.pi * x), -Real.sin (2 * Real.pi * x)⟩) ∧
    (∃ m, RotMat.RY eps a = .ok m ∧ IsRotation m ∧ RotMat.RotationVector eps ⟨some ⟨0, 1, 0⟩, a⟩ = .ok m ∧
      m.mulVec ⟨0, 0, 1⟩ = ⟨-Real.sin (2 * Real.pi * x), 0, Real.cos (2 * Real.pi * x)⟩) ∧
    (∃ m, RotMat.RZ eps a = .ok m ∧ IsRotation m ∧ RotMat.RotationVector eps ⟨some ⟨0, 0, 1⟩, a⟩ = .ok m ∧
      m.mulVec ⟨1, 0, 0⟩ = ⟨Real.cos (2 * Real.pi * x), -Real.sin (2 * Real.pi * x), 0⟩) := by
  have hc : 2 * Real.pi * x = x * (2 * Real.pi) := by ring
  have hx := RotMat.isRotation_rx (x * (2 * Real.pi))
  have hy := RotMat.isRotation_ry (x * (2 * Real.pi))
  have hz := RotMat.isRotation_rz (x * (2 * Real.pi))
  refine ⟨⟨_, ?_, hx, ?_, ?_⟩, ⟨_, ?_, hy, ?_, ?_⟩, ⟨_, ?_, hz, ?_, ?_⟩⟩
  · simp only [RotMat.RX, inRadian ha, bind, Except.bind, RotMat.mk_of_isRotation h0 hx]
  · simp only [RotMat.RotationVector, need, inRadian ha, bind, Except.bind]
    rw [show (⟨1, 0, 0⟩ : V3) = V3.X from rfl, ← RotMat.rx_eq_ofAxis, RotMat.mk_of_isRotation h0 hx]
  · rw [hc]; ext <;> simp [M3.mulVec, RotMat.rx]
  · simp only [RotMat.RY, inRadian ha, bind, Except.bind, RotMat.mk_of_isRotation h0 hy]
  · simp only [RotMat.RotationVector, need, inRadian ha, bind, Except.bind]
    rw [show (⟨0, 1, 0⟩ : V3) = V3.Y from rfl, ← RotMat.ry_eq_ofAxis, RotMat.mk_of_isRotation h0 hy]
  · rw [hc]; ext <;> simp [M3.mulVec, RotMat.ry]
  · simp only [RotMat.RZ, inRadian ha, bind, Except.bind, RotMat.mk_of_isRotation h0 hz]
  · simp only [RotMat.RotationVector, need, inRadian ha, bind, Except.bind]
    rw [show (⟨0, 0, 1⟩ : V3) = V3.Z from rfl, ← RotMat.rz_eq_ofAxis, RotMat.mk_of_isRotation h0 hz]
  · rw [hc]; ext <;> simp [M3.mulVec, RotMat.rz]

/-- **C28.** Products and transposes of elementary rotations about the same axis. -/
theorem C28_compose (eps : ℝ) (h0 : 0 < eps) (a b : Angle) (x y : ℝ) (ha : Measures a x) (hb : Measures b y) :
    ∃ c n, a.add b = .ok c ∧ a.neg = .ok n ∧
    ∀ R, R = RotMat.RX eps ∨ R = RotMat.RY eps ∨ R = RotMat.RZ eps →
      ∃ ra rb rc rn, R a = .ok ra ∧ R b = .ok rb ∧ R c = .ok rc ∧ R n = .ok rn ∧ RotMat.mul eps (some ra) (some rb) = .ok rc ∧
        RotMat.toTransposed eps (some ra) = .ok rn ∧ RotMat.transpose (some ra) = .ok rn := by
  obtain ⟨⟨c, hc, hcm, -⟩, -, -, -, ⟨n, hn, hnm, -⟩, -⟩ := C19_arithmetic a b x y ha hb 1
  refine ⟨c, n, hc, hn, ?_⟩
  have e1 : (x + y) * (2 * Real.pi) = x * (2 * Real.pi) + y * (2 * Real.pi) := by ring
  have e2 : -x * (2 * Real.pi) = -(x * (2 * Real.pi)) := by ring
  rintro R (rfl | rfl | rfl)
  · have hr := fun t => RotMat.mk_of_isRotation h0 (RotMat.isRotation_rx t)
    refine ⟨RotMat.rx (x * (2 * Real.pi)), RotMat.rx (y * (2 * Real.pi)), RotMat.rx ((x + y) * (2 * Real.pi)),
      RotMat.rx (-x * (2 * Real.pi)), ?_, ?_, ?_, ?_, ?_, ?_, ?_⟩ <;>
      simp only [RotMat.RX, RotMat.mul, RotMat.toTransposed, RotMat.transpose, need, inRadian ha, inRadian hb, inRadian hcm,
        inRadian hnm, bind, Except.bind, hr, RotMat.rx_mul, e1, e2, RotMat.rx_transpose, pure, Except.pure]
  · have hr := fun t => RotMat.mk_of_isRotation h0 (RotMat.isRotation_ry t)
    refine ⟨RotMat.ry (x * (2 * Real.pi)), RotMat.ry (y * (2 * Real.pi)), RotMat.ry ((x + y) * (2 * Real.pi)),
      RotMat.ry (-x * (2 * Real.pi)), ?_, ?_, ?_, ?_, ?_, ?_, ?_⟩ <;>
      simp only [RotMat.RY, RotMat.mul, RotMat.toTransposed, RotMat.transpose, need, inRadian ha, inRadian hb, inRadian hcm,
        inRadian hnm, bind, Except.bind, hr, RotMat.ry_mul, e1, e2, RotMat.ry_transpose, pure, Except.pure]
  · have hr := fun t => RotMat.mk_of_isRotation h0 (RotMat.isRotation_rz t)
    refine ⟨RotMat.rz (x * (2 * Real.pi)), RotMat.rz (y * (2 * Real.pi)), RotMat.rz ((x + y) * (2 * Real.pi)),
      RotMat.rz (-x * (2 * Real.pi)), ?_, ?_, ?_, ?_, ?_, ?_, ?_⟩ <;>
      simp only [RotMat.RZ, RotMat.mul, RotMat.toTransposed, RotMat.transpose, need, inRadian ha, inRadian hb, inRadian hcm,
        inRadian hnm, bind, Except.bind, hr, RotMat.rz_mul, e1, e2, RotMat.rz_transpose, pure, Except.pure]

example : ∃ c n, (⟨some 90, .degree⟩ : Angle).add ⟨some 90, .degree⟩ = .ok c ∧ (⟨some 90, .degree⟩ : Angle).neg = .ok n ∧
    ∀ R, R = RotMat.RX 1 ∨ R = RotMat.RY 1 ∨ R = RotMat.RZ 1 → ∃ ra rb rc rn, R ⟨some 90, .degree⟩ = .ok ra ∧
      R ⟨some 90, .degree⟩ = .ok rb ∧ R c = .ok rc ∧ R n = .ok rn ∧ RotMat.mul 1 (some ra) (some rb) = .ok rc ∧
        RotMat.toTransposed 1 (some ra) = .ok rn ∧ RotMat.transpose (some ra) = .ok rn :=
  C28_compose 1 one_pos _ _ _ _ quarter_degrees quarter_degrees

/-- **C28.** An undefined angle throws. -/
theorem C28_undefined (eps : ℝ) (a : Angle) (h : a.isDefined = false) :
    RotMat.RX eps a = .error .undefined ∧ RotMat.RY eps a = .error .undefined ∧ RotMat.RZ eps a = .error .undefined := by
  simp [RotMat.RX, RotMat.RY, RotMat.RZ, Angle.inUnit_undefined h, bind, Except.bind]

/-! ## C70 -/

/-- Every rotation is that of a unitary quaternion with non-negative scalar part. -/
theorem quat_of_rotation_nonneg {m : M3} (hm : IsRotation m) : ∃ q : Quat, Unitary q ∧ RotMat.ofQuat q = m ∧ 0 ≤ q.s := by
  obtain ⟨q, -, hq, rfl⟩ := quat_of_rotation (eps := 1) (by norm_num) hm
  rcases le_total 0 q.s with h | h
  · exact ⟨q, hq, rfl, h⟩
  · refine ⟨q.scale (-1), ?_, ?_, by simpa using h⟩
    · rw [Quat.unitary_iff] at *; rw [Quat.normSq_scale, hq]; norm_num
    · ext <;> simp [RotMat.ofQuat]

/-- **C70.** The rotation vector of a rotation matrix performs the rotation of the matrix. Missing from the full statement: the
half turns, where the code throws (`C70_half_turn_throws`), and the rotations by less than `eps` other than the identity, for
which the code returns a rotation by the same angle about the X axis (`C70_small_angle`). -/
theorem C70_roundtrip_partial (eps : ℝ) (h0 : 0 < eps) (m : M3) (hm : IsRotation m) (ht : -1 < m.m00 + m.m11 + m.m22)
    (hbig : eps ≤ Real.arccos ((m.m00 + m.m11 + m.m22 - 1) / 2)) :
    ∃ r, RotVec.RotationMatrix eps (some m) = .ok r ∧ RotMat.RotationVector eps r = .ok m := by
  have hm' := hm
  obtain ⟨q, hq, rfl, hs⟩ := quat_of_rotation_nonneg hm
  have hn : q.x ^ 2 + q.y ^ 2 + q.z ^ 2 + q.s ^ 2 = 1 := hq
  obtain ⟨t, htdef⟩ : ∃ t, t = Real.arccos ((RotMat.ofQuat q).trace / 2 - 1 / 2) := ⟨_, rfl⟩
  have htr : (RotMat.ofQuat q).trace = 4 * q.s ^ 2 - 1 := by
    simp only [M3.trace, RotMat.ofQuat]; linarith
  have htr' : (RotMat.ofQuat q).m00 + (RotMat.ofQuat q).m11 + (RotMat.ofQuat q).m22 = 4 * q.s ^ 2 - 1 := htr
  have hs' : 0 < q.s := by
    rw [htr'] at ht
    rcases hs.lt_or_eq with h | h
    · exact h
    · rw [← h] at ht; norm_num at ht
  have hs1 : q.s ^ 2 ≤ 1 := by nlinarith [sq_nonneg q.x, sq_nonneg q.y, sq_nonneg q.z]
  have hcos : Real.cos t = 2 * q.s ^ 2 - 1 := by
    rw [htdef, htr, Real.cos_arccos] <;> nlinarith [sq_nonneg q.s]
  have ht0 : 0 ≤ t := htdef ▸ Real.arccos_nonneg _
  have htpi : t ≤ Real.pi := htdef ▸ Real.arccos_le_pi _
  have hteps : eps ≤ t := by
    rw [htdef]; rw [htr'] at hbig; rw [htr]
    convert hbig using 2; ring
  have hc2 : Real.cos (t / 2) = q.s := by
    rw [Real.cos_half (by linarith) htpi, hcos, show (1 + (2 * q.s ^ 2 - 1)) / 2 = q.s ^ 2 by ring, Real.sqrt_sq hs]
  have hv : 0 < q.vec.normSq := by
    have h2 : q.vec.normSq = 1 - q.s ^ 2 := by simp only [V3.normSq, V3.dot, Quat.vec_x, Quat.vec_y, Quat.vec_z]; linarith
    rw [h2]
    rcases hs1.lt_or_eq with h | h
    · linarith
    · exfalso
      rw [h] at hcos
      have : t = 0 := by
        have h3 := Real.arccos_cos ht0 htpi
        rw [hcos] at h3
        rw [← h3]; norm_num
      linarith
  have hsin : Real.sin (t / 2) = q.vec.norm := by
    have h2 : q.vec.normSq = 1 - q.s ^ 2 := by simp only [V3.normSq, V3.dot, Quat.vec_x, Quat.vec_y, Quat.vec_z]; linarith
    rw [Real.sin_half_eq_sqrt ht0 (by linarith [Real.pi_pos]), hcos, V3.norm, h2]
    congr 1; ring
  have hvec : (⟨(RotMat.ofQuat q).m12 - (RotMat.ofQuat q).m21, (RotMat.ofQuat q).m20 - (RotMat.ofQuat q).m02,
      (RotMat.ofQuat q).m01 - (RotMat.ofQuat q).m10⟩ : V3) = (4 * q.s) • q.vec := by
    ext <;> simp [RotMat.ofQuat] <;> ring
  have hnorm : ((4 * q.s) • q.vec).normalized = q.vec.normalized := V3.normalized_smul (by linarith) hv
  have hnn : q.vec.normalized.normalized = q.vec.normalized := V3.normalized_normalized hv
  have hone : q.vec.normalized.norm = 1 := V3.norm_of_normSq_one (V3.normSq_normalized hv)
  refine ⟨⟨some q.vec.normalized, ⟨some t, .radian⟩⟩, ?_, ?_⟩
  · have h1 : ((RotMat.ofQuat q).trace - 1) / 2 = (RotMat.ofQuat q).trace / 2 - 1 / 2 := by ring
    simp only [RotVec.RotationMatrix, need, bind, Except.bind, h1, ← htdef, abs_of_nonneg ht0, not_lt.2 hteps, if_false, hvec, hnorm,
      RotVec.mk1, hone, hnn, sub_self, abs_zero, gt_iff_lt, not_lt.2 h0.le]
  · have hz : (⟨some t, .radian⟩ : Angle).inUnit .radian = .ok t := by simp [Angle.inUnit, Angle.isDefined]
    have h1 : RotMat.ofAxis q.vec.normalized t = RotMat.ofQuat q := by
      rw [← RotMat.ofQuat_axis (V3.normSq_normalized hv), hc2, hsin, V3.normalized_eq hv]
      have := (V3.norm_pos hv).ne'
      congr 1
      ext <;> simp <;> field_simp
    simp only [RotMat.RotationVector, need, hz, bind, Except.bind, h1, RotMat.mk_of_isRotation h0 hm']

/-- **C70.** Rotations by less than `eps`: the returned vector is a rotation by the same angle, and is right for the identity. -/
theorem C70_small_angle (eps : ℝ) (h0 : 0 < eps) (m : M3) (hm : IsRotation m)
    (hs : Real.arccos ((m.m00 + m.m11 + m.m22 - 1) / 2) < eps) :
    ∃ r n, RotVec.RotationMatrix eps (some m) = .ok r ∧ RotMat.RotationVector eps r = .ok n ∧
      n.m00 + n.m11 + n.m22 = m.m00 + m.m11 + m.m22 ∧ (m = M3.one → n = m) := by
  obtain ⟨q, hq, rfl, hs0⟩ := quat_of_rotation_nonneg hm
  have hn : q.x ^ 2 + q.y ^ 2 + q.z ^ 2 + q.s ^ 2 = 1 := hq
  have htr : (RotMat.ofQuat q).m00 + (RotMat.ofQuat q).m11 + (RotMat.ofQuat q).m22 = 4 * q.s ^ 2 - 1 := by
    simp only [RotMat.ofQuat]; linarith
  have hs1 : q.s ^ 2 ≤ 1 := by nlinarith [sq_nonneg q.x, sq_nonneg q.y, sq_nonneg q.z]
  obtain ⟨t, htdef⟩ : ∃ t, t = Real.arccos (((RotMat.ofQuat q).m00 + (RotMat.ofQuat q).m11 + (RotMat.ofQuat q).m22 - 1) / 2) := ⟨_, rfl⟩
  rw [← htdef] at hs
  have hcos : Real.cos t = 2 * q.s ^ 2 - 1 := by
    rw [htdef, htr, Real.cos_arccos] <;> nlinarith [sq_nonneg q.s]
  have ht0 : 0 ≤ t := htdef ▸ Real.arccos_nonneg _
  have hX : V3.X.norm = 1 := by simp [V3.norm, V3.normSq, V3.dot, V3.X]
  have hXn : V3.X.normalized = V3.X := by
    rw [V3.normalized_eq (by simp [V3.normSq, V3.dot, V3.X]), hX]; ext <;> simp
  have hz : (⟨some t, .radian⟩ : Angle).inUnit .radian = .ok t := by simp [Angle.inUnit, Angle.isDefined]
  refine ⟨⟨some V3.X, ⟨some t, .radian⟩⟩, RotMat.rx t, ?_, ?_, ?_, ?_⟩
  · simp only [RotVec.RotationMatrix, need, bind, Except.bind, M3.trace, ← htdef, abs_of_nonneg ht0, hs, if_true,
      RotVec.mk1, hX, hXn, sub_self, abs_zero, gt_iff_lt, not_lt.2 h0.le, if_false]
  · simp only [RotMat.RotationVector, need, hz, bind, Except.bind, ← RotMat.rx_eq_ofAxis,
      RotMat.mk_of_isRotation h0 (RotMat.isRotation_rx t)]
  · rw [htr]; simp only [RotMat.rx, hcos]; ring
  · intro h1
    have : t = 0 := by rw [htdef, h1]; norm_num [M3.one]
    rw [h1, this]
    ext <;> simp [RotMat.rx, M3.one]

/-- **C70.** A half turn about any axis has no rotation vector: the code throws. -/
theorem C70_half_turn_throws (eps : ℝ) (h0 : 0 < eps) (h1 : eps < 1) (a : V3) (ha : a.norm = 1) :
    ∃ m, RotMat.RotationVector eps ⟨some a, ⟨some 180, .degree⟩⟩ = .ok m ∧ IsRotation m ∧
      RotVec.RotationMatrix eps (some m) = .error .runtimeError := by
  have hd : Measures ⟨some 180, .degree⟩ (1 / 2) := Angle.measures_mk.2 ⟨by decide, by norm_num [perTurn]⟩
  obtain ⟨q, m, -, h2, -, h4, -, -, h5, h6⟩ := C27_conversions eps h0 h1.le a ha _ _ hd
  have hpi : 2 * Real.pi * (1 / 2) = Real.pi := by ring
  rw [hpi] at h5 h6
  refine ⟨m, h2, h4, ?_⟩
  have hx := h6 V3.X
  have hy := h6 V3.Y
  have hz := h6 V3.Z
  simp only [M3.mulVec, V3.ext_iff, V3.X, V3.Y, V3.Z, Real.cos_pi, Real.sin_pi] at hx hy hz
  simp [V3.dot] at hx hy hz
  have e1 : (⟨m.m12 - m.m21, m.m20 - m.m02, m.m01 - m.m10⟩ : V3) = 0 := by
    ext
    · simp [hz.2.1, hy.2.2]; ring
    · simp [hx.2.2, hz.1]; ring
    · simp [hy.1, hx.2.1]; ring
  have hzero : (0 : V3).normalized = 0 := by simp [V3.normalized, V3.normSq, V3.dot]
  have hzn : (0 : V3).norm = 0 := by simp [V3.norm, V3.normSq, V3.dot]
  have ht : Real.arccos ((m.trace - 1) / 2) = Real.pi := by
    rw [M3.trace, h5, Real.cos_pi]; norm_num
  have hp : ¬ |Real.pi| < eps := by
    rw [abs_of_pos Real.pi_pos]; linarith [Real.two_le_pi]
  simp only [RotVec.RotationMatrix, need, bind, Except.bind, ht, hp, if_false, e1, hzero, RotVec.mk1, hzn, gt_iff_lt]
  norm_num [h1]

example : ∃ m, RotMat.RotationVector (1 / 1000) ⟨some ⟨0, 3 / 5, 4 / 5⟩, ⟨some 180, .degree⟩⟩ = .ok m ∧ IsRotation m ∧
    RotVec.RotationMatrix (1 / 1000) (some m) = .error .runtimeError :=
  C70_half_turn_throws _ (by norm_num) (by norm_num) _ (by norm_num [V3.norm, V3.normSq, V3.dot])

/-- A quarter turn about Z meets the hypotheses of the round trip. -/
example : ∃ r, RotVec.RotationMatrix 1 (some (RotMat.rz (Real.pi / 2))) = .ok r ∧
    RotMat.RotationVector 1 r = .ok (RotMat.rz (Real.pi / 2)) := by
  refine C70_roundtrip_partial 1 one_pos _ (RotMat.isRotation_rz _) ?_ ?_
  · simp [RotMat.rz]
  · simp [RotMat.rz, Real.arccos_zero]; linarith [Real.two_le_pi]

/-! ## C71 -/

/-- **C71.** `rectify` keeps the rotation and the unit of the angle; for an angle of at most one turn in absolute value the new
angle is between 0 and half a turn. -/
theorem C71_rectify (eps : ℝ) (a : V3) (t : Angle) (x : ℝ) (ht : Measures t x) :
    ∃ r y, RotVec.rectify ⟨some a, t⟩ = .ok r ∧ Measures r.angle y ∧ (r.axis = some a ∨ r.axis = some (-a)) ∧
      RotMat.RotationVector eps r = RotMat.RotationVector eps ⟨some a, t⟩ ∧ (|x| ≤ 1 → 0 ≤ y ∧ y ≤ 1 / 2) := by
  have hpi := Real.pi_pos
  have hd : RotVec.isDefined ⟨some a, t⟩ = true := by
    simp only [RotVec.isDefined, Option.isSome_some, Bool.true_and]; exact (Angle.defined_iff t).2 ⟨x, ht⟩
  have key : ∀ (b : V3) (s : Angle) (z : ℝ), Measures s z → 0 ≤ z → ∃ r y, RotVec.rectify2 ⟨some b, s⟩ = .ok r ∧ Measures r.angle y ∧
      (r.axis = some b ∨ r.axis = some (-b)) ∧
      RotMat.RotationVector eps r = RotMat.RotationVector eps ⟨some b, s⟩ ∧ (z ≤ 1 → 0 ≤ y ∧ y ≤ 1 / 2) := by
    intro b s z hs hz
    have hP : Angle.Pi.inUnit .radian = .ok Real.pi := by simp [Angle.inUnit, Angle.Pi, Angle.isDefined]
    have hT : Measures Angle.TwoPi 1 := Angle.measures_mk.2 ⟨by decide, by simp [perTurn]; ring⟩
    by_cases hb : z * (2 * Real.pi) > Real.pi
    · have hz2 : 1 / 2 < z := by nlinarith
      obtain ⟨c, hc, hcm, -⟩ := (C19_arithmetic Angle.TwoPi s 1 z hT hs 1).2.1
      refine ⟨⟨some (-b), c⟩, 1 - z, ?_, hcm, Or.inr rfl, ?_, fun h => ⟨by linarith, by linarith⟩⟩
      · simp only [RotVec.rectify2, inRadian hs, hP, hb, if_true, hc, bind, Except.bind, pure, Except.pure, Option.map_some]
      · have h2 := (C27_same_rotation eps (-b) c s (1 - z) z hcm hs).2 ⟨1, by push_cast; ring⟩
        rw [show - -b = b by ext <;> simp] at h2
        exact h2
    · refine ⟨⟨some b, s⟩, z, ?_, hs, Or.inl rfl, rfl, fun h => ⟨hz, by nlinarith⟩⟩
      simp only [RotVec.rectify2, inRadian hs, hP, hb, if_false, bind, Except.bind, pure, Except.pure]
  by_cases hneg : x < 0
  · obtain ⟨n, hn, hnm, -⟩ := (C19_arithmetic t t x x ht ht 1).2.2.2.2.1
    obtain ⟨r, y, h1, h2, h3, h4, h5⟩ := key (-a) n (-x) hnm (by linarith)
    refine ⟨r, y, ?_, h2, ?_, ?_, fun h => h5 (by linarith [(abs_le.1 h).1])⟩
    · simp only [RotVec.rectify, hd, Bool.not_true, Bool.false_eq_true, if_false, Angle.isNegative_eq ht, hneg, decide_true, if_true, hn,
        bind, Except.bind, Option.map_some, h1]
    · rw [show - -a = a by ext <;> simp] at h3; exact h3.symm
    · rw [h4]
      exact ((C27_same_rotation eps a t n x (-x) ht hnm).2 ⟨0, by push_cast; ring⟩).symm
  · obtain ⟨r, y, h1, h2, h3, h4, h5⟩ := key a t x ht (by linarith)
    refine ⟨r, y, ?_, h2, h3, h4, fun h => h5 (by linarith [(abs_le.1 h).2])⟩
    simp only [RotVec.rectify, hd, Bool.not_true, Bool.false_eq_true, if_false, Angle.isNegative_eq ht, hneg, decide_false,
      bind, Except.bind, h1]

example : ∃ r y, RotVec.rectify ⟨some ⟨0, 3 / 5, 4 / 5⟩, ⟨some (-3 * Real.pi / 2), .radian⟩⟩ = .ok r ∧ Measures r.angle y ∧ 0 ≤ y ∧ y ≤ 1 / 2 :=
  let ⟨r, y, h1, h2, _, _, h5⟩ := C71_rectify 1 _ _ _ threeQuarters_radians
  ⟨r, y, h1, h2, h5 (by norm_num [abs_le])⟩

/-- **C71.** Beyond one turn the rectified angle may be negative: two and a half turns become minus one and a half. -/
theorem C71_not_in_range (a : V3) :
    ∃ r, RotVec.rectify ⟨some a, ⟨some 900, .degree⟩⟩ = .ok r ∧ Measures r.angle (-3 / 2) := by
  have ht : Measures ⟨some 900, .degree⟩ (5 / 2) := Angle.measures_mk.2 ⟨by decide, by norm_num [perTurn]⟩
  have hT : Measures Angle.TwoPi 1 := Angle.measures_mk.2 ⟨by decide, by simp [perTurn]; ring⟩
  have hP : Angle.Pi.inUnit .radian = .ok Real.pi := by simp [Angle.inUnit, Angle.Pi, Angle.isDefined]
  obtain ⟨c, hc, hcm, -⟩ := (C19_arithmetic Angle.TwoPi ⟨some 900, .degree⟩ 1 (5 / 2) hT ht 1).2.1
  have hb : 5 / 2 * (2 * Real.pi) > Real.pi := by nlinarith [Real.pi_pos]
  refine ⟨⟨some (-a), c⟩, ?_, by convert hcm using 1; norm_num⟩
  have hd : RotVec.isDefined ⟨some a, ⟨some 900, .degree⟩⟩ = true := by simp [RotVec.isDefined, Angle.isDefined]
  simp only [RotVec.rectify, hd, Bool.not_true, Bool.false_eq_true, if_false, Angle.isNegative_eq ht,
    show ¬ ((5 : ℝ) / 2 < 0) by norm_num, decide_false, bind, Except.bind, RotVec.rectify2, inRadian ht, hP, hb, if_true, hc, pure,
    Except.pure, Option.map_some]

end Verif.Props
