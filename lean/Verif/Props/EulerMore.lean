import Verif.Model.Euler
import Verif.Props.EulerAngle
import Verif.Props.QuaternionInterp

/-! # C100 and C101: Euler angles as vectors, and when they are near -/

namespace Verif.Props

open Verif Verif.Spec

/-! ## C100 -/

/-- C100: the vector of Euler angles in a unit, made into Euler angles again, is the same three angles -/
theorem C100_roundtrip (e : Euler) (h : e.isDefined = true) (u : AUnit) (hu : u ≠ .undefined) :
    ∃ v p t s, e.toVector u = .ok v ∧ Measures e.phi p ∧ Measures e.theta t ∧ Measures e.psi s ∧
      (let f := Euler.ofVector (some v.x) (some v.y) (some v.z) u e.sequence
       f.isDefined = true ∧ Measures f.phi p ∧ Measures f.theta t ∧ Measures f.psi s ∧ f.sequence = e.sequence ∧ f.toVector u = .ok v) := by
  have hd := h
  simp only [Euler.isDefined, Bool.and_eq_true, decide_eq_true_eq] at hd
  obtain ⟨⟨⟨h1, h2⟩, h3⟩, h4⟩ := hd
  obtain ⟨p, hp⟩ := (Angle.defined_iff _).1 h1
  obtain ⟨t, ht⟩ := (Angle.defined_iff _).1 h2
  obtain ⟨s, hs⟩ := (Angle.defined_iff _).1 h3
  have m1 : ∀ x : ℝ, Measures ⟨some (x * perTurn u), u⟩ x := fun x => Angle.measures_mk.2 ⟨hu, rfl⟩
  refine ⟨⟨p * perTurn u, t * perTurn u, s * perTurn u⟩, p, t, s, ?_, hp, ht, hs, ?_, m1 p, m1 t, m1 s, rfl, ?_⟩
  · simp [Euler.toVector, h, Angle.inUnit_eq hp hu, Angle.inUnit_eq ht hu, Angle.inUnit_eq hs hu, bind, Except.bind, pure, Except.pure]
  · simp only [Euler.isDefined, Euler.ofVector, Bool.and_eq_true, decide_eq_true_eq]
    exact ⟨⟨⟨(Angle.defined_iff _).2 ⟨_, m1 p⟩, (Angle.defined_iff _).2 ⟨_, m1 t⟩⟩, (Angle.defined_iff _).2 ⟨_, m1 s⟩⟩, decide_eq_true h4⟩
  · have hf : (Euler.ofVector (some (p * perTurn u)) (some (t * perTurn u)) (some (s * perTurn u)) u e.sequence).isDefined = true := by
      simp only [Euler.isDefined, Euler.ofVector, Bool.and_eq_true, decide_eq_true_eq]
      exact ⟨⟨⟨(Angle.defined_iff _).2 ⟨_, m1 p⟩, (Angle.defined_iff _).2 ⟨_, m1 t⟩⟩, (Angle.defined_iff _).2 ⟨_, m1 s⟩⟩, decide_eq_true h4⟩
    simp only [Euler.toVector, hf, Bool.not_true, Bool.false_eq_true, if_false]
    simp [Euler.ofVector, Angle.inUnit_eq (m1 _) hu, bind, Except.bind, pure, Except.pure]

example : (Euler.XYZ ⟨some 90, .degree⟩ ⟨some 1, .radian⟩ ⟨some 2, .revolution⟩).isDefined = true := by
  simp [Euler.isDefined, Euler.XYZ, Angle.isDefined]

/-- C100: everything that reads undefined Euler angles throws -/
theorem C100_undefined (e : Euler) (h : e.isDefined = false) (u : AUnit) :
    e.toVector u = .error .undefined ∧ e.getPhi = .error .undefined ∧ e.getTheta = .error .undefined ∧ e.getPsi = .error .undefined ∧
      e.getAxisSequence = .error .undefined := by
  simp [Euler.toVector, Euler.getPhi, Euler.getTheta, Euler.getPsi, Euler.getAxisSequence, h]

example : Euler.Undefined.isDefined = false ∧ (Euler.ofVector none (some 1) (some 2) .degree .zyx).isDefined = false := by
  simp [Euler.isDefined, Euler.Undefined, Euler.ofVector, Angle.isDefined]

/-- the elements of `isUnitary` on defined angles -/
theorem euler_isUnitary_iff {e : Euler} (h : e.isDefined = true) :
    ∃ b, e.isUnitary = .ok b ∧ (b = true ↔ Measures e.phi 0 ∧ Measures e.theta 0 ∧ Measures e.psi 0) := by
  simp only [Euler.isDefined, Bool.and_eq_true, decide_eq_true_eq] at h
  obtain ⟨⟨⟨a1, a2⟩, a3⟩, -⟩ := h
  have res : ∀ a : Angle, a.isDefined = true → ∃ b, a.isZero = .ok b ∧ (b = true ↔ Measures a 0) := by
    rintro ⟨v, u⟩ hd
    cases v with
    | none => simp [Angle.isDefined] at hd
    | some v =>
      refine ⟨decide (v = 0), by simp only [Angle.isZero, hd], ?_⟩
      rw [decide_eq_true_eq, Angle.measures_mk, zero_mul]
      exact ⟨fun h => ⟨by simpa [Angle.isDefined] using hd, h⟩, fun h => h.2⟩
  obtain ⟨b1, e1, f1⟩ := res _ a1
  obtain ⟨b2, e2, f2⟩ := res _ a2
  obtain ⟨b3, e3, f3⟩ := res _ a3
  rw [← f1, ← f2, ← f3]
  simp only [Euler.isUnitary, Euler.eq3, e1, e2, e3, bind, Except.bind]
  cases b1 <;> cases b2 <;> cases b3 <;> simp [pure, Except.pure]

/-- **C100.** `isUnitary` of defined Euler angles never throws, is true exactly when the three angles are zero, and then both
conversions give the identity. Missing from the full statement: whole turns are the identity too (`C100_turn_not_unitary`). -/
theorem C100_unitary_partial (eps : ℝ) (h0 : 0 < eps) (h1 : eps ≤ 1) (e : Euler) (h : e.isDefined = true) :
    ∃ b, e.isUnitary = .ok b ∧ (b = true ↔ Measures e.phi 0 ∧ Measures e.theta 0 ∧ Measures e.psi 0) ∧
      (b = true → Quat.EulerAngle eps e = .ok ⟨0, 0, 0, 1⟩ ∧ RotMat.EulerAngle eps e = .ok M3.one) := by
  obtain ⟨b, hb, hz⟩ := euler_isUnitary_iff h
  refine ⟨b, hb, hz, fun ht => ?_⟩
  obtain ⟨z1, z2, z3⟩ := hz.1 ht
  simp only [Euler.isDefined, Bool.and_eq_true, decide_eq_true_eq] at h
  have a4 : e.sequence ≠ .undefined := h.2
  rw [quatEuler_eq h1 z1 z2 z3 a4, matEuler_eq h0 z1 z2 z3 a4]
  constructor
  · cases e.sequence <;>
      simp [quatEulerQ, RotMat.qx, RotMat.qy, RotMat.qz, Quat.cross, Quat.Unit, Quat.mk', Quat.vec, V3.cross, V3.dot]
  · cases e.sequence <;> simp [matEuler, RotMat.rx, RotMat.ry, RotMat.rz, M3.mul, M3.one]

example : Euler.Unit.isUnitary = .ok true := by
  simp [Euler.isUnitary, Euler.eq3, Euler.Unit, Angle.Zero, Angle.isZero, Angle.isDefined, bind, Except.bind]

/-- **C100.** A turn about the first axis is the identity matrix, and `isUnitary` is false. -/
theorem C100_turn_not_unitary (eps : ℝ) (h0 : 0 < eps) :
    let e : Euler := ⟨⟨some 360, .degree⟩, ⟨some 0, .degree⟩, ⟨some 0, .degree⟩, .zyx⟩
    e.isUnitary = .ok false ∧ RotMat.EulerAngle eps e = .ok M3.one := by
  intro e
  have t : Measures ⟨some 360, .degree⟩ 1 := Angle.measures_mk.2 ⟨by decide, by norm_num [perTurn]⟩
  have z : Measures ⟨some 0, .degree⟩ 0 := Angle.measures_mk.2 ⟨by decide, by norm_num [perTurn]⟩
  constructor
  · simp [e, Euler.isUnitary, Euler.eq3, Angle.isZero, Angle.isDefined, bind, Except.bind, pure, Except.pure]
  · rw [matEuler_eq h0 (e := e) t z z (by simp [e])]
    simp [e, matEuler, RotMat.rx, RotMat.ry, RotMat.rz, M3.mul, M3.one]

/-- **C100.** On undefined Euler angles `isUnitary` may answer: true for zero angles without a sequence, false when the first angle is
not zero and the second is undefined; it throws when the first angle is undefined. -/
theorem C100_unitary_undefined :
    (∃ e : Euler, e.isDefined = false ∧ e.isUnitary = .ok true) ∧
    (∃ e : Euler, e.isDefined = false ∧ e.isUnitary = .ok false) ∧
    ∀ e : Euler, e.phi.isDefined = false → e.isUnitary = .error .undefined := by
  refine ⟨⟨⟨⟨some 0, .degree⟩, ⟨some 0, .degree⟩, ⟨some 0, .degree⟩, .undefined⟩, ?_, ?_⟩,
    ⟨⟨⟨some 1, .degree⟩, ⟨none, .degree⟩, ⟨some 0, .degree⟩, .zyx⟩, ?_, ?_⟩, ?_⟩
  · simp [Euler.isDefined]
  · simp [Euler.isUnitary, Euler.eq3, Angle.isZero, Angle.isDefined, bind, Except.bind]
  · simp [Euler.isDefined, Angle.isDefined]
  · simp [Euler.isUnitary, Euler.eq3, Angle.isZero, Angle.isDefined, bind, Except.bind, pure, Except.pure]
  · intro e h
    simp [Euler.isUnitary, Euler.eq3, Angle.isZero, h, bind, Except.bind]

/-! ## C101 -/

/-- the quaternion of defined Euler angles -/
theorem euler_quat {eps : ℝ} (h1 : eps ≤ 1) {e : Euler} (h : e.isDefined = true) :
    ∃ q, Quat.EulerAngle eps e = .ok q ∧ Unitary q := by
  simp only [Euler.isDefined, Bool.and_eq_true, decide_eq_true_eq] at h
  obtain ⟨⟨⟨a1, a2⟩, a3⟩, a4⟩ := h
  obtain ⟨p, hp⟩ := (Angle.defined_iff _).1 a1
  obtain ⟨t, ht⟩ := (Angle.defined_iff _).1 a2
  obtain ⟨s, hs⟩ := (Angle.defined_iff _).1 a3
  exact ⟨_, quatEuler_eq h1 hp ht hs a4, quatEulerQ_unitary _ _ _ _⟩

/-- **C101.** `isNear` of defined Euler angles compares the angle between the two rotations with the tolerance, in either order of the
arguments and whatever the two sequences are; with a zero tolerance it holds exactly for the same rotation. Missing from the full
statement: negative tolerances and those of one turn or more (`C101_negative_tolerance`). -/
theorem C101_isNear_partial (eps : ℝ) (h0 : 0 < eps) (h1 : eps ≤ 1) (e f : Euler) (he : e.isDefined = true) (hf : f.isDefined = true)
    (tol : Angle) (x : ℝ) (ht : Measures tol x) (hx0 : 0 ≤ x) (hx1 : x < 1) :
    ∃ q p d m n, Quat.EulerAngle eps e = .ok q ∧ Quat.EulerAngle eps f = .ok p ∧
      RotMat.Quaternion eps (some q) = .ok m ∧ RotMat.Quaternion eps (some p) = .ok n ∧ Differ eps q p d ∧ (d = 0 ↔ m = n) ∧
      e.isNear eps f tol = .ok (decide (d ≤ 2 * Real.pi * x)) ∧ f.isNear eps e tol = .ok (decide (d ≤ 2 * Real.pi * x)) ∧
      (x = 0 → (e.isNear eps f tol = .ok true ↔ m = n)) := by
  obtain ⟨q, hq, uq⟩ := euler_quat h1 he
  obtain ⟨p, hp, up⟩ := euler_quat h1 hf
  obtain ⟨d, hd, hd0, -, hd', hz, -⟩ := C33_distance eps h0 h1 q p q uq up uq
  obtain ⟨m, n, hm, hn, -, -, hmn⟩ := C25_homomorphism eps h0 q p uq up
  obtain ⟨d1, g1, n1⟩ := C69_isNear_partial eps h0 h1 q p uq up tol x ht (by linarith) hx1
  obtain ⟨d2, g2, n2⟩ := C69_isNear_partial eps h0 h1 p q up uq tol x ht hx0 hx1
  have e1 : d1 = d := by simpa [Differ] using g1.symm.trans hd
  have e2 : d2 = d := by simpa [Differ] using g2.symm.trans hd'
  subst e1
  subst e2
  have hdm : d2 = 0 ↔ m = n := by rw [hz, hmn, (C24_eq_iff q p).1]
  have r1 : e.isNear eps f tol = .ok (decide (d2 ≤ 2 * Real.pi * x)) := by
    simp only [Euler.isNear, hq, hp, bind, Except.bind, n1]
  refine ⟨q, p, d2, m, n, hq, hp, hm, hn, hd, hdm, r1, ?_, ?_⟩
  · simp only [Euler.isNear, hq, hp, bind, Except.bind, n2]
  · rintro rfl
    rw [r1, ← hdm]
    simp only [mul_zero, Except.ok.injEq, decide_eq_true_eq]
    exact ⟨fun h => le_antisymm h hd0, fun h => h.le⟩

example : Measures ⟨some 30, .degree⟩ (1 / 12) ∧ (0 : ℝ) ≤ 1 / 12 ∧ (1 / 12 : ℝ) < 1 :=
  ⟨Angle.measures_mk.2 ⟨by decide, by norm_num [perTurn]⟩, by norm_num, by norm_num⟩

/-- **C101.** Euler angles are near themselves, and Euler angles that are `==` are near, at every tolerance of less than a turn. -/
theorem C101_equal_near (eps : ℝ) (h0 : 0 < eps) (h1 : eps ≤ 1) (e f : Euler) (h : e.eq f = .ok true)
    (tol : Angle) (x : ℝ) (ht : Measures tol x) (hx0 : 0 ≤ x) (hx1 : x < 1) : e.isNear eps f tol = .ok true := by
  have hd : e.isDefined = true ∧ f.isDefined = true := by
    by_contra hc
    simp only [Euler.eq] at h
    cases h1 : e.isDefined <;> cases h2 : f.isDefined <;> simp [h1, h2, pure, Except.pure] at h hc
  obtain ⟨q, p, d, m, n, hq, hp, hm, hn, -, hdm, hr, -⟩ := C101_isNear_partial eps h0 h1 e f hd.1 hd.2 tol x ht hx0 hx1
  obtain ⟨-, q', p', hq', hp', hqp, -⟩ := C68_equal_rotation_partial eps h0 h1 e f h
  rw [hq] at hq'
  rw [hp] at hp'
  cases hq'
  cases hp'
  rw [hm, hn] at hqp
  have : d = 0 := hdm.2 (Except.ok.inj hqp)
  rw [hr, this]
  simp only [Except.ok.injEq, decide_eq_true_eq]
  have := Real.pi_pos
  positivity

example : ∃ e f : Euler, e.eq f = .ok true ∧ e ≠ f := by
  refine ⟨Euler.ZYX ⟨some 360, .degree⟩ ⟨some 0, .degree⟩ ⟨some 0, .degree⟩, Euler.ZYX ⟨some 0, .degree⟩ ⟨some 0, .degree⟩ ⟨some 0, .degree⟩, ?_, ?_⟩
  · have t : Measures ⟨some 360, .degree⟩ 1 := Angle.measures_mk.2 ⟨by decide, by norm_num [perTurn]⟩
    have z : Measures ⟨some 0, .degree⟩ 0 := Angle.measures_mk.2 ⟨by decide, by norm_num [perTurn]⟩
    obtain ⟨a, ha, ha'⟩ := Angle.eq_spec t z
    obtain ⟨b, hb, hb'⟩ := Angle.eq_spec z z
    have hat : a = true := ha'.2 ⟨1, by norm_num⟩
    have hbt : b = true := hb'.2 ⟨0, by norm_num⟩
    subst hat
    subst hbt
    simp [Euler.eq, Euler.ZYX, Euler.eq3, ha, hb, Euler.isDefined, Angle.isDefined, bind, Except.bind, pure, Except.pure]
  · simp [Euler.ZYX]

/-- **C101.** A tolerance between minus half a turn and zero accepts every pair of rotations. -/
theorem C101_negative_tolerance (eps : ℝ) (h0 : 0 < eps) (h1 : eps ≤ 1) (e f : Euler) (he : e.isDefined = true) (hf : f.isDefined = true)
    (tol : Angle) (x : ℝ) (ht : Measures tol x) (hx0 : -(1 / 2) ≤ x) (hx1 : x < 0) : e.isNear eps f tol = .ok true := by
  obtain ⟨q, hq, uq⟩ := euler_quat h1 he
  obtain ⟨p, hp, up⟩ := euler_quat h1 hf
  simp only [Euler.isNear, hq, hp, bind, Except.bind]
  exact C69_negative_tolerance eps h0 h1 q p uq up tol x ht (by linarith) hx1

example : Measures ⟨some (-1), .degree⟩ (-1 / 360) := Angle.measures_mk.2 ⟨by decide, by norm_num [perTurn]⟩

/-- **C101.** `isNear` with undefined Euler angles throws. -/
theorem C101_undefined (eps : ℝ) (e f : Euler) (tol : Angle) :
    (e.isDefined = false → e.isNear eps f tol = .error .undefined) ∧
    (0 < eps → eps ≤ 1 → e.isDefined = true → f.isDefined = false → e.isNear eps f tol = .error .undefined) := by
  have hq : ∀ g : Euler, g.isDefined = false → Quat.EulerAngle eps g = .error .undefined := by
    intro g hg
    simp [Quat.EulerAngle, hg]
  refine ⟨fun h => by simp [Euler.isNear, hq e h, bind, Except.bind], fun h0 h1 he hf => ?_⟩
  obtain ⟨q, hq', -⟩ := euler_quat h1 he
  simp [Euler.isNear, hq f hf, hq', bind, Except.bind]

example : Euler.Unit.isDefined = true ∧ Euler.Undefined.isDefined = false := by
  simp [Euler.isDefined, Euler.Undefined, Euler.Unit, Angle.isDefined, Angle.Zero]

end Verif.Props
