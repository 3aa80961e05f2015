import Verif.Lemmas.Rotation

/-!
# Quaternions: algebra, rotation of vectors, equality, conversion to and from matrices (C22 - C26)
-/

namespace Verif.Props

open Verif Verif.Spec

set_option linter.flexible false

/-- A unitary quaternion for the examples. -/
theorem unitary_example : Unitary ⟨1 / 2, -1 / 2, 1 / 2, 1 / 2⟩ := by norm_num [Unitary]
/-- Another one, without equal components. -/
theorem unitary_example' : Unitary ⟨1 / 5, -2 / 5, 2 / 5, -4 / 5⟩ ∧ Unitary ⟨0, 3 / 5, 0, 4 / 5⟩ := by
  constructor <;> norm_num [Unitary]

/-! ## C22 -/

@[simp] theorem hamilton_re (q : Quat) : (hamilton q).re = q.s := rfl
@[simp] theorem hamilton_imI (q : Quat) : (hamilton q).imI = q.x := rfl
@[simp] theorem hamilton_imJ (q : Quat) : (hamilton q).imJ = q.y := rfl
@[simp] theorem hamilton_imK (q : Quat) : (hamilton q).imK = q.z := rfl

/-- **C22.** The two products are the product of Hamilton's quaternions (with exchanged operands for `*`), the other
operations those of Mathlib's quaternions. -/
theorem C22_hamilton (q p : Quat) (k : ℝ) :
    hamilton (q.cross p) = hamilton p * hamilton q ∧ hamilton (q.dotMul p) = hamilton q * hamilton p ∧
    hamilton q.conj = star (hamilton q) ∧ q.norm ^ 2 = Quaternion.normSq (hamilton q) ∧ hamilton Quat.Unit = 1 ∧
    hamilton (q.plus p) = hamilton q + hamilton p ∧ hamilton (q.scale k) = k • hamilton q ∧
    q.dot p = (hamilton q * star (hamilton p)).re := by
  refine ⟨?_, ?_, ?_, ?_, ?_, ?_, ?_, ?_⟩
  · ext <;> simp <;> ring
  · ext <;> simp <;> ring
  · ext <;> simp
  · rw [Quat.norm_sq, Quaternion.normSq_def']; simp [Quat.normSq]; ring
  · ext <;> rfl
  · ext <;> simp
  · ext <;> simp [mul_comm]
  · simp [Quat.dot]; ring

/-- **C22.** Algebraic laws of the product. -/
theorem C22_algebra (a b c : Quat) (k : ℝ) :
    (a.cross b).cross c = a.cross (b.cross c) ∧ Quat.Unit.cross a = a ∧ a.cross Quat.Unit = a ∧
    (a.plus b).cross c = (a.cross c).plus (b.cross c) ∧ a.cross (b.plus c) = (a.cross b).plus (a.cross c) ∧
    (a.scale k).cross b = (a.cross b).scale k ∧ a.cross (b.scale k) = (a.cross b).scale k ∧
    (a.cross b).norm = a.norm * b.norm ∧ (a.cross b).conj = b.conj.cross a.conj ∧ a.dotMul b = b.cross a := by
  refine ⟨Quat.cross_assoc a b c, Quat.Unit_cross a, Quat.cross_Unit a, ?_, ?_, Quat.scale_cross a b k, Quat.cross_scale a b k,
    Quat.norm_cross a b, ?_, ?_⟩
  all_goals ext <;> simp <;> ring

/-- **C22.** `inverse` throws exactly when the squared norm is below the threshold; otherwise it returns the two-sided
inverse. -/
theorem C22_inverse (eps : ℝ) (heps : 0 < eps) (q : Quat) :
    (q.normSq < eps ∧ q.inverse eps = .error .runtimeError) ∨
    (eps ≤ q.normSq ∧ ∃ i, q.inverse eps = .ok i ∧ q.cross i = Quat.Unit ∧ i.cross q = Quat.Unit) := by
  rcases lt_or_ge q.normSq eps with h | h
  · left
    have : |q.normSq| < eps := by rwa [abs_of_nonneg q.normSq_nonneg]
    exact ⟨h, by simp [Quat.inverse, this]⟩
  · right
    have hp : q.normSq ≠ 0 := by linarith
    refine ⟨h, _, Quat.inverse_eq h, ?_, ?_⟩
    · rw [Quat.cross_scale, Quat.cross_conj, Quat.scale_scale, mul_one_div_cancel hp, Quat.scale_one]
    · rw [Quat.scale_cross, Quat.conj_cross, Quat.scale_scale, mul_one_div_cancel hp, Quat.scale_one]

/-- **C22.** A quotient is the quaternion that multiplied by the divisor gives the dividend, and is returned exactly when norm and
squared norm of the divisor reach the threshold. -/
theorem C22_division (eps : ℝ) (heps : 0 < eps) (q p : Quat) :
    ((eps ≤ p.norm ∧ eps ≤ p.normSq) ∧ ∃ r, q.div eps p = .ok r ∧ r.cross p = q ∧ ∀ r', r'.cross p = q → r' = r) ∨
    ((p.norm < eps ∨ p.normSq < eps) ∧ q.div eps p = .error .runtimeError) := by
  rcases lt_or_ge p.norm eps with h | h
  · right; exact ⟨.inl h, by simp [Quat.div, h]⟩
  rcases C22_inverse eps heps p with ⟨h', e⟩ | ⟨h', i, e, e1, e2⟩
  · right; exact ⟨.inr h', by simp [Quat.div, not_lt.2 h, e, bind, Except.bind]⟩
  · left
    refine ⟨⟨h, h'⟩, q.cross i, by simp [Quat.div, not_lt.2 h, e, bind, Except.bind, pure, Except.pure], ?_, ?_⟩
    · rw [Quat.cross_assoc, e2, Quat.cross_Unit]
    · rintro r' rfl
      rw [Quat.cross_assoc, e1, Quat.cross_Unit]

/-- **C22.** Normalising divides by the norm and gives a unitary quaternion; it throws exactly below the threshold. -/
theorem C22_normalize (eps : ℝ) (heps : 0 < eps) (q : Quat) :
    (q.norm < eps ∧ q.normalize eps = .error .runtimeError) ∨
    (eps ≤ q.norm ∧ ∃ n, q.normalize eps = .ok n ∧ Unitary n ∧ n.scale q.norm = q) := by
  rcases lt_or_ge q.norm eps with h | h
  · exact .inl ⟨h, Quat.normalize_error h⟩
  · have hp : 0 < q.norm := by linarith
    refine .inr ⟨h, _, Quat.normalize_eq h, Quat.unitary_scale_inv_norm hp, ?_⟩
    rw [Quat.scale_scale, one_div_mul_cancel hp.ne', Quat.scale_one]

example : (1 / 10 : ℝ) ≤ Quat.normSq ⟨1, 2, 3, 4⟩ := by norm_num [Quat.normSq]

/-- **C22.** An undefined operand throws `Undefined` in every operation; and defined operands give the operations above. -/
theorem C22_undefined (eps : ℝ) (q : Option Quat) :
    QuatObj.crossMultiply none q = .error .undefined ∧ QuatObj.crossMultiply q none = .error .undefined ∧
    QuatObj.dotMultiply none q = .error .undefined ∧ QuatObj.dotMultiply q none = .error .undefined ∧
    QuatObj.add none q = .error .undefined ∧ QuatObj.add q none = .error .undefined ∧
    QuatObj.dotProduct none q = .error .undefined ∧ QuatObj.dotProduct q none = .error .undefined ∧
    QuatObj.addAssign none q = (none, some .undefined) ∧ QuatObj.addAssign q none = (q, some .undefined) ∧
    QuatObj.norm none = .error .undefined ∧ QuatObj.conjugate none = .error .undefined ∧ QuatObj.rectify none = .error .undefined ∧
    QuatObj.normalize eps none = .error .undefined ∧ QuatObj.inverse eps none = .error .undefined ∧
    QuatObj.div eps q none = .error .undefined ∧ (∃ e, QuatObj.div eps none q = .error e) := by
  refine ⟨rfl, ?_, rfl, ?_, rfl, ?_, rfl, ?_, by cases q <;> rfl, by cases q <;> rfl, rfl, rfl, rfl, rfl, rfl, rfl, ?_⟩
  · cases q <;> rfl
  · cases q <;> rfl
  · cases q <;> rfl
  · cases q <;> rfl
  · cases q with
    | none => exact ⟨_, rfl⟩
    | some p =>
      by_cases h : p.norm < eps
      · exact ⟨.runtimeError, by simp [QuatObj.div, need, bind, Except.bind, h]⟩
      · cases hi : p.inverse eps with
        | error e => exact ⟨e, by simp [QuatObj.div, need, bind, Except.bind, h, hi]⟩
        | ok i => exact ⟨.undefined, by simp [QuatObj.div, need, bind, Except.bind, h, hi]⟩

/-- **C22.** On defined quaternions the member functions compute the operations above. -/
theorem C22_defined (eps : ℝ) (q p : Quat) :
    QuatObj.crossMultiply (some q) (some p) = .ok (q.cross p) ∧ QuatObj.dotMultiply (some q) (some p) = .ok (q.dotMul p) ∧
    QuatObj.add (some q) (some p) = .ok (q.plus p) ∧ QuatObj.addAssign (some q) (some p) = (some (q.plus p), none) ∧
    QuatObj.dotProduct (some q) (some p) = .ok (q.dot p) ∧ QuatObj.conjugate (some q) = .ok q.conj ∧
    QuatObj.norm (some q) = .ok q.norm ∧
    QuatObj.div eps (some q) (some p) = q.div eps p ∧ QuatObj.inverse eps (some q) = q.inverse eps ∧
    QuatObj.normalize eps (some q) = q.normalize eps := by
  refine ⟨rfl, rfl, rfl, rfl, rfl, rfl, rfl, ?_, rfl, rfl⟩
  simp only [QuatObj.div, Quat.div, need, bind, Except.bind]

/-! ## C23 -/

theorem rotateVector_eq {q : Quat} {tol : ℝ} (ht : 0 < tol) (v : V3) (hq : |q.norm - 1| ≤ tol) :
    QuatObj.rotateVector (some q) (some v) (some tol) = .ok ((RotMat.ofQuat q).mulVec v) := by
  simp [QuatObj.rotateVector, need, Quat.rotate, Quat.isUnitary, not_le.2 ht, hq, bind, Except.bind, pure, Except.pure,
    RotMat.rotate_eq]

theorem rotateVector_unitary {q : Quat} {tol : ℝ} (ht : 0 < tol) (v : V3) (hq : Unitary q) :
    QuatObj.rotateVector (some q) (some v) (some tol) = .ok ((RotMat.ofQuat q).mulVec v) :=
  rotateVector_eq ht v (by rw [Quat.unitary_iff_norm.1 hq]; simpa using ht.le)

/-- **C23.** A unitary quaternion rotates every vector without throwing, keeping dot and cross products. -/
theorem C23_isometry (q : Quat) (hq : Unitary q) (tol : ℝ) (ht : 0 < tol) :
    ∃ f, Computes (fun v => QuatObj.rotateVector (some q) (some v) (some tol)) f ∧ KeepsGeometry f := by
  refine ⟨_, fun v => rotateVector_unitary ht v hq, fun u v => ?_, fun u v => ?_⟩
  · have : ((RotMat.ofQuat q).mulVec u).dot ((RotMat.ofQuat q).mulVec v) = q.normSq ^ 2 * u.dot v := by
      simp only [V3.dot, M3.mulVec, RotMat.ofQuat, Quat.normSq]; ring
    rw [this, Quat.unitary_iff.1 hq]; ring
  · have : ((RotMat.ofQuat q).mulVec u).cross ((RotMat.ofQuat q).mulVec v) = q.normSq • (RotMat.ofQuat q).mulVec (u.cross v) := by
      ext <;> simp only [V3.cross_x, V3.cross_y, V3.cross_z, V3.smul_x, V3.smul_y, V3.smul_z, M3.mulVec, RotMat.ofQuat,
        Quat.normSq] <;> ring
    rw [this, Quat.unitary_iff.1 hq]
    ext <;> simp

example : Unitary ⟨1 / 2, -1 / 2, 1 / 2, 1 / 2⟩ := unitary_example

/-- **C23.** Rotation is an action: the product acts as the composition, the unit acts trivially, the conjugate undoes. -/
theorem C23_action (q p : Quat) (hq : Unitary q) (hp : Unitary p) (tol : ℝ) (ht : 0 < tol) (v : V3) :
    ∃ w x y, QuatObj.rotateVector (some p) (some v) (some tol) = .ok w ∧
      QuatObj.rotateVector (some q) (some w) (some tol) = .ok x ∧
      QuatObj.rotateVector (some (q.cross p)) (some v) (some tol) = .ok x ∧
      QuatObj.rotateVector (some Quat.Unit) (some v) (some tol) = .ok v ∧
      QuatObj.rotateVector (some q) (some v) (some tol) = .ok y ∧
      QuatObj.rotateVector (some q.conj) (some y) (some tol) = .ok v := by
  refine ⟨_, _, _, rotateVector_unitary ht v hp, rotateVector_unitary ht _ hq, ?_, ?_, rotateVector_unitary ht v hq, ?_⟩
  · rw [rotateVector_unitary ht v (Quat.unitary_cross hq hp), RotMat.ofQuat_cross, M3.mul_mulVec]
  · rw [rotateVector_unitary ht v (by norm_num [Unitary])]
    congr 1
    ext <;> simp [M3.mulVec, RotMat.ofQuat]
  · rw [rotateVector_unitary ht _ (Quat.unitary_conj hq), ← M3.mul_mulVec, RotMat.ofQuat_conj,
      (M3.isRotation_iff'.1 (RotMat.ofQuat_isRotation hq)).1, M3.one_mulVec]

/-- **C23.** The tolerance: a quaternion is accepted exactly when its norm is within the tolerance of one, and then multiplies lengths
by the square of its norm; otherwise, and for undefined arguments, the call throws. -/
theorem C23_tolerance (q : Quat) (tol : ℝ) (ht : 0 < tol) (v : V3) :
    (tol < |q.norm - 1| → QuatObj.rotateVector (some q) (some v) (some tol) = .error .runtimeError) ∧
    (|q.norm - 1| ≤ tol → ∃ w, QuatObj.rotateVector (some q) (some v) (some tol) = .ok w ∧ w.norm = q.norm ^ 2 * v.norm) ∧
    (∀ q' t, QuatObj.rotateVector q' none t = .error .undefined) ∧
    (∀ t, QuatObj.rotateVector none (some v) t = .error .undefined) ∧
    (∀ t : ℝ, t ≤ 0 → QuatObj.rotateVector (some q) (some v) (some t) = .error .undefined) := by
  refine ⟨fun h => ?_, fun h => ⟨_, rotateVector_eq ht v h, ?_⟩, fun _ _ => rfl, fun _ => rfl, fun t h => ?_⟩
  · simp [QuatObj.rotateVector, need, Quat.rotate, Quat.isUnitary, not_le.2 ht, not_le.2 h, bind, Except.bind]
  · have : ((RotMat.ofQuat q).mulVec v).normSq = (q.norm ^ 2) ^ 2 * v.normSq := by
      rw [Quat.norm_sq]
      simp only [V3.normSq, V3.dot, M3.mulVec, RotMat.ofQuat, Quat.normSq]; ring
    rw [V3.norm, this, Real.sqrt_mul (by positivity), Real.sqrt_sq (by positivity)]; rfl
  · simp [QuatObj.rotateVector, need, Quat.rotate, Quat.isUnitary, h, bind, Except.bind]

/-! ## C24 -/

theorem sameUpToSign_iff {q p : Quat} : SameUpToSign q p ↔ q = p ∨ q = p.scale (-1) := by
  simp [SameUpToSign, Quaternion.ext_iff, Quat.ext_iff]
  tauto

/-- **C24.** `==` identifies exactly a quaternion and its opposite, and nothing is `==` to an undefined quaternion. -/
theorem C24_eq_iff (q p : Quat) : (QuatObj.eq (some q) (some p) = true ↔ SameUpToSign q p) ∧
    QuatObj.eq none (some p) = false ∧ QuatObj.eq (some p) none = false ∧ QuatObj.eq none none = false := by
  rw [sameUpToSign_iff]
  exact ⟨Quat.beq_iff, rfl, rfl, rfl⟩

/-- **C24.** `==` is an equivalence relation on defined quaternions. -/
theorem C24_equivalence (a b c : Quat) : QuatObj.eq (some a) (some a) = true ∧
    QuatObj.eq (some a) (some b) = QuatObj.eq (some b) (some a) ∧
    (QuatObj.eq (some a) (some b) = true → QuatObj.eq (some b) (some c) = true → QuatObj.eq (some a) (some c) = true) := by
  simp only [QuatObj.eq]
  refine ⟨Quat.beq_iff.2 (.inl rfl), ?_, ?_⟩
  · rw [Bool.eq_iff_iff, Quat.beq_iff, Quat.beq_iff]
    constructor <;>
    · rintro (rfl | rfl)
      · exact .inl rfl
      · right; rw [Quat.scale_scale]; norm_num [Quat.scale_one]
  · rw [Quat.beq_iff, Quat.beq_iff, Quat.beq_iff]
    rintro (rfl | rfl) (rfl | rfl)
    · exact .inl rfl
    · exact .inr rfl
    · exact .inr rfl
    · left; rw [Quat.scale_scale]; norm_num [Quat.scale_one]

theorem eq_of_ofQuat_eq {q p : Quat} (hq : Unitary q) (hp : Unitary p) (h : RotMat.ofQuat q = RotMat.ofQuat p) :
    q = p ∨ q = p.scale (-1) := by
  -- r = p* q has the identity as matrix
  have hr : RotMat.ofQuat (p.conj.cross q) = M3.one := by
    rw [RotMat.ofQuat_cross, h, RotMat.ofQuat_conj, (M3.isRotation_iff'.1 (RotMat.ofQuat_isRotation hp)).1]
  have hu := Quat.unitary_iff.1 (Quat.unitary_cross (Quat.unitary_conj hp) hq)
  have key : ∀ r : Quat, RotMat.ofQuat r = M3.one → r.normSq = 1 → r = Quat.Unit ∨ r = Quat.Unit.scale (-1) := by
    intro r h1 h2
    simp only [RotMat.ofQuat, M3.one, M3.ext_iff] at h1
    simp only [Quat.normSq] at h2
    obtain ⟨h00, -, -, -, h11, -, -, -, h22⟩ := h1
    have hx : r.x = 0 := by nlinarith [mul_self_nonneg r.x, mul_self_nonneg r.y, mul_self_nonneg r.z]
    have hy : r.y = 0 := by nlinarith [mul_self_nonneg r.x, mul_self_nonneg r.y, mul_self_nonneg r.z]
    have hz : r.z = 0 := by nlinarith [mul_self_nonneg r.x, mul_self_nonneg r.y, mul_self_nonneg r.z]
    rw [hx, hy, hz] at h2
    have hs : (r.s - 1) * (r.s + 1) = 0 := by linarith
    rcases mul_eq_zero.1 hs with hs | hs
    · left; ext <;> simp [hx, hy, hz]; linarith
    · right; ext <;> simp [hx, hy, hz]; linarith
  have hback : p.cross (p.conj.cross q) = q := by
    rw [← Quat.cross_assoc, Quat.cross_conj, Quat.unitary_iff.1 hp, Quat.scale_one, Quat.Unit_cross]
  rcases key _ hr hu with e | e
  · left; rw [← hback, e, Quat.cross_Unit]
  · right; rw [← hback, e, Quat.cross_scale, Quat.cross_Unit]

/-- **C24.** Unitary quaternions are `==` exactly when they rotate every vector identically. -/
theorem C24_same_rotation (q p : Quat) (hq : Unitary q) (hp : Unitary p) (tol : ℝ) (ht : 0 < tol) :
    QuatObj.eq (some q) (some p) = true ↔
      ∀ v, QuatObj.rotateVector (some q) (some v) (some tol) = QuatObj.rotateVector (some p) (some v) (some tol) := by
  simp only [QuatObj.eq, Quat.beq_iff]
  constructor
  · rintro (rfl | rfl) v
    · rfl
    · rw [rotateVector_unitary ht v hq, rotateVector_unitary ht v hp]
      congr 1
      ext <;> simp [M3.mulVec, RotMat.ofQuat]
  · intro h
    apply eq_of_ofQuat_eq hq hp
    apply M3.ext_mulVec
    intro v
    have := h v
    rw [rotateVector_unitary ht v hq, rotateVector_unitary ht v hp] at this
    exact Except.ok.inj this

example : Unitary ⟨1 / 2, -1 / 2, 1 / 2, 1 / 2⟩ ∧ Unitary ⟨0, 3 / 5, 0, 4 / 5⟩ := ⟨unitary_example, unitary_example'.2⟩

/-! ## C25 -/

theorem ofQuat_unit_of_beq {q : Quat} (h : q.beq Quat.Unit = true) : RotMat.ofQuat q = M3.one := by
  rcases Quat.beq_iff.1 h with rfl | rfl
  · ext <;> simp [RotMat.ofQuat, M3.one]
  · ext <;> simp [RotMat.ofQuat, M3.one]

theorem rotMat_quaternion_eq {eps : ℝ} (he : 0 < eps) {q : Quat} (hq : Unitary q) :
    RotMat.Quaternion eps (some q) = .ok (RotMat.ofQuat q) := by
  simp only [RotMat.Quaternion, need, Quat.isUnitary_of_unitary hq he, bind, Except.bind, Bool.not_true, Bool.false_eq_true, if_false]
  split_ifs with h
  · rw [ofQuat_unit_of_beq h, RotMat.Unit, RotMat.mk_of_isRotation he M3.isRotation_one]
  · exact RotMat.mk_of_isRotation he (RotMat.ofQuat_isRotation hq)

/-- **C25.** The matrix of a unitary quaternion exists, is a proper rotation and acts as the quaternion. -/
theorem C25_matrix_of_quaternion (eps : ℝ) (he : 0 < eps) (q : Quat) (hq : Unitary q) :
    ∃ m, RotMat.Quaternion eps (some q) = .ok m ∧ IsRotation m ∧
      ∀ v, RotMat.mulVec (some m) (some v) = QuatObj.rotateVector (some q) (some v) (some eps) :=
  ⟨_, rotMat_quaternion_eq he hq, RotMat.ofQuat_isRotation hq, fun v => by rw [rotateVector_unitary he v hq]; rfl⟩

/-- **C25.** Products become products and conjugates transposes. -/
theorem C25_homomorphism (eps : ℝ) (he : 0 < eps) (q p : Quat) (hq : Unitary q) (hp : Unitary p) :
    ∃ m n, RotMat.Quaternion eps (some q) = .ok m ∧ RotMat.Quaternion eps (some p) = .ok n ∧
      RotMat.mul eps (some m) (some n) = RotMat.Quaternion eps (some (q.cross p)) ∧
      RotMat.toTransposed eps (some m) = RotMat.Quaternion eps (some q.conj) ∧
      (m = n ↔ QuatObj.eq (some q) (some p) = true) := by
  refine ⟨_, _, rotMat_quaternion_eq he hq, rotMat_quaternion_eq he hp, ?_, ?_, ?_⟩
  · rw [rotMat_quaternion_eq he (Quat.unitary_cross hq hp), RotMat.ofQuat_cross]
    exact RotMat.mk_of_isRotation he (M3.isRotation_mul (RotMat.ofQuat_isRotation hq) (RotMat.ofQuat_isRotation hp))
  · rw [rotMat_quaternion_eq he (Quat.unitary_conj hq), RotMat.ofQuat_conj]
    exact RotMat.mk_of_isRotation he (M3.isRotation_transpose (RotMat.ofQuat_isRotation hq))
  · simp only [QuatObj.eq, Quat.beq_iff]
    refine ⟨eq_of_ofQuat_eq hq hp, ?_⟩
    rintro (rfl | rfl)
    · rfl
    · ext <;> simp [RotMat.ofQuat]

/-- **C25.** A quaternion that is not unitary, or undefined, throws. -/
theorem C25_throws (eps : ℝ) (he : 0 < eps) (q : Quat) :
    (eps < |q.norm - 1| → RotMat.Quaternion eps (some q) = .error .runtimeError) ∧ RotMat.Quaternion eps none = .error .undefined := by
  refine ⟨fun h => ?_, rfl⟩
  simp [RotMat.Quaternion, need, Quat.isUnitary, not_le.2 he, not_le.2 h, bind, Except.bind]

/-! ## C26 -/

/-- The unnormalised quaternion of one branch: if its matrix is `c` times `m`, with `c` its squared norm, and its norm is not below the
threshold, the result is unitary and has the matrix `m`. -/
theorem branch_spec {eps : ℝ} (he2 : eps ≤ 2) {m : M3} {q : Quat} (hc : 4 ≤ q.normSq)
    (h : RotMat.ofQuat q = ⟨q.normSq * m.m00, q.normSq * m.m01, q.normSq * m.m02, q.normSq * m.m10, q.normSq * m.m11, q.normSq * m.m12,
      q.normSq * m.m20, q.normSq * m.m21, q.normSq * m.m22⟩) :
    ∃ r, q.normalize eps = .ok r ∧ Unitary r ∧ RotMat.ofQuat r = m := by
  have hn : 2 ≤ q.norm := by
    rw [Quat.norm]; apply Real.le_sqrt_of_sq_le; linarith
  have hp : q.normSq ≠ 0 := by linarith
  refine ⟨_, Quat.normalize_eq (by linarith), Quat.unitary_scale_inv_norm (by linarith), ?_⟩
  have e : ∀ a b : ℝ, q.normSq * b = a → (1 / q.norm) ^ 2 * a = b := by
    intro a b hab
    rw [div_pow, one_pow, Quat.norm_sq, ← hab]; field_simp
  simp only [M3.ext_iff] at h
  obtain ⟨h1, h2, h3, h4, h5, h6, h7, h8, h9⟩ := h
  ext
  · rw [← e _ _ h1.symm]; simp only [RotMat.ofQuat, Quat.scale_x, Quat.scale_y, Quat.scale_z, Quat.scale_s]; ring
  · rw [← e _ _ h2.symm]; simp only [RotMat.ofQuat, Quat.scale_x, Quat.scale_y, Quat.scale_z, Quat.scale_s]; ring
  · rw [← e _ _ h3.symm]; simp only [RotMat.ofQuat, Quat.scale_x, Quat.scale_y, Quat.scale_z, Quat.scale_s]; ring
  · rw [← e _ _ h4.symm]; simp only [RotMat.ofQuat, Quat.scale_x, Quat.scale_y, Quat.scale_z, Quat.scale_s]; ring
  · rw [← e _ _ h5.symm]; simp only [RotMat.ofQuat, Quat.scale_x, Quat.scale_y, Quat.scale_z, Quat.scale_s]; ring
  · rw [← e _ _ h6.symm]; simp only [RotMat.ofQuat, Quat.scale_x, Quat.scale_y, Quat.scale_z, Quat.scale_s]; ring
  · rw [← e _ _ h7.symm]; simp only [RotMat.ofQuat, Quat.scale_x, Quat.scale_y, Quat.scale_z, Quat.scale_s]; ring
  · rw [← e _ _ h8.symm]; simp only [RotMat.ofQuat, Quat.scale_x, Quat.scale_y, Quat.scale_z, Quat.scale_s]; ring
  · rw [← e _ _ h9.symm]; simp only [RotMat.ofQuat, Quat.scale_x, Quat.scale_y, Quat.scale_z, Quat.scale_s]; ring

theorem quat_of_rotation {eps : ℝ} (he2 : eps ≤ 2) {m : M3} (hm : IsRotation m) :
    ∃ q, Quat.RotationMatrix eps (some m) = .ok q ∧ Unitary q ∧ RotMat.ofQuat q = m := by
  obtain ⟨c00, c11, c22, c01, c02, c12, r00, r11, r22, r01, r02, r12, f00, f01, f02, f10, f11, f12, f20, f21, f22⟩ :=
    M3.eqs_of_isRotation hm
  simp only [Quat.RotationMatrix, need, bind, Except.bind]
  split_ifs with h1 h2 h3 h4
  · have hn : Quat.normSq ⟨m.m12 - m.m21, m.m20 - m.m02, m.m01 - m.m10, 1 + m.trace⟩ = 4 * (1 + m.trace) := by
      simp only [Quat.normSq, M3.trace]; linarith
    refine branch_spec he2 ?_ ?_
    · rw [hn]; simp only [M3.trace] at *; linarith
    · rw [hn]; ext <;> simp only [RotMat.ofQuat, M3.trace] <;> linarith
  · have hn : Quat.normSq ⟨1 + 2 * m.m00 - m.trace, m.m01 + m.m10, m.m02 + m.m20, m.m12 - m.m21⟩ = 4 * (1 + 2 * m.m00 - m.trace) := by
      simp only [Quat.normSq, M3.trace]; linarith
    refine branch_spec he2 ?_ ?_
    · rw [hn]; simp only [M3.trace] at *; linarith
    · rw [hn]; ext <;> simp only [RotMat.ofQuat, M3.trace] <;> linarith
  · have hn : Quat.normSq ⟨m.m10 + m.m01, 1 + 2 * m.m11 - m.trace, m.m12 + m.m21, m.m20 - m.m02⟩ = 4 * (1 + 2 * m.m11 - m.trace) := by
      simp only [Quat.normSq, M3.trace]; linarith
    refine branch_spec he2 ?_ ?_
    · rw [hn]; simp only [M3.trace] at *; linarith
    · rw [hn]; ext <;> simp only [RotMat.ofQuat, M3.trace] <;> linarith
  · have hn : Quat.normSq ⟨m.m20 + m.m02, m.m21 + m.m12, 1 + 2 * m.m22 - m.trace, m.m01 - m.m10⟩ = 4 * (1 + 2 * m.m22 - m.trace) := by
      simp only [Quat.normSq, M3.trace]; linarith
    refine branch_spec he2 ?_ ?_
    · rw [hn]; simp only [M3.trace] at *; linarith
    · rw [hn]; ext <;> simp only [RotMat.ofQuat, M3.trace] <;> linarith
  · exfalso
    have k1 : m.trace < m.m00 ∨ m.trace < m.m11 ∨ m.trace < m.m22 := by
      by_contra hc; push Not at hc; exact h1 ⟨hc.1, hc.2.1, hc.2.2⟩
    have k2 : m.m00 < m.trace ∨ m.m00 < m.m11 ∨ m.m00 < m.m22 := by
      by_contra hc; push Not at hc; exact h2 ⟨hc.1, hc.2.1, hc.2.2⟩
    have k3 : m.m11 < m.m00 ∨ m.m11 < m.trace ∨ m.m11 < m.m22 := by
      by_contra hc; push Not at hc; exact h3 ⟨hc.1, hc.2.1, hc.2.2⟩
    have k4 : m.m22 < m.m00 ∨ m.m22 < m.m11 ∨ m.m22 < m.trace := by
      by_contra hc; push Not at hc; exact h4 ⟨hc.1, hc.2.1, hc.2.2⟩
    rcases k1 with a | a | a <;> rcases k2 with b | b | b <;> rcases k3 with c | c | c <;> rcases k4 with d | d | d <;> linarith

/-- **C26.** A proper rotation is converted to a unitary quaternion whose matrix it is, in every branch. The hypothesis `eps ≤ 2` is met
by the code (`Real::Epsilon()` is far smaller). -/
theorem C26_matrix_roundtrip (eps : ℝ) (he : 0 < eps) (he2 : eps ≤ 2) (m : M3) (hm : IsRotation m) :
    ∃ q, Quat.RotationMatrix eps (some m) = .ok q ∧ Unitary q ∧ RotMat.Quaternion eps (some q) = .ok m := by
  obtain ⟨q, h1, h2, h3⟩ := quat_of_rotation he2 hm
  exact ⟨q, h1, h2, by rw [rotMat_quaternion_eq he h2, h3]⟩

/-- **C26.** A unitary quaternion converted to a matrix and back is `==` to itself. -/
theorem C26_quaternion_roundtrip (eps : ℝ) (he : 0 < eps) (he2 : eps ≤ 2) (q : Quat) (hq : Unitary q) :
    ∃ m p, RotMat.Quaternion eps (some q) = .ok m ∧ Quat.RotationMatrix eps (some m) = .ok p ∧
      QuatObj.eq (some p) (some q) = true := by
  obtain ⟨p, h1, h2, h3⟩ := quat_of_rotation he2 (RotMat.ofQuat_isRotation hq)
  exact ⟨_, p, rotMat_quaternion_eq he hq, h1, Quat.beq_iff.2 (eq_of_ofQuat_eq h2 hq h3)⟩

/-- Each of the four branches is reached by a proper rotation. -/
example : IsRotation ⟨1, 0, 0, 0, 0, 1, 0, -1, 0⟩ ∧ IsRotation ⟨1, 0, 0, 0, -1, 0, 0, 0, -1⟩ ∧
    IsRotation ⟨-1, 0, 0, 0, 1, 0, 0, 0, -1⟩ ∧ IsRotation ⟨-1, 0, 0, 0, -1, 0, 0, 0, 1⟩ := by
  simp only [M3.isRotation_iff]
  refine ⟨⟨?_, ?_⟩, ⟨?_, ?_⟩, ⟨?_, ?_⟩, ⟨?_, ?_⟩⟩ <;> first | (ext <;> norm_num [M3.mul, M3.transpose, M3.one]) | norm_num [M3.det]

end Verif.Props
