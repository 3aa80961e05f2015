import Verif.Lemmas.Ellipsoid
import Verif.Props.Quaternion
import Verif.Props.Sphere

/-!
# Ellipsoids (C49)
-/

namespace Verif.Props

open Verif Verif.Spec Classical

set_option linter.flexible false

/-- a defined ellipsoid -/
def ell (p : V3) (a b c : ℝ) (q : Quat) : Ellipsoid3 := ⟨some p, some a, some b, some c, some q⟩

theorem row0_eq (m : M3) : m.transpose.mulVec V3.X = m.row0 := by ext <;> simp [M3.mulVec, M3.transpose, M3.row0, V3.X]
theorem row1_eq (m : M3) : m.transpose.mulVec V3.Y = m.row1 := by ext <;> simp [M3.mulVec, M3.transpose, M3.row1, V3.Y]
theorem row2_eq (m : M3) : m.transpose.mulVec V3.Z = m.row2 := by ext <;> simp [M3.mulVec, M3.transpose, M3.row2, V3.Z]

theorem axes_eq {eps : ℝ} (h0 : 0 < eps) (p : V3) (a b c : ℝ) {q : Quat} (hq : Unitary q) :
    (ell p a b c q).getFirstAxis eps = .ok (RotMat.ofQuat q).row0 ∧ (ell p a b c q).getSecondAxis eps = .ok (RotMat.ofQuat q).row1 ∧
    (ell p a b c q).getThirdAxis eps = .ok (RotMat.ofQuat q).row2 := by
  have h : ∀ v, QuatObj.rotateVector (some q.conj) (some v) (some eps) = .ok ((RotMat.ofQuat q).transpose.mulVec v) := by
    intro v
    rw [rotateVector_unitary h0 v (Quat.unitary_conj hq), RotMat.ofQuat_conj]
  refine ⟨?_, ?_, ?_⟩
  · show QuatObj.rotateVector (some q.conj) (some V3.X) (some eps) = _
    rw [h, row0_eq]
  · show QuatObj.rotateVector (some q.conj) (some V3.Y) (some eps) = _
    rw [h, row1_eq]
  · show QuatObj.rotateVector (some q.conj) (some V3.Z) (some eps) = _
    rw [h, row2_eq]

theorem toGte_eq {eps : ℝ} (h0 : 0 < eps) (p : V3) (a b c : ℝ) {q : Quat} (hq : Unitary q) :
    (ell p a b c q).toGte eps = .ok (gteOf p a b c (RotMat.ofQuat q)) := by
  obtain ⟨h1, h2, h3⟩ := axes_eq h0 p a b c hq
  rw [Ellipsoid3.toGte, h1, h2, h3]; rfl

theorem matrix_eq {eps : ℝ} (h0 : 0 < eps) (p : V3) (a b c : ℝ) {q : Quat} (hq : Unitary q) :
    (ell p a b c q).getMatrix eps = .ok (gteOf p a b c (RotMat.ofQuat q)).getM := by
  obtain ⟨h1, h2, h3⟩ := axes_eq h0 p a b c hq
  rw [Ellipsoid3.getMatrix, h1, h2, h3]; rfl

theorem contains_eq {eps : ℝ} (h0 : 0 < eps) (p : V3) (a b c : ℝ) {q : Quat} (hq : Unitary q) (x : V3) :
    (ell p a b c q).contains eps (some x) =
      .ok (decide (|((x - p).dot ((RotMat.ofQuat q).mulVec V3.X) / a) ^ 2 + ((x - p).dot ((RotMat.ofQuat q).mulVec V3.Y) / b) ^ 2 +
        ((x - p).dot ((RotMat.ofQuat q).mulVec V3.Z) / c) ^ 2 - 1| < eps)) := by
  have h : ∀ v, QuatObj.rotateVector (some q) (some v) (some eps) = .ok ((RotMat.ofQuat q).mulVec v) := fun v => rotateVector_unitary h0 v hq
  simp only [Ellipsoid3.contains, Ellipsoid3.need, ell, need, h, bind, Except.bind, pure, Except.pure]
  congr 3
  simp only [M3.mulVec, M3.rows, V3.dot]
  ring_nf

theorem dot_frame {m : M3} (hm : IsRotation m) : m.row0.normSq = 1 ∧ m.row1.normSq = 1 ∧ m.row2.normSq = 1 ∧ m.row0.dot m.row1 = 0 ∧
    m.row1.dot m.row2 = 0 ∧ m.row2.dot m.row0 = 0 ∧ m.row0.cross m.row1 = m.row2 := by
  have ht := M3.isRotation_transpose hm
  rw [← row0_eq, ← row1_eq, ← row2_eq, M3.mulVec_normSq ht, M3.mulVec_normSq ht, M3.mulVec_normSq ht, M3.mulVec_dot ht, M3.mulVec_dot ht,
    M3.mulVec_dot ht, M3.mulVec_cross ht]
  refine ⟨?_, ?_, ?_, ?_, ?_, ?_, ?_⟩
  · norm_num [V3.normSq, V3.dot, V3.X]
  · norm_num [V3.normSq, V3.dot, V3.Y]
  · norm_num [V3.normSq, V3.dot, V3.Z]
  · norm_num [V3.dot, V3.X, V3.Y]
  · norm_num [V3.dot, V3.Y, V3.Z]
  · norm_num [V3.dot, V3.Z, V3.X]
  · congr 1; ext <;> simp [V3.X, V3.Y, V3.Z]

/-- The three axes of an ellipsoid are orthogonal unit vectors forming a right-handed frame, and `getMatrix` is the matrix of the quadratic form
with these axes and the semi-axes. -/
theorem C49_axes (eps : ℝ) (h0 : 0 < eps) (p : V3) (a b c : ℝ) (q : Quat) (hq : Unitary q) :
    ∃ u v w m, (ell p a b c q).getFirstAxis eps = .ok u ∧ (ell p a b c q).getSecondAxis eps = .ok v ∧ (ell p a b c q).getThirdAxis eps = .ok w ∧
      (ell p a b c q).getMatrix eps = .ok m ∧
      u.norm = 1 ∧ v.norm = 1 ∧ w.norm = 1 ∧ u.dot v = 0 ∧ v.dot w = 0 ∧ w.dot u = 0 ∧ u.cross v = w ∧
      ∀ x : V3, x.dot (m.mulVec x) = (x.dot u / a) ^ 2 + (x.dot v / b) ^ 2 + (x.dot w / c) ^ 2 := by
  obtain ⟨h1, h2, h3⟩ := axes_eq h0 p a b c hq
  obtain ⟨k1, k2, k3, k4, k5, k6, k7⟩ := dot_frame (RotMat.ofQuat_isRotation hq)
  exact ⟨_, _, _, _, h1, h2, h3, matrix_eq h0 p a b c hq, V3.norm_of_normSq_one k1, V3.norm_of_normSq_one k2, V3.norm_of_normSq_one k3, k4, k5, k6, k7,
    fun x => Gte.Ellipsoid.form_eq _ x⟩

example : (0 : ℝ) < 1 ∧ Unitary ⟨1 / 2, -1 / 2, 1 / 2, 1 / 2⟩ := ⟨one_pos, unitary_example⟩

/-- What `contains` tests in general: the quadratic form of the ellipsoid with the opposite (conjugate) orientation, within the tolerance. -/
theorem C49_contains_conjugate (eps : ℝ) (h0 : 0 < eps) (p : V3) (a b c : ℝ) (q : Quat) (hq : Unitary q) (x : V3) :
    ∃ m r, (ell p a b c q.conj).getMatrix eps = .ok m ∧ (ell p a b c q).contains eps (some x) = .ok r ∧
      (r = true ↔ |(x - p).dot (m.mulVec (x - p)) - 1| < eps) := by
  refine ⟨_, _, matrix_eq h0 p a b c (Quat.unitary_conj hq), contains_eq h0 p a b c hq x, ?_⟩
  rw [decide_eq_true_iff, Gte.Ellipsoid.form_eq]
  show _ ↔ |((x - p).dot (RotMat.ofQuat q.conj).row0 / a) ^ 2 + ((x - p).dot (RotMat.ofQuat q.conj).row1 / b) ^ 2 +
    ((x - p).dot (RotMat.ofQuat q.conj).row2 / c) ^ 2 - 1| < eps
  rw [← row0_eq, ← row1_eq, ← row2_eq, RotMat.ofQuat_conj]
  rfl

/-- the orientations for which the direction of the rotation does not matter: none, half turns, or three equal semi-axes -/
def Symmetric (a b c : ℝ) (q : Quat) : Prop := q.vec = 0 ∨ q.s = 0 ∨ (a = b ∧ b = c)

theorem form_symmetric {a b c : ℝ} {q : Quat} (hq : Unitary q) (hs : Symmetric a b c q) (x : V3) :
    (x.dot ((RotMat.ofQuat q).mulVec V3.X) / a) ^ 2 + (x.dot ((RotMat.ofQuat q).mulVec V3.Y) / b) ^ 2 +
      (x.dot ((RotMat.ofQuat q).mulVec V3.Z) / c) ^ 2 =
    (x.dot (RotMat.ofQuat q).row0 / a) ^ 2 + (x.dot (RotMat.ofQuat q).row1 / b) ^ 2 + (x.dot (RotMat.ofQuat q).row2 / c) ^ 2 := by
  have key : (RotMat.ofQuat q).transpose = RotMat.ofQuat q → (x.dot ((RotMat.ofQuat q).mulVec V3.X) / a) ^ 2 + (x.dot ((RotMat.ofQuat q).mulVec V3.Y) / b) ^ 2 +
      (x.dot ((RotMat.ofQuat q).mulVec V3.Z) / c) ^ 2 =
    (x.dot (RotMat.ofQuat q).row0 / a) ^ 2 + (x.dot (RotMat.ofQuat q).row1 / b) ^ 2 + (x.dot (RotMat.ofQuat q).row2 / c) ^ 2 := by
    intro h
    rw [← row0_eq, ← row1_eq, ← row2_eq, h]
  rcases hs with h | h | ⟨rfl, rfl⟩
  · apply key
    obtain ⟨h1, h2, h3⟩ : q.x = 0 ∧ q.y = 0 ∧ q.z = 0 := ⟨congrArg V3.x h, congrArg V3.y h, congrArg V3.z h⟩
    ext <;> simp [M3.transpose, RotMat.ofQuat, h1, h2, h3]
  · apply key
    ext <;> simp [M3.transpose, RotMat.ofQuat, h] <;> ring
  · have hm := RotMat.ofQuat_isRotation hq
    have n1 : ∀ m : M3, IsRotation m → (x.dot m.row0 / a) ^ 2 + (x.dot m.row1 / a) ^ 2 + (x.dot m.row2 / a) ^ 2 = x.normSq / a ^ 2 := by
      intro m hm
      have := M3.mulVec_normSq hm x
      rw [mulVec_rows] at this
      simp only [V3.normSq] at this ⊢
      rw [← this]
      simp only [V3.dot]; ring
    rw [n1 _ hm, ← n1 _ (M3.isRotation_transpose hm), ← row0_eq, ← row1_eq, ← row2_eq]
    rfl

/-- **C49 where it holds.** For the orientations that do not distinguish the two directions of rotation (`Symmetric`), `contains` is the quadratic form
of `getMatrix` within the tolerance, the ellipsoid with the returned axes is contained, and so are the six points at the ends of the semi-axes.
What is missing: the other orientations, for which it is false (`C49_violated`); in general `contains` tests the conjugate orientation
(`C49_contains_conjugate`). -/
theorem C49_contains_partial (eps : ℝ) (h0 : 0 < eps) (p : V3) (a b c : ℝ) (ha : 0 < a) (hb : 0 < b) (hc : 0 < c) (q : Quat) (hq : Unitary q)
    (hs : Symmetric a b c q) :
    ∃ u v w m, (ell p a b c q).getFirstAxis eps = .ok u ∧ (ell p a b c q).getSecondAxis eps = .ok v ∧ (ell p a b c q).getThirdAxis eps = .ok w ∧
      (ell p a b c q).getMatrix eps = .ok m ∧
      (∀ x, ∃ r, (ell p a b c q).contains eps (some x) = .ok r ∧ (r = true ↔ |(x - p).dot (m.mulVec (x - p)) - 1| < eps)) ∧
      (∀ x ∈ EllipsoidSet p a b c u v w, (ell p a b c q).contains eps (some x) = .ok true) ∧
      (∀ x ∈ ({p + a • u, p - a • u, p + b • v, p - b • v, p + c • w, p - c • w} : Set V3), (ell p a b c q).contains eps (some x) = .ok true) := by
  obtain ⟨h1, h2, h3⟩ := axes_eq h0 p a b c hq
  obtain ⟨k1, k2, k3, k4, k5, k6, k7⟩ := dot_frame (RotMat.ofQuat_isRotation hq)
  have hc' : ∀ x, ∃ r, (ell p a b c q).contains eps (some x) = .ok r ∧ (r = true ↔
      |((x - p).dot (RotMat.ofQuat q).row0 / a) ^ 2 + ((x - p).dot (RotMat.ofQuat q).row1 / b) ^ 2 + ((x - p).dot (RotMat.ofQuat q).row2 / c) ^ 2 - 1| < eps) :=
    fun x => ⟨_, contains_eq h0 p a b c hq x, by rw [form_symmetric hq hs, decide_eq_true_iff]⟩
  have hin : ∀ x ∈ EllipsoidSet p a b c (RotMat.ofQuat q).row0 (RotMat.ofQuat q).row1 (RotMat.ofQuat q).row2,
      (ell p a b c q).contains eps (some x) = .ok true := by
    intro x hx
    obtain ⟨r, e, hr⟩ := hc' x
    rw [e, hr.2]
    have hx' : ((x - p).dot (RotMat.ofQuat q).row0 / a) ^ 2 + ((x - p).dot (RotMat.ofQuat q).row1 / b) ^ 2 + ((x - p).dot (RotMat.ofQuat q).row2 / c) ^ 2 = 1 := hx
    rw [hx', sub_self, abs_zero]; exact h0
  refine ⟨_, _, _, _, h1, h2, h3, matrix_eq h0 p a b c hq, fun x => ?_, hin, ?_⟩
  · rw [Gte.Ellipsoid.form_eq]; exact hc' x
  · have k4' : (RotMat.ofQuat q).row1.dot (RotMat.ofQuat q).row0 = 0 := by rw [V3.dot_comm, k4]
    have k5' : (RotMat.ofQuat q).row2.dot (RotMat.ofQuat q).row1 = 0 := by rw [V3.dot_comm, k5]
    have k6' : (RotMat.ofQuat q).row0.dot (RotMat.ofQuat q).row2 = 0 := by rw [V3.dot_comm, k6]
    have d1 : ∀ (k : ℝ) (u v : V3), (p + k • u - p).dot v = k * u.dot v := fun k u v => by simp [V3.dot]; ring
    have d2 : ∀ (k : ℝ) (u v : V3), (p - k • u - p).dot v = -(k * u.dot v) := fun k u v => by simp [V3.dot]; ring
    have n : ∀ u : V3, u.dot u = u.normSq := fun _ => rfl
    have ha' := ha.ne'
    have hb' := hb.ne'
    have hc'' := hc.ne'
    rintro x (rfl | rfl | rfl | rfl | rfl | rfl) <;> apply hin <;> show _ = _ <;>
      simp [d1, d2, n, k1, k2, k3, k4, k5, k6, k4', k5', k6', ha', hb', hc'']

example : (0 : ℝ) < 1 ∧ (0 : ℝ) < 2 ∧ Unitary ⟨3 / 5, 0, -4 / 5, 0⟩ ∧ Symmetric 1 2 3 ⟨3 / 5, 0, -4 / 5, 0⟩ :=
  ⟨one_pos, two_pos, by norm_num [Unitary], Or.inr (Or.inl rfl)⟩

/-- **C49 is violated.** For a third of a turn about (1, 1, 1) and the semi-axes 1, 2, 3, the end of the first semi-axis is not contained in the
ellipsoid, although it is on it according to `getMatrix`. -/
theorem C49_violated (eps : ℝ) (h0 : 0 < eps) (h1 : eps ≤ 1 / 2) :
    ∃ e x u m, Ellipsoid3.ctor (some 0) (some 1) (some 2) (some 3) (some ⟨1 / 2, 1 / 2, 1 / 2, 1 / 2⟩) = .ok e ∧ Unitary ⟨1 / 2, 1 / 2, 1 / 2, 1 / 2⟩ ∧
      e.getFirstAxis eps = .ok u ∧ x = 0 + (1 : ℝ) • u ∧ e.getMatrix eps = .ok m ∧ (x - 0).dot (m.mulVec (x - 0)) = 1 ∧
      e.contains eps (some x) = .ok false := by
  have hq : Unitary ⟨1 / 2, 1 / 2, 1 / 2, 1 / 2⟩ := by norm_num [Unitary]
  obtain ⟨e1, -, -⟩ := axes_eq h0 0 1 2 3 hq
  refine ⟨ell 0 1 2 3 ⟨1 / 2, 1 / 2, 1 / 2, 1 / 2⟩, _, _, _, ?_, hq, e1, rfl, matrix_eq h0 0 1 2 3 hq, ?_, ?_⟩
  · simp [Ellipsoid3.ctor, ell]; norm_num
  · rw [Gte.Ellipsoid.form_eq]
    norm_num [gteOf, M3.row0, M3.row1, M3.row2, V3.dot, RotMat.ofQuat]
  · rw [contains_eq h0 0 1 2 3 hq]
    norm_num [M3.row0, M3.mulVec, V3.dot, RotMat.ofQuat, V3.X, V3.Y, V3.Z]
    linarith

/-- Sets are contained when they are not empty and all their points are; a segment when both its ends are. Where `contains` is tested by value these
are the tests of all points. -/
theorem C49_sets (eps : ℝ) (e : Ellipsoid3) (f : V3 → Bool) (hd : e.isDefined = true) (hf : ∀ p, e.contains eps (some p) = .ok (f p)) (ps : List V3) (x y : V3) :
    (∃ r, e.containsSet eps (ps.map some) = .ok r ∧ (r = true ↔ ps ≠ [] ∧ ∀ p ∈ ps, f p = true)) ∧
    (∃ r, e.intersectsSet eps (ps.map some) = .ok r ∧ (r = true ↔ ∃ p ∈ ps, f p = true)) ∧
    (∃ r, e.containsSegment eps ⟨some x, some y⟩ = .ok r ∧ (r = true ↔ f x = true ∧ f y = true)) := by
  have hc' : ∀ a ∈ ps.map some, ∃ b, e.contains eps a = .ok b ∧ (b = true ↔ ∀ q, a = some q → f q = true) := by
    intro a ha
    obtain ⟨q, -, rfl⟩ := List.mem_map.1 ha
    exact ⟨f q, hf q, by simp⟩
  refine ⟨?_, ?_, ?_⟩
  · by_cases he : ps = []
    · subst he; exact ⟨false, by simp [Ellipsoid3.containsSet, hd], by simp⟩
    · obtain ⟨b, h1, h2⟩ := allOf_true hc'
      refine ⟨b, ?_, ?_⟩
      · simpa [Ellipsoid3.containsSet, hd, he] using h1
      · rw [h2]; simp [he]
  · by_cases he : ps = []
    · subst he; exact ⟨false, by simp [Ellipsoid3.intersectsSet, hd], by simp⟩
    · obtain ⟨b, h1, h2⟩ := anyOf_true hc'
      refine ⟨b, ?_, ?_⟩
      · simpa [Ellipsoid3.intersectsSet, hd, he] using h1
      · rw [h2]; simp
  · refine ⟨f x && f y, ?_, by simp⟩
    simp only [Ellipsoid3.containsSegment, Seg3.isDefined, hf]
    cases f x <;> cases f y <;> rfl

example (eps : ℝ) (h0 : 0 < eps) : ∃ f : V3 → Bool, (ell 0 1 2 3 Quat.Unit).isDefined = true ∧ ∀ p, (ell 0 1 2 3 Quat.Unit).contains eps (some p) = .ok (f p) :=
  ⟨_, rfl, fun p => contains_eq h0 0 1 2 3 (by norm_num [Unitary, Quat.Unit]) p⟩

/-- The constructor throws exactly when a semi-axis is negative. Undefined operands throw, and so does an orientation that is not unitary. -/
theorem C49_errors (eps : ℝ) (h0 : 0 < eps) :
    (∀ p a b c q, Ellipsoid3.ctor (some p) (some a) (some b) (some c) (some q) = .ok (ell p a b c q) ∧ 0 ≤ a ∧ 0 ≤ b ∧ 0 ≤ c ∨
      Ellipsoid3.ctor (some p) (some a) (some b) (some c) (some q) = .error .runtimeError ∧ (a < 0 ∨ b < 0 ∨ c < 0)) ∧
    (∀ p a b c q x, eps < |q.norm - 1| → (ell p a b c q).contains eps (some x) = .error .runtimeError ∧
      (ell p a b c q).getMatrix eps = .error .runtimeError) ∧
    (∀ e, Ellipsoid3.contains eps e none = .error .undefined) ∧
    (∀ e : Ellipsoid3, e.isDefined = false → ∀ p, e.contains eps p = .error .undefined ∧ e.getMatrix eps = .error .undefined ∧
      e.getFirstAxis eps = .error .undefined ∧ (∀ ps, e.containsSet eps ps = .error .undefined)) := by
  refine ⟨fun p a b c q => ?_, fun p a b c q x hq => ?_, fun _ => rfl, fun e he p => ?_⟩
  · by_cases h1 : a < 0
    · right; exact ⟨by simp [Ellipsoid3.ctor, h1], Or.inl h1⟩
    · by_cases h2 : b < 0
      · right; exact ⟨by simp [Ellipsoid3.ctor, h1, h2], Or.inr (Or.inl h2)⟩
      · by_cases h3 : c < 0
        · right; exact ⟨by simp [Ellipsoid3.ctor, h1, h2, h3], Or.inr (Or.inr h3)⟩
        · left; exact ⟨by simp [Ellipsoid3.ctor, h1, h2, h3, ell], not_lt.1 h1, not_lt.1 h2, not_lt.1 h3⟩
  · have n : q.conj.norm = q.norm := by rw [Quat.norm, Quat.normSq_conj]; rfl
    simp [ell, Ellipsoid3.contains, Ellipsoid3.getMatrix, Ellipsoid3.getFirstAxis, Ellipsoid3.need, need, QuatObj.rotateVector, Quat.rotate, Quat.isUnitary,
      not_le.2 h0, not_le.2 hq, n, bind, Except.bind, pure, Except.pure]
  · have hn : e.need = .error .undefined := by
      obtain ⟨_ | _, _ | _, _ | _, _ | _, _ | _⟩ := e <;> first | rfl | simp [Ellipsoid3.isDefined] at he
    refine ⟨?_, ?_, ?_, fun ps => by simp [Ellipsoid3.containsSet, he]⟩
    · cases p
      · rfl
      · simp [Ellipsoid3.contains, hn, need, bind, Except.bind]
    · simp [Ellipsoid3.getMatrix, hn, bind, Except.bind]
    · simp [Ellipsoid3.getFirstAxis, hn, bind, Except.bind]

example : (1 : ℝ) < |(⟨0, 0, 0, 3⟩ : Quat).norm - 1| := by
  have : (⟨0, 0, 0, 3⟩ : Quat).norm = 3 := by
    rw [Quat.norm, show (⟨0, 0, 0, 3⟩ : Quat).normSq = 3 ^ 2 by norm_num [Quat.normSq], Real.sqrt_sq (by norm_num)]
  rw [this]; norm_num

end Verif.Props
