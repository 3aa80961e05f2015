import Verif.Props.RotationVector

/-!
# Rotation matrices: validity, element access, vector bases (C35, C36, C72)
-/

namespace Verif.Props

open Verif Verif.Spec

set_option linter.flexible false

/-! ## C36 -/

/-- **C36.** Element access with indices other than 3: elements for indices up to 2, an exception for indices above 3. Missing from
the full statement: the index 3 (`C36_index_three`). -/
theorem C36_element_partial (a : M3) :
    (∀ i j : Fin 3, RotMat.at_ (some a) i j = .ok (toMatrix a i j)) ∧
    (∀ i j : ℕ, 3 < i ∨ 3 < j → RotMat.at_ (some a) i j = .error .runtimeError) ∧
    (∀ i j : ℕ, i ≤ 3 → j ≤ 3 → RotMat.at_ none i j = .error .undefined) := by
  refine ⟨?_, ?_, ?_⟩
  · intro i j
    fin_cases i <;> fin_cases j <;> simp [RotMat.at_, RotMat.entry, need, bind, Except.bind, toMatrix]
  · rintro i j (h | h)
    · simp [RotMat.at_, h]
    · simp only [RotMat.at_, gt_iff_lt, h, if_true]; split_ifs <;> rfl
  · intro i j hi hj
    simp [RotMat.at_, not_lt.2 hi, not_lt.2 hj, need, bind, Except.bind]

/-- **C36.** The property is false: the index 3 passes the test of the code and reads outside the matrix. -/
theorem C36_index_three (a : M3) (j : ℕ) (hj : j ≤ 3) :
    RotMat.at_ (some a) 3 j = .error .ub ∧ RotMat.at_ (some a) j 3 = .error .ub := by
  have : j = 0 ∨ j = 1 ∨ j = 2 ∨ j = 3 := by omega
  rcases this with rfl | rfl | rfl | rfl <;> exact ⟨rfl, rfl⟩

/-- **C36.** Access to rows and columns is safe for all indices. -/
theorem C36_rows_columns (a : M3) :
    (∀ i j : Fin 3, ∃ r c, RotMat.getRowAt (some a) i = .ok r ∧ RotMat.getColumnAt (some a) i = .ok c ∧
      ![r.x, r.y, r.z] j = toMatrix a i j ∧ ![c.x, c.y, c.z] j = toMatrix a j i) ∧
    (∀ (b : Option M3) (i : ℕ), 3 ≤ i → RotMat.getRowAt b i = .error .runtimeError ∧ RotMat.getColumnAt b i = .error .runtimeError) ∧
    (∀ i : ℕ, i < 3 → RotMat.getRowAt none i = .error .undefined ∧ RotMat.getColumnAt none i = .error .undefined) := by
  refine ⟨?_, ?_, ?_⟩
  · intro i j
    fin_cases i <;> fin_cases j <;> simp [RotMat.getRowAt, RotMat.getColumnAt, need, bind, Except.bind, toMatrix, M3.row0, M3.row1,
      M3.row2, M3.col0, M3.col1, M3.col2]
  · intro b i h
    simp [RotMat.getRowAt, RotMat.getColumnAt, h]
  · intro i h
    simp [RotMat.getRowAt, RotMat.getColumnAt, not_le.2 h, need, bind, Except.bind]

example : RotMat.at_ (some ⟨1, 2, 3, 4, 5, 6, 7, 8, 9⟩) 1 2 = .ok 6 :=
  ((C36_element_partial ⟨1, 2, 3, 4, 5, 6, 7, 8, 9⟩).1 1 2).trans (by simp [toMatrix])

/-! ## C72 -/

theorem cross_normSq_pos {u v : V3} (hu : u.normSq = 1) (hv : v.normSq = 1) (h : |u.dot v| ≠ 1) : 0 < (u.cross v).normSq := by
  have h1 := V3.cauchy u v
  rw [hu, hv, one_mul] at h1
  rw [V3.lagrange, hu, hv]
  rcases h1.lt_or_eq with h2 | h2
  · linarith
  · exfalso; apply h
    rw [← sq_eq_sq₀ (abs_nonneg _) zero_le_one, sq_abs, h2, one_pow]

theorem basis_isRotation {u v : V3} (hu : u.normSq = 1) (hc : 0 < (u.cross v).normSq) : IsRotation (RotMat.basis u v) := by
  obtain ⟨n, hn⟩ : ∃ n, n = (u.cross v).normalized := ⟨_, rfl⟩
  have h1 : n.normSq = 1 := hn ▸ V3.normSq_normalized hc
  have h2 : u.dot n = 0 := by
    rw [hn, V3.normalized_eq hc]
    simp only [V3.dot, V3.smul_x, V3.smul_y, V3.smul_z, V3.cross]; ring
  rw [RotMat.basis, ← hn, M3.isRotation_iff]
  simp only [V3.normSq, V3.dot] at hu h1 h2
  constructor
  · ext <;> simp only [M3.mul, M3.transpose, M3.rows, M3.one, V3.cross]
    · linarith
    · ring
    · linarith
    · ring
    · linear_combination (n.x * n.x + n.y * n.y + n.z * n.z) * hu + h1 - (u.x * n.x + u.y * n.y + u.z * n.z) * h2
    · ring
    · linarith
    · ring
    · linarith
  · simp only [M3.det, M3.rows, V3.cross]
    linear_combination (n.x * n.x + n.y * n.y + n.z * n.z) * hu + h1 - (u.x * n.x + u.y * n.y + u.z * n.z) * h2

theorem M3.transpose_mulVec_mulVec {m : M3} (h : IsRotation m) (v : V3) : m.transpose.mulVec (m.mulVec v) = v := by
  rw [← M3.mul_mulVec, (M3.isRotation_iff'.1 h).1, M3.one_mulVec]

theorem pos_of_norm {eps : ℝ} (h0 : 0 < eps) {u : V3} (h : ¬ u.norm < eps) : 0 < u.normSq := by
  rw [← V3.norm_sq]; have : 0 < u.norm := h0.trans_le (not_lt.1 h)
  positivity

theorem basis_mulVec {u v : V3} (hu : u.normSq = 1) (hc : 0 < (u.cross v).normSq) :
    (RotMat.basis u v).mulVec u = ⟨1, 0, 0⟩ ∧ (RotMat.basis u v).mulVec (u.cross v).normalized = ⟨0, 0, 1⟩ := by
  obtain ⟨n, hn⟩ : ∃ n, n = (u.cross v).normalized := ⟨_, rfl⟩
  have h1 : n.normSq = 1 := hn ▸ V3.normSq_normalized hc
  have h2 : u.dot n = 0 := by
    rw [hn, V3.normalized_eq hc]
    simp only [V3.dot, V3.smul_x, V3.smul_y, V3.smul_z, V3.cross]; ring
  rw [RotMat.basis, ← hn]
  simp only [V3.normSq, V3.dot] at hu h1 h2
  constructor <;> ext <;> simp only [M3.mulVec, M3.rows, V3.cross]
  · linarith
  · ring
  · linarith
  · linarith
  · ring
  · linarith

/-- **C72.** `VectorBasis` throws exactly when a vector is too short or a pair is too close to parallel; otherwise the result is a
proper rotation that maps the direction of the first source vector on the direction of the first destination vector, and the normal
of the source pair on the normal of the destination pair. -/
theorem C72_vector_basis (eps : ℝ) (h0 : 0 < eps) (s1 s2 d1 d2 : V3) :
    (RotMat.VectorBasis eps (some s1) (some s2) (some d1) (some d2) = .error .runtimeError ∧
      (s1.norm < eps ∨ s2.norm < eps ∨ d1.norm < eps ∨ d2.norm < eps ∨ |(|s1.normalized.dot s2.normalized|) - 1| < eps ∨
        |(|d1.normalized.dot d2.normalized|) - 1| < eps)) ∨
    ∃ m, RotMat.VectorBasis eps (some s1) (some s2) (some d1) (some d2) = .ok m ∧ IsRotation m ∧
      m.mulVec s1.normalized = d1.normalized ∧
      m.mulVec (s1.normalized.cross s2.normalized).normalized = (d1.normalized.cross d2.normalized).normalized ∧
      ¬ (s1.norm < eps ∨ s2.norm < eps ∨ d1.norm < eps ∨ d2.norm < eps ∨ |(|s1.normalized.dot s2.normalized|) - 1| < eps ∨
        |(|d1.normalized.dot d2.normalized|) - 1| < eps) := by
  simp only [RotMat.VectorBasis, need, bind, Except.bind]
  by_cases h1 : s1.norm < eps ∨ s2.norm < eps ∨ d1.norm < eps ∨ d2.norm < eps
  · left; simp only [h1, if_true]; tauto
  by_cases h2 : |(|s1.normalized.dot s2.normalized|) - 1| < eps
  · left; simp only [h1, h2, if_true, if_false]; tauto
  by_cases h3 : |(|d1.normalized.dot d2.normalized|) - 1| < eps
  · left; simp only [h1, h2, h3, if_true, if_false]; tauto
  right
  simp only [h1, h2, h3, if_false]
  push Not at h1
  have ns1 := V3.normSq_normalized (pos_of_norm h0 (not_lt.2 h1.1))
  have ns2 := V3.normSq_normalized (pos_of_norm h0 (not_lt.2 h1.2.1))
  have nd1 := V3.normSq_normalized (pos_of_norm h0 (not_lt.2 h1.2.2.1))
  have nd2 := V3.normSq_normalized (pos_of_norm h0 (not_lt.2 h1.2.2.2))
  have hs : |s1.normalized.dot s2.normalized| ≠ 1 := by
    intro h; apply h2; rw [h, sub_self, abs_zero]; exact h0
  have hd : |d1.normalized.dot d2.normalized| ≠ 1 := by
    intro h; apply h3; rw [h, sub_self, abs_zero]; exact h0
  have cs := cross_normSq_pos ns1 ns2 hs
  have cd := cross_normSq_pos nd1 nd2 hd
  have rs := basis_isRotation ns1 cs
  have rd := basis_isRotation nd1 cd
  have hr := M3.isRotation_mul (M3.isRotation_transpose rd) rs
  refine ⟨_, RotMat.mk_of_isRotation h0 hr, hr, ?_, ?_, ?_⟩
  · rw [M3.mul_mulVec, (basis_mulVec ns1 cs).1, ← (basis_mulVec nd1 cd).1, M3.transpose_mulVec_mulVec rd]
  · rw [M3.mul_mulVec, (basis_mulVec ns1 cs).2, ← (basis_mulVec nd1 cd).2, M3.transpose_mulVec_mulVec rd]
  · rintro (h | h | h | h | h | h)
    exacts [absurd h (not_lt.2 h1.1), absurd h (not_lt.2 h1.2.1), absurd h (not_lt.2 h1.2.2.1), absurd h (not_lt.2 h1.2.2.2), by simp at h, by simp at h]

/-- **C72.** An undefined vector throws. -/
theorem C72_undefined (eps : ℝ) (s1 s2 d1 d2 : Option V3) (h : s1 = none ∨ s2 = none ∨ d1 = none ∨ d2 = none) :
    RotMat.VectorBasis eps s1 s2 d1 d2 = .error .undefined := by
  cases s1 <;> cases s2 <;> cases d1 <;> cases d2 <;> simp at h <;> rfl

/-- The second case happens: a quarter turn. -/
example : ∃ m, RotMat.VectorBasis (1 / 2) (some ⟨2, 0, 0⟩) (some ⟨0, 1, 0⟩) (some ⟨0, 3, 0⟩) (some ⟨0, 0, 1⟩) = .ok m ∧
    m.mulVec (⟨2, 0, 0⟩ : V3).normalized = (⟨0, 3, 0⟩ : V3).normalized := by
  rcases C72_vector_basis (1 / 2) (by norm_num) ⟨2, 0, 0⟩ ⟨0, 1, 0⟩ ⟨0, 3, 0⟩ ⟨0, 0, 1⟩ with ⟨-, h⟩ | ⟨m, h1, -, h3, -⟩
  · exfalso
    have a1 : (⟨2, 0, 0⟩ : V3).norm = 2 := by
      rw [V3.norm, show (⟨2, 0, 0⟩ : V3).normSq = 2 ^ 2 by norm_num [V3.normSq, V3.dot], Real.sqrt_sq (by norm_num)]
    have a2 : (⟨0, 3, 0⟩ : V3).norm = 3 := by
      rw [V3.norm, show (⟨0, 3, 0⟩ : V3).normSq = 3 ^ 2 by norm_num [V3.normSq, V3.dot], Real.sqrt_sq (by norm_num)]
    have a3 : (⟨0, 1, 0⟩ : V3).norm = 1 := by norm_num [V3.norm, V3.normSq, V3.dot]
    have a4 : (⟨0, 0, 1⟩ : V3).norm = 1 := by norm_num [V3.norm, V3.normSq, V3.dot]
    rw [V3.dot_normalized (by norm_num [V3.normSq, V3.dot]) (by norm_num [V3.normSq, V3.dot]),
      V3.dot_normalized (by norm_num [V3.normSq, V3.dot]) (by norm_num [V3.normSq, V3.dot]), a1, a2, a3, a4] at h
    norm_num [V3.dot] at h
  · exact ⟨m, h1, h3⟩

/-! ## C35 -/

/-- **C35.** What the constructor tests: it accepts a matrix exactly when no column is longer than `1 + eps` and no two columns have a
dot product above `eps`. -/
theorem C35_constructor_iff (eps : ℝ) (m : M3) :
    (RotMat.ctor eps (some m) = .ok (some m) ↔ (m.col0.norm ≤ 1 + eps ∧ m.col1.norm ≤ 1 + eps ∧ m.col2.norm ≤ 1 + eps ∧
      |m.col0.dot m.col1| ≤ eps ∧ |m.col1.dot m.col2| ≤ eps ∧ |m.col2.dot m.col0| ≤ eps)) ∧
    (RotMat.ctor eps (some m) = .ok (some m) ∨ RotMat.ctor eps (some m) = .error .runtimeError) := by
  simp only [RotMat.ctor]
  split_ifs with h1 h2 h3 h4 h5 h6
  · exact ⟨⟨fun h => by simp at h, fun h => by linarith [h.1]⟩, Or.inr rfl⟩
  · exact ⟨⟨fun h => by simp at h, fun h => by linarith [h.2.1]⟩, Or.inr rfl⟩
  · exact ⟨⟨fun h => by simp at h, fun h => by linarith [h.2.2.1]⟩, Or.inr rfl⟩
  · exact ⟨⟨fun h => by simp at h, fun h => by linarith [h.2.2.2.1]⟩, Or.inr rfl⟩
  · exact ⟨⟨fun h => by simp at h, fun h => by linarith [h.2.2.2.2.1]⟩, Or.inr rfl⟩
  · exact ⟨⟨fun h => by simp at h, fun h => by linarith [h.2.2.2.2.2]⟩, Or.inr rfl⟩
  · exact ⟨⟨fun _ => ⟨by linarith, by linarith, by linarith, by linarith, by linarith, by linarith⟩, fun _ => rfl⟩, Or.inl rfl⟩

/-- **C35.** The property is false: the constructor accepts the zero matrix and a reflection, and writing an element of a rotation
matrix needs no test. -/
theorem C35_not_proper (eps : ℝ) (h0 : 0 < eps) :
    (RotMat.ctor eps (some ⟨0, 0, 0, 0, 0, 0, 0, 0, 0⟩) = .ok (some ⟨0, 0, 0, 0, 0, 0, 0, 0, 0⟩) ∧
      (toMatrix ⟨0, 0, 0, 0, 0, 0, 0, 0, 0⟩).det = 0) ∧
    (RotMat.ctor eps (some ⟨-1, 0, 0, 0, 1, 0, 0, 0, 1⟩) = .ok (some ⟨-1, 0, 0, 0, 1, 0, 0, 0, 1⟩) ∧
      (toMatrix ⟨-1, 0, 0, 0, 1, 0, 0, 0, 1⟩).det = -1) ∧
    (RotMat.setAt (some ⟨1, 0, 0, 0, 1, 0, 0, 0, 1⟩) 0 0 7 = .ok ⟨7, 0, 0, 0, 1, 0, 0, 0, 1⟩ ∧
      (toMatrix ⟨7, 0, 0, 0, 1, 0, 0, 0, 1⟩).det = 7) := by
  refine ⟨⟨((C35_constructor_iff eps _).1).2 ?_, ?_⟩, ⟨((C35_constructor_iff eps _).1).2 ?_, ?_⟩, ⟨rfl, ?_⟩⟩
  · simp [M3.col0, M3.col1, M3.col2, V3.norm, V3.normSq, V3.dot]
    constructor <;> linarith
  · simp [M3.toMatrix_det, M3.det]
  · simp [M3.col0, M3.col1, M3.col2, V3.norm, V3.normSq, V3.dot]
    exact h0.le
  · simp [M3.toMatrix_det, M3.det]
  · simp [M3.toMatrix_det, M3.det]

/-- The matrices that a program can make with the factories and operations, starting from exactly unit axes and unitary
quaternions. -/
inductive Made (eps : ℝ) : M3 → Prop
  | unit {m} : RotMat.Unit eps = .ok m → Made eps m
  | rx {a m} : RotMat.RX eps a = .ok m → Made eps m
  | ry {a m} : RotMat.RY eps a = .ok m → Made eps m
  | rz {a m} : RotMat.RZ eps a = .ok m → Made eps m
  | quaternion {q m} : Unitary q → RotMat.Quaternion eps (some q) = .ok m → Made eps m
  | rotationVector {a t r m} : RotVec.mk1 eps (some a) t = .ok r → RotMat.RotationVector eps r = .ok m → Made eps m
  | rotationVector' {v u m} : RotMat.RotationVector eps (RotVec.mk2 (some v) u) = .ok m → Made eps m
  | eulerAngle {e m} : RotMat.EulerAngle eps e = .ok m → Made eps m
  | vectorBasis {s1 s2 d1 d2 m} : RotMat.VectorBasis eps s1 s2 d1 d2 = .ok m → Made eps m
  | mul {a b m} : Made eps a → Made eps b → RotMat.mul eps (some a) (some b) = .ok m → Made eps m
  | transposed {a m} : Made eps a → RotMat.toTransposed eps (some a) = .ok m → Made eps m
  | transpose {a m} : Made eps a → RotMat.transpose (some a) = .ok m → Made eps m
  | viaQuaternion {a q m} : Made eps a → Quat.RotationMatrix eps (some a) = .ok q → RotMat.Quaternion eps (some q) = .ok m →
      Made eps m

theorem rx_ok {eps : ℝ} (h0 : 0 < eps) {a : Angle} {m : M3} (h : RotMat.RX eps a = .ok m) : IsRotation m ∧ a.isDefined = true := by
  cases hd : a.isDefined with
  | false => rw [(C28_undefined eps a hd).1] at h; cases h
  | true =>
    obtain ⟨x, hx⟩ := (Angle.defined_iff a).1 hd
    obtain ⟨n, h1, h2, -⟩ := (C28_elementary eps h0 a x hx).1
    rw [h] at h1; cases h1; exact ⟨h2, rfl⟩
theorem ry_ok {eps : ℝ} (h0 : 0 < eps) {a : Angle} {m : M3} (h : RotMat.RY eps a = .ok m) : IsRotation m ∧ a.isDefined = true := by
  cases hd : a.isDefined with
  | false => rw [(C28_undefined eps a hd).2.1] at h; cases h
  | true =>
    obtain ⟨x, hx⟩ := (Angle.defined_iff a).1 hd
    obtain ⟨n, h1, h2, -⟩ := (C28_elementary eps h0 a x hx).2.1
    rw [h] at h1; cases h1; exact ⟨h2, rfl⟩
theorem rz_ok {eps : ℝ} (h0 : 0 < eps) {a : Angle} {m : M3} (h : RotMat.RZ eps a = .ok m) : IsRotation m ∧ a.isDefined = true := by
  cases hd : a.isDefined with
  | false => rw [(C28_undefined eps a hd).2.2] at h; cases h
  | true =>
    obtain ⟨x, hx⟩ := (Angle.defined_iff a).1 hd
    obtain ⟨n, h1, h2, -⟩ := (C28_elementary eps h0 a x hx).2.2
    rw [h] at h1; cases h1; exact ⟨h2, rfl⟩

theorem mul_ok {eps : ℝ} (h0 : 0 < eps) {a b m : M3} (ha : IsRotation a) (hb : IsRotation b)
    (h : RotMat.mul eps (some a) (some b) = .ok m) : IsRotation m := by
  have hr := M3.isRotation_mul ha hb
  simp only [RotMat.mul, need, bind, Except.bind, RotMat.mk_of_isRotation h0 hr] at h
  cases h; exact hr

theorem product3_ok {eps : ℝ} (h0 : 0 < eps) {a b c : Angle} {m : M3}
    (h : (do
      RotMat.mul eps (some (← RotMat.mul eps (some (← RotMat.RX eps a)) (some (← RotMat.RY eps b)))) (some (← RotMat.RZ eps c)) :
        Res M3) = .ok m) : IsRotation m := by
  cases ha : RotMat.RX eps a with
  | error e => rw [ha] at h; cases h
  | ok ma =>
  cases hb : RotMat.RY eps b with
  | error e => rw [ha, hb] at h; cases h
  | ok mb =>
  have hr := M3.isRotation_mul (rx_ok h0 ha).1 (ry_ok h0 hb).1
  have hab : RotMat.mul eps (some ma) (some mb) = .ok (ma.mul mb) := by
    simp only [RotMat.mul, need, bind, Except.bind, RotMat.mk_of_isRotation h0 hr]
  cases hc : RotMat.RZ eps c with
  | error e => simp only [ha, hb, hab, hc, bind, Except.bind] at h; cases h
  | ok mc =>
  simp only [ha, hb, hab, hc, bind, Except.bind] at h
  exact mul_ok h0 hr (rz_ok h0 hc).1 h

/-- **C35.** Every matrix made by any program of factories, products, transpositions and conversions is a proper rotation. Missing from
the full statement: the constructors, `Rows` and `Columns` (`C35_not_proper`, `C35_constructor_iff`), writing through `operator ()`, and
quaternions that are unitary only up to the tolerance (`C35_quaternion_tolerance`). -/
theorem C35_made_partial (eps : ℝ) (h0 : 0 < eps) (h1 : eps < 1) (m : M3) (h : Made eps m) : IsRotation m := by
  have vec : ∀ (a : V3) (t : Angle) (m : M3), a.norm = 1 → RotMat.RotationVector eps ⟨some a, t⟩ = .ok m → IsRotation m := by
    intro a t m ha h
    cases hd : t.isDefined with
    | false =>
      rw [(C27_undefined eps ⟨some a, t⟩ (by simp [RotVec.isDefined, hd])).1] at h; cases h
    | true =>
      obtain ⟨x, hx⟩ := (Angle.defined_iff t).1 hd
      obtain ⟨q, n, -, hn, -, hr, -⟩ := C27_conversions eps h0 h1.le a ha t x hx
      rw [h] at hn; cases hn; exact hr
  induction h with
  | unit h =>
    rw [RotMat.Unit, RotMat.mk_of_isRotation h0 M3.isRotation_one] at h
    cases h; exact M3.isRotation_one
  | rx h => exact (rx_ok h0 h).1
  | ry h => exact (ry_ok h0 h).1
  | rz h => exact (rz_ok h0 h).1
  | quaternion hq h =>
    rw [rotMat_quaternion_eq h0 hq] at h
    cases h; exact RotMat.ofQuat_isRotation hq
  | @rotationVector a t r m hr h =>
    obtain ⟨b, hb, hb1, -, -⟩ := (C27_axis_unit eps h1 a t r .radian).1 hr
    obtain ⟨ra, rt⟩ := r
    simp only at hb; subst hb
    exact vec b rt m hb1 h
  | @rotationVector' v u m h =>
    obtain ⟨b, hb, hb1, -, -⟩ := (C27_axis_unit eps h1 v Angle.Zero ⟨none, Angle.Zero⟩ u).2
    exact vec b _ m hb1 (by rw [← h, ← hb])
  | @eulerAngle e m h =>
    simp only [RotMat.EulerAngle] at h
    split_ifs at h
    split at h
    · exact product3_ok h0 h
    · exact product3_ok h0 h
    · exact product3_ok h0 h
    · cases h
  | @vectorBasis s1 s2 d1 d2 m h =>
    by_cases hn : s1 = none ∨ s2 = none ∨ d1 = none ∨ d2 = none
    · rw [C72_undefined eps _ _ _ _ hn] at h; cases h
    · push Not at hn
      obtain ⟨hn1, hn2, hn3, hn4⟩ := hn
      obtain ⟨s1, rfl⟩ := Option.ne_none_iff_exists'.1 hn1
      obtain ⟨s2, rfl⟩ := Option.ne_none_iff_exists'.1 hn2
      obtain ⟨d1, rfl⟩ := Option.ne_none_iff_exists'.1 hn3
      obtain ⟨d2, rfl⟩ := Option.ne_none_iff_exists'.1 hn4
      rcases C72_vector_basis eps h0 s1 s2 d1 d2 with ⟨he, -⟩ | ⟨n, hn, hr, -⟩
      · rw [h] at he; cases he
      · rw [h] at hn; cases hn; exact hr
  | mul _ _ h iha ihb => exact mul_ok h0 iha ihb h
  | @transposed a m _ h ih =>
    have hr := M3.isRotation_transpose ih
    simp only [RotMat.toTransposed, need, bind, Except.bind, RotMat.mk_of_isRotation h0 hr] at h
    cases h; exact hr
  | @transpose a m _ h ih =>
    simp only [RotMat.transpose, need, bind, Except.bind, pure, Except.pure] at h
    cases h; exact M3.isRotation_transpose ih
  | @viaQuaternion a q m _ h hm ih =>
    obtain ⟨p, hp, hp1, -⟩ := quat_of_rotation (by linarith : eps ≤ 2) ih
    rw [h] at hp; cases hp
    rw [rotMat_quaternion_eq h0 hp1] at hm
    cases hm; exact RotMat.ofQuat_isRotation hp1

example : ∃ m, Made (1 / 1000) m ∧ m ≠ M3.one := by
  obtain ⟨m, h1, -, -, h2⟩ := (C28_elementary (1 / 1000) (by norm_num) _ _ quarter_degrees).1
  refine ⟨m, .rx h1, fun h => ?_⟩
  rw [h, show 2 * Real.pi * (1 / 4) = Real.pi / 2 by ring] at h2
  simp [M3.one_mulVec] at h2

/-- **C35.** A quaternion that is unitary up to the tolerance gives a scaled rotation, with a factor between `(1 - eps)²` and
`(1 + eps)²`. -/
theorem C35_quaternion_tolerance (eps : ℝ) (h0 : 0 < eps) (h1 : eps < 1) (q : Quat) (m : M3)
    (h : RotMat.Quaternion eps (some q) = .ok m) :
    ∃ (r : M3) (k : ℝ), IsRotation r ∧ (1 - eps) ^ 2 ≤ k ∧ k ≤ (1 + eps) ^ 2 ∧ toMatrix m = k • toMatrix r := by
  have hu : |q.norm - 1| ≤ eps := by
    by_contra hc
    have : q.isUnitary eps = .ok false := by simp [Quat.isUnitary, not_le.2 h0, hc]
    simp [RotMat.Quaternion, need, this, bind, Except.bind] at h
  have hut : q.isUnitary eps = .ok true := by simp [Quat.isUnitary, not_le.2 h0, hu]
  obtain ⟨hl, hg⟩ := abs_le.1 hu
  have hpos : 0 < q.norm := by linarith
  have hp := Quat.unitary_scale_inv_norm hpos
  simp only [RotMat.Quaternion, need, hut, bind, Except.bind, Bool.not_true, Bool.false_eq_true, if_false] at h
  split_ifs at h with hb
  · rw [RotMat.Unit, RotMat.mk_of_isRotation h0 M3.isRotation_one] at h
    cases h
    exact ⟨M3.one, 1, M3.isRotation_one, by nlinarith, by nlinarith, by simp⟩
  · have hm : m = RotMat.ofQuat q := by
      simp only [RotMat.mk, bind, Except.bind] at h
      rcases (C35_constructor_iff eps (RotMat.ofQuat q)).2 with hc | hc
      · rw [hc] at h; simp [need] at h; exact h.symm
      · rw [hc] at h; cases h
    refine ⟨RotMat.ofQuat (q.scale (1 / q.norm)), q.normSq, RotMat.ofQuat_isRotation hp, ?_, ?_, ?_⟩
    · rw [← Quat.norm_sq]; exact pow_le_pow_left₀ (by linarith) (by linarith) 2
    · rw [← Quat.norm_sq]; exact pow_le_pow_left₀ hpos.le (by linarith) 2
    · have hne := hpos.ne'
      rw [hm, ← Quat.norm_sq]
      ext i j
      fin_cases i <;> fin_cases j <;> simp [toMatrix, RotMat.ofQuat] <;> field_simp

end Verif.Props
