import Verif.Spec.MatrixInterpolator
import Verif.Lemmas.Interpolator
import Mathlib.Analysis.Matrix.Spectrum
import Mathlib.Analysis.Matrix.PosDef
import Mathlib.LinearAlgebra.Lagrange
import Mathlib.Algebra.Order.Star.Real
import Mathlib.Analysis.SpecialFunctions.Exponential
import Mathlib.LinearAlgebra.Matrix.PosDef

/-! # Lemmas on symmetric matrices, their exponentials and logarithms -/

namespace Verif

open Verif.Spec Matrix

variable {n : ℕ}

theorem lowerSym_isSymm (A : SqMat n) : (lowerSym A).IsSymm := by
  ext i j
  simp only [Matrix.transpose_apply, lowerSym]
  rcases lt_trichotomy i j with h | h | h
  · rw [if_pos h.le, if_neg (not_le.mpr h)]
  · subst h; rfl
  · rw [if_neg (not_le.mpr h), if_pos h.le]

theorem lowerSym_of_isSymm {A : SqMat n} (h : A.IsSymm) : lowerSym A = A := by
  ext i j
  simp only [lowerSym]
  split_ifs
  · rfl
  · exact h.apply i j

/-- the real spectral theorem, in the shape of the eigensolver -/
theorem spectral {A : SqMat n} (h : A.IsSymm) : ∃ (w : Fin n → ℝ) (V : SqMat n), V.transpose * V = 1 ∧ V * diagonal w * V.transpose = A := by
  have hh : A.IsHermitian := by
    rw [Matrix.IsHermitian, Matrix.conjTranspose_eq_transpose_of_trivial]
    exact h
  refine ⟨hh.eigenvalues, (hh.eigenvectorUnitary : SqMat n), ?_, ?_⟩
  · have := (Matrix.mem_unitaryGroup_iff' (A := (hh.eigenvectorUnitary : SqMat n))).mp hh.eigenvectorUnitary.2
    rwa [Matrix.star_eq_conjTranspose, Matrix.conjTranspose_eq_transpose_of_trivial] at this
  · conv_rhs => rw [hh.spectral_theorem]
    rw [Unitary.conjStarAlgAut_apply, Matrix.star_eq_conjTranspose, Matrix.conjTranspose_eq_transpose_of_trivial]
    rfl

theorem conj_isSymm {V : SqMat n} (w : Fin n → ℝ) : (V * diagonal w * V.transpose).IsSymm := by
  rw [Matrix.IsSymm, Matrix.transpose_mul, Matrix.transpose_mul, Matrix.transpose_transpose, Matrix.diagonal_transpose, Matrix.mul_assoc]

theorem exp_diag (w : Fin n → ℝ) : NormedSpace.exp (diagonal w) = diagonal (fun i => Real.exp (w i)) := by
  rw [Matrix.exp_diagonal]
  congr 1
  ext i
  rw [Pi.coe_exp, Real.exp_eq_exp_ℝ]

theorem exp_conj_diag {V : SqMat n} (hV : V.transpose * V = 1) (w : Fin n → ℝ) :
    NormedSpace.exp (V * diagonal w * V.transpose) = V * diagonal (fun i => Real.exp (w i)) * V.transpose := by
  have hinv : V⁻¹ = V.transpose := Matrix.inv_eq_left_inv hV
  have hu : IsUnit V := by
    rw [Matrix.isUnit_iff_isUnit_det]
    exact Matrix.isUnit_det_of_left_inverse hV
  rw [← hinv, Matrix.exp_conj V _ hu, exp_diag]

/-- a polynomial of a diagonalised matrix -/
theorem aeval_conj_diag {V : SqMat n} (hV : V.transpose * V = 1) (w : Fin n → ℝ) (p : Polynomial ℝ) :
    Polynomial.aeval (V * diagonal w * V.transpose) p = V * diagonal (fun i => p.eval (w i)) * V.transpose := by
  have hV' : V * V.transpose = 1 := mul_eq_one_comm.mp hV
  induction p using Polynomial.induction_on with
  | C a =>
    simp only [Polynomial.aeval_C, Polynomial.eval_C]
    rw [show diagonal (fun _ : Fin n => a) = a • (1 : SqMat n) by ext i j; by_cases h : i = j <;> simp [h, Matrix.diagonal, Matrix.one_apply]]
    rw [Matrix.mul_smul, Matrix.mul_one, Matrix.smul_mul, hV']
    exact Algebra.algebraMap_eq_smul_one a
  | add p q hp hq =>
    rw [map_add, hp, hq, ← Matrix.add_mul, ← Matrix.mul_add, Matrix.diagonal_add]
    simp
  | monomial k a h =>
    rw [pow_succ, ← mul_assoc, map_mul, h, Polynomial.aeval_X]
    calc V * diagonal (fun i => Polynomial.eval (w i) (Polynomial.C a * Polynomial.X ^ k)) * V.transpose * (V * diagonal w * V.transpose)
        = V * diagonal (fun i => Polynomial.eval (w i) (Polynomial.C a * Polynomial.X ^ k)) * (V.transpose * V) * diagonal w * V.transpose := by
          simp only [Matrix.mul_assoc]
      _ = V * diagonal (fun i => Polynomial.eval (w i) (Polynomial.C a * Polynomial.X ^ k * Polynomial.X)) * V.transpose := by
          rw [hV, Matrix.mul_one, Matrix.mul_assoc V, Matrix.diagonal_mul_diagonal]
          simp

/-- the symmetric logarithm is unique -/
theorem Spec.LogOf.unique {A L K : SqMat n} (hL : LogOf A L) (hK : LogOf A K) : L = K := by
  obtain ⟨w, V, hV, rfl⟩ := spectral hL.1
  obtain ⟨u, U, hU, rfl⟩ := spectral hK.1
  have h1 := hL.2
  have h2 := hK.2
  rw [exp_conj_diag hV] at h1
  rw [exp_conj_diag hU] at h2
  classical
  set s : Finset ℝ := (Finset.univ.image fun i => Real.exp (w i)) ∪ Finset.univ.image fun i => Real.exp (u i) with hs
  set p : Polynomial ℝ := Lagrange.interpolate s id (fun t => Real.log t) with hp
  have hev : ∀ t ∈ s, p.eval t = Real.log t := fun t ht =>
    Lagrange.eval_interpolate_at_node (s := s) (v := id) (r := fun t => Real.log t) (Set.injOn_id _) ht
  have e1 := aeval_conj_diag hV (fun i => Real.exp (w i)) p
  have e2 := aeval_conj_diag hU (fun i => Real.exp (u i)) p
  rw [h1] at e1
  rw [h2] at e2
  have f1 : (fun i => p.eval (Real.exp (w i))) = w := by
    ext i
    rw [hev _ (by simp [hs]), Real.log_exp]
  have f2 : (fun i => p.eval (Real.exp (u i))) = u := by
    ext i
    rw [hev _ (by simp [hs]), Real.log_exp]
  rw [f1] at e1
  rw [f2] at e2
  rw [← e1, ← e2]

/-- a diagonalised matrix is positive definite exactly when its eigenvalues are positive -/
theorem posDef_conj_iff {V : SqMat n} (hV : V.transpose * V = 1) (w : Fin n → ℝ) : (V * diagonal w * V.transpose).PosDef ↔ ∀ i, 0 < w i := by
  have hV' : V * V.transpose = 1 := mul_eq_one_comm.mp hV
  have hu : IsUnit V := by
    rw [Matrix.isUnit_iff_isUnit_det]
    exact Matrix.isUnit_det_of_left_inverse hV
  have h := Matrix.IsUnit.posDef_star_right_conjugate_iff (U := V) (x := diagonal w) hu
  rw [Matrix.star_eq_conjTranspose, Matrix.conjTranspose_eq_transpose_of_trivial] at h
  rw [h, Matrix.posDef_diagonal_iff]

theorem PosDef.isSymm' {A : SqMat n} (h : A.PosDef) : A.IsSymm := by
  have := h.1
  rwa [Matrix.IsHermitian, Matrix.conjTranspose_eq_transpose_of_trivial] at this

/-- the exponential of a symmetric matrix is positive definite -/
theorem Spec.LogOf.posDef {A L : SqMat n} (h : LogOf A L) : A.PosDef := by
  obtain ⟨w, V, hV, rfl⟩ := spectral h.1
  rw [← h.2, exp_conj_diag hV, posDef_conj_iff hV]
  exact fun i => Real.exp_pos _

/-- a positive definite matrix has a symmetric logarithm -/
theorem exists_logOf {A : SqMat n} (h : A.PosDef) : ∃ L, LogOf A L := by
  obtain ⟨w, V, hV, rfl⟩ := spectral (PosDef.isSymm' h)
  refine ⟨V * diagonal (fun i => Real.log (w i)) * V.transpose, conj_isSymm _, ?_⟩
  rw [exp_conj_diag hV]
  congr 3
  ext i
  exact Real.exp_log ((posDef_conj_iff hV w).mp h i)

/-! ## The spec of interpolation along logarithms -/

theorem Spec.LogOf.congr {A L K : SqMat n} (h : LogOf A L) (e : L = K) : LogOf A K := e ▸ h

/-- the matrix between two matrices is unique -/
theorem Spec.Between.unique {A B M N : SqMat n} {r : ℝ} (h : Between A B r M) (h' : Between A B r N) : M = N := by
  obtain ⟨L, K, hL, hK, hM⟩ := h
  obtain ⟨L', K', hL', hK', hN⟩ := h'
  rw [← hM.2, ← hN.2, hL.unique hL', hK.unique hK']

theorem exists_between {A B : SqMat n} (hA : A.PosDef) (hB : B.PosDef) (r : ℝ) : ∃ M, Between A B r M := by
  obtain ⟨L, hL⟩ := exists_logOf hA
  obtain ⟨K, hK⟩ := exists_logOf hB
  refine ⟨NormedSpace.exp ((1 - r) • L + r • K), L, K, hL, hK, ?_, rfl⟩
  exact (hL.1.smul _).add (hK.1.smul _)

theorem Spec.Between.posDef {A B M : SqMat n} {r : ℝ} (h : Between A B r M) : M.PosDef := by
  obtain ⟨L, K, _, _, hM⟩ := h
  exact hM.posDef

theorem between_zero {A B M : SqMat n} (h : Between A B 0 M) : M = A := by
  obtain ⟨L, K, hL, hK, hM⟩ := h
  rw [← hM.2, ← hL.2]
  simp

theorem between_one {A B M : SqMat n} (h : Between A B 1 M) : M = B := by
  obtain ⟨L, K, hL, hK, hM⟩ := h
  rw [← hM.2, ← hK.2]
  simp

theorem between_self {A M : SqMat n} {r : ℝ} (h : Between A A r M) : M = A := by
  obtain ⟨L, K, hL, hK, hM⟩ := h
  rw [hL.unique hK, ← add_smul] at hM
  rw [← hM.2, ← hK.2]
  simp

theorem Spec.LogOf.rotate {A L R : SqMat n} (hR : R.transpose * R = 1) (h : LogOf A L) : LogOf (R * A * R.transpose) (R * L * R.transpose) := by
  have hinv : R⁻¹ = R.transpose := Matrix.inv_eq_left_inv hR
  have hu : IsUnit R := by
    rw [Matrix.isUnit_iff_isUnit_det]
    exact Matrix.isUnit_det_of_left_inverse hR
  constructor
  · rw [Matrix.IsSymm, Matrix.transpose_mul, Matrix.transpose_mul, Matrix.transpose_transpose, h.1.eq, Matrix.mul_assoc]
  · rw [← hinv, Matrix.exp_conj R _ hu, h.2]

theorem Spec.LogOf.inv {A L : SqMat n} (h : LogOf A L) : LogOf A⁻¹ (-L) :=
  ⟨h.1.neg, by rw [Matrix.exp_neg, h.2]⟩

theorem Spec.LogOf.scale {A L : SqMat n} {c : ℝ} (hc : 0 < c) (h : LogOf A L) : LogOf (c • A) (L + Real.log c • 1) := by
  refine ⟨h.1.add (Matrix.isSymm_one.smul _), ?_⟩
  rw [Matrix.exp_add_of_commute _ _ ((Commute.one_right L).smul_right _), h.2,
    show (Real.log c • (1 : SqMat n)) = diagonal (fun _ => Real.log c) by ext i j; by_cases e : i = j <;> simp [e, Matrix.diagonal, Matrix.one_apply], exp_diag,
    show diagonal (fun _ : Fin n => Real.exp (Real.log c)) = c • (1 : SqMat n) by
      ext i j; by_cases e : i = j <;> simp [e, Matrix.diagonal, Matrix.one_apply, Real.exp_log hc]]
  simp

/-- the determinant of the exponential is the exponential of the trace -/
theorem Spec.LogOf.det {A L : SqMat n} (h : LogOf A L) : A.det = Real.exp L.trace := by
  obtain ⟨w, V, hV, rfl⟩ := spectral h.1
  have hV' : V * V.transpose = 1 := mul_eq_one_comm.mp hV
  have hd : V.det * V.transpose.det = 1 := by rw [← Matrix.det_mul, hV', Matrix.det_one]
  rw [← h.2, exp_conj_diag hV, Matrix.det_mul, Matrix.det_mul, Matrix.det_diagonal, mul_right_comm, hd, one_mul, Matrix.trace_mul_comm, ← Matrix.mul_assoc, hV, Matrix.one_mul,
    Matrix.trace_diagonal, Real.exp_sum]

theorem Spec.Between.rotate {A B M R : SqMat n} {r : ℝ} (hR : R.transpose * R = 1) (h : Between A B r M) :
    Between (R * A * R.transpose) (R * B * R.transpose) r (R * M * R.transpose) := by
  obtain ⟨L, K, hL, hK, hM⟩ := h
  refine ⟨_, _, hL.rotate hR, hK.rotate hR, (hM.rotate hR).congr ?_⟩
  simp [Matrix.mul_add, Matrix.add_mul]

theorem Spec.Between.inv {A B M : SqMat n} {r : ℝ} (h : Between A B r M) : Between A⁻¹ B⁻¹ r M⁻¹ := by
  obtain ⟨L, K, hL, hK, hM⟩ := h
  refine ⟨_, _, hL.inv, hK.inv, hM.inv.congr ?_⟩
  simp only [neg_add, smul_neg]

theorem Spec.Between.scale {A B M : SqMat n} {r c : ℝ} (hc : 0 < c) (h : Between A B r M) : Between (c • A) (c • B) r (c • M) := by
  obtain ⟨L, K, hL, hK, hM⟩ := h
  refine ⟨_, _, hL.scale hc, hK.scale hc, (hM.scale hc).congr ?_⟩
  simp only [smul_add, sub_smul, one_smul]
  abel

theorem Spec.Between.det {A B M : SqMat n} {r : ℝ} (h : Between A B r M) : M.det = A.det ^ (1 - r) * B.det ^ r := by
  obtain ⟨L, K, hL, hK, hM⟩ := h
  rw [hM.det, hL.det, hK.det, ← Real.exp_mul, ← Real.exp_mul, ← Real.exp_add, Matrix.trace_add, Matrix.trace_smul, Matrix.trace_smul]
  simp only [smul_eq_mul]
  congr 1
  ring

theorem Spec.Between.swap {A B M : SqMat n} {r : ℝ} (h : Between A B r M) : Between B A (1 - r) M := by
  obtain ⟨L, K, hL, hK, hM⟩ := h
  exact ⟨K, L, hK, hL, hM.congr (by rw [sub_sub_cancel, add_comm])⟩

/-! ## The code -/

theorem LogI.matrixLogSPD_spec {solver : EigenSolver} (hs : SolvesSym solver) {A : SqMat n} :
    (∀ L, LogI.matrixLogSPD solver A = .ok L → LogOf (lowerSym A) L) ∧
    (∀ e, LogI.matrixLogSPD solver A = .error e → e = .runtimeError) ∧
    (Converges solver → (lowerSym A).PosDef → ∃ L, LogI.matrixLogSPD solver A = .ok L) := by
  unfold LogI.matrixLogSPD
  cases h : solver n A with
  | none =>
    refine ⟨fun L hL => (by cases hL), fun e he => (by cases he; rfl), fun hc _ => ?_⟩
    obtain ⟨w, V, hwv⟩ := hc n A
    rw [h] at hwv
    cases hwv
  | some p =>
    obtain ⟨w, V⟩ := p
    obtain ⟨hV, hA⟩ := hs n A w V h
    simp only []
    by_cases hw : ∃ i, w i ≤ 0
    · rw [if_pos hw]
      refine ⟨fun L hL => (by cases hL), fun e he => (by cases he; rfl), fun _ hp => ?_⟩
      rw [← hA, posDef_conj_iff hV] at hp
      obtain ⟨i, hi⟩ := hw
      exact absurd (hp i) (not_lt.mpr hi)
    · rw [if_neg hw]
      push Not at hw
      refine ⟨fun L hL => ?_, fun e he => (by cases he), fun _ _ => ⟨_, rfl⟩⟩
      cases hL
      refine ⟨conj_isSymm _, ?_⟩
      rw [exp_conj_diag hV, ← hA]
      congr 3
      ext i
      exact Real.exp_log (hw i)

theorem LogI.matrixExpSymmetric_spec {solver : EigenSolver} (hs : SolvesSym solver) (hc : Converges solver) {L : SqMat n} (hL : L.IsSymm) :
    LogI.matrixExpSymmetric solver L = .ok (NormedSpace.exp L) := by
  unfold LogI.matrixExpSymmetric
  obtain ⟨w, V, h⟩ := hc n L
  obtain ⟨hV, hA⟩ := hs n L w V h
  rw [h]
  simp only []
  rw [← exp_conj_diag hV, hA, lowerSym_of_isSymm hL]

theorem LogI.increasing_iff (x : List ℝ) : LogI.increasing x = true ↔ x.Pairwise (· < ·) := by
  rw [← List.isChain_iff_pairwise]
  induction x with
  | nil => simp [LogI.increasing]
  | cons a l ih =>
    cases l with
    | nil => simp [LogI.increasing]
    | cons b l =>
      rw [LogI.increasing, List.isChain_cons_cons, ← ih]
      by_cases h : b ≤ a
      · simp [h]
      · simp [h, not_le.mp h]

theorem LogI.logAll_spec {solver : EigenSolver} (hs : SolvesSym solver) (ms : List (SqMat n)) :
    (∀ Ls, LogI.logAll solver ms = .ok Ls → Ls.length = ms.length ∧ ∀ (i : ℕ) A, ms[i]? = some A → ∃ L, Ls[i]? = some L ∧ LogOf (lowerSym A) L) ∧
    (∀ e, LogI.logAll solver ms = .error e → e = .runtimeError) ∧
    (Converges solver → (∀ A ∈ ms, (lowerSym A).PosDef) → ∃ Ls, LogI.logAll solver ms = .ok Ls) := by
  induction ms with
  | nil => exact ⟨fun Ls h => by cases h; simp, fun e h => (by cases h), fun _ _ => ⟨_, rfl⟩⟩
  | cons A l ih =>
    obtain ⟨h1, h2, h3⟩ := LogI.matrixLogSPD_spec hs (A := A)
    obtain ⟨i1, i2, i3⟩ := ih
    rw [LogI.logAll]
    cases hA : LogI.matrixLogSPD solver A with
    | error e =>
      refine ⟨fun L hL => (by cases hL), fun e' he => (by cases he; exact h2 _ hA), fun hc hp => ?_⟩
      obtain ⟨L, hL⟩ := h3 hc (hp A (by simp))
      rw [hA] at hL
      cases hL
    | ok L =>
      simp only []
      cases hl : LogI.logAll solver l with
      | error e =>
        refine ⟨fun L hL => (by cases hL), fun e' he => (by cases he; exact i2 _ hl), fun hc hp => ?_⟩
        obtain ⟨Ls, hLs⟩ := i3 hc (fun B hB => hp B (by simp [hB]))
        rw [hl] at hLs
        cases hLs
      | ok Ls =>
        refine ⟨fun Ls' hL => ?_, fun e' he => (by cases he), fun _ _ => ⟨_, rfl⟩⟩
        cases hL
        obtain ⟨hlen, hat⟩ := i1 Ls hl
        refine ⟨by simp [hlen], fun i B hB => ?_⟩
        cases i with
        | zero =>
          simp only [List.getElem?_cons_zero, Option.some.injEq] at hB ⊢
          exact ⟨L, rfl, hB ▸ h1 L hA⟩
        | succ i =>
          simp only [List.getElem?_cons_succ] at hB ⊢
          exact hat i B hB

/-- what an accepted interpolant holds -/
theorem LogI.ctor_ok {solver : EigenSolver} (hs : SolvesSym solver) {x : List ℝ} {ms : List MatX} {l : LogI} (h : LogI.ctor solver x ms = .ok l) :
    2 ≤ x.length ∧ x.length = ms.length ∧ x.Pairwise (· < ·) ∧ (∀ A ∈ ms, A.rows = l.n ∧ A.cols = l.n) ∧ l.x = x ∧ l.mats = ms.map (fun A => A.sq l.n) ∧
      ∀ (i : ℕ) A, ms[i]? = some A → ∃ L, l.logs[i]? = some L ∧ LogOf (lowerSym (A.sq l.n)) L := by
  unfold LogI.ctor at h
  split at h
  · cases h
  split at h
  · cases h
  rename_i h2 hlen
  push Not at hlen
  cases ms with
  | nil => cases h
  | cons A ms =>
    simp only [] at h
    split at h
    · cases h
    split at h
    · cases h
    split at h
    · cases h
    rename_i hsq hdim hinc
    cases hl : LogI.logAll solver ((A :: ms).map fun B => B.sq A.rows) with
    | error e => rw [hl] at h; cases h
    | ok Ls =>
      rw [hl] at h
      cases h
      push Not at hsq
      have hinc' : x.Pairwise (· < ·) := (LogI.increasing_iff x).mp (by simpa using hinc)
      obtain ⟨h1, h2', -⟩ := LogI.logAll_spec hs ((A :: ms).map fun B => B.sq A.rows)
      refine ⟨by omega, hlen, hinc', fun B hB => ?_, rfl, rfl, fun i B hB => ?_⟩
      · rcases List.mem_cons.mp hB with rfl | hB
        · exact ⟨rfl, hsq.symm⟩
        · have : ms.all (fun B => decide (B.rows = A.rows ∧ B.cols = A.cols)) = true := by simpa using hdim
          rw [List.all_eq_true] at this
          have := this B hB
          simp only [decide_eq_true_eq] at this
          exact ⟨this.1, this.2.trans hsq.symm⟩
      · exact (h1 Ls hl).2 i (B.sq A.rows) (by rw [List.getElem?_map, hB]; rfl)

/-- the two nodes used for an abscissa, and the fraction of the way between them -/
noncomputable def place (x : List ℝ) (q : ℝ) : ℕ × ℕ × ℝ :=
  if lowerBound x q = 0 then (0, 0, 0)
  else if lowerBound x q = x.length then (x.length - 1, x.length - 1, 0)
  else (lowerBound x q - 1, lowerBound x q,
    (q - x.getD (lowerBound x q - 1) 0) / (x.getD (lowerBound x q) 0 - x.getD (lowerBound x q - 1) 0))

theorem place_lt {x : List ℝ} (h : 0 < x.length) (q : ℝ) : (place x q).1 < x.length ∧ (place x q).2.1 < x.length := by
  have := (lowerBound_spec x q).1
  unfold place
  split_ifs <;> simp <;> omega

/-- an evaluation on symmetric matrices, in terms of the spec -/
theorem LogI.evaluate_spec {solver : EigenSolver} (hs : SolvesSym solver) (hc : Converges solver) {x : List ℝ} {ms : List MatX} {l : LogI}
    (h : LogI.ctor solver x ms = .ok l) (hsym : ∀ A ∈ ms, (A.sq l.n).IsSymm) (q : ℝ) {A B : MatX} (hA : ms[(place x q).1]? = some A)
    (hB : ms[(place x q).2.1]? = some B) : ∃ M, l.evaluate solver q = .ok M ∧ Between (A.sq l.n) (B.sq l.n) (place x q).2.2 M := by
  obtain ⟨h2, hlen, hinc, hdim, hx, hm, hlog⟩ := LogI.ctor_ok hs h
  obtain ⟨k0, k1, k2⟩ := lowerBound_spec x q
  obtain ⟨L, hL, hLA⟩ := hlog _ A hA
  obtain ⟨K, hK, hKB⟩ := hlog _ B hB
  rw [lowerSym_of_isSymm (hsym A (List.mem_of_getElem? hA))] at hLA
  rw [lowerSym_of_isSymm (hsym B (List.mem_of_getElem? hB))] at hKB
  by_cases c0 : lowerBound x q = 0
  · have hp : place x q = (0, 0, 0) := by simp [place, c0]
    have hr : l.findIndexRange q = (0, 0) := by simp [LogI.findIndexRange, hx, c0]
    rw [hp] at hA hB hL hK ⊢
    simp only [] at hA hB hL hK ⊢
    rw [hA] at hB
    cases hB
    refine ⟨A.sq l.n, ?_, L, L, hLA, hLA, by simpa using hLA⟩
    rw [LogI.evaluate, hr]
    exact vecAt_some (by rw [hm, List.getElem?_map, hA]; rfl)
  · by_cases c1 : lowerBound x q = x.length
    · have hx0 : x ≠ [] := by rintro rfl; simp at h2
      have hp : place x q = (x.length - 1, x.length - 1, 0) := by simp [place, c1, hx0]
      have hr : l.findIndexRange q = (x.length - 1, x.length - 1) := by simp [LogI.findIndexRange, hx, c1, hx0]
      rw [hp] at hA hB hL hK ⊢
      simp only [] at hA hB hL hK ⊢
      rw [hA] at hB
      cases hB
      refine ⟨A.sq l.n, ?_, L, L, hLA, hLA, by simpa using hLA⟩
      rw [LogI.evaluate, hr]
      simp only [if_true]
      exact vecAt_some (by rw [hm, List.getElem?_map, hA]; rfl)
    · obtain ⟨x0, hx0⟩ := exists_at (v := x) (i := lowerBound x q - 1) (by omega)
      obtain ⟨x1, hx1⟩ := exists_at (v := x) (i := lowerBound x q) (by omega)
      have hp : place x q = (lowerBound x q - 1, lowerBound x q, (q - x0) / (x1 - x0)) := by
        simp [place, c0, c1, hx0, hx1, List.getD_eq_getElem?_getD]
      have hr : l.findIndexRange q = (lowerBound x q - 1, lowerBound x q) := by simp [LogI.findIndexRange, hx, c0, c1]
      rw [hp] at hA hB hL hK ⊢
      simp only [] at hA hB hL hK ⊢
      rw [LogI.evaluate, hr]
      simp only []
      rw [if_neg (by omega), hx]
      simp only [vecAt_some hx0, vecAt_some hx1, vecAt_some hL, vecAt_some hK, bind, Except.bind]
      have hsy : ((1 - (q - x0) / (x1 - x0)) • L + ((q - x0) / (x1 - x0)) • K).IsSymm := (hLA.1.smul _).add (hKB.1.smul _)
      exact ⟨_, LogI.matrixExpSymmetric_spec hs hc hsy, L, K, hLA, hKB, hsy, rfl⟩

end Verif
