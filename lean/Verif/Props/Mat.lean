import Verif.Model.Mat
import Mathlib.Analysis.InnerProductSpace.PiL2

/-! # C104: when vectors and matrices are near -/

namespace Verif.Props

open Verif

/-- all elements are finite -/
def AllFinite (m : Mat) : Prop := ∀ i < m.rows, ∀ j < m.cols, ∃ x, m.elem i j = .fin x

/-- the same shape -/
def SameShape (m n : Mat) : Prop := m.rows = n.rows ∧ m.cols = n.cols

theorem mat_defined_iff (m : Mat) : m.isDefined = true ↔ AllFinite m := by
  have hn : m.isNaN = true ↔ ∃ i < m.rows, ∃ j < m.cols, m.elem i j = .nan := by
    simp only [Mat.isNaN, Mat.any, List.any_eq_true, List.mem_range]
    refine exists_congr fun i => and_congr_right fun _ => exists_congr fun j => and_congr_right fun _ => ?_
    cases m.elem i j <;> simp
  have hi : m.isInf = true ↔ ∃ i < m.rows, ∃ j < m.cols, ∃ b, m.elem i j = .inf b := by
    simp only [Mat.isInf, Mat.any, List.any_eq_true, List.mem_range]
    refine exists_congr fun i => and_congr_right fun _ => exists_congr fun j => and_congr_right fun _ => ?_
    cases m.elem i j <;> simp
  simp only [Mat.isDefined, Bool.and_eq_true, Bool.not_eq_true', ← Bool.not_eq_true, hn, hi]
  constructor
  · rintro ⟨h1, h2⟩ i hi j hj
    cases h : m.elem i j with
    | nan => exact absurd ⟨i, hi, j, hj, h⟩ h1
    | inf b => exact absurd ⟨i, hi, j, hj, b, h⟩ h2
    | fin x => exact ⟨x, rfl⟩
  · intro h
    constructor
    · rintro ⟨i, hi, j, hj, hx⟩
      obtain ⟨x, hx'⟩ := h i hi j hj
      rw [hx] at hx'
      cases hx'
    · rintro ⟨i, hi, j, hj, b, hx⟩
      obtain ⟨x, hx'⟩ := h i hi j hj
      rw [hx] at hx'
      cases hx'

/-- **C104.** A matrix is defined exactly when all its elements are finite. Missing from the full statement: an undefined matrix without
elements is defined (`C104_empty_violated`). -/
theorem C104_defined_partial (m : Mat) (r c : ℕ) : (m.isDefined = true ↔ AllFinite m) ∧
    (0 < r → 0 < c → (Mat.NaN r c).isDefined = false ∧ (Mat.Inf r c).isDefined = false ∧
      (Mat.NaN r c).isNaN = true ∧ (Mat.NaN r c).isInf = false ∧ (Mat.Inf r c).isInf = true ∧ (Mat.Inf r c).isNaN = false) ∧
    ∀ k, (Mat.axis k).isDefined = true := by
  refine ⟨mat_defined_iff m, fun hr hc => ⟨?_, ?_, ?_, ?_, ?_, ?_⟩, fun k => ?_⟩
  · rw [← Bool.not_eq_true, mat_defined_iff]
    intro h
    obtain ⟨x, hx⟩ := h 0 hr 0 hc
    cases hx
  · rw [← Bool.not_eq_true, mat_defined_iff]
    intro h
    obtain ⟨x, hx⟩ := h 0 hr 0 hc
    cases hx
  · simp only [Mat.isNaN, Mat.any, Mat.NaN, List.any_eq_true, List.mem_range]
    exact ⟨0, hr, 0, hc, trivial⟩
  · simp [Mat.isInf, Mat.any, Mat.NaN]
  · simp only [Mat.isInf, Mat.any, Mat.Inf, List.any_eq_true, List.mem_range]
    exact ⟨0, hr, 0, hc, trivial⟩
  · simp [Mat.isNaN, Mat.any, Mat.Inf]
  · rw [mat_defined_iff]
    exact fun i _ j _ => ⟨_, rfl⟩

/-- **C104.** `Undefined (0)` is defined. -/
theorem C104_empty_violated (r c : ℕ) (h : r = 0 ∨ c = 0) : (Mat.NaN r c).isDefined = true := by
  rw [mat_defined_iff]
  intro i hi j hj
  rcases h with rfl | rfl
  · exact absurd hi (Nat.not_lt_zero _)
  · exact absurd hj (Nat.not_lt_zero _)

/-- the elements of a matrix as a vector of a Euclidean space -/
noncomputable def matVec (m : Mat) (r c : ℕ) : EuclideanSpace ℝ (Fin r × Fin c) := WithLp.toLp 2 fun p => Mat.value (m.elem p.1 p.2)

theorem mat_distance {m n : Mat} : m.distance n = dist (matVec m m.rows m.cols) (matVec n m.rows m.cols) := by
  rw [EuclideanSpace.dist_eq, Mat.distance, Fintype.sum_prod_type, ← Fin.sum_univ_eq_sum_range]
  congr 1
  refine Finset.sum_congr rfl fun i _ => ?_
  rw [← Fin.sum_univ_eq_sum_range (fun j => (Mat.value (m.elem i j) - Mat.value (n.elem i j)) ^ 2)]
  refine Finset.sum_congr rfl fun j _ => ?_
  rw [Real.dist_eq, sq_abs]
  rfl

theorem mat_near {m n : Mat} (hm : AllFinite m) (hn : AllFinite n) (h : SameShape m n) (tol : ℝ) :
    m.isNear n tol = .ok (decide (m.distance n ≤ tol)) := by
  simp [Mat.isNear, (mat_defined_iff m).2 hm, (mat_defined_iff n).2 hn, h.1, h.2]

/-- **C104.** For finite matrices of the same shape `isNear` never throws. It is symmetric; it holds between a matrix and itself exactly
for the tolerances that are not negative; with a zero tolerance it is equality of all elements; nearness within `s` and `t` gives nearness
within `s + t`; and it bounds the difference of each pair of elements. -/
theorem C104_near_partial {l m n : Mat} (hl : AllFinite l) (hm : AllFinite m) (hn : AllFinite n) (hlm : SameShape l m) (hmn : SameShape m n)
    (s t : ℝ) :
    (∃ b, l.isNear m s = .ok b ∧ m.isNear l s = .ok b) ∧ l.isNear l s = .ok (decide (0 ≤ s)) ∧
    (l.isNear m 0 = .ok true ↔ ∀ i < l.rows, ∀ j < l.cols, l.elem i j = m.elem i j) ∧
    (l.isNear m s = .ok true → m.isNear n t = .ok true → l.isNear n (s + t) = .ok true) ∧
    (l.isNear m s = .ok true → ∀ i < l.rows, ∀ j < l.cols, ∀ x y, l.elem i j = .fin x → m.elem i j = .fin y → |x - y| ≤ s) := by
  have hml : SameShape m l := ⟨hlm.1.symm, hlm.2.symm⟩
  have hln : SameShape l n := ⟨hlm.1.trans hmn.1, hlm.2.trans hmn.2⟩
  have hsym : l.distance m = m.distance l := by rw [mat_distance, mat_distance, hlm.1, hlm.2, dist_comm]
  have hself : l.distance l = 0 := by rw [mat_distance, dist_self]
  have hel : ∀ i < l.rows, ∀ j < l.cols, |Mat.value (l.elem i j) - Mat.value (m.elem i j)| ≤ l.distance m := by
    intro i hi j hj
    rw [Mat.distance]
    refine Real.abs_le_sqrt ?_
    refine le_trans ?_ (Finset.single_le_sum (f := fun i => ∑ j ∈ Finset.range l.cols, (Mat.value (l.elem i j) - Mat.value (m.elem i j)) ^ 2)
      (fun i _ => Finset.sum_nonneg fun j _ => sq_nonneg _) (Finset.mem_range.2 hi))
    exact Finset.single_le_sum (f := fun j => (Mat.value (l.elem i j) - Mat.value (m.elem i j)) ^ 2) (fun j _ => sq_nonneg _) (Finset.mem_range.2 hj)
  refine ⟨⟨_, mat_near hl hm hlm s, ?_⟩, ?_, ?_, ?_, ?_⟩
  · rw [mat_near hm hl hml, hsym]
  · rw [mat_near hl hl ⟨rfl, rfl⟩, hself]
  · rw [mat_near hl hm hlm, Except.ok.injEq, decide_eq_true_eq]
    constructor
    · intro h i hi j hj
      obtain ⟨x, hx⟩ := hl i hi j hj
      obtain ⟨y, hy⟩ := hm i (hlm.1 ▸ hi) j (hlm.2 ▸ hj)
      have h1 := (hel i hi j hj).trans h
      rw [hx, hy] at h1 ⊢
      have h2 : x - y = 0 := abs_nonpos_iff.1 h1
      rw [sub_eq_zero.1 h2]
    · intro h
      rw [Mat.distance, Finset.sum_eq_zero, Real.sqrt_zero]
      intro i hi
      refine Finset.sum_eq_zero fun j hj => ?_
      rw [h i (Finset.mem_range.1 hi) j (Finset.mem_range.1 hj), sub_self]
      ring
  · rw [mat_near hl hm hlm, mat_near hm hn hmn, mat_near hl hn hln]
    simp only [Except.ok.injEq, decide_eq_true_eq]
    intro h1 h2
    rw [mat_distance] at h1 h2 ⊢
    rw [hlm.1, hlm.2] at h1 ⊢
    exact (dist_triangle _ _ _).trans (add_le_add h1 h2)
  · rw [mat_near hl hm hlm, Except.ok.injEq, decide_eq_true_eq]
    intro h i hi j hj x y hx hy
    have := (hel i hi j hj).trans h
    rwa [hx, hy] at this

example : AllFinite (Mat.axis 0) ∧ AllFinite (Mat.axis 1) ∧ SameShape (Mat.axis 0) (Mat.axis 1) :=
  ⟨fun _ _ _ _ => ⟨_, rfl⟩, fun _ _ _ _ => ⟨_, rfl⟩, rfl, rfl⟩

/-- **C104.** `isNear` throws when an element is not finite, and when the numbers of elements differ. -/
theorem C104_errors (m n : Mat) (tol : ℝ) : (¬ AllFinite m ∨ ¬ AllFinite n → m.isNear n tol = .error .runtimeError) ∧
    (m.rows * m.cols ≠ n.rows * n.cols → m.isNear n tol = .error .runtimeError) := by
  constructor
  · rw [← mat_defined_iff, ← mat_defined_iff]
    intro h
    rw [Mat.isNear, if_pos]
    rcases h with h | h
    · simp [h]
    · simp [h]
  · intro h
    simp only [Mat.isNear]
    split_ifs <;> rfl

example : ¬ AllFinite (Mat.NaN 2 3) := fun h => by
  obtain ⟨x, hx⟩ := h 0 (by decide) 0 (by decide)
  cases hx

/-- **C104.** The check of the sizes lets through matrices of different shapes with as many elements. -/
theorem C104_shape_violated : ∃ m n : Mat, AllFinite m ∧ AllFinite n ∧ ¬ SameShape m n ∧ ∀ tol, m.isNear n tol = .error .ub := by
  have h : ∀ r c, AllFinite ⟨r, c, fun _ _ => .fin 1⟩ := fun r c _ _ _ _ => ⟨_, rfl⟩
  refine ⟨⟨2, 3, fun _ _ => .fin 1⟩, ⟨3, 2, fun _ _ => .fin 1⟩, h 2 3, h 3 2, by simp [SameShape], fun tol => ?_⟩
  simp [Mat.isNear, (mat_defined_iff _).2 (h 2 3), (mat_defined_iff _).2 (h 3 2)]

end Verif.Props
