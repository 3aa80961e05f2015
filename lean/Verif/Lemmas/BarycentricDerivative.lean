import Verif.Lemmas.Barycentric
import Mathlib.Analysis.Calculus.Deriv.Add
import Mathlib.Analysis.Calculus.Deriv.Mul
import Mathlib.Analysis.Calculus.Deriv.Inv

/-! # The derivative of a barycentric quotient -/

namespace Verif

open Finset

/-- the interpolant off the nodes, as a function -/
noncomputable def baryQ (X Y W : ℕ → ℝ) (n : ℕ) (q : ℝ) : ℝ := (∑ k ∈ range n, W k / (q - X k) * Y k) / ∑ k ∈ range n, W k / (q - X k)

theorem hasDerivAt_term {c x q : ℝ} (h : q ≠ x) : HasDerivAt (fun t => c / (t - x)) (-(c / (q - x) / (q - x))) q := by
  have hne : q - x ≠ 0 := sub_ne_zero.mpr h
  have h1 := ((hasDerivAt_id q).sub_const x).fun_inv hne
  have h2 := h1.const_mul c
  simp only [id] at h2
  refine (h2.congr_deriv ?_).congr_of_eventuallyEq (Filter.Eventually.of_forall fun t => by simp [div_eq_mul_inv])
  field_simp

theorem baryQ_deriv {X Y W : ℕ → ℝ} {n : ℕ} {q : ℝ} (hq : ∀ k < n, q ≠ X k) (hd : (∑ k ∈ range n, W k / (q - X k)) ≠ 0) :
    HasDerivAt (baryQ X Y W n)
      ((∑ k ∈ range n, W k / (q - X k) * ((baryQ X Y W n q - Y k) / (q - X k))) / ∑ k ∈ range n, W k / (q - X k)) q := by
  have hN : HasDerivAt (fun t => ∑ k ∈ range n, W k / (t - X k) * Y k) (∑ k ∈ range n, -(W k / (q - X k) / (q - X k)) * Y k) q := by
    refine HasDerivAt.fun_sum fun k hk => ?_
    exact (hasDerivAt_term (hq k (mem_range.mp hk))).mul_const _
  have hD : HasDerivAt (fun t => ∑ k ∈ range n, W k / (t - X k)) (∑ k ∈ range n, -(W k / (q - X k) / (q - X k))) q := by
    refine HasDerivAt.fun_sum fun k hk => ?_
    exact hasDerivAt_term (hq k (mem_range.mp hk))
  refine (hN.fun_div hD hd).congr_deriv ?_
  have hr : baryQ X Y W n q * ∑ k ∈ range n, W k / (q - X k) = ∑ k ∈ range n, W k / (q - X k) * Y k := by
    rw [baryQ, div_mul_cancel₀ _ hd]
  have hs : ∑ k ∈ range n, W k / (q - X k) * ((baryQ X Y W n q - Y k) / (q - X k)) =
      (∑ k ∈ range n, -(W k / (q - X k) / (q - X k)) * Y k) - baryQ X Y W n q * ∑ k ∈ range n, -(W k / (q - X k) / (q - X k)) := by
    rw [Finset.mul_sum, ← Finset.sum_sub_distrib]
    refine Finset.sum_congr rfl fun k hk => ?_
    have hne : q - X k ≠ 0 := sub_ne_zero.mpr (hq k (mem_range.mp hk))
    field_simp
    ring
  rw [hs, ← hr, div_eq_div_iff (pow_ne_zero 2 hd) hd]
  ring

/-- the interpolant near a node, with the node's term cleared of its denominator -/
theorem baryQ_near {X Y W : ℕ → ℝ} {n m : ℕ} (hm : m < n) {q : ℝ} (hq : q ≠ X m) :
    baryQ X Y W n q = (W m * Y m + (q - X m) * ∑ k ∈ (range n).erase m, W k / (q - X k) * Y k) / (W m + (q - X m) * ∑ k ∈ (range n).erase m, W k / (q - X k)) := by
  have hne : q - X m ≠ 0 := sub_ne_zero.mpr hq
  unfold baryQ
  rw [← Finset.add_sum_erase (range n) _ (mem_range.mpr hm), ← Finset.add_sum_erase (range n) (fun k => W k / (q - X k)) (mem_range.mpr hm)]
  rw [← mul_div_mul_left _ _ hne]
  congr 1
  · field_simp
  · field_simp

theorem baryQ_deriv_node {X Y W : ℕ → ℝ} {n m : ℕ} (hm : m < n) (hX : ∀ k < n, k ≠ m → X m ≠ X k) (hw : W m ≠ 0) {f : ℝ → ℝ} (hfm : f (X m) = Y m)
    (hf : ∀ᶠ q in nhdsWithin (X m) {X m}ᶜ, f q = baryQ X Y W n q) :
    HasDerivAt f (-(∑ k ∈ range n, if k = m then 0 else W k * (Y m - Y k) / (X m - X k)) / W m) (X m) := by
  set A : ℝ → ℝ := fun q => ∑ k ∈ (range n).erase m, W k / (q - X k) * Y k with hA
  set B : ℝ → ℝ := fun q => ∑ k ∈ (range n).erase m, W k / (q - X k) with hB
  have hXm : ∀ k ∈ (range n).erase m, X m ≠ X k := fun k hk => hX k (mem_range.mp (Finset.mem_of_mem_erase hk)) (Finset.ne_of_mem_erase hk)
  have hA' : HasDerivAt A (∑ k ∈ (range n).erase m, -(W k / (X m - X k) / (X m - X k)) * Y k) (X m) :=
    HasDerivAt.fun_sum fun k hk => (hasDerivAt_term (hXm k hk)).mul_const _
  have hB' : HasDerivAt B (∑ k ∈ (range n).erase m, -(W k / (X m - X k) / (X m - X k))) (X m) :=
    HasDerivAt.fun_sum fun k hk => hasDerivAt_term (hXm k hk)
  have hid : HasDerivAt (fun q : ℝ => q - X m) 1 (X m) := (hasDerivAt_id (X m)).sub_const _
  have hN := (hid.fun_mul hA').const_add (W m * Y m)
  have hD := (hid.fun_mul hB').const_add (W m)
  have hD0 : W m + (X m - X m) * B (X m) ≠ 0 := by simpa using hw
  have hq := hN.fun_div hD hD0
  have heq : f =ᶠ[nhds (X m)] fun q => (W m * Y m + (q - X m) * A q) / (W m + (q - X m) * B q) := by
    rw [eventually_nhdsWithin_iff] at hf
    refine hf.mono fun q h => ?_
    by_cases hqm : q = X m
    · subst hqm
      simp only [hfm, sub_self, zero_mul, add_zero]
      field_simp
    · simp only []
      rw [h (by simpa using hqm), baryQ_near hm hqm]
  refine (hq.congr_of_eventuallyEq heq).congr_deriv ?_
  simp only [sub_self, zero_mul, add_zero, one_mul]
  have hs : (∑ k ∈ range n, if k = m then 0 else W k * (Y m - Y k) / (X m - X k)) = Y m * B (X m) - A (X m) := by
    rw [← Finset.add_sum_erase (range n) _ (mem_range.mpr hm), if_pos rfl, zero_add, hA, hB]
    simp only []
    rw [Finset.mul_sum, ← Finset.sum_sub_distrib]
    refine Finset.sum_congr rfl fun k hk => ?_
    rw [if_neg (Finset.ne_of_mem_erase hk)]
    ring
  rw [hs]
  field_simp
  ring

end Verif
