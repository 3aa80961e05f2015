import Verif.Lemmas.Barycentric
import Mathlib.Tactic.NormNum
import Mathlib.Algebra.Order.Field.Rat

/-!
# C86, C87: barycentric rational interpolation and its derivative
-/

namespace Verif.Props

open Verif Finset

section
variable {α : Type} [Field α] [LinearOrder α]

/-- the data are reproduced at the nodes, when no two nodes are equal; they need not be sorted -/
theorem C86_nodes {x y : List α} {b : BaryI α} (h : BaryI.ctor x y = .ok b) (hx : x.Nodup) {k : ℕ} {a v : α} (ha : x[k]? = some a) (hv : y[k]? = some v) :
    b.evaluate a = some v := by
  obtain ⟨h4, hl, -, -, he⟩ := BaryI.ctor_ok h
  unfold BaryI.evaluate
  rw [he]
  have hk := at_lt ha
  refine BaryI.loop_at (k := k) (w := BaryI.weight (fun i => x.getD i 0) x.length k) _ ?_ (fun i e hi hie => ?_) 0 0
  · simp only [List.getElem?_map, List.getElem?_range hk, Option.map_some, List.getD_eq_getElem?_getD, ha, hv, Option.getD_some]
  · have hi' : i < x.length := by omega
    simp only [List.getElem?_map, List.getElem?_range hi', Option.map_some, Option.some.injEq] at hie
    rw [← hie]
    obtain ⟨c, hc⟩ := exists_at hi'
    simp only [List.getD_eq_getElem?_getD, hc, Option.getD_some]
    intro hac
    rw [List.getElem?_eq_some_iff] at ha hc
    obtain ⟨_, rfl⟩ := ha
    obtain ⟨_, rfl⟩ := hc
    have := (List.Nodup.getElem_inj_iff hx).mp hac
    omega

end

section
variable {α : Type} [Field α] [LinearOrder α] [IsStrictOrderedRing α]

/-- with increasing nodes the interpolant has no pole: there is a value at every abscissa, inside and outside the range of the nodes -/
theorem C86_defined {x y : List α} {b : BaryI α} (h : BaryI.ctor x y = .ok b) (hx : x.Pairwise (· < ·)) (q : α) : ∃ v, b.evaluate q = some v := by
  obtain ⟨h4, hl, -, -, he⟩ := BaryI.ctor_ok h
  by_cases hq : q ∈ x
  · obtain ⟨k, hk⟩ := List.mem_iff_getElem?.mp hq
    obtain ⟨v, hv⟩ := exists_at (v := y) (i := k) (by have := at_lt hk; omega)
    exact ⟨v, C86_nodes h (nodup_of_increasing hx) hk hv⟩
  · rw [BaryI.evaluate_off h hq, BaryI.quotient, if_neg (denominator_ne_zero h4 (getD_increasing hx) (getD_ne hq))]
    exact ⟨_, rfl⟩

/-- with increasing nodes the values of a polynomial of degree three or less are reproduced at every abscissa -/
theorem C86_cubic {x y : List α} {b : BaryI α} (h : BaryI.ctor x y = .ok b) (hx : x.Pairwise (· < ·)) {p : Polynomial α} (hp : p.degree < 4)
    (hy : y = x.map fun a => p.eval a) (q : α) : b.evaluate q = some (p.eval q) := by
  obtain ⟨h4, hl, -, -, he⟩ := BaryI.ctor_ok h
  by_cases hq : q ∈ x
  · obtain ⟨k, hk⟩ := List.mem_iff_getElem?.mp hq
    exact C86_nodes h (nodup_of_increasing hx) hk (by simp [hy, hk])
  · have hd := denominator_ne_zero h4 (getD_increasing hx) (getD_ne hq)
    rw [BaryI.evaluate_off h hq, BaryI.quotient, if_neg hd]
    have hsum : ∑ k ∈ range x.length, BaryI.weight (fun i => x.getD i 0) x.length k / (q - x.getD k 0) * y.getD k 0 =
        ∑ k ∈ range x.length, BaryI.weight (fun i => x.getD i 0) x.length k / (q - x.getD k 0) * p.eval (x.getD k 0) := by
      refine Finset.sum_congr rfl fun k hk => ?_
      obtain ⟨a, ha⟩ := exists_at (v := x) (Finset.mem_range.mp hk)
      simp [hy, List.getD_eq_getElem?_getD, ha]
    have h1 := sum_polynomial (injective_of_increasing (getD_increasing hx)) (getD_ne hq) hp
    have h2 := sum_one (injective_of_increasing (getD_increasing hx)) (getD_ne hq)
    rw [hsum, h1, ← h2, mul_div_assoc, div_self hd, mul_one]

/-- with increasing nodes the interpolant depends linearly on the values -/
theorem C86_linear {x y z : List α} {b c d : BaryI α} {s t : α} (hb : BaryI.ctor x y = .ok b) (hc : BaryI.ctor x z = .ok c)
    (hd : BaryI.ctor x (List.zipWith (fun u v => s * u + t * v) y z) = .ok d) (hx : x.Pairwise (· < ·)) {q u v : α} (hu : b.evaluate q = some u)
    (hv : c.evaluate q = some v) : d.evaluate q = some (s * u + t * v) := by
  obtain ⟨h4, hl, -, -, -⟩ := BaryI.ctor_ok hb
  obtain ⟨-, hl', -, -, -⟩ := BaryI.ctor_ok hc
  by_cases hq : q ∈ x
  · obtain ⟨k, hk⟩ := List.mem_iff_getElem?.mp hq
    have hn := nodup_of_increasing hx
    obtain ⟨u', hu'⟩ := exists_at (v := y) (i := k) (by have := at_lt hk; omega)
    obtain ⟨v', hv'⟩ := exists_at (v := z) (i := k) (by have := at_lt hk; omega)
    rw [C86_nodes hb hn hk hu'] at hu
    rw [C86_nodes hc hn hk hv'] at hv
    cases hu; cases hv
    exact C86_nodes hd hn hk (by simp [List.getElem?_zipWith, hu', hv'])
  · have hne := denominator_ne_zero h4 (getD_increasing hx) (getD_ne hq)
    rw [BaryI.evaluate_off hb hq, BaryI.quotient, if_neg hne] at hu
    rw [BaryI.evaluate_off hc hq, BaryI.quotient, if_neg hne] at hv
    rw [BaryI.evaluate_off hd hq, BaryI.quotient, if_neg hne]
    cases hu; cases hv
    rw [← mul_div_assoc, ← mul_div_assoc, ← add_div, Finset.mul_sum, Finset.mul_sum, ← Finset.sum_add_distrib]
    congr 2
    refine Finset.sum_congr rfl fun k hk => ?_
    have hk' := Finset.mem_range.mp hk
    obtain ⟨u', hu'⟩ := exists_at (v := y) (i := k) (by omega)
    obtain ⟨v', hv'⟩ := exists_at (v := z) (i := k) (by omega)
    simp only [List.getD_eq_getElem?_getD, List.getElem?_zipWith, hu', hv', Option.getD_some]
    ring

end

example : ∃ b : BaryI ℚ, BaryI.ctor [0, 1, 3, 4, 7] [2, 5, 1, 1, 0] = .ok b ∧ ([0, 1, 3, 4, 7] : List ℚ).Pairwise (· < ·) := by
  have hx : ([0, 1, 3, 4, 7] : List ℚ).Pairwise (· < ·) := by simp; norm_num
  obtain ⟨b, hb⟩ := BaryI.ctor_increasing hx (y := [2, 5, 1, 1, 0]) (by simp) (by simp)
  exact ⟨b, hb, hx⟩

/-- nodes that coincide are only rejected within three places of each other, and nodes out of order are accepted: the interpolant may then have no value anywhere but at
its nodes -/
theorem C86_unsorted_violated : ∃ b : BaryI ℚ, BaryI.ctor [0, 1, 2, 3, 0] [5, 5, 5, 5, 5] = .ok b ∧ ∀ q : ℚ, q ∉ ([0, 1, 2, 3, 0] : List ℚ) → b.evaluate q = none := by
  have hb : ∃ b : BaryI ℚ, BaryI.ctor [0, 1, 2, 3, 0] [5, 5, 5, 5, 5] = .ok b := by
    unfold BaryI.ctor
    rw [(copyValues_spec _ _).1 (by simp)]
    have hs : BaryI.spaced (fun i => ([0, 1, 2, 3, 0] : List ℚ).getD i 0) ([0, 1, 2, 3, 0] : List ℚ).length = true := by
      simp [BaryI.spaced, List.range_succ]
    rw [hs]
    simp
  obtain ⟨b, hb⟩ := hb
  refine ⟨b, hb, fun q hq => ?_⟩
  rw [BaryI.evaluate_off hb hq]
  unfold BaryI.quotient
  rw [if_pos]
  simp only [List.mem_cons, List.not_mem_nil, or_false, not_or] at hq
  obtain ⟨h0, h1, h2, h3, -⟩ := hq
  have e1 : q - 1 ≠ 0 := sub_ne_zero.mpr h1
  have e2 : q - 2 ≠ 0 := sub_ne_zero.mpr h2
  have e3 : q - 3 ≠ 0 := sub_ne_zero.mpr h3
  simp [Finset.sum_range_succ, BaryI.weight, BaryI.product, List.range_succ]
  field_simp
  ring

/-- the data are reproduced all at once at the array of the nodes, when no two nodes are equal -/
theorem C86_array {α : Type} [Field α] [LinearOrder α] {x y : List α} {b : BaryI α} (h : BaryI.ctor x y = .ok b) (hx : x.Nodup) : b.evaluateAll x = y.map some := by
  have hl : x.length = y.length := (BaryI.ctor_ok h).2.1
  apply List.ext_getElem?
  intro i
  simp only [BaryI.evaluateAll, List.getElem?_map]
  by_cases hi : i < x.length
  · rw [List.getElem?_eq_getElem hi, List.getElem?_eq_getElem (hl ▸ hi)]
    simp only [Option.map_some]
    rw [C86_nodes h hx (List.getElem?_eq_getElem hi) (List.getElem?_eq_getElem (hl ▸ hi))]
  · rw [List.getElem?_eq_none (by simpa using hi), List.getElem?_eq_none (by rw [← hl]; simpa using hi)]; rfl

end Verif.Props
