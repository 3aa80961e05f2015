import Verif.Lemmas.Interpolator
import Mathlib.Tactic.NormNum
import Mathlib.Data.Rat.Defs
import Mathlib.Algebra.Order.Field.Rat

/-!
# C61, C62, C63: piecewise interpolation

Nodes and values are lists over any linearly ordered field; `x[i]? = some a` says that `a` is the node at place `i`. No hypothesis on the nodes is made where none is needed.
-/

namespace Verif.Props

open Verif

variable {α : Type} [Field α] [LinearOrder α] [IsStrictOrderedRing α]

/-! ## C61 -/

/-- on any accepted data, sorted or not, an evaluation answers: the value at one of the two ends, or the point of abscissa `q` of the segment between two neighbouring nodes
on either side of `q`; no node is read outside the data and no division is by zero -/
theorem C61_total {x y : List α} {l : LinearI α} (h : LinearI.ctor x y = .ok l) (q : α) :
    (∃ a b, x[0]? = some a ∧ y[0]? = some b ∧ q ≤ a ∧ l.evaluate q = .ok b ∧ l.computeDerivative q = .ok 0) ∨
    (∃ a b, x[x.length - 1]? = some a ∧ y[x.length - 1]? = some b ∧ a < q ∧ l.evaluate q = .ok b ∧ l.computeDerivative q = .ok 0) ∨
    ∃ i x0 x1 y0 y1, x[i]? = some x0 ∧ x[i + 1]? = some x1 ∧ y[i]? = some y0 ∧ y[i + 1]? = some y1 ∧ x0 < q ∧ q ≤ x1 ∧
      l.evaluate q = .ok (y0 + (q - x0) / (x1 - x0) * (y1 - y0)) ∧ l.computeDerivative q = .ok ((y1 - y0) / (x1 - x0)) := by
  obtain ⟨rfl, h2, hl⟩ := LinearI.ctor_ok h
  obtain ⟨k0, k1, k2⟩ := lowerBound_spec x q
  by_cases c0 : lowerBound x q = 0
  · left
    obtain ⟨a, ha⟩ := exists_at (v := x) (i := 0) (by omega)
    obtain ⟨b, hb⟩ := exists_at (v := y) (i := 0) (by omega)
    rw [c0] at k2
    refine ⟨a, b, ha, hb, k2 a ha, ?_, ?_⟩
    · simp [LinearI.evaluate, LinearI.findIndexRange, c0, vecAt_some hb]
    · simp [LinearI.computeDerivative, LinearI.findIndexRange, c0]
  · right
    by_cases c1 : lowerBound x q = x.length
    · left
      obtain ⟨a, ha⟩ := exists_at (v := x) (i := x.length - 1) (by omega)
      obtain ⟨b, hb⟩ := exists_at (v := y) (i := x.length - 1) (by omega)
      rw [c1] at k1
      refine ⟨a, b, ha, hb, k1 a (by omega) ha, ?_, ?_⟩
      · have hx : x ≠ [] := by rintro rfl; simp at hl; omega
        simp [LinearI.evaluate, LinearI.findIndexRange, c1, hx, vecAt_some hb]
      · have hx : x ≠ [] := by rintro rfl; simp at hl; omega
        simp [LinearI.computeDerivative, LinearI.findIndexRange, c1, hx]
    · right
      obtain ⟨i, hi⟩ : ∃ i, lowerBound x q = i + 1 := ⟨lowerBound x q - 1, by omega⟩
      rw [hi] at k1 k2 c1 k0
      obtain ⟨x0, hx0⟩ := exists_at (v := x) (i := i) (by omega)
      obtain ⟨x1, hx1⟩ := exists_at (v := x) (i := i + 1) (by omega)
      obtain ⟨y0, hy0⟩ := exists_at (v := y) (i := i) (by omega)
      obtain ⟨y1, hy1⟩ := exists_at (v := y) (i := i + 1) (by omega)
      refine ⟨i, x0, x1, y0, y1, hx0, hx1, hy0, hy1, k1 x0 (by omega) (by simpa using hx0), k2 x1 hx1, ?_, ?_⟩
      · simp [LinearI.evaluate, LinearI.findIndexRange, hi, c1, vecAt_some hx0, vecAt_some hx1, vecAt_some hy0, vecAt_some hy1, bind, Except.bind, pure, Except.pure]
      · simp [LinearI.computeDerivative, LinearI.findIndexRange, hi, c1, vecAt_some hx0, vecAt_some hx1, vecAt_some hy0, vecAt_some hy1, bind, Except.bind, pure,
          Except.pure]

example : ∃ l : LinearI ℚ, LinearI.ctor [3, 1, 2] [5, 7, 9] = .ok l := ⟨_, rfl⟩

/-- between two neighbouring nodes, ends included, the value is that of the straight line between them -/
theorem C61_line {x y : List α} {l : LinearI α} (h : LinearI.ctor x y = .ok l) (hx : x.Pairwise (· < ·)) {i : ℕ} {x0 x1 y0 y1 q : α} (hx0 : x[i]? = some x0)
    (hx1 : x[i + 1]? = some x1) (hy0 : y[i]? = some y0) (hy1 : y[i + 1]? = some y1) (h0 : x0 ≤ q) (h1 : q ≤ x1) :
    l.evaluate q = .ok (y0 + (q - x0) / (x1 - x0) * (y1 - y0)) := by
  have h01 : x0 < x1 := pairwise_at hx (Nat.lt_succ_self i) hx0 hx1
  have hd : x1 - x0 ≠ 0 := sub_ne_zero.mpr h01.ne'
  have hn : ∀ {j : ℕ} {a b c : α}, x[i]? = some a → x[j]? = some b → c = b → i < j → a < c := by
    intro j a b c ha hb hc hij; rw [hc]; exact pairwise_at hx hij ha hb
  rcases C61_total h q with ⟨a, b, ha, hb, hq, he, -⟩ | ⟨a, b, ha, hb, hq, he, -⟩ | ⟨j, a0, a1, b0, b1, ha0, ha1, hb0, hb1, hq0, hq1, he, -⟩
  · have hi : i = 0 := by
      by_contra hne
      exact absurd (pairwise_at hx (Nat.pos_of_ne_zero hne) ha hx0) (not_lt.mpr (le_trans h0 hq))
    subst hi
    rw [hx0] at ha; rw [hy0] at hb
    cases ha; cases hb
    rw [he, le_antisymm hq h0]
    simp
  · exfalso
    have hlt := at_lt hx1
    by_cases hi : i + 1 = x.length - 1
    · rw [← hi, hx1] at ha
      cases ha
      exact absurd hq (not_lt.mpr h1)
    · exact absurd (pairwise_at hx (by omega) hx1 ha) (not_lt.mpr (le_trans hq.le h1))
  · rcases lt_trichotomy i j with hij | rfl | hij
    · exfalso
      by_cases hj : i + 1 = j
      · subst hj
        rw [hx1] at ha0
        cases ha0
        exact absurd hq0 (not_lt.mpr h1)
      · exact absurd (pairwise_at hx (by omega) hx1 ha0) (not_lt.mpr (le_trans hq0.le h1))
    · rw [hx0] at ha0; rw [hx1] at ha1; rw [hy0] at hb0; rw [hy1] at hb1
      cases ha0; cases ha1; cases hb0; cases hb1
      exact he
    · by_cases hj : j + 1 = i
      · subst hj
        rw [hx0] at ha1; rw [hy0] at hb1
        cases ha1; cases hb1
        have hqe : q = x0 := le_antisymm hq1 h0
        subst hqe
        have : q - a0 ≠ 0 := sub_ne_zero.mpr hq0.ne'
        rw [he, div_self this]
        simp
      · exact absurd (pairwise_at hx (by omega) ha1 hx0) (not_lt.mpr (le_trans h0 hq1))

example : ∃ l : LinearI ℚ, LinearI.ctor [1, 2, 4] [5, 7, 3] = .ok l ∧ ([1, 2, 4] : List ℚ).Pairwise (· < ·) ∧ ([1, 2, 4] : List ℚ)[1]? = some 2 ∧ (2 : ℚ) ≤ 3 ∧ (3 : ℚ) ≤ 4 :=
  ⟨_, rfl, by simp; norm_num, rfl, by norm_num, by norm_num⟩

/-- the data are reproduced at the nodes -/
theorem C61_nodes {x y : List α} {l : LinearI α} (h : LinearI.ctor x y = .ok l) (hx : x.Pairwise (· < ·)) {i : ℕ} {a b : α} (ha : x[i]? = some a)
    (hb : y[i]? = some b) : l.evaluate a = .ok b := by
  obtain ⟨-, h2, hl⟩ := LinearI.ctor_ok h
  have hi := at_lt ha
  by_cases hlast : i + 1 < x.length
  · obtain ⟨x1, hx1⟩ := exists_at (v := x) (i := i + 1) hlast
    obtain ⟨y1, hy1⟩ := exists_at (v := y) (i := i + 1) (by omega)
    have h01 : a < x1 := pairwise_at hx (Nat.lt_succ_self i) ha hx1
    rw [C61_line h hx ha hx1 hb hy1 le_rfl h01.le]
    simp
  · obtain ⟨j, rfl⟩ : ∃ j, i = j + 1 := ⟨i - 1, by omega⟩
    obtain ⟨x0, hx0⟩ := exists_at (v := x) (i := j) (by omega)
    obtain ⟨y0, hy0⟩ := exists_at (v := y) (i := j) (by omega)
    have h01 : x0 < a := pairwise_at hx (Nat.lt_succ_self j) hx0 ha
    rw [C61_line h hx hx0 ha hy0 hb h01.le le_rfl, div_self (sub_ne_zero.mpr h01.ne')]
    simp

/-- outside the nodes the end values are held -/
theorem C61_outside {x y : List α} {l : LinearI α} (h : LinearI.ctor x y = .ok l) (hx : x.Pairwise (· < ·)) {first last fv lv : α} (hf : x[0]? = some first)
    (hla : x[x.length - 1]? = some last) (hfv : y[0]? = some fv) (hlv : y[x.length - 1]? = some lv) (q : α) :
    (q ≤ first → l.evaluate q = .ok fv) ∧ (last ≤ q → l.evaluate q = .ok lv) := by
  obtain ⟨-, h2, hl⟩ := LinearI.ctor_ok h
  have hfl : first < last := pairwise_at hx (by omega) hf hla
  constructor
  · intro hq
    rcases hq.lt_or_eq with hq | rfl
    · rcases C61_total h q with ⟨a, b, ha, hb, -, he, -⟩ | ⟨a, b, ha, hb, hq', -, -⟩ | ⟨j, a0, a1, b0, b1, ha0, -, -, -, hq0, -⟩
      · rw [hfv] at hb; cases hb; exact he
      · rw [hla] at ha; cases ha
        exact absurd (lt_trans hq' hq) (not_lt.mpr hfl.le)
      · exfalso
        by_cases hj : j = 0
        · subst hj; rw [hf] at ha0; cases ha0; exact absurd hq (not_lt.mpr hq0.le)
        · exact absurd (lt_trans hq0 hq) (not_lt.mpr (pairwise_at hx (Nat.pos_of_ne_zero hj) hf ha0).le)
    · exact C61_nodes h hx hf hfv
  · intro hq
    rcases hq.lt_or_eq with hq | rfl
    · rcases C61_total h q with ⟨a, b, ha, hb, hq', -, -⟩ | ⟨a, b, ha, hb, -, he, -⟩ | ⟨j, a0, a1, b0, b1, -, ha1, -, -, -, hq1, -⟩
      · rw [hf] at ha; cases ha
        exact absurd (lt_of_lt_of_le hq hq') (not_lt.mpr hfl.le)
      · rw [hlv] at hb; cases hb; exact he
      · exfalso
        have hj := at_lt ha1
        by_cases hj' : j + 1 = x.length - 1
        · rw [hj', hla] at ha1; cases ha1; exact absurd hq (not_lt.mpr hq1)
        · exact absurd (lt_of_lt_of_le hq hq1) (not_lt.mpr (pairwise_at hx (by omega) ha1 hla).le)
    · exact C61_nodes h hx hla hlv

/-- on any accepted data the value lies between the smallest and the greatest of the two neighbouring values, so within any bounds of the data -/
theorem C61_bounds {x y : List α} {l : LinearI α} (h : LinearI.ctor x y = .ok l) {lo hi : α} (hy : ∀ b ∈ y, lo ≤ b ∧ b ≤ hi) (q : α) :
    ∃ v, l.evaluate q = .ok v ∧ lo ≤ v ∧ v ≤ hi := by
  rcases C61_total h q with ⟨a, b, ha, hb, hq, he, -⟩ | ⟨a, b, ha, hb, hq, he, -⟩ | ⟨j, a0, a1, b0, b1, ha0, ha1, hb0, hb1, hq0, hq1, he, -⟩
  · exact ⟨b, he, hy b (List.mem_of_getElem? hb)⟩
  · exact ⟨b, he, hy b (List.mem_of_getElem? hb)⟩
  · refine ⟨_, he, ?_⟩
    have h01 : 0 < a1 - a0 := by linarith
    have hr0 : 0 ≤ (q - a0) / (a1 - a0) := div_nonneg (by linarith) h01.le
    have hr1 : (q - a0) / (a1 - a0) ≤ 1 := (div_le_one h01).mpr (by linarith)
    obtain ⟨l0, u0⟩ := hy b0 (List.mem_of_getElem? hb0)
    obtain ⟨l1, u1⟩ := hy b1 (List.mem_of_getElem? hb1)
    generalize (q - a0) / (a1 - a0) = r at hr0 hr1
    constructor
    · have := mul_nonneg hr0 (sub_nonneg.mpr l1)
      have := mul_nonneg (sub_nonneg.mpr hr1) (sub_nonneg.mpr l0)
      linarith [show b0 + r * (b1 - b0) - lo = r * (b1 - lo) + (1 - r) * (b0 - lo) by ring]
    · have := mul_nonneg hr0 (sub_nonneg.mpr u1)
      have := mul_nonneg (sub_nonneg.mpr hr1) (sub_nonneg.mpr u0)
      linarith [show hi - (b0 + r * (b1 - b0)) = r * (hi - b1) + (1 - r) * (hi - b0) by ring]

/-- between two neighbouring nodes the value lies between the two values -/
theorem C61_between {x y : List α} {l : LinearI α} (h : LinearI.ctor x y = .ok l) (hx : x.Pairwise (· < ·)) {i : ℕ} {x0 x1 y0 y1 q : α} (hx0 : x[i]? = some x0)
    (hx1 : x[i + 1]? = some x1) (hy0 : y[i]? = some y0) (hy1 : y[i + 1]? = some y1) (h0 : x0 ≤ q) (h1 : q ≤ x1) :
    ∃ v, l.evaluate q = .ok v ∧ min y0 y1 ≤ v ∧ v ≤ max y0 y1 := by
  refine ⟨_, C61_line h hx hx0 hx1 hy0 hy1 h0 h1, ?_⟩
  have h01 : 0 < x1 - x0 := sub_pos.mpr (pairwise_at hx (Nat.lt_succ_self i) hx0 hx1)
  have hr0 : 0 ≤ (q - x0) / (x1 - x0) := div_nonneg (by linarith) h01.le
  have hr1 : (q - x0) / (x1 - x0) ≤ 1 := (div_le_one h01).mpr (by linarith)
  generalize (q - x0) / (x1 - x0) = r at hr0 hr1
  constructor
  · have := mul_nonneg hr0 (sub_nonneg.mpr (min_le_right y0 y1))
    have := mul_nonneg (sub_nonneg.mpr hr1) (sub_nonneg.mpr (min_le_left y0 y1))
    linarith [show y0 + r * (y1 - y0) - min y0 y1 = r * (y1 - min y0 y1) + (1 - r) * (y0 - min y0 y1) by ring]
  · have := mul_nonneg hr0 (sub_nonneg.mpr (le_max_right y0 y1))
    have := mul_nonneg (sub_nonneg.mpr hr1) (sub_nonneg.mpr (le_max_left y0 y1))
    linarith [show max y0 y1 - (y0 + r * (y1 - y0)) = r * (max y0 y1 - y1) + (1 - r) * (max y0 y1 - y0) by ring]

/-- data on a straight line are reproduced exactly inside the range of the nodes -/
theorem C61_affine {x y : List α} {l : LinearI α} (h : LinearI.ctor x y = .ok l) {m c : α} (hy : y = x.map fun a => m * a + c) {first last q : α}
    (hf : x[0]? = some first) (hla : x[x.length - 1]? = some last) (h0 : first ≤ q) (h1 : q ≤ last) : l.evaluate q = .ok (m * q + c) := by
  subst hy
  rcases C61_total h q with ⟨a, b, ha, hb, hq, he, -⟩ | ⟨a, b, ha, hb, hq, he, -⟩ | ⟨j, a0, a1, b0, b1, ha0, ha1, hb0, hb1, hq0, hq1, he, -⟩
  · rw [hf] at ha
    cases ha
    simp only [List.getElem?_map, hf, Option.map_some, Option.some.injEq] at hb
    rw [he, ← hb, le_antisymm hq h0]
  · rw [hla] at ha
    cases ha
    exact absurd hq (not_lt.mpr h1)
  · simp only [List.getElem?_map, ha0, ha1, Option.map_some, Option.some.injEq] at hb0 hb1
    rw [he, ← hb0, ← hb1]
    have : a1 - a0 ≠ 0 := sub_ne_zero.mpr (lt_of_lt_of_le hq0 hq1).ne'
    congr 1
    field_simp
    ring

/-- the derivative is the slope of the bracketing interval, for every abscissa after the first node and up to the last; the first node is missing -/
theorem C61_derivative_partial {x y : List α} {l : LinearI α} (h : LinearI.ctor x y = .ok l) (hx : x.Pairwise (· < ·)) {i : ℕ} {x0 x1 y0 y1 q : α}
    (hx0 : x[i]? = some x0) (hx1 : x[i + 1]? = some x1) (hy0 : y[i]? = some y0) (hy1 : y[i + 1]? = some y1) (h0 : x0 < q) (h1 : q ≤ x1) :
    l.computeDerivative q = .ok ((y1 - y0) / (x1 - x0)) := by
  rcases C61_total h q with ⟨a, b, ha, hb, hq, -, he⟩ | ⟨a, b, ha, hb, hq, -, he⟩ | ⟨j, a0, a1, b0, b1, ha0, ha1, hb0, hb1, hq0, hq1, -, he⟩
  · exfalso
    by_cases hi : i = 0
    · subst hi; rw [hx0] at ha; cases ha; exact absurd h0 (not_lt.mpr hq)
    · exact absurd (pairwise_at hx (Nat.pos_of_ne_zero hi) ha hx0) (not_lt.mpr (le_trans h0.le hq))
  · exfalso
    have hlt := at_lt hx1
    by_cases hi : i + 1 = x.length - 1
    · rw [← hi, hx1] at ha; cases ha; exact absurd hq (not_lt.mpr h1)
    · exact absurd (pairwise_at hx (by omega) hx1 ha) (not_lt.mpr (le_trans hq.le h1))
  · rcases lt_trichotomy i j with hij | rfl | hij
    · exfalso
      by_cases hj : i + 1 = j
      · subst hj; rw [hx1] at ha0; cases ha0; exact absurd hq0 (not_lt.mpr h1)
      · exact absurd (pairwise_at hx (by omega) hx1 ha0) (not_lt.mpr (le_trans hq0.le h1))
    · rw [hx0] at ha0; rw [hx1] at ha1; rw [hy0] at hb0; rw [hy1] at hb1
      cases ha0; cases ha1; cases hb0; cases hb1
      exact he
    · exfalso
      by_cases hj : j + 1 = i
      · subst hj; rw [hx0] at ha1; cases ha1; exact absurd h0 (not_lt.mpr hq1)
      · exact absurd (pairwise_at hx (by omega) ha1 hx0) (not_lt.mpr (le_trans h0.le hq1))

/-- outside the nodes the interpolant is constant and the derivative is zero -/
theorem C61_derivative_outside {x y : List α} {l : LinearI α} (h : LinearI.ctor x y = .ok l) (hx : x.Pairwise (· < ·)) {first last q : α} (hf : x[0]? = some first)
    (hla : x[x.length - 1]? = some last) (hq : q < first ∨ last < q) : l.computeDerivative q = .ok 0 := by
  obtain ⟨-, h2, hl⟩ := LinearI.ctor_ok h
  rcases C61_total h q with ⟨a, b, ha, hb, -, -, he⟩ | ⟨a, b, ha, hb, -, -, he⟩ | ⟨j, a0, a1, b0, b1, ha0, ha1, hb0, hb1, hq0, hq1, -, he⟩
  · exact he
  · exact he
  · exfalso
    rcases hq with hq | hq
    · by_cases hj : j = 0
      · subst hj; rw [hf] at ha0; cases ha0; exact absurd hq (not_lt.mpr hq0.le)
      · exact absurd (lt_trans hq0 hq) (not_lt.mpr (pairwise_at hx (Nat.pos_of_ne_zero hj) hf ha0).le)
    · have hj := at_lt ha1
      by_cases hj' : j + 1 = x.length - 1
      · rw [hj', hla] at ha1; cases ha1; exact absurd hq (not_lt.mpr hq1)
      · exact absurd (lt_of_lt_of_le hq hq1) (not_lt.mpr (pairwise_at hx (by omega) ha1 hla).le)

/-- at the first node the derivative answered is always zero, whatever the slope of the interval that starts there; at every other node it is the slope of the interval
that ends there -/
theorem C61_derivative_first_violated {x y : List α} {l : LinearI α} (h : LinearI.ctor x y = .ok l) (hx : x.Pairwise (· < ·)) {first : α} (hf : x[0]? = some first) :
    l.computeDerivative first = .ok 0 := by
  rcases C61_total h first with ⟨a, b, ha, hb, -, -, he⟩ | ⟨a, b, ha, hb, -, -, he⟩ | ⟨j, a0, a1, b0, b1, ha0, ha1, hb0, hb1, hq0, hq1, -, he⟩
  · exact he
  · exact he
  · exfalso
    by_cases hj : j = 0
    · subst hj; rw [hf] at ha0; cases ha0; exact lt_irrefl _ hq0
    · exact absurd hq0 (not_lt.mpr (pairwise_at hx (Nat.pos_of_ne_zero hj) hf ha0).le)

/-- evaluating or differentiating at a vector of abscissae is doing so at each of them, for any accepted data and any number of abscissae, none included -/
theorem C61_vector {x y : List α} {l : LinearI α} (h : LinearI.ctor x y = .ok l) (qs : List α) :
    (∃ vs, l.evaluateAll qs = .ok vs ∧ vs.length = qs.length ∧ ∀ (i : ℕ) (q : α), qs[i]? = some q → ∃ v, vs[i]? = some v ∧ l.evaluate q = .ok v) ∧
    ∃ ds, l.computeDerivativeAll qs = .ok ds ∧ ds.length = qs.length ∧ ∀ (i : ℕ) (q : α), qs[i]? = some q → ∃ d, ds[i]? = some d ∧ l.computeDerivative q = .ok d := by
  have he : ∀ q, ∃ v, l.evaluate q = .ok v := fun q => by
    rcases C61_total h q with ⟨a, b, -, -, -, he, -⟩ | ⟨a, b, -, -, -, he, -⟩ | ⟨j, a0, a1, b0, b1, -, -, -, -, -, -, he, -⟩ <;> exact ⟨_, he⟩
  have hd : ∀ q, ∃ v, l.computeDerivative q = .ok v := fun q => by
    rcases C61_total h q with ⟨a, b, -, -, -, -, he⟩ | ⟨a, b, -, -, -, -, he⟩ | ⟨j, a0, a1, b0, b1, -, -, -, -, -, -, -, he⟩ <;> exact ⟨_, he⟩
  choose f hf using he
  choose g hg using hd
  refine ⟨⟨_, vecMap_ok hf qs, by simp, fun i q hq => ⟨f q, by simp [hq], hf q⟩⟩, ⟨_, vecMap_ok hg qs, by simp, fun i q hq => ⟨g q, by simp [hq], hg q⟩⟩⟩

/-- the nodes are not tested for being sorted: unsorted nodes are accepted and the data are then not reproduced at the nodes -/
theorem C61_unsorted_violated : ∃ (x y : List ℚ) (l : LinearI ℚ), LinearI.ctor x y = .ok l ∧ x.Nodup ∧ x[0]? = some 2 ∧ y[0]? = some 5 ∧ l.evaluate 2 ≠ .ok 5 := by
  refine ⟨[2, 1], [5, 7], ⟨[2, 1], [5, 7]⟩, rfl, by simp, rfl, rfl, ?_⟩
  have h : lowerBound ([2, 1] : List ℚ) 2 = 2 := by
    unfold lowerBound
    rw [boundLoop]
    simp
    rw [boundLoop]
    simp
  simp [LinearI.evaluate, LinearI.findIndexRange, h, vecAt]

/-! ## C62 -/

/-- on any accepted data, sorted or not, the value answered is that of a node not above the abscissa and not followed by another such node, or the first value; no value is
read outside the data -/
theorem C62_total {x y : List α} {z : ZeroOrderI α} (h : ZeroOrderI.ctor x y = .ok z) (q : α) :
    (∃ a b, x[0]? = some a ∧ y[0]? = some b ∧ q < a ∧ z.evaluate q = .ok b) ∨
    ∃ (i : ℕ) (a b : α), x[i]? = some a ∧ y[i]? = some b ∧ a ≤ q ∧ (∀ c, x[i + 1]? = some c → q < c) ∧ z.evaluate q = .ok b := by
  obtain ⟨rfl, h1, hl⟩ := ZeroOrderI.ctor_ok h
  obtain ⟨k0, k1, k2⟩ := upperBound_spec x q
  by_cases c0 : upperBound x q = 0
  · left
    obtain ⟨a, ha⟩ := exists_at (v := x) (i := 0) (by omega)
    obtain ⟨b, hb⟩ := exists_at (v := y) (i := 0) (by omega)
    rw [c0] at k2
    exact ⟨a, b, ha, hb, k2 a ha, by simp [ZeroOrderI.evaluate, ZeroOrderI.findPreviousIndex, c0, vecAt_some hb]⟩
  · right
    obtain ⟨i, hi⟩ : ∃ i, upperBound x q = i + 1 := ⟨upperBound x q - 1, by omega⟩
    rw [hi] at k0 k1 k2
    obtain ⟨a, ha⟩ := exists_at (v := x) (i := i) (by omega)
    obtain ⟨b, hb⟩ := exists_at (v := y) (i := i) (by omega)
    exact ⟨i, a, b, ha, hb, k1 a (by omega) (by simpa using ha), k2, by simp [ZeroOrderI.evaluate, ZeroOrderI.findPreviousIndex, hi, vecAt_some hb]⟩

/-- the value held is that of the last node not above the abscissa -/
theorem C62_holds {x y : List α} {z : ZeroOrderI α} (h : ZeroOrderI.ctor x y = .ok z) (hx : x.Pairwise (· ≤ ·)) {i : ℕ} {a b q : α} (ha : x[i]? = some a)
    (hb : y[i]? = some b) (hq : a ≤ q) (hn : ∀ c, x[i + 1]? = some c → q < c) : z.evaluate q = .ok b := by
  obtain ⟨rfl, h1, hl⟩ := ZeroOrderI.ctor_ok h
  have hk : upperBound x q = i + 1 := upperBound_eq hx (at_lt ha) (fun c _ hc => by
    have : i + 1 - 1 = i := by omega
    rw [this, ha] at hc
    cases hc
    exact hq) hn
  simp [ZeroOrderI.evaluate, ZeroOrderI.findPreviousIndex, hk, vecAt_some hb]

example : ∃ z : ZeroOrderI ℚ, ZeroOrderI.ctor [1, 2, 2] [5, 7, 3] = .ok z ∧ ([1, 2, 2] : List ℚ).Pairwise (· ≤ ·) ∧ ([1, 2, 2] : List ℚ)[2]? = some 2 ∧
    ([5, 7, 3] : List ℚ)[2]? = some 3 ∧ (2 : ℚ) ≤ 6 ∧ ∀ c, ([1, 2, 2] : List ℚ)[3]? = some c → (6 : ℚ) < c :=
  ⟨_, rfl, by simp, rfl, rfl, by norm_num, by simp⟩

/-- before every node the first value is held -/
theorem C62_before {x y : List α} {z : ZeroOrderI α} (h : ZeroOrderI.ctor x y = .ok z) (hx : x.Pairwise (· ≤ ·)) {b q : α} (hb : y[0]? = some b) (hq : ∀ a ∈ x, q < a) :
    z.evaluate q = .ok b := by
  rcases C62_total h q with ⟨a, c, -, hc, -, he⟩ | ⟨i, a, c, ha, -, haq, -⟩
  · rw [hb] at hc; cases hc; exact he
  · exact absurd (hq a (List.mem_of_getElem? ha)) (not_lt.mpr haq)

/-- with different nodes the data are reproduced at the nodes, and the value at a node is held up to the next -/
theorem C62_nodes {x y : List α} {z : ZeroOrderI α} (h : ZeroOrderI.ctor x y = .ok z) (hx : x.Pairwise (· < ·)) {i : ℕ} {a b : α} (ha : x[i]? = some a)
    (hb : y[i]? = some b) : z.evaluate a = .ok b :=
  C62_holds h (hx.imp fun h => h.le) ha hb le_rfl fun _ hc => pairwise_at hx (Nat.lt_succ_self i) ha hc

/-- the derivative is zero -/
theorem C62_derivative {x y : List α} {z : ZeroOrderI α} (_h : ZeroOrderI.ctor x y = .ok z) (q : α) (qs : List α) :
    z.computeDerivative q = .ok 0 ∧ ∃ ds, z.computeDerivativeAll qs = .ok ds ∧ ds.length = qs.length ∧ ∀ d ∈ ds, d = 0 :=
  ⟨rfl, _, rfl, by simp, fun d hd => (List.mem_replicate.mp hd).2⟩

/-- evaluating at a vector of abscissae is evaluating at each of them -/
theorem C62_vector {x y : List α} {z : ZeroOrderI α} (h : ZeroOrderI.ctor x y = .ok z) (qs : List α) :
    ∃ vs, z.evaluateAll qs = .ok vs ∧ vs.length = qs.length ∧ ∀ (i : ℕ) (q : α), qs[i]? = some q → ∃ v, vs[i]? = some v ∧ z.evaluate q = .ok v := by
  have he : ∀ q, ∃ v, z.evaluate q = .ok v := fun q => by
    rcases C62_total h q with ⟨a, c, -, -, -, he⟩ | ⟨i, a, c, -, -, -, -, he⟩ <;> exact ⟨_, he⟩
  choose f hf using he
  exact ⟨_, vecMap_ok hf qs, by simp, fun i q hq => ⟨f q, by simp [hq], hf q⟩⟩

/-! ## C63 -/

/-- linear interpolation accepts exactly two or more values with as many nodes, and the failure is an exception of the library -/
theorem C63_linear (x y : List α) :
    ((∃ l, LinearI.ctor x y = .ok l) ↔ 2 ≤ y.length ∧ x.length = y.length) ∧ ∀ e, LinearI.ctor x y = .error e → e = .wrong := by
  unfold LinearI.ctor
  constructor
  · constructor
    · rintro ⟨l, hl⟩
      exact (LinearI.ctor_ok hl).2
    · rintro ⟨h1, h2⟩
      rw [if_neg (by omega), if_neg (by omega)]
      exact ⟨_, rfl⟩
  · intro e he
    split at he
    · cases he; rfl
    · split at he <;> cases he; rfl

/-- zero-order interpolation accepts exactly one or more values with as many nodes -/
theorem C63_zeroOrder (x y : List α) :
    ((∃ z, ZeroOrderI.ctor x y = .ok z) ↔ 1 ≤ y.length ∧ x.length = y.length) ∧ ∀ e, ZeroOrderI.ctor x y = .error e → e = .wrong := by
  unfold ZeroOrderI.ctor
  constructor
  · constructor
    · rintro ⟨l, hl⟩
      exact (ZeroOrderI.ctor_ok hl).2
    · rintro ⟨h1, h2⟩
      rw [if_neg (by omega), if_neg (by omega)]
      exact ⟨_, rfl⟩
  · intro e he
    split at he
    · cases he; rfl
    · split at he <;> cases he; rfl

/-- the spline never reads outside the data; what it accepts has five or more values, as many nodes, and increasing nodes whose spacing is the first one, to the
precision of the test -/
theorem C63_spline {prec : α} (hp : 0 ≤ prec) (hp1 : prec < 1) (x y : List α) :
    (∀ e, SplineI.ctor prec x y = .error e → e ≠ .ub) ∧
    ∀ s, SplineI.ctor prec x y = .ok s →
      5 ≤ y.length ∧ x.length = y.length ∧ 0 < s.step ∧ x[0]? = some s.left ∧ x[1]? = some (s.left + s.step) ∧ s.y = y ∧
      ∀ (i : ℕ) (a b : α), x[i]? = some a → x[i + 1]? = some b → a < b ∧ |(b - a) - s.step| ≤ s.step * prec := by
  unfold SplineI.ctor
  by_cases h5 : y.length < 5
  · rw [if_pos h5]
    exact ⟨fun e he => by cases he; simp, fun s hs => by cases hs⟩
  rw [if_neg h5]
  by_cases hl : x.length ≠ y.length
  · rw [if_pos hl]
    exact ⟨fun e he => by cases he; simp, fun s hs => by cases hs⟩
  rw [if_neg hl]
  obtain ⟨x1, hx1⟩ := exists_at (v := x) (i := 1) (by omega)
  obtain ⟨x0, hx0⟩ := exists_at (v := x) (i := 0) (by omega)
  simp only [vecAt_some hx1, vecAt_some hx0, bind, Except.bind]
  by_cases hc : (!SplineI.isConstant (x1 - x0) prec (SplineI.diffs x)) = true
  · rw [if_pos hc]
    exact ⟨fun e he => by cases he; simp, fun s hs => by cases hs⟩
  rw [if_neg hc]
  unfold SplineI.make
  by_cases hs : x1 - x0 ≤ 0
  · rw [if_pos hs]
    exact ⟨fun e he => by cases he; simp, fun s hs => by cases hs⟩
  rw [if_neg hs]
  refine ⟨fun e he => (by cases he), fun s hs' => ?_⟩
  cases hs'
  push Not at hs hl
  refine ⟨by omega, hl, hs, hx0, by simpa using hx1, rfl, fun i a b ha hb => ?_⟩
  have hm := List.mem_of_getElem? (diffs_at x i ha hb)
  simp only [Bool.not_eq_true, Bool.not_eq_false', SplineI.isConstant, List.all_eq_true, decide_eq_true_eq] at hc
  have h1 := hc _ hm
  have h2 : |(b - a) - (x1 - x0)| ≤ (x1 - x0) * prec := by
    refine le_trans h1 (mul_le_mul_of_nonneg_right (le_trans (min_le_right _ _) (abs_of_pos hs).le) hp)
  refine ⟨?_, h2⟩
  have h3 := (abs_le.mp h2).1
  have h4 : (x1 - x0) * prec < (x1 - x0) * 1 := mul_lt_mul_of_pos_left hp1 hs
  linarith

example : ∃ s : SplineI ℚ, SplineI.ctor (1 / 1000000) [0, 1, 2, 3, 4] [5, 7, 3, 1, 1] = .ok s := by
  refine ⟨⟨[5, 7, 3, 1, 1], 0, 1⟩, ?_⟩
  norm_num [SplineI.ctor, vecAt, bind, Except.bind, SplineI.isConstant, SplineI.diffs, SplineI.make]

/-- from a step the spline accepts exactly five or more values and a positive step -/
theorem C63_spline_step (y : List α) (x0 h : α) :
    ((∃ s, SplineI.ofStep y x0 h = .ok s) ↔ 5 ≤ y.length ∧ 0 < h) ∧ ∀ e, SplineI.ofStep y x0 h = .error e → e ≠ .ub := by
  unfold SplineI.ofStep SplineI.make
  by_cases h5 : y.length < 5
  · rw [if_pos h5]
    exact ⟨⟨fun ⟨s, hs⟩ => (by cases hs), fun h' => by omega⟩, fun e he => by cases he; simp⟩
  · rw [if_neg h5]
    by_cases hs : h ≤ 0
    · rw [if_pos hs]
      exact ⟨⟨fun ⟨s, hs⟩ => (by cases hs), fun h' => absurd h'.2 (not_lt.mpr hs)⟩, fun e he => by cases he; simp⟩
    · rw [if_neg hs]
      exact ⟨⟨fun _ => ⟨by omega, not_le.mp hs⟩, fun _ => ⟨_, rfl⟩⟩, fun e he => by cases he⟩

/-- with no fewer values than nodes, barycentric rational interpolation reads inside the data and rejects what is malformed: too few nodes, nodes that coincide within
three places, and sizes that differ -/
theorem C63_barycentric_partial {x y : List α} (hxy : x.length ≤ y.length) :
    ((∃ b, BaryI.ctor x y = .ok b) ↔ 4 ≤ x.length ∧ x.length = y.length ∧
      ∀ (i j : ℕ) (a c : α), x[i]? = some a → x[j]? = some c → i < j → j ≤ i + 3 → a ≠ c) ∧ ∀ e, BaryI.ctor x y = .error e → e ≠ .ub := by
  have hsp : BaryI.spaced (fun i => x.getD i 0) x.length = true ↔
      ∀ (i j : ℕ) (a c : α), x[i]? = some a → x[j]? = some c → i < j → j ≤ i + 3 → a ≠ c := by
    simp only [BaryI.spaced, List.all_eq_true, List.mem_range, decide_eq_true_eq, List.getD_eq_getElem?_getD]
    constructor
    · intro h i j a c ha hc hij hj hac
      have := h i (at_lt ha) j (at_lt hc)
      simp only [ha, hc, Option.getD_some, hac, ne_eq, not_true, or_false] at this
      omega
    · intro h k hk j hj
      obtain ⟨a, ha⟩ := exists_at hk
      obtain ⟨c, hc⟩ := exists_at hj
      simp only [ha, hc, Option.getD_some]
      by_cases h1 : k < j ∧ j ≤ k + 3
      · exact Or.inr (Or.inr (Or.inr (h k j a c ha hc h1.1 h1.2)))
      · by_cases h2 : j < k ∧ k ≤ j + 3
        · exact Or.inr (Or.inr (Or.inr (h j k c a hc ha h2.1 h2.2).symm))
        · omega
  unfold BaryI.ctor
  rw [(copyValues_spec x y).1 hxy]
  by_cases h3 : x.length ≤ 3
  · rw [if_pos h3]
    exact ⟨⟨fun ⟨s, hs⟩ => (by cases hs), fun h => by omega⟩, fun e he => by cases he; simp⟩
  rw [if_neg h3]
  simp only []
  by_cases hs : (!BaryI.spaced (fun i => x.getD i 0) x.length) = true
  · rw [if_pos hs]
    refine ⟨⟨fun ⟨s, hs⟩ => (by cases hs), fun h => ?_⟩, fun e he => by cases he; simp⟩
    rw [← hsp] at h
    rw [h.2.2] at hs
    cases hs
  rw [if_neg hs]
  have hs' : BaryI.spaced (fun i => x.getD i 0) x.length = true := by simpa using hs
  by_cases hl : x.length ≠ y.length
  · rw [if_pos hl]
    exact ⟨⟨fun ⟨s, hs⟩ => (by cases hs), fun h => absurd h.2.1 hl⟩, fun e he => by cases he; simp⟩
  · rw [if_neg hl]
    push Not at hl
    exact ⟨⟨fun _ => ⟨by omega, hl, hsp.mp hs'⟩, fun _ => ⟨_, rfl⟩⟩, fun e he => by cases he⟩

/-- with fewer values than nodes, and four nodes or more, the values are read beyond their end before their number is tested -/
theorem C63_barycentric_violated {x y : List α} (h4 : 4 ≤ x.length) (h : y.length < x.length) : BaryI.ctor x y = .error .ub := by
  unfold BaryI.ctor
  rw [if_neg (by omega), (copyValues_spec x y).2 h]

example : ∃ x y : List ℚ, 4 ≤ x.length ∧ y.length < x.length := ⟨[0, 1, 2, 3], [5], by simp, by simp⟩

/-- every interpolator made by the factory has the type asked for, has as many nodes as values, and only the barycentric one can read outside the data -/
theorem C63_factory {prec : α} (hp : 0 ≤ prec) (hp1 : prec < 1) (t : InterpType) (x y : List α) :
    (∀ i, Interp.generate prec t x y = .ok i → i.getInterpolationType = t ∧ x.length = y.length) ∧
    ∀ e, Interp.generate prec t x y = .error e → e = .ub → t = .barycentricRational ∧ y.length < x.length := by
  cases t with
  | barycentricRational =>
    simp only [Interp.generate]
    by_cases hxy : x.length ≤ y.length
    · obtain ⟨h1, h2⟩ := C63_barycentric_partial hxy
      cases hb : BaryI.ctor x y with
      | ok b =>
        refine ⟨fun i hi => ?_, fun e he => by cases he⟩
        cases hi
        exact ⟨rfl, (h1.mp ⟨b, hb⟩).2.1⟩
      | error e' =>
        refine ⟨fun i hi => (by cases hi), fun e he hu => ?_⟩
        cases he
        exact absurd hu (h2 _ hb)
    · refine ⟨fun i hi => ?_, fun e he hu => ⟨by trivial, by omega⟩⟩
      exfalso
      by_cases h4 : 4 ≤ x.length
      · rw [C63_barycentric_violated h4 (by omega)] at hi
        cases hi
      · rw [BaryI.ctor, if_pos (by omega)] at hi
        cases hi
  | cubicSpline =>
    simp only [Interp.generate]
    obtain ⟨h1, h2⟩ := C63_spline hp hp1 x y
    cases hb : SplineI.ctor prec x y with
    | ok b =>
      refine ⟨fun i hi => ?_, fun e he => by cases he⟩
      cases hi
      exact ⟨rfl, (h2 b hb).2.1⟩
    | error e' =>
      refine ⟨fun i hi => (by cases hi), fun e he hu => ?_⟩
      cases he
      exact absurd hu (h1 _ hb)
  | linear =>
    simp only [Interp.generate]
    obtain ⟨h1, h2⟩ := C63_linear x y
    cases hb : LinearI.ctor x y with
    | ok b =>
      refine ⟨fun i hi => ?_, fun e he => by cases he⟩
      cases hi
      exact ⟨rfl, (h1.mp ⟨b, hb⟩).2⟩
    | error e' =>
      refine ⟨fun i hi => (by cases hi), fun e he hu => ?_⟩
      cases he
      simp [h2 _ hb] at hu
  | zeroOrder =>
    simp only [Interp.generate]
    obtain ⟨h1, h2⟩ := C63_zeroOrder x y
    cases hb : ZeroOrderI.ctor x y with
    | ok b =>
      refine ⟨fun i hi => ?_, fun e he => by cases he⟩
      cases hi
      exact ⟨rfl, (h1.mp ⟨b, hb⟩).2⟩
    | error e' =>
      refine ⟨fun i hi => (by cases hi), fun e he hu => ?_⟩
      cases he
      simp [h2 _ hb] at hu

end Verif.Props
