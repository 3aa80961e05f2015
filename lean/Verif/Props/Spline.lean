import Verif.Lemmas.SplineSmooth
import Verif.Spec.Spline
import Mathlib.Data.Real.Archimedean

/-!
# C93 to C95: cubic splines

`ends` is the unknown rule by which the library estimates the derivatives at the two ends; the theorems hold for every such rule.
-/

namespace Verif.Props

open Verif Verif.Spec

section Field

variable {α : Type} [Field α] [LinearOrder α] [IsStrictOrderedRing α] [FloorRing α] (ends : List α → α → α × α)

/-- splines with enough values and a positive step: those the constructors make -/
theorem spline_node {s : SplineI α} (h5 : 5 ≤ s.y.length) (hs : 0 < s.step) {i : ℕ} {v : α} (hv : s.y[i]? = some v) :
    s.evaluate ends (node s.left s.step i) = v := by
  obtain ⟨hi, hv⟩ := List.getElem?_eq_some_iff.1 hv
  have hrow := (s.beta_solves ends (by omega)).2.2 (i + 1) (by omega) (by omega)
  have hr : SplineI.rhs s.y (i + 1) = 6 * (v - SplineI.average s.y) := by
    simp [SplineI.rhs, List.getD_eq_getElem?_getD, List.getElem?_eq_getElem hi, hv]
  rw [hr] at hrow
  simp only [Nat.add_sub_cancel] at hrow
  unfold node
  by_cases hl : i + 2 ≤ s.y.length
  · have := s.evaluate_piece ends hs.ne' hl (u := 0) le_rfl zero_le_one
    rw [add_zero] at this
    rw [this]
    linear_combination (1 / 6 : α) * hrow
  · obtain ⟨m, rfl⟩ : ∃ m, i = m + 1 := ⟨i - 1, by omega⟩
    have := s.evaluate_piece ends hs.ne' (m := m) (by omega) (u := 1) zero_le_one le_rfl
    rw [Nat.cast_add, Nat.cast_one, this]
    linear_combination (1 / 6 : α) * hrow

/-- C93: a spline made from a step passes through all its values -/
theorem C93_step {y : List α} {x0 h : α} {s : SplineI α} (hc : SplineI.ofStep y x0 h = .ok s) {i : ℕ} {v : α} (hv : y[i]? = some v) :
    s.evaluate ends (node x0 h i) = v := by
  unfold SplineI.ofStep SplineI.make at hc
  split_ifs at hc with h1 h2
  cases hc
  exact spline_node ends (by simpa using h1) (lt_of_not_ge h2) hv

example : ∃ s, SplineI.ofStep [1, 4, 2, 8, 5, (7 : ℚ)] 3 (1 / 2) = .ok s := ⟨_, by simp [SplineI.ofStep, SplineI.make]; rfl⟩

/-- how the constructor from nodes places the spline -/
theorem spline_ctor {prec : α} {x y : List α} {s : SplineI α} (hc : SplineI.ctor prec x y = .ok s) :
    5 ≤ s.y.length ∧ 0 < s.step ∧ s.y = y ∧ x.length = y.length ∧ x[0]? = some s.left ∧ x[1]? = some (s.left + s.step) ∧
      SplineI.isConstant s.step prec (SplineI.diffs x) = true := by
  unfold SplineI.ctor at hc
  split_ifs at hc with h1 h2
  match x, h2 with
  | [], h2 => simp at h2; omega
  | [_], h2 => simp at h2; omega
  | a :: b :: l, h2 =>
    simp only [vecAt, List.getElem?_cons_zero, List.getElem?_cons_succ, bind, Except.bind] at hc
    unfold SplineI.make at hc
    split_ifs at hc with h3 h4
    cases hc
    exact ⟨by simpa using h1, lt_of_not_ge h4, rfl, by simpa using h2, rfl, by simp, by simpa using h3⟩

/-- C93: a spline made from nodes whose distances are exactly equal passes through all of them -/
theorem C93_nodes_partial {prec : α} {x y : List α} {s : SplineI α} (hc : SplineI.ctor prec x y = .ok s)
    (hx : ∃ x0 h, ∀ i a, x[i]? = some a → a = node x0 h i) {i : ℕ} {a v : α} (ha : x[i]? = some a) (hv : y[i]? = some v) :
    s.evaluate ends a = v := by
  obtain ⟨h5, hs, hy, -, h0, h1, -⟩ := spline_ctor hc
  obtain ⟨x0, h, hx⟩ := hx
  have e0 := hx 0 _ h0
  have e1 := hx 1 _ h1
  simp only [node, Nat.cast_zero, zero_mul, add_zero, Nat.cast_one, one_mul] at e0 e1
  rw [hx i a ha, ← e0, show h = s.step by rw [e0] at e1; exact (add_left_cancel e1).symm]
  exact spline_node ends h5 hs (by rw [hy]; exact hv)

example : ∃ s, SplineI.ctor (1 / 1000000) [0, 2, 4, 6, 8, (10 : ℚ)] [1, 4, 2, 8, 5, 7] = .ok s :=
  ⟨_, by simp [SplineI.ctor, SplineI.make, SplineI.isConstant, SplineI.diffs, vecAt, bind, Except.bind]; norm_num; rfl⟩

/-- C93: the nodes accepted may drift away from the places where the spline takes the values, by the tolerance times the number of steps -/
theorem C93_drift_partial {prec : α} (hp : 0 ≤ prec) {x y : List α} {s : SplineI α} (hc : SplineI.ctor prec x y = .ok s) {i : ℕ} {a v : α}
    (ha : x[i]? = some a) (hv : y[i]? = some v) :
    |a - node s.left s.step i| ≤ (i : α) * (s.step * prec) ∧ s.evaluate ends (node s.left s.step i) = v := by
  obtain ⟨h5, hs, hy, -, h0, -, hd⟩ := spline_ctor hc
  refine ⟨?_, spline_node ends h5 hs (by rw [hy]; exact hv)⟩
  have key : ∀ (l : List α) (b : α) (n : ℕ) (c : α), SplineI.isConstant s.step prec (SplineI.diffs (b :: l)) = true →
      (b :: l)[n]? = some c → |c - (b + (n : α) * s.step)| ≤ (n : α) * (s.step * prec) := by
    intro l
    induction l with
    | nil =>
      intro b n c _ hn
      match n, hn with
      | 0, hn => simp at hn; simp [hn]
      | n + 1, hn => simp at hn
    | cons d l ih =>
      intro b n c hk hn
      match n, hn with
      | 0, hn => simp at hn; simp [hn]
      | n + 1, hn =>
        simp only [SplineI.diffs, SplineI.isConstant, List.all_cons, Bool.and_eq_true, decide_eq_true_eq] at hk
        have h2 := ih d n c hk.2 (by simpa using hn)
        have h1 : |d - b - s.step| ≤ s.step * prec := by
          refine le_trans hk.1 ?_
          apply mul_le_mul_of_nonneg_right _ hp
          rw [abs_of_pos hs]
          exact min_le_right _ _
        calc |c - (b + ((n + 1 : ℕ) : α) * s.step)| = |(c - (d + (n : α) * s.step)) + (d - b - s.step)| := by congr 1; push_cast; ring
          _ ≤ (n : α) * (s.step * prec) + s.step * prec := le_trans (abs_add_le _ _) (add_le_add h2 h1)
          _ = ((n + 1 : ℕ) : α) * (s.step * prec) := by push_cast; ring
  match x, h0 with
  | b :: l, h0 =>
    have : b = s.left := by simpa using h0
    rw [← this]
    exact key l b i a hd ha

/-! ## C95: polynomials of degree three -/

/-- every place between the ends lies between two nodes -/
theorem piece_exists {n : ℕ} (hn : 2 ≤ n) {v : α} (h0 : 0 ≤ v) (h1 : v ≤ (n : α) - 1) :
    ∃ m u, m + 2 ≤ n ∧ (0 : α) ≤ u ∧ u ≤ 1 ∧ v = (m : α) + u := by
  by_cases h : v < (n : α) - 1
  · have hf : ((⌊v⌋₊ : ℕ) : α) ≤ v := Nat.floor_le h0
    have hf' : v < (⌊v⌋₊ : α) + 1 := Nat.lt_floor_add_one v
    refine ⟨⌊v⌋₊, v - ⌊v⌋₊, ?_, by linarith, by linarith, by ring⟩
    have : ((⌊v⌋₊ + 1 : ℕ) : α) < (n : α) := by push_cast; linarith
    have := Nat.cast_lt.1 this
    omega
  · refine ⟨n - 2, 1, by omega, zero_le_one, le_rfl, ?_⟩
    have : v = (n : α) - 1 := le_antisymm h1 (not_lt.1 h)
    rw [this, Nat.cast_sub hn]
    push_cast
    ring

/-- C95: the spline of the values of a polynomial of degree at most three, with the right derivatives at the ends, is the polynomial between the ends,
and its derivative is the derivative of the polynomial -/
theorem C95_cubics {s : SplineI α} (h5 : 5 ≤ s.y.length) (hs : 0 < s.step) (p : Cubic α)
    (hy : ∀ i v, s.y[i]? = some v → v = p.eval (node s.left s.step i))
    (he : ends s.y s.step = (p.slope s.left, p.slope (node s.left s.step (s.y.length - 1)))) {q : α} (h0 : s.left ≤ q)
    (h1 : q ≤ node s.left s.step (s.y.length - 1)) : s.evaluate ends q = p.eval q ∧ s.computeDerivative ends q = p.slope q := by
  set n := s.y.length with hn
  set x0 := s.left
  set h := s.step
  have hpred : ((n - 1 : ℕ) : α) = (n : α) - 1 := by rw [Nat.cast_sub (by omega)]; push_cast; ring
  -- the polynomial in steps
  let e0 := p.eval x0
  let e1 := h * p.slope x0
  let e2 := h ^ 2 * (p.c2 + 3 * p.c3 * x0)
  let e3 := h ^ 3 * p.c3
  have hP : ∀ v, p.eval (x0 + v * h) = e0 + e1 * v + e2 * v ^ 2 + e3 * v ^ 3 := by
    intro v; simp only [e0, e1, e2, e3, Cubic.eval, Cubic.slope]; ring
  have hS : ∀ v, h * p.slope (x0 + v * h) = e1 + 2 * e2 * v + 3 * e3 * v ^ 2 := by
    intro v; simp only [e1, e2, e3, Cubic.slope]; ring
  -- its coefficients
  let g : ℕ → α := fun k => e0 + e1 * ((k : α) - 1) + e2 * (((k : α) - 1) ^ 2 - 1 / 3) + e3 * (((k : α) - 1) ^ 3 - ((k : α) - 1)) - SplineI.average s.y
  have hg : SplineI.Solves (SplineI.rhs s.y) n (-2 * h * (ends s.y h).1) (-2 * h * (ends s.y h).2) g := by
    refine ⟨?_, ?_, ?_⟩
    · have : h * (ends s.y h).1 = e1 := by rw [he]
      simp only [g]
      push_cast
      linear_combination 2 * this
    · have : h * (ends s.y h).2 = e1 + 2 * e2 * ((n : α) - 1) + 3 * e3 * ((n : α) - 1) ^ 2 := by
        rw [he, ← hpred]; exact hS _
      simp only [g]
      rw [hpred]
      push_cast
      linear_combination 2 * this
    · intro i hi1 hi2
      obtain ⟨j, rfl⟩ : ∃ j, i = j + 1 := ⟨i - 1, by omega⟩
      have hj : j < s.y.length := by omega
      have hv := hy j _ (List.getElem?_eq_getElem hj)
      have : SplineI.rhs s.y (j + 1) = 6 * (p.eval (node x0 h j) - SplineI.average s.y) := by
        simp [SplineI.rhs, List.getD_eq_getElem?_getD, List.getElem?_eq_getElem hj, hv]
      rw [this, node, hP]
      simp only [g, Nat.add_sub_cancel]
      push_cast
      ring
  have hb := SplineI.Solves.unique (by omega) (s.beta_solves ends (by omega)) hg
  -- the place of the query
  have hv0 : 0 ≤ (q - x0) / h := div_nonneg (by linarith) hs.le
  have hv1 : (q - x0) / h ≤ (n : α) - 1 := by
    rw [div_le_iff₀ hs, ← hpred]
    unfold node at h1
    linarith
  obtain ⟨m, u, hm, hu0, hu1, hv⟩ := piece_exists (show 2 ≤ n by omega) hv0 hv1
  have hq : q = x0 + ((m : α) + u) * h := by
    rw [← hv]; field_simp; ring
  rw [hq]
  have b0 := hb m (by omega)
  have b1 := hb (m + 1) (by omega)
  have b2 := hb (m + 2) (by omega)
  have b3 := hb (m + 3) (by omega)
  constructor
  · rw [s.evaluate_piece ends hs.ne' hm hu0 hu1, b0, b1, b2, b3, hP]
    simp only [g]
    push_cast
    ring
  · have := hS ((m : α) + u)
    rw [s.computeDerivative_piece ends hs.ne' hm hu0 hu1, b0, b1, b2, b3, mul_one_div, div_eq_iff hs.ne', mul_comm _ h]
    change _ = h * p.slope (x0 + ((m : α) + u) * h)
    rw [this]
    simp only [g]
    push_cast
    ring

/-- a spline of the cubes -/
example : ∃ (ends : List ℚ → ℚ → ℚ × ℚ) (s : SplineI ℚ) (p : Cubic ℚ), 5 ≤ s.y.length ∧ 0 < s.step ∧
    (∀ i v, s.y[i]? = some v → v = p.eval (node s.left s.step i)) ∧
    ends s.y s.step = (p.slope s.left, p.slope (node s.left s.step (s.y.length - 1))) ∧ p.c3 ≠ 0 := by
  refine ⟨fun _ _ => (0, 48), ⟨[0, 1, 8, 27, 64], 0, 1⟩, ⟨0, 0, 0, 1⟩, by simp, by simp, ?_, ?_, by simp⟩
  · intro i v hv
    match i, hv with
    | 0, hv => simp at hv; simp [← hv, Cubic.eval, node]
    | 1, hv => simp at hv; simp [← hv, Cubic.eval, node]
    | 2, hv => simp at hv; simp [← hv, Cubic.eval, node]; norm_num
    | 3, hv => simp at hv; simp [← hv, Cubic.eval, node]; norm_num
    | 4, hv => simp at hv; simp [← hv, Cubic.eval, node]; norm_num
    | n + 5, hv => simp at hv
  · simp [Cubic.slope, node]; norm_num

/-- C95: from three steps outside the data on, the spline is the mean of the values -/
theorem C95_far {s : SplineI α} (h1 : s.y ≠ []) (hs : 0 < s.step) {q : α}
    (hq : q ≤ s.left - 3 * s.step ∨ node s.left s.step (s.y.length + 2) ≤ q) :
    s.evaluate ends q = s.y.sum / s.y.length ∧ s.computeDerivative ends q = 0 := by
  have hfar : ∀ k ∈ Finset.range (s.y.length + 2), 2 ≤ |s.place q - (k : α)| := by
    intro k hk
    have hk' : (k : α) ≤ (s.y.length : α) + 1 := by exact_mod_cast Nat.lt_succ_iff.1 (Finset.mem_range.1 hk)
    have hk0 : (0 : α) ≤ (k : α) := Nat.cast_nonneg k
    unfold SplineI.place
    rcases hq with hq | hq
    · have : 1 / s.step * (q - s.left) ≤ -3 := by
        rw [one_div, inv_mul_le_iff₀ hs]; linarith
      rw [abs_of_nonpos (by linarith)]
      linarith
    · have : (s.y.length : α) + 2 ≤ 1 / s.step * (q - s.left) := by
        rw [one_div, le_inv_mul_iff₀ hs]
        unfold node at hq
        push_cast at hq
        linarith
      exact le_trans (by linarith) (le_abs_self _)
  have hl : (s.y.length : α) ≠ 0 := by exact_mod_cast (List.length_pos_iff.2 h1).ne'
  constructor
  · rw [s.evaluate_eq, Finset.sum_eq_zero (fun k hk => by rw [SplineI.b3_far (hfar k hk), mul_zero]), add_zero, eq_div_iff hl, SplineI.average_mul]
  · rw [s.computeDerivative_eq, Finset.sum_eq_zero (fun k hk => by rw [SplineI.b3Prime_far (hfar k hk), mul_zero]), zero_mul]

example : ∃ (s : SplineI ℚ) (q : ℚ), s.y ≠ [] ∧ 0 < s.step ∧ q ≤ s.left - 3 * s.step := ⟨⟨[1, 2, 3, 4, 9], 0, 2⟩, -7, by simp, by simp, by norm_num⟩

/-- C93: a spline made from nodes does not pass through them when they drift, although the constructor accepts them, whatever the tolerance, if the
rule for the ends is right for straight lines -/
theorem C93_nodes_violated {prec : α} (hp : 0 < prec) (hp1 : prec < 1) (he : ends [0, 1, 2, 3, 4] 1 = (1, 1)) :
    ∃ (x y : List α) (s : SplineI α) (i : ℕ) (a v : α), SplineI.ctor prec x y = .ok s ∧ x[i]? = some a ∧ y[i]? = some v ∧ s.evaluate ends a ≠ v := by
  refine ⟨[0, 1, 2 + prec / 2, 3 + prec / 2, 4 + prec / 2], [0, 1, 2, 3, 4], ⟨[0, 1, 2, 3, 4], 0, 1⟩, 2, 2 + prec / 2, 2, ?_, rfl, rfl, ?_⟩
  · have h1 : |(1 : α) + prec / 2 - 1| ≤ prec := by rw [add_sub_cancel_left, abs_of_pos (by linarith)]; linarith
    have h2 : min |(1 : α) + prec / 2| 1 = 1 := min_eq_right (by rw [abs_of_pos (by linarith)]; linarith)
    have d1 : (2 : α) + prec / 2 - 1 = 1 + prec / 2 := by ring
    have d2 : (3 : α) + prec / 2 - (2 + prec / 2) = 1 := by ring
    have d3 : (4 : α) + prec / 2 - (3 + prec / 2) = 1 := by ring
    simp only [SplineI.ctor, vecAt, List.getElem?_cons_zero, List.getElem?_cons_succ, bind, Except.bind, SplineI.isConstant, SplineI.diffs, sub_zero,
      List.all_cons, List.all_nil, Bool.and_true, d1, d2, d3, abs_one, h2, one_mul, min_self, sub_self, abs_zero, hp.le, h1, decide_true,
      Bool.not_true, SplineI.make, List.length_cons, List.length_nil]
    simp
  · have := (C95_cubics ends (s := ⟨[0, 1, 2, 3, 4], 0, 1⟩) (by simp) one_pos ⟨0, 1, 0, 0⟩ ?_ ?_ (q := 2 + prec / 2) ?_ ?_).1
    · rw [this]
      simp only [Cubic.eval]
      intro h'
      linarith
    · intro i v hv
      match i, hv with
      | 0, hv => simp at hv; simp [← hv, Cubic.eval, node]
      | 1, hv => simp at hv; simp [← hv, Cubic.eval, node]
      | 2, hv => simp at hv; simp [← hv, Cubic.eval, node]
      | 3, hv => simp at hv; simp [← hv, Cubic.eval, node]
      | 4, hv => simp at hv; simp [← hv, Cubic.eval, node]
      | n + 5, hv => simp at hv
    · rw [he]; simp [Cubic.slope]
    · show (0 : α) ≤ _; linarith
    · simp only [node, List.length_cons, List.length_nil]
      norm_num
      linarith

example : ∃ ends : List ℚ → ℚ → ℚ × ℚ, ends [0, 1, 2, 3, 4] 1 = (1, 1) := ⟨fun y h => ((y.getD 1 0 - y.getD 0 0) / h, 1), by simp⟩

/-! ## C94: the ends -/

/-- C94: the derivative of the spline at its ends is the one asked for -/
theorem C94_ends {s : SplineI α} (h5 : 5 ≤ s.y.length) (hs : 0 < s.step) :
    s.computeDerivative ends s.left = (ends s.y s.step).1 ∧
    s.computeDerivative ends (node s.left s.step (s.y.length - 1)) = (ends s.y s.step).2 := by
  obtain ⟨h0, hn, -⟩ := s.beta_solves ends (by omega)
  constructor
  · have := s.computeDerivative_piece ends hs.ne' (m := 0) (by omega) (u := 0) le_rfl zero_le_one
    rw [Nat.cast_zero, add_zero, zero_mul, add_zero] at this
    rw [this, mul_one_div, div_eq_iff hs.ne']
    norm_num
    linear_combination (-1 / 2 : α) * h0
  · obtain ⟨m, hm⟩ : ∃ m, s.y.length = m + 2 := ⟨s.y.length - 2, by omega⟩
    have := s.computeDerivative_piece ends hs.ne' (m := m) (by omega) (u := 1) zero_le_one le_rfl
    rw [node, hm, show m + 2 - 1 = m + 1 from rfl, Nat.cast_add, Nat.cast_one, this, mul_one_div, div_eq_iff hs.ne']
    rw [hm, show m + 2 - 1 = m + 1 from rfl, show m + 2 + 1 = m + 3 from rfl] at hn
    norm_num
    linear_combination (-1 / 2 : α) * hn

example : ∃ s : SplineI ℚ, 5 ≤ s.y.length ∧ 0 < s.step := ⟨⟨[1, 4, 2, 8, 5, 7], 3, 1 / 2⟩, by simp, by norm_num⟩

/-- C94: between two nodes the spline is one polynomial of degree at most three -/
theorem C94_pieces {s : SplineI α} (hs : 0 < s.step) {m : ℕ} (hm : m + 2 ≤ s.y.length) :
    ∃ p : Cubic α, ∀ q, node s.left s.step m ≤ q → q ≤ node s.left s.step (m + 1) →
      s.evaluate ends q = p.eval q ∧ s.computeDerivative ends q = p.slope q := by
  set b := s.beta ends
  let h := s.step
  let x := node s.left s.step m
  -- in the variable (q - x) / h
  let d0 := SplineI.average s.y + (b m + 4 * b (m + 1) + b (m + 2)) / 6
  let d1 := (b (m + 2) - b m) / 2 / h
  let d2 := (b m - 2 * b (m + 1) + b (m + 2)) / 2 / h ^ 2
  let d3 := (-b m + 3 * b (m + 1) - 3 * b (m + 2) + b (m + 3)) / 6 / h ^ 3
  refine ⟨⟨d0 - d1 * x + d2 * x ^ 2 - d3 * x ^ 3, d1 - 2 * d2 * x + 3 * d3 * x ^ 2, d2 - 3 * d3 * x, d3⟩, ?_⟩
  intro q hq0 hq1
  have hne : h ≠ 0 := hs.ne'
  obtain ⟨u, hu⟩ : ∃ u, u = (q - x) / h := ⟨_, rfl⟩
  have hq : q = s.left + ((m : α) + u) * h := by
    rw [hu]; simp only [x, node]; field_simp; ring
  have hqx : q = x + u * h := by rw [hq]; simp only [x, node]; ring
  have hu0 : 0 ≤ u := by rw [hu]; exact div_nonneg (by simp only [x]; linarith) hs.le
  have hu1 : u ≤ 1 := by
    rw [hu, div_le_one hs]
    unfold node at hq1
    simp only [x, node]
    push_cast at hq1
    linarith
  constructor
  · have e := s.evaluate_piece ends hs.ne' hm hu0 hu1
    rw [← hq] at e
    rw [e]
    simp only [Cubic.eval]
    rw [hqx]
    have : d0 - d1 * x + d2 * x ^ 2 - d3 * x ^ 3 + (d1 - 2 * d2 * x + 3 * d3 * x ^ 2) * (x + u * h) + (d2 - 3 * d3 * x) * (x + u * h) ^ 2 +
        d3 * (x + u * h) ^ 3 = d0 + d1 * (u * h) + d2 * (u * h) ^ 2 + d3 * (u * h) ^ 3 := by ring
    rw [this]
    simp only [d0, d1, d2, d3]
    field_simp
    ring
  · have e := s.computeDerivative_piece ends hs.ne' hm hu0 hu1
    rw [← hq] at e
    rw [e]
    simp only [Cubic.slope]
    rw [hqx]
    have : d1 - 2 * d2 * x + 3 * d3 * x ^ 2 + 2 * (d2 - 3 * d3 * x) * (x + u * h) + 3 * d3 * (x + u * h) ^ 2 =
        d1 + 2 * d2 * (u * h) + 3 * d3 * (u * h) ^ 2 := by ring
    rw [this]
    simp only [d1, d2, d3]
    change _ * (1 / h) = _
    field_simp
    ring

example : ∃ (s : SplineI ℚ) (m : ℕ), 0 < s.step ∧ m + 2 ≤ s.y.length := ⟨⟨[1, 4, 2, 8, 5, 7], 3, 1 / 2⟩, 4, by norm_num, by simp⟩

end Field

/-- C94: `computeDerivative` is the derivative of `evaluate` everywhere, and has itself a continuous derivative -/
theorem C94_smooth (ends : List ℝ → ℝ → ℝ × ℝ) (s : SplineI ℝ) :
    (∀ q, HasDerivAt (s.evaluate ends) (s.computeDerivative ends q) q) ∧
    ∃ f : ℝ → ℝ, Continuous f ∧ ∀ q, HasDerivAt (s.computeDerivative ends) (f q) q := by
  have hplace : ∀ q k, HasDerivAt (fun q => s.place q - k) (1 / s.step) q := by
    intro q k
    have := ((((hasDerivAt_id q).sub_const s.left).const_mul (1 / s.step)).add_const 1).sub_const k
    simpa [SplineI.place] using this
  constructor
  · intro q
    rw [s.computeDerivative_eq]
    have e : s.evaluate ends = fun q => SplineI.average s.y + ∑ k ∈ Finset.range (s.y.length + 2), s.beta ends k * SplineI.b3 (s.place q - (k : ℝ)) :=
      funext fun q => s.evaluate_eq ends q
    rw [e]
    apply HasDerivAt.const_add
    rw [Finset.sum_mul]
    apply HasDerivAt.fun_sum
    intro k _
    rw [mul_assoc]
    apply HasDerivAt.const_mul
    exact HasDerivAt.comp q (SplineI.hasDerivAt_b3 _) (hplace q k)
  · refine ⟨fun q => (∑ k ∈ Finset.range (s.y.length + 2), s.beta ends k * (SplineI.trunc 1 (s.place q - (k : ℝ)) * (1 / s.step))) * (1 / s.step), ?_, ?_⟩
    · have hc : ∀ k : ℕ, Continuous fun q => SplineI.trunc 1 (s.place q - (k : ℝ)) := by
        intro k
        apply (SplineI.continuous_trunc 1).comp
        unfold SplineI.place
        fun_prop
      apply Continuous.mul _ continuous_const
      apply continuous_finsetSum
      intro k _
      exact continuous_const.mul ((hc k).mul continuous_const)
    · intro q
      have e : s.computeDerivative ends = fun q => (∑ k ∈ Finset.range (s.y.length + 2), s.beta ends k * SplineI.b3Prime (s.place q - (k : ℝ))) * (1 / s.step) :=
        funext fun q => s.computeDerivative_eq ends q
      rw [e]
      apply HasDerivAt.mul_const
      apply HasDerivAt.fun_sum
      intro k _
      apply HasDerivAt.const_mul
      exact HasDerivAt.comp q (SplineI.hasDerivAt_b3Prime _) (hplace q k)

/-- C93: a spline made from a step, evaluated at the array of its nodes, gives the array of its values -/
theorem C93_array {α : Type} [Field α] [LinearOrder α] [IsStrictOrderedRing α] [FloorRing α] (ends : List α → α → α × α) {y : List α} {x0 h : α} {s : SplineI α}
    (hc : SplineI.ofStep y x0 h = .ok s) : s.evaluateAll ends ((List.range y.length).map (node x0 h)) = y := by
  apply List.ext_getElem?
  intro i
  simp only [SplineI.evaluateAll, List.map_map, List.getElem?_map]
  by_cases hi : i < y.length
  · rw [List.getElem?_range hi, List.getElem?_eq_getElem hi]
    simp only [Option.map_some, Function.comp]
    rw [C93_step ends hc (List.getElem?_eq_getElem hi)]
  · rw [List.getElem?_eq_none (by simpa using hi), List.getElem?_eq_none (by simpa using hi)]; rfl

/-- C94: the arrays of values and of derivatives have the length of the array of abscissas, and at each place hold the value of
the spline at the abscissa there and its derivative -/
theorem C94_array (ends : List ℝ → ℝ → ℝ × ℝ) (s : SplineI ℝ) (qs : List ℝ) :
    (s.evaluateAll ends qs).length = qs.length ∧ (s.computeDerivativeAll ends qs).length = qs.length ∧
    ∀ (i : ℕ) (q : ℝ), qs[i]? = some q → (s.evaluateAll ends qs)[i]? = some (s.evaluate ends q) ∧
      ∃ d, (s.computeDerivativeAll ends qs)[i]? = some d ∧ HasDerivAt (s.evaluate ends) d q := by
  refine ⟨by simp [SplineI.evaluateAll], by simp [SplineI.computeDerivativeAll], fun i q hq => ⟨?_, s.computeDerivative ends q, ?_, (C94_smooth ends s).1 q⟩⟩
  · simp [SplineI.evaluateAll, hq]
  · simp [SplineI.computeDerivativeAll, hq]

end Verif.Props
