import Verif.Model.Spline
import Verif.Lemmas.Interpolator
import Mathlib.Tactic.LinearCombination
import Mathlib.Algebra.BigOperators.Intervals
import Mathlib.Algebra.Order.BigOperators.Group.Finset

/-! # Lemmas on cubic splines -/

namespace Verif

namespace SplineI

variable {α : Type} [Field α] [LinearOrder α] [IsStrictOrderedRing α]

/-! ## The average -/

theorem averageLoop_mul (l : List α) : ∀ t m : α, 0 < t → averageLoop l t m * (t - 1 + l.length) = (t - 1) * m + l.sum := by
  induction l with
  | nil => intro t m _; simp [averageLoop]; ring
  | cons f fs ih =>
    intro t m ht
    have h := ih (t + 1) (m + (f - m) / t) (by linarith)
    simp only [averageLoop, List.length_cons, List.sum_cons, Nat.cast_add, Nat.cast_one]
    have h2 : (t + 1 - 1) * (m + (f - m) / t) = (t - 1) * m + f := by field_simp; ring
    rw [h2] at h
    linear_combination h

theorem average_mul (y : List α) : average y * y.length = y.sum := by
  have := averageLoop_mul y 1 0 one_pos
  simpa [average] using this

/-! ## The linear system -/

theorem superDiag_bounds : ∀ i : ℕ, 0 < superDiag (α := α) (i + 1) ∧ superDiag (α := α) (i + 1) ≤ 1 / 2
  | 0 => by simp [superDiag]
  | i + 1 => by
    obtain ⟨h0, h1⟩ := superDiag_bounds i
    have h4 : (2 : α) ≤ 4 - superDiag (i + 1) := by linarith
    simp only [superDiag]
    exact ⟨by positivity, one_div_le_one_div_of_le two_pos h4⟩

theorem superDiag_ne (i : ℕ) : (4 : α) - superDiag (i + 1) ≠ 0 := by
  have := (superDiag_bounds (α := α) i).2
  intro h
  linarith

/-- the equations the coefficients are meant to solve: `n` values, the first and the last right hand sides apart -/
def Solves (r : ℕ → α) (n : ℕ) (r0 rn : α) (c : ℕ → α) : Prop :=
  c 0 - c 2 = r0 ∧ c (n - 1) - c (n + 1) = rn ∧ ∀ i, 1 ≤ i → i ≤ n → c (i - 1) + 4 * c i + c (i + 1) = r i

theorem reduced_of_rows {y : List α} {r0 : α} {c : ℕ → α} {n : ℕ} (h0 : c 0 - c 2 = r0)
    (h : ∀ i, 1 ≤ i → i ≤ n → c (i - 1) + 4 * c i + c (i + 1) = rhs y i) :
    ∀ i, i + 1 ≤ n → c (i + 1) = reduced y r0 (i + 1) - superDiag (i + 1) * c (i + 2)
  | 0, hi => by
    have := h 1 le_rfl hi
    simp only [Nat.sub_self, Nat.reduceAdd] at this
    simp only [zero_add, reduced, superDiag]
    linear_combination (1 / 4 : α) * this - (1 / 4 : α) * h0
  | i + 1, hi => by
    have ih := reduced_of_rows h0 h i (by omega)
    have hr := h (i + 2) (by omega) hi
    have hne := superDiag_ne (α := α) i
    rw [show i + 2 - 1 = i + 1 from rfl] at hr
    simp only [reduced, superDiag]
    rw [show i + 1 + 1 = i + 2 from rfl, show i + 1 + 2 = i + 2 + 1 from rfl] at *
    field_simp
    linear_combination hr - ih

theorem rows_of_reduced {y : List α} {r0 : α} {c : ℕ → α} {n : ℕ} (h0 : c 0 - c 2 = r0)
    (h : ∀ i, i + 1 ≤ n → c (i + 1) = reduced y r0 (i + 1) - superDiag (i + 1) * c (i + 2)) :
    ∀ i, 1 ≤ i → i ≤ n → c (i - 1) + 4 * c i + c (i + 1) = rhs y i
  | 0, hi, _ => by omega
  | 1, _, hi => by
    have := h 0 hi
    simp only [zero_add, reduced, superDiag] at this
    simp only [Nat.sub_self, Nat.reduceAdd]
    linear_combination (4 : α) * this + h0
  | i + 2, _, hi => by
    have h1 := h i (by omega)
    have h2 := h (i + 1) (by omega)
    have hne := superDiag_ne (α := α) i
    simp only [reduced, superDiag] at h2
    rw [show i + 1 + 1 = i + 2 from rfl, show i + 1 + 2 = i + 2 + 1 from rfl] at *
    rw [show i + 2 - 1 = i + 1 from rfl]
    field_simp at h2
    linear_combination h2 + h1

theorem top_iff {y : List α} (hy : 3 ≤ y.length) {r0 rn : α} {c : ℕ → α}
    (h : ∀ i, i + 1 ≤ y.length → c (i + 1) = reduced y r0 (i + 1) - superDiag (i + 1) * c (i + 2)) :
    c (y.length - 1) - c (y.length + 1) = rn ↔ c (y.length + 1) = top y r0 rn := by
  obtain ⟨m, hm⟩ : ∃ m, y.length = m + 2 := ⟨y.length - 2, by omega⟩
  have h1 := h m (by omega)
  have h2 := h (m + 1) (by omega)
  obtain ⟨p1, q1⟩ := superDiag_bounds (α := α) m
  obtain ⟨p2, q2⟩ := superDiag_bounds (α := α) (m + 1)
  simp only [top, hm]
  rw [show m + 2 - 1 = m + 1 from rfl, show m + 2 + 1 = m + 3 from rfl]
  rw [show m + 1 + 1 = m + 2 from rfl, show m + 1 + 2 = m + 3 from rfl] at *
  generalize superDiag (α := α) (m + 1) = s1 at *
  generalize superDiag (α := α) (m + 2) = s2 at *
  have hd : 1 - s1 * s2 ≠ 0 := by
    have : s1 * s2 ≤ 1 / 2 * (1 / 2) := mul_le_mul q1 q2 p2.le (by norm_num)
    intro h'
    linarith
  have hs : s1 ≠ 0 := p1.ne'
  have e : -1 / -s1 - s2 = (1 - s1 * s2) / s1 := by field_simp
  rw [e, eq_div_iff (div_ne_zero hd hs)]
  rw [h1, h2]
  constructor
  · intro h'
    field_simp
    linear_combination -h'
  · intro h'
    field_simp at h'
    linear_combination -h'

variable (ends : List α → α → α × α) (s : SplineI α)

theorem beta_solves (hy : 3 ≤ s.y.length) :
    Solves (rhs s.y) s.y.length (-2 * s.step * (ends s.y s.step).1) (-2 * s.step * (ends s.y s.step).2) (s.beta ends) := by
  set r0 := -2 * s.step * (ends s.y s.step).1 with hr0
  set rn := -2 * s.step * (ends s.y s.step).2 with hrn
  have h0 : s.beta ends 0 - s.beta ends 2 = r0 := by
    simp only [beta, if_true, if_neg (show ¬ (2 = 0) by omega), ← hr0, ← hrn]
    rw [show s.y.length + 1 - 2 = s.y.length - 1 by omega]
    ring
  have hb : ∀ i, i + 1 ≤ s.y.length → s.beta ends (i + 1) = reduced s.y r0 (i + 1) - superDiag (i + 1) * s.beta ends (i + 2) := by
    intro i hi
    simp only [beta, if_neg (Nat.succ_ne_zero _), ← hr0, ← hrn]
    rw [show s.y.length + 1 - (i + 1) = (s.y.length + 1 - (i + 2)) + 1 by omega, back,
      show s.y.length - (s.y.length + 1 - (i + 2)) = i + 1 by omega]
  have ht : s.beta ends (s.y.length + 1) = top s.y r0 rn := by
    simp only [beta, if_neg (Nat.succ_ne_zero _), ← hr0, ← hrn, Nat.sub_self, back]
  exact ⟨h0, (top_iff hy hb).2 ht, rows_of_reduced h0 hb⟩

theorem Solves.unique {y : List α} (hy : 3 ≤ y.length) {r0 rn : α} {c d : ℕ → α} (hc : Solves (rhs y) y.length r0 rn c)
    (hd : Solves (rhs y) y.length r0 rn d) : ∀ k, k ≤ y.length + 1 → c k = d k := by
  have c1 := reduced_of_rows hc.1 hc.2.2
  have d1 := reduced_of_rows hd.1 hd.2.2
  have ct := (top_iff hy c1).1 hc.2.1
  have dt := (top_iff hy d1).1 hd.2.1
  have key : ∀ j, j ≤ y.length → c (y.length + 1 - j) = d (y.length + 1 - j) := by
    intro j
    induction j with
    | zero => intro _; simp only [Nat.sub_zero]; rw [ct, dt]
    | succ j ih =>
      intro hj
      have h1 := c1 (y.length - (j + 1)) (by omega)
      have h2 := d1 (y.length - (j + 1)) (by omega)
      rw [show y.length - (j + 1) + 2 = y.length + 1 - j by omega] at h1 h2
      rw [show y.length + 1 - (j + 1) = y.length - (j + 1) + 1 by omega, h1, h2, ih (by omega)]
  have keyk : ∀ k, 1 ≤ k → k ≤ y.length + 1 → c k = d k := by
    intro k h1 h2
    have := key (y.length + 1 - k) (by omega)
    rwa [show y.length + 1 - (y.length + 1 - k) = k by omega] at this
  intro k hk
  rcases Nat.eq_zero_or_pos k with rfl | h0
  · have := keyk 2 (by omega) (by omega)
    linear_combination hc.1 - hd.1 + this
  · exact keyk k h0 hk

/-! ## The basis functions -/

theorem b3_far {x : α} (h : 2 ≤ |x|) : b3 x = 0 := by
  unfold b3
  rw [if_neg (by linarith), if_neg (by linarith)]

theorem b3Prime_far {x : α} (h : 2 ≤ |x|) : b3Prime x = 0 := by
  unfold b3Prime b3PrimeRight
  split_ifs with h0 h1 h2 h1 h2
  all_goals first
    | rfl
    | (rw [abs_of_neg h0] at h; linarith)
    | (rw [abs_of_nonneg (not_lt.1 h0)] at h; linarith)
    | simp

theorem b3_piece {u : α} (h0 : 0 ≤ u) (h1 : u ≤ 1) :
    b3 (1 + u) = (1 - u) ^ 3 / 6 ∧ b3 u = ((2 - u) ^ 3 - 4 * (1 - u) ^ 3) / 6 ∧ b3 (u - 1) = ((1 + u) ^ 3 - 4 * u ^ 3) / 6 ∧
      b3 (u - 2) = u ^ 3 / 6 := by
  have e1 : |1 + u| = 1 + u := abs_of_nonneg (by linarith)
  have e2 : |u| = u := abs_of_nonneg h0
  have e3 : |u - 1| = 1 - u := by rw [abs_of_nonpos (by linarith)]; ring
  have e4 : |u - 2| = 2 - u := by rw [abs_of_nonpos (by linarith)]; ring
  unfold b3
  rw [e1, e2, e3, e4]
  refine ⟨?_, ?_, ?_, ?_⟩
  · rw [if_neg (by linarith)]
    split_ifs with h
    · ring
    · have : u = 1 := by linarith
      subst this; ring
  · split_ifs with h h'
    · ring
    · have : u = 1 := by linarith
      subst this; ring
    · linarith
  · split_ifs with h h'
    · ring
    · have : u = 0 := by linarith
      subst this; ring
    · linarith
  · split_ifs with h h'
    · linarith
    · ring
    · have : u = 0 := by linarith
      subst this; ring

theorem b3Prime_piece {u : α} (h0 : 0 ≤ u) (h1 : u ≤ 1) :
    b3Prime (1 + u) = -(1 - u) ^ 2 / 2 ∧ b3Prime u = u * (3 / 2 * u - 2) ∧ b3Prime (u - 1) = (1 - u) * (2 - 3 / 2 * (1 - u)) ∧
      b3Prime (u - 2) = u ^ 2 / 2 := by
  unfold b3Prime b3PrimeRight
  refine ⟨?_, ?_, ?_, ?_⟩
  · rw [if_neg (by linarith), if_neg (by linarith)]
    split_ifs with h
    · ring
    · have : u = 1 := by linarith
      subst this; ring
  · rw [if_neg (by linarith)]
    split_ifs with h h'
    · ring
    · have : u = 1 := by linarith
      subst this; ring
    · linarith
  · split_ifs with h h' h''
    · ring
    · have : u = 0 := by linarith
      subst this; ring
    · linarith
    · have : u = 1 := by linarith
      subst this; ring
    · linarith
    · linarith
  · split_ifs with h h' h''
    · have : u = 1 := by linarith
      subst this; ring
    · ring
    · have : u = 0 := by linarith
      subst this; ring
    all_goals linarith

/-! ## The sums -/

theorem foldl_add {β : Type} (g : β → α) (l : List β) : ∀ z : α, l.foldl (fun z k => z + g k) z = z + (l.map g).sum := by
  induction l with
  | nil => intro z; simp
  | cons a l ih => intro z; simp only [List.foldl_cons, ih, List.map_cons, List.sum_cons, add_assoc]

theorem sum_range' (g : ℕ → α) : ∀ m a : ℕ, ((List.range' a m).map g).sum = ∑ k ∈ Finset.Ico a (a + m), g k
  | 0, a => by simp
  | m + 1, a => by
    rw [List.range'_succ, List.map_cons, List.sum_cons, sum_range' g m (a + 1), Finset.sum_eq_sum_Ico_succ_bot (show a < a + (m + 1) by omega) g,
      show a + (m + 1) = a + 1 + m by omega]

variable [FloorRing α]

/-- the terms left out are zero -/
theorem sum_near (n : ℕ) (b : ℕ → α) (f : α → α) (hf : ∀ x, 2 ≤ |x| → f x = 0) (t z : α) :
    (List.range' (kMin t) (kMax (n + 2) t + 1 - kMin t)).foldl (fun z (k : ℕ) => z + b k * f (t - (k : α))) z =
      z + ∑ k ∈ Finset.range (n + 2), b k * f (t - (k : α)) := by
  rw [foldl_add (fun k : ℕ => b k * f (t - (k : α))), sum_range']
  congr 1
  apply Finset.sum_subset
  · intro k hk
    rw [Finset.mem_Ico] at hk
    rw [Finset.mem_range]
    have : k ≤ kMax (n + 2) t := by omega
    unfold kMax at this
    omega
  · intro k hk hk'
    rw [Finset.mem_range] at hk
    rw [Finset.mem_Ico] at hk'
    rw [hf, mul_zero]
    by_cases h1 : kMin t ≤ k
    · have h2 : kMax (n + 2) t < k := by omega
      unfold kMax at h2
      have h3 : ⌊t + 2⌋ < (k : ℤ) := by omega
      have h4 : t + 2 < (k : α) := by exact_mod_cast Int.floor_lt.1 h3
      rw [abs_of_nonpos (by linarith)]
      linarith
    · have h2 : (k : ℤ) < ⌈t - 2⌉ := by unfold kMin at h1; omega
      have h3 : (k : α) < t - 2 := by exact_mod_cast Int.lt_ceil.1 h2
      exact le_trans (by linarith) (le_abs_self _)

theorem evaluate_eq (q : α) :
    s.evaluate ends q = average s.y + ∑ k ∈ Finset.range (s.y.length + 2), s.beta ends k * b3 (s.place q - (k : α)) :=
  sum_near _ _ b3 (fun _ => b3_far) _ _

theorem computeDerivative_eq (q : α) :
    s.computeDerivative ends q = (∑ k ∈ Finset.range (s.y.length + 2), s.beta ends k * b3Prime (s.place q - (k : α))) * (1 / s.step) := by
  unfold computeDerivative
  dsimp only
  rw [sum_near _ _ b3Prime (fun _ => b3Prime_far), zero_add]

omit [FloorRing α] in
/-- only four terms matter between two nodes -/
theorem sum_four (n : ℕ) (b : ℕ → α) (f : α → α) (hf : ∀ x, 2 ≤ |x| → f x = 0) {m : ℕ} (hm : m + 3 ≤ n + 1) {u : α} (h0 : 0 ≤ u) (h1 : u ≤ 1) :
    ∑ k ∈ Finset.range (n + 2), b k * f ((m : α) + 1 + u - (k : α)) =
      b m * f (1 + u) + b (m + 1) * f u + b (m + 2) * f (u - 1) + b (m + 3) * f (u - 2) := by
  have hsub : Finset.Ico m (m + 4) ⊆ Finset.range (n + 2) := by
    intro k hk
    rw [Finset.mem_Ico] at hk
    rw [Finset.mem_range]
    omega
  rw [← Finset.sum_subset hsub]
  · rw [Finset.sum_Ico_eq_sum_range, show m + 4 - m = 4 by omega]
    simp only [Finset.sum_range_succ, Finset.sum_range_zero, zero_add, Nat.cast_add, add_zero]
    have e : ∀ j : α, (m : α) + 1 + u - (m + j) = 1 + u - j := fun j => by ring
    rw [e, e, e, e, Nat.cast_zero, Nat.cast_one, Nat.cast_ofNat, Nat.cast_ofNat, show 1 + u - 0 = 1 + u by ring, show 1 + u - 1 = u by ring,
      show 1 + u - 2 = u - 1 by ring, show 1 + u - 3 = u - 2 by ring]
  · intro k _ hk
    rw [Finset.mem_Ico] at hk
    rw [hf, mul_zero]
    rcases Nat.lt_or_ge k m with h | h
    · have : (k : α) + 1 ≤ (m : α) := by exact_mod_cast h
      rw [abs_of_nonneg (by linarith)]
      linarith
    · have : (m : α) + 4 ≤ (k : α) := by exact_mod_cast (show m + 4 ≤ k by omega)
      rw [abs_of_nonpos (by linarith)]
      linarith

omit [FloorRing α] [IsStrictOrderedRing α] in
theorem place_at (hs : s.step ≠ 0) (v : α) : s.place (s.left + v * s.step) = v + 1 := by
  unfold place
  field_simp
  ring

/-- the spline between two nodes -/
theorem evaluate_piece (hs : s.step ≠ 0) {m : ℕ} (hm : m + 2 ≤ s.y.length) {u : α} (h0 : 0 ≤ u) (h1 : u ≤ 1) :
    s.evaluate ends (s.left + ((m : α) + u) * s.step) =
      average s.y + (s.beta ends m * ((1 - u) ^ 3 / 6) + s.beta ends (m + 1) * (((2 - u) ^ 3 - 4 * (1 - u) ^ 3) / 6) +
        s.beta ends (m + 2) * (((1 + u) ^ 3 - 4 * u ^ 3) / 6) + s.beta ends (m + 3) * (u ^ 3 / 6)) := by
  obtain ⟨e1, e2, e3, e4⟩ := b3_piece h0 h1
  rw [evaluate_eq, place_at s hs, show (m : α) + u + 1 = m + 1 + u by ring, sum_four _ _ _ (fun _ => b3_far) (by omega) h0 h1, e1, e2, e3, e4]

theorem computeDerivative_piece (hs : s.step ≠ 0) {m : ℕ} (hm : m + 2 ≤ s.y.length) {u : α} (h0 : 0 ≤ u) (h1 : u ≤ 1) :
    s.computeDerivative ends (s.left + ((m : α) + u) * s.step) =
      (s.beta ends m * (-(1 - u) ^ 2 / 2) + s.beta ends (m + 1) * (u * (3 / 2 * u - 2)) +
        s.beta ends (m + 2) * ((1 - u) * (2 - 3 / 2 * (1 - u))) + s.beta ends (m + 3) * (u ^ 2 / 2)) * (1 / s.step) := by
  obtain ⟨e1, e2, e3, e4⟩ := b3Prime_piece h0 h1
  rw [computeDerivative_eq, place_at s hs, show (m : α) + u + 1 = m + 1 + u by ring,
    sum_four _ _ _ (fun _ => b3Prime_far) (by omega) h0 h1, e1, e2, e3, e4]

end SplineI

end Verif
