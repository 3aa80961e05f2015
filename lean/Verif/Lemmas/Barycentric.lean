import Verif.Lemmas.Interpolator
import Mathlib.LinearAlgebra.Lagrange
import Mathlib.Algebra.BigOperators.Intervals
import Mathlib.Algebra.BigOperators.Field
import Mathlib.Algebra.Order.BigOperators.Group.Finset

/-! # Lemmas on the weights of Floater and Hormann -/

namespace Verif

open Finset

theorem sum_map_range {β : Type} [AddCommMonoid β] (f : ℕ → β) (n : ℕ) : ((List.range n).map f).sum = ∑ i ∈ range n, f i := by
  induction n with
  | zero => simp
  | succ n ih => rw [List.range_succ, List.map_append, List.sum_append, ih, Finset.sum_range_succ]; simp

theorem prod_map_range {β : Type} [CommMonoid β] (f : ℕ → β) (n : ℕ) : ((List.range n).map f).prod = ∏ i ∈ range n, f i := by
  induction n with
  | zero => simp
  | succ n ih => rw [List.range_succ, List.map_append, List.prod_append, ih, Finset.prod_range_succ]; simp

section
variable {α : Type} [Field α] [LinearOrder α]

/-- a sum over the nodes of a block is a sum over the four places of the block -/
theorem sum_block {n i : ℕ} (hi : i + 3 < n) (G : ℕ → α) : (∑ k ∈ range n, if i ≤ k ∧ k ≤ i + 3 then G k else 0) = ∑ j ∈ range 4, G (i + j) := by
  rw [← Finset.sum_filter]
  have : (range n).filter (fun k => i ≤ k ∧ k ≤ i + 3) = Ico i (i + 4) := by
    ext k
    simp only [mem_filter, mem_range, mem_Ico]
    omega
  rw [this, Finset.sum_Ico_eq_sum_range]
  simp

/-- the product of the differences, as the weight of a node in its block -/
theorem product_eq (x : ℕ → α) (i : ℕ) {j : ℕ} (hj : j < 4) :
    1 / BaryI.product x (i + j) i = Lagrange.nodalWeight (range 4) (fun m => x (i + m)) j := by
  unfold BaryI.product Lagrange.nodalWeight
  rw [prod_map_range, one_div, ← Finset.prod_inv_distrib, ← Finset.mul_prod_erase (range 4) _ (mem_range.mpr hj)]
  simp only [if_true, inv_one, one_mul]
  refine Finset.prod_congr rfl fun m hm => ?_
  have : i + m ≠ i + j := by
    have := (Finset.mem_erase.mp hm).1
    omega
  rw [if_neg this]

/-- the sign of a block -/
def blockSign (i : ℕ) : α := if i % 2 = 0 then 1 else -1

/-- the term of a block: its sign over the product of the distances to its nodes -/
def blockTerm (x : ℕ → α) (q : α) (i : ℕ) : α := blockSign i / ∏ j ∈ range 4, (q - x (i + j))

/-- the sum over the nodes, by blocks -/
theorem sum_by_blocks (x f : ℕ → α) (n : ℕ) (q : α) :
    (∑ k ∈ range n, BaryI.weight x n k / (q - x k) * f k) =
      ∑ i ∈ range (n - 3), blockSign i * ∑ j ∈ range 4, Lagrange.nodalWeight (range 4) (fun m => x (i + m)) j * (q - x (i + j))⁻¹ * f (i + j) := by
  unfold BaryI.weight
  simp only [sum_map_range, Finset.sum_div, Finset.sum_mul]
  rw [Finset.sum_comm]
  refine Finset.sum_congr rfl fun i hi => ?_
  have hi' : i + 3 < n := by
    have := mem_range.mp hi
    omega
  have h1 : ∀ k ∈ range n, ((if i ≤ k ∧ k ≤ i + 3 then (if i % 2 = 0 then 1 / BaryI.product x k i else -(1 / BaryI.product x k i)) else 0) / (q - x k) * f k) =
      if i ≤ k ∧ k ≤ i + 3 then blockSign i * (1 / BaryI.product x k i * (q - x k)⁻¹ * f k) else 0 := by
    intro k _
    unfold blockSign
    split_ifs <;> simp [div_eq_mul_inv]
  rw [Finset.sum_congr rfl h1, sum_block hi', Finset.mul_sum]
  refine Finset.sum_congr rfl fun j hj => ?_
  rw [product_eq x i (mem_range.mp hj)]

/-- for the values of a polynomial of degree three or less, the sum over the nodes is its value times the sum of the terms of the blocks -/
theorem sum_polynomial {x : ℕ → α} {n : ℕ} (hinj : ∀ i j, i < n → j < n → x i = x j → i = j) {q : α} (hq : ∀ i < n, q ≠ x i) {p : Polynomial α} (hp : p.degree < 4) :
    (∑ k ∈ range n, BaryI.weight x n k / (q - x k) * p.eval (x k)) = p.eval q * ∑ i ∈ range (n - 3), blockTerm x q i := by
  rw [sum_by_blocks, Finset.mul_sum]
  refine Finset.sum_congr rfl fun i hi => ?_
  have hi' : i + 3 < n := by
    have := mem_range.mp hi
    omega
  have hv : Set.InjOn (fun m => x (i + m)) (range 4 : Set ℕ) := by
    intro a ha b hb hab
    have ha' : a < 4 := by simpa using ha
    have hb' : b < 4 := by simpa using hb
    have := hinj (i + a) (i + b) (by omega) (by omega) hab
    omega
  have hq' : ∀ j ∈ range 4, q ≠ x (i + j) := fun j hj => hq (i + j) (by have := mem_range.mp hj; omega)
  have he := Lagrange.eq_interpolate (s := range 4) (v := fun m => x (i + m)) (f := p) hv (by simpa using hp)
  have h1 := Lagrange.eval_interpolate_not_at_node (s := range 4) (v := fun m => x (i + m)) (r := fun j => p.eval (x (i + j))) hq'
  rw [← he, Lagrange.eval_nodal] at h1
  have h2 : (∏ j ∈ range 4, (q - x (i + j))) ≠ 0 := Finset.prod_ne_zero_iff.mpr fun j hj => sub_ne_zero.mpr (hq' j hj)
  unfold blockTerm
  rw [h1]
  field_simp

theorem sum_one {x : ℕ → α} {n : ℕ} (hinj : ∀ i j, i < n → j < n → x i = x j → i = j) {q : α} (hq : ∀ i < n, q ≠ x i) :
    (∑ k ∈ range n, BaryI.weight x n k / (q - x k)) = ∑ i ∈ range (n - 3), blockTerm x q i := by
  have h := sum_polynomial hinj hq (p := 1) (lt_of_le_of_lt Polynomial.degree_one_le (by norm_num))
  simpa using h

end

section
variable {α : Type} [Field α] [LinearOrder α] [IsStrictOrderedRing α]

theorem blockSign_succ (a : ℕ) : (blockSign (a + 1) : α) = -blockSign a := by
  unfold blockSign
  rcases Nat.mod_two_eq_zero_or_one a with h | h <;> simp [Nat.add_mod, h]

theorem blockSign_sq (a : ℕ) : (blockSign a * blockSign a : α) = 1 := by
  unfold blockSign
  split_ifs <;> simp

/-- a sum whose signs alternate and whose terms decrease has the sign of its first term -/
theorem alternating_tail {u : ℕ → α} (m : ℕ) : ∀ a, (∀ i, a ≤ i → i ≤ a + m → 0 < blockSign i * u i) →
    (∀ i, a ≤ i → i < a + m → blockSign (i + 1) * u (i + 1) < blockSign i * u i) →
    0 < blockSign a * ∑ i ∈ range (m + 1), u (a + i) ∧ blockSign a * ∑ i ∈ range (m + 1), u (a + i) ≤ blockSign a * u a := by
  induction m with
  | zero =>
    intro a hp _
    simpa using hp a le_rfl (by omega)
  | succ m ih =>
    intro a hp hd
    obtain ⟨h1, h2⟩ := ih (a + 1) (fun i h h' => hp i (by omega) (by omega)) (fun i h h' => hd i (by omega) (by omega))
    have hs : ∑ i ∈ range (m + 1 + 1), u (a + i) = u a + ∑ i ∈ range (m + 1), u (a + 1 + i) := by
      rw [Finset.sum_range_succ' _ (m + 1)]
      simp only [Nat.add_zero]
      rw [add_comm]
      congr 1
      exact Finset.sum_congr rfl fun i _ => by congr 1; omega
    have h4 := hd a le_rfl (by omega)
    rw [hs, mul_add]
    rw [blockSign_succ] at h1 h2 h4
    constructor <;> linarith

/-- a sum whose signs alternate and whose terms increase has the sign of its last term -/
theorem alternating_head {u : ℕ → α} (m : ℕ) (hp : ∀ i, i ≤ m → 0 < blockSign i * u i)
    (hd : ∀ i, i < m → blockSign i * u i < blockSign (i + 1) * u (i + 1)) :
    0 < blockSign m * ∑ i ∈ range (m + 1), u i ∧ blockSign m * ∑ i ∈ range (m + 1), u i ≤ blockSign m * u m := by
  induction m with
  | zero => simpa using hp 0 le_rfl
  | succ m ih =>
    obtain ⟨h1, h2⟩ := ih (fun i h => hp i (by omega)) (fun i h => hd i (by omega))
    have h4 := hd m (by omega)
    rw [Finset.sum_range_succ _ (m + 1), mul_add]
    rw [blockSign_succ] at h4 ⊢
    constructor <;> linarith

theorem blockTerm_four (x : ℕ → α) (q : α) (i : ℕ) :
    blockTerm x q i = blockSign i / ((q - x i) * (q - x (i + 1)) * (q - x (i + 2)) * (q - x (i + 3))) := by
  simp [blockTerm, Finset.prod_range_succ]

/-- four positive numbers each below another four -/
theorem mul_four_lt {a b c d a' b' c' d' : α} (ha : 0 < a) (hb : 0 < b) (hc : 0 < c) (hd : 0 < d) (ha' : a < a') (hb' : b < b') (hc' : c < c') (hd' : d < d') :
    a * b * c * d < a' * b' * c' * d' := by
  have h1 := mul_lt_mul ha' hb'.le hb (lt_trans ha ha').le
  have h2 := mul_lt_mul h1 hc'.le hc (mul_pos (lt_trans ha ha') (lt_trans hb hb')).le
  exact mul_lt_mul h2 hd'.le hd (mul_pos (mul_pos (lt_trans ha ha') (lt_trans hb hb')) (lt_trans hc hc')).le

/-- the sum of the terms of the blocks has the sign of the number of nodes below the abscissa, so it is not zero -/
theorem sum_blocks_pos {x : ℕ → α} {n : ℕ} (hn : 4 ≤ n) (hx : ∀ i j, i < j → j < n → x i < x j) {q : α} {a : ℕ} (ha : a ≤ n)
    (hlo : ∀ i, i < a → x i < q) (hhi : ∀ i, a ≤ i → i < n → q < x i) : 0 < blockSign a * ∑ i ∈ range (n - 3), blockTerm x q i := by
  -- blocks above the abscissa
  have above : ∀ i, a ≤ i → i + 3 < n → blockSign i * blockTerm x q i = 1 / ((x i - q) * (x (i + 1) - q) * (x (i + 2) - q) * (x (i + 3) - q)) := by
    intro i _ _
    rw [blockTerm_four, ← mul_div_assoc, blockSign_sq]
    congr 1
    ring
  have above_pos : ∀ i, a ≤ i → i + 3 < n → 0 < (x i - q) * (x (i + 1) - q) * (x (i + 2) - q) * (x (i + 3) - q) := by
    intro i h h'
    have h0 := hhi i h (by omega)
    have h1 := hhi (i + 1) (by omega) (by omega)
    have h2 := hhi (i + 2) (by omega) (by omega)
    have h3 := hhi (i + 3) (by omega) (by omega)
    exact mul_pos (mul_pos (mul_pos (by linarith) (by linarith)) (by linarith)) (by linarith)
  -- blocks below the abscissa
  have below : ∀ i, blockSign i * blockTerm x q i = 1 / ((q - x i) * (q - x (i + 1)) * (q - x (i + 2)) * (q - x (i + 3))) := by
    intro i
    rw [blockTerm_four, ← mul_div_assoc, blockSign_sq]
  have below_pos : ∀ i, i + 3 < a → 0 < (q - x i) * (q - x (i + 1)) * (q - x (i + 2)) * (q - x (i + 3)) := by
    intro i h
    have h0 := hlo i (by omega)
    have h1 := hlo (i + 1) (by omega)
    have h2 := hlo (i + 2) (by omega)
    have h3 := hlo (i + 3) (by omega)
    exact mul_pos (mul_pos (mul_pos (by linarith) (by linarith)) (by linarith)) (by linarith)
  -- blocks around the abscissa
  have around : ∀ i, i < a → a ≤ i + 3 → i + 3 < n → 0 < blockSign a * blockTerm x q i := by
    intro i h h' h''
    have h0 : 0 < q - x i := by linarith [hlo i h]
    have h3 : 0 < x (i + 3) - q := by linarith [hhi (i + 3) h' h'']
    have hc : a = i + 1 ∨ a = i + 2 ∨ a = i + 3 := by omega
    rw [blockTerm_four]
    rcases hc with rfl | rfl | rfl
    · have h1 : 0 < x (i + 1) - q := by linarith [hhi (i + 1) le_rfl (by omega)]
      have h2 : 0 < x (i + 2) - q := by linarith [hhi (i + 2) (by omega) (by omega)]
      rw [blockSign_succ, ← mul_div_assoc, neg_mul, blockSign_sq,
        show (q - x i) * (q - x (i + 1)) * (q - x (i + 2)) * (q - x (i + 3)) = -((q - x i) * (x (i + 1) - q) * (x (i + 2) - q) * (x (i + 3) - q)) by ring, neg_div_neg_eq]
      exact one_div_pos.mpr (mul_pos (mul_pos (mul_pos h0 h1) h2) h3)
    · have h1 : 0 < q - x (i + 1) := by linarith [hlo (i + 1) (by omega)]
      have h2 : 0 < x (i + 2) - q := by linarith [hhi (i + 2) (by omega) (by omega)]
      rw [show i + 2 = i + 1 + 1 from rfl, blockSign_succ, blockSign_succ, neg_neg, ← mul_div_assoc, blockSign_sq,
        show (q - x i) * (q - x (i + 1)) * (q - x (i + 1 + 1)) * (q - x (i + 3)) = ((q - x i) * (q - x (i + 1)) * (x (i + 1 + 1) - q) * (x (i + 3) - q)) by ring]
      exact one_div_pos.mpr (mul_pos (mul_pos (mul_pos h0 h1) h2) h3)
    · have h1 : 0 < q - x (i + 1) := by linarith [hlo (i + 1) (by omega)]
      have h2 : 0 < q - x (i + 2) := by linarith [hlo (i + 2) (by omega)]
      rw [show i + 3 = i + 1 + 1 + 1 from rfl, blockSign_succ, blockSign_succ, blockSign_succ, neg_neg, ← mul_div_assoc, neg_mul, blockSign_sq,
        show (q - x i) * (q - x (i + 1)) * (q - x (i + 2)) * (q - x (i + 1 + 1 + 1)) = -((q - x i) * (q - x (i + 1)) * (q - x (i + 2)) * (x (i + 1 + 1 + 1) - q)) by ring,
        neg_div_neg_eq]
      exact one_div_pos.mpr (mul_pos (mul_pos (mul_pos h0 h1) h2) h3)
  -- the three parts of the sum
  have hsplit : ∑ i ∈ range (n - 3), blockTerm x q i =
      (∑ i ∈ range (a - 3), blockTerm x q i) + (∑ i ∈ Ico (a - 3) (min a (n - 3)), blockTerm x q i) + ∑ i ∈ range (n - 3 - min a (n - 3)), blockTerm x q (min a (n - 3) + i) := by
    rw [Finset.range_eq_Ico, Finset.range_eq_Ico, ← Finset.sum_Ico_eq_sum_range, Finset.sum_Ico_consecutive _ (by omega) (by omega),
      Finset.sum_Ico_consecutive _ (by omega) (by omega)]
  have hhead : 0 ≤ blockSign a * ∑ i ∈ range (a - 3), blockTerm x q i ∧ (3 < a → 0 < blockSign a * ∑ i ∈ range (a - 3), blockTerm x q i) := by
    by_cases h3 : 3 < a
    · obtain ⟨k, rfl⟩ : ∃ k, a = k + 4 := ⟨a - 4, by omega⟩
      have hs : (blockSign (k + 4) : α) = blockSign k := by
        rw [show k + 4 = k + 1 + 1 + 1 + 1 from rfl, blockSign_succ, blockSign_succ, blockSign_succ, blockSign_succ]
        simp
      have hlt := (alternating_head (u := blockTerm x q) k (fun i hi => by rw [below]; exact one_div_pos.mpr (below_pos i (by omega))) (fun i hi => by
        rw [below, below]
        refine one_div_lt_one_div_of_lt (below_pos (i + 1) (by omega)) (mul_four_lt ?_ ?_ ?_ ?_ ?_ ?_ ?_ ?_)
        · linarith [hlo (i + 1) (by omega)]
        · linarith [hlo (i + 1 + 1) (by omega)]
        · linarith [hlo (i + 1 + 2) (by omega)]
        · linarith [hlo (i + 1 + 3) (by omega)]
        · linarith [hx i (i + 1) (by omega) (by omega)]
        · linarith [hx (i + 1) (i + 1 + 1) (by omega) (by omega)]
        · linarith [hx (i + 2) (i + 1 + 2) (by omega) (by omega)]
        · linarith [hx (i + 3) (i + 1 + 3) (by omega) (by omega)])).1
      rw [hs, show k + 4 - 3 = k + 1 by omega]
      exact ⟨hlt.le, fun _ => hlt⟩
    · have : a - 3 = 0 := by omega
      rw [this]
      simp only [Finset.range_zero, Finset.sum_empty, mul_zero, le_refl, true_and]
      intro h; omega
  have hmid : 0 ≤ blockSign a * ∑ i ∈ Ico (a - 3) (min a (n - 3)), blockTerm x q i ∧
      (a - 3 < min a (n - 3) → 0 < blockSign a * ∑ i ∈ Ico (a - 3) (min a (n - 3)), blockTerm x q i) := by
    rw [Finset.mul_sum]
    constructor
    · refine Finset.sum_nonneg fun i hi => ?_
      rw [Finset.mem_Ico] at hi
      exact (around i (by omega) (by omega) (by omega)).le
    · intro h
      refine Finset.sum_pos (fun i hi => ?_) ⟨a - 3, Finset.mem_Ico.mpr ⟨le_rfl, h⟩⟩
      rw [Finset.mem_Ico] at hi
      exact around i (by omega) (by omega) (by omega)
  have htail : 0 ≤ blockSign a * ∑ i ∈ range (n - 3 - min a (n - 3)), blockTerm x q (min a (n - 3) + i) ∧
      (a < n - 3 → 0 < blockSign a * ∑ i ∈ range (n - 3 - min a (n - 3)), blockTerm x q (min a (n - 3) + i)) := by
    by_cases h : a < n - 3
    · rw [min_eq_left h.le]
      obtain ⟨m, hm⟩ : ∃ m, n - 3 - a = m + 1 := ⟨n - 3 - a - 1, by omega⟩
      rw [hm]
      have hlt := (alternating_tail (u := blockTerm x q) m a (fun i hi hi' => by
        rw [above i hi (by omega)]; exact one_div_pos.mpr (above_pos i hi (by omega))) (fun i hi hi' => by
        rw [above i hi (by omega), above (i + 1) (by omega) (by omega)]
        refine one_div_lt_one_div_of_lt (above_pos i hi (by omega)) (mul_four_lt ?_ ?_ ?_ ?_ ?_ ?_ ?_ ?_)
        · linarith [hhi i hi (by omega)]
        · linarith [hhi (i + 1) (by omega) (by omega)]
        · linarith [hhi (i + 2) (by omega) (by omega)]
        · linarith [hhi (i + 3) (by omega) (by omega)]
        · linarith [hx i (i + 1) (by omega) (by omega)]
        · linarith [hx (i + 1) (i + 1 + 1) (by omega) (by omega)]
        · linarith [hx (i + 2) (i + 1 + 2) (by omega) (by omega)]
        · linarith [hx (i + 3) (i + 1 + 3) (by omega) (by omega)])).1
      exact ⟨hlt.le, fun _ => hlt⟩
    · have : n - 3 - min a (n - 3) = 0 := by omega
      rw [this]
      simp only [Finset.range_zero, Finset.sum_empty, mul_zero, le_refl, true_and]
      intro h'; omega
  rw [hsplit, mul_add, mul_add]
  by_cases h1 : 3 < a
  · linarith [hhead.2 h1, hmid.1, htail.1]
  · by_cases h2 : a < n - 3
    · linarith [hhead.1, hmid.1, htail.2 h2]
    · have := hmid.2 (by omega)
      linarith [hhead.1, htail.1]

/-- an abscissa that is not a node separates the nodes -/
theorem separates {x : ℕ → α} {n : ℕ} (hx : ∀ i j, i < j → j < n → x i < x j) {q : α} (hq : ∀ i < n, q ≠ x i) :
    ∃ a, a ≤ n ∧ (∀ i, i < a → x i < q) ∧ ∀ i, a ≤ i → i < n → q < x i := by
  classical
  have hex : ∃ i, n ≤ i ∨ q < x i := ⟨n, Or.inl le_rfl⟩
  refine ⟨Nat.find hex, Nat.find_min' hex (Or.inl le_rfl), fun i hi => ?_, fun i hi hin => ?_⟩
  · have h := Nat.find_min hex hi
    push Not at h
    exact lt_of_le_of_ne h.2 (hq i h.1).symm
  · rcases Nat.find_spec hex with h | h
    · omega
    · rcases hi.lt_or_eq with h' | h'
      · exact lt_trans h (hx _ i h' hin)
      · rwa [← h']

theorem injective_of_increasing {x : ℕ → α} {n : ℕ} (hx : ∀ i j, i < j → j < n → x i < x j) (i j : ℕ) (hi : i < n) (hj : j < n) (h : x i = x j) : i = j := by
  rcases lt_trichotomy i j with h' | h' | h'
  · exact absurd h (hx i j h' hj).ne
  · exact h'
  · exact absurd h (hx j i h' hi).ne'

/-- the denominator of the interpolant is not zero -/
theorem denominator_ne_zero {x : ℕ → α} {n : ℕ} (hn : 4 ≤ n) (hx : ∀ i j, i < j → j < n → x i < x j) {q : α} (hq : ∀ i < n, q ≠ x i) :
    (∑ k ∈ range n, BaryI.weight x n k / (q - x k)) ≠ 0 := by
  rw [sum_one (injective_of_increasing hx) hq]
  obtain ⟨a, ha, hlo, hhi⟩ := separates hx hq
  intro h
  have := sum_blocks_pos hn hx ha hlo hhi
  rw [h, mul_zero] at this
  exact lt_irrefl _ this

end

section
variable {α : Type} [Field α] [LinearOrder α]

/-- off the nodes the loop of the evaluation is the quotient of two sums -/
theorem BaryI.loop_off {q : α} (l : List (α × α × α)) (h : ∀ e ∈ l, q ≠ e.1) (num den : α) :
    BaryI.loop q l num den = BaryI.quotient (num + (l.map fun e => e.2.2 / (q - e.1) * e.2.1).sum) (den + (l.map fun e => e.2.2 / (q - e.1)).sum) := by
  induction l generalizing num den with
  | nil => simp [BaryI.loop]
  | cons e l ih =>
    obtain ⟨x, y, w⟩ := e
    have h0 : q ≠ x := h (x, y, w) (by simp)
    rw [BaryI.loop, if_neg h0, ih (fun e he => h e (by simp [he]))]
    simp [add_assoc]

/-- at a node the loop of the evaluation answers the value of the first node that is equal -/
theorem BaryI.loop_at {q : α} (l : List (α × α × α)) {k : ℕ} {y w : α} (hk : l[k]? = some (q, y, w)) (h : ∀ (i : ℕ) e, i < k → l[i]? = some e → q ≠ e.1) (num den : α) :
    BaryI.loop q l num den = some y := by
  induction l generalizing k num den with
  | nil => simp at hk
  | cons e l ih =>
    obtain ⟨x, y', w'⟩ := e
    rw [BaryI.loop]
    cases k with
    | zero =>
      simp only [List.getElem?_cons_zero, Option.some.injEq, Prod.mk.injEq] at hk
      rw [if_pos hk.1.symm, hk.2.1]
    | succ k =>
      rw [if_neg (h 0 (x, y', w') (by omega) (by simp))]
      exact ih (k := k) (by simpa using hk) (fun i e hi he => h (i + 1) e (by omega) (by simpa using he)) _ _

theorem BaryI.primeLoop_off {q r : α} (all : List (α × α × α)) (l : List (α × α × α)) (h : ∀ e ∈ l, q ≠ e.1) (i : ℕ) (num den : α) :
    BaryI.primeLoop q r all i l num den =
      BaryI.quotient (num + (l.map fun e => e.2.2 / (q - e.1) * ((r - e.2.1) / (q - e.1))).sum) (den + (l.map fun e => e.2.2 / (q - e.1)).sum) := by
  induction l generalizing i num den with
  | nil => simp [BaryI.primeLoop]
  | cons e l ih =>
    obtain ⟨x, y, w⟩ := e
    have h0 : q ≠ x := h (x, y, w) (by simp)
    rw [BaryI.primeLoop, if_neg h0, ih (fun e he => h e (by simp [he]))]
    simp [add_assoc]

theorem BaryI.primeLoop_at {q r : α} (all : List (α × α × α)) (l : List (α × α × α)) {k : ℕ} {y w : α} (hk : l[k]? = some (q, y, w))
    (h : ∀ (i : ℕ) e, i < k → l[i]? = some e → q ≠ e.1) (i : ℕ) (num den : α) :
    BaryI.primeLoop q r all i l num den = BaryI.quotient (-BaryI.others all (i + k) q y) w := by
  induction l generalizing k i num den with
  | nil => simp at hk
  | cons e l ih =>
    obtain ⟨x, y', w'⟩ := e
    rw [BaryI.primeLoop]
    cases k with
    | zero =>
      simp only [List.getElem?_cons_zero, Option.some.injEq, Prod.mk.injEq] at hk
      rw [if_pos hk.1.symm, hk.1, hk.2.1, hk.2.2]
      rfl
    | succ k =>
      rw [if_neg (h 0 (x, y', w') (by omega) (by simp)), ih (k := k) (by simpa using hk) (fun i e hi he => h (i + 1) e (by omega) (by simpa using he))]
      congr 3
      omega

/-- what an accepted interpolant holds -/
theorem BaryI.ctor_ok {x y : List α} {b : BaryI α} (h : BaryI.ctor x y = .ok b) :
    4 ≤ x.length ∧ x.length = y.length ∧ b.x = x ∧ b.y = y ∧
      b.entries = (List.range x.length).map fun k => (x.getD k 0, y.getD k 0, BaryI.weight (fun i => x.getD i 0) x.length k) := by
  unfold BaryI.ctor at h
  split at h
  · cases h
  · rename_i h3
    by_cases hxy : x.length ≤ y.length
    · rw [(copyValues_spec x y).1 hxy] at h
      simp only [] at h
      split at h
      · cases h
      · split at h
        · cases h
        · rename_i hs hl
          push Not at hl
          cases h
          have ht : y.take x.length = y := by rw [hl]; exact List.take_length
          refine ⟨by omega, hl, rfl, ht, ?_⟩
          simp only [BaryI.entries, ht]
          refine List.ext_getElem (by simp [hl]) fun k h1 h2 => ?_
          have hk : k < x.length := by simpa using h2
          have hk' : k < y.length := by omega
          simp [List.getD_eq_getElem?_getD, List.getElem?_eq_getElem hk, List.getElem?_eq_getElem hk']
    · rw [(copyValues_spec x y).2 (by omega)] at h
      cases h

/-- the sum over the other nodes -/
theorem BaryI.others_range (X Y W : ℕ → α) (n m : ℕ) (q v : α) :
    BaryI.others ((List.range n).map fun k => (X k, Y k, W k)) m q v = ∑ k ∈ range n, if k = m then 0 else W k * (v - Y k) / (q - X k) := by
  unfold BaryI.others
  rw [← sum_map_range]
  congr 1
  refine List.ext_getElem (by simp) fun k h1 h2 => ?_
  simp

end

section
variable {α : Type} [Field α] [LinearOrder α] [IsStrictOrderedRing α]

/-- the weights are not zero -/
theorem weight_ne_zero {x : ℕ → α} {n : ℕ} (hn : 4 ≤ n) (hx : ∀ i j, i < j → j < n → x i < x j) {k : ℕ} (hk : k < n) : BaryI.weight x n k ≠ 0 := by
  have hpos : ∀ i, i + 3 < n → i ≤ k → k ≤ i + 3 →
      0 < -blockSign k * (if i % 2 = 0 then 1 / BaryI.product x k i else -(1 / BaryI.product x k i)) := by
    intro i hi h1 h2
    have e : (if i % 2 = 0 then 1 / BaryI.product x k i else -(1 / BaryI.product x k i)) = blockSign i * (1 / BaryI.product x k i) := by
      unfold blockSign
      split_ifs <;> simp
    rw [e]
    have h01 := sub_pos.mpr (hx i (i + 1) (by omega) (by omega))
    have h02 := sub_pos.mpr (hx i (i + 2) (by omega) (by omega))
    have h03 := sub_pos.mpr (hx i (i + 3) (by omega) (by omega))
    have h12 := sub_pos.mpr (hx (i + 1) (i + 2) (by omega) (by omega))
    have h13 := sub_pos.mpr (hx (i + 1) (i + 3) (by omega) (by omega))
    have h23 := sub_pos.mpr (hx (i + 2) (i + 3) (by omega) (by omega))
    have hc : k = i ∨ k = i + 1 ∨ k = i + 2 ∨ k = i + 3 := by omega
    rcases hc with rfl | rfl | rfl | rfl
    · have hp : BaryI.product x k k = -((x (k + 1) - x k) * (x (k + 2) - x k) * (x (k + 3) - x k)) := by
        simp [BaryI.product, List.range_succ]; ring
      rw [← mul_assoc, neg_mul, blockSign_sq, hp, one_div, inv_neg, neg_one_mul, neg_neg]
      positivity
    · have hp : BaryI.product x (i + 1) i = (x (i + 1) - x i) * (x (i + 2) - x (i + 1)) * (x (i + 3) - x (i + 1)) := by
        simp [BaryI.product, List.range_succ]; ring
      rw [blockSign_succ, neg_neg, ← mul_assoc, blockSign_sq, hp]
      positivity
    · have hp : BaryI.product x (i + 2) i = -((x (i + 2) - x i) * (x (i + 2) - x (i + 1)) * (x (i + 3) - x (i + 2))) := by
        simp [BaryI.product, List.range_succ]; ring
      rw [show i + 2 = i + 1 + 1 from rfl, blockSign_succ, blockSign_succ, neg_neg, ← mul_assoc, neg_mul, blockSign_sq, show i + 1 + 1 = i + 2 from rfl, hp, one_div, inv_neg,
        neg_one_mul, neg_neg]
      positivity
    · have hp : BaryI.product x (i + 3) i = (x (i + 3) - x i) * (x (i + 3) - x (i + 1)) * (x (i + 3) - x (i + 2)) := by
        simp [BaryI.product, List.range_succ]; ring
      rw [show i + 3 = i + 1 + 1 + 1 from rfl, blockSign_succ, blockSign_succ, blockSign_succ, neg_neg, neg_neg, ← mul_assoc, blockSign_sq, show i + 1 + 1 + 1 = i + 3 from rfl, hp]
      positivity
  intro h0
  have : 0 < -blockSign k * BaryI.weight x n k := by
    unfold BaryI.weight
    rw [sum_map_range, Finset.mul_sum]
    refine Finset.sum_pos' (fun i hi => ?_) ⟨min k (n - 4), Finset.mem_range.mpr (by omega), ?_⟩
    · have := Finset.mem_range.mp hi
      by_cases hc : i ≤ k ∧ k ≤ i + 3
      · rw [if_pos hc]
        exact (hpos i (by omega) hc.1 hc.2).le
      · rw [if_neg hc, mul_zero]
    · rw [if_pos (by omega)]
      exact hpos _ (by omega) (by omega) (by omega)
  rw [h0, mul_zero] at this
  exact lt_irrefl _ this

omit [IsStrictOrderedRing α] in
/-- off the nodes the evaluation is the quotient of the two sums -/
theorem BaryI.evaluate_off {x y : List α} {b : BaryI α} (h : BaryI.ctor x y = .ok b) {q : α} (hq : q ∉ x) :
    b.evaluate q = BaryI.quotient (∑ k ∈ range x.length, BaryI.weight (fun i => x.getD i 0) x.length k / (q - x.getD k 0) * y.getD k 0)
      (∑ k ∈ range x.length, BaryI.weight (fun i => x.getD i 0) x.length k / (q - x.getD k 0)) := by
  obtain ⟨h4, hl, -, -, he⟩ := BaryI.ctor_ok h
  unfold BaryI.evaluate
  rw [he, BaryI.loop_off]
  · simp only [List.map_map, zero_add, ← sum_map_range]
    rfl
  · intro e hm
    simp only [List.mem_map, List.mem_range] at hm
    obtain ⟨k, hk, rfl⟩ := hm
    obtain ⟨c, hc⟩ := exists_at hk
    simp only [List.getD_eq_getElem?_getD, hc, Option.getD_some]
    rintro rfl
    exact hq (List.mem_of_getElem? hc)

theorem getD_increasing {x : List α} (hx : x.Pairwise (· < ·)) : ∀ i j, i < j → j < x.length → x.getD i 0 < x.getD j 0 := by
  intro i j hij hj
  obtain ⟨c, hc⟩ := exists_at hj
  obtain ⟨a, ha⟩ := exists_at (lt_trans hij hj)
  simp only [List.getD_eq_getElem?_getD, ha, hc, Option.getD_some]
  exact pairwise_at hx hij ha hc

theorem getD_ne {x : List α} {q : α} (hq : q ∉ x) : ∀ i < x.length, q ≠ x.getD i 0 := by
  intro i hi
  obtain ⟨a, ha⟩ := exists_at hi
  simp only [List.getD_eq_getElem?_getD, ha, Option.getD_some]
  rintro rfl
  exact hq (List.mem_of_getElem? ha)

theorem nodup_of_increasing {x : List α} (hx : x.Pairwise (· < ·)) : x.Nodup := hx.imp fun h => h.ne

/-- four or more increasing nodes are accepted -/
theorem BaryI.ctor_increasing {x y : List α} (hx : x.Pairwise (· < ·)) (h4 : 4 ≤ x.length) (hl : x.length = y.length) : ∃ b, BaryI.ctor x y = .ok b := by
  unfold BaryI.ctor
  rw [if_neg (by omega), (copyValues_spec x y).1 (by omega)]
  simp only []
  have hs : BaryI.spaced (fun i => x.getD i 0) x.length = true := by
    simp only [BaryI.spaced, List.all_eq_true, List.mem_range, decide_eq_true_eq]
    intro k hk j hj
    by_cases hkj : j = k
    · exact Or.inl hkj
    · right; right; right
      intro he
      exact hkj (injective_of_increasing (getD_increasing hx) k j hk hj he).symm
  rw [if_neg (by simp only [hs]; simp), if_neg (by omega)]
  exact ⟨_, rfl⟩

end

end Verif
