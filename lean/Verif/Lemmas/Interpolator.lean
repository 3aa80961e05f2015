import Verif.Model.Interpolator
import Mathlib.Tactic.Linarith
import Mathlib.Tactic.FieldSimp
import Mathlib.Tactic.Ring

/-! # Lemmas on the searches and the interpolators -/

namespace Verif

theorem boundLoop_spec {α : Type} (before : α → Bool) (v : List α) (n : ℕ) : ∀ first len : ℕ, len ≤ n → first + len ≤ v.length →
    (∀ a, 0 < first → v[first - 1]? = some a → before a = true) →
    (∀ a, v[first + len]? = some a → before a = false) →
    boundLoop before v first len ≤ v.length ∧
    (∀ a, 0 < boundLoop before v first len → v[boundLoop before v first len - 1]? = some a → before a = true) ∧
    (∀ a, v[boundLoop before v first len]? = some a → before a = false) := by
  induction n with
  | zero =>
    intro first len hl hb h1 h2
    have : len = 0 := by omega
    subst this
    unfold boundLoop
    simp only [dif_pos]
    exact ⟨by omega, h1, h2⟩
  | succ n ih =>
    intro first len hl hb h1 h2
    by_cases h0 : len = 0
    · subst h0
      unfold boundLoop
      simp only [dif_pos]
      exact ⟨by omega, h1, h2⟩
    · have hlt : first + len / 2 < v.length := by omega
      have he : v[first + len / 2]? = some v[first + len / 2] := List.getElem?_eq_getElem hlt
      unfold boundLoop
      simp only [h0, dite_false, he]
      by_cases hb' : before v[first + len / 2] = true
      · simp only [hb', if_true]
        refine ih _ _ (by omega) (by omega) ?_ ?_
        · intro a _ ha
          have : first + len / 2 + 1 - 1 = first + len / 2 := by omega
          rw [this, he] at ha
          cases ha
          exact hb'
        · intro a ha
          have : first + len / 2 + 1 + (len - len / 2 - 1) = first + len := by omega
          rw [this] at ha
          exact h2 a ha
      · simp only [hb', if_false, Bool.false_eq_true]
        refine ih _ _ (by omega) (by omega) h1 ?_
        intro a ha
        rw [he] at ha
        cases ha
        simpa using hb'

/-- on any list, sorted or not, `lower_bound` stops between an element below the value and an element not below it -/
theorem lowerBound_spec {α : Type} [LinearOrder α] (v : List α) (q : α) :
    lowerBound v q ≤ v.length ∧ (∀ a, 0 < lowerBound v q → v[lowerBound v q - 1]? = some a → a < q) ∧
      (∀ a, v[lowerBound v q]? = some a → q ≤ a) := by
  have h := boundLoop_spec (fun a => decide (a < q)) v v.length 0 v.length le_rfl (by omega) (by intro a h; omega)
    (by intro a ha; simp at ha)
  refine ⟨h.1, fun a h0 ha => by simpa using h.2.1 a h0 ha, fun a ha => by simpa using h.2.2 a ha⟩

theorem upperBound_spec {α : Type} [LinearOrder α] (v : List α) (q : α) :
    upperBound v q ≤ v.length ∧ (∀ a, 0 < upperBound v q → v[upperBound v q - 1]? = some a → a ≤ q) ∧
      (∀ a, v[upperBound v q]? = some a → q < a) := by
  have h := boundLoop_spec (fun a => !decide (q < a)) v v.length 0 v.length le_rfl (by omega) (by intro a h; omega)
    (by intro a ha; simp at ha)
  refine ⟨h.1, fun a h0 ha => by simpa using h.2.1 a h0 ha, fun a ha => by simpa using h.2.2 a ha⟩

theorem exists_at {α : Type} {v : List α} {i : ℕ} (h : i < v.length) : ∃ a, v[i]? = some a :=
  ⟨v[i], List.getElem?_eq_getElem h⟩

/-- increasing lists, by places -/
theorem pairwise_at {α : Type} {r : α → α → Prop} {v : List α} (hv : v.Pairwise r) {i j : ℕ} {a b : α} (hij : i < j)
    (ha : v[i]? = some a) (hb : v[j]? = some b) : r a b := by
  rw [List.getElem?_eq_some_iff] at ha hb
  obtain ⟨hi, rfl⟩ := ha
  obtain ⟨hj, rfl⟩ := hb
  exact List.pairwise_iff_getElem.mp hv i j hi hj hij

/-- on a sorted list `lower_bound` is the place of the first element not below the value -/
theorem lowerBound_eq {α : Type} [LinearOrder α] {v : List α} (hv : v.Pairwise (· ≤ ·)) {q : α} {k : ℕ} (hk : k ≤ v.length)
    (h1 : ∀ a, 0 < k → v[k - 1]? = some a → a < q) (h2 : ∀ a, v[k]? = some a → q ≤ a) : lowerBound v q = k := by
  obtain ⟨h0, h3, h4⟩ := lowerBound_spec v q
  rcases lt_trichotomy (lowerBound v q) k with hlt | heq | hgt
  · exfalso
    obtain ⟨be1, e1⟩ := exists_at (v := v) (i := lowerBound v q) (by omega)
    obtain ⟨be2, e2⟩ := exists_at (v := v) (i := k - 1) (by omega)
    have a1 := h4 _ e1
    have a2 := h1 _ (by omega) e2
    by_cases hk' : lowerBound v q = k - 1
    · rw [hk', e2] at e1
      cases e1
      exact absurd a1 (not_le.mpr a2)
    · exact absurd (pairwise_at hv (by omega) e1 e2) (not_le.mpr (lt_of_lt_of_le a2 a1))
  · exact heq
  · exfalso
    obtain ⟨be1, e1⟩ := exists_at (v := v) (i := lowerBound v q - 1) (by omega)
    obtain ⟨be2, e2⟩ := exists_at (v := v) (i := k) (by omega)
    have a1 := h3 _ (by omega) e1
    have a2 := h2 _ e2
    by_cases hk' : k = lowerBound v q - 1
    · rw [← hk', e2] at e1
      cases e1
      exact absurd a2 (not_le.mpr a1)
    · exact absurd (pairwise_at hv (by omega) e2 e1) (not_le.mpr (lt_of_lt_of_le a1 a2))

theorem upperBound_eq {α : Type} [LinearOrder α] {v : List α} (hv : v.Pairwise (· ≤ ·)) {q : α} {k : ℕ} (hk : k ≤ v.length)
    (h1 : ∀ a, 0 < k → v[k - 1]? = some a → a ≤ q) (h2 : ∀ a, v[k]? = some a → q < a) : upperBound v q = k := by
  obtain ⟨h0, h3, h4⟩ := upperBound_spec v q
  rcases lt_trichotomy (upperBound v q) k with hlt | heq | hgt
  · exfalso
    obtain ⟨be1, e1⟩ := exists_at (v := v) (i := upperBound v q) (by omega)
    obtain ⟨be2, e2⟩ := exists_at (v := v) (i := k - 1) (by omega)
    have a1 := h4 _ e1
    have a2 := h1 _ (by omega) e2
    by_cases hk' : upperBound v q = k - 1
    · rw [hk', e2] at e1
      cases e1
      exact absurd a1 (not_lt.mpr a2)
    · exact absurd (pairwise_at hv (by omega) e1 e2) (not_le.mpr (lt_of_le_of_lt a2 a1))
  · exact heq
  · exfalso
    obtain ⟨be1, e1⟩ := exists_at (v := v) (i := upperBound v q - 1) (by omega)
    obtain ⟨be2, e2⟩ := exists_at (v := v) (i := k) (by omega)
    have a1 := h3 _ (by omega) e1
    have a2 := h2 _ e2
    by_cases hk' : k = upperBound v q - 1
    · rw [← hk', e2] at e1
      cases e1
      exact absurd a2 (not_lt.mpr a1)
    · exact absurd (pairwise_at hv (by omega) e2 e1) (not_le.mpr (lt_of_le_of_lt a1 a2))

theorem vecAt_some {α : Type} {v : List α} {i : ℕ} {a : α} (h : v[i]? = some a) : vecAt v i = .ok a := by
  simp [vecAt, h]

theorem at_lt {α : Type} {v : List α} {i : ℕ} {a : α} (h : v[i]? = some a) : i < v.length := by
  rw [List.getElem?_eq_some_iff] at h
  exact h.1

/-- a loop of calls answers place by place -/
theorem vecMap_ok {α : Type} {f : α → Res α} {g : α → α} (h : ∀ q, f q = .ok (g q)) (qs : List α) : vecMap f qs = .ok (qs.map g) := by
  induction qs with
  | nil => rfl
  | cons q qs ih => simp [vecMap, h, ih]

section
variable {α : Type} [Field α] [LinearOrder α]

theorem LinearI.ctor_ok {x y : List α} {l : LinearI α} (h : LinearI.ctor x y = .ok l) : l = ⟨x, y⟩ ∧ 2 ≤ y.length ∧ x.length = y.length := by
  unfold LinearI.ctor at h
  split at h
  · cases h
  · split at h
    · cases h
    · cases h
      exact ⟨rfl, by omega, by omega⟩

theorem ZeroOrderI.ctor_ok {x y : List α} {z : ZeroOrderI α} (h : ZeroOrderI.ctor x y = .ok z) :
    z = ⟨x, y⟩ ∧ 1 ≤ y.length ∧ x.length = y.length := by
  unfold ZeroOrderI.ctor at h
  split at h
  · cases h
  · split at h
    · cases h
    · cases h
      exact ⟨rfl, by omega, by omega⟩

theorem diffs_at (x : List α) (i : ℕ) {a b : α} (ha : x[i]? = some a) (hb : x[i + 1]? = some b) : (SplineI.diffs x)[i]? = some (b - a) := by
  induction x generalizing i with
  | nil => simp at ha
  | cons c l ih =>
    cases l with
    | nil => simp at hb
    | cons d l =>
      cases i with
      | zero => simp at ha hb; simp [SplineI.diffs, ha, hb]
      | succ i =>
        simp only [List.getElem?_cons_succ] at ha hb
        simp only [SplineI.diffs, List.getElem?_cons_succ]
        exact ih i ha hb

theorem copyValues_spec (x y : List α) :
    (x.length ≤ y.length → BaryI.copyValues x y = .ok (y.take x.length)) ∧ (y.length < x.length → BaryI.copyValues x y = .error .ub) := by
  induction x generalizing y with
  | nil => simp [BaryI.copyValues]
  | cons a x ih =>
    cases y with
    | nil => simp [BaryI.copyValues]
    | cons b y =>
      obtain ⟨h1, h2⟩ := ih y
      constructor
      · intro h
        simp only [List.length_cons, Nat.add_le_add_iff_right] at h
        simp [BaryI.copyValues, h1 h]
      · intro h
        simp only [List.length_cons, Nat.add_lt_add_iff_right] at h
        simp [BaryI.copyValues, h2 h]

end

end Verif
