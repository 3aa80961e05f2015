import Mathlib.Tactic.NormNum
import Mathlib.Tactic.Linarith
import Mathlib.Data.Rat.Defs
import Mathlib.Algebra.Order.Ring.Rat
import Mathlib.Algebra.Order.Field.Basic
import Verif.Lemmas.IntervalAnd
import Verif.Lemmas.InsertionSorter

/-!
# Properties of `Interval<T>` (C01 - C13)

`Spec.pts I` is the set of values of an interval, `Spec.cover l` the set of values of a list of intervals
(`Verif/Spec/Interval.lean`). `S : Sorter _` is an arbitrary implementation of `std::sort`.
-/

namespace Verif.Props

open Verif Verif.Spec Verif.Cut _root_.Verif.Interval

set_option linter.unusedSectionVars false

set_option linter.unusedSimpArgs false
set_option linter.flexible false

variable {α : Type} [LinearOrder α]

/-! ## Auxiliary: concrete intervals for the examples -/

/-- `[0, 1]` over the rationals -/
abbrev exA : Interval ℚ := ⟨.closed, some 0, some 1⟩
/-- `]1, 2]` -/
abbrev exB : Interval ℚ := ⟨.halfOpenLeft, some 1, some 2⟩
/-- `]0, 2[` -/
abbrev exC : Interval ℚ := ⟨.opened, some 0, some 2⟩

theorem exA_valid : Valid exA := ⟨0, 1, rfl, rfl, Or.inl ⟨rfl, by norm_num⟩⟩
theorem exB_valid : Valid exB := ⟨1, 2, rfl, rfl, Or.inr ⟨by decide, by decide, by norm_num⟩⟩
theorem exC_valid : Valid exC := ⟨0, 2, rfl, rfl, Or.inr ⟨by decide, by decide, by norm_num⟩⟩

/-! ## C01 -/

/-- **C01.** Bounds stay in order under the constructor followed by any sequence of setter calls. -/
theorem C01_bounds_ordered (l u : Option α) (t : IType) (I : Interval α) (h : Interval.mk' l u t = .ok I)
    (ops : List (Interval.SetOp α)) (a b : α) (ha : (I.callSetters ops).lb = some a)
    (hb : (I.callSetters ops).ub = some b) : a ≤ b := by
  have inv : ∀ (ops : List (Interval.SetOp α)) (J : Interval α), (∀ a b, J.lb = some a → J.ub = some b → a ≤ b) →
      ∀ a b, (J.callSetters ops).lb = some a → (J.callSetters ops).ub = some b → a ≤ b := by
    intro ops
    induction ops with
    | nil => intro J hJ; exact hJ
    | cons op ops ih =>
      intro J hJ
      refine ih (J.callSetter op).1 ?_
      intro a b h1 h2
      obtain ⟨t', l', u'⟩ := J
      cases op with
      | type t =>
        simp only [callSetter, setType] at h1 h2
        split_ifs at h1 h2 <;> exact hJ a b h1 h2
      | lower l =>
        simp only [callSetter, setLowerBound] at h1 h2
        split_ifs at h1 h2
        · exact hJ a b h1 h2
        · cases l with
          | none => simp at h1
          | some a' =>
            cases u' with
            | none => simp at h2
            | some b' =>
              simp only at h1 h2
              split_ifs at h1 h2 with hlt
              · exact hJ a b h1 h2
              · simp only [Option.some.injEq] at h1 h2
                subst h1 h2
                exact not_lt.1 hlt
      | upper u =>
        simp only [callSetter, setUpperBound] at h1 h2
        split_ifs at h1 h2
        · exact hJ a b h1 h2
        · cases u with
          | none => simp at h2
          | some b' =>
            cases l' with
            | none => simp at h1
            | some a' =>
              simp only at h1 h2
              split_ifs at h1 h2 with hlt
              · exact hJ a b h1 h2
              · simp only [Option.some.injEq] at h1 h2
                subst h1 h2
                exact not_lt.1 hlt
  refine inv ops I ?_ a b ha hb
  intro a b h1 h2
  cases l with
  | none => simp only [mk', Except.ok.injEq] at h; subst h; simp at h1
  | some a' =>
    cases u with
    | none => simp only [mk', Except.ok.injEq] at h; subst h; simp at h2
    | some b' =>
      simp only [mk'] at h
      split_ifs at h with h3 h4
      simp only [Except.ok.injEq] at h
      subst h
      simp only [Option.some.injEq] at h1 h2
      subst h1 h2
      exact not_lt.1 h3

/-- Non-trivial case: an accepted and a rejected setter call. -/
example : ((⟨.closed, some (0 : ℚ), some 1⟩ : Interval ℚ).callSetters [.lower (some 2), .upper (some 3)]) =
    ⟨.closed, some 0, some 3⟩ := by
  simp [show ¬ ((1 : ℚ) < 0) by norm_num, show ¬ ((3 : ℚ) < 0) by norm_num, show ¬ ((2 : ℚ) < 1) by norm_num, show (1:ℚ) < 2 by norm_num, show (2:ℚ) < 3 by norm_num,
      callSetters, callSetter, setLowerBound, setUpperBound, isDefined]

/-- **C01.** A setter call that throws leaves the interval unchanged, and it throws exactly when the interval is
undefined or the new bound would be out of order. -/
theorem C01_setter_throws_iff (I : Interval α) (op : Interval.SetOp α) :
    ((I.callSetter op).2 ≠ none → (I.callSetter op).1 = I) ∧
    ((I.callSetter op).2 ≠ none ↔ I.isDefined = false ∨ ∃ a b, b < a ∧
      ((op = .lower (some a) ∧ I.ub = some b) ∨ (op = .upper (some b) ∧ I.lb = some a))) := by
  obtain ⟨t, l, u⟩ := I
  cases hd : (⟨t, l, u⟩ : Interval α).isDefined with
  | false =>
    cases op <;> simp [callSetter, setType, setLowerBound, setUpperBound, hd]
  | true =>
    obtain ⟨-, a, b, h1, h2⟩ := bounds_of_defined hd
    simp only at h1 h2
    subst h1 h2
    cases op with
    | type t => simp [callSetter, setType, hd]
    | lower l =>
      cases l with
      | none => simp [callSetter, setLowerBound, hd]
      | some c => by_cases hlt : b < c <;> simp [callSetter, setLowerBound, hd, hlt]
    | upper u =>
      cases u with
      | none => simp [callSetter, setUpperBound, hd]
      | some c => by_cases hlt : c < a <;> simp [callSetter, setUpperBound, hd, hlt]

example : ((exA).callSetter (.lower (some 2))) = (exA, some .runtimeError) := by
  simp [callSetter, setLowerBound, isDefined]

/-- **C01.** The constructor accepts exactly ordered bounds, equal only for a closed interval (when both are defined). -/
theorem C01_constructor_iff (a b : α) (t : IType) :
    (∃ I, Interval.mk' (some a) (some b) t = .ok I) ↔ a < b ∨ (a = b ∧ t = .closed) := by
  rcases lt_trichotomy a b with h | h | h
  · simp [mk', h, h.ne, not_lt.2 h.le]
  · subst h
    by_cases ht : t = .closed <;> simp [mk', ht]
  · simp [mk', h, h.ne', not_lt.2 h.le]

/-! ## C02 -/

/-- **C02, negation.** A defined interval without any value can be obtained: build `[0, 1]` and set its upper bound to
0 and its type to Open. (Disagreement between code and property.) -/
theorem C02_defined_but_empty :
    ∃ (I : Interval ℚ) (ops : List (Interval.SetOp ℚ)), Interval.mk' (some 0) (some 1) .closed = .ok I ∧
      (I.callSetters ops).isDefined = true ∧ pts (I.callSetters ops) = ∅ := by
  refine ⟨exA, [.upper (some 0), .type .opened], by simp [mk'], ?_, ?_⟩
  · simp [show ¬ ((1 : ℚ) < 0) by norm_num, show ¬ ((3 : ℚ) < 0) by norm_num, show ¬ ((2 : ℚ) < 1) by norm_num, show (1:ℚ) < 2 by norm_num, show (2:ℚ) < 3 by norm_num,
      callSetters, callSetter, setType, setUpperBound, isDefined]
  · simp [show ¬ ((1 : ℚ) < 0) by norm_num, show ¬ ((3 : ℚ) < 0) by norm_num, show ¬ ((2 : ℚ) < 1) by norm_num, show (1:ℚ) < 2 by norm_num, show (2:ℚ) < 3 by norm_num,
      callSetters, callSetter, setType, setUpperBound, isDefined, pts]

/-- **C02 (partial).** Without setters: every defined interval returned by the constructor has a value. Missing for the
full property: intervals modified by setters, for which it fails (`C02_defined_but_empty`). -/
theorem C02_constructor_nonempty_partial [DenselyOrdered α] (l u : Option α) (t : IType) (I : Interval α)
    (h : Interval.mk' l u t = .ok I) (hd : I.isDefined = true) : Valid I ∧ (pts I).Nonempty := by
  have hv : Valid I := by
    cases l with
    | none => simp only [mk', Except.ok.injEq] at h; subst h; simp [isDefined] at hd
    | some a =>
      cases u with
      | none => simp only [mk', Except.ok.injEq] at h; subst h; simp [isDefined] at hd
      | some b =>
        simp only [mk'] at h
        split_ifs at h with h1 h2
        simp only [Except.ok.injEq] at h
        subst h
        refine ⟨a, b, rfl, rfl, ?_⟩
        by_cases ht : t = .closed
        · exact Or.inl ⟨ht, not_lt.1 h1⟩
        · refine Or.inr ⟨ht, ?_, ?_⟩
          · intro h; simp only at h; subst h; simp [isDefined] at hd
          · exact lt_of_le_of_ne (not_lt.1 h1) (fun he => h2 ⟨he, ht⟩)
  refine ⟨hv, ?_⟩
  obtain ⟨p, q, hpq, rfl⟩ := (valid_iff I).1 hv
  obtain ⟨x, h1, h2⟩ := exists_before hpq
  exact ⟨x, (mem_pts' p q x).2 ⟨h1, h2⟩⟩

example : Interval.mk' (some (0 : ℚ)) (some 1) .opened = .ok ⟨.opened, some 0, some 1⟩ := by simp [mk']

/-! ## C03 -/

/-- **C03.** `contains(value)` on any defined interval decides membership in the set of values. -/
theorem C03_contains_value (I : Interval α) (h : I.isDefined = true) (x : α) :
    ∃ r, I.containsValue (some x) = .ok r ∧ (r = true ↔ x ∈ pts I) := by
  obtain ⟨t, l, u⟩ := I
  obtain ⟨ht, a, b, h1, h2⟩ := bounds_of_defined h
  simp only at h1 h2 ht
  subst h1 h2
  cases t <;> first
    | exact absurd rfl ht
    | simp [containsValue, Interval.get, checkLower, checkUpper, bind, Except.bind, pure, Except.pure, pts]

example : (exB).containsValue (some 1) = .ok false ∧ (exB).containsValue (some 2) = .ok true := by
  simp [containsValue, Interval.get, checkLower, checkUpper, bind, Except.bind, pure, Except.pure]

/-- **C03.** On undefined arguments the membership tests throw `Undefined`. -/
theorem C03_undefined_throws (I J : Interval α) (v : Option α) (h : I.isDefined = false ∨ J.isDefined = false) :
    (I.isDefined = false → I.containsValue v = .error .undefined) ∧ I.containsValue none = .error .undefined ∧
    I.containsInterval J = .error .undefined ∧ I.intersects J = .error .undefined := by
  have hget : ∀ I : Interval α, I.isDefined = false → I.get = .error .undefined := by
    rintro ⟨t, l, u⟩ hI
    cases t <;> cases l <;> cases u <;> first | rfl | simp [isDefined] at hI
  have hget' : ∀ I : Interval α, (∃ t, I.get = .ok t) ∨ I.get = .error .undefined := by
    intro I
    cases hI : I.isDefined
    · exact Or.inr (hget I hI)
    · obtain ⟨t, l, u⟩ := I
      obtain ⟨ht, a, b, h1, h2⟩ := bounds_of_defined hI
      simp only at h1 h2 ht
      subst h1 h2
      cases t <;> first | exact absurd rfl ht | exact Or.inl ⟨_, rfl⟩
  refine ⟨?_, rfl, ?_, ?_⟩
  · intro hI
    cases v with
    | none => rfl
    | some x => simp [containsValue, hget I hI, bind, Except.bind]
  · rcases h with h | h
    · simp [containsInterval, hget I h, bind, Except.bind]
    · rcases hget' I with ⟨t, ht⟩ | ht <;> simp [containsInterval, ht, hget J h, bind, Except.bind]
  · rcases h with h | h
    · simp [Interval.intersects, hget I h, bind, Except.bind]
    · rcases hget' I with ⟨t, ht⟩ | ht <;> simp [Interval.intersects, ht, hget J h, bind, Except.bind]

example : (⟨.closed, none, some 1⟩ : Interval ℚ).isDefined = false := rfl

theorem containsInterval_iv (p q r s : Cut α) :
    (iv p q).containsInterval (iv r s) = .ok (decide (p ≤ r ∧ s ≤ q)) := by
  obtain ⟨⟨a, i⟩, rfl⟩ := toLex.surjective p
  obtain ⟨⟨b, j⟩, rfl⟩ := toLex.surjective q
  obtain ⟨⟨c, k⟩, rfl⟩ := toLex.surjective r
  obtain ⟨⟨d, l⟩, rfl⟩ := toLex.surjective s
  simp only [Interval.containsInterval, get_iv, bind, Except.bind, ofLex_toLex, lowerOpen_typeOf, upperOpen_typeOf,
    cut_le]
  cases i <;> cases j <;> cases k <;> cases l <;>
    simp [typeOf, checkLower, checkUpper, pure, Except.pure, le_iff_lt_or_eq]

theorem intersects_iv {p q r s : Cut α} (h : p < q) (h' : r < s) :
    (iv p q).intersects (iv r s) = .ok (decide (max p r < min q s)) := by
  have key : (iv p q).intersects (iv r s) = .ok (decide ((p ≤ r ∨ p < s) ∧ (r < q ∨ s ≤ q))) := by
    clear h h'
    obtain ⟨⟨a, i⟩, rfl⟩ := toLex.surjective p
    obtain ⟨⟨b, j⟩, rfl⟩ := toLex.surjective q
    obtain ⟨⟨c, k⟩, rfl⟩ := toLex.surjective r
    obtain ⟨⟨d, l⟩, rfl⟩ := toLex.surjective s
    simp only [Interval.intersects, get_iv, bind, Except.bind, ofLex_toLex, lowerOpen_typeOf, upperOpen_typeOf,
      cut_le, cut_lt]
    cases i <;> cases j <;> cases k <;> cases l <;>
      simp [typeOf, checkLower, checkUpper, pure, Except.pure, le_iff_lt_or_eq]
  rw [key]
  congr 1
  rw [decide_eq_decide, max_lt_iff, lt_min_iff, lt_min_iff]
  constructor
  · rintro ⟨h1 | h1, h2 | h2⟩ <;> exact ⟨⟨h, by order⟩, by order, h'⟩
  · rintro ⟨⟨-, h1⟩, h2, -⟩
    exact ⟨Or.inr h1, Or.inl h2⟩

/-- **C03.** `contains(interval)` decides inclusion of the sets of values. -/
theorem C03_contains_interval [DenselyOrdered α] (I J : Interval α) (hI : Valid I) (hJ : Valid J) :
    ∃ r, I.containsInterval J = .ok r ∧ (r = true ↔ pts J ⊆ pts I) := by
  obtain ⟨p, q, hpq, rfl⟩ := (valid_iff I).1 hI
  obtain ⟨r, s, hrs, rfl⟩ := (valid_iff J).1 hJ
  refine ⟨_, containsInterval_iv p q r s, ?_⟩
  rw [decide_eq_true_eq]
  constructor
  · rintro ⟨h1, h2⟩ x hx
    rw [mem_pts'] at hx ⊢
    exact ⟨h1.trans hx.1, hx.2.trans_le h2⟩
  · intro h
    constructor
    · by_contra hlt
      rw [not_le] at hlt
      obtain ⟨x, h1, h2⟩ := exists_before (lt_min hlt hrs)
      rw [lt_min_iff] at h2
      have := h ((mem_pts' r s x).2 ⟨h1, h2.2⟩)
      rw [mem_pts'] at this
      order
    · by_contra hlt
      rw [not_le] at hlt
      obtain ⟨x, h1, h2⟩ := exists_before (max_lt hlt hrs)
      rw [max_le_iff] at h1
      have := h ((mem_pts' r s x).2 ⟨h1.2, h2⟩)
      rw [mem_pts'] at this
      order

example : Valid exC ∧ Valid exA ∧ (exC).containsInterval exA = .ok false := by
  refine ⟨exC_valid, exA_valid, ?_⟩
  simp [Interval.containsInterval, Interval.get, checkLower, checkUpper, bind, Except.bind, pure, Except.pure,
    IType.lowerOpen, IType.upperOpen]

/-- **C03.** `isDegenerate` decides whether the interval has exactly one value, and throws `Undefined` on an undefined
interval. -/
theorem C03_degenerate [DenselyOrdered α] (I : Interval α) :
    (Valid I → ∃ r, I.isDegenerate = .ok r ∧ (r = true ↔ ∃ x, pts I = {x})) ∧
    (I.isDefined = false → I.isDegenerate = .error .undefined) := by
  constructor
  · obtain ⟨t, l, u⟩ := I
    rintro ⟨a, b, h1, h2, h⟩
    simp only at h1 h2 h
    subst h1 h2
    have two : ∀ x, a < b → ¬ Set.Ioo a b ⊆ {x} := by
      intro x hab hs
      obtain ⟨c, h1, h2⟩ := exists_between hab
      obtain ⟨d, h3, h4⟩ := exists_between h2
      have hc := hs ⟨h1, h2⟩
      have hd := hs ⟨h1.trans h3, h4⟩
      simp only [Set.mem_singleton_iff] at hc hd
      exact absurd (hc.trans hd.symm) h3.ne
    rcases h with ⟨rfl, hab⟩ | ⟨h1, h2, hab⟩
    · refine ⟨_, rfl, ?_⟩
      rw [beq_iff_eq]
      constructor
      · rintro rfl
        exact ⟨a, Set.Icc_self a⟩
      · rintro ⟨x, hx⟩
        by_contra hne
        exact two x (lt_of_le_of_ne hab hne) (fun y hy => hx ▸ (⟨hy.1.le, hy.2.le⟩ : y ∈ Set.Icc a b))
    · have key : ∀ P : Set α, Set.Ioo a b ⊆ P → ((a == b) = true ↔ ∃ x, P = {x}) := by
        intro P hP
        rw [beq_iff_eq]
        exact ⟨fun he => absurd he hab.ne, fun ⟨x, hx⟩ => absurd (hx ▸ hP) (two x hab)⟩
      cases t
      case undefined => exact absurd rfl h2
      case closed => exact absurd rfl h1
      case opened => exact ⟨_, rfl, key _ (fun _ h => h)⟩
      case halfOpenLeft => exact ⟨_, rfl, key _ (fun _ h => ⟨h.1, h.2.le⟩)⟩
      case halfOpenRight => exact ⟨_, rfl, key _ (fun _ h => ⟨h.1.le, h.2⟩)⟩
  · obtain ⟨t, l, u⟩ := I
    intro h
    cases t <;> cases l <;> cases u <;> first | rfl | simp [isDefined] at h

example : Valid exA ∧ (exA).isDegenerate = .ok false ∧
    (⟨.closed, some 1, some 1⟩ : Interval ℚ).isDegenerate = .ok true := by
  refine ⟨exA_valid, ?_, ?_⟩ <;> simp [isDegenerate, Interval.get, bind, Except.bind, pure, Except.pure]

/-- **C03.** `intersects(interval)` decides whether the two share a value. -/
theorem C03_intersects [DenselyOrdered α] (I J : Interval α) (hI : Valid I) (hJ : Valid J) :
    ∃ r, I.intersects J = .ok r ∧ (r = true ↔ (pts I ∩ pts J).Nonempty) := by
  obtain ⟨p, q, hpq, rfl⟩ := (valid_iff I).1 hI
  obtain ⟨r, s, hrs, rfl⟩ := (valid_iff J).1 hJ
  refine ⟨_, intersects_iv hpq hrs, ?_⟩
  rw [decide_eq_true_eq]
  constructor
  · intro h
    obtain ⟨x, h1, h2⟩ := exists_before h
    rw [max_le_iff] at h1
    rw [lt_min_iff] at h2
    exact ⟨x, (mem_pts' p q x).2 ⟨h1.1, h2.1⟩, (mem_pts' r s x).2 ⟨h1.2, h2.2⟩⟩
  · rintro ⟨x, h1, h2⟩
    rw [mem_pts'] at h1 h2
    exact (max_le h1.1 h2.1).trans_lt (lt_min h1.2 h2.2)

example : (exA).intersects exB = .ok false ∧ (exA).intersects exC = .ok true := by
  simp [Interval.intersects, Interval.get, checkLower, checkUpper, bind, Except.bind, pure, Except.pure,
    IType.lowerOpen, IType.upperOpen]

/-! ## C04 -/

/-- **C04.** `getIntersectionWith` never throws on valid intervals; the result is Undefined exactly when there is no common
value, and otherwise is a valid interval. In both cases it has exactly the common values. -/
theorem C04_intersection [DenselyOrdered α] (I J : Interval α) (hI : Valid I) (hJ : Valid J) :
    ∃ K, I.getIntersectionWith J = .ok K ∧ pts K = pts I ∩ pts J ∧ (K.isDefined = true → Valid K) ∧
      (K.isDefined = false ↔ pts I ∩ pts J = ∅) := by
  obtain ⟨p, q, hpq, rfl⟩ := (valid_iff I).1 hI
  obtain ⟨r, s, hrs, rfl⟩ := (valid_iff J).1 hJ
  refine ⟨_, inter_iv p q r s, ?_⟩
  split_ifs with h
  · have hp : pts (iv (max p r) (min q s)) = pts (iv p q) ∩ pts (iv r s) := by
      ext x
      rw [Set.mem_inter_iff, mem_pts', mem_pts', mem_pts', max_le_iff, lt_min_iff]
      tauto
    refine ⟨hp, fun _ => (valid_iff _).2 ⟨_, _, h, rfl⟩, ?_⟩
    rw [isDefined_iv, ← hp]
    simp only [Bool.true_eq_false, false_iff]
    obtain ⟨x, h1, h2⟩ := exists_before h
    exact Set.Nonempty.ne_empty ⟨x, (mem_pts' _ _ x).2 ⟨h1, h2⟩⟩
  · have hp : pts (iv p q) ∩ pts (iv r s) = ∅ := by
      rw [Set.eq_empty_iff_forall_notMem]
      rintro x ⟨h1, h2⟩
      rw [mem_pts'] at h1 h2
      exact h ((max_le h1.1 h2.1).trans_lt (lt_min h1.2 h2.2))
    rw [hp]
    simp [pts, undef, isDefined]

example : Valid exA ∧ Valid exC ∧ (exA).getIntersectionWith exC = .ok ⟨.halfOpenLeft, some 0, some 1⟩ := by
  refine ⟨exA_valid, exC_valid, ?_⟩
  simp [show ¬ ((1 : ℚ) < 0) by norm_num, show ¬ ((3 : ℚ) < 0) by norm_num, show ¬ ((2 : ℚ) < 1) by norm_num, show (1:ℚ) < 2 by norm_num, show (2:ℚ) < 3 by norm_num,
      getIntersectionWith, Interval.get, bind, Except.bind, pure, Except.pure, IType.lowerOpen, IType.upperOpen,
    HalfOpenLeft, mk']

/-- **C04.** On undefined arguments it throws `Undefined`. -/
theorem C04_undefined_throws (I J : Interval α) (h : I.isDefined = false ∨ J.isDefined = false) :
    I.getIntersectionWith J = .error .undefined ∧ I.getUnionWith J = .error .undefined := by
  have h3 := (C03_undefined_throws I J none h).2.2.1
  simp only [Interval.containsInterval, bind, Except.bind] at h3
  constructor
  · simp only [getIntersectionWith, bind, Except.bind]
    rcases hI : I.get with e | ⟨t, a, b⟩
    · rw [hI] at h3; simpa using h3
    · rcases hJ : J.get with e | ⟨u, c, d⟩
      · rw [hI, hJ] at h3; simpa using h3
      · exfalso
        rcases h with h | h
        · obtain ⟨t', l, u'⟩ := I
          cases t' <;> cases l <;> cases u' <;> simp [isDefined, Interval.get] at h hI
        · obtain ⟨t', l, u'⟩ := J
          cases t' <;> cases l <;> cases u' <;> simp [isDefined, Interval.get] at h hJ
  · simp only [getUnionWith, bind, Except.bind]
    rcases hI : I.get with e | ⟨t, a, b⟩
    · rw [hI] at h3; simpa using h3
    · rcases hJ : J.get with e | ⟨u, c, d⟩
      · rw [hI, hJ] at h3; simpa using h3
      · exfalso
        rcases h with h | h
        · obtain ⟨t', l, u'⟩ := I
          cases t' <;> cases l <;> cases u' <;> simp [isDefined, Interval.get] at h hI
        · obtain ⟨t', l, u'⟩ := J
          cases t' <;> cases l <;> cases u' <;> simp [isDefined, Interval.get] at h hJ

example : (Interval.undef : Interval ℚ).isDefined = false := rfl

/-! ## C05 -/

/-- **C05.** `getUnionWith` never throws on valid intervals; the result is defined exactly when the union of the two sets
has no hole, and then it is a valid interval with exactly the values of either. -/
theorem C05_union [DenselyOrdered α] (I J : Interval α) (hI : Valid I) (hJ : Valid J) :
    ∃ K, I.getUnionWith J = .ok K ∧ (K.isDefined = true ↔ (pts I ∪ pts J).OrdConnected) ∧
      (K.isDefined = true → Valid K ∧ pts K = pts I ∪ pts J) := by
  obtain ⟨p, q, hpq, rfl⟩ := (valid_iff I).1 hI
  obtain ⟨r, s, hrs, rfl⟩ := (valid_iff J).1 hJ
  refine ⟨_, union_iv hpq hrs, ?_⟩
  split_ifs with h
  · have hp : pts (iv (min p r) (max q s)) = pts (iv p q) ∪ pts (iv r s) := by
      ext x
      rw [Set.mem_union, mem_pts', mem_pts', mem_pts', union_mem h]
    have hlt : min p r < max q s := (min_le_left _ _).trans_lt (hpq.trans_le (le_max_left _ _))
    refine ⟨?_, fun _ => ⟨(valid_iff _).2 ⟨_, _, hlt, rfl⟩, hp⟩⟩
    rw [isDefined_iv, ← hp]
    simp only [true_iff]
    refine ⟨fun x hx y hy z hz => ?_⟩
    rw [mem_pts'] at hx hy ⊢
    exact ⟨hx.1.trans (before_le_before.2 hz.1), (before_le_before.2 hz.2).trans_lt hy.2⟩
  · refine ⟨?_, fun hd => by simp [undef, isDefined] at hd⟩
    have key : ∀ p q r s : Cut α, p < q → r < s → q < r → ¬ (pts (iv p q) ∪ pts (iv r s)).OrdConnected := by
      intro p q r s hpq hrs hqr hc
      obtain ⟨x, hx1, hx2⟩ := exists_before hpq
      obtain ⟨y, hy1, hy2⟩ := exists_before hrs
      obtain ⟨z, hz1, hz2⟩ := exists_before hqr
      have hz : z ∈ pts (iv p q) ∪ pts (iv r s) :=
        hc.out (Or.inl ((mem_pts' p q x).2 ⟨hx1, hx2⟩)) (Or.inr ((mem_pts' r s y).2 ⟨hy1, hy2⟩))
          ⟨before_le_before.1 (by order), before_le_before.1 (by order)⟩
      rw [Set.mem_union, mem_pts', mem_pts'] at hz
      rcases hz with hz | hz <;> order
    simp only [undef, isDefined, bne_self_eq_false, Bool.false_and, Bool.false_eq_true, false_iff]
    rw [max_le_iff, le_min_iff, le_min_iff] at h
    by_cases h1 : p ≤ s
    · have h2 : q < r := by
        by_contra h3; exact h ⟨⟨hpq.le, h1⟩, not_lt.1 h3, hrs.le⟩
      exact key p q r s hpq hrs h2
    · rw [Set.union_comm]
      exact key r s p q hrs hpq (not_le.1 h1)

example : Valid exA ∧ Valid exB ∧ (exA).getUnionWith exB = .ok ⟨.closed, some 0, some 2⟩ := by
  refine ⟨exA_valid, exB_valid, ?_⟩
  simp [getUnionWith, Interval.get, bind, Except.bind, pure, Except.pure, IType.lowerClosed, IType.upperClosed,
    build, containsValue, checkLower, checkUpper, Closed, mk', Interval.eq, isDefined]

/-! ## C06 -/

/-- **C06.** Two valid intervals are `==` exactly when they have the same values. -/
theorem C06_eq_iff_same_values [DenselyOrdered α] (I J : Interval α) (hI : Valid I) (hJ : Valid J) :
    I.eq J = true ↔ pts I = pts J := by
  obtain ⟨p, q, hpq, rfl⟩ := (valid_iff I).1 hI
  obtain ⟨r, s, hrs, rfl⟩ := (valid_iff J).1 hJ
  rw [eq_iv, decide_eq_true_eq]
  constructor
  · rintro ⟨rfl, rfl⟩; rfl
  · intro h
    obtain ⟨r1, h1, h1'⟩ := C03_contains_interval _ _ hI hJ
    obtain ⟨r2, h2, h2'⟩ := C03_contains_interval _ _ hJ hI
    rw [containsInterval_iv] at h1 h2
    have e1 := h1'.2 h.ge
    have e2 := h2'.2 h.le
    simp only [Except.ok.injEq] at h1 h2
    rw [← h1, decide_eq_true_eq] at e1
    rw [← h2, decide_eq_true_eq] at e2
    exact ⟨le_antisymm e1.1 e2.1, le_antisymm e2.2 e1.2⟩

example : Valid exA ∧ Valid exC ∧ (exA).eq exC = false := ⟨exA_valid, exC_valid, rfl⟩

/-- **C06.** `==` is an equivalence relation on defined intervals (also on those modified by setters), and an undefined
interval is equal to nothing. -/
theorem C06_equivalence (I J K : Interval α) :
    (I.eq I = true ↔ I.isDefined = true) ∧ I.eq J = J.eq I ∧
    (I.eq J = true → J.eq K = true → I.eq K = true) ∧
    (I.isDefined = false → I.eq J = false ∧ J.eq I = false) := by
  have hiff : ∀ I J : Interval α, I.eq J = true ↔ (I.isDefined = true ∧ J.isDefined = true ∧ I = J) := by
    intro I J
    rw [Interval.eq]
    cases hI : I.isDefined <;> cases hJ : J.isDefined <;> simp [Interval.ext_iff, and_assoc]
  refine ⟨by rw [hiff]; tauto, ?_, ?_, ?_⟩
  · rw [Bool.eq_iff_iff, hiff, hiff]; constructor <;> (rintro ⟨h1, h2, h3⟩; exact ⟨h2, h1, h3.symm⟩)
  · rw [hiff, hiff, hiff]; rintro ⟨h1, h2, rfl⟩ ⟨h3, h4, rfl⟩; exact ⟨h1, h4, rfl⟩
  · intro h
    constructor
    · rw [Bool.eq_false_iff, Ne, hiff, h]; simp
    · rw [Bool.eq_false_iff, Ne, hiff, h]; simp

example : (exA).eq exA = true := by simp [Interval.eq, isDefined]

/-! ## C07 -/

/-- **C07.** On valid intervals `Merge` never throws, returns valid intervals and preserves the covered set. -/
theorem C07_merge_cover (S : Sorter (Interval α)) (l : List (Interval α)) (hl : ∀ I ∈ l, Valid I) :
    ∃ r, Merge S l = .ok r ∧ (∀ I ∈ r, Valid I) ∧ cover r = cover l := by
  obtain ⟨m, hm, rfl⟩ := valid_list.1 hl
  obtain ⟨r, h1, h2, -, h3, -⟩ := merge_ivp S m hm
  refine ⟨_, h1, valid_list.2 ⟨r, h2, rfl⟩, ?_⟩
  ext x
  rw [mem_cover, mem_cover, h3]

example : ∀ I ∈ [exB, exC, exA], Valid I := by
  simp only [List.forall_mem_cons]
  exact ⟨exB_valid, exC_valid, exA_valid, by simp⟩

/-- **C07.** If some interval is undefined, `Merge` throws `Undefined` rather than ignore it. -/
theorem C07_merge_undefined (S : Sorter (Interval α)) (l : List (Interval α)) (h : ∃ I ∈ l, I.isDefined = false) :
    Merge S l = .error .undefined := by
  obtain ⟨I, hI, hd⟩ := h
  have hne : l.isEmpty = false := by cases l <;> simp at hI ⊢
  have hany : l.any (fun I => !I.isDefined) = true := List.any_eq_true.2 ⟨I, hI, by simp [hd]⟩
  simp [Merge, hne, SortBy, hany, bind, Except.bind]

example : ∃ I ∈ [exA, Interval.undef], I.isDefined = false := ⟨Interval.undef, by simp, rfl⟩

/-! ## C08 -/

/-- **C08, negation.** With a sort that keeps the order of intervals with equal lower bounds, `Merge` of
`[0, 1[, ]1, 2], [1, 1]` returns `[0, 1[, [1, 2]`, which is not separated: the union is the single interval `[0, 2]`. -/
theorem C08_merge_not_normal :
    ∃ (S : Sorter (Interval ℚ)) (l r : List (Interval ℚ)), (∀ I ∈ l, Valid I) ∧ Merge S l = .ok r ∧ ¬ Normal r := by
  refine ⟨insertionSorter _, [⟨.halfOpenRight, some 0, some 1⟩, ⟨.halfOpenLeft, some 1, some 2⟩,
    ⟨.closed, some 1, some 1⟩], [⟨.halfOpenRight, some 0, some 1⟩, ⟨.closed, some 1, some 2⟩], ?_, ?_, ?_⟩
  · simp only [List.forall_mem_cons]
    refine ⟨⟨0, 1, rfl, rfl, Or.inr ⟨by decide, by decide, by norm_num⟩⟩,
      ⟨1, 2, rfl, rfl, Or.inr ⟨by decide, by decide, by norm_num⟩⟩, ⟨1, 1, rfl, rfl, Or.inl ⟨rfl, le_rfl⟩⟩, by simp⟩
  · simp [show ¬ ((1 : ℚ) < 0) by norm_num, show ¬ ((3 : ℚ) < 0) by norm_num, show ¬ ((2 : ℚ) < 1) by norm_num, show (1:ℚ) < 2 by norm_num, show (2:ℚ) < 3 by norm_num,
      Merge, SortBy, insertionSorter, insSort, ins, comparator, boundLt, isDefined, mergeLoop, getUnionWith,
      Interval.get, bind, Except.bind, pure, Except.pure, IType.lowerClosed, IType.upperClosed,
      build, containsValue, checkLower, checkUpper, Closed, mk', Interval.eq, undef]
  · rintro ⟨-, h⟩
    rw [List.pairwise_cons] at h
    obtain ⟨z, h1, h2⟩ := h.1 ⟨.closed, some 1, some 2⟩ (by simp)
    have h3 : z < 1 := h2 1 (by simp [pts])
    have h4 : (0 : ℚ) < z := h1 0 (by simp [pts])
    have h5 : z < z := h1 z (by simp only [pts, Set.mem_Ico]; exact ⟨h4.le, h3⟩)
    exact lt_irrefl _ h5

theorem separated_iff [DenselyOrdered α] {p q r s : Cut α} (hpq : p < q) (hrs : r < s) :
    SeparatedBelow (iv p q) (iv r s) ↔ q < r := by
  constructor
  · rintro ⟨z, h1, h2⟩
    have hq : q ≤ before z := by
      by_contra h
      rw [not_le] at h
      obtain ⟨x, h3, h4⟩ := exists_before (max_lt hpq h)
      rw [max_le_iff] at h3
      have := h1 x ((mem_pts' _ _ _).2 ⟨h3.1, h4⟩)
      exact absurd (before_le_before.1 h3.2) (not_le.2 this)
    have hr : after z ≤ r := by
      by_contra h
      rw [not_le] at h
      obtain ⟨x, h3, h4⟩ := exists_before (lt_min hrs h)
      rw [lt_min_iff] at h4
      have := h2 x ((mem_pts' _ _ _).2 ⟨h3, h4.1⟩)
      have h5 := after_le_iff.2 h4.2
      exact absurd (val_le_val h5) (not_le.2 this)
    exact lt_of_le_of_lt hq (after_le_iff.1 hr)
  · intro h
    obtain ⟨z, h1, h2⟩ := exists_before h
    refine ⟨z, ?_, ?_⟩
    · intro x hx
      rw [mem_pts'] at hx
      exact before_lt_before.1 (by order)
    · intro y hy
      rw [mem_pts'] at hy
      exact before_lt_before.1 (by order)

theorem normal_iff [DenselyOrdered α] (l : List (CP α)) (hl : Ok l) : Normal (l.map ivp) ↔ Sep l := by
  rw [Normal, List.pairwise_map]
  constructor
  · rintro ⟨-, h⟩
    refine h.imp_of_mem ?_
    intro a b ha hb hab
    exact (separated_iff (hl a ha) (hl b hb)).1 hab
  · intro h
    refine ⟨valid_list.2 ⟨l, hl, rfl⟩, List.Pairwise.imp_of_mem ?_ h⟩
    intro a b ha hb hab
    exact (separated_iff (hl a ha) (hl b hb)).2 hab

/-- **C08 (partial).** Whatever the sort does with ties, `Merge` returns intervals in increasing order and pairwise
disjoint (every value of an earlier one is below every value of a later one). Missing for the full property:
separation, which fails on ties (`C08_merge_not_normal`). -/
theorem C08_merge_disjoint_partial (S : Sorter (Interval α)) (l : List (Interval α)) (hl : ∀ I ∈ l, Valid I) :
    ∃ r, Merge S l = .ok r ∧ r.Pairwise (fun I J => ∀ x ∈ pts I, ∀ y ∈ pts J, x < y) := by
  obtain ⟨m, hm, rfl⟩ := valid_list.1 hl
  obtain ⟨r, h1, h2, h3, -⟩ := merge_ivp S m hm
  refine ⟨_, h1, ?_⟩
  rw [List.pairwise_map]
  refine h3.wsep.imp ?_
  intro a b hab x hx y hy
  rw [ivp, mem_pts'] at hx hy
  exact before_lt_before.1 (by order)

/-- **C08 (partial).** If intervals with the same lower bound are all closed or all open at that bound, `Merge` returns a
normal form. -/
theorem C08_merge_normal_partial [DenselyOrdered α] (S : Sorter (Interval α)) (l : List (Interval α))
    (hl : ∀ I ∈ l, Valid I)
    (htie : ∀ I ∈ l, ∀ J ∈ l, I.lb = J.lb → ∀ a, I.lb = some a → (a ∈ pts I ↔ a ∈ pts J)) :
    ∃ r, Merge S l = .ok r ∧ Normal r := by
  obtain ⟨m, hm, rfl⟩ := valid_list.1 hl
  obtain ⟨r, h1, h2, h3, -, h4, -⟩ := merge_ivp S m hm
  refine ⟨_, h1, (normal_iff r h2).2 (h4 ?_)⟩
  intro c hc d hd hv
  have ht := htie (ivp c) (List.mem_map_of_mem hc) (ivp d) (List.mem_map_of_mem hd)
    (by simp only [ivp, iv]; rw [show (ofLex c.1).1 = (ofLex d.1).1 from hv]) (val c.1) rfl
  rw [ivp, ivp, mem_pts', mem_pts'] at ht
  have hc' := hm c hc
  have hd' := hm d hd
  have bc := before_le c.1
  have bd := before_le d.1
  rcases eq_before_or_after c.1 with h | h
  · have h5 := ht.1 ⟨h.le, h ▸ hc'⟩
    change c.1 = before (val c.1) at h
    have h6 : d.1 = before (val c.1) := le_antisymm h5.1 (by rw [hv]; exact bd)
    rw [h6]; exact h
  · rcases eq_before_or_after d.1 with h' | h'
    · have h5 := ht.2 ⟨by rw [hv]; exact h'.le, by rw [hv]; exact h' ▸ hd'⟩
      have h6 : c.1 = before (val c.1) := le_antisymm h5.1 bc
      change d.1 = before (val d.1) at h'
      rw [h', h6, hv]
    · rw [h, h']; exact congrArg after hv

example : ∀ I ∈ [exA, exB], ∀ J ∈ [exA, exB], I.lb = J.lb → ∀ a, I.lb = some a → (a ∈ pts I ↔ a ∈ pts J) := by
  simp only [List.forall_mem_cons]
  norm_num

/-- **C08 (partial).** Merging twice always gives a normal form, which depends only on the set covered: not on the list, its
order, nor the sort used. -/
theorem C08_merge_twice_canonical_partial [DenselyOrdered α] (S S' T T' : Sorter (Interval α))
    (l l' : List (Interval α)) (hl : ∀ I ∈ l, Valid I) (hl' : ∀ I ∈ l', Valid I) (h : cover l = cover l') :
    ∃ r, (Merge S l >>= Merge T) = .ok r ∧ (Merge S' l' >>= Merge T') = .ok r ∧ Normal r ∧ cover r = cover l := by
  obtain ⟨m, hm, rfl⟩ := valid_list.1 hl
  obtain ⟨m', hm', rfl⟩ := valid_list.1 hl'
  obtain ⟨r, h1, h2, h3, h4, -⟩ := merge_ivp S m hm
  obtain ⟨r', h1', h2', h3', h4', -⟩ := merge_ivp S' m' hm'
  obtain ⟨t, g1, g2, g3, g4, -⟩ := merge_ivp_disj T r h2 h3
  obtain ⟨t', g1', g2', g3', g4', -⟩ := merge_ivp_disj T' r' h2' h3'
  have : t = t' := by
    refine sep_unique g2 g2' g3 g3' ?_
    intro x
    rw [g4, h4, g4', h4', ← mem_cover, ← mem_cover, h]
  subst this
  refine ⟨t.map ivp, by rw [h1]; exact g1, by rw [h1']; exact g1', (normal_iff t g2).2 g3, ?_⟩
  ext x
  rw [mem_cover, mem_cover, g4, h4]

/-- **C08.** A list in normal form is unchanged by `Merge`. -/
theorem C08_merge_normal_fixed [DenselyOrdered α] (S : Sorter (Interval α)) (l : List (Interval α)) (hl : Normal l) :
    Merge S l = .ok l := by
  obtain ⟨m, hm, rfl⟩ := valid_list.1 hl.1
  have hs := (normal_iff m hm).1 hl
  obtain ⟨t, g1, g2, g3, g4, -⟩ := merge_ivp_disj S m hm (hs.disj hm)
  rw [g1, sep_unique g2 hm g3 hs g4]

example : Normal [exA, (⟨.halfOpenLeft, some 3, some 4⟩ : Interval ℚ)] := by
  refine ⟨?_, ?_⟩
  · simp only [List.forall_mem_cons]
    exact ⟨exA_valid, ⟨3, 4, rfl, rfl, Or.inr ⟨by decide, by decide, by norm_num⟩⟩, by simp⟩
  · rw [List.pairwise_cons]
    refine ⟨?_, List.pairwise_singleton _ _⟩
    intro J hJ
    rw [List.mem_singleton] at hJ
    subst hJ
    refine ⟨2, ?_, ?_⟩
    · intro x hx; simp only [pts, Set.mem_Icc] at hx; linarith
    · intro x hx; simp only [pts, Set.mem_Ioc] at hx; linarith

/-! ## C09 -/

/-- The lower end of `K` is uncovered while everything just above it is covered: the gap there is the single end point. -/
def LowerEndGap (A : Set α) (K : Interval α) (x : α) : Prop := K.lb = some x ∧ RightOf (A ∩ pts K) x
/-- The same at the upper end. -/
def UpperEndGap (A : Set α) (K : Interval α) (x : α) : Prop := K.ub = some x ∧ LeftOf (A ∩ pts K) x

theorem lostLow_iff_end (m : List (CP α)) (k : CP α) (x : α) :
    LostLow k (Cov m) x ↔ LowerEndGap (cover (m.map ivp)) (ivp k) x := by
  simp only [LostLow, LowerEndGap, RightOf, ivp, iv, Option.some.injEq]
  refine and_congr_right fun _ => exists_congr fun y => and_congr_right fun _ => ?_
  constructor
  · rintro h w ⟨h1, h2⟩
    obtain ⟨h3, h4⟩ := h w h1 h2
    exact ⟨mem_cover.2 h3, (mem_pts' k.1 k.2 w).2 h4⟩
  · intro h w h1 h2
    obtain ⟨h3, h4⟩ := h ⟨h1, h2⟩
    exact ⟨mem_cover.1 h3, (mem_pts' k.1 k.2 w).1 h4⟩

theorem lostHigh_iff_end (m : List (CP α)) (k : CP α) (x : α) :
    LostHigh k (Cov m) x ↔ UpperEndGap (cover (m.map ivp)) (ivp k) x := by
  simp only [LostHigh, UpperEndGap, LeftOf, ivp, iv, Option.some.injEq]
  refine and_congr_right fun _ => exists_congr fun y => and_congr_right fun _ => ?_
  constructor
  · rintro h w ⟨h1, h2⟩
    obtain ⟨h3, h4⟩ := h w h1 h2
    exact ⟨mem_cover.2 h3, (mem_pts' k.1 k.2 w).2 h4⟩
  · intro h w h1 h2
    obtain ⟨h3, h4⟩ := h ⟨h1, h2⟩
    exact ⟨mem_cover.1 h3, (mem_pts' k.1 k.2 w).1 h4⟩

/-- **C09 (partial).** For every valid list and reference interval, `GetGaps` either throws `RuntimeError`, or returns a normal form covering
exactly the uncovered values of the reference interval except an end point of it that is a one-point gap. It does not throw
when no two intervals of the list share a lower bound at which one is open and the other closed.
Missing for the full property: the end points (`C09_gap_missed`) and the throwing case (`C09_gaps_throws`). -/
theorem C09_gaps_partial [DenselyOrdered α] (S : Sorter (Interval α)) (l : List (Interval α)) (K : Interval α)
    (hl : ∀ I ∈ l, Valid I) (hK : Valid K) :
    (GetGaps S l K = .error .runtimeError ∧
      ¬ (∀ I ∈ l, ∀ J ∈ l, I.lb = J.lb → ∀ a, I.lb = some a → (a ∈ pts I ↔ a ∈ pts J))) ∨
    ∃ r, GetGaps S l K = .ok r ∧ Normal r ∧
      cover r = {x | x ∈ pts K ∧ x ∉ cover l ∧ ¬ LowerEndGap (cover l) K x ∧ ¬ UpperEndGap (cover l) K x} := by
  obtain ⟨m, hm, rfl⟩ := valid_list.1 hl
  obtain ⟨p, q, hpq, rfl⟩ := (valid_iff K).1 hK
  obtain ⟨r, h1, h2, h3, h4, -⟩ := merge_ivp S m hm
  have hcov : cover (r.map ivp) = cover (m.map ivp) := by
    ext x; rw [mem_cover, mem_cover, h4]
  have hg := getGaps_ivp S (m.map ivp) r (p, q) h1
  by_cases hch : (clipC (p, q) r).IsChain (fun c d => c.2 < d.1)
  · right
    rw [if_pos hch] at hg
    have hsep := sep_of_chain (clipC_ok (p, q) r) hch
    refine ⟨_, hg, (normal_iff _ (gapsC_ok _ _ hpq hsep)).2 (gapsC_sep _ _ (clipC_ok _ _) hsep), ?_⟩
    -- replace `r` by its clip, which is separated and clips to itself
    have hidem : clipC (p, q) (clipC (p, q) r) = clipC (p, q) r := by
      have : ∀ l : List (CP α), (∀ c ∈ l, c.1 < c.2 ∧ p ≤ c.1 ∧ c.2 ≤ q) → clipC (p, q) l = l := by
        intro l hl
        induction l with
        | nil => rfl
        | cons c l ih =>
          obtain ⟨h5, h6, h7⟩ := hl c (by simp)
          rw [clipC, ih (fun d hd => hl d (by simp [hd]))]
          simp only [max_eq_left h6, min_eq_left h7, h5, if_true]
      exact this _ (fun c hc => ⟨clipC_ok _ _ c hc, clipC_bound hc⟩)
    ext x
    rw [mem_cover, ← hidem, gaps_clip_cov (p, q) (clipC (p, q) r) hsep, lostLow_iff_end, lostHigh_iff_end]
    have hc2 : cover ((clipC (p, q) r).map ivp) = cover (m.map ivp) ∩ pts (iv p q) := by
      ext x
      rw [mem_cover, clipC_cov, Set.mem_inter_iff, ← hcov, mem_cover, mem_pts']
    simp only [LowerEndGap, UpperEndGap, hc2, ivp, Set.inter_assoc, Set.inter_self, Set.mem_ofPred_eq, mem_pts']
    have : Cov (clipC (p, q) r) x ↔ x ∈ cover (m.map ivp) ∩ pts (iv p q) := by rw [← hc2, mem_cover]
    rw [this, Set.mem_inter_iff, mem_pts']
    tauto
  · left
    rw [if_neg hch] at hg
    refine ⟨hg, ?_⟩
    intro htie
    obtain ⟨r', h5, h6⟩ := C08_merge_normal_partial S (m.map ivp) hl htie
    rw [h1] at h5
    simp only [Except.ok.injEq] at h5
    rw [← h5, normal_iff r h2] at h6
    exact hch (clipC_sep (p, q) h6).chain

example : (∀ I ∈ [exB], Valid I) ∧ Valid exC := ⟨by simpa using exB_valid, exC_valid⟩

/-- **C09, negation.** `GetGaps({ ]0, 1] }, [0, 1])` does not report the uncovered value 0. -/
theorem C09_gap_missed :
    ∃ (l : List (Interval ℚ)) (K : Interval ℚ) (x : ℚ), (∀ I ∈ l, Valid I) ∧ Valid K ∧ x ∈ pts K ∧ x ∉ cover l ∧
      ∀ S r, GetGaps S l K = .ok r → x ∉ cover r := by
  have hv : ∀ I ∈ [(⟨.halfOpenLeft, some 0, some 1⟩ : Interval ℚ)], Valid I := by
    simp only [List.forall_mem_singleton]
    exact ⟨0, 1, rfl, rfl, Or.inr ⟨by decide, by decide, by norm_num⟩⟩
  refine ⟨[⟨.halfOpenLeft, some 0, some 1⟩], exA, 0, hv, exA_valid, by simp [pts], by simp [cover, pts], ?_⟩
  intro S r hr
  rcases C09_gaps_partial S _ exA hv exA_valid with ⟨h, -⟩ | ⟨r', h, -, hc⟩
  · rw [h] at hr; cases hr
  · rw [h] at hr
    simp only [Except.ok.injEq] at hr
    subst hr
    rw [hc]
    rintro ⟨-, -, h3, -⟩
    apply h3
    refine ⟨rfl, 1, by norm_num, ?_⟩
    rintro x ⟨h1, h2⟩
    exact ⟨⟨_, List.mem_singleton.2 rfl, ⟨h1, h2.le⟩⟩, ⟨h1.le, h2.le⟩⟩

/-- **C09, negation.** `GetGaps` can throw on valid input: `[0, 1[, ]1, 2], [1, 1]` in `[0, 3]`, with a sort that keeps the
order of ties. -/
theorem C09_gaps_throws :
    ∃ (S : Sorter (Interval ℚ)) (l : List (Interval ℚ)) (K : Interval ℚ), (∀ I ∈ l, Valid I) ∧ Valid K ∧
      GetGaps S l K = .error .runtimeError := by
  refine ⟨insertionSorter _, [⟨.halfOpenRight, some 0, some 1⟩, ⟨.halfOpenLeft, some 1, some 2⟩,
    ⟨.closed, some 1, some 1⟩], ⟨.closed, some 0, some 3⟩, ?_, ⟨0, 3, rfl, rfl, Or.inl ⟨rfl, by norm_num⟩⟩, ?_⟩
  · simp only [List.forall_mem_cons]
    refine ⟨⟨0, 1, rfl, rfl, Or.inr ⟨by decide, by decide, by norm_num⟩⟩,
      ⟨1, 2, rfl, rfl, Or.inr ⟨by decide, by decide, by norm_num⟩⟩, ⟨1, 1, rfl, rfl, Or.inl ⟨rfl, le_rfl⟩⟩, by simp⟩
  · simp [show ¬ ((1 : ℚ) < 0) by norm_num, show ¬ ((3 : ℚ) < 0) by norm_num, show ¬ ((2 : ℚ) < 1) by norm_num, show (1:ℚ) < 2 by norm_num, show (2:ℚ) < 3 by norm_num,
      GetGaps, Clip, clipLoop, getIntersectionWith, HalfOpenRight, leadingGap, innerGaps, innerGap,
      IType.lowerOpen, IType.upperOpen, Merge, SortBy, insertionSorter, insSort, ins, comparator, boundLt, isDefined, mergeLoop, getUnionWith,
      Interval.get, bind, Except.bind, pure, Except.pure, IType.lowerClosed, IType.upperClosed,
      build, containsValue, checkLower, checkUpper, Closed, mk', Interval.eq, undef]

/-- **C09 (partial).** Without reference interval the gaps are the uncovered values strictly between covered ones, exactly
(when it does not throw). -/
theorem C09_gaps_no_reference_partial [DenselyOrdered α] (S : Sorter (Interval α)) (l : List (Interval α))
    (K : Interval α) (hl : ∀ I ∈ l, Valid I) (hK : K.isDefined = false) :
    (GetGaps S l K = .error .runtimeError ∧
      ¬ (∀ I ∈ l, ∀ J ∈ l, I.lb = J.lb → ∀ a, I.lb = some a → (a ∈ pts I ↔ a ∈ pts J))) ∨
    ∃ r, GetGaps S l K = .ok r ∧ Normal r ∧ cover r = hull (cover l) \ cover l := by
  obtain ⟨m, hm, rfl⟩ := valid_list.1 hl
  obtain ⟨r, h1, h2, h3, h4, -⟩ := merge_ivp S m hm
  have hcov : cover (r.map ivp) = cover (m.map ivp) := by
    ext x; rw [mem_cover, mem_cover, h4]
  have hg := getGaps_undef S (m.map ivp) r K hK h1
  by_cases hch : r.IsChain (fun c d => c.2 < d.1)
  · right
    rw [if_pos hch] at hg
    have hsep := sep_of_chain h2 hch
    refine ⟨_, hg, (normal_iff _ (innerC_ok hsep)).2 (innerC_sep h2 hsep), ?_⟩
    rw [← hcov]
    ext x
    rw [mem_cover, Set.mem_sdiff, mem_cover]
    cases r with
    | nil => simp [innerC, hull, cover, Cov]
    | cons c r =>
      rw [innerC_cov h2 hsep]
      constructor
      · rintro ⟨h5, h6, h7⟩
        refine ⟨?_, h7⟩
        obtain ⟨a, ha1, ha2⟩ := exists_before (h2 c (by simp))
        obtain ⟨b, hb1, hb2⟩ := exists_before (h2 _ (lastC_mem c r))
        have h8 : c.2 ≤ before x := by
          by_contra h; exact h7 ⟨c, by simp, h5, not_le.1 h⟩
        have h9 : before x < (lastC c r).1 := by
          by_contra h; exact h7 ⟨_, lastC_mem c r, not_lt.1 h, h6⟩
        exact ⟨a, mem_cover.2 ⟨c, by simp, ha1, ha2⟩, b, mem_cover.2 ⟨_, lastC_mem c r, hb1, hb2⟩,
          before_lt_before.1 (by order), before_lt_before.1 (by order)⟩
      · rintro ⟨⟨a, ha, b, hb, h5, h6⟩, h7⟩
        obtain ⟨d, hd, hd1, hd2⟩ := mem_cover.1 ha
        obtain ⟨e, he, he1, he2⟩ := mem_cover.1 hb
        have h8 := first_le h2 hsep.wsep d hd
        have h9 := le_lastC h2 hsep.wsep e he
        have h10 := before_lt_before.2 h5
        have h11 := before_lt_before.2 h6
        exact ⟨by order, by order, h7⟩
  · left
    rw [if_neg hch] at hg
    refine ⟨hg, ?_⟩
    intro htie
    obtain ⟨r', h5, h6⟩ := C08_merge_normal_partial S (m.map ivp) hl htie
    rw [h1] at h5
    simp only [Except.ok.injEq] at h5
    rw [← h5, normal_iff r h2] at h6
    exact hch h6.chain

example : ∀ I ∈ [exA, (⟨.halfOpenLeft, some 3, some 4⟩ : Interval ℚ)], Valid I := by
  simp only [List.forall_mem_cons]
  exact ⟨exA_valid, ⟨3, 4, rfl, rfl, Or.inr ⟨by decide, by decide, by norm_num⟩⟩, by simp⟩

/-! ## C10 -/

/-- **C10.** `LogicalOr` covers exactly the values covered by either list. -/
theorem C10_logicalOr (S : Sorter (Interval α)) (l m : List (Interval α)) (hl : ∀ I ∈ l, Valid I)
    (hm : ∀ I ∈ m, Valid I) : ∃ r, LogicalOr S l m = .ok r ∧ (∀ I ∈ r, Valid I) ∧ cover r = cover l ∪ cover m := by
  obtain ⟨r, h1, h2, h3⟩ := C07_merge_cover S (l ++ m) (by
    intro I hI
    rcases List.mem_append.1 hI with h | h
    exacts [hl I h, hm I h])
  refine ⟨r, h1, h2, ?_⟩
  rw [h3]
  ext x
  simp [cover, or_and_right, exists_or]

example : (∀ I ∈ [exA], Valid I) ∧ (∀ I ∈ [exB, exC], Valid I) := by
  simp only [List.forall_mem_cons]
  exact ⟨⟨exA_valid, by simp⟩, exB_valid, exC_valid, by simp⟩

/-! ## C11 -/

/-- `x` is the least of all values of `A` and `B`, not the only one, and `A` and `B` share nothing just above it. -/
def IsolatedMin (A B : Set α) (x : α) : Prop :=
  (∀ z ∈ A ∪ B, x ≤ z) ∧ (∃ z ∈ A ∪ B, x < z) ∧ RightOf (A ∩ B)ᶜ x
/-- `x` is the greatest of all values of `A` and `B`, not the only one, and `A` and `B` share nothing just below it. -/
def IsolatedMax (A B : Set α) (x : α) : Prop :=
  (∀ z ∈ A ∪ B, z ≤ x) ∧ (∃ z ∈ A ∪ B, z < x) ∧ LeftOf (A ∩ B)ᶜ x

/-- **C11 (partial).** `LogicalAnd` never throws on valid lists and returns a normal form covering exactly the common values,
except an isolated common value that is the least (or greatest) value of both lists.
Missing for the full property: those isolated extreme values, which are lost (`C11_common_value_lost`). -/
theorem C11_logicalAnd_partial [DenselyOrdered α] (S : Sorter (Interval α)) (l m : List (Interval α))
    (hl : ∀ I ∈ l, Valid I) (hm : ∀ I ∈ m, Valid I) :
    ∃ r, LogicalAnd S l m = .ok r ∧ Normal r ∧
      cover r = {x | x ∈ cover l ∩ cover m ∧ ¬ IsolatedMin (cover l) (cover m) x ∧
        ¬ IsolatedMax (cover l) (cover m) x} := by
  obtain ⟨a, ha, rfl⟩ := valid_list.1 hl
  obtain ⟨b, hb, rfl⟩ := valid_list.1 hm
  obtain ⟨r, h1, h2, h3, h4⟩ := and_ivp S a b ha hb
  refine ⟨_, h1, (normal_iff r h2).2 h3, ?_⟩
  ext x
  rw [mem_cover, h4]
  have e1 : AndLostLow (Cov a) (Cov b) x ↔ IsolatedMin (cover (a.map ivp)) (cover (b.map ivp)) x := by
    simp only [AndLostLow, IsolatedMin, RightOf, Set.mem_union, mem_cover, Set.subset_def, Set.mem_Ioo,
      Set.mem_compl_iff, Set.mem_inter_iff, and_imp]
  have e2 : AndLostHigh (Cov a) (Cov b) x ↔ IsolatedMax (cover (a.map ivp)) (cover (b.map ivp)) x := by
    simp only [AndLostHigh, IsolatedMax, LeftOf, Set.mem_union, mem_cover, Set.subset_def, Set.mem_Ioo,
      Set.mem_compl_iff, Set.mem_inter_iff, and_imp]
  rw [Set.mem_ofPred_eq, Set.mem_inter_iff, mem_cover, mem_cover, e1, e2]

example : (∀ I ∈ [exA, exB], Valid I) ∧ (∀ I ∈ [exC], Valid I) := by
  simp only [List.forall_mem_cons]
  exact ⟨⟨exA_valid, exB_valid, by simp⟩, exC_valid, by simp⟩

/-- **C11, negation.** `LogicalAnd({ [0, 0], [2, 3] }, { [0, 1] })` loses the common value 0. -/
theorem C11_common_value_lost :
    ∃ (l m : List (Interval ℚ)) (x : ℚ), (∀ I ∈ l, Valid I) ∧ (∀ I ∈ m, Valid I) ∧ x ∈ cover l ∩ cover m ∧
      ∀ S r, LogicalAnd S l m = .ok r → x ∉ cover r := by
  have hl : ∀ I ∈ [(⟨.closed, some 0, some 0⟩ : Interval ℚ), ⟨.closed, some 2, some 3⟩], Valid I := by
    simp only [List.forall_mem_cons]
    exact ⟨⟨0, 0, rfl, rfl, Or.inl ⟨rfl, le_rfl⟩⟩, ⟨2, 3, rfl, rfl, Or.inl ⟨rfl, by norm_num⟩⟩, by simp⟩
  have hm : ∀ I ∈ [exA], Valid I := by simpa using exA_valid
  refine ⟨_, _, 0, hl, hm, ⟨⟨_, List.mem_cons_self, by simp [pts]⟩, ⟨_, List.mem_cons_self, by simp [pts]⟩⟩, ?_⟩
  intro S r hr
  obtain ⟨r', h, -, hc⟩ := C11_logicalAnd_partial S _ _ hl hm
  rw [h] at hr
  simp only [Except.ok.injEq] at hr
  subst hr
  rw [hc]
  rintro ⟨-, h3, -⟩
  apply h3
  refine ⟨?_, ⟨1, Or.inr ⟨_, List.mem_cons_self, by simp [pts]⟩, by norm_num⟩, 1, by norm_num, ?_⟩
  · rintro z (⟨I, hI, hz⟩ | ⟨I, hI, hz⟩)
    · simp only [List.mem_cons, List.not_mem_nil, or_false] at hI
      rcases hI with rfl | rfl
      · simp only [pts, Set.mem_Icc] at hz; exact hz.1
      · simp only [pts, Set.mem_Icc] at hz; linarith [hz.1]
    · simp only [List.mem_cons, List.not_mem_nil, or_false] at hI
      subst hI
      simp only [pts, Set.mem_Icc] at hz; exact hz.1
  · rintro w ⟨h1, h2⟩ ⟨⟨I, hI, hw⟩, -⟩
    simp only [List.mem_cons, List.not_mem_nil, or_false] at hI
    rcases hI with rfl | rfl
    · simp only [pts, Set.mem_Icc] at hw; linarith [hw.2]
    · simp only [pts, Set.mem_Icc] at hw; linarith [hw.1]

/-! ## C12 -/

/-- **C12.** `Sort` returns a permutation ordered by the requested bound in the requested direction. -/
theorem C12_sort (S : Sorter (Interval α)) (l : List (Interval α)) (hl : ∀ I ∈ l, I.isDefined = true)
    (byLower ascending : Bool) :
    ∃ r, SortBy S l byLower ascending = .ok r ∧ r.Perm l ∧
      r.Pairwise (fun I J => ∀ a b, (if byLower then I.lb else I.ub) = some a → (if byLower then J.lb else J.ub) = some b →
        if ascending then a ≤ b else b ≤ a) := by
  have hany : l.any (fun I => !I.isDefined) = false := by
    rw [List.any_eq_false]
    intro I hI; simp [hl I hI]
  have hw := comparator_strictWeak byLower ascending l hl
  refine ⟨S.sort (comparator byLower ascending) l, by simp [SortBy, hany], S.perm _ _ hw, ?_⟩
  refine (S.sorted _ _ hw).imp ?_
  intro I J h a b ha hb
  cases byLower <;> cases ascending <;>
    simp only [comparator, if_true, if_false, Bool.false_eq_true] at h ha hb ⊢ <;>
    simpa [ha, hb, boundLt] using h

/-- **C12.** With an undefined interval it throws. -/
theorem C12_sort_undefined (S : Sorter (Interval α)) (l : List (Interval α)) (h : ∃ I ∈ l, I.isDefined = false)
    (byLower ascending : Bool) : SortBy S l byLower ascending = .error .undefined := by
  obtain ⟨I, hI, hd⟩ := h
  have hany : l.any (fun I => !I.isDefined) = true := List.any_eq_true.2 ⟨I, hI, by simp [hd]⟩
  simp [SortBy, hany]

example : (∀ I ∈ [exB, exA], I.isDefined = true) ∧
    SortBy (insertionSorter _) [exB, exA] true true = .ok [exA, exB] := by
  constructor
  · simp [isDefined]
  · simp [SortBy, insertionSorter, insSort, ins, comparator, boundLt, isDefined]

/-! ## C13 -/

/-- **C13.** `Clip` returns valid intervals covering exactly the covered values of the clipping interval; each result is the
intersection of one input interval with the clipping interval, in the order of the input, and exactly the inputs without common value
are dropped. -/
theorem C13_clip [DenselyOrdered α] (l : List (Interval α)) (J : Interval α) (hl : ∀ I ∈ l, Valid I) (hJ : Valid J) :
    ∃ r, Clip l J = .ok r ∧ (∀ I ∈ r, Valid I) ∧ cover r = cover l ∩ pts J ∧
      ∃ k : List (Interval α), k.Sublist l ∧ (∀ I ∈ l, (pts I ∩ pts J).Nonempty → I ∈ k) ∧
        List.Forall₂ (fun I K => pts K = pts I ∩ pts J) k r := by
  obtain ⟨m, hm, rfl⟩ := valid_list.1 hl
  obtain ⟨p, q, hpq, rfl⟩ := (valid_iff J).1 hJ
  refine ⟨_, clip_ivp (p, q) m, valid_list.2 ⟨_, clipC_ok _ _, rfl⟩, ?_, ?_⟩
  · ext x
    rw [mem_cover, clipC_cov, Set.mem_inter_iff, mem_cover, mem_pts']
  · clear hl
    induction m with
    | nil => exact ⟨[], List.Sublist.slnil, by simp, List.Forall₂.nil⟩
    | cons c m ih =>
      obtain ⟨k, h1, h2, h3⟩ := ih (fun d hd => hm d (by simp [hd]))
      rw [clipC]
      split_ifs with ht
      · refine ⟨ivp c :: k, h1.cons_cons _, ?_, ?_⟩
        · intro I hI hne
          rcases List.mem_cons.1 hI with rfl | hI
          · simp
          · exact List.mem_cons_of_mem _ (h2 I hI hne)
        · refine List.Forall₂.cons ?_ h3
          ext x
          simp only [ivp]
          rw [Set.mem_inter_iff, mem_pts', mem_pts', mem_pts', max_le_iff, lt_min_iff]
          tauto
      · refine ⟨k, h1.cons _, ?_, h3⟩
        intro I hI hne
        rcases List.mem_cons.1 hI with rfl | hI
        · exfalso
          obtain ⟨x, hx1, hx2⟩ := hne
          rw [ivp, mem_pts'] at hx1
          rw [mem_pts'] at hx2
          exact ht ((max_le hx1.1 hx2.1).trans_lt (lt_min hx1.2 hx2.2))
        · exact h2 I hI hne

/-- **C13.** An undefined clipping interval or an undefined list element makes `Clip` throw `Undefined`. -/
theorem C13_clip_undefined (l : List (Interval α)) (J : Interval α) (hl : ∀ I ∈ l, Valid I ∨ I.isDefined = false)
    (hJ : Valid J ∨ J.isDefined = false) (h : J.isDefined = false ∨ ∃ I ∈ l, I.isDefined = false) :
    Clip l J = .error .undefined := by
  cases hd : J.isDefined
  · simp [Clip, hd]
  · rw [hd] at hJ
    simp only [Bool.true_eq_false, or_false] at hJ
    rw [hd] at h
    simp only [Bool.true_eq_false, false_or] at h
    simp only [Clip, hd, Bool.not_true, Bool.false_eq_true, if_false]
    obtain ⟨r, s, hrs, rfl⟩ := (valid_iff J).1 hJ
    induction l with
    | nil => simp at h
    | cons I l ih =>
      rw [clipLoop]
      rcases hl I (by simp) with hI | hI
      · obtain ⟨p, q, hpq, rfl⟩ := (valid_iff I).1 hI
        obtain ⟨I', hI', hd'⟩ := h
        have hI'' : I' ∈ l := by
          rcases List.mem_cons.1 hI' with rfl | h
          · rw [isDefined_iv] at hd'; cases hd'
          · exact h
        rw [inter_iv, ih (fun I hI => hl I (by simp [hI])) ⟨I', hI'', hd'⟩]
        rfl
      · rw [(C04_undefined_throws I _ (Or.inl hI)).1]; rfl

example : Valid exA ∧ (∀ I ∈ [exC, Interval.undef], Valid I ∨ I.isDefined = false) ∧
    Clip [exC, exB] exA = .ok [⟨.halfOpenLeft, some 0, some 1⟩] := by
  refine ⟨exA_valid, ?_, ?_⟩
  · simp only [List.forall_mem_cons]
    exact ⟨Or.inl exC_valid, Or.inr rfl, by simp⟩
  · simp [show ¬ ((1 : ℚ) < 0) by norm_num, show ¬ ((3 : ℚ) < 0) by norm_num, show ¬ ((2 : ℚ) < 1) by norm_num, show (1:ℚ) < 2 by norm_num, show (2:ℚ) < 3 by norm_num,
      Clip, clipLoop, getIntersectionWith, Interval.get, bind, Except.bind, pure, Except.pure, IType.lowerOpen,
      IType.upperOpen, HalfOpenLeft, mk', isDefined, undef]

end Verif.Props
