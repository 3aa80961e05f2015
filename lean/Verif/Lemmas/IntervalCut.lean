import Mathlib.Data.Prod.Lex
import Mathlib.Order.BooleanAlgebra.Basic
import Mathlib.Tactic.Tauto
import Mathlib.Tactic.Order
import Verif.Spec.Interval

/-!
# Intervals as pairs of cuts

A cut is a position just before (`false`) or just after (`true`) a value. A valid interval is a pair of cuts `p < q`.
The interval operations become `min` and `max` of cuts.
-/

namespace Verif.Cut

open Verif Verif.Spec

set_option linter.unusedSectionVars false
set_option linter.dupNamespace false
set_option linter.unusedSimpArgs false

variable {α : Type} [LinearOrder α]

abbrev Cut (α : Type) := Lex (α × Bool)

theorem cut_lt {a b : α} {i j : Bool} :
    ((toLex (a, i) : Cut α) < toLex (b, j)) ↔ a < b ∨ a = b ∧ i = false ∧ j = true := by
  rw [Prod.Lex.toLex_lt_toLex]
  cases i <;> cases j <;> simp

theorem cut_le {a b : α} {i j : Bool} :
    ((toLex (a, i) : Cut α) ≤ toLex (b, j)) ↔ a < b ∨ a = b ∧ (i = false ∨ j = true) := by
  rw [Prod.Lex.toLex_le_toLex]
  cases i <;> cases j <;> simp

/-- before `a` -/
def before (a : α) : Cut α := toLex (a, false)
/-- after `a` -/
def after (a : α) : Cut α := toLex (a, true)

def typeOf : Bool → Bool → IType
  | false, true => .closed
  | true, false => .opened
  | true, true => .halfOpenLeft
  | false, false => .halfOpenRight

/-- The interval between two cuts. -/
def iv (p q : Cut α) : Interval α :=
  ⟨typeOf (ofLex p).2 (ofLex q).2, some (ofLex p).1, some (ofLex q).1⟩

theorem valid_iff (I : Interval α) : Valid I ↔ ∃ p q : Cut α, p < q ∧ I = iv p q := by
  constructor
  · rintro ⟨a, b, h1, h2, h⟩
    obtain ⟨t, l, u⟩ := I
    simp only at h1 h2 h
    subst h1 h2
    cases t
    · simp at h
    · refine ⟨before a, after b, ?_, rfl⟩
      simp at h
      rw [before, after, Prod.Lex.toLex_lt_toLex]
      rcases h.lt_or_eq with h | h <;> simp [h]
    · refine ⟨after a, before b, ?_, rfl⟩
      simp at h
      rw [before, after, Prod.Lex.toLex_lt_toLex]; simp [h]
    · refine ⟨after a, after b, ?_, rfl⟩
      simp at h
      rw [after, after, Prod.Lex.toLex_lt_toLex]; simp [h]
    · refine ⟨before a, before b, ?_, rfl⟩
      simp at h
      rw [before, before, Prod.Lex.toLex_lt_toLex]; simp [h]
  · rintro ⟨p, q, h, rfl⟩
    obtain ⟨⟨a, i⟩, rfl⟩ := toLex.surjective p
    obtain ⟨⟨b, j⟩, rfl⟩ := toLex.surjective q
    refine ⟨a, b, rfl, rfl, ?_⟩
    rw [Prod.Lex.toLex_lt_toLex] at h
    cases i <;> cases j <;> simp [iv, typeOf, le_iff_lt_or_eq] at h ⊢ <;> tauto

theorem mem_pts (p q : Cut α) (x : α) : x ∈ pts (iv p q) ↔ p ≤ before x ∧ after x ≤ q := by
  obtain ⟨⟨a, i⟩, rfl⟩ := toLex.surjective p
  obtain ⟨⟨b, j⟩, rfl⟩ := toLex.surjective q
  simp only [before, after, cut_le]
  cases i <;> cases j <;> simp [iv, typeOf, pts, le_iff_lt_or_eq]

theorem build_eq (a b : α) (i j : Bool) :
    Interval.build a i b j =
      if (toLex (a, i) : Cut α) < toLex (b, !j) then .ok (iv (toLex (a, i)) (toLex (b, !j))) else .error .runtimeError := by
  simp only [cut_lt]
  rcases lt_trichotomy a b with h | h | h
  · cases i <;> cases j <;>
      simp [Interval.build, Interval.Open, Interval.HalfOpenLeft, Interval.HalfOpenRight, Interval.Closed,
        Interval.mk', iv, typeOf, h, h.le, h.ne, not_lt.2 h.le]
  · subst h
    cases i <;> cases j <;>
      simp [Interval.build, Interval.Open, Interval.HalfOpenLeft, Interval.HalfOpenRight, Interval.Closed,
        Interval.mk', iv, typeOf]
  · cases i <;> cases j <;>
      simp [Interval.build, Interval.Open, Interval.HalfOpenLeft, Interval.HalfOpenRight, Interval.Closed,
        Interval.mk', h, h.le, h.ne', not_lt.2 h.le]

theorem get_iv (p q : Cut α) :
    (iv p q).get = .ok (typeOf (ofLex p).2 (ofLex q).2, (ofLex p).1, (ofLex q).1) := by
  obtain ⟨⟨a, i⟩, rfl⟩ := toLex.surjective p
  obtain ⟨⟨b, j⟩, rfl⟩ := toLex.surjective q
  cases i <;> cases j <;> rfl

theorem iv_inj {p q r s : Cut α} (h : iv p q = iv r s) : p = r ∧ q = s := by
  obtain ⟨⟨a, i⟩, rfl⟩ := toLex.surjective p
  obtain ⟨⟨b, j⟩, rfl⟩ := toLex.surjective q
  obtain ⟨⟨c, k⟩, rfl⟩ := toLex.surjective r
  obtain ⟨⟨d, l⟩, rfl⟩ := toLex.surjective s
  cases i <;> cases j <;> cases k <;> cases l <;> simp [iv, typeOf] at h ⊢ <;> exact h

theorem isDefined_iv (p q : Cut α) : (iv p q).isDefined = true := by
  obtain ⟨⟨a, i⟩, rfl⟩ := toLex.surjective p
  obtain ⟨⟨b, j⟩, rfl⟩ := toLex.surjective q
  cases i <;> cases j <;> rfl

theorem isDefined_undef : (Interval.undef : Interval α).isDefined = false := rfl

theorem containsValue_iv (p q : Cut α) (x : α) :
    (iv p q).containsValue (some x) = .ok (decide (p ≤ before x ∧ after x ≤ q)) := by
  obtain ⟨⟨a, i⟩, rfl⟩ := toLex.surjective p
  obtain ⟨⟨b, j⟩, rfl⟩ := toLex.surjective q
  simp only [before, after, cut_le]
  cases i <;> cases j <;>
    simp [Interval.containsValue, get_iv, typeOf, Interval.checkLower, Interval.checkUpper, bind, Except.bind, pure,
      Except.pure, le_iff_lt_or_eq]

theorem lowerOpen_typeOf (i j : Bool) : (typeOf i j).lowerOpen = i := by cases i <;> cases j <;> rfl
theorem upperOpen_typeOf (i j : Bool) : (typeOf i j).upperOpen = !j := by cases i <;> cases j <;> rfl
theorem lowerClosed_typeOf (i j : Bool) : (typeOf i j).lowerClosed = !i := by cases i <;> cases j <;> rfl
theorem upperClosed_typeOf (i j : Bool) : (typeOf i j).upperClosed = j := by cases i <;> cases j <;> rfl

theorem max_cut (a c : α) (i k : Bool) :
    (toLex (max a c, (max a c == a && i) || (max a c == c && k)) : Cut α) = max (toLex (a, i)) (toLex (c, k)) := by
  rcases lt_trichotomy a c with h | h | h
  · rw [max_eq_right h.le, max_eq_right (cut_le.2 (Or.inl h))]
    simp [h.ne']
  · subst h
    cases i <;> cases k <;> simp [max_def, cut_le]
  · rw [max_eq_left h.le, max_eq_left (cut_le.2 (Or.inl h))]
    simp [h.ne']

theorem min_cut (b d : α) (j l : Bool) :
    (toLex (min b d, !((min b d == b && !j) || (min b d == d && !l))) : Cut α) = min (toLex (b, j)) (toLex (d, l)) := by
  rcases lt_trichotomy b d with h | h | h
  · rw [min_eq_left h.le, min_eq_left (cut_le.2 (Or.inl h))]
    simp [h.ne]
  · subst h
    cases j <;> cases l <;> simp [min_def, cut_le]
  · rw [min_eq_right h.le, min_eq_right (cut_le.2 (Or.inl h))]
    simp [h.ne]

theorem min_cut' (a c : α) (i k : Bool) :
    (toLex (min a c, !((min a c == a && !i) || (min a c == c && !k))) : Cut α) = min (toLex (a, i)) (toLex (c, k)) :=
  min_cut a c i k

theorem max_cut' (b d : α) (j l : Bool) :
    (toLex (max b d, !!((max b d == b && j) || (max b d == d && l))) : Cut α) = max (toLex (b, j)) (toLex (d, l)) := by
  rw [Bool.not_not]; exact max_cut b d j l

theorem inter_iv (p q r s : Cut α) :
    (iv p q).getIntersectionWith (iv r s) =
      .ok (if max p r < min q s then iv (max p r) (min q s) else Interval.undef) := by
  obtain ⟨⟨a, i⟩, rfl⟩ := toLex.surjective p
  obtain ⟨⟨b, j⟩, rfl⟩ := toLex.surjective q
  obtain ⟨⟨c, k⟩, rfl⟩ := toLex.surjective r
  obtain ⟨⟨d, l⟩, rfl⟩ := toLex.surjective s
  simp only [Interval.getIntersectionWith, get_iv, bind, Except.bind, ofLex_toLex, lowerOpen_typeOf, upperOpen_typeOf]
  rw [← max_cut a c i k, ← min_cut b d j l]
  generalize ((max a c == a && i) || (max a c == c && k)) = o
  generalize ((min b d == b && !j) || (min b d == d && !l)) = o'
  generalize max a c = x
  generalize min b d = y
  simp only [cut_lt]
  rcases lt_trichotomy x y with h | h | h
  · cases o <;> cases o' <;>
    simp [Interval.Open, Interval.HalfOpenLeft, Interval.HalfOpenRight, Interval.Closed,
        Interval.mk', iv, typeOf, h, h.ne, not_lt.2 h.le]
  · subst h
    cases o <;> cases o' <;>
    simp [Interval.Closed, Interval.mk', iv, typeOf, pure, Except.pure]
  · cases o <;> cases o' <;> simp [h, h.ne', not_lt.2 h.le, pure, Except.pure]

theorem eq_iv (p q r s : Cut α) : (iv p q).eq (iv r s) = decide (p = r ∧ q = s) := by
  rw [Interval.eq, isDefined_iv, isDefined_iv]
  simp only [Bool.not_true, Bool.or_self, Bool.false_eq_true, if_false]
  rw [Bool.eq_iff_iff]
  simp only [Bool.and_eq_true, beq_iff_eq, decide_eq_true_eq]
  constructor
  · intro h
    exact iv_inj (Interval.ext h.1.1 h.1.2 h.2)
  · rintro ⟨rfl, rfl⟩; simp

theorem mk'_iv {p q : Cut α} (h : p < q) :
    Interval.mk' (some (ofLex p).1) (some (ofLex q).1) (typeOf (ofLex p).2 (ofLex q).2) = .ok (iv p q) := by
  obtain ⟨⟨a, i⟩, rfl⟩ := toLex.surjective p
  obtain ⟨⟨b, j⟩, rfl⟩ := toLex.surjective q
  rw [cut_lt] at h
  simp only [Interval.mk', ofLex_toLex]
  rcases h with h | ⟨rfl, rfl, rfl⟩
  · simp [iv, not_lt.2 h.le, h.ne]
  · simp [iv, typeOf]

theorem before_le (r : Cut α) : before (ofLex r).1 ≤ r := by
  obtain ⟨⟨c, k⟩, rfl⟩ := toLex.surjective r
  simp [before, cut_le]

theorem le_after (r : Cut α) : r ≤ after (ofLex r).1 := by
  obtain ⟨⟨c, k⟩, rfl⟩ := toLex.surjective r
  simp [after, cut_le]

theorem le_before_of_lt {p r : Cut α} (h : p < r) : p ≤ before (ofLex r).1 := by
  obtain ⟨⟨a, i⟩, rfl⟩ := toLex.surjective p
  obtain ⟨⟨c, k⟩, rfl⟩ := toLex.surjective r
  simp only [before, cut_le, cut_lt, ofLex_toLex] at *
  tauto

theorem after_le_of_lt {r q : Cut α} (h : r < q) : after (ofLex r).1 ≤ q := by
  obtain ⟨⟨a, i⟩, rfl⟩ := toLex.surjective q
  obtain ⟨⟨c, k⟩, rfl⟩ := toLex.surjective r
  simp only [after, cut_le, cut_lt, ofLex_toLex] at *
  tauto

theorem eq_before_or_after (r : Cut α) : r = before (ofLex r).1 ∨ r = after (ofLex r).1 := by
  obtain ⟨⟨c, k⟩, rfl⟩ := toLex.surjective r
  cases k
  · exact Or.inl rfl
  · exact Or.inr rfl

/-- For two valid intervals that are not equal: one contains a bound of the other exactly when they overlap or touch. -/
theorem touch_iff {p q r s : Cut α} (h : p < q) (h' : r < s) (hne : ¬(p = r ∧ q = s)) :
    (((p ≤ before (ofLex r).1 ∧ after (ofLex r).1 ≤ q) ∨ (p ≤ before (ofLex s).1 ∧ after (ofLex s).1 ≤ q)) ∨
      (r ≤ before (ofLex p).1 ∧ after (ofLex p).1 ≤ s)) ∨ (r ≤ before (ofLex q).1 ∧ after (ofLex q).1 ≤ s) ↔
    max p r ≤ min q s := by
  have bp := before_le p; have bq := before_le q; have br := before_le r; have bs := before_le s
  have ap := le_after p; have aq := le_after q; have ar := le_after r; have as := le_after s
  constructor
  · intro H
    rw [max_le_iff, le_min_iff, le_min_iff]
    rcases H with ((H | H) | H) | H <;> exact ⟨⟨by order, by order⟩, by order, by order⟩
  · intro H
    rw [max_le_iff, le_min_iff, le_min_iff] at H
    obtain ⟨⟨-, h1⟩, h2, -⟩ := H
    rcases lt_trichotomy p r with hpr | hpr | hpr
    · rcases h2.lt_or_eq with h2 | h2
      · exact Or.inl (Or.inl (Or.inl ⟨le_before_of_lt hpr, after_le_of_lt h2⟩))
      · rcases eq_before_or_after q with e | e
        · exact Or.inr ⟨by order, after_le_of_lt (h2 ▸ h')⟩
        · exact Or.inl (Or.inl (Or.inl ⟨le_before_of_lt hpr, by rw [h2]; exact e.ge⟩))
    · rcases lt_trichotomy q s with hqs | hqs | hqs
      · exact Or.inr ⟨hpr ▸ le_before_of_lt h, after_le_of_lt hqs⟩
      · exact absurd ⟨hpr, hqs⟩ hne
      · exact Or.inl (Or.inl (Or.inr ⟨hpr ▸ le_before_of_lt h', after_le_of_lt hqs⟩))
    · rcases h1.lt_or_eq with h1 | h1
      · exact Or.inl (Or.inr ⟨le_before_of_lt hpr, after_le_of_lt h1⟩)
      · rcases eq_before_or_after s with e | e
        · exact Or.inl (Or.inl (Or.inr ⟨by order, after_le_of_lt (h1 ▸ h)⟩))
        · exact Or.inl (Or.inr ⟨le_before_of_lt hpr, by rw [h1]; exact e.ge⟩)

theorem union_iv {p q r s : Cut α} (h : p < q) (h' : r < s) :
    (iv p q).getUnionWith (iv r s) =
      .ok (if max p r ≤ min q s then iv (min p r) (max q s) else Interval.undef) := by
  simp only [Interval.getUnionWith, get_iv, bind, Except.bind, eq_iv, containsValue_iv, lowerClosed_typeOf,
    upperClosed_typeOf]
  by_cases he : p = r ∧ q = s
  · obtain ⟨rfl, rfl⟩ := he
    simp [mk'_iv h, h.le]
  · simp only [he, decide_false, Bool.false_eq_true, if_false]
    simp only [Bool.or_eq_true, decide_eq_true_eq, touch_iff h h' he]
    by_cases ht : max p r ≤ min q s
    · simp only [ht, if_true]
      obtain ⟨⟨a, i⟩, rfl⟩ := toLex.surjective p
      obtain ⟨⟨b, j⟩, rfl⟩ := toLex.surjective q
      obtain ⟨⟨c, k⟩, rfl⟩ := toLex.surjective r
      obtain ⟨⟨d, l⟩, rfl⟩ := toLex.surjective s
      simp only [ofLex_toLex]
      rw [build_eq, min_cut', max_cut', if_pos]
      exact (min_le_left _ _).trans_lt (h.trans_le (le_max_left _ _))
    · simp only [ht, if_false]; rfl

end Verif.Cut
