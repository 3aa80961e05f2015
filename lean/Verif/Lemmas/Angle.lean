import Verif.Model.Angle
import Verif.Spec.Angle
import Verif.Lemmas.Vec

/-! # Lemmas on angles -/

namespace Verif.Angle

open Spec

theorem perTurn_pos {u : AUnit} (h : u ≠ .undefined) : 0 < perTurn u := by
  cases u <;> simp only [perTurn] <;> first | exact absurd rfl h | exact Real.two_pi_pos | norm_num

theorem SIRatio_eq {u : AUnit} (h : u ≠ .undefined) : SIRatio u = .ok (2 * Real.pi / perTurn u) := by
  have := Real.pi_ne_zero
  cases u <;> simp only [SIRatio, perTurn, Except.ok.injEq] <;> first | exact absurd rfl h | (field_simp; try norm_num)

theorem eqTurn_eq {u : AUnit} (h : u ≠ .undefined) : eqTurn u = perTurn u := by
  cases u <;> simp only [eqTurn, perTurn] <;> first | exact absurd rfl h | norm_num

theorem measures_mk {v x : ℝ} {u : AUnit} : Measures ⟨some v, u⟩ x ↔ u ≠ .undefined ∧ v = x * perTurn u := by
  constructor
  · rintro ⟨w, h1, h2, h3⟩
    simp only [Angle.mk.injEq, Option.some.injEq, and_true] at h1
    subst h1
    exact ⟨h2, h3⟩
  · rintro ⟨h1, h2⟩
    exact ⟨v, rfl, h1, h2⟩

theorem defined_iff (a : Angle) : a.isDefined = true ↔ ∃ x, Measures a x := by
  obtain ⟨v, u⟩ := a
  cases v with
  | none => simp [isDefined, Measures]
  | some v =>
    simp only [isDefined, Option.isSome_some, Bool.true_and, decide_eq_true_eq]
    constructor
    · intro h
      exact ⟨v / perTurn u, measures_mk.2 ⟨h, by rw [div_mul_cancel₀]; exact (perTurn_pos h).ne'⟩⟩
    · rintro ⟨x, hx⟩
      exact (measures_mk.1 hx).1

theorem inUnit_eq {a : Angle} {x : ℝ} (h : Measures a x) {u : AUnit} (hu : u ≠ .undefined) :
    a.inUnit u = .ok (x * perTurn u) := by
  obtain ⟨v, w⟩ := a
  cases v with
  | none => simp [Measures] at h
  | some v =>
    obtain ⟨hw, rfl⟩ := measures_mk.1 h
    have h1 := (perTurn_pos hw).ne'
    have h2 := (perTurn_pos hu).ne'
    have h3 := Real.pi_ne_zero
    by_cases he : w = u
    · subst he; simp [inUnit, isDefined, hw]
    · simp only [inUnit, isDefined, Option.isSome_some, hw, ne_eq, not_false_eq_true, decide_true, Bool.and_self, he,
        if_false, SIRatio_eq hw, SIRatio_eq hu, bind, Except.bind, pure, Except.pure, Except.ok.injEq]
      field_simp

theorem inUnit_undefined {a : Angle} (h : a.isDefined = false) (u : AUnit) : a.inUnit u = .error .undefined := by
  obtain ⟨v, w⟩ := a
  simp only [inUnit, h]

theorem raise_spec (r lo : ℝ) (h : 0 < r) (v : ℝ) : lo ≤ raise r lo h v ∧ ∃ k : ℕ, raise r lo h v = v + k * r := by
  induction v using raise.induct r lo h with
  | case1 v hv ih =>
    rw [raise, dif_pos hv]
    obtain ⟨h1, k, h2⟩ := ih
    exact ⟨h1, k + 1, by rw [h2]; push_cast; ring⟩
  | case2 v hv =>
    rw [raise, dif_neg hv]
    exact ⟨not_lt.1 hv, 0, by simp⟩

theorem lower_spec (r hi : ℝ) (h : 0 < r) (v : ℝ) :
    lower r hi h v < hi ∧ (∃ k : ℕ, lower r hi h v = v - k * r) ∧ (hi - r ≤ v → hi - r ≤ lower r hi h v) := by
  induction v using lower.induct r hi h with
  | case1 v hv ih =>
    rw [lower, dif_pos hv]
    obtain ⟨h1, ⟨k, h2⟩, h3⟩ := ih
    exact ⟨h1, ⟨k + 1, by rw [h2]; push_cast; ring⟩, fun _ => h3 (by linarith)⟩
  | case2 v hv =>
    rw [lower, dif_neg hv]
    exact ⟨not_le.1 hv, ⟨0, by simp⟩, id⟩

theorem reduce_spec (v lo hi : ℝ) (h : lo < hi) :
    lo ≤ ReduceRange v lo hi h ∧ ReduceRange v lo hi h < hi ∧ ∃ k : ℤ, ReduceRange v lo hi h = v + k * (hi - lo) := by
  rw [ReduceRange]
  split_ifs with hv
  · exact ⟨hv.1, hv.2, 0, by simp⟩
  · obtain ⟨h1, k, h2⟩ := raise_spec (hi - lo) lo (sub_pos.2 h) v
    obtain ⟨h3, ⟨m, h4⟩, h5⟩ := lower_spec (hi - lo) hi (sub_pos.2 h) (raise (hi - lo) lo (sub_pos.2 h) v)
    refine ⟨?_, h3, k - m, ?_⟩
    · have := h5 (by linarith); linarith
    · rw [h4, h2]; push_cast; ring

theorem unique_in_range {lo hi x y : ℝ} (hx : lo ≤ x ∧ x < hi) (hy : lo ≤ y ∧ y < hi) {k : ℤ}
    (h : x = y + k * (hi - lo)) : x = y := by
  have hr : 0 < hi - lo := by linarith
  have h1 : (k : ℝ) * (hi - lo) < 1 * (hi - lo) := by linarith
  have h2 : (-1) * (hi - lo) < (k : ℝ) * (hi - lo) := by linarith
  have h3 := lt_of_mul_lt_mul_right h1 hr.le
  have h4 := lt_of_mul_lt_mul_right h2 hr.le
  have h5 : k < 1 := by exact_mod_cast h3
  have h6 : -1 < k := by exact_mod_cast h4
  have : k = 0 := by omega
  subst this
  simpa using h

/-- Equality of angles with the same unit, on values. -/
theorem reduce_eq_iff (x y t : ℝ) (ht : 0 < t) :
    x = ReduceRange y x (x + t) (lt_add_of_pos_right x ht) ↔ ∃ k : ℤ, x - y = k * t := by
  obtain ⟨h1, h2, k, h3⟩ := reduce_spec y x (x + t) (lt_add_of_pos_right x ht)
  have e : x + t - x = t := by ring
  rw [e] at h3
  constructor
  · intro h
    exact ⟨k, by rw [← h] at h3; linarith⟩
  · rintro ⟨m, hm⟩
    refine unique_in_range (lo := x) (hi := x + t) ⟨le_rfl, by linarith⟩ ⟨h1, h2⟩ (k := m - k) ?_
    rw [h3, e]; push_cast; linarith

theorem otherValue_eq {a b : Angle} {y : ℝ} (ha : a.unit ≠ .undefined) (hb : Measures b y) :
    otherValue a b = .ok (some (y * perTurn a.unit)) := by
  rw [otherValue]
  split_ifs with h
  · obtain ⟨v, h1, h2, h3⟩ := hb
    rw [h1, h]
    simp only [pure, Except.pure]
    rw [h3]
  · rw [inUnit_eq hb ha]; rfl

theorem eq_spec {a b : Angle} {x y : ℝ} (ha : Measures a x) (hb : Measures b y) :
    ∃ r, a.eq b = .ok r ∧ (r = true ↔ SameDirection x y) := by
  obtain ⟨v, w⟩ := a
  cases v with
  | none => simp [Measures] at ha
  | some v =>
    obtain ⟨hw, rfl⟩ := measures_mk.1 ha
    have hbu : b.unit ≠ .undefined := hb.choose_spec.2.1
    have ho := otherValue_eq (a := ⟨some (x * perTurn w), w⟩) hw hb
    refine ⟨_, by simp only [Angle.eq, hw, hbu, or_self, if_false, ho, bind, Except.bind, pure, Except.pure]; rfl, ?_⟩
    rw [decide_eq_true_eq, reduce_eq_iff _ _ _ (eqTurn_pos w), eqTurn_eq hw]
    have hp := (perTurn_pos hw).ne'
    refine exists_congr fun k => ?_
    constructor
    · intro h
      have : (x - y) * perTurn w = k * perTurn w := by linarith
      exact mul_right_cancel₀ hp this
    · intro h
      rw [← sub_mul, h]

theorem isZero_eq {a : Angle} {x : ℝ} (h : Measures a x) : a.isZero = .ok (decide (x = 0)) := by
  obtain ⟨v, w⟩ := a
  cases v with
  | none => simp [Measures] at h
  | some v =>
    obtain ⟨hw, rfl⟩ := measures_mk.1 h
    have h1 := (perTurn_pos hw).ne'
    simp [isZero, isDefined, hw, h1]

theorem isNegative_eq {a : Angle} {x : ℝ} (h : Measures a x) : a.isNegative = .ok (decide (x < 0)) := by
  obtain ⟨v, w⟩ := a
  cases v with
  | none => simp [Measures] at h
  | some v =>
    obtain ⟨hw, rfl⟩ := measures_mk.1 h
    have h1 := perTurn_pos hw
    simp [isNegative, isDefined, hw, mul_neg_iff, h1, not_lt.2 h1.le]

end Verif.Angle
