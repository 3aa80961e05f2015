import Verif.Lemmas.Angle

/-!
# Properties of `Angle` (C16 - C21)

`Measures a x`: the angle `a` is defined and measures `x` turns (`Verif/Spec/Angle.lean`).
-/

namespace Verif.Props

open Verif Verif.Spec Verif.Angle

set_option linter.unusedSimpArgs false
set_option linter.flexible false

/-! ## Non-trivial angles for the examples -/

/-- 90 degrees measure a quarter turn. -/
theorem quarter_degrees : Measures ⟨some 90, .degree⟩ (1 / 4) := measures_mk.2 ⟨by decide, by norm_num [perTurn]⟩
/-- -3π/2 radians measure minus three quarters of a turn. -/
theorem threeQuarters_radians : Measures ⟨some (-3 * Real.pi / 2), .radian⟩ (-3 / 4) :=
  measures_mk.2 ⟨by decide, by simp only [perTurn]; ring⟩

/-! ## C16 -/

/-- **C16.** A defined angle is converted to any unit as the number of turns times the number of units in a turn. Hence converting
through an intermediate unit, or rebuilding the angle from the number, changes nothing. -/
theorem C16_conversion (a : Angle) (x : ℝ) (h : Measures a x) (u w : AUnit) (hu : u ≠ .undefined) (hw : w ≠ .undefined) :
    ∃ v, a.inUnit u = .ok v ∧ v = x * perTurn u ∧ Measures ⟨some v, u⟩ x ∧ a.eq ⟨some v, u⟩ = .ok true ∧
      (⟨some v, u⟩ : Angle).inUnit w = a.inUnit w := by
  have h1 : Measures ⟨some (x * perTurn u), u⟩ x := measures_mk.2 ⟨hu, rfl⟩
  refine ⟨x * perTurn u, inUnit_eq h hu, rfl, h1, ?_, by rw [inUnit_eq h1 hw, inUnit_eq h hw]⟩
  obtain ⟨r, hr, hr'⟩ := eq_spec h h1
  rw [hr, hr'.2 ⟨0, by simp⟩]

example : Measures ⟨some 90, .degree⟩ (1 / 4) := quarter_degrees

/-- **C16.** A conversion throws exactly when the angle or the target unit is undefined. -/
theorem C16_conversion_throws (a : Angle) (u : AUnit) :
    (∃ e, a.inUnit u = .error e) ↔ a.isDefined = false ∨ u = .undefined := by
  constructor
  · rintro ⟨e, he⟩
    by_contra hn
    rw [not_or, Bool.not_eq_false] at hn
    obtain ⟨x, hx⟩ := (defined_iff a).1 hn.1
    rw [inUnit_eq hx hn.2] at he
    cases he
  · intro h
    cases hd : a.isDefined with
    | false => exact ⟨_, inUnit_undefined hd u⟩
    | true =>
      rw [hd] at h
      simp only [Bool.true_eq_false, false_or] at h
      subst h
      obtain ⟨x, hx⟩ := (defined_iff a).1 hd
      obtain ⟨v, w⟩ := a
      cases v with
      | none => simp [isDefined] at hd
      | some v =>
        obtain ⟨hw, -⟩ := measures_mk.1 hx
        exact ⟨.wrong, by cases w <;> simp_all [inUnit, SIRatio, bind, Except.bind]⟩

/-! ## C17 -/

/-- What a ranged conversion to the unit `u` must do: exactly when the angle is defined and the range spans one turn it returns a value,
the only one in `[lo, hi)` that differs from the angle by whole turns. -/
def RangedConversion (u : AUnit) (f : Angle → Option ℝ → Option ℝ → Res ℝ) : Prop :=
  (∀ a x lo hi, Measures a x → hi - lo = perTurn u →
    ∃ r, f a (some lo) (some hi) = .ok r ∧ lo ≤ r ∧ r < hi ∧ SameDirection (r / perTurn u) x ∧
      ∀ r', lo ≤ r' → r' < hi → SameDirection (r' / perTurn u) x → r' = r) ∧
  (∀ a lo hi, (∃ e, f a lo hi = .error e) ↔
    (a.isDefined = false ∨ ¬ ∃ l h, lo = some l ∧ hi = some h ∧ h - l = perTurn u))

theorem inRange_spec (u : AUnit) (hu : u ≠ .undefined) (span : ℝ) (hs : 0 < span) (he : span = perTurn u) :
    RangedConversion u (inRange u span hs) := by
  subst he
  constructor
  · intro a x lo hi ha hd
    obtain ⟨h1, h2, k, h3⟩ := reduce_spec (x * perTurn u) lo hi (by linarith)
    have h3' := h3.trans (by rw [hd] : _ = x * perTurn u + k * perTurn u)
    refine ⟨_, by simp only [inRange, dif_pos hd, inUnit_eq ha hu, bind, Except.bind, pure, Except.pure], h1, h2, ?_, ?_⟩
    · refine ⟨k, ?_⟩
      rw [h3']; field_simp; ring
    · rintro r' h4 h5 ⟨m, hm⟩
      refine unique_in_range (k := m - k) ⟨h4, h5⟩ ⟨h1, h2⟩ ?_
      rw [h3', hd]
      have : r' = (x + m) * perTurn u := by
        rw [← hm]; field_simp; ring
      rw [this]; push_cast; ring
  · intro a lo hi
    cases lo with
    | none => simp [inRange]
    | some l =>
      cases hi with
      | none => simp [inRange]
      | some h =>
        by_cases hd : h - l = perTurn u
        · cases ha : a.isDefined with
          | false => simp [inRange, hd, inUnit_undefined ha, bind, Except.bind]
          | true =>
            obtain ⟨x, hx⟩ := (defined_iff a).1 ha
            simp [inRange, hd, inUnit_eq hx hu, bind, Except.bind, pure, Except.pure]
        · simp [inRange, hd]

/-- **C17.** The four ranged conversions meet their specification (in particular their loops terminate). -/
theorem C17_ranged_conversions :
    RangedConversion .radian inRadians ∧ RangedConversion .degree inDegrees ∧
    RangedConversion .arcminute inArcminutes ∧ RangedConversion .arcsecond inArcseconds :=
  ⟨inRange_spec _ (by decide) _ Real.two_pi_pos rfl, inRange_spec _ (by decide) _ (by norm_num) rfl,
    inRange_spec _ (by decide) _ (by norm_num) (by norm_num [perTurn]),
    inRange_spec _ (by decide) _ (by norm_num) (by norm_num [perTurn])⟩

example : Measures ⟨some (-3 * Real.pi / 2), .radian⟩ (-3 / 4) ∧ (180 : ℝ) - (-180) = perTurn .degree :=
  ⟨threeQuarters_radians, by norm_num [perTurn]⟩

/-! ## C18 -/

/-- **C18.** Two defined angles are `==` exactly when they measure the same up to whole turns. -/
theorem C18_eq_iff (a b : Angle) (x y : ℝ) (ha : Measures a x) (hb : Measures b y) :
    ∃ r, a.eq b = .ok r ∧ (r = true ↔ SameDirection x y) := eq_spec ha hb

example : (⟨some 90, .degree⟩ : Angle).eq ⟨some (-3 * Real.pi / 2), .radian⟩ = .ok true := by
  obtain ⟨r, h1, h2⟩ := C18_eq_iff _ _ _ _ quarter_degrees threeQuarters_radians
  rw [h1, h2.2 ⟨1, by norm_num⟩]

/-- **C18.** `==` is an equivalence relation on defined angles. -/
theorem C18_equivalence (a b c : Angle) (ha : a.isDefined = true) (hb : b.isDefined = true) (hc : c.isDefined = true) :
    a.eq a = .ok true ∧ a.eq b = b.eq a ∧ (a.eq b = .ok true → b.eq c = .ok true → a.eq c = .ok true) := by
  obtain ⟨x, hx⟩ := (defined_iff a).1 ha
  obtain ⟨y, hy⟩ := (defined_iff b).1 hb
  obtain ⟨z, hz⟩ := (defined_iff c).1 hc
  obtain ⟨r1, e1, f1⟩ := eq_spec hx hx
  obtain ⟨r2, e2, f2⟩ := eq_spec hx hy
  obtain ⟨r3, e3, f3⟩ := eq_spec hy hx
  obtain ⟨r4, e4, f4⟩ := eq_spec hy hz
  obtain ⟨r5, e5, f5⟩ := eq_spec hx hz
  refine ⟨by rw [e1, f1.2 ⟨0, by simp⟩], ?_, ?_⟩
  · rw [e2, e3]
    congr 1
    rw [Bool.eq_iff_iff, f2, f3]
    constructor <;> (rintro ⟨k, hk⟩; exact ⟨-k, by push_cast; linarith⟩)
  · rw [e2, e4, e5]
    simp only [Except.ok.injEq]
    rw [f2, f4, f5]
    rintro ⟨k, hk⟩ ⟨m, hm⟩
    exact ⟨k + m, by push_cast; linarith⟩

example : (⟨some 90, .degree⟩ : Angle).isDefined = true := by simp [isDefined]

/-- **C18.** An undefined angle is never found equal to anything. -/
theorem C18_undefined (a b : Angle) (h : a.isDefined = false ∨ b.isDefined = false) : a.eq b ≠ .ok true := by
  obtain ⟨v, u⟩ := a
  obtain ⟨w, t⟩ := b
  by_cases hu : u = .undefined
  · simp [Angle.eq, hu]
  by_cases ht : t = .undefined
  · simp [Angle.eq, ht]
  cases v with
  | none =>
    simp only [Angle.eq, hu, ht, or_self, if_false, bind, Except.bind]
    split <;> simp [pure, Except.pure]
  | some v =>
    cases w with
    | none =>
      by_cases he : u = t
      · simp [Angle.eq, hu, ht, otherValue, he, bind, Except.bind, pure, Except.pure]
      · simp [Angle.eq, hu, ht, otherValue, he, bind, Except.bind, pure, Except.pure, inUnit, isDefined, Except.map]
    | some w => simp [isDefined, hu, ht] at h

example : (Angle.Undefined).eq Angle.Pi = .ok false := by simp [Angle.eq, Angle.Undefined]

/-! ## C19 -/

/-- **C19.** On defined angles the operators act on the measures as the real operations and keep the unit of the left operand (of the
angle, for a scalar factor). -/
theorem C19_arithmetic (a b : Angle) (x y : ℝ) (ha : Measures a x) (hb : Measures b y) (k : ℝ) :
    (∃ c, a.add b = .ok c ∧ Measures c (x + y) ∧ c.unit = a.unit) ∧
    (∃ c, a.sub b = .ok c ∧ Measures c (x - y) ∧ c.unit = a.unit) ∧
    (∃ c, a.mul (some k) = .ok c ∧ Angle.rmul (some k) a = .ok c ∧ Measures c (k * x) ∧ c.unit = a.unit) ∧
    (k ≠ 0 → ∃ c, a.div (some k) = .ok c ∧ Measures c (x / k) ∧ c.unit = a.unit) ∧
    (∃ c, a.neg = .ok c ∧ Measures c (-x) ∧ c.unit = a.unit) ∧ a.pos = .ok a := by
  obtain ⟨v, w⟩ := a
  cases v with
  | none => simp [Measures] at ha
  | some v =>
    obtain ⟨hw, rfl⟩ := measures_mk.1 ha
    have hbu : b.unit ≠ .undefined := hb.choose_spec.2.1
    have ho := otherValue_eq (a := ⟨some (x * perTurn w), w⟩) hw hb
    refine ⟨⟨⟨some ((x + y) * perTurn w), w⟩, ?_, measures_mk.2 ⟨hw, rfl⟩, rfl⟩,
      ⟨⟨some ((x - y) * perTurn w), w⟩, ?_, measures_mk.2 ⟨hw, rfl⟩, rfl⟩,
      ⟨⟨some (x * perTurn w * k), w⟩, ?_, ?_, measures_mk.2 ⟨hw, by ring⟩, rfl⟩,
      fun hk => ⟨⟨some (x * perTurn w / k), w⟩, ?_, measures_mk.2 ⟨hw, by ring⟩, rfl⟩,
      ⟨⟨some (-(x * perTurn w)), w⟩, ?_, measures_mk.2 ⟨hw, by ring⟩, rfl⟩, ?_⟩
    · simp [add, hw, hbu, ho, bind, Except.bind, pure, Except.pure, add_mul]
    · simp [sub, hw, hbu, ho, bind, Except.bind, pure, Except.pure, sub_mul]
    · simp [mul, hw]
    · simp [rmul, hw]
    · simp [div, hw, hk]
    · simp [neg, isDefined, hw]
    · simp [pos, isDefined, hw]

/-- **C19.** Compound assignments agree with the operators; when they throw, the receiver is unchanged. -/
theorem C19_compound (a b : Angle) (k : Option ℝ) :
    (∀ c, a.add b = .ok c → a.addAssign b = (c, none)) ∧ (∀ e, a.add b = .error e → a.addAssign b = (a, some e)) ∧
    (∀ c, a.sub b = .ok c → a.subAssign b = (c, none)) ∧ (∀ e, a.sub b = .error e → a.subAssign b = (a, some e)) ∧
    (∀ c, a.mul k = .ok c → a.mulAssign k = (c, none)) ∧ (∀ e, a.mul k = .error e → a.mulAssign k = (a, some e)) ∧
    (∀ c, a.div k = .ok c → a.divAssign k = (c, none)) ∧ (∀ e, a.div k = .error e → a.divAssign k = (a, some e)) := by
  by_cases h : a.unit = .undefined ∨ b.unit = .undefined
  · refine ⟨?_, ?_, ?_, ?_, ?_, ?_, ?_, ?_⟩ <;> intro c hc
    all_goals try (simp [add, sub, h] at hc; done)
    · simp only [add, h, if_true, Except.error.injEq] at hc; simp [addAssign, h, hc]
    · simp only [sub, h, if_true, Except.error.injEq] at hc; simp [subAssign, h, hc]
    all_goals
      cases k <;> simp only [mul, div] at hc <;> split_ifs at hc <;> simp_all [mulAssign, divAssign]
  · refine ⟨?_, ?_, ?_, ?_, ?_, ?_, ?_, ?_⟩ <;> intro c hc
    · simp only [add, h, if_false, bind, Except.bind, pure, Except.pure] at hc
      simp only [addAssign, h, if_false]
      split at hc <;> simp_all
    · simp only [add, h, if_false, bind, Except.bind, pure, Except.pure] at hc
      simp only [addAssign, h, if_false]
      split at hc <;> simp_all
    · simp only [sub, h, if_false, bind, Except.bind, pure, Except.pure] at hc
      simp only [subAssign, h, if_false]
      split at hc <;> simp_all
    · simp only [sub, h, if_false, bind, Except.bind, pure, Except.pure] at hc
      simp only [subAssign, h, if_false]
      split at hc <;> simp_all
    all_goals
      cases k <;> simp only [mul, div] at hc <;> split_ifs at hc <;> simp_all [mulAssign, divAssign]

/-- **C19.** Errors: an operand whose unit is undefined throws `Undefined`, as does an undefined factor; dividing by zero throws
`RuntimeError`; and no operator makes a defined angle from an undefined operand. -/
theorem C19_undefined_operands (a b c : Angle) (k : Option ℝ) :
    (a.unit = .undefined ∨ b.unit = .undefined → a.add b = .error .undefined ∧ a.sub b = .error .undefined) ∧
    (a.unit = .undefined ∨ k = none → a.mul k = .error .undefined ∧ a.div k = .error .undefined ∧ rmul k a = .error .undefined) ∧
    (a.unit ≠ .undefined → a.div (some 0) = .error .runtimeError) ∧
    (a.isDefined = false → a.neg = .error .undefined ∧ a.pos = .error .undefined) ∧
    (a.isDefined = false ∨ b.isDefined = false → a.add b = .ok c ∨ a.sub b = .ok c → c.isDefined = false) ∧
    (a.isDefined = false → a.mul k = .ok c ∨ a.div k = .ok c ∨ rmul k a = .ok c → c.isDefined = false) := by
  refine ⟨?_, ?_, ?_, ?_, ?_, ?_⟩
  · intro h; simp [add, sub, h]
  · intro h
    by_cases hu : a.unit = .undefined
    · cases k <;> simp [mul, div, rmul, hu]
    · simp only [hu, false_or] at h
      simp [mul, div, rmul, hu, h]
  · intro h; simp [div, h]
  · intro h; simp [neg, pos, h]
  · intro h hc
    by_cases hu : a.unit = .undefined ∨ b.unit = .undefined
    · simp [add, sub, hu] at hc
    · rw [not_or] at hu
      obtain ⟨v, u⟩ := a
      obtain ⟨w, t⟩ := b
      simp only at hu
      simp only [isDefined, hu.1, hu.2, ne_eq, not_false_eq_true, decide_true, Bool.and_true, Option.isSome_eq_false_iff,
        Option.isNone_iff_eq_none] at h
      by_cases he : u = t
      · rcases h with h | h <;> subst h <;> simp [add, sub, hu.1, hu.2, otherValue, he, bind, Except.bind, pure, Except.pure] at hc <;>
          subst hc <;> simp [isDefined]
      · cases w with
        | none => simp [add, sub, hu.1, hu.2, otherValue, he, bind, Except.bind, pure, Except.pure, inUnit, isDefined, Except.map] at hc
        | some w =>
          simp only [reduceCtorEq, or_false] at h
          subst h
          obtain ⟨z, hz⟩ := (defined_iff ⟨some w, t⟩).1 (by simp [isDefined, hu.2])
          have ho := otherValue_eq (a := ⟨none, u⟩) hu.1 hz
          simp [add, sub, hu.1, hu.2, ho, bind, Except.bind, pure, Except.pure] at hc
          subst hc
          simp [isDefined]
  · intro h hc
    obtain ⟨v, u⟩ := a
    by_cases hu : u = .undefined
    · subst hu
      cases k <;> simp [mul, div, rmul] at hc
    · simp only [isDefined, hu, ne_eq, not_false_eq_true, decide_true, Bool.and_true, Option.isSome_eq_false_iff,
        Option.isNone_iff_eq_none] at h
      subst h
      cases k with
      | none => simp [mul, div, rmul, hu] at hc
      | some k =>
        by_cases hk : k = 0 <;> simp [mul, div, rmul, hu, hk] at hc <;> subst hc <;> simp [isDefined]

/-- **C19, limit.** An angle with a unit but an undefined value is not rejected by `+`: the sum is returned, and is undefined. -/
theorem C19_half_undefined_not_rejected :
    ∃ a b c : Angle, a.isDefined = false ∧ b.isDefined = true ∧ a.add b = .ok c ∧ c.isDefined = false :=
  ⟨⟨none, .degree⟩, ⟨some 1, .degree⟩, ⟨none, .degree⟩, by simp [isDefined], by simp [isDefined],
    by simp [add, otherValue, bind, Except.bind, pure, Except.pure], by simp [isDefined]⟩

/-- **C19.** `+` and `-` respect `==`. -/
theorem C19_respects_eq (a b a' b' : Angle) (h : a.eq a' = .ok true) (h' : b.eq b' = .ok true) :
    ∃ s s' d d', a.add b = .ok s ∧ a'.add b' = .ok s' ∧ s.eq s' = .ok true ∧
      a.sub b = .ok d ∧ a'.sub b' = .ok d' ∧ d.eq d' = .ok true := by
  have hdef : ∀ a b : Angle, a.eq b = .ok true → a.isDefined = true ∧ b.isDefined = true := by
    intro a b h
    by_contra hn
    refine C18_undefined a b ?_ h
    cases ha : a.isDefined <;> cases hb : b.isDefined <;> simp_all
  obtain ⟨x, hx⟩ := (defined_iff a).1 (hdef _ _ h).1
  obtain ⟨x', hx'⟩ := (defined_iff a').1 (hdef _ _ h).2
  obtain ⟨y, hy⟩ := (defined_iff b).1 (hdef _ _ h').1
  obtain ⟨y', hy'⟩ := (defined_iff b').1 (hdef _ _ h').2
  obtain ⟨r1, e1, f1⟩ := eq_spec hx hx'
  obtain ⟨r2, e2, f2⟩ := eq_spec hy hy'
  rw [e1, Except.ok.injEq, f1] at h
  rw [e2, Except.ok.injEq, f2] at h'
  obtain ⟨⟨s, hs1, hs2, -⟩, ⟨d, hd1, hd2, -⟩, -⟩ := C19_arithmetic a b x y hx hy 1
  obtain ⟨⟨s', hs1', hs2', -⟩, ⟨d', hd1', hd2', -⟩, -⟩ := C19_arithmetic a' b' x' y' hx' hy' 1
  obtain ⟨r3, e3, f3⟩ := eq_spec hs2 hs2'
  obtain ⟨r4, e4, f4⟩ := eq_spec hd2 hd2'
  obtain ⟨k, hk⟩ := h
  obtain ⟨m, hm⟩ := h'
  refine ⟨s, s', d, d', hs1, hs1', ?_, hd1, hd1', ?_⟩
  · rw [e3, f3.2 ⟨k + m, by push_cast; linarith⟩]
  · rw [e4, f4.2 ⟨k - m, by push_cast; linarith⟩]

example : (⟨some 90, .degree⟩ : Angle).eq ⟨some (-3 * Real.pi / 2), .radian⟩ = .ok true := by
  obtain ⟨r, h1, h2⟩ := C18_eq_iff _ _ _ _ quarter_degrees threeQuarters_radians
  rw [h1, h2.2 ⟨1, by norm_num⟩]

/-! ## C20 -/

theorem circular_near (p q t : ℝ) (hp : 0 ≤ p ∧ p < 360) (hq : 0 ≤ q ∧ q < 360) :
    (|q - p| ≤ t ∨ 360 - |q - p| ≤ t) ↔ ∃ k : ℤ, |p - q - k * 360| ≤ t := by
  constructor
  · rintro (h | h)
    · exact ⟨0, by rw [abs_sub_comm]; simpa using h⟩
    · rcases le_total p q with hpq | hpq
      · rw [abs_of_nonneg (by linarith)] at h
        exact ⟨-1, by push_cast; rw [abs_of_nonneg (by linarith)]; linarith⟩
      · rw [abs_of_nonpos (by linarith)] at h
        exact ⟨1, by push_cast; rw [abs_of_nonpos (by linarith)]; linarith⟩
  · rintro ⟨k, hk⟩
    rw [abs_le] at hk
    rcases lt_trichotomy k 0 with h | h | h
    · right
      have hk' : (k : ℝ) ≤ -1 := by exact_mod_cast (by omega : k ≤ -1)
      have : |q - p| ≥ q - p := le_abs_self _
      linarith
    · subst h
      left
      rw [abs_le]
      constructor <;> simp at hk <;> linarith
    · right
      have hk' : (1 : ℝ) ≤ k := by exact_mod_cast (by omega : 1 ≤ k)
      have : |q - p| ≥ -(q - p) := neg_le_abs _
      linarith

/-- **C20.** `isNear` decides whether the distance between the two directions is at most the size of the tolerance, whatever the
units and for every tolerance. -/
theorem C20_isNear (a b t : Angle) (x y z : ℝ) (ha : Measures a x) (hb : Measures b y) (ht : Measures t z) :
    ∃ r, a.isNear b t = .ok r ∧ (r = true ↔ WithinTurns |z| x y) := by
  have da := (defined_iff a).2 ⟨x, ha⟩
  have db := (defined_iff b).2 ⟨y, hb⟩
  have dt := (defined_iff t).2 ⟨z, ht⟩
  have hu : AUnit.degree ≠ .undefined := by decide
  refine ⟨_, by simp only [isNear, da, db, dt, Bool.not_true, Bool.or_self, Bool.false_eq_true, if_false,
    inUnit_eq ha hu, inUnit_eq hb hu, inUnit_eq ht hu, bind, Except.bind, pure, Except.pure]; rfl, ?_⟩
  simp only [Bool.or_eq_true, decide_eq_true_eq]
  simp only [perTurn]
  obtain ⟨h1, h2, k, h3⟩ := reduce_spec (x * 360) 0 360 (by norm_num)
  obtain ⟨h4, h5, m, h6⟩ := reduce_spec (y * 360) 0 360 (by norm_num)
  rw [circular_near _ _ _ ⟨h1, h2⟩ ⟨h4, h5⟩, h3, h6, WithinTurns]
  have key : ∀ n : ℤ, |x * 360 + k * (360 - 0) - (y * 360 + m * (360 - 0)) - n * 360| ≤ |z * 360| ↔
      |x - y - ((n + m - k : ℤ) : ℝ)| ≤ |z| := by
    intro n
    have e : x * 360 + k * (360 - 0) - (y * 360 + m * (360 - 0)) - n * 360 = (x - y - ((n + m - k : ℤ) : ℝ)) * 360 := by
      push_cast; ring
    rw [e, abs_mul, abs_mul]
    exact mul_le_mul_iff_of_pos_right (by norm_num)
  constructor
  · rintro ⟨n, hn⟩
    exact ⟨n + m - k, (key n).1 hn⟩
  · rintro ⟨n, hn⟩
    refine ⟨n - m + k, (key _).2 ?_⟩
    have e : n - m + k + m - k = n := by ring
    rw [e]; exact hn

example : Measures ⟨some 90, .degree⟩ (1 / 4) ∧ Measures ⟨some (-3 * Real.pi / 2), .radian⟩ (-3 / 4) :=
  ⟨quarter_degrees, threeQuarters_radians⟩

/-- **C20.** `isNear` is symmetric, and throws `Undefined` exactly when an argument is undefined. -/
theorem C20_isNear_symmetric (a b t : Angle) : a.isNear b t = b.isNear a t ∧
    (a.isNear b t = .error .undefined ↔ a.isDefined = false ∨ b.isDefined = false ∨ t.isDefined = false) := by
  cases da : a.isDefined with
  | false => simp [isNear, da]
  | true =>
    cases db : b.isDefined with
    | false => simp [isNear, da, db]
    | true =>
      cases dt : t.isDefined with
      | false => simp [isNear, da, db, dt]
      | true =>
        obtain ⟨x, hx⟩ := (defined_iff a).1 da
        obtain ⟨y, hy⟩ := (defined_iff b).1 db
        obtain ⟨z, hz⟩ := (defined_iff t).1 dt
        obtain ⟨r, e, f⟩ := C20_isNear a b t x y z hx hy hz
        obtain ⟨r', e', f'⟩ := C20_isNear b a t y x z hy hx hz
        refine ⟨?_, by rw [e]; simp⟩
        rw [e, e']
        congr 1
        rw [Bool.eq_iff_iff, f, f']
        constructor <;>
        · rintro ⟨k, hk⟩
          refine ⟨-k, ?_⟩
          rw [← abs_neg]
          convert hk using 2
          push_cast; ring

/-! ## C21 -/

theorem between_core {d : ℝ} (h : |d| ≤ 1) :
    (if 1 ≤ d then (.ok Angle.Zero : Res Angle) else if d ≤ -1 then .ok Angle.Pi else .ok ⟨some (Real.arccos d), .radian⟩) =
      .ok ⟨some (Real.arccos d), .radian⟩ := by
  rw [abs_le] at h
  split_ifs with h1 h2
  · have : d = 1 := le_antisymm h.2 h1
    rw [this, Real.arccos_one]; rfl
  · have : d = -1 := le_antisymm h2 h.1
    rw [this, Real.arccos_neg_one]; rfl
  · rfl

theorem abs_ratio_le {p q d : ℝ} (hp : 0 < p) (hq : 0 < q) (h : |d| ≤ p * q) : |d / (p * q)| ≤ 1 := by
  rw [abs_div, abs_of_pos (mul_pos hp hq)]
  exact (div_le_one (mul_pos hp hq)).2 h

theorem between3_eq (eps : ℝ) (heps : 0 < eps) (u v : V3) (hu : eps ≤ u.normSq) (hv : eps ≤ v.normSq) :
    Between3 eps (some u) (some v) = .ok ⟨some (Real.arccos (u.dot v / (u.norm * v.norm))), .radian⟩ := by
  have hu' : 0 < u.normSq := by linarith
  have hv' : 0 < v.normSq := by linarith
  have nu := V3.norm_pos hu'
  have nv := V3.norm_pos hv'
  simp only [Between3, not_lt.2 hu, not_lt.2 hv, or_self, if_false, V3.dot_normalized hu' hv']
  by_cases h1 : u = v
  · rw [if_pos h1]
    subst h1
    rw [V3.norm_mul_self]
    have : u.dot u / u.normSq = 1 := div_self hu'.ne'
    rw [this, Real.arccos_one]; rfl
  rw [if_neg h1]
  by_cases h2 : u = -v
  · rw [if_pos h2]
    subst h2
    have e1 : (-v).normSq = v.normSq := by simp [V3.normSq, V3.dot]
    have e2 : (-v).norm = v.norm := by simp only [V3.norm, e1]
    have e3 : (-v).dot v = - v.normSq := by simp only [V3.normSq, V3.dot, V3.neg_x, V3.neg_y, V3.neg_z]; ring
    rw [e2, V3.norm_mul_self, e3, neg_div, div_self hv'.ne', Real.arccos_neg_one]; rfl
  · rw [if_neg h2]
    exact between_core (abs_ratio_le nu nv (V3.abs_dot_le u v))

theorem between2_eq (eps : ℝ) (heps : 0 < eps) (u v : V2) (hu : eps ≤ u.normSq) (hv : eps ≤ v.normSq) :
    Between2 eps (some u) (some v) = .ok ⟨some (Real.arccos (u.dot v / (u.norm * v.norm))), .radian⟩ := by
  have hu' : 0 < u.normSq := by linarith
  have hv' : 0 < v.normSq := by linarith
  have nu := V2.norm_pos hu'
  have nv := V2.norm_pos hv'
  simp only [Between2, not_lt.2 hu, not_lt.2 hv, or_self, if_false, V2.dot_normalized hu' hv']
  by_cases h1 : u = v
  · rw [if_pos h1]
    subst h1
    rw [V2.norm_mul_self]
    have : u.dot u / u.normSq = 1 := div_self hu'.ne'
    rw [this, Real.arccos_one]; rfl
  rw [if_neg h1]
  by_cases h2 : u = -v
  · rw [if_pos h2]
    subst h2
    have e1 : (-v).normSq = v.normSq := by simp [V2.normSq, V2.dot]
    have e2 : (-v).norm = v.norm := by simp only [V2.norm, e1]
    have e3 : (-v).dot v = - v.normSq := by simp only [V2.normSq, V2.dot, V2.neg_x, V2.neg_y]; ring
    rw [e2, V2.norm_mul_self, e3, neg_div, div_self hv'.ne', Real.arccos_neg_one]; rfl
  · rw [if_neg h2]
    exact between_core (abs_ratio_le nu nv (V2.abs_dot_le u v))

/-- **C21.** 3D: `Between` returns the angle in `[0, π]` with cosine `u.v / (|u||v|)`; it is symmetric and unchanged when a
vector is multiplied by a positive number (as long as the vectors stay longer than the threshold). -/
theorem C21_between3 (eps : ℝ) (heps : 0 < eps) (u v : V3) (hu : eps ≤ u.normSq) (hv : eps ≤ v.normSq) :
    (∃ θ, Between3 eps (some u) (some v) = .ok ⟨some θ, .radian⟩ ∧ 0 ≤ θ ∧ θ ≤ Real.pi ∧
      Real.cos θ * (u.norm * v.norm) = u.dot v) ∧
    Between3 eps (some u) (some v) = Between3 eps (some v) (some u) ∧
    ∀ k : ℝ, 0 < k → eps ≤ (k • u).normSq → Between3 eps (some (k • u)) (some v) = Between3 eps (some u) (some v) := by
  have hu' : 0 < u.normSq := by linarith
  have hv' : 0 < v.normSq := by linarith
  have nu := V3.norm_pos hu'
  have nv := V3.norm_pos hv'
  refine ⟨⟨_, between3_eq eps heps u v hu hv, Real.arccos_nonneg _, Real.arccos_le_pi _, ?_⟩, ?_, ?_⟩
  · have h := abs_le.1 (abs_ratio_le nu nv (V3.abs_dot_le u v))
    rw [Real.cos_arccos h.1 h.2]
    field_simp
  · rw [between3_eq eps heps u v hu hv, between3_eq eps heps v u hv hu, V3.dot_comm, mul_comm v.norm]
  · intro k hk hk'
    rw [between3_eq eps heps u v hu hv, between3_eq eps heps _ v hk' hv]
    have e1 : (k • u).normSq = k ^ 2 * u.normSq := by simp only [V3.normSq, V3.dot, V3.smul_x, V3.smul_y, V3.smul_z]; ring
    have e2 : (k • u).norm = k * u.norm := by
      rw [V3.norm, e1, Real.sqrt_mul (sq_nonneg k), Real.sqrt_sq hk.le]; rfl
    have e3 : (k • u).dot v = k * u.dot v := by simp only [V3.dot, V3.smul_x, V3.smul_y, V3.smul_z]; ring
    have e4 : (k • u).dot v / ((k • u).norm * v.norm) = u.dot v / (u.norm * v.norm) := by
      rw [e2, e3]; field_simp
    rw [e4]

example : (1 / 1000 : ℝ) ≤ V3.normSq ⟨1, 2, 3⟩ ∧ (1 / 1000 : ℝ) ≤ V3.normSq ⟨-1, 0, 3⟩ := by
  norm_num [V3.normSq, V3.dot]

/-- **C21.** 2D. -/
theorem C21_between2 (eps : ℝ) (heps : 0 < eps) (u v : V2) (hu : eps ≤ u.normSq) (hv : eps ≤ v.normSq) :
    (∃ θ, Between2 eps (some u) (some v) = .ok ⟨some θ, .radian⟩ ∧ 0 ≤ θ ∧ θ ≤ Real.pi ∧
      Real.cos θ * (u.norm * v.norm) = u.dot v) ∧
    Between2 eps (some u) (some v) = Between2 eps (some v) (some u) ∧
    ∀ k : ℝ, 0 < k → eps ≤ (k • u).normSq → Between2 eps (some (k • u)) (some v) = Between2 eps (some u) (some v) := by
  have hu' : 0 < u.normSq := by linarith
  have hv' : 0 < v.normSq := by linarith
  have nu := V2.norm_pos hu'
  have nv := V2.norm_pos hv'
  refine ⟨⟨_, between2_eq eps heps u v hu hv, Real.arccos_nonneg _, Real.arccos_le_pi _, ?_⟩, ?_, ?_⟩
  · have h := abs_le.1 (abs_ratio_le nu nv (V2.abs_dot_le u v))
    rw [Real.cos_arccos h.1 h.2]
    field_simp
  · rw [between2_eq eps heps u v hu hv, between2_eq eps heps v u hv hu, V2.dot_comm, mul_comm v.norm]
  · intro k hk hk'
    rw [between2_eq eps heps u v hu hv, between2_eq eps heps _ v hk' hv]
    have e1 : (k • u).normSq = k ^ 2 * u.normSq := by simp only [V2.normSq, V2.dot, V2.smul_x, V2.smul_y]; ring
    have e2 : (k • u).norm = k * u.norm := by
      rw [V2.norm, e1, Real.sqrt_mul (sq_nonneg k), Real.sqrt_sq hk.le]; rfl
    have e3 : (k • u).dot v = k * u.dot v := by simp only [V2.dot, V2.smul_x, V2.smul_y]; ring
    have e4 : (k • u).dot v / ((k • u).norm * v.norm) = u.dot v / (u.norm * v.norm) := by
      rw [e2, e3]; field_simp
    rw [e4]

/-- **C21.** It throws exactly for undefined vectors (`Undefined`) and for vectors whose squared norm is below the threshold
(`RuntimeError`). -/
theorem C21_between_throws (eps : ℝ) (heps : 0 < eps) :
    (∀ u v : Option V3, (u = none ∨ v = none → Between3 eps u v = .error .undefined) ∧
      ((∃ e, Between3 eps u v = .error e) ↔ u = none ∨ v = none ∨ (∃ w, u = some w ∧ w.normSq < eps) ∨ ∃ w, v = some w ∧ w.normSq < eps)) ∧
    (∀ u v : Option V2, (u = none ∨ v = none → Between2 eps u v = .error .undefined) ∧
      ((∃ e, Between2 eps u v = .error e) ↔ u = none ∨ v = none ∨ (∃ w, u = some w ∧ w.normSq < eps) ∨ ∃ w, v = some w ∧ w.normSq < eps)) := by
  constructor
  · intro u v
    cases u with
    | none => simp [Between3]
    | some u =>
      cases v with
      | none => simp [Between3]
      | some v =>
        by_cases h1 : u.normSq < eps
        · simp [Between3, h1]
        · by_cases h2 : v.normSq < eps
          · simp [Between3, h2]
          · rw [between3_eq eps heps u v (not_lt.1 h1) (not_lt.1 h2)]
            simp [h1, h2, not_lt.1 h1, not_lt.1 h2]
  · intro u v
    cases u with
    | none => simp [Between2]
    | some u =>
      cases v with
      | none => simp [Between2]
      | some v =>
        by_cases h1 : u.normSq < eps
        · simp [Between2, h1]
        · by_cases h2 : v.normSq < eps
          · simp [Between2, h2]
          · rw [between2_eq eps heps u v (not_lt.1 h1) (not_lt.1 h2)]
            simp [h1, h2, not_lt.1 h1, not_lt.1 h2]

end Verif.Props
