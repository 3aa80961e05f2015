import Mathlib.Data.Rat.Floor
import Verif.Lemmas.DoubleAngle

/-!
# Angles in double precision

Properties C107 and C108. Unlike the other files on angles, nothing is exact here: every operation is rounded as binary64 rounds it.
-/

namespace Verif.Props

open Verif Verif.Spec Verif.Double

variable {α : Type} [Field α] [LinearOrder α] [IsStrictOrderedRing α] [FloorRing α]

/-- the arithmetic of the model is the one of IEEE 754: the nearest number of the format, the even one if there are two -/
theorem C107_rounding (x : α) : NearestDouble x (rnd x) ∧ TiesEven x (rnd x) := ⟨rnd_nearest x, rnd_tiesEven x⟩

/-- whenever the reduction of a finite value ends, the result is in the range, for bounds whose difference is a number of the format -/
theorem C107_range_partial {v lo hi : α} {n : ℕ} {w : F64 α} (hv : Representable v) (hlo : Representable lo) (hhi : Representable hi)
    (hv' : |v| < 2 ^ 1024) (hlo' : |lo| < 2 ^ 1024) (hhi' : |hi| < 2 ^ 1024) (hlt : lo < hi) (hr : Representable (hi - lo)) (hr' : |hi - lo| < 2 ^ 1024)
    (h : DAngle.reduceRange n (.fin v) (.fin lo) (.fin hi) = some w) : ∃ x, w = .fin x ∧ Representable x ∧ lo ≤ x ∧ x < hi := by
  unfold DAngle.reduceRange at h
  have hR : (F64.fin hi).sub (.fin lo) = .fin (hi - lo) := by
    rw [DAngle.sub_fin, F64.ofExact_fin (by rwa [rnd_exact hr]), rnd_exact hr]
  rw [hR] at h
  split at h
  · rename_i hin
    simp only [F64.le, F64.lt, Bool.and_eq_true, decide_eq_true_eq] at hin
    cases h
    exact ⟨v, rfl, hv, hin⟩
  · cases hw : DAngle.raise (.fin (hi - lo)) (.fin lo) n (.fin v) with
    | none => rw [hw] at h; cases h
    | some u =>
      rw [hw] at h
      obtain ⟨x, rfl, hx, hx', hlx⟩ := DAngle.raise_range (sub_nonneg.mpr hlt.le) hhi hhi' (by simp) hv hv' hw
      exact DAngle.lower_range (sub_nonneg.mpr hlt.le) hlo hlo' (by simp) hx hx' hlx h

example : Representable (450 : ℚ) ∧ Representable (0 : ℚ) ∧ Representable (360 : ℚ) ∧ Representable ((360 : ℚ) - 0) ∧
    DAngle.reduceRange 3 (.fin (450 : ℚ)) (.fin 0) (.fin 360) = some (.fin 90) := by
  have h450 : Representable (450 : ℚ) := by exact_mod_cast representable_int (α := ℚ) (m := 450) (by norm_num)
  have h360 : Representable (360 : ℚ) := by exact_mod_cast representable_int (α := ℚ) (m := 360) (by norm_num)
  have h90 : Representable (90 : ℚ) := by exact_mod_cast representable_int (α := ℚ) (m := 90) (by norm_num)
  refine ⟨h450, representable_zero, h360, by simpa using h360, ?_⟩
  have b : ∀ x : ℚ, |x| ≤ 2 ^ 10 → |x| < 2 ^ 1024 := fun x hx => lt_of_le_of_lt hx (pow_lt_pow_right₀ one_lt_two (by norm_num))
  have e1 : (F64.fin (360 : ℚ)).sub (.fin 0) = .fin 360 := by
    rw [DAngle.sub_fin, sub_zero, F64.ofExact_fin] <;> rw [rnd_exact h360]
    exact b _ (by norm_num)
  have e2 : (F64.fin (450 : ℚ)).sub (.fin 360) = .fin 90 := by
    rw [DAngle.sub_fin, show (450 : ℚ) - 360 = 90 by norm_num, F64.ofExact_fin] <;> rw [rnd_exact h90]
    exact b _ (by norm_num)
  simp only [DAngle.reduceRange, e1]
  norm_num [F64.le, F64.lt, DAngle.raise, DAngle.lower, e2]

/-- the reduction of a value of less than about `2 ^ 52` turns ends; the result is below the upper bound, differs from the value by whole turns and a rounding
error for each of them, and there are at most about four turns for each turn of distance -/
theorem C107_returns_partial {v lo hi R B : α} (hv : Representable v) (hR : (F64.fin hi).sub (.fin lo) = .fin R) (hRr : Representable R) (hR0 : 0 < R)
    (hBd : B = |v| + |lo| + |hi| + 3 * R) (hB : B ≤ 2 ^ 52 * R) (hB' : 2 * B ≤ 2 ^ 1023) :
    ∃ (n : ℕ) (x : α) (j k : ℕ), DAngle.reduceRange n (.fin v) (.fin lo) (.fin hi) = some (.fin x) ∧ x < hi ∧ ((j : α) + k) * R ≤ 4 * B ∧
      |x - (v + j * R - k * R)| ≤ (j + k) * (2 ^ (-53 : ℤ) * B) := by
  have av := abs_le.mp (le_refl |v|)
  have al := abs_le.mp (le_refl |lo|)
  have ah := abs_le.mp (le_refl |hi|)
  have nv := abs_nonneg v
  have nl := abs_nonneg lo
  have nh := abs_nonneg hi
  have p53 := two_zpow_pos (α := α) (-53)
  have hB0 : 0 < B := by rw [hBd]; linarith
  by_cases hin : lo ≤ v ∧ v < hi
  · refine ⟨0, v, 0, 0, ?_, hin.2, ?_, by simp⟩
    · simp [DAngle.reduceRange, F64.le, F64.lt, hin.1, hin.2]
    · simpa using hB0.le
  · obtain ⟨k1, hk1, hk1'⟩ : ∃ k : ℕ, lo - k * (R / 2) ≤ v ∧ (k : α) * R ≤ 2 * (|lo| + |v|) + R := by
      refine ⟨⌈(|lo| + |v|) / (R / 2)⌉₊, ?_, ?_⟩
      · have := Nat.le_ceil ((|lo| + |v|) / (R / 2))
        rw [div_le_iff₀ (by linarith)] at this
        linarith
      · have := Nat.ceil_lt_add_one (a := (|lo| + |v|) / (R / 2)) (by positivity)
        have h2 := mul_le_mul_of_nonneg_right this.le hR0.le
        have h3 : ((|lo| + |v|) / (R / 2) + 1) * R = 2 * (|lo| + |v|) + R := by field_simp
        linarith
    obtain ⟨j, w, hj, hrun, hlw, hor, hwr, hacc⟩ := DAngle.raise_run (lo := lo) hR0 hRr hB hB' (by rw [hBd]; linarith) k1 v hv (by rw [hBd]; linarith) hk1
    have hw1 : w ≤ |v| + |lo| + 2 * R := by
      rcases hor with h | h
      · rw [h]; linarith
      · linarith
    obtain ⟨k2, hk2, hk2'⟩ : ∃ k : ℕ, w < hi + k * (R / 2) ∧ (k : α) * R ≤ 2 * (|v| + |lo| + 2 * R + |hi|) + R := by
      have hpos : 0 ≤ (|v| + |lo| + 2 * R + |hi|) / (R / 2) := by positivity
      refine ⟨⌊(|v| + |lo| + 2 * R + |hi|) / (R / 2)⌋₊ + 1, ?_, ?_⟩
      · have := Nat.lt_floor_add_one ((|v| + |lo| + 2 * R + |hi|) / (R / 2))
        rw [div_lt_iff₀ (by linarith)] at this
        push_cast
        linarith
      · have := Nat.floor_le hpos
        have h2 := mul_le_mul_of_nonneg_right this hR0.le
        have h3 : ((|v| + |lo| + 2 * R + |hi|) / (R / 2)) * R = 2 * (|v| + |lo| + 2 * R + |hi|) := by field_simp
        push_cast
        linarith
    obtain ⟨k, x, hk, hrun', hx, hacc'⟩ := DAngle.lower_run (hi := hi) hR0 hRr hB hB' (by rw [hBd]; linarith) k2 w hwr (by rw [hBd]; linarith) hk2
    refine ⟨max (k1 + 1) (k2 + 1), x, j, k, ?_, hx, ?_, ?_⟩
    · unfold DAngle.reduceRange
      rw [if_neg (by simpa [F64.le, F64.lt] using hin), hR, DAngle.raise_more (le_max_left _ _) hrun]
      exact DAngle.lower_more (le_max_right _ _) hrun'
    · have h1 : (j : α) ≤ k1 := by exact_mod_cast hj
      have h2 : (k : α) ≤ k2 := by exact_mod_cast hk
      have h3 := mul_le_mul_of_nonneg_right h1 hR0.le
      have h4 := mul_le_mul_of_nonneg_right h2 hR0.le
      rw [hBd, add_mul]
      linarith
    · have e : x - (v + j * R - k * R) = (x - (w - k * R)) + (w - (v + j * R)) := by ring
      rw [e, add_mul]
      exact (abs_add_le _ _).trans (by linarith)

example : ∃ v lo hi R B : ℚ, Representable v ∧ (F64.fin hi).sub (.fin lo) = .fin R ∧ Representable R ∧ 0 < R ∧ B = |v| + |lo| + |hi| + 3 * R ∧ B ≤ 2 ^ 52 * R ∧
    2 * B ≤ 2 ^ 1023 := by
  have h360 : Representable (360 : ℚ) := by exact_mod_cast representable_int (α := ℚ) (m := 360) (by norm_num)
  have b : ∀ x : ℚ, |x| ≤ 2 ^ 100 → |x| < 2 ^ 1024 := fun x hx => lt_of_le_of_lt hx (pow_lt_pow_right₀ one_lt_two (by norm_num))
  refine ⟨1000000, 0, 360, 360, 1001440, ?_, ?_, h360, by norm_num, by norm_num [abs_of_pos], by norm_num, ?_⟩
  · exact_mod_cast representable_int (α := ℚ) (m := 1000000) (by norm_num)
  · rw [DAngle.sub_fin, sub_zero, F64.ofExact_fin] <;> rw [rnd_exact h360]
    exact b _ (by norm_num)
  · exact le_trans (b := (2 : ℚ) ^ 100) (by norm_num) (pow_le_pow_right₀ one_le_two (by norm_num))

/-- the claim is false for values of `2 ^ 55` turns or more: the turn is lost in the value, and the loop never ends -/
theorem C107_stuck_violated {v lo hi R : α} (hv : Representable v) (hv' : |v| < 2 ^ 1024) (hR : (F64.fin hi).sub (.fin lo) = .fin R) (hlt : lo < hi)
    (hout : v < lo ∨ hi ≤ v) (hbig : 2 ^ 55 * |R| ≤ |v|) (n : ℕ) : DAngle.reduceRange n (.fin v) (.fin lo) (.fin hi) = none := by
  unfold DAngle.reduceRange
  have habs : ∀ d : α, |d| = |R| → (F64.fin v).add (.fin d) = .fin v := by
    intro d hd
    have h := rnd_absorb hv (d := d) (by rwa [hd])
    rw [F64.add, F64.ofExact_fin (by rwa [h]), h]
  rw [hR]
  rcases hout with h | h
  · rw [if_neg (by simp [F64.le, F64.lt, not_le.mpr h]), DAngle.raise_stuck (by simpa [F64.lt] using h) (habs R rfl)]
    rfl
  · rw [if_neg (by simp [F64.le, F64.lt, not_lt.mpr h])]
    cases n with
    | zero => rfl
    | succ n =>
      rw [DAngle.raise, if_neg (by simpa [F64.lt] using (hlt.le.trans h))]
      exact DAngle.lower_stuck (by simpa [F64.le] using h) (by rw [F64.sub, F64.neg]; exact habs (-R) (abs_neg R)) _

example : ∃ v lo hi R : ℚ, Representable v ∧ |v| < 2 ^ 1024 ∧ (F64.fin hi).sub (.fin lo) = .fin R ∧ lo < hi ∧ (v < lo ∨ hi ≤ v) ∧ 2 ^ 55 * |R| ≤ |v| := by
  have h360 : Representable (360 : ℚ) := by exact_mod_cast representable_int (α := ℚ) (m := 360) (by norm_num)
  have b : ∀ x : ℚ, |x| ≤ 2 ^ 100 → |x| < 2 ^ 1024 := fun x hx => lt_of_le_of_lt hx (pow_lt_pow_right₀ one_lt_two (by norm_num))
  refine ⟨2 ^ 64, 0, 360, 360, ?_, b _ (by norm_num [abs_of_pos]), ?_, by norm_num, Or.inr (by norm_num), by norm_num [abs_of_pos]⟩
  · exact ⟨1, 64, by norm_num, by norm_num, by norm_num⟩
  · rw [DAngle.sub_fin, sub_zero, F64.ofExact_fin] <;> rw [rnd_exact h360]
    exact b _ (by norm_num)

/-- nor does the reduction of an infinite value to a finite range end -/
theorem C107_infinite_violated {lo hi R : α} (s : Bool) (hR : (F64.fin hi).sub (.fin lo) = .fin R) (n : ℕ) :
    DAngle.reduceRange n (.inf s) (.fin lo) (.fin hi) = none := by
  unfold DAngle.reduceRange
  rw [hR]
  cases s with
  | true => rw [if_neg (by simp [F64.le]), DAngle.raise_stuck (by simp [F64.lt]) rfl]; rfl
  | false =>
    rw [if_neg (by simp [F64.lt])]
    cases n with
    | zero => rfl
    | succ n =>
      rw [DAngle.raise, if_neg (by simp [F64.lt])]
      exact DAngle.lower_stuck (by simp [F64.le]) rfl _

example : (F64.fin (2 : ℚ)).sub (.fin 1) = .fin 1 := by
  have h1 : Representable (1 : ℚ) := by exact_mod_cast representable_int (α := ℚ) (m := 1) (by norm_num)
  rw [DAngle.sub_fin, show (2 : ℚ) - 1 = 1 by norm_num, F64.ofExact_fin] <;> rw [rnd_exact h1]
  exact lt_of_le_of_lt (b := (2 : ℚ) ^ 1) (by norm_num) (pow_lt_pow_right₀ one_lt_two (by norm_num))

/-- bounds whose difference is a turn only after rounding are accepted, and the result can be below the range: with the doubles nearest to 0.2 and 360.2,
`Angle::Degrees(360.2).inDegrees(0.2, 360.2)` is less than 0.2 -/
theorem C107_below_violated : ∃ a lo hi x : α, lo < hi ∧ (∀ n, DAngle.inRange (n + 2) .degree ⟨.fin a, .degree⟩ (.fin lo) (.fin hi) = some (.ok (.fin x))) ∧ x < lo := by
  have b : ∀ x : α, |x| ≤ 2 ^ 100 → |x| < 2 ^ 1024 := fun x hx => lt_of_le_of_lt hx (pow_lt_pow_right₀ one_lt_two (by norm_num))
  have r360 : rnd ((6336705413198643 : α) * 2 ^ (-44 : ℤ) - 7205759403792794 * 2 ^ (-55 : ℤ)) = 360 := by
    have := rnd_eq (x := (6336705413198643 : α) * 2 ^ (-44 : ℤ) - 7205759403792794 * 2 ^ (-55 : ℤ)) 6333186975989760 (-44) (by norm_num)
      (by rw [abs_of_pos] <;> norm_num) (by rw [abs_of_pos] <;> norm_num) (by left; rw [abs_of_pos] <;> norm_num)
    rw [this]; norm_num
  have rlow : rnd ((6336705413198643 : α) * 2 ^ (-44 : ℤ) - 360) = 7205759403792384 * 2 ^ (-55 : ℤ) := by
    have h : Representable ((6336705413198643 : α) * 2 ^ (-44 : ℤ) - 360) := ⟨7205759403792384, -55, by norm_num, by norm_num, by norm_num⟩
    rw [rnd_exact h]; norm_num
  refine ⟨6336705413198643 * 2 ^ (-44 : ℤ), 7205759403792794 * 2 ^ (-55 : ℤ), 6336705413198643 * 2 ^ (-44 : ℤ), 7205759403792384 * 2 ^ (-55 : ℤ), by norm_num,
    fun n => ?_, by norm_num⟩
  have e1 : (F64.fin ((6336705413198643 : α) * 2 ^ (-44 : ℤ))).sub (.fin (7205759403792794 * 2 ^ (-55 : ℤ))) = .fin 360 := by
    rw [DAngle.sub_fin, F64.ofExact_fin] <;> rw [r360]
    exact b _ (by rw [abs_of_pos] <;> norm_num)
  have e2 : (F64.fin ((6336705413198643 : α) * 2 ^ (-44 : ℤ))).sub (.fin 360) = .fin (7205759403792384 * 2 ^ (-55 : ℤ)) := by
    rw [DAngle.sub_fin, F64.ofExact_fin] <;> rw [rlow]
    exact b _ (by rw [abs_of_pos] <;> norm_num)
  have hle : ¬ (6336705413198643 : α) * 2 ^ (-44 : ℤ) < 7205759403792794 * 2 ^ (-55 : ℤ) := by norm_num
  have hle' : ¬ (6336705413198643 : α) * 2 ^ (-44 : ℤ) ≤ 7205759403792384 * 2 ^ (-55 : ℤ) := by norm_num
  generalize (6336705413198643 : α) * 2 ^ (-44 : ℤ) = H at *
  generalize (7205759403792794 : α) * 2 ^ (-55 : ℤ) = L at *
  generalize (7205759403792384 : α) * 2 ^ (-55 : ℤ) = X at *
  simp [DAngle.inRange, DAngle.inUnit, DAngle.isDefined, DAngle.reduceRange, DAngle.turn, DAngle.raise, DAngle.lower, e1, e2, F64.eq, F64.le, F64.lt, hle, hle',
    -not_lt, -not_le]

/-- an angle of up to `2 ^ 51` turns equals itself, and the test is immediate -/
theorem C108_reflexive_partial {v T : α} {u : AUnit} (hu : u ≠ .undefined) (hv : Representable v) (hT : DAngle.turn u = .fin T) (hb : |v| ≤ 2 ^ 51 * T) (n : ℕ) :
    DAngle.eq n ⟨.fin v, u⟩ ⟨.fin v, u⟩ = some (.ok true) := by
  obtain ⟨T', hT', hTr, hT1, hT2⟩ := DAngle.turn_fin (α := α) hu
  rw [hT] at hT'
  cases hT'
  have e53 : (2 : α) ^ (-53 : ℤ) = 1 / 2 ^ 53 := by rw [zpow_neg, one_div]; norm_cast
  have herr := rnd_add_error hv hTr
  have h1 : |v + T| ≤ 2 ^ 52 * T := by
    have := abs_add_le v T
    rw [abs_of_nonneg (a := T) (by linarith)] at this
    norm_num at hb ⊢; linarith
  have h2 : |rnd (v + T) - (v + T)| ≤ T / 2 := by
    refine herr.trans ?_
    rw [e53]
    norm_num at h1 ⊢; linarith
  have h3 := (abs_le.mp h2).1
  have h4 : v < rnd (v + T) := by linarith
  have hfin : (F64.fin v).add (.fin T) = .fin (rnd (v + T)) := by
    rw [F64.add, F64.ofExact_fin]
    refine lt_of_le_of_lt (b := (2 : α) ^ 100) ?_ (pow_lt_pow_right₀ one_lt_two (by norm_num))
    have h5 := abs_sub_abs_le_abs_sub (rnd (v + T)) (v + T)
    norm_num at h1 hT2 ⊢; linarith
  simp [DAngle.eq, hu, hT, hfin, DAngle.reduceRange, F64.le, F64.lt, h4, F64.eq]

example : DAngle.turn (α := ℚ) .degree = .fin 360 ∧ |(12345 : ℚ)| ≤ 2 ^ 51 * 360 ∧ Representable (12345 : ℚ) :=
  ⟨rfl, by norm_num, by exact_mod_cast representable_int (α := ℚ) (m := 12345) (by norm_num)⟩

/-- the claim is false for angles of `2 ^ 55` turns or more: comparing one with itself does not end -/
theorem C108_stuck_violated {v T : α} {u : AUnit} (hu : u ≠ .undefined) (hv : Representable v) (hv' : |v| < 2 ^ 1024) (hT : DAngle.turn u = .fin T)
    (hb : 2 ^ 55 * T ≤ |v|) (n : ℕ) : DAngle.eq n ⟨.fin v, u⟩ ⟨.fin v, u⟩ = none := by
  obtain ⟨T', hT', hTr, hT1, hT2⟩ := DAngle.turn_fin (α := α) hu
  rw [hT] at hT'
  cases hT'
  have h := rnd_absorb hv (d := T) (by rwa [abs_of_nonneg (by linarith)])
  have hfin : (F64.fin v).add (.fin T) = .fin v := by rw [F64.add, F64.ofExact_fin (by rwa [h]), h]
  have p1024 : (0 : α) < 2 ^ 1024 := by positivity
  have hz : (F64.fin v).sub (.fin v) = .fin 0 := by
    rw [DAngle.sub_fin, sub_self, F64.ofExact_fin] <;> rw [rnd_zero]
    simpa using p1024
  have hs : (F64.fin v).sub (.fin 0) = .fin v := by
    rw [DAngle.sub_fin, sub_zero, F64.ofExact_fin] <;> rw [rnd_exact hv]
    exact hv'
  have hred : DAngle.reduceRange n (.fin v) (.fin v) (.fin v) = none := by
    unfold DAngle.reduceRange
    rw [if_neg (by simp [F64.lt]), hz]
    cases n with
    | zero => rfl
    | succ n =>
      rw [DAngle.raise, if_neg (by simp [F64.lt])]
      exact DAngle.lower_stuck (by simp [F64.le]) hs _
  simp [DAngle.eq, hu, hT, hfin, hred]

example : ∃ v T : ℚ, Representable v ∧ |v| < 2 ^ 1024 ∧ DAngle.turn (α := ℚ) .degree = .fin T ∧ 2 ^ 55 * T ≤ |v| :=
  ⟨2 ^ 64, 360, ⟨1, 64, by norm_num, by norm_num, by norm_num⟩,
    lt_of_le_of_lt (b := (2 : ℚ) ^ 64) (by norm_num [abs_of_pos]) (pow_lt_pow_right₀ one_lt_two (by norm_num)), rfl, by norm_num [abs_of_pos]⟩

/-- equality of angles that are a turn apart is not symmetric: with the doubles nearest to 0.1 and 360.1 degrees, the first does not equal the second, which equals
the first -/
theorem C108_symmetric_violated : ∃ a b : α, ∀ n,
    DAngle.eq (n + 2) ⟨.fin a, .degree⟩ ⟨.fin b, .degree⟩ = some (.ok false) ∧ DAngle.eq (n + 2) ⟨.fin b, .degree⟩ ⟨.fin a, .degree⟩ = some (.ok true) := by
  have b : ∀ x : α, |x| ≤ 2 ^ 100 → |x| < 2 ^ 1024 := fun x hx => lt_of_le_of_lt hx (pow_lt_pow_right₀ one_lt_two (by norm_num))
  have r1 : rnd ((7205759403792794 : α) * 2 ^ (-56 : ℤ) + 360) = 6334946194594202 * 2 ^ (-44 : ℤ) := by
    have := rnd_eq (x := (7205759403792794 : α) * 2 ^ (-56 : ℤ) + 360) 6334946194594202 (-44) (by norm_num)
      (by rw [abs_of_pos] <;> norm_num) (by rw [abs_of_pos] <;> norm_num) (by left; rw [abs_lt]; constructor <;> norm_num)
    rw [this]; norm_num
  have r2 : rnd ((6334946194594202 : α) * 2 ^ (-44 : ℤ) - 7205759403792794 * 2 ^ (-56 : ℤ)) = 360 := by
    have := rnd_eq (x := (6334946194594202 : α) * 2 ^ (-44 : ℤ) - 7205759403792794 * 2 ^ (-56 : ℤ)) 6333186975989760 (-44) (by norm_num)
      (by rw [abs_of_pos] <;> norm_num) (by rw [abs_of_pos] <;> norm_num) (by left; rw [abs_lt]; constructor <;> norm_num)
    rw [this]; norm_num
  have r3 : rnd ((6334946194594202 : α) * 2 ^ (-44 : ℤ) - 360) = 7205759403794432 * 2 ^ (-56 : ℤ) := by
    have h : Representable ((6334946194594202 : α) * 2 ^ (-44 : ℤ) - 360) := ⟨7205759403794432, -56, by norm_num, by norm_num, by norm_num⟩
    rw [rnd_exact h]; norm_num
  have r4 : rnd ((6334946194594202 : α) * 2 ^ (-44 : ℤ) + 360) = 6334066585291981 * 2 ^ (-43 : ℤ) := by
    have h : Representable ((6334946194594202 : α) * 2 ^ (-44 : ℤ) + 360) := ⟨6334066585291981, -43, by norm_num, by norm_num, by norm_num⟩
    rw [rnd_exact h]; norm_num
  have r5 : rnd ((6334066585291981 : α) * 2 ^ (-43 : ℤ) - 6334946194594202 * 2 ^ (-44 : ℤ)) = 360 := by
    have h : Representable (360 : α) := ⟨360, 0, by norm_num, by norm_num, by norm_num⟩
    rw [show (6334066585291981 : α) * 2 ^ (-43 : ℤ) - 6334946194594202 * 2 ^ (-44 : ℤ) = 360 by norm_num, rnd_exact h]
  have e1 : (F64.fin ((7205759403792794 : α) * 2 ^ (-56 : ℤ))).add (.fin 360) = .fin (6334946194594202 * 2 ^ (-44 : ℤ)) := by
    rw [F64.add, F64.ofExact_fin] <;> rw [r1]
    exact b _ (by rw [abs_of_pos] <;> norm_num)
  have e2 : (F64.fin ((6334946194594202 : α) * 2 ^ (-44 : ℤ))).sub (.fin (7205759403792794 * 2 ^ (-56 : ℤ))) = .fin 360 := by
    rw [DAngle.sub_fin, F64.ofExact_fin] <;> rw [r2]
    exact b _ (by rw [abs_of_pos] <;> norm_num)
  have e3 : (F64.fin ((6334946194594202 : α) * 2 ^ (-44 : ℤ))).sub (.fin 360) = .fin (7205759403794432 * 2 ^ (-56 : ℤ)) := by
    rw [DAngle.sub_fin, F64.ofExact_fin] <;> rw [r3]
    exact b _ (by rw [abs_of_pos] <;> norm_num)
  have e4 : (F64.fin ((6334946194594202 : α) * 2 ^ (-44 : ℤ))).add (.fin 360) = .fin (6334066585291981 * 2 ^ (-43 : ℤ)) := by
    rw [F64.add, F64.ofExact_fin] <;> rw [r4]
    exact b _ (by rw [abs_of_pos] <;> norm_num)
  have e5 : (F64.fin ((6334066585291981 : α) * 2 ^ (-43 : ℤ))).sub (.fin (6334946194594202 * 2 ^ (-44 : ℤ))) = .fin 360 := by
    rw [DAngle.sub_fin, F64.ofExact_fin] <;> rw [r5]
    exact b _ (by rw [abs_of_pos] <;> norm_num)
  refine ⟨7205759403792794 * 2 ^ (-56 : ℤ), 6334946194594202 * 2 ^ (-44 : ℤ), fun n => ?_⟩
  have h1 : (7205759403792794 : α) * 2 ^ (-56 : ℤ) < 6334946194594202 * 2 ^ (-44 : ℤ) := by norm_num
  have h2 : (7205759403794432 : α) * 2 ^ (-56 : ℤ) < 6334946194594202 * 2 ^ (-44 : ℤ) := by norm_num
  have h3 : (6334946194594202 : α) * 2 ^ (-44 : ℤ) < 6334066585291981 * 2 ^ (-43 : ℤ) := by norm_num
  have h4 : (7205759403792794 : α) * 2 ^ (-56 : ℤ) ≠ 7205759403794432 * 2 ^ (-56 : ℤ) := by norm_num
  generalize (6334946194594202 : α) * 2 ^ (-44 : ℤ) = B at *
  generalize (7205759403792794 : α) * 2 ^ (-56 : ℤ) = A at *
  generalize (7205759403794432 : α) * 2 ^ (-56 : ℤ) = X at *
  generalize (6334066585291981 : α) * 2 ^ (-43 : ℤ) = C at *
  constructor
  · simp [DAngle.eq, DAngle.turn, e1, DAngle.reduceRange, e2, DAngle.raise, DAngle.lower, e3, F64.le, F64.lt, F64.eq, not_lt.mpr h1.le, not_le.mpr h2, h4, -not_lt, -not_le]
  · simp [DAngle.eq, DAngle.turn, e4, DAngle.reduceRange, e5, DAngle.raise, DAngle.lower, e1, F64.le, F64.lt, F64.eq, h1, not_le.mpr h1, not_le.mpr h3, -not_lt, -not_le]

/-- `isNear` does not depend on the order of the two angles: in double precision too a difference has the same magnitude both ways -/
theorem C108_near_symmetric {n : ℕ} {a b tol : DAngle α} {r : Bool} (h : DAngle.isNear n a b tol = some (.ok r)) : DAngle.isNear n b a tol = some (.ok r) := by
  unfold DAngle.isNear at h ⊢
  cases ha : a.isDefined <;> cases hb : b.isDefined <;> cases ht : tol.isDefined <;> simp only [ha, hb, ht] at h ⊢ <;> try (simp at h; done)
  cases hx : a.inUnit .degree <;> cases hy : b.inUnit .degree <;> cases hz : tol.inUnit .degree <;> simp only [hx, hy, hz] at h ⊢ <;> try (simp at h; done)
  rename_i x y z
  cases h1 : DAngle.reduceRange n x (.fin 0) (.fin 360) <;> cases h2 : DAngle.reduceRange n y (.fin 0) (.fin 360) <;> simp only [h1, h2] at h ⊢ <;>
    try (simp at h; done)
  rw [DAngle.dbl_abs_sub_comm] at h
  exact h

/-- an angle is near itself whatever the tolerance, if the test returns and the angle in degrees is finite -/
theorem C108_near_self {n : ℕ} {a tol : DAngle α} {x : α} {r : Bool} {t : α} (hx : a.inUnit .degree = .ok (.fin x)) (hx' : Representable x) (hx'' : |x| < 2 ^ 1024)
    (ht : tol.inUnit .degree = .ok (.fin t)) (h : DAngle.isNear n a a tol = some (.ok r)) : r = true := by
  unfold DAngle.isNear at h
  cases ha : a.isDefined <;> cases hd : tol.isDefined <;> simp only [ha, hd] at h <;> try (simp at h; done)
  simp only [hx, ht] at h
  cases h1 : DAngle.reduceRange n (.fin x) (.fin 0) (.fin 360) with
  | none => simp [h1] at h
  | some y =>
    simp only [h1] at h
    have r360 : Representable (360 : α) := ⟨360, 0, by norm_num, by norm_num, by norm_num⟩
    have b360 : |(360 : α)| < 2 ^ 1024 := lt_of_le_of_lt (b := 2 ^ 10) (by rw [abs_of_pos] <;> norm_num) (pow_lt_pow_right₀ one_lt_two (by norm_num))
    obtain ⟨z, rfl, -⟩ := C107_range_partial hx' representable_zero r360 hx'' (by rw [abs_zero]; positivity) b360 (by norm_num) (by rwa [sub_zero])
      (by rwa [sub_zero]) h1
    rw [DAngle.sub_self_fin] at h
    have : (DAngle.abs (F64.fin (0 : α))).le (DAngle.abs (.fin t)) = true := DAngle.dbl_abs_nonneg t
    simp [this] at h
    exact h

example : DAngle.inUnit (⟨.fin 10, .degree⟩ : DAngle ℚ) .degree = .ok (.fin 10) ∧
    DAngle.isNear 1 (⟨.fin 10, .degree⟩ : DAngle ℚ) ⟨.fin 10, .degree⟩ ⟨.fin 0, .degree⟩ = some (.ok true) := by
  have h : (F64.fin (10 : ℚ)).sub (.fin 10) = .fin 0 := DAngle.sub_self_fin 10
  have h1 : (0 : ℚ) ≤ 10 := by norm_num
  have h2 : (10 : ℚ) < 360 := by norm_num
  refine ⟨by simp [DAngle.inUnit, DAngle.isDefined], ?_⟩
  simp [DAngle.isNear, DAngle.inUnit, DAngle.isDefined, DAngle.reduceRange, F64.le, F64.lt, h, h1, h2, DAngle.abs]

/-- for angles from 0 to 360 degrees, `isNear` tells the distance around the circle, either way, up to `2 ^ -43` degrees: it answers yes if the distance does not exceed the tolerance
by that much, and no if it exceeds it by more; it returns without entering a loop -/
theorem C108_near_around {x y t : α} (hx : Representable x ∧ 0 ≤ x ∧ x < 360) (hy : Representable y ∧ 0 ≤ y ∧ y < 360) (n : ℕ) :
    (min |y - x| (360 - |y - x|) ≤ |t| - 2 ^ (-43 : ℤ) → DAngle.isNear n ⟨.fin x, .degree⟩ ⟨.fin y, .degree⟩ ⟨.fin t, .degree⟩ = some (.ok true)) ∧
      (|t| + 2 ^ (-43 : ℤ) < min |y - x| (360 - |y - x|) → DAngle.isNear n ⟨.fin x, .degree⟩ ⟨.fin y, .degree⟩ ⟨.fin t, .degree⟩ = some (.ok false)) := by
  obtain ⟨rx, x0, x1⟩ := hx
  obtain ⟨ry, y0, y1⟩ := hy
  have e53 : (2 : α) ^ (-53 : ℤ) = 1 / 2 ^ 53 := by rw [zpow_neg, one_div]; norm_cast
  have e43 : (2 : α) ^ (-43 : ℤ) = 1 / 2 ^ 43 := by rw [zpow_neg, one_div]; norm_cast
  have r360 : Representable (360 : α) := ⟨360, 0, by norm_num, by norm_num, by norm_num⟩
  have big : (1000 : α) < 2 ^ 1024 := lt_of_lt_of_le (b := 2 ^ 10) (by norm_num) (pow_le_pow_right₀ one_le_two (by norm_num))
  have fin : ∀ d : α, |rnd d - d| ≤ 1 / 2 ^ 44 → |d| ≤ 361 → F64.ofExact d = .fin (rnd d) := fun d h1 h2 => by
    refine F64.ofExact_fin (lt_of_le_of_lt ?_ big)
    have := abs_sub_abs_le_abs_sub (rnd d) d
    norm_num at h1 ⊢; linarith
  have small : ∀ d : α, |rnd d - d| ≤ 2 ^ (-53 : ℤ) * |d| → |d| ≤ 361 → |rnd d - d| ≤ 1 / 2 ^ 44 := fun d h1 h2 => by
    rw [e53] at h1; norm_num at h1 ⊢; linarith
  have d360 : |y - x| < 360 := abs_lt.2 ⟨by linarith, by linarith⟩
  have E1 := rnd_add_error ry (representable_neg rx)
  rw [← sub_eq_add_neg] at E1
  have E2 := small _ E1 (by linarith)
  have f1 := fin _ E2 (by linarith)
  have ab : DAngle.abs (F64.fin (rnd (y - x))) = .fin |rnd (y - x)| := by
    simp only [DAngle.abs, F64.lt, decide_eq_true_eq, F64.neg]
    split_ifs with h
    · rw [abs_of_neg h]
    · rw [abs_of_nonneg (not_lt.1 h)]
  have at' : DAngle.abs (F64.fin t) = .fin |t| := by
    simp only [DAngle.abs, F64.lt, decide_eq_true_eq, F64.neg]
    split_ifs with h
    · rw [abs_of_neg h]
    · rw [abs_of_nonneg (not_lt.1 h)]
  have rd : Representable |rnd (y - x)| := by
    rcases abs_choice (rnd (y - x)) with h | h <;> rw [h]
    · exact rnd_representable _
    · exact representable_neg (rnd_representable _)
  have dd : |(|rnd (y - x)| - |y - x|)| ≤ 1 / 2 ^ 44 := (abs_abs_sub_abs_le _ _).trans E2
  obtain ⟨dl, dr⟩ := abs_le.1 dd
  have u0 : (1 : α) / 2 ^ 44 ≤ 1 := by norm_num
  have b2 : |(360 - |rnd (y - x)|)| ≤ 361 := abs_le.2 ⟨by linarith [abs_nonneg (y - x)], by linarith [abs_nonneg (rnd (y - x))]⟩
  have E3 := rnd_add_error r360 (representable_neg rd)
  rw [← sub_eq_add_neg] at E3
  have E4 := small _ E3 b2
  have f2 := fin _ E4 b2
  obtain ⟨wl, wr⟩ := abs_le.1 E4
  have red : ∀ z : α, 0 ≤ z → z < 360 → DAngle.reduceRange n (.fin z) (.fin 0) (.fin 360) = some (.fin z) := fun z h1 h2 => by
    simp [DAngle.reduceRange, F64.le, F64.lt, h1, h2]
  have key : DAngle.isNear n ⟨.fin x, .degree⟩ ⟨.fin y, .degree⟩ ⟨.fin t, .degree⟩ = some (.ok (decide (|rnd (y - x)| ≤ |t|) || decide (rnd (360 - |rnd (y - x)|) ≤ |t|))) := by
    have iu : ∀ z : α, (⟨.fin z, .degree⟩ : DAngle α).inUnit .degree = .ok (.fin z) := fun z => by simp [DAngle.inUnit, DAngle.isDefined]
    have id : ∀ z : α, (⟨.fin z, .degree⟩ : DAngle α).isDefined = true := fun z => by simp [DAngle.isDefined]
    simp only [DAngle.isNear, iu, id, red x x0 x1, red y y0 y1, DAngle.sub_fin, f1, ab, f2, at', F64.le, Bool.not_true, Bool.or_self, Bool.false_eq_true, if_false]
  have e : (1 : α) / 2 ^ 43 = 1 / 2 ^ 44 + 1 / 2 ^ 44 := by norm_num
  rw [e43, key]
  generalize (1 : α) / 2 ^ 44 = w at *
  rw [e]
  have w0 : 0 ≤ w := by linarith
  refine ⟨fun h => ?_, fun h => ?_⟩
  · have : |rnd (y - x)| ≤ |t| ∨ rnd (360 - |rnd (y - x)|) ≤ |t| := by
      rcases min_le_iff.1 h with h | h
      · left; linarith
      · right; linarith
    rcases this with h | h <;> simp [h]
  · obtain ⟨h1, h2⟩ := lt_min_iff.1 h
    have k1 : ¬ |rnd (y - x)| ≤ |t| := not_le.2 (by linarith)
    have k2 : ¬ rnd (360 - |rnd (y - x)|) ≤ |t| := not_le.2 (by linarith)
    simp [k1, k2]

/-- 359 degrees are near one degree, with a tolerance of 3 degrees: the distance around the circle is 2 -/
example (n : ℕ) : DAngle.isNear n (⟨.fin 359, .degree⟩ : DAngle ℚ) ⟨.fin 1, .degree⟩ ⟨.fin 3, .degree⟩ = some (.ok true) := by
  refine (C108_near_around ⟨⟨359, 0, by norm_num, by norm_num, by norm_num⟩, by norm_num, by norm_num⟩ ⟨⟨1, 0, by norm_num, by norm_num, by norm_num⟩, by norm_num, by norm_num⟩ n).1 ?_
  norm_num

/-- with a number of degrees of more than `2 ^ 55` turns `isNear` never returns -/
theorem C108_near_stuck_violated {v w t : α} (hv : Representable v) (hv' : |v| < 2 ^ 1024) (h : 2 ^ 55 * 360 ≤ v) (n : ℕ) :
    DAngle.isNear n ⟨.fin v, .degree⟩ ⟨.fin w, .degree⟩ ⟨.fin t, .degree⟩ = none := by
  have r360 : Representable (360 : α) := ⟨360, 0, by norm_num, by norm_num, by norm_num⟩
  have b360 : |(360 : α)| < 2 ^ 1024 := lt_of_le_of_lt (b := 2 ^ 10) (by rw [abs_of_pos] <;> norm_num) (pow_lt_pow_right₀ one_lt_two (by norm_num))
  have hR : (F64.fin (360 : α)).sub (.fin 0) = .fin 360 := by
    rw [DAngle.sub_fin, sub_zero, F64.ofExact_fin (by rwa [rnd_exact r360]), rnd_exact r360]
  have h1 : (360 : α) ≤ 2 ^ 55 * 360 := by norm_num
  have := C107_stuck_violated hv hv' hR (by norm_num) (Or.inr (h1.trans h)) (by rw [abs_of_pos (by norm_num : (0 : α) < 360)]; exact h.trans (le_abs_self v)) n
  simp [DAngle.isNear, DAngle.inUnit, DAngle.isDefined, this]

end Verif.Props
