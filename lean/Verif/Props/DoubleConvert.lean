import Verif.Lemmas.DoubleConvert

/-!
# Conversions of angles in double precision

Property C109.
-/

namespace Verif.Props

open Verif Verif.Spec Verif.Double

/-- a conversion between units is right up to six rounding errors, as long as it is far from overflow and underflow -/
theorem C109_accuracy {a u : AUnit} (ha : a ≠ .undefined) (hu : u ≠ .undefined) {v : ℝ} (h1 : 2 ^ (-900 : ℤ) ≤ |v|) (h2 : |v| ≤ 2 ^ 900) :
    ∃ x : ℝ, DAngle.inUnit ⟨.fin v, a⟩ u = .ok (.fin x) ∧ |x - v / perTurn a * perTurn u| ≤ 6 / 2 ^ 53 * |v / perTurn a * perTurn u| := by
  by_cases hau : a = u
  · subst hau
    refine ⟨v, by simp [DAngle.inUnit, DAngle.isDefined, ha], ?_⟩
    have : perTurn a ≠ 0 := by
      cases a <;> simp_all [perTurn, Real.pi_ne_zero]
    rw [div_mul_cancel₀ _ this, sub_self, abs_zero]; positivity
  · obtain ⟨r, p, hr, hre, hp, hr0, hr1, hr2⟩ := DAngle.SIRatio_near ha
    obtain ⟨s, q, hs, hse, hq, hs0, hs1, hs2⟩ := DAngle.SIRatio_near hu
    have rpos : 0 < r := lt_of_lt_of_le (by positivity) hr1
    have spos : 0 < s := lt_of_lt_of_le (by positivity) hs1
    have m1 : (2 : ℝ) ^ (-920 : ℤ) ≤ |v * r| := by
      rw [abs_mul, abs_of_pos rpos, show (-920 : ℤ) = -900 + -20 by norm_num, zpow_add₀ two_ne_zero]
      exact mul_le_mul h1 hr1 (by positivity) (abs_nonneg _)
    have m2 : |v * r| ≤ 2 ^ 903 := by
      rw [abs_mul, abs_of_pos rpos, show 903 = 900 + 3 by norm_num, pow_add]
      exact mul_le_mul h2 hr2 rpos.le (by positivity)
    obtain ⟨d, hd, hm⟩ := DAngle.ofExact_factor (z := v * r) ((zpow_le_zpow_right₀ one_le_two (by norm_num)).trans m1)
      (m2.trans (pow_le_pow_right₀ one_le_two (by norm_num)))
    have d1 : 1 / 2 ≤ 1 + d := by have := abs_le.mp hd; norm_num at this; linarith
    have d2 : 1 + d ≤ 2 := by have := abs_le.mp hd; norm_num at this; linarith
    have q1 : (2 : ℝ) ^ (-1022 : ℤ) ≤ |v * r * (1 + d) / s| := by
      rw [abs_div, abs_mul, abs_of_pos spos, abs_of_pos (a := 1 + d) (by linarith), le_div_iff₀ spos]
      calc (2 : ℝ) ^ (-1022 : ℤ) * s ≤ 2 ^ (-1022 : ℤ) * 2 ^ (3 : ℤ) := by gcongr; exact_mod_cast hs2
        _ = 2 ^ (-1019 : ℤ) := by rw [← zpow_add₀ two_ne_zero]; norm_num
        _ ≤ 2 ^ (-920 : ℤ) * 2 ^ (-1 : ℤ) := by rw [← zpow_add₀ two_ne_zero]; exact zpow_le_zpow_right₀ one_le_two (by norm_num)
        _ ≤ |v * r| * (1 + d) := mul_le_mul m1 (by rw [zpow_neg_one]; linarith) (by positivity) (abs_nonneg _)
    have q2 : |v * r * (1 + d) / s| ≤ 2 ^ 1022 := by
      rw [abs_div, abs_mul, abs_of_pos spos, abs_of_pos (a := 1 + d) (by linarith), div_le_iff₀ spos]
      calc |v * r| * (1 + d) ≤ 2 ^ 903 * 2 ^ 1 := mul_le_mul m2 (by linarith) (by linarith) (by positivity)
        _ = 2 ^ (904 : ℤ) := by rw [← pow_add]; exact (zpow_ofNat (2 : ℝ) 904).symm
        _ ≤ 2 ^ (1002 : ℤ) := zpow_le_zpow_right₀ one_le_two (by norm_num)
        _ = 2 ^ 1022 * 2 ^ (-20 : ℤ) := by rw [show (2 : ℝ) ^ 1022 = 2 ^ (1022 : ℤ) from (zpow_ofNat (2 : ℝ) 1022).symm, ← zpow_add₀ two_ne_zero]; norm_num
        _ ≤ 2 ^ 1022 * s := by gcongr
    obtain ⟨e, he, hx⟩ := DAngle.ofExact_factor q1 q2
    refine ⟨v * r * (1 + d) / s * (1 + e), ?_, ?_⟩
    · simp [DAngle.inUnit, DAngle.isDefined, ha, hau, hr, hs, F64.mul, hm, F64.div, spos.ne', hx, bind, Except.bind, pure, Except.pure]
    · have ta : perTurn a ≠ 0 := fun h => by rw [h, div_zero] at hr0; exact lt_irrefl _ hr0
      have tu : perTurn u ≠ 0 := fun h => by rw [h, div_zero] at hs0; exact lt_irrefl _ hs0
      have q0 : q ≠ 0 := by rintro rfl; norm_num at hq
      have ex : v * r * (1 + d) / s * (1 + e) - v / perTurn a * perTurn u = (v / perTurn a * perTurn u) * (p * (1 + d) / q * (1 + e) - 1) := by
        rw [hre, hse]
        have := Real.pi_ne_zero
        field_simp
      rw [ex, abs_mul, mul_comm]
      exact mul_le_mul_of_nonneg_right (DAngle.factors_near hp hq hd he) (abs_nonneg _)

example : (2 : ℝ) ^ (-900 : ℤ) ≤ |45| ∧ |(45 : ℝ)| ≤ 2 ^ 900 := by
  constructor
  · exact (zpow_le_zpow_right₀ one_le_two (show (-900 : ℤ) ≤ 0 by norm_num)).trans (by norm_num)
  · exact le_trans (b := (2 : ℝ) ^ 10) (by norm_num) (pow_le_pow_right₀ one_le_two (by norm_num))

/-- converted there and back, the value is kept up to thirteen rounding errors -/
theorem C109_round_trip {a u : AUnit} (ha : a ≠ .undefined) (hu : u ≠ .undefined) {v : ℝ} (h1 : 2 ^ (-800 : ℤ) ≤ |v|) (h2 : |v| ≤ 2 ^ 800) :
    ∃ x y : ℝ, DAngle.inUnit ⟨.fin v, a⟩ u = .ok (.fin x) ∧ DAngle.inUnit ⟨.fin x, u⟩ a = .ok (.fin y) ∧ |y - v| ≤ 13 / 2 ^ 53 * |v| := by
  obtain ⟨x, hx, ex⟩ := C109_accuracy ha hu (v := v) ((zpow_le_zpow_right₀ one_le_two (by norm_num)).trans h1) (h2.trans (pow_le_pow_right₀ one_le_two (by norm_num)))
  have hpi := Real.pi_pos
  have hpi3 := Real.pi_gt_three
  have hpi4 := Real.pi_le_four
  have tb : ∀ w : AUnit, w ≠ .undefined → 1 ≤ perTurn w ∧ perTurn w ≤ 2 ^ 21 := by
    intro w hw
    cases w with
    | undefined => exact absurd rfl hw
    | radian => simp only [perTurn]; constructor <;> [linarith; (norm_num; linarith)]
    | degree => simp only [perTurn]; norm_num
    | arcminute => simp only [perTurn]; norm_num
    | arcsecond => simp only [perTurn]; norm_num
    | revolution => simp only [perTurn]; norm_num
  obtain ⟨ta1, ta2⟩ := tb a ha
  obtain ⟨tu1, tu2⟩ := tb u hu
  have ta0 : 0 < perTurn a := by linarith
  have tu0 : 0 < perTurn u := by linarith
  have hw : |v / perTurn a * perTurn u| = |v| / perTurn a * perTurn u := by rw [abs_mul, abs_div, abs_of_pos ta0, abs_of_pos tu0]
  have hvn := abs_nonneg v
  have w1 : |v| / 2 ^ 21 ≤ |v / perTurn a * perTurn u| := by
    rw [hw]
    calc |v| / 2 ^ 21 ≤ |v| / perTurn a := by gcongr
      _ = |v| / perTurn a * 1 := (mul_one _).symm
      _ ≤ _ := by gcongr
  have w2 : |v / perTurn a * perTurn u| ≤ |v| * 2 ^ 21 := by
    rw [hw]
    calc |v| / perTurn a * perTurn u ≤ |v| / 1 * 2 ^ 21 := by gcongr
      _ = _ := by rw [div_one]
  have x1 : |v / perTurn a * perTurn u| / 2 ≤ |x| := by
    have := abs_sub_abs_le_abs_sub (v / perTurn a * perTurn u) x
    rw [abs_sub_comm] at this
    have hn := abs_nonneg (v / perTurn a * perTurn u)
    generalize |v / perTurn a * perTurn u| = W at *
    norm_num at ex; linarith
  have x2 : |x| ≤ |v / perTurn a * perTurn u| * 2 := by
    have := abs_sub_abs_le_abs_sub x (v / perTurn a * perTurn u)
    have hn := abs_nonneg (v / perTurn a * perTurn u)
    generalize |v / perTurn a * perTurn u| = W at *
    norm_num at ex; linarith
  have y1 : (2 : ℝ) ^ (-900 : ℤ) ≤ |x| := by
    refine le_trans ?_ (le_trans (div_le_div_of_nonneg_right w1 (by norm_num)) x1)
    rw [div_div, le_div_iff₀ (by norm_num)]
    refine le_trans ?_ h1
    rw [show (2 : ℝ) ^ (-800 : ℤ) = 2 ^ (-900 : ℤ) * 2 ^ (100 : ℤ) by rw [← zpow_add₀ two_ne_zero]; norm_num]
    gcongr; norm_num
  have y2 : |x| ≤ 2 ^ 900 := by
    refine x2.trans (le_trans (mul_le_mul_of_nonneg_right w2 (by norm_num)) ?_)
    rw [show (2 : ℝ) ^ 900 = 2 ^ 800 * 2 ^ 100 by rw [← pow_add], mul_assoc]
    exact mul_le_mul h2 (by norm_num) (by norm_num) (by positivity)
  obtain ⟨y, hy, ey⟩ := C109_accuracy hu ha y1 y2
  refine ⟨x, y, hx, hy, ?_⟩
  have e1 : |x / perTurn u * perTurn a - v| ≤ 6 / 2 ^ 53 * |v| := by
    have e2 : x / perTurn u * perTurn a - v = (x - v / perTurn a * perTurn u) * (perTurn a / perTurn u) := by field_simp
    have hpos : 0 < perTurn a / perTurn u := by positivity
    rw [e2, abs_mul, abs_of_pos hpos]
    calc _ ≤ 6 / 2 ^ 53 * |v / perTurn a * perTurn u| * (perTurn a / perTurn u) := mul_le_mul_of_nonneg_right ex hpos.le
      _ = 6 / 2 ^ 53 * |v| := by rw [hw]; field_simp
  have e3 : |x / perTurn u * perTurn a| ≤ |v| + 6 / 2 ^ 53 * |v| := by
    have := abs_sub_abs_le_abs_sub (x / perTurn u * perTurn a) v
    linarith
  have e4 := abs_sub_le y (x / perTurn u * perTurn a) v
  have e5 : |y - x / perTurn u * perTurn a| ≤ 6 / 2 ^ 53 * (|v| + 6 / 2 ^ 53 * |v|) := ey.trans (by gcongr)
  generalize |y - x / perTurn u * perTurn a| = A at *
  generalize |x / perTurn u * perTurn a - v| = B at *
  norm_num at e1 e5 ⊢
  linarith

example : (2 : ℝ) ^ (-800 : ℤ) ≤ |45| ∧ |(45 : ℝ)| ≤ 2 ^ 800 := by
  constructor
  · exact (zpow_le_zpow_right₀ one_le_two (show (-800 : ℤ) ≤ 0 by norm_num)).trans (by norm_num)
  · exact le_trans (b := (2 : ℝ) ^ 10) (by norm_num) (pow_le_pow_right₀ one_le_two (by norm_num))

/-- the value is not kept exactly: 15 degrees, converted to radians and back, are less than 15 degrees -/
theorem C109_exact_violated {α : Type} [Field α] [LinearOrder α] [IsStrictOrderedRing α] [FloorRing α] :
    ∃ x y : α, DAngle.inUnit ⟨.fin 15, .degree⟩ .radian = .ok (.fin x) ∧ DAngle.inUnit ⟨.fin x, .radian⟩ .degree = .ok (.fin y) ∧ y < 15 := by
  have b : ∀ x : α, |x| ≤ 2 ^ 100 → |x| < 2 ^ 1024 := fun x hx => lt_of_le_of_lt hx (pow_lt_pow_right₀ one_lt_two (by norm_num))
  have r1 : rnd ((7074237752028440 : α) * 2 ^ (-51 : ℤ) / 180) = 5030569068109113 * 2 ^ (-58 : ℤ) := by
    have := rnd_eq (x := (7074237752028440 : α) * 2 ^ (-51 : ℤ) / 180) 5030569068109113 (-58) (by norm_num)
      (by rw [abs_of_pos] <;> norm_num) (by rw [abs_of_pos] <;> norm_num) (by left; rw [abs_lt]; constructor <;> norm_num)
    rw [this]; norm_num
  have r2 : rnd ((15 : α) * (5030569068109113 * 2 ^ (-58 : ℤ))) = 4716158501352293 * 2 ^ (-54 : ℤ) := by
    have := rnd_eq (x := (15 : α) * (5030569068109113 * 2 ^ (-58 : ℤ))) 4716158501352293 (-54) (by norm_num)
      (by rw [abs_of_pos] <;> norm_num) (by rw [abs_of_pos] <;> norm_num) (by left; rw [abs_lt]; constructor <;> norm_num)
    rw [this]; norm_num
  have r3 : rnd ((4716158501352293 : α) * 2 ^ (-54 : ℤ)) = 4716158501352293 * 2 ^ (-54 : ℤ) := rnd_exact ⟨4716158501352293, -54, by norm_num, by norm_num, by norm_num⟩
  have r4 : rnd ((4716158501352293 : α) * 2 ^ (-54 : ℤ) / (5030569068109113 * 2 ^ (-58 : ℤ))) = 8444249301319679 * 2 ^ (-49 : ℤ) := by
    have := rnd_eq (x := (4716158501352293 : α) * 2 ^ (-54 : ℤ) / (5030569068109113 * 2 ^ (-58 : ℤ))) 8444249301319679 (-49) (by norm_num)
      (by rw [abs_of_pos] <;> norm_num) (by rw [abs_of_pos] <;> norm_num) (by left; rw [abs_lt]; constructor <;> norm_num)
    rw [this]; norm_num
  have s1 : DAngle.SIRatio (α := α) .degree = .ok (.fin (5030569068109113 * 2 ^ (-58 : ℤ))) := by
    rw [DAngle.SIRatio, DAngle.pi, F64.div, if_neg (by norm_num), F64.ofExact_fin] <;> rw [r1]
    exact b _ (by rw [abs_of_pos] <;> norm_num)
  have m1 : (F64.fin (15 : α)).mul (.fin (5030569068109113 * 2 ^ (-58 : ℤ))) = .fin (4716158501352293 * 2 ^ (-54 : ℤ)) := by
    rw [F64.mul, F64.ofExact_fin] <;> rw [r2]
    exact b _ (by rw [abs_of_pos] <;> norm_num)
  have m2 : (F64.fin ((4716158501352293 : α) * 2 ^ (-54 : ℤ))).div (.fin 1) = .fin (4716158501352293 * 2 ^ (-54 : ℤ)) := by
    rw [F64.div, if_neg one_ne_zero, div_one, F64.ofExact_fin] <;> rw [r3]
    exact b _ (by rw [abs_of_pos] <;> norm_num)
  have m3 : (F64.fin ((4716158501352293 : α) * 2 ^ (-54 : ℤ))).mul (.fin 1) = .fin (4716158501352293 * 2 ^ (-54 : ℤ)) := by
    rw [F64.mul, mul_one, F64.ofExact_fin] <;> rw [r3]
    exact b _ (by rw [abs_of_pos] <;> norm_num)
  have m4 : (F64.fin ((4716158501352293 : α) * 2 ^ (-54 : ℤ))).div (.fin (5030569068109113 * 2 ^ (-58 : ℤ))) = .fin (8444249301319679 * 2 ^ (-49 : ℤ)) := by
    rw [F64.div, if_neg (by norm_num), F64.ofExact_fin] <;> rw [r4]
    exact b _ (by rw [abs_of_pos] <;> norm_num)
  refine ⟨4716158501352293 * 2 ^ (-54 : ℤ), 8444249301319679 * 2 ^ (-49 : ℤ), ?_, ?_, by norm_num⟩
  · simp only [DAngle.inUnit, s1]
    rw [if_neg (by simp [DAngle.isDefined]), if_neg (by simp)]
    simp only [bind, Except.bind, pure, Except.pure, DAngle.SIRatio, m1, m2]
  · simp only [DAngle.inUnit, s1]
    rw [if_neg (by simp [DAngle.isDefined]), if_neg (by simp)]
    simp only [bind, Except.bind, pure, Except.pure, DAngle.SIRatio, m3, m4]

end Verif.Props
