import Mathlib.Analysis.Real.Pi.Bounds
import Mathlib.Tactic.Linarith
import Mathlib.Tactic.Ring
import Mathlib.Tactic.FieldSimp
import Verif.Lemmas.DoubleAngle
import Verif.Spec.Angle

/-! Lemmas about the rounding errors of the conversions between units. -/

namespace Verif.DAngle

open Verif Verif.Spec Verif.Double

section field
variable {α : Type} [Field α] [LinearOrder α] [IsStrictOrderedRing α] [FloorRing α]

theorem rnd_factor {z : α} (h : 2 ^ (-1022 : ℤ) ≤ |z|) : ∃ d : α, |d| ≤ 1 / 2 ^ 53 ∧ rnd z = z * (1 + d) := by
  have hz : 0 < |z| := lt_of_lt_of_le (two_zpow_pos _) h
  have hz0 : z ≠ 0 := abs_pos.mp hz
  refine ⟨(rnd z - z) / z, ?_, ?_⟩
  · rw [abs_div, div_le_iff₀ hz]
    have := rnd_relative h
    rwa [show (2 : α) ^ (-53 : ℤ) = 1 / 2 ^ 53 by rw [zpow_neg, one_div]; norm_cast] at this
  · field_simp; ring

theorem ofExact_factor {z : α} (h : 2 ^ (-1022 : ℤ) ≤ |z|) (h' : |z| ≤ 2 ^ 1022) : ∃ d : α, |d| ≤ 1 / 2 ^ 53 ∧ F64.ofExact z = .fin (z * (1 + d)) := by
  obtain ⟨d, hd, he⟩ := rnd_factor h
  refine ⟨d, hd, ?_⟩
  rw [F64.ofExact_fin, he]
  rw [he, abs_mul]
  have h1 : |1 + d| ≤ 2 := by
    have := abs_add_le (1 : α) d
    rw [abs_one] at this
    norm_num at hd; linarith
  calc |z| * |1 + d| ≤ 2 ^ 1022 * 2 := mul_le_mul h' h1 (abs_nonneg _) (by positivity)
    _ = 2 ^ 1023 := by rw [← pow_succ]
    _ < _ := pow_lt_pow_right₀ one_lt_two (by norm_num)

end field

/-- `Real::Pi` is within a rounding error of π -/
theorem pi_near : ∃ p : ℝ, |p - 1| ≤ 2 / 5 / 2 ^ 53 ∧ (7074237752028440 : ℝ) * 2 ^ (-51 : ℤ) = Real.pi * p := by
  refine ⟨7074237752028440 * 2 ^ (-51 : ℤ) / Real.pi, ?_, by field_simp⟩
  have h1 := Real.pi_gt_d20
  have h2 := Real.pi_lt_d20
  have hp := Real.pi_pos
  have : (7074237752028440 * 2 ^ (-51 : ℤ) / Real.pi - 1 : ℝ) = (7074237752028440 * 2 ^ (-51 : ℤ) - Real.pi) / Real.pi := by field_simp
  rw [this, abs_div, abs_of_pos hp, div_le_iff₀ hp, abs_le]
  constructor <;> norm_num <;> linarith

theorem ratio_near {k : ℝ} (h1 : 1 ≤ k) (h2 : k ≤ 2 ^ 20) : ∃ r p : ℝ, (pi (α := ℝ)).div (.fin k) = .fin r ∧ r = Real.pi / k * p ∧ |p - 1| ≤ 3 / 2 / 2 ^ 53 := by
  obtain ⟨p, hp, he⟩ := pi_near
  have hk : 0 < k := by linarith
  have hq : (0 : ℝ) < 7074237752028440 * 2 ^ (-51 : ℤ) / k := by positivity
  obtain ⟨d, hd, hr⟩ := ofExact_factor (z := 7074237752028440 * 2 ^ (-51 : ℤ) / k) (by
      rw [abs_of_pos hq, le_div_iff₀ hk]
      have : (2 : ℝ) ^ (-1022 : ℤ) ≤ 2 ^ (-20 : ℤ) := zpow_le_zpow_right₀ one_le_two (by norm_num)
      calc (2 : ℝ) ^ (-1022 : ℤ) * k ≤ 2 ^ (-20 : ℤ) * 2 ^ 20 := mul_le_mul this h2 hk.le (by positivity)
        _ ≤ _ := by norm_num) (by
      rw [abs_of_pos hq, div_le_iff₀ hk]
      calc (7074237752028440 : ℝ) * 2 ^ (-51 : ℤ) ≤ 2 ^ 2 * 1 := by norm_num
        _ ≤ _ := mul_le_mul (pow_le_pow_right₀ one_le_two (by norm_num)) h1 zero_le_one (by positivity))
  refine ⟨_, p * (1 + d), by rw [pi, F64.div, if_neg hk.ne', hr], by rw [he]; ring, ?_⟩
  rw [show p * (1 + d) - 1 = (p - 1) + d + (p - 1) * d by ring]
  have h3 := abs_add_le ((p - 1) + d) ((p - 1) * d)
  have h4 := abs_add_le (p - 1) d
  have h5 : |(p - 1) * d| ≤ (2 / 5 / 2 ^ 53) * (1 / 2 ^ 53) := by
    rw [abs_mul]; exact mul_le_mul hp hd (abs_nonneg _) (by positivity)
  rw [abs_mul] at h3 h5
  norm_num at hp hd h5 ⊢
  linarith

/-- the ratios of the code are those of the units, up to rounding -/
theorem SIRatio_near {u : AUnit} (hu : u ≠ .undefined) : ∃ r p : ℝ, SIRatio (α := ℝ) u = .ok (.fin r) ∧ r = 2 * Real.pi / perTurn u * p ∧ |p - 1| ≤ 3 / 2 / 2 ^ 53 ∧
    0 < 2 * Real.pi / perTurn u ∧ 2 ^ (-20 : ℤ) ≤ r ∧ r ≤ 2 ^ 3 := by
  have h1 := Real.pi_gt_d20
  have h2 := Real.pi_lt_d20
  have hp := Real.pi_pos
  have aux : ∀ k : ℝ, 1 ≤ k → k ≤ 2 ^ 20 → 2 * Real.pi / (2 * k) = Real.pi / k := by
    intro k h _; have : 0 < k := by linarith
    field_simp
  have big : ∀ k r p : ℝ, 1 ≤ k → k ≤ 2 ^ 20 → r = Real.pi / k * p → |p - 1| ≤ 3 / 2 / 2 ^ 53 → 2 ^ (-20 : ℤ) ≤ r ∧ r ≤ 2 ^ 3 := by
    intro k r p hk1 hk2 hr hpp
    have hk : 0 < k := by linarith
    have := abs_le.mp hpp
    norm_num at this
    have l1 : 3 / 2 ^ 20 ≤ Real.pi / k := by
      rw [div_le_div_iff₀ (by positivity) hk]; norm_num at hk2 ⊢; nlinarith
    have l2 : Real.pi / k ≤ 4 := by
      rw [div_le_iff₀ hk]; nlinarith
    rw [hr]
    constructor
    · norm_num at l1 ⊢; nlinarith
    · norm_num; nlinarith
  cases u with
  | undefined => exact absurd rfl hu
  | radian =>
    refine ⟨1, 1, rfl, by simp only [perTurn]; field_simp, by norm_num, by simp only [perTurn]; positivity, by norm_num, by norm_num⟩
  | degree =>
    obtain ⟨r, p, hr, he, hpp⟩ := ratio_near (k := 180) (by norm_num) (by norm_num)
    refine ⟨r, p, by rw [SIRatio, hr], ?_, hpp, by simp only [perTurn]; positivity, big 180 r p (by norm_num) (by norm_num) he hpp⟩
    rw [he, ← aux 180 (by norm_num) (by norm_num)]; norm_num [perTurn]
  | arcminute =>
    obtain ⟨r, p, hr, he, hpp⟩ := ratio_near (k := 10800) (by norm_num) (by norm_num)
    refine ⟨r, p, by rw [SIRatio, hr], ?_, hpp, by simp only [perTurn]; positivity, big 10800 r p (by norm_num) (by norm_num) he hpp⟩
    rw [he, ← aux 10800 (by norm_num) (by norm_num)]; norm_num [perTurn]
  | arcsecond =>
    obtain ⟨r, p, hr, he, hpp⟩ := ratio_near (k := 648000) (by norm_num) (by norm_num)
    refine ⟨r, p, by rw [SIRatio, hr], ?_, hpp, by simp only [perTurn]; positivity, big 648000 r p (by norm_num) (by norm_num) he hpp⟩
    rw [he, ← aux 648000 (by norm_num) (by norm_num)]; norm_num [perTurn]
  | revolution =>
    obtain ⟨p, hpp, he⟩ := pi_near
    refine ⟨_, p, rfl, ?_, hpp.trans (by norm_num), by simp only [perTurn]; positivity, by norm_num, by norm_num⟩
    simp only [perTurn]
    rw [div_one, mul_assoc, ← he]; norm_num

/-- four rounding errors and those of the two ratios -/
theorem factors_near {p q d e : ℝ} (hp : |p - 1| ≤ 3 / 2 / 2 ^ 53) (hq : |q - 1| ≤ 3 / 2 / 2 ^ 53) (hd : |d| ≤ 1 / 2 ^ 53) (he : |e| ≤ 1 / 2 ^ 53) :
    |p * (1 + d) / q * (1 + e) - 1| ≤ 6 / 2 ^ 53 := by
  have p' := abs_le.mp hp
  have q' := abs_le.mp hq
  have d' := abs_le.mp hd
  have e' := abs_le.mp he
  norm_num at p' q' d' e'
  have hq0 : 0 < q := by linarith
  rw [show p * (1 + d) / q * (1 + e) - 1 = (p * (1 + d) * (1 + e) - q) / q by field_simp, abs_div, abs_of_pos hq0, div_le_iff₀ hq0]
  have a1 : p * (1 + d) ≤ (1 + 3 / 2 / 2 ^ 53) * (1 + 1 / 2 ^ 53) := mul_le_mul (by norm_num; linarith) (by norm_num; linarith) (by linarith) (by norm_num)
  have a2 : (1 - 3 / 2 / 2 ^ 53) * (1 - 1 / 2 ^ 53) ≤ p * (1 + d) := mul_le_mul (by norm_num; linarith) (by norm_num; linarith) (by norm_num) (by linarith)
  have b1 : p * (1 + d) * (1 + e) ≤ (1 + 3 / 2 / 2 ^ 53) * (1 + 1 / 2 ^ 53) * (1 + 1 / 2 ^ 53) :=
    mul_le_mul a1 (by norm_num; linarith) (by linarith) (by norm_num)
  have b2 : (1 - 3 / 2 / 2 ^ 53) * (1 - 1 / 2 ^ 53) * (1 - 1 / 2 ^ 53) ≤ p * (1 + d) * (1 + e) :=
    mul_le_mul a2 (by norm_num; linarith) (by norm_num) (le_trans (by norm_num) a2)
  rw [abs_le]
  norm_num at b1 b2 ⊢
  constructor <;> linarith

end Verif.DAngle
