import Mathlib.Tactic.Linarith
import Mathlib.Tactic.Ring
import Mathlib.Tactic.FieldSimp
import Mathlib.Tactic.NormNum
import Mathlib.Tactic.Positivity
import Mathlib.Algebra.Order.Floor.Ring
import Verif.Model.Double
import Verif.Spec.Double

/-! Lemmas about rounding: the model rounds to nearest with ties to even, hence it is monotone and leaves the numbers of the format alone. -/

namespace Verif

open Verif.Spec

variable {α : Type} [Field α] [LinearOrder α] [IsStrictOrderedRing α]

section nearest
variable {x y r s : α}

theorem Spec.NearestDouble.mono (hx : NearestDouble x r) (hy : NearestDouble y s) (h : x < y) : r ≤ s := by
  by_contra hc
  push Not at hc
  have h1 := hx.2 s hy.1
  have h2 := hy.2 r hx.1
  have e1 : (r - x) ^ 2 ≤ (s - x) ^ 2 := sq_le_sq.mpr h1
  have e2 : (s - y) ^ 2 ≤ (r - y) ^ 2 := sq_le_sq.mpr h2
  have e3 : (r - s) * (r + s - 2 * x) ≤ 0 := by nlinarith
  have e4 : (s - r) * (s + r - 2 * y) ≤ 0 := by nlinarith
  have e5 : 0 < (r - s) * (2 * y - 2 * x) := mul_pos (sub_pos.mpr hc) (by linarith)
  nlinarith

theorem Spec.NearestDouble.exact (hx : NearestDouble x r) (h : Representable x) : r = x := by
  have := hx.2 x h
  rw [sub_self, abs_zero] at this
  exact sub_eq_zero.mp (abs_eq_zero.mp (le_antisymm this (abs_nonneg _)))

end nearest

section representable

theorem two_zpow_pos (e : ℤ) : (0 : α) < 2 ^ e := zpow_pos two_pos e

theorem representable_neg {x : α} (h : Representable x) : Representable (-x) := by
  obtain ⟨m, e, hm, he, rfl⟩ := h
  exact ⟨-m, e, by rwa [abs_neg], he, by push_cast; ring⟩

theorem representable_zero : Representable (0 : α) := ⟨0, 0, by norm_num, by norm_num, by simp⟩

/-- an integer of 53 bits, `2 ^ 53` included, times a power of two -/
theorem representable_of {m e : ℤ} (hm : |m| ≤ 2 ^ 53) (he : -1074 ≤ e) : Representable ((m : α) * 2 ^ e) := by
  rcases hm.lt_or_eq with h | h
  · exact ⟨m, e, h, he, rfl⟩
  · rcases abs_eq (by norm_num : (0 : ℤ) ≤ 2 ^ 53) |>.mp h with h | h
    · refine ⟨2 ^ 52, e + 1, by norm_num, by omega, ?_⟩
      rw [h, zpow_add₀ two_ne_zero]; norm_num; ring
    · refine ⟨-2 ^ 52, e + 1, by norm_num, by omega, ?_⟩
      rw [h, zpow_add₀ two_ne_zero]; norm_num; ring

theorem representable_int {m : ℤ} (hm : |m| ≤ 2 ^ 53) : Representable (m : α) := by
  have := representable_of (α := α) hm (show (-1074 : ℤ) ≤ 0 by norm_num)
  simpa using this

end representable

namespace Double

variable [FloorRing α]

theorem nearEven_spec (y : α) : |(nearEven y : α) - y| < 1 / 2 ∨ |(nearEven y : α) - y| = 1 / 2 ∧ nearEven y % 2 = 0 := by
  have h0 := Int.fract_nonneg y
  have h1 := Int.fract_lt_one y
  have hf : (⌊y⌋ : α) - y = -Int.fract y := by rw [Int.fract]; ring
  unfold nearEven
  split
  · rename_i h
    rw [hf, abs_neg, abs_of_nonneg h0]
    rcases h with h | h
    · exact Or.inl h
    · exact Or.inr h
  · rename_i h
    push Not at h
    have hc : ((⌊y⌋ + 1 : ℤ) : α) - y = 1 - Int.fract y := by push_cast; linarith
    rw [hc, abs_of_nonneg (by linarith)]
    rcases h.1.lt_or_eq with h' | h'
    · left; linarith
    · right
      refine ⟨by linarith, ?_⟩
      have := h.2 h'.symm
      omega

theorem nearEven_le (y : α) : |(nearEven y : α) - y| ≤ 1 / 2 := by
  rcases nearEven_spec y with h | h
  · exact h.le
  · exact h.1.le

theorem nearEven_nearest (y : α) (k : ℤ) : |(nearEven y : α) - y| ≤ |(k : α) - y| := by
  by_cases h : k = nearEven y
  · rw [h]
  · have h1 : (1 : α) ≤ |(k : α) - nearEven y| := by
      have : (1 : ℤ) ≤ |k - nearEven y| := Int.one_le_abs (sub_ne_zero.mpr h)
      exact_mod_cast this
    have h2 := nearEven_le y
    have h3 := abs_sub_abs_le_abs_sub ((k : α) - nearEven y) ((y : α) - nearEven y)
    have h4 : (k : α) - nearEven y - (y - nearEven y) = k - y := by ring
    rw [h4, abs_sub_comm y] at h3
    linarith

theorem nearEven_eq {y : α} {k : ℤ} (h : |(k : α) - y| < 1 / 2 ∨ |(k : α) - y| = 1 / 2 ∧ k % 2 = 0) : nearEven y = k := by
  by_contra hc
  have h1 : (1 : ℤ) ≤ |k - nearEven y| := Int.one_le_abs (sub_ne_zero.mpr fun h => hc h.symm)
  have h1' : (1 : α) ≤ |(k : α) - nearEven y| := by exact_mod_cast h1
  have h2 := nearEven_spec y
  have h3 := abs_sub_le (k : α) y (nearEven y)
  rw [abs_sub_comm y] at h3
  have h4 := nearEven_le y
  have h5 : |(k : α) - y| ≤ 1 / 2 := h.elim le_of_lt fun h => h.1.le
  rcases h with h | ⟨h, he⟩
  · linarith
  · rcases h2 with h2 | ⟨h2, he'⟩
    · linarith
    · have h6 : |(k : α) - nearEven y| = 1 := by linarith
      have h7 : |k - nearEven y| = 1 := by exact_mod_cast h6
      rcases abs_eq (by norm_num : (0 : ℤ) ≤ 1) |>.mp h7 with h8 | h8 <;> omega

theorem nearEven_int (k : ℤ) : nearEven (k : α) = k := nearEven_eq (Or.inl (by simp))

theorem nearEven_neg (y : α) : nearEven (-y) = -nearEven y := by
  apply nearEven_eq
  have : (((-nearEven y : ℤ)) : α) - -y = -((nearEven y : α) - y) := by push_cast; ring
  rw [this, abs_neg]
  rcases nearEven_spec y with h | ⟨h, h'⟩
  · exact Or.inl h
  · exact Or.inr ⟨h, by omega⟩

theorem lastPlace_ge (x : α) : -1074 ≤ lastPlace x := le_max_right _ _

theorem lastPlace_neg (x : α) : lastPlace (-x) = lastPlace x := by rw [lastPlace, abs_neg]; rfl

theorem lt_lastPlace (x : α) : |x| < 2 ^ (lastPlace x + 53) := by
  refine lt_of_lt_of_le (by simpa using Int.lt_zpow_succ_log_self (R := α) (b := 2) one_lt_two |x|) ?_
  refine zpow_le_zpow_right₀ one_le_two ?_
  unfold lastPlace
  omega

theorem lastPlace_le {x : α} (hx : x ≠ 0) : 2 ^ (lastPlace x + 52) ≤ |x| ∨ lastPlace x = -1074 := by
  unfold lastPlace
  rcases le_total (-1074) (Int.log 2 |x| - 52) with h | h
  · left
    rw [max_eq_left h]
    have := Int.zpow_log_le_self (R := α) (b := 2) one_lt_two (abs_pos.mpr hx)
    simpa using this
  · right; exact max_eq_right h

theorem lastPlace_zero : lastPlace (0 : α) = -52 := by simp [lastPlace]

theorem lastPlace_eq {x : α} {e : ℤ} (he : -1074 ≤ e) (h1 : 2 ^ (e + 52) ≤ |x|) (h2 : |x| < 2 ^ (e + 53)) : lastPlace x = e := by
  have hx : 0 < |x| := lt_of_lt_of_le (two_zpow_pos _) h1
  have hl : Int.log 2 |x| = e + 52 := by
    apply le_antisymm
    · have := (Int.lt_zpow_iff_log_lt (R := α) (b := 2) one_lt_two hx (x := e + 53)).mp (by simpa using h2)
      omega
    · exact (Int.zpow_le_iff_le_log (R := α) (b := 2) one_lt_two hx).mp (by simpa using h1)
  rw [lastPlace, hl]
  omega

theorem lastPlace_mono {x y : α} (hx : x ≠ 0) (h : |x| ≤ |y|) : lastPlace x ≤ lastPlace y := by
  unfold lastPlace
  have := Int.log_mono_right (b := 2) (abs_pos.mpr hx) h
  omega

theorem rnd_neg (x : α) : rnd (-x) = -rnd x := by
  rw [rnd, lastPlace_neg, neg_div, nearEven_neg, rnd]; push_cast; ring

theorem rnd_error (x : α) : |rnd x - x| ≤ 2 ^ lastPlace x / 2 := by
  have hp := two_zpow_pos (α := α) (lastPlace x)
  have h := nearEven_le (x / 2 ^ lastPlace x)
  have e : rnd x - x = ((nearEven (x / 2 ^ lastPlace x) : α) - x / 2 ^ lastPlace x) * 2 ^ lastPlace x := by
    rw [rnd, sub_mul, div_mul_cancel₀ _ hp.ne']
  rw [e, abs_mul, abs_of_pos hp]
  calc _ ≤ 1 / 2 * (2 : α) ^ lastPlace x := by gcongr
    _ = _ := by ring

theorem rnd_grid (x : α) (k : ℤ) : |rnd x - x| ≤ |(k : α) * 2 ^ lastPlace x - x| := by
  have hp := two_zpow_pos (α := α) (lastPlace x)
  have e : ∀ n : ℤ, |(n : α) * 2 ^ lastPlace x - x| = |(n : α) - x / 2 ^ lastPlace x| * 2 ^ lastPlace x := by
    intro n
    rw [← abs_of_pos hp, ← abs_mul, abs_of_pos hp, sub_mul, div_mul_cancel₀ _ hp.ne']
  rw [rnd, e, e]
  exact mul_le_mul_of_nonneg_right (nearEven_nearest _ k) hp.le

theorem nearEven_bound (x : α) : |nearEven (x / 2 ^ lastPlace x)| ≤ 2 ^ 53 := by
  have hp := two_zpow_pos (α := α) (lastPlace x)
  have h1 : |x / 2 ^ lastPlace x| < 2 ^ 53 := by
    rw [abs_div, abs_of_pos hp, div_lt_iff₀ hp]
    have := lt_lastPlace x
    rw [zpow_add₀ two_ne_zero] at this
    calc |x| < 2 ^ lastPlace x * 2 ^ (53 : ℤ) := this
      _ = _ := by norm_num; ring
  have h2 := nearEven_le (x / 2 ^ lastPlace x)
  have h3 : |((nearEven (x / 2 ^ lastPlace x) : ℤ) : α)| < 2 ^ 53 + 1 := by
    have := abs_sub_abs_le_abs_sub ((nearEven (x / 2 ^ lastPlace x) : ℤ) : α) (x / 2 ^ lastPlace x)
    linarith
  have h4 : |nearEven (x / 2 ^ lastPlace x)| < 2 ^ 53 + 1 := by exact_mod_cast h3
  omega

theorem rnd_representable (x : α) : Representable (rnd x) := representable_of (nearEven_bound x) (lastPlace_ge x)

/-- a multiple of a smaller power of two lies below the binade of `x` -/
theorem small_of_representable {x f : α} {m g : ℤ} (hm : |m| < 2 ^ 53) (hf : f = m * 2 ^ g) (hg : g < lastPlace x) : |f| < 2 ^ (lastPlace x + 52) := by
  have hp := two_zpow_pos (α := α) g
  rw [hf, abs_mul, abs_of_pos hp]
  have h1 : |(m : α)| < 2 ^ 53 := by exact_mod_cast hm
  calc |(m : α)| * 2 ^ g < 2 ^ 53 * 2 ^ g := mul_lt_mul_of_pos_right h1 hp
    _ = 2 ^ (g + 53) := by rw [zpow_add₀ two_ne_zero]; norm_num; ring
    _ ≤ 2 ^ (lastPlace x + 52) := zpow_le_zpow_right₀ one_le_two (by omega)

theorem grid_of_le {f : α} {m g e : ℤ} (hf : f = m * 2 ^ g) (hg : e ≤ g) : ∃ k : ℤ, f = k * 2 ^ e := by
  refine ⟨m * 2 ^ (g - e).toNat, ?_⟩
  have : g = ((g - e).toNat : ℤ) + e := by omega
  rw [hf]
  conv_lhs => rw [this, zpow_add₀ two_ne_zero, zpow_natCast]
  push_cast; ring

theorem rnd_nearest (x : α) : NearestDouble x (rnd x) := by
  refine ⟨rnd_representable x, fun f hf => ?_⟩
  obtain ⟨m, g, hm, hg, hfe⟩ := hf
  by_cases hge : lastPlace x ≤ g
  · obtain ⟨k, hk⟩ := grid_of_le hfe hge
    rw [hk]; exact rnd_grid x k
  · push Not at hge
    have hsm := small_of_representable hm hfe hge
    by_cases hx : x = 0
    · subst hx
      have := rnd_grid (0 : α) 0
      simp only [Int.cast_zero, zero_mul, sub_zero, abs_zero] at this ⊢
      exact this.trans (abs_nonneg f)
    · rcases lastPlace_le hx with hl | hl
      · have hpow : (2 : α) ^ (lastPlace x + 52) = ((2 ^ 52 : ℤ) : α) * 2 ^ lastPlace x := by
          rw [zpow_add₀ two_ne_zero]; norm_num; ring
        rcases le_total 0 x with h0 | h0
        · refine (rnd_grid x (2 ^ 52)).trans ?_
          rw [← hpow]
          rw [abs_of_nonneg h0] at hl
          rw [abs_of_nonpos (by linarith), abs_of_nonpos (by linarith [(abs_lt.mp hsm).2])]
          linarith [(abs_lt.mp hsm).2]
        · refine (rnd_grid x (-2 ^ 52)).trans ?_
          have : ((-2 ^ 52 : ℤ) : α) * 2 ^ lastPlace x = -2 ^ (lastPlace x + 52) := by rw [hpow]; push_cast; ring
          rw [this]
          rw [abs_of_nonpos h0] at hl
          rw [abs_of_nonneg (by linarith), abs_of_nonneg (by linarith [(abs_lt.mp hsm).1])]
          linarith [(abs_lt.mp hsm).1]
      · omega

theorem rnd_mono {x y : α} (h : x ≤ y) : rnd x ≤ rnd y := by
  rcases h.lt_or_eq with h | h
  · exact (rnd_nearest x).mono (rnd_nearest y) h
  · rw [h]

theorem rnd_exact {x : α} (h : Representable x) : rnd x = x := (rnd_nearest x).exact h

theorem rnd_zero : rnd (0 : α) = 0 := rnd_exact representable_zero

theorem rnd_rnd (x : α) : rnd (rnd x) = rnd x := rnd_exact (rnd_representable x)

theorem rnd_le {x f : α} (hf : Representable f) (h : x ≤ f) : rnd x ≤ f := by
  rw [← rnd_exact hf]; exact rnd_mono h

theorem le_rnd {x f : α} (hf : Representable f) (h : f ≤ x) : f ≤ rnd x := by
  rw [← rnd_exact hf]; exact rnd_mono h

/-- rounding is decided by an integer and an exponent; for numbers given explicitly -/
theorem rnd_eq {x : α} (m e : ℤ) (he : -1074 ≤ e) (h1 : 2 ^ (e + 52) ≤ |x|) (h2 : |x| < 2 ^ (e + 53))
    (h : |(m : α) * 2 ^ e - x| < 2 ^ e / 2 ∨ |(m : α) * 2 ^ e - x| = 2 ^ e / 2 ∧ m % 2 = 0) : rnd x = m * 2 ^ e := by
  have hp := two_zpow_pos (α := α) e
  rw [rnd, lastPlace_eq he h1 h2, nearEven_eq (k := m)]
  have ee : |(m : α) - x / 2 ^ e| * 2 ^ e = |(m : α) * 2 ^ e - x| := by
    rw [← abs_of_pos hp, ← abs_mul, abs_of_pos hp, sub_mul, div_mul_cancel₀ _ hp.ne']
  rcases h with h | ⟨h, hm⟩
  · left
    rw [← ee] at h
    have : |(m : α) - x / 2 ^ e| * 2 ^ e < 1 / 2 * 2 ^ e := by linarith
    exact lt_of_mul_lt_mul_right this hp.le
  · right
    rw [← ee] at h
    refine ⟨mul_right_cancel₀ hp.ne' (by linarith), hm⟩

/-- relative error of numbers in the normal range -/
theorem rnd_relative {x : α} (h : 2 ^ (-1022 : ℤ) ≤ |x|) : |rnd x - x| ≤ 2 ^ (-53 : ℤ) * |x| := by
  have hx : 0 < |x| := lt_of_lt_of_le (two_zpow_pos _) h
  have hl : 2 ^ (lastPlace x + 52) ≤ |x| := by
    rcases lastPlace_le (abs_pos.mp hx) with hl | hl
    · exact hl
    · rw [hl]; norm_num at h ⊢; exact h
  refine (rnd_error x).trans ?_
  calc (2 : α) ^ lastPlace x / 2 = 2 ^ (-53 : ℤ) * 2 ^ (lastPlace x + 52) := by
        rw [← zpow_add₀ two_ne_zero, show (-53 : ℤ) + (lastPlace x + 52) = lastPlace x + (-1) by ring, zpow_add₀ two_ne_zero]
        rw [zpow_neg_one]; ring
    _ ≤ _ := by gcongr

theorem rnd_tiesEven (x : α) : TiesEven x (rnd x) := by
  intro f hf hne htie
  obtain ⟨m, g, hm, hg, hfe⟩ := hf
  have hp := two_zpow_pos (α := α) (lastPlace x)
  have hx : x ≠ 0 := by
    rintro rfl
    rw [rnd_zero, sub_zero, sub_zero, abs_zero] at htie
    exact hne (by rw [rnd_zero]; exact abs_eq_zero.mp htie)
  by_cases hge : lastPlace x ≤ g
  · obtain ⟨k, hk⟩ := grid_of_le hfe hge
    have e : ∀ n : ℤ, |(n : α) * 2 ^ lastPlace x - x| = |(n : α) - x / 2 ^ lastPlace x| * 2 ^ lastPlace x := by
      intro n
      rw [← abs_of_pos hp, ← abs_mul, abs_of_pos hp, sub_mul, div_mul_cancel₀ _ hp.ne']
    have hkn : k ≠ nearEven (x / 2 ^ lastPlace x) := by
      rintro rfl; exact hne hk
    have h1 : (1 : α) ≤ |(k : α) - nearEven (x / 2 ^ lastPlace x)| := by
      have : (1 : ℤ) ≤ |k - nearEven (x / 2 ^ lastPlace x)| := Int.one_le_abs (sub_ne_zero.mpr hkn)
      exact_mod_cast this
    have h2 : |(k : α) - x / 2 ^ lastPlace x| = |(nearEven (x / 2 ^ lastPlace x) : α) - x / 2 ^ lastPlace x| := by
      rw [hk, rnd, e, e] at htie
      exact mul_right_cancel₀ hp.ne' htie
    have h3 := abs_sub_le (k : α) (x / 2 ^ lastPlace x) (nearEven (x / 2 ^ lastPlace x))
    rw [abs_sub_comm (x / 2 ^ lastPlace x)] at h3
    have h4 := nearEven_le (x / 2 ^ lastPlace x)
    rcases nearEven_spec (x / 2 ^ lastPlace x) with h | ⟨h, he⟩
    · linarith
    · have h5 : |(k : α) - nearEven (x / 2 ^ lastPlace x)| = 1 := by linarith
      refine ⟨nearEven (x / 2 ^ lastPlace x) / 2, ?_⟩
      have h6 : |f - rnd x| = 2 ^ lastPlace x := by
        rw [hk, rnd, ← sub_mul, abs_mul, h5, abs_of_pos hp, one_mul]
      have h7 : 2 * (nearEven (x / 2 ^ lastPlace x) / 2) = nearEven (x / 2 ^ lastPlace x) := by omega
      have h8 : (2 : α) * ((nearEven (x / 2 ^ lastPlace x) / 2 : ℤ) : α) = nearEven (x / 2 ^ lastPlace x) := by exact_mod_cast h7
      rw [h6, h8, rnd]
  · push Not at hge
    exfalso
    have hsm := small_of_representable hm hfe hge
    have hpow : (2 : α) ^ (lastPlace x + 52) = ((2 ^ 52 : ℤ) : α) * 2 ^ lastPlace x := by
      rw [zpow_add₀ two_ne_zero]; norm_num; ring
    rcases lastPlace_le hx with hl | hl
    · rcases le_total 0 x with h0 | h0
      · have h := rnd_grid x (2 ^ 52)
        rw [← hpow] at h
        rw [abs_of_nonneg h0] at hl
        rw [← htie, abs_of_nonpos (a := f - x) (by linarith [(abs_lt.mp hsm).2]), abs_of_nonpos (by linarith)] at h
        linarith [(abs_lt.mp hsm).2]
      · have h := rnd_grid x (-2 ^ 52)
        have e : ((-2 ^ 52 : ℤ) : α) * 2 ^ lastPlace x = -2 ^ (lastPlace x + 52) := by rw [hpow]; push_cast; ring
        rw [e] at h
        rw [abs_of_nonpos h0] at hl
        rw [← htie, abs_of_nonneg (a := f - x) (by linarith [(abs_lt.mp hsm).1]), abs_of_nonneg (by linarith)] at h
        linarith [(abs_lt.mp hsm).1]
    · omega

/-- a number of the format is a whole number of its last places -/
theorem on_grid {x : α} (h : Representable x) : ∃ k : ℤ, x = k * 2 ^ lastPlace x := ⟨_, (rnd_exact h).symm⟩

theorem grid_sum {x y : α} (hx : Representable x) (hy : Representable y) : ∃ k : ℤ, x + y = k * 2 ^ (-1074 : ℤ) := by
  obtain ⟨m, e, _, he, hxe⟩ := hx
  obtain ⟨n, g, _, hg, hyg⟩ := hy
  obtain ⟨k, hk⟩ := grid_of_le hxe he
  obtain ⟨l, hl⟩ := grid_of_le hyg hg
  exact ⟨k + l, by rw [hk, hl]; push_cast; ring⟩

/-- sums are rounded with a small relative error, however small they are -/
theorem rnd_add_error {x y : α} (hx : Representable x) (hy : Representable y) : |rnd (x + y) - (x + y)| ≤ 2 ^ (-53 : ℤ) * |x + y| := by
  by_cases hz : x + y = 0
  · rw [hz, rnd_zero]; simp
  · rcases lastPlace_le hz with hl | hl
    · refine (rnd_error _).trans ?_
      calc (2 : α) ^ lastPlace (x + y) / 2 = 2 ^ (-53 : ℤ) * 2 ^ (lastPlace (x + y) + 52) := by
            rw [← zpow_add₀ two_ne_zero, show (-53 : ℤ) + (lastPlace (x + y) + 52) = lastPlace (x + y) + (-1) by ring, zpow_add₀ two_ne_zero]
            rw [zpow_neg_one]; ring
        _ ≤ _ := by gcongr
    · obtain ⟨k, hk⟩ := grid_sum hx hy
      have h := rnd_grid (x + y) k
      rw [hl, ← hk, sub_self, abs_zero] at h
      exact h.trans (by positivity)

/-- two numbers of the format are not too near to each other -/
theorem gap {x y : α} (hx : Representable x) (hy : Representable y) (h : |y| ≤ |x|) (hne : x ≠ y) : 2 ^ (-53 : ℤ) * |y| < |x - y| := by
  by_cases hy0 : y = 0
  · subst hy0
    simpa using hne
  · have hxe := on_grid hx
    obtain ⟨k, hk⟩ := hxe
    obtain ⟨l, hl⟩ := grid_of_le (e := lastPlace y) hk (lastPlace_mono hy0 h)
    obtain ⟨n, hn⟩ := on_grid hy
    have hp := two_zpow_pos (α := α) (lastPlace y)
    have hd : x - y = ((l - n : ℤ) : α) * 2 ^ lastPlace y := by
      push_cast; rw [sub_mul, ← hl, ← hn]
    have hln : l - n ≠ 0 := by
      intro h0
      rw [h0] at hd
      exact hne (sub_eq_zero.mp (by simpa using hd))
    have h1 : (1 : α) ≤ |((l - n : ℤ) : α)| := by exact_mod_cast Int.one_le_abs hln
    have h2 : (2 : α) ^ lastPlace y ≤ |x - y| := by
      rw [hd, abs_mul, abs_of_pos hp]
      nlinarith
    refine lt_of_lt_of_le ?_ h2
    calc 2 ^ (-53 : ℤ) * |y| < 2 ^ (-53 : ℤ) * 2 ^ (lastPlace y + 53) := by
          have := lt_lastPlace y
          have h3 := two_zpow_pos (α := α) (-53)
          exact mul_lt_mul_of_pos_left this h3
      _ = _ := by rw [← zpow_add₀ two_ne_zero]; congr 1; ring

/-- what is small enough is lost in a sum -/
theorem rnd_absorb {v d : α} (hv : Representable v) (h : 2 ^ 55 * |d| ≤ |v|) : rnd (v + d) = v := by
  by_contra hne
  have hr := rnd_nearest (v + d)
  have h1 := hr.2 v hv
  rw [show v - (v + d) = -d by ring, abs_neg] at h1
  have h2 : |rnd (v + d) - v| ≤ 2 * |d| := by
    have := abs_sub_le (rnd (v + d)) (v + d) v
    rw [show v + d - v = d by ring] at this
    linarith
  have hd := abs_nonneg d
  have e : (2 : α) ^ (-53 : ℤ) = 1 / 2 ^ 53 := by rw [zpow_neg, one_div]; norm_cast
  rcases le_total |rnd (v + d)| |v| with h3 | h3
  · have g := gap hv hr.1 h3 (fun h => hne h.symm)
    rw [abs_sub_comm, e] at g
    have h4 : |v| - |rnd (v + d)| ≤ 2 * |d| := (abs_sub_abs_le_abs_sub _ _).trans (by rw [abs_sub_comm]; exact h2)
    have h5 : 1 / 2 ^ 53 * |rnd (v + d)| < 2 * |d| := lt_of_lt_of_le g h2
    have h6 : |rnd (v + d)| < 2 ^ 54 * |d| := by
      have : 2 ^ 53 * (1 / 2 ^ 53 * |rnd (v + d)|) < 2 ^ 53 * (2 * |d|) := mul_lt_mul_of_pos_left h5 (by positivity)
      norm_num at this ⊢; linarith
    norm_num at h h6
    linarith
  · have g := gap hr.1 hv h3 hne
    rw [e] at g
    have h5 : 1 / 2 ^ 53 * |v| < 2 * |d| := lt_of_lt_of_le g h2
    have h6 : |v| < 2 ^ 54 * |d| := by
      have : 2 ^ 53 * (1 / 2 ^ 53 * |v|) < 2 ^ 53 * (2 * |d|) := mul_lt_mul_of_pos_left h5 (by positivity)
      norm_num at this ⊢; linarith
    norm_num at h h6
    linarith

end Double

namespace F64

variable [FloorRing α]

/-- a finite number of the format, or one of the others -/
def Valid : F64 α → Prop
  | .fin x => Representable x ∧ |x| < 2 ^ 1024
  | _ => True

theorem ofExact_valid (x : α) : (ofExact x).Valid := by
  unfold ofExact
  split
  · trivial
  · rename_i h; exact ⟨Double.rnd_representable x, not_le.mp h⟩

theorem ofExact_fin {x : α} (h : |Double.rnd x| < 2 ^ 1024) : ofExact x = .fin (Double.rnd x) := by
  unfold ofExact; rw [if_neg (not_le.mpr h)]

theorem representable_pow {e : ℤ} (he : -1074 ≤ e) : Representable ((2 : α) ^ e) := by
  have := representable_of (α := α) (m := 1) (e := e) (by norm_num) he
  simpa using this

/-- no overflow when the exact value is not beyond numbers of the format that are finite -/
theorem ofExact_between {x a b : α} (ha : Representable a) (hb : Representable b) (h1 : a ≤ x) (h2 : x ≤ b) (h3 : |a| < 2 ^ 1024) (h4 : |b| < 2 ^ 1024) :
    ofExact x = .fin (Double.rnd x) :=
  ofExact_fin (abs_lt.mpr ⟨lt_of_lt_of_le (abs_lt.mp h3).1 (Double.le_rnd ha h1), lt_of_le_of_lt (Double.rnd_le hb h2) (abs_lt.mp h4).2⟩)

theorem ofExact_neg (x : α) : F64.ofExact (-x) = (F64.ofExact x).neg := by
  unfold F64.ofExact
  rw [Double.rnd_neg, abs_neg]
  split
  · rename_i h
    have hx : x ≠ 0 := by
      rintro rfl
      rw [Double.rnd_zero, abs_zero] at h
      exact absurd h (not_le.mpr (by positivity))
    rcases lt_or_gt_of_ne hx with h1 | h1
    · simp [F64.neg, h1, h1.le]
    · simp [F64.neg, h1, h1.le]
  · rfl

theorem add_neg (x y : F64 α) : x.neg.add y.neg = (x.add y).neg := by
  cases x <;> cases y <;> try rfl
  · rename_i x y
    simp only [F64.neg, F64.add]
    rw [show -x + -y = -(x + y) by ring, ofExact_neg]
    cases F64.ofExact (x + y) <;> rfl
  · rename_i x y
    cases x <;> cases y <;> simp [F64.neg, F64.add]

theorem neg_neg (x : F64 α) : x.neg.neg = x := by
  cases x <;> simp [F64.neg]

end F64

end Verif
