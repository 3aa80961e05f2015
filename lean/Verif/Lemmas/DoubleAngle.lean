import Mathlib.Tactic.Linarith
import Mathlib.Tactic.Ring
import Verif.Model.DoubleAngle
import Verif.Lemmas.Double

/-! Lemmas about the loops of `Angle::ReduceRange` in double precision. -/

namespace Verif.DAngle

open Verif Verif.Spec Verif.Double

variable {α : Type} [Field α] [LinearOrder α] [IsStrictOrderedRing α] [FloorRing α]

theorem lower_succ {range hi v w : F64 α} : ∀ {n : ℕ}, lower range hi n v = some w → lower range hi (n + 1) v = some w := by
  intro n
  induction n generalizing v with
  | zero => intro h; cases h
  | succ n ih =>
    intro h
    rw [lower] at h ⊢
    split at h
    · rw [if_pos (by assumption)]; exact ih h
    · rw [if_neg (by assumption)]; exact h

theorem lower_more {range hi v w : F64 α} {n m : ℕ} (hnm : n ≤ m) (h : lower range hi n v = some w) : lower range hi m v = some w := by
  induction hnm with
  | refl => exact h
  | step _ ih => exact lower_succ ih

theorem raise_succ {range lo v w : F64 α} : ∀ {n : ℕ}, raise range lo n v = some w → raise range lo (n + 1) v = some w := by
  intro n
  induction n generalizing v with
  | zero => intro h; cases h
  | succ n ih =>
    intro h
    rw [raise] at h ⊢
    split at h
    · rw [if_pos (by assumption)]; exact ih h
    · rw [if_neg (by assumption)]; exact h

theorem raise_more {range lo v w : F64 α} {n m : ℕ} (hnm : n ≤ m) (h : raise range lo n v = some w) : raise range lo m v = some w := by
  induction hnm with
  | refl => exact h
  | step _ ih => exact raise_succ ih

theorem sub_fin (x y : α) : (F64.fin x).sub (.fin y) = F64.ofExact (x - y) := by
  rw [F64.sub, F64.neg, F64.add, sub_eq_add_neg]

/-- where the second loop ends, if it does -/
theorem lower_range {R lo hi : α} (hR : 0 ≤ R) (hlo : Representable lo) (hl : |lo| < 2 ^ 1024) (hex : lo ≤ hi - R) :
    ∀ {n : ℕ} {v : α} {w : F64 α}, Representable v → |v| < 2 ^ 1024 → lo ≤ v → lower (.fin R) (.fin hi) n (.fin v) = some w →
      ∃ x, w = .fin x ∧ Representable x ∧ lo ≤ x ∧ x < hi := by
  intro n
  induction n with
  | zero => intro v w _ _ _ h; cases h
  | succ n ih =>
    intro v w hv hb hlv h
    rw [lower] at h
    simp only [F64.le, decide_eq_true_eq] at h
    split at h
    · rename_i hge
      rw [sub_fin, F64.ofExact_between hlo hv (by linarith) (by linarith) hl hb] at h
      refine ih (rnd_representable _) ?_ (le_rnd hlo (by linarith)) h
      exact abs_lt.mpr ⟨lt_of_lt_of_le (abs_lt.mp hl).1 (le_rnd hlo (by linarith)), lt_of_le_of_lt (rnd_le hv (by linarith)) (abs_lt.mp hb).2⟩
    · rename_i hlt
      cases h
      exact ⟨v, rfl, hv, hlv, not_le.mp hlt⟩

/-- where the first loop ends, if it does -/
theorem raise_range {R lo hi : α} (hR : 0 ≤ R) (hhi : Representable hi) (hh : |hi| < 2 ^ 1024) (hex : lo + R ≤ hi) :
    ∀ {n : ℕ} {v : α} {w : F64 α}, Representable v → |v| < 2 ^ 1024 → raise (.fin R) (.fin lo) n (.fin v) = some w →
      ∃ x, w = .fin x ∧ Representable x ∧ |x| < 2 ^ 1024 ∧ lo ≤ x := by
  intro n
  induction n with
  | zero => intro v w _ _ h; cases h
  | succ n ih =>
    intro v w hv hb h
    rw [raise] at h
    simp only [F64.lt, decide_eq_true_eq] at h
    split at h
    · rename_i hlt
      rw [F64.add, F64.ofExact_between hv hhi (by linarith) (by linarith) hb hh] at h
      refine ih (rnd_representable _) ?_ h
      exact abs_lt.mpr ⟨lt_of_lt_of_le (abs_lt.mp hb).1 (le_rnd hv (by linarith)), lt_of_le_of_lt (rnd_le hhi (by linarith)) (abs_lt.mp hh).2⟩
    · rename_i hge
      cases h
      exact ⟨v, rfl, hv, hb, not_lt.mp hge⟩

theorem ulp_half {R B : α} (hB : B ≤ 2 ^ 52 * R) : 2 ^ (-53 : ℤ) * B ≤ R / 2 := by
  have e : (2 : α) ^ (-53 : ℤ) = 1 / 2 ^ 53 := by rw [zpow_neg, one_div]; norm_cast
  rw [e]
  norm_num at hB ⊢
  linarith

/-- the second loop ends, and how far rounding has taken it from whole turns -/
theorem lower_run {R hi B : α} (hR : 0 < R) (hRr : Representable R) (hB : B ≤ 2 ^ 52 * R) (hB' : 2 * B ≤ 2 ^ 1023) (hhi : -B ≤ hi - R) :
    ∀ (k : ℕ) (v : α), Representable v → v - R ≤ B → v < hi + k * (R / 2) →
      ∃ (j : ℕ) (x : α), j ≤ k ∧ lower (.fin R) (.fin hi) (k + 1) (.fin v) = some (.fin x) ∧ x < hi ∧ |x - (v - j * R)| ≤ j * (2 ^ (-53 : ℤ) * B) := by
  intro k
  induction k with
  | zero =>
    intro v hv hvB hk
    refine ⟨0, v, le_refl _, ?_, by simpa using hk, by simp⟩
    rw [lower]
    simp only [F64.le, decide_eq_true_eq]
    rw [if_neg (not_le.mpr (by simpa using hk))]
  | succ k ih =>
    intro v hv hvB hk
    by_cases hge : hi ≤ v
    · have hz : |v - R| ≤ B := abs_le.mpr ⟨by linarith, hvB⟩
      have herr : |rnd (v - R) - (v - R)| ≤ 2 ^ (-53 : ℤ) * B := by
        have := rnd_add_error hv (representable_neg hRr)
        rw [← sub_eq_add_neg] at this
        refine this.trans ?_
        have := two_zpow_pos (α := α) (-53)
        gcongr
      have hh := ulp_half hB
      have h1 := abs_le.mp (herr.trans hh)
      have hB0 : 0 ≤ B := (abs_nonneg _).trans hz
      have hfin : F64.ofExact (v - R) = .fin (rnd (v - R)) := by
        apply F64.ofExact_fin
        have h2 : |rnd (v - R)| ≤ |rnd (v - R) - (v - R)| + |v - R| := by
          have := abs_add_le (rnd (v - R) - (v - R)) (v - R)
          rwa [sub_add_cancel] at this
        have h3 : 2 ^ (-53 : ℤ) * B ≤ 1 * B := by
          apply mul_le_mul_of_nonneg_right _ hB0
          exact zpow_le_one_of_nonpos₀ one_le_two (by norm_num)
        have h4 : (2 : α) ^ 1023 < 2 ^ 1024 := pow_lt_pow_right₀ one_lt_two (by norm_num)
        have h5 : |rnd (v - R)| ≤ 2 * B := h2.trans (by rw [two_mul]; exact add_le_add (herr.trans (h3.trans (one_mul B).le)) hz)
        exact lt_of_le_of_lt (h5.trans hB') h4
      obtain ⟨j, x, hj, hrun, hx, hacc⟩ := ih (rnd (v - R)) (rnd_representable _) (by linarith) (by push_cast at hk; linarith)
      refine ⟨j + 1, x, by omega, ?_, hx, ?_⟩
      · rw [lower]
        simp only [F64.le, decide_eq_true_eq]
        rw [if_pos hge, sub_fin, hfin]
        exact hrun
      · push_cast
        have e : x - (v - (j + 1) * R) = (x - (rnd (v - R) - j * R)) + (rnd (v - R) - (v - R)) := by ring
        rw [e]
        refine (abs_add_le _ _).trans ?_
        linarith
    · refine ⟨0, v, Nat.zero_le _, ?_, not_le.mp hge, by simp⟩
      rw [lower]
      simp only [F64.le, decide_eq_true_eq]
      rw [if_neg hge]

/-- the first loop ends, and how far rounding has taken it from whole turns -/
theorem raise_run {R lo B : α} (hR : 0 < R) (hRr : Representable R) (hB : B ≤ 2 ^ 52 * R) (hB' : 2 * B ≤ 2 ^ 1023) (hlo : lo + R ≤ B) :
    ∀ (k : ℕ) (v : α), Representable v → -B ≤ v + R → lo - k * (R / 2) ≤ v →
      ∃ (j : ℕ) (x : α), j ≤ k ∧ raise (.fin R) (.fin lo) (k + 1) (.fin v) = some (.fin x) ∧ lo ≤ x ∧ (x = v ∨ x ≤ lo + 2 * R) ∧ Representable x ∧
        |x - (v + j * R)| ≤ j * (2 ^ (-53 : ℤ) * B) := by
  intro k
  induction k with
  | zero =>
    intro v hv hvB hk
    refine ⟨0, v, le_refl _, ?_, by simpa using hk, Or.inl rfl, hv, by simp⟩
    rw [raise]
    simp only [F64.lt, decide_eq_true_eq]
    rw [if_neg (not_lt.mpr (by simpa using hk))]
  | succ k ih =>
    intro v hv hvB hk
    by_cases hlt : v < lo
    · have hz : |v + R| ≤ B := abs_le.mpr ⟨hvB, by linarith⟩
      have herr : |rnd (v + R) - (v + R)| ≤ 2 ^ (-53 : ℤ) * B := by
        refine (rnd_add_error hv hRr).trans ?_
        have := two_zpow_pos (α := α) (-53)
        gcongr
      have hh := ulp_half hB
      have h1 := abs_le.mp (herr.trans hh)
      have hB0 : 0 ≤ B := (abs_nonneg _).trans hz
      have hfin : F64.ofExact (v + R) = .fin (rnd (v + R)) := by
        apply F64.ofExact_fin
        have h2 : |rnd (v + R)| ≤ |rnd (v + R) - (v + R)| + |v + R| := by
          have := abs_add_le (rnd (v + R) - (v + R)) (v + R)
          rwa [sub_add_cancel] at this
        have h3 : 2 ^ (-53 : ℤ) * B ≤ 1 * B := by
          apply mul_le_mul_of_nonneg_right _ hB0
          exact zpow_le_one_of_nonpos₀ one_le_two (by norm_num)
        have h4 : (2 : α) ^ 1023 < 2 ^ 1024 := pow_lt_pow_right₀ one_lt_two (by norm_num)
        have h5 : |rnd (v + R)| ≤ 2 * B := h2.trans (by rw [two_mul]; exact add_le_add (herr.trans (h3.trans (one_mul B).le)) hz)
        exact lt_of_le_of_lt (h5.trans hB') h4
      obtain ⟨j, x, hj, hrun, hx, hor, hxr, hacc⟩ := ih (rnd (v + R)) (rnd_representable _) (by linarith) (by push_cast at hk; linarith)
      refine ⟨j + 1, x, by omega, ?_, hx, ?_, hxr, ?_⟩
      · rw [raise]
        simp only [F64.lt, decide_eq_true_eq]
        rw [if_pos hlt, F64.add, hfin]
        exact hrun
      · right
        rcases hor with h | h
        · rw [h]; linarith
        · exact h
      · push_cast
        have e : x - (v + (j + 1) * R) = (x - (rnd (v + R) + j * R)) + (rnd (v + R) - (v + R)) := by ring
        rw [e]
        refine (abs_add_le _ _).trans ?_
        linarith
    · refine ⟨0, v, Nat.zero_le _, ?_, not_lt.mp hlt, Or.inl rfl, hv, by simp⟩
      rw [raise]
      simp only [F64.lt, decide_eq_true_eq]
      rw [if_neg hlt]

/-- the second loop does not end when the range is lost in the value -/
theorem lower_stuck {range hi v : F64 α} (h1 : hi.le v = true) (h2 : v.sub range = v) : ∀ n, lower range hi n v = none := by
  intro n
  induction n with
  | zero => rfl
  | succ n ih => rw [lower, if_pos h1, h2, ih]

/-- the first loop does not end when the range is lost in the value -/
theorem raise_stuck {range lo v : F64 α} (h1 : v.lt lo = true) (h2 : v.add range = v) : ∀ n, raise range lo n v = none := by
  intro n
  induction n with
  | zero => rfl
  | succ n ih => rw [raise, if_pos h1, h2, ih]

/-- the full turns of the five units in double precision -/
theorem turn_fin {u : AUnit} (hu : u ≠ .undefined) : ∃ T : α, turn u = .fin T ∧ Representable T ∧ 1 ≤ T ∧ T ≤ 2 ^ 21 := by
  cases u with
  | undefined => exact absurd rfl hu
  | radian => exact ⟨_, rfl, ⟨7074237752028440, -50, by norm_num, by norm_num, by norm_num⟩, by norm_num, by norm_num⟩
  | degree => exact ⟨_, rfl, ⟨360, 0, by norm_num, by norm_num, by norm_num⟩, by norm_num, by norm_num⟩
  | arcminute => exact ⟨_, rfl, ⟨21600, 0, by norm_num, by norm_num, by norm_num⟩, by norm_num, by norm_num⟩
  | arcsecond => exact ⟨_, rfl, ⟨1296000, 0, by norm_num, by norm_num, by norm_num⟩, by norm_num, by norm_num⟩
  | revolution => exact ⟨_, rfl, ⟨1, 0, by norm_num, by norm_num, by norm_num⟩, by norm_num, by norm_num⟩

theorem dbl_add_comm (x y : F64 α) : x.add y = y.add x := by
  cases x with
  | nan => cases y <;> rfl
  | fin x => cases y <;> first | rfl | (simp only [F64.add]; rw [add_comm])
  | inf g => cases y <;> first | rfl | (rename_i g'; cases g <;> cases g' <;> rfl)

theorem dbl_neg_sub (x y : F64 α) : (x.sub y).neg = y.sub x := by
  rw [F64.sub, F64.sub, ← F64.add_neg, F64.neg_neg, dbl_add_comm]

theorem dbl_abs_neg (x : F64 α) : abs x.neg = abs x := by
  cases x with
  | nan => rfl
  | inf g => cases g <;> rfl
  | fin x =>
    simp only [abs, F64.neg, F64.lt, decide_eq_true_eq]
    rcases lt_trichotomy x 0 with h | h | h
    · rw [if_neg (by linarith), if_pos h]
    · rw [if_neg (by linarith), if_neg (by linarith), h, neg_zero]
    · rw [if_pos (by linarith), if_neg (by linarith), neg_neg]

theorem dbl_abs_sub_comm (x y : F64 α) : abs (x.sub y) = abs (y.sub x) := by rw [← dbl_neg_sub y x, dbl_abs_neg]

theorem sub_self_fin (x : α) : (F64.fin x).sub (.fin x) = .fin 0 := by
  rw [sub_fin, sub_self, F64.ofExact_fin] <;> rw [rnd_zero]
  simpa using (by positivity : (0 : α) < 2 ^ 1024)

theorem dbl_abs_nonneg (t : α) : (abs (F64.fin (0 : α))).le (abs (.fin t)) = true := by
  simp only [abs, F64.lt, decide_eq_true_eq, lt_irrefl, if_false]
  split
  · simp only [F64.neg, F64.le, decide_eq_true_eq]; linarith
  · simp only [F64.le, decide_eq_true_eq]; linarith

end Verif.DAngle
