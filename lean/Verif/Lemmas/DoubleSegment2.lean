import Verif.Model.DoubleSegment2
import Verif.Lemmas.DoubleLine2

/-!
# Segments of the plane inside space, and numbers on a grid
-/

namespace Verif

open Double Spec

/-- the point of space above a point of the plane -/
def DVec2.lift (a : DVec2) : DVec := ⟨a.x, a.y, .fin 0⟩

theorem F64.ofExact_zero : F64.ofExact (0 : ℝ) = .fin 0 := by
  rw [F64.ofExact_fin, rnd_zero]
  rw [rnd_zero, abs_zero]; positivity

/-- adding zero to the result of an operation changes nothing -/
theorem F64.ofExact_add_zero (x : ℝ) : (F64.ofExact x).add (.fin 0) = F64.ofExact x := by
  unfold F64.ofExact
  split
  · rfl
  · rename_i h
    show F64.ofExact (rnd x + 0) = _
    rw [add_zero, F64.ofExact_fin, rnd_rnd]
    rw [rnd_rnd]; exact not_le.1 h

theorem F64.mul_add_zero (x y : F64 ℝ) : (x.mul y).add (.fin 0) = x.mul y := by
  cases x <;> cases y <;> simp only [F64.mul] <;> first | exact F64.ofExact_add_zero _ | rfl | (split <;> rfl)

theorem F64.add_add_zero (x y : F64 ℝ) : (x.add y).add (.fin 0) = x.add y := by
  rcases x with _ | s | _ <;> rcases y with _ | t | _ <;> first | exact F64.ofExact_add_zero _ | rfl | (cases s <;> cases t <;> rfl)

theorem F64.zero_mul_zero : (F64.fin (0 : ℝ)).mul (.fin 0) = .fin 0 := by
  show F64.ofExact ((0 : ℝ) * 0) = _; rw [mul_zero, F64.ofExact_zero]

theorem F64.zero_sub_zero : (F64.fin (0 : ℝ)).sub (.fin 0) = .fin 0 := by
  show F64.ofExact ((0 : ℝ) + -0) = _; rw [neg_zero, add_zero, F64.ofExact_zero]

namespace DVec2

theorem lift_defined (a : DVec2) : a.lift.isDefined = a.isDefined := by
  rw [Bool.eq_iff_iff]; simp [DVec.isDefined, isDefined, lift]

theorem lift_eq (a b : DVec2) : a.lift.eq b.lift = a.eq b := by simp [DVec.eq, eq, lift, F64.eq]

theorem lift_sub (a b : DVec2) : a.lift.sub b.lift = (a.sub b).lift := by simp only [DVec.sub, lift, sub, F64.zero_sub_zero]

theorem lift_add (a b : DVec2) : a.lift.add b.lift = (a.add b).lift := by
  simp only [DVec.add, lift, add, DVec.mk.injEq, true_and]
  show F64.ofExact ((0 : ℝ) + 0) = _; rw [add_zero, F64.ofExact_zero]

theorem lift_dot (o : Bool) (a b : DVec2) : a.lift.dot o b.lift = DSegment2.dot a b := by
  simp only [DVec.dot, lift, F64.zero_mul_zero, DSegment2.dot]
  cases o <;> simp only [DVec.sum, F64.mul_add_zero, F64.add_add_zero, if_true, Bool.false_eq_true, if_false]

theorem lift_squaredNorm (o : Bool) (a : DVec2) : a.lift.squaredNorm o = a.squaredNorm := lift_dot o a a

theorem lift_scale (x : ℝ) (a : DVec2) : DVec.scale (.fin x) a.lift = DVec2.lift ⟨(F64.fin x).mul a.x, (F64.fin x).mul a.y⟩ := by
  simp only [DVec.scale, lift, DVec.mk.injEq, true_and]
  show F64.ofExact (x * 0) = _; rw [mul_zero, F64.ofExact_zero]

theorem lift_half (a : DVec2) : a.lift.div (.fin 2) = DVec2.lift ⟨a.x.div (.fin 2), a.y.div (.fin 2)⟩ := by
  simp only [DVec.div, lift, DVec.mk.injEq, true_and]
  simp [F64.div, F64.ofExact_zero]

theorem lift_distance (o : Bool) (a b : DVec2) : DPoint.distanceTo o a.lift b.lift = DPoint.distanceTo2 a b := by
  simp only [DPoint.distanceTo, DPoint.distanceTo2, lift_defined, lift_sub, DVec.norm, lift_squaredNorm, isDefined]
  by_cases hb : b.x = .nan ∨ b.y = .nan
  · simp [hb]
  · by_cases ha : a.x = .nan ∨ a.y = .nan
    · simp [hb, ha]
    · push Not at ha hb
      simp [ha.1, ha.2, hb.1, hb.2]
      rfl

end DVec2

/-- numbers that are whole multiples of `2 ^ e`, at most `2 ^ n` of them -/
def OnGrid (e : ℤ) (n : ℕ) (x : ℝ) : Prop := ∃ k : ℤ, |k| ≤ 2 ^ n ∧ x = k * 2 ^ e

namespace OnGrid

variable {e f : ℤ} {n m : ℕ} {x y : ℝ}

theorem representable (h : OnGrid e n x) (hn : n ≤ 53) (he : -1074 ≤ e) : Representable x := by
  obtain ⟨k, hk, rfl⟩ := h
  exact representable_of (hk.trans (pow_le_pow_right₀ (by norm_num) hn)) he

theorem exact (h : OnGrid e n x) (hn : n ≤ 53) (he : -1074 ≤ e) : rnd x = x := rnd_exact (h.representable hn he)

theorem mono (h : OnGrid e n x) (hm : n ≤ m) : OnGrid e m x := by
  obtain ⟨k, hk, rfl⟩ := h
  exact ⟨k, hk.trans (pow_le_pow_right₀ (by norm_num) hm), rfl⟩

theorem add (hx : OnGrid e n x) (hy : OnGrid e n y) : OnGrid e (n + 1) (x + y) := by
  obtain ⟨k, hk, rfl⟩ := hx
  obtain ⟨l, hl, rfl⟩ := hy
  refine ⟨k + l, ?_, by push_cast; ring⟩
  rw [pow_succ]
  have := abs_add_le k l
  linarith

theorem neg (hx : OnGrid e n x) : OnGrid e n (-x) := by
  obtain ⟨k, hk, rfl⟩ := hx
  exact ⟨-k, by rwa [abs_neg], by push_cast; ring⟩

theorem sub (hx : OnGrid e n x) (hy : OnGrid e n y) : OnGrid e (n + 1) (x - y) := by
  rw [sub_eq_add_neg]; exact hx.add hy.neg

theorem mul (hx : OnGrid e n x) (hy : OnGrid f m y) : OnGrid (e + f) (n + m) (x * y) := by
  obtain ⟨k, hk, rfl⟩ := hx
  obtain ⟨l, hl, rfl⟩ := hy
  refine ⟨k * l, ?_, by rw [zpow_add₀ two_ne_zero]; push_cast; ring⟩
  rw [abs_mul, pow_add]
  exact mul_le_mul hk hl (abs_nonneg _) (by positivity)

theorem zero : OnGrid e n 0 := ⟨0, by simp, by simp⟩

theorem abs_le (h : OnGrid e n x) : |x| ≤ 2 ^ (n + e) := by
  obtain ⟨k, hk, rfl⟩ := h
  rw [abs_mul, abs_of_pos (two_zpow_pos (α := ℝ) e), zpow_add₀ two_ne_zero]
  refine mul_le_mul_of_nonneg_right ?_ (two_zpow_pos e).le
  have : |(k : ℝ)| ≤ 2 ^ n := by exact_mod_cast hk
  exact_mod_cast this

/-- the square of a number of the grid is not lost -/
theorem square (h : OnGrid e n x) (he : -537 ≤ e) : rnd (x * x) = 0 ↔ x = 0 := by
  constructor
  · intro h0
    by_contra hx
    obtain ⟨k, -, rfl⟩ := h
    have hk : k ≠ 0 := fun e => hx (by rw [e]; simp)
    have : (1 : ℝ) ≤ k * k := by
      have : 1 ≤ k * k := by nlinarith [Int.one_le_abs hk, abs_mul_abs_self k]
      exact_mod_cast this
    have h2 : (2 : ℝ) ^ (e + e) ≤ k * 2 ^ e * (k * 2 ^ e) := by
      rw [zpow_add₀ two_ne_zero]
      have := mul_pos (two_zpow_pos (α := ℝ) e) (two_zpow_pos e)
      nlinarith
    have := le_rnd (F64.representable_pow (by omega)) h2
    rw [h0] at this
    exact absurd this (not_le.2 (two_zpow_pos _))
  · rintro rfl; simp [rnd_zero]

end OnGrid

end Verif
