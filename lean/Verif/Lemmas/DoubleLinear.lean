import Verif.Model.DoubleLinear
import Verif.Lemmas.Double
import Verif.Lemmas.Interpolator
import Mathlib.Tactic.Positivity
import Mathlib.Tactic.GCongr

/-! # Lemmas on linear interpolation in double precision -/

namespace Verif.DLinear

open Verif Verif.Spec Verif.Double

theorem boundLoop_map {β γ : Type} (f : β → γ) (before : γ → Bool) (v : List β) (n : ℕ) : ∀ first len : ℕ, len ≤ n →
    boundLoop before (v.map f) first len = boundLoop (fun a => before (f a)) v first len := by
  induction n with
  | zero =>
    intro first len hl
    obtain rfl : len = 0 := by omega
    unfold boundLoop; simp
  | succ n ih =>
    intro first len hl
    by_cases h0 : len = 0
    · subst h0; unfold boundLoop; simp
    · unfold boundLoop
      simp only [h0, dite_false, List.getElem?_map]
      cases v[first + len / 2]? with
      | none => rfl
      | some a =>
        simp only [Option.map_some]
        split
        · exact ih _ _ (by omega)
        · exact ih _ _ (by omega)

variable {α : Type} [Field α] [LinearOrder α] [IsStrictOrderedRing α] [FloorRing α]

/-- the search among finite numbers is the one among their values -/
theorem findIndexRange_fin (X : List α) (q : α) : findIndexRange (X.map F64.fin) (.fin q) = LinearI.findIndexRange ⟨X, []⟩ q := by
  unfold findIndexRange LinearI.findIndexRange lowerBound
  rw [List.length_map, boundLoop_map F64.fin _ X X.length 0 X.length le_rfl]
  rfl

theorem two_neg53 : (2 : α) ^ (-53 : ℤ) = 1 / 2 ^ 53 := by rw [zpow_neg, one_div]; norm_cast

/-- a rounded number: a relative and a small absolute error -/
theorem rnd_split (z : α) : ∃ d h : α, |d| ≤ 1 / 2 ^ 53 ∧ |h| ≤ 2 ^ (-1075 : ℤ) ∧ rnd z = z * (1 + d) + h := by
  by_cases hz : z = 0
  · exact ⟨0, 0, by simp, by simp, by simp [hz, rnd_zero]⟩
  rcases lastPlace_le hz with hl | hl
  · have hz' : 0 < |z| := abs_pos.2 hz
    refine ⟨(rnd z - z) / z, 0, ?_, by simp, by field_simp; ring⟩
    rw [abs_div, div_le_iff₀ hz']
    refine (rnd_error z).trans ?_
    calc (2 : α) ^ lastPlace z / 2 = 2 ^ (-53 : ℤ) * 2 ^ (lastPlace z + 52) := by
          rw [← zpow_add₀ two_ne_zero, show (-53 : ℤ) + (lastPlace z + 52) = lastPlace z + (-1) by ring, zpow_add₀ two_ne_zero, zpow_neg_one]; ring
      _ ≤ 1 / 2 ^ 53 * |z| := by rw [two_neg53]; gcongr
  · refine ⟨0, rnd z - z, by simp, ?_, by ring⟩
    have := rnd_error z
    rw [hl] at this
    refine this.trans (le_of_eq ?_)
    rw [show (-1074 : ℤ) = -1075 + 1 by norm_num, zpow_add₀ two_ne_zero]; simp

/-- a rounded sum or difference: a relative error -/
theorem rnd_sum {x y : α} (hx : Representable x) (hy : Representable y) : ∃ d : α, |d| ≤ 1 / 2 ^ 53 ∧ rnd (x + y) = (x + y) * (1 + d) := by
  by_cases hz : x + y = 0
  · exact ⟨0, by simp, by simp [hz, rnd_zero]⟩
  refine ⟨(rnd (x + y) - (x + y)) / (x + y), ?_, by field_simp; ring⟩
  rw [abs_div, div_le_iff₀ (abs_pos.2 hz), ← two_neg53]
  exact rnd_add_error hx hy

theorem rnd_sub_pos {x y : α} (hx : Representable x) (hy : Representable y) (h : y < x) : 0 < rnd (x - y) := by
  obtain ⟨d, hd, e⟩ := rnd_sum hx (representable_neg hy)
  rw [← sub_eq_add_neg] at e
  rw [e]
  have h1 := (abs_le.1 hd).1
  have h2 : (1 : α) / 2 ^ 53 < 1 := by norm_num
  exact mul_pos (sub_pos.2 h) (by linarith)

theorem p1023 : (2 : α) ^ 1022 + 2 ^ 1022 = 2 ^ 1023 := by rw [← two_mul, ← pow_succ']
theorem p1024 : (2 : α) ^ 1023 < 2 ^ 1024 := pow_lt_pow_right₀ one_lt_two (by norm_num)
theorem rep1023 : Representable ((2 : α) ^ 1023) := by
  have := F64.representable_pow (α := α) (e := 1023) (by norm_num)
  exact_mod_cast this

theorem rnd_abs_le {z b : α} (hb : Representable b) (h : |z| ≤ b) : |rnd z| ≤ b :=
  abs_le.2 ⟨le_rnd (representable_neg hb) (abs_le.1 h).1, rnd_le hb (abs_le.1 h).2⟩

theorem sub_small {x y : α} (hx : |x| ≤ 2 ^ 1022) (hy : |y| ≤ 2 ^ 1022) : (F64.fin x).sub (.fin y) = .fin (rnd (x - y)) ∧ |rnd (x - y)| ≤ 2 ^ 1023 := by
  have h : |x - y| ≤ 2 ^ 1023 := by
    rw [← p1023]; exact (abs_sub x y).trans (add_le_add hx hy)
  have h' := rnd_abs_le rep1023 h
  refine ⟨?_, h'⟩
  show F64.ofExact (x + -y) = _
  rw [← sub_eq_add_neg, F64.ofExact_fin (lt_of_le_of_lt h' p1024)]

/-- the steps of the formula for finite data that is not too large -/
theorem formula_fin {x0 x1 y0 y1 q : α} (hx0 : Representable x0) (hx1 : Representable x1) (hq : Representable q) (hy0 : Representable y0)
    (bx0 : |x0| ≤ 2 ^ 1022) (bx1 : |x1| ≤ 2 ^ 1022) (by0 : |y0| ≤ 2 ^ 1022) (by1 : |y1| ≤ 2 ^ 1022) (h0 : x0 < q) (h1 : q ≤ x1) :
    let r := rnd (rnd (q - x0) / rnd (x1 - x0))
    0 ≤ r ∧ r ≤ 1 ∧ formula (.fin x0) (.fin x1) (.fin y0) (.fin y1) (.fin q) = .fin (rnd (y0 + rnd (r * rnd (y1 - y0)))) := by
  intro r
  have bq : |q| ≤ 2 ^ 1022 := abs_le.2 ⟨(abs_le.1 bx0).1.trans h0.le, h1.trans (abs_le.1 bx1).2⟩
  obtain ⟨en, bn⟩ := sub_small bq bx0
  obtain ⟨ed, bd⟩ := sub_small bx1 bx0
  obtain ⟨ey, by'⟩ := sub_small by1 by0
  have pn := rnd_sub_pos hq hx0 h0
  have pd := rnd_sub_pos hx1 hx0 (lt_of_lt_of_le h0 h1)
  have hnd : rnd (q - x0) ≤ rnd (x1 - x0) := rnd_mono (by linarith)
  have rep1 : Representable (1 : α) := by simpa using representable_int (α := α) (m := 1) (by norm_num)
  have q0 : 0 ≤ rnd (q - x0) / rnd (x1 - x0) := (div_pos pn pd).le
  have q1 : rnd (q - x0) / rnd (x1 - x0) ≤ 1 := (div_le_one pd).2 hnd
  have r0 : 0 ≤ r := le_rnd representable_zero q0
  have r1 : r ≤ 1 := rnd_le rep1 q1
  refine ⟨r0, r1, ?_⟩
  have er : (F64.fin (rnd (q - x0))).div (.fin (rnd (x1 - x0))) = .fin r := by
    simp only [F64.div, if_neg pd.ne']
    exact F64.ofExact_fin (by
      rw [abs_of_nonneg r0]; exact lt_of_le_of_lt r1 (one_lt_pow₀ one_lt_two (by norm_num)))
  have bp : |r * rnd (y1 - y0)| ≤ |rnd (y1 - y0)| := by
    rw [abs_mul, abs_of_nonneg r0]; exact mul_le_of_le_one_left (abs_nonneg _) r1
  have bp' : |rnd (r * rnd (y1 - y0))| ≤ 2 ^ 1023 := rnd_abs_le rep1023 (bp.trans by')
  have ep : (F64.fin r).mul (.fin (rnd (y1 - y0))) = .fin (rnd (r * rnd (y1 - y0))) := F64.ofExact_fin (lt_of_le_of_lt bp' p1024)
  unfold formula
  rw [en, ed, ey, er, ep]
  refine F64.ofExact_fin ?_
  have rep3 : Representable ((2 : α) ^ 1022 + 2 ^ 1023) := by
    refine ⟨3, 1022, by norm_num, by norm_num, ?_⟩
    rw [← p1023, show ((2 : α) ^ (1022 : ℤ)) = 2 ^ 1022 from zpow_natCast 2 1022]
    generalize (2 : α) ^ 1022 = z
    push_cast; ring
  have hb : |y0 + rnd (r * rnd (y1 - y0))| ≤ 2 ^ 1022 + 2 ^ 1023 := (abs_add_le _ _).trans (add_le_add by0 bp')
  refine lt_of_le_of_lt (rnd_abs_le rep3 hb) ?_
  calc (2 : α) ^ 1022 + 2 ^ 1023 < 2 ^ 1023 + 2 ^ 1023 := by
        have : (2 : α) ^ 1022 < 2 ^ 1023 := pow_lt_pow_right₀ one_lt_two (by norm_num)
        exact add_lt_add_left this _
    _ = 2 ^ 1024 := by rw [← two_mul, ← pow_succ']

/-- factors near one -/
theorem near_mul {p q a b : α} (hp : |p - 1| ≤ a) (hq : |q - 1| ≤ b) : |p * q - 1| ≤ a + b + a * b := by
  have e : p * q - 1 = (p - 1) + (q - 1) + (p - 1) * (q - 1) := by ring
  rw [e]
  refine (abs_add_le _ _).trans (add_le_add ((abs_add_le _ _).trans (add_le_add hp hq)) ?_)
  rw [abs_mul]
  exact mul_le_mul hp hq (abs_nonneg _) ((abs_nonneg _).trans hp)

theorem near_inv {d u : α} (hd : |d| ≤ u) (hu : u ≤ 1 / 1000) : |1 / (1 + d) - 1| ≤ 1002 / 1000 * u := by
  have h1 := (abs_le.1 hd).1
  have hp : 0 < 1 + d := by linarith
  have e : 1 / (1 + d) - 1 = -d / (1 + d) := by field_simp; ring
  rw [e, abs_div, abs_neg, abs_of_pos hp, div_le_iff₀ hp]
  have : u * (1 + d) ≥ u * (1 - 1 / 1000) := mul_le_mul_of_nonneg_left (by linarith) ((abs_nonneg _).trans hd)
  have h0 : 0 ≤ u := (abs_nonneg _).trans hd
  linarith [hd]

/-- the errors of the six operations together -/
theorem blend {Y D r M u t a h1 h2 b1 b5 b6 : α} (u0 : 0 ≤ u) (hu : u ≤ 1 / 1000) (t0 : 0 ≤ t) (ht : t ≤ u / 1000) (r0 : 0 ≤ r) (r1 : r ≤ 1) (hD : |D| ≤ 2 * M)
    (hY : |Y + r * D| ≤ M) (ha : |a - 1| ≤ 31 / 10 * u) (k1 : |h1| ≤ t) (k2 : |h2| ≤ t) (e1 : |b1 - 1| ≤ u) (e5 : |b5 - 1| ≤ u) (e6 : |b6 - 1| ≤ u) :
    |(Y + ((r * a + h1) * (D * b1) * b5 + h2)) * b6 - (Y + r * D)| ≤ 12 * u * M + 2 * t := by
  have M0 : 0 ≤ M := (abs_nonneg _).trans hY
  have uu : u * u ≤ u * (1 / 1000) := mul_le_mul_of_nonneg_left hu u0
  have hc : |b1 * b5 - 1| ≤ 21 / 10 * u := by
    have := near_mul e1 e5; linarith
  have hB : |a * (b1 * b5) - 1| ≤ 53 / 10 * u := by
    have := near_mul ha hc
    nlinarith
  have hc' : |b1 * b5| ≤ 11 / 10 := by
    have h := abs_le.1 hc
    exact abs_le.2 ⟨by linarith, by linarith⟩
  set W := r * D * (a * (b1 * b5) - 1) + h1 * D * (b1 * b5) + h2 with hW
  have w1 : |r * D * (a * (b1 * b5) - 1)| ≤ 2 * M * (53 / 10 * u) := by
    rw [abs_mul, abs_mul, abs_of_nonneg r0]
    have : r * |D| ≤ 2 * M := (mul_le_of_le_one_left (abs_nonneg _) r1).trans hD
    exact mul_le_mul this hB (abs_nonneg _) (by positivity)
  have w2 : |h1 * D * (b1 * b5)| ≤ t * (2 * M) * (11 / 10) := by
    rw [abs_mul, abs_mul]
    exact mul_le_mul (mul_le_mul k1 hD (abs_nonneg _) t0) hc' (abs_nonneg _) (by positivity)
  have w3 : t * (2 * M) * (11 / 10) ≤ 22 / 10000 * (u * M) := by
    have := mul_le_mul_of_nonneg_right ht M0
    nlinarith
  have w : |W| ≤ 1061 / 100 * (u * M) + t := by
    refine (abs_add_le _ _).trans ?_
    have := abs_add_le (r * D * (a * (b1 * b5) - 1)) (h1 * D * (b1 * b5))
    have uM : 0 ≤ u * M := mul_nonneg u0 M0
    nlinarith
  have e : (Y + ((r * a + h1) * (D * b1) * b5 + h2)) * b6 - (Y + r * D) = W + (Y + r * D) * (b6 - 1) + W * (b6 - 1) := by rw [hW]; ring
  rw [e]
  have z1 : |(Y + r * D) * (b6 - 1)| ≤ M * u := by
    rw [abs_mul]; exact mul_le_mul hY e6 (abs_nonneg _) M0
  have z2 : |W * (b6 - 1)| ≤ |W| * (1 / 1000) := by
    rw [abs_mul]; exact mul_le_mul_of_nonneg_left (e6.trans hu) (abs_nonneg _)
  have z3 := abs_add_le (W + (Y + r * D) * (b6 - 1)) (W * (b6 - 1))
  have z4 := abs_add_le W ((Y + r * D) * (b6 - 1))
  have uM : 0 ≤ u * M := mul_nonneg u0 M0
  nlinarith

/-- the formula is accurate -/
theorem formula_accurate {x0 x1 y0 y1 q M : α} (hx0 : Representable x0) (hx1 : Representable x1) (hq : Representable q) (hy0 : Representable y0)
    (hy1 : Representable y1) (b0 : |y0| ≤ M) (b1 : |y1| ≤ M) (h0 : x0 < q) (h1 : q ≤ x1) :
    let r := rnd (rnd (q - x0) / rnd (x1 - x0))
    |rnd (y0 + rnd (r * rnd (y1 - y0))) - (y0 + (q - x0) / (x1 - x0) * (y1 - y0))| ≤ 12 / 2 ^ 53 * M + 2 ^ (-1074 : ℤ) := by
  intro r
  have hd : 0 < x1 - x0 := by linarith
  obtain ⟨dn, kn, en⟩ := rnd_sum hq (representable_neg hx0)
  obtain ⟨dd, kd, ed⟩ := rnd_sum hx1 (representable_neg hx0)
  obtain ⟨dy, ky, ey⟩ := rnd_sum hy1 (representable_neg hy0)
  rw [← sub_eq_add_neg] at en ed ey
  obtain ⟨dr, hr, kr, kr', er⟩ := rnd_split (rnd (q - x0) / rnd (x1 - x0))
  obtain ⟨dp, hp, kp, kp', ep⟩ := rnd_split (r * rnd (y1 - y0))
  obtain ⟨ds, ks, es⟩ := rnd_sum hy0 (rnd_representable (r * rnd (y1 - y0)))
  have hdd : 1 + dd ≠ 0 := by
    have := (abs_le.1 kd).1
    have h2 : (1 : α) / 2 ^ 53 < 1 := by norm_num
    linarith
  have r0 : 0 ≤ (q - x0) / (x1 - x0) := div_nonneg (by linarith) hd.le
  have r1 : (q - x0) / (x1 - x0) ≤ 1 := (div_le_one hd).2 (by linarith)
  have u0 : (0 : α) ≤ 1 / 2 ^ 53 := by positivity
  have u1 : (1 : α) / 2 ^ 53 ≤ 1 / 1000 := by norm_num
  have t0 : (0 : α) ≤ 2 ^ (-1075 : ℤ) := (two_zpow_pos _).le
  have t1 : (2 : α) ^ (-1075 : ℤ) ≤ 1 / 2 ^ 53 / 1000 := by
    calc (2 : α) ^ (-1075 : ℤ) ≤ 2 ^ (-63 : ℤ) := zpow_le_zpow_right₀ one_le_two (by norm_num)
      _ ≤ _ := by rw [zpow_neg]; norm_num
  have t2 : (2 : α) * 2 ^ (-1075 : ℤ) = 2 ^ (-1074 : ℤ) := by
    rw [show (-1074 : ℤ) = 1 + -1075 by norm_num, zpow_add₀ two_ne_zero]; simp
  have hD : |y1 - y0| ≤ 2 * M := (abs_sub _ _).trans (by linarith)
  have hY : |y0 + (q - x0) / (x1 - x0) * (y1 - y0)| ≤ M := by
    generalize (q - x0) / (x1 - x0) = s at r0 r1
    obtain ⟨c1, c2⟩ := abs_le.1 b0
    obtain ⟨c3, c4⟩ := abs_le.1 b1
    exact abs_le.2 ⟨by nlinarith, by nlinarith⟩
  have ha : |(1 + dn) * (1 / (1 + dd)) * (1 + dr) - 1| ≤ 31 / 10 * (1 / 2 ^ 53) := by
    have n1 : |(1 + dn) - 1| ≤ 1 / 2 ^ 53 := by simpa using kn
    have n2 : |(1 + dr) - 1| ≤ 1 / 2 ^ 53 := by simpa using kr
    have := near_mul (near_mul n1 (near_inv kd u1)) n2
    refine this.trans ?_
    norm_num
  have key := blend (h1 := hr) (h2 := hp) u0 u1 t0 t1 r0 r1 hD hY ha kr' kp' (b1 := 1 + dy) (b5 := 1 + dp) (b6 := 1 + ds) (by simpa using ky) (by simpa using kp) (by simpa using ks)
  have er' : r = (q - x0) / (x1 - x0) * ((1 + dn) * (1 / (1 + dd)) * (1 + dr)) + hr := by
    show rnd _ = _
    rw [er, en, ed]; field_simp
  rw [es, ep, ey, er']
  rw [t2, show 12 * (1 / 2 ^ 53) * M = 12 / 2 ^ 53 * M by ring] at key
  exact key

end Verif.DLinear
