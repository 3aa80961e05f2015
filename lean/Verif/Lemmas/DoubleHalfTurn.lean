import Verif.Lemmas.DoubleTurn
import Verif.Spec.DoubleEuler
import Mathlib.Analysis.Real.Pi.Bounds

/-!
# A half turn that is rejected, computed number by number

Every lemma after the first ones is one rounding on given numbers. They are the steps of `C138_rejected_violated`.
-/

namespace Verif.Double

namespace HalfTurn

open Verif Verif.Spec Verif.Double

theorem rep_lit (m : ℤ) (k : ℕ) (hm : |m| < 2 ^ 53) (hk : k ≤ 1074) : Representable ((m : ℝ) / 2 ^ k) :=
  ⟨m, -k, hm, by omega, by rw [zpow_neg, zpow_natCast, div_eq_mul_inv]⟩

/-- numbers closer to a double than half a unit in its last place are rounded to it, and the numbers between two such to doubles between -/
theorem box {x : ℝ} (m n : ℤ) (k : ℕ) (hk : k ≤ 1074) (hm : 2 ^ 52 < m) (hn : n < 2 ^ 53 - 1) (h1 : ((m : ℝ) - 1 / 2) / 2 ^ k < x) (h2 : x < ((n : ℝ) + 1 / 2) / 2 ^ k) :
    (m : ℝ) / 2 ^ k ≤ rnd x ∧ rnd x ≤ (n : ℝ) / 2 ^ k := by
  have p : (0 : ℝ) < 2 ^ k := by positivity
  rw [div_lt_iff₀ p] at h1
  rw [lt_div_iff₀ p] at h2
  have mn : m ≤ n := by
    have : (m : ℝ) < n + 1 := by linarith
    exact_mod_cast Int.lt_add_one_iff.1 (by exact_mod_cast this)
  have hmR : (2 : ℝ) ^ 52 + 1 ≤ m := by exact_mod_cast hm
  have hnR : (n : ℝ) + 2 ≤ 2 ^ 53 := by exact_mod_cast (by omega : n + 2 ≤ 2 ^ 53)
  have mnR : (m : ℝ) ≤ n := by exact_mod_cast mn
  have key : ∀ a : ℤ, m ≤ a → a ≤ n → |(a : ℝ) - x * 2 ^ k| < 1 / 2 → rnd x = (a : ℝ) / 2 ^ k := fun a ha hb hx => by
    have haR : (m : ℝ) ≤ a := by exact_mod_cast ha
    have hbR : (a : ℝ) ≤ n := by exact_mod_cast hb
    have ez : (2 : ℝ) ^ (-(k : ℤ)) = 1 / 2 ^ k := by rw [zpow_neg, zpow_natCast, one_div]
    have x0 : 0 < x := by
      by_contra hh
      have : x * 2 ^ k ≤ 0 := mul_nonpos_of_nonpos_of_nonneg (not_lt.1 hh) p.le
      linarith
    rw [abs_lt] at hx
    rw [rnd_eq a (-(k : ℤ)) (by omega), ez, mul_one_div]
    · rw [zpow_add₀ two_ne_zero, ez, abs_of_pos x0, one_div_mul_eq_div, div_le_iff₀ p]
      have : (2 : ℝ) ^ (52 : ℤ) = 2 ^ 52 := by norm_num
      rw [this]; linarith [hx.2]
    · rw [zpow_add₀ two_ne_zero, ez, abs_of_pos x0, one_div_mul_eq_div, lt_div_iff₀ p]
      have : (2 : ℝ) ^ (53 : ℤ) = 2 ^ 53 := by norm_num
      rw [this]; linarith [hx.1]
    · left
      rw [ez, show (a : ℝ) * (1 / 2 ^ k) - x = (a - x * 2 ^ k) / 2 ^ k by field_simp, abs_div, abs_of_pos p, show (1 : ℝ) / 2 ^ k / 2 = (1 / 2) / 2 ^ k by ring]
      exact div_lt_div_of_pos_right (abs_lt.2 hx) p
  have b : ∀ a : ℤ, m ≤ a → a ≤ n → |a| < 2 ^ 53 := fun a h1 h2 => by rw [abs_of_pos (by omega)]; omega
  refine ⟨?_, ?_⟩
  · by_cases c : (m : ℝ) / 2 ^ k ≤ x
    · exact le_rnd (rep_lit m k (b m le_rfl mn) hk) c
    · rw [not_le, lt_div_iff₀ p] at c
      rw [key m le_rfl mn (by rw [abs_lt]; constructor <;> linarith)]
  · by_cases c : x ≤ (n : ℝ) / 2 ^ k
    · exact rnd_le (rep_lit n k (b n mn le_rfl) hk) c
    · rw [not_le, div_lt_iff₀ p] at c
      rw [key n mn le_rfl (by rw [abs_lt]; constructor <;> linarith)]

theorem box_neg {x : ℝ} (m n : ℤ) (k : ℕ) (hk : k ≤ 1074) (hn : 2 ^ 52 < n) (hm : m < 2 ^ 53 - 1) (h1 : (-(m : ℝ) - 1 / 2) / 2 ^ k < x) (h2 : x < (-(n : ℝ) + 1 / 2) / 2 ^ k) :
    -(m : ℝ) / 2 ^ k ≤ rnd x ∧ rnd x ≤ -(n : ℝ) / 2 ^ k := by
  have e : ∀ a : ℝ, -(a / 2 ^ k) = -a / 2 ^ k := fun a => (neg_div _ _).symm
  obtain ⟨p, q⟩ := box (x := -x) n m k hk hn hm (by rw [← neg_lt_neg_iff, e, neg_neg]; convert h2 using 2; ring) (by rw [← neg_lt_neg_iff, e, neg_neg]; convert h1 using 2; ring)
  rw [rnd_neg] at p q
  rw [← e, ← e]
  constructor <;> linarith

theorem boxR {x μ ν : ℝ} (m n : ℤ) (k : ℕ) (em : (m : ℝ) = μ) (en : (n : ℝ) = ν) (hk : k ≤ 1074) (hm : 2 ^ 52 < m) (hn : n < 2 ^ 53 - 1) (h1 : (μ - 1 / 2) / 2 ^ k < x) (h2 : x < (ν + 1 / 2) / 2 ^ k) :
    μ / 2 ^ k ≤ rnd x ∧ rnd x ≤ ν / 2 ^ k := by
  subst em en; exact box m n k hk hm hn h1 h2

theorem boxR_neg {x μ ν : ℝ} (m n : ℤ) (k : ℕ) (em : (m : ℝ) = μ) (en : (n : ℝ) = ν) (hk : k ≤ 1074) (hn : 2 ^ 52 < n) (hm : m < 2 ^ 53 - 1) (h1 : (-μ - 1 / 2) / 2 ^ k < x) (h2 : x < (-ν + 1 / 2) / 2 ^ k) :
    -μ / 2 ^ k ≤ rnd x ∧ rnd x ≤ -ν / 2 ^ k := by
  subst em en; exact box_neg m n k hk hn hm h1 h2

theorem boxR_eq {x μ : ℝ} (m : ℤ) (k : ℕ) (em : (m : ℝ) = μ) (hk : k ≤ 1074) (hm : 2 ^ 52 < m) (hn : m < 2 ^ 53 - 1) (h1 : (μ - 1 / 2) / 2 ^ k < x) (h2 : x < (μ + 1 / 2) / 2 ^ k) :
    rnd x = μ / 2 ^ k := le_antisymm (boxR m m k em em hk hm hn h1 h2).2 (boxR m m k em em hk hm hn h1 h2).1

theorem boxR_eq_neg {x μ : ℝ} (m : ℤ) (k : ℕ) (em : (m : ℝ) = μ) (hk : k ≤ 1074) (hm : 2 ^ 52 < m) (hn : m < 2 ^ 53 - 1) (h1 : (-μ - 1 / 2) / 2 ^ k < x) (h2 : x < (-μ + 1 / 2) / 2 ^ k) :
    rnd x = -μ / 2 ^ k := le_antisymm (boxR_neg m m k em em hk hm hn h1 h2).2 (boxR_neg m m k em em hk hm hn h1 h2).1

theorem qx : rnd ((6281518382681305 / 2 ^ 53 : ℝ) * (6281518382681305 / 2 ^ 53 : ℝ)) = (8761319046249473 / 2 ^ 54 : ℝ) := boxR_eq 8761319046249473 54 (by norm_num) (by norm_num) (by norm_num) (by norm_num) (by norm_num) (by norm_num)

theorem qy : rnd ((-5660654950169467 / 2 ^ 57 : ℝ) * (-5660654950169467 / 2 ^ 57 : ℝ)) = (7114978487460919 / 2 ^ 62 : ℝ) := boxR_eq 7114978487460919 62 (by norm_num) (by norm_num) (by norm_num) (by norm_num) (by norm_num) (by norm_num)

theorem qz : rnd ((-6445696021174917 / 2 ^ 53 : ℝ) * (-6445696021174917 / 2 ^ 53 : ℝ)) = (4612643289257940 / 2 ^ 53 : ℝ) := boxR_eq 4612643289257940 53 (by norm_num) (by norm_num) (by norm_num) (by norm_num) (by norm_num) (by norm_num)

theorem s1 : rnd ((8761319046249473 / 2 ^ 54 : ℝ) + (7114978487460919 / 2 ^ 62 : ℝ)) = (8789111930966117 / 2 ^ 54 : ℝ) := boxR_eq 8789111930966117 54 (by norm_num) (by norm_num) (by norm_num) (by norm_num) (by norm_num) (by norm_num)

theorem s2 : rnd ((8789111930966117 / 2 ^ 54 : ℝ) + (4612643289257940 / 2 ^ 53 : ℝ)) = (4503599627370499 / 2 ^ 52 : ℝ) := boxR_eq 4503599627370499 52 (by norm_num) (by norm_num) (by norm_num) (by norm_num) (by norm_num) (by norm_num)

theorem s3 : rnd ((7114978487460919 / 2 ^ 62 : ℝ) + (4612643289257940 / 2 ^ 53 : ℝ)) = (4626539731616262 / 2 ^ 53 : ℝ) := boxR_eq 4626539731616262 53 (by norm_num) (by norm_num) (by norm_num) (by norm_num) (by norm_num) (by norm_num)

theorem s4 : rnd ((8761319046249473 / 2 ^ 54 : ℝ) + (4626539731616262 / 2 ^ 53 : ℝ)) = (4503599627370499 / 2 ^ 52 : ℝ) := boxR_eq 4503599627370499 52 (by norm_num) (by norm_num) (by norm_num) (by norm_num) (by norm_num) (by norm_num)

theorem r1 : rnd (Real.sqrt (4503599627370499 / 2 ^ 52 : ℝ)) = (4503599627370497 / 2 ^ 52 : ℝ) := boxR_eq 4503599627370497 52 (by norm_num) (by norm_num) (by norm_num) (by norm_num) (Real.lt_sqrt_of_sq_lt (by norm_num)) ((Real.sqrt_lt' (by norm_num)).2 (by norm_num))

theorem nx : rnd ((6281518382681305 / 2 ^ 53 : ℝ) / (4503599627370497 / 2 ^ 52 : ℝ)) = (6281518382681304 / 2 ^ 53 : ℝ) := boxR_eq 6281518382681304 53 (by norm_num) (by norm_num) (by norm_num) (by norm_num) (by norm_num) (by norm_num)

theorem ny : rnd ((-5660654950169467 / 2 ^ 57 : ℝ) / (4503599627370497 / 2 ^ 52 : ℝ)) = (-5660654950169466 / 2 ^ 57 : ℝ) := boxR_eq_neg 5660654950169466 57 (by norm_num) (by norm_num) (by norm_num) (by norm_num) (by norm_num) (by norm_num)

theorem nz : rnd ((-6445696021174917 / 2 ^ 53 : ℝ) / (4503599627370497 / 2 ^ 52 : ℝ)) = (-6445696021174916 / 2 ^ 53 : ℝ) := boxR_eq_neg 6445696021174916 53 (by norm_num) (by norm_num) (by norm_num) (by norm_num) (by norm_num) (by norm_num)

theorem kx : rnd (2 * (6281518382681304 / 2 ^ 53 : ℝ)) = (6281518382681304 / 2 ^ 52 : ℝ) := boxR_eq 6281518382681304 52 (by norm_num) (by norm_num) (by norm_num) (by norm_num) (by norm_num) (by norm_num)

theorem ky : rnd (2 * (-5660654950169466 / 2 ^ 57 : ℝ)) = (-5660654950169466 / 2 ^ 56 : ℝ) := boxR_eq_neg 5660654950169466 56 (by norm_num) (by norm_num) (by norm_num) (by norm_num) (by norm_num) (by norm_num)

theorem kz : rnd (2 * (-6445696021174916 / 2 ^ 53 : ℝ)) = (-6445696021174916 / 2 ^ 52 : ℝ) := boxR_eq_neg 6445696021174916 52 (by norm_num) (by norm_num) (by norm_num) (by norm_num) (by norm_num) (by norm_num)

theorem pxx : rnd ((6281518382681304 / 2 ^ 52 : ℝ) * (6281518382681304 / 2 ^ 53 : ℝ)) = (8761319046249471 / 2 ^ 53 : ℝ) := boxR_eq 8761319046249471 53 (by norm_num) (by norm_num) (by norm_num) (by norm_num) (by norm_num) (by norm_num)

theorem pxy : rnd ((6281518382681304 / 2 ^ 52 : ℝ) * (-5660654950169466 / 2 ^ 57 : ℝ)) = (-7895352844290531 / 2 ^ 57 : ℝ) := boxR_eq_neg 7895352844290531 57 (by norm_num) (by norm_num) (by norm_num) (by norm_num) (by norm_num) (by norm_num)

theorem pxz : rnd ((6281518382681304 / 2 ^ 52 : ℝ) * (-6445696021174916 / 2 ^ 53 : ℝ)) = (-8990310284270547 / 2 ^ 53 : ℝ) := boxR_eq_neg 8990310284270547 53 (by norm_num) (by norm_num) (by norm_num) (by norm_num) (by norm_num) (by norm_num)

theorem pyx : rnd ((-5660654950169466 / 2 ^ 56 : ℝ) * (6281518382681304 / 2 ^ 53 : ℝ)) = (-7895352844290531 / 2 ^ 57 : ℝ) := boxR_eq_neg 7895352844290531 57 (by norm_num) (by norm_num) (by norm_num) (by norm_num) (by norm_num) (by norm_num)

theorem pyy : rnd ((-5660654950169466 / 2 ^ 56 : ℝ) * (-5660654950169466 / 2 ^ 57 : ℝ)) = (7114978487460917 / 2 ^ 61 : ℝ) := boxR_eq 7114978487460917 61 (by norm_num) (by norm_num) (by norm_num) (by norm_num) (by norm_num) (by norm_num)

theorem pyz : rnd ((-5660654950169466 / 2 ^ 56 : ℝ) * (-6445696021174916 / 2 ^ 53 : ℝ)) = (8101710655583942 / 2 ^ 57 : ℝ) := boxR_eq 8101710655583942 57 (by norm_num) (by norm_num) (by norm_num) (by norm_num) (by norm_num) (by norm_num)

theorem pzx : rnd ((-6445696021174916 / 2 ^ 52 : ℝ) * (6281518382681304 / 2 ^ 53 : ℝ)) = (-8990310284270547 / 2 ^ 53 : ℝ) := boxR_eq_neg 8990310284270547 53 (by norm_num) (by norm_num) (by norm_num) (by norm_num) (by norm_num) (by norm_num)

theorem pzy : rnd ((-6445696021174916 / 2 ^ 52 : ℝ) * (-5660654950169466 / 2 ^ 57 : ℝ)) = (8101710655583942 / 2 ^ 57 : ℝ) := boxR_eq 8101710655583942 57 (by norm_num) (by norm_num) (by norm_num) (by norm_num) (by norm_num) (by norm_num)

theorem pzz : rnd ((-6445696021174916 / 2 ^ 52 : ℝ) * (-6445696021174916 / 2 ^ 53 : ℝ)) = (4612643289257939 / 2 ^ 52 : ℝ) := boxR_eq 4612643289257939 52 (by norm_num) (by norm_num) (by norm_num) (by norm_num) (by norm_num) (by norm_num)

theorem ex : rnd (-1 + (8761319046249471 / 2 ^ 53 : ℝ)) = (-7868166671728672 / 2 ^ 58 : ℝ) := boxR_eq_neg 7868166671728672 58 (by norm_num) (by norm_num) (by norm_num) (by norm_num) (by norm_num) (by norm_num)

theorem ey : rnd (-1 + (7114978487460917 / 2 ^ 61 : ℝ)) = (-8979406370024348 / 2 ^ 53 : ℝ) := boxR_eq_neg 8979406370024348 53 (by norm_num) (by norm_num) (by norm_num) (by norm_num) (by norm_num) (by norm_num)

theorem ez : rnd (-1 + (4612643289257939 / 2 ^ 52 : ℝ)) = (6978794360796352 / 2 ^ 58 : ℝ) := boxR_eq 6978794360796352 58 (by norm_num) (by norm_num) (by norm_num) (by norm_num) (by norm_num) (by norm_num)

theorem t02 {s : ℝ} (h1 : 12 / 10 ^ 17 ≤ s) (h2 : s ≤ 13 / 10 ^ 17) : (5564 / 2 ^ 70 : ℝ) ≤ rnd (-s * (-5660654950169466 / 2 ^ 57 : ℝ)) ∧ rnd (-s * (-5660654950169466 / 2 ^ 57 : ℝ)) ≤ (6029 / 2 ^ 70 : ℝ) :=
  ⟨le_rnd (by simpa using rep_lit (5564) 70 (by norm_num) (by norm_num)) (by linarith), rnd_le (by simpa using rep_lit (6029) 70 (by norm_num) (by norm_num)) (by linarith)⟩

theorem m02 {w : ℝ} (h1 : (5564 / 2 ^ 70 : ℝ) ≤ w) (h2 : w ≤ (6029 / 2 ^ 70 : ℝ)) : (-8990310284270547 / 2 ^ 53 : ℝ) ≤ rnd ((-8990310284270547 / 2 ^ 53 : ℝ) + w) ∧ rnd ((-8990310284270547 / 2 ^ 53 : ℝ) + w) ≤ (-8990310284270547 / 2 ^ 53 : ℝ) :=
  boxR_neg (8990310284270547) (8990310284270547) 53 (by norm_num) (by norm_num) (by norm_num) (by norm_num) (by norm_num) (by linarith) (by linarith)

theorem t12 {s : ℝ} (h1 : 12 / 10 ^ 17 ≤ s) (h2 : s ≤ 13 / 10 ^ 17) : (6174 / 2 ^ 66 : ℝ) ≤ rnd (s * (6281518382681304 / 2 ^ 53 : ℝ)) ∧ rnd (s * (6281518382681304 / 2 ^ 53 : ℝ)) ≤ (6690 / 2 ^ 66 : ℝ) :=
  ⟨le_rnd (by simpa using rep_lit (6174) 66 (by norm_num) (by norm_num)) (by linarith), rnd_le (by simpa using rep_lit (6690) 66 (by norm_num) (by norm_num)) (by linarith)⟩

theorem m12 {w : ℝ} (h1 : (6174 / 2 ^ 66 : ℝ) ≤ w) (h2 : w ≤ (6690 / 2 ^ 66 : ℝ)) : (8101710655583954 / 2 ^ 57 : ℝ) ≤ rnd ((8101710655583942 / 2 ^ 57 : ℝ) + w) ∧ rnd ((8101710655583942 / 2 ^ 57 : ℝ) + w) ≤ (8101710655583955 / 2 ^ 57 : ℝ) :=
  boxR (8101710655583954) (8101710655583955) 57 (by norm_num) (by norm_num) (by norm_num) (by norm_num) (by norm_num) (by linarith) (by linarith)

theorem t10 {s : ℝ} (h1 : 12 / 10 ^ 17 ≤ s) (h2 : s ≤ 13 / 10 ^ 17) : (6336 / 2 ^ 66 : ℝ) ≤ rnd (-s * (-6445696021174916 / 2 ^ 53 : ℝ)) ∧ rnd (-s * (-6445696021174916 / 2 ^ 53 : ℝ)) ≤ (6865 / 2 ^ 66 : ℝ) :=
  ⟨le_rnd (by simpa using rep_lit (6336) 66 (by norm_num) (by norm_num)) (by linarith), rnd_le (by simpa using rep_lit (6865) 66 (by norm_num) (by norm_num)) (by linarith)⟩

theorem m10 {w : ℝ} (h1 : (6336 / 2 ^ 66 : ℝ) ≤ w) (h2 : w ≤ (6865 / 2 ^ 66 : ℝ)) : (-7895352844290519 / 2 ^ 57 : ℝ) ≤ rnd ((-7895352844290531 / 2 ^ 57 : ℝ) + w) ∧ rnd ((-7895352844290531 / 2 ^ 57 : ℝ) + w) ≤ (-7895352844290518 / 2 ^ 57 : ℝ) :=
  boxR_neg (7895352844290519) (7895352844290518) 57 (by norm_num) (by norm_num) (by norm_num) (by norm_num) (by norm_num) (by linarith) (by linarith)

theorem t20 {s : ℝ} (h1 : 12 / 10 ^ 17 ≤ s) (h2 : s ≤ 13 / 10 ^ 17) : (-6029 / 2 ^ 70 : ℝ) ≤ rnd (s * (-5660654950169466 / 2 ^ 57 : ℝ)) ∧ rnd (s * (-5660654950169466 / 2 ^ 57 : ℝ)) ≤ (-5564 / 2 ^ 70 : ℝ) :=
  ⟨le_rnd (by simpa using rep_lit (-6029) 70 (by norm_num) (by norm_num)) (by linarith), rnd_le (by simpa using rep_lit (-5564) 70 (by norm_num) (by norm_num)) (by linarith)⟩

theorem m20 {w : ℝ} (h1 : (-6029 / 2 ^ 70 : ℝ) ≤ w) (h2 : w ≤ (-5564 / 2 ^ 70 : ℝ)) : (-8990310284270547 / 2 ^ 53 : ℝ) ≤ rnd ((-8990310284270547 / 2 ^ 53 : ℝ) + w) ∧ rnd ((-8990310284270547 / 2 ^ 53 : ℝ) + w) ≤ (-8990310284270547 / 2 ^ 53 : ℝ) :=
  boxR_neg (8990310284270547) (8990310284270547) 53 (by norm_num) (by norm_num) (by norm_num) (by norm_num) (by norm_num) (by linarith) (by linarith)

theorem f0 : rnd ((-8990310284270547 / 2 ^ 53 : ℝ) * (-7868166671728672 / 2 ^ 58 : ℝ)) = (7853413447022843 / 2 ^ 58 : ℝ) := boxR_eq 7853413447022843 58 (by norm_num) (by norm_num) (by norm_num) (by norm_num) (by norm_num) (by norm_num)

theorem f2 : rnd ((6978794360796352 / 2 ^ 58 : ℝ) * (-8990310284270547 / 2 ^ 53 : ℝ)) = (-6965708755765825 / 2 ^ 58 : ℝ) := boxR_eq_neg 6965708755765825 58 (by norm_num) (by norm_num) (by norm_num) (by norm_num) (by norm_num) (by norm_num)

theorem f1 {a b : ℝ} (a1 : (8101710655583954 / 2 ^ 57 : ℝ) ≤ a) (a2 : a ≤ (8101710655583955 / 2 ^ 57 : ℝ)) (b1 : (-7895352844290519 / 2 ^ 57 : ℝ) ≤ b) (b2 : b ≤ (-7895352844290518 / 2 ^ 57 : ℝ)) : (-7101637530058500 / 2 ^ 61 : ℝ) ≤ rnd (a * b) ∧ rnd (a * b) ≤ (-7101637530058499 / 2 ^ 61 : ℝ) :=
  boxR_neg (7101637530058500) (7101637530058499) 61 (by norm_num) (by norm_num) (by norm_num) (by norm_num) (by norm_num) (by nlinarith) (by nlinarith)

theorem g1 {w : ℝ} (h1 : (-7101637530058500 / 2 ^ 61 : ℝ) ≤ w) (h2 : w ≤ (-7101637530058499 / 2 ^ 61 : ℝ)) : (6965708755765530 / 2 ^ 58 : ℝ) ≤ rnd ((7853413447022843 / 2 ^ 58 : ℝ) + w) ∧ rnd ((7853413447022843 / 2 ^ 58 : ℝ) + w) ≤ (6965708755765531 / 2 ^ 58 : ℝ) :=
  boxR (6965708755765530) (6965708755765531) 58 (by norm_num) (by norm_num) (by norm_num) (by norm_num) (by norm_num) (by linarith) (by linarith)

theorem g2 {w : ℝ} (h1 : (-7101637530058500 / 2 ^ 61 : ℝ) ≤ w) (h2 : w ≤ (-7101637530058499 / 2 ^ 61 : ℝ)) : (-7853413447023138 / 2 ^ 58 : ℝ) ≤ rnd (w + (-6965708755765825 / 2 ^ 58 : ℝ)) ∧ rnd (w + (-6965708755765825 / 2 ^ 58 : ℝ)) ≤ (-7853413447023137 / 2 ^ 58 : ℝ) :=
  boxR_neg (7853413447023138) (7853413447023137) 58 (by norm_num) (by norm_num) (by norm_num) (by norm_num) (by norm_num) (by linarith) (by linarith)

end HalfTurn

namespace HalfTurnVec

open HalfTurn Verif Verif.Spec Verif.Double Verif.Props

/-- the computed norm of the axis, in either order -/
theorem norm_axis (o : Bool) : DVec.dot3 o (6281518382681305 / 2 ^ 53 : ℝ) (-5660654950169467 / 2 ^ 57 : ℝ) (-6445696021174917 / 2 ^ 53 : ℝ) (6281518382681305 / 2 ^ 53 : ℝ) (-5660654950169467 / 2 ^ 57 : ℝ) (-6445696021174917 / 2 ^ 53 : ℝ) = (4503599627370499 / 2 ^ 52 : ℝ) := by
  cases o
  · simp only [DVec.dot3, DVec.sum3, Bool.false_eq_true, if_false]
    rw [qx, qy, qz, s1, s2]
  · simp only [DVec.dot3, DVec.sum3, if_true]
    rw [qx, qy, qz, s3, s4]

/-- the product of the first and the third column -/
theorem dot_big (o : Bool) {s : ℝ} (h1 : 12 / 10 ^ 17 ≤ s) (h2 : s ≤ 13 / 10 ^ 17) {M : Fin 3 → Fin 3 → ℝ} (hM : M = vecMat (6281518382681304 / 2 ^ 53 : ℝ) (-5660654950169466 / 2 ^ 57 : ℝ) (-6445696021174916 / 2 ^ 53 : ℝ) (-1) s) :
    1 / 10 ^ 15 < |DVec.dot3 o (M 0 2) (M 1 2) (M 2 2) (M 0 0) (M 1 0) (M 2 0)| := by
  have k2 : rnd (1 - (-1) : ℝ) = 2 := by
    rw [show (1 - (-1) : ℝ) = 2 by norm_num]
    exact rnd_exact (by simpa using DQuat.rep_two 1)
  have e00 : M 0 0 = (-7868166671728672 / 2 ^ 58 : ℝ) := by
    rw [hM]
    show rnd (-1 + rnd (rnd (rnd (1 - (-1)) * _) * _)) = _
    rw [k2, kx, pxx, ex]
  have e22 : M 2 2 = (6978794360796352 / 2 ^ 58 : ℝ) := by
    rw [hM]
    show rnd (-1 + rnd (rnd (rnd (1 - (-1)) * _) * _)) = _
    rw [k2, kz, pzz, ez]
  have e02 : M 0 2 = (-8990310284270547 / 2 ^ 53 : ℝ) := by
    rw [hM]
    show rnd (rnd (rnd (rnd (1 - (-1)) * _) * _) + rnd (-s * _)) = _
    rw [k2, kx, pxz]
    have := m02 (t02 h1 h2).1 (t02 h1 h2).2
    exact le_antisymm this.2 this.1
  have e20 : M 2 0 = (-8990310284270547 / 2 ^ 53 : ℝ) := by
    rw [hM]
    show rnd (rnd (rnd (rnd (1 - (-1)) * _) * _) + rnd (s * _)) = _
    rw [k2, kz, pzx]
    have := m20 (t20 h1 h2).1 (t20 h1 h2).2
    exact le_antisymm this.2 this.1
  have e12 := m12 (t12 h1 h2).1 (t12 h1 h2).2
  have e10 := m10 (t10 h1 h2).1 (t10 h1 h2).2
  have d12 : M 1 2 = rnd ((8101710655583942 / 2 ^ 57 : ℝ) + rnd (s * (6281518382681304 / 2 ^ 53 : ℝ))) := by
    rw [hM]
    show rnd (rnd (rnd (rnd (1 - (-1)) * _) * _) + rnd (s * _)) = _
    rw [k2, ky, pyz]
  have d10 : M 1 0 = rnd ((-7895352844290531 / 2 ^ 57 : ℝ) + rnd (-s * (-6445696021174916 / 2 ^ 53 : ℝ))) := by
    rw [hM]
    show rnd (rnd (rnd (rnd (1 - (-1)) * _) * _) + rnd (-s * _)) = _
    rw [k2, ky, pyx]
  rw [← d12] at e12
  rw [← d10] at e10
  have h := f1 e12.1 e12.2 e10.1 e10.2
  have r : Representable (-(147 / 2 ^ 57) : ℝ) := by simpa [neg_div] using rep_lit (-147) 57 (by norm_num) (by norm_num)
  refine lt_of_lt_of_le ?_ (neg_le_abs _)
  suffices DVec.dot3 o (M 0 2) (M 1 2) (M 2 2) (M 0 0) (M 1 0) (M 2 0) ≤ -(147 / 2 ^ 57) by
    have : (1 : ℝ) / 10 ^ 15 < 147 / 2 ^ 57 := by norm_num
    linarith
  cases o
  · simp only [DVec.dot3, DVec.sum3, Bool.false_eq_true, if_false]
    rw [e02, e00, e22, e20, f0, f2]
    have := g1 h.1 h.2
    exact rnd_le r (by linarith)
  · simp only [DVec.dot3, DVec.sum3, if_true]
    rw [e02, e00, e22, e20, f0, f2]
    have := g2 h.1 h.2
    exact rnd_le r (by linarith)

/-- the sine and the cosine of the double nearest to π, correctly rounded -/
theorem trig_piD : rnd (Real.cos piD) = -1 ∧ 12 / 10 ^ 17 ≤ rnd (Real.sin piD) ∧ rnd (Real.sin piD) ≤ 13 / 10 ^ 17 := by
  have e : piD = 3.141592653589793115997963468544185161590576171875 := by rw [piD]; norm_num
  have p1 := Real.pi_gt_d20
  have p2 := Real.pi_lt_d20
  obtain ⟨d, hd⟩ : ∃ d, d = Real.pi - piD := ⟨_, rfl⟩
  have d1 : 1.2246e-16 ≤ d := by rw [hd, e]; norm_num at *; linarith
  have d2 : d ≤ 1.2248e-16 := by rw [hd, e]; norm_num at *; linarith
  have d0 : 0 < d := by norm_num at d1; linarith
  have es : Real.sin piD = Real.sin d := by rw [hd, Real.sin_pi_sub]
  have ec : Real.cos piD = -Real.cos d := by rw [hd, Real.cos_pi_sub, neg_neg]
  have c1 := Real.one_sub_sq_div_two_le_cos (x := d)
  have c2 := Real.cos_le_one d
  have s1 := Real.sin_lt d0
  have s2 := Real.sin_gt_sub_cube d0
  norm_num at d1 d2
  have dd : d ^ 2 ≤ 1 / 10 ^ 31 := by nlinarith
  have ddd : d ^ 3 ≤ 1 / 10 ^ 31 := by nlinarith
  refine ⟨?_, ?_, ?_⟩
  · rw [ec, rnd_neg]
    congr 1
    rcases c2.eq_or_lt with h | h
    · rw [h]; exact rnd_exact rep_one
    · have c0 : 0 < Real.cos d := by linarith
      rw [rnd_eq (2 ^ 53) (-53) (by norm_num)]
      · norm_num
      · rw [abs_of_pos c0]; norm_num; linarith
      · rw [abs_of_pos c0]; norm_num; exact h
      · left
        rw [abs_lt]; constructor <;> norm_num <;> linarith
  · rw [es]
    have : (139 / 2 ^ 60 : ℝ) ≤ rnd (Real.sin d) := le_rnd (by simpa using rep_lit 139 60 (by norm_num) (by norm_num)) (by norm_num at *; linarith)
    linarith
  · rw [es]
    have : rnd (Real.sin d) ≤ (149 / 2 ^ 60 : ℝ) := rnd_le (by simpa using rep_lit 149 60 (by norm_num) (by norm_num)) (by norm_num at *; linarith)
    linarith

theorem rounded_near {x : ℝ} (h : |x| ≤ 1) : |rnd x - x| ≤ DQuat.u := DRot.err2 (h.trans one_le_two)

theorem unit_sum {x y z : ℝ} (h : 0 < x * x + y * y + z * z) : (x / Real.sqrt (x * x + y * y + z * z)) ^ 2 + (y / Real.sqrt (x * x + y * y + z * z)) ^ 2 + (z / Real.sqrt (x * x + y * y + z * z)) ^ 2 = 1 := by
  rw [div_pow, div_pow, div_pow, Real.sq_sqrt h.le, ← add_div, ← add_div, sq, sq, sq, div_self h.ne']

theorem close {a X : ℝ} (h1 : X * X ≤ 1) (h2 : |a - X| ≤ 44 / 10 * DQuat.u * |X| + DQuat.t) : |a - X| ≤ 441 / 100 * DQuat.u := by
  have u0 := DQuat.u_pos
  have tu := DRot.t_u
  norm_num at tu
  have : DQuat.u * |X| ≤ DQuat.u * 1 := mul_le_mul_of_nonneg_left (abs_le_one_iff_mul_self_le_one.2 h1) u0.le
  linarith

end HalfTurnVec

end Verif.Double
