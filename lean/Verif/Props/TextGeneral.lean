import Verif.Lemmas.TextGeneral
import Verif.Props.Text
import Verif.Lemmas.DoubleLinear

/-!
# Texts without a number of decimals

Properties C96 and C98, numbers that are not integers. Code: `include/OpenSpaceToolkit/Mathematics/Object/Eigen.hpp` 130-170.
-/

namespace Verif.Props

open Verif Verif.Spec Verif.Text

section Vector

variable {α : Type} [Field α] [LinearOrder α] [IsStrictOrderedRing α] [FloorRing α]

/-- the second double is the first up to an error relative to its size: not a number and the infinities are kept, and so are integers -/
def Close (tol : α) : Dbl α → Dbl α → Prop
  | .nan, .nan => True
  | .inf a, .inf b => a = b
  | .fin x, .fin y => |y - x| ≤ tol * |x| ∧ ((∃ n : ℤ, x = n) → y = x)
  | _, _ => False

theorem element_general {rnd : α → ℤ} (hr : Nearest rnd) {x : Dbl α} (hx : x ≠ .inf true) :
    Plain (element rnd (general15 rnd) none x) ∧ Close (5 / 10 ^ 15) x (atof (element rnd (general15 rnd) none x)) := by
  match x, hx with
  | .nan, _ => exact ⟨⟨by simp [element], by simp [element]⟩, trivial⟩
  | .inf false, _ => exact ⟨⟨by simp [element], by simp [element]⟩, rfl⟩
  | .fin x, _ =>
    by_cases h : ((⌊x⌋ : ℤ) : α) = x
    · rw [← h]
      simp only [element, scalarToString_int hr, atof_fixed, Close]
      refine ⟨fixedText_plain _ _, ?_, fun _ => ?_⟩
      · push_cast
        rw [show (10 : α) * (⌊x⌋ : α) / 10 ^ 1 - (⌊x⌋ : α) = 0 by field_simp; ring, abs_zero]
        positivity
      · push_cast; field_simp
    · have h0 : x ≠ 0 := by rintro rfl; simp at h
      obtain ⟨h1, y, h2, h3⟩ := general15_read hr h0
      simp only [element, scalarToString, if_neg h, h2, Close]
      exact ⟨h1, h3, fun ⟨n, hn⟩ => absurd (by rw [hn, Int.floor_intCast]) h⟩

/-- C96: a vector printed without a number of decimals is read back with the same size and every number within 5e-15 of its size, integers exactly; not a number and plus
infinity are kept -/
theorem C96_general_partial {rnd : α → ℤ} (hr : Nearest rnd) {v : List (Dbl α)} (hv : v ≠ []) (hi : ∀ x ∈ v, x ≠ .inf true) :
    ∃ w, parse (vecToString rnd (general15 rnd) none v) = .ok w ∧ List.Forall₂ (Close (5 / 10 ^ 15)) v w := by
  refine ⟨_, parse_commaSep (by simpa using hv) ?_, ?_⟩
  · intro a ha
    obtain ⟨x, hx, rfl⟩ := List.mem_map.1 ha
    exact (element_general hr (hi x hx)).1
  · rw [List.map_map, List.forall₂_map_right_iff, List.forall₂_same]
    intro x hx
    exact (element_general hr (hi x hx)).2

/-- the hypotheses are met by a vector with a fraction, a tiny number and a large number -/
example : ∃ v : List (Dbl ℚ), v ≠ [] ∧ ∀ x ∈ v, x ≠ .inf true := ⟨[.fin (1 / 3), .nan, .fin (1 / 10 ^ 300), .fin (10 ^ 20 + 1 / 2)], by simp, by simp⟩

/-- the second double is the first up to an error that may depend on it: not a number and the infinities are kept, and so are integers -/
def Kept (tol : α → α) : Dbl α → F64 α → Prop
  | .nan, .nan => True
  | .inf a, .inf b => a = b
  | .fin x, .fin y => Representable y ∧ |y - x| ≤ tol x ∧ ((∃ n : ℤ, x = n) → y = x)
  | _, _ => False

/-- a double: not a number, plus infinity or a finite number of the format -/
def Given : Dbl α → Prop
  | .nan => True
  | .inf b => b = false
  | .fin x => Representable x ∧ |x| < 2 ^ 1024

/-- a double that is not an integer is less than `2 ^ 52` -/
theorem small_of_not_int {x : α} (h : Representable x) (hn : ¬ ∃ n : ℤ, x = n) : |x| ≤ 2 ^ 52 := by
  obtain ⟨m, e, hm, -, rfl⟩ := h
  have he : e < 0 := by
    by_contra h
    refine hn ⟨m * 2 ^ e.toNat, ?_⟩
    push_cast
    rw [← zpow_natCast, Int.toNat_of_nonneg (not_lt.1 h)]
  rw [abs_mul, abs_of_pos (two_zpow_pos e : (0 : α) < 2 ^ e)]
  have h1 : (2 : α) ^ e ≤ 2 ^ (-1 : ℤ) := zpow_le_zpow_right₀ one_le_two (by omega)
  have h2 : |(m : α)| ≤ 2 ^ 53 := by
    rw [← Int.cast_abs]
    exact_mod_cast hm.le
  calc |(m : α)| * 2 ^ e ≤ 2 ^ 53 * 2 ^ (-1 : ℤ) := mul_le_mul h2 h1 (two_zpow_pos e).le (by positivity)
    _ = 2 ^ 52 := by rw [zpow_neg_one]; norm_num

/-- rounding what is read at most doubles the error -/
theorem kept_of {x y tol : α} (hx : Given (.fin x)) (hy : |y - x| ≤ tol) (hi : (∃ n : ℤ, x = n) → y = x) (ht : (¬ ∃ n : ℤ, x = n) → tol ≤ 2 ^ 52) :
    ∃ z, toDouble (.fin y) = F64.fin z ∧ Representable z ∧ |z - x| ≤ 2 * tol ∧ ((∃ n : ℤ, x = n) → z = x) := by
  obtain ⟨hr, hb⟩ := hx
  by_cases h : ∃ n : ℤ, x = n
  · rw [hi h]
    refine ⟨x, ?_, hr, ?_, fun _ => rfl⟩
    · rw [toDouble, F64.ofExact_fin (by rwa [Double.rnd_exact hr]), Double.rnd_exact hr]
    · rw [sub_self, abs_zero]
      have := (abs_nonneg _).trans hy
      linarith
  · have hs := small_of_not_int hr h
    have h1 : |y| ≤ 2 ^ 53 := by
      have := abs_add_le (y - x) x
      rw [sub_add_cancel] at this
      have := ht h
      calc |y| ≤ 2 ^ 52 + 2 ^ 52 := by linarith
        _ = 2 ^ 53 := by norm_num
    have h2 : |Double.rnd y| ≤ 2 ^ 53 := DLinear.rnd_abs_le (by
      have := representable_int (α := α) (m := 2 ^ 53) (by norm_num)
      rwa [Int.cast_pow, Int.cast_ofNat] at this) h1
    refine ⟨Double.rnd y, ?_, Double.rnd_representable y, ?_, fun k => absurd k h⟩
    · rw [toDouble, F64.ofExact_fin (lt_of_le_of_lt h2 (pow_lt_pow_right₀ one_lt_two (by norm_num)))]
    · have h3 := (Double.rnd_nearest y).2 x hr
      rw [abs_sub_comm x y] at h3
      have := abs_add_le (Double.rnd y - y) (y - x)
      rw [sub_add_sub_cancel] at this
      linarith

theorem fixed_int {rnd : α → ℤ} (hr : Nearest rnd) (p : ℕ) (n : ℤ) : ((rnd ((n : α) * 10 ^ p) : ℤ) : α) / 10 ^ p = n := by
  have : rnd ((n : α) * 10 ^ p) = n * 10 ^ p := by
    have := rnd_int hr (n * 10 ^ p)
    push_cast at this
    exact this
  rw [this]
  push_cast
  field_simp

/-- C96: with the numbers read rounded to doubles, a vector of doubles printed with a given number of decimals is read back with every number within one unit of the last
decimal, and printed without one within 1e-14 of its size; integers of any size are exact, not a number and plus infinity are kept, and nothing overflows -/
theorem C96_double_partial {rnd : α → ℤ} (hr : Nearest rnd) {v : List (Dbl α)} (hv : v ≠ []) (hg : ∀ x ∈ v, Given x) (general : α → List Char) (p : ℕ) :
    (∃ w, parseDouble (vecToString rnd general (some p) v) = .ok w ∧ List.Forall₂ (Kept fun _ => 1 / 10 ^ p) v w) ∧
    ∃ w, parseDouble (vecToString rnd (general15 rnd) none v) = .ok w ∧ List.Forall₂ (Kept fun x => 1 / 10 ^ 14 * |x|) v w := by
  have hni : ∀ x ∈ v, x ≠ .inf true := by
    rintro x hx rfl
    exact absurd (hg _ hx) (by simp [Given])
  constructor
  · refine ⟨(v.map (element rnd general (some p))).map (fun s => toDouble (atof s)), ?_, ?_⟩
    · rw [parseDouble, vecToString, parse_commaSep (by simpa using hv)]
      · simp only [bind, Except.bind, pure, Except.pure, List.map_map]; rfl
      · intro a ha
        obtain ⟨x, hx, rfl⟩ := List.mem_map.1 ha
        exact (element_decimals hr general p (hni x hx)).1
    · rw [List.map_map, List.forall₂_map_right_iff, List.forall₂_same]
      intro x hx
      have hgx := hg x hx
      have hn := (element_decimals hr general p (hni x hx)).2
      match x, hgx with
      | .nan, _ => exact trivial
      | .inf false, _ => exact rfl
      | .fin x, hgx =>
        simp only [Function.comp_apply, element, scalarToString, atof_fixed] at hn ⊢
        have p1 : (1 : α) ≤ 10 ^ p := one_le_pow₀ (by norm_num)
        obtain ⟨z, e, h1, h2, h3⟩ := kept_of hgx hn (fun ⟨n, hn⟩ => by rw [hn, fixed_int hr]) (fun _ => by
          rw [div_le_iff₀ (by positivity)]
          nlinarith)
        rw [e]
        refine ⟨h1, h2.trans (le_of_eq (by ring)), h3⟩
  · refine ⟨(v.map (element rnd (general15 rnd) none)).map (fun s => toDouble (atof s)), ?_, ?_⟩
    · rw [parseDouble, vecToString, parse_commaSep (by simpa using hv)]
      · simp only [bind, Except.bind, pure, Except.pure, List.map_map]; rfl
      · intro a ha
        obtain ⟨x, hx, rfl⟩ := List.mem_map.1 ha
        exact (element_general hr (hni x hx)).1
    · rw [List.map_map, List.forall₂_map_right_iff, List.forall₂_same]
      intro x hx
      have hgx := hg x hx
      have hn := (element_general hr (hni x hx)).2
      match x, hgx with
      | .nan, _ => exact trivial
      | .inf false, _ => exact rfl
      | .fin x, hgx =>
        simp only [Function.comp_apply]
        revert hn
        rcases atof (α := α) (element rnd (general15 rnd) none (.fin x)) with _ | b | y
        · exact fun h => h.elim
        · exact fun h => h.elim
        · rintro ⟨h1, h2⟩
          obtain ⟨z, e, h3, h4, h5⟩ := kept_of hgx h1 h2 (fun h => by
            have := small_of_not_int hgx.1 h
            calc 5 / 10 ^ 15 * |x| ≤ 1 * |x| := mul_le_mul_of_nonneg_right (by norm_num) (abs_nonneg _)
              _ ≤ 2 ^ 52 := by rwa [one_mul])
          rw [e]
          exact ⟨h3, h4.trans (le_of_eq (by ring)), h5⟩

/-- the hypotheses are met by a vector of a fraction, a large number, NaN and plus infinity -/
example : ∃ v : List (Dbl ℚ), v ≠ [] ∧ ∀ x ∈ v, Given x := by
  refine ⟨[.fin (1 / 2), .fin (2 ^ 53), .nan, .inf false], by simp, ?_⟩
  simp only [List.mem_cons, List.not_mem_nil, or_false, forall_eq_or_imp, forall_eq, Given, and_true]
  have hp : ∀ x : ℚ, |x| < 2 ^ 54 → |x| < 2 ^ 1024 := fun x h => h.trans (pow_lt_pow_right₀ one_lt_two (by norm_num))
  exact ⟨⟨⟨1, -1, by norm_num, by norm_num, by norm_num⟩, hp _ (by norm_num [abs_of_pos])⟩, ⟨1, 53, by norm_num, by norm_num, by norm_num⟩, hp _ (by norm_num [abs_of_pos])⟩

theorem log_half {x : α} (h1 : 1 / 10 ≤ x) (h2 : x < 1) : Int.log 10 x = -1 := by
  have p : 0 < x := lt_of_lt_of_le (by norm_num) h1
  apply le_antisymm
  · have : x < ((10 : ℕ) : α) ^ (0 : ℤ) := by rw [zpow_zero]; exact h2
    have := (Int.lt_zpow_iff_log_lt (by norm_num) p).1 this
    omega
  · refine (Int.zpow_le_iff_le_log (by norm_num) p).1 ?_
    rw [zpow_neg_one]; push_cast; linarith

/-- C96: fifteen digits do not tell all doubles apart: one half and the next but one double above it are both printed as 0.5 -/
theorem C96_digits_violated {rnd : α → ℤ} (hr : Nearest rnd) :
    scalarToString rnd (general15 rnd) (1 / 2 : α) none = ['0', '.', '5'] ∧ scalarToString rnd (general15 rnd) (1 / 2 + 1 / 2 ^ 52 : α) none = ['0', '.', '5'] := by
  have key : ∀ x : α, 1 / 2 ≤ x → x < 1 → |x * 10 ^ 15 - 5 * 10 ^ 14| < 1 / 2 → scalarToString rnd (general15 rnd) x none = ['0', '.', '5'] := by
    intro x h1 h2 h3
    have hf : ¬ ((⌊x⌋ : ℤ) : α) = x := by
      intro h
      have : ⌊x⌋ = 0 := Int.floor_eq_zero_iff.2 ⟨by linarith, h2⟩
      rw [this] at h
      push_cast at h
      linarith
    have ax : |x| = x := abs_of_pos (by linarith)
    have hl : Int.log 10 x = -1 := log_half (by linarith) h2
    have hk : rnd (x * 10 ^ (15 : ℤ)) = 5 * 10 ^ 14 := by
      have e15 : x * 10 ^ (15 : ℤ) = x * 10 ^ 15 := by norm_cast
      rw [e15]
      have h4 := hr (x * 10 ^ 15)
      have h5 : |(rnd (x * 10 ^ 15) : α) - ((5 * 10 ^ 14 : ℤ) : α)| < 1 := by
        have h7 := abs_add_le ((rnd (x * 10 ^ 15) : α) - x * 10 ^ 15) (x * 10 ^ 15 - 5 * 10 ^ 14)
        rw [sub_add_sub_cancel] at h7
        rw [show ((5 * 10 ^ 14 : ℤ) : α) = 5 * 10 ^ 14 by push_cast; norm_num]
        exact lt_of_le_of_lt h7 ((add_lt_add_of_le_of_lt h4 h3).trans_eq (by norm_num))
      have h6 : ((|rnd (x * 10 ^ 15) - 5 * 10 ^ 14| : ℤ) : α) < ((1 : ℤ) : α) := by rw [Int.cast_abs, Int.cast_sub, Int.cast_one]; exact h5
      have := Int.abs_lt_one_iff.1 (Int.cast_lt.1 h6)
      omega
    have hd : dropZeros (padded 15 500000000000000) = ['5'] := by
      simp [padded, digitChar, dropZeros]
    simp only [scalarToString, if_neg hf, general15, ax, hl, if_neg (show ¬ x < 0 by linarith)]
    rw [show (14 : ℤ) - -1 = 15 by norm_num, hk]
    simp [generalDigits, fractionText, hd, digits, digitChar]
  constructor
  · exact key _ le_rfl (by norm_num) (by norm_num)
  · exact key _ (by norm_num) (by norm_num) (by norm_num [abs_of_pos])

end Vector

/-- C98: a quaternion printed without a number of decimals is read back in the same format, every component within 5e-15 of its size, integers exactly -/
theorem C98_general {rnd : ℝ → ℤ} (hr : Nearest rnd) (q : Quat) (f : Quat.Format) :
    ∃ (t : List Char) (a b c d : Dbl ℝ), quatToString rnd (general15 rnd) none (some q) f = .ok t ∧ quatParse t f = .ok (a, b, c, d) ∧
      List.Forall₂ (Close (5 / 10 ^ 15)) (comps q) [a, b, c, d] := by
  let g := fun x : ℝ => atof (α := ℝ) (element rnd (general15 rnd) none (.fin x))
  have hg : ∀ x, Close (5 / 10 ^ 15) (.fin x) (g x) := fun x => (element_general hr (by simp)).2
  have hparse : ∀ a b c d : ℝ, parse (α := ℝ) (vecToString rnd (general15 rnd) none [.fin a, .fin b, .fin c, .fin d]) = .ok [g a, g b, g c, g d] := by
    intro a b c d
    unfold vecToString
    rw [parse_commaSep (by simp)]
    · rfl
    · intro x hx
      obtain ⟨y, hy, rfl⟩ := List.mem_map.1 hx
      refine (element_general hr ?_).1
      rintro rfl
      simp at hy
  have hne : ∀ v, vecToString rnd (general15 rnd) none v ≠ [] := fun v => by simp [vecToString]
  refine ⟨_, g q.x, g q.y, g q.z, g q.s, rfl, ?_, ?_⟩
  · unfold quatParse
    rw [if_neg (hne _), hparse]
    cases f <;> rfl
  · simp only [comps, List.forall₂_cons, hg, List.forall₂_nil_left_iff, and_self]

example : Nearest (round : ℝ → ℤ) := nearest_round

end Verif.Props
