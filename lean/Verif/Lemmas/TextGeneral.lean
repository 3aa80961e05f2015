import Verif.Model.TextGeneral
import Verif.Lemmas.Text

/-! # Reading numbers of fifteen digits -/

namespace Verif.Text

variable {α : Type} [Field α] [LinearOrder α] [IsStrictOrderedRing α]

theorem mem_takeWhile_prop {p : Char → Bool} {b : Char} : ∀ {l : List Char}, b ∈ l.takeWhile p → p b = true
  | [], h => by simp at h
  | a :: l, h => by
    rw [List.takeWhile_cons] at h
    split_ifs at h with ha
    · rcases List.mem_cons.1 h with rfl | h
      · exact ha
      · exact mem_takeWhile_prop h
    · simp at h

theorem dropZeros_split (f : List Char) : ∃ z, f = dropZeros f ++ List.replicate z '0' := by
  refine ⟨(f.reverse.takeWhile (· == '0')).length, ?_⟩
  have h1 : f.reverse.takeWhile (· == '0') = List.replicate (f.reverse.takeWhile (· == '0')).length '0' :=
    List.eq_replicate_iff.2 ⟨rfl, fun b hb => by simpa using mem_takeWhile_prop hb⟩
  have h2 : f.reverse.takeWhile (· == '0') ++ f.reverse.dropWhile (· == '0') = f.reverse := List.takeWhile_append_dropWhile
  have h3 := congrArg List.reverse h2
  rw [List.reverse_append, List.reverse_reverse] at h3
  conv_lhs => rw [← h3, h1, List.reverse_replicate]
  rfl

theorem readNat_zeros (s : List Char) : ∀ z, readNat (s ++ List.replicate z '0') = readNat s * 10 ^ z
  | 0 => by simp
  | z + 1 => by
    rw [List.replicate_succ', ← List.append_assoc, readNat_append, readNat_zeros s z, pow_succ]
    have : '0'.toNat - 48 = 0 := rfl
    rw [this]; ring

/-- what may follow a number: nothing or an `e` -/
def Tail (r : List Char) : Prop := r = [] ∨ ∃ r', r = 'e' :: r'

/-- reading digits, a fraction and an exponent -/
theorem readUnsigned_parts {w f r : List Char} (hw : ∀ c ∈ w, c.isDigit = true) (hne : w ≠ []) (hf : ∀ c ∈ f, c.isDigit = true) (hr : Tail r) :
    readUnsigned (α := α) (w ++ (if f = [] then [] else '.' :: f) ++ r) = .fin ((readNat (w ++ f) : α) / 10 ^ f.length * 10 ^ readExponent r) := by
  by_cases h : f = []
  · subst h
    rcases hr with rfl | ⟨r', rfl⟩
    · obtain ⟨h1, h2⟩ := takeWhile_all hw
      simp only [if_true, List.append_nil, readUnsigned, h1, h2, readFraction, hne, false_and, if_false, List.length_nil]
    · obtain ⟨h1, h2⟩ := takeWhile_until (r := r') (d := 'e') hw rfl
      have h3 : readFraction ('e' :: r') = ([], 'e' :: r') := rfl
      simp only [if_true, List.append_nil, readUnsigned, h1, h2, h3, hne, false_and, if_false, List.length_nil]
  · rw [if_neg h, List.append_assoc, List.cons_append]
    obtain ⟨h1, h2⟩ := takeWhile_until (r := f ++ r) (d := '.') hw rfl
    rcases hr with rfl | ⟨r', rfl⟩
    · rw [List.append_nil] at h1 h2 ⊢
      obtain ⟨h3, h4⟩ := takeWhile_all hf
      simp only [readUnsigned, h1, h2, readFraction, h3, h4, hne, false_and, if_false]
    · obtain ⟨h3, h4⟩ := takeWhile_until (r := r') (d := 'e') hf rfl
      simp only [readUnsigned, h1, h2, readFraction, h3, h4, hne, false_and, if_false]

/-- the zeros left out do not matter -/
theorem readUnsigned_trimmed {w f r : List Char} (hw : ∀ c ∈ w, c.isDigit = true) (hne : w ≠ []) (hf : ∀ c ∈ f, c.isDigit = true) (hr : Tail r) :
    readUnsigned (α := α) (w ++ fractionText f ++ r) = .fin ((readNat (w ++ f) : α) / 10 ^ f.length * 10 ^ readExponent r) := by
  obtain ⟨z, hz⟩ := dropZeros_split f
  have hf' : ∀ c ∈ dropZeros f, c.isDigit = true := fun c hc => hf c (by rw [hz]; exact List.mem_append_left _ hc)
  rw [fractionText, readUnsigned_parts hw hne hf' hr]
  have e1 : readNat (w ++ f) = readNat (w ++ dropZeros f) * 10 ^ z := by
    conv_lhs => rw [hz, ← List.append_assoc]
    rw [readNat_zeros]
  have e2 : f.length = (dropZeros f).length + z := by
    conv_lhs => rw [hz]
    rw [List.length_append, List.length_replicate]
  rw [e1, e2]
  push_cast
  rw [pow_add, mul_div_mul_right _ _ (pow_ne_zero z (by norm_num : (10 : α) ≠ 0))]

theorem readExponent_text (e : ℤ) : readExponent (exponentText e) = e := by
  have h : ∀ n : ℕ, readNat (((if n < 10 then '0' :: digits n else digits n)).takeWhile Char.isDigit) = n := by
    intro n
    have hd := digits_isDigit n
    split_ifs with hn
    · have : ∀ c ∈ '0' :: digits n, c.isDigit = true := by
        intro c hc
        rcases List.mem_cons.1 hc with rfl | hc
        · decide
        · exact hd c hc
      rw [(takeWhile_all this).1]
      have h2 : readNat ('0' :: digits n) = readNat (digits n) := by
        simp [readNat]
      rw [h2, readNat_digits]
    · rw [(takeWhile_all hd).1, readNat_digits]
  unfold exponentText
  by_cases he : e < 0
  · simp only [if_pos he, readExponent, true_or, if_true]
    rw [h]; omega
  · simp only [if_neg he, readExponent, true_or, if_true]
    rw [h]; omega

theorem generalDigits_read (k : ℕ) (e : ℤ) : readUnsigned (α := α) (generalDigits k e) = .fin ((k : α) * 10 ^ (e - 14)) := by
  have t0 : (10 : α) ≠ 0 := by norm_num
  unfold generalDigits
  split_ifs with h
  · have := readUnsigned_trimmed (α := α) (w := digits (k / 10 ^ (14 - e).toNat)) (f := padded (14 - e).toNat k) (r := []) (digits_isDigit _) (digits_ne_nil _)
      (padded_isDigit _ _) (.inl rfl)
    rw [List.append_nil] at this
    rw [this, readNat_padded, readNat_digits, Nat.div_add_mod', padded_length, readExponent, zpow_zero, mul_one]
    have e1 : e - 14 = -(((14 - e).toNat : ℕ) : ℤ) := by omega
    rw [e1, zpow_neg, zpow_natCast, div_eq_mul_inv]
  · rw [readUnsigned_trimmed (r := exponentText e) (digits_isDigit _) (digits_ne_nil _) (padded_isDigit _ _) (.inr ⟨_, rfl⟩), readNat_padded, readNat_digits, Nat.div_add_mod', padded_length,
      readExponent_text, zpow_sub₀ t0]
    norm_cast
    field_simp

theorem generalDigits_plain (k : ℕ) (e : ℤ) : Plain (generalDigits k e) ∧ ∃ c l, generalDigits k e = c :: l ∧ c.isDigit = true := by
  have dz : ∀ f : List Char, (∀ c ∈ f, c.isDigit = true) → ∀ c ∈ fractionText f, c ≠ ',' := by
    intro f hf c hc
    unfold fractionText at hc
    split_ifs at hc with h
    · simp at hc
    · rcases List.mem_cons.1 hc with rfl | hc
      · decide
      · obtain ⟨z, hz⟩ := dropZeros_split f
        exact comma_not_digit (hf c (by rw [hz]; exact List.mem_append_left _ hc))
  have ex : ∀ c ∈ exponentText e, c ≠ ',' := by
    intro c hc
    unfold exponentText at hc
    rcases List.mem_cons.1 hc with rfl | hc
    · decide
    rcases List.mem_cons.1 hc with rfl | hc
    · split_ifs <;> decide
    split_ifs at hc
    · rcases List.mem_cons.1 hc with rfl | hc
      · decide
      · exact comma_not_digit (digits_isDigit _ c hc)
    · exact comma_not_digit (digits_isDigit _ c hc)
  have head : ∀ n r, ∃ c l, digits n ++ r = c :: l ∧ c.isDigit = true := by
    intro n r
    obtain ⟨c, l, hl⟩ := List.exists_cons_of_ne_nil (digits_ne_nil n)
    exact ⟨c, l ++ r, by rw [hl]; rfl, digits_isDigit n c (by rw [hl]; simp)⟩
  unfold generalDigits
  split_ifs with h
  · refine ⟨⟨by simp [digits_ne_nil], ?_⟩, head _ _⟩
    intro c hc
    rcases List.mem_append.1 hc with hc | hc
    · exact comma_not_digit (digits_isDigit _ c hc)
    · exact dz _ (padded_isDigit _ _) c hc
  · refine ⟨⟨by simp [digits_ne_nil], ?_⟩, by rw [List.append_assoc]; exact head _ _⟩
    intro c hc
    rcases List.mem_append.1 hc with hc | hc
    · rcases List.mem_append.1 hc with hc | hc
      · exact comma_not_digit (digits_isDigit _ c hc)
      · exact dz _ (padded_isDigit _ _) c hc
    · exact ex c hc

variable [FloorRing α]

/-- what is read back from fifteen digits -/
theorem general15_read {rnd : α → ℤ} (hr : ∀ x, |(rnd x : α) - x| ≤ 1 / 2) {x : α} (hx : x ≠ 0) :
    Plain (general15 rnd x) ∧ ∃ y, atof (α := α) (general15 rnd x) = .fin y ∧ |y - x| ≤ 5 / 10 ^ 15 * |x| := by
  have t0 : (10 : α) ≠ 0 := by norm_num
  have tp : ∀ n : ℤ, (0 : α) < 10 ^ n := fun n => zpow_pos (by norm_num) n
  have ax : 0 < |x| := abs_pos.2 hx
  set e := Int.log 10 |x| with he
  have l1 : (10 : α) ^ e ≤ |x| := by
    have := Int.zpow_log_le_self (b := 10) (by norm_num) ax
    rwa [← he, Nat.cast_ofNat] at this
  set m := |x| * 10 ^ (14 - e) with hm
  have em : |x| = m * 10 ^ (e - 14) := by
    rw [hm, mul_assoc, ← zpow_add₀ t0]; simp
  have m1 : (10 : α) ^ 14 ≤ m := by
    have h := mul_le_mul_of_nonneg_right l1 (tp (14 - e)).le
    rw [← zpow_add₀ t0, show e + (14 - e) = ((14 : ℕ) : ℤ) by push_cast; ring, zpow_natCast] at h
    exact h
  have hk := abs_le.1 (hr m)
  have k0 : 0 ≤ rnd m := by
    have : (-1 : α) < (rnd m : α) := by
      have : (1 : α) ≤ 10 ^ 14 := by norm_num
      linarith [hk.1]
    have : ((-1 : ℤ) : α) < (rnd m : α) := by push_cast; exact this
    have := Int.cast_lt.1 this
    omega
  have kc : (((rnd m).toNat : ℕ) : α) = (rnd m : α) := by
    rw [← Int.cast_natCast, Int.toNat_of_nonneg k0]
  -- the digits written
  set D := if (rnd m).toNat = 10 ^ 15 then generalDigits (10 ^ 14) (e + 1) else generalDigits (rnd m).toNat e with hD
  have hread : readUnsigned (α := α) D = .fin ((rnd m : α) * 10 ^ (e - 14)) := by
    rw [hD]
    split_ifs with h
    · rw [generalDigits_read, ← kc, h]
      congr 1
      rw [show e + 1 - 14 = (e - 14) + 1 by ring, zpow_add₀ t0, zpow_one]
      push_cast
      ring
    · rw [generalDigits_read, kc]
  have hplain : Plain D ∧ ∃ c l, D = c :: l ∧ c.isDigit = true := by
    rw [hD]; split_ifs <;> exact generalDigits_plain _ _
  have herr : |(rnd m : α) * 10 ^ (e - 14) - (|x|)| ≤ 5 / 10 ^ 15 * |x| := by
    have h1 : (rnd m : α) * 10 ^ (e - 14) - |x| = ((rnd m : α) - m) * 10 ^ (e - 14) := by rw [em]; ring
    rw [h1, abs_mul, abs_of_pos (tp _)]
    refine (mul_le_mul_of_nonneg_right (hr m) (tp _).le).trans ?_
    have h2 : (10 : α) ^ (e - 14) = 10 ^ e / 10 ^ 14 := by
      rw [zpow_sub₀ t0]; norm_cast
    rw [h2]
    calc (1 : α) / 2 * (10 ^ e / 10 ^ 14) = 5 / 10 ^ 15 * 10 ^ e := by ring
      _ ≤ _ := mul_le_mul_of_nonneg_left l1 (by positivity)
  have htext : general15 rnd x = (if x < 0 then ['-'] else []) ++ D := rfl
  obtain ⟨hp, c, l, hc, hcd⟩ := hplain
  rw [htext]
  by_cases hneg : x < 0
  · rw [if_pos hneg, List.singleton_append, atof_minus, hread]
    refine ⟨⟨by simp, ?_⟩, _, rfl, ?_⟩
    · intro d hd
      rcases List.mem_cons.1 hd with rfl | hd
      · decide
      · exact hp.2 d hd
    · rw [abs_of_neg hneg] at herr ⊢
      rw [show -((rnd m : α) * 10 ^ (e - 14)) - x = -((rnd m : α) * 10 ^ (e - 14) - -x) by ring, abs_neg]
      exact herr
  · rw [if_neg hneg, List.nil_append]
    refine ⟨hp, _, by rw [hc, atof_digit hcd, ← hc, hread], ?_⟩
    rw [abs_of_nonneg (not_lt.1 hneg)] at herr ⊢
    exact herr

end Verif.Text
