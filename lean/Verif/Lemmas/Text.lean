import Verif.Model.Text
import Mathlib.Tactic.Linarith
import Mathlib.Tactic.FieldSimp
import Mathlib.Tactic.Ring
import Mathlib.Tactic.IntervalCases

/-! # Lemmas on text -/

namespace Verif

namespace Text

/-! ## Digits -/

theorem digitChar_isDigit {d : ℕ} (h : d < 10) : (digitChar d).isDigit = true := by
  interval_cases d <;> rfl

theorem digitChar_value {d : ℕ} (h : d < 10) : (digitChar d).toNat - 48 = d := by
  interval_cases d <;> rfl

theorem readNat_append (s : List Char) (c : Char) : readNat (s ++ [c]) = 10 * readNat s + (c.toNat - 48) := by
  simp [readNat, List.foldl_append]

theorem readNat_digits (n : ℕ) : readNat (digits n) = n := by
  induction n using Nat.strong_induction_on with
  | _ n ih =>
    rw [digits]
    split_ifs with h
    · simp [readNat, digitChar_value h]
    · rw [readNat_append, ih (n / 10) (by omega), digitChar_value (by omega)]
      omega

theorem digits_isDigit (n : ℕ) : ∀ c ∈ digits n, c.isDigit = true := by
  induction n using Nat.strong_induction_on with
  | _ n ih =>
    rw [digits]
    split_ifs with h
    · simp [digitChar_isDigit h]
    · intro c hc
      rw [List.mem_append, List.mem_singleton] at hc
      rcases hc with hc | rfl
      · exact ih (n / 10) (by omega) c hc
      · exact digitChar_isDigit (by omega)

theorem digits_ne_nil (n : ℕ) : digits n ≠ [] := by
  rw [digits]
  split_ifs <;> simp

theorem padded_isDigit : ∀ p n : ℕ, ∀ c ∈ padded p n, c.isDigit = true
  | 0, _, c, hc => by simp [padded] at hc
  | p + 1, n, c, hc => by
    rw [padded, List.mem_append, List.mem_singleton] at hc
    rcases hc with hc | rfl
    · exact padded_isDigit p (n / 10) c hc
    · exact digitChar_isDigit (by omega)

theorem padded_length : ∀ p n : ℕ, (padded p n).length = p
  | 0, _ => rfl
  | p + 1, n => by rw [padded, List.length_append, padded_length p (n / 10)]; rfl

theorem readNat_padded (s : List Char) : ∀ p n : ℕ, readNat (s ++ padded p n) = readNat s * 10 ^ p + n % 10 ^ p
  | 0, n => by simp [padded, Nat.mod_one]
  | p + 1, n => by
    rw [padded, ← List.append_assoc, readNat_append, readNat_padded s p (n / 10), digitChar_value (by omega)]
    have h : n % 10 ^ (p + 1) = 10 * (n / 10 % 10 ^ p) + n % 10 := by
      rw [pow_succ', Nat.mod_mul]
      ring
    rw [h, pow_succ]
    ring

theorem padded_zeros : ∀ p m : ℕ, padded p (m * 10 ^ p) = List.replicate p '0'
  | 0, _ => rfl
  | p + 1, m => by
    rw [padded, show m * 10 ^ (p + 1) / 10 = m * 10 ^ p by rw [pow_succ, ← mul_assoc, Nat.mul_div_cancel _ (by norm_num)],
      padded_zeros p m, show m * 10 ^ (p + 1) % 10 = 0 by rw [pow_succ, ← mul_assoc, Nat.mul_mod_left], List.replicate_succ']
    rfl

theorem takeWhile_all {s : List Char} {p : Char → Bool} (h : ∀ c ∈ s, p c = true) : s.takeWhile p = s ∧ s.dropWhile p = [] := by
  induction s with
  | nil => exact ⟨rfl, rfl⟩
  | cons a s ih =>
    obtain ⟨h1, h2⟩ := ih fun c hc => h c (by simp [hc])
    have ha := h a (by simp)
    exact ⟨by simp [ha, h1], by simp [ha, h2]⟩

theorem takeWhile_until {s r : List Char} {d : Char} {p : Char → Bool} (h : ∀ c ∈ s, p c = true) (hd : p d = false) :
    (s ++ d :: r).takeWhile p = s ∧ (s ++ d :: r).dropWhile p = d :: r := by
  induction s with
  | nil => simp [hd]
  | cons a s ih =>
    have ha := h a (by simp)
    obtain ⟨h1, h2⟩ := ih fun c hc => h c (by simp [hc])
    exact ⟨by simp [ha, h1], by simp [ha, h2]⟩

variable {α : Type} [Field α]

theorem readUnsigned_fixed (p n : ℕ) :
    readUnsigned (α := α) (digits (n / 10 ^ p) ++ (if p = 0 then [] else '.' :: padded p n)) = .fin ((n : α) / 10 ^ p) := by
  have hd := digits_isDigit (n / 10 ^ p)
  have hne := digits_ne_nil (n / 10 ^ p)
  by_cases hp : p = 0
  · subst hp
    rw [pow_zero, Nat.div_one] at hd hne ⊢
    obtain ⟨h1, h2⟩ := takeWhile_all hd
    rw [if_pos rfl, List.append_nil]
    simp only [readUnsigned, h1, h2, readFraction, hne, false_and, if_false, List.append_nil, readNat_digits, readExponent, List.length_nil,
      pow_zero, Nat.div_one, div_one, zpow_zero, mul_one]
  · obtain ⟨h1, h2⟩ := takeWhile_until (r := padded p n) (d := '.') hd rfl
    obtain ⟨h3, h4⟩ := takeWhile_all (padded_isDigit p n)
    rw [if_neg hp]
    simp only [readUnsigned, h1, h2, readFraction, h3, h4, hne, false_and, if_false, readNat_padded, readNat_digits, readExponent, padded_length,
      zpow_zero, mul_one]
    rw [Nat.div_add_mod']

theorem atof_digit {c : Char} {s : List Char} (hc : c.isDigit = true) : atof (α := α) (c :: s) = readUnsigned (c :: s) := by
  have h0 : (c == ' ') = false := by
    rw [beq_eq_false_iff_ne]
    rintro rfl
    exact absurd hc (by decide)
  unfold atof
  rw [List.dropWhile_cons, if_neg (by rw [h0]; simp)]
  split
  · next h => cases h; exact absurd hc (by decide)
  · next h => cases h; exact absurd hc (by decide)
  · rfl

theorem atof_space (s : List Char) : atof (α := α) (' ' :: s) = atof s := by
  unfold atof
  simp only [List.dropWhile_cons, beq_self_eq_true, if_true]

theorem atof_minus (s : List Char) : atof (α := α) ('-' :: s) = neg (readUnsigned s) := by
  unfold atof
  rfl

/-- reading a decimal number gives the number -/
theorem atof_fixed (p : ℕ) (k : ℤ) : atof (α := α) (fixedText p k) = .fin ((k : α) / 10 ^ p) := by
  have h := readUnsigned_fixed (α := α) p k.natAbs
  unfold fixedText
  by_cases hk : k < 0
  · rw [if_pos hk, List.append_assoc, List.singleton_append, atof_minus, h]
    simp only [neg]
    have : (k : α) = -(k.natAbs : α) := by
      have : k = -(k.natAbs : ℤ) := by omega
      conv_lhs => rw [this]
      rw [Int.cast_neg, Int.cast_natCast]
    rw [this, neg_div]
  · rw [if_neg hk, List.nil_append]
    obtain ⟨c, l, hl⟩ := List.exists_cons_of_ne_nil (digits_ne_nil (k.natAbs / 10 ^ p))
    have hc := digits_isDigit (k.natAbs / 10 ^ p) c (by rw [hl]; simp)
    have : (k : α) = (k.natAbs : α) := by
      have : k = (k.natAbs : ℤ) := by omega
      conv_lhs => rw [this]
      rw [Int.cast_natCast]
    rw [this, ← h, hl, List.cons_append, atof_digit hc]

/-! ## The text of numbers has no commas -/

/-- a text that can stand in a list: not empty and without commas -/
def Plain (s : List Char) : Prop := s ≠ [] ∧ ∀ c ∈ s, c ≠ ','

theorem comma_not_digit {c : Char} (h : c.isDigit = true) : c ≠ ',' := by
  rintro rfl
  exact absurd h (by decide)

theorem fixedText_plain (p : ℕ) (k : ℤ) : Plain (fixedText p k) := by
  unfold fixedText
  constructor
  · simp [digits_ne_nil]
  · intro c hc
    simp only [List.mem_append] at hc
    rcases hc with (hc | hc) | hc
    · split_ifs at hc
      · rw [List.mem_singleton] at hc; subst hc; decide
      · simp at hc
    · exact comma_not_digit (digits_isDigit _ c hc)
    · split_ifs at hc
      · simp at hc
      · rcases List.mem_cons.1 hc with rfl | hc
        · decide
        · exact comma_not_digit (padded_isDigit _ _ c hc)

/-! ## Integers -/

theorem rnd_int {α : Type} [Field α] [LinearOrder α] [IsStrictOrderedRing α] {rnd : α → ℤ} (hr : ∀ x, |(rnd x : α) - x| ≤ 1 / 2) (k : ℤ) :
    rnd (k : α) = k := by
  have h := hr k
  rw [← Int.cast_sub, ← Int.cast_abs] at h
  have h2 : ((|rnd (k : α) - k| : ℤ) : α) < ((1 : ℤ) : α) := by
    rw [Int.cast_one]
    linarith
  have h3 := Int.cast_lt.1 h2
  have := Int.abs_lt_one_iff.1 h3
  omega

theorem dropZeros_append {s : List Char} {c : Char} (hc : c ≠ '0') (n : ℕ) : dropZeros (s ++ [c] ++ List.replicate n '0') = s ++ [c] := by
  unfold dropZeros
  rw [List.reverse_append, List.reverse_append, List.reverse_replicate, List.reverse_singleton, List.singleton_append]
  have : (List.replicate n '0' ++ c :: s.reverse).dropWhile (· == '0') = c :: s.reverse := by
    refine (takeWhile_until ?_ ?_).2
    · intro d hd
      rw [List.eq_of_mem_replicate hd]
      rfl
    · rw [beq_eq_false_iff_ne]; exact hc
  rw [this]
  simp

/-- an integer is printed with one decimal -/
theorem scalarToString_int {α : Type} [Field α] [LinearOrder α] [IsStrictOrderedRing α] [FloorRing α] {rnd : α → ℤ}
    (hr : ∀ x, |(rnd x : α) - x| ≤ 1 / 2) (general : α → List Char) (k : ℤ) :
    scalarToString rnd general (k : α) none = fixedText 1 (10 * k) := by
  have h6 : rnd ((k : α) * 10 ^ 6) = k * 10 ^ 6 := by
    have := rnd_int hr (k * 10 ^ 6)
    rwa [Int.cast_mul, Int.cast_pow, Int.cast_ofNat] at this
  unfold scalarToString
  simp only [Int.floor_intCast, if_true]
  rw [h6]
  have hn : (k * 10 ^ 6).natAbs = k.natAbs * 10 ^ 6 := by rw [Int.natAbs_mul]; rfl
  have hn' : (10 * k).natAbs = k.natAbs * 10 ^ 1 := by rw [Int.natAbs_mul]; simp [mul_comm]
  have hs : k * 10 ^ 6 < 0 ↔ 10 * k < 0 := by constructor <;> intro h <;> omega
  unfold fixedText
  rw [hn, hn', padded_zeros, padded_zeros, Nat.mul_div_cancel _ (by norm_num), Nat.mul_div_cancel _ (by norm_num), if_neg (show ¬ (6 = 0) by omega),
    if_neg (show ¬ (1 = 0) by omega)]
  simp only [hs]
  generalize (if 10 * k < 0 then ['-'] else []) ++ digits k.natAbs = a
  rw [show a ++ '.' :: List.replicate 6 '0' = a ++ ['.'] ++ List.replicate 6 '0' by simp, dropZeros_append (by decide)]
  simp

/-! ## Lists -/

theorem commaSep_space (b : List Char) : ∀ l : List (List Char), ' ' :: commaSep (b :: l) = commaSep ((' ' :: b) :: l)
  | [] => rfl
  | _ :: _ => rfl

theorem tokens_plain {a : List Char} (h : Plain a) : tokens a = [a] := by
  rw [tokens.eq_def]
  have : a.dropWhile (· != ',') = [] := (takeWhile_all fun c hc => by simpa using h.2 c hc).2
  split
  · rw [if_neg h.1]
  · next h' => rw [this] at h'; cases h'

theorem tokens_cons {a r : List Char} (h : ∀ c ∈ a, c ≠ ',') : tokens (a ++ ',' :: r) = a :: tokens r := by
  obtain ⟨h1, h2⟩ := takeWhile_until (s := a) (r := r) (d := ',') (p := (· != ',')) (fun c hc => by simpa using h c hc) rfl
  rw [tokens.eq_def]
  split
  · next h' => rw [h2] at h'; cases h'
  · next h' =>
    rw [h2] at h'
    cases h'
    rw [h1]

theorem tokens_commaSep : ∀ (l : List (List Char)) (a : List Char), Plain a → (∀ b ∈ l, Plain b) →
    tokens (commaSep (a :: l)) = a :: l.map (' ' :: ·)
  | [], a, ha, _ => by simpa [commaSep] using tokens_plain ha
  | b :: l, a, ha, hl => by
    have hb : Plain (' ' :: b) := by
      refine ⟨by simp, ?_⟩
      intro c hc
      rcases List.mem_cons.1 hc with rfl | hc
      · decide
      · exact (hl b (by simp)).2 c hc
    rw [commaSep, List.append_assoc, List.cons_append, tokens_cons ha.2, List.singleton_append, commaSep_space,
      tokens_commaSep l _ hb fun b' hb' => hl b' (by simp [hb'])]
    rfl

theorem commaSep_ne_nil {a : List Char} (ha : Plain a) : ∀ l : List (List Char), commaSep (a :: l) ≠ []
  | [] => ha.1
  | _ :: _ => by simp [commaSep]

/-- reading a list of numbers gives the numbers one by one -/
theorem parse_commaSep {l : List (List Char)} (hne : l ≠ []) (hl : ∀ a ∈ l, Plain a) :
    parse (α := α) (['['] ++ commaSep l ++ [']']) = .ok (l.map atof) := by
  obtain ⟨a, l, rfl⟩ := List.exists_cons_of_ne_nil hne
  have ha := hl a (by simp)
  have hc := List.length_pos_iff.2 (commaSep_ne_nil ha l)
  unfold parse
  have h3 : ¬ ((['['] ++ commaSep (a :: l) ++ [']']).length < 3 ∨ (['['] ++ commaSep (a :: l) ++ [']']).head? ≠ some '[' ∨
      (['['] ++ commaSep (a :: l) ++ [']']).getLast? ≠ some ']') := by
    simp only [List.length_append, List.length_singleton, List.cons_append, List.nil_append, List.head?_cons, List.getLast?_cons,
      List.getLast?_append, List.getLast?_singleton]
    simp
    omega
  rw [if_neg h3]
  have : ((['['] ++ commaSep (a :: l) ++ [']']).drop 1).dropLast = commaSep (a :: l) := by
    rw [List.append_assoc, List.singleton_append, List.drop_one, List.tail_cons, List.dropLast_concat]
  rw [this, tokens_commaSep l a ha fun b hb => hl b (by simp [hb])]
  simp only [List.map_cons, List.map_map, Function.comp_def, atof_space]

theorem tokens_length (s : List Char) : (tokens s).length = s.count ',' + (if s = [] ∨ s.getLast? = some ',' then 0 else 1) := by
  induction hn : s.length using Nat.strong_induction_on generalizing s with
  | _ n ih =>
    by_cases hs : ∃ a r, s = a ++ ',' :: r ∧ ∀ c ∈ a, c ≠ ','
    · obtain ⟨a, r, rfl, ha⟩ := hs
      have h1 := ih r.length (by rw [← hn]; simp; omega) r rfl
      rw [tokens_cons ha, List.length_cons, h1, List.count_append, List.count_cons_self, List.count_eq_zero_of_not_mem (fun h => ha _ h rfl)]
      have h2 : (a ++ ',' :: r = [] ∨ (a ++ ',' :: r).getLast? = some ',') ↔ (r = [] ∨ r.getLast? = some ',') := by
        rcases List.eq_nil_or_concat r with rfl | ⟨r', c, rfl⟩
        · simp
        · simp [List.getLast?_append, List.getLast?_cons]
      simp only [h2]
      omega
    · have hall : ∀ c ∈ s, c ≠ ',' := by
        rintro c hc rfl
        apply hs
        obtain ⟨a, r, rfl, ha⟩ := List.eq_append_cons_of_mem hc
        exact ⟨a, r, rfl, fun c hc => fun h => ha (h ▸ hc)⟩
      rw [List.count_eq_zero_of_not_mem fun h => hall _ h rfl]
      rcases eq_or_ne s [] with rfl | hne
      · simp [tokens]
      · rw [tokens_plain ⟨hne, hall⟩, if_neg]
        · simp
        · rintro (h | h)
          · exact hne h
          · exact hall _ (List.mem_of_getLast? h) rfl

end Text

end Verif
