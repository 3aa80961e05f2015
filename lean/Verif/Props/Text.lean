import Verif.Lemmas.Text
import Verif.Spec.Text
import Mathlib.Algebra.Order.Round
import Mathlib.Data.Real.Archimedean

/-! # C96 to C99: the text of vectors, quaternions and intervals -/

namespace Verif.Props

open Verif Verif.Spec Verif.Text

section Vector

variable {α : Type} [Field α] [LinearOrder α] [IsStrictOrderedRing α] [FloorRing α]

theorem nearest_round : Nearest (round : α → ℤ) := fun x => by rw [abs_sub_comm]; exact abs_sub_round x

theorem element_decimals {rnd : α → ℤ} (hr : Nearest rnd) (general : α → List Char) (p : ℕ) {x : Dbl α} (hx : x ≠ .inf true) :
    Plain (element rnd general (some p) x) ∧ Near (1 / 2 / 10 ^ p) x (atof (element rnd general (some p) x)) := by
  match x, hx with
  | .nan, _ => exact ⟨⟨by simp [element], by simp [element]⟩, trivial⟩
  | .inf false, _ => exact ⟨⟨by simp [element], by simp [element]⟩, rfl⟩
  | .fin x, _ =>
    refine ⟨fixedText_plain _ _, ?_⟩
    simp only [element, scalarToString, atof_fixed, Near]
    have h10 : (0 : α) < 10 ^ p := by positivity
    have := hr (x * 10 ^ p)
    rw [div_sub' h10.ne', abs_div, abs_of_pos h10, mul_comm (10 ^ p) x]
    exact div_le_div_of_nonneg_right this h10.le

/-- C96: a vector printed with a given number of decimals is read back with the same size and every number within half of the last decimal; not a
number and plus infinity are kept -/
theorem C96_decimals_partial {rnd : α → ℤ} (hr : Nearest rnd) (general : α → List Char) (p : ℕ) {v : List (Dbl α)} (hv : v ≠ [])
    (hi : ∀ x ∈ v, x ≠ .inf true) :
    ∃ w, parse (vecToString rnd general (some p) v) = .ok w ∧ List.Forall₂ (Near (1 / 2 / 10 ^ p)) v w := by
  refine ⟨_, parse_commaSep (by simpa using hv) ?_, ?_⟩
  · intro a ha
    obtain ⟨x, hx, rfl⟩ := List.mem_map.1 ha
    exact (element_decimals hr general p (hi x hx)).1
  · rw [List.map_map, List.forall₂_map_right_iff, List.forall₂_same]
    intro x hx
    exact (element_decimals hr general p (hi x hx)).2

example : ∃ v : List (Dbl ℚ), v ≠ [] ∧ ∀ x ∈ v, x ≠ .inf true := ⟨[.fin (1 / 3), .nan, .inf false, .fin (-200)], by simp, by simp⟩

/-- C96: a vector of integers printed without a given number of decimals is read back exactly -/
theorem C96_integers {rnd : α → ℤ} (hr : Nearest rnd) (general : α → List Char) {v : List ℤ} (hv : v ≠ []) :
    parse (vecToString rnd general none (v.map fun k : ℤ => .fin (k : α))) = .ok (v.map fun k : ℤ => .fin (k : α)) := by
  unfold vecToString
  rw [parse_commaSep (by simpa using hv)]
  · congr 1
    rw [List.map_map, List.map_map]
    apply List.map_congr_left
    intro k _
    simp only [Function.comp_def, element, scalarToString_int hr, atof_fixed]
    push_cast
    congr 1
    field_simp
  · intro a ha
    obtain ⟨x, hx, rfl⟩ := List.mem_map.1 ha
    obtain ⟨k, -, rfl⟩ := List.mem_map.1 hx
    simp only [element, scalarToString_int hr]
    exact fixedText_plain _ _

/-- C96: the text of an integer is the integer followed by one decimal -/
theorem C96_integer_text {rnd : α → ℤ} (hr : Nearest rnd) (general : α → List Char) (n : ℕ) :
    scalarToString rnd general (n : α) none = digits n ++ ['.', '0'] ∧
    (0 < n → scalarToString rnd general (-(n : α)) none = '-' :: digits n ++ ['.', '0']) := by
  constructor
  · have := scalarToString_int hr general (n : ℤ)
    rw [Int.cast_natCast] at this
    rw [this, fixedText]
    have h1 : (10 * (n : ℤ)).natAbs = n * 10 ^ 1 := by omega
    rw [h1, padded_zeros, Nat.mul_div_cancel _ (by norm_num), if_neg (by omega), if_neg (by omega)]
    rfl
  · intro hn
    have := scalarToString_int hr general (-(n : ℤ))
    rw [Int.cast_neg, Int.cast_natCast] at this
    rw [this, fixedText]
    have h1 : (10 * (-(n : ℤ))).natAbs = n * 10 ^ 1 := by omega
    rw [h1, padded_zeros, Nat.mul_div_cancel _ (by norm_num), if_pos (by omega), if_neg (by omega)]
    rfl

/-- C96: minus infinity is printed as plus infinity, so it is read back with the wrong sign -/
theorem C96_infinity_violated (rnd : α → ℤ) (general : α → List Char) (precision : Option ℕ) :
    parse (α := α) (vecToString rnd general precision [.inf true]) = .ok [.inf false] := by
  unfold vecToString
  rw [parse_commaSep (by simp)]
  · rfl
  · intro a ha
    rw [List.map_singleton, List.mem_singleton] at ha
    subst ha
    exact ⟨by simp [element], by simp [element]⟩

/-- C96: the text of the empty vector is refused -/
theorem C96_empty_violated (rnd : α → ℤ) (general : α → List Char) (precision : Option ℕ) :
    parse (α := α) (vecToString rnd general precision []) = .error .runtimeError := by
  simp [vecToString, commaSep, parse]

/-- C96: the text of a matrix is not refused but read as a vector in which the numbers after a bracket are zero -/
theorem C96_matrix_violated {rnd : α → ℤ} (hr : Nearest rnd) (general : α → List Char) (p : ℕ) (a b c d : α) :
    ∃ b' d', parse (α := α) (matToString rnd general (some p) [[.fin a, .fin b], [.fin c, .fin d]]) = .ok [.fin 0, b', .fin 0, d'] := by
  let e := fun x : α => scalarToString rnd general x (some p)
  have he : ∀ x, Plain (e x) := fun x => fixedText_plain _ _
  have hp : ∀ x c, c ≠ ',' → Plain (c :: e x) := fun x c hc =>
    ⟨by simp, fun y hy => (List.mem_cons.1 hy).elim (fun h => h ▸ hc) ((he x).2 y)⟩
  have hq : ∀ x c, c ≠ ',' → Plain (e x ++ [c]) := fun x c hc =>
    ⟨by simp, fun y hy => (List.mem_append.1 hy).elim ((he x).2 y) (fun h => by rw [List.mem_singleton] at h; exact h ▸ hc)⟩
  have h : matToString rnd general (some p) [[.fin a, .fin b], [.fin c, .fin d]] =
      ['['] ++ commaSep ['[' :: e a, e b ++ [']'], '[' :: e c, e d ++ [']']] ++ [']'] := by
    simp [matToString, commaSep, element, e]
  rw [h, parse_commaSep (by simp)]
  · exact ⟨_, _, rfl⟩
  · intro x hx
    simp only [List.mem_cons, List.not_mem_nil, or_false] at hx
    rcases hx with rfl | rfl | rfl | rfl
    · exact hp _ _ (by decide)
    · exact hq _ _ (by decide)
    · exact hp _ _ (by decide)
    · exact hq _ _ (by decide)

example : Nearest (round : ℚ → ℤ) := nearest_round

/-- C97: a text is refused exactly when it is shorter than three characters or not in brackets; any other text is read as a vector with as many numbers
as there are commas, and one more unless a comma comes last -/
theorem C97_brackets (s : List Char) :
    (∀ e, parse (α := α) s = .error e ↔ e = .runtimeError ∧ ¬ ∃ t, t ≠ [] ∧ s = '[' :: t ++ [']']) ∧
    ∀ t, t ≠ [] → s = '[' :: t ++ [']'] → ∃ w, parse (α := α) s = .ok w ∧
      w.length = t.count ',' + (if t.getLast? = some ',' then 0 else 1) := by
  have hok : ∀ t, t ≠ [] → s = '[' :: t ++ [']'] → parse (α := α) s = .ok ((tokens t).map atof) := by
    rintro t ht rfl
    have hl := List.length_pos_iff.2 ht
    unfold parse
    rw [if_neg]
    · rw [List.cons_append, List.drop_one, List.tail_cons, List.dropLast_concat]
    · simp only [List.cons_append, List.length_cons, List.length_append, List.head?_cons, List.getLast?_cons, List.getLast?_append]
      simp
      omega
  constructor
  · intro e
    constructor
    · intro he
      refine ⟨?_, ?_⟩
      · unfold parse at he
        split_ifs at he
        cases he
        rfl
      · rintro ⟨t, ht, hs⟩
        rw [hok t ht hs] at he
        cases he
    · rintro ⟨rfl, hn⟩
      unfold parse
      rw [if_pos]
      by_contra hc
      push Not at hc
      obtain ⟨h1, h2, h3⟩ := hc
      apply hn
      match s, h2 with
      | c :: t, h2 =>
        have : c = '[' := by simpa using h2
        subst this
        rcases List.eq_nil_or_concat t with rfl | ⟨u, d, rfl⟩
        · simp at h1
        · have : d = ']' := by simpa [List.getLast?_cons, List.getLast?_append] using h3
          subst this
          refine ⟨u, ?_, by simp⟩
          rintro rfl
          simp at h1
  · intro t ht hs
    refine ⟨_, hok t ht hs, ?_⟩
    rw [List.length_map, tokens_length]
    simp [ht]

end Vector

/-! ## C98: quaternions -/

/-- the components of a quaternion as doubles -/
def comps (q : Quat) : List (Dbl ℝ) := [.fin q.x, .fin q.y, .fin q.z, .fin q.s]

/-- C98: a quaternion printed with a number of decimals is read back in the same format, every component within half of the last decimal -/
theorem C98_decimals {rnd : ℝ → ℤ} (hr : Nearest rnd) (general : ℝ → List Char) (p : ℕ) (q : Quat) (f : Quat.Format) :
    ∃ (t : List Char) (a b c d : Dbl ℝ), quatToString rnd general (some p) (some q) f = .ok t ∧ quatParse t f = .ok (a, b, c, d) ∧
      List.Forall₂ (Near (1 / 2 / 10 ^ p)) (comps q) [a, b, c, d] := by
  let g := fun x : ℝ => atof (α := ℝ) (element rnd general (some p) (.fin x))
  have hg : ∀ x, Near (1 / 2 / 10 ^ p) (.fin x) (g x) := fun x => (element_decimals hr general p (by simp)).2
  have hparse : ∀ a b c d : ℝ, parse (α := ℝ) (vecToString rnd general (some p) [.fin a, .fin b, .fin c, .fin d]) = .ok [g a, g b, g c, g d] := by
    intro a b c d
    unfold vecToString
    rw [parse_commaSep (by simp)]
    · rfl
    · intro x hx
      obtain ⟨y, hy, rfl⟩ := List.mem_map.1 hx
      refine (element_decimals hr general p ?_).1
      rintro rfl
      simp at hy
  have hne : ∀ v, vecToString rnd general (some p) v ≠ [] := fun v => by simp [vecToString]
  refine ⟨_, g q.x, g q.y, g q.z, g q.s, rfl, ?_, ?_⟩
  · unfold quatParse
    rw [if_neg (hne _), hparse]
    cases f <;> rfl
  · simp only [comps, List.forall₂_cons, hg, List.forall₂_nil_left_iff, and_self]

/-- C98: a quaternion with integer components printed without a number of decimals is read back exactly -/
theorem C98_integers {rnd : ℝ → ℤ} (hr : Nearest rnd) (general : ℝ → List Char) (x y z s : ℤ) (f : Quat.Format) :
    ∃ t, quatToString rnd general none (some ⟨x, y, z, s⟩) f = .ok t ∧ quatParse t f = .ok (.fin x, .fin y, .fin z, .fin s) := by
  refine ⟨_, rfl, ?_⟩
  unfold quatParse
  rw [if_neg (by simp [vecToString])]
  cases f
  · have := C96_integers hr general (v := [x, y, z, s]) (by simp)
    simp only [List.map_cons, List.map_nil] at this
    simp only [Quat.toVector, this]
    rfl
  · have := C96_integers hr general (v := [s, x, y, z]) (by simp)
    simp only [List.map_cons, List.map_nil] at this
    simp only [Quat.toVector, this]
    rfl

example : Nearest (round : ℝ → ℤ) := nearest_round

/-- C98: the errors: an undefined quaternion is not printed, an empty text is undefined, and any other text that is not read is a runtime error; a text in
brackets is read exactly when it has four numbers -/
theorem C98_errors (s : List Char) (f : Quat.Format) :
    (∀ rnd general precision, quatToString rnd general precision none f = .error .undefined) ∧
    (∀ e, quatParse s f = .error e → e = if s = [] then .undefined else .runtimeError) ∧
    ∀ t, t ≠ [] → s = '[' :: t ++ [']'] →
      ((∃ r, quatParse s f = .ok r) ↔ t.count ',' + (if t.getLast? = some ',' then 0 else 1) = 4) := by
  refine ⟨fun _ _ _ => rfl, ?_, ?_⟩
  · intro e he
    unfold quatParse at he
    split_ifs at he with h
    · cases he; rw [if_pos h]
    · rw [if_neg h]
      cases hp : parse (α := ℝ) s with
      | error e' =>
        rw [hp] at he
        cases he
        exact (((C97_brackets s).1 _).1 hp).1
      | ok v =>
        rw [hp] at he
        simp only [bind, Except.bind] at he
        split at he
        · cases he
        · cases he; rfl
  · intro t ht hs
    obtain ⟨w, hw, hl⟩ := (C97_brackets (α := ℝ) s).2 t ht hs
    rw [← hl]
    unfold quatParse
    rw [if_neg (by rw [hs]; simp), hw]
    simp only [bind, Except.bind]
    constructor
    · rintro ⟨r, hr⟩
      split at hr
      · rfl
      · cases hr
    · intro h4
      match w, h4 with
      | [a, b, c, d], _ => exact ⟨_, rfl⟩

/-! ## C99: intervals -/

/-- C99: two defined intervals with the same text have the same type and bounds with the same text, so they are equal if different bounds have different
texts -/
theorem C99_injective {α : Type} [LinearOrder α] {text : α → List Char} (hc : ∀ a, ∀ c ∈ text a, c ≠ ',') {i j : Interval α} {t : List Char}
    (hi : intervalToString text i = .ok t) (hj : intervalToString text j = .ok t) :
    i.type = j.type ∧ i.lb.map text = j.lb.map text ∧ i.ub.map text = j.ub.map text ∧ (Function.Injective text → i = j) := by
  have key : ∀ (k : Interval α), intervalToString text k = .ok t → ∃ a b l r, k.lb = some a ∧ k.ub = some b ∧
      t = [if k.type.lowerOpen then ']' else '['] ++ l ++ [',', ' '] ++ r ++ [if k.type.upperOpen then '[' else ']'] ∧ l = text a ∧ r = text b ∧
      k.type ≠ .undefined := by
    rintro ⟨ty, lb, ub⟩ hk
    unfold intervalToString at hk
    cases ty <;> cases lb <;> cases ub <;> simp only at hk <;> cases hk <;>
      exact ⟨_, _, _, _, rfl, rfl, rfl, rfl, rfl, by simp⟩
  obtain ⟨a, b, l, r, h1, h2, h3, rfl, rfl, h4⟩ := key i hi
  obtain ⟨a', b', l', r', h1', h2', h3', rfl, rfl, h4'⟩ := key j hj
  rw [h3] at h3'
  obtain ⟨h5, h6⟩ := List.append_inj' h3' rfl
  have h7 := (List.append_inj (by simpa using h5 : [if i.type.lowerOpen then ']' else '['] ++ (text a ++ ',' :: ' ' :: text b) =
    [if j.type.lowerOpen then ']' else '['] ++ (text a' ++ ',' :: ' ' :: text b')) rfl)
  have hl := h7.1
  have hu := h6
  obtain ⟨e1, e2⟩ := takeWhile_until (s := text a) (r := ' ' :: text b) (d := ',') (p := (· != ',')) (fun c h => by simpa using hc a c h) rfl
  obtain ⟨e1', e2'⟩ := takeWhile_until (s := text a') (r := ' ' :: text b') (d := ',') (p := (· != ',')) (fun c h => by simpa using hc a' c h) rfl
  rw [h7.2] at e1 e2
  have ha : text a = text a' := e1.symm.trans e1'
  have hb : text b = text b' := by
    have := e2.symm.trans e2'
    simpa using this
  have hty : i.type = j.type := by
    revert hl hu h4 h4'
    cases i.type <;> cases j.type <;> simp [IType.lowerOpen, IType.upperOpen]
  refine ⟨hty, by simp [h1, h1', ha], by simp [h2, h2', hb], ?_⟩
  intro hinj
  apply Interval.ext hty
  · rw [h1, h1', hinj ha]
  · rw [h2, h2', hinj hb]

/-- C99: the text exists exactly for defined intervals -/
theorem C99_defined {α : Type} [LinearOrder α] (text : α → List Char) (i : Interval α) :
    ((∃ t, intervalToString text i = .ok t) ↔ i.isDefined = true) ∧ ∀ e, intervalToString text i = .error e → e = .undefined := by
  obtain ⟨ty, lb, ub⟩ := i
  cases ty <;> cases lb <;> cases ub <;> simp [intervalToString, Interval.isDefined]

/-- a text for natural numbers with the properties asked for -/
example : ∃ text : ℕ → List Char, (∀ a, ∀ c ∈ text a, c ≠ ',') ∧ Function.Injective text :=
  ⟨digits, fun a c h => comma_not_digit (digits_isDigit a c h), fun a b h => by rw [← readNat_digits a, h, readNat_digits]⟩

end Verif.Props
