import Mathlib.Data.Rat.Floor
import Mathlib.Tactic.NormNum
import Verif.Lemmas.IntervalGrid
import Verif.Spec.Interval

/-!
# Properties of the grids generated from an interval (C14, C15)
-/

namespace Verif.Props

open Verif Verif.Spec _root_.Verif.Interval

set_option linter.unusedSectionVars false
set_option linter.unusedSimpArgs false
set_option linter.flexible false

variable {K : Type} [Field K] [LinearOrder K] [IsStrictOrderedRing K] [FloorRing K]

/-- **C14.** Positive step: the grid is strictly increasing and its elements are exactly the values of the interval that are a
whole number of steps above the lower bound, or equal to the upper bound. -/
theorem C14_grid_up (t : IType) (a b s : K) (hI : Valid (⟨t, some a, some b⟩ : Interval K)) (hs : 0 < s) :
    ∃ r, (⟨t, some a, some b⟩ : Interval K).generateArrayWithStep (some s) = .ok r ∧ r.Pairwise (· < ·) ∧
      ∀ x, x ∈ r ↔ x ∈ pts ⟨t, some a, some b⟩ ∧ (x = b ∨ ∃ k : ℕ, x = a + k * s) := by
  obtain ⟨a', b', ha, hb, h⟩ := hI
  simp only [Option.some.injEq] at ha hb
  subst ha hb
  have hk : ∀ k : ℕ, 0 ≤ (k : K) * s := fun k => by positivity
  have hsh : ∀ x : K, (∃ k : ℕ, x = a + s + k * s) ↔ a < x ∧ ∃ k : ℕ, x = a + k * s := by
    intro x
    constructor
    · rintro ⟨k, rfl⟩
      exact ⟨by linarith [hk k], k + 1, by push_cast; ring⟩
    · rintro ⟨h1, k, rfl⟩
      cases k with
      | zero => simp at h1
      | succ k => exact ⟨k, by push_cast; ring⟩
  have hpw : ∀ v, (upLoop s b hs v ++ [b]).Pairwise (· < ·) := by
    intro v
    rw [List.pairwise_append]
    refine ⟨upLoop_pairwise _ _ _ _, List.pairwise_singleton _ _, ?_⟩
    intro x hx y hy
    rw [List.mem_singleton] at hy
    exact hy ▸ ((mem_upLoop _ _ _ _ _).1 hx).1
  rcases h with ⟨ht, hle⟩ | ⟨ht1, ht2, hlt⟩
  · simp only at ht
    subst ht
    refine ⟨_, by simp [generateArrayWithStep, isDefined, hs]; rfl, hpw _, ?_⟩
    intro x
    simp only [List.mem_append, mem_upLoop, List.mem_singleton, pts, Set.mem_Icc]
    constructor
    · rintro (⟨h1, k, rfl⟩ | rfl)
      · exact ⟨⟨by linarith [hk k], h1.le⟩, Or.inr ⟨k, rfl⟩⟩
      · exact ⟨⟨hle, le_rfl⟩, Or.inl rfl⟩
    · rintro ⟨⟨h1, h2⟩, rfl | h3⟩
      · exact Or.inr rfl
      · rcases h2.lt_or_eq with h4 | h4
        · exact Or.inl ⟨h4, h3⟩
        · exact Or.inr h4
  · simp only at ht1 ht2 hlt
    cases t with
    | undefined => exact absurd rfl ht2
    | closed => exact absurd rfl ht1
    | opened =>
      refine ⟨_, by simp [generateArrayWithStep, isDefined, hs]; rfl, upLoop_pairwise _ _ _ _, ?_⟩
      intro x
      rw [mem_upLoop, hsh]
      simp only [pts, Set.mem_Ioo]
      constructor
      · rintro ⟨h1, h2, h3⟩; exact ⟨⟨h2, h1⟩, Or.inr h3⟩
      · rintro ⟨⟨h1, h2⟩, rfl | h3⟩
        · exact absurd h2 (lt_irrefl _)
        · exact ⟨h2, h1, h3⟩
    | halfOpenLeft =>
      refine ⟨_, by simp [generateArrayWithStep, isDefined, hs]; rfl, hpw _, ?_⟩
      intro x
      simp only [List.mem_append, mem_upLoop, List.mem_singleton, pts, Set.mem_Ioc, hsh]
      constructor
      · rintro (⟨h1, h2, h3⟩ | rfl)
        · exact ⟨⟨h2, h1.le⟩, Or.inr h3⟩
        · exact ⟨⟨hlt, le_rfl⟩, Or.inl rfl⟩
      · rintro ⟨⟨h1, h2⟩, rfl | h3⟩
        · exact Or.inr rfl
        · rcases h2.lt_or_eq with h4 | h4
          · exact Or.inl ⟨h4, h1, h3⟩
          · exact Or.inr h4
    | halfOpenRight =>
      refine ⟨_, by simp [generateArrayWithStep, isDefined, hs]; rfl, upLoop_pairwise _ _ _ _, ?_⟩
      intro x
      rw [mem_upLoop]
      simp only [pts, Set.mem_Ico]
      constructor
      · rintro ⟨h1, k, rfl⟩; exact ⟨⟨by linarith [hk k], h1⟩, Or.inr ⟨k, rfl⟩⟩
      · rintro ⟨⟨h1, h2⟩, rfl | h3⟩
        · exact absurd h2 (lt_irrefl _)
        · exact ⟨h2, h3⟩

/-- **C14.** Negative step: the grid is strictly decreasing and its elements are exactly the values of the interval that are a
whole number of steps below the upper bound, or equal to the lower bound. -/
theorem C14_grid_down (t : IType) (a b s : K) (hI : Valid (⟨t, some a, some b⟩ : Interval K)) (hs : s < 0) :
    ∃ r, (⟨t, some a, some b⟩ : Interval K).generateArrayWithStep (some s) = .ok r ∧ r.Pairwise (· > ·) ∧
      ∀ x, x ∈ r ↔ x ∈ pts ⟨t, some a, some b⟩ ∧ (x = a ∨ ∃ k : ℕ, x = b + k * s) := by
  obtain ⟨a', b', ha, hb, h⟩ := hI
  simp only [Option.some.injEq] at ha hb
  subst ha hb
  have hs' : ¬ (0 < s) := not_lt.2 hs.le
  have hk : ∀ k : ℕ, (k : K) * s ≤ 0 := fun k => mul_nonpos_of_nonneg_of_nonpos (Nat.cast_nonneg k) hs.le
  have hsh : ∀ x : K, (∃ k : ℕ, x = b + s + k * s) ↔ x < b ∧ ∃ k : ℕ, x = b + k * s := by
    intro x
    constructor
    · rintro ⟨k, rfl⟩
      exact ⟨by linarith [hk k], k + 1, by push_cast; ring⟩
    · rintro ⟨h1, k, rfl⟩
      cases k with
      | zero => simp at h1
      | succ k => exact ⟨k, by push_cast; ring⟩
  have hpw : ∀ v, (downLoop s a hs v ++ [a]).Pairwise (· > ·) := by
    intro v
    rw [List.pairwise_append]
    refine ⟨downLoop_pairwise _ _ _ _, List.pairwise_singleton _ _, ?_⟩
    intro x hx y hy
    rw [List.mem_singleton] at hy
    exact hy ▸ ((mem_downLoop _ _ _ _ _).1 hx).1
  rcases h with ⟨ht, hle⟩ | ⟨ht1, ht2, hlt⟩
  · simp only at ht
    subst ht
    refine ⟨_, by simp [generateArrayWithStep, isDefined, hs, hs']; rfl, hpw _, ?_⟩
    intro x
    simp only [List.mem_append, mem_downLoop, List.mem_singleton, pts, Set.mem_Icc]
    constructor
    · rintro (⟨h1, k, rfl⟩ | rfl)
      · exact ⟨⟨h1.le, by linarith [hk k]⟩, Or.inr ⟨k, rfl⟩⟩
      · exact ⟨⟨le_rfl, hle⟩, Or.inl rfl⟩
    · rintro ⟨⟨h1, h2⟩, rfl | h3⟩
      · exact Or.inr rfl
      · rcases h1.lt_or_eq with h4 | h4
        · exact Or.inl ⟨h4, h3⟩
        · exact Or.inr h4.symm
  · simp only at ht1 ht2 hlt
    cases t with
    | undefined => exact absurd rfl ht2
    | closed => exact absurd rfl ht1
    | opened =>
      refine ⟨_, by simp [generateArrayWithStep, isDefined, hs, hs']; rfl, downLoop_pairwise _ _ _ _, ?_⟩
      intro x
      rw [mem_downLoop, hsh]
      simp only [pts, Set.mem_Ioo]
      constructor
      · rintro ⟨h1, h2, h3⟩; exact ⟨⟨h1, h2⟩, Or.inr h3⟩
      · rintro ⟨⟨h1, h2⟩, rfl | h3⟩
        · exact absurd h1 (lt_irrefl _)
        · exact ⟨h1, h2, h3⟩
    | halfOpenRight =>
      refine ⟨_, by simp [generateArrayWithStep, isDefined, hs, hs']; rfl, hpw _, ?_⟩
      intro x
      simp only [List.mem_append, mem_downLoop, List.mem_singleton, pts, Set.mem_Ico, hsh]
      constructor
      · rintro (⟨h1, h2, h3⟩ | rfl)
        · exact ⟨⟨h1.le, h2⟩, Or.inr h3⟩
        · exact ⟨⟨le_rfl, hlt⟩, Or.inl rfl⟩
      · rintro ⟨⟨h1, h2⟩, rfl | h3⟩
        · exact Or.inr rfl
        · rcases h1.lt_or_eq with h4 | h4
          · exact Or.inl ⟨h4, h2, h3⟩
          · exact Or.inr h4.symm
    | halfOpenLeft =>
      refine ⟨_, by simp [generateArrayWithStep, isDefined, hs, hs']; rfl, downLoop_pairwise _ _ _ _, ?_⟩
      intro x
      rw [mem_downLoop]
      simp only [pts, Set.mem_Ioc]
      constructor
      · rintro ⟨h1, k, rfl⟩; exact ⟨⟨h1, by linarith [hk k]⟩, Or.inr ⟨k, rfl⟩⟩
      · rintro ⟨⟨h1, h2⟩, rfl | h3⟩
        · exact absurd h1 (lt_irrefl _)
        · exact ⟨h1, h3⟩

example : Valid (⟨.halfOpenLeft, some 0, some 1⟩ : Interval ℚ) :=
  ⟨0, 1, rfl, rfl, Or.inr ⟨by decide, by decide, by norm_num⟩⟩

/-- **C14.** Consecutive grid values never differ by more than the step, and by exactly the step except possibly before the
last value. -/
theorem C14_grid_spacing (I : Interval K) (s : K) (r : List K) (h : I.generateArrayWithStep (some s) = .ok r) :
    r.IsChain (fun x y => |y - x| ≤ |s|) ∧ r.dropLast.IsChain (fun x y => y = x + s) := by
  have up : ∀ (a b v : K) (hs : 0 < s) (e : List K), e = [] ∨ e = [b] →
      (upLoop s b hs v ++ e).IsChain (fun x y => |y - x| ≤ |s|) ∧ (upLoop s b hs v ++ e).dropLast.IsChain (fun x y => y = x + s) := by
    intro a b v hs e he
    have hc := upLoop_chain s b hs v
    have hc' : (upLoop s b hs v).IsChain (fun x y => |y - x| ≤ |s|) := by
      refine hc.imp ?_
      intro x y hxy; rw [hxy]; simp
    rcases he with rfl | rfl
    · rw [List.append_nil]
      exact ⟨hc', hc.dropLast⟩
    · rw [List.dropLast_concat]
      refine ⟨?_, hc⟩
      rw [List.isChain_append]
      refine ⟨hc', List.IsChain.singleton _, ?_⟩
      intro x hx y hy
      simp only [List.head?_cons, Option.mem_def, Option.some.injEq] at hx hy
      subst hy
      have h1 := upLoop_last s b hs v x hx
      have h2 := ((mem_upLoop _ _ _ _ _).1 (List.mem_of_getLast? hx)).1
      rw [abs_of_pos (by linarith), abs_of_pos hs]
      linarith
  have down : ∀ (a b v : K) (hs : s < 0) (e : List K), e = [] ∨ e = [a] →
      (downLoop s a hs v ++ e).IsChain (fun x y => |y - x| ≤ |s|) ∧ (downLoop s a hs v ++ e).dropLast.IsChain (fun x y => y = x + s) := by
    intro a b v hs e he
    have hc := downLoop_chain s a hs v
    have hc' : (downLoop s a hs v).IsChain (fun x y => |y - x| ≤ |s|) := by
      refine hc.imp ?_
      intro x y hxy; rw [hxy]; simp
    rcases he with rfl | rfl
    · rw [List.append_nil]
      exact ⟨hc', hc.dropLast⟩
    · rw [List.dropLast_concat]
      refine ⟨?_, hc⟩
      rw [List.isChain_append]
      refine ⟨hc', List.IsChain.singleton _, ?_⟩
      intro x hx y hy
      simp only [List.head?_cons, Option.mem_def, Option.some.injEq] at hx hy
      subst hy
      have h1 := downLoop_last s a hs v x hx
      have h2 := ((mem_downLoop _ _ _ _ _).1 (List.mem_of_getLast? hx)).1
      rw [abs_of_neg (by linarith), abs_of_neg hs]
      linarith
  obtain ⟨t, l, u⟩ := I
  cases hd : (⟨t, l, u⟩ : Interval K).isDefined
  · simp [generateArrayWithStep, hd] at h
  simp only [generateArrayWithStep, hd, Bool.not_true, Bool.false_eq_true, if_false] at h
  cases l with
  | none => cases h
  | some a =>
    cases u with
    | none => cases h
    | some b =>
      simp only at h
      by_cases hp : 0 < s
      · rw [dif_pos hp] at h
        simp only [Except.ok.injEq] at h
        rw [← h]
        apply up a
        split_ifs <;> simp
      · rw [dif_neg hp] at h
        by_cases hn : s < 0
        · rw [dif_pos hn] at h
          simp only [Except.ok.injEq] at h
          rw [← h]
          apply down a b
          split_ifs <;> simp
        · rw [dif_neg hn] at h; cases h

/-- **C14.** It throws exactly on an undefined interval, an undefined step or a zero step (the latter `RuntimeError`). -/
theorem C14_grid_throws (I : Interval K) (step : Option K) :
    ((∃ e, I.generateArrayWithStep step = .error e) ↔ I.isDefined = false ∨ step = none ∨ step = some 0) ∧
    (I.isDefined = true → I.generateArrayWithStep (some 0) = .error .runtimeError) := by
  obtain ⟨t, l, u⟩ := I
  cases hd : (⟨t, l, u⟩ : Interval K).isDefined with
  | false => simp [generateArrayWithStep, hd]
  | true =>
    obtain ⟨a, rfl⟩ : ∃ a, l = some a := by cases l <;> simp [isDefined] at hd; exact ⟨_, rfl⟩
    obtain ⟨b, rfl⟩ : ∃ b, u = some b := by cases u <;> simp [isDefined] at hd; exact ⟨_, rfl⟩
    refine ⟨?_, fun _ => by simp [generateArrayWithStep, hd]⟩
    cases step with
    | none => simp [generateArrayWithStep, hd]
    | some s =>
      rcases lt_trichotomy s 0 with h | h | h
      · simp [generateArrayWithStep, hd, h, not_lt.2 h.le, h.ne]
      · simp [generateArrayWithStep, hd, h]
      · simp [generateArrayWithStep, hd, h, h.ne']

/-- **C15.** Exactly `n` values in arithmetic progression; the first is the lower bound, or one spacing above it if the interval
excludes it; the last is the upper bound, or one spacing below it if excluded. -/
theorem C15_array_with_size (t : IType) (a b : K) (hI : Valid (⟨t, some a, some b⟩ : Interval K)) (n : ℕ) (hn : 2 ≤ n) :
    ∃ r s, (⟨t, some a, some b⟩ : Interval K).generateArrayWithSize n = .ok r ∧ r.length = n ∧ 0 ≤ s ∧ (a < b → 0 < s) ∧
      (∀ i < n, r[i]? = some (r.headD 0 + i * s)) ∧
      (a ∈ pts ⟨t, some a, some b⟩ → r[0]? = some a) ∧ (a ∉ pts ⟨t, some a, some b⟩ → r[0]? = some (a + s)) ∧
      (b ∈ pts ⟨t, some a, some b⟩ → r[n - 1]? = some b) ∧ (b ∉ pts ⟨t, some a, some b⟩ → r[n - 1]? = some (b - s)) := by
  obtain ⟨a', b', ha, hb, h⟩ := hI
  simp only [Option.some.injEq] at ha hb
  subst ha hb
  have hlt2 : ¬ n < 2 := not_lt.2 hn
  obtain ⟨m, rfl⟩ : ∃ m, n = m + 2 := ⟨n - 2, by omega⟩
  have hm : (0 : K) ≤ m := Nat.cast_nonneg m
  suffices main : ∃ s v : K, 0 ≤ s ∧ (a < b → 0 < s) ∧ (⟨t, some a, some b⟩ : Interval K).generateArrayWithSize (m + 2) =
      .ok (fill s (m + 2) v) ∧ (a ∈ pts ⟨t, some a, some b⟩ → v = a) ∧ (a ∉ pts ⟨t, some a, some b⟩ → v = a + s) ∧
      (b ∈ pts ⟨t, some a, some b⟩ → v + (m + 1) * s = b) ∧ (b ∉ pts ⟨t, some a, some b⟩ → v + (m + 1) * s = b - s) by
    obtain ⟨s, v, h1, h2, h3, h4, h5, h6, h7⟩ := main
    refine ⟨fill s (m + 2) v, s, h3, fill_length _ _ _, h1, h2, ?_, ?_, ?_, ?_, ?_⟩
    · intro i hi
      exact fill_get s (m + 2) v i hi
    · intro h; rw [← h4 h]; rfl
    · intro h; rw [← h5 h]; rfl
    · intro h; rw [← h6 h, fill_get _ _ _ _ (by omega)]; push_cast; rfl
    · intro h; rw [← h7 h, fill_get _ _ _ _ (by omega)]; push_cast; rfl
  rcases h with ⟨ht, hle⟩ | ⟨ht1, ht2, hlt⟩
  · simp only at ht
    subst ht
    have hb : 0 ≤ b - a := sub_nonneg.2 hle
    refine ⟨((b - a) / (m + 1)), a, by positivity, fun h => div_pos (sub_pos.2 h) (by positivity),
      by simp [generateArrayWithSize], fun _ => rfl, ?_, ?_, ?_⟩
    · intro h; exact absurd ⟨le_rfl, hle⟩ h
    · intro _; field_simp; ring
    · intro h; exact absurd ⟨hle, le_rfl⟩ h
  · simp only at ht1 ht2 hlt
    have hb : 0 < b - a := sub_pos.2 hlt
    cases t with
    | undefined => exact absurd rfl ht2
    | closed => exact absurd rfl ht1
    | opened =>
      refine ⟨((b - a) / (m + 3)), (a + (b - a) / (m + 3)), by positivity, fun h => by positivity,
        by simp [generateArrayWithSize]; norm_num [add_assoc], ?_, fun _ => rfl, ?_, ?_⟩
      · intro h; exact absurd h.1 (lt_irrefl _)
      · intro h; exact absurd h.2 (lt_irrefl _)
      · intro _; field_simp; ring
    | halfOpenLeft =>
      refine ⟨((b - a) / (m + 2)), (a + (b - a) / (m + 2)), by positivity, fun h => by positivity,
        by simp [generateArrayWithSize], ?_, fun _ => rfl, ?_, ?_⟩
      · intro h; exact absurd h.1 (lt_irrefl _)
      · intro _; field_simp; ring
      · intro h; exact absurd ⟨hlt, le_rfl⟩ h
    | halfOpenRight =>
      refine ⟨((b - a) / (m + 2)), a, by positivity, fun h => by positivity,
        by simp [generateArrayWithSize], fun _ => rfl, ?_, ?_, ?_⟩
      · intro h; exact absurd ⟨le_rfl, hlt⟩ h
      · intro h; exact absurd h.2 (lt_irrefl _)
      · intro _; field_simp; ring

/-- **C15.** Every generated value belongs to the interval. -/
theorem C15_array_in_interval (t : IType) (a b : K) (hI : Valid (⟨t, some a, some b⟩ : Interval K)) (n : ℕ) (r : List K)
    (h : (⟨t, some a, some b⟩ : Interval K).generateArrayWithSize n = .ok r) :
    (∀ x ∈ r, x ∈ pts ⟨t, some a, some b⟩) ∧ (a ∈ pts ⟨t, some a, some b⟩ → a ∈ r) ∧ (b ∈ pts ⟨t, some a, some b⟩ → b ∈ r) := by
  have hn : 2 ≤ n := by
    by_contra hlt
    simp [generateArrayWithSize, not_le.1 hlt] at h
  obtain ⟨r', s, h1, h2, h3, h4, h5, h6, h7, h8, h9⟩ := C15_array_with_size t a b hI n hn
  rw [h] at h1
  simp only [Except.ok.injEq] at h1
  subst h1
  refine ⟨?_, fun ha => List.mem_of_getElem? (h6 ha), fun hb => List.mem_of_getElem? (h8 hb)⟩
  intro x hx
  obtain ⟨i, hi, rfl⟩ := List.mem_iff_getElem.1 hx
  have e1 := h5 i (by omega)
  have e0 := h5 0 (by omega)
  have e2 := h5 (n - 1) (by omega)
  rw [List.getElem?_eq_getElem hi, Option.some.injEq] at e1
  rw [e1]
  have hi' : (i : K) ≤ ((n - 1 : ℕ) : K) := by exact_mod_cast (by omega : i ≤ n - 1)
  have hi0 : (0 : K) ≤ i := Nat.cast_nonneg i
  have p1 : 0 ≤ (i : K) * s := mul_nonneg hi0 h3
  have p2 : (i : K) * s ≤ ((n - 1 : ℕ) : K) * s := mul_le_mul_of_nonneg_right hi' h3
  obtain ⟨a', b', ha', hb', hv⟩ := hI
  simp only [Option.some.injEq] at ha' hb'
  subst ha' hb'
  rw [e0] at h6 h7
  rw [e2] at h8 h9
  simp only [Option.some.injEq, Nat.cast_zero, zero_mul, add_zero] at h6 h7 h8 h9
  rcases hv with ⟨ht, hle⟩ | ⟨ht1, ht2, hlt⟩
  · simp only at ht
    subst ht
    have ha := h6 ⟨le_rfl, hle⟩
    have hb := h8 ⟨hle, le_rfl⟩
    simp only [pts, Set.mem_Icc]
    constructor <;> linarith
  · simp only at ht1 ht2 hlt
    have hs := h4 hlt
    cases t with
    | undefined => exact absurd rfl ht2
    | closed => exact absurd rfl ht1
    | opened =>
      have ha := h7 (fun h => lt_irrefl _ h.1)
      have hb := h9 (fun h => lt_irrefl _ h.2)
      simp only [pts, Set.mem_Ioo]
      constructor <;> linarith
    | halfOpenLeft =>
      have ha := h7 (fun h => lt_irrefl _ h.1)
      have hb := h8 ⟨hlt, le_rfl⟩
      simp only [pts, Set.mem_Ioc]
      constructor <;> linarith
    | halfOpenRight =>
      have ha := h6 ⟨le_rfl, hlt⟩
      have hb := h9 (fun h => lt_irrefl _ h.2)
      simp only [pts, Set.mem_Ico]
      constructor <;> linarith

/-- Non-trivial case: `]0, 1]` with 4 values. -/
example : Valid (⟨.halfOpenLeft, some 0, some 1⟩ : Interval ℚ) ∧
    (⟨.halfOpenLeft, some 0, some 1⟩ : Interval ℚ).generateArrayWithSize 4 = .ok [1/4, 1/2, 3/4, 1] := by
  refine ⟨⟨0, 1, rfl, rfl, Or.inr ⟨by decide, by decide, by norm_num⟩⟩, ?_⟩
  simp [generateArrayWithSize, fill]
  norm_num

/-- **C15.** It throws `Wrong` for a size below 2, and throws on an undefined interval. -/
theorem C15_throws (I : Interval K) (n : ℕ) :
    (n < 2 → I.generateArrayWithSize n = .error .wrong) ∧
    (I.isDefined = false → ∃ e, I.generateArrayWithSize n = .error e) := by
  constructor
  · intro h; simp [generateArrayWithSize, h]
  · intro hd
    obtain ⟨t, l, u⟩ := I
    by_cases h : n < 2
    · exact ⟨.wrong, by simp [generateArrayWithSize, h]⟩
    · cases t <;> cases l <;> cases u <;>
        first
          | (simp [isDefined] at hd; done)
          | (refine ⟨.wrong, ?_⟩; simp [generateArrayWithSize, h]; done)
          | (refine ⟨.undefined, ?_⟩; simp [generateArrayWithSize, h]; done)

end Verif.Props
