import Verif.Model.PlaneText
import Verif.Spec.PlaneText
import Mathlib.Data.List.Forall2

/-! # Texts that can be taken apart -/

namespace Verif.PlaneText

open Verif.Spec

variable {α : Type}

theorem split_at {c : Char} : ∀ {a b r s : List Char}, c ∉ a → c ∉ b → a ++ c :: r = b ++ c :: s → a = b ∧ r = s
  | [], [], _, _, _, _, h => ⟨rfl, by simpa using h⟩
  | [], d :: b, _, _, _, hb, h => by
    have h1 : c = d := (List.cons.inj h).1
    exact absurd (h1 ▸ List.mem_cons_self) hb
  | d :: a, [], _, _, ha, _, h => by
    have h1 : d = c := (List.cons.inj h).1
    exact absurd (h1 ▸ List.mem_cons_self) ha
  | d :: a, e :: b, _, _, ha, hb, h => by
    obtain ⟨h1, h2⟩ := List.cons.inj h
    obtain ⟨h3, h4⟩ := split_at (fun hc => ha (List.mem_cons_of_mem _ hc)) (fun hc => hb (List.mem_cons_of_mem _ hc)) h2
    exact ⟨by rw [h1, h3], h4⟩

/-- elements without the character that marks the separator can be taken apart -/
theorem join_inj {c : Char} {u v : List Char} (hu : c ∉ u) : ∀ {l m : List (List Char)},
    (∀ a ∈ l, c ∉ a ∧ a ≠ []) → (∀ a ∈ m, c ∉ a ∧ a ≠ []) → join (u ++ c :: v) l = join (u ++ c :: v) m → l = m
  | [], [], _, _, _ => rfl
  | [], [a], _, hm, h => absurd h.symm (hm a (by simp)).2
  | [], a :: b :: m, _, _, h => by simp [join] at h
  | [a], [], hl, _, h => absurd h (hl a (by simp)).2
  | a :: b :: l, [], _, _, h => by simp [join] at h
  | [a], [b], _, _, h => by simpa [join] using h
  | [a], b :: d :: m, hl, _, h => by
    have : c ∈ a := by
      have h' : a = b ++ (u ++ c :: v) ++ join (u ++ c :: v) (d :: m) := h
      rw [h']
      simp
    exact absurd this (hl a (by simp)).1
  | a :: b :: l, [d], _, hm, h => by
    have : c ∈ d := by
      have h' : a ++ (u ++ c :: v) ++ join (u ++ c :: v) (b :: l) = d := h
      rw [← h']
      simp
    exact absurd this (hm d (by simp)).1
  | a :: b :: l, d :: e :: m, hl, hm, h => by
    have h' : (a ++ u) ++ c :: (v ++ join (u ++ c :: v) (b :: l)) = (d ++ u) ++ c :: (v ++ join (u ++ c :: v) (e :: m)) := by
      simpa [join] using h
    have na : c ∉ a ++ u := by
      rw [List.mem_append]
      exact not_or.2 ⟨(hl a (by simp)).1, hu⟩
    have nd : c ∉ d ++ u := by
      rw [List.mem_append]
      exact not_or.2 ⟨(hm d (by simp)).1, hu⟩
    obtain ⟨h1, h2⟩ := split_at na nd h'
    rw [List.append_cancel_right h1, join_inj hu (fun x hx => hl x (List.mem_cons_of_mem _ hx))
      (fun x hx => hm x (List.mem_cons_of_mem _ hx)) (List.append_cancel_left h2)]

/-- elements that end with a character that they contain nowhere else can be taken apart -/
theorem join_closed_inj {c : Char} {v : List Char} (hv : v ≠ []) : ∀ {l m : List (List Char)},
    (∀ a ∈ l, c ∉ a) → (∀ a ∈ m, c ∉ a) → join v (l.map (· ++ [c])) = join v (m.map (· ++ [c])) → l = m
  | [], [], _, _, _ => rfl
  | [], [a], _, _, h => by simp [join] at h
  | [], a :: b :: m, _, _, h => by simp [join] at h
  | [a], [], _, _, h => by simp [join] at h
  | a :: b :: l, [], _, _, h => by simp [join] at h
  | [a], [b], _, _, h => by
    have h' : a ++ [c] = b ++ [c] := h
    rw [List.append_cancel_right h']
  | [a], b :: d :: m, hl, hm, h => by
    have h' : a ++ c :: [] = b ++ c :: (v ++ join v ((d :: m).map (· ++ [c]))) := by simpa [join] using h
    have := (split_at (hl a (by simp)) (hm b (by simp)) h').2
    simp [hv] at this
  | a :: b :: l, [d], hl, hm, h => by
    have h' : a ++ c :: (v ++ join v ((b :: l).map (· ++ [c]))) = d ++ c :: [] := by simpa [join] using h
    have := (split_at (hl a (by simp)) (hm d (by simp)) h').2
    simp [hv] at this
  | a :: b :: l, d :: e :: m, hl, hm, h => by
    have h' : a ++ c :: (v ++ join v ((b :: l).map (· ++ [c]))) = d ++ c :: (v ++ join v ((e :: m).map (· ++ [c]))) := by
      simpa [join] using h
    obtain ⟨h1, h2⟩ := split_at (hl a (by simp)) (hm d (by simp)) h'
    rw [h1, join_closed_inj hv (fun x hx => hl x (List.mem_cons_of_mem _ hx))
      (fun x hx => hm x (List.mem_cons_of_mem _ hx)) (List.append_cancel_left h2)]

theorem texts_ok {β : Type} {t : β → Res (List Char)} : ∀ {l : List β} {s : List (List Char)},
    texts t l = .ok s → List.Forall₂ (fun a b => t a = .ok b) l s
  | [], s, h => by
    simp only [texts, Except.ok.injEq] at h
    subst h
    exact .nil
  | a :: l, s, h => by
    unfold texts at h
    cases h1 : t a with
    | error e => simp [h1, bind, Except.bind] at h
    | ok b =>
      cases h2 : texts t l with
      | error e => simp [h1, h2, bind, Except.bind] at h
      | ok r =>
        simp only [h1, h2, bind, Except.bind, Except.ok.injEq] at h
        subst h
        exact .cons h1 (texts_ok h2)

theorem texts_error {β : Type} {t : β → Res (List Char)} {e : Err} (he : ∀ a e', t a = .error e' → e' = e) : ∀ l : List β,
    ((∃ a ∈ l, ∃ e', t a = .error e') → texts t l = .error e) ∧ ((∀ a ∈ l, ∃ s, t a = .ok s) → ∃ s, texts t l = .ok s)
  | [] => ⟨by simp, fun _ => ⟨[], rfl⟩⟩
  | a :: l => by
    obtain ⟨i1, i2⟩ := texts_error he l
    constructor
    · rintro ⟨b, hb, e', hbe⟩
      unfold texts
      cases h1 : t a with
      | error e'' => simp [bind, Except.bind, he a e'' h1]
      | ok s =>
        rcases List.mem_cons.1 hb with rfl | hb
        · rw [h1] at hbe
          cases hbe
        · simp [bind, Except.bind, i1 ⟨b, hb, e', hbe⟩]
    · intro h
      obtain ⟨s, hs⟩ := h a (by simp)
      obtain ⟨r, hr⟩ := i2 fun b hb => h b (by simp [hb])
      exact ⟨s :: r, by simp [texts, hs, hr, bind, Except.bind]⟩

theorem bare_not {num : α → List Char} (hb : Bare num) (x : α) {c : Char} (hc : c ∈ [' ', ',', '(', ')', '[', ']', '>']) : c ∉ num x :=
  fun h => hb x c h hc

/-- two numbers with a comma and a space between them -/
theorem pair_inj {num : α → List Char} {c : Char} {v : List Char} (hc : ∀ x, c ∉ num x) {p q : α × α} {s t : List Char}
    (h : num p.1 ++ (c :: v) ++ num p.2 ++ s = num q.1 ++ (c :: v) ++ num q.2 ++ t) (hst : s = t) : SamePoint num p q := by
  have h' : num p.1 ++ c :: (v ++ (num p.2 ++ s)) = num q.1 ++ c :: (v ++ (num q.2 ++ t)) := by simpa using h
  obtain ⟨h1, h2⟩ := split_at (hc _) (hc _) h'
  subst hst
  exact ⟨h1, List.append_cancel_right (List.append_cancel_left h2)⟩

end Verif.PlaneText
