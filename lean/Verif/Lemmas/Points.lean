import Verif.Model.Points
import Verif.Lemmas.Linear3
import Mathlib.Data.List.Perm.Basic
import Mathlib.Data.List.Perm.Subperm
import Mathlib.Data.List.Nodup

/-!
# Lemmas about loops over points
-/

namespace Verif

set_option linter.flexible false

theorem mapRes_ok {α β : Type} {f : α → Res β} {g : α → β} {l : List α} (h : ∀ a ∈ l, f a = .ok (g a)) : mapRes f l = .ok (l.map g) := by
  induction l with
  | nil => rfl
  | cons a l ih => simp [mapRes, h a (by simp), ih (fun b hb => h b (by simp [hb]))]

theorem mapRes_map {α β γ : Type} {f : α → Res β} (k : γ → α) (l : List γ) : mapRes f (l.map k) = mapRes (fun x => f (k x)) l := by
  induction l with
  | nil => rfl
  | cons a l ih => simp [mapRes, ih]

theorem minElement_spec {l : List ℝ} (h : l ≠ []) : ∃ m, minElement l = .ok m ∧ m ∈ l ∧ ∀ x ∈ l, m ≤ x := by
  cases l with
  | nil => exact absurd rfl h
  | cons a l =>
    clear h
    have key : ∀ (l : List ℝ) (a : ℝ), let m := l.foldl (fun m x => if x < m then x else m) a; (m = a ∨ m ∈ l) ∧ m ≤ a ∧ ∀ x ∈ l, m ≤ x := by
      intro l
      induction l with
      | nil => intro a; simp
      | cons b l ih =>
        intro a
        simp only [List.foldl_cons]
        obtain ⟨h1, h2, h3⟩ := ih (if b < a then b else a)
        refine ⟨?_, ?_, ?_⟩
        · rcases h1 with h1 | h1
          · rw [h1]
            split
            · right; simp
            · left; rfl
          · right; simp [h1]
        · refine h2.trans ?_
          split
          · exact le_of_lt (by assumption)
          · exact le_refl _
        · intro x hx
          rcases List.mem_cons.1 hx with rfl | hx
          · refine h2.trans ?_
            split
            · exact le_refl _
            · exact not_lt.1 (by assumption)
          · exact h3 x hx
    obtain ⟨h1, h2, h3⟩ := key l a
    refine ⟨_, rfl, ?_, ?_⟩
    · rcases h1 with h1 | h1
      · rw [h1]; simp
      · exact List.mem_cons_of_mem _ h1
    · intro x hx
      rcases List.mem_cons.1 hx with rfl | hx
      · exact h2
      · exact h3 x hx

namespace Points

variable {V : Type}

theorem closestLoop_spec {dist : Option V → Res ℝ} {g : V → ℝ} (h : ∀ q, dist (some q) = .ok (g q)) (qs : List V) :
    ∀ b : V, ∃ c, closestLoop dist (some (some b, g b)) (qs.map some) = .ok (some (some c, g c)) ∧ (c = b ∨ c ∈ qs) ∧ g c ≤ g b ∧
      ∀ x ∈ qs, g c ≤ g x := by
  induction qs with
  | nil => intro b; exact ⟨b, rfl, .inl rfl, le_refl _, by simp⟩
  | cons q qs ih =>
    intro b
    by_cases hlt : g q < g b
    · obtain ⟨c, h1, h2, h3, h4⟩ := ih q
      refine ⟨c, by simp [closestLoop, h, hlt, h1], ?_, h3.trans hlt.le, ?_⟩
      · right; rcases h2 with rfl | h2 <;> simp [*]
      · intro x hx
        rcases List.mem_cons.1 hx with rfl | hx
        · exact h3
        · exact h4 x hx
    · obtain ⟨c, h1, h2, h3, h4⟩ := ih b
      refine ⟨c, by simp [closestLoop, h, hlt, h1], ?_, h3, ?_⟩
      · rcases h2 with rfl | h2 <;> simp [*]
      · intro x hx
        rcases List.mem_cons.1 hx with rfl | hx
        · exact h3.trans (not_lt.1 hlt)
        · exact h4 x hx

theorem closest_spec {dist : Option V → Res ℝ} {g : V → ℝ} (h : ∀ q, dist (some q) = .ok (g q)) {qs : List V} (hq : qs ≠ []) :
    ∃ c, closest dist (qs.map some) = .ok (some c) ∧ c ∈ qs ∧ ∀ x ∈ qs, g c ≤ g x := by
  cases qs with
  | nil => exact absurd rfl hq
  | cons q qs =>
    obtain ⟨c, h1, h2, h3, h4⟩ := closestLoop_spec h qs q
    refine ⟨c, by simp [closest, closestLoop, h, h1], ?_, ?_⟩
    · rcases h2 with rfl | h2 <;> simp [*]
    · intro x hx
      rcases List.mem_cons.1 hx with rfl | hx
      · exact h3
      · exact h4 x hx

open Classical in
theorem takeNear_spec {near : Option V → Option V → Res Bool} {N : V → V → Prop} (h : ∀ p q, near (some p) (some q) = .ok (decide (N p q)))
    (p : V) (qs : List V) :
    (∃ q a b, qs = a ++ q :: b ∧ N p q ∧ takeNear near (some p) (qs.map some) = .ok (some ((a ++ b).map some))) ∨
    ((∀ q ∈ qs, ¬ N p q) ∧ takeNear near (some p) (qs.map some) = .ok none) := by
  induction qs with
  | nil => right; exact ⟨by simp, rfl⟩
  | cons q qs ih =>
    by_cases hn : N p q
    · left; exact ⟨q, [], qs, rfl, hn, by simp [takeNear, h, hn]⟩
    · rcases ih with ⟨r, a, b, h1, h2, h3⟩ | ⟨h1, h2⟩
      · left; exact ⟨r, q :: a, b, by simp [h1], h2, by simp [takeNear, h, hn, h3]⟩
      · right
        refine ⟨?_, by simp [takeNear, h, hn, h2]⟩
        intro r hr
        rcases List.mem_cons.1 hr with rfl | hr
        · exact hn
        · exact h1 r hr

/-- a one-to-one matching of two lists of the same size -/
def Matching (N : V → V → Prop) (ps qs : List V) : Prop := ∃ qs', qs'.Perm qs ∧ List.Forall₂ N ps qs'

open Classical in
theorem matchNear_spec {near : Option V → Option V → Res Bool} {N : V → V → Prop} (h : ∀ p q, near (some p) (some q) = .ok (decide (N p q)))
    (ps : List V) : ∀ qs : List V, ps.length = qs.length → ∃ r, matchNear near (ps.map some) (qs.map some) = .ok r ∧ (r = true → Matching N ps qs) ∧
      (qs.Nodup → (∀ p ∈ ps, ∀ q ∈ qs, ∀ q' ∈ qs, N p q → N p q' → q = q') → Matching N ps qs → r = true) := by
  induction ps with
  | nil =>
    intro qs hl
    have : qs = [] := List.eq_nil_of_length_eq_zero hl.symm
    subst this
    exact ⟨true, rfl, fun _ => ⟨[], List.Perm.refl _, .nil⟩, fun _ _ _ => rfl⟩
  | cons p ps ih =>
    intro qs hl
    rcases takeNear_spec h p qs with ⟨q, a, b, h1, h2, h3⟩ | ⟨h1, h2⟩
    · subst h1
      have hl' : ps.length = (a ++ b).length := by simp at hl ⊢; omega
      obtain ⟨r, hr, hs, hc⟩ := ih (a ++ b) hl'
      refine ⟨r, by rw [List.map_cons, matchNear, h3]; exact hr, ?_, ?_⟩
      · intro e
        obtain ⟨qs', hp, hf⟩ := hs e
        refine ⟨q :: qs', ?_, .cons h2 hf⟩
        exact (hp.cons q).trans List.perm_middle.symm
      · intro hn hu hm
        have hn' : (q :: (a ++ b)).Nodup := List.perm_middle.nodup_iff.1 hn
        refine hc (List.nodup_cons.1 hn').2 ?_ ?_
        · intro p' hp' x hx y hy
          refine hu p' (by simp [hp']) x ?_ y ?_
          · simp at hx ⊢; tauto
          · simp at hy ⊢; tauto
        · obtain ⟨qs', hp, hf⟩ := hm
          cases hf with
          | @cons _ q0 _ qs0 hpq hf =>
            have hq0 : q0 ∈ a ++ q :: b := hp.subset (by simp)
            have : q0 = q := hu p (by simp) q0 hq0 q (by simp) hpq h2
            subst this
            exact ⟨qs0, List.Perm.cons_inv (hp.trans List.perm_middle), hf⟩
    · refine ⟨false, by rw [List.map_cons, matchNear, h2], by simp, ?_⟩
      intro _ _ hm
      obtain ⟨qs', hp, hf⟩ := hm
      cases hf with
      | @cons _ q0 _ qs0 hpq hf => exact absurd hpq (h1 q0 (hp.subset (by simp)))

theorem zipNear_spec {near : Option V → Option V → Res Bool} {N : V → V → Prop} (h : ∀ p q, ∃ r, near (some p) (some q) = .ok r ∧ (r = true ↔ N p q))
    (ps : List V) : ∀ qs : List V, ps.length = qs.length → ∃ r, zipNear near (ps.map some) (qs.map some) = .ok r ∧
      (r = true ↔ List.Forall₂ N ps qs) := by
  induction ps with
  | nil =>
    intro qs hl
    have : qs = [] := List.eq_nil_of_length_eq_zero hl.symm
    subst this
    exact ⟨true, rfl, by simp⟩
  | cons p ps ih =>
    intro qs hl
    cases qs with
    | nil => simp at hl
    | cons q qs =>
      obtain ⟨r, hr, hr'⟩ := ih qs (by simpa using hl)
      obtain ⟨s, hs, hs'⟩ := h p q
      cases s with
      | true => exact ⟨r, by simp [zipNear, hs, hr], by rw [hr', List.forall₂_cons]; exact ⟨fun k => ⟨hs'.1 rfl, k⟩, fun k => k.2⟩⟩
      | false =>
        refine ⟨false, by simp [zipNear, hs], ?_⟩
        rw [List.forall₂_cons]
        constructor
        · intro k; cases k
        · intro k; exact absurd (hs'.2 k.1) (by simp)

theorem sameArray_spec {eq : Option V → Option V → Bool} (h : ∀ p q : V, eq (some p) (some q) = true ↔ p = q) (ps : List V) :
    ∀ qs : List V, sameArray eq (ps.map some) (qs.map some) = true ↔ ps = qs := by
  induction ps with
  | nil => intro qs; cases qs <;> simp [sameArray]
  | cons p ps ih =>
    intro qs
    cases qs with
    | nil => simp [sameArray]
    | cons q qs => simp [sameArray, h, ih]

theorem any_eq {eq : Option V → Option V → Bool} (h : ∀ p q : V, eq (some p) (some q) = true ↔ p = q) (p : V) (s : List V) :
    (s.map some).any (eq (some p)) = true ↔ p ∈ s := by
  simp [h]

theorem insertAll_spec {eq : Option V → Option V → Bool} (h : ∀ p q : V, eq (some p) (some q) = true ↔ p = q) (ps : List V) :
    ∀ s : List V, s.Nodup → ∃ r : List V, insertAll eq (s.map some) (ps.map some) = .ok (r.map some) ∧ r.Nodup ∧ ∀ x, x ∈ r ↔ x ∈ s ∨ x ∈ ps := by
  induction ps with
  | nil => intro s hs; exact ⟨s, rfl, hs, by simp⟩
  | cons p ps ih =>
    intro s hs
    have e : insertAll eq (s.map some) ((p :: ps).map some) =
        insertAll eq (if (s.map some).any (eq (some p)) then s.map some else s.map some ++ [some p]) (ps.map some) := rfl
    rw [e]
    by_cases hp : p ∈ s
    · rw [if_pos ((any_eq h p s).2 hp)]
      obtain ⟨r, h1, h2, h3⟩ := ih s hs
      refine ⟨r, h1, h2, fun x => ?_⟩
      rw [h3, List.mem_cons]
      constructor
      · rintro (k | k) <;> simp [k]
      · rintro (k | rfl | k) <;> simp [*]
    · rw [if_neg (fun k => hp ((any_eq h p s).1 k))]
      obtain ⟨r, h1, h2, h3⟩ := ih (s ++ [p]) (by
        rw [List.nodup_append]
        refine ⟨hs, by simp, ?_⟩
        intro a ha b hb
        rw [List.mem_singleton] at hb
        subst hb
        intro hab; subst hab; exact hp ha)
      refine ⟨r, by simpa using h1, h2, fun x => ?_⟩
      rw [h3]
      simp [or_assoc]

theorem insertAll_undefined {eq : Option V → Option V → Bool} (ps : List (Option V)) (h : none ∈ ps) :
    ∀ s, insertAll eq s ps = .error .undefined := by
  induction ps with
  | nil => cases h
  | cons p ps ih =>
    intro s
    cases p with
    | none => rfl
    | some p => exact ih (by simpa using h) _

theorem insertAll_nodup {eq : Option V → Option V → Bool} (h : ∀ p q : V, eq (some p) (some q) = true ↔ p = q) (ps : List V) :
    ∀ s : List V, (s ++ ps).Nodup → insertAll eq (s.map some) (ps.map some) = .ok ((s ++ ps).map some) := by
  induction ps with
  | nil => intro s _; simp [insertAll]
  | cons p ps ih =>
    intro s hs
    have hp : p ∉ s := by
      rw [List.nodup_append] at hs
      intro hp
      exact hs.2.2 p hp p (by simp) rfl
    have e : insertAll eq (s.map some) ((p :: ps).map some) =
        insertAll eq (if (s.map some).any (eq (some p)) then s.map some else s.map some ++ [some p]) (ps.map some) := rfl
    rw [e, if_neg (fun k => hp ((any_eq h p s).1 k))]
    have := ih (s ++ [p]) (by simpa using hs)
    simpa using this

theorem sameSet_spec {eq : Option V → Option V → Bool} (h : ∀ p q : V, eq (some p) (some q) = true ↔ p = q) {s t : List V} (hs : s.Nodup)
    (ht : t.Nodup) : sameSet eq (s.map some) (t.map some) = true ↔ ∀ x, x ∈ s ↔ x ∈ t := by
  have e : sameSet eq (s.map some) (t.map some) = true ↔ s.length = t.length ∧ s ⊆ t := by
    simp only [sameSet, Bool.and_eq_true, decide_eq_true_eq, List.length_map, List.all_eq_true]
    constructor
    · rintro ⟨a, b⟩
      exact ⟨a, fun x hx => (any_eq h x t).1 (b (some x) (List.mem_map_of_mem hx))⟩
    · rintro ⟨a, b⟩
      refine ⟨a, fun x hx => ?_⟩
      obtain ⟨y, hy, rfl⟩ := List.mem_map.1 hx
      exact (any_eq h y t).2 (b hy)
  rw [e]
  constructor
  · rintro ⟨a, b⟩ x
    have := (hs.subperm b).perm_of_length_le a.ge
    exact this.mem_iff
  · intro k
    exact ⟨((List.perm_ext_iff_of_nodup hs ht).2 k).length_eq, fun x hx => (k x).1 hx⟩

end Points

theorem P2.eq_iff {p q : V2} : P2.eq (some p) (some q) = true ↔ p = q := by
  simp [P2.eq, V2.ext_iff]

theorem P3.isNear_ok (p q : V3) (tol : ℝ) : ∃ r, P3.isNear (some p) (some q) (some tol) = .ok r ∧ (r = true ↔ (p - q).norm ≤ tol) :=
  ⟨_, rfl, by rw [decide_eq_true_eq]⟩

theorem P2.isNear_ok (p q : V2) (tol : ℝ) : ∃ r, P2.isNear (some p) (some q) (some tol) = .ok r ∧ (r = true ↔ (p - q).norm ≤ tol) :=
  ⟨_, rfl, by rw [decide_eq_true_eq]⟩

end Verif
