import Verif.Model.Interval

/-!
# A `Sorter` exists

Stable insertion sort. Used only to show that theorems over all `Sorter`s are not vacuous and to exhibit witnesses.
-/

namespace Verif

variable {β : Type}

def ins (lt : β → β → Bool) (x : β) : List β → List β
  | [] => [x]
  | y :: l => if lt y x then y :: ins lt x l else x :: y :: l

def insSort (lt : β → β → Bool) (l : List β) : List β := l.foldr (ins lt) []

theorem ins_perm (lt : β → β → Bool) (x : β) (l : List β) : (ins lt x l).Perm (x :: l) := by
  induction l with
  | nil => exact List.Perm.refl _
  | cons y l ih =>
    rw [ins]
    split_ifs
    · exact (List.Perm.cons y ih).trans (List.Perm.swap x y l)
    · exact List.Perm.refl _

theorem insSort_perm (lt : β → β → Bool) (l : List β) : (insSort lt l).Perm l := by
  induction l with
  | nil => exact List.Perm.refl _
  | cons y l ih => exact (ins_perm lt y (insSort lt l)).trans (ih.cons y)

theorem StrictWeakOn.negTrans {lt : β → β → Bool} {l : List β} (h : StrictWeakOn lt l) {x y z : β} (hx : x ∈ l)
    (hy : y ∈ l) (hz : z ∈ l) (h1 : lt z y = false) (h2 : lt y x = false) : lt z x = false := by
  by_contra hn
  rw [Bool.not_eq_false] at hn
  have h3 : lt x y = false := by
    by_contra h'; rw [Bool.not_eq_false] at h'
    rw [h.trans z hz x hx y hy hn h'] at h1; cases h1
  have h4 : lt y z = false := by
    by_contra h'; rw [Bool.not_eq_false] at h'
    rw [h.trans y hy z hz x hx h' hn] at h2; cases h2
  rw [(h.incomp x hx y hy z hz h3 h2 h4 h1).2] at hn
  cases hn

theorem StrictWeakOn.asymm {lt : β → β → Bool} {l : List β} (h : StrictWeakOn lt l) {x y : β} (hx : x ∈ l)
    (hy : y ∈ l) (h1 : lt x y = true) : lt y x = false := by
  by_contra hn
  rw [Bool.not_eq_false] at hn
  have := h.trans x hx y hy x hx h1 hn
  rw [h.irrefl x hx] at this
  cases this

theorem StrictWeakOn.mono {lt : β → β → Bool} {l m : List β} (h : StrictWeakOn lt l) (hm : ∀ x ∈ m, x ∈ l) :
    StrictWeakOn lt m where
  irrefl x hx := h.irrefl x (hm x hx)
  trans x hx y hy z hz := h.trans x (hm x hx) y (hm y hy) z (hm z hz)
  incomp x hx y hy z hz := h.incomp x (hm x hx) y (hm y hy) z (hm z hz)

theorem ins_sorted {lt : β → β → Bool} (x : β) (l : List β) (h : StrictWeakOn lt (x :: l))
    (hs : l.Pairwise (fun a b => lt b a = false)) : (ins lt x l).Pairwise (fun a b => lt b a = false) := by
  induction l with
  | nil => simp [ins]
  | cons y l ih =>
    rw [List.pairwise_cons] at hs
    rw [ins]
    split_ifs with hlt
    · rw [List.pairwise_cons]
      refine ⟨?_, ih (h.mono (by simp; tauto)) hs.2⟩
      intro z hz
      rcases List.mem_cons.1 ((ins_perm lt x l).mem_iff.1 hz) with rfl | hz
      · exact h.asymm (by simp) (by simp) hlt
      · exact hs.1 z hz
    · rw [List.pairwise_cons]
      rw [Bool.not_eq_true] at hlt
      refine ⟨?_, List.pairwise_cons.2 hs⟩
      intro z hz
      rcases List.mem_cons.1 hz with rfl | hz
      · exact hlt
      · exact h.negTrans (by simp) (y := y) (by simp) (by simp [hz]) (hs.1 z hz) hlt

theorem insSort_sorted {lt : β → β → Bool} (l : List β) (h : StrictWeakOn lt l) :
    (insSort lt l).Pairwise (fun a b => lt b a = false) := by
  induction l with
  | nil => simp [insSort]
  | cons y l ih =>
    refine ins_sorted y (insSort lt l) (h.mono ?_) (ih (h.mono (by simp; tauto)))
    intro x hx
    rcases List.mem_cons.1 hx with rfl | hx
    · simp
    · exact List.mem_cons_of_mem _ ((insSort_perm lt l).mem_iff.1 hx)

/-- Stable insertion sort is a `Sorter`. -/
def insertionSorter (β : Type) : Sorter β where
  sort := insSort
  perm lt l _ := insSort_perm lt l
  sorted _ l h := insSort_sorted l h

end Verif
