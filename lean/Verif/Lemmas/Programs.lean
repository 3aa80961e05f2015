import Verif.Spec.Programs
import Verif.Lemmas.Heap
import Verif.Props.Heap

/-!
# Lemmas on programs over composites
-/

namespace Verif.Heap

open Verif.Spec Verif.Props

variable {L : Type}

/-- a new variable whose storage is new -/
theorem represents_bind {st : State L} {s : Store L} (hR : Represents st s) {x : ℕ} (hx : s x = none) {h' : Heap L} {b : ℕ} {G : Set ℕ} {d : Bool} {m : Forest L}
    (hH : Holds h' (.node d m .nil) [b] G) (hnew : ∀ y ∈ G, st.heap.next ≤ y) (hold : ∀ y < st.heap.next, h'.cell y = st.heap.cell y) (hf : Fresh h')
    (hc : ∀ y, st.heap.next ≤ y → h'.cell y ≠ none → y ∈ G) : Represents (st.bind x (h', b)) (Function.update s x (some (d, m))) := by
  obtain ⟨F, h1, h2, h3, h4, h5⟩ := hR
  have hbelow : ∀ y z, z ∈ F y → z < st.heap.next := by
    intro y z hz
    rcases hs : s y with _ | ⟨d', m'⟩
    · rw [(h1 y hs).2] at hz; exact absurd hz (by simp)
    · obtain ⟨a, -, ha⟩ := h2 y d' m' hs
      exact ha.below h4 z hz
  refine ⟨Function.update F x G, ?_, ?_, ?_, hf, ?_⟩
  · intro y hy
    by_cases e : y = x
    · subst e; simp at hy
    · rw [Function.update_of_ne e] at hy
      rw [Function.update_of_ne e]
      simp only [State.bind]
      rw [Function.update_of_ne e]
      exact h1 y hy
  · intro y d' m' hy
    by_cases e : y = x
    · subst e
      simp only [Function.update_self, Option.some.injEq, Prod.mk.injEq] at hy
      obtain ⟨rfl, rfl⟩ := hy
      exact ⟨b, by simp [State.bind], by simpa [State.bind] using hH⟩
    · rw [Function.update_of_ne e] at hy
      obtain ⟨a, ha, hH'⟩ := h2 y d' m' hy
      refine ⟨a, by simp only [State.bind]; rw [Function.update_of_ne e]; exact ha, ?_⟩
      rw [Function.update_of_ne e]
      exact hH'.frame fun z hz => hold z (hbelow y z hz)
  · intro y z hyz
    have key : ∀ y, y ≠ x → Disjoint (F y) G := fun y _ => by
      rw [Set.disjoint_left]
      intro w hw hw'
      have := hbelow y w hw
      have := hnew w hw'
      omega
    by_cases e : y = x
    · subst e
      rw [Function.update_self, Function.update_of_ne (Ne.symm hyz)]
      exact (key z (Ne.symm hyz)).symm
    · rw [Function.update_of_ne e]
      by_cases e' : z = x
      · subst e'
        rw [Function.update_self]
        exact key y e
      · rw [Function.update_of_ne e']
        exact h3 y z hyz
  · intro a ha
    by_cases hlt : a < st.heap.next
    · have ha' : st.heap.cell a ≠ none := by rw [← hold a hlt]; exact ha
      obtain ⟨y, hy⟩ := h5 a ha'
      refine ⟨y, ?_⟩
      have e : y ≠ x := by
        rintro rfl
        rw [(h1 y hx).2] at hy
        exact absurd hy (by simp)
      rwa [Function.update_of_ne e]
    · exact ⟨x, by rw [Function.update_self]; exact hc a (not_lt.1 hlt) ha⟩

/-- a variable whose worth changes in place -/
theorem represents_change {st : State L} {s : Store L} {F : ℕ → Set ℕ}
    (h1 : ∀ x, s x = none → st.var x = none ∧ F x = ∅)
    (h2 : ∀ x d m, s x = some (d, m) → ∃ a, st.var x = some a ∧ Holds st.heap (.node d m .nil) [a] (F x))
    (h3 : ∀ x y, x ≠ y → Disjoint (F x) (F y)) (h4 : Fresh st.heap) (h5 : ∀ a, st.heap.cell a ≠ none → ∃ x, a ∈ F x)
    {x a : ℕ} (ha : st.var x = some a) {h' : Heap L} {G : Set ℕ} {d : Bool} {m : Forest L}
    (hH : Holds h' (.node d m .nil) [a] G) (hnew : ∀ y ∈ G, y ∈ F x ∨ st.heap.next ≤ y) (hold : ∀ y < st.heap.next, y ∉ F x → h'.cell y = st.heap.cell y)
    (hf : Fresh h') (hc : ∀ y, h'.cell y ≠ none → (y ∈ F x ∨ st.heap.next ≤ y) → y ∈ G) : Represents ⟨h', st.var⟩ (Function.update s x (some (d, m))) := by
  have hbelow : ∀ y z, z ∈ F y → z < st.heap.next := by
    intro y z hz
    rcases hs : s y with _ | ⟨d', m'⟩
    · rw [(h1 y hs).2] at hz; exact absurd hz (by simp)
    · obtain ⟨a, -, ha⟩ := h2 y d' m' hs
      exact ha.below h4 z hz
  refine ⟨Function.update F x G, ?_, ?_, ?_, hf, ?_⟩
  · intro y hy
    by_cases e : y = x
    · subst e; simp at hy
    · rw [Function.update_of_ne e] at hy
      rw [Function.update_of_ne e]
      exact h1 y hy
  · intro y d' m' hy
    by_cases e : y = x
    · subst e
      simp only [Function.update_self, Option.some.injEq, Prod.mk.injEq] at hy
      obtain ⟨rfl, rfl⟩ := hy
      exact ⟨a, ha, by simpa using hH⟩
    · rw [Function.update_of_ne e] at hy
      obtain ⟨a', ha', hH'⟩ := h2 y d' m' hy
      refine ⟨a', ha', ?_⟩
      rw [Function.update_of_ne e]
      exact hH'.frame fun z hz => hold z (hbelow y z hz) (Set.disjoint_left.1 (h3 y x e) hz)
  · intro y z hyz
    have key : ∀ y, y ≠ x → Disjoint (F y) G := fun y e => by
      rw [Set.disjoint_left]
      intro w hw hw'
      have := hbelow y w hw
      rcases hnew w hw' with h | h
      · exact Set.disjoint_left.1 (h3 y x e) hw h
      · omega
    by_cases e : y = x
    · subst e
      rw [Function.update_self, Function.update_of_ne (Ne.symm hyz)]
      exact (key z (Ne.symm hyz)).symm
    · rw [Function.update_of_ne e]
      by_cases e' : z = x
      · subst e'
        rw [Function.update_self]
        exact key y e
      · rw [Function.update_of_ne e']
        exact h3 y z hyz
  · intro b hb
    by_cases hin : b ∈ F x ∨ st.heap.next ≤ b
    · exact ⟨x, by rw [Function.update_self]; exact hc b hb hin⟩
    · rw [not_or, not_le] at hin
      have hb' : st.heap.cell b ≠ none := by rw [← hold b hin.2 hin.1]; exact hb
      obtain ⟨y, hy⟩ := h5 b hb'
      have e : y ≠ x := by
        rintro rfl
        exact hin.1 hy
      exact ⟨y, by rwa [Function.update_of_ne e]⟩

/-- the sum of two composites: a new composite -/
theorem plus_ends {h : Heap L} {m m' : Forest L} {a b n : ℕ} {F G : Set ℕ} (ok : L → Bool) (hn : m.depth < n) (hn' : m'.depth < n) (hf : Fresh h)
    (Ha : Holds h (.node true m .nil) [a] F) (Hb : Holds h (.node true m' .nil) [b] G) (ha : m.allOk ok = true) (hb : m'.allOk ok = true) :
    ∃ h' c K, plus ok n h a b = some (.ok (h', c)) ∧ Holds h' (.node true (m.append m') .nil) [c] K ∧ (∀ x ∈ K, h.next ≤ x) ∧ (∀ x < h.next, h'.cell x = h.cell x) ∧ Fresh h' ∧
      ∀ x, h.next ≤ x → h'.cell x ≠ none → x ∈ K := by
  have hda := isDefined_of_list (allDefined_ends ok h n _ _ _ (by simp only [Forest.depth]; omega) Ha)
  have hdb := isDefined_of_list (allDefined_ends ok h n _ _ _ (by simp only [Forest.depth]; omega) Hb)
  simp only [Forest.allOk, ha, hb, Bool.and_true] at hda hdb
  have hbG := Hb.below hf
  obtain ⟨as, A, a1, a2, a3, rfl⟩ := holds_node Ha
  obtain ⟨bs, B, b1, b2, b3, rfl⟩ := holds_node Hb
  obtain ⟨h₁, cs, C, c1, c2, c3, c4, c5, c6, c7⟩ := cloneAll_ends n m h as A (by omega) hf a2
  have b2' : Holds h₁ m' bs B := b2.frame fun x hx => c4 x (hbG x (Set.mem_insert_of_mem b hx))
  obtain ⟨h₂, ds, D, d1, d2, d3, d4, d5, d6, d7⟩ := cloneAll_ends n m' h₁ bs B (by omega) c5 b2'
  have hC := c2.below c5
  have hD := d2.below d5
  have hCD : Disjoint C D := by
    rw [Set.disjoint_left]
    intro x hx hx'
    have := hC x hx
    have := d3 x hx'
    omega
  have hN : h₂.next ∉ C ∪ D := by
    rintro (hx | hx)
    · have := hC _ hx; omega
    · have := hD _ hx; omega
  refine ⟨(alloc h₂ (.comp true (cs ++ ds))).1, h₂.next, insert h₂.next (C ∪ D), ?_, node_holds (as := cs ++ ds) ?_ ?_ hN, ?_, ?_, fresh_alloc d5 _, ?_⟩
  · have m1 : membersAt h a = .ok (true, as) := by simp [membersAt, a1]
    have m2 : membersAt h b = .ok (true, bs) := by simp [membersAt, b1]
    unfold plus
    simp only [hda, hdb, m1, m2, c1, d1]
    rfl
  · simp [alloc]
  · refine Holds.frame (h := h₂) (Holds.append (c2.frame fun x hx => d4 x (hC x hx)) d2 hCD) fun x hx => ?_
    simp only [alloc]
    rw [Function.update_of_ne (ne_of_mem_of_not_mem hx hN)]
  · rintro x (rfl | hx | hx)
    · omega
    · exact c3 x hx
    · have := d3 x hx
      omega
  · intro x hx
    simp only [alloc]
    rw [Function.update_of_ne (by omega), d4 x (by omega), c4 x hx]
  · intro x hx hc
    by_cases e : x = h₂.next
    · exact e ▸ Set.mem_insert _ _
    · simp only [alloc] at hc
      rw [Function.update_of_ne e] at hc
      refine Set.mem_insert_of_mem _ ?_
      by_cases hlt : x < h₁.next
      · rw [d4 x hlt] at hc
        exact Or.inl (c7 x hx hc)
      · exact Or.inr (d7 x (not_lt.1 hlt) hc)

theorem plus_undefined {h : Heap L} {d d' : Bool} {m m' : Forest L} {a b n : ℕ} {F G : Set ℕ} (ok : L → Bool) (hn : m.depth < n) (hn' : m'.depth < n)
    (Ha : Holds h (.node d m .nil) [a] F) (Hb : Holds h (.node d' m' .nil) [b] G) (hu : (d && m.allOk ok) = false ∨ (d' && m'.allOk ok) = false) :
    plus ok n h a b = some (.error .undefined) := by
  have hda := isDefined_of_list (allDefined_ends ok h n _ _ _ (by simp only [Forest.depth]; omega) Ha)
  have hdb := isDefined_of_list (allDefined_ends ok h n _ _ _ (by simp only [Forest.depth]; omega) Hb)
  simp only [Forest.allOk, Bool.and_true] at hda hdb
  unfold plus
  rw [hda, hdb]
  cases h1 : (d && m.allOk ok) <;> cases h2 : (d' && m'.allOk ok) <;> simp_all

/-- a transformation that is never undefined behaviour on plain objects is not on composites -/
theorem transform_tame {ok : L → Bool} {g : L → Res L} (hg : ∀ v, g v ≠ .error .ub) : ∀ t : Forest L, (t.transform ok g).2 ≠ .error .ub
  | .nil => by simp [Forest.transform]
  | .leaf v r => by
    rcases h : g v with e | w
    · simp only [Forest.transform, h]
      intro e'
      exact hg v (by rw [h]; exact congrArg Except.error (Except.error.inj e'))
    · simpa only [Forest.transform, h] using transform_tame hg r
  | .node d m r => by
    have hm := transform_tame (ok := ok) hg m
    have hr := transform_tame (ok := ok) hg r
    simp only [Forest.transform]
    split
    · rcases h : m.transform ok g with ⟨m', e | u⟩
      · rw [h] at hm
        simpa using hm
      · simpa using hr
    · simp

end Verif.Heap
