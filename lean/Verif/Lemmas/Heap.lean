import Verif.Spec.Heap
import Mathlib.Tactic.Tauto
import Mathlib.Tactic.Push

/-! # Lemmas on composites in memory -/

namespace Verif.Spec

open Verif.Heap

variable {L : Type}

/-- what is stored elsewhere does not matter -/
theorem Holds.frame {h h' : Heap L} : ∀ {t : Forest L} {as : List ℕ} {F : Set ℕ}, Holds h t as F → (∀ x ∈ F, h'.cell x = h.cell x) → Holds h' t as F
  | .nil, _, _, H, _ => H
  | .leaf v r, as, F, ⟨a, as', G, h1, h2, h3, h4, h5⟩, e => by
    subst h5
    exact ⟨a, as', G, h1, by rw [e a (by simp)]; exact h2, h3.frame fun x hx => e x (by simp [hx]), h4, rfl⟩
  | .node d m r, as, F, ⟨a, as', bs, K, G, h1, h2, h3, h4, h5, h6, h7, h8⟩, e => by
    subst h8
    exact ⟨a, as', bs, K, G, h1, by rw [e a (by simp)]; exact h2, h3.frame fun x hx => e x (by simp [hx]), h4.frame fun x hx => e x (by simp [hx]), h5, h6, h7, rfl⟩

/-- the storage is in use -/
theorem Holds.live {h : Heap L} : ∀ {t : Forest L} {as : List ℕ} {F : Set ℕ}, Holds h t as F → ∀ x ∈ F, h.cell x ≠ none
  | .nil, _, _, ⟨_, h2⟩, x, hx => by subst h2; exact absurd hx (by simp)
  | .leaf v r, as, F, ⟨a, as', G, h1, h2, h3, h4, h5⟩, x, hx => by
    subst h5
    rcases hx with rfl | hx
    · rw [h2]; simp
    · exact h3.live x hx
  | .node d m r, as, F, ⟨a, as', bs, K, G, h1, h2, h3, h4, h5, h6, h7, h8⟩, x, hx => by
    subst h8
    rcases hx with rfl | hx | hx
    · rw [h2]; simp
    · exact h3.live x hx
    · exact h4.live x hx

theorem Holds.below {h : Heap L} {t : Forest L} {as : List ℕ} {F : Set ℕ} (H : Holds h t as F) (hf : Fresh h) : ∀ x ∈ F, x < h.next := by
  intro x hx
  by_contra hc
  exact H.live x hx (hf x (not_lt.1 hc))

/-- one list after another -/
theorem Holds.append {h : Heap L} : ∀ {t : Forest L} {as : List ℕ} {F : Set ℕ} {s : Forest L} {bs : List ℕ} {G : Set ℕ}, Holds h t as F → Holds h s bs G → Disjoint F G →
    Holds h (t.append s) (as ++ bs) (F ∪ G)
  | .nil, as, F, s, bs, G, ⟨h1, h2⟩, H, _ => by subst h1 h2; simpa [Forest.append] using H
  | .leaf v r, as, F, s, bs, G, ⟨a, as', F', h1, h2, h3, h4, h5⟩, H, hd => by
    subst h5 h1
    rw [Set.disjoint_insert_left] at hd
    refine ⟨a, as' ++ bs, F' ∪ G, rfl, h2, h3.append H hd.2, ?_, Set.insert_union⟩
    rintro (hx | hx)
    · exact h4 hx
    · exact hd.1 hx
  | .node d m r, as, F, s, bs, G, ⟨a, as', cs, K, F', h1, h2, h3, h4, h5, h6, h7, h8⟩, H, hd => by
    subst h8 h1
    rw [Set.disjoint_insert_left, Set.disjoint_union_left] at hd
    refine ⟨a, as' ++ bs, cs, K, F' ∪ G, rfl, h2, h3, h4.append H hd.2.2, h5, ?_, Set.disjoint_union_right.2 ⟨h7, hd.2.1⟩, ?_⟩
    · rintro (hx | hx)
      · exact h6 hx
      · exact hd.1 hx
    · rw [Set.insert_union, Set.union_assoc]

theorem fresh_alloc {h : Heap L} (hf : Fresh h) (c : Cell L) : Fresh (alloc h c).1 := by
  intro x hx
  have hx' : h.next + 1 ≤ x := hx
  simp only [alloc]
  rw [Function.update_of_ne (by omega)]
  exact hf x (by omega)

theorem fresh_write {h : Heap L} (hf : Fresh h) {a : ℕ} (ha : a < h.next) (c : Cell L) : Fresh (write h a c) := by
  intro x hx
  have hx' : h.next ≤ x := hx
  simp only [write]
  rw [Function.update_of_ne (by omega)]
  exact hf x hx'

/-- copies of a list of objects: new objects of the same worth, and nothing else changes -/
theorem cloneAll_ends (n : ℕ) : ∀ (t : Forest L) (h : Heap L) (as : List ℕ) (F : Set ℕ), t.depth ≤ n → Fresh h → Holds h t as F →
    ∃ h' bs G, cloneAll (clone n) h as = some (.ok (h', bs)) ∧ Holds h' t bs G ∧ (∀ x ∈ G, h.next ≤ x) ∧ (∀ x < h.next, h'.cell x = h.cell x) ∧ Fresh h' ∧ h.next ≤ h'.next ∧
      ∀ x, h.next ≤ x → h'.cell x ≠ none → x ∈ G := by
  induction n with
  | zero =>
    intro t h as F hn hf H
    cases t with
    | nil =>
      obtain ⟨rfl, rfl⟩ := H
      exact ⟨h, [], ∅, rfl, ⟨rfl, rfl⟩, by simp, fun _ _ => rfl, hf, le_rfl, fun x hx hc => absurd (hf x hx) hc⟩
    | leaf v r => simp [Forest.depth] at hn
    | node d m r => simp [Forest.depth] at hn
  | succ n ihn =>
    intro t
    induction t with
    | nil =>
      rintro h as F _ hf ⟨rfl, rfl⟩
      exact ⟨h, [], ∅, rfl, ⟨rfl, rfl⟩, by simp, fun _ _ => rfl, hf, le_rfl, fun x hx hc => absurd (hf x hx) hc⟩
    | leaf v r ih =>
      rintro h as F hn hf ⟨a, as', F', rfl, h2, h3, h4, rfl⟩
      have hb := h3.below hf
      have h3' : Holds (alloc h (.leaf v)).1 r as' F' := h3.frame fun x hx => by
        simp only [alloc]
        rw [Function.update_of_ne (by have := hb x hx; omega)]
      obtain ⟨h', bs, G, e1, e2, e3, e4, e5, e6, e7⟩ := ih _ as' F' (by simp only [Forest.depth] at hn; omega) (fresh_alloc hf _) h3'
      have e3' : ∀ x ∈ G, h.next + 1 ≤ x := e3
      have e4' : ∀ x < h.next + 1, h'.cell x = Function.update h.cell h.next (some (.leaf v)) x := e4
      have e6' : h.next + 1 ≤ h'.next := e6
      have e7' : ∀ x, h.next + 1 ≤ x → h'.cell x ≠ none → x ∈ G := e7
      refine ⟨h', h.next :: bs, insert h.next G, ?_, ⟨h.next, bs, G, rfl, ?_, e2, ?_, rfl⟩, ?_, ?_, e5, by omega, ?_⟩
      · unfold cloneAll clone
        simp only [h2]
        have : cloneAll (clone (n + 1)) (alloc h (.leaf v)).1 as' = some (.ok (h', bs)) := e1
        simp only [alloc] at this ⊢
        rw [this]
      · rw [e4' _ (by omega), Function.update_self]
      · intro hx
        have := e3' _ hx
        omega
      · rintro x (rfl | hx)
        · exact le_rfl
        · have := e3' x hx
          omega
      · intro x hx
        rw [e4' x (by omega), Function.update_of_ne (by omega)]
      · intro x hx hc
        rcases Nat.eq_or_lt_of_le hx with rfl | hx
        · exact Set.mem_insert _ _
        · exact Set.mem_insert_of_mem _ (e7' x hx hc)
    | node d m r ihm ihr =>
      rintro h as F hn hf ⟨a, as', ks, K, F', rfl, h2, h3, h4, h5, h6, h7, rfl⟩
      simp only [Forest.depth] at hn
      have hb := h4.below hf
      obtain ⟨h₁, cs, C, c1, c2, c3, c4, c5, c6, c7⟩ := ihn m h ks K (by omega) hf h3
      have hC := c2.below c5
      have h4' : Holds (alloc h₁ (.comp d cs)).1 r as' F' := h4.frame fun x hx => by
        have := hb x hx
        simp only [alloc]
        rw [Function.update_of_ne (by omega), c4 x this]
      obtain ⟨h', bs, G, e1, e2, e3, e4, e5, e6, e7⟩ := ihr _ as' F' (by omega) (fresh_alloc c5 _) h4'
      have e3' : ∀ x ∈ G, h₁.next + 1 ≤ x := e3
      have e4' : ∀ x < h₁.next + 1, h'.cell x = Function.update h₁.cell h₁.next (some (.comp d cs)) x := e4
      have e6' : h₁.next + 1 ≤ h'.next := e6
      have e7' : ∀ x, h₁.next + 1 ≤ x → h'.cell x ≠ none → x ∈ G := e7
      refine ⟨h', h₁.next :: bs, insert h₁.next (C ∪ G), ?_, ⟨h₁.next, bs, cs, C, G, rfl, ?_, ?_, e2, ?_, ?_, ?_, rfl⟩, ?_, ?_, e5, by omega, ?_⟩
      · have c1' : cloneAll (clone n) h ks = some (.ok (h₁, cs)) := c1
        have e1' : cloneAll (clone (n + 1)) (alloc h₁ (.comp d cs)).1 as' = some (.ok (h', bs)) := e1
        unfold cloneAll clone
        simp only [h2, c1']
        simp only [alloc] at e1' ⊢
        rw [e1']
      · rw [e4' _ (by omega), Function.update_self]
      · refine c2.frame fun x hx => ?_
        have := hC x hx
        rw [e4' x (by omega), Function.update_of_ne (by omega)]
      · intro hx
        have := hC _ hx
        omega
      · intro hx
        have := e3' _ hx
        omega
      · rw [Set.disjoint_left]
        intro x hx hx'
        have := hC x hx
        have := e3' x hx'
        omega
      · rintro x (rfl | hx | hx)
        · exact c6
        · exact c3 x hx
        · have := e3' x hx
          omega
      · intro x hx
        rw [e4' x (by omega), Function.update_of_ne (by omega), c4 x hx]
      · intro x hx hc
        by_cases h1 : x < h₁.next
        · rw [e4' x (by omega), Function.update_of_ne (by omega)] at hc
          exact Set.mem_insert_of_mem _ (Or.inl (c7 x hx hc))
        · rcases Nat.eq_or_lt_of_le (not_lt.1 h1) with rfl | h1
          · exact Set.mem_insert _ _
          · exact Set.mem_insert_of_mem _ (Or.inr (e7' x h1 hc))

/-- destroying a list of objects frees their storage and nothing else -/
theorem destroyAll_ends (n : ℕ) : ∀ (t : Forest L) (h : Heap L) (as : List ℕ) (F : Set ℕ), t.depth ≤ n → Holds h t as F →
    ∃ h', destroyAll (destroy n) h as = some (.ok h') ∧ (∀ x ∈ F, h'.cell x = none) ∧ (∀ x ∉ F, h'.cell x = h.cell x) ∧ h'.next = h.next := by
  induction n with
  | zero =>
    intro t h as F hn H
    cases t with
    | nil =>
      obtain ⟨rfl, rfl⟩ := H
      exact ⟨h, rfl, by simp, fun _ _ => rfl, rfl⟩
    | leaf v r => simp [Forest.depth] at hn
    | node d m r => simp [Forest.depth] at hn
  | succ n ihn =>
    intro t
    induction t with
    | nil =>
      rintro h as F _ ⟨rfl, rfl⟩
      exact ⟨h, rfl, by simp, fun _ _ => rfl, rfl⟩
    | leaf v r ih =>
      rintro h as F hn ⟨a, as', F', rfl, h2, h3, h4, rfl⟩
      have h3' : Holds (free h a) r as' F' := h3.frame fun x hx => by
        simp only [free]
        rw [Function.update_of_ne (ne_of_mem_of_not_mem hx h4)]
      obtain ⟨h', e1, e2, e3, e4⟩ := ih _ as' F' (by simp only [Forest.depth] at hn; omega) h3'
      refine ⟨h', ?_, ?_, ?_, e4⟩
      · unfold destroyAll destroy
        simp only [h2]
        exact e1
      · rintro x (rfl | hx)
        · rw [e3 x h4]
          simp [free]
        · exact e2 x hx
      · intro x hx
        rw [Set.mem_insert_iff, not_or] at hx
        rw [e3 x hx.2]
        simp only [free]
        rw [Function.update_of_ne hx.1]
    | node d m r ihm ihr =>
      rintro h as F hn ⟨a, as', ks, K, F', rfl, h2, h3, h4, h5, h6, h7, rfl⟩
      simp only [Forest.depth] at hn
      obtain ⟨h₁, c1, c2, c3, c4⟩ := ihn m h ks K (by omega) h3
      have hdis : ∀ x ∈ F', x ∉ K := fun x hx hx' => Set.disjoint_left.1 h7 hx' hx
      have h4' : Holds (free h₁ a) r as' F' := h4.frame fun x hx => by
        simp only [free]
        rw [Function.update_of_ne (ne_of_mem_of_not_mem hx h6), c3 x (hdis x hx)]
      obtain ⟨h', e1, e2, e3, e4⟩ := ihr _ as' F' (by omega) h4'
      refine ⟨h', ?_, ?_, ?_, e4.trans c4⟩
      · unfold destroyAll destroy
        simp only [h2, c1]
        exact e1
      · rintro x (rfl | hx | hx)
        · rw [e3 x h6]
          simp [free]
        · by_cases hx' : x ∈ F'
          · exact e2 x hx'
          · rw [e3 x hx']
            simp only [free]
            rw [Function.update_of_ne (ne_of_mem_of_not_mem hx h5), c2 x hx]
        · exact e2 x hx
      · intro x hx
        simp only [Set.mem_insert_iff, Set.mem_union, not_or] at hx
        rw [e3 x hx.2.2]
        simp only [free]
        rw [Function.update_of_ne hx.1, c3 x hx.2.1]

/-- `isDefined` over a list of objects -/
theorem allDefined_ends (ok : L → Bool) (h : Heap L) (n : ℕ) : ∀ (t : Forest L) (as : List ℕ) (F : Set ℕ), t.depth ≤ n → Holds h t as F →
    allDefined (isDefined ok h n) as = some (.ok (t.allOk ok)) := by
  induction n with
  | zero =>
    intro t as F hn H
    cases t with
    | nil => obtain ⟨rfl, rfl⟩ := H; rfl
    | leaf v r => simp [Forest.depth] at hn
    | node d m r => simp [Forest.depth] at hn
  | succ n ihn =>
    intro t
    induction t with
    | nil => rintro as F _ ⟨rfl, rfl⟩; rfl
    | leaf v r ih =>
      rintro as F hn ⟨a, as', F', rfl, h2, h3, h4, rfl⟩
      unfold allDefined isDefined
      simp only [h2, Forest.allOk]
      cases hv : ok v with
      | false => simp
      | true =>
        simp only [Bool.true_and]
        exact ih as' F' (by simp only [Forest.depth] at hn; omega) h3
    | node d m r ihm ihr =>
      rintro as F hn ⟨a, as', ks, K, F', rfl, h2, h3, h4, h5, h6, h7, rfl⟩
      simp only [Forest.depth] at hn
      unfold allDefined isDefined
      simp only [h2, Forest.allOk]
      cases d with
      | false => simp
      | true =>
        simp only [Bool.true_and, ihn m ks K (by omega) h3]
        cases hm : m.allOk ok with
        | false => simp
        | true =>
          simp only [Bool.true_and]
          exact ihr as' F' (by omega) h4

/-- one object is a list of one object -/
theorem clone_of_list {n : ℕ} {h h' : Heap L} {a : ℕ} {bs : List ℕ} (e : cloneAll (clone n) h [a] = some (.ok (h', bs))) : ∃ b, bs = [b] ∧ clone n h a = some (.ok (h', b)) := by
  unfold cloneAll at e
  rcases hc : clone n h a with _ | _ | ⟨h₁, b⟩
  · rw [hc] at e; simp at e
  · rw [hc] at e; simp at e
  · rw [hc] at e
    simp only [cloneAll, Option.some.injEq, Except.ok.injEq, Prod.mk.injEq] at e
    obtain ⟨rfl, rfl⟩ := e
    exact ⟨b, rfl, rfl⟩

theorem destroy_of_list {n : ℕ} {h h' : Heap L} {a : ℕ} (e : destroyAll (destroy n) h [a] = some (.ok h')) : destroy n h a = some (.ok h') := by
  unfold destroyAll at e
  rcases hc : destroy n h a with _ | _ | h₁
  · rw [hc] at e; simp at e
  · rw [hc] at e; simp at e
  · rw [hc] at e
    exact e

theorem isDefined_of_list {ok : L → Bool} {n : ℕ} {h : Heap L} {a : ℕ} {b : Bool} (e : allDefined (isDefined ok h n) [a] = some (.ok b)) : isDefined ok h n a = some (.ok b) := by
  unfold allDefined at e
  rcases hc : isDefined ok h n a with _ | _ | _ | _
  · rw [hc] at e; simp at e
  · rw [hc] at e; simp at e
  · rw [hc] at e; exact e
  · rw [hc] at e; exact e

/-- `applyTransformation` over a list of objects -/
theorem transformAll_ends (ok : L → Bool) (g : L → Res L) (n : ℕ) : ∀ (t : Forest L) (h : Heap L) (as : List ℕ) (F : Set ℕ), t.depth ≤ n → Holds h t as F →
    ∃ h', transformAll (transform ok g n) h as = some (h', (t.transform ok g).2) ∧ Holds h' (t.transform ok g).1 as F ∧ (∀ x ∉ F, h'.cell x = h.cell x) ∧ h'.next = h.next := by
  induction n with
  | zero =>
    intro t h as F hn H
    cases t with
    | nil =>
      obtain ⟨rfl, rfl⟩ := H
      exact ⟨h, rfl, ⟨rfl, rfl⟩, fun _ _ => rfl, rfl⟩
    | leaf v r => simp [Forest.depth] at hn
    | node d m r => simp [Forest.depth] at hn
  | succ n ihn =>
    intro t
    induction t with
    | nil =>
      rintro h as F _ ⟨rfl, rfl⟩
      exact ⟨h, rfl, ⟨rfl, rfl⟩, fun _ _ => rfl, rfl⟩
    | leaf v r ih =>
      rintro h as F hn ⟨a, as', F', rfl, h2, h3, h4, rfl⟩
      cases hg : g v with
      | error e =>
        have ht : (Forest.leaf v r).transform ok g = (.leaf v r, .error e) := by simp only [Forest.transform, hg]
        rw [ht]
        refine ⟨h, ?_, ⟨a, as', F', rfl, h2, h3, h4, rfl⟩, fun _ _ => rfl, rfl⟩
        unfold transformAll transform
        simp only [h2, hg]
      | ok w =>
        have ht : (Forest.leaf v r).transform ok g = (.leaf w (r.transform ok g).1, (r.transform ok g).2) := by simp only [Forest.transform, hg]
        rw [ht]
        have h3' : Holds (write h a (.leaf w)) r as' F' := h3.frame fun x hx => by
          simp only [write]
          rw [Function.update_of_ne (ne_of_mem_of_not_mem hx h4)]
        obtain ⟨h', e1, e2, e3, e4⟩ := ih _ as' F' (by simp only [Forest.depth] at hn; omega) h3'
        refine ⟨h', ?_, ⟨a, as', F', rfl, ?_, e2, h4, rfl⟩, ?_, e4⟩
        · unfold transformAll transform
          simp only [h2, hg]
          exact e1
        · rw [e3 a h4]
          simp [write]
        · intro x hx
          rw [Set.mem_insert_iff, not_or] at hx
          rw [e3 x hx.2]
          simp only [write]
          rw [Function.update_of_ne hx.1]
    | node d m r ihm ihr =>
      rintro h as F hn ⟨a, as', ks, K, F', rfl, h2, h3, h4, h5, h6, h7, rfl⟩
      simp only [Forest.depth] at hn
      have hone : Holds h (.node d m .nil) [a] (insert a (K ∪ ∅)) := ⟨a, [], ks, K, ∅, rfl, h2, h3, ⟨rfl, rfl⟩, h5, by simp, by simp, rfl⟩
      have hdef := isDefined_of_list (allDefined_ends ok h (n + 1) _ _ _ (by simp only [Forest.depth]; omega) hone)
      simp only [Forest.allOk, Bool.and_true] at hdef
      cases hdm : (d && m.allOk ok) with
      | false =>
        have ht : (Forest.node d m r).transform ok g = (.node d m r, .error .undefined) := by simp [Forest.transform, hdm]
        rw [ht]
        refine ⟨h, ?_, ⟨a, as', ks, K, F', rfl, h2, h3, h4, h5, h6, h7, rfl⟩, fun _ _ => rfl, rfl⟩
        unfold transformAll transform
        simp only [h2, hdef, hdm]
      | true =>
        obtain ⟨h₁, c1, c2, c3, c4⟩ := ihn m h ks K (by omega) h3
        have hdis : ∀ x ∈ F', x ∉ K := fun x hx hx' => Set.disjoint_left.1 h7 hx' hx
        have h4' : Holds h₁ r as' F' := h4.frame fun x hx => c3 x (hdis x hx)
        have ha : h₁.cell a = some (.comp d ks) := by rw [c3 a h5]; exact h2
        rcases hq : m.transform ok g with ⟨m', e | u⟩
        · have ht : (Forest.node d m r).transform ok g = (.node d m' r, .error e) := by simp [Forest.transform, hdm, hq]
          rw [hq] at c1 c2
          rw [ht]
          refine ⟨h₁, ?_, ⟨a, as', ks, K, F', rfl, ha, c2, h4', h5, h6, h7, rfl⟩, ?_, c4⟩
          · unfold transformAll transform
            simp only [h2, hdef, hdm, c1]
          · intro x hx
            simp only [Set.mem_insert_iff, Set.mem_union, not_or] at hx
            exact c3 x hx.2.1
        · have ht : (Forest.node d m r).transform ok g = (.node d m' (r.transform ok g).1, (r.transform ok g).2) := by simp [Forest.transform, hdm, hq]
          rw [hq] at c1 c2
          rw [ht]
          obtain ⟨h', e1, e2, e3, e4⟩ := ihr h₁ as' F' (by omega) h4'
          refine ⟨h', ?_, ⟨a, as', ks, K, F', rfl, ?_, ?_, e2, h5, h6, h7, rfl⟩, ?_, e4.trans c4⟩
          · unfold transformAll transform
            simp only [h2, hdef, hdm, c1]
            exact e1
          · rw [e3 a h6]; exact ha
          · refine c2.frame fun x hx => e3 x (fun hx' => hdis x hx' hx)
          · intro x hx
            simp only [Set.mem_insert_iff, Set.mem_union, not_or] at hx
            rw [e3 x hx.2.2, c3 x hx.2.1]

/-- if nothing that is defined refuses the transformation, everything is transformed -/
theorem transform_eq_map {ok : L → Bool} {g : L → Res L} {g' : L → L} (hg : ∀ v, ok v = true → g v = .ok (g' v)) :
    ∀ t : Forest L, t.allOk ok = true → t.transform ok g = (t.map g', .ok ())
  | .nil, _ => rfl
  | .leaf v r, h => by
    simp only [Forest.allOk, Bool.and_eq_true] at h
    simp only [Forest.transform, hg v h.1, transform_eq_map hg r h.2, Forest.map]
  | .node d m r, h => by
    simp only [Forest.allOk, Bool.and_eq_true] at h
    simp [Forest.transform, h.1.1, h.1.2, transform_eq_map hg m h.1.2, transform_eq_map hg r h.2, Forest.map]

theorem transform_of_list {ok : L → Bool} {g : L → Res L} {n : ℕ} {h h' : Heap L} {a : ℕ} {r : Res Unit} (e : transformAll (transform ok g n) h [a] = some (h', r)) :
    transform ok g n h a = some (h', r) := by
  unfold transformAll at e
  rcases hc : transform ok g n h a with _ | ⟨h₁, _ | _⟩
  · rw [hc] at e; simp at e
  · rw [hc] at e; exact e
  · rw [hc] at e; exact e

end Verif.Spec
