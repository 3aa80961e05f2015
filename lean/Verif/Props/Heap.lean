import Verif.Lemmas.Heap
import Mathlib.Tactic.NormNum

/-!
# Copies of composites and failed changes

C105 copies of composites, C106 transformations of composites that throw.
-/

namespace Verif.Props

open Verif Verif.Heap Verif.Spec

variable {L : Type}

/-! ## C105: copies share nothing with what they were copied from -/

/-- C105: a copy is worth the same, is stored elsewhere, nothing in memory changes, and nothing but the copy is new -/
theorem C105_copy {h : Heap L} {t : Forest L} {a n : ℕ} {F : Set ℕ} (hn : t.depth ≤ n) (hf : Fresh h) (H : Holds h t [a] F) :
    ∃ h' b G, clone n h a = some (.ok (h', b)) ∧ Holds h' t [b] G ∧ Holds h' t [a] F ∧ Disjoint F G ∧ (∀ x < h.next, h'.cell x = h.cell x) ∧ Fresh h' ∧
      (∀ x ∈ G, h.next ≤ x) ∧ ∀ x, h.next ≤ x → h'.cell x ≠ none → x ∈ G := by
  obtain ⟨h', bs, G, e1, e2, e3, e4, e5, -, e7⟩ := cloneAll_ends n t h [a] F hn hf H
  obtain ⟨b, rfl, e⟩ := clone_of_list e1
  have hb := H.below hf
  refine ⟨h', b, G, e, e2, H.frame fun x hx => e4 x (hb x hx), ?_, e4, e5, e3, e7⟩
  rw [Set.disjoint_left]
  intro x hx hx'
  have := hb x hx
  have := e3 x hx'
  omega

/-- C105: destroying one of two objects that share nothing frees its storage and leaves the other one -/
theorem C105_destroy {h : Heap L} {t s : Forest L} {a b n : ℕ} {F G : Set ℕ} (hn : s.depth ≤ n) (Ht : Holds h t [a] F) (Hs : Holds h s [b] G) (hd : Disjoint F G) :
    ∃ h', destroy n h b = some (.ok h') ∧ Holds h' t [a] F ∧ (∀ x ∈ G, h'.cell x = none) ∧ ∀ x ∉ G, h'.cell x = h.cell x := by
  obtain ⟨h', e1, e2, e3, -⟩ := destroyAll_ends n s h [b] G hn Hs
  exact ⟨h', destroy_of_list e1, Ht.frame fun x hx => e3 x fun hx' => Set.disjoint_left.1 hd hx hx', e2, e3⟩

/-- C105: changing one of two objects that share nothing, even if the change throws, leaves the other one -/
theorem C105_change {h : Heap L} {t s : Forest L} {a b n : ℕ} {F G : Set ℕ} (ok : L → Bool) (g : L → Res L) (hn : s.depth ≤ n) (Ht : Holds h t [a] F) (Hs : Holds h s [b] G)
    (hd : Disjoint F G) : ∃ h' r, transform ok g n h b = some (h', r) ∧ Holds h' t [a] F ∧ ∀ x ∉ G, h'.cell x = h.cell x := by
  obtain ⟨h', e1, e2, e3, -⟩ := transformAll_ends ok g n s h [b] G hn Hs
  exact ⟨h', _, transform_of_list e1, Ht.frame fun x hx => e3 x fun hx' => Set.disjoint_left.1 hd hx hx', e3⟩

/-- what a composite holds, taken apart -/
theorem holds_node {h : Heap L} {d : Bool} {m : Forest L} {a : ℕ} {F : Set ℕ} (H : Holds h (.node d m .nil) [a] F) :
    ∃ as K, h.cell a = some (.comp d as) ∧ Holds h m as K ∧ a ∉ K ∧ F = insert a K := by
  obtain ⟨a', as', as, K, G, h1, h2, h3, ⟨h4, h4'⟩, h5, -, -, h8⟩ := H
  obtain ⟨rfl, rfl⟩ := List.cons_eq_cons.1 h1
  subst h4'
  exact ⟨as, K, h2, h3, h5, by rw [h8, Set.union_empty]⟩

theorem node_holds {h : Heap L} {d : Bool} {m : Forest L} {a : ℕ} {as : List ℕ} {K : Set ℕ} (h1 : h.cell a = some (.comp d as)) (h2 : Holds h m as K) (h3 : a ∉ K) :
    Holds h (.node d m .nil) [a] (insert a K) :=
  ⟨a, [], as, K, ∅, rfl, h1, h2, ⟨rfl, rfl⟩, h3, by simp, by simp, by rw [Set.union_empty]⟩

/-- C105: assigning a composite to another one that shares nothing with it gives a copy of it, frees what was there and changes nothing else; nothing but the copy is new -/
theorem C105_assign_partial {h : Heap L} {d d' : Bool} {m m' : Forest L} {a b n : ℕ} {F G : Set ℕ} (hn : m.depth ≤ n) (hn' : m'.depth ≤ n) (hf : Fresh h)
    (Ha : Holds h (.node d m .nil) [a] F) (Hb : Holds h (.node d' m' .nil) [b] G) (hd : Disjoint F G) :
    ∃ h' F', assign n h a b = some (.ok h') ∧ Holds h' (.node d' m' .nil) [a] F' ∧ Holds h' (.node d' m' .nil) [b] G ∧ Disjoint F' G ∧
      (∀ x ∈ F, x ≠ a → h'.cell x = none) ∧ (∀ x < h.next, x ∉ F → h'.cell x = h.cell x) ∧ Fresh h' ∧
      (∀ x ∈ F', x = a ∨ h.next ≤ x) ∧ ∀ x, h.next ≤ x → h'.cell x ≠ none → x ∈ F' := by
  have hbF := Ha.below hf
  have hbG := Hb.below hf
  obtain ⟨as, K, a1, a2, a3, rfl⟩ := holds_node Ha
  obtain ⟨bs, K', b1, b2, b3, rfl⟩ := holds_node Hb
  have hab : a ≠ b := by
    rintro rfl
    exact Set.disjoint_left.1 hd (Set.mem_insert a K) (Set.mem_insert a K')
  have hG : ∀ x ∈ insert b K', x ∉ K ∧ x ≠ a := fun x hx =>
    ⟨fun hx' => Set.disjoint_left.1 hd (Set.mem_insert_of_mem a hx') hx, fun e => Set.disjoint_left.1 hd (e ▸ Set.mem_insert a K) hx⟩
  obtain ⟨h₁, e1, e2, e3, e4⟩ := destroyAll_ends n m h as K hn a2
  have hw : ∀ x ∈ insert b K', (write h₁ a (.comp d' [])).cell x = h.cell x := fun x hx => by
    simp only [write]
    rw [Function.update_of_ne (hG x hx).2, e3 x (hG x hx).1]
  have ha := hbF a (Set.mem_insert a K)
  have hf₁ : Fresh (write h₁ a (.comp d' [])) := by
    refine fresh_write (fun x hx => ?_) (by rw [e4]; exact ha) _
    rw [e4] at hx
    by_cases hxK : x ∈ K
    · exact e2 x hxK
    · rw [e3 x hxK]; exact hf x hx
  obtain ⟨h₂, cs, C, c1, c2, c3, c4, c5, c6, c7⟩ := cloneAll_ends n m' (write h₁ a (.comp d' [])) bs K' hn' hf₁ (b2.frame fun x hx => hw x (Set.mem_insert_of_mem b hx))
  have hnext : (write h₁ a (.comp d' [])).next = h.next := e4
  rw [hnext] at c3 c4 c6 c7
  have haC : a ∉ C := fun hx => by
    have := c3 a hx
    omega
  refine ⟨write h₂ a (.comp d' cs), insert a C, ?_, node_holds (as := cs) ?_ ?_ haC, ?_, ?_, ?_, ?_, ?_, ?_, ?_⟩
  · have m1 : membersAt h b = .ok (d', bs) := by simp [membersAt, b1]
    have m2 : membersAt h a = .ok (d, as) := by simp [membersAt, a1]
    have m3 : membersAt (write h₁ a (.comp d' [])) b = .ok (d', bs) := by
      simp only [membersAt, hw b (Set.mem_insert b K'), b1]
    unfold assign
    simp only [hab, if_false, m1, m2, e1, m3, c1]
  · simp [write]
  · refine c2.frame fun x hx => ?_
    simp only [write]
    rw [Function.update_of_ne (ne_of_mem_of_not_mem hx haC)]
  · refine Hb.frame fun x hx => ?_
    simp only [write]
    rw [Function.update_of_ne (hG x hx).2, c4 x (hbG x hx), hw x hx]
  · rw [Set.disjoint_left]
    rintro x (rfl | hx) hx'
    · exact (hG x hx').2 rfl
    · have := c3 x hx
      have := hbG x hx'
      omega
  · rintro x (rfl | hx) hxa
    · exact absurd rfl hxa
    · simp only [write]
      rw [Function.update_of_ne hxa, c4 x (hbF x (Set.mem_insert_of_mem a hx))]
      simp only [write]
      rw [Function.update_of_ne hxa, e2 x hx]
  · intro x hx hxF
    rw [Set.mem_insert_iff, not_or] at hxF
    simp only [write]
    rw [Function.update_of_ne hxF.1, c4 x hx]
    simp only [write]
    rw [Function.update_of_ne hxF.1, e3 x hxF.2]
  · exact fresh_write c5 (by omega) _
  · rintro x (rfl | hx)
    · exact Or.inl rfl
    · exact Or.inr (c3 x hx)
  · intro x hx hc
    simp only [write] at hc
    rw [Function.update_of_ne (by omega)] at hc
    exact Set.mem_insert_of_mem a (c7 x hx hc)

/-- C105: assigning a composite to itself changes nothing -/
theorem C105_assign_self (n : ℕ) (h : Heap L) (a : ℕ) : assign n h a a = some (.ok h) := by
  simp [assign]

/-- assigning to a composite one of the composites inside it, as in `composite = composite.as<Composite>()`, reads the right-hand side after it was destroyed: undefined behaviour, for every
composite and at every depth -/
theorem C105_assign_member_violated {h : Heap L} {d d' : Bool} {m : Forest L} {a b n : ℕ} {bs : List ℕ} {F : Set ℕ} (hn : m.depth ≤ n) (Ha : Holds h (.node d m .nil) [a] F)
    (hb : b ∈ F) (hab : b ≠ a) (hc : h.cell b = some (.comp d' bs)) : assign n h a b = some (.error .ub) := by
  obtain ⟨as, K, a1, a2, a3, rfl⟩ := holds_node Ha
  have hbK : b ∈ K := (Set.mem_insert_iff.1 hb).resolve_left hab
  obtain ⟨h₁, e1, e2, e3, e4⟩ := destroyAll_ends n m h as K hn a2
  have m1 : membersAt h b = .ok (d', bs) := by simp [membersAt, hc]
  have m2 : membersAt h a = .ok (d, as) := by simp [membersAt, a1]
  have m3 : membersAt (write h₁ a (.comp d' [])) b = .error .ub := by
    have : (write h₁ a (.comp d' [])).cell b = none := by
      simp only [write]
      rw [Function.update_of_ne hab, e2 b hbK]
    simp [membersAt, this]
  unfold assign
  simp only [Ne.symm hab, if_false, m1, m2, e1, m3]

/-- C105: `+=` puts copies of the members on the right behind those on the left, whichever composites they are: the same one, one inside the other, or two that share nothing -/
theorem C105_append {h : Heap L} {d d' : Bool} {m m' : Forest L} {a b n : ℕ} {F G : Set ℕ} (ok : L → Bool) (hn : m.depth < n) (hn' : m'.depth < n) (hf : Fresh h)
    (Ha : Holds h (.node d m .nil) [a] F) (Hb : Holds h (.node d' m' .nil) [b] G) (ha : d = true ∧ m.allOk ok = true) (hb : d' = true ∧ m'.allOk ok = true) :
    ∃ h' F', append ok n h a b = some (.ok h') ∧ Holds h' (.node d (m.append m') .nil) [a] F' ∧ F ⊆ F' ∧ (∀ x ∈ F', x ∈ F ∨ h.next ≤ x) ∧
      (∀ x < h.next, x ≠ a → h'.cell x = h.cell x) ∧ Fresh h' ∧ ∀ x, h.next ≤ x → h'.cell x ≠ none → x ∈ F' := by
  have hbF := Ha.below hf
  have hda := isDefined_of_list (allDefined_ends ok h n _ _ _ (by simp only [Forest.depth]; omega) Ha)
  have hdb := isDefined_of_list (allDefined_ends ok h n _ _ _ (by simp only [Forest.depth]; omega) Hb)
  simp only [Forest.allOk, ha.1, ha.2, hb.1, hb.2, Bool.and_true] at hda hdb
  obtain ⟨as, K, a1, a2, a3, rfl⟩ := holds_node Ha
  obtain ⟨bs, K', b1, b2, b3, rfl⟩ := holds_node Hb
  obtain ⟨h₁, cs, C, c1, c2, c3, c4, c5, c6, c7⟩ := cloneAll_ends n m' h bs K' (by omega) hf b2
  have haN := hbF a (Set.mem_insert a K)
  have hKC : Disjoint K C := by
    rw [Set.disjoint_left]
    intro x hx hx'
    have := hbF x (Set.mem_insert_of_mem a hx)
    have := c3 x hx'
    omega
  have haKC : a ∉ K ∪ C := by
    rintro (hx | hx)
    · exact a3 hx
    · have := c3 a hx
      omega
  have hk : Holds h₁ m as K := a2.frame fun x hx => c4 x (hbF x (Set.mem_insert_of_mem a hx))
  refine ⟨write h₁ a (.comp d (as ++ cs)), insert a (K ∪ C), ?_, node_holds (as := as ++ cs) ?_ ?_ haKC, ?_, ?_, ?_, ?_, ?_⟩
  · have m1 : membersAt h b = .ok (d', bs) := by simp [membersAt, b1]
    have m2 : membersAt h₁ a = .ok (d, as) := by simp [membersAt, c4 a haN, a1]
    unfold append
    simp only [hda, hdb, m1, c1, m2]
  · simp [write]
  · refine (hk.append c2 hKC).frame fun x hx => ?_
    simp only [write]
    rw [Function.update_of_ne (ne_of_mem_of_not_mem hx haKC)]
  · exact Set.insert_subset_insert Set.subset_union_left
  · rintro x (rfl | hx | hx)
    · exact Or.inl (Set.mem_insert x K)
    · exact Or.inl (Set.mem_insert_of_mem a hx)
    · exact Or.inr (c3 x hx)
  · intro x hx hxa
    simp only [write]
    rw [Function.update_of_ne hxa, c4 x hx]
  · exact fresh_write c5 (by omega) _
  · intro x hx hc
    simp only [write] at hc
    rw [Function.update_of_ne (by omega)] at hc
    exact Set.mem_insert_of_mem a (Or.inr (c7 x hx hc))

/-- C105: `+=` throws and changes nothing if one of the composites is undefined -/
theorem C105_append_undefined {h : Heap L} {d d' : Bool} {m m' : Forest L} {a b n : ℕ} {F G : Set ℕ} (ok : L → Bool) (hn : m.depth < n) (hn' : m'.depth < n)
    (Ha : Holds h (.node d m .nil) [a] F) (Hb : Holds h (.node d' m' .nil) [b] G) (hu : (d && m.allOk ok) = false ∨ (d' && m'.allOk ok) = false) :
    append ok n h a b = some (.error .undefined) := by
  have hda := isDefined_of_list (allDefined_ends ok h n _ _ _ (by simp only [Forest.depth]; omega) Ha)
  have hdb := isDefined_of_list (allDefined_ends ok h n _ _ _ (by simp only [Forest.depth]; omega) Hb)
  simp only [Forest.allOk, Bool.and_true] at hda hdb
  unfold append
  rw [hda, hdb]
  cases h1 : (d && m.allOk ok) <;> cases h2 : (d' && m'.allOk ok) <;> simp_all

/-- a composite at 2 of a point at 0 and a composite at 1 without members -/
def nested : Heap ℕ := ⟨fun x => if x = 0 then some (.leaf 7) else if x = 1 then some (.comp true []) else if x = 2 then some (.comp true [0, 1]) else none, 3⟩

theorem nested_holds : Holds nested (.node true (.leaf 7 (.node true .nil .nil)) .nil) [2] {2, 0, 1} := by
  refine ⟨2, [], [0, 1], {0, 1}, ∅, rfl, rfl, ⟨0, [1], {1}, rfl, rfl, ⟨1, [], [], ∅, ∅, rfl, rfl, ⟨rfl, rfl⟩, ⟨rfl, rfl⟩, by simp, by simp, by simp, by simp⟩, by simp, rfl⟩,
    ⟨rfl, rfl⟩, by simp, by simp, by simp, by simp⟩

theorem nested_fresh : Fresh nested := by
  intro x hx
  have : 3 ≤ x := hx
  simp only [nested]
  rw [if_neg (by omega), if_neg (by omega), if_neg (by omega)]

/-- taking the only composite out of a composite by assignment -/
example : assign 2 nested 2 1 = some (.error .ub) :=
  C105_assign_member_violated (by simp [Forest.depth]) nested_holds (by simp) (by omega) rfl

/-- appending a composite to itself -/
example : ∃ h' F', append (fun _ => true) 3 nested 2 2 = some (.ok h') ∧
    Holds h' (.node true (.leaf 7 (.node true .nil (.leaf 7 (.node true .nil .nil)))) .nil) [2] F' := by
  obtain ⟨h', F', h1, h2, -⟩ := C105_append (n := 3) (fun _ => true) (by simp [Forest.depth]) (by simp [Forest.depth]) nested_fresh nested_holds nested_holds ⟨rfl, rfl⟩ ⟨rfl, rfl⟩
  exact ⟨h', F', h1, h2⟩

/-! ## C106: transformations of composites -/

/-- C106: when no defined object refuses the transformation, as with a rigid one, every plain object is transformed, the nesting stays, and nothing else changes -/
theorem C106_transform {h : Heap L} {t : Forest L} {a n : ℕ} {F : Set ℕ} (ok : L → Bool) (g : L → Res L) (g' : L → L) (hn : t.depth ≤ n) (H : Holds h t [a] F)
    (hg : ∀ v, ok v = true → g v = .ok (g' v)) (hok : t.allOk ok = true) :
    ∃ h', transform ok g n h a = some (h', .ok ()) ∧ Holds h' (t.map g') [a] F ∧ ∀ x ∉ F, h'.cell x = h.cell x := by
  obtain ⟨h', e1, e2, e3, -⟩ := transformAll_ends ok g n t h [a] F hn H
  rw [transform_eq_map hg t hok] at e1 e2
  exact ⟨h', transform_of_list e1, e2, e3⟩

/-- C106: whatever the transformation does, the objects are transformed one after the other until the first one that refuses it, and nothing else changes -/
theorem C106_order {h : Heap L} {t : Forest L} {a n : ℕ} {F : Set ℕ} (ok : L → Bool) (g : L → Res L) (hn : t.depth ≤ n) (H : Holds h t [a] F) :
    ∃ h', transform ok g n h a = some (h', (t.transform ok g).2) ∧ Holds h' (t.transform ok g).1 [a] F ∧ ∀ x ∉ F, h'.cell x = h.cell x := by
  obtain ⟨h', e1, e2, e3, -⟩ := transformAll_ends ok g n t h [a] F hn H
  exact ⟨h', transform_of_list e1, e2, e3⟩

/-- C106: a composite that is undefined, itself or in a member, throws and stays as it was -/
theorem C106_undefined {h : Heap L} {d : Bool} {m : Forest L} {a n : ℕ} {F : Set ℕ} (ok : L → Bool) (g : L → Res L) (hn : m.depth < n) (H : Holds h (.node d m .nil) [a] F)
    (hu : (d && m.allOk ok) = false) : transform ok g n h a = some (h, .error .undefined) := by
  have hda := isDefined_of_list (allDefined_ends ok h n _ _ _ (by simp only [Forest.depth]; omega) H)
  simp only [Forest.allOk, Bool.and_true, hu] at hda
  obtain ⟨as, K, a1, -⟩ := holds_node H
  obtain ⟨n, rfl⟩ : ∃ k, n = k + 1 := ⟨n - 1, by omega⟩
  unfold transform
  simp only [a1, hda]

/-- a composite of which a later member refuses the transformation is left half transformed: the exception passes after the earlier members were changed -/
theorem C106_half_violated {h : Heap L} {v v' w : L} {a n : ℕ} {e : Err} {F : Set ℕ} (ok : L → Bool) (g : L → Res L) (hn : 2 ≤ n)
    (H : Holds h (.node true (.leaf v (.leaf w .nil)) .nil) [a] F) (hv : ok v = true) (hw : ok w = true) (hg : g v = .ok v') (hg' : g w = .error e) :
    ∃ h', transform ok g n h a = some (h', .error e) ∧ Holds h' (.node true (.leaf v' (.leaf w .nil)) .nil) [a] F := by
  obtain ⟨n, rfl⟩ : ∃ k, n = k + 1 + 1 := ⟨n - 2, by omega⟩
  have hda := isDefined_of_list (allDefined_ends ok h (n + 1 + 1) _ _ _ (by simp [Forest.depth]) H)
  simp only [Forest.allOk, Bool.and_true, Bool.true_and, hv, hw] at hda
  obtain ⟨as, K, a1, ⟨b, as', G, rfl, b1, ⟨c, as'', G', rfl, c1, ⟨rfl, rfl⟩, -, rfl⟩, b3, rfl⟩, a3, rfl⟩ := holds_node H
  have hcb : c ≠ b := fun e => b3 (by simp [e])
  have hab : a ≠ b := fun e => a3 (by simp [e])
  have hac : a ≠ c := fun e => a3 (by simp [e])
  refine ⟨write h b (.leaf v'), ?_, node_holds (as := [b, c]) ?_ ⟨b, [c], insert c ∅, rfl, ?_, ⟨c, [], ∅, rfl, ?_, ⟨rfl, rfl⟩, by simp, rfl⟩, b3, rfl⟩ a3⟩
  · have hwc : (write h b (.leaf v')).cell c = some (.leaf w) := by
      simp only [write]
      rw [Function.update_of_ne hcb, c1]
    unfold transform
    simp only [a1, hda, transformAll, transform, b1, hg, hwc, hg']
  · simp only [write]
    rw [Function.update_of_ne hab, a1]
  · simp [write]
  · simp only [write]
    rw [Function.update_of_ne hcb, c1]

/-- a composite of two objects; the transformation adds one and refuses the second object, as a sphere refuses a scaling -/
def two : Heap ℕ := ⟨fun x => if x = 0 then some (.leaf 7) else if x = 1 then some (.leaf 100) else if x = 2 then some (.comp true [0, 1]) else none, 3⟩

theorem two_holds : Holds two (.node true (.leaf 7 (.leaf 100 .nil)) .nil) [2] {2, 0, 1} := by
  refine ⟨2, [], [0, 1], {0, 1}, ∅, rfl, rfl, ⟨0, [1], {1}, rfl, rfl, ⟨1, [], ∅, rfl, rfl, ⟨rfl, rfl⟩, by simp, by simp⟩, by simp, rfl⟩, ⟨rfl, rfl⟩, by simp, by simp, by simp, by simp⟩

example : ∃ h', transform (fun _ => true) (fun v : ℕ => if v < 100 then .ok (v + 1) else .error .runtimeError) 2 two 2 = some (h', .error .runtimeError) ∧
    Holds h' (.node true (.leaf 8 (.leaf 100 .nil)) .nil) [2] {2, 0, 1} :=
  C106_half_violated _ _ le_rfl two_holds rfl rfl rfl rfl

end Verif.Props
