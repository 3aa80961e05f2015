import Verif.Model.Objects2
import Verif.Spec.Composite

/-!
# Composites and intersections (C54, C55)
-/

namespace Verif.Props

open Verif Verif.Spec

set_option linter.flexible false

/-! ## 2D -/

theorem allDefined2_append (as bs : List Obj2) : Obj2.allDefined (as ++ bs) = (Obj2.allDefined as && Obj2.allDefined bs) := by
  induction as with
  | nil => simp [Obj2.allDefined]
  | cons a as ih => simp [Obj2.allDefined, ih, Bool.and_assoc]

theorem allDefined2_iff (os : List Obj2) : Obj2.allDefined os = true ↔ ∀ o ∈ os, o.isDefined = true := by
  induction os with
  | nil => simp [Obj2.allDefined]
  | cons o os ih => simp [Obj2.allDefined, ih]

/-- **C54.** The sum of two defined composites has the objects of the first followed by those of the second, and is defined; with an operand that is
not, the sum fails; `+=` gives the same. -/
theorem C54_composite2 (a b : Composite2) :
    (a.isDefined = true → b.isDefined = true → ∃ c, a.add b = .ok c ∧ a.addAssign b = .ok c ∧ c.isDefined = true ∧ c.objects = a.objects ++ b.objects) ∧
    (a.isDefined = false ∨ b.isDefined = false → a.add b = .error .undefined ∧ a.addAssign b = .error .undefined) := by
  constructor
  · intro ha hb
    have hd : a.defined = true := by simp [Composite2.isDefined] at ha; exact ha.1
    refine ⟨⟨true, a.objects ++ b.objects⟩, by simp [Composite2.add, ha, hb], by simp [Composite2.addAssign, ha, hb, hd], ?_, rfl⟩
    simp [Composite2.isDefined] at ha hb
    simp [Composite2.isDefined, allDefined2_append, ha.2, hb.2]
  · intro h
    cases hb : b.isDefined
    · simp [Composite2.add, Composite2.addAssign, hb]
    · rcases h with h | h
      · simp [Composite2.add, Composite2.addAssign, h, hb]
      · simp [hb] at h

/-- **C54.** The sum of composites is associative, also in failing, and the empty composite is neutral. -/
theorem C54_composite2_monoid (a b c : Composite2) :
    (a.add b >>= fun ab => ab.add c) = (b.add c >>= fun bc => a.add bc) ∧
    (a.isDefined = true → a.add .Empty = .ok a ∧ Composite2.Empty.add a = .ok a) := by
  have ok : ∀ {a b : Composite2}, a.isDefined = true → b.isDefined = true → Composite2.isDefined ⟨true, a.objects ++ b.objects⟩ = true := by
    intro a b ha hb
    simp [Composite2.isDefined] at ha hb
    simp [Composite2.isDefined, allDefined2_append, ha.2, hb.2]
  constructor
  · cases ha : a.isDefined <;> cases hb : b.isDefined <;> cases hc : c.isDefined <;>
      simp [Composite2.add, ha, hb, hc, bind, Except.bind]
    rw [ok ha hb, ok hb hc]
  · intro ha
    have hd : a.defined = true := by simp [Composite2.isDefined] at ha; exact ha.1
    obtain ⟨d, os⟩ := a
    simp only at hd
    subst hd
    have he : Composite2.Empty.isDefined = true := by simp [Composite2.Empty, Composite2.isDefined, Obj2.allDefined]
    simp [Composite2.add, ha, he]
    simp [Composite2.Empty]

example : (Composite2.ofObject (.point (some 0))).isDefined = true := by simp [Composite2.ofObject, Composite2.isDefined, Obj2.allDefined, Obj2.isDefined]

theorem kind2_ofObject {o : Obj2} {t : IType2} (h : HasKind2 o t) : IType2.ofObject o = t ∧ t ≠ .undefined ∧ t ≠ .complex ∧ t ≠ .empty := by
  cases h <;> simp [IType2.ofObject]

theorem loop2_common {t : IType2} (ht : t ≠ .undefined) : ∀ {os : List Obj2}, (∀ o ∈ os, HasKind2 o t) → IType2.loop t os = t := by
  intro os
  induction os with
  | nil => intro _; rfl
  | cons o os ih =>
    intro h
    rw [IType2.loop, if_neg ht, (kind2_ofObject (h o (by simp))).1, if_neg (by simp)]
    exact ih fun o' ho => h o' (by simp [ho])

theorem loop2_mixed {t : IType2} (ht : t ≠ .undefined) : ∀ {os : List Obj2}, (∀ o ∈ os, ∃ s, HasKind2 o s) → (∃ o ∈ os, ¬ HasKind2 o t) →
    IType2.loop t os = .complex := by
  intro os
  induction os with
  | nil => rintro _ ⟨o, ho, -⟩; simp at ho
  | cons o os ih =>
    rintro h ⟨x, hx, hn⟩
    obtain ⟨s, hs⟩ := h o (by simp)
    rw [IType2.loop, if_neg ht, (kind2_ofObject hs).1]
    by_cases hst : t = s
    · subst hst
      rw [if_neg (by simp)]
      refine ih (fun o' ho => h o' (by simp [ho])) ⟨x, ?_, hn⟩
      rcases List.mem_cons.1 hx with rfl | hx
      · exact absurd hs hn
      · exact hx
    · rw [if_pos hst]

theorem kind2_unique {o : Obj2} {s t : IType2} (h : HasKind2 o s) (h' : HasKind2 o t) : s = t := by
  rw [← (kind2_ofObject h).1, (kind2_ofObject h').1]

theorem summary2_ofObjects {os : List Obj2} (h : ∀ o ∈ os, ∃ s, HasKind2 o s) : Summary2 os (IType2.ofObjects os) := by
  cases os with
  | nil => exact .empty
  | cons o os =>
    obtain ⟨s, hs⟩ := h o (by simp)
    obtain ⟨h1, h2, -⟩ := kind2_ofObject hs
    rw [IType2.ofObjects]
    simp only [List.isEmpty_cons, Bool.false_eq_true, if_false, IType2.loop, if_true, h1]
    by_cases hc : ∀ o' ∈ os, HasKind2 o' s
    · rw [loop2_common h2 hc]
      refine .common (by simp) ?_
      intro x hx
      rcases List.mem_cons.1 hx with rfl | hx
      · exact hs
      · exact hc x hx
    · push Not at hc
      obtain ⟨x, hx, hn⟩ := hc
      rw [loop2_mixed h2 (fun o' ho => h o' (by simp [ho])) ⟨x, hx, hn⟩]
      obtain ⟨u, hu⟩ := h x (by simp [hx])
      exact .mixed (a := o) (b := x) (by simp) (by simp [hx]) hs hu fun e => hn (e ▸ hu)

theorem summary2_unique {os : List Obj2} {s t : IType2} (h : Summary2 os s) (h' : Summary2 os t) : s = t := by
  cases h with
  | empty =>
    cases h' with
    | empty => rfl
    | common hn _ => exact absurd rfl hn
    | mixed ha => simp at ha
  | common hn hk =>
    cases h' with
    | empty => exact absurd rfl hn
    | common _ hk' =>
      obtain ⟨o, ho⟩ := List.exists_mem_of_ne_nil _ hn
      exact kind2_unique (hk o ho) (hk' o ho)
    | mixed ha hb h1 h2 hne => exact absurd ((kind2_unique h1 (hk _ ha)).trans (kind2_unique (hk _ hb) h2)) hne
  | mixed ha hb h1 h2 hne =>
    cases h' with
    | empty => simp at ha
    | common _ hk' => exact absurd ((kind2_unique h1 (hk' _ ha)).trans (kind2_unique (hk' _ hb) h2)) hne
    | mixed => rfl

/-- **C55.** If every object has a type of its own, the type of an intersection summarises them; nothing else does; it does not depend on the order
of the objects. -/
theorem C55_type2_partial (os : List Obj2) (h : ∀ o ∈ os, ∃ s, HasKind2 o s) :
    (Isect2.ofArray os).isDefined = true ∧ (∀ t, (Isect2.ofArray os).getType = .ok t ↔ Summary2 os t) ∧
    ((Isect2.ofArray os).isEmpty = true ↔ os = []) ∧
    ((Isect2.ofArray os).isComplex = true ↔ ∃ a ∈ os, ∃ b ∈ os, ∃ s t, HasKind2 a s ∧ HasKind2 b t ∧ s ≠ t) ∧
    ∀ os', os.Perm os' → (Isect2.ofArray os').getType = (Isect2.ofArray os).getType := by
  have sm := summary2_ofObjects h
  have hd : ∀ {os : List Obj2}, Summary2 os (IType2.ofObjects os) → (Isect2.ofArray os).isDefined = true := by
    intro os sm
    rw [Isect2.isDefined, decide_eq_true_eq]
    change IType2.ofObjects os ≠ .undefined
    generalize IType2.ofObjects os = t at sm
    cases sm with
    | empty => simp
    | common hn hk =>
      obtain ⟨o, ho⟩ := List.exists_mem_of_ne_nil _ hn
      exact (kind2_ofObject (hk o ho)).2.1
    | mixed => simp
  have gt : ∀ {os : List Obj2}, Summary2 os (IType2.ofObjects os) → ∀ t, (Isect2.ofArray os).getType = .ok t ↔ Summary2 os t := by
    intro os sm t
    rw [Isect2.getType, if_neg (by simp [hd sm])]
    simp only [Isect2.ofArray, Except.ok.injEq]
    exact ⟨fun e => e ▸ sm, fun h' => summary2_unique sm h'⟩
  refine ⟨hd sm, gt sm, ?_, ?_, ?_⟩
  · rw [Isect2.isEmpty, decide_eq_true_eq]
    change IType2.ofObjects os = .empty ↔ _
    constructor
    · intro e
      rw [e] at sm
      cases sm with
      | empty => rfl
      | common hn hk =>
        obtain ⟨o, ho⟩ := List.exists_mem_of_ne_nil _ hn
        exact absurd rfl (kind2_ofObject (hk o ho)).2.2.2
    · rintro rfl; rfl
  · rw [Isect2.isComplex, decide_eq_true_eq]
    change IType2.ofObjects os = .complex ↔ _
    constructor
    · intro e
      rw [e] at sm
      cases sm with
      | common hn hk =>
        obtain ⟨o, ho⟩ := List.exists_mem_of_ne_nil _ hn
        exact absurd rfl (kind2_ofObject (hk o ho)).2.2.1
      | mixed ha hb h1 h2 hne => exact ⟨_, ha, _, hb, _, _, h1, h2, hne⟩
    · rintro ⟨a, ha, b, hb, s, t, h1, h2, hne⟩
      exact summary2_unique sm (.mixed ha hb h1 h2 hne)
  · intro os' hp
    have sm' := summary2_ofObjects fun o ho => h o (hp.mem_iff.2 ho)
    have : Summary2 os (IType2.ofObjects os') := by
      generalize IType2.ofObjects os' = t at sm'
      cases sm' with
      | empty => rw [List.perm_nil.1 hp]; exact .empty
      | common hn hk => exact .common (fun e => hn (by subst e; exact List.perm_nil.1 hp.symm)) fun o ho => hk o (hp.mem_iff.1 ho)
      | mixed ha hb h1 h2 hne => exact .mixed (hp.mem_iff.2 ha) (hp.mem_iff.2 hb) h1 h2 hne
    have e := summary2_unique sm this
    rw [Isect2.getType, if_neg (by simp [hd sm']), Isect2.getType, if_neg (by simp [hd sm])]
    simp only [Isect2.ofArray, e]

example : ∀ o ∈ [Obj2.point none, Obj2.pointSet [none]], ∃ s, HasKind2 o s := by
  intro o ho
  simp at ho
  rcases ho with rfl | rfl
  · exact ⟨_, .point _⟩
  · exact ⟨_, .pointSet _⟩

/-- The intersections that the constructors and the sums produce: undefined, or made from an array. -/
inductive Made2 : Isect2 → Prop
  | undefined : Made2 .Undefined
  | array (os) : Made2 (.ofArray os)
  | point (p) : Made2 (.Point p)
  | pointSet (ps) : Made2 (.PointSet ps)
  | line (l) : Made2 (.Line l)
  | segment (s) : Made2 (.Segment s)
  | lineString (ps) : Made2 (.LineString ps)
  | sum {a b c : Isect2} : Made2 a → Made2 b → a.add b = .ok c → Made2 c
  | assign {a b c : Isect2} : Made2 a → Made2 b → a.addAssign b = .ok c → Made2 c

theorem isect2_add {a b : Isect2} (ha : a.composite.defined = true) : a.addAssign b = a.add b ∧ ∀ c, a.add b = .ok c →
    c = Isect2.ofArray (a.composite.objects ++ b.composite.objects) ∧ b.isDefined = true ∧ a.composite.isDefined = true ∧ b.composite.isDefined = true := by
  constructor
  · simp only [Isect2.addAssign, Isect2.add, Composite2.addAssign, Composite2.add, ha]
  · intro c h
    rw [Isect2.add] at h
    split at h
    · simp at h
    rename_i hb
    simp only [bind, Except.bind, Composite2.add] at h
    split at h
    · simp at h
    rename_i c' hc
    split at hc
    · simp at hc
    rename_i h1
    split at hc
    · simp at hc
    rename_i h2
    rw [Except.ok.injEq] at hc
    subst hc
    have hd : Composite2.isDefined ⟨true, a.composite.objects ++ b.composite.objects⟩ = true := by
      simp [Composite2.isDefined] at h1 h2
      simp [Composite2.isDefined, allDefined2_append, h1.2, h2.2]
    rw [Composite2.accessObjects, if_neg (by simp [hd])] at h
    simp only [pure, Except.pure, Except.ok.injEq] at h
    exact ⟨h.symm, by simpa using hb, by simpa using h2, by simpa using h1⟩

theorem made2_cases {i : Isect2} (h : Made2 i) : i = .Undefined ∨ ∃ os, i = .ofArray os := by
  induction h with
  | undefined => exact .inl rfl
  | array os => exact .inr ⟨os, rfl⟩
  | point p => exact .inr ⟨[.point p], rfl⟩
  | pointSet p => exact .inr ⟨[.pointSet p], rfl⟩
  | line p => exact .inr ⟨[.line p], rfl⟩
  | segment p => exact .inr ⟨[.segment p], rfl⟩
  | lineString p => exact .inr ⟨[.lineString p], rfl⟩
  | @sum a b c _ _ hs ha _ =>
    rcases ha with rfl | ⟨os, rfl⟩
    · exfalso
      simp only [Isect2.add, Isect2.Undefined, Composite2.add, Composite2.Undefined, Composite2.isDefined, bind, Except.bind] at hs
      split at hs
      · simp at hs
      · split at hs <;> simp_all
    · exact .inr ⟨_, ((isect2_add rfl).2 _ hs).1⟩
  | @assign a b c _ _ hs ha _ =>
    rcases ha with rfl | ⟨os, rfl⟩
    · exfalso
      simp only [Isect2.addAssign, Isect2.Undefined, Composite2.addAssign, Composite2.Undefined, Composite2.isDefined, bind, Except.bind] at hs
      split at hs
      · simp at hs
      · split at hs <;> simp_all
    · rw [(isect2_add rfl).1] at hs
      exact .inr ⟨_, ((isect2_add rfl).2 _ hs).1⟩

/-- **C55.** Whatever the constructors, the sums and the assignments produce, the type of an intersection is the one of the array of its objects. -/
theorem C55_reachable2 (i : Isect2) (h : Made2 i) : i = .Undefined ∨ ∃ os, i = .ofArray os ∧ i.composite.objects = os :=
  (made2_cases h).imp_right fun ⟨os, e⟩ => ⟨os, e, by rw [e]; rfl⟩

/-- **C54.** The sum of intersections of defined objects, all with a type of their own, is the intersection of the objects of the first followed by
those of the second; `+=` gives the same; it is associative, and the empty intersection is neutral. -/
theorem C54_isect2_partial (as bs cs : List Obj2) (ha : ∀ o ∈ as, o.isDefined = true) (hb : ∀ o ∈ bs, o.isDefined = true ∧ ∃ s, HasKind2 o s)
    (hc : ∀ o ∈ cs, o.isDefined = true ∧ ∃ s, HasKind2 o s) :
    (Isect2.ofArray as).add (.ofArray bs) = .ok (.ofArray (as ++ bs)) ∧ (Isect2.ofArray as).addAssign (.ofArray bs) = .ok (.ofArray (as ++ bs)) ∧
    ((Isect2.ofArray as).add (.ofArray bs) >>= fun ab => ab.add (.ofArray cs)) =
      ((Isect2.ofArray bs).add (.ofArray cs) >>= fun bc => (Isect2.ofArray as).add bc) ∧
    (Isect2.ofArray as).add .Empty = .ok (.ofArray as) ∧ Isect2.Empty.add (.ofArray bs) = .ok (.ofArray bs) := by
  have main : ∀ as bs : List Obj2, (∀ o ∈ as, o.isDefined = true) → (∀ o ∈ bs, o.isDefined = true ∧ ∃ s, HasKind2 o s) →
      (Isect2.ofArray as).add (.ofArray bs) = .ok (.ofArray (as ++ bs)) := by
    intro as bs ha hb
    have h1 : Obj2.allDefined as = true := (allDefined2_iff _).2 ha
    have h2 : Obj2.allDefined bs = true := (allDefined2_iff _).2 fun o ho => (hb o ho).1
    have h3 := (C55_type2_partial bs fun o ho => (hb o ho).2).1
    simp [Isect2.add, h3, bind, Except.bind, pure, Except.pure]
    simp [Isect2.ofArray, Composite2.ofArray, Composite2.add, Composite2.isDefined, h1, h2, Composite2.accessObjects, allDefined2_append]
  have hbc : ∀ o ∈ bs ++ cs, o.isDefined = true ∧ ∃ s, HasKind2 o s := by
    intro o ho
    rcases List.mem_append.1 ho with h | h
    · exact hb o h
    · exact hc o h
  have hab : ∀ o ∈ as ++ bs, o.isDefined = true := by
    intro o ho
    rcases List.mem_append.1 ho with h | h
    · exact ha o h
    · exact (hb o h).1
  refine ⟨main as bs ha hb, ?_, ?_, ?_, ?_⟩
  · rw [(isect2_add rfl).1]; exact main as bs ha hb
  · simp only [main as bs ha hb, main bs cs (fun o ho => (hb o ho).1) hc, bind, Except.bind]
    rw [main _ _ hab hc, main _ _ ha hbc, List.append_assoc]
  · have := main as [] ha (by simp)
    rwa [List.append_nil] at this
  · exact main [] bs (by simp) hb

example : ∀ o ∈ [Obj2.point (some 0)], o.isDefined = true ∧ ∃ s, HasKind2 o s := by
  intro o ho
  simp at ho
  subst ho
  exact ⟨rfl, _, .point _⟩

/-- **C54.** A sum of intersections fails if an operand is undefined. -/
theorem C54_undefined2 (i : Isect2) (as : List Obj2) (h : ∃ o ∈ as, o.isDefined = false) :
    i.add .Undefined = .error .undefined ∧ i.addAssign .Undefined = .error .undefined ∧ Isect2.Undefined.add i = .error .undefined ∧
    Isect2.Undefined.addAssign i = .error .undefined ∧ i.add (.ofArray as) = .error .undefined ∧ (Isect2.ofArray as).add i = .error .undefined := by
  have hd : Obj2.allDefined as = false := by
    cases h' : Obj2.allDefined as with
    | false => rfl
    | true =>
      obtain ⟨o, ho, hn⟩ := h
      rw [(allDefined2_iff as).1 h' o ho] at hn
      simp at hn
  refine ⟨?_, ?_, ?_, ?_, ?_, ?_⟩
  · simp [Isect2.add, Isect2.Undefined, Isect2.isDefined]
  · simp [Isect2.addAssign, Isect2.Undefined, Isect2.isDefined]
  · simp only [Isect2.add, Isect2.Undefined, Composite2.add, Composite2.Undefined, Composite2.isDefined, bind, Except.bind, Bool.false_and, Bool.not_false,
      if_true, ite_self]
  · simp only [Isect2.addAssign, Isect2.Undefined, Composite2.addAssign, Composite2.Undefined, Composite2.isDefined, bind, Except.bind, Bool.false_and,
      Bool.not_false, if_true, ite_self]
  · simp [Isect2.add, Isect2.ofArray, Composite2.ofArray, Composite2.add, Composite2.isDefined, hd, bind, Except.bind]
  · simp [Isect2.add, Isect2.ofArray, Composite2.ofArray, Composite2.add, Composite2.isDefined, hd, bind, Except.bind]

example : ∃ o ∈ [Obj2.point none], o.isDefined = false := ⟨.point none, by simp, rfl⟩

/-! ## 3D -/

theorem allDefined3_append (as bs : List Obj3) : Obj3.allDefined (as ++ bs) = (Obj3.allDefined as && Obj3.allDefined bs) := by
  induction as with
  | nil => simp [Obj3.allDefined]
  | cons a as ih => simp [Obj3.allDefined, ih, Bool.and_assoc]

theorem allDefined3_iff (os : List Obj3) : Obj3.allDefined os = true ↔ ∀ o ∈ os, o.isDefined = true := by
  induction os with
  | nil => simp [Obj3.allDefined]
  | cons o os ih => simp [Obj3.allDefined, ih]

/-- **C54.** The sum of two defined composites has the objects of the first followed by those of the second, and is defined; with an operand that is
not, the sum fails; `+=` gives the same. -/
theorem C54_composite3 (a b : Composite3) :
    (a.isDefined = true → b.isDefined = true → ∃ c, a.add b = .ok c ∧ a.addAssign b = .ok c ∧ c.isDefined = true ∧ c.objects = a.objects ++ b.objects) ∧
    (a.isDefined = false ∨ b.isDefined = false → a.add b = .error .undefined ∧ a.addAssign b = .error .undefined) := by
  constructor
  · intro ha hb
    have hd : a.defined = true := by simp [Composite3.isDefined] at ha; exact ha.1
    refine ⟨⟨true, a.objects ++ b.objects⟩, by simp [Composite3.add, ha, hb], by simp [Composite3.addAssign, ha, hb, hd], ?_, rfl⟩
    simp [Composite3.isDefined] at ha hb
    simp [Composite3.isDefined, allDefined3_append, ha.2, hb.2]
  · intro h
    cases hb : b.isDefined
    · simp [Composite3.add, Composite3.addAssign, hb]
    · rcases h with h | h
      · simp [Composite3.add, Composite3.addAssign, h, hb]
      · simp [hb] at h

/-- **C54.** The sum of composites is associative, also in failing, and the empty composite is neutral. -/
theorem C54_composite3_monoid (a b c : Composite3) :
    (a.add b >>= fun ab => ab.add c) = (b.add c >>= fun bc => a.add bc) ∧
    (a.isDefined = true → a.add .Empty = .ok a ∧ Composite3.Empty.add a = .ok a) := by
  have ok : ∀ {a b : Composite3}, a.isDefined = true → b.isDefined = true → Composite3.isDefined ⟨true, a.objects ++ b.objects⟩ = true := by
    intro a b ha hb
    simp [Composite3.isDefined] at ha hb
    simp [Composite3.isDefined, allDefined3_append, ha.2, hb.2]
  constructor
  · cases ha : a.isDefined <;> cases hb : b.isDefined <;> cases hc : c.isDefined <;>
      simp [Composite3.add, ha, hb, hc, bind, Except.bind]
    rw [ok ha hb, ok hb hc]
  · intro ha
    have hd : a.defined = true := by simp [Composite3.isDefined] at ha; exact ha.1
    obtain ⟨d, os⟩ := a
    simp only at hd
    subst hd
    have he : Composite3.Empty.isDefined = true := by simp [Composite3.Empty, Composite3.isDefined, Obj3.allDefined]
    simp [Composite3.add, ha, he]
    simp [Composite3.Empty]

example : (Composite3.ofObject (.point (some 0))).isDefined = true := by simp [Composite3.ofObject, Composite3.isDefined, Obj3.allDefined, Obj3.isDefined]

theorem kind3_ofObject {o : Obj3} {t : IType3} (h : HasKind3 o t) : IType3.ofObject o = t ∧ t ≠ .undefined ∧ t ≠ .complex ∧ t ≠ .empty := by
  cases h <;> simp [IType3.ofObject]

theorem loop3_common {t : IType3} (ht : t ≠ .undefined) : ∀ {os : List Obj3}, (∀ o ∈ os, HasKind3 o t) → IType3.loop t os = t := by
  intro os
  induction os with
  | nil => intro _; rfl
  | cons o os ih =>
    intro h
    rw [IType3.loop, if_neg ht, (kind3_ofObject (h o (by simp))).1, if_neg (by simp)]
    exact ih fun o' ho => h o' (by simp [ho])

theorem loop3_mixed {t : IType3} (ht : t ≠ .undefined) : ∀ {os : List Obj3}, (∀ o ∈ os, ∃ s, HasKind3 o s) → (∃ o ∈ os, ¬ HasKind3 o t) →
    IType3.loop t os = .complex := by
  intro os
  induction os with
  | nil => rintro _ ⟨o, ho, -⟩; simp at ho
  | cons o os ih =>
    rintro h ⟨x, hx, hn⟩
    obtain ⟨s, hs⟩ := h o (by simp)
    rw [IType3.loop, if_neg ht, (kind3_ofObject hs).1]
    by_cases hst : t = s
    · subst hst
      rw [if_neg (by simp)]
      refine ih (fun o' ho => h o' (by simp [ho])) ⟨x, ?_, hn⟩
      rcases List.mem_cons.1 hx with rfl | hx
      · exact absurd hs hn
      · exact hx
    · rw [if_pos hst]

theorem kind3_unique {o : Obj3} {s t : IType3} (h : HasKind3 o s) (h' : HasKind3 o t) : s = t := by
  rw [← (kind3_ofObject h).1, (kind3_ofObject h').1]

theorem summary3_ofObjects {os : List Obj3} (h : ∀ o ∈ os, ∃ s, HasKind3 o s) : Summary3 os (IType3.ofObjects os) := by
  cases os with
  | nil => exact .empty
  | cons o os =>
    obtain ⟨s, hs⟩ := h o (by simp)
    obtain ⟨h1, h2, -⟩ := kind3_ofObject hs
    rw [IType3.ofObjects]
    simp only [List.isEmpty_cons, Bool.false_eq_true, if_false, IType3.loop, if_true, h1]
    by_cases hc : ∀ o' ∈ os, HasKind3 o' s
    · rw [loop3_common h2 hc]
      refine .common (by simp) ?_
      intro x hx
      rcases List.mem_cons.1 hx with rfl | hx
      · exact hs
      · exact hc x hx
    · push Not at hc
      obtain ⟨x, hx, hn⟩ := hc
      rw [loop3_mixed h2 (fun o' ho => h o' (by simp [ho])) ⟨x, hx, hn⟩]
      obtain ⟨u, hu⟩ := h x (by simp [hx])
      exact .mixed (a := o) (b := x) (by simp) (by simp [hx]) hs hu fun e => hn (e ▸ hu)

theorem summary3_unique {os : List Obj3} {s t : IType3} (h : Summary3 os s) (h' : Summary3 os t) : s = t := by
  cases h with
  | empty =>
    cases h' with
    | empty => rfl
    | common hn _ => exact absurd rfl hn
    | mixed ha => simp at ha
  | common hn hk =>
    cases h' with
    | empty => exact absurd rfl hn
    | common _ hk' =>
      obtain ⟨o, ho⟩ := List.exists_mem_of_ne_nil _ hn
      exact kind3_unique (hk o ho) (hk' o ho)
    | mixed ha hb h1 h2 hne => exact absurd ((kind3_unique h1 (hk _ ha)).trans (kind3_unique (hk _ hb) h2)) hne
  | mixed ha hb h1 h2 hne =>
    cases h' with
    | empty => simp at ha
    | common _ hk' => exact absurd ((kind3_unique h1 (hk' _ ha)).trans (kind3_unique (hk' _ hb) h2)) hne
    | mixed => rfl

/-- **C55.** If every object has a type of its own, the type of an intersection summarises them; nothing else does; it does not depend on the order
of the objects. -/
theorem C55_type3_partial (os : List Obj3) (h : ∀ o ∈ os, ∃ s, HasKind3 o s) :
    (Isect3.ofArray os).isDefined = true ∧ (∀ t, (Isect3.ofArray os).getType = .ok t ↔ Summary3 os t) ∧
    ((Isect3.ofArray os).isEmpty = true ↔ os = []) ∧
    ((Isect3.ofArray os).isComplex = true ↔ ∃ a ∈ os, ∃ b ∈ os, ∃ s t, HasKind3 a s ∧ HasKind3 b t ∧ s ≠ t) ∧
    ∀ os', os.Perm os' → (Isect3.ofArray os').getType = (Isect3.ofArray os).getType := by
  have sm := summary3_ofObjects h
  have hd : ∀ {os : List Obj3}, Summary3 os (IType3.ofObjects os) → (Isect3.ofArray os).isDefined = true := by
    intro os sm
    rw [Isect3.isDefined, decide_eq_true_eq]
    change IType3.ofObjects os ≠ .undefined
    generalize IType3.ofObjects os = t at sm
    cases sm with
    | empty => simp
    | common hn hk =>
      obtain ⟨o, ho⟩ := List.exists_mem_of_ne_nil _ hn
      exact (kind3_ofObject (hk o ho)).2.1
    | mixed => simp
  have gt : ∀ {os : List Obj3}, Summary3 os (IType3.ofObjects os) → ∀ t, (Isect3.ofArray os).getType = .ok t ↔ Summary3 os t := by
    intro os sm t
    rw [Isect3.getType, if_neg (by simp [hd sm])]
    simp only [Isect3.ofArray, Except.ok.injEq]
    exact ⟨fun e => e ▸ sm, fun h' => summary3_unique sm h'⟩
  refine ⟨hd sm, gt sm, ?_, ?_, ?_⟩
  · rw [Isect3.isEmpty, decide_eq_true_eq]
    change IType3.ofObjects os = .empty ↔ _
    constructor
    · intro e
      rw [e] at sm
      cases sm with
      | empty => rfl
      | common hn hk =>
        obtain ⟨o, ho⟩ := List.exists_mem_of_ne_nil _ hn
        exact absurd rfl (kind3_ofObject (hk o ho)).2.2.2
    · rintro rfl; rfl
  · rw [Isect3.isComplex, decide_eq_true_eq]
    change IType3.ofObjects os = .complex ↔ _
    constructor
    · intro e
      rw [e] at sm
      cases sm with
      | common hn hk =>
        obtain ⟨o, ho⟩ := List.exists_mem_of_ne_nil _ hn
        exact absurd rfl (kind3_ofObject (hk o ho)).2.2.1
      | mixed ha hb h1 h2 hne => exact ⟨_, ha, _, hb, _, _, h1, h2, hne⟩
    · rintro ⟨a, ha, b, hb, s, t, h1, h2, hne⟩
      exact summary3_unique sm (.mixed ha hb h1 h2 hne)
  · intro os' hp
    have sm' := summary3_ofObjects fun o ho => h o (hp.mem_iff.2 ho)
    have : Summary3 os (IType3.ofObjects os') := by
      generalize IType3.ofObjects os' = t at sm'
      cases sm' with
      | empty => rw [List.perm_nil.1 hp]; exact .empty
      | common hn hk => exact .common (fun e => hn (by subst e; exact List.perm_nil.1 hp.symm)) fun o ho => hk o (hp.mem_iff.1 ho)
      | mixed ha hb h1 h2 hne => exact .mixed (hp.mem_iff.2 ha) (hp.mem_iff.2 hb) h1 h2 hne
    have e := summary3_unique sm this
    rw [Isect3.getType, if_neg (by simp [hd sm']), Isect3.getType, if_neg (by simp [hd sm])]
    simp only [Isect3.ofArray, e]

example : ∀ o ∈ [Obj3.point none, Obj3.pointSet [none]], ∃ s, HasKind3 o s := by
  intro o ho
  simp at ho
  rcases ho with rfl | rfl
  · exact ⟨_, .point _⟩
  · exact ⟨_, .pointSet _⟩

/-- The intersections that the constructors and the sums produce: undefined, or made from an array. -/
inductive Made3 : Isect3 → Prop
  | undefined : Made3 .Undefined
  | array (os) : Made3 (.ofArray os)
  | point (p) : Made3 (.Point p)
  | pointSet (ps) : Made3 (.PointSet ps)
  | line (l) : Made3 (.Line l)
  | segment (s) : Made3 (.Segment s)
  | lineString (ps) : Made3 (.LineString ps)
  | sum {a b c : Isect3} : Made3 a → Made3 b → a.add b = .ok c → Made3 c
  | assign {a b c : Isect3} : Made3 a → Made3 b → a.addAssign b = .ok c → Made3 c

theorem isect3_add {a b : Isect3} (ha : a.composite.defined = true) : a.addAssign b = a.add b ∧ ∀ c, a.add b = .ok c →
    c = Isect3.ofArray (a.composite.objects ++ b.composite.objects) ∧ b.isDefined = true ∧ a.composite.isDefined = true ∧ b.composite.isDefined = true := by
  constructor
  · simp only [Isect3.addAssign, Isect3.add, Composite3.addAssign, Composite3.add, ha]
  · intro c h
    rw [Isect3.add] at h
    split at h
    · simp at h
    rename_i hb
    simp only [bind, Except.bind, Composite3.add] at h
    split at h
    · simp at h
    rename_i c' hc
    split at hc
    · simp at hc
    rename_i h1
    split at hc
    · simp at hc
    rename_i h2
    rw [Except.ok.injEq] at hc
    subst hc
    have hd : Composite3.isDefined ⟨true, a.composite.objects ++ b.composite.objects⟩ = true := by
      simp [Composite3.isDefined] at h1 h2
      simp [Composite3.isDefined, allDefined3_append, h1.2, h2.2]
    rw [Composite3.accessObjects, if_neg (by simp [hd])] at h
    simp only [pure, Except.pure, Except.ok.injEq] at h
    exact ⟨h.symm, by simpa using hb, by simpa using h2, by simpa using h1⟩

theorem made3_cases {i : Isect3} (h : Made3 i) : i = .Undefined ∨ ∃ os, i = .ofArray os := by
  induction h with
  | undefined => exact .inl rfl
  | array os => exact .inr ⟨os, rfl⟩
  | point p => exact .inr ⟨[.point p], rfl⟩
  | pointSet p => exact .inr ⟨[.pointSet p], rfl⟩
  | line p => exact .inr ⟨[.line p], rfl⟩
  | segment p => exact .inr ⟨[.segment p], rfl⟩
  | lineString p => exact .inr ⟨[.lineString p], rfl⟩
  | @sum a b c _ _ hs ha _ =>
    rcases ha with rfl | ⟨os, rfl⟩
    · exfalso
      simp only [Isect3.add, Isect3.Undefined, Composite3.add, Composite3.Undefined, Composite3.isDefined, bind, Except.bind] at hs
      split at hs
      · simp at hs
      · split at hs <;> simp_all
    · exact .inr ⟨_, ((isect3_add rfl).2 _ hs).1⟩
  | @assign a b c _ _ hs ha _ =>
    rcases ha with rfl | ⟨os, rfl⟩
    · exfalso
      simp only [Isect3.addAssign, Isect3.Undefined, Composite3.addAssign, Composite3.Undefined, Composite3.isDefined, bind, Except.bind] at hs
      split at hs
      · simp at hs
      · split at hs <;> simp_all
    · rw [(isect3_add rfl).1] at hs
      exact .inr ⟨_, ((isect3_add rfl).2 _ hs).1⟩

/-- **C55.** Whatever the constructors, the sums and the assignments produce, the type of an intersection is the one of the array of its objects. -/
theorem C55_reachable3 (i : Isect3) (h : Made3 i) : i = .Undefined ∨ ∃ os, i = .ofArray os ∧ i.composite.objects = os :=
  (made3_cases h).imp_right fun ⟨os, e⟩ => ⟨os, e, by rw [e]; rfl⟩

/-- **C54.** The sum of intersections of defined objects, all with a type of their own, is the intersection of the objects of the first followed by
those of the second; `+=` gives the same; it is associative, and the empty intersection is neutral. -/
theorem C54_isect3_partial (as bs cs : List Obj3) (ha : ∀ o ∈ as, o.isDefined = true) (hb : ∀ o ∈ bs, o.isDefined = true ∧ ∃ s, HasKind3 o s)
    (hc : ∀ o ∈ cs, o.isDefined = true ∧ ∃ s, HasKind3 o s) :
    (Isect3.ofArray as).add (.ofArray bs) = .ok (.ofArray (as ++ bs)) ∧ (Isect3.ofArray as).addAssign (.ofArray bs) = .ok (.ofArray (as ++ bs)) ∧
    ((Isect3.ofArray as).add (.ofArray bs) >>= fun ab => ab.add (.ofArray cs)) =
      ((Isect3.ofArray bs).add (.ofArray cs) >>= fun bc => (Isect3.ofArray as).add bc) ∧
    (Isect3.ofArray as).add .Empty = .ok (.ofArray as) ∧ Isect3.Empty.add (.ofArray bs) = .ok (.ofArray bs) := by
  have main : ∀ as bs : List Obj3, (∀ o ∈ as, o.isDefined = true) → (∀ o ∈ bs, o.isDefined = true ∧ ∃ s, HasKind3 o s) →
      (Isect3.ofArray as).add (.ofArray bs) = .ok (.ofArray (as ++ bs)) := by
    intro as bs ha hb
    have h1 : Obj3.allDefined as = true := (allDefined3_iff _).2 ha
    have h2 : Obj3.allDefined bs = true := (allDefined3_iff _).2 fun o ho => (hb o ho).1
    have h3 := (C55_type3_partial bs fun o ho => (hb o ho).2).1
    simp [Isect3.add, h3, bind, Except.bind, pure, Except.pure]
    simp [Isect3.ofArray, Composite3.ofArray, Composite3.add, Composite3.isDefined, h1, h2, Composite3.accessObjects, allDefined3_append]
  have hbc : ∀ o ∈ bs ++ cs, o.isDefined = true ∧ ∃ s, HasKind3 o s := by
    intro o ho
    rcases List.mem_append.1 ho with h | h
    · exact hb o h
    · exact hc o h
  have hab : ∀ o ∈ as ++ bs, o.isDefined = true := by
    intro o ho
    rcases List.mem_append.1 ho with h | h
    · exact ha o h
    · exact (hb o h).1
  refine ⟨main as bs ha hb, ?_, ?_, ?_, ?_⟩
  · rw [(isect3_add rfl).1]; exact main as bs ha hb
  · simp only [main as bs ha hb, main bs cs (fun o ho => (hb o ho).1) hc, bind, Except.bind]
    rw [main _ _ hab hc, main _ _ ha hbc, List.append_assoc]
  · have := main as [] ha (by simp)
    rwa [List.append_nil] at this
  · exact main [] bs (by simp) hb

example : ∀ o ∈ [Obj3.point (some 0)], o.isDefined = true ∧ ∃ s, HasKind3 o s := by
  intro o ho
  simp at ho
  subst ho
  exact ⟨rfl, _, .point _⟩

/-- **C54.** A sum of intersections fails if an operand is undefined. -/
theorem C54_undefined3 (i : Isect3) (as : List Obj3) (h : ∃ o ∈ as, o.isDefined = false) :
    i.add .Undefined = .error .undefined ∧ i.addAssign .Undefined = .error .undefined ∧ Isect3.Undefined.add i = .error .undefined ∧
    Isect3.Undefined.addAssign i = .error .undefined ∧ i.add (.ofArray as) = .error .undefined ∧ (Isect3.ofArray as).add i = .error .undefined := by
  have hd : Obj3.allDefined as = false := by
    cases h' : Obj3.allDefined as with
    | false => rfl
    | true =>
      obtain ⟨o, ho, hn⟩ := h
      rw [(allDefined3_iff as).1 h' o ho] at hn
      simp at hn
  refine ⟨?_, ?_, ?_, ?_, ?_, ?_⟩
  · simp [Isect3.add, Isect3.Undefined, Isect3.isDefined]
  · simp [Isect3.addAssign, Isect3.Undefined, Isect3.isDefined]
  · simp only [Isect3.add, Isect3.Undefined, Composite3.add, Composite3.Undefined, Composite3.isDefined, bind, Except.bind, Bool.false_and, Bool.not_false,
      if_true, ite_self]
  · simp only [Isect3.addAssign, Isect3.Undefined, Composite3.addAssign, Composite3.Undefined, Composite3.isDefined, bind, Except.bind, Bool.false_and,
      Bool.not_false, if_true, ite_self]
  · simp [Isect3.add, Isect3.ofArray, Composite3.ofArray, Composite3.add, Composite3.isDefined, hd, bind, Except.bind]
  · simp [Isect3.add, Isect3.ofArray, Composite3.ofArray, Composite3.add, Composite3.isDefined, hd, bind, Except.bind]

example : ∃ o ∈ [Obj3.point none], o.isDefined = false := ⟨.point none, by simp, rfl⟩

/-! ## Objects without a type -/

/-- **C55 violated.** Cones (and composites) have no type: one alone makes the intersection count as undefined, and the type of a cone and a point
depends on their order. -/
theorem C55_cone_violated (c : Cone3) (p : Option V3) :
    (Isect3.ofArray [.cone c]).isDefined = false ∧ (Isect3.ofArray [.cone c, .point p]).getType = .ok .point ∧
    (Isect3.ofArray [.point p, .cone c]).getType = .ok .complex := by
  refine ⟨?_, ?_, ?_⟩ <;>
    simp [Isect3.ofArray, Isect3.isDefined, Isect3.getType, IType3.ofObjects, IType3.loop, IType3.ofObject]

/-- **C55 violated.** Multi-polygons (and composites) have no type. -/
theorem C55_multiPolygon_violated (ps : List Polygon2) (p : Option V2) :
    (Isect2.ofArray [.multiPolygon ps]).isDefined = false ∧ (Isect2.ofArray [.multiPolygon ps, .point p]).getType = .ok .point ∧
    (Isect2.ofArray [.point p, .multiPolygon ps]).getType = .ok .complex := by
  refine ⟨?_, ?_, ?_⟩ <;>
    simp [Isect2.ofArray, Isect2.isDefined, Isect2.getType, IType2.ofObjects, IType2.loop, IType2.ofObject]

/-- **C54 violated.** With a defined cone the sum of intersections is not associative: the intersection of the cone alone counts as undefined as a
right operand, but not as a left one. -/
theorem C54_cone_violated (c : Cone3) (hc : c.isDefined = true) (p : V3) :
    ((Isect3.ofArray [.point (some p)]).add (.ofArray [.cone c]) >>= fun ab => ab.add (.ofArray [.point (some p)])) = .error .undefined ∧
    ((Isect3.ofArray [.cone c]).add (.ofArray [.point (some p)]) >>= fun bc => (Isect3.ofArray [.point (some p)]).add bc) =
      .ok (.ofArray [.point (some p), .cone c, .point (some p)]) := by
  constructor <;>
    simp [Isect3.ofArray, Isect3.add, Isect3.isDefined, IType3.ofObjects, IType3.loop, IType3.ofObject, bind, Except.bind, pure, Except.pure,
      Composite3.add, Composite3.ofArray, Composite3.isDefined, Obj3.allDefined, Obj3.isDefined, hc, Composite3.accessObjects]

example : ∃ c : Cone3, c.isDefined = true := ⟨⟨some 0, some ⟨0, 0, 1⟩, Angle.mk (some 1) .radian⟩, rfl⟩


end Verif.Props
