import Verif.Props.Composite
import Verif.Props.Polygon

/-!
# Containment in composites and intersections of polygons (C79, C80)
-/

namespace Verif.Props

open Verif Verif.Spec

set_option linter.flexible false

/-! ## Composites -/

theorem anyOf_ok_true {α : Type} {f : α → Res Bool} {l : List α} (h : anyOf f l = .ok true) : ∃ a ∈ l, f a = .ok true := by
  induction l with
  | nil => simp [anyOf] at h
  | cons a l ih =>
    rw [anyOf] at h
    split at h
    · simp at h
    · exact ⟨a, by simp, by assumption⟩
    · obtain ⟨b, hb, e⟩ := ih h
      exact ⟨b, by simp [hb], e⟩

theorem anyOf_ok_false {α : Type} {f : α → Res Bool} {l : List α} : anyOf f l = .ok false ↔ ∀ a ∈ l, f a = .ok false := by
  induction l with
  | nil => simp [anyOf]
  | cons a l ih =>
    rw [anyOf]
    cases ha : f a with
    | error e => simp [ha]
    | ok b => cases b <;> simp [ha, ih]

theorem anyOf_answers {α : Type} {f : α → Res Bool} {l : List α} (h : ∀ a ∈ l, ∃ b, f a = .ok b) : ∃ b, anyOf f l = .ok b ∧ (b = true ↔ ∃ a ∈ l, f a = .ok true) := by
  induction l with
  | nil => exact ⟨false, rfl, by simp⟩
  | cons a l ih =>
    obtain ⟨b, hb⟩ := h a (by simp)
    cases b with
    | true => exact ⟨true, by rw [anyOf, hb], by simp [hb]⟩
    | false =>
      obtain ⟨c, h1, h2⟩ := ih fun x hx => h x (by simp [hx])
      exact ⟨c, by rw [anyOf, hb]; exact h1, by rw [h2]; simp [hb]⟩

theorem allContain_true {B : Boost} {os : List Obj2} {a : Obj2} : Obj2.allContain B os a = .ok true ↔ ∀ o ∈ os, Obj2.contains B o a = .ok true := by
  induction os with
  | nil => simp [Obj2.allContain]
  | cons o os ih =>
    rw [Obj2.allContain]
    cases h : Obj2.contains B o a with
    | error e => simp [h]
    | ok b => cases b <;> simp [h, ih]

theorem allContain_false {B : Boost} {os : List Obj2} {a : Obj2} (h : Obj2.allContain B os a = .ok false) : ∃ o ∈ os, Obj2.contains B o a = .ok false := by
  induction os with
  | nil => simp [Obj2.allContain] at h
  | cons o os ih =>
    rw [Obj2.allContain] at h
    split at h
    · simp at h
    · exact ⟨o, by simp, by assumption⟩
    · obtain ⟨b, hb, e⟩ := ih h
      exact ⟨b, by simp [hb], e⟩

/-- **C79.** A defined composite contains a defined object exactly if it has members and each of them contains the object; if it answers no it is
empty or a member answers no; nested composites are treated in the same way. -/
theorem C79_contains2 (B : Boost) (c : Composite2) (a : Obj2) (hc : c.isDefined = true) (ha : a.isDefined = true) :
    (c.contains B a = .ok true ↔ c.objects ≠ [] ∧ ∀ o ∈ c.objects, Obj2.contains B o a = .ok true) ∧
    (c.contains B a = .ok false → c.objects = [] ∨ ∃ o ∈ c.objects, Obj2.contains B o a = .ok false) ∧
    Obj2.contains B (.composite c.defined c.objects) a = c.contains B a := by
  have e : c.contains B a = if c.objects.isEmpty then .ok false else Obj2.allContain B c.objects a := by
    rw [Composite2.contains, Obj2.contains, if_neg (by simp [ha])]
    rw [Composite2.isDefined] at hc
    rw [if_neg (by simpa using hc)]
  refine ⟨?_, ?_, rfl⟩
  · rw [e]
    cases hos : c.objects with
    | nil => simp
    | cons o os => rw [← hos, if_neg (by simp [hos]), allContain_true]; simp [hos]
  · rw [e]
    cases hos : c.objects with
    | nil => simp
    | cons o os =>
      rw [← hos, if_neg (by simp [hos])]
      intro h
      exact .inr (allContain_false h)

/-- **C79.** If every member answers, `anyContains` says whether one of them contains the object. -/
theorem C79_anyContains2 (B : Boost) (c : Composite2) (a : Obj2) (hc : c.isDefined = true) (ha : a.isDefined = true)
    (h : ∀ o ∈ c.objects, ∃ b, Obj2.contains B o a = .ok b) :
    ∃ b, c.anyContains B a = .ok b ∧ (b = true ↔ ∃ o ∈ c.objects, Obj2.contains B o a = .ok true) := by
  rw [Composite2.anyContains, if_neg (by simp [ha]), if_neg (by simp [hc])]
  cases hos : c.objects with
  | nil => exact ⟨false, by simp, by simp⟩
  | cons o os =>
    rw [← hos, if_neg (by simp [hos])]
    exact anyOf_answers h

/-- a structure of algorithms for which every point is in the polygons with an outer ring of four points, and in no other -/
noncomputable def sampleBoost : Boost where
  coveredBy _ p := .ok (decide (p.outer.length = 4))
  coveredByLine _ p := .ok (decide (p.outer.length = 4))
  coveredByMulti _ ps := .ok (ps.any fun p => decide (p.outer.length = 4))
  intersects _ _ := .ok true
  equals p q := decide (p.outer.length = q.outer.length)
  equalsMulti ps qs := decide (ps.length = qs.length)
  isValid _ := true
  isValidLine _ := true
  polygons _ _ := .ok []
  lines _ _ := .ok []
  points _ _ := .ok [⟨0, 0⟩, ⟨1, 0⟩]
  difference p _ := .ok [p]
  convexHull p := .ok p
  convexHullMulti _ := .error .runtimeError
  union ps _ := .ok ps

example : ∃ (B : Boost) (c : Composite2) (a : Obj2), c.isDefined = true ∧ a.isDefined = true ∧ c.objects.length = 2 ∧
    ∀ o ∈ c.objects, ∃ b, Obj2.contains B o a = .ok b := by
  refine ⟨sampleBoost, ⟨true, [.polygon ⟨[0, 0, 0, 0], []⟩, .polygon ⟨[0, 0, 0], []⟩]⟩, .point (some 0), ?_, rfl, rfl, ?_⟩
  · simp [Composite2.isDefined, Obj2.allDefined, Obj2.isDefined, Polygon2.isDefined]
  · intro o ho
    simp at ho
    rcases ho with rfl | rfl <;>
      simp [Obj2.contains, Obj2.containsBase, Obj2.isDefined, Polygon2.contains, need, Polygon2.isDefined, bind, Except.bind, rethrow, sampleBoost]

/-- **C79 violated.** `anyContains` of a composite asks that one of its objects be in every member: for two polygons of which only the first contains a
point, the composite has a member that contains the point, and none that contains the composite of the point. -/
theorem C79_anyContains_violated (B : Boost) (p q : Polygon2) (v : V2) (hp : p.isDefined = true) (hq : q.isDefined = true)
    (h1 : B.coveredBy v p = .ok true) (h2 : B.coveredBy v q = .ok false) :
    Composite2.anyContains B ⟨true, [.polygon p, .polygon q]⟩ (.point (some v)) = .ok true ∧
    Composite2.anyContainsComposite B ⟨true, [.polygon p, .polygon q]⟩ ⟨true, [.point (some v)]⟩ = .ok false := by
  have c1 : Obj2.contains B (.polygon p) (.point (some v)) = .ok true := by
    simp [Obj2.contains, Obj2.containsBase, Obj2.isDefined, Polygon2.contains, need, hp, h1, bind, Except.bind, rethrow]
  have c2 : Obj2.contains B (.polygon q) (.point (some v)) = .ok false := by
    simp [Obj2.contains, Obj2.containsBase, Obj2.isDefined, Polygon2.contains, need, hq, h2, bind, Except.bind, rethrow]
  constructor
  · simp [Composite2.anyContains, Obj2.isDefined, Composite2.isDefined, Obj2.allDefined, hp, hq, anyOf, c1]
  · have e : Obj2.allContain B [.polygon p, .polygon q] (.point (some v)) = .ok false := by simp only [Obj2.allContain, c1, c2]
    have c3 : Composite2.contains B ⟨true, [.polygon p, .polygon q]⟩ (.point (some v)) = .ok false := by
      rw [Composite2.contains, Obj2.contains, e]
      simp [Obj2.isDefined, Obj2.allDefined, hp, hq]
    simp [Composite2.anyContainsComposite, Obj2.isDefined, Composite2.isDefined, Obj2.allDefined, hp, hq, anyOf, c3]

example : Polygon2.isDefined ⟨[0, 0, 0, 0], []⟩ = true ∧ Polygon2.isDefined ⟨[0, 0, 0], []⟩ = true ∧
    sampleBoost.coveredBy 0 ⟨[0, 0, 0, 0], []⟩ = .ok true ∧ sampleBoost.coveredBy 0 ⟨[0, 0, 0], []⟩ = .ok false := by
  simp [Polygon2.isDefined, sampleBoost]

/-- **C79.** Composites and objects that are undefined make the queries fail. -/
theorem C79_undefined2 (B : Boost) (c : Composite2) (a : Obj2) (d : Composite2) (h : c.isDefined = false ∨ a.isDefined = false)
    (h' : c.isDefined = false ∨ d.isDefined = false) :
    c.contains B a = .error .undefined ∧ c.anyContains B a = .error .undefined ∧ c.intersects a = .error .undefined ∧
    c.containsComposite B d = .error .undefined ∧ c.anyContainsComposite B d = .error .undefined ∧ c.intersectsComposite d = .error .undefined ∧
    c.eq B d = false := by
  have e : (c.defined && Obj2.allDefined c.objects) = c.isDefined := rfl
  refine ⟨?_, ?_, ?_, ?_, ?_, ?_, ?_⟩
  · rw [Composite2.contains, Obj2.contains, e]
    rcases h with h | h <;> simp [h]
  · rw [Composite2.anyContains]
    rcases h with h | h <;> simp [h]
  · rw [Composite2.intersects, Obj2.intersects, e]
    rcases h with h | h <;> simp [h]
  · rw [Composite2.containsComposite]
    rcases h' with h | h <;> simp [h]
  · rw [Composite2.anyContainsComposite]
    rcases h' with h | h <;> simp [h]
  · rw [Composite2.intersectsComposite]
    rcases h' with h | h <;> simp [h]
  · rw [Composite2.eq]
    rcases h' with h | h <;> simp [h]

example : (Composite2.Undefined).isDefined = false := rfl

/-! ## Intersection of polygons -/

theorem addAssign_array {os : List Obj2} {j r : Isect2} (h : (Isect2.ofArray os).addAssign j = .ok r) : r = .ofArray (os ++ j.composite.objects) := by
  rw [(isect2_add (a := .ofArray os) rfl).1] at h
  exact ((isect2_add (a := .ofArray os) rfl).2 _ h).1

theorem addPolygons_inv : ∀ {ps : List Polygon2} {os : List Obj2} {r : Isect2}, Polygon2.addPolygons (.ofArray os) ps = .ok r →
    ∃ ps', List.Forall₂ (fun a b => Polygon2.ofBoost a = .ok b) ps ps' ∧ r = .ofArray (os ++ ps'.map .polygon) := by
  intro ps
  induction ps with
  | nil =>
    intro os r h
    simp only [Polygon2.addPolygons, Except.ok.injEq] at h
    exact ⟨[], .nil, by simp [h]⟩
  | cons p ps ih =>
    intro os r h
    simp only [Polygon2.addPolygons, bind, Except.bind] at h
    split at h
    · simp at h
    rename_i q hq
    split at h
    · simp at h
    rename_i i hi
    rw [addAssign_array hi] at h
    obtain ⟨ps', h1, h2⟩ := ih h
    exact ⟨q :: ps', .cons hq h1, by rw [h2]; simp [Isect2.Polygon, Composite2.ofObject]⟩

theorem any_true {B : Boost} {os : List Obj2} {a : Obj2} {c : Composite2} (hc : (Isect2.ofArray os).accessComposite = .ok c)
    (h : c.anyContains B a = .ok true) : ∃ o ∈ os, Obj2.contains B o a = .ok true := by
  rw [Isect2.accessComposite] at hc
  split at hc
  · simp at hc
  rw [Except.ok.injEq] at hc
  subst hc
  rw [Composite2.anyContains] at h
  split at h
  · simp at h
  split at h
  · simp at h
  split at h
  · simp at h
  exact anyOf_ok_true h

theorem any_false {B : Boost} {os : List Obj2} {a : Obj2} {c : Composite2} (hc : (Isect2.ofArray os).accessComposite = .ok c)
    (h : c.anyContains B a = .ok false) : ∀ o ∈ os, Obj2.contains B o a = .ok false := by
  rw [Isect2.accessComposite] at hc
  split at hc
  · simp at hc
  rw [Except.ok.injEq] at hc
  subst hc
  rw [Composite2.anyContains] at h
  split at h
  · simp at h
  split at h
  · simp at h
  split at h
  · rename_i he
    simp [Isect2.ofArray, Composite2.ofArray] at he
    simp [he]
  exact anyOf_ok_false.1 h

theorem poly_line {B : Boost} {p : Polygon2} {l : List V2} {b : Bool} (h : Obj2.contains B (.polygon p) (.lineString (l.map some)) = .ok b) :
    B.coveredByLine l p = .ok b := by
  simp only [Obj2.contains, Obj2.containsBase, Polygon2.containsLine] at h
  split at h
  · simp at h
  split at h
  · simp at h
  split at h
  · simp at h
  split at h
  · simp [rethrow] at h
  simp only [bind, Except.bind, mapRes_need] at h
  cases hc : B.coveredByLine l p with
  | error e => simp [hc, rethrow] at h
  | ok b' => simpa [hc, rethrow] using h

theorem poly_point {B : Boost} {p : Polygon2} {v : V2} {b : Bool} (h : Obj2.contains B (.polygon p) (.point (some v)) = .ok b) :
    B.coveredBy v p = .ok b := by
  simp only [Obj2.contains, Obj2.containsBase, Polygon2.contains, need, bind, Except.bind] at h
  split at h
  · simp at h
  split at h
  · simp at h
  cases hc : B.coveredBy v p with
  | error e => simp [hc, rethrow] at h
  | ok b' => simpa [hc, rethrow] using h

theorem line_line {B : Boost} {l m : List (Option V2)} {b : Bool} : Obj2.contains B (.lineString l) (.lineString m) ≠ .ok b := by
  simp only [Obj2.contains, Obj2.containsBase]
  split <;> simp

theorem line_point {B : Boost} {l : List (Option V2)} {v : V2} : Obj2.contains B (.lineString l) (.point (some v)) = LineString2.contains l (some v) := by
  simp [Obj2.contains, Obj2.containsBase, Obj2.isDefined]

theorem point_point {B : Boost} {p q : Option V2} {b : Bool} : Obj2.contains B (.point p) (.point q) ≠ .ok b := by
  simp only [Obj2.contains, Obj2.containsBase]
  split <;> simp

theorem addLines_inv {B : Boost} {ps : List Polygon2} : ∀ {ls kept : List (List V2)} {r : Isect2},
    Polygon2.addLines B (.ofArray (ps.map .polygon ++ kept.map fun l => .lineString (l.map some))) ls = .ok r →
    ∃ new, r = .ofArray (ps.map .polygon ++ (kept ++ new).map fun l => .lineString (l.map some)) ∧ new.Sublist (ls.filter B.isValidLine) ∧
      (∀ l ∈ ls, B.isValidLine l = true → l ∈ new ∨ ∃ a ∈ ps, B.coveredByLine l a = .ok true) ∧
      (∀ l ∈ new, ∀ a ∈ ps, B.coveredByLine l a = .ok false) ∧ (new ≠ [] → kept = []) ∧ new.length ≤ 1 := by
  intro ls
  induction ls with
  | nil =>
    intro kept r h
    simp only [Polygon2.addLines, Except.ok.injEq] at h
    exact ⟨[], by simp [h], by simp, by simp, by simp, by simp, by simp⟩
  | cons l ls ih =>
    intro kept r h
    rw [Polygon2.addLines] at h
    split at h
    · rename_i hv
      simp only [bind, Except.bind] at h
      split at h
      · simp at h
      rename_i c hc
      split at h
      · simp at h
      rename_i b hb
      cases b with
      | true =>
        simp only [if_true] at h
        obtain ⟨new, h1, h2, h3, h4, h5, h6⟩ := ih h
        obtain ⟨o, ho, hoc⟩ := any_true hc hb
        refine ⟨new, h1, ?_, ?_, h4, h5, h6⟩
        · rw [List.filter_cons_of_pos (by simpa using hv)]; exact h2.cons _
        · intro m hm hmv
          rcases List.mem_cons.1 hm with rfl | hm
          · rcases List.mem_append.1 ho with ho | ho
            · obtain ⟨a, ha, rfl⟩ := List.mem_map.1 ho
              exact .inr ⟨a, ha, poly_line hoc⟩
            · obtain ⟨a, ha, rfl⟩ := List.mem_map.1 ho
              exact absurd hoc line_line
          · exact h3 m hm hmv
      | false =>
        simp only [Bool.false_eq_true, if_false] at h
        split at h
        · simp at h
        rename_i i hi
        have hf := any_false hc hb
        have hk : kept = [] := by
          by_contra hk
          obtain ⟨m, hm⟩ := List.exists_mem_of_ne_nil _ hk
          exact line_line (hf (.lineString (m.map some)) (List.mem_append.2 (.inr (List.mem_map.2 ⟨m, hm, rfl⟩))))
        subst hk
        rw [addAssign_array hi] at h
        have e : (ps.map Obj2.polygon ++ ([] : List (List V2)).map fun l => Obj2.lineString (l.map some)) ++ (Isect2.LineString (l.map some)).composite.objects =
            ps.map .polygon ++ [l].map fun l => .lineString (l.map some) := by
          simp [Isect2.LineString, Composite2.ofObject]
        rw [e] at h
        obtain ⟨new, h1, h2, h3, h4, h5, h6⟩ := ih h
        have hn : new = [] := by
          by_contra hn
          simpa using h5 hn
        subst hn
        refine ⟨[l], by simpa using h1, ?_, ?_, ?_, by simp, by simp⟩
        · rw [List.filter_cons_of_pos (by simpa using hv)]
          exact (List.nil_sublist _).cons_cons _
        · intro m hm hmv
          rcases List.mem_cons.1 hm with rfl | hm
          · exact .inl (by simp)
          · rcases h3 m hm hmv with h | h
            · simp at h
            · exact .inr h
        · intro m hm a ha
          simp at hm
          subst hm
          exact poly_line (hf (.polygon a) (List.mem_append.2 (.inl (List.mem_map.2 ⟨a, ha, rfl⟩))))
    · rename_i hv
      obtain ⟨new, h1, h2, h3, h4, h5, h6⟩ := ih h
      refine ⟨new, h1, ?_, ?_, h4, h5, h6⟩
      · rw [List.filter_cons_of_neg (by simpa using hv)]; exact h2
      · intro m hm hmv
        rcases List.mem_cons.1 hm with rfl | hm
        · exact absurd hmv hv
        · exact h3 m hm hmv

theorem addPoints_inv {B : Boost} {ps : List Polygon2} {ls : List (List V2)} : ∀ {vs kept : List V2} {r : Isect2},
    Polygon2.addPoints B (.ofArray (ps.map .polygon ++ (ls.map fun l => .lineString (l.map some)) ++ kept.map fun v => .point (some v))) vs = .ok r →
    ∃ new, r = .ofArray (ps.map .polygon ++ (ls.map fun l => .lineString (l.map some)) ++ (kept ++ new).map fun v => .point (some v)) ∧ new.Sublist vs ∧
      (∀ v ∈ vs, v ∈ new ∨ (∃ a ∈ ps, B.coveredBy v a = .ok true) ∨ ∃ l ∈ ls, LineString2.contains (l.map some) (some v) = .ok true) ∧
      (∀ v ∈ new, (∀ a ∈ ps, B.coveredBy v a = .ok false) ∧ ∀ l ∈ ls, LineString2.contains (l.map some) (some v) = .ok false) ∧
      (new ≠ [] → kept = []) ∧ new.length ≤ 1 := by
  intro vs
  induction vs with
  | nil =>
    intro kept r h
    simp only [Polygon2.addPoints, Except.ok.injEq] at h
    exact ⟨[], by rw [← h]; simp, by simp, by simp, by simp, by simp, by simp⟩
  | cons v vs ih =>
    intro kept r h
    simp only [Polygon2.addPoints, bind, Except.bind] at h
    split at h
    · simp at h
    rename_i c hc
    split at h
    · simp at h
    rename_i b hb
    cases b with
    | true =>
      simp only [if_true] at h
      obtain ⟨new, h1, h2, h3, h4, h5, h6⟩ := ih h
      obtain ⟨o, ho, hoc⟩ := any_true hc hb
      refine ⟨new, h1, h2.cons _, ?_, h4, h5, h6⟩
      intro m hm
      rcases List.mem_cons.1 hm with rfl | hm
      · rcases List.mem_append.1 ho with ho | ho
        · rcases List.mem_append.1 ho with ho | ho
          · obtain ⟨a, ha, rfl⟩ := List.mem_map.1 ho
            exact .inr (.inl ⟨a, ha, poly_point hoc⟩)
          · obtain ⟨a, ha, rfl⟩ := List.mem_map.1 ho
            exact .inr (.inr ⟨a, ha, line_point.symm.trans hoc⟩)
        · obtain ⟨a, ha, rfl⟩ := List.mem_map.1 ho
          exact absurd hoc point_point
      · exact h3 m hm
    | false =>
      simp only [Bool.false_eq_true, if_false] at h
      split at h
      · simp at h
      rename_i i hi
      have hf := any_false hc hb
      have hk : kept = [] := by
        by_contra hk
        obtain ⟨m, hm⟩ := List.exists_mem_of_ne_nil _ hk
        exact point_point (hf (.point (some m)) (List.mem_append.2 (.inr (List.mem_map.2 ⟨m, hm, rfl⟩))))
      subst hk
      rw [addAssign_array hi] at h
      have e : (ps.map Obj2.polygon ++ (ls.map fun l => Obj2.lineString (l.map some)) ++ ([] : List V2).map fun v => Obj2.point (some v)) ++
          (Isect2.Point (some v)).composite.objects =
          ps.map .polygon ++ (ls.map fun l => Obj2.lineString (l.map some)) ++ [v].map fun v => .point (some v) := by
        simp [Isect2.Point, Composite2.ofObject]
      rw [e] at h
      obtain ⟨new, h1, h2, h3, h4, h5, h6⟩ := ih h
      have hn : new = [] := by
        by_contra hn
        simpa using h5 hn
      subst hn
      refine ⟨[v], by simpa using h1, (List.nil_sublist _).cons_cons _, ?_, ?_, by simp, by simp⟩
      · intro m hm
        rcases List.mem_cons.1 hm with rfl | hm
        · exact .inl (by simp)
        · rcases h3 m hm with h | h
          · simp at h
          · exact .inr h
      · intro m hm
        simp at hm
        subst hm
        refine ⟨fun a ha => poly_point (hf (.polygon a) ?_), fun l hl => line_point.symm.trans (hf (.lineString (l.map some)) ?_)⟩
        · exact List.mem_append.2 (.inl (List.mem_append.2 (.inl (List.mem_map.2 ⟨a, ha, rfl⟩))))
        · exact List.mem_append.2 (.inl (List.mem_append.2 (.inr (List.mem_map.2 ⟨l, hl, rfl⟩))))

theorem rethrow_ok {α : Type} {x : Res α} {a : α} (h : rethrow x = .ok a) : x = .ok a := by
  cases x <;> simp_all [rethrow]

/-- **C80.** When two polygons have an intersection, it consists of the common polygons found by the geometry library, then of the valid line strings
that are in none of these polygons, then of the points that are in none of these polygons and on none of these line strings. Missing: the code can
keep one line string and one point only, with more of them it fails (`C80_points_violated`). -/
theorem C80_intersection_partial (B : Boost) (p q : Polygon2) (r : Isect2) (h : p.intersectionWith B q = .ok r) :
    ∃ (ps : List Polygon2) (ls : List (List V2)) (vs : List V2) (ps' : List Polygon2) (ls' : List (List V2)) (vs' : List V2), B.polygons p q = .ok ps ∧ B.lines p q = .ok ls ∧ B.points p q = .ok vs ∧
      List.Forall₂ (fun a b => Polygon2.ofBoost a = .ok b) ps ps' ∧
      r = .ofArray (ps'.map .polygon ++ (ls'.map fun l => .lineString (l.map some)) ++ vs'.map fun v => .point (some v)) ∧
      ls'.Sublist (ls.filter B.isValidLine) ∧
      (∀ l ∈ ls, B.isValidLine l = true → l ∈ ls' ∨ ∃ a ∈ ps', B.coveredByLine l a = .ok true) ∧
      (∀ l ∈ ls', ∀ a ∈ ps', B.coveredByLine l a = .ok false) ∧ vs'.Sublist vs ∧
      (∀ v ∈ vs, v ∈ vs' ∨ (∃ a ∈ ps', B.coveredBy v a = .ok true) ∨ ∃ l ∈ ls', LineString2.contains (l.map some) (some v) = .ok true) ∧
      (∀ v ∈ vs', (∀ a ∈ ps', B.coveredBy v a = .ok false) ∧ ∀ l ∈ ls', LineString2.contains (l.map some) (some v) = .ok false) ∧
      ls'.length ≤ 1 ∧ vs'.length ≤ 1 := by
  rw [Polygon2.intersectionWith] at h
  split at h
  · simp at h
  split at h
  · simp at h
  split at h
  · simp at h
  simp only [bind, Except.bind] at h
  split at h
  · simp at h
  rename_i ps hps
  split at h
  · simp at h
  rename_i ls hls
  split at h
  · simp at h
  rename_i vs hvs
  split at h
  · simp at h
  rename_i i hi
  split at h
  · simp at h
  rename_i j hj
  obtain ⟨ps', a1, a2⟩ := addPolygons_inv (os := []) hi
  subst a2
  have hj' : Polygon2.addLines B (.ofArray (ps'.map .polygon ++ ([] : List (List V2)).map fun l => .lineString (l.map some))) ls = .ok j := by
    simpa using hj
  obtain ⟨ls', b1, b2, b3, b4, -, b6⟩ := addLines_inv hj'
  subst b1
  have hr : Polygon2.addPoints B (.ofArray (ps'.map .polygon ++ (ls'.map fun l => .lineString (l.map some)) ++ ([] : List V2).map fun v => .point (some v))) vs = .ok r := by
    simpa using h
  obtain ⟨vs', c1, c2, c3, c4, -, c6⟩ := addPoints_inv hr
  exact ⟨ps, ls, vs, ps', ls', vs', rethrow_ok hps, rethrow_ok hls, rethrow_ok hvs, a1, by simpa using c1, b2, b3, b4, c2, c3, c4, b6, c6⟩

/-- **C80 violated.** Two valid polygons that have exactly two points in common have no intersection: the code fails when it looks for the second point
in the first. -/
theorem C80_points_violated (B : Boost) (p q : Polygon2) (u v : V2) (hp : p.isDefined = true) (hq : q.isDefined = true) (vp : B.isValid p = true)
    (vq : B.isValid q = true) (h1 : B.polygons p q = .ok []) (h2 : B.lines p q = .ok []) (h3 : B.points p q = .ok [u, v]) :
    p.intersectionWith B q = .error .toBeImplemented := by
  simp [Polygon2.intersectionWith, hp, hq, vp, vq, h1, h2, h3, rethrow, bind, Except.bind, pure, Except.pure, Polygon2.addPolygons, Polygon2.addLines, Polygon2.addPoints,
    Isect2.Empty, Isect2.ofArray, IType2.ofObjects, Isect2.accessComposite, Isect2.isDefined, Composite2.anyContains, Obj2.isDefined, Composite2.ofArray,
    Composite2.isDefined, Obj2.allDefined, Isect2.addAssign, Isect2.Point, Composite2.addAssign, Composite2.ofObject, Composite2.accessObjects,
    IType2.loop, IType2.ofObject, anyOf, Obj2.contains, Obj2.containsBase]

example : Polygon2.isDefined ⟨[0, 0, 0, 0], []⟩ = true ∧ sampleBoost.isValid ⟨[0, 0, 0, 0], []⟩ = true ∧
    sampleBoost.polygons ⟨[0, 0, 0, 0], []⟩ ⟨[0, 0, 0, 0], []⟩ = .ok [] ∧ sampleBoost.points ⟨[0, 0, 0, 0], []⟩ ⟨[0, 0, 0, 0], []⟩ = .ok [⟨0, 0⟩, ⟨1, 0⟩] := by
  simp [Polygon2.isDefined, sampleBoost]

/-- **C80.** The intersection of polygons that share nothing is empty; undefined and invalid polygons are refused. -/
theorem C80_empty (B : Boost) (p q : Polygon2) :
    (p.isDefined = true → q.isDefined = true → B.isValid p = true → B.isValid q = true → B.polygons p q = .ok [] → B.lines p q = .ok [] →
      B.points p q = .ok [] → p.intersectionWith B q = .ok .Empty) ∧
    (p.isDefined = false ∨ q.isDefined = false → p.intersectionWith B q = .error .undefined ∧ p.differenceWith B q = .error .undefined) ∧
    (p.isDefined = true → q.isDefined = true → B.isValid p = false ∨ B.isValid q = false →
      p.intersectionWith B q = .error .runtimeError ∧ p.differenceWith B q = .error .runtimeError) := by
  refine ⟨?_, ?_, ?_⟩
  · intro hp hq vp vq h1 h2 h3
    simp [Polygon2.intersectionWith, hp, hq, vp, vq, h1, h2, h3, rethrow, bind, Except.bind, pure, Except.pure, Polygon2.addPolygons, Polygon2.addLines,
      Polygon2.addPoints]
  · rintro (h | h) <;> simp [Polygon2.intersectionWith, Polygon2.differenceWith, h]
  · rintro hp hq (h | h)
    · simp [Polygon2.intersectionWith, Polygon2.differenceWith, hp, hq, h]
    · cases hv : B.isValid p <;> simp [Polygon2.intersectionWith, Polygon2.differenceWith, hp, hq, h, hv]

theorem addPolygons_ok : ∀ {ps ps' : List Polygon2} {os : List Obj2}, (∀ o ∈ os, o.isDefined = true) →
    List.Forall₂ (fun a b => Polygon2.ofBoost a = .ok b ∧ b.isDefined = true) ps ps' →
    Polygon2.addPolygons (.ofArray os) ps = .ok (.ofArray (os ++ ps'.map .polygon)) := by
  intro ps ps' os hos h
  induction h generalizing os with
  | nil => simp [Polygon2.addPolygons]
  | @cons a b l l' hab _ ih =>
    have e : (Isect2.ofArray os).addAssign (.Polygon b) = .ok (.ofArray (os ++ [.polygon b])) := by
      refine (C54_isect2_partial os [.polygon b] [] hos ?_ (by simp)).2.1
      intro o ho
      simp at ho
      subst ho
      exact ⟨hab.2, _, .polygon _⟩
    simp only [Polygon2.addPolygons, hab.1, bind, Except.bind, e]
    rw [ih]
    · simp
    · intro o ho
      rcases List.mem_append.1 ho with ho | ho
      · exact hos o ho
      · simp at ho
        subst ho
        exact hab.2

/-- **C80.** The difference of valid polygons consists of the polygons found by the geometry library; a failure of the library is reported. -/
theorem C80_difference (B : Boost) (p q : Polygon2) (hp : p.isDefined = true) (hq : q.isDefined = true) (vp : B.isValid p = true) (vq : B.isValid q = true) :
    (∀ ps, B.difference p q = .ok ps → (∀ a ∈ ps, DistinctRings a) → p.differenceWith B q = .ok (.ofArray (ps.map .polygon))) ∧
    (∀ e, B.difference p q = .error e → p.differenceWith B q = .error .runtimeError) ∧
    (∀ e, B.polygons p q = .error e → p.intersectionWith B q = .error .runtimeError) := by
  refine ⟨?_, ?_, ?_⟩
  · intro ps h hd
    simp only [Polygon2.differenceWith, hp, hq, vp, vq, h, rethrow, bind, Except.bind, Bool.not_true, Bool.or_self, Bool.false_eq_true, if_false]
    have := addPolygons_ok (ps := ps) (ps' := ps) (os := []) (by simp) ?_
    · simpa [Isect2.Empty] using this
    · rw [List.forall₂_same]
      intro a ha
      refine ⟨ofBoost_distinct (hd a ha), ?_⟩
      obtain ⟨us, is, h3, hn, hi, hc⟩ := hd a ha
      rw [Polygon2.ctor_ok h3 (fun r hr => (hi r hr).1), Except.ok.injEq] at hc
      subst hc
      simpa [Polygon2.isDefined] using (Ring.correctOuter_closed h3).length
  · intro e h
    simp [Polygon2.differenceWith, hp, hq, vp, vq, h, rethrow, bind, Except.bind]
  · intro e h
    simp [Polygon2.intersectionWith, hp, hq, vp, vq, h, rethrow, bind, Except.bind]

end Verif.Props
