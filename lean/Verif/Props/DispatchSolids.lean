import Verif.Props.Dispatch
import Verif.Props.Cone
import Verif.Props.Pyramid
import Verif.Props.PolygonIntersection

/-!
# Solids and composites asked through the base class

Properties C79, C83 and C84: what cones, pyramids and polygons answer when they are asked as objects, and equality of composites.
Code: `3D/Object.cpp`, `2D/Object.cpp`, `3D/Object/Composite.cpp`, `2D/Object/Composite.cpp`.
-/

namespace Verif.Props

open Verif Verif.Spec Classical

/-- **C83.** A cone of half-angle at most a quarter turn, asked through the base class about a point, point set, segment or ray, answers whether all its points are in
the solid cone. The points asked about are the apex or not too close to it. -/
theorem C83_contains_cone (E : Env3) (he : 0 < E.eps) (he1 : E.eps ≤ 1) (a d : V3) (t : Angle) (x : ℝ) (ht : Measures t x) (h0 : 0 ≤ x) (h1 : x ≤ 1 / 4)
    (hd : E.eps ≤ d.normSq) (b : Obj3) (T : Set V3) (hb : Denotes b T)
    (hk : (∃ p, b = .point (some p) ∧ (p = a ∨ E.eps ≤ (p - a).normSq)) ∨
      (∃ ps : List V3, b = .pointSet (ps.map some) ∧ ∀ p ∈ ps, p = a ∨ E.eps ≤ (p - a).normSq) ∨
      (∃ p q, b = .segment ⟨some p, some q⟩ ∧ (p = a ∨ E.eps ≤ (p - a).normSq) ∧ (q = a ∨ E.eps ≤ (q - a).normSq)) ∨
      ∃ p u, b = .ray ⟨some p, some u⟩ ∧ (p = a ∨ E.eps ≤ (p - a).normSq)) :
    ∃ r, Obj3.contains E (.cone ⟨some a, some d, t⟩) b = .ok r ∧ (r = true ↔ T ⊆ ConeSet a d (2 * Real.pi * x)) := by
  have hdef := denotes_defined hb
  rcases hk with ⟨p, rfl, hp⟩ | ⟨ps, rfl, hp⟩ | ⟨p, q, rfl, hp, hq⟩ | ⟨p, u, rfl, hp⟩
  · cases hb
    obtain ⟨r, hr, h⟩ := C50_contains E.eps he a d p t x ht h0 h1 hd hp
    exact ⟨r, by simpa [Obj3.contains, Obj3.containsBase, hdef] using hr, by simpa using h⟩
  · obtain ⟨r, hr, h⟩ := C50_set E.eps he a d ps t x ht h0 h1 hd hp
    refine ⟨r, by simpa [Obj3.contains, Obj3.containsBase, hdef] using hr, ?_⟩
    rw [denotes_unique hb (T := {p | p ∈ ps}) ?_]
    · exact h
    · generalize hg : (ps.map some) = qs at hb
      cases hb with
      | pointSet rs hne hnd =>
        obtain rfl : ps = rs := List.map_injective_iff.2 (Option.some_injective _) hg
        rw [← hg] at *
        exact .pointSet ps hne hnd
  · cases hb
    obtain ⟨r, hr, h⟩ := C50_segment E.eps he a d p q t x ht h0 h1 hd hp hq
    exact ⟨r, by simpa [Obj3.contains, Obj3.containsBase, hdef] using hr, h⟩
  · cases hb
    obtain ⟨r, hr, h⟩ := C50_ray E.eps he he1 a d p u (by assumption) t x ht h0 h1 hd hp
    exact ⟨r, by simpa [Obj3.contains, Obj3.containsBase, hdef] using hr, h⟩

example : Measures ⟨some 30, .degree⟩ (1 / 12) ∧ Denotes (.segment ⟨some 0, some V3.Z⟩) (SegSet 0 V3.Z) ∧ ((0 : V3) = 0 ∨ (1 / 1000 : ℝ) ≤ (0 : V3).normSq) ∧
    (1 / 1000 : ℝ) ≤ (V3.Z - 0).normSq :=
  ⟨⟨30, rfl, by simp, by norm_num [perTurn]⟩, .segment _ _, .inl rfl, by norm_num [V3.normSq, V3.dot, V3.Z]⟩

/-- **C83.** A pyramid on a convex base, asked through the base class about a point, point set or segment, answers whether all its points are in the solid. -/
theorem C83_contains_pyramid (E : Env3) (he : 0 < E.eps) (P : Polygon2) (hP : P.isDefined = true) (R : Set V2) (hR : ConvexRegion R)
    (hB : ∀ v, ∃ b, E.boost.coveredBy v P = .ok b ∧ (b = true ↔ v ∈ R)) (o x y : V3) (h : Frame x y) (a : V3) (ha : (x.cross y).dot (o - a) ≠ 0) (p q : V3) (ps : List V3)
    (hps : ps ≠ []) :
    (∃ r, Obj3.contains E (.pyramid ⟨⟨P, some o, some x, some y⟩, some a⟩) (.point (some p)) = .ok r ∧ (r = true ↔ p ∈ PyramidSet a (BaseSet o x y R))) ∧
    (∃ r, Obj3.contains E (.pyramid ⟨⟨P, some o, some x, some y⟩, some a⟩) (.pointSet (ps.map some)) = .ok r ∧
      (r = true ↔ ∀ p ∈ ps, p ∈ PyramidSet a (BaseSet o x y R))) ∧
    ∃ r, Obj3.contains E (.pyramid ⟨⟨P, some o, some x, some y⟩, some a⟩) (.segment ⟨some p, some q⟩) = .ok r ∧
      (r = true ↔ SegSet p q ⊆ PyramidSet a (BaseSet o x y R)) := by
  obtain ⟨-, -, -, h4, h5⟩ := C60_solid E.eps he E.boost P hP R hB o x y h a ha
  have h1 := C60_contains E.eps he E.boost P hP R hB o x y h a ha p
  refine ⟨?_, ?_, ?_⟩
  · simpa [Obj3.contains, Obj3.containsBase, Obj3.isDefined] using h1
  · simpa [Obj3.contains, Obj3.containsBase, Obj3.isDefined, hps] using h5 ps
  · simpa [Obj3.contains, Obj3.containsBase, Obj3.isDefined, Seg3.isDefined] using (h4 hR p q).2

/-- the hypotheses on the pyramid are met by one on the unit square (example beside `C60_solid`); a point set and a segment to ask about -/
example : ∃ (B : Boost) (P : Polygon2) (R : Set V2), P.isDefined = true ∧ (∀ v, ∃ b, B.coveredBy v P = .ok b ∧ (b = true ↔ v ∈ R)) ∧ ConvexRegion R ∧
    R.Nonempty ∧ R ≠ Set.univ ∧ [(0 : V3), V3.X] ≠ [] := by
  refine ⟨{ sampleBoost with coveredBy := fun v _ => .ok (decide (0 ≤ v.x)) }, ⟨[0, 0, 0, 0], []⟩, {v | 0 ≤ v.x}, rfl, fun v => ⟨_, rfl, by simp⟩, ?_, ⟨0, by simp⟩, ?_, by simp⟩
  · intro v hv w hw s s0 s1
    simp only [Set.mem_setOf_eq] at *
    simp; nlinarith
  · intro h
    have : (⟨-1, 0⟩ : V2) ∈ {v : V2 | 0 ≤ v.x} := by rw [h]; trivial
    norm_num at this

/-- **C84.** Composites are equal exactly when both are defined and their members are equal one by one. -/
theorem C84_equality (E : Env3) (c d : Composite3) :
    (c.eq E d = .ok true ↔ c.isDefined = true ∧ d.isDefined = true ∧ List.Forall₂ (fun o p => Obj3.eq E o p = .ok true) c.objects d.objects) ∧
    (c.isDefined = true → d.isDefined = true → Obj3.eq E c.toObj d.toObj = c.eq E d) := by
  have loop : ∀ os ps : List Obj3, os.length = ps.length → (Obj3.eqLoop E os ps = .ok true ↔ List.Forall₂ (fun o p => Obj3.eq E o p = .ok true) os ps) := by
    intro os
    induction os with
    | nil => intro ps hl; cases ps with
      | nil => simp [Obj3.eqLoop]
      | cons => simp at hl
    | cons o os ih => intro ps hl; cases ps with
      | nil => simp at hl
      | cons p ps =>
        rw [Obj3.eqLoop, List.forall₂_cons, ← ih ps (by simpa using hl)]
        cases hop : Obj3.eq E o p with
        | error e => simp
        | ok b => cases b <;> simp
  constructor
  · unfold Composite3.eq
    cases hc : c.isDefined <;> cases hd : d.isDefined <;> simp
    by_cases hl : c.objects.length = d.objects.length
    · simp only [if_pos hl]; exact loop _ _ hl
    · simp only [if_neg hl]
      exact ⟨fun h => by simp at h, fun h => absurd h.length_eq hl⟩
  · intro hc hd
    have hd' : Obj3.isDefined (.composite d.defined d.objects) = true := hd
    have hc' : (c.defined && Obj3.allDefined c.objects) = true := hc
    simp only [Composite3.eq, Composite3.toObj, Obj3.eq, hc', hd', hc, hd]

example : (Composite3.mk true [.point (some 0), .point (some V3.X)]).isDefined = true ∧ (Composite3.mk true [.point (some 0)]).isDefined = true := by
  constructor <;> simp [Composite3.isDefined, Obj3.allDefined, Obj3.isDefined]

/-- **C79.** Composites in the plane are equal exactly when both are defined and their members are equal one by one. -/
theorem C79_equality2 (B : Boost) (c d : Composite2) :
    c.eq B d = true ↔ c.isDefined = true ∧ d.isDefined = true ∧ List.Forall₂ (fun o p => Obj2.eq B o p = true) c.objects d.objects := by
  have loop : ∀ os ps : List Obj2, os.length = ps.length → (Composite2.eqLoop B os ps = true ↔ List.Forall₂ (fun o p => Obj2.eq B o p = true) os ps) := by
    intro os
    induction os with
    | nil => intro ps hl; cases ps with
      | nil => simp [Composite2.eqLoop]
      | cons => simp at hl
    | cons o os ih => intro ps hl; cases ps with
      | nil => simp at hl
      | cons p ps =>
        rw [Composite2.eqLoop, List.forall₂_cons, ← ih ps (by simpa using hl)]
        cases hop : Obj2.eq B o p <;> simp
  unfold Composite2.eq
  cases hc : c.isDefined <;> cases hd : d.isDefined <;> simp
  constructor
  · rintro ⟨hl, h⟩; exact (loop _ _ hl).1 h
  · intro h; exact ⟨h.length_eq, (loop _ _ h.length_eq).2 h⟩

example : (Composite2.ofArray [.point (some 0), .point (some ⟨1, 0⟩)]).isDefined = true ∧ (Composite2.ofArray [.point (some 0)]).isDefined = true := by
  constructor <;> simp [Composite2.isDefined, Composite2.ofArray, Obj2.allDefined, Obj2.isDefined]

/-- **C79.** A polygon asked through the base class about a point set answers whether every point is covered. -/
theorem C79_polygon_set (B : Boost) (P : Polygon2) (hP : P.isDefined = true) (R : Set V2)
    (hB : ∀ v, ∃ b, B.coveredBy v P = .ok b ∧ (b = true ↔ v ∈ R)) (ps : List V2) (hps : ps ≠ []) :
    ∃ r, Obj2.contains B (.polygon P) (.pointSet (ps.map some)) = .ok r ∧ (r = true ↔ ∀ p ∈ ps, p ∈ R) := by
  have key : ∃ r, allOf (Polygon2.containsImpl B P) (ps.map some) = .ok r ∧ (r = true ↔ ∀ p ∈ ps, p ∈ R) := by
    clear hps
    induction ps with
    | nil => exact ⟨true, rfl, by simp⟩
    | cons p ps ih =>
      obtain ⟨b, h1, h2⟩ := hB p
      obtain ⟨r, h3, h4⟩ := ih
      have : Polygon2.containsImpl B P (some p) = .ok b := by simp [Polygon2.containsImpl, need, bind, Except.bind, h1, rethrow]
      simp only [List.map_cons, allOf, this]
      cases b with
      | false => exact ⟨false, rfl, by simpa using fun k => absurd k (by simpa using h2)⟩
      | true => exact ⟨r, h3, by rw [h4]; simpa using fun _ => h2⟩
  simpa [Obj2.contains, Obj2.containsBase, Obj2.isDefined, Polygon2.containsSet, hP, hps] using key

example : ∃ (B : Boost) (P : Polygon2) (R : Set V2), P.isDefined = true ∧ (∀ v, ∃ b, B.coveredBy v P = .ok b ∧ (b = true ↔ v ∈ R)) ∧
    (⟨1, 0⟩ : V2) ∈ R ∧ (⟨-1, 0⟩ : V2) ∉ R :=
  ⟨{ sampleBoost with coveredBy := fun v _ => .ok (decide (0 ≤ v.x)) }, ⟨[0, 0, 0, 0], []⟩, {v | 0 ≤ v.x}, rfl, fun v => ⟨_, rfl, by simp⟩, by simp, by norm_num⟩

end Verif.Props
