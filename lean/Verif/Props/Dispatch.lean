import Verif.Props.Composite
import Verif.Props.PyramidFaces
import Verif.Props.Cuboid
import Verif.Props.EllipsoidTransformation
import Verif.Spec.Dispatch

/-!
# C56, C57, C83–C85: the base class of the objects
-/

namespace Verif.Props

open Verif Verif.Spec Classical

/-! ## Equality -/

theorem P3.eq_self (p : V3) : P3.eq (some p) (some p) = true := P3.eq_iff.2 rfl

theorem sameSet_self {ps : List (Option V3)} (h : none ∉ ps) : PointSet3.eq ps ps = true := by
  simp only [PointSet3.eq, Points.sameSet, decide_true, Bool.true_and, List.all_eq_true, List.any_eq_true]
  intro p hp
  cases p with
  | none => exact absurd hp h
  | some p => exact ⟨some p, hp, P3.eq_self p⟩

theorem sameArray_self {ps : List (Option V3)} (h : none ∉ ps) : LineString3.eq ps ps = true := by
  induction ps with
  | nil => rfl
  | cons p ps ih =>
    cases p with
    | none => simp at h
    | some p =>
      have := ih (by simpa using h)
      rw [LineString3.eq, Points.sameArray, P3.eq_self]
      simpa [LineString3.eq] using this

theorem polygon_self {B : Boost} (hB : ∀ p : Polygon2, p.isDefined = true → B.equals p p = true) {p : Polygon3} (h : p.isDefined = true) :
    p.eq B p = true := by
  obtain ⟨g, o, x, y⟩ := p
  simp only [Polygon3.isDefined, Bool.and_eq_true, Option.isSome_iff_exists] at h
  obtain ⟨⟨⟨hg, o, rfl⟩, x, rfl⟩, y, rfl⟩ := h
  simp [Polygon3.eq, Polygon3.isDefined, hg, Polygon2.eq, hB g hg, P3.eq_self]

theorem eqLoop_self (E : Env3) (os : List Obj3) (h : ∀ o ∈ os, Obj3.eq E o o = .ok true) : Obj3.eqLoop E os os = .ok true := by
  induction os with
  | nil => rw [Obj3.eqLoop]; simp
  | cons o os ih => rw [Obj3.eqLoop, h o (by simp)]; exact ih fun p hp => h p (by simp [hp])

theorem measures_exists {a : Angle} (h : a.isDefined = true) : ∃ x, Measures a x := by
  obtain ⟨v, u⟩ := a
  simp only [Angle.isDefined, Bool.and_eq_true, Option.isSome_iff_exists, decide_eq_true_eq] at h
  obtain ⟨⟨v, rfl⟩, hu⟩ := h
  have : perTurn u ≠ 0 := by cases u <;> simp [perTurn, Real.pi_ne_zero] at hu ⊢
  exact ⟨v / perTurn u, v, rfl, hu, by field_simp⟩

theorem obj3_induction {P : Obj3 → Prop} (atom : ∀ o, (∀ d os, o ≠ .composite d os) → P o)
    (comp : ∀ d os, (∀ o ∈ os, P o) → P (.composite d os)) (o : Obj3) : P o := by
  match o with
  | .composite d os => exact comp d os fun o ho => obj3_induction atom comp o
  | .point _ | .pointSet _ | .line _ | .ray _ | .segment _ | .lineString _ | .polygon _ | .plane _ | .cuboid _ | .sphere _ | .ellipsoid _ | .pyramid _
  | .cone _ => exact atom _ (by simp)
termination_by sizeOf o
decreasing_by
  have := List.sizeOf_lt_of_mem ho
  simp; omega

/-- **C56, in space.** A defined object without a point set or line string that holds an undefined point is equal to itself, whatever its type and however deep
its composites are nested, provided `boost::geometry::equals` holds of a polygon and itself. -/
theorem C56_space_partial (E : Env3) (hB : ∀ p : Polygon2, p.isDefined = true → E.boost.equals p p = true) (o : Obj3) (hd : o.isDefined = true)
    (hg : ¬Has Gap o) : Obj3.eq E o o = .ok true := by
  induction o using obj3_induction with
  | comp d os ih =>
    have hos := hd
    simp only [Obj3.isDefined, Bool.and_eq_true] at hos
    have := eqLoop_self E os fun o ho => ih o ho ((allDefined3_iff os).1 hos.2 o ho) fun h => hg (.member ho h)
    rw [Obj3.eq]
    simp [Obj3.isDefined, hos, this]
  | atom o ho =>
    cases o with
    | composite d os => exact absurd rfl (ho d os)
    | point p =>
      obtain ⟨p, rfl⟩ := Option.isSome_iff_exists.1 hd
      simp [Obj3.eq, P3.eq_self]
    | pointSet ps =>
      simp only [Obj3.isDefined] at hd
      simp [Obj3.eq, sameSet_self fun h => hg (.self (.pointSet h))] at hd ⊢
      exact hd
    | lineString ps =>
      simp only [Obj3.isDefined] at hd
      simp [Obj3.eq, sameArray_self fun h => hg (.self (.lineString h))] at hd ⊢
      exact hd
    | line l =>
      obtain ⟨o, d⟩ := l
      simp only [Obj3.isDefined, Line3.isDefined, Bool.and_eq_true, Option.isSome_iff_exists] at hd
      obtain ⟨⟨o, rfl⟩, d, rfl⟩ := hd
      have : o - o = 0 := V3.sub_eq_zero'.2 rfl
      simp [Obj3.eq, Line3.isDefined, Line3.eq, Line3.contains, need, this, V3.cross, V3.normSq, V3.dot, bind, Except.bind, pure, Except.pure]
    | ray r =>
      obtain ⟨o, d⟩ := r
      simp only [Obj3.isDefined, Ray3.isDefined, Bool.and_eq_true, Option.isSome_iff_exists] at hd
      obtain ⟨⟨o, rfl⟩, d, rfl⟩ := hd
      simp [Obj3.eq, Ray3.isDefined, Ray3.eq, P3.eq_self]
    | segment r =>
      obtain ⟨o, d⟩ := r
      simp only [Obj3.isDefined, Seg3.isDefined, Bool.and_eq_true, Option.isSome_iff_exists] at hd
      obtain ⟨⟨o, rfl⟩, d, rfl⟩ := hd
      simp [Obj3.eq, Seg3.isDefined, Seg3.eq, P3.eq_self]
    | plane r =>
      obtain ⟨o, d⟩ := r
      simp only [Obj3.isDefined, Plane3.isDefined, Bool.and_eq_true, Option.isSome_iff_exists] at hd
      obtain ⟨⟨o, rfl⟩, d, rfl⟩ := hd
      simp [Obj3.eq, Plane3.isDefined, Plane3.eq, P3.eq_self]
    | polygon p =>
      simp only [Obj3.isDefined] at hd
      simp [Obj3.eq, hd, polygon_self hB hd]
    | cuboid c =>
      obtain ⟨o, a, b, c, e, f, g⟩ := c
      simp only [Obj3.isDefined, Cuboid3.isDefined, Bool.and_eq_true, Option.isSome_iff_exists] at hd
      obtain ⟨⟨⟨⟨⟨⟨⟨o, rfl⟩, a, rfl⟩, b, rfl⟩, c, rfl⟩, e, rfl⟩, f, rfl⟩, g, rfl⟩ := hd
      simp [Obj3.eq, Cuboid3.isDefined, Cuboid3.eq, Cuboid3.need, Cuboid3.sameAxis, need, bind, Except.bind, pure, Except.pure]
    | sphere s =>
      obtain ⟨c, r⟩ := s
      simp only [Obj3.isDefined, Sphere3.isDefined, Bool.and_eq_true, Option.isSome_iff_exists] at hd
      obtain ⟨⟨c, rfl⟩, r, rfl⟩ := hd
      simp [Obj3.eq, Sphere3.isDefined, Sphere3.eq, P3.eq_self]
    | ellipsoid e =>
      obtain ⟨p, a, b, c, q⟩ := e
      simp only [Obj3.isDefined, Ellipsoid3.isDefined, Bool.and_eq_true, Option.isSome_iff_exists] at hd
      obtain ⟨⟨⟨⟨⟨p, rfl⟩, a, rfl⟩, b, rfl⟩, c, rfl⟩, q, rfl⟩ := hd
      simp [Obj3.eq, Ellipsoid3.isDefined, Ellipsoid3.eq, Ellipsoid3.need, need, P3.eq_self, QuatObj.eq, Quat.beq, bind, Except.bind, pure, Except.pure]
    | pyramid p =>
      obtain ⟨b, a⟩ := p
      simp only [Obj3.isDefined, Pyramid3.isDefined, Bool.and_eq_true, Option.isSome_iff_exists] at hd
      obtain ⟨hb, a, rfl⟩ := hd
      simp [Obj3.eq, Pyramid3.isDefined, Pyramid3.eq, hb, polygon_self hB hb, P3.eq_self]
    | cone c =>
      obtain ⟨a, d, t⟩ := c
      simp only [Obj3.isDefined, Cone3.isDefined, Bool.and_eq_true, Option.isSome_iff_exists] at hd
      obtain ⟨⟨⟨a, rfl⟩, d, rfl⟩, ht⟩ := hd
      obtain ⟨x, hx⟩ := measures_exists ht
      obtain ⟨r, hr, h, -⟩ := C50_eq a d a d t t x x hx hx
      have : r = true := h.2 ⟨rfl, .inl ⟨rfl, 0, by simp⟩⟩
      simp [Obj3.eq, Cone3.isDefined, ht, hr, this]

/-- the hypotheses of `C56_space_partial` are met by a composite of a point and a composite of a line string -/
example : (Obj3.composite true [.point (some 0), .composite true [.lineString [some 0, some V3.X]]]).isDefined = true ∧
    ¬Has Gap (Obj3.composite true [.point (some 0), .composite true [.lineString [some 0, some V3.X]]]) := by
  refine ⟨by simp [Obj3.isDefined, Obj3.allDefined], fun h => ?_⟩
  rcases h with ⟨⟨⟩⟩ | ⟨ho, h⟩
  simp only [List.mem_cons, List.not_mem_nil, or_false] at ho
  rcases ho with rfl | rfl
  · rcases h with ⟨⟨⟩⟩
  · rcases h with ⟨⟨⟩⟩ | ⟨ho, h⟩
    simp only [List.mem_cons, List.not_mem_nil, or_false] at ho
    subst ho
    rcases h with ⟨h⟩
    cases h with | lineString h => simp at h

/-- **C56, in space, violated.** A line string and a point set that hold an undefined point are defined but not equal to themselves, and neither is a composite
of such. -/
theorem C56_space_violated (E : Env3) (ps : List (Option V3)) (h : none ∈ ps) :
    ∀ o ∈ [Obj3.lineString ps, .pointSet ps, .composite true [.lineString ps]], o.isDefined = true ∧ Obj3.eq E o o = .ok false := by
  have he : ps.isEmpty = false := by cases ps <;> simp at h ⊢
  have h1 : LineString3.eq ps ps = false := by
    clear he
    induction ps with
    | nil => simp at h
    | cons p ps ih =>
      rw [LineString3.eq, Points.sameArray]
      rcases List.mem_cons.1 h with rfl | h
      · simp [P3.eq]
      · have := ih h
        rw [LineString3.eq] at this
        simp [this]
  have h2 : PointSet3.eq ps ps = false := by
    rw [← Bool.not_eq_true]
    intro hc
    simp only [PointSet3.eq, Points.sameSet, Bool.and_eq_true, List.all_eq_true, List.any_eq_true] at hc
    obtain ⟨q, -, hq⟩ := hc.2 none h
    simp [P3.eq] at hq
  have h3 : Obj3.eq E (.lineString ps) (.lineString ps) = .ok false := by simp [Obj3.eq, h1]
  intro o ho
  simp only [List.mem_cons, List.not_mem_nil, or_false] at ho
  rcases ho with rfl | rfl | rfl
  · exact ⟨by simp [Obj3.isDefined, he], h3⟩
  · exact ⟨by simp [Obj3.isDefined, he], by simp [Obj3.eq, h2]⟩
  · refine ⟨by simp [Obj3.isDefined, Obj3.allDefined, he], ?_⟩
    rw [Obj3.eq]
    simp [Obj3.isDefined, Obj3.allDefined, he, Obj3.eqLoop, h3]

example : (none : Option V3) ∈ [some 0, none] := by simp

/-- **C56, in the plane.** Points, polygons and multi-polygons are equal to themselves, provided `boost::geometry::equals` holds of a region and itself; a defined
object of any other type is not. -/
theorem C56_plane_violated (B : Boost) (h1 : ∀ p : Polygon2, p.isDefined = true → B.equals p p = true)
    (h2 : ∀ ps, MultiPolygon2.isDefined ps = true → B.equalsMulti ps ps = true) (o : Obj2) (hd : o.isDefined = true) :
    Obj2.eq B o o = true ↔ (∃ p, o = .point p) ∨ (∃ p, o = .polygon p) ∨ ∃ ps, o = .multiPolygon ps := by
  cases o <;> simp [Obj2.eq, hd]
  · obtain ⟨p, rfl⟩ := Option.isSome_iff_exists.1 hd
    simp [P2.eq]
  · simp only [Obj2.isDefined] at hd
    simp [Polygon2.eq, hd, h1 _ hd]
  · simp only [Obj2.isDefined] at hd
    simp [MultiPolygon2.eq, hd, h2 _ hd]

/-- a line, a segment, a point set, a line string and a composite of the plane that are defined -/
example : ∀ o ∈ [Obj2.line ⟨some 0, some ⟨1, 0⟩⟩, .segment ⟨some 0, some ⟨1, 0⟩⟩, .pointSet [some 0], .lineString [some 0], .composite true [.point (some 0)]],
    o.isDefined = true := by
  simp [Obj2.isDefined, Obj2.allDefined, Line2.isDefined, Seg2.isDefined]

/-! ## Intersection test -/

theorem anyIntersects_ok {E : Env3} {os : List Obj3} {b : Obj3} {r : Bool} (h : Obj3.anyIntersects E os b = .ok r) :
    (r = true → ∃ o ∈ os, Obj3.intersects E o b = .ok true) ∧ (r = false → ∀ o ∈ os, Obj3.intersects E o b = .ok false) := by
  induction os with
  | nil => rw [Obj3.anyIntersects] at h; cases h; simp
  | cons o os ih =>
    rw [Obj3.anyIntersects] at h
    split at h
    · cases h
    · rename_i h1; cases h; simp [h1]
    · rename_i h1
      obtain ⟨i1, i2⟩ := ih h
      refine ⟨fun hr => ?_, fun hr => ?_⟩
      · obtain ⟨p, hp, hq⟩ := i1 hr; exact ⟨p, by simp [hp], hq⟩
      · simpa [h1] using i2 hr

theorem denotes_defined {o : Obj3} {S : Set V3} (h : Denotes o S) : o.isDefined = true := by
  induction h with
  | composite os f h ih => simpa [Obj3.isDefined, allDefined3_iff] using ih
  | pointSet ps h _ => simp [Obj3.isDefined, h]
  | _ => simp [Obj3.isDefined, Line3.isDefined, Ray3.isDefined, Seg3.isDefined, Plane3.isDefined, Sphere3.isDefined, Ellipsoid3.isDefined]

/-- **C57.** For defined objects that are not composites the test of intersection does not depend on the order of the operands: both orders give the same answer, the
same error, or both are not implemented. A plane with a point or a point set is the exception. -/
theorem C57_symmetric_partial (E : Env3) (a b : Obj3) (ha : a.isDefined = true) (hb : b.isDefined = true) (hc : ∀ d os, a ≠ .composite d os)
    (hd : ∀ d os, b ≠ .composite d os) (h1 : ∀ n, (∃ p, a = .point p) ∨ (∃ p, a = .pointSet p) → b ≠ .plane n)
    (h2 : ∀ n, (∃ p, b = .point p) ∨ (∃ p, b = .pointSet p) → a ≠ .plane n) :
    Obj3.intersects E a b = Obj3.intersects E b a := by
  cases a <;> cases b <;> simp_all [Obj3.intersects, Obj3.intersectsBase]

example : (Obj3.sphere ⟨some 0, some 1⟩).isDefined = true ∧ (Obj3.ray ⟨some 0, some V3.X⟩).isDefined = true := by
  simp [Obj3.isDefined, Sphere3.isDefined, Ray3.isDefined]

/-- **C57, violated.** A plane answers for a point, a point does not answer for a plane; a composite answers for an object, the object does not answer for the
composite. -/
theorem C57_violated (E : Env3) :
    (∃ r, Obj3.intersects E (.plane ⟨some 0, some V3.X⟩) (.point (some 0)) = .ok r ∧
      Obj3.intersects E (.point (some 0)) (.plane ⟨some 0, some V3.X⟩) = .error .toBeImplemented) ∧
    (∃ r, Obj3.intersects E (.plane ⟨some 0, some V3.X⟩) (.pointSet [some 0]) = .ok r ∧
      Obj3.intersects E (.pointSet [some 0]) (.plane ⟨some 0, some V3.X⟩) = .error .toBeImplemented) ∧
    ∃ r, Obj3.intersects E (.composite true [.ray ⟨some 0, some V3.X⟩]) (.plane ⟨some 0, some V3.X⟩) = .ok r ∧
      Obj3.intersects E (.plane ⟨some 0, some V3.X⟩) (.composite true [.ray ⟨some 0, some V3.X⟩]) = .error .toBeImplemented := by
  obtain ⟨c1, -, -, -, -, c2⟩ := C45_contains 0 V3.X
  obtain ⟨r, hr, -⟩ := c1 0
  obtain ⟨s, hs, -⟩ := c2 [0] (by simp)
  obtain ⟨⟨t, ht, -⟩, -⟩ := C46_ray 0 V3.X 0 V3.X
  refine ⟨⟨r, ?_, ?_⟩, ⟨s, ?_, ?_⟩, t, ?_, ?_⟩
  · simpa [Obj3.intersects, Obj3.intersectsBase, Obj3.isDefined] using hr
  · simp [Obj3.intersects, Obj3.intersectsBase, Obj3.isDefined, Plane3.isDefined]
  · simpa [Obj3.intersects, Obj3.intersectsBase, Obj3.isDefined] using hs
  · simp [Obj3.intersects, Obj3.intersectsBase, Obj3.isDefined, Plane3.isDefined]
  · cases t <;> simp [Obj3.intersects, Obj3.intersectsBase, Obj3.anyIntersects, Obj3.isDefined, Obj3.allDefined, Plane3.isDefined, Ray3.isDefined, ht]
  · simp [Obj3.intersects, Obj3.intersectsBase, Obj3.isDefined, Obj3.allDefined, Ray3.isDefined]

/-- a line, ray or segment and a plane, sphere or ellipsoid: the answer of the overload -/
theorem straight_bent {E : Env3} (he : 0 < E.eps) {a b : Obj3} {S T : Set V3} (ha : Denotes a S) (hb : Denotes b T) (hs : Straight a) (ht : Bent b)
    (hx : ¬((∃ s, a = .segment s) ∧ ∃ e, b = .ellipsoid e)) :
    ∃ r, Obj3.intersects E a b = .ok r ∧ Obj3.intersects E b a = .ok r ∧ (r = true ↔ (S ∩ T).Nonempty) := by
  have main : ∃ r, Obj3.intersectsBase E a b = .ok r ∧ (r = true ↔ (S ∩ T).Nonempty) := by
    cases ha <;> cases hs <;> cases hb <;> cases ht
    · rename_i o d h q n _
      simpa [Obj3.intersectsBase, Obj3.isDefined, Plane3.isDefined] using (C46_line q n o d).1
    · rename_i o d h c r hr
      simpa [Obj3.intersectsBase, Obj3.isDefined, Sphere3.isDefined] using (C48_line c r o d h).2
    · rename_i o d h p a b c q h1 h2 h3 h4
      have := (C76_line E.eps he p a b c h1 h2 h3 q h4 o d (V3.ne_zero_of_unit h)).2
      simpa [Obj3.intersectsBase, Obj3.isDefined, Ellipsoid3.isDefined, ell, Surface] using this
    · rename_i o d h q n _
      simpa [Obj3.intersectsBase, Obj3.isDefined, Plane3.isDefined] using (C46_ray q n o d).1
    · rename_i o d h c r hr
      simpa [Obj3.intersectsBase, Obj3.isDefined, Sphere3.isDefined] using (C48_ray E.eps he c r o d h).2
    · rename_i o d h p a b c q h1 h2 h3 h4
      have := (C76_ray E.eps he p a b c h1 h2 h3 q h4 o d h).2
      simpa [Obj3.intersectsBase, Obj3.isDefined, Ellipsoid3.isDefined, ell, Surface] using this
    · rename_i o d q n _
      simpa [Obj3.intersectsBase, Obj3.isDefined, Plane3.isDefined] using (C46_segment q n o d).1
    · rename_i o d c r hr
      simpa [Obj3.intersectsBase, Obj3.isDefined, Sphere3.isDefined] using (C48_segment E.eps he c r o d).2
    · exact absurd ⟨⟨_, rfl⟩, _, rfl⟩ hx
  obtain ⟨r, h1, h2⟩ := main
  have e1 : Obj3.intersects E a b = Obj3.intersectsBase E a b := by cases hs <;> rw [Obj3.intersects]
  have e2 : Obj3.intersects E b a = Obj3.intersects E a b := by
    apply C57_symmetric_partial E b a (denotes_defined hb) (denotes_defined ha) <;> cases hs <;> cases ht <;> simp
  exact ⟨r, e1.trans h1, e2.trans (e1.trans h1), h2⟩

/-- a plane and a point or point set -/
theorem plane_points {E : Env3} {q n : V3} {b : Obj3} {T : Set V3} (hb : Denotes b T) (hp : (∃ p, b = .point p) ∨ ∃ ps, b = .pointSet ps) :
    ∃ r, Obj3.intersects E (.plane ⟨some q, some n⟩) b = .ok r ∧ (r = true ↔ (PlaneSet q n ∩ T).Nonempty) := by
  obtain ⟨c1, -, -, -, -, c2⟩ := C45_contains q n
  cases hb with
  | point p =>
    obtain ⟨r, hr, h⟩ := c1 p
    refine ⟨r, by simpa [Obj3.intersects, Obj3.intersectsBase, Obj3.isDefined] using hr, h.trans ⟨fun k => ⟨p, k, rfl⟩, ?_⟩⟩
    rintro ⟨x, hx, rfl⟩; exact hx
  | pointSet ps hne _ =>
    obtain ⟨r, hr, h⟩ := c2 ps hne
    refine ⟨r, ?_, h.trans ⟨fun ⟨p, hp, k⟩ => ⟨p, k, hp⟩, fun ⟨p, k, hp⟩ => ⟨p, hp, k⟩⟩⟩
    simpa [Obj3.intersects, Obj3.intersectsBase, Obj3.isDefined, hne] using hr
  | _ => simp at hp

/-- the pairs for which the test is implemented -/
theorem answered {E : Env3} {a b : Obj3} {S T : Set V3} {r : Bool} (ha : Denotes a S) (hb : Denotes b T) (hc : ∀ d os, a ≠ .composite d os)
    (h : Obj3.intersects E a b = .ok r) :
    (Straight a ∧ Bent b) ∨ (Bent a ∧ Straight b) ∨ (∃ n, a = .plane n) ∧ ((∃ p, b = .point p) ∨ ∃ ps, b = .pointSet ps) := by
  cases ha with
  | composite => simp at hc
  | _ =>
    cases hb <;> simp [Obj3.intersects, Obj3.intersectsBase] at h <;>
      first
      | exact .inl ⟨by constructor, by constructor⟩
      | exact .inr (.inl ⟨by constructor, by constructor⟩)
      | exact .inr (.inr ⟨⟨_, rfl⟩, .inl ⟨_, rfl⟩⟩)
      | exact .inr (.inr ⟨⟨_, rfl⟩, .inr ⟨_, rfl⟩⟩)
      | (split at h <;> cases h)

theorem intersects_atom {E : Env3} (he : 0 < E.eps) {a b : Obj3} {S T : Set V3} (ha : Denotes a S) (hb : Denotes b T) (hc : ∀ d os, a ≠ .composite d os)
    (h1 : ¬(Has (fun o => ∃ s, o = .segment s) a ∧ ∃ e, b = .ellipsoid e)) (h2 : ¬(Has (fun o => ∃ e, o = .ellipsoid e) a ∧ ∃ s, b = .segment s))
    {r : Bool} (h : Obj3.intersects E a b = .ok r) : r = true ↔ (S ∩ T).Nonempty := by
  rcases answered ha hb hc h with ⟨hs, ht⟩ | ⟨ht, hs⟩ | ⟨⟨n, rfl⟩, hp⟩
  · obtain ⟨q, e1, -, e3⟩ := straight_bent he ha hb hs ht fun k => h1 ⟨.self k.1, k.2⟩
    rw [e1] at h; cases h; exact e3
  · obtain ⟨q, -, e2, e3⟩ := straight_bent he hb ha hs ht fun k => h2 ⟨.self k.2, k.1⟩
    rw [e2] at h; cases h; rw [Set.inter_comm]; exact e3
  · cases ha
    obtain ⟨q, e1, e2⟩ := plane_points (E := E) hb hp
    rw [e1] at h; cases h; exact e2

/-- **C83.** Whenever the test of intersection through the base class answers, for points, point sets, lines, rays, segments, planes, spheres, ellipsoids and
composites of these, the answer is whether the two have a point in common. The exception is a segment with an ellipsoid (`C76_segment_violated`). -/
theorem C83_intersects_partial (E : Env3) (he : 0 < E.eps) (a b : Obj3) (S T : Set V3) (ha : Denotes a S) (hb : Denotes b T)
    (h1 : ¬(Has (fun o => ∃ s, o = .segment s) a ∧ ∃ e, b = .ellipsoid e)) (h2 : ¬(Has (fun o => ∃ e, o = .ellipsoid e) a ∧ ∃ s, b = .segment s))
    (r : Bool) (h : Obj3.intersects E a b = .ok r) : r = true ↔ (S ∩ T).Nonempty := by
  induction ha generalizing r with
  | composite os f hf ih =>
    have hd : Obj3.allDefined os = true := (allDefined3_iff os).2 fun o ho => denotes_defined (hf o ho)
    rw [Obj3.intersects] at h
    simp only [denotes_defined hb, hd, Bool.not_true, Bool.and_true, Bool.false_eq_true, if_false] at h
    obtain ⟨k1, k2⟩ := anyIntersects_ok h
    have ih' := fun o ho => ih o ho (fun k => h1 ⟨.member ho k.1, k.2⟩) (fun k => h2 ⟨.member ho k.1, k.2⟩)
    cases r with
    | true =>
      obtain ⟨o, ho, hi⟩ := k1 rfl
      obtain ⟨x, hx, hy⟩ := (ih' o ho true hi).1 rfl
      simpa using ⟨x, ⟨o, ho, hx⟩, hy⟩
    | false =>
      simp only [Bool.false_eq_true, false_iff]
      rintro ⟨x, ⟨o, ho, hx⟩, hy⟩
      have := (ih' o ho false (k2 rfl o ho)).2 ⟨x, hx, hy⟩
      simp at this
  | point p => exact intersects_atom he (.point p) hb (by simp) h1 h2 h
  | pointSet ps hp hn => exact intersects_atom he (.pointSet ps hp hn) hb (by simp) h1 h2 h
  | line o d hd => exact intersects_atom he (.line o d hd) hb (by simp) h1 h2 h
  | ray o d hd => exact intersects_atom he (.ray o d hd) hb (by simp) h1 h2 h
  | segment p q => exact intersects_atom he (.segment p q) hb (by simp) h1 h2 h
  | plane q n hn => exact intersects_atom he (.plane q n hn) hb (by simp) h1 h2 h
  | sphere c k hk => exact intersects_atom he (.sphere c k hk) hb (by simp) h1 h2 h
  | ellipsoid p a b c q k1 k2 k3 k4 => exact intersects_atom he (.ellipsoid p a b c q k1 k2 k3 k4) hb (by simp) h1 h2 h

/-- the hypotheses of `C83_intersects_partial` are met by a composite of a line and a ray, and a plane -/
example : Denotes (.composite true [.line ⟨some 0, some V3.X⟩, .ray ⟨some V3.Z, some V3.X⟩]) {p | ∃ o ∈ [Obj3.line ⟨some 0, some V3.X⟩,
      .ray ⟨some V3.Z, some V3.X⟩], p ∈ ObjPoints o} ∧ Denotes (.plane ⟨some V3.X, some V3.X⟩) (PlaneSet V3.X V3.X) := by
  have h : V3.X.norm = 1 := V3.norm_of_normSq_one (by norm_num [V3.normSq, V3.dot, V3.X])
  refine ⟨.composite _ ObjPoints fun o ho => ?_, .plane _ _ h⟩
  simp only [List.mem_cons, List.not_mem_nil, or_false] at ho
  rcases ho with rfl | rfl
  · exact .line _ _ h
  · exact .ray _ _ h

/-- **C83.** A line, ray or segment and a plane, sphere or ellipsoid always have an answer, the same in both orders; so does a plane asked about points. The answer
is whether there is a common point. -/
theorem C83_answers_partial (E : Env3) (he : 0 < E.eps) (a b : Obj3) (S T : Set V3) (ha : Denotes a S) (hb : Denotes b T) :
    (Straight a → Bent b → ¬((∃ s, a = .segment s) ∧ ∃ e, b = .ellipsoid e) →
      ∃ r, Obj3.intersects E a b = .ok r ∧ Obj3.intersects E b a = .ok r ∧ (r = true ↔ (S ∩ T).Nonempty)) ∧
    ((∃ n, a = .plane n) → (∃ p, b = .point p) ∨ (∃ ps, b = .pointSet ps) →
      ∃ r, Obj3.intersects E a b = .ok r ∧ (r = true ↔ (S ∩ T).Nonempty)) := by
  refine ⟨fun hs ht hx => straight_bent he ha hb hs ht hx, ?_⟩
  rintro ⟨n, rfl⟩ hp
  cases ha
  exact plane_points hb hp

/-! ## Containment -/

theorem allContain_ok {E : Env3} {os : List Obj3} {b : Obj3} {r : Bool} (h : Obj3.allContain E os b = .ok r) :
    (r = true → ∀ o ∈ os, Obj3.contains E o b = .ok true) ∧ (r = false → ∃ o ∈ os, Obj3.contains E o b = .ok false) := by
  induction os with
  | nil => rw [Obj3.allContain] at h; cases h; simp
  | cons o os ih =>
    rw [Obj3.allContain] at h
    split at h
    · cases h
    · rename_i h1; cases h; simp [h1]
    · rename_i h1
      obtain ⟨i1, i2⟩ := ih h
      refine ⟨fun hr => ?_, fun hr => ?_⟩
      · simpa [h1] using i1 hr
      · obtain ⟨p, hp, hq⟩ := i2 hr; exact ⟨p, by simp [hp], hq⟩

theorem allContain_of {E : Env3} {os : List Obj3} {b : Obj3} (h : ∀ o ∈ os, Obj3.contains E o b = .ok true) : Obj3.allContain E os b = .ok true := by
  induction os with
  | nil => rw [Obj3.allContain]
  | cons o os ih => rw [Obj3.allContain, h o (by simp)]; exact ih fun p hp => h p (by simp [hp])

/-- **C83.** A plane asked through the base class about a point, point set, line, ray or segment answers whether all its points are on the plane. -/
theorem C83_contains_plane (E : Env3) (q n : V3) (b : Obj3) (T : Set V3) (hb : Denotes b T)
    (hk : Straight b ∨ (∃ p, b = .point p) ∨ ∃ ps, b = .pointSet ps) :
    ∃ r, Obj3.contains E (.plane ⟨some q, some n⟩) b = .ok r ∧ (r = true ↔ T ⊆ PlaneSet q n) := by
  obtain ⟨c1, c2, c3, c4, c5, -⟩ := C45_contains q n
  have hd := denotes_defined hb
  cases hb with
  | point p =>
    obtain ⟨r, hr, h⟩ := c1 p
    exact ⟨r, by simpa [Obj3.contains, Obj3.containsBase, hd] using hr, by simpa using h⟩
  | pointSet ps hne _ =>
    obtain ⟨r, hr, h⟩ := c5 ps hne
    exact ⟨r, by simpa [Obj3.contains, Obj3.containsBase, hd] using hr, h⟩
  | line o d _ =>
    obtain ⟨r, hr, h⟩ := c2 o d
    exact ⟨r, by simpa [Obj3.contains, Obj3.containsBase, hd] using hr, h⟩
  | ray o d _ =>
    obtain ⟨r, hr, h⟩ := c3 o d
    exact ⟨r, by simpa [Obj3.contains, Obj3.containsBase, hd] using hr, h⟩
  | segment x y =>
    obtain ⟨r, hr, h⟩ := c4 x y
    exact ⟨r, by simpa [Obj3.contains, Obj3.containsBase, hd] using hr, h⟩
  | plane => rcases hk with hk | hk | hk <;> [cases hk; simp at hk; simp at hk]
  | sphere => rcases hk with hk | hk | hk <;> [cases hk; simp at hk; simp at hk]
  | ellipsoid => rcases hk with hk | hk | hk <;> [cases hk; simp at hk; simp at hk]
  | composite => rcases hk with hk | hk | hk <;> [cases hk; simp at hk; simp at hk]

/-- **C83, violated.** A line, ray, segment, sphere, ellipsoid or cuboid asked about a point through the base class answers "to be implemented", although their own
`contains` answers; so does a composite of a sphere asked for the centre (the example in `Composite.hpp`), a ray asked for its intersection with a sphere, and a
plane asked for its intersection with a line. -/
theorem C83_violated (E : Env3) (p : V3) :
    (∀ o ∈ [Obj3.line ⟨some 0, some V3.X⟩, .ray ⟨some 0, some V3.X⟩, .segment ⟨some 0, some V3.X⟩, .sphere ⟨some 0, some 1⟩, .ellipsoid (ell 0 1 1 1 ⟨0, 0, 0, 1⟩),
        .cuboid ⟨some 0, some V3.X, some V3.Y, some V3.Z, some 1, some 1, some 1⟩, .composite true [.sphere ⟨some 0, some 1⟩]],
      Obj3.contains E o (.point (some p)) = .error .toBeImplemented) ∧
    (∃ r, Line3.contains ⟨some 0, some V3.X⟩ (some p) = .ok r) ∧ (∃ r, Ray3.contains ⟨some 0, some V3.X⟩ (some p) = .ok r) ∧
    (∃ r, Seg3.contains ⟨some 0, some V3.X⟩ (some p) = .ok r) ∧ (∃ r, Sphere3.contains E.eps ⟨some 0, some 1⟩ (some p) = .ok r) ∧
    (0 < E.eps → ∃ r, Ellipsoid3.contains E.eps (ell 0 1 1 1 ⟨0, 0, 0, 1⟩) (some p) = .ok r) ∧
    (∃ r, Cuboid3.contains E.eps ⟨some 0, some V3.X, some V3.Y, some V3.Z, some 1, some 1, some 1⟩ (some p) = .ok r) ∧
    (∀ n, Obj3.intersectionWith E (n + 1) (.ray ⟨some 0, some V3.X⟩) (.sphere ⟨some 0, some 1⟩) = .error .toBeImplemented ∧
      Obj3.intersectionWith E (n + 1) (.plane ⟨some 0, some V3.X⟩) (.line ⟨some 0, some V3.X⟩) = .error .toBeImplemented) ∧
    (0 < E.eps → ∃ i, Sphere3.intersectionWithRay E.eps ⟨some 0, some 1⟩ ⟨some 0, some V3.X⟩ false = .ok i) := by
  have h : V3.X.norm = 1 := V3.norm_of_normSq_one (by norm_num [V3.normSq, V3.dot, V3.X])
  refine ⟨?_, ⟨_, rfl⟩, ⟨_, rfl⟩, ⟨_, rfl⟩, ⟨_, rfl⟩, fun he => ?_, ⟨_, rfl⟩, fun n => ?_, fun he => ?_⟩
  · intro o ho
    simp only [List.mem_cons, List.not_mem_nil, or_false] at ho
    rcases ho with rfl | rfl | rfl | rfl | rfl | rfl | rfl <;>
      simp [Obj3.contains, Obj3.containsBase, Obj3.isDefined, Obj3.allDefined, Obj3.allContain, Sphere3.isDefined]
  · exact ⟨_, contains_eq he 0 1 1 1 (by norm_num [Unitary]) p⟩
  · simp [Obj3.intersectionWith, Obj3.intersectionBase, Obj3.isDefined, Sphere3.isDefined, Line3.isDefined]
  · obtain ⟨⟨i, j, hi, -⟩, -⟩ := C48_ray E.eps he 0 1 0 V3.X h
    exact ⟨i, hi⟩

/-- **C84.** A composite says that it contains an object only if every member says so; then, if it has a member, and the members are planes, the points of the object are
among those of the composite. -/
theorem C84_contains (E : Env3) (os : List Obj3) (f : Obj3 → Set V3) (hf : ∀ o ∈ os, Denotes o (f o)) (b : Obj3) (T : Set V3) (hb : Denotes b T) :
    (Obj3.contains E (.composite true os) b = .ok true ↔ ∀ o ∈ os, Obj3.contains E o b = .ok true) ∧
    (Obj3.contains E (.composite true os) b = .ok true → os ≠ [] → (∀ o ∈ os, ∃ n, o = .plane n) → T ⊆ {p | ∃ o ∈ os, p ∈ f o}) := by
  have hd : Obj3.allDefined os = true := (allDefined3_iff os).2 fun o ho => denotes_defined (hf o ho)
  have e : Obj3.contains E (.composite true os) b = Obj3.allContain E os b := by
    rw [Obj3.contains]; simp [denotes_defined hb, hd]
  rw [e]
  have first : Obj3.allContain E os b = .ok true ↔ ∀ o ∈ os, Obj3.contains E o b = .ok true := ⟨fun h => (allContain_ok h).1 rfl, allContain_of⟩
  refine ⟨first, fun h hne hp => ?_⟩
  obtain ⟨o, ho⟩ := List.exists_mem_of_ne_nil os hne
  obtain ⟨n, rfl⟩ := hp o ho
  have h1 := first.1 h _ ho
  have h2 := hf _ ho
  generalize hg : f (.plane n) = U at h2
  cases h2 with
  | plane q n _ =>
    by_cases hk : Straight b ∨ (∃ p, b = .point p) ∨ ∃ ps, b = .pointSet ps
    · obtain ⟨r, hr, hr'⟩ := C83_contains_plane E q n b T hb hk
      rw [hr] at h1
      cases h1
      exact fun x hx => ⟨_, ho, by rw [hg]; exact hr'.1 rfl hx⟩
    · exfalso
      cases hb with
      | point p => exact hk (.inr (.inl ⟨_, rfl⟩))
      | pointSet ps _ _ => exact hk (.inr (.inr ⟨_, rfl⟩))
      | line => exact hk (.inl (.line _))
      | ray => exact hk (.inl (.ray _))
      | segment => exact hk (.inl (.segment _))
      | plane => simp [Obj3.contains, Obj3.containsBase, Obj3.isDefined, Plane3.isDefined] at h1
      | sphere => simp [Obj3.contains, Obj3.containsBase, Obj3.isDefined, Sphere3.isDefined] at h1
      | ellipsoid => simp [Obj3.contains, Obj3.containsBase, Obj3.isDefined, Ellipsoid3.isDefined] at h1
      | composite ps g hg => simp [Obj3.contains, Obj3.containsBase] at h1; split at h1 <;> cases h1

/-- **C84, violated.** The empty composite, which has no points, contains every defined object; and a composite of two planes does not contain a point of the
first. -/
theorem C84_contains_violated (E : Env3) :
    (∀ b : Obj3, b.isDefined = true → Obj3.contains E (.composite true []) b = .ok true) ∧ Denotes (.composite true []) ∅ ∧
    (V3.X ∈ PlaneSet V3.X V3.X ∧
      Obj3.contains E (.composite true [.plane ⟨some V3.X, some V3.X⟩, .plane ⟨some 0, some V3.X⟩]) (.point (some V3.X)) = .ok false) := by
  refine ⟨fun b hb => ?_, ?_, ?_, ?_⟩
  · simp [Obj3.contains, hb, Obj3.allDefined, Obj3.allContain]
  · have := Denotes.composite [] (fun _ => ∅) (by simp)
    simpa using this
  · show V3.X.dot (V3.X - V3.X) = 0
    simp [V3.dot]
  · have h1 : V3.X.dot (V3.X - V3.X) = 0 := by simp [V3.dot]
    have h2 : V3.X.dot (V3.X - 0) ≠ 0 := by simp [V3.dot, V3.X]
    simp [Obj3.contains, Obj3.containsBase, Obj3.isDefined, Obj3.allDefined, Plane3.isDefined, Obj3.allContain, Plane3.contains, need, bind, Except.bind, pure,
      Except.pure, h1]
    simp [V3.dot, V3.X]

/-! ## Intersections -/

/-- an intersection that holds defined objects, each with a type of its own -/
def Whole (i : Isect3) (os : List Obj3) : Prop := i = .ofArray os ∧ ∀ o ∈ os, o.isDefined = true ∧ ∃ s, HasKind3 o s

theorem whole_empty : Whole .Empty [] := ⟨rfl, by simp⟩

theorem whole_add {i j : Isect3} {os ps : List Obj3} (hi : Whole i os) (hj : Whole j ps) :
    ∃ k, i.addAssign j = .ok k ∧ Whole k (os ++ ps) := by
  obtain ⟨rfl, hi⟩ := hi
  obtain ⟨rfl, hj⟩ := hj
  refine ⟨_, (C54_isect3_partial os ps [] (fun o ho => (hi o ho).1) hj (by simp)).2.1, rfl, fun o ho => ?_⟩
  rcases List.mem_append.1 ho with h | h
  · exact hi o h
  · exact hj o h

theorem whole_answer {j : Isect3} {ps : List Obj3} (hj : Whole j ps) : j.isDefined = true ∧ (j.isEmpty = true ↔ ps = []) := by
  obtain ⟨rfl, hj⟩ := hj
  obtain ⟨h1, -, h2, -⟩ := C55_type3_partial ps fun o ho => (hj o ho).2
  exact ⟨h1, h2⟩

theorem whole_points {j : Isect3} {ps : List Obj3} (hj : Whole j ps) : IsectPoints j = {p | ∃ o ∈ ps, p ∈ ObjPoints o} := by
  obtain ⟨rfl, -⟩ := hj; rfl

theorem intersectAll_eq {E : Env3} {n : ℕ} {b : Obj3} (g : Obj3 → List Obj3) (os : List Obj3)
    (h : ∀ o ∈ os, ∃ j, Obj3.intersectionWith E n o b = .ok j ∧ Whole j (g o)) (i : Isect3) (ps : List Obj3) (hi : Whole i ps) :
    ∃ k, Obj3.intersectAll E n i os b = .ok k ∧ Whole k (ps ++ os.flatMap g) := by
  induction os generalizing i ps with
  | nil => exact ⟨i, by rw [Obj3.intersectAll], by simpa using hi⟩
  | cons o os ih =>
    obtain ⟨j, e, hj⟩ := h o (by simp)
    obtain ⟨d, em⟩ := whole_answer hj
    rw [Obj3.intersectAll, e]
    by_cases hc : j.isEmpty = true
    · obtain ⟨k, e, hk⟩ := ih (fun p hp => h p (by simp [hp])) i ps hi
      refine ⟨k, ?_, ?_⟩
      · simpa [d, hc] using e
      · simpa [em.1 hc] using hk
    · obtain ⟨l, e1, hl⟩ := whole_add hi hj
      obtain ⟨k, e, hk⟩ := ih (fun p hp => h p (by simp [hp])) l _ hl
      refine ⟨k, ?_, by simpa using hk⟩
      rw [Bool.not_eq_true] at hc
      simpa [d, hc, e1] using e

/-- **C84.** The intersection of a composite and an object holds the objects of the intersections of its members, in order, whatever the types of the members and of the
object, as long as the members' intersections hold defined objects that have a type of their own. -/
theorem C84_intersection_partial (E : Env3) (n : ℕ) (os : List Obj3) (hd : ∀ o ∈ os, o.isDefined = true) (b : Obj3) (hb : b.isDefined = true)
    (g : Obj3 → List Obj3)
    (h : ∀ o ∈ os, Obj3.intersectionWith E n o b = .ok (.ofArray (g o)) ∧ ∀ p ∈ g o, p.isDefined = true ∧ ∃ s, HasKind3 p s) :
    Obj3.intersectionWith E n (.composite true os) b = .ok (.ofArray (os.flatMap g)) := by
  obtain ⟨k, e, hk⟩ := intersectAll_eq g os (fun o ho => ⟨_, (h o ho).1, rfl, (h o ho).2⟩) .Empty [] whole_empty
  rw [Obj3.intersectionWith]
  simp [hb, (allDefined3_iff os).2 hd, e, hk.1]

theorem line_plane_whole (q n o d : V3) (i : Isect3) (h : Line3.intersectionWith ⟨some o, some d⟩ ⟨some q, some n⟩ = .ok i) : ∃ ps, Whole i ps := by
  simp only [Line3.intersectionWith, need, bind, Except.bind, pure, Except.pure] at h
  cases h
  split_ifs
  · exact ⟨[.line ⟨some o, some d⟩], rfl, by simpa using ⟨rfl, _, .line _⟩⟩
  · exact ⟨[], whole_empty⟩
  · exact ⟨[.point (some _)], rfl, by simpa using ⟨rfl, _, .point _⟩⟩

theorem ray_plane_whole (q n o d : V3) (i : Isect3) (h : Ray3.intersectionWith ⟨some o, some d⟩ ⟨some q, some n⟩ = .ok i) : ∃ ps, Whole i ps := by
  simp only [Ray3.intersectionWith, need, bind, Except.bind, pure, Except.pure] at h
  cases h
  split_ifs
  · exact ⟨[.ray ⟨some o, some d⟩], rfl, by simpa using ⟨rfl, _, .ray _⟩⟩
  · exact ⟨[], whole_empty⟩
  · exact ⟨[], whole_empty⟩
  · exact ⟨[.point (some _)], rfl, by simpa using ⟨rfl, _, .point _⟩⟩

theorem segment_plane_whole (q n o d : V3) (i : Isect3) (h : Seg3.intersectionWith ⟨some o, some d⟩ ⟨some q, some n⟩ = .ok i) : ∃ ps, Whole i ps := by
  simp only [Seg3.intersectionWith, need, bind, Except.bind, pure, Except.pure] at h
  cases h
  split_ifs
  · exact ⟨[.segment ⟨some o, some d⟩], rfl, by simpa using ⟨rfl, _, .segment _⟩⟩
  · exact ⟨[], whole_empty⟩
  · exact ⟨[], whole_empty⟩
  · exact ⟨[.point (some _)], rfl, by simpa using ⟨rfl, _, .point _⟩⟩

theorem plane_whole (E : Env3) (m : ℕ) (a : Obj3) (S : Set V3) (ha : Denotes a S) (hs : ∀ o, Has (o = ·) a → Straight o ∨ ∃ d os, o = .composite d os) (q n : V3) :
    ∃ i ps, Obj3.intersectionWith E (m + 1) a (.plane ⟨some q, some n⟩) = .ok i ∧ Whole i ps ∧ IsectPoints i = S ∩ PlaneSet q n := by
  have atom : ∀ {o : Obj3}, ¬Straight o → (∀ d os, o ≠ .composite d os) → ¬∀ p, Has (p = ·) o → Straight p ∨ ∃ d os, p = .composite d os := by
    intro o h1 h2 h
    rcases h o (.self rfl) with h | ⟨d, os, h⟩
    · exact h1 h
    · exact h2 d os h
  induction ha with
  | composite os f hf ih =>
    have ih' := fun o ho => ih o ho fun p hp => hs p (.member ho hp)
    haveI : Nonempty Isect3 := ⟨.Empty⟩
    choose! i g h1 h2 h3 using ih'
    obtain ⟨k, e, hk⟩ := intersectAll_eq g os (fun o ho => ⟨_, h1 o ho, h2 o ho⟩) .Empty [] whole_empty
    refine ⟨k, _, ?_, hk, ?_⟩
    · rw [Obj3.intersectionWith]
      simp [Obj3.isDefined, Plane3.isDefined, (allDefined3_iff os).2 fun o ho => denotes_defined (hf o ho), e]
    · rw [whole_points hk]
      ext x
      constructor
      · rintro ⟨p, hp, hx⟩
        simp only [List.nil_append, List.mem_flatMap] at hp
        obtain ⟨o, ho, hp⟩ := hp
        have : x ∈ IsectPoints (i o) := by rw [whole_points (h2 o ho)]; exact ⟨p, hp, hx⟩
        rw [h3 o ho] at this
        exact ⟨⟨o, ho, this.1⟩, this.2⟩
      · rintro ⟨⟨o, ho, hx⟩, hy⟩
        have : x ∈ IsectPoints (i o) := by rw [h3 o ho]; exact ⟨hx, hy⟩
        rw [whole_points (h2 o ho)] at this
        obtain ⟨p, hp, hx⟩ := this
        exact ⟨p, by simpa using ⟨o, ho, hp⟩, hx⟩
  | line o d _ =>
    obtain ⟨i, e, -, h, -⟩ := (C46_line q n o d).2
    obtain ⟨ps, hp⟩ := line_plane_whole q n o d i e
    exact ⟨i, ps, by simpa [Obj3.intersectionWith, Obj3.intersectionBase, Obj3.isDefined, Plane3.isDefined] using e, hp, h⟩
  | ray o d _ =>
    obtain ⟨i, e, -, h, -⟩ := (C46_ray q n o d).2
    obtain ⟨ps, hp⟩ := ray_plane_whole q n o d i e
    exact ⟨i, ps, by simpa [Obj3.intersectionWith, Obj3.intersectionBase, Obj3.isDefined, Plane3.isDefined] using e, hp, h⟩
  | segment o d =>
    obtain ⟨i, e, -, h, -⟩ := (C46_segment q n o d).2
    obtain ⟨ps, hp⟩ := segment_plane_whole q n o d i e
    exact ⟨i, ps, by simpa [Obj3.intersectionWith, Obj3.intersectionBase, Obj3.isDefined, Plane3.isDefined] using e, hp, h⟩
  | point => exact absurd hs (atom (by rintro ⟨⟩) (by simp))
  | pointSet => exact absurd hs (atom (by rintro ⟨⟩) (by simp))
  | plane => exact absurd hs (atom (by rintro ⟨⟩) (by simp))
  | sphere => exact absurd hs (atom (by rintro ⟨⟩) (by simp))
  | ellipsoid => exact absurd hs (atom (by rintro ⟨⟩) (by simp))

/-- **C84.** The intersection of a line, ray or segment, or of a composite of these nested to any depth, with a plane, asked for through the base class, has exactly the
common points. -/
theorem C84_intersection_plane (E : Env3) (m : ℕ) (a : Obj3) (S : Set V3) (ha : Denotes a S)
    (hs : ∀ o, Has (o = ·) a → Straight o ∨ ∃ d os, o = .composite d os) (q n : V3) :
    ∃ i, Obj3.intersectionWith E (m + 1) a (.plane ⟨some q, some n⟩) = .ok i ∧ i.isDefined = true ∧ IsectPoints i = S ∩ PlaneSet q n := by
  obtain ⟨i, ps, h1, h2, h3⟩ := plane_whole E m a S ha hs q n
  exact ⟨i, h1, (whole_answer h2).1, h3⟩

/-- **C84.** A composite asked about another composite asks each of its members: it intersects it when it intersects one of them, contains it when it contains all. -/
theorem C84_composites (E : Env3) (c d : Composite3) (hc : c.isDefined = true) (hd : d.isDefined = true) (r : Bool) :
    (c.intersectsComposite E d = .ok r → (r = true ↔ ∃ o ∈ d.objects, Obj3.intersects E (.composite true c.objects) o = .ok true)) ∧
    (c.containsComposite E d = .ok r → (r = true ↔ ∀ o ∈ d.objects, Obj3.contains E (.composite true c.objects) o = .ok true)) := by
  have ht : c.toObj = .composite true c.objects := by
    obtain ⟨b, os⟩ := c
    simp [Composite3.isDefined] at hc
    simp [Composite3.toObj, hc.1]
  have any : ∀ (f : Obj3 → Res Bool) (os : List Obj3), anyOf f os = .ok r → (r = true ↔ ∃ o ∈ os, f o = .ok true) := by
    intro f os h
    induction os with
    | nil => simp [anyOf] at h; simp [h.symm]
    | cons o os ih =>
      rw [anyOf] at h
      split at h
      · cases h
      · rename_i h1; cases h; simp [h1]
      · rename_i h1; rw [ih h]; simp [h1]
  have all : ∀ (f : Obj3 → Res Bool) (os : List Obj3), allOf f os = .ok r → (r = true ↔ ∀ o ∈ os, f o = .ok true) := by
    intro f os h
    induction os with
    | nil => simp [allOf] at h; simp [h.symm]
    | cons o os ih =>
      rw [allOf] at h
      split at h
      · cases h
      · rename_i h1; cases h; simp [h1]
      · rename_i h1; rw [ih h]; simp [h1]
  simp only [Composite3.intersectsComposite, Composite3.containsComposite, hc, hd, ht, Bool.not_true, Bool.false_eq_true, if_false]
  exact ⟨any _ _, all _ _⟩

/-- **C85.** The intersection of two polygons asked for through the base class does not return: whatever the depth of calls allowed, it is used up. -/
theorem C85_violated (E : Env3) (p q : Polygon3) (hq : q.isDefined = true) (n : ℕ) : Obj3.intersectionWith E n (.polygon p) (.polygon q) = .error .ub := by
  rw [Obj3.intersectionWith]
  induction n with
  | zero => rw [Obj3.intersectionBase]
  | succ n ih => rw [Obj3.intersectionBase]; simpa [Obj3.isDefined, hq] using ih

example : (⟨⟨[⟨0, 0⟩, ⟨0, 1⟩, ⟨1, 0⟩, ⟨0, 0⟩], []⟩, some 0, some V3.X, some V3.Y⟩ : Polygon3).isDefined = true := by
  simp [Polygon3.isDefined, Polygon2.isDefined]

/-- **C85.** For any other objects that are not composites one call is enough. -/
theorem C85_partial (E : Env3) (a b : Obj3) (ha : ∀ d os, a ≠ .composite d os) (h : ∀ p q, ¬(a = .polygon p ∧ b = .polygon q)) (n : ℕ) :
    Obj3.intersectionWith E (n + 1) a b = Obj3.intersectionWith E 1 a b := by
  cases a <;> cases b <;> simp_all [Obj3.intersectionWith, Obj3.intersectionBase]

/-! ## Transformations -/

theorem transformAll_ok {E : Env3} {t : T3} {os : List Obj3} (g : Obj3 → Obj3) (h : ∀ o ∈ os, Obj3.applyTransformation E t o = .ok (g o)) :
    Obj3.transformAll E t os = .ok (os.map g) := by
  induction os with
  | nil => rw [Obj3.transformAll]; rfl
  | cons o os ih =>
    rw [Obj3.transformAll, h o (by simp), ih fun p hp => h p (by simp [hp])]
    rfl

theorem denotes_unique {o : Obj3} {S T : Set V3} (h : Denotes o S) (k : Denotes o T) : S = T := by
  induction h generalizing T with
  | composite os f hf ih =>
    cases k with
    | composite os g hg =>
      ext x
      constructor
      · rintro ⟨o, ho, hx⟩; exact ⟨o, ho, ih o ho (hg o ho) ▸ hx⟩
      · rintro ⟨o, ho, hx⟩; exact ⟨o, ho, (ih o ho (hg o ho)).symm ▸ hx⟩
  | pointSet ps _ _ =>
    generalize hp : Obj3.pointSet (ps.map some) = z at k
    cases k with
    | pointSet qs _ _ =>
      have := (List.map_injective_iff.2 (Option.some_injective V3)) (Obj3.pointSet.inj hp)
      rw [this]
    | _ => cases hp
  | _ => cases k <;> rfl

theorem move_line (l : M3) (v o d : V3) (k : ℝ) : move l v (o + k • d) = move l v o + k • l.mulVec d := by
  rw [move, move, ← M3.mulVec_add, ← M3.mulVec_smul]; ext <;> simp <;> ring

theorem mem_move_iff {l : M3} {v : V3} (hl : IsRotation l) {S T : Set V3} (h : ∀ x, move l v x ∈ T ↔ x ∈ S) : T = move l v '' S := by
  ext y
  constructor
  · intro hy
    have e : move l v (l.transpose.mulVec (y - v)) = y := by
      rw [move, M3.mulVec_transpose hl]; ext <;> simp
    exact ⟨_, (h _).1 (e.symm ▸ hy), e⟩
  · rintro ⟨x, hx, rfl⟩; exact (h x).2 hx

/-- **C84.** A transformation built by the constructors applied through the base class to a point, point set, line, ray, segment, plane, sphere, ellipsoid or a
composite of these succeeds and moves the set of points, given a correct eigen solver. -/
theorem C84_moved_partial (E : Env3) (h0 : 0 < E.eps) (h1 : E.eps ≤ 1) (hs : Solves E.solve) (t : T3) (ht : Built3 E.eps t) :
    ∃ f, Moves t f ∧ ∀ o S, Denotes o S → ∃ o', Obj3.applyTransformation E t o = .ok o' ∧ Denotes o' (f '' S) := by
  obtain ⟨l, v, s⟩ := built3_shape h0 h1 ht
  have hd := shape_defined s
  have hap : Moves t (move l v) := (shape_moves s).1
  refine ⟨move l v, hap, fun o S h => ?_⟩
  induction h with
  | composite os f hf ih =>
    have hall : Obj3.allDefined os = true := (allDefined3_iff os).2 fun o ho => denotes_defined (hf o ho)
    choose! g h1 h2 using ih
    by_cases hid : t.type = .identity
    · obtain ⟨rfl, rfl⟩ := s.2.2.2.2.1 hid
      have hmv : move M3.one 0 = id := by funext x; rw [move, M3.one_mulVec]; ext <;> simp
      refine ⟨.composite true os, ?_, ?_⟩
      · rw [Obj3.applyTransformation]; simp [hd, hall, T3.isIdentity, hid]
      · rw [hmv, Set.image_id]; exact .composite os f hf
    · refine ⟨.composite true (os.map g), ?_, ?_⟩
      · rw [Obj3.applyTransformation]; simp [hd, hall, T3.isIdentity, hid, transformAll_ok g h1]
      · have hden : ∀ p ∈ os.map g, Denotes p {x | ∃ o ∈ os, g o = p ∧ x ∈ move l v '' f o} := by
          intro p hp
          obtain ⟨o, ho, rfl⟩ := List.mem_map.1 hp
          have : {x | ∃ q ∈ os, g q = g o ∧ x ∈ move l v '' f q} = move l v '' f o := by
            ext x
            constructor
            · rintro ⟨q, hq, e, hx⟩
              have := h2 q hq
              rw [e] at this
              rw [← denotes_unique this (h2 o ho)]; exact hx
            · intro hx; exact ⟨o, ho, rfl, hx⟩
          rw [this]; exact h2 o ho
        have := Denotes.composite _ _ hden
        convert this using 1
        ext y
        constructor
        · rintro ⟨x, ⟨o, ho, hx⟩, rfl⟩
          exact ⟨g o, List.mem_map_of_mem ho, o, ho, rfl, x, hx, rfl⟩
        · rintro ⟨p, -, o, ho, -, x, hx, rfl⟩
          exact ⟨x, ⟨o, ho, hx⟩, rfl⟩
  | point p =>
    refine ⟨.point (some (move l v p)), ?_, ?_⟩
    · rw [Obj3.applyTransformation, shape_point s]; rfl
    · rw [Set.image_singleton]; exact .point _
  | pointSet ps hp hn =>
    obtain ⟨f, hf, e, -⟩ := C47_points3_partial E.eps h0 h1 t ht ps hp hn 0
    have : f = move l v := by
      funext x
      have := hf x
      rw [shape_point s] at this
      simpa using this.symm
    subst this
    refine ⟨.pointSet ((ps.map (move l v)).map some), ?_, ?_⟩
    · rw [Obj3.applyTransformation, e]; rfl
    · have := Denotes.pointSet (ps.map (move l v)) (by simpa using hp) (hn.map fun a b => move_injective s.1)
      convert this using 1
      ext x; simp
  | line o d hu =>
    refine ⟨.line ⟨some (move l v o), some (l.mulVec d)⟩, ?_, ?_⟩
    · rw [Obj3.applyTransformation]
      simp [Line3.applyTransformation, hd, Line3.isDefined, shape_point s, shape_vector s, bind, Except.bind, pure, Except.pure, Except.map]
    · rw [← mem_move_iff (T := LineSet (move l v o) (l.mulVec d)) s.1]
      · exact .line _ _ (by rw [M3.mulVec_norm s.1, hu])
      · exact fun x => ⟨fun ⟨k, hk⟩ => ⟨k, move_injective s.1 (by rw [hk, move_line])⟩, fun ⟨k, hk⟩ => ⟨k, by rw [hk, move_line]⟩⟩
  | ray o d hu =>
    refine ⟨.ray ⟨some (move l v o), some (l.mulVec d)⟩, ?_, ?_⟩
    · rw [Obj3.applyTransformation]
      simp [Ray3.applyTransformation, hd, Ray3.isDefined, shape_point s, shape_vector s, bind, Except.bind, pure, Except.pure, Except.map]
    · rw [← mem_move_iff (T := RaySet (move l v o) (l.mulVec d)) s.1]
      · exact .ray _ _ (by rw [M3.mulVec_norm s.1, hu])
      · exact fun x => ⟨fun ⟨k, h, hk⟩ => ⟨k, h, move_injective s.1 (by rw [hk, move_line])⟩, fun ⟨k, h, hk⟩ => ⟨k, h, by rw [hk, move_line]⟩⟩
  | segment a b =>
    refine ⟨.segment ⟨some (move l v a), some (move l v b)⟩, ?_, ?_⟩
    · rw [Obj3.applyTransformation]
      simp [Seg3.applyTransformation, hd, Seg3.isDefined, shape_point s, bind, Except.bind, pure, Except.pure, Except.map]
    · rw [← mem_move_iff (T := SegSet (move l v a) (move l v b)) s.1]
      · exact .segment _ _
      · refine fun x => ⟨fun ⟨k, h, h', hk⟩ => ⟨k, h, h', move_injective (v := v) s.1 ?_⟩, fun ⟨k, h, h', hk⟩ => ⟨k, h, h', ?_⟩⟩
        · rw [hk, move_line, move_sub]
        · rw [hk, move_line, move_sub]
  | plane q n hn =>
    refine ⟨.plane ⟨some (move l v q), some (l.mulVec n)⟩, ?_, ?_⟩
    · rw [Obj3.applyTransformation]
      simp [Plane3.applyTransformation, hd, Plane3.isDefined, shape_point s, shape_vector s, bind, Except.bind, pure, Except.pure, Except.map]
    · rw [← mem_move_iff (T := PlaneSet (move l v q) (l.mulVec n)) s.1]
      · exact .plane _ _ (by rw [M3.mulVec_norm s.1, hn])
      · intro x
        show (l.mulVec n).dot _ = 0 ↔ n.dot _ = 0
        rw [move_sub, M3.mulVec_dot s.1]
  | sphere c r hr =>
    have hg : t.isRigid = .ok true := by simp [T3.isRigid, hd, s.2.2.1]
    refine ⟨.sphere ⟨some (move l v c), some r⟩, ?_, ?_⟩
    · rw [Obj3.applyTransformation]
      simp [Sphere3.applyTransformation, hd, Sphere3.isDefined, hg, shape_point s, bind, Except.bind, pure, Except.pure, Except.map]
    · rw [← mem_move_iff (T := SphereSet (move l v c) r) s.1]
      · exact .sphere _ _ hr
      · intro x
        show (move l v x - move l v c).norm = |r| ↔ (x - c).norm = |r|
        rw [move_sub, M3.mulVec_norm s.1]
  | ellipsoid p a b c q ha hb hc hq =>
    obtain ⟨p', a', b', c', q', f, e, ha', hb', hc', hq', hf, -, -, him⟩ := C77_moved_partial E.eps h0 h1 E.solve hs t ht p a b c ha hb hc q hq
    have : f = move l v := by
      funext x
      have := hf x
      rw [hap x] at this
      simpa using this.symm
    subst this
    refine ⟨.ellipsoid (ell p' a' b' c' q'), ?_, ?_⟩
    · rw [Obj3.applyTransformation]
      show (Ellipsoid3.applyTransformation E.eps E.solve t (ell p a b c q)).map Obj3.ellipsoid = _
      rw [e]; rfl
    · show Denotes _ (move l v '' Surface p a b c q)
      rw [him]
      exact .ellipsoid p' a' b' c' q' ha' hb' hc' hq'

/-- **C84.** An undefined transformation, and an undefined object, are rejected. -/
theorem C84_transformation_undefined (E : Env3) (t : T3) (d : Bool) (os : List Obj3) :
    (t.isDefined = false → Obj3.applyTransformation E t (.composite d os) = .error .undefined) ∧
    ((Obj3.composite d os).isDefined = false → Obj3.applyTransformation E t (.composite d os) = .error .undefined) ∧
    (∀ b : Obj3, (Obj3.composite d os).isDefined = false ∨ b.isDefined = false →
      Obj3.intersects E (.composite d os) b = .error .undefined ∧ Obj3.contains E (.composite d os) b = .error .undefined ∧
      ∀ n, Obj3.intersectionWith E n (.composite d os) b = .error .undefined) := by
  refine ⟨fun h => ?_, fun h => ?_, fun b h => ?_⟩
  · rw [Obj3.applyTransformation]; simp [h]
  · rw [Obj3.isDefined] at h
    rw [Obj3.applyTransformation]; cases t.isDefined <;> simp [h]
  · rw [Obj3.isDefined] at h
    rw [Obj3.intersects, Obj3.contains]
    refine ⟨?_, ?_, fun n => ?_⟩
    · cases hb : b.isDefined <;> simp_all
    · cases hb : b.isDefined <;> simp_all
    · rw [Obj3.intersectionWith]; cases hb : b.isDefined <;> simp_all

end Verif.Props
