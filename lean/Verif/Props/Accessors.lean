import Verif.Lemmas.Vec
import Verif.Model.Accessors
import Verif.Model.Cone
import Verif.Model.Cuboid
import Verif.Model.Polygon
import Verif.Model.Pyramid

/-!
# C131: accessors
-/

namespace Verif.Props
open Verif

/-! ## C131: the accessors give back what an object was made from -/

/-- **C131 (directions)** Of a line, a ray or a line of the plane that was made from an origin and a direction the accessors give
the origin itself and the unit vector along the direction, and the object made again from what they give is the same object. -/
theorem C131_lines :
    (∀ (o d : V3) (l : Line3), Line3.ctor (some o) (some d) = .ok l →
      l.getOrigin = .ok o ∧ ∃ v, l.getDirection = .ok v ∧ v.normSq = 1 ∧ d = d.norm • v ∧ Line3.ctor (some o) (some v) = .ok l) ∧
    (∀ (o d : V3) (r : Ray3), Ray3.ctor (some o) (some d) = .ok r →
      r.getOrigin = .ok o ∧ ∃ v, r.getDirection = .ok v ∧ v.normSq = 1 ∧ d = d.norm • v ∧ Ray3.ctor (some o) (some v) = .ok r) ∧
    (∀ (o d : V2) (l : Line2), Line2.ctor (some o) (some d) = .ok l →
      l.getOrigin = .ok o ∧ ∃ v, l.getDirection = .ok v ∧ v.normSq = 1 ∧ d = d.norm • v ∧ Line2.ctor (some o) (some v) = .ok l) := by
  refine ⟨fun o d l h => ?_, fun o d r h => ?_, fun o d l h => ?_⟩
  · by_cases h1 : d.normSq = 1
    · simp only [Line3.ctor, h1, ne_eq, not_true_eq_false, if_false, Except.ok.injEq] at h
      subst h
      exact ⟨rfl, d, rfl, h1, by rw [V3.norm_of_normSq_one h1]; ext <;> simp, by simp [Line3.ctor, h1]⟩
    · by_cases h0 : d.normSq = 0
      · simp [Line3.ctor, h0] at h
      · simp only [Line3.ctor, ne_eq, h1, not_false_eq_true, if_true, h0, if_false, Except.ok.injEq] at h
        subst h
        have hp : 0 < d.normSq := lt_of_le_of_ne (V3.normSq_nonneg d) (Ne.symm h0)
        exact ⟨rfl, _, rfl, V3.normSq_normalized hp, (V3.norm_smul_normalized d).symm, by simp [Line3.ctor, V3.normSq_normalized hp]⟩
  · by_cases h1 : d.normSq = 1
    · simp only [Ray3.ctor, h1, ne_eq, not_true_eq_false, if_false, Except.ok.injEq] at h
      subst h
      exact ⟨rfl, d, rfl, h1, by rw [V3.norm_of_normSq_one h1]; ext <;> simp, by simp [Ray3.ctor, h1]⟩
    · by_cases h0 : d.normSq = 0
      · simp [Ray3.ctor, h0] at h
      · simp only [Ray3.ctor, ne_eq, h1, not_false_eq_true, if_true, h0, if_false, Except.ok.injEq] at h
        subst h
        have hp : 0 < d.normSq := lt_of_le_of_ne (V3.normSq_nonneg d) (Ne.symm h0)
        exact ⟨rfl, _, rfl, V3.normSq_normalized hp, (V3.norm_smul_normalized d).symm, by simp [Ray3.ctor, V3.normSq_normalized hp]⟩
  · by_cases h1 : d.normSq = 1
    · simp only [Line2.ctor, h1, ne_eq, not_true_eq_false, if_false, Except.ok.injEq] at h
      subst h
      exact ⟨rfl, d, rfl, h1, by rw [V2.norm_of_normSq_one h1]; ext <;> simp, by simp [Line2.ctor, h1]⟩
    · by_cases h0 : d.normSq = 0
      · simp [Line2.ctor, h0] at h
      · simp only [Line2.ctor, ne_eq, h1, not_false_eq_true, if_true, h0, if_false, Except.ok.injEq] at h
        subst h
        have hp : 0 < d.normSq := lt_of_le_of_ne (V2.normSq_nonneg d) (Ne.symm h0)
        exact ⟨rfl, _, rfl, V2.normSq_normalized hp, (V2.norm_smul_normalized d).symm, by simp [Line2.ctor, V2.normSq_normalized hp]⟩

/-- **C131 (planes)** Of a plane made from a point and a normal vector that is not zero the accessors give the point itself and
the unit vector along the normal vector, and the plane made again from them is the same plane. Missing: a zero normal
vector, which the constructor accepts (`C131_zero_normal_violated`). -/
theorem C131_plane_partial (p n : V3) (h : n.normSq ≠ 0) :
    (Plane3.ctor (some p) (some n)).getPoint = .ok p ∧
      ∃ v, (Plane3.ctor (some p) (some n)).getNormalVector = .ok v ∧ v.normSq = 1 ∧ n = n.norm • v ∧
        Plane3.ctor (some p) (some v) = Plane3.ctor (some p) (some n) := by
  have hp : 0 < n.normSq := lt_of_le_of_ne (V3.normSq_nonneg n) (Ne.symm h)
  refine ⟨rfl, _, rfl, V3.normSq_normalized hp, (V3.norm_smul_normalized n).symm, ?_⟩
  simp [Plane3.ctor, V3.normalized_normalized hp]

/-- **C131 (planes, violated)** The class accepts a normal vector of length zero, which the accessor then gives: the lines and
rays refuse such a direction, the plane does not. -/
theorem C131_zero_normal_violated :
    ∃ p : V3, (Plane3.ctor (some p) (some 0)).isDefined = true ∧ (Plane3.ctor (some p) (some 0)).getNormalVector = .ok 0 ∧
      Line3.ctor (some p) (some 0) = .error .wrong ∧ Ray3.ctor (some p) (some 0) = .error .wrong := by
  refine ⟨0, rfl, ?_, ?_, ?_⟩
  · simp [Plane3.ctor, Plane3.getNormalVector, Plane3.isDefined, need]
  · simp [Line3.ctor, V3.normSq, V3.dot]
  · simp [Ray3.ctor, V3.normSq, V3.dot]

/-- **C131 (members)** Of a segment, a sphere, an ellipsoid, a cone, a cuboid or a pyramid the accessors give exactly the
arguments of the constructor. -/
theorem C131_members :
    (∀ a b : V3, (Seg3.mk (some a) (some b)).getFirstPoint = .ok a ∧ (Seg3.mk (some a) (some b)).getSecondPoint = .ok b) ∧
    (∀ a b : V2, (Seg2.mk (some a) (some b)).getFirstPoint = .ok a ∧ (Seg2.mk (some a) (some b)).getSecondPoint = .ok b) ∧
    (∀ (c : V3) (r : ℝ), (Sphere3.mk (some c) (some r)).getCenter = .ok c ∧ (Sphere3.mk (some c) (some r)).getRadius = .ok r) ∧
    (∀ (c : V3) (x y z : ℝ) (q : Quat), 0 ≤ x → 0 ≤ y → 0 ≤ z →
      ∃ e, Ellipsoid3.ctor (some c) (some x) (some y) (some z) (some q) = .ok e ∧ e.getCenter = .ok c ∧
        e.getFirstPrincipalSemiAxis = .ok x ∧ e.getSecondPrincipalSemiAxis = .ok y ∧ e.getThirdPrincipalSemiAxis = .ok z ∧
        e.getOrientation = .ok q) ∧
    (∀ (p d : V3) (a : Angle), a.isDefined = true →
      (Cone3.mk (some p) (some d) a).getApex = .ok p ∧ (Cone3.mk (some p) (some d) a).getAxis = .ok d ∧
        (Cone3.mk (some p) (some d) a).getAngle = .ok a) ∧
    (∀ (b : Polygon3) (p : V3), b.isDefined = true → (Pyramid3.mk b (some p)).getBase = .ok b ∧ (Pyramid3.mk b (some p)).getApex = .ok p) := by
  refine ⟨fun _ _ => ⟨rfl, rfl⟩, fun _ _ => ⟨rfl, rfl⟩, fun _ _ => ⟨rfl, rfl⟩, fun c x y z q hx hy hz => ?_, fun p d a h => ?_, fun b p h => ?_⟩
  · refine ⟨⟨some c, some x, some y, some z, some q⟩, ?_, rfl, rfl, rfl, rfl, rfl⟩
    simp [Ellipsoid3.ctor, not_lt.2 hx, not_lt.2 hy, not_lt.2 hz]
  · refine ⟨?_, ?_, ?_⟩
    · simp [Cone3.getApex, Cone3.need, h]
    · simp [Cone3.getAxis, Cone3.need, h]
    · simp [Cone3.getAngle, Cone3.need, h]
  · simp [Pyramid3.getBase, Pyramid3.getApex, Pyramid3.isDefined, h, need]

/-- **C131 (points)** Every accessor of a point throws as soon as one coordinate is undefined, also the accessors of the other
coordinates; of a point without an undefined coordinate they give the coordinates. -/
theorem C131_points :
    (∀ p : Pt3, p.cx = none ∨ p.cy = none ∨ p.cz = none →
      p.x = .error .undefined ∧ p.y = .error .undefined ∧ p.z = .error .undefined ∧ p.asVector = .error .undefined) ∧
    (∀ v : V3, (Pt3.Vector v).x = .ok v.x ∧ (Pt3.Vector v).y = .ok v.y ∧ (Pt3.Vector v).z = .ok v.z ∧ (Pt3.Vector v).asVector = .ok v) ∧
    (∀ (p : Pt3) (v : V3), p.asVector = .ok v → p = Pt3.Vector v) ∧
    (∀ p : Pt2, p.cx = none ∨ p.cy = none → p.x = .error .undefined ∧ p.y = .error .undefined ∧ p.asVector = .error .undefined) ∧
    (∀ v : V2, (Pt2.Vector v).x = .ok v.x ∧ (Pt2.Vector v).y = .ok v.y ∧ (Pt2.Vector v).asVector = .ok v) ∧
    (∀ (p : Pt2) (v : V2), p.asVector = .ok v → p = Pt2.Vector v) := by
  refine ⟨fun p h => ?_, fun v => ⟨rfl, rfl, rfl, rfl⟩, fun p v h => ?_, fun p h => ?_, fun v => ⟨rfl, rfl, rfl⟩, fun p v h => ?_⟩
  · have : p.isDefined = false := by rcases h with h | h | h <;> simp [Pt3.isDefined, h]
    simp [Pt3.x, Pt3.y, Pt3.z, Pt3.asVector, this]
  · obtain ⟨x, y, z⟩ := p
    cases x <;> cases y <;> cases z <;> simp [Pt3.asVector, Pt3.isDefined, need, bind, Except.bind, pure, Except.pure] at h
    subst h; rfl
  · have : p.isDefined = false := by rcases h with h | h <;> simp [Pt2.isDefined, h]
    simp [Pt2.x, Pt2.y, Pt2.asVector, this]
  · obtain ⟨x, y⟩ := p
    cases x <;> cases y <;> simp [Pt2.asVector, Pt2.isDefined, need, bind, Except.bind, pure, Except.pure] at h
    subst h; rfl

/-- **C131 (undefined)** With one undefined member every accessor throws, also the accessor of a member that is defined. -/
theorem C131_undefined :
    (∀ l : Line3, l.origin = none ∨ l.direction = none → l.getOrigin = .error .undefined ∧ l.getDirection = .error .undefined) ∧
    (∀ r : Ray3, r.origin = none ∨ r.direction = none → r.getOrigin = .error .undefined ∧ r.getDirection = .error .undefined) ∧
    (∀ l : Line2, l.origin = none ∨ l.direction = none → l.getOrigin = .error .undefined ∧ l.getDirection = .error .undefined) ∧
    (∀ s : Seg3, s.first = none ∨ s.second = none → s.getFirstPoint = .error .undefined ∧ s.getSecondPoint = .error .undefined) ∧
    (∀ s : Seg2, s.first = none ∨ s.second = none → s.getFirstPoint = .error .undefined ∧ s.getSecondPoint = .error .undefined) ∧
    (∀ p : Plane3, p.point = none ∨ p.normal = none → p.getPoint = .error .undefined ∧ p.getNormalVector = .error .undefined) ∧
    (∀ s : Sphere3, s.center = none ∨ s.radius = none → s.getCenter = .error .undefined ∧ s.getRadius = .error .undefined) ∧
    (∀ e : Ellipsoid3, e.center = none ∨ e.a = none ∨ e.b = none ∨ e.c = none ∨ e.q = none →
      e.getCenter = .error .undefined ∧ e.getFirstPrincipalSemiAxis = .error .undefined ∧
        e.getSecondPrincipalSemiAxis = .error .undefined ∧ e.getThirdPrincipalSemiAxis = .error .undefined ∧
        e.getOrientation = .error .undefined) ∧
    (∀ r : RotVec, r.axis = none ∨ r.angle.value = none ∨ r.angle.unit = .undefined →
      r.getAxis = .error .undefined ∧ r.getAngle = .error .undefined) ∧
    (∀ c : Cone3, c.apex = none ∨ c.axis = none ∨ c.angle.value = none ∨ c.angle.unit = .undefined →
      c.getApex = .error .undefined ∧ c.getAxis = .error .undefined ∧ c.getAngle = .error .undefined) ∧
    (∀ c : Cuboid3, c.center = none ∨ c.ax = none ∨ c.ay = none ∨ c.az = none ∨ c.ex = none ∨ c.ey = none ∨ c.ez = none →
      c.getCenter = .error .undefined ∧ c.getFirstAxis = .error .undefined ∧ c.getSecondAxis = .error .undefined ∧
        c.getThirdAxis = .error .undefined ∧ c.getFirstExtent = .error .undefined ∧ c.getSecondExtent = .error .undefined ∧
        c.getThirdExtent = .error .undefined) ∧
    (∀ p : Polygon3, p.polygon.isDefined = false ∨ p.origin = none ∨ p.xAxis = none ∨ p.yAxis = none →
      p.getPolygon2d = .error .undefined ∧ p.getOrigin = .error .undefined ∧ p.getXAxis = .error .undefined ∧
        p.getYAxis = .error .undefined ∧ ∀ a, (Pyramid3.mk p a).getBase = .error .undefined ∧ (Pyramid3.mk p a).getApex = .error .undefined) := by
  refine ⟨?_, ?_, ?_, ?_, ?_, ?_, ?_, ?_, ?_, ?_, ?_, ?_⟩
  · rintro ⟨a, b⟩ h; cases a <;> cases b <;> simp_all [Line3.getOrigin, Line3.getDirection, Line3.isDefined]
  · rintro ⟨a, b⟩ h; cases a <;> cases b <;> simp_all [Ray3.getOrigin, Ray3.getDirection, Ray3.isDefined]
  · rintro ⟨a, b⟩ h; cases a <;> cases b <;> simp_all [Line2.getOrigin, Line2.getDirection, Line2.isDefined]
  · rintro ⟨a, b⟩ h; cases a <;> cases b <;> simp_all [Seg3.getFirstPoint, Seg3.getSecondPoint, Seg3.isDefined]
  · rintro ⟨a, b⟩ h; cases a <;> cases b <;> simp_all [Seg2.getFirstPoint, Seg2.getSecondPoint, Seg2.isDefined]
  · rintro ⟨a, b⟩ h; cases a <;> cases b <;> simp_all [Plane3.getPoint, Plane3.getNormalVector, Plane3.isDefined]
  · rintro ⟨a, b⟩ h
    cases a <;> cases b <;> simp_all [Sphere3.getCenter, Sphere3.getRadius, need, bind, Except.bind]
  · intro e h
    have : e.isDefined = false := by rcases h with h | h | h | h | h <;> simp [Ellipsoid3.isDefined, h]
    simp [Ellipsoid3.getCenter, Ellipsoid3.getFirstPrincipalSemiAxis, Ellipsoid3.getSecondPrincipalSemiAxis,
      Ellipsoid3.getThirdPrincipalSemiAxis, Ellipsoid3.getOrientation, this]
  · intro r h
    have : r.isDefined = false := by rcases h with h | h | h <;> simp [RotVec.isDefined, Angle.isDefined, h]
    simp [RotVec.getAxis, RotVec.getAngle, this]
  · intro c h
    have : c.need = .error .undefined := by
      unfold Cone3.need
      split
      · next h1 h2 h3 => simp [Angle.isDefined] at h3; rcases h with h | h | h | h <;> simp_all
      · rfl
    simp [Cone3.getApex, Cone3.getAxis, Cone3.getAngle, this, bind, Except.bind]
  · intro c h
    have : c.need = .error .undefined := by
      unfold Cuboid3.need
      split
      · rcases h with h | h | h | h | h | h | h <;> simp_all
      · rfl
    simp [Cuboid3.getCenter, Cuboid3.getFirstAxis, Cuboid3.getSecondAxis, Cuboid3.getThirdAxis, Cuboid3.getFirstExtent,
      Cuboid3.getSecondExtent, Cuboid3.getThirdExtent, this, bind, Except.bind]
  · intro p h
    have : p.isDefined = false := by rcases h with h | h | h | h <;> simp [Polygon3.isDefined, h]
    simp [Polygon3.getPolygon2d, Polygon3.getOrigin, Polygon3.getXAxis, Polygon3.getYAxis, Pyramid3.getBase, Pyramid3.getApex,
      Pyramid3.isDefined, this]

/-- **C131 (angles)** An angle made from a number in a unit gives that number in that unit, and the corresponding number in every
other unit: a revolution is 2π radians, 360 degrees, 21600 minutes and 1296000 seconds of arc. An angle without a number throws. -/
theorem C131_angles :
    (∀ v : ℝ, (Angle.Radians (some v)).asRadians = .ok v ∧ (Angle.Degrees (some v)).asDegrees = .ok v ∧
      (Angle.Arcminutes (some v)).asArcminutes = .ok v ∧ (Angle.Arcseconds (some v)).asArcseconds = .ok v ∧
      (Angle.Revolutions (some v)).asRevolutions = .ok v) ∧
    (∀ v : ℝ, (Angle.Revolutions (some v)).asRadians = .ok (2 * Real.pi * v) ∧
      (Angle.Radians (some (2 * Real.pi * v))).asDegrees = .ok (360 * v) ∧
      (Angle.Degrees (some (360 * v))).asArcminutes = .ok (21600 * v) ∧
      (Angle.Arcminutes (some (21600 * v))).asArcseconds = .ok (1296000 * v) ∧
      (Angle.Arcseconds (some (1296000 * v))).asRevolutions = .ok v) ∧
    (Angle.Radians none).asRadians = .error .undefined ∧ (Angle.Degrees none).asDegrees = .error .undefined ∧
    (Angle.Arcminutes none).asArcminutes = .error .undefined ∧ (Angle.Arcseconds none).asArcseconds = .error .undefined ∧
    (Angle.Revolutions none).asRevolutions = .error .undefined ∧
    (∀ v : ℝ, (Angle.Radians (some v)).getUnit = .ok .radian ∧ (Angle.Degrees (some v)).getUnit = .ok .degree ∧
      (Angle.Arcminutes (some v)).getUnit = .ok .arcminute ∧ (Angle.Arcseconds (some v)).getUnit = .ok .arcsecond ∧
      (Angle.Revolutions (some v)).getUnit = .ok .revolution) := by
  have hp : Real.pi ≠ 0 := Real.pi_ne_zero
  refine ⟨fun v => ⟨rfl, rfl, rfl, rfl, rfl⟩, fun v => ?_, rfl, rfl, rfl, rfl, rfl, fun v => ⟨rfl, rfl, rfl, rfl, rfl⟩⟩
  simp only [Angle.Radians, Angle.Degrees, Angle.Arcminutes, Angle.Arcseconds, Angle.Revolutions, Angle.asRadians, Angle.asDegrees,
    Angle.asArcminutes, Angle.asArcseconds, Angle.asRevolutions, Angle.inUnit, Angle.isDefined, Angle.SIRatio, bind, Except.bind, pure, Except.pure]
  simp only [Option.isSome_some, ne_eq, reduceCtorEq, not_false_eq_true, decide_true, Bool.and_self, if_false, Except.ok.injEq]
  refine ⟨by ring, by field_simp; ring, by field_simp; ring, by field_simp; ring, by field_simp; ring⟩

/-- **C131 (quaternions and rotation vectors)** The components of a quaternion are read as they were given in either order, and
read in the order in which they were given they come back unchanged. A rotation vector about a coordinate axis has that axis and
that angle, one made from a vector that is not zero has the unit vector along it and its length, and an undefined angle is refused. -/
theorem C131_rotations (eps : ℝ) (he : 0 ≤ eps) :
    (∀ a b c d : ℝ, ∀ f, (Quat.ofComponents a b c d f).toVector f = (a, b, c, d)) ∧
    (∀ a b c d : ℝ, QuatObj.x (QuatObj.XYZS a b c d) = .ok a ∧ QuatObj.y (QuatObj.XYZS a b c d) = .ok b ∧
      QuatObj.z (QuatObj.XYZS a b c d) = .ok c ∧ QuatObj.s (QuatObj.XYZS a b c d) = .ok d ∧
      QuatObj.s (some (Quat.ofComponents a b c d .sxyz)) = .ok a ∧ QuatObj.x (some (Quat.ofComponents a b c d .sxyz)) = .ok b ∧
      QuatObj.y (some (Quat.ofComponents a b c d .sxyz)) = .ok c ∧ QuatObj.z (some (Quat.ofComponents a b c d .sxyz)) = .ok d) ∧
    (QuatObj.x none = .error .undefined ∧ QuatObj.y none = .error .undefined ∧ QuatObj.z none = .error .undefined ∧
      QuatObj.s none = .error .undefined) ∧
    (∀ a : Angle, a.isDefined = true →
      (∃ r, RotVec.X eps a = .ok r ∧ r.getAxis = .ok ⟨1, 0, 0⟩ ∧ r.getAngle = .ok a) ∧
      (∃ r, RotVec.Y eps a = .ok r ∧ r.getAxis = .ok ⟨0, 1, 0⟩ ∧ r.getAngle = .ok a) ∧
      (∃ r, RotVec.Z eps a = .ok r ∧ r.getAxis = .ok ⟨0, 0, 1⟩ ∧ r.getAngle = .ok a)) ∧
    (∀ a : Angle, a.isDefined = false →
      RotVec.X eps a = .error .undefined ∧ RotVec.Y eps a = .error .undefined ∧ RotVec.Z eps a = .error .undefined) ∧
    (∀ (v : V3) (u : AUnit), v.normSq ≠ 0 → u ≠ .undefined →
      ∃ d, (RotVec.mk2 (some v) u).getAxis = .ok d ∧ d.normSq = 1 ∧ (RotVec.mk2 (some v) u).getAngle = .ok ⟨some v.norm, u⟩ ∧
        v = v.norm • d) := by
  have key : ∀ (w : V3) (a : Angle), w.normSq = 1 → a.isDefined = true →
      ∃ r, RotVec.mk1 eps (some w) a = .ok r ∧ r.getAxis = .ok w ∧ r.getAngle = .ok a := by
    intro w a hw ha
    refine ⟨⟨some w, a⟩, ?_, ?_, ?_⟩
    · simp [RotVec.mk1, V3.norm_of_normSq_one hw, not_lt.2 he, V3.normalized_of_unit hw]
    · simp [RotVec.getAxis, RotVec.isDefined, ha, need]
    · simp [RotVec.getAngle, RotVec.isDefined, ha]
  refine ⟨fun a b c d f => by cases f <;> rfl, fun a b c d => ⟨rfl, rfl, rfl, rfl, rfl, rfl, rfl, rfl⟩, ⟨rfl, rfl, rfl, rfl⟩, fun a h => ?_, fun a h => ?_, fun v u hv hu => ?_⟩
  · simp only [RotVec.X, RotVec.Y, RotVec.Z, h, Bool.not_true, Bool.false_eq_true, if_false]
    exact ⟨key _ a (by simp [V3.X, V3.normSq, V3.dot]) h, key _ a (by simp [V3.Y, V3.normSq, V3.dot]) h, key _ a (by simp [V3.Z, V3.normSq, V3.dot]) h⟩
  · simp [RotVec.X, RotVec.Y, RotVec.Z, h]
  · have hp : 0 < v.normSq := lt_of_le_of_ne (V3.normSq_nonneg v) (Ne.symm hv)
    have hn : v.normalized ≠ 0 := by
      intro h0
      have := V3.normSq_normalized hp
      rw [h0] at this
      simp [V3.normSq, V3.dot] at this
    refine ⟨v.normalized, ?_, V3.normSq_normalized hp, ?_, (V3.norm_smul_normalized v).symm⟩
    · simp [RotVec.mk2, hn, RotVec.getAxis, RotVec.isDefined, Angle.isDefined, hu, need]
    · simp [RotVec.mk2, hn, RotVec.getAngle, RotVec.isDefined, Angle.isDefined, hu]

/-- **C131 (polygons and cuboids)** A polygon in space keeps its plane polygon and its origin, its axes become unit vectors along
those given; a cuboid keeps its center, axes and extents. -/
theorem C131_frames (eps : ℝ) :
    (∀ (b : Polygon2) (o x y : V3) (p : Polygon3), b.isDefined = true → x.normSq ≠ 0 → y.normSq ≠ 0 →
      Polygon3.ctor eps b (some o) (some x) (some y) = .ok p →
      p.getPolygon2d = .ok b ∧ p.getOrigin = .ok o ∧
        ∃ u v, p.getXAxis = .ok u ∧ p.getYAxis = .ok v ∧ u.normSq = 1 ∧ v.normSq = 1 ∧ x = x.norm • u ∧ y = y.norm • v ∧ |u.dot v| ≤ eps) ∧
    (∀ (c x y z : V3) (e f g : ℝ),
      let b : Cuboid3 := ⟨some c, some x, some y, some z, some e, some f, some g⟩
      b.getCenter = .ok c ∧ b.getFirstAxis = .ok x ∧ b.getSecondAxis = .ok y ∧ b.getThirdAxis = .ok z ∧
        b.getFirstExtent = .ok e ∧ b.getSecondExtent = .ok f ∧ b.getThirdExtent = .ok g) := by
  refine ⟨fun b o x y p hb hx hy h => ?_, fun c x y z e f g => ⟨rfl, rfl, rfl, rfl, rfl, rfl, rfl⟩⟩
  have hx' : 0 < x.normSq := lt_of_le_of_ne (V3.normSq_nonneg x) (Ne.symm hx)
  have hy' : 0 < y.normSq := lt_of_le_of_ne (V3.normSq_nonneg y) (Ne.symm hy)
  simp only [Polygon3.ctor, Option.map_some] at h
  split_ifs at h with h1
  simp only [Except.ok.injEq] at h
  subst h
  refine ⟨?_, ?_, x.normalized, y.normalized, ?_, ?_, V3.normSq_normalized hx', V3.normSq_normalized hy',
    (V3.norm_smul_normalized x).symm, (V3.norm_smul_normalized y).symm, not_lt.1 h1⟩
  · simp [Polygon3.getPolygon2d, Polygon3.isDefined, hb]
  · simp [Polygon3.getOrigin, Polygon3.isDefined, hb, need]
  · simp [Polygon3.getXAxis, Polygon3.isDefined, hb, need]
  · simp [Polygon3.getYAxis, Polygon3.isDefined, hb, need]

/-! ### Examples -/

example : ∃ l, Line3.ctor (some ⟨1, 2, 3⟩) (some ⟨0, 3, 4⟩) = .ok l := by
  refine ⟨⟨some ⟨1, 2, 3⟩, some (V3.normalized ⟨0, 3, 4⟩)⟩, ?_⟩
  simp only [Line3.ctor, V3.normSq, V3.dot]; norm_num
example : (⟨0, 3, 4⟩ : V3).normSq ≠ 0 := by simp only [V3.normSq, V3.dot]; norm_num
example : ∃ r, Line2.ctor (some ⟨1, 2⟩) (some ⟨3, 4⟩) = .ok r := by
  refine ⟨⟨some ⟨1, 2⟩, some (V2.normalized ⟨3, 4⟩)⟩, ?_⟩
  simp only [Line2.ctor, V2.normSq, V2.dot]; norm_num
example : (Pt3.mk (some 1) none (some 2)).x = .error .undefined := (C131_points.1 _ (Or.inr (Or.inl rfl))).1
example : (Angle.Degrees (some 90)).isDefined = true := rfl
example : (Angle.Degrees none).isDefined = false := rfl
example : ∃ p, Polygon3.ctor 0 ⟨[⟨0, 0⟩, ⟨0, 1⟩, ⟨1, 0⟩, ⟨0, 0⟩], []⟩ (some 0) (some V3.X) (some V3.Y) = .ok p := by
  refine ⟨⟨⟨[⟨0, 0⟩, ⟨0, 1⟩, ⟨1, 0⟩, ⟨0, 0⟩], []⟩, some 0, some V3.X, some V3.Y⟩, ?_⟩
  have hx : V3.X.normalized = V3.X := V3.normalized_of_unit (by simp [V3.X, V3.normSq, V3.dot])
  have hy : V3.Y.normalized = V3.Y := V3.normalized_of_unit (by simp [V3.Y, V3.normSq, V3.dot])
  simp [Polygon3.ctor, hx, hy, V3.dot]
  simp [V3.X, V3.Y]

end Verif.Props
