import Verif.Model.Polygon

/-!
# The 2D objects, composites and intersections

Sources: `src/OpenSpaceToolkit/Mathematics/Geometry/2D/Object.cpp`, `.../2D/Object/Composite.cpp`, `.../2D/Intersection.cpp`,
`.../2D/Object/Polygon.cpp` and their headers.

The member functions `contains (Object)` and `intersects (Object)` of the base class are virtual and composites override them, so that a composite
inside a composite uses its own. Objects are values: `clone` is the identity.
-/

namespace Verif

/-- An object of a concrete class derived from `d2::Object`. A composite has the members `defined_` and `objects_`. -/
inductive Obj2 where
  | point (p : Option V2)
  | pointSet (ps : List (Option V2))
  | line (l : Line2)
  | segment (s : Seg2)
  | lineString (ps : List (Option V2))
  | polygon (p : Polygon2)
  | multiPolygon (ps : List Polygon2)
  | composite (defined : Bool) (objects : List Obj2)

mutual
/-- the virtual function `isDefined`; for composites `2D/Object/Composite.cpp` 195-205 -/
def Obj2.isDefined : Obj2 → Bool
  | .point p => p.isSome
  | .pointSet ps => !ps.isEmpty
  | .line l => l.isDefined
  | .segment s => s.isDefined
  | .lineString ps => !ps.isEmpty
  | .polygon p => p.isDefined
  | .multiPolygon ps => MultiPolygon2.isDefined ps
  | .composite d os => d && Obj2.allDefined os
/-- the loop in `Composite::isDefined` -/
def Obj2.allDefined : List Obj2 → Bool
  | [] => true
  | o :: os => o.isDefined && Obj2.allDefined os
end

/-- `operator ==` (`2D/Object.cpp` 24-65): only points, polygons and multi-polygons are compared -/
noncomputable def Obj2.eq (B : Boost) (a b : Obj2) : Bool :=
  if !a.isDefined || !b.isDefined then false
  else match a, b with
  | .point p, .point q => P2.eq p q
  | .polygon p, .polygon q => p.eq B q
  | .multiPolygon ps, .multiPolygon qs => MultiPolygon2.eq B ps qs
  | _, _ => false

mutual
/-- `intersects (Object)` (`2D/Object.cpp` 79-92; for composites `2D/Object/Composite.cpp` 217-237) -/
def Obj2.intersects : Obj2 → Obj2 → Res Bool
  | .composite d os, a =>
    if !a.isDefined then .error .undefined
    else if !(d && Obj2.allDefined os) then .error .undefined
    else Obj2.anyIntersects os a
  | _, a => if !a.isDefined then .error .undefined else .error .toBeImplemented
/-- the loop in `Composite::intersects (Object)` -/
def Obj2.anyIntersects : List Obj2 → Obj2 → Res Bool
  | [], _ => .ok false
  | o :: os, a =>
    match Obj2.intersects o a with
    | .error e => .error e
    | .ok true => .ok true
    | .ok false => Obj2.anyIntersects os a
end

/-- `Object::contains (Object)` (`2D/Object.cpp` 94-167) -/
noncomputable def Obj2.containsBase (B : Boost) (o a : Obj2) : Res Bool :=
  if !a.isDefined then .error .undefined
  else match o, a with
  | .lineString ps, .point p => LineString2.contains ps p
  | .polygon p, .point q => p.contains B q
  | .polygon p, .pointSet qs => p.containsSet B qs
  | .polygon p, .lineString qs => p.containsLine B qs
  | .multiPolygon ps, .point q => MultiPolygon2.contains B ps q
  | .multiPolygon ps, .pointSet qs => MultiPolygon2.containsSet ps qs
  | _, _ => .error .toBeImplemented

mutual
/-- the virtual function `contains (Object)`; for composites `2D/Object/Composite.cpp` 261-286 -/
noncomputable def Obj2.contains (B : Boost) : Obj2 → Obj2 → Res Bool
  | .composite d os, a =>
    if !a.isDefined then .error .undefined
    else if !(d && Obj2.allDefined os) then .error .undefined
    else if os.isEmpty then .ok false
    else Obj2.allContain B os a
  | .point p, a => Obj2.containsBase B (.point p) a
  | .pointSet ps, a => Obj2.containsBase B (.pointSet ps) a
  | .line l, a => Obj2.containsBase B (.line l) a
  | .segment s, a => Obj2.containsBase B (.segment s) a
  | .lineString ps, a => Obj2.containsBase B (.lineString ps) a
  | .polygon p, a => Obj2.containsBase B (.polygon p) a
  | .multiPolygon ps, a => Obj2.containsBase B (.multiPolygon ps) a
/-- the loop in `Composite::contains (Object)` -/
noncomputable def Obj2.allContain (B : Boost) : List Obj2 → Obj2 → Res Bool
  | [], _ => .ok true
  | o :: os, a =>
    match Obj2.contains B o a with
    | .error e => .error e
    | .ok false => .ok false
    | .ok true => Obj2.allContain B os a
end

/-! ## Composites -/

/-- `d2::object::Composite` as a value of its own (members `defined_`, `objects_`) -/
structure Composite2 where
  defined : Bool
  objects : List Obj2

namespace Composite2

/-- `isDefined` (`2D/Object/Composite.cpp` 195-205) -/
def isDefined (c : Composite2) : Bool := c.defined && Obj2.allDefined c.objects

/-- constructors from an object (`2D/Object/Composite.cpp` 21-35) -/
def ofObject (o : Obj2) : Composite2 := ⟨true, [o]⟩

/-- constructor from an array (`2D/Object/Composite.cpp` 37-53) -/
def ofArray (os : List Obj2) : Composite2 := ⟨true, os⟩

/-- `Undefined` (`2D/Object/Composite.cpp` 547-554) -/
def Undefined : Composite2 := ⟨false, []⟩

/-- `Empty` (`2D/Object/Composite.cpp` 556-559) -/
def Empty : Composite2 := ⟨true, []⟩

/-- the loop over both arrays in `operator ==` -/
noncomputable def eqLoop (B : Boost) : List Obj2 → List Obj2 → Bool
  | a :: as, b :: bs => if !a.eq B b then false else eqLoop B as bs
  | _, _ => true

/-- `operator ==` (`2D/Object/Composite.cpp` 102-123) -/
noncomputable def eq (B : Boost) (a b : Composite2) : Bool :=
  if !a.isDefined || !b.isDefined then false
  else if a.objects.length ≠ b.objects.length then false
  else eqLoop B a.objects b.objects

/-- `operator +` (`2D/Object/Composite.cpp` 130-166) -/
def add (a b : Composite2) : Res Composite2 :=
  if !b.isDefined then .error .undefined
  else if !a.isDefined then .error .undefined
  else .ok ⟨true, a.objects ++ b.objects⟩

/-- `operator +=` (`2D/Object/Composite.cpp` 168-193): the flag of the left operand stays -/
def addAssign (a b : Composite2) : Res Composite2 :=
  if !b.isDefined then .error .undefined
  else if !a.isDefined then .error .undefined
  else .ok ⟨a.defined, a.objects ++ b.objects⟩

/-- `isEmpty` (`2D/Object/Composite.cpp` 207-215) -/
def isEmpty (c : Composite2) : Res Bool := if !c.isDefined then .error .undefined else .ok c.objects.isEmpty

/-- `intersects (Object)` (`2D/Object/Composite.cpp` 217-237) -/
def intersects (c : Composite2) (a : Obj2) : Res Bool := Obj2.intersects (.composite c.defined c.objects) a

/-- `intersects (Composite)` (`2D/Object/Composite.cpp` 239-259) -/
def intersectsComposite (c a : Composite2) : Res Bool :=
  if !a.isDefined then .error .undefined
  else if !c.isDefined then .error .undefined
  else anyOf c.intersects a.objects

/-- `contains (Object)` (`2D/Object/Composite.cpp` 261-286) -/
noncomputable def contains (B : Boost) (c : Composite2) (a : Obj2) : Res Bool := Obj2.contains B (.composite c.defined c.objects) a

/-- `contains (Composite)` (`2D/Object/Composite.cpp` 288-313) -/
noncomputable def containsComposite (B : Boost) (c a : Composite2) : Res Bool :=
  if !a.isDefined then .error .undefined
  else if !c.isDefined then .error .undefined
  else if c.objects.isEmpty then .ok false
  else allOf (c.contains B) a.objects

/-- `anyContains (Object)` (`2D/Object/Composite.cpp` 315-340) -/
noncomputable def anyContains (B : Boost) (c : Composite2) (a : Obj2) : Res Bool :=
  if !a.isDefined then .error .undefined
  else if !c.isDefined then .error .undefined
  else if c.objects.isEmpty then .ok false
  else anyOf (fun o => Obj2.contains B o a) c.objects

/-- `anyContains (Composite)` (`2D/Object/Composite.cpp` 342-367): calls `contains`, not `anyContains` -/
noncomputable def anyContainsComposite (B : Boost) (c a : Composite2) : Res Bool :=
  if !a.isDefined then .error .undefined
  else if !c.isDefined then .error .undefined
  else if c.objects.isEmpty then .ok false
  else anyOf (c.contains B) a.objects

/-- `accessObjectAt` (`2D/Object/Composite.cpp` 369-382) -/
def accessObjectAt (c : Composite2) (i : ℕ) : Res Obj2 :=
  if !c.isDefined then .error .undefined
  else match c.objects[i]? with
  | some o => .ok o
  | none => .error .runtimeError

/-- `accessObjects` (`2D/Object/Composite.cpp` 384-392) -/
def accessObjects (c : Composite2) : Res (List Obj2) := if !c.isDefined then .error .undefined else .ok c.objects

/-- `getObjectCount` (`2D/Object/Composite.cpp` 394-402) -/
def getObjectCount (c : Composite2) : Res ℕ := if !c.isDefined then .error .undefined else .ok c.objects.length

end Composite2

mutual
/-- the virtual function `applyTransformation`; for composites `2D/Object/Composite.cpp` 524-545 -/
noncomputable def Obj2.applyTransformation (t : T2) : Obj2 → Res Obj2
  | .point p => (P2.applyTransformation t p).map .point
  | .pointSet ps => (PointSet2.applyTransformation t ps).map .pointSet
  | .line l => (Line2.applyTransformation t l).map .line
  | .segment s => (Seg2.applyTransformation t s).map .segment
  | .lineString ps => (LineString2.applyTransformation t ps).map .lineString
  | .polygon p => (Polygon2.applyTransformation t p).map .polygon
  | .multiPolygon ps => (MultiPolygon2.applyTransformation t ps).map .multiPolygon
  | .composite d os =>
    if !t.isDefined then .error .undefined
    else if !(d && Obj2.allDefined os) then .error .undefined
    else if t.isIdentity then .ok (.composite d os)
    else (Obj2.applyAll t os).map (.composite d)
/-- the loop in `Composite::applyTransformation` -/
noncomputable def Obj2.applyAll (t : T2) : List Obj2 → Res (List Obj2)
  | [] => .ok []
  | o :: os =>
    match Obj2.applyTransformation t o with
    | .error e => .error e
    | .ok o' =>
      match Obj2.applyAll t os with
      | .error e => .error e
      | .ok os' => .ok (o' :: os')
end

/-! ## Intersections -/

/-- `d2::Intersection::Type` (`2D/Intersection.hpp` 45-58) -/
inductive IType2 where
  | undefined | empty | point | pointSet | line | segment | lineString | polygon | complex
  deriving DecidableEq, Repr

/-- `TypeFromObjects (Unique<Object>)` (`2D/Intersection.cpp` 288-321): multi-polygons and composites have no type -/
def IType2.ofObject : Obj2 → IType2
  | .point _ => .point
  | .pointSet _ => .pointSet
  | .line _ => .line
  | .segment _ => .segment
  | .lineString _ => .lineString
  | .polygon _ => .polygon
  | .multiPolygon _ => .undefined
  | .composite _ _ => .undefined

/-- the loop of `TypeFromObjects (Array)` (`2D/Intersection.cpp` 269-285) -/
def IType2.loop : IType2 → List Obj2 → IType2
  | t, [] => t
  | t, o :: os =>
    if t = .undefined then IType2.loop (.ofObject o) os
    else if t ≠ .ofObject o then .complex
    else IType2.loop t os

/-- `TypeFromObjects (Array)` (`2D/Intersection.cpp` 262-286) -/
def IType2.ofObjects (os : List Obj2) : IType2 := if os.isEmpty then .empty else IType2.loop .undefined os

/-- `d2::Intersection` (members `type_`, `composite_`) -/
structure Isect2 where
  type : IType2
  composite : Composite2

namespace Isect2

/-- constructor from an array (`2D/Intersection.cpp` 17-21) -/
def ofArray (os : List Obj2) : Isect2 := ⟨.ofObjects os, .ofArray os⟩

/-- `isDefined` (`2D/Intersection.cpp` 102-105) -/
def isDefined (i : Isect2) : Bool := decide (i.type ≠ .undefined)

/-- `isEmpty` (`2D/Intersection.cpp` 107-110) -/
def isEmpty (i : Isect2) : Bool := decide (i.type = .empty)

/-- `isComplex` (`2D/Intersection.cpp` 112-115) -/
def isComplex (i : Isect2) : Bool := decide (i.type = .complex)

/-- `getType` (`2D/Intersection.cpp` 127-135) -/
def getType (i : Isect2) : Res IType2 := if !i.isDefined then .error .undefined else .ok i.type

/-- `accessComposite` (`2D/Intersection.cpp` 117-125) -/
def accessComposite (i : Isect2) : Res Composite2 := if !i.isDefined then .error .undefined else .ok i.composite

/-- `operator ==` (`2D/Intersection.cpp` 42-50) -/
noncomputable def eq (B : Boost) (a b : Isect2) : Bool :=
  if !a.isDefined || !b.isDefined then false else decide (a.type = b.type) && a.composite.eq B b.composite

/-- `Undefined` (`2D/Intersection.cpp` 137-144) with the default constructor (256-260) -/
def Undefined : Isect2 := ⟨.undefined, .Undefined⟩

/-- `Empty` (`2D/Intersection.cpp` 146-149) -/
def Empty : Isect2 := .ofArray []

/-- `Point` (`2D/Intersection.cpp` 151-160) -/
def Point (p : Option V2) : Isect2 := ⟨.point, .ofObject (.point p)⟩
/-- `PointSet` (`2D/Intersection.cpp` 162-171) -/
def PointSet (ps : List (Option V2)) : Isect2 := ⟨.pointSet, .ofObject (.pointSet ps)⟩
/-- `LineString` (`2D/Intersection.cpp` 173-182) -/
def LineString (ps : List (Option V2)) : Isect2 := ⟨.lineString, .ofObject (.lineString ps)⟩
/-- `Line` (`2D/Intersection.cpp` 184-193) -/
def Line (l : Line2) : Isect2 := ⟨.line, .ofObject (.line l)⟩
/-- `Segment` (`2D/Intersection.cpp` 195-204) -/
def Segment (s : Seg2) : Isect2 := ⟨.segment, .ofObject (.segment s)⟩
/-- `Polygon` (`2D/Intersection.cpp` 206-215) -/
def Polygon (p : Polygon2) : Isect2 := ⟨.polygon, .ofObject (.polygon p)⟩

/-- `operator +` (`2D/Intersection.cpp` 57-71) -/
def add (a b : Isect2) : Res Isect2 :=
  if !b.isDefined then .error .undefined
  else do
    let c ← a.composite.add b.composite
    let os ← c.accessObjects
    return ⟨.ofObjects os, c⟩

/-- `operator +=` (`2D/Intersection.cpp` 73-85) -/
def addAssign (a b : Isect2) : Res Isect2 :=
  if !b.isDefined then .error .undefined
  else do
    let c ← a.composite.addAssign b.composite
    let os ← c.accessObjects
    return ⟨.ofObjects os, c⟩

end Isect2

/-! ## Intersection and difference of polygons -/

namespace Polygon2

/-- the loop over the polygons (`2D/Object/Polygon.cpp` 468-476, 571-579) -/
noncomputable def addPolygons : Isect2 → List Polygon2 → Res Isect2
  | i, [] => .ok i
  | i, p :: ps => do
    let q ← ofBoost p
    let i ← i.addAssign (.Polygon q)
    addPolygons i ps

/-- the loop over the line strings (`2D/Object/Polygon.cpp` 478-507) -/
noncomputable def addLines (B : Boost) : Isect2 → List (List V2) → Res Isect2
  | i, [] => .ok i
  | i, l :: ls =>
    if B.isValidLine l then do
      let c ← i.accessComposite
      let covered ← c.anyContains B (.lineString (l.map some))
      if covered then addLines B i ls
      else do
        let i ← i.addAssign (.LineString (l.map some))
        addLines B i ls
    else addLines B i ls

/-- the loop over the points (`2D/Object/Polygon.cpp` 509-524) -/
noncomputable def addPoints (B : Boost) : Isect2 → List V2 → Res Isect2
  | i, [] => .ok i
  | i, p :: ps => do
    let c ← i.accessComposite
    let covered ← c.anyContains B (.point (some p))
    if covered then addPoints B i ps
    else do
      let i ← i.addAssign (.Point (some p))
      addPoints B i ps

/-- `intersectionWith` (`2D/Object/Polygon.cpp` 392-527, 1001-1009) -/
noncomputable def intersectionWith (B : Boost) (p q : Polygon2) : Res Isect2 :=
  if !p.isDefined || !q.isDefined then .error .undefined
  else if !B.isValid p then .error .runtimeError
  else if !B.isValid q then .error .runtimeError
  else do
    let ps ← rethrow (B.polygons p q)
    let ls ← rethrow (B.lines p q)
    let vs ← rethrow (B.points p q)
    let i ← addPolygons .Empty ps
    let i ← addLines B i ls
    addPoints B i vs

/-- `differenceWith` (`2D/Object/Polygon.cpp` 529-588, 1011-1019) -/
noncomputable def differenceWith (B : Boost) (p q : Polygon2) : Res Isect2 :=
  if !p.isDefined || !q.isDefined then .error .undefined
  else if !B.isValid p then .error .runtimeError
  else if !B.isValid q then .error .runtimeError
  else do
    let ps ← rethrow (B.difference p q)
    addPolygons .Empty ps

end Polygon2

end Verif
