import Verif.Model.Boost
import Verif.Model.Linear2
import Verif.Model.Points

/-!
# Polygons

Sources: `src/OpenSpaceToolkit/Mathematics/Geometry/2D/Object/Polygon.cpp`, `.../2D/Object/MultiPolygon.cpp` and
`.../3D/Object/Polygon.cpp`.

Sizes are natural numbers; the code subtracts unsigned numbers only after the test that the outer ring has three points, and rings from the
constructor are never empty, so that no subtraction wraps. `std::vector::at` throws `std::out_of_range`, which appears here as `runtimeError`.
-/

namespace Verif

namespace Polygon2

/-! ## 2D -/

/-- `BoostPolygonFromPoints` (`2D/Object/Polygon.cpp` 644-661) -/
noncomputable def ofPoints (ps : List (Option V2)) : Res Polygon2 :=
  if !ps.isEmpty && decide (ps.length < 3) then .error .runtimeError
  else do
    let vs ← mapRes need ps
    return correct ⟨vs, []⟩

/-- the loop over the inner rings (`2D/Object/Polygon.cpp` 114-131) -/
noncomputable def addRings (p : Polygon2) : List (List (Option V2)) → Res Polygon2
  | [] => .ok p
  | r :: rs =>
    if r.length < 3 then .error .runtimeError
    else do
      let vs ← mapRes need r
      addRings (correct ⟨p.outer, p.inners ++ [vs]⟩) rs

/-- constructor (`2D/Object/Polygon.cpp` 111-132, 713-717) -/
noncomputable def ctor (outer : List (Option V2)) (inners : List (List (Option V2))) : Res Polygon2 := do
  let p ← ofPoints outer
  addRings p inners

/-- `Undefined` (`2D/Object/Polygon.cpp` 1056-1059) -/
noncomputable def Undefined : Res Polygon2 := ctor [] []

/-- the points of a ring without the last one, as read by the loops with bound `size () - 1`, which need a point -/
def open' (r : List V2) : Res (List V2) := if r.isEmpty then .error .runtimeError else .ok r.dropLast

/-- `PolygonFromBoostPolygon` (`2D/Object/Polygon.cpp` 682-711; the same in `2D/Object/MultiPolygon.cpp` 298-327) -/
noncomputable def ofBoost (p : Polygon2) : Res Polygon2 := do
  let o ← open' p.outer
  let is ← mapRes open' p.inners
  ctor (o.map some) (is.map (·.map some))

/-- `operator ==` (`2D/Object/Polygon.cpp` 134-137, 744-752) -/
def eq (B : Boost) (p q : Polygon2) : Bool := if !p.isDefined || !q.isDefined then false else B.equals p q

/-- `intersects` (`2D/Object/Polygon.cpp` 144-158, 801-814) -/
def intersects (B : Boost) (p q : Polygon2) : Res Bool :=
  if !q.isDefined then .error .undefined
  else if !p.isDefined then .error .undefined
  else rethrow (B.intersects p q)

/-- `contains (Point)` (`2D/Object/Polygon.cpp` 160-174, 816-829) -/
def contains (B : Boost) (p : Polygon2) (q : Option V2) : Res Bool := do
  let v ← need q
  if !p.isDefined then .error .undefined else rethrow (B.coveredBy v p)

/-- the body of the loop in `contains (PointSet)`, where the coordinates of an undefined point would throw inside the `try` block -/
def containsImpl (B : Boost) (p : Polygon2) (q : Option V2) : Res Bool := rethrow (do B.coveredBy (← need q) p)

/-- `contains (PointSet)` (`2D/Object/Polygon.cpp` 176-187, 831-844) -/
def containsSet (B : Boost) (p : Polygon2) (ps : List (Option V2)) : Res Bool :=
  if ps.isEmpty then .error .undefined
  else if !p.isDefined then .error .undefined
  else allOf (containsImpl B p) ps

/-- `contains (LineString)` (`2D/Object/Polygon.cpp` 189-205, 663-680, 846-859) -/
def containsLine (B : Boost) (p : Polygon2) (ps : List (Option V2)) : Res Bool :=
  if ps.isEmpty then .error .undefined
  else if !p.isDefined then .error .undefined
  else rethrow (if ps.length < 2 then .error .runtimeError else do B.coveredByLine (← mapRes need ps) p)

/-- `getInnerRingCount` (`2D/Object/Polygon.cpp` 207-210, 861-869) -/
def getInnerRingCount (p : Polygon2) : Res ℕ := if !p.isDefined then .error .undefined else .ok p.inners.length

/-- `getOuterRingVertices` (`2D/Object/Polygon.cpp` 212-230) -/
def outerVertices (p : Polygon2) : List V2 := p.outer.dropLast

/-- `getInnerRingVerticesAt` (`2D/Object/Polygon.cpp` 232-257) -/
def innerVerticesAt (p : Polygon2) (i : ℕ) : Res (List V2) :=
  match p.inners[i]? with
  | none => .error .runtimeError
  | some r => .ok r.dropLast

/-- `Impl::getEdgeCount` (`2D/Object/Polygon.cpp` 259-269) -/
def edgeCount (p : Polygon2) : ℕ := p.inners.foldl (fun n r => n + (r.length - 1)) (p.outer.length - 1)

/-- `getOuterRingEdgeCount` (`2D/Object/Polygon.cpp` 271-274) -/
def outerEdgeCount (p : Polygon2) : ℕ := p.outer.length - 1

/-- `boost::geometry::num_points` of a polygon -/
def numPoints (p : Polygon2) : ℕ := p.outer.length + (p.inners.map List.length).sum

/-- `getEdgeCount` (`2D/Object/Polygon.cpp` 871-879) -/
def getEdgeCount (p : Polygon2) : Res ℕ := if !p.isDefined then .error .undefined else .ok p.edgeCount

/-- `getVertexCount` (`2D/Object/Polygon.cpp` 276-279, 881-889) -/
def getVertexCount (p : Polygon2) : Res ℕ := if !p.isDefined then .error .undefined else .ok (p.numPoints - (1 + p.inners.length))

/-- a ring from its vertices: the first one is repeated (`2D/Object/Polygon.cpp` 283-290, 295-302) -/
def ringOf (vs : List V2) : List (Option V2) := (vs ++ vs.head?.toList).map some

/-- `getOuterRing` (`2D/Object/Polygon.cpp` 281-291, 891-899) -/
def getOuterRing (p : Polygon2) : Res (List (Option V2)) := if !p.isDefined then .error .undefined else .ok (ringOf p.outerVertices)

/-- `getInnerRingAt` (`2D/Object/Polygon.cpp` 293-303, 901-909) -/
def getInnerRingAt (p : Polygon2) (i : ℕ) : Res (List (Option V2)) :=
  if !p.isDefined then .error .undefined
  else do
    let vs ← p.innerVerticesAt i
    return ringOf vs

/-- `Impl::getVertexAt` (`2D/Object/Polygon.cpp` 324-340) -/
def vertexAt (p : Polygon2) (i : ℕ) : Res V2 :=
  if p.numPoints - 1 ≤ i then .error .wrong
  else if p.outer.length - 1 ≤ i then .error .toBeImplemented
  else match p.outer[i]? with
  | none => .error .runtimeError
  | some v => .ok v

/-- `Impl::getEdgeAt` (`2D/Object/Polygon.cpp` 305-322) -/
def edgeAt (p : Polygon2) (i : ℕ) : Res Seg2 :=
  if p.edgeCount ≤ i then .error .wrong
  else if p.outerEdgeCount ≤ i then .error .toBeImplemented
  else do
    let a ← p.vertexAt i
    let b ← p.vertexAt (if i ≠ p.outerEdgeCount - 1 then i + 1 else 0)
    return ⟨some a, some b⟩

/-- `getVertexAt` (`2D/Object/Polygon.cpp` 921-929) -/
def getVertexAt (p : Polygon2) (i : ℕ) : Res V2 := if !p.isDefined then .error .undefined else p.vertexAt i

/-- `getEdgeAt` (`2D/Object/Polygon.cpp` 911-919) -/
def getEdgeAt (p : Polygon2) (i : ℕ) : Res Seg2 := if !p.isDefined then .error .undefined else p.edgeAt i

/-- `getEdges` (`2D/Object/Polygon.cpp` 342-354, 931-939) -/
def getEdges (p : Polygon2) : Res (List Seg2) := if !p.isDefined then .error .undefined else mapRes p.edgeAt (List.range p.edgeCount)

/-- `getVertices` (`2D/Object/Polygon.cpp` 356-374, 941-949) -/
def getVertices (p : Polygon2) : Res (List V2) :=
  if !p.isDefined then .error .undefined
  else do
    let is ← mapRes p.innerVerticesAt (List.range p.inners.length)
    return p.outerVertices ++ is.flatten

/-- `isNear` (`2D/Object/Polygon.cpp` 764-799) -/
noncomputable def isNear (p q : Polygon2) (tol : Option ℝ) : Res Bool :=
  if !q.isDefined then .error .undefined
  else if tol.isNone then .error .undefined
  else if !p.isDefined then .error .undefined
  else do
    let n ← p.getVertexCount
    let m ← q.getVertexCount
    if n ≠ m then return false
    let ps ← p.getVertices
    let qs ← q.getVertices
    Points.zipNear (fun a b => P2.isNear a b tol) (ps.map some) (qs.map some)

/-- `getConvexHull` (`2D/Object/Polygon.cpp` 376-390, 951-959) -/
noncomputable def getConvexHull (B : Boost) (p : Polygon2) : Res Polygon2 :=
  if !p.isDefined then .error .undefined
  else do
    let h ← rethrow (B.convexHull p)
    ofBoost h

/-- `applyTransformation` (`2D/Object/Polygon.cpp` 619-642, 1041-1054). `matrix_transformer` uses the first two rows. A transformation whose
matrix has an undefined coefficient would produce a polygon with such coordinates, which the model has as an error. -/
def applyTransformation (t : T2) (p : Polygon2) : Res Polygon2 :=
  if !t.isDefined then .error .undefined
  else if !p.isDefined then .error .undefined
  else do
    let m ← need t.matrix
    return ⟨p.outer.map (T2.head m · 1), p.inners.map (·.map (T2.head m · 1))⟩

end Polygon2

/-! ## Several polygons -/

namespace MultiPolygon2

/-- the rings of one polygon (`2D/Object/MultiPolygon.cpp` 264-291), before the last correction -/
noncomputable def ringsOf (p : Polygon2) : Res Polygon2 := do
  let o ← p.getOuterRing
  let vs ← mapRes need o
  let n ← p.getInnerRingCount
  let is ← mapRes (fun i => do
    let r ← p.getInnerRingAt i
    let ws ← mapRes need r
    return Ring.correctOuter ws) (List.range n)
  return ⟨vs, is⟩

/-- constructor (`2D/Object/MultiPolygon.cpp` 257-296, 329-333) -/
noncomputable def ctor (ps : List Polygon2) : Res (List Polygon2) := do
  let bs ← mapRes ringsOf ps
  return bs.map Polygon2.correct

/-- `isDefined` (`2D/Object/MultiPolygon.cpp` 98-101, 377-380) -/
def isDefined (ps : List Polygon2) : Bool := !ps.isEmpty

/-- `operator ==` (`2D/Object/MultiPolygon.cpp` 93-96, 362-370) -/
def eq (B : Boost) (ps qs : List Polygon2) : Bool := if !isDefined ps || !isDefined qs then false else B.equalsMulti ps qs

/-- `contains (Point)` (`2D/Object/MultiPolygon.cpp` 103-117, 382-395) -/
def contains (B : Boost) (ps : List Polygon2) (q : Option V2) : Res Bool := do
  let v ← need q
  if !isDefined ps then .error .undefined else rethrow (B.coveredByMulti v ps)

/-- `contains (PointSet)` (`2D/Object/MultiPolygon.cpp` 119-126, 397-410) -/
def containsSet (ps : List Polygon2) (qs : List (Option V2)) : Res Bool :=
  if qs.isEmpty then .error .undefined
  else if !isDefined ps then .error .undefined
  else .error .toBeImplemented

/-- `getPolygonCount` (`2D/Object/MultiPolygon.cpp` 128-131, 412-420) -/
def getPolygonCount (ps : List Polygon2) : Res ℕ := if !isDefined ps then .error .undefined else .ok ps.length

/-- `getPolygons` (`2D/Object/MultiPolygon.cpp` 133-169, 422-430) -/
noncomputable def getPolygons (ps : List Polygon2) : Res (List Polygon2) := if !isDefined ps then .error .undefined else mapRes Polygon2.ofBoost ps

/-- `getConvexHull` (`2D/Object/MultiPolygon.cpp` 171-185, 432-440) -/
noncomputable def getConvexHull (B : Boost) (ps : List Polygon2) : Res Polygon2 :=
  if !isDefined ps then .error .undefined
  else do
    let h ← rethrow (B.convexHullMulti ps)
    Polygon2.ofBoost h

/-- `unionWith` (`2D/Object/MultiPolygon.cpp` 187-201, 442-461) -/
def unionWith (B : Boost) (ps qs : List Polygon2) : Res (List Polygon2) :=
  if !isDefined qs then .error .undefined
  else if !isDefined ps then .error .undefined
  else rethrow (B.union ps qs)

/-- `applyTransformation` (`2D/Object/MultiPolygon.cpp` 232-255, 502-515) -/
def applyTransformation (t : T2) (ps : List Polygon2) : Res (List Polygon2) :=
  if !t.isDefined then .error .undefined
  else if !isDefined ps then .error .undefined
  else do
    let m ← need t.matrix
    return ps.map fun p => ⟨p.outer.map (T2.head m · 1), p.inners.map (·.map (T2.head m · 1))⟩

end MultiPolygon2

/-- `Polygon` (`2D/Object/MultiPolygon.cpp` 522-525) -/
noncomputable def MultiPolygon2.Polygon (p : Polygon2) : Res (List Polygon2) := MultiPolygon2.ctor [p]

/-- `Polygon::unionWith` (`2D/Object/Polygon.cpp` 1021-1029) -/
noncomputable def Polygon2.unionWith (B : Boost) (p q : Polygon2) : Res (List Polygon2) :=
  if !p.isDefined || !q.isDefined then .error .undefined
  else do
    let a ← MultiPolygon2.Polygon p
    let b ← MultiPolygon2.Polygon q
    MultiPolygon2.unionWith B a b

/-! ## 3D -/

namespace Polygon3

/-- constructor (`3D/Object/Polygon.cpp` 20-34) -/
noncomputable def ctor (eps : ℝ) (p : Polygon2) (o x y : Option V3) : Res Polygon3 :=
  let x := x.map V3.normalized
  let y := y.map V3.normalized
  match x, y with
  | some a, some b => if |a.dot b| > eps then .error .runtimeError else .ok ⟨p, o, x, y⟩
  | _, _ => .ok ⟨p, o, x, y⟩

/-- `origin + (x * xAxis + y * yAxis)` (`3D/Object/Polygon.cpp` 186-187, 203, 236) -/
noncomputable def place (p : Polygon3) (v : V2) : Res V3 :=
  P3.add p.origin (Option.map₂ (· + ·) (p.xAxis.map (v.x • ·)) (p.yAxis.map (v.y • ·)))

/-- `operator ==` (`3D/Object/Polygon.cpp` 41-52) -/
noncomputable def eq (B : Boost) (p q : Polygon3) : Bool :=
  if !p.isDefined || !q.isDefined then false
  else p.polygon.eq B q.polygon && P3.eq p.origin q.origin && P3.eq p.xAxis q.xAxis && P3.eq p.yAxis q.yAxis

/-- `getPolygon2d` (`3D/Object/Polygon.cpp` 101-109) -/
def getPolygon2d (p : Polygon3) : Res Polygon2 := if !p.isDefined then .error .undefined else .ok p.polygon
/-- `getOrigin` (`3D/Object/Polygon.cpp` 111-119) -/
def getOrigin (p : Polygon3) : Res V3 := if !p.isDefined then .error .undefined else need p.origin
/-- `getXAxis` (`3D/Object/Polygon.cpp` 121-129) -/
def getXAxis (p : Polygon3) : Res V3 := if !p.isDefined then .error .undefined else need p.xAxis
/-- `getYAxis` (`3D/Object/Polygon.cpp` 131-139) -/
def getYAxis (p : Polygon3) : Res V3 := if !p.isDefined then .error .undefined else need p.yAxis

/-- `getNormalVector` (`3D/Object/Polygon.cpp` 141-149) -/
noncomputable def getNormalVector (p : Polygon3) : Res V3 :=
  if !p.isDefined then .error .undefined
  else do return ((← need p.xAxis).cross (← need p.yAxis)).normalized

/-- `getEdgeCount` (`3D/Object/Polygon.cpp` 151-159) -/
def getEdgeCount (p : Polygon3) : Res ℕ := if !p.isDefined then .error .undefined else p.polygon.getEdgeCount
/-- `getVertexCount` (`3D/Object/Polygon.cpp` 161-169) -/
def getVertexCount (p : Polygon3) : Res ℕ := if !p.isDefined then .error .undefined else p.polygon.getVertexCount

/-- an edge in space (`3D/Object/Polygon.cpp` 183-189, 216-222) -/
noncomputable def placeEdge (p : Polygon3) (s : Seg2) : Res Seg3 := do
  let a ← need s.first
  let b ← need s.second
  let a' ← p.place a
  let b' ← p.place b
  return ⟨some a', some b'⟩

/-- `getEdgeAt` (`3D/Object/Polygon.cpp` 171-190) -/
noncomputable def getEdgeAt (p : Polygon3) (i : ℕ) : Res Seg3 :=
  if !p.isDefined then .error .undefined
  else do
    let e ← p.polygon.getEdgeAt i
    p.placeEdge e

/-- `getVertexAt` (`3D/Object/Polygon.cpp` 192-204) -/
noncomputable def getVertexAt (p : Polygon3) (i : ℕ) : Res V3 :=
  if !p.isDefined then .error .undefined
  else do
    let v ← p.polygon.getVertexAt i
    p.place v

/-- `getEdges` (`3D/Object/Polygon.cpp` 206-226) -/
noncomputable def getEdges (p : Polygon3) : Res (List Seg3) := do
  let es ← p.polygon.getEdges
  mapRes p.placeEdge es

/-- `getVertices` (`3D/Object/Polygon.cpp` 228-240) -/
noncomputable def getVertices (p : Polygon3) : Res (List V3) := do
  let vs ← p.polygon.getVertices
  mapRes p.place vs

/-- `isNear` (`3D/Object/Polygon.cpp` 64-99) -/
noncomputable def isNear (p q : Polygon3) (tol : Option ℝ) : Res Bool :=
  if !q.isDefined then .error .undefined
  else if tol.isNone then .error .undefined
  else if !p.isDefined then .error .undefined
  else do
    let n ← p.getVertexCount
    let m ← q.getVertexCount
    if n ≠ m then return false
    let ps ← p.getVertices
    let qs ← q.getVertices
    Points.zipNear (fun a b => P3.isNear a b tol) (ps.map some) (qs.map some)

/-- `applyTransformation` (`3D/Object/Polygon.cpp` 266-284): the axes are not normalized again -/
def applyTransformation (t : T3) (p : Polygon3) : Res Polygon3 :=
  if !t.isDefined then .error .undefined
  else if !p.isDefined then .error .undefined
  else do
    let o ← t.applyTo p.origin
    return ⟨p.polygon, o, t.applyToVector p.xAxis, t.applyToVector p.yAxis⟩

/-- `Undefined` (`3D/Object/Polygon.cpp` 286-289) -/
def Undefined : Polygon3 := ⟨⟨[], []⟩, none, none, none⟩

end Polygon3

end Verif
