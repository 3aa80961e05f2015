import Verif.Model.Dispatch3
import Verif.Model.Objects2

/-!
# Transformations in place, statement by statement

`applyTransformation` is a member function that changes the object. The other files model it as a function that returns the changed object or an error, which
says nothing about the object after an exception. Here the statements run one after the other on the members, and the members keep what was assigned to them
when a later statement throws. An exception inside the function called by a statement happens before the assignment of the statement, unless the statement is
itself such a call on a member.
-/

namespace Verif

/-- statements that change the members of an object and may throw: the outcome, and the members afterwards in both cases -/
abbrev Doing (σ : Type) := ExceptT Err (StateM σ)

namespace Doing

variable {σ τ α : Type}

/-- an expression that may throw and changes nothing -/
def eval (r : Res α) : Doing σ α := ExceptT.mk fun s => (r, s)

/-- what the statements do to an object: the outcome and the object left behind -/
def of (x : Doing σ α) (s : σ) : Res α × σ := x s

/-- statements that act on a part of the object -/
def on (part : σ → τ) (put : σ → τ → σ) (x : Doing τ α) : Doing σ α := ExceptT.mk fun s => ((x.of (part s)).1, put s (x.of (part s)).2)

end Doing

open Doing

/-! ## Space -/

/-- `Point::applyTransformation` (`3D/Object/Point.cpp` 184-197) -/
def P3.move (t : T3) : Doing (Option V3) Unit := do
  if !t.isDefined then throw .undefined
  if !(← get).isSome then throw .undefined
  let p ← eval (t.applyTo (← get))
  set p

/-- `PointSet::applyTransformation` (`3D/Object/PointSet.cpp` 184-204): the new set is built before it is assigned -/
noncomputable def PointSet3.move (t : T3) : Doing (List (Option V3)) Unit := do
  if !t.isDefined then throw .undefined
  if (← get).isEmpty then throw .undefined
  let qs ← eval (mapRes t.applyTo (← get))
  let ps ← eval (Points.insertAll P3.eq [] qs)
  set ps

/-- `Line::applyTransformation` (`3D/Object/Line.cpp` 233-247) -/
def Line3.move (t : T3) : Doing Line3 Unit := do
  if !t.isDefined then throw .undefined
  if !(← get).isDefined then throw .undefined
  on Line3.origin (fun l p => { l with origin := p }) (P3.move t)
  modify fun l => { l with direction := t.applyToVector l.direction }

/-- `Ray::applyTransformation` (`3D/Object/Ray.cpp` 264-278) -/
def Ray3.move (t : T3) : Doing Ray3 Unit := do
  if !t.isDefined then throw .undefined
  if !(← get).isDefined then throw .undefined
  on Ray3.origin (fun l p => { l with origin := p }) (P3.move t)
  modify fun l => { l with direction := t.applyToVector l.direction }

/-- `Segment::applyTransformation` (`3D/Object/Segment.cpp` 326-340) -/
def Seg3.move (t : T3) : Doing Seg3 Unit := do
  if !t.isDefined then throw .undefined
  if !(← get).isDefined then throw .undefined
  on Seg3.first (fun s p => { s with first := p }) (P3.move t)
  on Seg3.second (fun s p => { s with second := p }) (P3.move t)

/-- the loop of `LineString::applyTransformation` (`3D/Object/LineString.cpp` 154-157) -/
def LineString3.loop (t : T3) : List (Option V3) → Res Unit × List (Option V3)
  | [] => (.ok (), [])
  | p :: ps =>
    match (P3.move t).of p with
    | (.error e, p) => (.error e, p :: ps)
    | (.ok (), p) => ((LineString3.loop t ps).1, p :: (LineString3.loop t ps).2)

/-- `LineString::applyTransformation` (`3D/Object/LineString.cpp` 142-158); `isDefined` (42-45) does not look at the points -/
def LineString3.move (t : T3) : Doing (List (Option V3)) Unit := do
  if !t.isDefined then throw .undefined
  if (← get).isEmpty then throw .undefined
  ExceptT.mk (LineString3.loop t)

/-- `Polygon::applyTransformation` (`3D/Object/Polygon.cpp` 266-284) -/
def Polygon3.move (t : T3) : Doing Polygon3 Unit := do
  if !t.isDefined then throw .undefined
  if !(← get).isDefined then throw .undefined
  let o ← eval (t.applyTo (← get).origin)
  modify fun p => { p with origin := o }
  modify fun p => { p with xAxis := t.applyToVector p.xAxis }
  modify fun p => { p with yAxis := t.applyToVector p.yAxis }

/-- `Plane::applyTransformation` (`3D/Object/Plane.cpp` 256-270) -/
def Plane3.move (t : T3) : Doing Plane3 Unit := do
  if !t.isDefined then throw .undefined
  if !(← get).isDefined then throw .undefined
  on Plane3.point (fun l p => { l with point := p }) (P3.move t)
  modify fun l => { l with normal := t.applyToVector l.normal }

/-- `Cuboid::applyTransformation` (`3D/Object/Cuboid.cpp` 462-494) -/
noncomputable def Cuboid3.move (t : T3) : Doing Cuboid3 Unit := do
  if !t.isDefined then throw .undefined
  if !(← get).isDefined then throw .undefined
  if ← eval t.isIdentity then return
  on Cuboid3.center (fun c p => { c with center := p }) (P3.move t)
  modify fun c => { c with ax := t.applyToVector c.ax }
  modify fun c => { c with ay := t.applyToVector c.ay }
  modify fun c => { c with az := t.applyToVector c.az }
  modify fun c => { c with ex := Option.map₂ (fun e v => e * V3.norm v) c.ex c.ax }
  modify fun c => { c with ey := Option.map₂ (fun e v => e * V3.norm v) c.ey c.ay }
  modify fun c => { c with ez := Option.map₂ (fun e v => e * V3.norm v) c.ez c.az }
  modify fun c => { c with ax := c.ax.map V3.normalized }
  modify fun c => { c with ay := c.ay.map V3.normalized }
  modify fun c => { c with az := c.az.map V3.normalized }

/-- `Sphere::applyTransformation` (`3D/Object/Sphere.cpp` 580-598) -/
def Sphere3.move (t : T3) : Doing Sphere3 _root_.Unit := do
  if !t.isDefined then throw .undefined
  if !(← get).isDefined then throw .undefined
  if !(← eval t.isRigid) then throw .runtimeError
  on Sphere3.center (fun s p => { s with center := p }) (P3.move t)

/-- `Ellipsoid::applyTransformation` (`3D/Object/Ellipsoid.cpp` 926-966) -/
noncomputable def Ellipsoid3.move (eps : ℝ) (solve : M3 → Option Eigen3) (t : T3) : Doing Ellipsoid3 Unit := do
  if !t.isDefined then throw .undefined
  if !(← get).isDefined then throw .undefined
  if ← eval t.isIdentity then return
  on Ellipsoid3.center (fun e p => { e with center := p }) (P3.move t)
  let m ← eval t.getMatrix
  let g ← eval ((← get).getMatrix eps)
  match m.bind fun m => inverse3 (block m) with
  | none => throw .runtimeError
  | some r =>
    match solve ((r.transpose.mul g).mul r) with
    | none => throw .runtimeError
    | some x =>
      modify fun e => { e with a := some (Real.sqrt (1 / x.l0)) }
      modify fun e => { e with b := some (Real.sqrt (1 / x.l1)) }
      modify fun e => { e with c := some (Real.sqrt (1 / x.l2)) }
      let k ← eval (RotMat.Columns eps (some x.v0) (some x.v1) (some (x.v0.cross x.v1)))
      let q ← eval (Quat.RotationMatrix eps (some k))
      modify fun e => { e with q := some q.conj }

/-- `Pyramid::applyTransformation` (`3D/Object/Pyramid.cpp` 510-524) -/
def Pyramid3.move (t : T3) : Doing Pyramid3 Unit := do
  if !t.isDefined then throw .undefined
  if !(← get).isDefined then throw .undefined
  on Pyramid3.base (fun p b => { p with base := b }) (Polygon3.move t)
  on Pyramid3.apex (fun p a => { p with apex := a }) (P3.move t)

/-- `Cone::applyTransformation` (`3D/Object/Cone.cpp` 481-497) -/
noncomputable def Cone3.move (t : T3) : Doing Cone3 Unit := do
  if !t.isDefined then throw .undefined
  if !(← get).isDefined then throw .undefined
  let a ← eval (t.applyTo (← get).apex)
  modify fun c => { c with apex := a }
  modify fun c => { c with axis := t.applyToVector c.axis }
  modify fun c => { c with axis := c.axis.map V3.normalized }

variable (E : Env3)

mutual
/-- the virtual function `applyTransformation`; for composites `3D/Object/Composite.cpp` 435-458 -/
noncomputable def Obj3.move (t : T3) : Obj3 → Res Unit × Obj3
  | .point p => ((P3.move t).of p).map id .point
  | .pointSet ps => ((PointSet3.move t).of ps).map id .pointSet
  | .line l => ((Line3.move t).of l).map id .line
  | .ray r => ((Ray3.move t).of r).map id .ray
  | .segment s => ((Seg3.move t).of s).map id .segment
  | .lineString ps => ((LineString3.move t).of ps).map id .lineString
  | .polygon p => ((Polygon3.move t).of p).map id .polygon
  | .plane p => ((Plane3.move t).of p).map id .plane
  | .cuboid c => ((Cuboid3.move t).of c).map id .cuboid
  | .sphere s => ((Sphere3.move t).of s).map id .sphere
  | .ellipsoid e => ((Ellipsoid3.move E.eps E.solve t).of e).map id .ellipsoid
  | .pyramid p => ((Pyramid3.move t).of p).map id .pyramid
  | .cone c => ((Cone3.move t).of c).map id .cone
  | .composite d os =>
    if !t.isDefined then (.error .undefined, .composite d os)
    else if !(d && Obj3.allDefined os) then (.error .undefined, .composite d os)
    else match t.isIdentity with
    | .error e => (.error e, .composite d os)
    | .ok true => (.ok (), .composite d os)
    | .ok false => ((Obj3.moveAll t os).1, .composite d (Obj3.moveAll t os).2)
/-- the loop over the members of a composite (`3D/Object/Composite.cpp` 454-457) -/
noncomputable def Obj3.moveAll (t : T3) : List Obj3 → Res Unit × List Obj3
  | [] => (.ok (), [])
  | o :: os =>
    match Obj3.move t o with
    | (.error e, o) => (.error e, o :: os)
    | (.ok (), o) => ((Obj3.moveAll t os).1, o :: (Obj3.moveAll t os).2)
end

/-! ## The plane -/

/-- `Point::applyTransformation` (`2D/Object/Point.cpp` 185-198) -/
def P2.move (t : T2) : Doing (Option V2) Unit := do
  if !t.isDefined then throw .undefined
  if !(← get).isSome then throw .undefined
  let p ← eval (t.applyTo (← get))
  set p

/-- `PointSet::applyTransformation` (`2D/Object/PointSet.cpp` 222-242) -/
noncomputable def PointSet2.move (t : T2) : Doing (List (Option V2)) Unit := do
  if !t.isDefined then throw .undefined
  if (← get).isEmpty then throw .undefined
  let qs ← eval (mapRes t.applyTo (← get))
  let ps ← eval (Points.insertAll P2.eq [] qs)
  set ps

/-- `Line::applyTransformation` (`2D/Object/Line.cpp` 192-206) -/
def Line2.move (t : T2) : Doing Line2 Unit := do
  if !t.isDefined then throw .undefined
  if !(← get).isDefined then throw .undefined
  on Line2.origin (fun l p => { l with origin := p }) (P2.move t)
  modify fun l => { l with direction := t.applyToVector l.direction }

/-- `Segment::applyTransformation` (`2D/Object/Segment.cpp` 275-289) -/
def Seg2.move (t : T2) : Doing Seg2 Unit := do
  if !t.isDefined then throw .undefined
  if !(← get).isDefined then throw .undefined
  on Seg2.first (fun s p => { s with first := p }) (P2.move t)
  on Seg2.second (fun s p => { s with second := p }) (P2.move t)

/-- the loop of `LineString::applyTransformation` (`2D/Object/LineString.cpp` 258-261) -/
def LineString2.loop (t : T2) : List (Option V2) → Res Unit × List (Option V2)
  | [] => (.ok (), [])
  | p :: ps =>
    match t.applyTo p with
    | .error e => (.error e, p :: ps)
    | .ok q => ((LineString2.loop t ps).1, q :: (LineString2.loop t ps).2)

/-- `LineString::applyTransformation` (`2D/Object/LineString.cpp` 246-262) -/
def LineString2.move (t : T2) : Doing (List (Option V2)) Unit := do
  if !t.isDefined then throw .undefined
  if (← get).isEmpty then throw .undefined
  ExceptT.mk (LineString2.loop t)

/-- `Polygon::applyTransformation` (`2D/Object/Polygon.cpp` 619-642, 1041-1054): the new polygon is built before it is assigned -/
def Polygon2.move (t : T2) : Doing Polygon2 Unit := do
  let p ← eval (Polygon2.applyTransformation t (← get))
  set p

/-- `MultiPolygon::applyTransformation` (`2D/Object/MultiPolygon.cpp` 232-255, 502-515) -/
def MultiPolygon2.move (t : T2) : Doing (List Polygon2) Unit := do
  let p ← eval (MultiPolygon2.applyTransformation t (← get))
  set p

mutual
/-- the virtual function `applyTransformation`; for composites `2D/Object/Composite.cpp` 524-545 -/
noncomputable def Obj2.move (t : T2) : Obj2 → Res Unit × Obj2
  | .point p => ((P2.move t).of p).map id .point
  | .pointSet ps => ((PointSet2.move t).of ps).map id .pointSet
  | .line l => ((Line2.move t).of l).map id .line
  | .segment s => ((Seg2.move t).of s).map id .segment
  | .lineString ps => ((LineString2.move t).of ps).map id .lineString
  | .polygon p => ((Polygon2.move t).of p).map id .polygon
  | .multiPolygon ps => ((MultiPolygon2.move t).of ps).map id .multiPolygon
  | .composite d os =>
    if !t.isDefined then (.error .undefined, .composite d os)
    else if !(d && Obj2.allDefined os) then (.error .undefined, .composite d os)
    else if t.isIdentity then (.ok (), .composite d os)
    else ((Obj2.moveAll t os).1, .composite d (Obj2.moveAll t os).2)
/-- the loop over the members of a composite (`2D/Object/Composite.cpp` 541-544) -/
noncomputable def Obj2.moveAll (t : T2) : List Obj2 → Res Unit × List Obj2
  | [] => (.ok (), [])
  | o :: os =>
    match Obj2.move t o with
    | (.error e, o) => (.error e, o :: os)
    | (.ok (), o) => ((Obj2.moveAll t os).1, o :: (Obj2.moveAll t os).2)
end

end Verif
