import Verif.Model.Objects3

/-!
# Point sets and line strings, in 2D and 3D

Sources: `src/OpenSpaceToolkit/Mathematics/Geometry/{2D,3D}/Object/{PointSet,LineString}.cpp` and their headers.

The 2D and 3D sources of these functions are the same text up to the type of the points, so the loops are written once, over the operations of
the points they use.

A point set is the list of its points in iteration order. `std::unordered_set` gives no guarantee on that order; the model uses the order of
insertion, and the theorems hold for every order.
-/

namespace Verif

/-! ## The loops -/

namespace Points

variable {V : Type}

/-- `std::unordered_set::insert`. The hash (`3D/Object/PointSet.hpp` 50-64, `2D/Object/PointSet.hpp` 50-64) throws on an undefined point. -/
def insert (eq : Option V → Option V → Bool) (s : List (Option V)) (p : Option V) : Res (List (Option V)) := do
  let _ ← need p
  return if s.any (eq p) then s else s ++ [p]

/-- insertion of a range of points -/
def insertAll (eq : Option V → Option V → Bool) : List (Option V) → List (Option V) → Res (List (Option V))
  | s, [] => .ok s
  | s, p :: ps =>
    match insert eq s p with
    | .error e => .error e
    | .ok s' => insertAll eq s' ps

/-- `std::unordered_set::operator ==`: the same number of points, and all found in the other -/
def sameSet (eq : Option V → Option V → Bool) (s t : List (Option V)) : Bool :=
  decide (s.length = t.length) && s.all (fun p => t.any (eq p))

/-- the inner loop of `PointSet::isNear`: remove the first near point -/
def takeNear (near : Option V → Option V → Res Bool) (p : Option V) : List (Option V) → Res (Option (List (Option V)))
  | [] => .ok none
  | q :: qs =>
    match near p q with
    | .error e => .error e
    | .ok true => .ok (some qs)
    | .ok false =>
      match takeNear near p qs with
      | .error e => .error e
      | .ok none => .ok none
      | .ok (some r) => .ok (some (q :: r))

/-- the outer loop of `PointSet::isNear`; erasing keeps the iteration order of the others -/
def matchNear (near : Option V → Option V → Res Bool) : List (Option V) → List (Option V) → Res Bool
  | [], _ => .ok true
  | p :: ps, qs =>
    match takeNear near p qs with
    | .error e => .error e
    | .ok none => .ok false
    | .ok (some qs') => matchNear near ps qs'

/-- the loop of `getPointClosestTo`; the accumulator is the point pointed at and the least distance, `none` while they are unset -/
noncomputable def closestLoop (dist : Option V → Res ℝ) : Option (Option V × ℝ) → List (Option V) → Res (Option (Option V × ℝ))
  | acc, [] => .ok acc
  | acc, q :: qs =>
    match dist q with
    | .error e => .error e
    | .ok d =>
      match acc with
      | none => closestLoop dist (some (q, d)) qs
      | some (b, m) => closestLoop dist (if d < m then some (q, d) else some (b, m)) qs

/-- `getPointClosestTo` after its checks; a null pointer is dereferenced if there are no points -/
noncomputable def closest (dist : Option V → Res ℝ) (ps : List (Option V)) : Res (Option V) :=
  match closestLoop dist none ps with
  | .error e => .error e
  | .ok none => .error .ub
  | .ok (some (b, _)) => .ok b

/-- the loop of `LineString::isNear` over the zipped points -/
def zipNear (near : Option V → Option V → Res Bool) : List (Option V) → List (Option V) → Res Bool
  | p :: ps, q :: qs =>
    match near p q with
    | .error e => .error e
    | .ok false => .ok false
    | .ok true => zipNear near ps qs
  | _, _ => .ok true

/-- `Array::operator ==` -/
def sameArray (eq : Option V → Option V → Bool) : List (Option V) → List (Option V) → Bool
  | [], [] => true
  | p :: ps, q :: qs => eq p q && sameArray eq ps qs
  | _, _ => false

/-- `LineString::accessPointAt` (`3D/Object/LineString.cpp` 75-83, `2D/Object/LineString.cpp` 118-126) -/
def accessPointAt (ps : List (Option V)) (i : ℕ) : Res (Option V) :=
  match ps[i]? with
  | none => .error .runtimeError
  | some p => .ok p

end Points

/-! ## Point sets -/

namespace PointSet3

/-- constructor (`3D/Object/PointSet.cpp` 21-25) -/
noncomputable def ofArray (ps : List (Option V3)) : Res (List (Option V3)) := Points.insertAll P3.eq [] ps

/-- `operator ==` (`3D/Object/PointSet.cpp` 32-35) -/
noncomputable def eq (ps qs : List (Option V3)) : Bool := Points.sameSet P3.eq ps qs

/-- `isNear` (`3D/Object/PointSet.cpp` 52-100) -/
noncomputable def isNear (ps qs : List (Option V3)) (tol : Option ℝ) : Res Bool :=
  if ps.isEmpty || qs.isEmpty then .ok false
  else if ps.length ≠ qs.length then .ok false
  else Points.matchNear (fun p q => P3.isNear p q tol) ps qs

/-- `distanceTo` (`3D/Object/PointSet.cpp` 107-130) -/
noncomputable def distanceTo (ps : List (Option V3)) (p : Option V3) : Res ℝ := do
  let _ ← need p
  if ps.isEmpty then .error .undefined
  else do
    let ds ← mapRes (fun q => P3.distanceTo p q) ps
    minElement ds

/-- `getPointClosestTo` (`3D/Object/PointSet.cpp` 132-160) -/
noncomputable def getPointClosestTo (ps : List (Option V3)) (p : Option V3) : Res (Option V3) := do
  let _ ← need p
  if ps.isEmpty then .error .undefined
  else Points.closest (fun q => do return (← P3.sub q p).normSq) ps

/-- `applyTransformation` (`3D/Object/PointSet.cpp` 184-204) -/
noncomputable def applyTransformation (t : T3) (ps : List (Option V3)) : Res (List (Option V3)) :=
  if !t.isDefined then .error .undefined
  else if ps.isEmpty then .error .undefined
  else do
    let qs ← mapRes t.applyTo ps
    Points.insertAll P3.eq [] qs

end PointSet3

namespace PointSet2

/-- constructor (`2D/Object/PointSet.cpp` 20-24) -/
noncomputable def ofArray (ps : List (Option V2)) : Res (List (Option V2)) := Points.insertAll P2.eq [] ps

/-- `operator ==` (`2D/Object/PointSet.cpp` 31-34) -/
noncomputable def eq (ps qs : List (Option V2)) : Bool := Points.sameSet P2.eq ps qs

/-- `isNear` (`2D/Object/PointSet.cpp` 51-99) -/
noncomputable def isNear (ps qs : List (Option V2)) (tol : Option ℝ) : Res Bool :=
  if ps.isEmpty || qs.isEmpty then .ok false
  else if ps.length ≠ qs.length then .ok false
  else Points.matchNear (fun p q => P2.isNear p q tol) ps qs

/-- `distanceTo` (`2D/Object/PointSet.cpp` 106-129) -/
noncomputable def distanceTo (ps : List (Option V2)) (p : Option V2) : Res ℝ := do
  let _ ← need p
  if ps.isEmpty then .error .undefined
  else do
    let ds ← mapRes (fun q => P2.distanceTo p q) ps
    minElement ds

/-- `getPointClosestTo` (`2D/Object/PointSet.cpp` 131-159) -/
noncomputable def getPointClosestTo (ps : List (Option V2)) (p : Option V2) : Res (Option V2) := do
  let _ ← need p
  if ps.isEmpty then .error .undefined
  else Points.closest (fun q => do return (← P2.sub q p).normSq) ps

/-- `applyTransformation` (`2D/Object/PointSet.cpp` 222-242) -/
noncomputable def applyTransformation (t : T2) (ps : List (Option V2)) : Res (List (Option V2)) :=
  if !t.isDefined then .error .undefined
  else if ps.isEmpty then .error .undefined
  else do
    let qs ← mapRes t.applyTo ps
    Points.insertAll P2.eq [] qs

end PointSet2

/-! ## Line strings -/

namespace LineString3

/-- `operator ==` (`3D/Object/LineString.cpp` 32-35) -/
noncomputable def eq (ps qs : List (Option V3)) : Bool := Points.sameArray P3.eq ps qs

/-- `isNear` (`3D/Object/LineString.cpp` 52-73) -/
noncomputable def isNear (ps qs : List (Option V3)) (tol : Option ℝ) : Res Bool :=
  if ps.isEmpty || qs.isEmpty then .ok false
  else if ps.length ≠ qs.length then .ok false
  else Points.zipNear (fun p q => P3.isNear p q tol) ps qs

/-- `getPointClosestTo` (`3D/Object/LineString.cpp` 90-118) -/
noncomputable def getPointClosestTo (ps : List (Option V3)) (p : Option V3) : Res (Option V3) := do
  let _ ← need p
  if ps.isEmpty then .error .undefined
  else Points.closest (fun q => do return (← P3.sub q p).normSq) ps

/-- `applyTransformation` (`3D/Object/LineString.cpp` 142-158) -/
def applyTransformation (t : T3) (ps : List (Option V3)) : Res (List (Option V3)) :=
  if !t.isDefined then .error .undefined
  else if ps.isEmpty then .error .undefined
  else mapRes (P3.applyTransformation t) ps

end LineString3

namespace LineString2

/-- `operator ==` (`2D/Object/LineString.cpp` 32-35) -/
noncomputable def eq (ps qs : List (Option V2)) : Bool := Points.sameArray P2.eq ps qs

/-- `isNear` (`2D/Object/LineString.cpp` 90-111) -/
noncomputable def isNear (ps qs : List (Option V2)) (tol : Option ℝ) : Res Bool :=
  if ps.isEmpty || qs.isEmpty then .ok false
  else if ps.length ≠ qs.length then .ok false
  else Points.zipNear (fun p q => P2.isNear p q tol) ps qs

/-- `getPointClosestTo` (`2D/Object/LineString.cpp` 133-161) -/
noncomputable def getPointClosestTo (ps : List (Option V2)) (p : Option V2) : Res (Option V2) := do
  let _ ← need p
  if ps.isEmpty then .error .undefined
  else Points.closest (fun q => do return (← P2.sub q p).normSq) ps

/-- `applyTransformation` (`2D/Object/LineString.cpp` 246-262) -/
def applyTransformation (t : T2) (ps : List (Option V2)) : Res (List (Option V2)) :=
  if !t.isDefined then .error .undefined
  else if ps.isEmpty then .error .undefined
  else mapRes t.applyTo ps

end LineString2

end Verif
