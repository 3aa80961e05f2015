import Verif.Model.Err

/-!
# The text of the objects of the plane

`toString` of `Geometry/2D/Object/Point.cpp`, `PointSet.cpp`, `Line.cpp`, `Segment.cpp`, `LineString.cpp`, `Polygon.cpp` and `Composite.cpp`. Strings
are lists of characters. The text of a defined number (`Real::toString`, in ostk-core) is a parameter `num`. A point is undefined when one of its
coordinates is.
-/

namespace Verif.PlaneText

/-- `Object::Format` (`include/OpenSpaceToolkit/Mathematics/Geometry/2D/Object.hpp` 31-38) -/
inductive Format where
  | undefined
  | standard
  | wkt
  deriving DecidableEq

variable {α : Type}

/-- `Point::toString` (`2D/Object/Point.cpp` 152-173) -/
def pointToString (num : α → List Char) (f : Format) (p : Option (α × α)) : Res (List Char) :=
  match p with
  | none => .error .undefined
  | some (x, y) =>
    match f with
    | .standard => .ok ("[".toList ++ num x ++ ", ".toList ++ num y ++ "]".toList)
    | .wkt => .ok ("POINT(".toList ++ num x ++ " ".toList ++ num y ++ ")".toList)
    | .undefined => .error .wrong

/-- the loops that put a separator between the texts of the elements -/
def join (sep : List Char) : List (List Char) → List Char
  | [] => []
  | [a] => a
  | a :: b :: l => a ++ sep ++ join sep (b :: l)

/-- the texts of the elements, or the first error -/
def texts {β : Type} (t : β → Res (List Char)) : List β → Res (List (List Char))
  | [] => .ok []
  | a :: l => do
    let s ← t a
    let r ← texts t l
    .ok (s :: r)

/-- a point inside the text of a line string (`2D/Object/LineString.cpp` 201-202) -/
def coordinates (num : α → List Char) (p : Option (α × α)) : Res (List Char) :=
  match p with
  | none => .error .undefined
  | some (x, y) => .ok (num x ++ " ".toList ++ num y)

/-- `LineString::toString` (`2D/Object/LineString.cpp` 163-222) -/
def lineStringToString (num : α → List Char) (f : Format) (l : List (Option (α × α))) : Res (List Char) :=
  match f with
  | .standard => do
    let s ← texts (pointToString num .standard) l
    .ok ("[".toList ++ join " -> ".toList s ++ "]".toList)
  | .wkt => do
    let s ← texts (coordinates num) l
    .ok ("LINESTRING(".toList ++ join ", ".toList s ++ ")".toList)
  | .undefined => .error .wrong

/-- `PointSet::toString` (`2D/Object/PointSet.cpp` 161-198), of the points in the order of the iteration over the set -/
def pointSetToString (num : α → List Char) (f : Format) (l : List (Option (α × α))) : Res (List Char) :=
  match f with
  | .standard => do
    let s ← texts (pointToString num .standard) l
    .ok ("[".toList ++ join ", ".toList s ++ "]".toList)
  | .wkt => .error .runtimeError
  | .undefined => .error .wrong

/-- `LineString::Segment` (`2D/Object/LineString.cpp` 269-277) -/
def lineStringOfSegment (p q : Option (α × α)) : Res (List (Option (α × α))) :=
  match p, q with
  | some _, some _ => .ok [p, q]
  | _, _ => .error .undefined

/-- the text `[p -> q]` of two points (`2D/Object/Segment.cpp` 246-250, `2D/Object/Line.cpp` 166-170) -/
def arrow (num : α → List Char) (p q : Option (α × α)) : Res (List Char) := do
  let s ← pointToString num .standard p
  let t ← pointToString num .standard q
  .ok ("[".toList ++ s ++ " -> ".toList ++ t ++ "]".toList)

/-- `Segment::toString` (`2D/Object/Segment.cpp` 239-261) -/
def segmentToString (num : α → List Char) (f : Format) (p q : Option (α × α)) : Res (List Char) :=
  match f with
  | .standard => arrow num p q
  | .wkt => do
    let l ← lineStringOfSegment p q
    lineStringToString num .wkt l
  | .undefined => .error .wrong

/-- `Line::toString` (`2D/Object/Line.cpp` 161-178): the direction is printed like a point -/
def lineToString (num : α → List Char) (f : Format) (origin direction : Option (α × α)) : Res (List Char) :=
  match f with
  | .standard => arrow num origin direction
  | _ => .error .wrong

/-- a ring in the text of a polygon, as boost prints it -/
def ringText (num : α → List Char) (r : List (α × α)) : List Char :=
  "(".toList ++ join ",".toList (r.map fun p => num p.1 ++ " ".toList ++ num p.2) ++ ")".toList

/-- `Polygon::toString` (`2D/Object/Polygon.cpp` 590-616 and 1031-1039), of the rings of the polygon, the outer ring first; `none` is an undefined
polygon, and `num` the text of a number with the given precision -/
def polygonToString (num : α → List Char) (f : Format) (p : Option (List (List (α × α)))) : Res (List Char) :=
  match p with
  | none => .error .undefined
  | some rings =>
    match f with
    | .undefined => .error .wrong
    | _ => .ok ("POLYGON(".toList ++ join ",".toList (rings.map (ringText num)) ++ ")".toList)

/-- `Composite::toString` (`2D/Object/Composite.cpp` 486-501): empty whatever the objects are -/
def compositeToString {β : Type} (f : Format) (_objects : List β) : Res (List Char) :=
  match f with
  | .standard => .ok []
  | _ => .error .wrong

end Verif.PlaneText
