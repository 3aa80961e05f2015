import Mathlib.Order.Defs.LinearOrder
import Mathlib.Data.List.Perm.Basic
import Verif.Model.Err

/-!
# Model of `Interval<T>`

Source: `/repo/src/OpenSpaceToolkit/Mathematics/Object/Interval.tpp` (called `Interval.tpp` below).

The value type `T` is an arbitrary linear order `α`. A bound for which `isDefined()` is false is `none`.
-/

namespace Verif

/-- `Interval::Type` (`include/OpenSpaceToolkit/Mathematics/Object/Interval.hpp`, enum `Type`).
`halfOpenLeft` is `]a, b]`, `halfOpenRight` is `[a, b[`. -/
inductive IType where
  | undefined | closed | opened | halfOpenLeft | halfOpenRight
  deriving DecidableEq, Repr

/-- The three members of `Interval<T>` (`Interval.hpp`, `type_`, `lowerBound_`, `upperBound_`). -/
@[ext] structure Interval (α : Type) where
  type : IType
  lb : Option α
  ub : Option α
  deriving DecidableEq, Repr

namespace IType

/-- The test `type == Open || type == HalfOpenLeft` used throughout `Interval.tpp` (e.g. 103, 155, 244). -/
def lowerOpen (t : IType) : Bool := t == .opened || t == .halfOpenLeft

/-- The test `type == Open || type == HalfOpenRight` used throughout `Interval.tpp` (e.g. 108, 160, 261). -/
def upperOpen (t : IType) : Bool := t == .opened || t == .halfOpenRight

/-- The test `type == Closed || type == HalfOpenRight` (`Interval.tpp` 335, 343, 716, 722, 745, ...). -/
def lowerClosed (t : IType) : Bool := t == .closed || t == .halfOpenRight

/-- The test `type == Closed || type == HalfOpenLeft` (`Interval.tpp` 352, 360, 739, 761, 767, ...). -/
def upperClosed (t : IType) : Bool := t == .closed || t == .halfOpenLeft

end IType

namespace Interval

variable {α : Type} [LinearOrder α]

/-- `Interval::Interval(lower, upper, type)`, `Interval.tpp` 18-36. -/
def mk' (l u : Option α) (t : IType) : Res (Interval α) :=
  match l, u with
  | some a, some b =>
    if b < a then .error .runtimeError
    else if a = b ∧ t ≠ .closed then .error .runtimeError
    else .ok ⟨t, l, u⟩
  | _, _ => .ok ⟨t, l, u⟩

/-- `Interval::isDefined`, `Interval.tpp` 70-74. -/
def isDefined (I : Interval α) : Bool := I.type != .undefined && I.lb.isSome && I.ub.isSome

/-- The pattern `if (!isDefined()) throw Undefined("Interval")` followed by the use of the members, which opens most
member functions of `Interval.tpp`. Also `accessLowerBound`, `accessUpperBound`, `getType`, `getLowerBound`,
`getUpperBound` (165-218), which return one component. -/
def get (I : Interval α) : Res (IType × α × α) :=
  match I with
  | ⟨.undefined, _, _⟩ => .error .undefined
  | ⟨t, some a, some b⟩ => .ok (t, a, b)
  | _ => .error .undefined

/-- `Interval::operator ==`, `Interval.tpp` 38-48. -/
def eq (I J : Interval α) : Bool :=
  if !I.isDefined || !J.isDefined then false
  else I.type == J.type && I.lb == J.lb && I.ub == J.ub

/-- `Interval::isDegenerate`, `Interval.tpp` 76-85. -/
def isDegenerate (I : Interval α) : Res Bool := do
  let (_, a, b) ← I.get
  pure (a == b)

/-- `Interval::checkAgainstLowerBound`, `Interval.tpp` 926-953, on an interval of type `t` with lower bound `a`. -/
def checkLower (t : IType) (a : α) (v : α) (isOpen isUpper : Bool) : Res Bool :=
  match t with
  | .closed | .halfOpenRight =>
    if isOpen && isUpper then .ok (decide (a < v)) else .ok (decide (a ≤ v))
  | .halfOpenLeft | .opened =>
    if isOpen && !isUpper then .ok (decide (a ≤ v)) else .ok (decide (a < v))
  | .undefined => .error .wrong

/-- `Interval::checkAgainstUpperBound`, `Interval.tpp` 955-982, on an interval of type `t` with upper bound `b`. -/
def checkUpper (t : IType) (b : α) (v : α) (isOpen isLower : Bool) : Res Bool :=
  match t with
  | .closed | .halfOpenLeft =>
    if isOpen && isLower then .ok (decide (v < b)) else .ok (decide (v ≤ b))
  | .halfOpenRight | .opened =>
    if isOpen && !isLower then .ok (decide (v ≤ b)) else .ok (decide (v < b))
  | .undefined => .error .wrong

/-- `Interval::intersects`, `Interval.tpp` 87-122. (The short-circuit evaluation of `||` and `&&` is not observable:
the checks throw only for an undefined type, which is excluded by the first two tests.) -/
def intersects (I J : Interval α) : Res Bool := do
  let (t, a, b) ← I.get
  let (u, c, d) ← J.get
  let p1 ← checkLower t a c u.lowerOpen false
  let p2 ← checkLower t a d u.upperOpen true
  let p3 ← checkUpper t b c u.lowerOpen true
  let p4 ← checkUpper t b d u.upperOpen false
  pure ((p1 || p2) && (p3 || p4))

/-- `Interval::contains(value)`, `Interval.tpp` 124-138. -/
def containsValue (I : Interval α) (v : Option α) : Res Bool :=
  match v with
  | none => .error .undefined
  | some x => do
    let (t, a, b) ← I.get
    let p ← checkLower t a x false false
    let q ← checkUpper t b x false false
    pure (p && q)

/-- `Interval::contains(interval)`, `Interval.tpp` 140-163. -/
def containsInterval (I J : Interval α) : Res Bool := do
  let (t, a, b) ← I.get
  let (u, c, d) ← J.get
  let p ← checkLower t a c u.lowerOpen false
  let q ← checkUpper t b d u.upperOpen false
  pure (p && q)

/-- `Interval::Undefined`, `Interval.tpp` 566-570. -/
def undef : Interval α := ⟨.undefined, none, none⟩

/-- `Interval::Closed`, `Interval.tpp` 572-576. -/
def Closed (l u : Option α) : Res (Interval α) := mk' l u .closed
/-- `Interval::Open`, `Interval.tpp` 578-582. -/
def Open (l u : Option α) : Res (Interval α) := mk' l u .opened
/-- `Interval::HalfOpenLeft`, `Interval.tpp` 584-588. -/
def HalfOpenLeft (l u : Option α) : Res (Interval α) := mk' l u .halfOpenLeft
/-- `Interval::HalfOpenRight`, `Interval.tpp` 590-594. -/
def HalfOpenRight (l u : Option α) : Res (Interval α) := mk' l u .halfOpenRight

/-- `Interval::buildInterval`, `Interval.tpp` 984-1005. -/
def build (l : α) (openLower : Bool) (u : α) (openUpper : Bool) : Res (Interval α) :=
  if openLower && openUpper then Open (some l) (some u)
  else if openLower then HalfOpenLeft (some l) (some u)
  else if openUpper then HalfOpenRight (some l) (some u)
  else Closed (some l) (some u)

/-- `Interval::getIntersectionWith`, `Interval.tpp` 220-306. -/
def getIntersectionWith (I J : Interval α) : Res (Interval α) := do
  let (t, a, b) ← I.get
  let (u, c, d) ← J.get
  let lower := max a c
  let upper := min b d
  if upper < lower then pure undef
  else
    let openLower := (lower == a && t.lowerOpen) || (lower == c && u.lowerOpen)
    let openUpper := (upper == b && t.upperOpen) || (upper == d && u.upperOpen)
    if openLower && openUpper then
      if lower = upper then pure undef else Open (some lower) (some upper)
    else if openLower then
      if lower = upper then pure undef else HalfOpenLeft (some lower) (some upper)
    else if openUpper then
      if lower = upper then pure undef else HalfOpenRight (some lower) (some upper)
    else Closed (some lower) (some upper)

/-- `Interval::getUnionWith`, `Interval.tpp` 308-370. -/
def getUnionWith (I J : Interval α) : Res (Interval α) := do
  let (t, a, b) ← I.get
  let (u, c, d) ← J.get
  if I.eq J then mk' (some a) (some b) t
  else
    let p1 ← I.containsValue (some c)
    let p2 ← I.containsValue (some d)
    let p3 ← J.containsValue (some a)
    let p4 ← J.containsValue (some b)
    if p1 || p2 || p3 || p4 then
      let lower := min a c
      let upper := max b d
      let openLower := !((lower == a && t.lowerClosed) || (lower == c && u.lowerClosed))
      let openUpper := !((upper == b && t.upperClosed) || (upper == d && u.upperClosed))
      build lower openLower upper openUpper
    else pure undef

/-- `Interval::setType`, `Interval.tpp` 523-532. -/
def setType (I : Interval α) (t : IType) : Res (Interval α) :=
  if !I.isDefined then .error .undefined else .ok { I with type := t }

/-- `Interval::setLowerBound`, `Interval.tpp` 534-548. -/
def setLowerBound (I : Interval α) (l : Option α) : Res (Interval α) :=
  if !I.isDefined then .error .undefined
  else match l, I.ub with
    | some a, some b => if b < a then .error .runtimeError else .ok { I with lb := l }
    | _, _ => .ok { I with lb := l }

/-- `Interval::setUpperBound`, `Interval.tpp` 550-564. -/
def setUpperBound (I : Interval α) (u : Option α) : Res (Interval α) :=
  if !I.isDefined then .error .undefined
  else match u, I.lb with
    | some b, some a => if b < a then .error .runtimeError else .ok { I with ub := u }
    | _, _ => .ok { I with ub := u }

/-- A call of one of the three setters. -/
inductive SetOp (α : Type) where
  | type (t : IType)
  | lower (l : Option α)
  | upper (u : Option α)

/-- One setter call on an object: the state of the object afterwards and the exception, if any. Each setter
(`Interval.tpp` 523-564) assigns in its last statement only, after all the tests that may throw. -/
def callSetter (I : Interval α) (op : SetOp α) : Interval α × Option Err :=
  let r := match op with
    | .type t => I.setType t
    | .lower l => I.setLowerBound l
    | .upper u => I.setUpperBound u
  match r with
  | .ok J => (J, none)
  | .error e => (I, some e)

/-- A sequence of setter calls, each wrapped in a `try` that ignores the exception. -/
def callSetters (I : Interval α) (ops : List (SetOp α)) : Interval α :=
  ops.foldl (fun J op => (J.callSetter op).1) I

/-- The loop of `Interval::Clip`, `Interval.tpp` 605-617. -/
def clipLoop (J : Interval α) : List (Interval α) → Res (List (Interval α))
  | [] => pure []
  | I :: l => do
    let K ← I.getIntersectionWith J
    let r ← clipLoop J l
    pure (if K.isDefined then K :: r else r)

/-- `Interval::Clip`, `Interval.tpp` 596-618. -/
def Clip (l : List (Interval α)) (J : Interval α) : Res (List (Interval α)) :=
  if !J.isDefined then .error .undefined else clipLoop J l

end Interval

/-- `lt` is a strict weak order on the elements of `l` (what `std::sort` requires of its comparator). -/
structure StrictWeakOn {β : Type} (lt : β → β → Bool) (l : List β) : Prop where
  irrefl : ∀ x ∈ l, lt x x = false
  trans : ∀ x ∈ l, ∀ y ∈ l, ∀ z ∈ l, lt x y = true → lt y z = true → lt x z = true
  incomp : ∀ x ∈ l, ∀ y ∈ l, ∀ z ∈ l,
    lt x y = false → lt y x = false → lt y z = false → lt z y = false → lt x z = false ∧ lt z x = false

/-- An implementation of `std::sort`: any function that, given a comparator that is a strict weak order on the list,
returns a permutation of the list in which no element is preceded by a greater one. `std::sort` is not stable, so nothing
is said about equivalent elements; theorems quantify over every `Sorter`. -/
structure Sorter (β : Type) where
  sort : (β → β → Bool) → List β → List β
  perm : ∀ lt l, StrictWeakOn lt l → (sort lt l).Perm l
  sorted : ∀ lt l, StrictWeakOn lt l → (sort lt l).Pairwise (fun x y => lt y x = false)

namespace Interval

variable {α : Type} [LinearOrder α]

/-- `x < y` on bounds (only used on defined bounds). -/
def boundLt : Option α → Option α → Bool
  | some a, some b => decide (a < b)
  | _, _ => false

/-- The comparator of `Interval::Sort` on defined intervals, `Interval.tpp` 632-647. -/
def comparator (byLower ascending : Bool) (I J : Interval α) : Bool :=
  if byLower then
    (if ascending then boundLt I.lb J.lb else boundLt J.lb I.lb)
  else
    (if ascending then boundLt I.ub J.ub else boundLt J.ub I.ub)

/-- `Interval::Sort`, `Interval.tpp` 620-652. The single-element test (627-630) throws on an undefined element; for
two or more elements every element takes part in at least one comparison, and the comparator (634-637) throws on an
undefined one. -/
def SortBy (S : Sorter (Interval α)) (l : List (Interval α)) (byLower ascending : Bool) :
    Res (List (Interval α)) :=
  if l.any (fun I => !I.isDefined) then .error .undefined
  else .ok (S.sort (comparator byLower ascending) l)

/-- The loop of `Interval::Merge`, `Interval.tpp` 664-683 (`next` is `nextUnion`). -/
def mergeLoop (next : Interval α) : List (Interval α) → Res (List (Interval α))
  | [] => pure [next]
  | J :: l => do
    let K ← next.getUnionWith J
    if K.isDefined then mergeLoop K l
    else do
      let r ← mergeLoop J l
      pure (next :: r)

/-- `Interval::Merge`, `Interval.tpp` 654-684. -/
def Merge (S : Sorter (Interval α)) (l : List (Interval α)) : Res (List (Interval α)) :=
  if l.isEmpty then pure []
  else do
    let s ← SortBy S l true true
    match s with
    | [] => .error .ub -- `sorted[0]` of an empty array; unreachable, `Sort` keeps the size
    | I :: r => mergeLoop I r

/-- The gap between two consecutive sanitized intervals, `Interval.tpp` 731-749. -/
def innerGap (I J : Interval α) : Res (Interval α) := do
  let (t, _, b) ← I.get
  let (u, c, _) ← J.get
  build b t.upperClosed c u.lowerClosed

/-- The loop over intermediate gaps, `Interval.tpp` 729-750. -/
def innerGaps : List (Interval α) → Res (List (Interval α))
  | I :: J :: l => do
    let g ← innerGap I J
    let r ← innerGaps (J :: l)
    pure (g :: r)
  | _ => pure []

/-- The potential leading gap, `Interval.tpp` 708-727. -/
def leadingGap (K : Interval α) (first : Interval α) : Res (List (Interval α)) :=
  if !K.isDefined then pure []
  else do
    let (v, e, _) ← K.get
    let (t, a, _) ← first.get
    if e < a then do
      let g ← build e (!v.lowerClosed) a t.lowerClosed
      pure [g]
    else pure []

/-- The potential trailing gap, `Interval.tpp` 752-773. -/
def trailingGap (K : Interval α) (last : Interval α) : Res (List (Interval α)) :=
  if !K.isDefined then pure []
  else do
    let (v, _, f) ← K.get
    let (t, _, b) ← last.get
    if b < f then do
      let g ← build b t.upperClosed f (!v.upperClosed)
      pure [g]
    else pure []

/-- `Interval::GetGaps`, `Interval.tpp` 686-776. -/
def GetGaps (S : Sorter (Interval α)) (l : List (Interval α)) (K : Interval α) : Res (List (Interval α)) := do
  let merged ← Merge S l
  let sanitized ← if K.isDefined then Clip merged K else pure merged
  match sanitized with
  | [] => pure (if K.isDefined then [K] else [])
  | I :: r => do
    let g1 ← leadingGap K I
    let g2 ← innerGaps (I :: r)
    let g3 ← trailingGap K ((I :: r).getLast (List.cons_ne_nil I r))
    pure (g1 ++ g2 ++ g3)

/-- `Interval::LogicalOr`, `Interval.tpp` 778-796. -/
def LogicalOr (S : Sorter (Interval α)) (l m : List (Interval α)) : Res (List (Interval α)) :=
  Merge S (l ++ m)

/-- The span used by `Interval::LogicalAnd`, `Interval.tpp` 811-883, from the first and last intervals of the two
sanitized arrays. -/
def span (aFirst aLast bFirst bLast : Interval α) : Res (Interval α) := do
  let (t, a, _) ← aFirst.get
  let (u, c, _) ← bFirst.get
  let (t', _, b) ← aLast.get
  let (u', _, d) ← bLast.get
  let lower := if a < c then (a, !t.lowerClosed)
    else if c < a then (c, !u.lowerClosed)
    else (a, !(t.lowerClosed && u.lowerClosed))
  let upper := if d < b then (b, !t'.upperClosed)
    else if b < d then (d, !u'.upperClosed)
    else (b, !(t'.upperClosed && u'.upperClosed))
  build lower.1 lower.2 upper.1 upper.2

/-- `Interval::LogicalAnd`, `Interval.tpp` 798-892. -/
def LogicalAnd (S : Sorter (Interval α)) (l m : List (Interval α)) : Res (List (Interval α)) := do
  let la ← Merge S l
  let lb ← Merge S m
  match la, lb with
  | I :: r, J :: s => do
    let K ← span I ((I :: r).getLast (List.cons_ne_nil I r)) J ((J :: s).getLast (List.cons_ne_nil J s))
    let ga ← GetGaps S la K
    let gb ← GetGaps S lb K
    let o ← LogicalOr S ga gb
    GetGaps S o K
  | _, _ => pure []

end Interval

end Verif
