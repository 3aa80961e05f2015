import Verif.Model.Double
import Verif.Model.Interval

/-!
# `Interval<Real>::generateArrayWithStep` and `generateArrayWithSize` in double precision

Source: `src/OpenSpaceToolkit/Mathematics/Object/Interval.tpp` 371-490, with the arithmetic of `Model/Double.lean`. An interval is given by its type and its two
bounds, a bound that is not defined is `nan`. The loops are given a number of rounds that they may make; `none` says that the loop has not ended by then.
-/

namespace Verif.DGrid

variable {α : Type} [Field α] [LinearOrder α] [IsStrictOrderedRing α] [FloorRing α]

/-- `while (value < this->accessUpperBound()) { grid.add(value); value += aStep; }` (`Interval.tpp` 405-410) -/
def up (s b : F64 α) : ℕ → F64 α → Option (List (F64 α))
  | 0, _ => none
  | n + 1, v => if v.lt b then (up s b n (v.add s)).map (v :: ·) else some []

/-- `while (value > this->accessLowerBound()) { grid.add(value); value += aStep; }` (`Interval.tpp` 426-431) -/
def down (s a : F64 α) : ℕ → F64 α → Option (List (F64 α))
  | 0, _ => none
  | n + 1, v => if a.lt v then (down s a n (v.add s)).map (v :: ·) else some []

/-- `Interval<T>::generateArrayWithStep` (`Interval.tpp` 371-440), the loop with at most `n` tests -/
def withStep (n : ℕ) (t : IType) (a b s : F64 α) : Option (Res (List (F64 α))) :=
  if t = .undefined ∨ a = .nan ∨ b = .nan then some (.error .undefined)
  else if s = .nan then some (.error .undefined)
  else if s.eq (.fin 0) then some (.error .runtimeError)
  else if (F64.fin 0).lt s then
    (up s b n (if t = .opened ∨ t = .halfOpenLeft then a.add s else a)).map fun l => .ok (l ++ if t = .closed ∨ t = .halfOpenLeft then [b] else [])
  else
    (down s a n (if t = .opened ∨ t = .halfOpenRight then b.add s else b)).map fun l => .ok (l ++ if t = .closed ∨ t = .halfOpenRight then [a] else [])

/-- the filling loop of `generateArrayWithSize` (`Interval.tpp` 484-487) -/
def fill (s : F64 α) : ℕ → F64 α → List (F64 α)
  | 0, _ => []
  | n + 1, v => v :: fill s n (v.add s)

/-- `Interval<T>::generateArrayWithSize` (`Interval.tpp` 442-490) -/
def withSize (t : IType) (a b : F64 α) (n : ℕ) : Res (List (F64 α)) :=
  if n < 2 then .error .wrong
  else if t = .undefined then .error .wrong
  else if a = .nan ∨ b = .nan then .error .undefined
  else
    match t with
    | .undefined => .error .wrong
    | .closed => let s := (b.sub a).div (.ofExact ((n - 1 : ℕ) : α)); .ok (fill s n a)
    | .opened => let s := (b.sub a).div (.ofExact ((n + 1 : ℕ) : α)); .ok (fill s n (a.add s))
    | .halfOpenLeft => let s := (b.sub a).div (.ofExact (n : α)); .ok (fill s n (a.add s))
    | .halfOpenRight => let s := (b.sub a).div (.ofExact (n : α)); .ok (fill s n a)

end Verif.DGrid
