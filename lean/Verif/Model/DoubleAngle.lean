import Verif.Model.Double
import Verif.Model.Angle

/-!
# `Angle` in double precision

The functions of `Model/Angle.lean` whose results depend on rounding, with the arithmetic of `Model/Double.lean`. Source:
`src/OpenSpaceToolkit/Mathematics/Geometry/Angle.cpp`. An undefined `Real` is `nan`, infinite values are defined. The loops are given a number of rounds that they
may make; `none` says that the loop has not ended by then.
-/

namespace Verif

variable {α : Type} [Field α] [LinearOrder α] [IsStrictOrderedRing α] [FloorRing α]

/-- `Angle` (`Angle.hpp`, members `value_` and `unit_`) -/
structure DAngle (α : Type) where
  value : F64 α
  unit : AUnit

namespace DAngle

/-- `Real::Pi`, the number of the format nearest to π (ostk-core) -/
def pi : F64 α := .fin (7074237752028440 * 2 ^ (-51 : ℤ))

/-- `Real::TwoPi` (ostk-core) -/
def twoPi : F64 α := .fin (7074237752028440 * 2 ^ (-50 : ℤ))

/-- `Angle::isDefined` (`Angle.cpp` 248-251) -/
def isDefined (a : DAngle α) : Bool := decide (a.value ≠ .nan) && decide (a.unit ≠ .undefined)

/-- `Angle::SIRatio` (`Angle.cpp` 620-645) -/
def SIRatio : AUnit → Res (F64 α)
  | .undefined => .error .wrong
  | .radian => .ok (.fin 1)
  | .degree => .ok (pi.div (.fin 180))
  | .arcminute => .ok (pi.div (.fin 10800))
  | .arcsecond => .ok (pi.div (.fin 648000))
  | .revolution => .ok twoPi

/-- `Angle::in` (`Angle.cpp` 304-317) -/
def inUnit (a : DAngle α) (u : AUnit) : Res (F64 α) :=
  if !a.isDefined then .error .undefined
  else if a.unit = u then .ok a.value
  else do
    let r ← SIRatio a.unit
    let s ← SIRatio u
    pure ((a.value.mul r).div s)

/-- `while (value < aRangeLowerBound) value += range;` (`Angle.cpp` 658-662) -/
def raise (range lo : F64 α) : ℕ → F64 α → Option (F64 α)
  | 0, _ => none
  | n + 1, v => if v.lt lo then raise range lo n (v.add range) else some v

/-- `while (value >= aRangeUpperBound) value -= range;` (`Angle.cpp` 664-668) -/
def lower (range hi : F64 α) : ℕ → F64 α → Option (F64 α)
  | 0, _ => none
  | n + 1, v => if hi.le v then lower range hi n (v.sub range) else some v

/-- `Angle::ReduceRange` (`Angle.cpp` 647-671), each loop with at most `n` tests -/
def reduceRange (n : ℕ) (v lo hi : F64 α) : Option (F64 α) :=
  if lo.le v && v.lt hi then some v
  else (raise (hi.sub lo) lo n v).bind (lower (hi.sub lo) hi n)

/-- the full turns written in the `switch` of `operator ==` (`Angle.cpp` 28-74) -/
def turn : AUnit → F64 α
  | .undefined => .nan
  | .radian => twoPi
  | .degree => .fin 360
  | .arcminute => .fin 21600
  | .arcsecond => .fin 1296000
  | .revolution => .fin 1

/-- `Angle::operator ==` (`Angle.cpp` 21-76) -/
def eq (n : ℕ) (a b : DAngle α) : Option (Res Bool) :=
  if a.unit = .undefined ∨ b.unit = .undefined then some (.ok false)
  else
    match if b.unit = a.unit then .ok b.value else b.inUnit a.unit with
    | .error e => some (.error e)
    | .ok w => (reduceRange n w a.value (a.value.add (turn a.unit))).map fun r => .ok (a.value.eq r)

/-- `Angle::inRadians`, `inDegrees`, `inArcminutes`, `inArcseconds` with bounds (`Angle.cpp` 324-342, 349-367, 374-392, 399-417) -/
def inRange (n : ℕ) (u : AUnit) (a : DAngle α) (lo hi : F64 α) : Option (Res (F64 α)) :=
  if lo = .nan then some (.error .undefined)
  else if hi = .nan then some (.error .undefined)
  else if !(hi.sub lo).eq (turn u) then some (.error .undefined)
  else
    match a.inUnit u with
    | .error e => some (.error e)
    | .ok v => (reduceRange n v lo hi).map .ok

/-- `Real::abs` (ostk-core) -/
def abs (a : F64 α) : F64 α := if a.lt (.fin 0) then a.neg else a

/-- `Angle::isNear` (`Angle.cpp` 273-292) -/
def isNear (n : ℕ) (a b tol : DAngle α) : Option (Res Bool) :=
  if !a.isDefined || !b.isDefined then some (.error .undefined)
  else if !tol.isDefined then some (.error .undefined)
  else
    match a.inUnit .degree, b.inUnit .degree, tol.inUnit .degree with
    | .ok x, .ok y, .ok t =>
      match reduceRange n x (.fin 0) (.fin 360), reduceRange n y (.fin 0) (.fin 360) with
      | some x', some y' =>
        let diff := abs (y'.sub x')
        some (.ok (diff.le (abs t) || ((F64.fin 360).sub diff).le (abs t)))
      | _, _ => none
    | .error e, _, _ => some (.error e)
    | _, .error e, _ => some (.error e)
    | _, _, .error e => some (.error e)

end DAngle

end Verif
