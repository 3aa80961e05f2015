import Verif.Model.Double
import Verif.Model.Interpolator

/-!
# `interpolator::Linear` in double precision

Source: `src/OpenSpaceToolkit/Mathematics/CurveFitting/Interpolator/Linear.cpp`, with the arithmetic of `Model/Double.lean`. The vectors are lists of `double`. The
product and the sum with the `Real` named `Ratio` (line 67) are taken to be those of its `double`; what `Real` does with a ratio that is not a number, which may be to
throw, is not modelled: here the result is not a number.
-/

namespace Verif.DLinear

variable {α : Type} [Field α] [LinearOrder α] [IsStrictOrderedRing α] [FloorRing α]

/-- constructor (`Interpolator/Linear.cpp` 18-32): whether it throws -/
def ctor (x y : List (F64 α)) : Res Unit := if y.length < 2 then .error .wrong else if x.length ≠ y.length then .error .wrong else .ok ()

/-- `findIndexRange` (`Interpolator/Linear.cpp` 97-112) -/
def findIndexRange (x : List (F64 α)) (q : F64 α) : ℕ × ℕ :=
  let k := boundLoop (fun a => a.lt q) x 0 x.length
  if k = 0 then (0, 0) else if k = x.length then (k - 1, k - 1) else (k - 1, k)

/-- the last lines of `evaluate (double)` (`Interpolator/Linear.cpp` 62-67) -/
def formula (x0 x1 y0 y1 q : F64 α) : F64 α := y0.add (((q.sub x0).div (x1.sub x0)).mul (y1.sub y0))

/-- `evaluate (double)` (`Interpolator/Linear.cpp` 48-68) -/
def evaluate (x y : List (F64 α)) (q : F64 α) : Res (F64 α) :=
  if (findIndexRange x q).1 = (findIndexRange x q).2 then vecAt y (findIndexRange x q).1
  else do
    let y0 ← vecAt y (findIndexRange x q).1
    let y1 ← vecAt y (findIndexRange x q).2
    let x0 ← vecAt x (findIndexRange x q).1
    let x1 ← vecAt x (findIndexRange x q).2
    return formula x0 x1 y0 y1 q

/-- `computeDerivative (double)` (`Interpolator/Linear.cpp` 70-83) -/
def computeDerivative (x y : List (F64 α)) (q : F64 α) : Res (F64 α) :=
  if (findIndexRange x q).1 = (findIndexRange x q).2 then .ok (.fin 0)
  else do
    let y1 ← vecAt y (findIndexRange x q).2
    let y0 ← vecAt y (findIndexRange x q).1
    let x1 ← vecAt x (findIndexRange x q).2
    let x0 ← vecAt x (findIndexRange x q).1
    return (y1.sub y0).div (x1.sub x0)

end Verif.DLinear
