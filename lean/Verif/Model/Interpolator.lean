import Verif.Model.Err
import Mathlib.Algebra.Order.Field.Basic

/-!
# Interpolators

`src/OpenSpaceToolkit/Mathematics/CurveFitting/Interpolator.cpp` and `Interpolator/*.cpp`. Numbers are elements of an ordered field. Vectors are lists; reading an element
outside a vector is undefined behaviour, as in Eigen with assertions disabled. The binary searches of the standard library are modelled by the algorithm of libstdc++,
so that the model also says what happens when the nodes are not sorted.
-/

namespace Verif

/-- `VectorXd::operator ()` -/
def vecAt {α : Type} (v : List α) (i : ℕ) : Res α :=
  match v[i]? with
  | some a => .ok a
  | none => .error .ub

/-- `std::lower_bound` and `std::upper_bound` (`std::__lower_bound` of libstdc++): the loop on `first` and `len`; `before` is the comparison that moves the search right -/
def boundLoop {α : Type} (before : α → Bool) (v : List α) (first len : ℕ) : ℕ :=
  if h : len = 0 then first
  else
    match v[first + len / 2]? with
    | some a => if before a then boundLoop before v (first + len / 2 + 1) (len - len / 2 - 1) else boundLoop before v first (len / 2)
    | none => first
termination_by len
decreasing_by all_goals omega

/-- `std::distance (begin, std::lower_bound (begin, end, value))` -/
def lowerBound {α : Type} [LT α] [DecidableLT α] (v : List α) (q : α) : ℕ := boundLoop (fun a => decide (a < q)) v 0 v.length

/-- `std::distance (begin, std::upper_bound (begin, end, value))` -/
def upperBound {α : Type} [LT α] [DecidableLT α] (v : List α) (q : α) : ℕ := boundLoop (fun a => !decide (q < a)) v 0 v.length

/-- the loops of `evaluate (VectorXd)` and `computeDerivative (VectorXd)` -/
def vecMap {α : Type} (f : α → Res α) : List α → Res (List α)
  | [] => .ok []
  | q :: qs =>
    match f q with
    | .error e => .error e
    | .ok y =>
      match vecMap f qs with
      | .error e => .error e
      | .ok ys => .ok (y :: ys)

variable {α : Type} [Field α] [LinearOrder α]

/-- `interpolator::Linear` (members `x_`, `y_`) -/
structure LinearI (α : Type) where
  x : List α
  y : List α

namespace LinearI

/-- constructor (`Interpolator/Linear.cpp` 18-32) -/
def ctor (x y : List α) : Res (LinearI α) :=
  if y.length < 2 then .error .wrong
  else if x.length ≠ y.length then .error .wrong
  else .ok ⟨x, y⟩

/-- `findIndexRange` (`Interpolator/Linear.cpp` 97-112) -/
def findIndexRange (l : LinearI α) (q : α) : ℕ × ℕ :=
  if lowerBound l.x q = 0 then (0, 0)
  else if lowerBound l.x q = l.x.length then (lowerBound l.x q - 1, lowerBound l.x q - 1)
  else (lowerBound l.x q - 1, lowerBound l.x q)

/-- `evaluate (double)` (`Interpolator/Linear.cpp` 48-68) -/
def evaluate (l : LinearI α) (q : α) : Res α :=
  if (l.findIndexRange q).1 = (l.findIndexRange q).2 then vecAt l.y (l.findIndexRange q).1
  else do
    let y0 ← vecAt l.y (l.findIndexRange q).1
    let y1 ← vecAt l.y (l.findIndexRange q).2
    let x0 ← vecAt l.x (l.findIndexRange q).1
    let x1 ← vecAt l.x (l.findIndexRange q).2
    return y0 + (q - x0) / (x1 - x0) * (y1 - y0)

/-- `computeDerivative (double)` (`Interpolator/Linear.cpp` 70-83) -/
def computeDerivative (l : LinearI α) (q : α) : Res α :=
  if (l.findIndexRange q).1 = (l.findIndexRange q).2 then .ok 0
  else do
    let y0 ← vecAt l.y (l.findIndexRange q).1
    let y1 ← vecAt l.y (l.findIndexRange q).2
    let x0 ← vecAt l.x (l.findIndexRange q).1
    let x1 ← vecAt l.x (l.findIndexRange q).2
    return (y1 - y0) / (x1 - x0)

/-- `evaluate (VectorXd)` (`Interpolator/Linear.cpp` 36-46) -/
def evaluateAll (l : LinearI α) (qs : List α) : Res (List α) := vecMap l.evaluate qs

/-- `computeDerivative (VectorXd)` (`Interpolator/Linear.cpp` 85-95) -/
def computeDerivativeAll (l : LinearI α) (qs : List α) : Res (List α) := vecMap l.computeDerivative qs

end LinearI

/-- `interpolator::ZeroOrder` (members `x_`, `y_`) -/
structure ZeroOrderI (α : Type) where
  x : List α
  y : List α

namespace ZeroOrderI

/-- constructor (`Interpolator/ZeroOrder.cpp` 16-30) -/
def ctor (x y : List α) : Res (ZeroOrderI α) :=
  if y.length < 1 then .error .wrong
  else if x.length ≠ y.length then .error .wrong
  else .ok ⟨x, y⟩

/-- `findPreviousIndex` (`Interpolator/ZeroOrder.cpp` 63-76) -/
def findPreviousIndex (z : ZeroOrderI α) (q : α) : ℕ := if upperBound z.x q = 0 then 0 else upperBound z.x q - 1

/-- `evaluate (double)` (`Interpolator/ZeroOrder.cpp` 46-50) -/
def evaluate (z : ZeroOrderI α) (q : α) : Res α := vecAt z.y (z.findPreviousIndex q)

/-- `computeDerivative (double)` (`Interpolator/ZeroOrder.cpp` 52-56) -/
def computeDerivative (_ : ZeroOrderI α) (_ : α) : Res α := .ok 0

/-- `evaluate (VectorXd)` (`Interpolator/ZeroOrder.cpp` 34-44) -/
def evaluateAll (z : ZeroOrderI α) (qs : List α) : Res (List α) := vecMap z.evaluate qs

/-- `computeDerivative (VectorXd)` (`Interpolator/ZeroOrder.cpp` 58-61) -/
def computeDerivativeAll (_ : ZeroOrderI α) (qs : List α) : Res (List α) := .ok (List.replicate qs.length 0)

end ZeroOrderI

/-! ## Barycentric rational interpolation

`boost::math::interpolators::barycentric_rational` with its default order 3, from the library's source: the weights of Floater and Hormann. -/

/-- the members `m_x`, `m_y`, `m_w` -/
structure BaryI (α : Type) where
  x : List α
  y : List α
  w : List α

namespace BaryI

/-- the copy of the nodes and values: the values are read through an iterator with no end -/
def copyValues : List α → List α → Res (List α)
  | [], _ => .ok []
  | _ :: _, [] => .error .ub
  | _ :: xs, y :: ys =>
    match copyValues xs ys with
    | .error e => .error e
    | .ok l => .ok (y :: l)

/-- the product over `j` from `i` to `i + 3`, `j ≠ k`, of the differences of nodes -/
def product (x : ℕ → α) (k i : ℕ) : α := ((List.range 4).map fun j => if i + j = k then 1 else x k - x (i + j)).prod

/-- `calculate_weights`: the weight of node `k` of `n` -/
def weight (x : ℕ → α) (n k : ℕ) : α :=
  ((List.range (n - 3)).map fun i => if i ≤ k ∧ k ≤ i + 3 then (if i % 2 = 0 then 1 / product x k i else -(1 / product x k i)) else 0).sum

/-- the test of the spacing in `calculate_weights`: nodes within three places of each other are different -/
def spaced (x : ℕ → α) (n : ℕ) : Bool := (List.range n).all fun k => (List.range n).all fun j => decide (j = k ∨ 3 < j - k ∨ 3 < k - j ∨ x k ≠ x j)

/-- constructor of the library (start_x, end_x, start_y) followed by the size test (`Interpolator/BarycentricRational.cpp` 16-24) -/
def ctor (x y : List α) : Res (BaryI α) :=
  if x.length ≤ 3 then .error .runtimeError
  else
    match copyValues x y with
    | .error e => .error e
    | .ok l =>
      if !spaced (fun i => x.getD i 0) x.length then .error .runtimeError
      else if x.length ≠ y.length then .error .wrong
      else .ok ⟨x, l, (List.range x.length).map (weight (fun i => x.getD i 0) x.length)⟩

/-- a division of two numbers, `none` when the answer is infinite or not a number -/
def quotient (num den : α) : Option α := if den = 0 then none else some (num / den)

/-- the loop of `operator ()`, with the running numerator and denominator -/
def loop (q : α) : List (α × α × α) → α → α → Option α
  | [], num, den => quotient num den
  | (x, y, w) :: l, num, den => if q = x then some y else loop q l (num + w / (q - x) * y) (den + w / (q - x))

/-- the nodes with their values and weights -/
def entries (b : BaryI α) : List (α × α × α) := b.x.zip (b.y.zip b.w)

/-- `evaluate (double)` (`Interpolator/BarycentricRational.cpp` 40-43): `operator ()` of the library -/
def evaluate (b : BaryI α) (q : α) : Option α := loop q b.entries 0 0

/-- `evaluate (VectorXd)` (`Interpolator/BarycentricRational.cpp` 28-38) -/
def evaluateAll (b : BaryI α) (qs : List α) : List (Option α) := qs.map b.evaluate

/-- the sum over the other nodes in `prime` at node `i` -/
def others (all : List (α × α × α)) (i : ℕ) (xi yi : α) : α :=
  (all.zipIdx.map fun e => if e.2 = i then 0 else e.1.2.2 * (yi - e.1.2.1) / (xi - e.1.1)).sum

/-- the loop of `prime`, with the value `r` of the interpolant, the place, and the running numerator and denominator -/
def primeLoop (q r : α) (all : List (α × α × α)) : ℕ → List (α × α × α) → α → α → Option α
  | _, [], num, den => quotient num den
  | i, (x, y, w) :: l, num, den =>
    if q = x then quotient (-others all i x y) w
    else primeLoop q r all (i + 1) l (num + w / (q - x) * ((r - y) / (q - x))) (den + w / (q - x))

/-- `computeDerivative (double)` (`Interpolator/BarycentricRational.cpp` 45-48): `prime` of the library -/
def computeDerivative (b : BaryI α) (q : α) : Option α :=
  match b.evaluate q with
  | none => none
  | some r => primeLoop q r b.entries 0 b.entries 0 0

/-- `computeDerivative (VectorXd)` (`Interpolator/BarycentricRational.cpp` 50-60) -/
def computeDerivativeAll (b : BaryI α) (qs : List α) : List (Option α) := qs.map b.computeDerivative

end BaryI

/-! ## Cubic splines -/

/-- `interpolator::CubicSpline`: the arguments with which the spline of the library is made -/
structure SplineI (α : Type) where
  y : List α
  left : α
  step : α

namespace SplineI

/-- `isConstant (h, precision)` of Eigen: `|a - h| ≤ min (|a|, |h|) * precision` for every element -/
def isConstant (h prec : α) (v : List α) : Bool := v.all fun a => decide (|a - h| ≤ min |a| |h| * prec)

/-- the differences of successive nodes (`Interpolator/CubicSpline.cpp` 31) -/
def diffs : List α → List α
  | a :: b :: l => (b - a) :: diffs (b :: l)
  | _ => []

/-- the constructor of the library throws unless the step is positive -/
def make (y : List α) (left step : α) : Res (SplineI α) := if step ≤ 0 then .error .runtimeError else .ok ⟨y, left, step⟩

/-- constructor from nodes (`Interpolator/CubicSpline.cpp` 16-40) -/
def ctor (prec : α) (x y : List α) : Res (SplineI α) :=
  if y.length < 5 then .error .wrong
  else if x.length ≠ y.length then .error .wrong
  else do
    let x1 ← vecAt x 1
    let x0 ← vecAt x 0
    if !isConstant (x1 - x0) prec (diffs x) then .error .wrong
    else make y x0 (x1 - x0)

/-- constructor from a step (`Interpolator/CubicSpline.cpp` 42-52) -/
def ofStep (y : List α) (x0 h : α) : Res (SplineI α) := if y.length < 5 then .error .wrong else make y x0 h

end SplineI

/-! ## The factory -/

/-- `Interpolator::Type` -/
inductive InterpType where
  | barycentricRational | cubicSpline | linear | zeroOrder
  deriving DecidableEq, Repr

/-- an interpolator of a concrete class -/
inductive Interp (α : Type) where
  | bary (b : BaryI α)
  | spline (s : SplineI α)
  | linear (l : LinearI α)
  | zeroOrder (z : ZeroOrderI α)

namespace Interp

/-- `GenerateInterpolator` (`Interpolator.cpp` 35-52); `prec` is the precision 1e-6 of the test of the spacing -/
def generate (prec : α) (t : InterpType) (x y : List α) : Res (Interp α) :=
  match t with
  | .barycentricRational => (BaryI.ctor x y).map .bary
  | .cubicSpline => (SplineI.ctor prec x y).map .spline
  | .linear => (LinearI.ctor x y).map .linear
  | .zeroOrder => (ZeroOrderI.ctor x y).map .zeroOrder

/-- `getInterpolationType` (`Interpolator.cpp` 30-33) -/
def getInterpolationType : Interp α → InterpType
  | .bary _ => .barycentricRational
  | .spline _ => .cubicSpline
  | .linear _ => .linear
  | .zeroOrder _ => .zeroOrder

end Interp

end Verif
