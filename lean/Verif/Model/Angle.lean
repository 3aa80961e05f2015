import Mathlib.Analysis.SpecialFunctions.Trigonometric.Inverse
import Mathlib.Algebra.Order.Floor.Semiring
import Mathlib.Algebra.Order.Archimedean.Real.Basic
import Verif.Model.Err
import Verif.Model.Vec

/-!
# `Angle`

Source: `src/OpenSpaceToolkit/Mathematics/Geometry/Angle.cpp`,
`include/OpenSpaceToolkit/Mathematics/Geometry/Angle.hpp`. `Real` is `Option ℝ` (`none` is undefined), infinities and
rounding are not modelled. Arithmetic on an undefined `Real` gives an undefined `Real` and every comparison with one is
false (ostk-core, not in the repository).
-/

namespace Verif

/-- `Angle::Unit` (`Angle.hpp` 38-48) -/
inductive AUnit where
  | undefined | radian | degree | arcminute | arcsecond | revolution
  deriving DecidableEq, Repr

/-- `Angle` (`Angle.hpp`, members `value_`, `unit_`; constructor `Angle.cpp` 15-19 stores its arguments unchecked) -/
@[ext] structure Angle where
  value : Option ℝ
  unit : AUnit

namespace Angle

/-- `Angle::SIRatio` (`Angle.cpp` 620-645) -/
noncomputable def SIRatio : AUnit → Res ℝ
  | .undefined => .error .wrong
  | .radian => .ok 1
  | .degree => .ok (Real.pi / 180)
  | .arcminute => .ok (Real.pi / 10800)
  | .arcsecond => .ok (Real.pi / 648000)
  | .revolution => .ok (2 * Real.pi)

/-- `Angle::isDefined` (`Angle.cpp` 248-251) -/
def isDefined (a : Angle) : Bool := a.value.isSome && decide (a.unit ≠ .undefined)

/-- `Angle::isZero` (`Angle.cpp` 253-261) -/
noncomputable def isZero (a : Angle) : Res Bool :=
  match a.isDefined, a.value with
  | true, some v => .ok (decide (v = 0))
  | _, _ => .error .undefined

/-- `Angle::isNegative` (`Angle.cpp` 263-271) -/
noncomputable def isNegative (a : Angle) : Res Bool :=
  match a.isDefined, a.value with
  | true, some v => .ok (decide (v < 0))
  | _, _ => .error .undefined

/-- `Angle::in` (`Angle.cpp` 304-317) -/
noncomputable def inUnit (a : Angle) (u : AUnit) : Res ℝ :=
  match a.isDefined, a.value with
  | true, some v =>
    if a.unit = u then .ok v
    else do
      let r ← SIRatio a.unit
      let s ← SIRatio u
      pure (v * r / s)
  | _, _ => .error .undefined

/-- `while (value < lowerBound) value += range;` (`Angle.cpp` 659-663) for a positive range -/
noncomputable def raise (range lo : ℝ) (h : 0 < range) (v : ℝ) : ℝ :=
  if _hv : v < lo then raise range lo h (v + range) else v
termination_by ⌈(lo - v) / range⌉₊
decreasing_by
  have h1 : (lo - (v + range)) / range = (lo - v) / range - 1 := by field_simp; ring
  have h2 : 0 < (lo - v) / range := div_pos (sub_pos.2 _hv) h
  rw [h1, Nat.ceil_sub_one]
  exact Nat.sub_lt (Nat.ceil_pos.2 h2) Nat.one_pos

/-- `while (value >= upperBound) value -= range;` (`Angle.cpp` 665-669) for a positive range -/
noncomputable def lower (range hi : ℝ) (h : 0 < range) (v : ℝ) : ℝ :=
  if _hv : hi ≤ v then lower range hi h (v - range) else v
termination_by ⌊(v - hi) / range + 1⌋₊
decreasing_by
  have h1 : (v - range - hi) / range + 1 = (v - hi) / range + 1 - 1 := by field_simp; ring
  have h2 : 0 ≤ (v - hi) / range := div_nonneg (sub_nonneg.2 _hv) h.le
  rw [h1, Nat.floor_sub_one]
  refine Nat.sub_lt (Nat.floor_pos.2 (by linarith)) Nat.one_pos

/-- `Angle::ReduceRange` (`Angle.cpp` 647-671). The code does not test that the range is positive; every call passes a full
turn, so the model takes that as a proof argument (for a non-positive range the loops would not terminate). -/
noncomputable def ReduceRange (v lo hi : ℝ) (h : lo < hi) : ℝ :=
  if lo ≤ v ∧ v < hi then v
  else lower (hi - lo) hi (sub_pos.2 h) (raise (hi - lo) lo (sub_pos.2 h) v)

/-- The full turns written in the `switch` of `Angle::operator ==` (`Angle.cpp` 28-74) -/
noncomputable def eqTurn : AUnit → ℝ
  | .undefined => 1
  | .radian => 2 * Real.pi
  | .degree => 360
  | .arcminute => 21600
  | .arcsecond => 1296000
  | .revolution => 1

theorem eqTurn_pos (u : AUnit) : 0 < eqTurn u := by
  cases u <;> simp only [eqTurn] <;> first | exact Real.two_pi_pos | norm_num

/-- The value of `b` in the unit of `a`, as in the ternary operators of `==`, `+`, `-`, `+=`, `-=`
(`Angle.cpp` 33, 41, 48, 56, 64, 90, 100, 145, 157) -/
noncomputable def otherValue (a b : Angle) : Res (Option ℝ) :=
  if a.unit = b.unit then pure b.value else (b.inUnit a.unit).map some

/-- `Angle::operator ==` (`Angle.cpp` 21-76). In the branch of the `switch` on an undefined unit the function has already
returned. -/
noncomputable def eq (a b : Angle) : Res Bool :=
  if a.unit = .undefined ∨ b.unit = .undefined then .ok false
  else do
    let other ← otherValue a b
    match a.value, other with
    | some x, some y => pure (decide (x = ReduceRange y x (x + eqTurn a.unit) (lt_add_of_pos_right x (eqTurn_pos a.unit))))
    | _, _ => pure false

/-- `Angle::operator + (Angle)` (`Angle.cpp` 83-91) -/
noncomputable def add (a b : Angle) : Res Angle :=
  if a.unit = .undefined ∨ b.unit = .undefined then .error .undefined
  else do
    let v ← otherValue a b
    pure ⟨Option.map₂ (· + ·) a.value v, a.unit⟩

/-- `Angle::operator - (Angle)` (`Angle.cpp` 93-101) -/
noncomputable def sub (a b : Angle) : Res Angle :=
  if a.unit = .undefined ∨ b.unit = .undefined then .error .undefined
  else do
    let v ← otherValue a b
    pure ⟨Option.map₂ (· - ·) a.value v, a.unit⟩

/-- `Angle::operator * (Real)` (`Angle.cpp` 103-116) -/
noncomputable def mul (a : Angle) (k : Option ℝ) : Res Angle :=
  if a.unit = .undefined then .error .undefined
  else match k with
  | none => .error .undefined
  | some k => .ok ⟨a.value.map (· * k), a.unit⟩

/-- `operator * (Real, Angle)` (`Angle.cpp` 201-214) -/
noncomputable def rmul (k : Option ℝ) (a : Angle) : Res Angle :=
  match k with
  | none => .error .undefined
  | some k => if a.unit = .undefined then .error .undefined else .ok ⟨a.value.map (· * k), a.unit⟩

/-- `Angle::operator / (Real)` (`Angle.cpp` 118-136) -/
noncomputable def div (a : Angle) (k : Option ℝ) : Res Angle :=
  if a.unit = .undefined then .error .undefined
  else match k with
  | none => .error .undefined
  | some k => if k = 0 then .error .runtimeError else .ok ⟨a.value.map (· / k), a.unit⟩

/-- unary `+` (`Angle.cpp` 216-224) -/
def pos (a : Angle) : Res Angle := if a.isDefined then .ok ⟨a.value, a.unit⟩ else .error .undefined

/-- unary `-` (`Angle.cpp` 226-234) -/
noncomputable def neg (a : Angle) : Res Angle :=
  if a.isDefined then .ok ⟨a.value.map (- ·), a.unit⟩ else .error .undefined

/-- State of the receiver and exception after a compound assignment. -/
abbrev Eff := Angle × Option Err

/-- `Angle::operator += (Angle)` (`Angle.cpp` 138-148): the receiver is assigned in the last statement. -/
noncomputable def addAssign (a b : Angle) : Eff :=
  if a.unit = .undefined ∨ b.unit = .undefined then (a, some .undefined)
  else match otherValue a b with
  | .error e => (a, some e)
  | .ok v => ({ a with value := Option.map₂ (· + ·) a.value v }, none)

/-- `Angle::operator -= (Angle)` (`Angle.cpp` 150-160) -/
noncomputable def subAssign (a b : Angle) : Eff :=
  if a.unit = .undefined ∨ b.unit = .undefined then (a, some .undefined)
  else match otherValue a b with
  | .error e => (a, some e)
  | .ok v => ({ a with value := Option.map₂ (· - ·) a.value v }, none)

/-- `Angle::operator *= (Real)` (`Angle.cpp` 162-177) -/
noncomputable def mulAssign (a : Angle) (k : Option ℝ) : Eff :=
  if a.unit = .undefined then (a, some .undefined)
  else match k with
  | none => (a, some .undefined)
  | some k => ({ a with value := a.value.map (· * k) }, none)

/-- `Angle::operator /= (Real)` (`Angle.cpp` 179-199) -/
noncomputable def divAssign (a : Angle) (k : Option ℝ) : Eff :=
  if a.unit = .undefined then (a, some .undefined)
  else match k with
  | none => (a, some .undefined)
  | some k => if k = 0 then (a, some .runtimeError) else ({ a with value := a.value.map (· / k) }, none)

/-- `Angle::isNear` (`Angle.cpp` 273-292) -/
noncomputable def isNear (a b tol : Angle) : Res Bool :=
  if !a.isDefined || !b.isDefined then .error .undefined
  else if !tol.isDefined then .error .undefined
  else do
    let x ← a.inUnit .degree
    let y ← b.inUnit .degree
    let n1 := ReduceRange x 0 360 (by norm_num)
    let n2 := ReduceRange y 0 360 (by norm_num)
    let diff := |n2 - n1|
    let t ← tol.inUnit .degree
    pure (decide (diff ≤ |t|) || decide (360 - diff ≤ |t|))

/-- The common text of the four ranged conversions: test of the bounds, test of the span, reduction. -/
noncomputable def inRange (u : AUnit) (span : ℝ) (hspan : 0 < span) (a : Angle) (lo hi : Option ℝ) : Res ℝ :=
  match lo, hi with
  | none, _ => .error .undefined
  | some _, none => .error .undefined
  | some l, some h =>
    if hs : h - l = span then do
      let v ← a.inUnit u
      pure (ReduceRange v l h (by linarith))
    else .error .undefined

/-- `Angle::inRadians(Real, Real)` (`Angle.cpp` 324-342) -/
noncomputable def inRadians (a : Angle) (lo hi : Option ℝ) : Res ℝ := inRange .radian (2 * Real.pi) Real.two_pi_pos a lo hi
/-- `Angle::inDegrees(Real, Real)` (`Angle.cpp` 349-367) -/
noncomputable def inDegrees (a : Angle) (lo hi : Option ℝ) : Res ℝ := inRange .degree 360 (by norm_num) a lo hi
/-- `Angle::inArcminutes(Real, Real)` (`Angle.cpp` 374-392) -/
noncomputable def inArcminutes (a : Angle) (lo hi : Option ℝ) : Res ℝ := inRange .arcminute 21600 (by norm_num) a lo hi
/-- `Angle::inArcseconds(Real, Real)` (`Angle.cpp` 399-417) -/
noncomputable def inArcseconds (a : Angle) (lo hi : Option ℝ) : Res ℝ := inRange .arcsecond 1296000 (by norm_num) a lo hi

/-- `Angle::Zero` (`Angle.cpp` 439-442) -/
noncomputable def Zero : Angle := ⟨some 0, .radian⟩
/-- `Angle::HalfPi` (`Angle.cpp` 444-447) -/
noncomputable def HalfPi : Angle := ⟨some (Real.pi / 2), .radian⟩
/-- `Angle::Pi` (`Angle.cpp` 449-452) -/
noncomputable def Pi : Angle := ⟨some Real.pi, .radian⟩
/-- `Angle::TwoPi` (`Angle.cpp` 454-457) -/
noncomputable def TwoPi : Angle := ⟨some (Real.pi * 2), .radian⟩
/-- `Angle::Undefined` (`Angle.cpp` 434-437) -/
def Undefined : Angle := ⟨none, .undefined⟩

open Classical in
/-- `Angle::Between(Vector2d, Vector2d)` (`Angle.cpp` 489-524). `eps` is `Real::Epsilon()`. -/
noncomputable def Between2 (eps : ℝ) (u v : Option V2) : Res Angle :=
  match u, v with
  | some u, some v =>
    if u.normSq < eps ∨ v.normSq < eps then .error .runtimeError
    else if u = v then .ok Zero
    else if u = -v then .ok Pi
    else
      let d := u.normalized.dot v.normalized
      if 1 ≤ d then .ok Zero
      else if d ≤ -1 then .ok Pi
      else .ok ⟨some (Real.arccos d), .radian⟩
  | _, _ => .error .undefined

open Classical in
/-- `Angle::Between(Vector3d, Vector3d)` (`Angle.cpp` 526-561) -/
noncomputable def Between3 (eps : ℝ) (u v : Option V3) : Res Angle :=
  match u, v with
  | some u, some v =>
    if u.normSq < eps ∨ v.normSq < eps then .error .runtimeError
    else if u = v then .ok Zero
    else if u = -v then .ok Pi
    else
      let d := u.normalized.dot v.normalized
      if 1 ≤ d then .ok Zero
      else if d ≤ -1 then .ok Pi
      else .ok ⟨some (Real.arccos d), .radian⟩
  | _, _ => .error .undefined

end Angle

end Verif
