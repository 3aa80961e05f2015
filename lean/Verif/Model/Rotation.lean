import Mathlib.Analysis.SpecialFunctions.Log.Basic
import Mathlib.Analysis.SpecialFunctions.Complex.Arg
import Verif.Model.Angle

/-!
# Types and elementary operations for rotations

`Quat`, `M3` are the defined values of `Quaternion` and `RotationMatrix`; the C++ objects, which may be undefined, are
`Option Quat`, `Option M3`. A C++ quaternion with only some undefined components behaves in every function like
`Quaternion::Undefined()` (all of them test `isDefined`, `Quaternion.cpp` 164-167), so it is also `none`.
`Real` is exact; `eps` stands for `Real::Epsilon()`.
-/

namespace Verif

/-- A defined `Quaternion` (`Quaternion.hpp`, members `x_`, `y_`, `z_`, `s_`) -/
@[ext] structure Quat where
  x : ℝ
  y : ℝ
  z : ℝ
  s : ℝ

/-- A defined 3 by 3 matrix (`RotationMatrix.hpp`, member `matrix_`; `mij` is row i, column j) -/
@[ext] structure M3 where
  m00 : ℝ
  m01 : ℝ
  m02 : ℝ
  m10 : ℝ
  m11 : ℝ
  m12 : ℝ
  m20 : ℝ
  m21 : ℝ
  m22 : ℝ

/-- The test `if (!x.isDefined()) throw Undefined` -/
def need {α : Type} : Option α → Res α
  | some a => .ok a
  | none => .error .undefined

/-- `std::atan2 (y, x)`; the sign of a zero `y` is not modelled (`atan2 (-0, x)` with `x < 0` is `-π` in C++) -/
noncomputable def atan2 (y x : ℝ) : ℝ := Complex.arg ⟨x, y⟩

namespace V3

/-- `Vector3d::X()`, `Y()`, `Z()` (`Eigen.hpp` 240-267) -/
def X : V3 := ⟨1, 0, 0⟩
def Y : V3 := ⟨0, 1, 0⟩
def Z : V3 := ⟨0, 0, 1⟩

end V3

namespace M3

/-- matrix product of Eigen -/
def mul (a b : M3) : M3 where
  m00 := a.m00 * b.m00 + a.m01 * b.m10 + a.m02 * b.m20
  m01 := a.m00 * b.m01 + a.m01 * b.m11 + a.m02 * b.m21
  m02 := a.m00 * b.m02 + a.m01 * b.m12 + a.m02 * b.m22
  m10 := a.m10 * b.m00 + a.m11 * b.m10 + a.m12 * b.m20
  m11 := a.m10 * b.m01 + a.m11 * b.m11 + a.m12 * b.m21
  m12 := a.m10 * b.m02 + a.m11 * b.m12 + a.m12 * b.m22
  m20 := a.m20 * b.m00 + a.m21 * b.m10 + a.m22 * b.m20
  m21 := a.m20 * b.m01 + a.m21 * b.m11 + a.m22 * b.m21
  m22 := a.m20 * b.m02 + a.m21 * b.m12 + a.m22 * b.m22

/-- matrix vector product of Eigen -/
def mulVec (a : M3) (v : V3) : V3 :=
  ⟨a.m00 * v.x + a.m01 * v.y + a.m02 * v.z, a.m10 * v.x + a.m11 * v.y + a.m12 * v.z,
    a.m20 * v.x + a.m21 * v.y + a.m22 * v.z⟩

def transpose (a : M3) : M3 := ⟨a.m00, a.m10, a.m20, a.m01, a.m11, a.m21, a.m02, a.m12, a.m22⟩

def one : M3 := ⟨1, 0, 0, 0, 1, 0, 0, 0, 1⟩

def trace (a : M3) : ℝ := a.m00 + a.m11 + a.m22

def rows (u v w : V3) : M3 := ⟨u.x, u.y, u.z, v.x, v.y, v.z, w.x, w.y, w.z⟩

def row0 (a : M3) : V3 := ⟨a.m00, a.m01, a.m02⟩
def row1 (a : M3) : V3 := ⟨a.m10, a.m11, a.m12⟩
def row2 (a : M3) : V3 := ⟨a.m20, a.m21, a.m22⟩
def col0 (a : M3) : V3 := ⟨a.m00, a.m10, a.m20⟩
def col1 (a : M3) : V3 := ⟨a.m01, a.m11, a.m21⟩
def col2 (a : M3) : V3 := ⟨a.m02, a.m12, a.m22⟩

end M3

namespace Quat

/-! ## `Quaternion.cpp` on defined quaternions -/

def vec (q : Quat) : V3 := ⟨q.x, q.y, q.z⟩

/-- constructor from a vector and a scalar part (`Quaternion.cpp` 46-52) -/
def mk' (v : V3) (s : ℝ) : Quat := ⟨v.x, v.y, v.z, s⟩

/-- `Quaternion::Unit` (`Quaternion.cpp` 498-501) -/
def Unit : Quat := ⟨0, 0, 0, 1⟩

/-- `operator +` (`Quaternion.cpp` 70-75) -/
def plus (q p : Quat) : Quat := mk' (q.vec + p.vec) (q.s + p.s)

/-- `operator * (Real)` (`Quaternion.cpp` 87-90) -/
def scale (q : Quat) (k : ℝ) : Quat := mk' (k • q.vec) (q.s * k)

/-- `crossMultiply` (`Quaternion.cpp` 322-335), also `operator *` (77-80) -/
def cross (l r : Quat) : Quat :=
  mk' (r.s • l.vec + l.s • r.vec - l.vec.cross r.vec) (l.s * r.s - l.vec.dot r.vec)

/-- `dotMultiply` (`Quaternion.cpp` 337-350) -/
def dotMul (l r : Quat) : Quat :=
  mk' (r.s • l.vec + l.s • r.vec + l.vec.cross r.vec) (l.s * r.s - l.vec.dot r.vec)

/-- `dotProduct` (`Quaternion.cpp` 352-360) -/
def dot (q p : Quat) : ℝ := q.x * p.x + q.y * p.y + q.z * p.z + q.s * p.s

/-- the sum of squares under the root in `norm` (`Quaternion.cpp` 319), `reducedNorm` (448) -/
def normSq (q : Quat) : ℝ := q.x * q.x + q.y * q.y + q.z * q.z + q.s * q.s

/-- `norm` (`Quaternion.cpp` 312-320) -/
noncomputable def norm (q : Quat) : ℝ := √ q.normSq

/-- `conjugate` (`Quaternion.cpp` 427-439) -/
def conj (q : Quat) : Quat := ⟨-q.x, -q.y, -q.z, q.s⟩

/-- `normalize` (`Quaternion.cpp` 410-425) -/
noncomputable def normalize (eps : ℝ) (q : Quat) : Res Quat :=
  if |q.norm| < eps then .error .runtimeError
  else .ok ⟨q.x / q.norm, q.y / q.norm, q.z / q.norm, q.s / q.norm⟩

/-- `inverse` (`Quaternion.cpp` 441-461) -/
noncomputable def inverse (eps : ℝ) (q : Quat) : Res Quat :=
  if |q.normSq| < eps then .error .runtimeError
  else .ok ⟨-q.x / q.normSq, -q.y / q.normSq, -q.z / q.normSq, q.s / q.normSq⟩

/-- `rectify` (`Quaternion.cpp` 463-479) -/
noncomputable def rectify (q : Quat) : Quat := if q.s < 0 then ⟨-q.x, -q.y, -q.z, -q.s⟩ else q

/-- `isUnitary` (`Quaternion.cpp` 169-182) -/
noncomputable def isUnitary (q : Quat) (tol : ℝ) : Res Bool :=
  if tol ≤ 0 then .error .undefined else .ok (decide (|q.norm - 1| ≤ tol))

/-- `operator ==` (`Quaternion.cpp` 61-62) -/
noncomputable def beq (q p : Quat) : Bool :=
  decide (q.x = p.x ∧ q.y = p.y ∧ q.z = p.z ∧ q.s = p.s) || decide (q.x = -p.x ∧ q.y = -p.y ∧ q.z = -p.z ∧ q.s = -p.s)

/-- `operator /` (`Quaternion.cpp` 97-105) -/
noncomputable def div (eps : ℝ) (q p : Quat) : Res Quat :=
  if p.norm < eps then .error .runtimeError
  else do
    let i ← p.inverse eps
    pure (q.cross i)

/-- `rotateVector` (`Quaternion.cpp` 362-375) -/
noncomputable def rotate (tol : ℝ) (q : Quat) (v : V3) : Res V3 := do
  let u ← q.isUnitary tol
  if u then pure (((q.cross (mk' v 0)).cross q.conj).vec) else .error .runtimeError

/-- `exp` (`Quaternion.cpp` 275-288) -/
noncomputable def exp (eps : ℝ) (q : Quat) : Quat :=
  if q.vec.norm ≤ eps then Unit
  else (mk' ((Real.sin q.vec.norm / q.vec.norm) • q.vec) (Real.cos q.vec.norm)).scale (Real.exp q.s)

/-- `log` (`Quaternion.cpp` 290-303). `std::log (0)` is `-∞` in C++ and `0` here; no theorem covers a zero norm. -/
noncomputable def log (eps : ℝ) (q : Quat) : Quat :=
  if q.vec.norm ≤ eps then mk' 0 (Real.log q.norm)
  else mk' ((atan2 q.vec.norm q.s / q.vec.norm) • q.vec) (Real.log q.norm)

/-- `pow`, `operator ^` (`Quaternion.cpp` 305-310, 107-110) -/
noncomputable def pow (eps : ℝ) (q : Quat) (k : ℝ) : Quat := ((q.log eps).scale k).exp eps

/-- `angularDifferenceWith` (`Quaternion.cpp` 481-491) -/
noncomputable def angularDifference (eps : ℝ) (q p : Quat) : Res Angle := do
  let a ← q.isUnitary eps
  let b ← p.isUnitary eps
  if !a || !b then .error .runtimeError
  else do
    let d ← q.div eps p
    let n ← d.normalize eps
    pure ⟨some (2 * Real.arccos |n.s|), .radian⟩

/-- `isNear` (`Quaternion.cpp` 184-193) -/
noncomputable def isNear (eps : ℝ) (q p : Quat) (tol : Angle) : Res Bool :=
  if !tol.isDefined then .error .undefined
  else do
    let d ← q.angularDifference eps p
    let dr ← d.inRadians (some 0) (some (2 * Real.pi))
    let tr ← tol.inRadians (some 0) (some (2 * Real.pi))
    pure (decide (dr ≤ tr))

/-- `LERP` (`Quaternion.cpp` 687-700) -/
noncomputable def LERP (q p : Quat) (r : ℝ) : Res Quat :=
  if r < 0 ∨ 1 < r then .error .runtimeError else .ok ((q.scale (1 - r)).plus (p.scale r))

/-- `NLERP` (`Quaternion.cpp` 702-707) -/
noncomputable def NLERP (eps : ℝ) (q p : Quat) (r : ℝ) : Res Quat := do
  let l ← LERP q p r
  l.normalize eps

/-- `SLERP` (`Quaternion.cpp` 709-729) -/
noncomputable def SLERP (eps : ℝ) (q p : Quat) (r : ℝ) : Res Quat :=
  if r < 0 ∨ 1 < r then .error .runtimeError
  else do
    let i ← q.inverse eps
    if 0 ≤ q.dot p then (q.cross ((i.cross p).pow eps r)).normalize eps
    else (q.cross (((i.scale (-1)).cross p).pow eps r)).normalize eps

/-- `ShortestRotation` (`Quaternion.cpp` 665-685) for defined vectors -/
noncomputable def ShortestRotation (eps : ℝ) (u v : V3) : Res Quat :=
  let o := v.normalized.cross u.normalized
  let d := u.normalized.dot v.normalized
  (⟨o.x, o.y, o.z, 1 + d⟩ : Quat).normalize eps

/-- `Quaternion::Format` (`Quaternion.hpp` 58-64) -/
inductive Format where
  | xyzs | sxyz
  deriving DecidableEq

/-- constructors from four components (`Quaternion.cpp` 24-44) -/
def ofComponents (a b c d : ℝ) : Format → Quat
  | .xyzs => ⟨a, b, c, d⟩
  | .sxyz => ⟨b, c, d, a⟩

/-- `toVector` (`Quaternion.cpp` 377-398) as a quadruple -/
def toVector (q : Quat) : Format → ℝ × ℝ × ℝ × ℝ
  | .xyzs => (q.x, q.y, q.z, q.s)
  | .sxyz => (q.s, q.x, q.y, q.z)

end Quat

/-! ## `Quaternion.cpp`: the tests of definedness -/

namespace QuatObj

/-- `operator ==` (`Quaternion.cpp` 54-63) -/
noncomputable def eq (q p : Option Quat) : Bool :=
  match q, p with
  | some q, some p => q.beq p
  | _, _ => false

/-- `operator +` -/
def add (q p : Option Quat) : Res Quat := do return (← need q).plus (← need p)
/-- `operator +=` (`Quaternion.cpp` 112-125): new receiver and exception -/
def addAssign (q p : Option Quat) : Option Quat × Option Err :=
  match q, p with
  | some q, some p => (some ⟨q.x + p.x, q.y + p.y, q.z + p.z, q.s + p.s⟩, none)
  | q, _ => (q, some .undefined)
/-- `crossMultiply`, `operator *` -/
def crossMultiply (q p : Option Quat) : Res Quat := do return (← need q).cross (← need p)
/-- `dotMultiply` -/
def dotMultiply (q p : Option Quat) : Res Quat := do return (← need q).dotMul (← need p)
/-- `dotProduct` -/
def dotProduct (q p : Option Quat) : Res ℝ := do return (← need q).dot (← need p)
/-- `operator * (Real)`: an undefined factor gives an undefined quaternion -/
def scale (q : Option Quat) (k : Option ℝ) : Res (Option Quat) := do
  let q ← need q
  return k.map q.scale
/-- `norm` -/
noncomputable def norm (q : Option Quat) : Res ℝ := do return (← need q).norm
/-- `conjugate` -/
def conjugate (q : Option Quat) : Res Quat := do return (← need q).conj
/-- `rectify` -/
noncomputable def rectify (q : Option Quat) : Res Quat := do return (← need q).rectify
/-- `normalize` -/
noncomputable def normalize (eps : ℝ) (q : Option Quat) : Res Quat := do (← need q).normalize eps
/-- `inverse` -/
noncomputable def inverse (eps : ℝ) (q : Option Quat) : Res Quat := do (← need q).inverse eps
/-- `operator /` -/
noncomputable def div (eps : ℝ) (q p : Option Quat) : Res Quat := do
  let p ← need p
  if p.norm < eps then .error .runtimeError
  else do
    let i ← p.inverse eps
    let q ← need q
    return q.cross i
/-- `isUnitary` -/
noncomputable def isUnitary (q : Option Quat) (tol : Option ℝ) : Res Bool := do
  let q ← need q
  let tol ← need tol
  q.isUnitary tol
/-- `rotateVector`, `operator * (Vector3d)` -/
noncomputable def rotateVector (q : Option Quat) (v : Option V3) (tol : Option ℝ) : Res V3 := do
  let v ← need v
  let q ← need q
  let tol ← need tol
  q.rotate tol v
/-- `angularDifferenceWith` -/
noncomputable def angularDifferenceWith (eps : ℝ) (q p : Option Quat) : Res Angle := do
  let q ← need q
  let a ← q.isUnitary eps
  if !a then .error .runtimeError
  else do
    let p ← need p
    q.angularDifference eps p
/-- `LERP` (`Quaternion.cpp` 687-700) -/
noncomputable def LERP (q p : Option Quat) (r : Option ℝ) : Res Quat := do
  let r ← need r
  if r < 0 ∨ 1 < r then .error .runtimeError
  else do
    let q ← need q
    let p ← need p
    Quat.LERP q p r
/-- `SLERP` (`Quaternion.cpp` 709-729) -/
noncomputable def SLERP (eps : ℝ) (q p : Option Quat) (r : Option ℝ) : Res Quat := do
  let r ← need r
  if r < 0 ∨ 1 < r then .error .runtimeError
  else do
    let q ← need q
    let p ← need p
    Quat.SLERP eps q p r
/-- `ShortestRotation` (`Quaternion.cpp` 665-685) -/
noncomputable def ShortestRotation (eps : ℝ) (u v : Option V3) : Res Quat := do
  Quat.ShortestRotation eps (← need u) (← need v)

end QuatObj

/-! ## `RotationMatrix.cpp` -/

namespace RotMat

/-- constructors (`RotationMatrix.cpp` 24-56, 58-109): the tests on the columns. An undefined matrix fails no comparison and is
accepted; the model does not have matrices with only some undefined entries. -/
noncomputable def ctor (eps : ℝ) : Option M3 → Res (Option M3)
  | none => .ok none
  | some m =>
    if m.col0.norm - 1 > eps then .error .runtimeError
    else if m.col1.norm - 1 > eps then .error .runtimeError
    else if m.col2.norm - 1 > eps then .error .runtimeError
    else if |m.col0.dot m.col1| > eps then .error .runtimeError
    else if |m.col1.dot m.col2| > eps then .error .runtimeError
    else if |m.col2.dot m.col0| > eps then .error .runtimeError
    else .ok (some m)

/-- the same for a defined matrix -/
noncomputable def mk (eps : ℝ) (m : M3) : Res M3 := do need (← ctor eps (some m))

/-- `operator ==` (`RotationMatrix.cpp` 111-119) -/
noncomputable def eq (a b : Option M3) : Bool :=
  match a, b with
  | some a, some b => decide (a.m00 = b.m00 ∧ a.m01 = b.m01 ∧ a.m02 = b.m02 ∧ a.m10 = b.m10 ∧ a.m11 = b.m11 ∧ a.m12 = b.m12 ∧
      a.m20 = b.m20 ∧ a.m21 = b.m21 ∧ a.m22 = b.m22)
  | _, _ => false

/-- `operator * (RotationMatrix)` (`RotationMatrix.cpp` 126-134) -/
noncomputable def mul (eps : ℝ) (a b : Option M3) : Res M3 := do
  let a ← need a
  let b ← need b
  mk eps (a.mul b)

/-- `operator * (Vector3d)` (`RotationMatrix.cpp` 136-149) -/
def mulVec (a : Option M3) (v : Option V3) : Res V3 := do
  let v ← need v
  let a ← need a
  return a.mulVec v

/-- Eigen's `matrix (i, j)`: an index of 3 or more is undefined behaviour (asserted only in debug builds) -/
def entry (a : M3) (i j : ℕ) : Res ℝ :=
  match i, j with
  | 0, 0 => .ok a.m00 | 0, 1 => .ok a.m01 | 0, 2 => .ok a.m02
  | 1, 0 => .ok a.m10 | 1, 1 => .ok a.m11 | 1, 2 => .ok a.m12
  | 2, 0 => .ok a.m20 | 2, 1 => .ok a.m21 | 2, 2 => .ok a.m22
  | _, _ => .error .ub

/-- `operator ()`, both overloads (`RotationMatrix.cpp` 151-169, 171-189) -/
def at_ (a : Option M3) (i j : ℕ) : Res ℝ :=
  if i > 3 then .error .runtimeError
  else if j > 3 then .error .runtimeError
  else do
    let a ← need a
    entry a i j

/-- The non-const `operator ()` (`RotationMatrix.cpp` 171-189) returns a reference: writing through it replaces the entry, without
any test. -/
def setAt (a : Option M3) (i j : ℕ) (v : ℝ) : Res M3 :=
  if i > 3 then .error .runtimeError
  else if j > 3 then .error .runtimeError
  else do
    let a ← need a
    match i, j with
    | 0, 0 => .ok { a with m00 := v } | 0, 1 => .ok { a with m01 := v } | 0, 2 => .ok { a with m02 := v }
    | 1, 0 => .ok { a with m10 := v } | 1, 1 => .ok { a with m11 := v } | 1, 2 => .ok { a with m12 := v }
    | 2, 0 => .ok { a with m20 := v } | 2, 1 => .ok { a with m21 := v } | 2, 2 => .ok { a with m22 := v }
    | _, _ => .error .ub

/-- `getRowAt` (`RotationMatrix.cpp` 222-235) -/
def getRowAt (a : Option M3) (i : ℕ) : Res V3 :=
  if i ≥ 3 then .error .runtimeError
  else do
    let a ← need a
    match i with
    | 0 => .ok a.row0 | 1 => .ok a.row1 | 2 => .ok a.row2
    | _ => .error .ub

/-- `getColumnAt` (`RotationMatrix.cpp` 237-250) -/
def getColumnAt (a : Option M3) (i : ℕ) : Res V3 :=
  if i ≥ 3 then .error .runtimeError
  else do
    let a ← need a
    match i with
    | 0 => .ok a.col0 | 1 => .ok a.col1 | 2 => .ok a.col2
    | _ => .error .ub

/-- `toTransposed` (`RotationMatrix.cpp` 262-270) -/
noncomputable def toTransposed (eps : ℝ) (a : Option M3) : Res M3 := do
  let a ← need a
  mk eps a.transpose

/-- `transpose` (`RotationMatrix.cpp` 272-283), without the test of the constructor -/
def transpose (a : Option M3) : Res M3 := do
  let a ← need a
  return a.transpose

/-- `Unit` (`RotationMatrix.cpp` 290-293) -/
noncomputable def Unit (eps : ℝ) : Res M3 := mk eps M3.one

/-- the matrix of `RX` (`RotationMatrix.cpp` 306-307) -/
noncomputable def rx (t : ℝ) : M3 := ⟨1, 0, 0, 0, Real.cos t, Real.sin t, 0, -Real.sin t, Real.cos t⟩
/-- the matrix of `RY` (`RotationMatrix.cpp` 323-324) -/
noncomputable def ry (t : ℝ) : M3 := ⟨Real.cos t, 0, -Real.sin t, 0, 1, 0, Real.sin t, 0, Real.cos t⟩
/-- the matrix of `RZ` (`RotationMatrix.cpp` 340-341) -/
noncomputable def rz (t : ℝ) : M3 := ⟨Real.cos t, Real.sin t, 0, -Real.sin t, Real.cos t, 0, 0, 0, 1⟩

/-- `RX` (`RotationMatrix.cpp` 295-310) -/
noncomputable def RX (eps : ℝ) (a : Angle) : Res M3 := do
  let t ← a.inUnit .radian
  mk eps (rx t)
/-- `RY` (`RotationMatrix.cpp` 312-327) -/
noncomputable def RY (eps : ℝ) (a : Angle) : Res M3 := do
  let t ← a.inUnit .radian
  mk eps (ry t)
/-- `RZ` (`RotationMatrix.cpp` 329-344) -/
noncomputable def RZ (eps : ℝ) (a : Angle) : Res M3 := do
  let t ← a.inUnit .radian
  mk eps (rz t)

/-- the tests of `Rows` and `Columns` on their three vectors (`RotationMatrix.cpp` 363-391, 420-448) -/
noncomputable def checkTriple (eps : ℝ) (u v w : V3) : Res PUnit :=
  if u.norm - 1 > eps then .error .runtimeError
  else if v.norm - 1 > eps then .error .runtimeError
  else if w.norm - 1 > eps then .error .runtimeError
  else if |u.dot v| > eps then .error .runtimeError
  else if |v.dot w| > eps then .error .runtimeError
  else if |w.dot u| > eps then .error .runtimeError
  else .ok ⟨⟩

/-- `Rows` (`RotationMatrix.cpp` 346-399) -/
noncomputable def Rows (eps : ℝ) (u v w : Option V3) : Res M3 := do
  let u ← need u
  let v ← need v
  let w ← need w
  checkTriple eps u v w
  mk eps (M3.rows u v w)

/-- `Columns` (`RotationMatrix.cpp` 401-456) -/
noncomputable def Columns (eps : ℝ) (u v w : Option V3) : Res M3 := do
  let u ← need u
  let v ← need v
  let w ← need w
  checkTriple eps u v w
  mk eps ⟨u.x, v.x, w.x, u.y, v.y, w.y, u.z, v.z, w.z⟩

/-- the matrix written in `RotationMatrix::Quaternion` (`RotationMatrix.cpp` 475-494) -/
def ofQuat (q : Quat) : M3 where
  m00 := q.x * q.x - q.y * q.y - q.z * q.z + q.s * q.s
  m01 := 2 * (q.x * q.y + q.z * q.s)
  m02 := 2 * (q.x * q.z - q.y * q.s)
  m10 := 2 * (q.y * q.x - q.z * q.s)
  m11 := -q.x * q.x + q.y * q.y - q.z * q.z + q.s * q.s
  m12 := 2 * (q.y * q.z + q.x * q.s)
  m20 := 2 * (q.z * q.x + q.y * q.s)
  m21 := 2 * (q.z * q.y - q.x * q.s)
  m22 := -q.x * q.x - q.y * q.y + q.z * q.z + q.s * q.s

/-- `RotationMatrix::Quaternion` (`RotationMatrix.cpp` 458-497) -/
noncomputable def Quaternion (eps : ℝ) (q : Option Quat) : Res M3 := do
  let q ← need q
  let u ← q.isUnitary eps
  if !u then .error .runtimeError
  else if q.beq Quat.Unit then Unit eps
  else mk eps (ofQuat q)

end RotMat

/-! ## `RotationVector.cpp` -/

/-- `RotationVector` (`RotationVector.hpp`, members `axis_`, `angle_`) -/
structure RotVec where
  axis : Option V3
  angle : Angle

namespace RotVec

/-- constructor from an axis and an angle (`RotationVector.cpp` 24-32) -/
noncomputable def mk1 (eps : ℝ) (axis : Option V3) (angle : Angle) : Res RotVec :=
  match axis with
  | none => .ok ⟨none, angle⟩
  | some a => if |a.norm - 1| > eps then .error .runtimeError else .ok ⟨some a.normalized, angle⟩

open Classical in
/-- constructor from a vector and a unit (`RotationVector.cpp` 34-42). The norm of an undefined vector is undefined. -/
noncomputable def mk2 (v : Option V3) (u : AUnit) : RotVec :=
  match v with
  | none => ⟨none, ⟨none, u⟩⟩
  | some v => if v.normalized = 0 then ⟨some V3.Z, ⟨some v.norm, u⟩⟩ else ⟨some v.normalized, ⟨some v.norm, u⟩⟩

/-- `isDefined` (`RotationVector.cpp` 79-82) -/
def isDefined (r : RotVec) : Bool := r.axis.isSome && r.angle.isDefined

open Classical in
/-- `operator ==` (`RotationVector.cpp` 44-58) -/
noncomputable def eq (r t : RotVec) : Res Bool :=
  match r.isDefined, t.isDefined, r.axis, t.axis with
  | true, true, some a, some b => do
    let z ← r.angle.isZero
    let z' ← t.angle.isZero
    if z && z' then pure true
    else do
      let e ← r.angle.eq t.angle
      let n ← t.angle.neg
      let e' ← r.angle.eq n
      pure ((decide (a = b) && e) || (decide (a = -b) && e'))
  | _, _, _, _ => pure false

/-- the second half of `rectify` (`RotationVector.cpp` 117-121) -/
noncomputable def rectify2 (r : RotVec) : Res RotVec := do
  let t ← r.angle.inUnit .radian
  let p ← Angle.Pi.inUnit .radian
  if t > p then do
    let a ← Angle.TwoPi.sub r.angle
    pure ⟨r.axis.map (- ·), a⟩
  else pure r

/-- `rectify` (`RotationVector.cpp` 104-124) -/
noncomputable def rectify (r : RotVec) : Res RotVec :=
  if !r.isDefined then .error .undefined
  else do
    let n ← r.angle.isNegative
    if n then do
      let a ← r.angle.neg
      rectify2 ⟨r.axis.map (- ·), a⟩
    else rectify2 r

/-- `Unit` (`RotationVector.cpp` 143-146) -/
noncomputable def Unit (eps : ℝ) : Res RotVec := mk1 eps (some V3.Z) Angle.Zero

/-- `RotationVector::Quaternion` (`RotationVector.cpp` 178-199) -/
noncomputable def Quaternion (eps : ℝ) (q : Option Quat) : Res RotVec := do
  let q ← need q
  let u ← q.isUnitary eps
  if !u then .error .runtimeError
  else if q.beq Quat.Unit || decide (|q.s| = 1) then Unit eps
  else mk1 eps (some ((1 / √ (1 - q.s * q.s)) • q.vec).normalized) ⟨some (2 * Real.arccos q.s), .radian⟩

/-- `RotationVector::RotationMatrix` (`RotationVector.cpp` 201-223) -/
noncomputable def RotationMatrix (eps : ℝ) (m : Option M3) : Res RotVec := do
  let m ← need m
  let t := Real.arccos ((m.trace - 1) / 2)
  if |t| < eps then mk1 eps (some V3.X) ⟨some t, .radian⟩
  else mk1 eps (some (⟨m.m12 - m.m21, m.m20 - m.m02, m.m01 - m.m10⟩ : V3).normalized) ⟨some t, .radian⟩

end RotVec

/-! ## `EulerAngle.cpp` -/

/-- `EulerAngle::AxisSequence` (`EulerAngle.hpp` 52-60) -/
inductive AxisSequence where
  | undefined | xyz | zxy | zyx
  deriving DecidableEq, Repr

/-- `EulerAngle` (`EulerAngle.hpp`, members `phi_`, `theta_`, `psi_`, `axisSequence_`) -/
structure Euler where
  phi : Angle
  theta : Angle
  psi : Angle
  sequence : AxisSequence

namespace Euler

/-- `isDefined` (`EulerAngle.cpp` 99-103) -/
def isDefined (e : Euler) : Bool :=
  e.phi.isDefined && e.theta.isDefined && e.psi.isDefined && decide (e.sequence ≠ .undefined)

/-- the test of the third pair of angles in `==` (`EulerAngle.cpp` 59, 65-66): `&&` evaluates from left to right -/
noncomputable def eq3 (a b c : Res Bool) : Res Bool := do
  if ← a then
    if ← b then c else pure false
  else pure false

/-- the second comparison of `==` (`EulerAngle.cpp` 64-71) -/
noncomputable def eqShifted (e f : Euler) : Res Bool :=
  eq3 (do (← e.phi.add Angle.Pi).eq f.phi) (do (← Angle.Pi.sub e.theta).eq f.theta) (do (← e.psi.add Angle.Pi).eq f.psi)

/-- `operator ==` (`EulerAngle.cpp` 47-72) -/
noncomputable def eq (e f : Euler) : Res Bool :=
  if !e.isDefined || !f.isDefined then pure false
  else if e.sequence ≠ f.sequence then pure false
  else do
    let r ← eq3 (e.phi.eq f.phi) (e.theta.eq f.theta) (e.psi.eq f.psi)
    if r then pure true else eqShifted e f

/-- the adjustment before the return in `EulerAngle::Quaternion` and `EulerAngle::RotationMatrix`
(`EulerAngle.cpp` 244-252, 305-313); the returned sequence is always `ZYX` -/
noncomputable def adjusted (phi theta psi : ℝ) : Euler :=
  if phi < 0 then ⟨⟨some (phi + Real.pi), .radian⟩, ⟨some (Real.pi - theta), .radian⟩, ⟨some (psi + Real.pi), .radian⟩, .zyx⟩
  else ⟨⟨some phi, .radian⟩, ⟨some theta, .radian⟩, ⟨some psi, .radian⟩, .zyx⟩

/-- `EulerAngle::RotationMatrix` (`EulerAngle.cpp` 262-314) -/
noncomputable def RotationMatrix (m : Option M3) (sq : AxisSequence) : Res Euler := do
  let m ← need m
  match sq with
  | .xyz => pure (adjusted (atan2 (-m.m21) m.m22) (Real.arcsin m.m20) (atan2 (-m.m10) m.m00))
  | .zxy => pure (adjusted (atan2 (-m.m10) m.m11) (Real.arcsin m.m12) (atan2 (-m.m02) m.m22))
  | .zyx => pure (adjusted (atan2 m.m01 m.m00) (Real.arcsin (-m.m02)) (atan2 m.m12 m.m22))
  | .undefined => .error .toBeImplemented

/-- `EulerAngle::Quaternion` (`EulerAngle.cpp` 206-253) -/
noncomputable def Quaternion (eps : ℝ) (q : Option Quat) (sq : AxisSequence) : Res Euler := do
  let q ← need q
  let u ← q.isUnitary eps
  if !u then .error .runtimeError
  else match sq with
  | .zyx => pure (adjusted
      (atan2 (2 * (q.x * q.y + q.s * q.z)) (q.s * q.s - q.z * q.z - q.y * q.y + q.x * q.x))
      (Real.arcsin (-2 * (q.x * q.z - q.y * q.s)))
      (atan2 (2 * (q.y * q.z + q.x * q.s)) (q.s * q.s + q.z * q.z - q.y * q.y - q.x * q.x)))
  | sq => do
    let m ← RotMat.Quaternion eps (some q)
    RotationMatrix (some m) sq

end Euler

/-! ## Conversions that need all the types -/

namespace RotMat

/-- the matrix written in `RotationMatrix::RotationVector` (`RotationMatrix.cpp` 509-528) -/
noncomputable def ofAxis (a : V3) (t : ℝ) : M3 where
  m00 := Real.cos t + (1 - Real.cos t) * a.x * a.x
  m01 := (1 - Real.cos t) * a.x * a.y + Real.sin t * a.z
  m02 := (1 - Real.cos t) * a.x * a.z - Real.sin t * a.y
  m10 := (1 - Real.cos t) * a.y * a.x - Real.sin t * a.z
  m11 := Real.cos t + (1 - Real.cos t) * a.y * a.y
  m12 := (1 - Real.cos t) * a.y * a.z + Real.sin t * a.x
  m20 := (1 - Real.cos t) * a.z * a.x + Real.sin t * a.y
  m21 := (1 - Real.cos t) * a.z * a.y - Real.sin t * a.x
  m22 := Real.cos t + (1 - Real.cos t) * a.z * a.z

/-- `RotationMatrix::RotationVector` (`RotationMatrix.cpp` 499-531) -/
noncomputable def RotationVector (eps : ℝ) (r : RotVec) : Res M3 := do
  let a ← need r.axis
  let t ← r.angle.inUnit .radian
  mk eps (ofAxis a t)

/-- `RotationMatrix::EulerAngle` (`RotationMatrix.cpp` 533-563) -/
noncomputable def EulerAngle (eps : ℝ) (e : Euler) : Res M3 :=
  if !e.isDefined then .error .undefined
  else match e.sequence with
  | .xyz => do mul eps (some (← mul eps (some (← RX eps e.phi)) (some (← RY eps e.theta)))) (some (← RZ eps e.psi))
  | .zxy => do mul eps (some (← mul eps (some (← RX eps e.psi)) (some (← RY eps e.phi)))) (some (← RZ eps e.theta))
  | .zyx => do mul eps (some (← mul eps (some (← RX eps e.psi)) (some (← RY eps e.theta)))) (some (← RZ eps e.phi))
  | .undefined => .error .toBeImplemented

/-- the basis matrix of a pair in `VectorBasis` (`RotationMatrix.cpp` 630-640), for normalized vectors -/
noncomputable def basis (u v : V3) : M3 :=
  M3.rows u ((u.cross v).normalized.cross u) (u.cross v).normalized

/-- `VectorBasis` (`RotationMatrix.cpp` 565-643) -/
noncomputable def VectorBasis (eps : ℝ) (s1 s2 d1 d2 : Option V3) : Res M3 := do
  let s1 ← need s1
  let s2 ← need s2
  let d1 ← need d1
  let d2 ← need d2
  if s1.norm < eps ∨ s2.norm < eps ∨ d1.norm < eps ∨ d2.norm < eps then .error .runtimeError
  else if |(|s1.normalized.dot s2.normalized|) - 1| < eps then .error .runtimeError
  else if |(|d1.normalized.dot d2.normalized|) - 1| < eps then .error .runtimeError
  else mk eps ((basis d1.normalized d2.normalized).transpose.mul (basis s1.normalized s2.normalized))

end RotMat

namespace Quat

/-- `Quaternion::RotationVector` (`Quaternion.cpp` 510-520) -/
noncomputable def RotationVector (eps : ℝ) (r : RotVec) : Res Quat := do
  let a ← need r.axis
  let t ← r.angle.inUnit .radian
  (mk' (Real.sin (t / 2) • a) (Real.cos (t / 2))).normalize eps

/-- `Quaternion::RotationMatrix` (`Quaternion.cpp` 522-584) -/
noncomputable def RotationMatrix (eps : ℝ) (m : Option M3) : Res Quat := do
  let m ← need m
  if m.trace ≥ m.m00 ∧ m.trace ≥ m.m11 ∧ m.trace ≥ m.m22 then
    (⟨m.m12 - m.m21, m.m20 - m.m02, m.m01 - m.m10, 1 + m.trace⟩ : Quat).normalize eps
  else if m.m00 ≥ m.trace ∧ m.m00 ≥ m.m11 ∧ m.m00 ≥ m.m22 then
    (⟨1 + 2 * m.m00 - m.trace, m.m01 + m.m10, m.m02 + m.m20, m.m12 - m.m21⟩ : Quat).normalize eps
  else if m.m11 ≥ m.m00 ∧ m.m11 ≥ m.trace ∧ m.m11 ≥ m.m22 then
    (⟨m.m10 + m.m01, 1 + 2 * m.m11 - m.trace, m.m12 + m.m21, m.m20 - m.m02⟩ : Quat).normalize eps
  else if m.m22 ≥ m.m00 ∧ m.m22 ≥ m.m11 ∧ m.m22 ≥ m.trace then
    (⟨m.m20 + m.m02, m.m21 + m.m12, 1 + 2 * m.m22 - m.trace, m.m01 - m.m10⟩ : Quat).normalize eps
  else .error .runtimeError

/-- `Quaternion::EulerAngle` (`Quaternion.cpp` 586-644) -/
noncomputable def EulerAngle (eps : ℝ) (e : Euler) : Res Quat :=
  if !e.isDefined then .error .undefined
  else do
    let phi ← e.phi.inUnit .radian
    let theta ← e.theta.inUnit .radian
    let psi ← e.psi.inUnit .radian
    let c1 := Real.cos (phi / 2)
    let c2 := Real.cos (theta / 2)
    let c3 := Real.cos (psi / 2)
    let s1 := Real.sin (phi / 2)
    let s2 := Real.sin (theta / 2)
    let s3 := Real.sin (psi / 2)
    match e.sequence with
    | .xyz => (⟨s1 * c2 * c3 + c1 * s2 * s3, c1 * s2 * c3 - s1 * c2 * s3, c1 * c2 * s3 + s1 * s2 * c3,
        c1 * c2 * c3 - s1 * s2 * s3⟩ : Quat).normalize eps
    | .zxy => (⟨c1 * s2 * c3 - s1 * c2 * s3, c1 * c2 * s3 + s1 * s2 * c3, c1 * s2 * s3 + s1 * c2 * c3,
        c1 * c2 * c3 - s1 * s2 * s3⟩ : Quat).normalize eps
    | .zyx => (⟨c1 * c2 * s3 - s1 * s2 * c3, c1 * s2 * c3 + s1 * c2 * s3, s1 * c2 * c3 - c1 * s2 * s3,
        c1 * c2 * c3 + s1 * s2 * s3⟩ : Quat).normalize eps
    | .undefined => .error .toBeImplemented

end Quat

/-- `RotationVector::EulerAngle` (`RotationVector.cpp` 225-228) -/
noncomputable def RotVec.EulerAngle (eps : ℝ) (e : Euler) : Res RotVec := do
  let q ← Quat.EulerAngle eps e
  RotVec.Quaternion eps (some q)

end Verif
