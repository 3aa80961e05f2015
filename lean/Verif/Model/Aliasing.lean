import Verif.Model.InPlace
import Verif.Model.Rotation

/-!
# Operations in place, when both sides may be the same variable

Source: `src/OpenSpaceToolkit/Mathematics/Geometry/3D/Transformation/Rotation/Quaternion.cpp` and `src/OpenSpaceToolkit/Mathematics/Geometry/3D/Transformation.cpp`.

The operators `+=`, `*=`, `/=` and the functions `normalize`, `conjugate`, `inverse`, `rectify` change the members of the receiver one after the other and read the
members of the argument through a reference, which may be a reference to the receiver. Here memory is a map from variables and members to numbers, and every
statement of the code reads memory as the statements before it left it. The functions test their operands
first, so that no arithmetic on undefined members is reached; `read` throws for one. The variable `none` is the temporary
of an expression such as `aQuaternion.toInverse()`.
-/

namespace Verif

open Doing

namespace QMem

/-- the members of a quaternion -/
inductive Member
  | x | y | z | s
deriving DecidableEq

/-- memory that holds quaternions -/
abbrev Mem := Option ℕ → Member → Option ℝ

/-- `isDefined` (`Quaternion.cpp` 164-167) -/
def isDefined (m : Mem) (v : Option ℕ) : Bool := (m v .x).isSome && (m v .y).isSome && (m v .z).isSome && (m v .s).isSome

/-- a number is read -/
def read (v : Option ℕ) (k : Member) : Doing Mem ℝ := do eval (need ((← get) v k))

/-- a member is assigned -/
def write (v : Option ℕ) (k : Member) (r : ℝ) : Doing Mem PUnit := modify fun m w l => if w = v ∧ l = k then some r else m w l

/-- the copy of a quaternion, member by member -/
def copy (v w : Option ℕ) : Doing Mem PUnit := modify fun m a l => if a = v then m w l else m a l

/-- `(*this) = q`, member by member -/
def assign (v : Option ℕ) (q : Quat) : Doing Mem PUnit := do
  write v .x q.x
  write v .y q.y
  write v .z q.z
  write v .s q.s

/-- `norm` (`Quaternion.cpp` 312-320) -/
noncomputable def norm (v : Option ℕ) : Doing Mem ℝ := do
  if !isDefined (← get) v then throw .undefined
  let x ← read v .x
  let y ← read v .y
  let z ← read v .z
  let s ← read v .s
  return √ (x * x + y * y + z * z + s * s)

/-- `getVectorPart` (`Quaternion.cpp` 235-243) -/
def getVectorPart (v : Option ℕ) : Doing Mem V3 := do
  if !isDefined (← get) v then throw .undefined
  let x ← read v .x
  let y ← read v .y
  let z ← read v .z
  return ⟨x, y, z⟩

/-- `crossMultiply` (`Quaternion.cpp` 322-335) -/
def crossMultiply (v w : Option ℕ) : Doing Mem Quat := do
  let lv ← getVectorPart v
  let rv ← getVectorPart w
  let ls ← read v .s
  let rs ← read w .s
  return Quat.mk' (rs • lv + ls • rv - lv.cross rv) (ls * rs - lv.dot rv)

/-- `operator +=` (`Quaternion.cpp` 112-125) -/
def addAssign (v w : Option ℕ) : Doing Mem PUnit := do
  if !isDefined (← get) v || !isDefined (← get) w then throw .undefined
  write v .x ((← read v .x) + (← read w .x))
  write v .y ((← read v .y) + (← read w .y))
  write v .z ((← read v .z) + (← read w .z))
  write v .s ((← read v .s) + (← read w .s))

/-- `operator *=` (`Quaternion.cpp` 127-132) -/
def mulAssign (v w : Option ℕ) : Doing Mem PUnit := do
  assign v (← crossMultiply v w)

/-- `normalize` (`Quaternion.cpp` 410-425) -/
noncomputable def normalize (eps : ℝ) (v : Option ℕ) : Doing Mem PUnit := do
  let n ← norm v
  if |n| < eps then throw .runtimeError
  write v .x ((← read v .x) / n)
  write v .y ((← read v .y) / n)
  write v .z ((← read v .z) / n)
  write v .s ((← read v .s) / n)

/-- `conjugate` (`Quaternion.cpp` 427-439) -/
def conjugate (v : Option ℕ) : Doing Mem PUnit := do
  if !isDefined (← get) v then throw .undefined
  write v .x (-(← read v .x))
  write v .y (-(← read v .y))
  write v .z (-(← read v .z))

/-- `inverse` (`Quaternion.cpp` 441-461) -/
noncomputable def inverse (eps : ℝ) (v : Option ℕ) : Doing Mem PUnit := do
  if !isDefined (← get) v then throw .undefined
  let x ← read v .x
  let y ← read v .y
  let z ← read v .z
  let s ← read v .s
  let r := x * x + y * y + z * z + s * s
  if |r| < eps then throw .runtimeError
  write v .x (-(← read v .x) / r)
  write v .y (-(← read v .y) / r)
  write v .z (-(← read v .z) / r)
  write v .s ((← read v .s) / r)

/-- `rectify` (`Quaternion.cpp` 463-479) -/
noncomputable def rectify (v : Option ℕ) : Doing Mem PUnit := do
  if !isDefined (← get) v then throw .undefined
  if (← read v .s) < 0 then
    write v .x (-(← read v .x))
    write v .y (-(← read v .y))
    write v .z (-(← read v .z))
    write v .s (-(← read v .s))

/-- `operator /=` (`Quaternion.cpp` 134-144) with `toInverse` (265-268), which copies its quaternion into a temporary and inverts that -/
noncomputable def divAssign (eps : ℝ) (v w : Option ℕ) : Doing Mem PUnit := do
  let n ← norm w
  if n < eps then throw .runtimeError
  copy none w
  inverse eps none
  assign v (← crossMultiply v none)

/-- statements on variables that hold quaternions -/
inductive Stmt
  | set (v : ℕ) (q : Option Quat)
  | copy (v w : ℕ)
  | plus (v w : ℕ)
  | times (v w : ℕ)
  | over (v w : ℕ)
  | normalize (v : ℕ)
  | conjugate (v : ℕ)
  | inverse (v : ℕ)
  | rectify (v : ℕ)

/-- what a statement does -/
noncomputable def exec (eps : ℝ) : Stmt → Doing Mem PUnit
  | .set v (some q) => assign (some v) q
  | .set v none => modify fun m w l => if w = some v then none else m w l
  | .copy v w => copy (some v) (some w)
  | .plus v w => addAssign (some v) (some w)
  | .times v w => mulAssign (some v) (some w)
  | .over v w => divAssign eps (some v) (some w)
  | .normalize v => normalize eps (some v)
  | .conjugate v => conjugate (some v)
  | .inverse v => inverse eps (some v)
  | .rectify v => rectify (some v)

/-- a program stops at the first exception -/
noncomputable def run (eps : ℝ) : List Stmt → Doing Mem PUnit
  | [] => pure ()
  | a :: as => do
    exec eps a
    run eps as

end QMem

namespace TMem

/-- memory that holds transformations -/
abbrev Mem := ℕ → T3

/-- `operator *=` (`3D/Transformation.cpp` 66-162) -/
noncomputable def mulAssign (v w : ℕ) : Doing Mem PUnit := do
  if !((← get) w).isDefined then throw .undefined
  if !((← get) v).isDefined then throw .undefined
  let type := ((← get) v).type.compose ((← get) w).type
  modify fun m => Function.update m v { m v with type := type }
  let matrix := Option.map₂ (· * ·) ((← get) v).matrix ((← get) w).matrix
  modify fun m => Function.update m v { m v with matrix := matrix }
  let rigid := ((← get) v).rigid && ((← get) w).rigid
  modify fun m => Function.update m v { m v with rigid := rigid }

/-- a program of assignments `v *= w` stops at the first exception -/
noncomputable def run : List (ℕ × ℕ) → Doing Mem PUnit
  | [] => pure ()
  | a :: as => do
    mulAssign a.1 a.2
    run as

end TMem

end Verif
