import Mathlib.Analysis.Real.Sqrt

/-!
# Vectors

`Vector2d` and `Vector3d` of Eigen with exact real coordinates. Only the operations used by the modelled code are
defined. A vector with a NaN coordinate ("undefined", `include/OpenSpaceToolkit/Mathematics/Object/Vector.hpp`,
`Eigen.hpp` 18-30) is modelled as `none : Option V2`/`Option V3` where the code tests for it.
-/

namespace Verif

/-- `Vector2d` -/
@[ext] structure V2 where
  x : ℝ
  y : ℝ

/-- `Vector3d` -/
@[ext] structure V3 where
  x : ℝ
  y : ℝ
  z : ℝ

namespace V2

instance : Zero V2 := ⟨⟨0, 0⟩⟩
instance : Add V2 := ⟨fun u v => ⟨u.x + v.x, u.y + v.y⟩⟩
instance : Neg V2 := ⟨fun u => ⟨-u.x, -u.y⟩⟩
instance : Sub V2 := ⟨fun u v => ⟨u.x - v.x, u.y - v.y⟩⟩
instance : SMul ℝ V2 := ⟨fun k u => ⟨k * u.x, k * u.y⟩⟩

@[simp] theorem zero_x : (0 : V2).x = 0 := rfl
@[simp] theorem zero_y : (0 : V2).y = 0 := rfl
@[simp] theorem add_x (u v : V2) : (u + v).x = u.x + v.x := rfl
@[simp] theorem add_y (u v : V2) : (u + v).y = u.y + v.y := rfl
@[simp] theorem neg_x (u : V2) : (-u).x = -u.x := rfl
@[simp] theorem neg_y (u : V2) : (-u).y = -u.y := rfl
@[simp] theorem sub_x (u v : V2) : (u - v).x = u.x - v.x := rfl
@[simp] theorem sub_y (u v : V2) : (u - v).y = u.y - v.y := rfl
@[simp] theorem smul_x (k : ℝ) (u : V2) : (k • u).x = k * u.x := rfl
@[simp] theorem smul_y (k : ℝ) (u : V2) : (k • u).y = k * u.y := rfl

/-- Eigen `dot` -/
def dot (u v : V2) : ℝ := u.x * v.x + u.y * v.y
/-- Eigen `squaredNorm` -/
def normSq (u : V2) : ℝ := u.dot u
/-- Eigen `norm` -/
noncomputable def norm (u : V2) : ℝ := √ u.normSq
/-- Eigen `normalized`: the vector itself if its squared norm is not positive -/
noncomputable def normalized (u : V2) : V2 := if 0 < u.normSq then (1 / u.norm) • u else u

end V2

namespace V3

instance : Zero V3 := ⟨⟨0, 0, 0⟩⟩
instance : Add V3 := ⟨fun u v => ⟨u.x + v.x, u.y + v.y, u.z + v.z⟩⟩
instance : Neg V3 := ⟨fun u => ⟨-u.x, -u.y, -u.z⟩⟩
instance : Sub V3 := ⟨fun u v => ⟨u.x - v.x, u.y - v.y, u.z - v.z⟩⟩
instance : SMul ℝ V3 := ⟨fun k u => ⟨k * u.x, k * u.y, k * u.z⟩⟩

@[simp] theorem zero_x : (0 : V3).x = 0 := rfl
@[simp] theorem zero_y : (0 : V3).y = 0 := rfl
@[simp] theorem zero_z : (0 : V3).z = 0 := rfl
@[simp] theorem add_x (u v : V3) : (u + v).x = u.x + v.x := rfl
@[simp] theorem add_y (u v : V3) : (u + v).y = u.y + v.y := rfl
@[simp] theorem add_z (u v : V3) : (u + v).z = u.z + v.z := rfl
@[simp] theorem neg_x (u : V3) : (-u).x = -u.x := rfl
@[simp] theorem neg_y (u : V3) : (-u).y = -u.y := rfl
@[simp] theorem neg_z (u : V3) : (-u).z = -u.z := rfl
@[simp] theorem sub_x (u v : V3) : (u - v).x = u.x - v.x := rfl
@[simp] theorem sub_y (u v : V3) : (u - v).y = u.y - v.y := rfl
@[simp] theorem sub_z (u v : V3) : (u - v).z = u.z - v.z := rfl
@[simp] theorem smul_x (k : ℝ) (u : V3) : (k • u).x = k * u.x := rfl
@[simp] theorem smul_y (k : ℝ) (u : V3) : (k • u).y = k * u.y := rfl
@[simp] theorem smul_z (k : ℝ) (u : V3) : (k • u).z = k * u.z := rfl

/-- Eigen `dot` -/
def dot (u v : V3) : ℝ := u.x * v.x + u.y * v.y + u.z * v.z
/-- Eigen `cross` -/
def cross (u v : V3) : V3 := ⟨u.y * v.z - u.z * v.y, u.z * v.x - u.x * v.z, u.x * v.y - u.y * v.x⟩
/-- Eigen `squaredNorm` -/
def normSq (u : V3) : ℝ := u.dot u
/-- Eigen `norm` -/
noncomputable def norm (u : V3) : ℝ := √ u.normSq
/-- Eigen `normalized`: the vector itself if its squared norm is not positive -/
noncomputable def normalized (u : V3) : V3 := if 0 < u.normSq then (1 / u.norm) • u else u

@[simp] theorem cross_x (u v : V3) : (u.cross v).x = u.y * v.z - u.z * v.y := rfl
@[simp] theorem cross_y (u v : V3) : (u.cross v).y = u.z * v.x - u.x * v.z := rfl
@[simp] theorem cross_z (u v : V3) : (u.cross v).z = u.x * v.y - u.y * v.x := rfl

end V3

end Verif
