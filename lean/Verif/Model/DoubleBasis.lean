import Verif.Model.DoubleMatrix

/-!
# Rotation matrices made from vectors in double precision

Source: `src/OpenSpaceToolkit/Mathematics/Geometry/3D/Transformation/Rotation/RotationMatrix.cpp`, with the arithmetic of `Model/Double.lean` over the real numbers. As in
`Model/DoubleMatrix.lean`, `o` tells in which of its two orders Eigen adds the three terms of a dot product or of a coefficient of a product. A coefficient that is not
defined is `nan`.
-/

namespace Verif

namespace DRot

/-- the tests on three rows or columns (`RotationMatrix.cpp` 348-391, 405-448): all defined, none longer than one, each two perpendicular -/
noncomputable def checked (o : Bool) (eps : F64 ℝ) (a b c : DVec) : Res PUnit :=
  if !a.isDefined then .error .undefined
  else if !b.isDefined then .error .undefined
  else if !c.isDefined then .error .undefined
  else if eps.lt ((a.norm o).sub (.fin 1)) then .error .runtimeError
  else if eps.lt ((b.norm o).sub (.fin 1)) then .error .runtimeError
  else if eps.lt ((c.norm o).sub (.fin 1)) then .error .runtimeError
  else if eps.lt (a.dot o b).abs then .error .runtimeError
  else if eps.lt (b.dot o c).abs then .error .runtimeError
  else if eps.lt (c.dot o a).abs then .error .runtimeError
  else .ok ⟨⟩

/-- `matrix << a, b, c` with the vectors as rows -/
def rows (a b c : DVec) : Fin 3 → Fin 3 → F64 ℝ := ![![a.x, a.y, a.z], ![b.x, b.y, b.z], ![c.x, c.y, c.z]]

/-- `Rows` (`RotationMatrix.cpp` 346-399) -/
noncomputable def Rows (o : Bool) (eps : F64 ℝ) (a b c : DVec) : Res (Fin 3 → Fin 3 → F64 ℝ) := do
  checked o eps a b c
  ctor o eps (rows a b c)

/-- `Columns` (`RotationMatrix.cpp` 401-456) -/
noncomputable def Columns (o : Bool) (eps : F64 ℝ) (a b c : DVec) : Res (Fin 3 → Fin 3 → F64 ℝ) := do
  checked o eps a b c
  ctor o eps ![![a.x, b.x, c.x], ![a.y, b.y, c.y], ![a.z, b.z, c.z]]

/-- the rows of `sourceMatrix` and of `destinationMatrix` in `VectorBasis` (`RotationMatrix.cpp` 630-640), for vectors already normalized -/
noncomputable def basis (o : Bool) (a b : DVec) : Fin 3 → Fin 3 → F64 ℝ :=
  let n := (a.cross b).normalized o
  rows a (n.cross a) n

/-- the test that two vectors are parallel or opposite (`RotationMatrix.cpp` 617, 625), for vectors already normalized -/
noncomputable def parallel (o : Bool) (eps : F64 ℝ) (a b : DVec) : Bool := ((a.dot o b).abs.sub (.fin 1)).abs.lt eps

/-- `VectorBasis` (`RotationMatrix.cpp` 565-643) -/
noncomputable def VectorBasis (o : Bool) (eps : F64 ℝ) (s1 s2 d1 d2 : DVec) : Res (Fin 3 → Fin 3 → F64 ℝ) :=
  if !s1.isDefined then .error .undefined
  else if !s2.isDefined then .error .undefined
  else if !d1.isDefined then .error .undefined
  else if !d2.isDefined then .error .undefined
  else if (s1.norm o).lt eps then .error .runtimeError
  else if (s2.norm o).lt eps then .error .runtimeError
  else if (d1.norm o).lt eps then .error .runtimeError
  else if (d2.norm o).lt eps then .error .runtimeError
  else if parallel o eps (s1.normalized o) (s2.normalized o) then .error .runtimeError
  else if parallel o eps (d1.normalized o) (d2.normalized o) then .error .runtimeError
  else
    let s := basis o (s1.normalized o) (s2.normalized o)
    let d := basis o (d1.normalized o) (d2.normalized o)
    ctor o eps (fun i j => DVec.sum o ((d 0 i).mul (s 0 j)) ((d 1 i).mul (s 1 j)) ((d 2 i).mul (s 2 j)))

end DRot

end Verif
