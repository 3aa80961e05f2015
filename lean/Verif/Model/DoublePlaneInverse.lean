import Verif.Model.DoublePlaneProduct

/-!
# Inverses of transformations of the plane in double precision

Source: `src/OpenSpaceToolkit/Mathematics/Geometry/2D/Transformation.cpp`, with the arithmetic of `Model/Double.lean` over the real numbers. Eigen is not in the repository: its inverse of a matrix of size three
is taken to be the cofactors times the inverse of the determinant, which is expanded along the first column; `o` is the order in which Eigen adds three products.
-/

namespace Verif

namespace DT2

/-- a cofactor of a matrix of size three as Eigen computes it; rows and columns are counted round -/
noncomputable def cofactor (m : Fin 3 → Fin 3 → F64 ℝ) (i j : Fin 3) : F64 ℝ :=
  ((m (i + 1) (j + 1)).mul (m (i + 2) (j + 2))).sub ((m (i + 1) (j + 2)).mul (m (i + 2) (j + 1)))

/-- the determinant of a matrix of size three as Eigen computes it for the inverse -/
noncomputable def det (o : Bool) (m : Fin 3 → Fin 3 → F64 ℝ) : F64 ℝ :=
  DVec.sum o ((cofactor m 0 0).mul (m 0 0)) ((cofactor m 1 0).mul (m 1 0)) ((cofactor m 2 0).mul (m 2 0))

/-- the inverse of a matrix of size three as Eigen computes it -/
noncomputable def inverse (o : Bool) (m : Fin 3 → Fin 3 → F64 ℝ) : Fin 3 → Fin 3 → F64 ℝ := fun i j => (cofactor m j i).mul ((F64.fin 1).div (det o m))

end DT2

namespace DTrans2

/-- `getInverse` (`2D/Transformation.cpp` 219-227) -/
noncomputable def getInverse (o : Bool) (t : DTrans2) : Res DTrans2 :=
  if !t.isDefined then .error .undefined else .ok ⟨t.type, DT2.inverse o t.matrix⟩

end DTrans2

end Verif
