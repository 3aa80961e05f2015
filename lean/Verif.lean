import Verif.Model.Accessors
import Verif.Model.Aliasing
import Verif.Model.Angle
import Verif.Model.Boost
import Verif.Model.Cone
import Verif.Model.Cuboid
import Verif.Model.Dispatch3
import Verif.Model.Double
import Verif.Model.DoubleAngle
import Verif.Model.DoubleAround
import Verif.Model.DoubleBasis
import Verif.Model.DoubleCuboid
import Verif.Model.DoubleDifference
import Verif.Model.DoubleEllipsoid
import Verif.Model.DoubleEuler
import Verif.Model.DoubleFlat
import Verif.Model.DoubleGrid
import Verif.Model.DoubleLine2
import Verif.Model.DoubleLinear
import Verif.Model.DoubleMake
import Verif.Model.DoubleMatrix
import Verif.Model.DoubleMove
import Verif.Model.DoublePlane
import Verif.Model.DoublePlaneInverse
import Verif.Model.DoublePlaneMove
import Verif.Model.DoublePlaneProduct
import Verif.Model.DoublePlaneSets
import Verif.Model.DoublePoints
import Verif.Model.DoublePolygon
import Verif.Model.DoubleProduct
import Verif.Model.DoublePyramid
import Verif.Model.DoubleQuat
import Verif.Model.DoubleRotate
import Verif.Model.DoubleSegment2
import Verif.Model.DoubleSets
import Verif.Model.DoubleShortest
import Verif.Model.DoubleSlerp
import Verif.Model.DoubleSphere
import Verif.Model.DoubleTransform
import Verif.Model.DoubleTurn
import Verif.Model.DoubleVec
import Verif.Model.Ellipsoid
import Verif.Model.Err
import Verif.Model.Euler
import Verif.Model.Gte
import Verif.Model.Heap
import Verif.Model.InPlace
import Verif.Model.Interpolator
import Verif.Model.Interval
import Verif.Model.IntervalGrid
import Verif.Model.Linear2
import Verif.Model.Linear3
import Verif.Model.Mat
import Verif.Model.MatrixInterpolator
import Verif.Model.Names
import Verif.Model.Objects2
import Verif.Model.Objects3
import Verif.Model.PlaneText
import Verif.Model.Points
import Verif.Model.Polygon
import Verif.Model.Print
import Verif.Model.Programs
import Verif.Model.Pyramid
import Verif.Model.Rotation
import Verif.Model.Solver
import Verif.Model.Sphere
import Verif.Model.Spline
import Verif.Model.Text
import Verif.Model.TextGeneral
import Verif.Model.Transformation
import Verif.Model.Vec
import Verif.Spec.Angle
import Verif.Spec.Composite
import Verif.Spec.Cone
import Verif.Spec.Cuboid
import Verif.Spec.Dispatch
import Verif.Spec.Double
import Verif.Spec.DoubleEuler
import Verif.Spec.DoubleMake
import Verif.Spec.DoubleMove
import Verif.Spec.DoublePlaneMove
import Verif.Spec.DoubleSlerp
import Verif.Spec.Geometry
import Verif.Spec.Heap
import Verif.Spec.Interval
import Verif.Spec.Linear
import Verif.Spec.MatrixInterpolator
import Verif.Spec.Objects3
import Verif.Spec.PlaneText
import Verif.Spec.Polygon
import Verif.Spec.Programs
import Verif.Spec.Pyramid
import Verif.Spec.Rotation
import Verif.Spec.Solver
import Verif.Spec.SolverSteps
import Verif.Spec.Spline
import Verif.Spec.Text
import Verif.Lemmas.Aliasing
import Verif.Lemmas.Angle
import Verif.Lemmas.Barycentric
import Verif.Lemmas.BarycentricDerivative
import Verif.Lemmas.Cone
import Verif.Lemmas.Cuboid
import Verif.Lemmas.Double
import Verif.Lemmas.DoubleAngle
import Verif.Lemmas.DoubleAround
import Verif.Lemmas.DoubleBasis
import Verif.Lemmas.DoubleBetween
import Verif.Lemmas.DoubleConvert
import Verif.Lemmas.DoubleCuboid
import Verif.Lemmas.DoubleDifference
import Verif.Lemmas.DoubleEllipsoid
import Verif.Lemmas.DoubleEllipsoid2
import Verif.Lemmas.DoubleEuler
import Verif.Lemmas.DoubleGrid
import Verif.Lemmas.DoubleHalfTurn
import Verif.Lemmas.DoubleLine2
import Verif.Lemmas.DoubleLinear
import Verif.Lemmas.DoubleMake
import Verif.Lemmas.DoubleMatrix
import Verif.Lemmas.DoubleMove
import Verif.Lemmas.DoublePlane
import Verif.Lemmas.DoublePlaneInverse
import Verif.Lemmas.DoublePlaneMove
import Verif.Lemmas.DoublePlaneProduct
import Verif.Lemmas.DoublePlaneSets
import Verif.Lemmas.DoublePoints
import Verif.Lemmas.DoublePolygon
import Verif.Lemmas.DoubleProduct
import Verif.Lemmas.DoublePyramid
import Verif.Lemmas.DoubleQuat
import Verif.Lemmas.DoubleRotate
import Verif.Lemmas.DoubleSegment
import Verif.Lemmas.DoubleSegment2
import Verif.Lemmas.DoubleSets
import Verif.Lemmas.DoubleShortest
import Verif.Lemmas.DoubleSlerp
import Verif.Lemmas.DoubleSphere
import Verif.Lemmas.DoubleToVector
import Verif.Lemmas.DoubleTransform
import Verif.Lemmas.DoubleTurn
import Verif.Lemmas.DoubleVec
import Verif.Lemmas.Ellipsoid
import Verif.Lemmas.Gte
import Verif.Lemmas.Heap
import Verif.Lemmas.InPlace
import Verif.Lemmas.InsertionSorter
import Verif.Lemmas.Interpolator
import Verif.Lemmas.IntervalAnd
import Verif.Lemmas.IntervalCut
import Verif.Lemmas.IntervalGaps
import Verif.Lemmas.IntervalGrid
import Verif.Lemmas.IntervalList
import Verif.Lemmas.Linear2
import Verif.Lemmas.Linear3
import Verif.Lemmas.MatrixInterpolator
import Verif.Lemmas.PlaneText
import Verif.Lemmas.Points
import Verif.Lemmas.Polygon
import Verif.Lemmas.Print
import Verif.Lemmas.Programs
import Verif.Lemmas.QuaternionExp
import Verif.Lemmas.Rotation
import Verif.Lemmas.RotationConv
import Verif.Lemmas.Solver
import Verif.Lemmas.SolverCalls
import Verif.Lemmas.SolverEnds
import Verif.Lemmas.SolverPaths
import Verif.Lemmas.Spline
import Verif.Lemmas.SplineSmooth
import Verif.Lemmas.Text
import Verif.Lemmas.TextGeneral
import Verif.Lemmas.Transformation
import Verif.Lemmas.TransformationShape
import Verif.Lemmas.Vec
import Verif.Lemmas.Zonotope
import Verif.Props.Accessors
import Verif.Props.Aliasing
import Verif.Props.Angle
import Verif.Props.Barycentric
import Verif.Props.Composite
import Verif.Props.Cone
import Verif.Props.ConeIntersection
import Verif.Props.Cuboid
import Verif.Props.Dispatch
import Verif.Props.DispatchSolids
import Verif.Props.DoubleAngle
import Verif.Props.DoubleAround
import Verif.Props.DoubleBasis
import Verif.Props.DoubleBetween
import Verif.Props.DoubleConvert
import Verif.Props.DoubleCuboid
import Verif.Props.DoubleDifference
import Verif.Props.DoubleDistance
import Verif.Props.DoubleEllipsoid
import Verif.Props.DoubleEuler
import Verif.Props.DoubleFlat
import Verif.Props.DoubleGrid
import Verif.Props.DoubleLine2
import Verif.Props.DoubleLinear
import Verif.Props.DoubleMake
import Verif.Props.DoubleMatrix
import Verif.Props.DoubleMove
import Verif.Props.DoublePlane
import Verif.Props.DoublePlaneInverse
import Verif.Props.DoublePlaneMove
import Verif.Props.DoublePlaneProduct
import Verif.Props.DoublePlaneSets
import Verif.Props.DoublePoint
import Verif.Props.DoublePoints
import Verif.Props.DoublePolygon
import Verif.Props.DoubleProduct
import Verif.Props.DoublePyramid
import Verif.Props.DoubleQuat
import Verif.Props.DoubleRotate
import Verif.Props.DoubleSegment
import Verif.Props.DoubleSegment2
import Verif.Props.DoubleSets
import Verif.Props.DoubleShortest
import Verif.Props.DoubleSlerp
import Verif.Props.DoubleSphere
import Verif.Props.DoubleToVector
import Verif.Props.DoubleTransform
import Verif.Props.DoubleTurn
import Verif.Props.Ellipsoid
import Verif.Props.EllipsoidEquality
import Verif.Props.EllipsoidIntersection
import Verif.Props.EllipsoidTransformation
import Verif.Props.EulerAngle
import Verif.Props.EulerMore
import Verif.Props.Heap
import Verif.Props.InPlace
import Verif.Props.Interpolator
import Verif.Props.InterpolatorDerivative
import Verif.Props.Interval
import Verif.Props.IntervalGrid
import Verif.Props.IntervalThrows
import Verif.Props.Linear2
import Verif.Props.Linear3
import Verif.Props.Mat
import Verif.Props.MatrixInterpolator
import Verif.Props.Names
import Verif.Props.PlaneText
import Verif.Props.Points
import Verif.Props.Polygon
import Verif.Props.PolygonIntersection
import Verif.Props.Print
import Verif.Props.Programs
import Verif.Props.Pyramid
import Verif.Props.PyramidFaces
import Verif.Props.Quaternion
import Verif.Props.QuaternionInterp
import Verif.Props.Rigid
import Verif.Props.RigidFlag
import Verif.Props.RotationMatrix
import Verif.Props.RotationVector
import Verif.Props.Solver
import Verif.Props.SolverEnds
import Verif.Props.SolverHistory
import Verif.Props.SolverLinear
import Verif.Props.SolverRuns
import Verif.Props.SolverShift
import Verif.Props.Sphere
import Verif.Props.Spline
import Verif.Props.Text
import Verif.Props.TextGeneral
import Verif.Props.Transformation
