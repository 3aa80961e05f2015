# Design of the formal model of open-space-toolkit-mathematics

The model is written in Lean 4 (Lake project in `lean/`). It follows the C++ sources in `/repo`
function by function. Every model definition cites the file and lines it models.

## 1. Layout

* `lean/Verif/Model/*`  executable-style definitions that mirror the code (one file per source file or
  small group of them), with the error branches.
* `lean/Verif/Spec/*`   small independent specifications (point sets, congruence, separation, ...).
  They mention no model helper.
* `lean/Verif/Lemmas/*` helper lemmas.
* `lean/Verif/Props/*`  the property theorems, each next to a concrete `example` that meets its
  hypotheses. `MANIFEST.json` lists them per property.

## 2. Conventions of the model

* A C++ function that may throw returns `Except Err α`. `Err` has one constructor per exception kind
  (`undefined` = `runtime::Undefined`, `wrong` = `runtime::Wrong`, `runtimeError` = `RuntimeError`,
  `toBeImplemented` = `runtime::ToBeImplemented`) and a separate constructor `ub` for C++ undefined behaviour
  (out-of-bounds access), so undefined behaviour is never confused with a normal result.
* Undefined values: an ostk `Real` or generic interval bound that may be undefined is an `Option`; where the code
  checks `isDefined` first the model has the check.
* Numbers. Interval bounds are elements of an arbitrary linear order (no arithmetic is used there).
  Everything numeric is over exact real numbers `ℝ` (or an ordered field), except in the files `Double*.lean`:
  `Model/Double.lean` is the arithmetic of binary64 (rounding to nearest, ties to even, overflow to infinity, NaN; the sign of zero is left out),
  and the functions whose behaviour depends most on rounding are modelled a second time with it (angles, grids; properties C107 and later).
  In all other files **floating-point rounding, overflow, NaN propagation in the middle of a computation are not modelled.** `Real::Epsilon()` is a
  parameter `eps` with `0 < eps` where the code compares against it.
* `std::sort` is not stable: the model allows *every* sorted permutation (a relation), so theorems hold for
  every implementation of the sort.
* `std::unordered_set` iteration order: the model takes an arbitrary duplicate-free list.
* Parts of Eigen, boost, GTE and ostk-core used by the code are not in the repository. What is assumed about them
  is listed in section 4.

## 3. Properties

`properties.jsonl` states the properties, `MANIFEST.json` lists the theorems of each with a note on its limits. Which model files they are about
and how they are proved:

| ids | model | proof |
|----|-------|-------|
| C01, C02 | `Interval`: constructor and setters over a linear order | invariant by induction over any sequence of setter calls, also of calls that throw |
| C03–C06 | `contains`, `intersects`, `getIntersectionWith`, `getUnionWith`, `==` | the meaning of an interval is a `Set`; case analysis on the types, order reasoning in a dense order |
| C07–C13 | `Sort` as a relation (any sorter), `Merge`, `GetGaps`, `LogicalOr`, `LogicalAnd`, `Clip` | induction over lists, set equalities |
| C14, C15 | `IntervalGrid`: the two generators | induction, termination from the Archimedean property, closed forms |
| C16–C21 | `Angle` | field arithmetic, integer multiples of a turn, termination of the reduction loops |
| C22–C36, C68–C73 | `Rotation`: quaternions, rotation matrices, rotation vectors, Euler angles | polynomial identities, case analysis of the branches, induction over programs of calls |
| C37–C41, C74, C75 | `Transformation` in 2D and 3D | induction over expression trees of factories, composition and inverse |
| C42–C47, C52, C53 | `Linear2`, `Linear3`, `Points`: points, sets, segments, lines, rays, planes, line strings | point-set meaning over ℝ² and ℝ³ |
| C48–C51, C76–C78 | `Sphere`, `Ellipsoid`, `Cone`, `Cuboid` with the queries of `Gte` | point-set meaning; separating axes via zonotopes; eigen solver by contract |
| C58, C59, C79, C80 | `Polygon`, `Boost`, `Objects2` | induction over rings and members |
| C60, C81, C82 | `Pyramid` | central projection on the base |
| C54–C57, C83–C85 | `Objects2`, `Objects3`, `Dispatch3`: composites, intersections, base class | structural induction over nested objects |
| C61–C64, C86–C88 | `Interpolator`, `MatrixInterpolator` | induction over node lists; Lagrange and Floater–Hormann identities; spectral calculus |
| C65–C67, C89–C92 | `Solver` | induction over the loops of odeint and over histories of calls |
| C93–C95 | `Spline` | the reduced tridiagonal system is equivalent to the spline equations; truncated powers for smoothness |
| C96–C99 | `Text`, `TextGeneral` | induction over digits, tokens and lists; a decimal exponent found from the size of the number |
| C100, C101 | `Euler` | conversions to quaternions; distance of rotations |
| C102, C103 | `PlaneText`, `Names` | texts taken apart at characters that numbers do not contain |
| C104 | `Mat` | the metric of a Euclidean space |
| C105, C106 | `Heap` | disjoint storage, induction over nested composites and over the depth of nesting |
| C107–C109 | `Double`, `DoubleAngle` | rounding is monotone and nearest; sums have a relative error of half a unit; a step lost in the value for the endless loops |
| C110, C111 | `DoubleGrid` | the same, induction over the loops |
| C112 | `DoubleLinear` | rounding errors as factors near one, multiplied out |
| C113 | `DoubleQuat` | the same, and the error of a square root |
| C114 | `DoubleVec`, `DoublePoint` | error of sums of three products in both orders, and of a square root |
| C115 | `DoubleVec`, `DoubleBetween` | the same; angles from cosines by the sine of the half difference |
| C116 | `EllipsoidEquality` | inequality of Cauchy and Schwarz on the nine entries; polarisation |
| C117 | `DoubleVec`, `DoubleSegment` | error of cross products; a point whose cross product vanishes is near the line; clamping to the ends |
| C118 | `DoubleVec`, `DoubleDistance` | error of a quotient; clamping is a contraction; the distance is a contraction of the point |
| C119 | `DoubleTransform` | adding zeros is exact; error of sums of four products in three orders; an almost orthogonal matrix almost keeps norms |
| C120 | `DoubleRotate` | errors of the four components by Cauchy and Schwarz; induction over the chain; the exact rotation is `q⁻¹ v q` in the quaternions of Mathlib |
| C121 | `Programs` | refinement of a machine with memory by a machine over values, by induction over the program; the invariant gives each variable its own storage, and all of memory to variables |
| C122 | `DoubleMatrix` | each coefficient is exact up to half units in the last place, except next to one where its neighbours vanish; Cauchy and Schwarz for columns and rows |
| C123 | `InPlace` | the statements run on a state that survives exceptions; each function is all or nothing by cases, loops and composites by mutual induction |
| C124 | `Print` | what is printed with its frame is a prefix code: by mutual induction, two texts that agree up to what follows them come from the same object and are followed by the same; in the plane and in space |
| C125 | `DoubleLine2` | errors of sums, differences and of the slope; the cross product with the direction bounds the distance from the line |
| C126 | `Aliasing` | memory member by member; each statement refines an assignment of quaternions, also when receiver and argument are the same; induction over programs |
| C127 | `DoubleSphere` | errors of the squared distance and of the squared radius; doubles from 8 on are multiples of 2^-49; equal products are rounded to the same number |
| C128 | `DoubleSegment2` | adding a zero is exact for every double; products and sums of numbers on a grid stay on the grid and below 2^53 |
| C129 | `DoubleMake` | what is normalised is near a multiple of a unit quaternion; the errors of the components are added as vectors; the greatest of the four numbers compared gives a component of at least 0.48 |
| C130 | `DoubleToVector` | the divisor is near the length of the vector part; each normalisation turns the direction by at most a few units; sine and cosine of the computed arc cosine are near the exact ones |
| C131 | `Accessors` | by cases on the definedness of the members; `norm • normalized` is the vector itself; the unit ratios cancel |
| C132 | `DoubleShortest` | the exact quaternion is `1 + a b*`, which carries `a` to `b` and has norm twice the cosine of half the angle; the roundings of two normalisations, a cross and a dot product come to at most 15.5 units, and normalising divides them by the norm |
| C133 | `DoubleDifference` | the roundings of the inverse (5.3 units), of the product (8.2) and of the normalisation (4.5) are added in the quaternion norm; normalised components are at most one, so the arc cosine has an argument it accepts; when the vector part of the quotient is below 2^-30 the sum of squares absorbs it and the scalar part becomes exactly one |
| C134 | `DoubleEuler` | `std::atan2` is known only by the direction of its answer, so nothing depends on the sign of zero; turning all three angles by half a turn changes the sign of four cosines and sines at once, which the sign in `Tells` records; the coefficients of the quaternion are within 4.1 units times the squared norm; the axis goes through two normalisations of 4.5 units each |
| C135 | `DoublePoints` | the fold of `std::min_element` returns a member below all others as no distance is a NaN; squared distances are compared exactly as computed, and `rnd ∘ sqrt` is monotone, so the closest point also has the least computed distance; insertion with `==` keeps the list free of repetitions because `==` of defined points is equality |
| C136 | `Cuboid::contains`, `Cuboid::operator ==` and `Cone::contains` in double precision | error of the coordinate along an axis from `C115`/`C117` lemmas; moving the cosine and its arc cosine; the reduction of the angle of `C107` |
| C137 | `Quaternion::SLERP`, `exp`, `log`, `pow` in double precision | distance of two turns in terms of their angle and axis; the relative error of the rounded sine, cosine, logarithm and exponential; the exponential of Mathlib on pure quaternions; the formula of Shoemake as a turn |
| C138 | `RotationMatrix::RX/RY/RZ/RotationVector/EulerAngle` in double precision | entries near those of an exact rotation: such a matrix passes the tests of the constructor, turns vectors alike, and so does the rounded product of two; distance of the rotations by two near quaternions |
| C139 | `Line/Ray/Segment::intersects/intersectionWith (Plane)`, `Line/Ray::distanceTo (Point)` in double precision | comparisons of a quotient are as if it did not overflow; the errors of the two inner products decide the sign; the returned point is the rounded point with the rounded parameter, whose value in the equation of the plane is bounded term by term; cross product and norm have relative errors, and the direction made by the constructor is near a unit vector |
| C140 | `Ellipsoid` constructor and `contains (Point)` in double precision | the axes are as accurate as C120 says, each coordinate then has a relative error in the distance to the centre, squares and quotients are bounded term by term; a point with the level near 1 is moved along the ray from the centre; for the unit quaternion the axes are exact and 7.06 units of rounding remain |
| C141 | `Transformation::Rotation` and `RotationAround`, 2D and 3D, in double precision | the matrix of C138 is near a rotation, so its transpose is near the opposite one (inner products of quaternions and Cauchy–Schwarz); products with a translation leave the block exact and round one column once; the two errors of a row are added; at the centre the block cancels |
| C142 | equality of lines and planes, and the lines, rays, segments and point sets that a plane contains, in double precision | a difference of doubles changes sign exactly when its terms are swapped, so equality is symmetric; the bounds of C117 for one point; a segment lies between its ends, a line between its origin and its direction; for a normal along an axis two of the three products are zero and a rounded difference is zero only if its terms are equal |
| C143 | `RotationMatrix::VectorBasis`, `Rows` and `Columns` in double precision | normalizing is within 4.5 units of the unit vector, the cross product of two unit vectors within 12, and dividing by its length `k` gives `29 / k` for the normal; the product of two such bases is within `152 / k` of a rotation in each coefficient, which passes the tests of the constructor; for whole coordinates of a unit vector nothing is rounded |
| C144 | `applyTransformation` of points, lines, rays, planes, segments, spheres, cones and cuboids, repeated, in double precision | one lemma for a sequence of motions of several parts, each kept by the exact motion in its distances (`Move.drift`, induction over the sequence): the error of one step is at most `2 ^ k` of the length of the part, and the invariant keeps the parts below `2 ^ 499`; the axis of a cone or cuboid has length one within 16 units after each normalization |
| C145 | products of rotations and translations of space in double precision, bracketed in any way | induction over the tree of products; the block of a product of `n` factors is within `err n`, about 192 units of rounding for each factor, of the exact rotation as an operator, so that errors add up and are not multiplied by the norm of a matrix; the column is within `err n` of the path |
| C146 | `d3::object::Polygon` in double precision: constructor, vertices, normal vector, motions | each component of a normalized axis is the exact quotient by one common number, apart from one rounding, so that the computed scalar product is within `6.6 u` of the cosine and `5.1 u` besides; vertices by the error of one affine combination (`Flat3.place_near`); motions by the induction of C144 for three parts |
| C147 | `Pyramid::getLateralFaceAt` in double precision | the computed double cross product is perpendicular to the first axis within `2.88 u` by the errors of its last step alone, because the normal it starts from is almost perpendicular to that axis and not short (Lagrange identity); one rounding of each component and the bound of C146 keep the sum below nine units; vertices by the decomposition of the edge along the exact axes (`Face.in_plane`) |
| C148 | lines, segments, line strings and polygons of the plane moved any number of times in double precision | induction over the motions: every matrix has two rows with entries within one unit of rounding of an exact rotation and a last entry in proportion to the reach, so that one motion adds an error in proportion to the distances and exact motions do not enlarge the errors made before; lists and pairs are moved part by part |
| C149 | products of rotations and translations of the plane in double precision, bracketed in any way | as for C145 with complex numbers: induction over the tree of products, the block as an operator and the column each within `err n` |
| C150 | inverses of transformations of the plane in double precision | the matrix of C149 is near a rotation and a column, so its computed determinant is near one and each cofactor near the entry of the exact inverse; what such a matrix does to points is the lemma of C149 with 22 times the error |
| C151 | point sets, multi-polygons and composites of the plane moved several times in double precision | induction on the transformations: a set moved once holds exactly the moved points, a composite moved once exactly the moved members; distances of C148 keep points apart |
| C152 | point sets, line strings, pyramids and composites of space moved several times in double precision | as C151, with the distances of C144; a line string and a pyramid are moved exactly when their points and parts are |

## 4. Trusted base

* The Lean 4 kernel, and the axioms `propext`, `Classical.choice`, `Quot.sound`. `#print axioms` of every property theorem was checked to show no other one.
* The transcription of C++ into Lean. `tools/citations.py` checks that the cited line ranges exist and start at the function named.
* Exact arithmetic in place of floating point: rounding, overflow, NaN and infinities arising inside a computation are not modelled, except in the
  files `Double*.lean`. There a `double` is IEEE 754 binary64 with rounding to nearest, ties to even (`C107_rounding` shows that the function `rnd` is that
  rounding), evaluated without extended precision and without fused operations, and `Real` of ostk-core is assumed to compute as `double` does.
  The square root is the correctly rounded one, as IEEE 754 demands. Eigen adds three products in one of two orders and four in one of three (parameters of the model) and rounds every product
  before adding it: a compiler that fuses products and sums is not modelled. `std::acos` is any function within `2 ^ -51` of the arc cosine. `std::exp` and `std::log` are any functions within `2 ^ -51` (relative, absolute) of the exponential and the logarithm; `std::atan2` is known by its direction (`ArcTangent`).
* Termination of the operating system, memory allocation, threads, and `toString` unless stated otherwise in a model file are not modelled.
  `print` and `operator <<` of the geometric objects are in `Model/Print.lean`, as lists of lines and frames: the texts of the members, the layout of the frames
  and what was written before an exception are not modelled. `clone` and copy constructors are the identity on values,
  except in `Model/Heap.lean` and `Model/Programs.lean`, where composites, and polygons behind their pointers, are kept in memory by addresses.
  Functions that change an object are functions to the changed object, which say nothing about the object after an exception, except in
  `Model/InPlace.lean`, where `applyTransformation` runs statement by statement on the members, and in
  `Model/Aliasing.lean`, where the operators in place of quaternions and `*=` of transformations run on memory in which both sides may be the same variable.

Assumed behaviour of code that is not in the repository:

* ostk-core: `Real` is a number or undefined; arithmetic with an undefined number is undefined, comparisons with one are false, converting one to
  `double` throws `Undefined`. `Array::accessFirst` and `std::vector::at` throw on a bad index (`runtimeError`).
* Eigen: matrix products, `norm`, `dot`, `cross`; `normalized ()` leaves the zero vector; `isIdentity` and `isConstant` with their relative
  precision; an index out of range is undefined behaviour; `inverse` of a singular matrix has no finite entries.
  `SelfAdjointEigenSolver` reads the lower triangle only and, when it converges, returns real eigenvalues with orthonormal eigenvectors
  (contract `SolvesSym`; `C64_contract` and `exists_solver` show that it can be met).
* Standard library: `std::sort` returns some sorted permutation; `std::unordered_set` iterates in any order; `std::lower_bound` and
  `std::upper_bound` are the bisection loops of libstdc++, so that their answer on unsorted data is also determined.
* Geometric Tools Engine: `Model/Gte.lean` (lines, rays, segments, planes with spheres and ellipsoids) and `Model/Cuboid.lean` (separating axes of
  lines and boxes).
* boost::geometry: rings are clockwise and closed, `correct` as in `Model/Boost.lean` with exact comparison of the ends. All algorithms on
  regions (`covered_by`, `intersection`, `union_`, `convex_hull`, ...) are fields of a structure the theorems quantify over; where a theorem needs
  one of them to be right, this is a hypothesis of the theorem. The well-known text of a polygon is `POLYGON((x y,x y,...),(...))`.
* boost::geometry `matrix_transformer` with a matrix of size three, in double precision: a coordinate is `(m00 * x + m01 * y) + m02`, each operation rounded (`DTrans2.boostPoint`).
* Eigen `inverse` of a matrix of size three in double precision: cofactors `m[i+1][j+1] * m[i+2][j+2] - m[i+1][j+2] * m[i+2][j+1]` with indices counted round, the determinant as the sum over the first column of cofactor times entry (in one of two orders), and each transposed cofactor times the rounded `1 / det` (`DT2.inverse`).
* boost::math: `barycentric_rational` of order 3 (weights, evaluation, derivative) and `cardinal_cubic_b_spline` (linear system, back substitution, basis functions), written down from the library's source. How the second estimates the slopes at the ends is left open.
* The C and C++ libraries for text: `std::fixed` rounds to a nearest decimal, `std::to_string` prints six decimals, `atof` reads decimal numbers with an exponent, `nan` and `inf`, `getline` drops an empty last token. The format `%g` with fifteen digits is left open in `Text` and modelled in `TextGeneral` (fifteen digits of a nearest decimal, zeros at the end dropped, an exponent when it is below -4 or at least 15); there `atof` also rounds to a nearest double.
  The exceptions `domain_error` and `logic_error` appear as `runtimeError`.
* boost::odeint: `integrate_times`, `integrate_adaptive`, `integrate_const`, `less_with_sign`, the limit of 500 rejected steps and the formula of
  Runge–Kutta 4, written down from the library's source. The six steppers with step control are a parameter; theorems that need it assume
  the contract `Spec.KeepsTime` of `try_step` (an accepted step moves the time by the step tried, a rejected one changes neither state nor time); that the calls return
  is proved for steppers keeping `Spec.Advances` (short steps are accepted, a rejected step is shortened to at most nine tenths, proposals do not become arbitrarily short).

## 5. Disagreements between the code and the properties

Each is a theorem: the negation of the property with a concrete witness, proved about the model of the unchanged code.

| code | what happens | theorem |
|------|--------------|---------|
| `Interval` setters | a defined interval without values can be reached | `C02_defined_but_empty` |
| `Interval::Merge` | intervals that touch stay apart when lower bounds tie; the result depends on the order | `C08_merge_not_normal` |
| `Interval::GetGaps` | misses gaps of one point at the ends; throws on lists with ties | `C09_gap_missed`, `C09_gaps_throws` |
| `Interval::LogicalAnd` | loses an isolated common end point | `C11_common_value_lost` |
| Euler XYZ and ZXY | the matrix and the quaternion of the same angles are different rotations | `C29_xyz_disagree`, `C29_zxy_disagree` |
| `EulerAngle::RotationMatrix` | the answer is always labelled ZYX | `C30_wrong_sequence`, `C30_xyz_wrong_matrix` |
| `Quaternion::exp`, powers | the norm is dropped below the threshold, small powers collapse to the identity | `C32_exp_log_loses_norm`, `C32_pow_add_small` |
| `RotationMatrix` constructor | accepts the zero matrix and reflections | `C35_not_proper` |
| `RotationMatrix::operator ()` | index 3 passes the test and reads out of bounds | `C36_index_three` |
| 3D `Transformation (Matrix4d)` | accepts a last row near 0 0 0 1, so that composition is not composition of maps | `C37_not_composition`, `C40_approximate_identity` |
| `isRigid` | unsound for rotation matrices that are not rotations (3D), incomplete for rotations about a point (2D) | `C38_rigid3_unsound`, `C38_rigid2_incomplete`, `C39_reflection` |
| `Ellipsoid::contains` | uses the columns of the rotation, everything else its rows | `C49_violated` |
| `Cone` | half-angles above 90 degrees, distance behind the apex, complementary cones are equal | `C50_wide_violated`, `C50_distance_violated`, `C50_eq_violated` |
| `Cuboid` | vertices at half the extents; segments by their ends | `C51_vertices_violated`, `C51_segment_violated` |
| `PointSet::isNear` | depends on the iteration order | `C52_order` |
| Intersections of cones, multi-polygons, composites | have no type; addition then depends on the order | `C54_cone_violated`, `C55_cone_violated`, `C55_multiPolygon_violated` |
| Equality through the base class | not reflexive (2D: most types; 3D: sets holding an undefined point) | `C56_plane_violated`, `C56_space_violated` |
| `intersects` through the base class | not symmetric for planes with points and for composites | `C57_violated` |
| 2D `Polygon` | holes cannot be indexed; two-vertex polygons are accepted | `C58_holes_violated`, `C58_two_vertices_violated` |
| 3D `Polygon` | zero axes are accepted | `C59_null_violated` |
| `Pyramid` | zero axis throws; holes make the lateral rays throw; only rays are tested | `C60_null_violated`, `C81_holes_violated`, `C82_violated` |
| `Linear` | derivative zero at the first node; unsorted nodes accepted | `C61_derivative_first_violated`, `C61_unsorted_violated` |
| `BarycentricRational` | reads values out of bounds before the size test; unsorted nodes give poles | `C63_barycentric_violated`, `C86_unsorted_violated` |
| `LogEuclideanRiemannian` | asymmetric matrices accepted | `C64_asymmetric_violated` |
| `integrateTime (array)` | the direction is the sign of the last time | `C65_positive_backward_violated`, `C65_negative_forward_violated`, `C65_to_zero_violated`, `C65_back_to_zero_violated`, `C65_unsorted_violated` |
| `integrateTime (start, end)` | integrates from time 0 | `C66_violated` |
| Euler `==`, `Quaternion::isNear`, `RotationVector` of half turns and small angles | see the notes | `C68_zxy_matrix_differs`, C69, C70, `C71_not_in_range` |
| `Ellipsoid::intersects (Segment)` | false for a chord with both ends on the surface | `C76_segment_violated` |
| `Cone::intersects (Ellipsoid)` | tests the generators only | `C78_ellipsoid_violated` |
| 2D `Composite::anyContains (Composite)` | uses the all-members test | `C79_anyContains_violated` |
| 2D `Polygon::intersectionWith` | throws `ToBeImplemented` with two isolated points or lines | `C80_points_violated` |
| 3D base class | overloads that cannot be reached; two polygons recurse for ever; empty composite contains everything | `C83_violated`, `C85_violated`, `C84_contains_violated` |
| `integrateDuration` with LogConstant, or a negative step | stops early, or integrates nothing, and labels the state with the full duration | `C89_constant_violated`, `C89_negative_step_violated` |
| `CubicSpline` from nodes whose distances differ within the tolerance | takes the values at evenly spaced places, not at the nodes | `C93_nodes_violated` |
| `toString` of a vector with minus infinity | prints `Inf`, read back as plus infinity | `C96_infinity_violated` |
| `Parse` of the text of the empty vector | throws | `C96_empty_violated` |
| `EulerAngle::isUnitary` on a full turn | false, though the rotation is the identity | `C100_turn_not_unitary` |
| `EulerAngle::isUnitary` on undefined Euler angles | may answer true or false instead of throwing | `C100_unitary_undefined` |
| `EulerAngle::isNear` with a negative tolerance | accepts everything | `C101_negative_tolerance` |
| `toString` of plane objects | a segment, a line string and a line may have the same text; all composites have the empty text | `C102_kind_violated`, `C102_composite_violated` |
| `Intersection::StringFromType` for a cuboid | throws | `C103_cuboid_violated` |
| `Undefined (0)` of vectors | is defined | `C104_empty_violated` |
| `isNear` of a 2×3 and a 3×2 matrix | passes the size check; undefined behaviour | `C104_shape_violated` |
| `toString` of a vector without a number of decimals | fifteen digits: different doubles have the same text | `C96_digits_violated` |
| `Parse` of the text of a matrix | gives a vector with zeros for the numbers after a bracket instead of throwing | `C96_matrix_violated` |
| `Composite::operator=` from a composite inside it | reads it after destroying it; undefined behaviour | `C105_assign_member_violated` |
| `Composite::applyTransformation` when a member throws | leaves the composite half transformed | `C106_half_violated` |
| Angles of `2 ^ 55` turns and more, and infinite ones | reduction to a range, `==` and `isNear` never return | `C107_stuck_violated`, `C107_infinite_violated`, `C108_stuck_violated`, `C108_near_stuck_violated` |
| `Degrees (360.2).inDegrees (0.2, 360.2)` | is less than 0.2 | `C107_below_violated` |
| `Degrees (0.1) == Degrees (360.1)` | false, the other way round true | `C108_symmetric_violated` |
| 15 degrees to radians and back | less than 15 | `C109_exact_violated` |
| `generateArrayWithStep` with a step lost in the bound, or from minus infinity | never returns | `C110_stuck_violated`, `C110_infinite_violated` |
| `generateArrayWithStep (0.1)` from 0 to 1 | twelve points, 0.9999999999999999 and 1 among them | `C110_extra_violated` |
| `generateArrayWithSize (4)` from 0 to 3.1 | ends beyond 3.1 | `C111_beyond_violated` |
| `generateArrayWithSize` when the width overflows | infinite values | `C111_overflow_violated` |
| `Linear::evaluate` in doubles at a node | may differ from the data, and lie above all of them | `C112_nodes_violated` |
| `Linear::evaluate` when a difference of abscissae overflows | first value or not a number | `C112_overflow_violated` |
| product of two quaternions that `isUnitary` accepts | may be refused | `C113_product_violated` |
| `Quaternion::normalize` when the squares overflow | the zero quaternion, no error | `C113_overflow_violated` |
| `Point::distanceTo` of different points closer than 2^-540 | zero | `C114_underflow_violated` |
| `Point::distanceTo` of finite points 2^600 apart | infinite | `C114_overflow_violated` |
| `Angle::Between` of (1, 0, 0) and (1, 2^-27, 0) | zero | `C115_small_violated` |
| `Angle::Between` of two vectors of one direction whose squares overflow | a quarter turn | `C115_overflow_violated` |
| `Ellipsoid::operator ==` on spheres of radii 6378137 and 6400000 | equal | `C116_large_violated` |
| the centre of the segment from (1, 0, 0) to (1 + 2^-52, 1, 0) | not contained in the segment | `C117_center_violated` |
| `Segment::contains` of an end of the segment from the origin to (2^600, 2^600, 0) | false | `C117_overflow_violated` |
| `Segment::distanceTo` of the point (1, 0, 0) of the segment from the origin to (2^512, 0, 0) | 1 | `C118_overflow_violated` |
| translation by (2^60, 0, 0) and back of the point (1, 0, 0) | (0, 0, 0) | `C119_back_violated` |
| identity applied to a point with an infinite coordinate | the other coordinates are not numbers | `C119_infinite_violated` |
| `RotationMatrix::Quaternion` of (0, 0, 0, 1 + 2^-50), which `isUnitary` accepts | throws | `C122_quaternion_violated` |
| product of the rotation matrix diag (1 + 2^-50, 1, 1) with itself | throws | `C122_product_violated` |
| `applyTransformation` of a line string with an undefined point, in space and in the plane | throws, and the points before it have moved | `C123_line_string_violated`, `C123_line_string2_violated` |
| `applyTransformation` of an ellipsoid with an orientation that is not unitary | throws, and the centre has moved | `C123_ellipsoid_violated` |
| `print` of an ellipsoid with an orientation that is not unitary, or with an undefined member beside its orientation | throws | `C124_ellipsoid_violated` |
| `print` of the undefined multi-polygon, and of composites with one | throws; the branch for it is never taken, as the pointer is never null | `C124_multi_polygon_violated` |
| `operator <<` of an intersection that is a cuboid | throws, as `StringFromType` has no name for it | `C124_intersection_violated` |
| `print` of an undefined composite | the same as of a defined one, without members `Empty` | `C124_composite_violated` |
| the line of the plane through (0, 0) and (4, 3) | does not contain (4, 3) | `C125_second_violated` |
| the lines through (-3, 0) and (0, 4) with the direction (3, 4) | the first equals the second, the second does not equal the first | `C125_symmetric_violated` |
| the line through (2^54, 0) with the direction (1, 0) | contains (2^54, 5) and not (2^54 + 4, 0) | `C125_far_violated` |
| the sphere of radius 5 about the origin | does not contain the doubles nearest to (5/3, 10/3, 10/3) | `C127_sphere_violated` |
| a sphere of radius 2^-25 | contains its centre | `C127_center_violated` |
| the line through (0, 0, 0) and (3, 4, 0), and the ray from (0, 0, 0) along (3, 4, 0) | do not contain (3, 4, 0) | `C127_second_violated` |
| the plane through (0, 0, 0) with the normal (3, 4, 0) | does not contain (4, -3, 0) | `C127_plane_violated` |
| the unitary quaternion (2^-27, 0, 0, 1), of the rotation by 2^-26 | becomes the rotation vector of angle zero | `C130_small_violated` |
| the scalar quaternion 1 + 2^-52, which `isUnitary` accepts | gives no defined rotation vector | `C130_above_violated` |
| the scalar quaternion 1 - 2^-53, which `isUnitary` accepts | converting it to a rotation vector throws | `C130_below_violated` |
| a plane made with a zero normal vector | accepted, defined, and its accessor gives the zero vector; lines and rays refuse a zero direction | `C131_zero_normal_violated` |
| ShortestRotation between vectors that are opposite within `Real::Epsilon()` but not opposite | throws as if they were opposite | `C132_opposite_violated` |
| ShortestRotation between vectors that are opposite within 2^-28 | a half turn: half of the digits of the direction are lost | `C132_digits_violated` |
| Quaternion::angularDifferenceWith for rotations less than 2^-30 apart | zero, though the rotations differ; isNear is then true with a tolerance of zero | `C133_small_violated` |
| Quaternion::isNear with a tolerance of a full turn | the tolerance is reduced to zero, so that nothing but the same rotation is near | `C133_turn_violated` |
| EulerAngle::Quaternion, a quarter turn about Y | the quaternion is accepted, the argument of the arc sine rounds to 1 + 2^-52 and the Euler angles are undefined, without an exception | `C134_gimbal_violated` |
| RotationVector::RotationMatrix, diagonal matrix of 1 + 2^-52 | the matrix is accepted as a rotation matrix and the conversion throws Undefined | `C134_vector_violated` |
| RotationVector::RotationMatrix, rotation by 2^-28 | the trace is exactly three, the angle comes out as zero about the axis X | `C134_small_violated` |
| PointSet::applyTransformation, translation by 2^60 | the set {0, (1, 0, 0)} has one point after it | `C135_collapse_violated` |
| PointSet::getPointClosestTo, two points within 2^-540 | the squares underflow, the closest point to a member of the set can be another member | `C135_underflow_violated` |
| PointSet::getPointClosestTo, distances from 2^600 on | the squares overflow, the first point in the order of iteration is returned though another is at half the distance | `C135_overflow_violated` |
| Cuboid::contains, cube about (1, 1, 1) with extents 0.3 | its corner, centre plus extents, is refused whatever the tolerance | `C136_corner_violated` |
| Cuboid::operator == and contains | cuboids that are equal, with axes in another order, do not contain the same points beside an edge | `C51_order_violated`, `C136_order_violated` |
| Cone::contains, axis (1, 1, 0), half-angle up to 2^-21 degrees | the point (2, 2, 0) of the axis is refused | `C136_axis_violated` |
| Cone::contains, point of the axis at 2^-27 from the apex | throws, as the offset is taken for a zero vector | `C136_apex_violated` |
| Cone::contains, half-angle of 2^55 turns or more | does not end | `C136_stuck_violated` |
| Quaternion::exp, a quaternion without a vector part | answers the unit quaternion whatever the scalar part | `C137_scalar_violated` |
| Quaternion::SLERP towards a rotation below Real::Epsilon() | answers the first quaternion, even at the ratio 1 | `C137_end_violated` |
| Rotation matrix and quaternion made from the same Euler angles, sequence XYZ, in double precision | different rotations: one radian about x and y turns the first axis to vectors more than one half apart | `C138_sequence_violated` |
| Rotation matrix from a rotation vector, in double precision with the tolerance 1e-15 of the library | throws for the half turn about the axis (0.697388633805896, -0.03927868412585319, -0.7156160132443153), which the constructor of `RotationVector` accepts: two computed columns are 1.02e-15 off a right angle | `C138_rejected_violated` |
| Line and plane that are parallel and apart, in double precision | the line from (0, 0, 0) along (2, 3, 6) is said to intersect the plane through (3, −6, 2) with the normal (3, −6, 2), because the inner product of the rounded directions is not zero | `C139_parallel_violated` |
| Segment inside a plane, in double precision | the segment from (0, 0, 0) to (4, −3, 0) in the plane through (0, 0, 0) with the normal (3, 4, 0): only the point (0, 0, 0) is returned | `C139_inside_violated` |
| `Ray::intersects` and `Ray::intersectionWith` for coordinates near the largest double | the parameter is not a number: `intersects` says no though the ray meets the plane, `intersectionWith` returns a point that is not a number | `C139_agree_violated` |
| `Ellipsoid::contains (Point)` with the quaternion `(0, 0, 0, 1 + 2^-51)`, unitary at the tolerance of the code | the unit sphere does not contain `(1, 0, 0)`: the computed axes have the length `1 + 2^-50` and the tolerance is nine units of rounding | `C140_own_violated` |
| `Transformation::RotationAround (Point, ..)`, plane and space, half turn about `(1, 2)` and `(1, 2, 0)` with a correctly rounded sine and cosine | the point about which one turns is moved, to `x = 1 - 2^-52` | `C141_fixed_violated`, `C141_space_violated` |
| `Plane::contains (Segment)`, plane through the origin with normal `(3, 4, 0)`, segment from the origin to `(4, -3, 0)` | the plane contains the line along the segment but not the segment, as the stored normal `(0.6, 0.8, 0)` is rounded | `C142_segment_violated` |
| `Plane::operator ==`, normal `(1, 1, 0)`, planes through `(2^-60, 0, 0)`, `(1, -1, 0)` and the origin | the first equals the second and the second equals the third, but the first does not equal the third; equal planes have no common point | `C142_transitive_violated` |
| `RotationMatrix::VectorBasis`, source axes X and Y, destination `(30, 45, 46)` and `(32, 48, 51)` (1.1 degrees apart) | throws `RuntimeError` at the tolerance `1e-15` of the library: columns 0 and 2 of the computed matrix have a scalar product above `2e-15` | `C143_rejected_violated` |
| `RotationMatrix::Rows` and `Columns`, three zero vectors; `Rows`, X, Y and -Z | return the zero matrix and a mirror image | `C143_rows_violated` |
| `Cone::applyTransformation`, the identity, a cone along `(1, 1, 0)` | changes the axis: the normalized axis is normalized once more, and the last bit of both coordinates changes | `C144_cone_violated` |
| `Cuboid::applyTransformation`, a translation, a cuboid with axes along `(1, 1, 0)`, `(-1, 1, 0)` and Z and half lengths one | the first two half lengths become `1 - 2^-53`; the cuboid is not equal to the one made there | `C144_cuboid_violated` |
| `Plane::applyTransformation`, a translation by `2^60` and back | the plane is not equal to itself | `C144_back_violated` |
| `Transformation::operator *`, translations along X by `-2^60`, `2^60` and 1 | `(a * b) * c` is a translation by 1, `a * (b * c)` by 0; they are not equal | `C145_associative_violated` |
| `d3::Polygon`, axes `(1, 1, 0)` and `(-1, 1, 0)`, made again from its own parts | the axes are normalized again and change by a rounding; the two polygons are not equal | `C146_again_violated` |
| `d3::Polygon`, both axes `(2^600, 0, 0)` | accepted though parallel: their squared length is infinite, both become zero, and every vertex becomes the origin | `C146_overflow_violated` |
| `applyTransformation` of a triangle `(0,0) (1,0) (0,1)` or a segment of the plane, translation by `(2^60, 2^60)` | all vertices become the same point, and the translation back leaves them so | `C148_collapse_violated` |
| `d2::Transformation::operator *`, translations along X by `-2^60`, `2^60` and 1 | `(a * b) * c` is a translation by 1, `a * (b * c)` by 0; they are not equal | `C149_associative_violated` |
| `d2::Transformation::getInverse`, translation along X by `2^60` | the point `(1, 0)` moved by it and by its inverse becomes `(0, 0)` | `C150_back_violated` |
| `d2::object::PointSet::applyTransformation`, `{(0, 0), (1, 0)}` translated by `2^60` along both axes and back | the set has one point | `C151_collapse_violated` |
| `d2::object::Point::applyTransformation`, the identity and a point with an infinite coordinate | the other coordinate becomes NaN, though a composite of the same point is left as it is | `C151_identity_violated` |
| `d3::object::PointSet::applyTransformation`, `{(0, 0, 0), (1, 0, 0)}` translated by `2^60` | the set has one point | `C152_collapse_violated` |
| `d3::object::Point::applyTransformation`, the identity and a point with an infinite coordinate | the other coordinates become NaN, though a composite of the same point is left as it is | `C152_identity_violated` |

Further observations that are not violations of a stated property: `applyTo` of an undefined transformation does not throw; `Plane` accepts a zero
normal (its plane contains every point, `C45_constructor`); `Sphere` accepts a negative radius; a half-defined `Angle` is not rejected by `+`;
`Pyramid` is not cut off at its base.

## 6. What is not modelled

* The Python bindings, the tests, the build files. `2D/Object/MultiLineString.hpp` declares a class that has no source file.
* Printing functions, and the text forms of objects (WKT), except where a property says so.
* Floating point outside the files `Double*.lean`, see section 4. Properties about the code whose truth depends on rounding (the step control of odeint)
  are labelled partial or mention it in their note.

## 7. Mutation testing

`seeded/LOG.jsonl` has one line per attempt: a realistic bug is planted in a scratch copy of the model and the project is rebuilt; the
theorems whose proofs break, directly or through lemmas, are recorded, and those that should have broken but did not are tightened.
