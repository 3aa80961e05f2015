{"id": "C01", "title": "Interval bounds stay ordered under construction and setters", "statement": "Any interval obtained by a constructor or factory call that did not throw, followed by any sequence of setType / setLowerBound / setUpperBound calls (each of which may throw), never has a lower bound greater than its upper bound when both bounds are defined; and a setter call that throws leaves the interval exactly as it was.", "quantifier": "every ordered value type, every constructor argument triple, every finite sequence of setter calls with any arguments", "why_tests_cant": "The sequences of setter calls are unbounded and values range over an arbitrary ordered type; a test checks only some sequences.", "anchors": ["src/OpenSpaceToolkit/Mathematics/Object/Interval.tpp:Interval::Interval", "src/OpenSpaceToolkit/Mathematics/Object/Interval.tpp:setType", "src/OpenSpaceToolkit/Mathematics/Object/Interval.tpp:setLowerBound", "src/OpenSpaceToolkit/Mathematics/Object/Interval.tpp:setUpperBound"]}
{"id": "C02", "title": "A defined interval is never empty", "statement": "Every defined interval that can be obtained through the public API contains at least one value (over a densely ordered value type such as the reals).", "quantifier": "every interval reachable through constructors, factories, setters, getIntersectionWith, getUnionWith", "why_tests_cant": "Needs every reachable interval, including ones made by setters; sampling constructors does not reveal the state left by setters.", "anchors": ["src/OpenSpaceToolkit/Mathematics/Object/Interval.tpp:Interval::Interval", "src/OpenSpaceToolkit/Mathematics/Object/Interval.tpp:setType", "src/OpenSpaceToolkit/Mathematics/Object/Interval.tpp:setLowerBound", "src/OpenSpaceToolkit/Mathematics/Object/Interval.tpp:getIntersectionWith", "src/OpenSpaceToolkit/Mathematics/Object/Interval.tpp:getUnionWith"]}
{"id": "C03", "title": "Interval membership and subset tests agree with the set of points", "statement": "contains(value) is true exactly for the values between the bounds, bounds included according to the interval type; contains(interval) is true exactly when every value of the argument is a value of the receiver; intersects(interval) is true exactly when the two intervals share a value; isDegenerate is true exactly when the interval has a single value.", "quantifier": "every pair of defined valid intervals over a densely ordered type, every value", "why_tests_cant": "Subset and sharing a point quantify over infinitely many values and 16 type combinations times all relative bound positions.", "anchors": ["src/OpenSpaceToolkit/Mathematics/Object/Interval.tpp:contains", "src/OpenSpaceToolkit/Mathematics/Object/Interval.tpp:intersects", "src/OpenSpaceToolkit/Mathematics/Object/Interval.tpp:isDegenerate", "src/OpenSpaceToolkit/Mathematics/Object/Interval.tpp:checkAgainstLowerBound", "src/OpenSpaceToolkit/Mathematics/Object/Interval.tpp:checkAgainstUpperBound"]}
{"id": "C04", "title": "getIntersectionWith is set intersection", "statement": "For two defined valid intervals, a.getIntersectionWith(b) is a defined valid interval containing exactly the values in both a and b, or is Undefined, and it is Undefined exactly when a and b have no value in common. Hence it is commutative, associative and idempotent as a set.", "quantifier": "every pair of defined valid intervals over a densely ordered type", "why_tests_cant": "Equality of infinite sets for all bounds and type combinations.", "anchors": ["src/OpenSpaceToolkit/Mathematics/Object/Interval.tpp:getIntersectionWith"]}
{"id": "C05", "title": "getUnionWith is set union exactly when the union is an interval", "statement": "For two defined valid intervals, a.getUnionWith(b) is defined exactly when the union of the two sets of values has no hole, and then it contains exactly the values in a or b.", "quantifier": "every pair of defined valid intervals over a densely ordered type", "why_tests_cant": "Existence of a hole quantifies over all values; touching open/closed bounds give many corner cases.", "anchors": ["src/OpenSpaceToolkit/Mathematics/Object/Interval.tpp:getUnionWith"]}
{"id": "C06", "title": "Interval equality is extensional and an equivalence", "statement": "On defined valid intervals, == is reflexive, symmetric and transitive, and two intervals are == exactly when they contain the same values; an undefined interval is not equal to anything.", "quantifier": "every pair/triple of intervals", "why_tests_cant": "Extensionality quantifies over all values of an infinite type.", "anchors": ["src/OpenSpaceToolkit/Mathematics/Object/Interval.tpp:operator=="]}
{"id": "C07", "title": "Merge preserves the covered set", "statement": "Merge(list) covers exactly the values covered by some interval in the list, whatever the order and overlap of the intervals and however ties in the (unstable) sort are broken, and every interval of the result is defined and valid.", "quantifier": "every finite list of defined valid intervals, every outcome of the unstable sort, every value", "why_tests_cant": "Lists of unbounded length and all nondeterministic sort outcomes.", "anchors": ["src/OpenSpaceToolkit/Mathematics/Object/Interval.tpp:Merge", "src/OpenSpaceToolkit/Mathematics/Object/Interval.tpp:Sort", "src/OpenSpaceToolkit/Mathematics/Object/Interval.tpp:getUnionWith"]}
{"id": "C08", "title": "Merge returns a normal form", "statement": "The intervals returned by Merge are in increasing order, pairwise disjoint and pairwise separated (no two of them could be unioned into one interval); hence Merge is idempotent and two lists covering the same set give the same result.", "quantifier": "every finite list of defined valid intervals over a densely ordered type, every outcome of the unstable sort", "why_tests_cant": "Uniqueness of normal form needs all lists and all sort outcomes; failing orders of ties are easily missed by tests.", "anchors": ["src/OpenSpaceToolkit/Mathematics/Object/Interval.tpp:Merge", "src/OpenSpaceToolkit/Mathematics/Object/Interval.tpp:Sort"]}
{"id": "C09", "title": "GetGaps is the complement within an interval", "statement": "GetGaps(list, interval) covers exactly the values of the interval that are in no interval of the list.", "quantifier": "every finite list of defined valid intervals, every defined valid reference interval (or none), every value", "why_tests_cant": "Lists of unbounded length and all values; end-point cases are measure-zero.", "anchors": ["src/OpenSpaceToolkit/Mathematics/Object/Interval.tpp:GetGaps"]}
{"id": "C10", "title": "LogicalOr is union of interval lists", "statement": "LogicalOr(a, b) covers exactly the values covered by a or by b.", "quantifier": "every two finite lists of defined valid intervals, every value", "why_tests_cant": "Lists of unbounded length and all values.", "anchors": ["src/OpenSpaceToolkit/Mathematics/Object/Interval.tpp:LogicalOr"]}
{"id": "C11", "title": "LogicalAnd is intersection of interval lists", "statement": "LogicalAnd(a, b) covers exactly the values covered both by a and by b.", "quantifier": "every two finite lists of defined valid intervals, every value", "why_tests_cant": "Lists of unbounded length and all values; isolated points are easily missed.", "anchors": ["src/OpenSpaceToolkit/Mathematics/Object/Interval.tpp:LogicalAnd", "src/OpenSpaceToolkit/Mathematics/Object/Interval.tpp:GetGaps"]}
{"id": "C12", "title": "Sort returns an ordered permutation or throws", "statement": "Sort returns the same intervals (same multiset) ordered by the requested bound in the requested direction when all are defined, and throws when some interval is undefined, rather than return a partly sorted list.", "quantifier": "every finite list, both flags, every outcome of the unstable sort", "why_tests_cant": "Lists of unbounded length, every permutation.", "anchors": ["src/OpenSpaceToolkit/Mathematics/Object/Interval.tpp:Sort"]}
{"id": "C13", "title": "Clip restricts the covered set to the clipping interval", "statement": "Clip(list, c) covers exactly the values of c covered by the list, keeps the order, contains no undefined interval, and throws when the clipping interval or the list is unsuitable.", "quantifier": "every finite list, every clipping interval, every value", "why_tests_cant": "Lists of unbounded length and all values.", "anchors": ["src/OpenSpaceToolkit/Mathematics/Object/Interval.tpp:Clip"]}
{"id": "C14", "title": "generateArrayWithStep stays inside the interval and is evenly stepped", "statement": "For a defined interval and a non-zero step, the generated array is strictly monotone in the direction of the step, all consecutive differences are at most |step| and equal to it except possibly the last, it includes a bound exactly when the interval type includes it, and every element belongs to the interval; a zero or undefined step or an undefined interval throws.", "quantifier": "every defined valid interval and every step over the reals", "why_tests_cant": "All bounds and steps, arrays of unbounded length, termination of the loop.", "anchors": ["src/OpenSpaceToolkit/Mathematics/Object/Interval.tpp:generateArrayWithStep"]}
{"id": "C15", "title": "generateArrayWithSize returns exactly the requested evenly spaced values", "statement": "For a defined non-degenerate interval and size n >= 2, the result has exactly n elements, is evenly spaced, all elements belong to the interval, and a bound is an element exactly when the interval type includes it; a size below 2 throws.", "quantifier": "every defined valid interval and every size", "why_tests_cant": "All sizes and bounds.", "anchors": ["src/OpenSpaceToolkit/Mathematics/Object/Interval.tpp:generateArrayWithSize"]}
{"id": "C16", "title": "Angle unit conversions are exact inverses and path independent", "statement": "Converting an angle to any unit and rebuilding it from that number gives an equal angle of the same measure in every unit; converting through an intermediate unit gives the same number as converting directly; only a defined angle in a defined unit converts, otherwise it throws.", "quantifier": "every defined angle, every pair/triple of units", "why_tests_cant": "All real values; identity must hold for all of them.", "anchors": ["src/OpenSpaceToolkit/Mathematics/Geometry/Angle.cpp:in", "src/OpenSpaceToolkit/Mathematics/Geometry/Angle.cpp:SIRatio", "src/OpenSpaceToolkit/Mathematics/Geometry/Angle.cpp:Radians", "src/OpenSpaceToolkit/Mathematics/Geometry/Angle.cpp:Degrees"]}
{"id": "C17", "title": "Range reduction yields the unique representative", "statement": "inRadians/inDegrees/inArcminutes/inArcseconds(lo, hi) throws unless hi - lo is exactly one full turn; otherwise it terminates and returns the unique value in [lo, hi) that differs from the angle by a whole number of turns.", "quantifier": "every defined angle and every range", "why_tests_cant": "Loop termination and congruence for every real value and range.", "anchors": ["src/OpenSpaceToolkit/Mathematics/Geometry/Angle.cpp:ReduceRange", "src/OpenSpaceToolkit/Mathematics/Geometry/Angle.cpp:inRadians", "src/OpenSpaceToolkit/Mathematics/Geometry/Angle.cpp:inDegrees"]}
{"id": "C18", "title": "Angle equality is congruence modulo a full turn", "statement": "Two defined angles are == exactly when their measures differ by a whole number of turns, whatever units they are held in; so == is an equivalence relation on defined angles and an undefined angle is not equal to anything.", "quantifier": "every pair/triple of angles in all units", "why_tests_cant": "Transitivity and symmetry across units for all reals.", "anchors": ["src/OpenSpaceToolkit/Mathematics/Geometry/Angle.cpp:operator==", "src/OpenSpaceToolkit/Mathematics/Geometry/Angle.cpp:ReduceRange"]}
{"id": "C19", "title": "Angle arithmetic agrees with arithmetic of measures", "statement": "+, -, unary -, * and / by a number act on the measure as the corresponding real operation and keep the unit of the left operand; + and - respect ==-equality; dividing by zero or using an operand without a unit or an undefined number throws, and no operation ever makes a defined angle from an undefined one; compound assignments give the same result as the binary operators, and leave the receiver unchanged on a throw.", "quantifier": "every pair of angles, every scalar", "why_tests_cant": "All reals and unit pairs.", "anchors": ["src/OpenSpaceToolkit/Mathematics/Geometry/Angle.cpp:operator+", "src/OpenSpaceToolkit/Mathematics/Geometry/Angle.cpp:operator-", "src/OpenSpaceToolkit/Mathematics/Geometry/Angle.cpp:operator*", "src/OpenSpaceToolkit/Mathematics/Geometry/Angle.cpp:operator/", "src/OpenSpaceToolkit/Mathematics/Geometry/Angle.cpp:operator+="]}
{"id": "C20", "title": "Angle isNear is circular distance", "statement": "isNear(a, b, tol) is true exactly when the shortest circular distance between the two angles is at most |tol|; it is symmetric, independent of units and of added full turns; it throws exactly when an argument is undefined.", "quantifier": "every pair of angles and tolerance", "why_tests_cant": "All reals.", "anchors": ["src/OpenSpaceToolkit/Mathematics/Geometry/Angle.cpp:isNear"]}
{"id": "C21", "title": "Angle between two vectors", "statement": "Between(u, v) is in [0, pi], symmetric, invariant under positive scaling of either vector, and its cosine is u.v/(|u||v|); it throws exactly for undefined or (nearly) zero vectors.", "quantifier": "every pair of 2D or 3D vectors", "why_tests_cant": "All real vectors.", "anchors": ["src/OpenSpaceToolkit/Mathematics/Geometry/Angle.cpp:Between"]}
{"id": "C22", "title": "Quaternion products form a normed division algebra", "statement": "The quaternion product is associative and bilinear, Unit() is neutral, the norm is multiplicative, the conjugate reverses products, a quaternion of norm above the tolerance times its inverse is Unit(), and q1 / q2 followed by * q2 gives q1 back; dotMultiply is the product with operands exchanged.", "quantifier": "every defined quaternions", "why_tests_cant": "Universal algebraic identities over the reals.", "anchors": ["src/OpenSpaceToolkit/Mathematics/Geometry/3D/Transformation/Rotation/Quaternion.cpp:crossMultiply", "src/OpenSpaceToolkit/Mathematics/Geometry/3D/Transformation/Rotation/Quaternion.cpp:dotMultiply", "src/OpenSpaceToolkit/Mathematics/Geometry/3D/Transformation/Rotation/Quaternion.cpp:toConjugate", "src/OpenSpaceToolkit/Mathematics/Geometry/3D/Transformation/Rotation/Quaternion.cpp:toInverse", "src/OpenSpaceToolkit/Mathematics/Geometry/3D/Transformation/Rotation/Quaternion.cpp:operator/"]}
{"id": "C23", "title": "Rotating a vector by a unitary quaternion is a proper isometry and an action", "statement": "For unitary quaternions, q * v preserves lengths, dot products and cross products (so handedness), (q1 * q2) * v = q1 * (q2 * v), Unit() * v = v and q.toConjugate() * (q * v) = v; a quaternion that is not unitary throws.", "quantifier": "every unitary quaternions and every vectors", "why_tests_cant": "Universal identities over the reals.", "anchors": ["src/OpenSpaceToolkit/Mathematics/Geometry/3D/Transformation/Rotation/Quaternion.cpp:rotateVector", "src/OpenSpaceToolkit/Mathematics/Geometry/3D/Transformation/Rotation/Quaternion.cpp:operator*"]}
{"id": "C24", "title": "Quaternion equality is equality of rotations", "statement": "== identifies q and -q and nothing else, is an equivalence relation on defined quaternions, and two unitary quaternions are == exactly when they rotate every vector identically.", "quantifier": "every pair of quaternions, every vector", "why_tests_cant": "Quantifies over all vectors in both directions (faithfulness).", "anchors": ["src/OpenSpaceToolkit/Mathematics/Geometry/3D/Transformation/Rotation/Quaternion.cpp:operator==", "src/OpenSpaceToolkit/Mathematics/Geometry/3D/Transformation/Rotation/Quaternion.cpp:rotateVector"]}
{"id": "C25", "title": "Quaternion to rotation matrix conversion is a faithful homomorphism", "statement": "For a unitary quaternion, RotationMatrix::Quaternion(q) has orthonormal rows, determinant +1, acts on vectors as q does, maps products to products and conjugates to transposes.", "quantifier": "every unitary quaternions, every vectors", "why_tests_cant": "Universal identities.", "anchors": ["src/OpenSpaceToolkit/Mathematics/Geometry/3D/Transformation/Rotation/RotationMatrix.cpp:Quaternion", "src/OpenSpaceToolkit/Mathematics/Geometry/3D/Transformation/Rotation/Quaternion.cpp:rotateVector"]}
{"id": "C26", "title": "Rotation matrix to quaternion conversion is exact in every branch", "statement": "For every proper rotation matrix, Quaternion::RotationMatrix(m) is unitary and RotationMatrix::Quaternion of it is m again; for every unitary q, Quaternion::RotationMatrix(RotationMatrix::Quaternion(q)) == q; no division by zero occurs in any of the four branches.", "quantifier": "every proper rotation matrix / unitary quaternion", "why_tests_cant": "Four branches split the rotation group; branch boundaries are measure-zero.", "anchors": ["src/OpenSpaceToolkit/Mathematics/Geometry/3D/Transformation/Rotation/Quaternion.cpp:RotationMatrix", "src/OpenSpaceToolkit/Mathematics/Geometry/3D/Transformation/Rotation/RotationMatrix.cpp:Quaternion"]}
{"id": "C27", "title": "Rotation vector conversions agree", "statement": "For a unit axis and any angle, the quaternion and the matrix built from the rotation vector perform the same rotation (axis fixed, trace 1 + 2 cos of the angle), negating both axis and angle or adding turns gives the same rotation, and converting to a quaternion and back gives an equal rotation.", "quantifier": "every unit axis and angle", "why_tests_cant": "Universal trigonometric identities over the reals.", "anchors": ["src/OpenSpaceToolkit/Mathematics/Geometry/3D/Transformation/Rotation/RotationMatrix.cpp:RotationVector", "src/OpenSpaceToolkit/Mathematics/Geometry/3D/Transformation/Rotation/Quaternion.cpp:RotationVector", "src/OpenSpaceToolkit/Mathematics/Geometry/3D/Transformation/Rotation/RotationVector.cpp:Quaternion", "src/OpenSpaceToolkit/Mathematics/Geometry/3D/Transformation/Rotation/RotationVector.cpp:RotationMatrix"]}
{"id": "C28", "title": "Elementary rotations compose and invert", "statement": "RX, RY, RZ are proper rotations, RX(a) * RX(b) = RX(a + b) (same for Y and Z), the transpose of RX(a) is RX(-a), and RX(a) equals the rotation-vector conversion for the X axis.", "quantifier": "every angles", "why_tests_cant": "Universal trigonometric identities.", "anchors": ["src/OpenSpaceToolkit/Mathematics/Geometry/3D/Transformation/Rotation/RotationMatrix.cpp:RX", "src/OpenSpaceToolkit/Mathematics/Geometry/3D/Transformation/Rotation/RotationMatrix.cpp:RY", "src/OpenSpaceToolkit/Mathematics/Geometry/3D/Transformation/Rotation/RotationMatrix.cpp:RZ"]}
{"id": "C29", "title": "Euler angle conversions to quaternion and to matrix agree", "statement": "For every Euler angle triple and axis sequence, the matrix RotationMatrix::EulerAngle(e) and the quaternion Quaternion::EulerAngle(e) perform the same rotation.", "quantifier": "every three angles and every axis sequence", "why_tests_cant": "All angle triples and sequences.", "anchors": ["src/OpenSpaceToolkit/Mathematics/Geometry/3D/Transformation/Rotation/RotationMatrix.cpp:EulerAngle", "src/OpenSpaceToolkit/Mathematics/Geometry/3D/Transformation/Rotation/Quaternion.cpp:EulerAngle"]}
{"id": "C30", "title": "Euler angle extraction inverts the conversion", "statement": "RotationMatrix::EulerAngle(EulerAngle::RotationMatrix(m, sequence)) is m, for every rotation matrix away from the gimbal lock and every supported sequence, and the result carries the requested sequence.", "quantifier": "every proper rotation matrix, every sequence", "why_tests_cant": "All rotations.", "anchors": ["src/OpenSpaceToolkit/Mathematics/Geometry/3D/Transformation/Rotation/EulerAngle.cpp:RotationMatrix", "src/OpenSpaceToolkit/Mathematics/Geometry/3D/Transformation/Rotation/RotationMatrix.cpp:EulerAngle"]}
{"id": "C31", "title": "Interpolated quaternions stay unitary and hit the end points", "statement": "For unitary q1, q2, LERP/NLERP/SLERP at ratio 0 give q1 and at ratio 1 give q2 (as rotations); SLERP and NLERP results are unitary at every ratio in [0, 1]; a ratio outside [0, 1] throws.", "quantifier": "every pair of unitary quaternions, every ratio", "why_tests_cant": "All reals.", "anchors": ["src/OpenSpaceToolkit/Mathematics/Geometry/3D/Transformation/Rotation/Quaternion.cpp:LERP", "src/OpenSpaceToolkit/Mathematics/Geometry/3D/Transformation/Rotation/Quaternion.cpp:NLERP", "src/OpenSpaceToolkit/Mathematics/Geometry/3D/Transformation/Rotation/Quaternion.cpp:SLERP"]}
{"id": "C32", "title": "Quaternion exponential, logarithm and power laws", "statement": "exp(log(q)) = q for every quaternion of non-zero norm, log(exp(q)) = q for vector part shorter than pi, and q^a * q^b = q^(a+b).", "quantifier": "every quaternion and exponents", "why_tests_cant": "All reals.", "anchors": ["src/OpenSpaceToolkit/Mathematics/Geometry/3D/Transformation/Rotation/Quaternion.cpp:toExp", "src/OpenSpaceToolkit/Mathematics/Geometry/3D/Transformation/Rotation/Quaternion.cpp:toLog", "src/OpenSpaceToolkit/Mathematics/Geometry/3D/Transformation/Rotation/Quaternion.cpp:toPower"]}
{"id": "C33", "title": "Angular difference is a rotation-invariant distance", "statement": "angularDifferenceWith is in [0, pi], symmetric, zero exactly when the quaternions are ==, and invariant under multiplying both by a unitary quaternion.", "quantifier": "every unitary quaternions", "why_tests_cant": "All reals.", "anchors": ["src/OpenSpaceToolkit/Mathematics/Geometry/3D/Transformation/Rotation/Quaternion.cpp:angularDifferenceWith"]}
{"id": "C34", "title": "ShortestRotation maps the first vector on the second", "statement": "Quaternion::ShortestRotation(u, v) is unitary and rotates the direction of u onto that of v (in the library's rotation convention), for all non-zero, not opposite u and v.", "quantifier": "every pair of vectors", "why_tests_cant": "All reals.", "anchors": ["src/OpenSpaceToolkit/Mathematics/Geometry/3D/Transformation/Rotation/Quaternion.cpp:ShortestRotation"]}
{"id": "C35", "title": "A rotation matrix object is a proper rotation", "statement": "Every RotationMatrix that the public constructors and factories accept is orthonormal with determinant +1 (up to the tolerance), and stays so under products and transposition.", "quantifier": "every constructor argument, every sequence of operations", "why_tests_cant": "All 3x3 real matrices.", "anchors": ["src/OpenSpaceToolkit/Mathematics/Geometry/3D/Transformation/Rotation/RotationMatrix.cpp:RotationMatrix", "src/OpenSpaceToolkit/Mathematics/Geometry/3D/Transformation/Rotation/RotationMatrix.cpp:Rows", "src/OpenSpaceToolkit/Mathematics/Geometry/3D/Transformation/Rotation/RotationMatrix.cpp:Columns", "src/OpenSpaceToolkit/Mathematics/Geometry/3D/Transformation/Rotation/RotationMatrix.cpp:operator*"]}
{"id": "C36", "title": "Element access is memory safe", "statement": "RotationMatrix::operator()(i, j) returns the element for 0 <= i, j <= 2 and throws for every other index pair; getRowAt / getColumnAt likewise.", "quantifier": "every pair of indices", "why_tests_cant": "All indices; out-of-bounds reads need not fail in tests.", "anchors": ["src/OpenSpaceToolkit/Mathematics/Geometry/3D/Transformation/Rotation/RotationMatrix.cpp:operator()", "src/OpenSpaceToolkit/Mathematics/Geometry/3D/Transformation/Rotation/RotationMatrix.cpp:getRowAt", "src/OpenSpaceToolkit/Mathematics/Geometry/3D/Transformation/Rotation/RotationMatrix.cpp:getColumnAt"]}
{"id": "C37", "title": "Composition of transformations is function composition", "statement": "(A * B).applyTo(x) = A.applyTo(B.applyTo(x)) for points and vectors, the product is associative with Identity() neutral, and A.getInverse() undoes A for every rigid A, in 2D and 3D; an undefined factor throws.", "quantifier": "every defined transformations, points and vectors", "why_tests_cant": "Universal identities.", "anchors": ["src/OpenSpaceToolkit/Mathematics/Geometry/3D/Transformation.cpp:operator*", "src/OpenSpaceToolkit/Mathematics/Geometry/3D/Transformation.cpp:applyTo", "src/OpenSpaceToolkit/Mathematics/Geometry/3D/Transformation.cpp:getInverse", "src/OpenSpaceToolkit/Mathematics/Geometry/2D/Transformation.cpp:operator*", "src/OpenSpaceToolkit/Mathematics/Geometry/2D/Transformation.cpp:applyTo"]}
{"id": "C38", "title": "Rigid flag is sound and complete", "statement": "For every transformation that the public API can build (identity, translations, rotations, rotation about a point, products and inverses), isRigid() is true exactly when it preserves all distances.", "quantifier": "every finite expression built from the factories with * and getInverse, in 2D and 3D", "why_tests_cant": "Unbounded expression trees and all pairs of points.", "anchors": ["src/OpenSpaceToolkit/Mathematics/Geometry/3D/Transformation.cpp:isRigid", "src/OpenSpaceToolkit/Mathematics/Geometry/3D/Transformation.cpp:operator*=", "src/OpenSpaceToolkit/Mathematics/Geometry/2D/Transformation.cpp:isRigid", "src/OpenSpaceToolkit/Mathematics/Geometry/2D/Transformation.cpp:operator*="]}
{"id": "C39", "title": "Every constructible transformation is a proper isometry", "statement": "Every transformation built by the public factories, products and inverses preserves distances, dot products of vectors and handedness.", "quantifier": "every finite expression built from the factories", "why_tests_cant": "Unbounded expression trees.", "anchors": ["src/OpenSpaceToolkit/Mathematics/Geometry/3D/Transformation.cpp:Translation", "src/OpenSpaceToolkit/Mathematics/Geometry/3D/Transformation.cpp:Rotation", "src/OpenSpaceToolkit/Mathematics/Geometry/3D/Transformation.cpp:RotationAround", "src/OpenSpaceToolkit/Mathematics/Geometry/2D/Transformation.cpp:Rotation"]}
{"id": "C40", "title": "Transformation type labels compose consistently", "statement": "The type label of a product depends only on the labels of the factors, the label composition is associative and commutative with Identity neutral, and the label is truthful: Identity means the identity map, Translation moves all points by one vector and fixes vectors, Rotation fixes the origin.", "quantifier": "every finite expression built from the factories", "why_tests_cant": "Unbounded expression trees.", "anchors": ["src/OpenSpaceToolkit/Mathematics/Geometry/3D/Transformation.cpp:operator*=", "src/OpenSpaceToolkit/Mathematics/Geometry/3D/Transformation.cpp:getType", "src/OpenSpaceToolkit/Mathematics/Geometry/2D/Transformation.cpp:operator*="]}
{"id": "C41", "title": "Rotation about a point fixes that point", "statement": "RotationAround(p, r) leaves p fixed, keeps the distance of every point to p, and about the origin equals Rotation(r), in 2D and 3D.", "quantifier": "every point, rotation and other point", "why_tests_cant": "All reals.", "anchors": ["src/OpenSpaceToolkit/Mathematics/Geometry/3D/Transformation.cpp:RotationAround", "src/OpenSpaceToolkit/Mathematics/Geometry/2D/Transformation.cpp:RotationAround"]}
{"id": "C42", "title": "Segment containment and distance", "statement": "Segment::contains(p) is true exactly when p = A + t (B - A) for some t in [0, 1]; distanceTo(p) is the minimum distance from p to a point of the segment, attained; it is zero exactly when the segment contains p; both are unchanged when the end points are exchanged (2D and 3D).", "quantifier": "every segment (including degenerate) and point", "why_tests_cant": "Minimum over a continuum.", "anchors": ["src/OpenSpaceToolkit/Mathematics/Geometry/2D/Object/Segment.cpp", "src/OpenSpaceToolkit/Mathematics/Geometry/3D/Object/Segment.cpp"]}
{"id": "C43", "title": "Line containment, distance and equality", "statement": "Line::contains(p) is true exactly when p = origin + t direction for some real t; distanceTo(p) is the minimum distance to the line; two lines are == exactly when they contain the same points (2D and 3D).", "quantifier": "every line and point", "why_tests_cant": "Minimum over, and equality of, infinite point sets.", "anchors": ["src/OpenSpaceToolkit/Mathematics/Geometry/2D/Object/Line.cpp", "src/OpenSpaceToolkit/Mathematics/Geometry/3D/Object/Line.cpp"]}
{"id": "C44", "title": "Ray containment and distance", "statement": "Ray::contains(p) is true exactly when p = origin + t direction with t >= 0; distanceTo(p) is the minimum distance to the ray; two rays are == exactly when they contain the same points.", "quantifier": "every ray and point", "why_tests_cant": "Minimum over a continuum.", "anchors": ["src/OpenSpaceToolkit/Mathematics/Geometry/3D/Object/Ray.cpp"]}
{"id": "C45", "title": "Plane containment of points, lines, rays and segments", "statement": "Plane::contains(object) is true exactly when every point of the object lies in the plane, for points, point sets, lines, rays and segments; two planes are == exactly when they contain the same points.", "quantifier": "every plane with non-zero normal and every object", "why_tests_cant": "Infinite point sets.", "anchors": ["src/OpenSpaceToolkit/Mathematics/Geometry/3D/Object/Plane.cpp"]}
{"id": "C46", "title": "Intersection of a plane with a line, ray or segment", "statement": "intersects(Plane) is true exactly when the two share a point, and intersectionWith(Plane) returns an intersection whose points are exactly the shared points (Empty exactly when there are none), for lines, rays and segments.", "quantifier": "every plane with non-zero normal and every line/ray/segment", "why_tests_cant": "Infinite point sets; parallel and touching cases are measure-zero.", "anchors": ["src/OpenSpaceToolkit/Mathematics/Geometry/3D/Object/Line.cpp:intersectionWith", "src/OpenSpaceToolkit/Mathematics/Geometry/3D/Object/Ray.cpp:intersectionWith", "src/OpenSpaceToolkit/Mathematics/Geometry/3D/Object/Segment.cpp:intersectionWith"]}
{"id": "C47", "title": "Applying a transformation commutes with containment and distance", "statement": "For every rigid transformation T, object X (point, point set, segment, line, ray, plane, sphere, line string) and point p: X contains p exactly when T(X) contains T(p), and distanceTo is unchanged by applying T to both.", "quantifier": "every rigid transformation, object and point", "why_tests_cant": "All isometries and all points.", "anchors": ["src/OpenSpaceToolkit/Mathematics/Geometry/3D/Object/Segment.cpp:applyTransformation", "src/OpenSpaceToolkit/Mathematics/Geometry/3D/Object/Plane.cpp:applyTransformation", "src/OpenSpaceToolkit/Mathematics/Geometry/3D/Object/Sphere.cpp:applyTransformation", "src/OpenSpaceToolkit/Mathematics/Geometry/3D/Object/Line.cpp:applyTransformation"]}
{"id": "C48", "title": "Sphere containment is the surface and respects radius", "statement": "Sphere::contains(p) is true exactly when | |p - c|^2 - r^2 | is below the tolerance; the points returned by intersectionWith(Line/Ray/Segment) lie both on the sphere surface and on the other object, and with onlyInSight the one nearest to the ray origin is returned.", "quantifier": "every sphere, line, ray, segment", "why_tests_cant": "Continuum of inputs; solid/surface distinction.", "anchors": ["src/OpenSpaceToolkit/Mathematics/Geometry/3D/Object/Sphere.cpp"]}
{"id": "C49", "title": "Ellipsoid containment agrees with its axes", "statement": "The six points centre +- semi-axis * axis (getFirstAxis, getSecondAxis, getThirdAxis) are contained in the ellipsoid, and contains(p) agrees with the quadratic form of getMatrix().", "quantifier": "every ellipsoid with every orientation", "why_tests_cant": "All orientations; tests use the default or symmetric ones.", "anchors": ["src/OpenSpaceToolkit/Mathematics/Geometry/3D/Object/Ellipsoid.cpp:contains", "src/OpenSpaceToolkit/Mathematics/Geometry/3D/Object/Ellipsoid.cpp:getMatrix", "src/OpenSpaceToolkit/Mathematics/Geometry/3D/Object/Ellipsoid.cpp:getFirstAxis"]}
{"id": "C50", "title": "Cone containment and distance", "statement": "Cone::contains(p) is true exactly when p is the apex or the angle between the axis and p - apex is at most the cone angle; distanceTo(p) is the minimum distance to the lateral surface; Ray, Segment and PointSet containment mean containment of all their points.", "quantifier": "every cone of half-angle below 90 degrees, every object", "why_tests_cant": "Minimum over a continuum.", "anchors": ["src/OpenSpaceToolkit/Mathematics/Geometry/3D/Object/Cone.cpp"]}
{"id": "C51", "title": "Cuboid contains its own vertices", "statement": "Every vertex returned by getVertices() is contained in the cuboid, and contains(p) is true only for points on its faces.", "quantifier": "every cuboid with orthonormal axes and positive extents", "why_tests_cant": "All cuboids.", "anchors": ["src/OpenSpaceToolkit/Mathematics/Geometry/3D/Object/Cuboid.cpp:getVertices", "src/OpenSpaceToolkit/Mathematics/Geometry/3D/Object/Cuboid.cpp:contains"]}
{"id": "C52", "title": "Point set nearness and closest point", "statement": "PointSet::isNear(other, tol) is true exactly when there is a one-to-one matching of the two sets in which matched points are within tol (independently of iteration order, hence symmetric); getPointClosestTo(p) returns an element at minimal distance and distanceTo(p) is that distance.", "quantifier": "every finite point sets, every iteration order of the hash container, every tolerance", "why_tests_cant": "All matchings and iteration orders.", "anchors": ["src/OpenSpaceToolkit/Mathematics/Geometry/2D/Object/PointSet.cpp", "src/OpenSpaceToolkit/Mathematics/Geometry/3D/Object/PointSet.cpp"]}
{"id": "C53", "title": "Line string containment", "statement": "LineString::contains(p) is true exactly when p lies on one of the consecutive segments (or equals the only point); reversing the point order does not change the answer.", "quantifier": "every line string of any length and every point", "why_tests_cant": "Unbounded length.", "anchors": ["src/OpenSpaceToolkit/Mathematics/Geometry/2D/Object/LineString.cpp"]}
{"id": "C54", "title": "Composite and intersection concatenation is a monoid", "statement": "operator + on composites and intersections concatenates, is associative, has the empty composite/intersection as neutral element on defined operands, += equals +, and throws when an operand is undefined.", "quantifier": "every composites/intersections", "why_tests_cant": "Unbounded sizes.", "anchors": ["src/OpenSpaceToolkit/Mathematics/Geometry/3D/Object/Composite.cpp", "src/OpenSpaceToolkit/Mathematics/Geometry/3D/Intersection.cpp", "src/OpenSpaceToolkit/Mathematics/Geometry/2D/Object/Composite.cpp", "src/OpenSpaceToolkit/Mathematics/Geometry/2D/Intersection.cpp"]}
{"id": "C55", "title": "Intersection type summarises the objects", "statement": "The type of an intersection is Empty exactly when it has no object, Complex exactly when it holds objects of two different types, and otherwise the common type; it does not depend on the order of the objects and is preserved by + and += .", "quantifier": "every finite list of objects of all concrete types", "why_tests_cant": "Unbounded lists and all orders.", "anchors": ["src/OpenSpaceToolkit/Mathematics/Geometry/3D/Intersection.cpp:TypeFromObjects", "src/OpenSpaceToolkit/Mathematics/Geometry/2D/Intersection.cpp:TypeFromObjects"]}
{"id": "C56", "title": "Object equality is reflexive", "statement": "A defined object compared through the base-class == with itself is equal, for every concrete type.", "quantifier": "every concrete object type in 2D and 3D", "why_tests_cant": "Finite dispatch, infinitely many objects.", "anchors": ["src/OpenSpaceToolkit/Mathematics/Geometry/2D/Object.cpp:operator==", "src/OpenSpaceToolkit/Mathematics/Geometry/3D/Object.cpp:operator=="]}
{"id": "C57", "title": "Dispatch of intersects is symmetric", "statement": "Through the base-class interface, a.intersects(b) and b.intersects(a) are either both implemented, with the same answer, or both report ToBeImplemented.", "quantifier": "every pair of concrete 3D object types", "why_tests_cant": "All pairs of types and objects.", "anchors": ["src/OpenSpaceToolkit/Mathematics/Geometry/3D/Object.cpp:intersects"]}
{"id": "C58", "title": "Polygon edges and vertices are indexed consistently", "statement": "For a polygon without holes with n vertices there are n edges, edge i joins vertex i to vertex i + 1 modulo n, the sequences returned by getEdges/getVertices agree with getEdgeAt/getVertexAt, and indices n and above throw.", "quantifier": "every n and every vertex list", "why_tests_cant": "Unbounded n.", "anchors": ["src/OpenSpaceToolkit/Mathematics/Geometry/2D/Object/Polygon.cpp:getEdgeAt", "src/OpenSpaceToolkit/Mathematics/Geometry/2D/Object/Polygon.cpp:getVertexAt"]}
{"id": "C59", "title": "3D polygon embeds the 2D polygon isometrically and commutes with transformations", "statement": "The 3D vertices are at the same mutual distances as the 2D ones, lie in the polygon plane, and the vertices of a transformed polygon are the transformed vertices.", "quantifier": "every polygon with orthonormal axes, every transformation", "why_tests_cant": "All reals.", "anchors": ["src/OpenSpaceToolkit/Mathematics/Geometry/3D/Object/Polygon.cpp"]}
{"id": "C60", "title": "Pyramid containment is the cone over its base", "statement": "Pyramid::contains(p) is true exactly when p is the apex or the ray from the apex through p meets the base; so it is closed under scaling from the apex, contains its base vertices and, for a convex base, contains every segment whose end points it contains.", "quantifier": "every pyramid, point and segment", "why_tests_cant": "Infinite point sets.", "anchors": ["src/OpenSpaceToolkit/Mathematics/Geometry/3D/Object/Pyramid.cpp"]}
{"id": "C61", "title": "Linear interpolation passes through the data and stays between neighbours", "statement": "For strictly increasing nodes, evaluate(x_i) = y_i; between two nodes the value is the straight line between the neighbouring values (so lies between them componentwise); outside the range it is the end value; the derivative is the slope of the bracketing interval; an affine data set is reproduced exactly inside the range.", "quantifier": "every strictly increasing node list of any length, every query", "why_tests_cant": "Unbounded lengths and all queries.", "anchors": ["src/OpenSpaceToolkit/Mathematics/CurveFitting/Interpolator/Linear.cpp"]}
{"id": "C62", "title": "Zero-order interpolation holds the last value", "statement": "For increasing nodes, evaluate(x) is the value at the greatest node not above x (the first value if there is none), and the derivative is zero.", "quantifier": "every sorted node list, every query", "why_tests_cant": "Unbounded lengths.", "anchors": ["src/OpenSpaceToolkit/Mathematics/CurveFitting/Interpolator/ZeroOrder.cpp"]}
{"id": "C63", "title": "Interpolators reject malformed data before touching it", "statement": "Constructing an interpolator with mismatched sizes or too few points throws and never reads outside the supplied arrays.", "quantifier": "every pair of arrays, every interpolation type", "why_tests_cant": "Out-of-bounds reads need not fail in tests.", "anchors": ["src/OpenSpaceToolkit/Mathematics/CurveFitting/Interpolator/BarycentricRational.cpp", "src/OpenSpaceToolkit/Mathematics/CurveFitting/Interpolator/CubicSpline.cpp", "src/OpenSpaceToolkit/Mathematics/CurveFitting/Interpolator/Linear.cpp", "src/OpenSpaceToolkit/Mathematics/CurveFitting/Interpolator/ZeroOrder.cpp"]}
{"id": "C64", "title": "Log-Euclidean interpolation keeps matrices symmetric positive definite", "statement": "For symmetric positive definite node matrices, every interpolated matrix is symmetric positive definite, equals the data at nodes, and on the interior of an interval of two equal matrices is constant.", "quantifier": "every list of SPD matrices of any dimension, every query", "why_tests_cant": "All dimensions and queries.", "anchors": ["src/OpenSpaceToolkit/Mathematics/CurveFitting/MatrixInterpolator/LogEuclideanRiemannian.cpp"]}
{"id": "C65", "title": "Numerical solver integrates towards the requested times", "statement": "integrateTime(state, times) steps in the direction of the requested times and returns one state per requested time with the requested times, in order; the step sign agrees with the direction of integration.", "quantifier": "every start time, list of times and step", "why_tests_cant": "All sign combinations.", "anchors": ["src/OpenSpaceToolkit/Mathematics/Solver/NumericalSolver.cpp:integrateTime", "src/OpenSpaceToolkit/Mathematics/Solver/NumericalSolver.cpp:getSignedTimeStep"]}
{"id": "C66", "title": "Integrating to a time is integrating the same system over the interval", "statement": "integrateTime(state, start, end) evaluates the system of equations at times between start and end.", "quantifier": "every system of equations (including time-dependent), start and end", "why_tests_cant": "All systems.", "anchors": ["src/OpenSpaceToolkit/Mathematics/Solver/NumericalSolver.cpp:integrateTime", "src/OpenSpaceToolkit/Mathematics/Solver/NumericalSolver.cpp:integrateDuration"]}
{"id": "C67", "title": "Observed states bracket the integration and are cleared", "statement": "After an integration call, the observed states are those of this call only, start with the initial state when logging, and a zero duration returns the initial state unchanged.", "quantifier": "every history of integration calls", "why_tests_cant": "Unbounded histories.", "anchors": ["src/OpenSpaceToolkit/Mathematics/Solver/NumericalSolver.cpp:integrateDuration", "src/OpenSpaceToolkit/Mathematics/Solver/NumericalSolver.cpp:observe", "src/OpenSpaceToolkit/Mathematics/Solver/NumericalSolver.cpp:accessObservedStateVectors"]}
{"id": "C68", "title": "Equal Euler angles are the same rotation", "statement": "If EulerAngle operator== says that two Euler angles are equal, they have the same axis sequence and convert to the same rotation, by the quaternion and by the matrix conversion.", "quantifier": "every pair of Euler angles, every sequence", "why_tests_cant": "Infinitely many pairs of triples, two different ways of being equal.", "anchors": ["src/OpenSpaceToolkit/Mathematics/Geometry/3D/Transformation/Rotation/EulerAngle.cpp:operator==", "src/OpenSpaceToolkit/Mathematics/Geometry/3D/Transformation/Rotation/Quaternion.cpp:EulerAngle", "src/OpenSpaceToolkit/Mathematics/Geometry/3D/Transformation/Rotation/RotationMatrix.cpp:EulerAngle"]}
{"id": "C69", "title": "Quaternion isNear compares the angular difference with the tolerance", "statement": "isNear(q, tolerance) is true exactly when the angular difference is at most the tolerance.", "quantifier": "every unitary quaternions, every tolerance", "why_tests_cant": "The tolerance is a real number and is reduced modulo a turn before the comparison.", "anchors": ["src/OpenSpaceToolkit/Mathematics/Geometry/3D/Transformation/Rotation/Quaternion.cpp:isNear"]}
{"id": "C70", "title": "Rotation vector of a matrix", "statement": "RotationVector::RotationMatrix(m) performs the rotation m, for every rotation matrix m.", "quantifier": "every rotation matrix", "why_tests_cant": "Infinitely many matrices, with special cases at the angles 0 and 180 degrees.", "anchors": ["src/OpenSpaceToolkit/Mathematics/Geometry/3D/Transformation/Rotation/RotationVector.cpp:RotationMatrix"]}
{"id": "C71", "title": "Rectified rotation vector", "statement": "rectify keeps the rotation and brings the angle to the interval [0, 180] degrees when it is at most one turn in absolute value.", "quantifier": "every axis and angle", "why_tests_cant": "Infinitely many angles.", "anchors": ["src/OpenSpaceToolkit/Mathematics/Geometry/3D/Transformation/Rotation/RotationVector.cpp:rectify"]}
{"id": "C72", "title": "Rotation between vector bases", "statement": "RotationMatrix::VectorBasis is a proper rotation that maps the direction of the first source vector on that of the first destination vector and the normal of the source pair on the normal of the destination pair; it throws exactly for short or near parallel vectors.", "quantifier": "every four vectors", "why_tests_cant": "Infinitely many vectors.", "anchors": ["src/OpenSpaceToolkit/Mathematics/Geometry/3D/Transformation/Rotation/RotationMatrix.cpp:VectorBasis"]}
{"id": "C73", "title": "SLERP has constant angular speed", "statement": "For unitary q1, q2 and a ratio r, the angular difference between q1 and SLERP(q1, q2, r) is r times that between q1 and q2, outside of the thresholds.", "quantifier": "every pair of unitary quaternions, every ratio", "why_tests_cant": "Real ratios and quaternions.", "anchors": ["src/OpenSpaceToolkit/Mathematics/Geometry/3D/Transformation/Rotation/Quaternion.cpp:SLERP"]}
{"id": "C74", "title": "Transformation equality is equality of maps", "statement": "Two transformations built from the factories are equal exactly when they move every point alike, whatever their labels, in 2D and 3D; an undefined transformation equals nothing, not even itself.", "quantifier": "every finite expressions built from the factories", "why_tests_cant": "All pairs of expression trees and all points.", "anchors": ["src/OpenSpaceToolkit/Mathematics/Geometry/3D/Transformation.cpp:operator==", "src/OpenSpaceToolkit/Mathematics/Geometry/2D/Transformation.cpp:operator=="]}
{"id": "C75", "title": "Factories build the maps they name", "statement": "Translation adds its vector to points and leaves vectors alone; Rotation turns actively (counter-clockwise, Rodrigues' formula) and is the inverse of the rotation matrix of the same rotation vector; 2D rotations compose by adding angles and invert by negating them; undefined arguments throw.", "quantifier": "every vector, point, axis and angle in any unit", "why_tests_cant": "All reals; the sign convention differs from that of RotationMatrix and Quaternion.", "anchors": ["src/OpenSpaceToolkit/Mathematics/Geometry/3D/Transformation.cpp:Translation", "src/OpenSpaceToolkit/Mathematics/Geometry/3D/Transformation.cpp:Rotation", "src/OpenSpaceToolkit/Mathematics/Geometry/2D/Transformation.cpp:Rotation", "src/OpenSpaceToolkit/Mathematics/Geometry/2D/Transformation.cpp:Translation"]}
{"id": "C76", "title": "Ellipsoid intersections", "statement": "Intersecting a line, ray, segment or plane with an ellipsoid: the points returned are on both, every common point is returned (up to a point closer than the tolerance for rays), onlyInSight returns the nearest, and the boolean test is true exactly when there is a common point; undefined operands throw.", "quantifier": "every ellipsoid with positive semi-axes and unit orientation, every line, ray, segment and plane", "why_tests_cant": "All reals: tangency, chords with ends on the surface and arbitrary orientations cannot be sampled.", "anchors": ["src/OpenSpaceToolkit/Mathematics/Geometry/3D/Object/Ellipsoid.cpp:intersects", "src/OpenSpaceToolkit/Mathematics/Geometry/3D/Object/Ellipsoid.cpp:intersectionWith"]}
{"id": "C77", "title": "Moving an ellipsoid", "statement": "applyTransformation moves the surface of an ellipsoid with its points, keeps positive semi-axes and a unit orientation, and throws on undefined operands or a failed eigen decomposition.", "quantifier": "every ellipsoid, every transformation built from the factories, every eigen solver that meets its contract", "why_tests_cant": "All reals and an external eigen solver.", "anchors": ["src/OpenSpaceToolkit/Mathematics/Geometry/3D/Object/Ellipsoid.cpp:applyTransformation"]}
{"id": "C78", "title": "Cone generators and intersections follow the lateral surface", "statement": "For a cone with a unit axis and a defined angle, getRaysOfLateralSurface returns n rays from the apex, one for each multiple of a turn by 1/n, all on the lateral surface; intersects(Sphere) says whether the solid cone meets the sphere; intersects(Ellipsoid) says whether the solid cone meets the ellipsoid; the line strings of intersectionWith hold exactly the common points of the rays and the surface, and with onlyInSight the one of each ray that is nearest to the apex.", "quantifier": "all apexes, axes, angles, spheres, ellipsoids, numbers of rays", "why_tests_cant": "tests try one or two cones with a few rays against one sphere", "anchors": ["src/OpenSpaceToolkit/Mathematics/Geometry/3D/Object/Cone.cpp:53-104", "src/OpenSpaceToolkit/Mathematics/Geometry/3D/Object/Cone.cpp:248-463"]}
{"id": "C79", "title": "Composite queries go over the members", "statement": "A defined composite contains an object exactly when it is not empty and each member contains it; anyContains of an object holds exactly when some member contains it, and anyContains of a composite holds when some member contains one of its objects; undefined operands make every query throw.", "quantifier": "every composite, object, and containment algorithm of the members", "why_tests_cant": "Composites nest arbitrarily and hold any number of members; tests use two or three.", "anchors": ["src/OpenSpaceToolkit/Mathematics/Geometry/2D/Object/Composite.cpp:contains", "src/OpenSpaceToolkit/Mathematics/Geometry/2D/Object/Composite.cpp:anyContains"]}
{"id": "C80", "title": "Intersection of polygons keeps every common part", "statement": "The intersection of two valid polygons consists of their common polygons, then the common line strings lying in none of these polygons, then the common points lying in no polygon and on no line string already collected; the difference consists of the polygons of the difference; undefined or invalid polygons throw.", "quantifier": "every pair of polygons and every result of the region algorithms", "why_tests_cant": "Touching configurations with several isolated contacts are not tested.", "anchors": ["src/OpenSpaceToolkit/Mathematics/Geometry/2D/Object/Polygon.cpp:intersectionWith", "src/OpenSpaceToolkit/Mathematics/Geometry/2D/Object/Polygon.cpp:differenceWith"]}
{"id": "C81", "title": "Lateral faces of a pyramid", "statement": "getLateralFaceAt gives, for every edge of the base, the triangle of the apex and the two ends of the edge; getRaysOfLateralFaceAt gives n unit rays from the apex, spread evenly from one end of the edge to the other and inside the face; getRaysOfLateralFaces shares the rays evenly between the faces and refuses fewer rays than faces.", "quantifier": "for every base polygon, every apex and every ray count", "why_tests_cant": "The rays come out of a rotation vector, a quaternion and an array of angles; a test looks at one pyramid and cannot tell that every ray stays in its face and that the spacing is even for every shape and count.", "anchors": ["src/OpenSpaceToolkit/Mathematics/Geometry/3D/Object/Pyramid.cpp:232-342"]}
{"id": "C82", "title": "Intersections of a pyramid with spheres and ellipsoids", "statement": "intersects is true exactly when the solid pyramid meets the sphere or ellipsoid, and the line strings of intersectionWith trace points of both surfaces, one for each ray that meets the solid, the nearest one when only the points in sight are wanted.", "quantifier": "for every pyramid, sphere, ellipsoid and ray count", "why_tests_cant": "The result depends on a sampling of the lateral faces, so tests with large footprints pass while small or interior solids are missed.", "anchors": ["src/OpenSpaceToolkit/Mathematics/Geometry/3D/Object/Pyramid.cpp:63-109", "src/OpenSpaceToolkit/Mathematics/Geometry/3D/Object/Pyramid.cpp:344-495"]}
{"id": "C83", "title": "The base class answers what the points say", "statement": "When intersects or contains is called through the base class of the 3D objects, a supported pair of types gets the answer of the concrete overload, which is whether the two sets of points meet, or whether one is inside the other, and every concrete overload is reachable.", "quantifier": "every pair of objects, of points, point sets, lines, rays, segments, planes, spheres, ellipsoids and composites nested to any depth", "why_tests_cant": "All pairs of types, all objects and all depths of nesting.", "anchors": ["src/OpenSpaceToolkit/Mathematics/Geometry/3D/Object.cpp:intersects", "src/OpenSpaceToolkit/Mathematics/Geometry/3D/Object.cpp:contains"]}
{"id": "C84", "title": "Composites of space act on their members", "statement": "A 3D composite intersects an object when a member does, contains it when its points do, has as intersection the intersections of its members, and is moved by moving its members.", "quantifier": "every composite, nested to any depth, every object and transformation", "why_tests_cant": "Unbounded number of members and depth.", "anchors": ["src/OpenSpaceToolkit/Mathematics/Geometry/3D/Object/Composite.cpp:intersects", "src/OpenSpaceToolkit/Mathematics/Geometry/3D/Object/Composite.cpp:contains", "src/OpenSpaceToolkit/Mathematics/Geometry/3D/Object/Composite.cpp:intersectionWith", "src/OpenSpaceToolkit/Mathematics/Geometry/3D/Object/Composite.cpp:applyTransformation"]}
{"id": "C85", "title": "Intersections asked for through the base class return", "statement": "intersectionWith called through the base class of the 3D objects returns or throws for every pair of objects.", "quantifier": "every pair of defined objects", "why_tests_cant": "Non-termination shows up only for the pair of types never tried.", "anchors": ["src/OpenSpaceToolkit/Mathematics/Geometry/3D/Object.cpp:intersectionWith"]}
{"id": "C86", "title": "Barycentric rational interpolation has no poles and reproduces cubics", "statement": "For increasing nodes (at least four), the barycentric rational interpolant has a finite value at every abscissa, equals the data at the nodes, depends linearly on the values, and reproduces every polynomial of degree at most three everywhere.", "quantifier": "for all increasing node vectors of any length, all values, all abscissae inside or outside the range, all polynomials of degree below four", "why_tests_cant": "tests evaluate a few abscissae of a few data sets; absence of poles is a statement about every abscissa and every node spacing", "anchors": ["src/OpenSpaceToolkit/Mathematics/CurveFitting/Interpolator/BarycentricRational.cpp"]}
{"id": "C87", "title": "computeDerivative is the derivative of evaluate", "statement": "For linear and barycentric rational interpolation on increasing nodes, computeDerivative(x) is the derivative in the sense of analysis of the function evaluate at x: everywhere for the barycentric interpolant, everywhere but at the nodes for the linear one, where it is the derivative on the left for every node after the first.", "quantifier": "for all increasing node vectors, all values, all abscissae", "why_tests_cant": "tests compare against finite differences at sample points with a tolerance; the claim is an exact limit at every abscissa, including nodes where the formula differs", "anchors": ["src/OpenSpaceToolkit/Mathematics/CurveFitting/Interpolator/BarycentricRational.cpp", "src/OpenSpaceToolkit/Mathematics/CurveFitting/Interpolator/Linear.cpp"]}
{"id": "C88", "title": "Log-Euclidean interpolation is invariant under rotation, inversion and scaling", "statement": "Interpolating rotated, inverted or scaled matrices gives the rotated, inverted or scaled interpolant; the determinant is the weighted geometric mean of the neighbouring determinants; the values do not depend on the eigenvectors the solver returns.", "quantifier": "for all dimensions, all symmetric positive definite node matrices, all orthogonal matrices, all positive factors, all eigensolvers that keep the documented contract, all abscissae", "why_tests_cant": "tests use a handful of small matrices and one solver; invariance is over all orthogonal matrices and over every choice of eigenvectors", "anchors": ["src/OpenSpaceToolkit/Mathematics/CurveFitting/MatrixInterpolator/LogEuclideanRiemannian.cpp"]}
{"id": "C89", "title": "Integrating over a duration covers the duration", "statement": "integrateDuration(state, d) returns the state after time d, whatever the stepper and the log type, and terminates.", "quantifier": "for all systems with a clock, all durations of either sign, all positive time steps, all steppers keeping odeint's contract, all log types", "why_tests_cant": "tests use durations that are multiples of the step with LogConstant, for which a wrong end is invisible", "anchors": ["src/OpenSpaceToolkit/Mathematics/Solver/NumericalSolver.cpp"]}
{"id": "C90", "title": "Runge-Kutta 4 integrates cubics and nilpotent linear systems exactly and keeps linear invariants", "statement": "With the stepper RungeKutta4, a right-hand side that is a polynomial of degree at most three in the time is integrated without error to every requested time, and so is a linear system whose fifth power is zero; one step on any linear system gives the exponential series up to order four, and every linear quantity that the system conserves is the same in all states.", "quantifier": "for all polynomials, all step sizes, all durations and lists of requested times, all linear invariants", "why_tests_cant": "a test compares one system against one analytic solution within a tolerance", "anchors": ["src/OpenSpaceToolkit/Mathematics/Solver/NumericalSolver.cpp"]}
{"id": "C91", "title": "Runge-Kutta 4 integration commutes with linear maps", "statement": "If a linear map carries one system of equations to another, it carries the answered and observed states of the first to those of the second; for a linear system, the answers are linear in the initial state.", "quantifier": "for all linear maps between state spaces of any dimension, all systems, all lists of times", "why_tests_cant": "tests never relate runs of two systems", "anchors": ["src/OpenSpaceToolkit/Mathematics/Solver/NumericalSolver.cpp"]}
{"id": "C92", "title": "Settings of a solver", "statement": "Two solvers are equal if and only if both are defined and have the same log type, stepper, time step and tolerances; equality is symmetric and transitive; integrating never changes the settings; getters return what the constructor was given or throw if the solver is undefined.", "quantifier": "for all solvers and all histories of calls", "why_tests_cant": "tests compare a few solvers that never integrated", "anchors": ["src/OpenSpaceToolkit/Mathematics/Solver/NumericalSolver.cpp"]}
{"id": "C93", "title": "A cubic spline passes through its data", "statement": "Evaluating a cubic spline at a node gives the value at that node, for splines made from nodes and for splines made from a step, whatever the rule for the derivatives at the ends.", "quantifier": "for all numbers of values of five or more, all values, all accepted nodes, steps and rules for the ends", "why_tests_cant": "The system solved for the coefficients grows with the data; tests look at a few splines with a loose tolerance and exactly spaced nodes.", "anchors": ["src/OpenSpaceToolkit/Mathematics/CurveFitting/Interpolator/CubicSpline.cpp:16-52", "src/OpenSpaceToolkit/Mathematics/CurveFitting/Interpolator/CubicSpline.cpp:56-71"]}
{"id": "C94", "title": "computeDerivative is the derivative of the spline", "statement": "computeDerivative is the derivative of evaluate at every query, is itself continuously differentiable, takes at the ends the slopes estimated there, and the spline is one cubic polynomial between two nodes.", "quantifier": "for all splines, all rules for the ends and all queries, also outside the data", "why_tests_cant": "Differentiability at the nodes is a limit; a finite difference in a test has its own error and skips the seams.", "anchors": ["src/OpenSpaceToolkit/Mathematics/CurveFitting/Interpolator/CubicSpline.cpp:56-71", "src/OpenSpaceToolkit/Mathematics/CurveFitting/Interpolator/CubicSpline.cpp:73-88"]}
{"id": "C95", "title": "A cubic spline reproduces cubics and is the mean far away", "statement": "When the values come from a polynomial of degree at most three and the slopes at the ends are right, evaluate and computeDerivative give the polynomial and its derivative between the ends; from three steps outside the data on, evaluate gives the mean of the values and computeDerivative zero.", "quantifier": "for all such polynomials, nodes and queries", "why_tests_cant": "Tests sample a few functions and only inside the data.", "anchors": ["src/OpenSpaceToolkit/Mathematics/CurveFitting/Interpolator/CubicSpline.cpp:56-71", "src/OpenSpaceToolkit/Mathematics/CurveFitting/Interpolator/CubicSpline.cpp:73-88"]}
{"id": "C96", "title": "The text of a vector is read back as the vector", "statement": "Parse of the text that toString gives for a vector has the same size; with a given number of decimals every number is within half of the last decimal; without one every number is within 5e-15 of its size and integers are exact; NaN and the infinities are kept.", "quantifier": "for all vectors of any size, all numbers of decimals and all roundings to a nearest decimal", "why_tests_cant": "Tests print and parse a few literals; the error of rounding, the signs and the separators have to fit for every size.", "anchors": ["include/OpenSpaceToolkit/Mathematics/Object/Eigen.hpp:130-231", "include/OpenSpaceToolkit/Mathematics/Object/Eigen.hpp:428-467"]}
{"id": "C97", "title": "Parse refuses exactly the texts that are not in brackets", "statement": "Parse of a text throws exactly when it has fewer than three characters or does not start and end with brackets; otherwise the size of the vector is given by the number of commas.", "quantifier": "for all strings", "why_tests_cant": "The set of strings is infinite; tests try a few malformed ones.", "anchors": ["include/OpenSpaceToolkit/Mathematics/Object/Eigen.hpp:428-467"]}
{"id": "C98", "title": "The text of a quaternion is read back as the quaternion", "statement": "Parse of the text that toString gives for a quaternion in a format, read in the same format, gives its components to the precision printed; an undefined quaternion is not printed, an empty string and a vector whose size is not four are refused with the documented errors.", "quantifier": "for all quaternions, formats, numbers of decimals and strings", "why_tests_cant": "Tests use one or two quaternions per format.", "anchors": ["src/OpenSpaceToolkit/Mathematics/Geometry/3D/Transformation/Rotation/Quaternion.cpp:400-408", "src/OpenSpaceToolkit/Mathematics/Geometry/3D/Transformation/Rotation/Quaternion.cpp:646-663"]}
{"id": "C99", "title": "The text of an interval determines the interval", "statement": "Two defined intervals with the same text have the same type and bounds with the same text; toString throws exactly for undefined intervals.", "quantifier": "for all intervals over any ordered type whose values are printed without commas", "why_tests_cant": "Injectivity quantifies over pairs of intervals.", "anchors": ["src/OpenSpaceToolkit/Mathematics/Object/Interval.tpp:493-521"]}
{"id": "C100", "title": "Euler angles as vectors, and unitary Euler angles", "statement": "The vector of Euler angles in a unit, made into Euler angles with the same unit and sequence, is the same three angles; every getter throws on undefined Euler angles; isUnitary holds exactly when the rotation is the identity.", "quantifier": "for all Euler angles, units and sequences", "why_tests_cant": "Round trips quantify over all real angles and units.", "anchors": ["src/OpenSpaceToolkit/Mathematics/Geometry/3D/Transformation/Rotation/EulerAngle.cpp:37-45", "src/OpenSpaceToolkit/Mathematics/Geometry/3D/Transformation/Rotation/EulerAngle.cpp:105-163"]}
{"id": "C101", "title": "isNear of Euler angles compares rotations", "statement": "isNear holds exactly when the angle between the two rotations is within the tolerance, whatever the sequences; it is symmetric, holds for equal Euler angles, with a zero tolerance holds exactly for the same rotation, and throws when one argument is undefined.", "quantifier": "for all pairs of Euler angles and all tolerances", "why_tests_cant": "The distance of two rotations is a real function of six angles; tests compare a few.", "anchors": ["src/OpenSpaceToolkit/Mathematics/Geometry/3D/Transformation/Rotation/EulerAngle.cpp:110-113"]}
{"id": "C102", "title": "The text of an object of the plane determines it", "statement": "Two points, point sets, lines, segments, line strings or polygons with the same text have the same number of points, whose coordinates print the same, in the same order; the text also tells the format and the kind of the object; toString throws exactly for undefined points and unknown formats.", "quantifier": "for all objects, formats, and ways to print a number without spaces, brackets and commas", "why_tests_cant": "Injectivity quantifies over pairs of objects of any size.", "anchors": ["src/OpenSpaceToolkit/Mathematics/Geometry/2D/Object/Point.cpp:152-173", "src/OpenSpaceToolkit/Mathematics/Geometry/2D/Object/PointSet.cpp:161-198", "src/OpenSpaceToolkit/Mathematics/Geometry/2D/Object/Line.cpp:161-178", "src/OpenSpaceToolkit/Mathematics/Geometry/2D/Object/Segment.cpp:239-261", "src/OpenSpaceToolkit/Mathematics/Geometry/2D/Object/LineString.cpp:163-222", "src/OpenSpaceToolkit/Mathematics/Geometry/2D/Object/Polygon.cpp:590-616", "src/OpenSpaceToolkit/Mathematics/Geometry/2D/Object/Composite.cpp:486-501"]}
{"id": "C103", "title": "Names tell the value", "statement": "Every value of an enumeration has a name and different values have different names; the text of an angle tells its unit and value, the text of Euler angles tells the sequence and the three angles.", "quantifier": "for all values of the enumerations, all angles and Euler angles, and ways to print a number", "why_tests_cant": "Tests print a few angles.", "anchors": ["src/OpenSpaceToolkit/Mathematics/Geometry/Angle.cpp:424-432", "src/OpenSpaceToolkit/Mathematics/Geometry/Angle.cpp:563-618", "src/OpenSpaceToolkit/Mathematics/Geometry/3D/Intersection.cpp:217-269", "src/OpenSpaceToolkit/Mathematics/Geometry/2D/Intersection.cpp:217-254", "src/OpenSpaceToolkit/Mathematics/Geometry/3D/Transformation.cpp:308-342", "src/OpenSpaceToolkit/Mathematics/Geometry/3D/Transformation/Rotation/EulerAngle.cpp:165-179", "src/OpenSpaceToolkit/Mathematics/Geometry/3D/Transformation/Rotation/EulerAngle.cpp:316-332", "src/OpenSpaceToolkit/Mathematics/Object/Interval.tpp:901-924", "src/OpenSpaceToolkit/Mathematics/Solver/NumericalSolver.cpp:650-696"]}
{"id": "C104", "title": "isDefined and isNear of vectors and matrices", "statement": "A matrix is defined exactly when all its elements are finite, and Undefined gives one that is not; isNear throws for undefined matrices and different shapes, and otherwise is nearness in a metric: symmetric, with the triangle inequality, equality at a zero tolerance, and bounding every difference of elements.", "quantifier": "for all matrices of any size and all tolerances", "why_tests_cant": "Metric laws quantify over triples of matrices of any size.", "anchors": ["include/OpenSpaceToolkit/Mathematics/Object/Eigen.hpp:18-95", "include/OpenSpaceToolkit/Mathematics/Object/Eigen.hpp:240-417"]}
{"id": "C105", "title": "Copies of composites share nothing", "statement": "Copying, cloning and assigning a composite, and appending to one, give an object of the same worth as what was copied, stored apart from it: changing or destroying one leaves the other, whichever composite is on the right-hand side.", "quantifier": "all memories, composites nested to any depth, both dimensions", "why_tests_cant": "Aliasing and use after free depend on which object is passed, for instance a member of the composite that is assigned to; tests copy separate objects only, and memory errors often go unnoticed without instrumentation", "anchors": ["src/OpenSpaceToolkit/Mathematics/Geometry/2D/Object/Composite.cpp:55", "src/OpenSpaceToolkit/Mathematics/Geometry/2D/Object/Composite.cpp:78", "src/OpenSpaceToolkit/Mathematics/Geometry/2D/Object/Composite.cpp:168", "src/OpenSpaceToolkit/Mathematics/Geometry/3D/Object/Composite.cpp:78"]}
{"id": "C106", "title": "Transforming a composite transforms all of it or nothing", "statement": "applyTransformation on a composite transforms every object in it and keeps the nesting; if it throws, the composite is as it was.", "quantifier": "all memories, composites nested to any depth, transformations", "why_tests_cant": "An exception in the middle of a loop leaves a state that no test looks at: tests check that the call throws, not what is left behind", "anchors": ["src/OpenSpaceToolkit/Mathematics/Geometry/3D/Object/Composite.cpp:435", "src/OpenSpaceToolkit/Mathematics/Geometry/3D/Object/Sphere.cpp:580"]}
{"id": "C107", "title": "Range reduction of angles in double precision", "statement": "In double precision, reducing an angle to a range of one turn ends and gives a value in the range that differs from the angle by whole turns up to rounding.", "quantifier": "all finite and infinite doubles, all ranges accepted by the code", "why_tests_cant": "Whether a loop that adds a turn ends depends on the size of the value compared with the turn; tests use values of a few turns, and compare with a tolerance that hides results just outside the range", "anchors": ["src/OpenSpaceToolkit/Mathematics/Geometry/Angle.cpp:647", "src/OpenSpaceToolkit/Mathematics/Geometry/Angle.cpp:349"]}
{"id": "C108", "title": "Equality and nearness of angles in double precision", "statement": "In double precision, comparing angles ends, every defined angle equals itself and is near itself, and both relations are symmetric; nearness is the distance around the circle, either way, up to rounding.", "quantifier": "all angles with finite double values, all units, all tolerances", "why_tests_cant": "Symmetry fails for pairs of values whose sum with a turn is rounded, which hand-picked values such as 0, 90 and 360 never show", "anchors": ["src/OpenSpaceToolkit/Mathematics/Geometry/Angle.cpp:21", "src/OpenSpaceToolkit/Mathematics/Geometry/Angle.cpp:273"]}
{"id": "C109", "title": "Conversion of angle units in double precision", "statement": "A conversion between units of angle has a relative error of a few roundings, and converting there and back gives the value back up to a few roundings.", "quantifier": "all pairs of units, all doubles far from overflow and underflow", "why_tests_cant": "Tests compare a few values with a tolerance of their own; a bound on the error needs an argument about every rounding", "anchors": ["src/OpenSpaceToolkit/Mathematics/Geometry/Angle.cpp:304", "src/OpenSpaceToolkit/Mathematics/Geometry/Angle.cpp:630"]}
{"id": "C110", "title": "Grid with a step in double precision", "statement": "In double precision generateArrayWithStep ends and gives the points of the exact grid up to rounding: finite values of the interval in strict order, as many as in exact arithmetic.", "quantifier": "all intervals with double bounds, all types, all steps that are not zero", "why_tests_cant": "Termination depends on the step not being lost in the bound, and the number of points on accumulated rounding; tests use small integers", "anchors": ["src/OpenSpaceToolkit/Mathematics/Object/Interval.tpp:371"]}
{"id": "C111", "title": "Grid with a size in double precision", "statement": "In double precision generateArrayWithSize gives as many values as asked for, in order, within the interval, ending at the upper bound where it is included.", "quantifier": "all intervals with double bounds, all types, all sizes", "why_tests_cant": "The last value is a sum of rounded steps: whether it is on, before or beyond the bound changes from one input to the next", "anchors": ["src/OpenSpaceToolkit/Mathematics/Object/Interval.tpp:442"]}
{"id": "C112", "title": "Linear interpolation in double precision", "statement": "With binary64 arithmetic, the linear interpolator at a query inside a step of sorted moderate data gives a finite double that is monotone in the query within the step, lies between the first value and the rounded sum of it and the rounded difference, is within 12 units of rounding (at the larger data value) plus the smallest positive double of the exact interpolation, returns the end values unchanged outside, gives a slope within 4 units of rounding, and goes through its data when the differences of the data are doubles.", "quantifier": "for all sorted finite abscissae, all finite values up to 2^1022 in size, all queries", "why_tests_cant": "Rounding errors depend on every bit of six operands; tests compare a few values with a tolerance.", "anchors": ["src/OpenSpaceToolkit/Mathematics/CurveFitting/Interpolator/Linear.cpp:48", "src/OpenSpaceToolkit/Mathematics/CurveFitting/Interpolator/Linear.cpp:70", "src/OpenSpaceToolkit/Mathematics/CurveFitting/Interpolator/Linear.cpp:97"]}
{"id": "C113", "title": "Quaternions in double precision", "statement": "With binary64 arithmetic, the norm of a quaternion with finite components up to 2^500 is finite and within 3.2 units of rounding of the exact norm; a quaternion that normalize accepts becomes one whose components are at most one in size (so that the arc cosine of angularDifferenceWith is always defined), within 5 units of rounding of the exact unit quaternion, and which isUnitary accepts with the tolerance 1e-15; a product of two accepted quaternions is accepted too.", "quantifier": "for all quaternions of finite doubles up to 2^500 in size and all thresholds and tolerances not below the stated bounds", "why_tests_cant": "A sample of quaternions cannot show that the rounding errors of eight operations never add up to more than the tolerance, which leaves only one unit of margin.", "anchors": ["src/OpenSpaceToolkit/Mathematics/Geometry/3D/Transformation/Rotation/Quaternion.cpp:169-182", "src/OpenSpaceToolkit/Mathematics/Geometry/3D/Transformation/Rotation/Quaternion.cpp:312-335", "src/OpenSpaceToolkit/Mathematics/Geometry/3D/Transformation/Rotation/Quaternion.cpp:410-425", "src/OpenSpaceToolkit/Mathematics/Geometry/3D/Transformation/Rotation/Quaternion.cpp:481-492"]}
{"id": "C114", "title": "Distances of points in double precision", "statement": "Point::distanceTo computed in binary64 is finite, not negative, symmetric, zero between equal points, within 3.6 units of rounding of the exact distance up to 2^-535, nearly satisfies the triangle inequality, and Point::isNear follows it; it is zero only for equal points and finite for all finite points.", "quantifier": "all pairs and triples of points with coordinates up to 2^499, both orders of summation", "why_tests_cant": "Rounding errors depend on every bit of the coordinates; no sample bounds the worst case.", "anchors": ["src/OpenSpaceToolkit/Mathematics/Geometry/3D/Object/Point.cpp", "src/OpenSpaceToolkit/Mathematics/Geometry/2D/Object/Point.cpp"]}
{"id": "C115", "title": "Angle between vectors in double precision", "statement": "Angle::Between computed in binary64 returns a finite angle between zero and Pi whose cosine is within 16 units of rounding of the exact cosine, the same for both orders of the vectors, whenever the squared norms are not too small; the angle is zero only for vectors of one direction, and a right angle only for orthogonal vectors.", "quantifier": "all pairs of vectors with components up to 2^499, every arc cosine within 2^-51", "why_tests_cant": "Rounding errors and overflow depend on every bit of the components; tests use a few pairs.", "anchors": ["src/OpenSpaceToolkit/Mathematics/Geometry/Angle.cpp"]}
{"id": "C116", "title": "Equality of ellipsoids", "statement": "Ellipsoid::operator == is symmetric, holds for ellipsoids that are the same set of points whatever their orientations, and holds only for ellipsoids whose centres agree and whose surfaces are near each other.", "quantifier": "all pairs of ellipsoids with positive semi-axes and unit orientations", "why_tests_cant": "All orientations and sizes; tests compare a few ellipsoids of similar sizes.", "anchors": ["src/OpenSpaceToolkit/Mathematics/Geometry/3D/Object/Ellipsoid.cpp"]}
{"id": "C117", "title": "Containment of points in double precision", "statement": "In binary64 a segment contains its two ends and its centre, a line and a ray contain their origin, a plane contains its point, and a point that a segment, line, ray or plane contains is within a few units of rounding of it.", "quantifier": "all points with coordinates up to 2^248, directions and normals of length about one, both orders of summation", "why_tests_cant": "The test is an exact comparison of rounded numbers; samples miss the points that are accepted or refused through rounding.", "anchors": ["src/OpenSpaceToolkit/Mathematics/Geometry/3D/Object/Segment.cpp", "src/OpenSpaceToolkit/Mathematics/Geometry/3D/Object/Line.cpp", "src/OpenSpaceToolkit/Mathematics/Geometry/3D/Object/Ray.cpp", "src/OpenSpaceToolkit/Mathematics/Geometry/3D/Object/Plane.cpp"]}
{"id": "C118", "title": "Distance from a point to a segment in double precision", "statement": "Segment::distanceTo computed in binary64 is finite, not negative, and differs from the least distance to a point of the segment by at most a few units of rounding of the sizes involved, also for degenerate and very short segments and for all finite points.", "quantifier": "all points with coordinates up to 2^248, both orders of summation", "why_tests_cant": "The parameter of the projection is a clamped quotient of rounded numbers; no sample bounds the worst case.", "anchors": ["src/OpenSpaceToolkit/Mathematics/Geometry/3D/Object/Segment.cpp"]}
{"id": "C119", "title": "Transformations in double precision", "statement": "In binary64 the identity leaves every point exactly as it is; a translation adds its vector to a point, each coordinate rounded once, and leaves vectors as they are; the product of two translations is the translation by the rounded sum; a translation followed by its opposite gives back the point; any matrix maps a point to within the rounding of its four products, and a matrix whose rotation part is almost orthogonal keeps distances up to that defect and the rounding.", "quantifier": "all points, vectors and matrices of finite doubles in the stated ranges, all orders in which Eigen adds", "why_tests_cant": "Tests transform a few points with small coordinates, where every sum is exact", "anchors": ["src/OpenSpaceToolkit/Mathematics/Geometry/3D/Transformation.cpp", "src/OpenSpaceToolkit/Mathematics/Geometry/2D/Transformation.cpp"]}
{"id": "C120", "title": "Products of quaternions and rotation of vectors in double precision", "statement": "In binary64 the product of two quaternions is within 8.2 units of rounding of the exact one; the norm of a product of n+1 unit quaternions is within 20(n+1) units of one; isUnitary accepts exactly the quaternions whose norm is within the tolerance of one, up to four units; rotateVector returns for these, and what it returns is the rotated vector up to the tolerance and rounding.", "quantifier": "all quaternions and vectors of finite doubles in the stated ranges, all tolerances up to 1/8, chains of any length up to 2^38, both orders in which Eigen adds", "why_tests_cant": "Tests multiply a few quaternions and compare with a tolerance; errors add up over long chains", "anchors": ["src/OpenSpaceToolkit/Mathematics/Geometry/3D/Transformation/Rotation/Quaternion.cpp"]}
{"id": "C121", "title": "Composites and polygons are values in every program", "statement": "For every sequence of constructions, copies, assignments (also to itself), sums, appends (also to itself), transformations (also ones that throw half-way) and destructions of variables that are composites of any nesting, or polygons, or multi-polygons, the program never reads or frees memory that is not there, throws exactly what the same program over pure values throws, and ends with every variable worth what it is in the program over values; the variables share no storage and own all the memory in use, so that nothing is left when they are destroyed.", "quantifier": "all finite sequences of operations, all variables, all nestings of composites, all exceptions", "why_tests_cant": "A test runs one short sequence; a shared pointer, a double free, a leak after an exception or an alias shows only for some order of copies, changes and destructions, and a leak or a freed read may not show at all.", "anchors": ["src/OpenSpaceToolkit/Mathematics/Geometry/2D/Object/Composite.cpp:20-205", "src/OpenSpaceToolkit/Mathematics/Geometry/3D/Object/Composite.cpp:20-205", "src/OpenSpaceToolkit/Mathematics/Geometry/3D/Object/Composite.cpp:435-472", "src/OpenSpaceToolkit/Mathematics/Geometry/2D/Object/Polygon.cpp:713-742", "src/OpenSpaceToolkit/Mathematics/Geometry/2D/Object/MultiPolygon.cpp:329-360"]}
{"id": "C122", "title": "Rotation matrices in double precision", "statement": "In IEEE double precision, every quaternion that isUnitary accepts converts to a rotation matrix, the matrix turns vectors as the quaternion does up to the tolerance and a few roundings, and the product of two matrices that the constructor accepts is accepted. VIOLATED for the first and the third: (0, 0, 0, 1 + 2^-50) is unitary and RotationMatrix::Quaternion throws; diag(1 + 2^-50, 1, 1) is a rotation matrix for the constructor and its product with itself throws.", "quantifier": "all tolerances in the stated ranges, all quaternions and matrices of doubles in the stated ranges, both orders of addition", "why_tests_cant": "the tests convert a few dozen quaternions and compare with a tolerance; the failing quaternions and matrices differ from the others in the last bits", "anchors": ["src/OpenSpaceToolkit/Mathematics/Geometry/3D/Transformation/Rotation/RotationMatrix.cpp:24-109", "src/OpenSpaceToolkit/Mathematics/Geometry/3D/Transformation/Rotation/RotationMatrix.cpp:126-149", "src/OpenSpaceToolkit/Mathematics/Geometry/3D/Transformation/Rotation/RotationMatrix.cpp:458-497", "src/OpenSpaceToolkit/Mathematics/Geometry/3D/Transformation/Rotation/Quaternion.cpp:169-182"]}
{"id": "C123", "title": "Transforming an object in place is all or nothing", "statement": "applyTransformation changes the object it is called on. If it returns, the object is the transformed one, with every member changed; if it throws, the object is what it was before the call, also for composites of composites. With a transformation from the factories it throws for undefined objects only. VIOLATED for line strings with an undefined point, which count as defined: the points before it have moved and the points after it have not. VIOLATED for ellipsoids whose orientation is not unitary, which the constructor accepts: the centre has moved, then the call throws.", "quantifier": "all 3D objects (14 kinds) and 2D objects (8 kinds), composites of any nesting and length, all transformations built from the factories by products and inverses; for the errors all transformations whatsoever", "why_tests_cant": "The tests transform defined objects and compare the result; after an exception they do not look at the object. The cases are all prefixes of a line string before its undefined point and all states between two assignments.", "anchors": ["src/OpenSpaceToolkit/Mathematics/Geometry/3D/Object/Ellipsoid.cpp:926-966", "src/OpenSpaceToolkit/Mathematics/Geometry/3D/Object/LineString.cpp:142-158", "src/OpenSpaceToolkit/Mathematics/Geometry/2D/Object/LineString.cpp:246-262", "src/OpenSpaceToolkit/Mathematics/Geometry/3D/Object/Composite.cpp:435-458", "src/OpenSpaceToolkit/Mathematics/Geometry/2D/Object/Composite.cpp:524-545", "src/OpenSpaceToolkit/Mathematics/Geometry/3D/Object/Cuboid.cpp:462-494", "src/OpenSpaceToolkit/Mathematics/Geometry/3D/Object/Sphere.cpp:580-598"]}
{"id": "C124", "title": "Everything can be printed, and what is printed tells the object", "statement": "Printing an object with print or operator << returns without an exception, and two objects that are printed alike are the same object, also inside composites of composites: every kind has its own title, every member its line, and no line of one object can be taken for a line of the next. VIOLATED for ellipsoids that have an orientation while another member is undefined, or whose orientation is not unitary: print throws. VIOLATED for undefined multi-polygons: print throws, and so does printing a composite that contains one. VIOLATED for intersections of kinds without a name, such as cuboids. VIOLATED for composites: an undefined composite is printed like a defined one.", "quantifier": "all 3D objects (14 kinds) and 2D objects (8 kinds), composites of any nesting and length, line strings and polygons of any number of vertices and holes, all texts of the members that tell the members apart", "why_tests_cant": "The tests print two or three objects to the console and compare with nothing. That two texts agree only when the objects do is a statement about pairs of objects of any size.", "anchors": ["src/OpenSpaceToolkit/Mathematics/Geometry/3D/Object/Ellipsoid.cpp:900-924", "src/OpenSpaceToolkit/Mathematics/Geometry/3D/Object/Composite.cpp:414-433", "src/OpenSpaceToolkit/Mathematics/Geometry/2D/Object/Composite.cpp:503-522", "src/OpenSpaceToolkit/Mathematics/Geometry/2D/Object/Polygon.cpp:961-999", "src/OpenSpaceToolkit/Mathematics/Geometry/2D/Object/MultiPolygon.cpp:473-490", "src/OpenSpaceToolkit/Mathematics/Geometry/3D/Object/Polygon.cpp:247-264", "src/OpenSpaceToolkit/Mathematics/Geometry/3D/Object/Cuboid.cpp:438-460", "src/OpenSpaceToolkit/Mathematics/Geometry/3D/Intersection.cpp:87-100", "src/OpenSpaceToolkit/Mathematics/Geometry/2D/Intersection.cpp:87-100"]}
{"id": "C125", "title": "Lines of the plane in double precision", "statement": "In double precision a line of the plane contains its origin and equals itself; every point that it accepts is near the line, with an error that is explicit; lines parallel to an axis accept exactly the points with their coordinate. VIOLATED: the line through two points need not contain the second, as for (0, 0) and (4, 3). VIOLATED: equality of lines is not symmetric. VIOLATED: a line whose origin is far away forgets its direction, and a horizontal line through (2^54, 0) contains the points above its origin and not those beside it.", "quantifier": "all lines with finite coordinates below the stated sizes, all points; all defined lines, also with infinite coordinates, for the origin and for equality", "why_tests_cant": "The tests use small integers, for which nothing is rounded. Whether an accepted point is near the line depends on all the bits of six numbers.", "anchors": ["src/OpenSpaceToolkit/Mathematics/Geometry/2D/Object/Line.cpp:21-35", "src/OpenSpaceToolkit/Mathematics/Geometry/2D/Object/Line.cpp:42-55", "src/OpenSpaceToolkit/Mathematics/Geometry/2D/Object/Line.cpp:72-100", "src/OpenSpaceToolkit/Mathematics/Geometry/2D/Object/Line.cpp:213-231"]}
{"id": "C126", "title": "Operations in place when both sides are the same variable", "statement": "The operators +=, *= and /= and the functions normalize, conjugate, inverse and rectify of quaternions change the members of the receiver one after the other and read the argument through a reference, which may refer to the receiver. Every program of such statements, with any variables on both sides, does to memory what it should do to quaternions of mathematics: the same exceptions at the same statement and the same values; a statement that throws changes no member of any variable; a variable that is not a receiver keeps its members. In particular q += q is 2 q, q *= q is the square and q /= q is one. The same for t *= t on transformations.", "quantifier": "all programs of statements, of any length, on any number of variables, all memories including undefined and half-defined quaternions, all coincidences of receiver and argument", "why_tests_cant": "The tests never have the same variable on both sides, and they do not look at variables after an exception. Whether a member is read after it has been overwritten depends on the order of the statements.", "anchors": ["src/OpenSpaceToolkit/Mathematics/Geometry/3D/Transformation/Rotation/Quaternion.cpp:112-125", "src/OpenSpaceToolkit/Mathematics/Geometry/3D/Transformation/Rotation/Quaternion.cpp:127-132", "src/OpenSpaceToolkit/Mathematics/Geometry/3D/Transformation/Rotation/Quaternion.cpp:134-144", "src/OpenSpaceToolkit/Mathematics/Geometry/3D/Transformation/Rotation/Quaternion.cpp:410-425", "src/OpenSpaceToolkit/Mathematics/Geometry/3D/Transformation/Rotation/Quaternion.cpp:427-439", "src/OpenSpaceToolkit/Mathematics/Geometry/3D/Transformation/Rotation/Quaternion.cpp:441-461", "src/OpenSpaceToolkit/Mathematics/Geometry/3D/Transformation/Rotation/Quaternion.cpp:463-479", "src/OpenSpaceToolkit/Mathematics/Geometry/3D/Transformation.cpp:66-162"]}
{"id": "C127", "title": "Spheres, lines, rays and planes in double precision", "statement": "In double precision a sphere accepts a point if the computed difference between the squared distance from the centre and the squared radius is less than Real::Epsilon() in size. It accepts no point where the exact difference exceeds the tolerance by more than a stated rounding error, and every point where it is smaller by more than that error; a point it accepts is near the sphere, with the tolerance divided by the radius. A sphere contains its points and not its centre. A line and a ray built from two points contain both, and a plane built from a normal contains the points of the plane. Lines and planes along the axes decide exactly; a line accepts every multiple of its stored direction that is a vector of doubles.", "quantifier": "all centres, radii, points, origins, directions and normals of finite doubles up to 2^499 (spheres) or 2^248 (lines and planes), both orders in which Eigen may add three products", "why_tests_cant": "Which points a comparison of rounded numbers accepts depends on the rounding of every coordinate. The tests use points where all the arithmetic is exact, such as those on the axes.", "anchors": ["src/OpenSpaceToolkit/Mathematics/Geometry/3D/Object/Sphere.cpp:263-278", "src/OpenSpaceToolkit/Mathematics/Geometry/3D/Object/Line.cpp:24-38", "src/OpenSpaceToolkit/Mathematics/Geometry/3D/Object/Line.cpp:118-131", "src/OpenSpaceToolkit/Mathematics/Geometry/3D/Object/Line.cpp:254-272", "src/OpenSpaceToolkit/Mathematics/Geometry/3D/Object/Ray.cpp:24-38", "src/OpenSpaceToolkit/Mathematics/Geometry/3D/Object/Ray.cpp:116-131", "src/OpenSpaceToolkit/Mathematics/Geometry/3D/Object/Plane.cpp:21-26", "src/OpenSpaceToolkit/Mathematics/Geometry/3D/Object/Plane.cpp:100-113"]}
{"id": "C128", "title": "Segments of the plane, and whole numbers, in double precision", "statement": "In double precision a segment of the plane contains a point, has a centre and has a distance from a point exactly as the segment of space at height zero does, bit by bit, also for undefined and infinite coordinates. It contains its ends; a point that it accepts is near the segment; its distance is accurate to a stated error. For points with whole coordinates up to 2^24, or such coordinates times a power of two, segments of the plane and of space contain exactly the points of the segment, and spheres with whole radii exactly the points of the sphere.", "quantifier": "all doubles for the agreement of plane and space; all finite doubles up to 2^248 for the accuracy; all points of the grid for exactness; both orders in which Eigen may add three products", "why_tests_cant": "No set of points that is tried shows that the two implementations, written apart, agree bit by bit, or where the exact range of the arithmetic ends.", "anchors": ["src/OpenSpaceToolkit/Mathematics/Geometry/2D/Object/Segment.cpp:71-105", "src/OpenSpaceToolkit/Mathematics/Geometry/2D/Object/Segment.cpp:139-147", "src/OpenSpaceToolkit/Mathematics/Geometry/2D/Object/Segment.cpp:174-207", "src/OpenSpaceToolkit/Mathematics/Geometry/3D/Object/Segment.cpp:115-145", "src/OpenSpaceToolkit/Mathematics/Geometry/3D/Object/Sphere.cpp:263-278"]}
{"id": "C129", "title": "Quaternions made in double precision", "statement": "In double precision a rotation vector, three Euler angles or a rotation matrix becomes the quaternion of the rotation. From a rotation vector that the constructor accepts, it is within 18 units of rounding of the exact one; from Euler angles, within 41 units of the product of the three rotations, for each sequence of axes; from a matrix that turns every vector like a rotation up to a relative error d, within 5 d and 18 units of the quaternion or its opposite. The conversions never throw for such inputs, whichever of the four formulas for matrices is chosen, and the results pass for unitary. A quaternion that becomes a matrix and back is the same or its opposite, up to the tolerance and rounding. Undefined inputs are refused.", "quantifier": "all finite angles, all axes accepted by the constructor, all matrices of doubles near a rotation, all sequences, all tolerances between 2^-100 and 1/8; every sine and cosine accurate to 2^-53; both orders in which the trace may be added", "why_tests_cant": "The choice among the four formulas for matrices depends on comparisons of rounded numbers, and the last throw is reached only if none of the four is greatest: tests cannot try every matrix near the borders.", "anchors": ["src/OpenSpaceToolkit/Mathematics/Geometry/3D/Transformation/Rotation/Quaternion.cpp:510-520", "src/OpenSpaceToolkit/Mathematics/Geometry/3D/Transformation/Rotation/Quaternion.cpp:522-584", "src/OpenSpaceToolkit/Mathematics/Geometry/3D/Transformation/Rotation/Quaternion.cpp:586-644", "src/OpenSpaceToolkit/Mathematics/Geometry/3D/Transformation/Rotation/RotationVector.cpp:24-32"]}
{"id": "C130", "title": "Rotation vectors made from quaternions in double precision", "statement": "A unitary quaternion converts in double precision to a rotation vector of the same rotation: the axis has norm one within 5 units of rounding, the angle lies between zero and two pi, and the rotation about the axis by the angle is that of the quaternion up to (2.2 eps + 50 u) / sin(half angle). The way from a rotation vector to a quaternion and back gives the same rotation, up to (2.3 eps + 75 u) / sin(half angle). Quaternions that are undefined or not unitary are refused. For small rotations the claim is false: the quaternion of the rotation by 2^-26 becomes the rotation by zero, the scalar 1 + 2^-52, which passes for unitary, gives no defined rotation vector, and for the scalar 1 - 2^-53 the conversion throws.", "quantifier": "all quaternions of doubles that isUnitary accepts and whose vector part has a square of at least 8 eps + 100 u, all tolerances from 9 units of rounding to 1/8, every accurate arc cosine, both orders in which Eigen may add the squares of a norm, anything the square root of a negative number may do", "why_tests_cant": "The failures need scalar parts within a few units of rounding of one; a test with a rotation by a visible angle never meets them, and the tests of the repository compare to a loose tolerance.", "anchors": ["src/OpenSpaceToolkit/Mathematics/Geometry/3D/Transformation/Rotation/RotationVector.cpp:178-199", "src/OpenSpaceToolkit/Mathematics/Geometry/3D/Transformation/Rotation/RotationVector.cpp:24-32", "src/OpenSpaceToolkit/Mathematics/Geometry/3D/Transformation/Rotation/Quaternion.cpp:169-182"]}
{"id": "C131", "title": "Accessors give back what an object was made from", "statement": "The accessors of lines, rays, segments, planes, spheres, ellipsoids, cones, cuboids, polygons, pyramids, points, angles, quaternions and rotation vectors give exactly what the constructor was given: positions, extents, radii, angles and orientations unchanged, directions and axes as the unit vector along the one given, and the object made again from what they give is the same object. When any member is undefined every accessor throws Undefined, also that of a defined member.", "quantifier": "every object of each class with accessors, with and without undefined members", "why_tests_cant": "a test reads back one object; an accessor that returns the wrong member or skips the test for undefined members is seen only with members that differ or with partly undefined objects", "anchors": ["src/OpenSpaceToolkit/Mathematics/Geometry/3D/Object/Line.cpp:156-174", "src/OpenSpaceToolkit/Mathematics/Geometry/3D/Object/Ray.cpp:155-173", "src/OpenSpaceToolkit/Mathematics/Geometry/2D/Object/Line.cpp:125-143", "src/OpenSpaceToolkit/Mathematics/Geometry/3D/Object/Segment.cpp:152-170", "src/OpenSpaceToolkit/Mathematics/Geometry/3D/Object/Plane.cpp:182-200", "src/OpenSpaceToolkit/Mathematics/Geometry/3D/Object/Ellipsoid.cpp:509-587", "src/OpenSpaceToolkit/Mathematics/Geometry/3D/Object/Point.cpp:108-146", "src/OpenSpaceToolkit/Mathematics/Geometry/Angle.cpp:294-482"]}
{"id": "C132", "title": "Shortest rotation and means of quaternions in double precision", "statement": "In double precision ShortestRotation gives a quaternion that isUnitary accepts, whose rotation takes the direction of the first vector to the direction of the second with an error of at most 41 units of rounding divided by the cosine of half the angle between the vectors, and whose scalar part is that cosine within 20 units divided by it. A vector and itself, or a zero vector, give exactly the unit quaternion. LERP is within 3.02 units of rounding of the exact mean, gives back its ends exactly, and NLERP gives a unitary quaternion near the direction of the exact mean. Undefined arguments and ratios outside of [0, 1] throw.", "quantifier": "all vectors of norm between 2^-40 and 2^499 that are not within rounding of opposite, all quaternions with components up to 2^499, all ratios that are doubles", "why_tests_cant": "The error grows as the vectors become opposite and the tests only use a few pairs of axes; the loss of half of the digits near opposite vectors needs a pair that is opposite to 2^-28.", "anchors": ["src/OpenSpaceToolkit/Mathematics/Geometry/3D/Transformation/Rotation/Quaternion.cpp:665-685", "src/OpenSpaceToolkit/Mathematics/Geometry/3D/Transformation/Rotation/Quaternion.cpp:687-700", "src/OpenSpaceToolkit/Mathematics/Geometry/3D/Transformation/Rotation/Quaternion.cpp:702-707"]}
{"id": "C133", "title": "Inverse, quotient, angular difference and nearness of quaternions in double precision", "statement": "In double precision the inverse of a quaternion is within 5.4 units of rounding of the exact inverse and the quotient of two quaternions within 13.6 units. angularDifferenceWith of two quaternions that isUnitary accepts gives an angle in radians, never NaN: the cosine of half of it is within 36 units of rounding of the exact one, and the angle is within 2^-21 of the exact one. Quaternions within 2^-31 of one another or of the opposite of one another, in particular a quaternion and itself or its opposite, are at exactly no angle. isNear decides, to within 2^-21, whether the angle is at most a tolerance of less than a full turn. Undefined arguments and quaternions that are not unitary throw. Two rotations that differ by 2^-30 are taken for the same one even with no tolerance, and a tolerance of a full turn is reduced to none.", "quantifier": "all pairs of quaternions of doubles that isUnitary accepts with a tolerance of at most 1/8, both orders of adding in a dot product, all tolerances in radians from zero to a full turn", "why_tests_cant": "the argument of the arc cosine must stay at most one after five roundings for every pair, and a test with a few pairs does not tell that it does", "anchors": ["src/OpenSpaceToolkit/Mathematics/Geometry/3D/Transformation/Rotation/Quaternion.cpp:97-105", "src/OpenSpaceToolkit/Mathematics/Geometry/3D/Transformation/Rotation/Quaternion.cpp:184-193", "src/OpenSpaceToolkit/Mathematics/Geometry/3D/Transformation/Rotation/Quaternion.cpp:265-268", "src/OpenSpaceToolkit/Mathematics/Geometry/3D/Transformation/Rotation/Quaternion.cpp:441-461", "src/OpenSpaceToolkit/Mathematics/Geometry/3D/Transformation/Rotation/Quaternion.cpp:481-491"]}
{"id": "C134", "title": "Euler angles and rotation vectors from quaternions and matrices in double precision", "statement": "In double precision the Euler angles of a matrix are defined, in radians, with the first one in [0, pi], and their sines and cosines give back the coefficients they were taken from within 15 units of rounding, whenever the coefficient that goes into the arc sine is at most one; from a unitary quaternion, sequence ZYX, within 32 units when the second angle is away from a quarter turn. Beyond one the angles come out undefined without an exception, also for an accepted quaternion of a quarter turn about Y. The rotation vector of a matrix has an angle whose cosine is within 11 units of rounding of (trace - 1) / 2 and an axis within 16 units of the direction of the skew part; a trace above three by one unit in the last place makes it throw Undefined, and a rotation by 2^-28 is taken for none. Undefined arguments, quaternions that are not unitary and the undefined sequence throw.", "quantifier": "all matrices with coefficients up to 5/4, all unitary quaternions, every sequence, both orders of summation, every std::asin, std::acos and std::atan2 accurate to a unit in the last place", "why_tests_cant": "tests convert a few rotations with tolerances of 1e-12; they do not reach the arguments just above one, where rounding alone decides between an answer, an undefined object and an exception", "anchors": ["src/OpenSpaceToolkit/Mathematics/Geometry/3D/Transformation/Rotation/EulerAngle.cpp:206-314", "src/OpenSpaceToolkit/Mathematics/Geometry/3D/Transformation/Rotation/RotationVector.cpp:201-223"]}
{"id": "C135", "title": "Distances and closest points of point sets and line strings in double precision", "statement": "In double precision the distance of a point to a non empty set of points is within 3.6 units of rounding of the Euclidean one; the closest point is a point of the set and no other is closer by more than 8 units of rounding; the distance to the set equals the computed distance to the closest point, and is exactly zero for a point of the set. The distance of a segment to a set is the least over its points, with the error of each. A transformation moves a set to the set of the images, each once. Outside these ranges it fails: a translation by 2^60 merges the points 0 and (1, 0, 0); below 2^-540 the squares underflow and the closest point to a member is another one; from 2^600 on they overflow and the first one in the order of iteration is taken. Empty sets and undefined points throw.", "quantifier": "all points with coordinates up to 2^499 (2^248 for the segment), all non empty sets of any size, both orders of summation, every transformation matrix", "why_tests_cant": "tests use sets of three or four points with small integer coordinates, where every distance is exact or well separated; ties decided by rounding, underflow and overflow are not reached", "anchors": ["src/OpenSpaceToolkit/Mathematics/Geometry/3D/Object/PointSet.cpp:107-160", "src/OpenSpaceToolkit/Mathematics/Geometry/3D/Object/PointSet.cpp:184-204", "src/OpenSpaceToolkit/Mathematics/Geometry/3D/Object/LineString.cpp:90-118", "src/OpenSpaceToolkit/Mathematics/Geometry/3D/Object/Segment.cpp:242-267"]}
{"id": "C136", "title": "Cuboids and cones in double precision", "statement": "Cuboid::contains(Point) in double precision accepts every point of the faces whose offset from the centre is exact, and a point that it accepts is within about twice the tolerance of a face; equal cuboids contain the same points. Cone::contains(Point) in double precision accepts the points of the cone, up to 2^-21 radians of half-angle, its apex included, and always ends.", "quantifier": "all centres, apexes, orthonormal axes, extents, half-angles below a full turn and points with finite coordinates of bounded size, both orders of summation, any arc cosine with an error of at most 2^-51, all tolerances from 2^-100 on", "why_tests_cant": "the exceptions are at the last digit of the coordinates (corners, axes, points beside an edge), and one of them is a loop that never ends; tests with round numbers do not meet them", "anchors": ["src/OpenSpaceToolkit/Mathematics/Geometry/3D/Object/Cuboid.cpp:67-144", "src/OpenSpaceToolkit/Mathematics/Geometry/3D/Object/Cuboid.cpp:283-317", "src/OpenSpaceToolkit/Mathematics/Geometry/3D/Object/Cone.cpp:117-142"]}
{"id": "C137", "title": "Powers and SLERP of quaternions in double precision", "statement": "Quaternion::SLERP in double precision, between two quaternions whose norms are between one half and two, is the point that divides the shorter great arc between their directions in the ratio, within 2^-44 and 22 times Real::Epsilon(); the ends are the two quaternions up to sign, the result passes for unitary, a ratio outside [0, 1] or undefined is refused. exp, log and pow are the exponential, a logarithm and the powers of quaternions, within a few last digits and Real::Epsilon().", "quantifier": "all quaternions of norm 1/2 to 2 with components of bounded size, all ratios, both orders of summation, any library functions with an error of a few units in the last place, all thresholds from 2^-100 to 1/1000", "why_tests_cant": "the error is a function of eleven real numbers and of the library; the exceptions are at angles below Real::Epsilon() and at quaternions without a vector part", "anchors": ["src/OpenSpaceToolkit/Mathematics/Geometry/3D/Transformation/Rotation/Quaternion.cpp:275-310", "src/OpenSpaceToolkit/Mathematics/Geometry/3D/Transformation/Rotation/Quaternion.cpp:352-360", "src/OpenSpaceToolkit/Mathematics/Geometry/3D/Transformation/Rotation/Quaternion.cpp:709-729"]}
{"id": "C138", "title": "Rotation matrices made from angles in double precision", "statement": "In double precision the rotation matrices made from an angle about an axis, from a rotation vector and from Euler angles turn every vector as the exact rotation does, up to a few units of rounding; the constructor accepts them; the matrix and the quaternion made from the same Euler angles are the same rotation; undefined arguments are refused.", "quantifier": "all angles, axes, Euler angles and vectors with finite double components, any sine and cosine accurate to 2^-53, any order of adding three products", "why_tests_cant": "The error of a product of rounded matrices has to be bounded for all angles at once; tests compare a few angles with a loose tolerance", "anchors": ["src/OpenSpaceToolkit/Mathematics/Geometry/3D/Transformation/Rotation/RotationMatrix.cpp:295", "src/OpenSpaceToolkit/Mathematics/Geometry/3D/Transformation/Rotation/RotationMatrix.cpp:312", "src/OpenSpaceToolkit/Mathematics/Geometry/3D/Transformation/Rotation/RotationMatrix.cpp:329", "src/OpenSpaceToolkit/Mathematics/Geometry/3D/Transformation/Rotation/RotationMatrix.cpp:499", "src/OpenSpaceToolkit/Mathematics/Geometry/3D/Transformation/Rotation/RotationMatrix.cpp:533"]}
{"id": "C139", "title": "Lines, rays and segments that meet a plane, and distances to lines and rays, in double precision", "statement": "In double precision a segment whose ends are clearly on the two sides of a plane intersects it, one whose ends are clearly on one side does not, and likewise for rays and lines; intersects and intersectionWith agree; the returned point is near the line, ray or segment and near the plane; a segment in the plane is returned whole; a parallel line apart from the plane does not intersect it; the distance from a point to a line or ray is the exact distance up to a few units of rounding; undefined arguments are refused.", "quantifier": "all points with double coordinates up to 2^248, all normals and directions of norm between 1/2 and 2 (for distances: all vectors given to the constructor of norm at least 2^-40), any order of adding three products", "why_tests_cant": "Which side a rounded inner product falls on and where the computed point lies has to be bounded for all coordinates at once; the tests use axes and small integers for which nothing is rounded", "anchors": ["src/OpenSpaceToolkit/Mathematics/Geometry/3D/Object/Line.cpp:80", "src/OpenSpaceToolkit/Mathematics/Geometry/3D/Object/Line.cpp:186", "src/OpenSpaceToolkit/Mathematics/Geometry/3D/Object/Line.cpp:176", "src/OpenSpaceToolkit/Mathematics/Geometry/3D/Object/Ray.cpp:76", "src/OpenSpaceToolkit/Mathematics/Geometry/3D/Object/Ray.cpp:202", "src/OpenSpaceToolkit/Mathematics/Geometry/3D/Object/Ray.cpp:175", "src/OpenSpaceToolkit/Mathematics/Geometry/3D/Object/Segment.cpp:74", "src/OpenSpaceToolkit/Mathematics/Geometry/3D/Object/Segment.cpp:267"]}
{"id": "C140", "title": "Points of ellipsoids in double precision", "statement": "In double precision a point that an ellipsoid contains is near a point of the ellipsoid, a point of the ellipsoid is contained when the tolerance covers the roundings, an ellipsoid along the axes of coordinates contains its own points at the tolerance of the code, undefined points and ellipsoids are refused, a quaternion that is not unitary makes contains fail, and the constructor refuses exactly the negative half axes.", "quantifier": "all points and centres with double coordinates up to 2^200, all half axes between 2^-200 and 2^200, all quaternions the code takes for unitary, any representable tolerance in the stated range, any order of adding three products", "why_tests_cant": "Each answer is a comparison of a rounded sum of rounded squares with a tolerance of nine units of rounding, so it depends on the last bits of every coordinate; tests check a few spheres on the axes", "anchors": ["src/OpenSpaceToolkit/Mathematics/Geometry/3D/Object/Ellipsoid.cpp:66", "src/OpenSpaceToolkit/Mathematics/Geometry/3D/Object/Ellipsoid.cpp:126", "src/OpenSpaceToolkit/Mathematics/Geometry/3D/Object/Ellipsoid.cpp:458", "src/OpenSpaceToolkit/Mathematics/Geometry/3D/Object/Ellipsoid.cpp:131"]}
{"id": "C141", "title": "Rotations, and rotations about a point, as transformations in double precision", "statement": "In double precision the transformation made from a rotation vector (in the plane: from an angle) turns points and vectors alike, near the exact rotation; the rotation about a point moves every point near the exact image; the point about which one turns stays where it is; undefined rotations, angles, matrices and points are refused.", "quantifier": "all points with double coordinates up to 2^490, all axes the constructor accepts and all finite double angles, any sine and cosine within a unit of rounding, any order of adding three or four products", "why_tests_cant": "The image is a chain of two matrix products and one product with a point, rounded at each step; tests compare a few quarter turns with a tolerance of 1e-10 or so", "anchors": ["src/OpenSpaceToolkit/Mathematics/Geometry/3D/Transformation.cpp:274", "src/OpenSpaceToolkit/Mathematics/Geometry/3D/Transformation.cpp:288", "src/OpenSpaceToolkit/Mathematics/Geometry/3D/Transformation.cpp:302", "src/OpenSpaceToolkit/Mathematics/Geometry/2D/Transformation.cpp:287", "src/OpenSpaceToolkit/Mathematics/Geometry/2D/Transformation.cpp:307"]}
{"id": "C142", "title": "Equality of lines and planes, and what a plane contains, in double precision", "statement": "In double precision equality of lines and of planes is reflexive and symmetric, and equal lines or planes have the same direction up to sign and nearly the same points; it is exact for planes at right angles to an axis; a plane that contains a line, a ray or a segment is near each of its points, and an object far from the plane is not contained; containing, meeting and intersecting a point set follow from containing its points; equality is transitive, and a plane that contains a line contains the segments on it.", "quantifier": "all points with double coordinates up to 2^248 and all stored directions of length up to 2, any order of adding three products", "why_tests_cant": "Whether a scalar product of rounded differences is exactly zero depends on the last bits of every coordinate; tests take planes along the axes, where the roundings vanish", "anchors": ["src/OpenSpaceToolkit/Mathematics/Geometry/3D/Object/Plane.cpp:33", "src/OpenSpaceToolkit/Mathematics/Geometry/3D/Object/Plane.cpp:115", "src/OpenSpaceToolkit/Mathematics/Geometry/3D/Object/Plane.cpp:137", "src/OpenSpaceToolkit/Mathematics/Geometry/3D/Object/Plane.cpp:207", "src/OpenSpaceToolkit/Mathematics/Geometry/3D/Object/Line.cpp:45"]}
{"id": "C143", "title": "Rotation matrices made from vectors in double precision", "statement": "In double precision the matrix made from two pairs of vectors that are not parallel turns every vector nearly as the rotation that takes the first direction to the first and the normal to the normal, it is that rotation exactly for pairs of perpendicular axes, and it is returned whenever the vectors are not parallel; rows and columns near orthonormal ones are taken to the last bit, rows or columns that are too long or not perpendicular are refused; a returned matrix is near a rotation; undefined vectors are refused.", "quantifier": "all vectors of doubles between 2^-40 and 2^499 in length, all pairs with a sine of at least 2^-20, any tolerance in the stated range, any order of adding three products", "why_tests_cant": "The bases are made of normalized cross products, whose relative error grows as the vectors become parallel, and the constructor then compares scalar products of the result with 1e-15; tests take pairs of axes, where nothing is rounded", "anchors": ["src/OpenSpaceToolkit/Mathematics/Geometry/3D/Transformation/Rotation/RotationMatrix.cpp:346", "src/OpenSpaceToolkit/Mathematics/Geometry/3D/Transformation/Rotation/RotationMatrix.cpp:401", "src/OpenSpaceToolkit/Mathematics/Geometry/3D/Transformation/Rotation/RotationMatrix.cpp:565"]}
{"id": "C144", "title": "Objects of space moved several times in double precision", "statement": "In double precision an object that is moved by any sequence of rotations about axes through the origin and of translations stays near the object moved by the exact motions: the error of points, of directions, of axes and of half lengths grows at most in proportion to the number of motions, the axes of cones and cuboids keep length one, and the radius of a sphere is kept exactly; a translation leaves directions and the identity leaves the object exactly as they are; what is undefined is refused.", "quantifier": "all finite sequences of at most 2^40 rotations and translations, all coordinates of doubles up to 2^490, any accurate sine and cosine, any order of adding three and four products", "why_tests_cant": "The errors of each motion add up, axes are normalized and half lengths are multiplied by a computed length each time; tests move an object once or twice and compare with a tolerance", "anchors": ["src/OpenSpaceToolkit/Mathematics/Geometry/3D/Object/Point.cpp:184", "src/OpenSpaceToolkit/Mathematics/Geometry/3D/Object/Line.cpp:233", "src/OpenSpaceToolkit/Mathematics/Geometry/3D/Object/Ray.cpp:264", "src/OpenSpaceToolkit/Mathematics/Geometry/3D/Object/Plane.cpp:256", "src/OpenSpaceToolkit/Mathematics/Geometry/3D/Object/Segment.cpp:326", "src/OpenSpaceToolkit/Mathematics/Geometry/3D/Object/Sphere.cpp:580", "src/OpenSpaceToolkit/Mathematics/Geometry/3D/Object/Cone.cpp:481", "src/OpenSpaceToolkit/Mathematics/Geometry/3D/Object/Cuboid.cpp:462", "src/OpenSpaceToolkit/Mathematics/Geometry/3D/Transformation.cpp:171", "src/OpenSpaceToolkit/Mathematics/Geometry/3D/Transformation.cpp:249"]}
{"id": "C145", "title": "Products of transformations in double precision", "statement": "In double precision a product of any number of rotations about axes through the origin and of translations, bracketed in any way, moves points and turns directions nearly as the exact motions of its factors one after the other from the right, with an error at most in proportion to the number of factors; so do its factors applied in turn, and products bracketed differently; rotations about a point are such products; the product is always returned, stays rigid, and has the type of its factors when they are of one type and is affine otherwise; the identity is neutral and what is undefined is refused; the product is associative.", "quantifier": "all binary trees of products with at most 2^40 factors and paths up to 2^490, all points and directions of doubles up to 2^499, any accurate sine and cosine, any order of adding four products at each node", "why_tests_cant": "The errors depend on how the product is bracketed and on the number of factors; tests multiply two or three transformations and compare with a tolerance", "anchors": ["src/OpenSpaceToolkit/Mathematics/Geometry/3D/Transformation.cpp:27", "src/OpenSpaceToolkit/Mathematics/Geometry/3D/Transformation.cpp:42", "src/OpenSpaceToolkit/Mathematics/Geometry/3D/Transformation.cpp:66", "src/OpenSpaceToolkit/Mathematics/Geometry/3D/Transformation.cpp:226", "src/OpenSpaceToolkit/Mathematics/Geometry/3D/Transformation.cpp:231", "src/OpenSpaceToolkit/Mathematics/Geometry/3D/Transformation.cpp:302"]}
{"id": "C146", "title": "Polygons of space in double precision", "statement": "In double precision two axes are accepted when the cosine of their angle is below the tolerance and refused when it is above it, apart from a few units of rounding, and perpendicular axes are always accepted; what is kept of each axis is within 4.5 units of rounding of the vector of length one in its direction; the vertices are as many and in the same order as in the plane, each within nine units of rounding of its exact place, so that distances in the plane are kept; the normal vector is within 30 units of the exact one; a polygon moved any number of times has its vertices near the exact ones moved exactly, with an error in proportion to the number of motions; a polygon with an undefined part gives no vertices and is equal to none; a polygon made again from its own parts is equal; parallel axes are refused.", "quantifier": "all polygons of the plane with coordinates up to 2^490, all origins and axes of doubles up to 2^499 with axes of length at least 2^-40, all tolerances, all sequences of at most 2^40 rotations and translations", "why_tests_cant": "Which axes pass the test depends on the last bits after normalization; tests use axes along the coordinates, for which nothing is rounded", "anchors": ["src/OpenSpaceToolkit/Mathematics/Geometry/3D/Object/Polygon.cpp:20", "src/OpenSpaceToolkit/Mathematics/Geometry/3D/Object/Polygon.cpp:41", "src/OpenSpaceToolkit/Mathematics/Geometry/3D/Object/Polygon.cpp:59", "src/OpenSpaceToolkit/Mathematics/Geometry/3D/Object/Polygon.cpp:141", "src/OpenSpaceToolkit/Mathematics/Geometry/3D/Object/Polygon.cpp:192", "src/OpenSpaceToolkit/Mathematics/Geometry/3D/Object/Polygon.cpp:228", "src/OpenSpaceToolkit/Mathematics/Geometry/3D/Object/Polygon.cpp:266"]}
{"id": "C147", "title": "Lateral faces of pyramids in double precision", "statement": "In double precision the face of a pyramid between the apex and an edge of the base is never refused by the constructor of polygons for axes that are not orthogonal, though both axes are computed and the tolerance is only nine units of rounding; one of its vertices is exactly the apex, one is within 26 units of rounding of the first point of the edge, and one within 250 units divided by the sine of the angle at the apex of the second point, relative to the distances involved; these are its vertices, in one of the two directions; a face with an undefined point does not exist.", "quantifier": "all apexes and edges of doubles up to 2^248 whose distances from the apex are at least 2^-30 and seen from it under an angle with a sine of at least 2^-20 (and, for the list of vertices, the first distance at most 2^10 times the second), all tolerances of nine units of rounding or more, both orders of adding three products", "why_tests_cant": "The test on the axes compares rounding errors with a tolerance of the same size; a few pyramids of the tests pass it without saying anything about others", "anchors": ["src/OpenSpaceToolkit/Mathematics/Geometry/3D/Object/Pyramid.cpp:242", "src/OpenSpaceToolkit/Mathematics/Geometry/3D/Object/Polygon.cpp:20", "src/OpenSpaceToolkit/Mathematics/Geometry/3D/Object/Polygon.cpp:228"]}
{"id": "C148", "title": "Objects of the plane moved several times in double precision", "statement": "A line, a segment, a line string or a polygon of the plane that is moved in double precision by any sequence of rotations about the origin, rotations about points and translations has its points near the places where the exact motions bring them, with an error that grows with each motion by at most 2^-46 of the distances involved; distances within the object change by no more than the errors of two points; the identity changes nothing, and one translation gives the doubles nearest to the exact sums and leaves directions; undefined transformations and undefined objects are refused.", "quantifier": "all sequences of up to 2^40 motions, all objects with any number of points whose coordinates with the path of the motions are not above 2^480", "why_tests_cant": "the number of motions and of points is not bounded, and the error of a sequence is made of the errors of all its steps", "anchors": ["src/OpenSpaceToolkit/Mathematics/Geometry/2D/Transformation.cpp:263", "src/OpenSpaceToolkit/Mathematics/Geometry/2D/Transformation.cpp:273", "src/OpenSpaceToolkit/Mathematics/Geometry/2D/Transformation.cpp:287", "src/OpenSpaceToolkit/Mathematics/Geometry/2D/Transformation.cpp:307", "src/OpenSpaceToolkit/Mathematics/Geometry/2D/Object/Point.cpp:185", "src/OpenSpaceToolkit/Mathematics/Geometry/2D/Object/Line.cpp:192", "src/OpenSpaceToolkit/Mathematics/Geometry/2D/Object/Segment.cpp:275", "src/OpenSpaceToolkit/Mathematics/Geometry/2D/Object/LineString.cpp:246", "src/OpenSpaceToolkit/Mathematics/Geometry/2D/Object/Polygon.cpp:619", "src/OpenSpaceToolkit/Mathematics/Geometry/2D/Object/Polygon.cpp:1041"]}
{"id": "C149", "title": "Products of transformations of the plane in double precision", "statement": "A product of any number of rotations about the origin, rotations about points and translations of the plane, bracketed in any way, moves points, lines and polygons in double precision as the exact motions of its factors do, one after the other from the right, with an error that grows with each factor by at most 2^-45 of the distances involved; products bracketed differently, and the factors applied in turn, give nearly the same; the type is that of the factors if they are all rotations about the origin or all translations and affine otherwise; a rotation about a point is the product of three; the identity is neutral; undefined factors are refused.", "quantifier": "all trees of products of up to 2^40 factors whose path is not above 2^490, all points, lines and polygons of doubles up to 2^490", "why_tests_cant": "the trees are not bounded in size, and bracketing changes the result of every rounding", "anchors": ["src/OpenSpaceToolkit/Mathematics/Geometry/2D/Transformation.cpp:25", "src/OpenSpaceToolkit/Mathematics/Geometry/2D/Transformation.cpp:40", "src/OpenSpaceToolkit/Mathematics/Geometry/2D/Transformation.cpp:64", "src/OpenSpaceToolkit/Mathematics/Geometry/2D/Transformation.cpp:307"]}
{"id": "C150", "title": "Inverses of transformations of the plane in double precision", "statement": "The inverse of a product of any number of rotations about the origin, rotations about points and translations of the plane, bracketed in any way, is returned in double precision with the type of the product; the exact motions of the factors take what it makes of points, lines and polygons back to the given points and directions, up to 2^-40 of the distances involved for each factor; a point moved by the product and by its inverse, in either sequence, comes back up to 2^-39 of the distances for each factor; the last row of the inverse is zero, zero and near one; the inverse of a translation is exactly the translation by the opposite vector and their products are exactly the identity; the identity is its own inverse; an undefined transformation is refused.", "quantifier": "all trees of products of up to 2^34 factors whose path is not above 2^490, all points, lines and polygons of doubles up to 2^490, all finite translation vectors", "why_tests_cant": "the trees are not bounded in size, and the determinant, its inverse and every cofactor are rounded", "anchors": ["src/OpenSpaceToolkit/Mathematics/Geometry/2D/Transformation.cpp:219", "src/OpenSpaceToolkit/Mathematics/Geometry/2D/Transformation.cpp:229", "src/OpenSpaceToolkit/Mathematics/Geometry/2D/Transformation.cpp:268", "src/OpenSpaceToolkit/Mathematics/Geometry/2D/Transformation.cpp:273"]}
{"id": "C151", "title": "Point sets, multi-polygons and composites of the plane moved several times in double precision", "statement": "A point set can be moved several times exactly if it is not empty and each of its points can, with defined coordinates at the end; the result has no point twice, consists of the moved points and has not more points than before; after rotations and translations its points are near the exact images and none is lost if each two points were further apart than the sum of their errors; a multi-polygon keeps its polygons and rings, each point near its exact image; a composite moved several times is the composite of its members moved several times, in their order; the identity leaves a defined composite as it is; undefined transformations, empty point sets and multi-polygons and composites with an undefined member are refused.", "quantifier": "all lists of transformations with any matrices and all sets of points of any doubles for the exact parts; for the distances up to 2^40 rotations and translations and coordinates up to 2^480", "why_tests_cant": "neither the number of transformations nor that of points, polygons and members is bounded, and every coordinate is rounded", "anchors": ["src/OpenSpaceToolkit/Mathematics/Geometry/2D/Object/PointSet.cpp:222", "src/OpenSpaceToolkit/Mathematics/Geometry/2D/Object/MultiPolygon.cpp:232", "src/OpenSpaceToolkit/Mathematics/Geometry/2D/Object/MultiPolygon.cpp:502", "src/OpenSpaceToolkit/Mathematics/Geometry/2D/Object/Composite.cpp:195", "src/OpenSpaceToolkit/Mathematics/Geometry/2D/Object/Composite.cpp:524"]}
{"id": "C152", "title": "Point sets, line strings, pyramids and composites of space moved several times in double precision", "statement": "A point set can be moved several times exactly if it is not empty and each of its points can, with defined coordinates at the end; the result has no point twice, consists of the moved points and has not more points than before; a line string is moved exactly when its points are and keeps their number and order; a pyramid is moved exactly when its base and its apex are; after rotations and translations the points of sets and line strings are near the exact images, distances are kept up to the errors and no point of a set is lost if each two points were further apart than the sum of their errors; a composite moved several times is the composite of its members moved several times, in their order; the identity leaves a defined composite as it is; what is undefined is refused, and a composite that begins with a sphere refuses a transformation not called rigid.", "quantifier": "all lists of transformations with any matrices and all points of any doubles for the exact parts; for the distances up to 2^40 rotations and translations and coordinates up to 2^490", "why_tests_cant": "neither the number of transformations nor that of points and members is bounded, and every coordinate is rounded", "anchors": ["src/OpenSpaceToolkit/Mathematics/Geometry/3D/Object/PointSet.cpp:184", "src/OpenSpaceToolkit/Mathematics/Geometry/3D/Object/LineString.cpp:142", "src/OpenSpaceToolkit/Mathematics/Geometry/3D/Object/Pyramid.cpp:510", "src/OpenSpaceToolkit/Mathematics/Geometry/3D/Object/Composite.cpp:195", "src/OpenSpaceToolkit/Mathematics/Geometry/3D/Object/Composite.cpp:435"]}
