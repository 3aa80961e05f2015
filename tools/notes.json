{
"C01": {"note": "Constructor followed by any sequence of setter calls, including calls that throw."},
"C02": {"note": "The full statement is false for the code: setters reach a defined interval without values (C02_defined_but_empty). Proved for constructor results.", "status": "partial"},
"C03": {"note": "contains(value) for every defined interval; contains(interval) and intersects for valid intervals of a dense order."},
"C04": {"note": "Dense order."},
"C05": {"note": "Dense order."},
"C06": {"note": "Extensional for valid intervals of a dense order; equivalence relation for all."},
"C07": {"note": "Every Sorter, every valid list."},
"C08": {"note": "Full statement false for the code (C08_merge_not_normal, ties of lower bounds). Proved: disjoint and ordered always; normal form without ties; Merge twice is canonical.", "status": "partial"},
"C09": {"status": "partial", "note": "Full statement false for the code (C09_gap_missed, C09_gaps_throws). Proved: exact characterisation of what is returned, and of when it throws (C09_throws, C09_throws_no_reference: exactly if Merge leaves two touching intervals that both meet the reference interval)."},
"C10": {"note": ""},
"C11": {"note": "Full statement false for the code (C11_common_value_lost). Proved: exact characterisation of what is returned.", "status": "partial"},
"C12": {"note": "Every Sorter."},
"C13": {"note": ""},
"C14": {"note": "Exact arithmetic in an Archimedean ordered field; rounding of Real not modelled."},
"C15": {"note": "Exact arithmetic; rounding of Real not modelled."},
"C16": {"note": "Exact arithmetic over ℝ; rounding not modelled."},
"C17": {"note": "Exact arithmetic over ℝ. In floating point the reduction loops stall for angles so large that adding a turn rounds away; not modelled."},
"C18": {"note": "Exact arithmetic over ℝ."},
"C19": {"note": "Exact arithmetic over ℝ."},
"C20": {"note": "All tolerances, also negative ones and those above half a turn."},
"C21": {"note": "eps is any positive number."},
"C22": {"note": "Exact arithmetic over ℝ."},
"C23": {"note": "Exact arithmetic over ℝ."},
"C24": {"note": "Exact arithmetic over ℝ; == is exact as in the code."},
"C25": {"note": "Exact arithmetic over ℝ."},
"C26": {"note": "Exact arithmetic over ℝ; eps at most 2."},
"C27": {"note": "Exact arithmetic over ℝ; eps at most 1."},
"C28": {"note": "Exact arithmetic over ℝ."},
"C29": {"note": "True for ZYX. For XYZ and ZXY the code disagrees with itself (C29_xyz_disagree, C29_zxy_disagree are the negations with a witness)."},
"C30": {"note": "True for ZYX away from the gimbal lock; the returned sequence is always ZYX, so the property is false for the others (C30_wrong_sequence, C30_xyz_wrong_matrix). The sign of zero in atan2 is not modelled."},
"C35": {"note": "False as stated (C35_not_proper): the constructor has one-sided tests. Proved for every program of the other factories and operations."},
"C36": {"note": "False for the index 3 (C36_index_three): out-of-bounds access. Proved for the others and for rows and columns."},
"C68": {"note": "False for the matrix conversion with ZXY (C68_zxy_matrix_differs)."},
"C70": {"note": "False for half turns (throws) and for small angles other than zero (X axis)."},
"C71": {"note": "Beyond one turn the angle is not brought to the interval (C71_not_in_range)."},
"C72": {"note": "Exact arithmetic over ℝ."},
"C31": {"note": "LERP, NLERP and SLERP of unitary quaternions over exact reals; SLERP at ratio 1 is exact above the threshold and within eps*sqrt 2 otherwise."},
"C32": {"note": "False in general: exp drops the norm when the vector part is below the threshold (C32_exp_log_loses_norm), and small powers collapse to the identity (C32_pow_add_small). Proved above the thresholds.", "status": "partial"},
"C33": {"note": "Symmetry, zero, range, invariance, trace formula and triangle inequality for unitary quaternions."},
"C34": {"note": "Unit result that takes one direction to the other with the smallest angle; throws for nearly opposite directions."},
"C69": {"note": "False for negative tolerances and for tolerances of a full turn, both with a witness; proved in between.", "status": "partial"},
"C73": {"note": "Exact above the thresholds; within pi*eps always."},
"C37": {"status": "partial", "note": "2D proved for everything the API builds; 3D for everything built from the factories (with proper rotation matrices) and, for composition, for any matrix with exact last row. The claim for every defined 3D transformation is false: the matrix constructor accepts a last row within the Eigen tolerance of 0 0 0 1 (C37_not_composition)."},
"C38": {"status": "partial", "note": "3D proved for factories with proper rotations; false for RotationMatrix values that are not rotations (C38_rigid3_unsound). 3D from a matrix: flagged when it keeps all distances, and a flagged one changes no squared distance by more than three times the precision of the test. 2D: sound, but not complete (C38_rigid2_incomplete: rotations about a point are not flagged)."},
"C39": {"status": "partial", "note": "Proved with proper rotation matrices; C39_reflection shows the claim fails for a reflection accepted by the RotationMatrix constructor."},
"C40": {"status": "partial", "note": "Label algebra and 2D proved. 3D truthfulness is proved for proper rotation matrices; the matrix constructor labels approximate identities Identity (C40_approximate_identity)."},
"C41": {"note": "The axis is a unit vector, which the RotationVector constructors ensure (C27_axis_unit)."},
"C74": {"status": "partial", "note": "2D proved; in 3D for proper rotation matrices (other RotationMatrix values may have an inverse that is not finite and so differs from itself). Exact reals."},
"C75": {"note": "Exact reals."},
"C42": {"note": "Segments in 2D and 3D over exact reals: contains is membership, distanceTo the minimum distance; the length, centre and direction. Floating point rounding is not modelled."},
"C43": {"note": "Lines in 2D and 3D over exact reals, for unit directions (what the constructors accept, up to the tolerance). Floating point rounding is not modelled."},
"C44": {"note": "Rays in 3D over exact reals, for unit directions."},
"C45": {"note": "Planes over exact reals with a unit normal. C45_constructor: the constructor normalizes the normal and also accepts the zero normal, whose plane contains every point."},
"C46": {"note": "Plane intersections with lines, rays, segments, points and point sets over exact reals. The parallel test of the code is exact equality with zero, as modelled."},
"C52": {"status": "partial", "note": "Set equality, closest point and distances are proved. isNear is proved sound; the missing part is completeness: the code matches greedily in iteration order, and C52_order gives two sets that are near in one order and not in the other."},
"C53": {"note": "2D line strings over exact reals: contains is the union of the segments."},
"C47": {"status": "partial", "note": "Points, point sets, segments, lines, rays, planes, line strings and spheres, for transformations made by the factories, composition and inverse. Missing: transformations from a rotation matrix that is not a rotation, which the code marks rigid (C38)."},
"C48": {"note": "Over exact reals, given the assumed behaviour of the Geometric Tools queries (Model/Gte.lean). contains is the surface within the tolerance; intersections are exactly the common points (an end of a ray or segment may be on the sphere just within the tolerance); nearest point with onlyInSight; intersects is whether there are common points. The radius is not checked by the constructor; C48_plane needs it non-negative."},
"C49": {"status": "partial", "note": "getMatrix, the axes and all intersections use the rows of the rotation, contains uses its columns (C49_violated: a point at the end of the first axis is rejected). C49_contains_partial gives the claim when the two forms agree (Symmetric); C49_contains_conjugate says what contains decides in general, within eps of the surface (strict)."},
"C76": {"status": "partial", "note": "Proved for the surface of getMatrix, over exact reals. C76_segment_violated: a chord with both ends on the surface makes intersects(Segment) false; C76_segment_test says exactly what it decides unless the line is within the hard-coded tolerance of tangent. Ends that contains rejects (C49) may be dropped. GTE queries are assumed as in Model/Gte.lean."},
"C77": {"status": "partial", "note": "The quadratic form of getMatrix moves with the points for every transformation built from the factories and every eigen solver meeting its contract (exists_solver: there is one). contains does not follow, by C49. Rounding is not modelled."},
"C50": {"status": "partial", "note": "Over exact reals. C50_contains and the containment of segments, point sets, rays and spheres hold for half-angles up to 90 degrees and points that are the apex or at least sqrt(eps) away; nearer points throw (C50_near_apex). Violated by the code: half-angles above 90 degrees (C50_wide_violated), the distance to points behind the apex (C50_distance_violated), equality of complementary cones (C50_eq_violated). Missing: floating-point rounding, and the distance of points within eps of the axis line but not on it."},
"C78": {"status": "partial", "note": "Over exact reals. The solid cone and the sphere, the generators and the points of the line strings are characterised exactly; intersects(Ellipsoid) only tests the generators and is false for an ellipsoid inside of the cone (C78_ellipsoid_violated). A non-unit axis makes getRaysOfLateralSurface throw (C78_rays_refused). Missing: floating-point rounding and the GTE library, modelled by its documented results."},
"C51": {"status": "partial", "note": "Proved for orthonormal axes and exact real numbers: contains(Point) accepts exactly the points within the tolerance of a face and inside the others, intersects(PointSet) some and contains(PointSet) all of the points, intersects(Line) and intersects(Cuboid) hold exactly if the solid boxes share a point with the line or each other (all fifteen separating axes), two cuboids with positive extents are equal exactly if they have the same points, moving by any built transformation moves every point, Cube and undefined inputs. Violated: getVertices halves the extents, so that no vertex is on the box (C51_vertices_violated), and contains(Segment) tests only the ends (C51_segment_violated). The separating axis query of the geometry library is modelled from its documentation. Floating point is not modelled."},
"C58": {"status": "partial", "note": "Construction, vertex order, orientation, rejection of short or undefined rings, indexing of the outer ring, conversion to a multi-polygon and back, motion, nearness and failure on undefined values are proved. The unchanged code violates two clauses: vertices and edges of holes cannot be reached by index (C58_holes_violated), and a ring A,B,A gives a two-vertex polygon that cannot be rebuilt (C58_two_vertices_violated). boost::geometry::correct is modelled in exact arithmetic; the region algorithms of boost are a parameter."},
"C59": {"status": "partial", "note": "Proved for non-null axes, in exact arithmetic: the embedding keeps squared distances up to the tolerance the constructor allows and exactly for perpendicular axes. Null axes are accepted and collapse every vertex onto the origin (C59_null_violated)."},
"C54": {"status": "partial", "note": "Adding composites concatenates their objects with Empty neutral and addition associative; adding intersections gives the intersection of the concatenated objects. Holds for objects that have an intersection type; cones, multi-polygons and nested composites have none, and then the sum of two defined intersections fails depending on their order (C54_cone_violated)."},
"C55": {"status": "partial", "note": "The type of an intersection summarises its objects for every intersection reachable through the public interface, in both dimensions; cones, multi-polygons and nested composites have no type, so a defined intersection of one of them is of type Undefined (C55_cone_violated, C55_multiPolygon_violated)."},
"C79": {"status": "partial", "note": "Proved for the plane: contains asks all members, anyContains one of them. anyContains of a composite uses the all-members test, so it denies containment that anyContains of the single object affirms (C79_anyContains_violated)."},
"C80": {"status": "partial", "note": "The region algorithms of boost::geometry are parameters. Whenever the code returns an intersection it consists of the common polygons, then the uncovered valid line strings, then the uncovered points; with two uncovered points (or line strings) the code throws ToBeImplemented (C80_points_violated)."},
"C60": {"status": "partial", "note": "Proved for an apex off the plane of the base and a base with exactly perpendicular unit axes; the region of the flat polygon is whatever the library test covered_by answers (contract hB). With the apex in the plane of the base the code throws or answers all-or-nothing (C60_flat_partial), and with a zero axis it throws for every point but the apex (C60_null_violated). The pyramid of the code is not cut off at the base."},
"C81": {"status": "partial", "note": "Proved for a base without holes and edges not in line with the apex (C81_apart: that is so for an apex off the plane of the base and edges of positive length). Ends seen in the same direction give a single ray, and an edge through the apex is refused (C81_degenerate). With a hole in the base the edges of the hole have no faces and the rays of all the faces are refused (C81_holes_violated)."},
"C82": {"status": "partial", "note": "The code tests only the sampled rays of the lateral faces: what it answers is characterised exactly by those rays, a positive answer is right, but a sphere inside the pyramid is not found (C82_violated). Same restriction on the base as C81; the ellipsoid ray query merges points nearer than the tolerance."},
"C56": {"status": "partial", "note": "In space proved for every type and every depth of nesting, given that boost's equals is reflexive; violated for point sets and line strings that hold an undefined point. In the plane violated: only points, polygons and multi-polygons are compared, every other type is unequal to itself."},
"C57": {"status": "partial", "note": "Proved for all defined objects that are not composites, except a plane with a point or point set. Violated there and for composites: the reverse order is not implemented."},
"C83": {"status": "partial", "note": "Partial correctness for every pair that answers, totality for straight objects with planes, spheres and ellipsoids. contains of cones and pyramids through the base class is stated in C83_contains_cone and C83_contains_pyramid; their intersections are covered by C78 to C82. A segment with an ellipsoid is excluded (C76). Violated: six contains overloads and two intersectionWith overloads cannot be reached through the base class."},
"C84": {"status": "partial", "note": "Intersections, transformations (given a correct eigen solver) and the loops over members are proved. contains is violated: the empty composite contains everything, and all members rather than one must contain the object."},
"C85": {"status": "partial", "note": "Violated for two polygons, where the call is a call of itself; every other pair of types needs one call."},
"C61": {"status": "partial", "note": "Exact ordered field, any nodes; std::lower_bound modelled as the libstdc++ loop, so reads and divisions are shown safe on unsorted nodes too. Disagreement: at the first node the derivative answered is always zero (C61_derivative_first_violated). Unsorted nodes are accepted and then not reproduced (C61_unsorted_violated). Rounding of doubles is not modelled."},
"C62": {"status": "proved", "note": "Exact ordered field; std::upper_bound modelled as the libstdc++ loop. NaN abscissae are not modelled."},
"C63": {"status": "partial", "note": "Disagreement: BarycentricRational passes the values to boost through an iterator without an end before testing sizes, so fewer values than nodes is undefined behaviour (C63_barycentric_violated). The boost constructors are modelled from the library's documentation and source: domain_error and logic_error are recorded as runtimeError."},
"C64": {"status": "partial", "note": "Real matrices of any dimension; the eigensolver is any function keeping Eigen's documented contract (C64_contract shows one exists), log and exp are exact. Disagreement: symmetry is not tested and only the lower triangle is read, so an asymmetric matrix is accepted and returned (C64_asymmetric_violated). Missing: convergence and rounding of the solver."},
"C86": {"status": "proved", "note": "The weights and the evaluation loop are those of boost 1.7x barycentric_rational, modelled from its source (not in the repository); exact ordered field. For unsorted nodes poles exist although the constructor accepts them (C86_unsorted_violated)."},
"C87": {"status": "proved", "note": "Over the reals with Mathlib's HasDerivAt; the cubic spline is not covered (its evaluation is in boost and not modelled)."},
"C88": {"status": "proved", "note": "For symmetric node matrices; eigensolver contract as in C64."},
"C65": {"status": "partial", "note": "Disagreement: the direction of integration is the sign of the last requested time instead of its position relative to the start. Backward between positive times, forward between negative times and from a negative time to zero nothing is integrated (C65_positive_backward_violated, C65_negative_forward_violated, C65_to_zero_violated); from a positive time to zero Runge-Kutta 4 does not return (C65_back_to_zero_violated). Proved when the two agree. odeint's integrate_times is modelled from its source; the six steppers with step control are any functions keeping the documented contract of try_step (KeepsTime). Calls with Runge-Kutta 4 return (C65_returns); calls with step control return when the stepper keeps a contract of progress (C65_returns_controlled). Exact arithmetic."},
"C66": {"status": "partial", "note": "Disagreement: integrateTime(start, end) integrates from time zero for end - start and answers that length as time (C66_violated, for every start other than zero). Proved: it equals the integration of the shifted system, hence is right for autonomous systems, with Runge-Kutta 4 in exact comparison of times (C66_shifted_partial, C66_autonomous_partial) and with the steppers with step control for every stepper that uses the time only to evaluate the system (C66_controlled_partial, C66_controlled_autonomous_partial)."},
"C67": {"status": "proved", "note": "Any history of calls, including calls that throw. What the observer prints is not modelled. C67_duration assumes odeint's contract of try_step."},
"C89": {"status": "partial", "note": "Disagreement: with LogConstant the six steppers with step control stop at the last multiple of the time step, but the state is answered with the full duration as its time (C89_constant_violated, C89_constant_partial). A negative time step is accepted and nothing is integrated (C89_negative_step_violated). Proved for the other cases. Calls with Runge-Kutta 4 return; calls with step control return when the stepper keeps a contract of progress (C89_returns_controlled), and throw when it accepts no step (C89_stuck)."},
"C90": {"status": "proved", "note": "Exact arithmetic; the exactness for cubics is for exact comparison of times (eps = 0)."},
"C91": {"status": "proved", "note": "Exact arithmetic, for lists of requested times."},
"C92": {"status": "proved", "note": "The print function is not modelled."},
"C93": {"status": "partial", "note": "Disagreement: the constructor from nodes accepts distances that differ by the tolerance of isConstant, and gives the library only the first node and the first distance, so later nodes drift away from the places where the values are taken (C93_nodes_violated); C93_drift_partial bounds the drift, C93_nodes_partial covers exactly spaced nodes. boost's cardinal_cubic_b_spline is not in the repository; it is modelled from its source, the estimate of the slopes at the ends being left open."},
"C94": {"status": "proved", "note": "boost's cardinal_cubic_b_spline is not in the repository; it is modelled from its source in exact arithmetic, the estimate of the slopes at the ends being left open. Queries whose place in steps does not fit in a long are not modelled."},
"C95": {"status": "proved", "note": "As C94. That the library's own estimate of the slopes is exact for a given polynomial is not claimed; the theorem takes it as a hypothesis."},
"C96": {"status": "partial", "note": "Disagreements: minus infinity is printed as Inf (C96_infinity_violated), the text of the empty vector is refused (C96_empty_violated), and the text of a matrix is read as a vector with zeros instead of being refused (C96_matrix_violated). Otherwise proved, in exact numbers (C96_decimals_partial, C96_general_partial, C96_integers) and with the numbers read rounded to doubles (C96_double_partial). Fifteen digits do not tell all doubles apart (C96_digits_violated). Signed zeros are not modelled; the formats of the C library (%f, %g with 15 digits, strtod) are assumed."},
"C97": {"status": "proved", "note": "Strings are lists of characters; getline is modelled by its rule for a delimiter and the end of the text."},
"C98": {"status": "proved", "note": "For quaternions of finite numbers, for any number of decimals and without one (fifteen digits), in exact numbers; C96_double_partial adds the rounding of what is read. Printing and reading of the C library (%f, %g, strtod) are assumed as modelled. The conversion of NaN components to Real is not modelled."},
"C99": {"status": "proved", "note": "The text of a bound is any function that prints no commas; String::Format is taken to put the texts in place of the braces."},
"C100": {"status": "partial", "note": "Disagreements: a full turn is the identity but isUnitary is false (C100_turn_not_unitary); undefined Euler angles may be reported unitary, or not unitary without an error (C100_unitary_undefined). Proved: the round trip, the errors, and that isUnitary of defined Euler angles means three zero angles and implies the identity."},
"C101": {"status": "partial", "note": "Proved for tolerances from zero to less than one turn. Disagreement, inherited from Quaternion::isNear: a tolerance between minus half a turn and zero accepts everything (C101_negative_tolerance)."},
"C102": {"status": "partial", "note": "Disagreements: a segment, the line string of its end points and a line can have the same text (C102_kind_violated), and all composites have the same empty text (C102_composite_violated). The text of a number is a parameter that prints no separators; the well-known text of boost for polygons is assumed; multi-polygons and printing with decorators are not modelled. Standard and well-known text of a polygon are the same."},
"C103": {"status": "partial", "note": "Disagreement: the type of an intersection that is a cuboid has no name, printing throws (C103_cuboid_violated). The undefined unit has no symbol and the undefined sequence no name. Values outside of an enumeration are not modelled."},
"C104": {"status": "partial", "note": "Disagreements: Undefined (0) is defined (C104_empty_violated), and isNear lets through matrices of different shapes with as many elements, which is undefined behaviour in Eigen (C104_shape_violated). Real arithmetic in place of floating point."},
"C105": {"status": "partial", "note": "Disagreement: assigning to a composite one of the composites inside it, as in c = c.as<Composite>(), destroys the right-hand side before reading it: undefined behaviour at every depth (C105_assign_member_violated). Proved for copies, destruction, changes, self-assignment, assignment between composites that share nothing, and += for all operands. Memory is modelled as addresses with objects; running out of memory is not modelled."},
"C106": {"status": "partial", "note": "Disagreement: when a later member refuses the transformation, the earlier members are already transformed when the exception passes (C106_half_violated). A sphere refuses a transformation that is not flagged rigid; such a one is the product of a translation with a matrix that is the identity only up to the tolerance of isIdentity. Proved: every object is transformed when none refuses; an undefined composite throws unchanged."},
"C107": {"status": "partial", "note": "In range whenever the loops end (C107_range_partial); they end below about 2^52 turns, with one rounding error for each turn (C107_returns_partial). Disagreements: from 2^55 turns on, and for an infinite value, the loop never ends (C107_stuck_violated, C107_infinite_violated); bounds whose difference is a turn only after rounding are accepted, and the result can be below the range (C107_below_violated). Arithmetic is binary64 with rounding to nearest, ties to even; signed zeros are not modelled."},
"C108": {"status": "partial", "note": "Reflexive up to 2^51 turns; isNear is symmetric and holds for an angle and itself whenever it returns. Disagreements: from 2^55 turns on neither == nor isNear ever returns (C108_stuck_violated, C108_near_stuck_violated); == is not symmetric for angles a turn apart (C108_symmetric_violated)."},
"C109": {"status": "proved", "note": "Six roundings for a conversion, thirteen for there and back, for magnitudes between 2^-900 and 2^900 (2^-800 and 2^800). That the value is not kept exactly is C109_exact_violated. The constant Pi of the code is taken to be the double nearest to pi."},
"C110": {"status": "partial", "note": "Whenever the loop ends the values are finite, in the interval and in strict order (C110_inside_partial); with a step of at least 2^-52 of the bounds it ends, with one rounding error for each step, and covers the interval (C110_returns_partial for positive steps, C110_returns_down_partial for negative ones). Disagreements: a step lost in the lower bound, and a lower bound of minus infinity, make an endless loop that fills the memory (C110_stuck_violated, C110_infinite_violated); from 0 to 1 by 0.1 there are twelve points instead of eleven (C110_extra_violated)."},
"C111": {"status": "partial", "note": "Length, order and first value hold always (C111_shape); the values are off by at most twelve roundings of the greater bound for each step (C111_accuracy_partial). Disagreements: the last value can be beyond the upper bound (C111_beyond_violated), and when the width overflows every value after the first is infinite (C111_overflow_violated)."},
"C112": {"status": "partial", "note": "In binary64 the interpolation is finite, monotone within a step and accurate to 12 units of rounding, and returns the end values outside. It does not go through its data in general: C112_nodes_violated gives data (0,-1e16),(1,3),(2,3) whose value at 1 is 4, above all data, and (0,1e16),(1,1) whose value at the last point is 0. C112_overflow_violated: when the difference of abscissae overflows the value stays at the first value or is not a number. A query that is not a number gives the first value (C112_outside). What the class Real does with a ratio that is not a number is not modelled."},
"C113": {"status": "partial", "note": "Norm, normalisation and the test for unit norm are proved in binary64 with a correctly rounded square root. The last sentence fails: C113_product_violated gives 1 + 2^-50, accepted with tolerance 1e-15, whose square is refused. C113_overflow_violated: components of 2^520 are normalised to the zero quaternion without an error. The value of Real::Epsilon belongs to ostk-core; the theorems hold for every threshold from 2^-100 and every tolerance from 8/2^53."},
"C114": {"status": "partial", "note": "Proved in binary64 for coordinates up to 2^499 and both orders in which Eigen may add three squares. The last clause fails: C114_underflow_violated (different points closer than 2^-540 have distance zero) and C114_overflow_violated (finite points 2^600 apart have infinite distance and are near for no tolerance)."},
"C115": {"status": "partial", "note": "Proved in binary64 for components up to 2^499, for every arc cosine within 2^-51 and every threshold from 2^-100. The last clause fails: C115_small_violated (angle zero between (1, 0, 0) and (1, 2^-27, 0)), C115_overflow_violated (a quarter turn between (2^600, 0, 0) and (2^601, 0, 0))."},
"C116": {"status": "partial", "note": "Symmetry, the centres, the bound on the quadratic forms and equality of equal sets are proved. That surfaces of equal ellipsoids are near fails for large ones: C116_large_violated (spheres of radii 6378137 and 6400000 are equal with tolerance 1e-15)."},
"C117": {"status": "partial", "note": "Proved in binary64 for coordinates up to 2^248 and both orders in which Eigen may add three products. The clause on centres fails: C117_center_violated (the segment from (1, 0, 0) to (1 + 2^-52, 1, 0) does not contain its centre); beyond the bound the ends may fail too: C117_overflow_violated."},
"C118": {"status": "partial", "note": "Proved in binary64 for coordinates up to 2^248 and both orders in which Eigen may add three products. For all finite points it fails: C118_overflow_violated (the point (1, 0, 0) of the segment from the origin to (2^512, 0, 0) is at distance 1)."},
"C119": {"status": "partial", "note": "Proved in binary64 for finite coordinates and the orders in which Eigen may add four terms (fused multiply-add is not modelled). The claim that a translation and its opposite give back the point fails, as does that of applying a product being applying its factors in turn: C119_back_violated; C119_back bounds the loss. An infinite coordinate, which counts as defined, becomes undefined under the identity: C119_infinite_violated."},
"C120": {"status": "proved", "note": "In binary64 without fused operations. C113_product_violated shows that with the default tolerance a product of two accepted quaternions may be refused; C120_chain and C120_unitary give the tolerance that suffices."},
"C121": {"status": "proved", "note": "Over the model of memory of Model/Heap and Model/Programs: addresses, exclusive owners, destructors, exceptions that are caught. Assigning to a composite a composite inside it is not an operation between variables; it is undefined behaviour (C105_assign_member_violated). Not modelled: std::bad_alloc, threads."},
"C122": {"status": "partial", "note": "violated: C122_quaternion_violated and C122_product_violated give the witnesses for every tolerance from 2^-50 to 2^-49, such as 1e-15. What holds: quaternions whose norm is from 1 - 5u to 1 + u (u = 2^-53) convert for every tolerance from 9u on, and so does the rounding of any unit quaternion (C122_nearest_partial); whatever is returned is the rotation up to 2.2 times the tolerance and 22u, and agrees with rotateVector. Not proved: that every quaternion returned by toNormalized converts (none was found that does not); contraction of a * b + c by the compiler, and Eigen's order of addition beyond the two modelled, are not covered"},
"C123": {"status": "partial", "note": "The statements of each applyTransformation run one after the other on the members (Model/InPlace), and members keep what was assigned when a later statement throws. Violated for line strings with an undefined point and for ellipsoids with an orientation that is not unitary; with those left out, and for transformations built from the factories, a call changes all of the object or nothing. Exceptions that the code cannot throw by itself (std::bad_alloc) are not modelled."},
"C124": {"status": "partial", "note": "C124_prints_partial says exactly which objects of space are printed; C124_prints2_partial gives a sufficient condition in the plane. C124_tells_partial and C124_tells2_partial recover the object from the text up to whether composites are defined, for texts of the members that tell the members apart. Missing: the digits of numbers, which are a parameter here, and the layout of the frames, which is that of ostk-core. Violated for ellipsoids, undefined multi-polygons, intersections and composites."},
"C125": {"status": "partial", "note": "C125_origin is exact for all defined lines; C125_accepts is soundness of contains with an explicit error, for directions of a norm of at least one half; C125_vertical and C125_horizontal are exact. Missing: a condition under which a point of the line that is not at its origin is accepted, which for general slopes there is none, as C125_second_violated shows. Violated: C125_second_violated, C125_symmetric_violated, C125_far_violated."},
"C126": {"status": "proved", "note": "Memory is a map from variables and members to numbers; every statement reads memory as the statements before it left it. Numbers are real numbers, so rounding is not in this model. Eigen evaluates matrix_ *= m and vector products into temporaries, which is assumed."},
"C127": {"status": "partial", "note": "C127_sphere and C127_near bound what a sphere accepts and rejects; C127_no_tolerance says that from radius 4 on the tolerance has no effect; C127_poles, C127_multiples, C127_planes and C127_axes are exact. Missing: general points of a sphere, a line or a plane are not accepted, as the counterexamples show. Violated: C127_sphere_violated, C127_center_violated, C127_second_violated, C127_plane_violated."},
"C128": {"status": "proved", "note": "Eigen is assumed to add the three products of a dot product in one of two orders, and the compiler not to contract products and sums. The accuracy is stated for coordinates up to 2^248 and, for contains, for segments that are not shorter than 2^-200."},
"C129": {"status": "proved", "note": "Assumed: std::sin and std::cos are accurate to 2^-53 and do not exceed one; Eigen adds the diagonal of a matrix in one of two orders; the compiler does not contract products and sums. Axes up to 2^500. The units of rounding are 2^-53."},
"C130": {"status": "partial", "note": "Proved for every unitary quaternion whose vector part has a square of at least 8 eps + 100 u. Missing: smaller rotations, for which the claim is false, with proved witnesses on both sides of the scalar one and for a rotation by 2^-26. The arc cosine is assumed accurate; what the square root of a negative number does is left open."},
"C131": {"status": "partial", "note": "Every accessor is proved for all objects. The claim that the normal vector of a plane is a unit vector is restricted to normal vectors that are not zero, because the constructor accepts a zero normal vector (C131_zero_normal_violated), which lines and rays refuse as a direction."},
"C132": {"status": "partial", "note": "Proved with rounding for vectors of norm between 2^-40 and 2^499; the order of Eigen's sums is a parameter. The error bound holds when the cosine of half the angle is at least Real::Epsilon() and 32 units of rounding. Violated: C132_opposite_violated (vectors that are not opposite are refused) and C132_digits_violated (the direction is missed by more than 2^-30 for vectors almost opposite). Missing: vectors shorter than 2^-40. SLERP is C137."},
"C133": {"status": "partial", "note": "False for two rotations less than 2^-30 apart (difference zero, near with tolerance zero; C133_small_violated) and for a tolerance of a full turn, which reduces to none (C133_turn_violated). std::acos is assumed within 2^-51 of the arc cosine, with acos 1 = 0 for the statements on equal rotations; the tolerance of isNear is in radians and below a full turn."},
"C134": {"status": "partial", "note": "False near a quarter turn of the second angle, where an accepted quaternion has undefined Euler angles (C134_gimbal_violated), for an accepted matrix whose trace exceeds three by rounding, whose rotation vector throws (C134_vector_violated), and for rotations by 2^-28, which are lost (C134_small_violated). std::asin and std::acos are assumed within 2^-52 and 2^-51 of the exact functions, std::atan2 of the direction of the point; the two zeros are one number, so that which of pi and -pi std::atan2 answers is left open. Half turns are outside of C134_vector."},
"C135": {"status": "partial", "note": "Accuracy of the distance, optimality of the closest point, agreement of the two and the image of a set under a transformation are proved for sets of any size. Violated outside: C135_collapse_violated, C135_underflow_violated, C135_overflow_violated. The iteration order of the hash set is an argument (the list order); the hash itself is not modelled."},
"C136": {"status": "partial", "note": "Cuboid: C136_cuboid (accepted and refused points with stated errors), C136_near (accepted points are near a face, orthonormal axes), C136_faces (points of the faces of axis-parallel cuboids with exact offsets). Cone: C136_cone (up to 2^-21 radians), C136_apex, C136_near_apex. C136_undefined for undefined operands. C136_equal: operator == holds exactly if the boxes are the same set of points (orthonormal axes, positive extents). The unrestricted claim is false: C136_corner_violated (a computed corner is refused), C136_order_violated (equal cuboids that contain different points), C136_axis_violated (a point of the axis of a thin cone is refused), C136_apex_violated (a point of the axis near the apex ends in an error), C136_stuck_violated (a half-angle of 2^55 turns never ends). The arc cosine is assumed to be within 2^-51; queries with the Gte library are not in double precision."},
"C137": {"status": "partial", "note": "C137_slerp is proved for all quaternions of norm 1/2 to 2, without an exception for opposite or equal ones; C137_arc ties the formula of the specification to the angles. The error has the term 22 Real::Epsilon(), and C137_end_violated shows that it can not be left out: a rotation below the threshold is lost. exp and log are partial: C137_scalar_violated shows that exp of a scalar is one whatever the scalar; log is proved up to 120 degrees, pow for exponents 0 to 1. The accuracy of the mathematical library is a hypothesis (MathLib.Good), met by exists_mathLib."},
"C138": {"status": "partial", "note": "RX, RY, RZ are accepted with any tolerance from 9 / 2^53 on and turn every vector within 3 / 2^53 (C138_axes). RotationVector and EulerAngle, when they return, are within 2^-46 and 2^-47 of the exact rotation whatever the tolerance, and return if the tolerance is at least that (C138_vector_partial, C138_euler_partial). Violated: at the tolerance of the library, 1e-15, RotationVector throws for a half turn about an axis that RotationVector's own constructor accepts, because the computed columns are 1.02e-15 off a right angle (C138_rejected_violated). Whether EulerAngle always returns for a tolerance between 9 / 2^53 and 2^-47 is open. For ZYX the matrix and the quaternion agree within 2^-45 (C138_agree); for XYZ they are different rotations, by more than one half on a unit vector (C138_sequence_violated). std::sin and std::cos are parameters, assumed accurate to 2^-53, and correctly rounded at the double nearest to π for C138_rejected_violated."},
"C139": {"status": "partial", "note": "Proved for all points up to 2^248: the decision for segments, rays and lines away from the plane by more than the stated error, agreement of intersects with intersectionWith, nearness of the returned point to the figure and to the plane, and the distances to lines and rays made by the constructor. The code breaks the rest: a parallel line apart from the plane is said to intersect it (C139_parallel_violated), a segment inside the plane is returned as one point (C139_inside_violated), and with coordinates near the largest double intersects and intersectionWith disagree (C139_agree_violated). Missing: the points of lines and rays whose coordinates overflow; runtime facts as for C104."},
"C140": {"status": "partial", "note": "Proved for all points, centres and half axes of moderate size: a contained point is near a point of the ellipsoid (C140_near), a point of the ellipsoid is contained at tolerances of at least 440 r^2 units of rounding (C140_found), ellipsoids along the axes contain their exact points and the nearest doubles of all their points at the tolerance of the code (C140_axis), and all error branches. The axes are those which contains itself uses (C49_violated tells how they differ from the rest of the class). The code breaks the claim for other quaternions at its tolerance of 10^-15: with one that it takes for unitary the unit sphere does not contain (1, 0, 0) (C140_own_violated). Missing: half axes of 0 and overflow; runtime facts as for C104."},
"C141": {"status": "partial", "note": "Proved for all points of moderate size, all accepted axes and all angles: the transformation of a rotation vector turns points and vectors alike within 2^-45 of their length (C141_rotation), the rotation about a point is within 2^-45 of the two lengths of the exact one and moves its own point by at most 2^-47 of its length (C141_around_partial), in the plane each coordinate is within 5 units of rounding and 2^-49 (C141_plane_partial); undefined arguments (C141_undefined). The code breaks the claim that the point stays: a half turn about (1, 2) moves (1, 2), in the plane and in space (C141_fixed_violated, C141_space_violated). Missing: coordinates above 2^490; the inverse; runtime facts as for C104."},
"C142": {"status": "partial", "note": "Equality is reflexive and symmetric, and equal planes (lines) have the same direction up to sign and a point (origin) within a few units of rounding (C142_plane, C142_line); for planes at right angles to an axis it is the equality of sets (C142_axis). Contained lines, rays and segments are near the plane, those far from it are not contained (C142_contains_line, C142_contains_segment); point sets follow their points (C142_sets). Two parts of the property are false in the code: a plane may contain a line and not a segment on it (C142_segment_violated), and equality of planes is not transitive (C142_transitive_violated). Not covered: coordinates above 2^248."},
"C143": {"status": "partial", "note": "VectorBasis: the returned matrix is within 460/(2^53 k) of the exact rotation, k the least sine of the two angles, and it is returned for tolerances above 540/(2^53 k) (C143_basis_partial); exact for pairs of perpendicular axes at the tolerance of the library (C143_axes). Rows and Columns: C143_rows, C143_rows_refused. Two parts are false in the code: at the tolerance of the library a pair more than one degree apart is refused (C143_rejected_violated), and zero rows and mirror images are returned (C143_rows_violated). Not covered: vectors shorter than 2^-40 or longer than 2^499, angles with a sine below 2^-20, and which other pairs are refused at the tolerance of the library."},
"C144": {"status": "partial", "note": "Proved by induction over the sequence of motions for points, lines, rays, planes, segments, spheres, cones and cuboids, with explicit error bounds. Missing: coordinates above 2^490, more than 2^40 motions, transformations about a point other than the origin, inverses and matrices. Violated as written: the identity changes the axis of a cone along (1, 1, 0), a translation shrinks a cuboid with axes along (1, 1, 0) and (-1, 1, 0), and a plane moved far away and back is not equal to itself."},
"C145": {"status": "partial", "note": "Proved by induction over the tree of products, with explicit error bounds: C145_product_partial (points and directions), C145_brackets_partial (two ways of bracketing), C145_in_turn_partial (product against its factors in turn); C145_type, C145_around and C145_identity hold without bounds on the number of factors. Associativity is false in the code: C145_associative_violated. Missing: paths above 2^490, more than 2^40 factors, the inverse (computed by Eigen), transformations made from matrices."},
"C146": {"status": "partial", "note": "Proved for all axes and points within the bounds: C146_axes (acceptance and refusal), C146_perpendicular, C146_vertices_partial, C146_distances_partial, C146_normal, C146_moved_partial (induction over the sequence of motions), C146_undefined. Two clauses are false in the code: a polygon made again from its own parts is not equal to it (C146_again_violated), and parallel axes of length 2^600 are accepted and all vertices collapse into the origin (C146_overflow_violated). Missing: axes shorter than 2^-40 or longer than 2^499, coordinates above 2^490, motions other than rotations and translations, the order of vertices decided by boost."},
"C147": {"status": "partial", "note": "Proved for all apexes and edges within the bounds: C147_accepted (the computed axes have a cosine below 3.89 units of rounding, and the test of the constructor adds at most 5.1), C147_vertices_partial (places of the three vertices), C147_undefined. Missing: angles with a sine below 2^-20, distances below 2^-30, coordinates above 2^248, and the sign of the area by which boost decides the direction, which is exact in the model."},
"C148": {"status": "partial", "note": "Double precision over the real numbers with correct rounding; sine and cosine within one unit of rounding. Missing: coordinates above 2^480, more than 2^40 motions, matrices that are not rotations or translations, and overflow. Distances within an object are not kept when it is moved far away: C148_collapse_violated."},
"C149": {"status": "partial", "note": "Double precision over the real numbers with correct rounding; sine and cosine within one unit of rounding. Missing: paths above 2^490, more than 2^40 factors, and factors that are not rotations or translations. Exact associativity does not hold: C149_associative_violated."},
"C150": {"status": "partial", "note": "Double precision over the real numbers with correct rounding; sine and cosine within one unit of rounding; the inverse of Eigen as cofactors times the inverse of the determinant. Missing: paths above 2^490, more than 2^34 factors, and factors that are not rotations or translations. Points do not come back exactly: C150_back_violated."},
"C151": {"status": "partial", "note": "Double precision over the real numbers with correct rounding; sine and cosine within one unit of rounding. The theorems on point sets and composites hold for any doubles and any matrices; those on distances miss coordinates above 2^480 and more than 2^40 motions. Missing: composites in composites, and what a composite is after one of its members could not be moved. Points can be lost: C151_collapse_violated; the identity does not leave a point with an infinite coordinate as it is: C151_identity_violated."},
"C152": {"status": "partial", "note": "Double precision over the real numbers with correct rounding; sine and cosine within one unit of rounding. The theorems on point sets, line strings, pyramids and composites hold for any doubles and any matrices; those on distances miss coordinates above 2^490 and more than 2^40 motions. Missing: ellipsoids and composites as members of a composite, and what a composite is after one of its members could not be moved. Points can be lost: C152_collapse_violated; the identity does not leave a point with an infinite coordinate as it is: C152_identity_violated."}
}
