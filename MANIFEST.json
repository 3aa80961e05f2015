{
 "claims": [
  {
   "property": "C01",
   "status": "proved",
   "theorems": [
    "Verif.Props.C01_bounds_ordered",
    "Verif.Props.C01_setter_throws_iff",
    "Verif.Props.C01_constructor_iff"
   ],
   "note": "Constructor followed by any sequence of setter calls, including calls that throw."
  },
  {
   "property": "C02",
   "status": "partial",
   "theorems": [
    "Verif.Props.C02_defined_but_empty",
    "Verif.Props.C02_constructor_nonempty_partial"
   ],
   "note": "The full statement is false for the code: setters reach a defined interval without values (C02_defined_but_empty). Proved for constructor results."
  },
  {
   "property": "C03",
   "status": "proved",
   "theorems": [
    "Verif.Props.C03_contains_value",
    "Verif.Props.C03_undefined_throws",
    "Verif.Props.C03_contains_interval",
    "Verif.Props.C03_degenerate",
    "Verif.Props.C03_intersects"
   ],
   "note": "contains(value) for every defined interval; contains(interval) and intersects for valid intervals of a dense order."
  },
  {
   "property": "C04",
   "status": "proved",
   "theorems": [
    "Verif.Props.C04_intersection",
    "Verif.Props.C04_undefined_throws"
   ],
   "note": "Dense order."
  },
  {
   "property": "C05",
   "status": "proved",
   "theorems": [
    "Verif.Props.C05_union"
   ],
   "note": "Dense order."
  },
  {
   "property": "C06",
   "status": "proved",
   "theorems": [
    "Verif.Props.C06_eq_iff_same_values",
    "Verif.Props.C06_equivalence"
   ],
   "note": "Extensional for valid intervals of a dense order; equivalence relation for all."
  },
  {
   "property": "C07",
   "status": "proved",
   "theorems": [
    "Verif.Props.C07_merge_cover",
    "Verif.Props.C07_merge_undefined"
   ],
   "note": "Every Sorter, every valid list."
  },
  {
   "property": "C08",
   "status": "partial",
   "theorems": [
    "Verif.Props.C08_merge_not_normal",
    "Verif.Props.C08_merge_disjoint_partial",
    "Verif.Props.C08_merge_normal_partial",
    "Verif.Props.C08_merge_twice_canonical_partial",
    "Verif.Props.C08_merge_normal_fixed"
   ],
   "note": "Full statement false for the code (C08_merge_not_normal, ties of lower bounds). Proved: disjoint and ordered always; normal form without ties; Merge twice is canonical."
  },
  {
   "property": "C09",
   "status": "partial",
   "theorems": [
    "Verif.Props.C09_gaps_partial",
    "Verif.Props.C09_gap_missed",
    "Verif.Props.C09_gaps_throws",
    "Verif.Props.C09_gaps_no_reference_partial",
    "Verif.Props.C09_throws",
    "Verif.Props.C09_throws_no_reference"
   ],
   "note": "Full statement false for the code (C09_gap_missed, C09_gaps_throws). Proved: exact characterisation of what is returned, and of when it throws (C09_throws, C09_throws_no_reference: exactly if Merge leaves two touching intervals that both meet the reference interval)."
  },
  {
   "property": "C10",
   "status": "proved",
   "theorems": [
    "Verif.Props.C10_logicalOr"
   ],
   "note": ""
  },
  {
   "property": "C11",
   "status": "partial",
   "theorems": [
    "Verif.Props.C11_logicalAnd_partial",
    "Verif.Props.C11_common_value_lost"
   ],
   "note": "Full statement false for the code (C11_common_value_lost). Proved: exact characterisation of what is returned."
  },
  {
   "property": "C12",
   "status": "proved",
   "theorems": [
    "Verif.Props.C12_sort",
    "Verif.Props.C12_sort_undefined"
   ],
   "note": "Every Sorter."
  },
  {
   "property": "C13",
   "status": "proved",
   "theorems": [
    "Verif.Props.C13_clip",
    "Verif.Props.C13_clip_undefined"
   ],
   "note": ""
  },
  {
   "property": "C14",
   "status": "proved",
   "theorems": [
    "Verif.Props.C14_grid_up",
    "Verif.Props.C14_grid_down",
    "Verif.Props.C14_grid_spacing",
    "Verif.Props.C14_grid_throws"
   ],
   "note": "Exact arithmetic in an Archimedean ordered field; rounding of Real not modelled."
  },
  {
   "property": "C15",
   "status": "proved",
   "theorems": [
    "Verif.Props.C15_array_with_size",
    "Verif.Props.C15_array_in_interval",
    "Verif.Props.C15_throws"
   ],
   "note": "Exact arithmetic; rounding of Real not modelled."
  },
  {
   "property": "C16",
   "status": "proved",
   "theorems": [
    "Verif.Props.C16_conversion",
    "Verif.Props.C16_conversion_throws"
   ],
   "note": "Exact arithmetic over ℝ; rounding not modelled."
  },
  {
   "property": "C17",
   "status": "proved",
   "theorems": [
    "Verif.Props.C17_ranged_conversions"
   ],
   "note": "Exact arithmetic over ℝ. In floating point the reduction loops stall for angles so large that adding a turn rounds away; not modelled."
  },
  {
   "property": "C18",
   "status": "proved",
   "theorems": [
    "Verif.Props.C18_eq_iff",
    "Verif.Props.C18_equivalence",
    "Verif.Props.C18_undefined"
   ],
   "note": "Exact arithmetic over ℝ."
  },
  {
   "property": "C19",
   "status": "proved",
   "theorems": [
    "Verif.Props.C19_arithmetic",
    "Verif.Props.C19_compound",
    "Verif.Props.C19_undefined_operands",
    "Verif.Props.C19_half_undefined_not_rejected",
    "Verif.Props.C19_respects_eq"
   ],
   "note": "Exact arithmetic over ℝ."
  },
  {
   "property": "C20",
   "status": "proved",
   "theorems": [
    "Verif.Props.C20_isNear",
    "Verif.Props.C20_isNear_symmetric"
   ],
   "note": "All tolerances, also negative ones and those above half a turn."
  },
  {
   "property": "C21",
   "status": "proved",
   "theorems": [
    "Verif.Props.C21_between3",
    "Verif.Props.C21_between2",
    "Verif.Props.C21_between_throws"
   ],
   "note": "eps is any positive number."
  },
  {
   "property": "C22",
   "status": "proved",
   "theorems": [
    "Verif.Props.C22_hamilton",
    "Verif.Props.C22_algebra",
    "Verif.Props.C22_inverse",
    "Verif.Props.C22_division",
    "Verif.Props.C22_normalize",
    "Verif.Props.C22_undefined",
    "Verif.Props.C22_defined"
   ],
   "note": "Exact arithmetic over ℝ."
  },
  {
   "property": "C23",
   "status": "proved",
   "theorems": [
    "Verif.Props.C23_isometry",
    "Verif.Props.C23_action",
    "Verif.Props.C23_tolerance"
   ],
   "note": "Exact arithmetic over ℝ."
  },
  {
   "property": "C24",
   "status": "proved",
   "theorems": [
    "Verif.Props.C24_eq_iff",
    "Verif.Props.C24_equivalence",
    "Verif.Props.C24_same_rotation"
   ],
   "note": "Exact arithmetic over ℝ; == is exact as in the code."
  },
  {
   "property": "C25",
   "status": "proved",
   "theorems": [
    "Verif.Props.C25_matrix_of_quaternion",
    "Verif.Props.C25_homomorphism",
    "Verif.Props.C25_throws"
   ],
   "note": "Exact arithmetic over ℝ."
  },
  {
   "property": "C26",
   "status": "proved",
   "theorems": [
    "Verif.Props.C26_matrix_roundtrip",
    "Verif.Props.C26_quaternion_roundtrip"
   ],
   "note": "Exact arithmetic over ℝ; eps at most 2."
  },
  {
   "property": "C27",
   "status": "proved",
   "theorems": [
    "Verif.Props.C27_axis_unit",
    "Verif.Props.C27_conversions",
    "Verif.Props.C27_same_rotation",
    "Verif.Props.C27_equal_vectors",
    "Verif.Props.C27_quaternion_roundtrip",
    "Verif.Props.C27_undefined"
   ],
   "note": "Exact arithmetic over ℝ; eps at most 1."
  },
  {
   "property": "C28",
   "status": "proved",
   "theorems": [
    "Verif.Props.C28_elementary",
    "Verif.Props.C28_compose",
    "Verif.Props.C28_undefined"
   ],
   "note": "Exact arithmetic over ℝ."
  },
  {
   "property": "C29",
   "status": "partial",
   "theorems": [
    "Verif.Props.C29_quaternion",
    "Verif.Props.C29_agree_partial",
    "Verif.Props.C29_xyz_disagree",
    "Verif.Props.C29_zxy_disagree",
    "Verif.Props.C29_undefined"
   ],
   "note": "True for ZYX. For XYZ and ZXY the code disagrees with itself (C29_xyz_disagree, C29_zxy_disagree are the negations with a witness)."
  },
  {
   "property": "C30",
   "status": "partial",
   "theorems": [
    "Verif.Props.C30_zyx_roundtrip_partial",
    "Verif.Props.C30_relabelled",
    "Verif.Props.C30_wrong_sequence",
    "Verif.Props.C30_xyz_wrong_matrix",
    "Verif.Props.C30_gimbal_lock",
    "Verif.Props.C30_quaternion"
   ],
   "note": "True for ZYX away from the gimbal lock; the returned sequence is always ZYX, so the property is false for the others (C30_wrong_sequence, C30_xyz_wrong_matrix). The sign of zero in atan2 is not modelled."
  },
  {
   "property": "C31",
   "status": "proved",
   "theorems": [
    "Verif.Props.C31_lerp",
    "Verif.Props.C31_nlerp",
    "Verif.Props.C31_slerp",
    "Verif.Props.C31_throws"
   ],
   "note": "LERP, NLERP and SLERP of unitary quaternions over exact reals; SLERP at ratio 1 is exact above the threshold and within eps*sqrt 2 otherwise."
  },
  {
   "property": "C32",
   "status": "partial",
   "theorems": [
    "Verif.Props.C32_exp_log_partial",
    "Verif.Props.C32_exp_log_unitary",
    "Verif.Props.C32_exp_log_loses_norm",
    "Verif.Props.C32_log_exp_partial",
    "Verif.Props.C32_pow_add_partial",
    "Verif.Props.C32_pow_add_small"
   ],
   "note": "False in general: exp drops the norm when the vector part is below the threshold (C32_exp_log_loses_norm), and small powers collapse to the identity (C32_pow_add_small). Proved above the thresholds."
  },
  {
   "property": "C33",
   "status": "proved",
   "theorems": [
    "Verif.Props.C33_distance",
    "Verif.Props.C33_triangle",
    "Verif.Props.C33_throws"
   ],
   "note": "Symmetry, zero, range, invariance, trace formula and triangle inequality for unitary quaternions."
  },
  {
   "property": "C34",
   "status": "proved",
   "theorems": [
    "Verif.Props.C34_shortest_rotation",
    "Verif.Props.C34_special"
   ],
   "note": "Unit result that takes one direction to the other with the smallest angle; throws for nearly opposite directions."
  },
  {
   "property": "C35",
   "status": "partial",
   "theorems": [
    "Verif.Props.C35_constructor_iff",
    "Verif.Props.C35_not_proper",
    "Verif.Props.C35_made_partial",
    "Verif.Props.C35_quaternion_tolerance"
   ],
   "note": "False as stated (C35_not_proper): the constructor has one-sided tests. Proved for every program of the other factories and operations."
  },
  {
   "property": "C36",
   "status": "partial",
   "theorems": [
    "Verif.Props.C36_element_partial",
    "Verif.Props.C36_index_three",
    "Verif.Props.C36_rows_columns"
   ],
   "note": "False for the index 3 (C36_index_three): out-of-bounds access. Proved for the others and for rows and columns."
  },
  {
   "property": "C37",
   "status": "partial",
   "theorems": [
    "Verif.Props.C37_composition3_partial",
    "Verif.Props.C37_built3_partial",
    "Verif.Props.C37_composition2",
    "Verif.Props.C37_not_composition",
    "Verif.Props.C37_monoid"
   ],
   "note": "2D proved for everything the API builds; 3D for everything built from the factories (with proper rotation matrices) and, for composition, for any matrix with exact last row. The claim for every defined 3D transformation is false: the matrix constructor accepts a last row within the Eigen tolerance of 0 0 0 1 (C37_not_composition)."
  },
  {
   "property": "C38",
   "status": "partial",
   "theorems": [
    "Verif.Props.C38_matrix_partial",
    "Verif.Props.C38_matrix_complete",
    "Verif.Props.C38_rigid3_partial",
    "Verif.Props.C38_product",
    "Verif.Props.C38_rigid3_unsound",
    "Verif.Props.C38_rigid2_partial",
    "Verif.Props.C38_kind2",
    "Verif.Props.C38_compose2",
    "Verif.Props.C38_rigid2_incomplete"
   ],
   "note": "3D proved for factories with proper rotations; false for RotationMatrix values that are not rotations (C38_rigid3_unsound). 3D from a matrix: flagged when it keeps all distances, and a flagged one changes no squared distance by more than three times the precision of the test. 2D: sound, but not complete (C38_rigid2_incomplete: rotations about a point are not flagged)."
  },
  {
   "property": "C39",
   "status": "partial",
   "theorems": [
    "Verif.Props.C39_isometry_partial",
    "Verif.Props.C39_reflection"
   ],
   "note": "Proved with proper rotation matrices; C39_reflection shows the claim fails for a reflection accepted by the RotationMatrix constructor."
  },
  {
   "property": "C40",
   "status": "partial",
   "theorems": [
    "Verif.Props.C40_labels",
    "Verif.Props.C40_truthful3_partial",
    "Verif.Props.C40_approximate_identity",
    "Verif.Props.C40_truthful2"
   ],
   "note": "Label algebra and 2D proved. 3D truthfulness is proved for proper rotation matrices; the matrix constructor labels approximate identities Identity (C40_approximate_identity)."
  },
  {
   "property": "C41",
   "status": "proved",
   "theorems": [
    "Verif.Props.C41_around3",
    "Verif.Props.C41_around2"
   ],
   "note": "The axis is a unit vector, which the RotationVector constructors ensure (C27_axis_unit)."
  },
  {
   "property": "C42",
   "status": "proved",
   "theorems": [
    "Verif.Props.C42_segment2",
    "Verif.Props.C42_center2",
    "Verif.Props.C42_distance_set",
    "Verif.Props.C42_contains_set2",
    "Verif.Props.C42_segment3",
    "Verif.Props.C42_center3"
   ],
   "note": "Segments in 2D and 3D over exact reals: contains is membership, distanceTo the minimum distance; the length, centre and direction. Floating point rounding is not modelled."
  },
  {
   "property": "C43",
   "status": "proved",
   "theorems": [
    "Verif.Props.C43_constructor2",
    "Verif.Props.C43_line2",
    "Verif.Props.C43_points2",
    "Verif.Props.C43_contains_set",
    "Verif.Props.C43_constructor3",
    "Verif.Props.C43_line3",
    "Verif.Props.C43_points3"
   ],
   "note": "Lines in 2D and 3D over exact reals, for unit directions (what the constructors accept, up to the tolerance). Floating point rounding is not modelled."
  },
  {
   "property": "C44",
   "status": "proved",
   "theorems": [
    "Verif.Props.C44_ray",
    "Verif.Props.C44_constructor"
   ],
   "note": "Rays in 3D over exact reals, for unit directions."
  },
  {
   "property": "C45",
   "status": "proved",
   "theorems": [
    "Verif.Props.C45_contains",
    "Verif.Props.C45_equality",
    "Verif.Props.C45_constructor",
    "Verif.Props.C45_undefined"
   ],
   "note": "Planes over exact reals with a unit normal. C45_constructor: the constructor normalizes the normal and also accepts the zero normal, whose plane contains every point."
  },
  {
   "property": "C46",
   "status": "proved",
   "theorems": [
    "Verif.Props.C46_line",
    "Verif.Props.C46_ray",
    "Verif.Props.C46_segment",
    "Verif.Props.C46_points"
   ],
   "note": "Plane intersections with lines, rays, segments, points and point sets over exact reals. The parallel test of the code is exact equality with zero, as modelled."
  },
  {
   "property": "C47",
   "status": "partial",
   "theorems": [
    "Verif.Props.C47_linear3_partial",
    "Verif.Props.C47_points3_partial",
    "Verif.Props.C47_linear2",
    "Verif.Props.C47_points2",
    "Verif.Props.C47_undefined",
    "Verif.Props.C47_sphere_partial",
    "Verif.Props.C47_sphere_rigid"
   ],
   "note": "Points, point sets, segments, lines, rays, planes, line strings and spheres, for transformations made by the factories, composition and inverse. Missing: transformations from a rotation matrix that is not a rotation, which the code marks rigid (C38)."
  },
  {
   "property": "C48",
   "status": "proved",
   "theorems": [
    "Verif.Props.C48_contains",
    "Verif.Props.C48_line",
    "Verif.Props.C48_ray",
    "Verif.Props.C48_segment",
    "Verif.Props.C48_plane",
    "Verif.Props.C48_undefined"
   ],
   "note": "Over exact reals, given the assumed behaviour of the Geometric Tools queries (Model/Gte.lean). contains is the surface within the tolerance; intersections are exactly the common points (an end of a ray or segment may be on the sphere just within the tolerance); nearest point with onlyInSight; intersects is whether there are common points. The radius is not checked by the constructor; C48_plane needs it non-negative."
  },
  {
   "property": "C49",
   "status": "partial",
   "theorems": [
    "Verif.Props.C49_axes",
    "Verif.Props.C49_contains_conjugate",
    "Verif.Props.C49_contains_partial",
    "Verif.Props.C49_violated",
    "Verif.Props.C49_sets",
    "Verif.Props.C49_errors"
   ],
   "note": "getMatrix, the axes and all intersections use the rows of the rotation, contains uses its columns (C49_violated: a point at the end of the first axis is rejected). C49_contains_partial gives the claim when the two forms agree (Symmetric); C49_contains_conjugate says what contains decides in general, within eps of the surface (strict)."
  },
  {
   "property": "C50",
   "status": "partial",
   "theorems": [
    "Verif.Props.C50_contains",
    "Verif.Props.C50_wide",
    "Verif.Props.C50_wide_violated",
    "Verif.Props.C50_near_apex",
    "Verif.Props.C50_segment",
    "Verif.Props.C50_set",
    "Verif.Props.C50_ray",
    "Verif.Props.C50_distance",
    "Verif.Props.C50_distance_behind",
    "Verif.Props.C50_distance_violated",
    "Verif.Props.C50_sphere",
    "Verif.Props.C50_eq",
    "Verif.Props.C50_eq_violated",
    "Verif.Props.C50_moved_partial",
    "Verif.Props.C50_undefined"
   ],
   "note": "Over exact reals. C50_contains and the containment of segments, point sets, rays and spheres hold for half-angles up to 90 degrees and points that are the apex or at least sqrt(eps) away; nearer points throw (C50_near_apex). Violated by the code: half-angles above 90 degrees (C50_wide_violated), the distance to points behind the apex (C50_distance_violated), equality of complementary cones (C50_eq_violated). Missing: floating-point rounding, and the distance of points within eps of the axis line but not on it."
  },
  {
   "property": "C51",
   "status": "partial",
   "theorems": [
    "Verif.Props.C51_contains",
    "Verif.Props.C51_not_contained",
    "Verif.Props.C51_vertices",
    "Verif.Props.C51_vertices_violated",
    "Verif.Props.C51_set",
    "Verif.Props.C51_segment_violated",
    "Verif.Props.C51_segment",
    "Verif.Props.C51_line",
    "Verif.Props.C51_cuboid",
    "Verif.Props.C51_eq",
    "Verif.Props.C51_order_violated",
    "Verif.Props.C51_moved",
    "Verif.Props.C51_cube",
    "Verif.Props.C51_undefined",
    "Verif.Props.C51_stretched"
   ],
   "note": "Proved for orthonormal axes and exact real numbers: contains(Point) accepts exactly the points within the tolerance of a face and inside the others, intersects(PointSet) some and contains(PointSet) all of the points, intersects(Line) and intersects(Cuboid) hold exactly if the solid boxes share a point with the line or each other (all fifteen separating axes), two cuboids with positive extents are equal exactly if they have the same points, moving by any built transformation moves every point, Cube and undefined inputs. Violated: getVertices halves the extents, so that no vertex is on the box (C51_vertices_violated), and contains(Segment) tests only the ends (C51_segment_violated). The separating axis query of the geometry library is modelled from its documentation. Floating point is not modelled."
  },
  {
   "property": "C52",
   "status": "partial",
   "theorems": [
    "Verif.Props.C52_set",
    "Verif.Props.C52_closest",
    "Verif.Props.C52_undefined",
    "Verif.Props.C52_isNear3_partial",
    "Verif.Props.C52_isNear2_partial",
    "Verif.Props.C52_order",
    "Verif.Props.C52_isNear_empty"
   ],
   "note": "Set equality, closest point and distances are proved. isNear is proved sound; the missing part is completeness: the code matches greedily in iteration order, and C52_order gives two sets that are near in one order and not in the other."
  },
  {
   "property": "C53",
   "status": "proved",
   "theorems": [
    "Verif.Props.C53_contains",
    "Verif.Props.C53_segment",
    "Verif.Props.C53_points"
   ],
   "note": "2D line strings over exact reals: contains is the union of the segments."
  },
  {
   "property": "C54",
   "status": "partial",
   "theorems": [
    "Verif.Props.C54_composite2",
    "Verif.Props.C54_composite2_monoid",
    "Verif.Props.C54_isect2_partial",
    "Verif.Props.C54_undefined2",
    "Verif.Props.C54_composite3",
    "Verif.Props.C54_composite3_monoid",
    "Verif.Props.C54_isect3_partial",
    "Verif.Props.C54_undefined3",
    "Verif.Props.C54_cone_violated"
   ],
   "note": "Adding composites concatenates their objects with Empty neutral and addition associative; adding intersections gives the intersection of the concatenated objects. Holds for objects that have an intersection type; cones, multi-polygons and nested composites have none, and then the sum of two defined intersections fails depending on their order (C54_cone_violated)."
  },
  {
   "property": "C55",
   "status": "partial",
   "theorems": [
    "Verif.Props.C55_type2_partial",
    "Verif.Props.C55_reachable2",
    "Verif.Props.C55_type3_partial",
    "Verif.Props.C55_reachable3",
    "Verif.Props.C55_cone_violated",
    "Verif.Props.C55_multiPolygon_violated"
   ],
   "note": "The type of an intersection summarises its objects for every intersection reachable through the public interface, in both dimensions; cones, multi-polygons and nested composites have no type, so a defined intersection of one of them is of type Undefined (C55_cone_violated, C55_multiPolygon_violated)."
  },
  {
   "property": "C56",
   "status": "partial",
   "theorems": [
    "Verif.Props.C56_space_partial",
    "Verif.Props.C56_space_violated",
    "Verif.Props.C56_plane_violated"
   ],
   "note": "In space proved for every type and every depth of nesting, given that boost's equals is reflexive; violated for point sets and line strings that hold an undefined point. In the plane violated: only points, polygons and multi-polygons are compared, every other type is unequal to itself."
  },
  {
   "property": "C57",
   "status": "partial",
   "theorems": [
    "Verif.Props.C57_symmetric_partial",
    "Verif.Props.C57_violated"
   ],
   "note": "Proved for all defined objects that are not composites, except a plane with a point or point set. Violated there and for composites: the reverse order is not implemented."
  },
  {
   "property": "C58",
   "status": "partial",
   "theorems": [
    "Verif.Props.C58_vertices",
    "Verif.Props.C58_orientation",
    "Verif.Props.C58_refused",
    "Verif.Props.C58_indices",
    "Verif.Props.C58_holes_violated",
    "Verif.Props.C58_roundtrip",
    "Verif.Props.C58_two_vertices_violated",
    "Verif.Props.C58_moved",
    "Verif.Props.C58_near",
    "Verif.Props.C58_undefined"
   ],
   "note": "Construction, vertex order, orientation, rejection of short or undefined rings, indexing of the outer ring, conversion to a multi-polygon and back, motion, nearness and failure on undefined values are proved. The unchanged code violates two clauses: vertices and edges of holes cannot be reached by index (C58_holes_violated), and a ring A,B,A gives a two-vertex polygon that cannot be rebuilt (C58_two_vertices_violated). boost::geometry::correct is modelled in exact arithmetic; the region algorithms of boost are a parameter."
  },
  {
   "property": "C59",
   "status": "partial",
   "theorems": [
    "Verif.Props.C59_placed",
    "Verif.Props.C59_refused",
    "Verif.Props.C59_null_violated",
    "Verif.Props.C59_moved",
    "Verif.Props.C59_near",
    "Verif.Props.C59_undefined"
   ],
   "note": "Proved for non-null axes, in exact arithmetic: the embedding keeps squared distances up to the tolerance the constructor allows and exactly for perpendicular axes. Null axes are accepted and collapse every vertex onto the origin (C59_null_violated)."
  },
  {
   "property": "C60",
   "status": "partial",
   "theorems": [
    "Verif.Props.C60_contains",
    "Verif.Props.C60_flat_partial",
    "Verif.Props.C60_null_violated",
    "Verif.Props.C60_solid",
    "Verif.Props.C60_moved",
    "Verif.Props.C60_undefined"
   ],
   "note": "Proved for an apex off the plane of the base and a base with exactly perpendicular unit axes; the region of the flat polygon is whatever the library test covered_by answers (contract hB). With the apex in the plane of the base the code throws or answers all-or-nothing (C60_flat_partial), and with a zero axis it throws for every point but the apex (C60_null_violated). The pyramid of the code is not cut off at the base."
  },
  {
   "property": "C61",
   "status": "partial",
   "theorems": [
    "Verif.Props.C61_total",
    "Verif.Props.C61_line",
    "Verif.Props.C61_nodes",
    "Verif.Props.C61_outside",
    "Verif.Props.C61_bounds",
    "Verif.Props.C61_between",
    "Verif.Props.C61_affine",
    "Verif.Props.C61_derivative_partial",
    "Verif.Props.C61_derivative_outside",
    "Verif.Props.C61_derivative_first_violated",
    "Verif.Props.C61_vector",
    "Verif.Props.C61_unsorted_violated"
   ],
   "note": "Exact ordered field, any nodes; std::lower_bound modelled as the libstdc++ loop, so reads and divisions are shown safe on unsorted nodes too. Disagreement: at the first node the derivative answered is always zero (C61_derivative_first_violated). Unsorted nodes are accepted and then not reproduced (C61_unsorted_violated). Rounding of doubles is not modelled."
  },
  {
   "property": "C62",
   "status": "proved",
   "theorems": [
    "Verif.Props.C62_total",
    "Verif.Props.C62_holds",
    "Verif.Props.C62_before",
    "Verif.Props.C62_nodes",
    "Verif.Props.C62_derivative",
    "Verif.Props.C62_vector"
   ],
   "note": "Exact ordered field; std::upper_bound modelled as the libstdc++ loop. NaN abscissae are not modelled."
  },
  {
   "property": "C63",
   "status": "partial",
   "theorems": [
    "Verif.Props.C63_linear",
    "Verif.Props.C63_zeroOrder",
    "Verif.Props.C63_spline",
    "Verif.Props.C63_spline_step",
    "Verif.Props.C63_barycentric_partial",
    "Verif.Props.C63_barycentric_violated",
    "Verif.Props.C63_factory"
   ],
   "note": "Disagreement: BarycentricRational passes the values to boost through an iterator without an end before testing sizes, so fewer values than nodes is undefined behaviour (C63_barycentric_violated). The boost constructors are modelled from the library's documentation and source: domain_error and logic_error are recorded as runtimeError."
  },
  {
   "property": "C64",
   "status": "partial",
   "theorems": [
    "Verif.Props.C64_contract",
    "Verif.Props.C64_accepts",
    "Verif.Props.C64_rejects",
    "Verif.Props.C64_line",
    "Verif.Props.C64_posDef",
    "Verif.Props.C64_nodes",
    "Verif.Props.C64_constant",
    "Verif.Props.C64_outside",
    "Verif.Props.C64_vector",
    "Verif.Props.C64_asymmetric_violated"
   ],
   "note": "Real matrices of any dimension; the eigensolver is any function keeping Eigen's documented contract (C64_contract shows one exists), log and exp are exact. Disagreement: symmetry is not tested and only the lower triangle is read, so an asymmetric matrix is accepted and returned (C64_asymmetric_violated). Missing: convergence and rounding of the solver."
  },
  {
   "property": "C65",
   "status": "partial",
   "theorems": [
    "Verif.Props.C65_times",
    "Verif.Props.C65_forward_partial",
    "Verif.Props.C65_backward_partial",
    "Verif.Props.C65_returns",
    "Verif.Props.C65_positive_backward_violated",
    "Verif.Props.C65_negative_forward_violated",
    "Verif.Props.C65_to_zero_violated",
    "Verif.Props.C65_back_to_zero_violated",
    "Verif.Props.C65_unsorted_violated",
    "Verif.Props.C65_returns_controlled",
    "Verif.Props.C65_durations_partial"
   ],
   "note": "Disagreement: the direction of integration is the sign of the last requested time instead of its position relative to the start. Backward between positive times, forward between negative times and from a negative time to zero nothing is integrated (C65_positive_backward_violated, C65_negative_forward_violated, C65_to_zero_violated); from a positive time to zero Runge-Kutta 4 does not return (C65_back_to_zero_violated). Proved when the two agree. odeint's integrate_times is modelled from its source; the six steppers with step control are any functions keeping the documented contract of try_step (KeepsTime). Calls with Runge-Kutta 4 return (C65_returns); calls with step control return when the stepper keeps a contract of progress (C65_returns_controlled). Exact arithmetic."
  },
  {
   "property": "C66",
   "status": "partial",
   "theorems": [
    "Verif.Props.C66_shifted_partial",
    "Verif.Props.C66_autonomous_partial",
    "Verif.Props.C66_violated",
    "Verif.Props.C66_controlled_partial",
    "Verif.Props.C66_controlled_autonomous_partial"
   ],
   "note": "Disagreement: integrateTime(start, end) integrates from time zero for end - start and answers that length as time (C66_violated, for every start other than zero). Proved: it equals the integration of the shifted system, hence is right for autonomous systems, with Runge-Kutta 4 in exact comparison of times (C66_shifted_partial, C66_autonomous_partial) and with the steppers with step control for every stepper that uses the time only to evaluate the system (C66_controlled_partial, C66_controlled_autonomous_partial)."
  },
  {
   "property": "C67",
   "status": "proved",
   "theorems": [
    "Verif.Props.C67_settings",
    "Verif.Props.C67_history",
    "Verif.Props.C67_times",
    "Verif.Props.C67_duration",
    "Verif.Props.C67_undefined",
    "Verif.Props.C67_empty",
    "Verif.Props.C67_undefined_time"
   ],
   "note": "Any history of calls, including calls that throw. What the observer prints is not modelled. C67_duration assumes odeint's contract of try_step."
  },
  {
   "property": "C68",
   "status": "partial",
   "theorems": [
    "Verif.Props.C68_equal_rotation_partial",
    "Verif.Props.C68_zxy_matrix_differs"
   ],
   "note": "False for the matrix conversion with ZXY (C68_zxy_matrix_differs)."
  },
  {
   "property": "C69",
   "status": "partial",
   "theorems": [
    "Verif.Props.C69_isNear_partial",
    "Verif.Props.C69_negative_tolerance",
    "Verif.Props.C69_full_turn"
   ],
   "note": "False for negative tolerances and for tolerances of a full turn, both with a witness; proved in between."
  },
  {
   "property": "C70",
   "status": "partial",
   "theorems": [
    "Verif.Props.C70_roundtrip_partial",
    "Verif.Props.C70_small_angle",
    "Verif.Props.C70_half_turn_throws"
   ],
   "note": "False for half turns (throws) and for small angles other than zero (X axis)."
  },
  {
   "property": "C71",
   "status": "proved",
   "theorems": [
    "Verif.Props.C71_rectify",
    "Verif.Props.C71_not_in_range"
   ],
   "note": "Beyond one turn the angle is not brought to the interval (C71_not_in_range)."
  },
  {
   "property": "C72",
   "status": "proved",
   "theorems": [
    "Verif.Props.C72_vector_basis",
    "Verif.Props.C72_undefined"
   ],
   "note": "Exact arithmetic over ℝ."
  },
  {
   "property": "C73",
   "status": "proved",
   "theorems": [
    "Verif.Props.C73_constant_speed"
   ],
   "note": "Exact above the thresholds; within pi*eps always."
  },
  {
   "property": "C74",
   "status": "partial",
   "theorems": [
    "Verif.Props.C74_equality_partial"
   ],
   "note": "2D proved; in 3D for proper rotation matrices (other RotationMatrix values may have an inverse that is not finite and so differs from itself). Exact reals."
  },
  {
   "property": "C75",
   "status": "proved",
   "theorems": [
    "Verif.Props.C75_factories3",
    "Verif.Props.C75_factories2",
    "Verif.Props.C75_undefined"
   ],
   "note": "Exact reals."
  },
  {
   "property": "C76",
   "status": "partial",
   "theorems": [
    "Verif.Props.C76_line",
    "Verif.Props.C76_ray",
    "Verif.Props.C76_segment",
    "Verif.Props.C76_segment_test",
    "Verif.Props.C76_segment_violated",
    "Verif.Props.C76_plane",
    "Verif.Props.C76_undefined"
   ],
   "note": "Proved for the surface of getMatrix, over exact reals. C76_segment_violated: a chord with both ends on the surface makes intersects(Segment) false; C76_segment_test says exactly what it decides unless the line is within the hard-coded tolerance of tangent. Ends that contains rejects (C49) may be dropped. GTE queries are assumed as in Model/Gte.lean."
  },
  {
   "property": "C77",
   "status": "partial",
   "theorems": [
    "Verif.Props.C77_moved_partial",
    "Verif.Props.C77_errors"
   ],
   "note": "The quadratic form of getMatrix moves with the points for every transformation built from the factories and every eigen solver meeting its contract (exists_solver: there is one). contains does not follow, by C49. Rounding is not modelled."
  },
  {
   "property": "C78",
   "status": "partial",
   "theorems": [
    "Verif.Props.C78_sphere",
    "Verif.Props.C78_rays",
    "Verif.Props.C78_rays_refused",
    "Verif.Props.C78_ellipsoid",
    "Verif.Props.C78_ellipsoid_violated",
    "Verif.Props.C78_intersection_sphere",
    "Verif.Props.C78_intersection_ellipsoid",
    "Verif.Props.C78_undefined"
   ],
   "note": "Over exact reals. The solid cone and the sphere, the generators and the points of the line strings are characterised exactly; intersects(Ellipsoid) only tests the generators and is false for an ellipsoid inside of the cone (C78_ellipsoid_violated). A non-unit axis makes getRaysOfLateralSurface throw (C78_rays_refused). Missing: floating-point rounding and the GTE library, modelled by its documented results."
  },
  {
   "property": "C79",
   "status": "partial",
   "theorems": [
    "Verif.Props.C79_equality2",
    "Verif.Props.C79_polygon_set",
    "Verif.Props.C79_contains2",
    "Verif.Props.C79_anyContains2",
    "Verif.Props.C79_anyContains_violated",
    "Verif.Props.C79_undefined2"
   ],
   "note": "Proved for the plane: contains asks all members, anyContains one of them. anyContains of a composite uses the all-members test, so it denies containment that anyContains of the single object affirms (C79_anyContains_violated)."
  },
  {
   "property": "C80",
   "status": "partial",
   "theorems": [
    "Verif.Props.C80_intersection_partial",
    "Verif.Props.C80_points_violated",
    "Verif.Props.C80_empty",
    "Verif.Props.C80_difference"
   ],
   "note": "The region algorithms of boost::geometry are parameters. Whenever the code returns an intersection it consists of the common polygons, then the uncovered valid line strings, then the uncovered points; with two uncovered points (or line strings) the code throws ToBeImplemented (C80_points_violated)."
  },
  {
   "property": "C81",
   "status": "partial",
   "theorems": [
    "Verif.Props.C81_rays",
    "Verif.Props.C81_degenerate",
    "Verif.Props.C81_apart",
    "Verif.Props.C81_face",
    "Verif.Props.C81_all",
    "Verif.Props.C81_holes_violated"
   ],
   "note": "Proved for a base without holes and edges not in line with the apex (C81_apart: that is so for an apex off the plane of the base and edges of positive length). Ends seen in the same direction give a single ray, and an edge through the apex is refused (C81_degenerate). With a hole in the base the edges of the hole have no faces and the rays of all the faces are refused (C81_holes_violated)."
  },
  {
   "property": "C82",
   "status": "partial",
   "theorems": [
    "Verif.Props.C82_intersects",
    "Verif.Props.C82_intersection_sphere",
    "Verif.Props.C82_intersection_ellipsoid",
    "Verif.Props.C82_violated",
    "Verif.Props.C82_undefined"
   ],
   "note": "The code tests only the sampled rays of the lateral faces: what it answers is characterised exactly by those rays, a positive answer is right, but a sphere inside the pyramid is not found (C82_violated). Same restriction on the base as C81; the ellipsoid ray query merges points nearer than the tolerance."
  },
  {
   "property": "C83",
   "status": "partial",
   "theorems": [
    "Verif.Props.C83_intersects_partial",
    "Verif.Props.C83_answers_partial",
    "Verif.Props.C83_contains_plane",
    "Verif.Props.C83_violated",
    "Verif.Props.C83_contains_cone",
    "Verif.Props.C83_contains_pyramid"
   ],
   "note": "Partial correctness for every pair that answers, totality for straight objects with planes, spheres and ellipsoids. contains of cones and pyramids through the base class is stated in C83_contains_cone and C83_contains_pyramid; their intersections are covered by C78 to C82. A segment with an ellipsoid is excluded (C76). Violated: six contains overloads and two intersectionWith overloads cannot be reached through the base class."
  },
  {
   "property": "C84",
   "status": "partial",
   "theorems": [
    "Verif.Props.C84_contains",
    "Verif.Props.C84_contains_violated",
    "Verif.Props.C84_intersection_partial",
    "Verif.Props.C84_intersection_plane",
    "Verif.Props.C84_composites",
    "Verif.Props.C84_moved_partial",
    "Verif.Props.C84_transformation_undefined",
    "Verif.Props.C84_equality"
   ],
   "note": "Intersections, transformations (given a correct eigen solver) and the loops over members are proved. contains is violated: the empty composite contains everything, and all members rather than one must contain the object."
  },
  {
   "property": "C85",
   "status": "partial",
   "theorems": [
    "Verif.Props.C85_violated",
    "Verif.Props.C85_partial"
   ],
   "note": "Violated for two polygons, where the call is a call of itself; every other pair of types needs one call."
  },
  {
   "property": "C86",
   "status": "proved",
   "theorems": [
    "Verif.Props.C86_nodes",
    "Verif.Props.C86_defined",
    "Verif.Props.C86_cubic",
    "Verif.Props.C86_linear",
    "Verif.Props.C86_unsorted_violated",
    "Verif.Props.C86_array"
   ],
   "note": "The weights and the evaluation loop are those of boost 1.7x barycentric_rational, modelled from its source (not in the repository); exact ordered field. For unsorted nodes poles exist although the constructor accepts them (C86_unsorted_violated)."
  },
  {
   "property": "C87",
   "status": "proved",
   "theorems": [
    "Verif.Props.C87_barycentric",
    "Verif.Props.C87_linear",
    "Verif.Props.C87_barycentric_array"
   ],
   "note": "Over the reals with Mathlib's HasDerivAt; the cubic spline is not covered (its evaluation is in boost and not modelled)."
  },
  {
   "property": "C88",
   "status": "proved",
   "theorems": [
    "Verif.Props.C88_rotation",
    "Verif.Props.C88_inverse",
    "Verif.Props.C88_scale",
    "Verif.Props.C88_solver",
    "Verif.Props.C88_determinant",
    "Verif.Props.C88_reversed"
   ],
   "note": "For symmetric node matrices; eigensolver contract as in C64."
  },
  {
   "property": "C89",
   "status": "partial",
   "theorems": [
    "Verif.Props.C89_returns_controlled",
    "Verif.Props.C89_stuck",
    "Verif.Props.C89_reaches_partial",
    "Verif.Props.C89_constant_partial",
    "Verif.Props.C89_constant_violated",
    "Verif.Props.C89_returns",
    "Verif.Props.C89_zero",
    "Verif.Props.C89_negative_step_violated"
   ],
   "note": "Disagreement: with LogConstant the six steppers with step control stop at the last multiple of the time step, but the state is answered with the full duration as its time (C89_constant_violated, C89_constant_partial). A negative time step is accepted and nothing is integrated (C89_negative_step_violated). Proved for the other cases. Calls with Runge-Kutta 4 return; calls with step control return when the stepper keeps a contract of progress (C89_returns_controlled), and throw when it accepts no step (C89_stuck)."
  },
  {
   "property": "C90",
   "status": "proved",
   "theorems": [
    "Verif.Props.C90_linear_step",
    "Verif.Props.C90_nilpotent_times",
    "Verif.Props.C90_nilpotent_duration",
    "Verif.Props.C90_times",
    "Verif.Props.C90_duration",
    "Verif.Props.C90_conserved_times",
    "Verif.Props.C90_conserved_duration"
   ],
   "note": "Exact arithmetic; the exactness for cubics is for exact comparison of times (eps = 0)."
  },
  {
   "property": "C91",
   "status": "proved",
   "theorems": [
    "Verif.Props.C91_equivariant",
    "Verif.Props.C91_superposition"
   ],
   "note": "Exact arithmetic, for lists of requested times."
  },
  {
   "property": "C92",
   "status": "proved",
   "theorems": [
    "Verif.Props.C92_eq",
    "Verif.Props.C92_equivalence",
    "Verif.Props.C92_calls",
    "Verif.Props.C92_getters",
    "Verif.Props.C92_names"
   ],
   "note": "The print function is not modelled."
  },
  {
   "property": "C93",
   "status": "partial",
   "theorems": [
    "Verif.Props.C93_step",
    "Verif.Props.C93_nodes_partial",
    "Verif.Props.C93_drift_partial",
    "Verif.Props.C93_nodes_violated",
    "Verif.Props.C93_array"
   ],
   "note": "Disagreement: the constructor from nodes accepts distances that differ by the tolerance of isConstant, and gives the library only the first node and the first distance, so later nodes drift away from the places where the values are taken (C93_nodes_violated); C93_drift_partial bounds the drift, C93_nodes_partial covers exactly spaced nodes. boost's cardinal_cubic_b_spline is not in the repository; it is modelled from its source, the estimate of the slopes at the ends being left open."
  },
  {
   "property": "C94",
   "status": "proved",
   "theorems": [
    "Verif.Props.C94_ends",
    "Verif.Props.C94_pieces",
    "Verif.Props.C94_smooth",
    "Verif.Props.C94_array"
   ],
   "note": "boost's cardinal_cubic_b_spline is not in the repository; it is modelled from its source in exact arithmetic, the estimate of the slopes at the ends being left open. Queries whose place in steps does not fit in a long are not modelled."
  },
  {
   "property": "C95",
   "status": "proved",
   "theorems": [
    "Verif.Props.C95_cubics",
    "Verif.Props.C95_far"
   ],
   "note": "As C94. That the library's own estimate of the slopes is exact for a given polynomial is not claimed; the theorem takes it as a hypothesis."
  },
  {
   "property": "C96",
   "status": "partial",
   "theorems": [
    "Verif.Props.C96_decimals_partial",
    "Verif.Props.C96_integers",
    "Verif.Props.C96_integer_text",
    "Verif.Props.C96_infinity_violated",
    "Verif.Props.C96_empty_violated",
    "Verif.Props.C96_matrix_violated",
    "Verif.Props.C96_general_partial",
    "Verif.Props.C96_double_partial",
    "Verif.Props.C96_digits_violated"
   ],
   "note": "Disagreements: minus infinity is printed as Inf (C96_infinity_violated), the text of the empty vector is refused (C96_empty_violated), and the text of a matrix is read as a vector with zeros instead of being refused (C96_matrix_violated). Otherwise proved, in exact numbers (C96_decimals_partial, C96_general_partial, C96_integers) and with the numbers read rounded to doubles (C96_double_partial). Fifteen digits do not tell all doubles apart (C96_digits_violated). Signed zeros are not modelled; the formats of the C library (%f, %g with 15 digits, strtod) are assumed."
  },
  {
   "property": "C97",
   "status": "proved",
   "theorems": [
    "Verif.Props.C97_brackets"
   ],
   "note": "Strings are lists of characters; getline is modelled by its rule for a delimiter and the end of the text."
  },
  {
   "property": "C98",
   "status": "proved",
   "theorems": [
    "Verif.Props.C98_decimals",
    "Verif.Props.C98_integers",
    "Verif.Props.C98_errors",
    "Verif.Props.C98_general"
   ],
   "note": "For quaternions of finite numbers, for any number of decimals and without one (fifteen digits), in exact numbers; C96_double_partial adds the rounding of what is read. Printing and reading of the C library (%f, %g, strtod) are assumed as modelled. The conversion of NaN components to Real is not modelled."
  },
  {
   "property": "C99",
   "status": "proved",
   "theorems": [
    "Verif.Props.C99_injective",
    "Verif.Props.C99_defined"
   ],
   "note": "The text of a bound is any function that prints no commas; String::Format is taken to put the texts in place of the braces."
  },
  {
   "property": "C100",
   "status": "partial",
   "theorems": [
    "Verif.Props.C100_roundtrip",
    "Verif.Props.C100_undefined",
    "Verif.Props.C100_unitary_partial",
    "Verif.Props.C100_turn_not_unitary",
    "Verif.Props.C100_unitary_undefined"
   ],
   "note": "Disagreements: a full turn is the identity but isUnitary is false (C100_turn_not_unitary); undefined Euler angles may be reported unitary, or not unitary without an error (C100_unitary_undefined). Proved: the round trip, the errors, and that isUnitary of defined Euler angles means three zero angles and implies the identity."
  },
  {
   "property": "C101",
   "status": "partial",
   "theorems": [
    "Verif.Props.C101_isNear_partial",
    "Verif.Props.C101_equal_near",
    "Verif.Props.C101_negative_tolerance",
    "Verif.Props.C101_undefined"
   ],
   "note": "Proved for tolerances from zero to less than one turn. Disagreement, inherited from Quaternion::isNear: a tolerance between minus half a turn and zero accepts everything (C101_negative_tolerance)."
  },
  {
   "property": "C102",
   "status": "partial",
   "theorems": [
    "Verif.Props.C102_point",
    "Verif.Props.C102_lineString",
    "Verif.Props.C102_pointSet",
    "Verif.Props.C102_errors",
    "Verif.Props.C102_kind_violated",
    "Verif.Props.C102_segment",
    "Verif.Props.C102_polygon",
    "Verif.Props.C102_composite_violated"
   ],
   "note": "Disagreements: a segment, the line string of its end points and a line can have the same text (C102_kind_violated), and all composites have the same empty text (C102_composite_violated). The text of a number is a parameter that prints no separators; the well-known text of boost for polygons is assumed; multi-polygons and printing with decorators are not modelled. Standard and well-known text of a polygon are the same."
  },
  {
   "property": "C103",
   "status": "partial",
   "theorems": [
    "Verif.Props.C103_distinct",
    "Verif.Props.C103_total_partial",
    "Verif.Props.C103_cuboid_violated",
    "Verif.Props.C103_angle",
    "Verif.Props.C103_euler"
   ],
   "note": "Disagreement: the type of an intersection that is a cuboid has no name, printing throws (C103_cuboid_violated). The undefined unit has no symbol and the undefined sequence no name. Values outside of an enumeration are not modelled."
  },
  {
   "property": "C104",
   "status": "partial",
   "theorems": [
    "Verif.Props.C104_defined_partial",
    "Verif.Props.C104_empty_violated",
    "Verif.Props.C104_near_partial",
    "Verif.Props.C104_errors",
    "Verif.Props.C104_shape_violated"
   ],
   "note": "Disagreements: Undefined (0) is defined (C104_empty_violated), and isNear lets through matrices of different shapes with as many elements, which is undefined behaviour in Eigen (C104_shape_violated). Real arithmetic in place of floating point."
  },
  {
   "property": "C105",
   "status": "partial",
   "theorems": [
    "Verif.Props.C105_copy",
    "Verif.Props.C105_destroy",
    "Verif.Props.C105_change",
    "Verif.Props.C105_assign_partial",
    "Verif.Props.C105_assign_self",
    "Verif.Props.C105_assign_member_violated",
    "Verif.Props.C105_append",
    "Verif.Props.C105_append_undefined"
   ],
   "note": "Disagreement: assigning to a composite one of the composites inside it, as in c = c.as<Composite>(), destroys the right-hand side before reading it: undefined behaviour at every depth (C105_assign_member_violated). Proved for copies, destruction, changes, self-assignment, assignment between composites that share nothing, and += for all operands. Memory is modelled as addresses with objects; running out of memory is not modelled."
  },
  {
   "property": "C106",
   "status": "partial",
   "theorems": [
    "Verif.Props.C106_transform",
    "Verif.Props.C106_order",
    "Verif.Props.C106_undefined",
    "Verif.Props.C106_half_violated"
   ],
   "note": "Disagreement: when a later member refuses the transformation, the earlier members are already transformed when the exception passes (C106_half_violated). A sphere refuses a transformation that is not flagged rigid; such a one is the product of a translation with a matrix that is the identity only up to the tolerance of isIdentity. Proved: every object is transformed when none refuses; an undefined composite throws unchanged."
  },
  {
   "property": "C107",
   "status": "partial",
   "theorems": [
    "Verif.Props.C107_rounding",
    "Verif.Props.C107_range_partial",
    "Verif.Props.C107_returns_partial",
    "Verif.Props.C107_stuck_violated",
    "Verif.Props.C107_infinite_violated",
    "Verif.Props.C107_below_violated"
   ],
   "note": "In range whenever the loops end (C107_range_partial); they end below about 2^52 turns, with one rounding error for each turn (C107_returns_partial). Disagreements: from 2^55 turns on, and for an infinite value, the loop never ends (C107_stuck_violated, C107_infinite_violated); bounds whose difference is a turn only after rounding are accepted, and the result can be below the range (C107_below_violated). Arithmetic is binary64 with rounding to nearest, ties to even; signed zeros are not modelled."
  },
  {
   "property": "C108",
   "status": "partial",
   "theorems": [
    "Verif.Props.C108_reflexive_partial",
    "Verif.Props.C108_stuck_violated",
    "Verif.Props.C108_symmetric_violated",
    "Verif.Props.C108_near_symmetric",
    "Verif.Props.C108_near_self",
    "Verif.Props.C108_near_around",
    "Verif.Props.C108_near_stuck_violated"
   ],
   "note": "Reflexive up to 2^51 turns; isNear is symmetric and holds for an angle and itself whenever it returns. Disagreements: from 2^55 turns on neither == nor isNear ever returns (C108_stuck_violated, C108_near_stuck_violated); == is not symmetric for angles a turn apart (C108_symmetric_violated)."
  },
  {
   "property": "C109",
   "status": "proved",
   "theorems": [
    "Verif.Props.C109_accuracy",
    "Verif.Props.C109_round_trip",
    "Verif.Props.C109_exact_violated"
   ],
   "note": "Six roundings for a conversion, thirteen for there and back, for magnitudes between 2^-900 and 2^900 (2^-800 and 2^800). That the value is not kept exactly is C109_exact_violated. The constant Pi of the code is taken to be the double nearest to pi."
  },
  {
   "property": "C110",
   "status": "partial",
   "theorems": [
    "Verif.Props.C110_inside_partial",
    "Verif.Props.C110_returns_partial",
    "Verif.Props.C110_returns_down_partial",
    "Verif.Props.C110_stuck_violated",
    "Verif.Props.C110_infinite_violated",
    "Verif.Props.C110_extra_violated"
   ],
   "note": "Whenever the loop ends the values are finite, in the interval and in strict order (C110_inside_partial); with a step of at least 2^-52 of the bounds it ends, with one rounding error for each step, and covers the interval (C110_returns_partial for positive steps, C110_returns_down_partial for negative ones). Disagreements: a step lost in the lower bound, and a lower bound of minus infinity, make an endless loop that fills the memory (C110_stuck_violated, C110_infinite_violated); from 0 to 1 by 0.1 there are twelve points instead of eleven (C110_extra_violated)."
  },
  {
   "property": "C111",
   "status": "partial",
   "theorems": [
    "Verif.Props.C111_shape",
    "Verif.Props.C111_accuracy_partial",
    "Verif.Props.C111_beyond_violated",
    "Verif.Props.C111_overflow_violated"
   ],
   "note": "Length, order and first value hold always (C111_shape); the values are off by at most twelve roundings of the greater bound for each step (C111_accuracy_partial). Disagreements: the last value can be beyond the upper bound (C111_beyond_violated), and when the width overflows every value after the first is infinite (C111_overflow_violated)."
  },
  {
   "property": "C112",
   "status": "partial",
   "theorems": [
    "Verif.Props.C112_between_partial",
    "Verif.Props.C112_monotone",
    "Verif.Props.C112_accuracy",
    "Verif.Props.C112_derivative",
    "Verif.Props.C112_outside",
    "Verif.Props.C112_nodes_violated",
    "Verif.Props.C112_overflow_violated"
   ],
   "note": "In binary64 the interpolation is finite, monotone within a step and accurate to 12 units of rounding, and returns the end values outside. It does not go through its data in general: C112_nodes_violated gives data (0,-1e16),(1,3),(2,3) whose value at 1 is 4, above all data, and (0,1e16),(1,1) whose value at the last point is 0. C112_overflow_violated: when the difference of abscissae overflows the value stays at the first value or is not a number. A query that is not a number gives the first value (C112_outside). What the class Real does with a ratio that is not a number is not modelled."
  },
  {
   "property": "C113",
   "status": "partial",
   "theorems": [
    "Verif.Props.C113_norm",
    "Verif.Props.C113_normalize",
    "Verif.Props.C113_product_violated",
    "Verif.Props.C113_overflow_violated"
   ],
   "note": "Norm, normalisation and the test for unit norm are proved in binary64 with a correctly rounded square root. The last sentence fails: C113_product_violated gives 1 + 2^-50, accepted with tolerance 1e-15, whose square is refused. C113_overflow_violated: components of 2^520 are normalised to the zero quaternion without an error. The value of Real::Epsilon belongs to ostk-core; the theorems hold for every threshold from 2^-100 and every tolerance from 8/2^53."
  },
  {
   "property": "C114",
   "status": "partial",
   "theorems": [
    "Verif.Props.C114_distance",
    "Verif.Props.C114_isNear",
    "Verif.Props.C114_triangle",
    "Verif.Props.C114_plane",
    "Verif.Props.C114_underflow_violated",
    "Verif.Props.C114_overflow_violated"
   ],
   "note": "Proved in binary64 for coordinates up to 2^499 and both orders in which Eigen may add three squares. The last clause fails: C114_underflow_violated (different points closer than 2^-540 have distance zero) and C114_overflow_violated (finite points 2^600 apart have infinite distance and are near for no tolerance)."
  },
  {
   "property": "C115",
   "status": "partial",
   "theorems": [
    "Verif.Props.C115_angle",
    "Verif.Props.C115_refused",
    "Verif.Props.C115_symmetric",
    "Verif.Props.C115_small_violated",
    "Verif.Props.C115_overflow_violated"
   ],
   "note": "Proved in binary64 for components up to 2^499, for every arc cosine within 2^-51 and every threshold from 2^-100. The last clause fails: C115_small_violated (angle zero between (1, 0, 0) and (1, 2^-27, 0)), C115_overflow_violated (a quarter turn between (2^600, 0, 0) and (2^601, 0, 0))."
  },
  {
   "property": "C116",
   "status": "partial",
   "theorems": [
    "Verif.Props.C116_equality",
    "Verif.Props.C116_large_violated"
   ],
   "note": "Symmetry, the centres, the bound on the quadratic forms and equality of equal sets are proved. That surfaces of equal ellipsoids are near fails for large ones: C116_large_violated (spheres of radii 6378137 and 6400000 are equal with tolerance 1e-15)."
  },
  {
   "property": "C117",
   "status": "partial",
   "theorems": [
    "Verif.Props.C117_ends",
    "Verif.Props.C117_segment",
    "Verif.Props.C117_line",
    "Verif.Props.C117_ray",
    "Verif.Props.C117_plane",
    "Verif.Props.C117_center_violated",
    "Verif.Props.C117_overflow_violated"
   ],
   "note": "Proved in binary64 for coordinates up to 2^248 and both orders in which Eigen may add three products. The clause on centres fails: C117_center_violated (the segment from (1, 0, 0) to (1 + 2^-52, 1, 0) does not contain its centre); beyond the bound the ends may fail too: C117_overflow_violated."
  },
  {
   "property": "C118",
   "status": "partial",
   "theorems": [
    "Verif.Props.C118_distance",
    "Verif.Props.C118_short",
    "Verif.Props.C118_overflow_violated"
   ],
   "note": "Proved in binary64 for coordinates up to 2^248 and both orders in which Eigen may add three products. For all finite points it fails: C118_overflow_violated (the point (1, 0, 0) of the segment from the origin to (2^512, 0, 0) is at distance 1)."
  },
  {
   "property": "C119",
   "status": "partial",
   "theorems": [
    "Verif.Props.C119_identity",
    "Verif.Props.C119_translation",
    "Verif.Props.C119_composition",
    "Verif.Props.C119_accuracy",
    "Verif.Props.C119_back",
    "Verif.Props.C119_back_violated",
    "Verif.Props.C119_infinite_violated",
    "Verif.Props.C119_distances",
    "Verif.Props.C119_plane"
   ],
   "note": "Proved in binary64 for finite coordinates and the orders in which Eigen may add four terms (fused multiply-add is not modelled). The claim that a translation and its opposite give back the point fails, as does that of applying a product being applying its factors in turn: C119_back_violated; C119_back bounds the loss. An infinite coordinate, which counts as defined, becomes undefined under the identity: C119_infinite_violated."
  },
  {
   "property": "C120",
   "status": "proved",
   "theorems": [
    "Verif.Props.C120_product",
    "Verif.Props.C120_chain",
    "Verif.Props.C120_unitary",
    "Verif.Props.C120_rotate",
    "Verif.Props.C120_returns"
   ],
   "note": "In binary64 without fused operations. C113_product_violated shows that with the default tolerance a product of two accepted quaternions may be refused; C120_chain and C120_unitary give the tolerance that suffices."
  },
  {
   "property": "C121",
   "status": "proved",
   "theorems": [
    "Verif.Props.C121_composites",
    "Verif.Props.C121_no_leak",
    "Verif.Props.C121_polygons"
   ],
   "note": "Over the model of memory of Model/Heap and Model/Programs: addresses, exclusive owners, destructors, exceptions that are caught. Assigning to a composite a composite inside it is not an operation between variables; it is undefined behaviour (C105_assign_member_violated). Not modelled: std::bad_alloc, threads."
  },
  {
   "property": "C122",
   "status": "partial",
   "theorems": [
    "Verif.Props.C122_accepts_partial",
    "Verif.Props.C122_rotation",
    "Verif.Props.C122_alike",
    "Verif.Props.C122_nearest_partial",
    "Verif.Props.C122_quaternion_violated",
    "Verif.Props.C122_product_violated",
    "Verif.Props.C122_product"
   ],
   "note": "violated: C122_quaternion_violated and C122_product_violated give the witnesses for every tolerance from 2^-50 to 2^-49, such as 1e-15. What holds: quaternions whose norm is from 1 - 5u to 1 + u (u = 2^-53) convert for every tolerance from 9u on, and so does the rounding of any unit quaternion (C122_nearest_partial); whatever is returned is the rotation up to 2.2 times the tolerance and 22u, and agrees with rotateVector. Not proved: that every quaternion returned by toNormalized converts (none was found that does not); contraction of a * b + c by the compiler, and Eigen's order of addition beyond the two modelled, are not covered"
  },
  {
   "property": "C123",
   "status": "partial",
   "theorems": [
    "Verif.Props.C123_same",
    "Verif.Props.C123_kept",
    "Verif.Props.C123_refused",
    "Verif.Props.C123_whole_partial",
    "Verif.Props.C123_line_string_violated",
    "Verif.Props.C123_ellipsoid_violated",
    "Verif.Props.C123_same2",
    "Verif.Props.C123_kept2",
    "Verif.Props.C123_refused2",
    "Verif.Props.C123_whole2_partial",
    "Verif.Props.C123_line_string2_violated"
   ],
   "note": "The statements of each applyTransformation run one after the other on the members (Model/InPlace), and members keep what was assigned when a later statement throws. Violated for line strings with an undefined point and for ellipsoids with an orientation that is not unitary; with those left out, and for transformations built from the factories, a call changes all of the object or nothing. Exceptions that the code cannot throw by itself (std::bad_alloc) are not modelled."
  },
  {
   "property": "C124",
   "status": "partial",
   "theorems": [
    "Verif.Props.C124_prints_partial",
    "Verif.Props.C124_ellipsoid_violated",
    "Verif.Props.C124_intersection_violated",
    "Verif.Props.C124_tells_partial",
    "Verif.Props.C124_composite_violated",
    "Verif.Props.C124_prints2_partial",
    "Verif.Props.C124_multi_polygon_violated",
    "Verif.Props.C124_tells2_partial"
   ],
   "note": "C124_prints_partial says exactly which objects of space are printed; C124_prints2_partial gives a sufficient condition in the plane. C124_tells_partial and C124_tells2_partial recover the object from the text up to whether composites are defined, for texts of the members that tell the members apart. Missing: the digits of numbers, which are a parameter here, and the layout of the frames, which is that of ostk-core. Violated for ellipsoids, undefined multi-polygons, intersections and composites."
  },
  {
   "property": "C125",
   "status": "partial",
   "theorems": [
    "Verif.Props.C125_origin",
    "Verif.Props.C125_reversed",
    "Verif.Props.C125_accepts",
    "Verif.Props.C125_vertical",
    "Verif.Props.C125_horizontal",
    "Verif.Props.C125_second_violated",
    "Verif.Props.C125_symmetric_violated",
    "Verif.Props.C125_far_violated"
   ],
   "note": "C125_origin is exact for all defined lines; C125_accepts is soundness of contains with an explicit error, for directions of a norm of at least one half; C125_vertical and C125_horizontal are exact. Missing: a condition under which a point of the line that is not at its origin is accepted, which for general slopes there is none, as C125_second_violated shows. Violated: C125_second_violated, C125_symmetric_violated, C125_far_violated."
  },
  {
   "property": "C126",
   "status": "proved",
   "theorems": [
    "Verif.Props.C126_refines",
    "Verif.Props.C126_atomic",
    "Verif.Props.C126_frame",
    "Verif.Props.C126_self",
    "Verif.Props.C126_transformations"
   ],
   "note": "Memory is a map from variables and members to numbers; every statement reads memory as the statements before it left it. Numbers are real numbers, so rounding is not in this model. Eigen evaluates matrix_ *= m and vector products into temporaries, which is assumed."
  },
  {
   "property": "C127",
   "status": "partial",
   "theorems": [
    "Verif.Props.C127_sphere",
    "Verif.Props.C127_near",
    "Verif.Props.C127_no_tolerance",
    "Verif.Props.C127_poles",
    "Verif.Props.C127_sphere_violated",
    "Verif.Props.C127_center_violated",
    "Verif.Props.C127_multiples",
    "Verif.Props.C127_planes",
    "Verif.Props.C127_axes",
    "Verif.Props.C127_second_violated",
    "Verif.Props.C127_plane_violated"
   ],
   "note": "C127_sphere and C127_near bound what a sphere accepts and rejects; C127_no_tolerance says that from radius 4 on the tolerance has no effect; C127_poles, C127_multiples, C127_planes and C127_axes are exact. Missing: general points of a sphere, a line or a plane are not accepted, as the counterexamples show. Violated: C127_sphere_violated, C127_center_violated, C127_second_violated, C127_plane_violated."
  },
  {
   "property": "C128",
   "status": "proved",
   "theorems": [
    "Verif.Props.C128_plane",
    "Verif.Props.C128_accuracy",
    "Verif.Props.C128_grid",
    "Verif.Props.C128_grid2",
    "Verif.Props.C128_sphere"
   ],
   "note": "Eigen is assumed to add the three products of a dot product in one of two orders, and the compiler not to contract products and sums. The accuracy is stated for coordinates up to 2^248 and, for contains, for segments that are not shorter than 2^-200."
  },
  {
   "property": "C129",
   "status": "proved",
   "theorems": [
    "Verif.Props.C129_vector",
    "Verif.Props.C129_euler",
    "Verif.Props.C129_matrix",
    "Verif.Props.C129_round_trip",
    "Verif.Props.C129_undefined"
   ],
   "note": "Assumed: std::sin and std::cos are accurate to 2^-53 and do not exceed one; Eigen adds the diagonal of a matrix in one of two orders; the compiler does not contract products and sums. Axes up to 2^500. The units of rounding are 2^-53."
  },
  {
   "property": "C130",
   "status": "partial",
   "theorems": [
    "Verif.Props.C130_rotation_partial",
    "Verif.Props.C130_round_trip_partial",
    "Verif.Props.C130_small_violated",
    "Verif.Props.C130_above_violated",
    "Verif.Props.C130_below_violated",
    "Verif.Props.C130_refused"
   ],
   "note": "Proved for every unitary quaternion whose vector part has a square of at least 8 eps + 100 u. Missing: smaller rotations, for which the claim is false, with proved witnesses on both sides of the scalar one and for a rotation by 2^-26. The arc cosine is assumed accurate; what the square root of a negative number does is left open."
  },
  {
   "property": "C131",
   "status": "partial",
   "theorems": [
    "Verif.Props.C131_lines",
    "Verif.Props.C131_plane_partial",
    "Verif.Props.C131_zero_normal_violated",
    "Verif.Props.C131_members",
    "Verif.Props.C131_points",
    "Verif.Props.C131_undefined",
    "Verif.Props.C131_angles",
    "Verif.Props.C131_rotations",
    "Verif.Props.C131_frames"
   ],
   "note": "Every accessor is proved for all objects. The claim that the normal vector of a plane is a unit vector is restricted to normal vectors that are not zero, because the constructor accepts a zero normal vector (C131_zero_normal_violated), which lines and rays refuse as a direction."
  },
  {
   "property": "C132",
   "status": "partial",
   "theorems": [
    "Verif.Props.C132_shortest",
    "Verif.Props.C132_same",
    "Verif.Props.C132_zero",
    "Verif.Props.C132_throws",
    "Verif.Props.C132_lerp",
    "Verif.Props.C132_ends",
    "Verif.Props.C132_nlerp",
    "Verif.Props.C132_flat",
    "Verif.Props.C132_opposite_violated",
    "Verif.Props.C132_digits_violated"
   ],
   "note": "Proved with rounding for vectors of norm between 2^-40 and 2^499; the order of Eigen's sums is a parameter. The error bound holds when the cosine of half the angle is at least Real::Epsilon() and 32 units of rounding. Violated: C132_opposite_violated (vectors that are not opposite are refused) and C132_digits_violated (the direction is missed by more than 2^-30 for vectors almost opposite). Missing: vectors shorter than 2^-40. SLERP is C137."
  },
  {
   "property": "C133",
   "status": "partial",
   "theorems": [
    "Verif.Props.C133_inverse",
    "Verif.Props.C133_quotient",
    "Verif.Props.C133_zero",
    "Verif.Props.C133_difference",
    "Verif.Props.C133_close",
    "Verif.Props.C133_self",
    "Verif.Props.C133_near",
    "Verif.Props.C133_small_violated",
    "Verif.Props.C133_turn_violated",
    "Verif.Props.C133_throws"
   ],
   "note": "False for two rotations less than 2^-30 apart (difference zero, near with tolerance zero; C133_small_violated) and for a tolerance of a full turn, which reduces to none (C133_turn_violated). std::acos is assumed within 2^-51 of the arc cosine, with acos 1 = 0 for the statements on equal rotations; the tolerance of isNear is in radians and below a full turn."
  },
  {
   "property": "C134",
   "status": "partial",
   "theorems": [
    "Verif.Props.C134_matrix",
    "Verif.Props.C134_matrix_others",
    "Verif.Props.C134_matrix_undefined",
    "Verif.Props.C134_quaternion",
    "Verif.Props.C134_gimbal_violated",
    "Verif.Props.C134_vector",
    "Verif.Props.C134_vector_undefined",
    "Verif.Props.C134_vector_violated",
    "Verif.Props.C134_small_violated",
    "Verif.Props.C134_throws",
    "Verif.Props.C134_others"
   ],
   "note": "False near a quarter turn of the second angle, where an accepted quaternion has undefined Euler angles (C134_gimbal_violated), for an accepted matrix whose trace exceeds three by rounding, whose rotation vector throws (C134_vector_violated), and for rotations by 2^-28, which are lost (C134_small_violated). std::asin and std::acos are assumed within 2^-52 and 2^-51 of the exact functions, std::atan2 of the direction of the point; the two zeros are one number, so that which of pi and -pi std::atan2 answers is left open. Half turns are outside of C134_vector."
  },
  {
   "property": "C135",
   "status": "partial",
   "theorems": [
    "Verif.Props.C135_distance",
    "Verif.Props.C135_closest",
    "Verif.Props.C135_agree",
    "Verif.Props.C135_member",
    "Verif.Props.C135_segment",
    "Verif.Props.C135_move",
    "Verif.Props.C135_collapse_violated",
    "Verif.Props.C135_underflow_violated",
    "Verif.Props.C135_overflow_violated",
    "Verif.Props.C135_throws"
   ],
   "note": "Accuracy of the distance, optimality of the closest point, agreement of the two and the image of a set under a transformation are proved for sets of any size. Violated outside: C135_collapse_violated, C135_underflow_violated, C135_overflow_violated. The iteration order of the hash set is an argument (the list order); the hash itself is not modelled."
  },
  {
   "property": "C136",
   "status": "partial",
   "theorems": [
    "Verif.Props.C136_cuboid",
    "Verif.Props.C136_near",
    "Verif.Props.C136_faces",
    "Verif.Props.C136_corner_violated",
    "Verif.Props.C136_order_violated",
    "Verif.Props.C136_cone",
    "Verif.Props.C136_apex",
    "Verif.Props.C136_axis_violated",
    "Verif.Props.C136_near_apex",
    "Verif.Props.C136_stuck_violated",
    "Verif.Props.C136_undefined",
    "Verif.Props.C136_apex_violated",
    "Verif.Props.C136_equal"
   ],
   "note": "Cuboid: C136_cuboid (accepted and refused points with stated errors), C136_near (accepted points are near a face, orthonormal axes), C136_faces (points of the faces of axis-parallel cuboids with exact offsets). Cone: C136_cone (up to 2^-21 radians), C136_apex, C136_near_apex. C136_undefined for undefined operands. C136_equal: operator == holds exactly if the boxes are the same set of points (orthonormal axes, positive extents). The unrestricted claim is false: C136_corner_violated (a computed corner is refused), C136_order_violated (equal cuboids that contain different points), C136_axis_violated (a point of the axis of a thin cone is refused), C136_apex_violated (a point of the axis near the apex ends in an error), C136_stuck_violated (a half-angle of 2^55 turns never ends). The arc cosine is assumed to be within 2^-51; queries with the Gte library are not in double precision."
  },
  {
   "property": "C137",
   "status": "partial",
   "theorems": [
    "Verif.Props.C137_arc",
    "Verif.Props.C137_slerp",
    "Verif.Props.C137_ends",
    "Verif.Props.C137_throws",
    "Verif.Props.C137_exp_partial",
    "Verif.Props.C137_log_partial",
    "Verif.Props.C137_pow_partial",
    "Verif.Props.C137_scalar_violated",
    "Verif.Props.C137_end_violated"
   ],
   "note": "C137_slerp is proved for all quaternions of norm 1/2 to 2, without an exception for opposite or equal ones; C137_arc ties the formula of the specification to the angles. The error has the term 22 Real::Epsilon(), and C137_end_violated shows that it can not be left out: a rotation below the threshold is lost. exp and log are partial: C137_scalar_violated shows that exp of a scalar is one whatever the scalar; log is proved up to 120 degrees, pow for exponents 0 to 1. The accuracy of the mathematical library is a hypothesis (MathLib.Good), met by exists_mathLib."
  },
  {
   "property": "C138",
   "status": "partial",
   "theorems": [
    "Verif.Props.C138_axes",
    "Verif.Props.C138_vector_partial",
    "Verif.Props.C138_euler_partial",
    "Verif.Props.C138_agree",
    "Verif.Props.C138_sequence_violated",
    "Verif.Props.C138_rejected_violated",
    "Verif.Props.C138_undefined"
   ],
   "note": "RX, RY, RZ are accepted with any tolerance from 9 / 2^53 on and turn every vector within 3 / 2^53 (C138_axes). RotationVector and EulerAngle, when they return, are within 2^-46 and 2^-47 of the exact rotation whatever the tolerance, and return if the tolerance is at least that (C138_vector_partial, C138_euler_partial). Violated: at the tolerance of the library, 1e-15, RotationVector throws for a half turn about an axis that RotationVector's own constructor accepts, because the computed columns are 1.02e-15 off a right angle (C138_rejected_violated). Whether EulerAngle always returns for a tolerance between 9 / 2^53 and 2^-47 is open. For ZYX the matrix and the quaternion agree within 2^-45 (C138_agree); for XYZ they are different rotations, by more than one half on a unit vector (C138_sequence_violated). std::sin and std::cos are parameters, assumed accurate to 2^-53, and correctly rounded at the double nearest to π for C138_rejected_violated."
  },
  {
   "property": "C139",
   "status": "partial",
   "theorems": [
    "Verif.Props.C139_segment",
    "Verif.Props.C139_agree",
    "Verif.Props.C139_segment_point",
    "Verif.Props.C139_ray",
    "Verif.Props.C139_line_point",
    "Verif.Props.C139_ray_point",
    "Verif.Props.C139_distance",
    "Verif.Props.C139_inside_violated",
    "Verif.Props.C139_parallel_violated",
    "Verif.Props.C139_agree_violated",
    "Verif.Props.C139_undefined"
   ],
   "note": "Proved for all points up to 2^248: the decision for segments, rays and lines away from the plane by more than the stated error, agreement of intersects with intersectionWith, nearness of the returned point to the figure and to the plane, and the distances to lines and rays made by the constructor. The code breaks the rest: a parallel line apart from the plane is said to intersect it (C139_parallel_violated), a segment inside the plane is returned as one point (C139_inside_violated), and with coordinates near the largest double intersects and intersectionWith disagree (C139_agree_violated). Missing: the points of lines and rays whose coordinates overflow; runtime facts as for C104."
  },
  {
   "property": "C140",
   "status": "partial",
   "theorems": [
    "Verif.Props.C140_near",
    "Verif.Props.C140_found",
    "Verif.Props.C140_axis",
    "Verif.Props.C140_own_violated",
    "Verif.Props.C140_errors"
   ],
   "note": "Proved for all points, centres and half axes of moderate size: a contained point is near a point of the ellipsoid (C140_near), a point of the ellipsoid is contained at tolerances of at least 440 r^2 units of rounding (C140_found), ellipsoids along the axes contain their exact points and the nearest doubles of all their points at the tolerance of the code (C140_axis), and all error branches. The axes are those which contains itself uses (C49_violated tells how they differ from the rest of the class). The code breaks the claim for other quaternions at its tolerance of 10^-15: with one that it takes for unitary the unit sphere does not contain (1, 0, 0) (C140_own_violated). Missing: half axes of 0 and overflow; runtime facts as for C104."
  },
  {
   "property": "C141",
   "status": "partial",
   "theorems": [
    "Verif.Props.C141_rotation",
    "Verif.Props.C141_around_partial",
    "Verif.Props.C141_plane_partial",
    "Verif.Props.C141_fixed_violated",
    "Verif.Props.C141_space_violated",
    "Verif.Props.C141_undefined"
   ],
   "note": "Proved for all points of moderate size, all accepted axes and all angles: the transformation of a rotation vector turns points and vectors alike within 2^-45 of their length (C141_rotation), the rotation about a point is within 2^-45 of the two lengths of the exact one and moves its own point by at most 2^-47 of its length (C141_around_partial), in the plane each coordinate is within 5 units of rounding and 2^-49 (C141_plane_partial); undefined arguments (C141_undefined). The code breaks the claim that the point stays: a half turn about (1, 2) moves (1, 2), in the plane and in space (C141_fixed_violated, C141_space_violated). Missing: coordinates above 2^490; the inverse; runtime facts as for C104."
  },
  {
   "property": "C142",
   "status": "partial",
   "theorems": [
    "Verif.Props.C142_plane",
    "Verif.Props.C142_line",
    "Verif.Props.C142_axis",
    "Verif.Props.C142_contains_line",
    "Verif.Props.C142_contains_segment",
    "Verif.Props.C142_sets",
    "Verif.Props.C142_segment_violated",
    "Verif.Props.C142_transitive_violated",
    "Verif.Props.C142_undefined"
   ],
   "note": "Equality is reflexive and symmetric, and equal planes (lines) have the same direction up to sign and a point (origin) within a few units of rounding (C142_plane, C142_line); for planes at right angles to an axis it is the equality of sets (C142_axis). Contained lines, rays and segments are near the plane, those far from it are not contained (C142_contains_line, C142_contains_segment); point sets follow their points (C142_sets). Two parts of the property are false in the code: a plane may contain a line and not a segment on it (C142_segment_violated), and equality of planes is not transitive (C142_transitive_violated). Not covered: coordinates above 2^248."
  },
  {
   "property": "C143",
   "status": "partial",
   "theorems": [
    "Verif.Props.C143_basis_partial",
    "Verif.Props.C143_axes",
    "Verif.Props.C143_rejected_violated",
    "Verif.Props.C143_rows",
    "Verif.Props.C143_rows_refused",
    "Verif.Props.C143_rows_violated",
    "Verif.Props.C143_undefined"
   ],
   "note": "VectorBasis: the returned matrix is within 460/(2^53 k) of the exact rotation, k the least sine of the two angles, and it is returned for tolerances above 540/(2^53 k) (C143_basis_partial); exact for pairs of perpendicular axes at the tolerance of the library (C143_axes). Rows and Columns: C143_rows, C143_rows_refused. Two parts are false in the code: at the tolerance of the library a pair more than one degree apart is refused (C143_rejected_violated), and zero rows and mirror images are returned (C143_rows_violated). Not covered: vectors shorter than 2^-40 or longer than 2^499, angles with a sine below 2^-20, and which other pairs are refused at the tolerance of the library."
  },
  {
   "property": "C144",
   "status": "partial",
   "theorems": [
    "Verif.Props.C144_lines_partial",
    "Verif.Props.C144_points_partial",
    "Verif.Props.C144_cone_partial",
    "Verif.Props.C144_cuboid_partial",
    "Verif.Props.C144_translation",
    "Verif.Props.C144_cone_violated",
    "Verif.Props.C144_cuboid_violated",
    "Verif.Props.C144_back_violated",
    "Verif.Props.C144_undefined"
   ],
   "note": "Proved by induction over the sequence of motions for points, lines, rays, planes, segments, spheres, cones and cuboids, with explicit error bounds. Missing: coordinates above 2^490, more than 2^40 motions, transformations about a point other than the origin, inverses and matrices. Violated as written: the identity changes the axis of a cone along (1, 1, 0), a translation shrinks a cuboid with axes along (1, 1, 0) and (-1, 1, 0), and a plane moved far away and back is not equal to itself."
  },
  {
   "property": "C145",
   "status": "partial",
   "theorems": [
    "Verif.Props.C145_product_partial",
    "Verif.Props.C145_type",
    "Verif.Props.C145_brackets_partial",
    "Verif.Props.C145_in_turn_partial",
    "Verif.Props.C145_around",
    "Verif.Props.C145_identity",
    "Verif.Props.C145_associative_violated"
   ],
   "note": "Proved by induction over the tree of products, with explicit error bounds: C145_product_partial (points and directions), C145_brackets_partial (two ways of bracketing), C145_in_turn_partial (product against its factors in turn); C145_type, C145_around and C145_identity hold without bounds on the number of factors. Associativity is false in the code: C145_associative_violated. Missing: paths above 2^490, more than 2^40 factors, the inverse (computed by Eigen), transformations made from matrices."
  },
  {
   "property": "C146",
   "status": "partial",
   "theorems": [
    "Verif.Props.C146_axes",
    "Verif.Props.C146_perpendicular",
    "Verif.Props.C146_vertices_partial",
    "Verif.Props.C146_distances_partial",
    "Verif.Props.C146_normal",
    "Verif.Props.C146_moved_partial",
    "Verif.Props.C146_again_violated",
    "Verif.Props.C146_overflow_violated",
    "Verif.Props.C146_undefined"
   ],
   "note": "Proved for all axes and points within the bounds: C146_axes (acceptance and refusal), C146_perpendicular, C146_vertices_partial, C146_distances_partial, C146_normal, C146_moved_partial (induction over the sequence of motions), C146_undefined. Two clauses are false in the code: a polygon made again from its own parts is not equal to it (C146_again_violated), and parallel axes of length 2^600 are accepted and all vertices collapse into the origin (C146_overflow_violated). Missing: axes shorter than 2^-40 or longer than 2^499, coordinates above 2^490, motions other than rotations and translations, the order of vertices decided by boost."
  },
  {
   "property": "C147",
   "status": "partial",
   "theorems": [
    "Verif.Props.C147_accepted",
    "Verif.Props.C147_vertices_partial",
    "Verif.Props.C147_undefined"
   ],
   "note": "Proved for all apexes and edges within the bounds: C147_accepted (the computed axes have a cosine below 3.89 units of rounding, and the test of the constructor adds at most 5.1), C147_vertices_partial (places of the three vertices), C147_undefined. Missing: angles with a sine below 2^-20, distances below 2^-30, coordinates above 2^248, and the sign of the area by which boost decides the direction, which is exact in the model."
  },
  {
   "property": "C148",
   "status": "partial",
   "theorems": [
    "Verif.Props.C148_line_partial",
    "Verif.Props.C148_points_partial",
    "Verif.Props.C148_polygon_partial",
    "Verif.Props.C148_exact",
    "Verif.Props.C148_collapse_violated",
    "Verif.Props.C148_undefined"
   ],
   "note": "Double precision over the real numbers with correct rounding; sine and cosine within one unit of rounding. Missing: coordinates above 2^480, more than 2^40 motions, matrices that are not rotations or translations, and overflow. Distances within an object are not kept when it is moved far away: C148_collapse_violated."
  },
  {
   "property": "C149",
   "status": "partial",
   "theorems": [
    "Verif.Props.C149_product_partial",
    "Verif.Props.C149_type",
    "Verif.Props.C149_brackets_partial",
    "Verif.Props.C149_in_turn_partial",
    "Verif.Props.C149_around",
    "Verif.Props.C149_identity",
    "Verif.Props.C149_associative_violated"
   ],
   "note": "Double precision over the real numbers with correct rounding; sine and cosine within one unit of rounding. Missing: paths above 2^490, more than 2^40 factors, and factors that are not rotations or translations. Exact associativity does not hold: C149_associative_violated."
  },
  {
   "property": "C150",
   "status": "partial",
   "theorems": [
    "Verif.Props.C150_inverse_partial",
    "Verif.Props.C150_back_partial",
    "Verif.Props.C150_last_row_partial",
    "Verif.Props.C150_translation",
    "Verif.Props.C150_back_violated"
   ],
   "note": "Double precision over the real numbers with correct rounding; sine and cosine within one unit of rounding; the inverse of Eigen as cofactors times the inverse of the determinant. Missing: paths above 2^490, more than 2^34 factors, and factors that are not rotations or translations. Points do not come back exactly: C150_back_violated."
  },
  {
   "property": "C151",
   "status": "partial",
   "theorems": [
    "Verif.Props.C151_points",
    "Verif.Props.C151_near_partial",
    "Verif.Props.C151_multiPolygon_partial",
    "Verif.Props.C151_composite",
    "Verif.Props.C151_members",
    "Verif.Props.C151_whole",
    "Verif.Props.C151_identity",
    "Verif.Props.C151_identity_violated",
    "Verif.Props.C151_collapse_violated",
    "Verif.Props.C151_undefined"
   ],
   "note": "Double precision over the real numbers with correct rounding; sine and cosine within one unit of rounding. The theorems on point sets and composites hold for any doubles and any matrices; those on distances miss coordinates above 2^480 and more than 2^40 motions. Missing: composites in composites, and what a composite is after one of its members could not be moved. Points can be lost: C151_collapse_violated; the identity does not leave a point with an infinite coordinate as it is: C151_identity_violated."
  },
  {
   "property": "C152",
   "status": "partial",
   "theorems": [
    "Verif.Props.C152_points",
    "Verif.Props.C152_lineString",
    "Verif.Props.C152_pyramid",
    "Verif.Props.C152_near_partial",
    "Verif.Props.C152_composite",
    "Verif.Props.C152_members",
    "Verif.Props.C152_whole",
    "Verif.Props.C152_identity",
    "Verif.Props.C152_identity_violated",
    "Verif.Props.C152_collapse_violated",
    "Verif.Props.C152_undefined"
   ],
   "note": "Double precision over the real numbers with correct rounding; sine and cosine within one unit of rounding. The theorems on point sets, line strings, pyramids and composites hold for any doubles and any matrices; those on distances miss coordinates above 2^490 and more than 2^40 motions. Missing: ellipsoids and composites as members of a composite, and what a composite is after one of its members could not be moved. Points can be lost: C152_collapse_violated; the identity does not leave a point with an infinite coordinate as it is: C152_identity_violated."
  }
 ]
}
