{
 "claims": [
  {
   "property": "C01",
   "status": "proved",
   "theorems": [
    "NS.Props.C01_evaluate_eq_bernstein",
    "NS.Props.C01_evaluate_empty",
    "NS.Props.C01_spec_is_mathlib_bernstein"
   ],
   "note": "Exact arithmetic over any ordered field; every degree."
  },
  {
   "property": "C02",
   "status": "partial",
   "theorems": [
    "NS.Props.C02_degree0",
    "NS.Props.C02_degree1_partial",
    "NS.Props.C02_degree1_derivatives",
    "NS.Props.C02_degree2",
    "NS.Props.C02_degree3",
    "NS.Props.C02_degree1_periodic_refuted"
   ],
   "note": "Proved for degrees 0, 2, 3 with either flag and degree 1 without it. False of the code for a periodic degree-1 curve: C02_degree1_periodic_refuted."
  },
  {
   "property": "C03",
   "status": "proved",
   "theorems": [
    "NS.Props.C03_start",
    "NS.Props.C03_end",
    "NS.Props.C03_convex_hull",
    "NS.Props.C03_half_space"
   ],
   "note": "evaluate(1) is stated for non-periodic curves (a periodic curve folds 1 to 0)."
  },
  {
   "property": "C04",
   "status": "proved",
   "theorems": [
    "NS.Props.C04_bspline_affine",
    "NS.Props.C04_bspline_patch_affine",
    "NS.Props.C04_bezier_affine_any",
    "NS.Props.C04_patch_affine_any",
    "NS.Props.C04_rational_bezier_affine",
    "NS.Props.C04_nurbs_affine",
    "NS.Props.C04_rational_patch_affine",
    "NS.Props.C04_nurbs_patch_affine",
    "NS.Props.C04_bezier_affine",
    "NS.Props.C04_patch_affine"
   ],
   "note": "Every object of all eight classes and every parameter, for arbitrary affine maps; initialisation of the image commutes too, including outcomes that throw or are undefined."
  },
  {
   "property": "C05",
   "status": "proved",
   "theorems": [
    "NS.Props.C05_derivative",
    "NS.Props.C05_derivative_periodic",
    "NS.Props.C05_derivatives_periodic"
   ],
   "note": "Also the periodic case: right derivatives everywhere, two-sided away from the seam, first and second derivatives."
  },
  {
   "property": "C06",
   "status": "proved",
   "theorems": [
    "NS.Props.C06_hodograph",
    "NS.Props.C06_hodograph_twice",
    "NS.Props.C06_hodograph_periodic"
   ],
   "note": "Periodic curves: on [0,1) always, everywhere when the hodograph keeps the flag."
  },
  {
   "property": "C07",
   "status": "proved",
   "theorems": [
    "NS.Props.C07_split",
    "NS.Props.C07_split_periodic",
    "NS.Props.C07_split_outside",
    "NS.Props.C07_split_alternative_eq"
   ],
   "note": "Both flags; also the alternative _split."
  },
  {
   "property": "C08",
   "status": "partial",
   "theorems": [
    "NS.Props.C08_freeSplit_partial",
    "NS.Props.C08_window_refuted"
   ],
   "note": "False of the code in the epsilon window outside [0,1]: C08_window_refuted."
  },
  {
   "property": "C09",
   "status": "partial",
   "theorems": [
    "NS.Props.C09_subcurve",
    "NS.Props.C09_subcurve_throws",
    "NS.Props.C09_subcurve3_partial",
    "NS.Props.C09_subcurve3_actual",
    "NS.Props.C09_subcurve3_refuted",
    "NS.Props.C09_subcurve3_ub"
   ],
   "note": "Proved for the generic class. The cubic class is wrong for 0<t0, t1<1 (C09_subcurve3_refuted) and reads out of range for (1,1) (C09_subcurve3_ub)."
  },
  {
   "property": "C10",
   "status": "partial",
   "theorems": [
    "NS.Props.C10_elevate",
    "NS.Props.C10_elevate_empty",
    "NS.Props.C10_elevate_fixed",
    "NS.Props.C10_rational_elevate_any",
    "NS.Props.C10_rational_elevate",
    "NS.Props.C10_rational_zero_refuted"
   ],
   "note": "Bezier (generic and degree 0..3) complete; rational curves with any weights: exact result if no elevated weight is zero, no result otherwise (C10_rational_elevate_any); positive weights always succeed. False for weights of mixed sign in general: C10_rational_zero_refuted."
  },
  {
   "property": "C11",
   "status": "proved",
   "theorems": [
    "NS.Props.C11_bspline",
    "NS.Props.C11_bspline_periodic",
    "NS.Props.C11_unwrap",
    "NS.Props.C11_bezier",
    "NS.Props.C11_bezier_periodic"
   ],
   "note": "Bezier and B-spline curves and the shared parameter folding."
  },
  {
   "property": "C12",
   "status": "partial",
   "theorems": [
    "NS.Props.C12_locate_partial",
    "NS.Props.C12_locate_in_range",
    "NS.Props.C12_degenerate_start_refuted"
   ],
   "note": "Range and termination proved for every well-formed spline. Bracketing fails at the lower bound when the first span is empty: C12_degenerate_start_refuted."
  },
  {
   "property": "C13",
   "status": "partial",
   "theorems": [
    "NS.Props.C13_evaluate_partial",
    "NS.Props.C13_evaluate_periodic_partial",
    "NS.Props.C13_evaluate_start_partial",
    "NS.Props.C13_degenerate_start_refuted",
    "NS.Props.C13_narrow_span_refuted"
   ],
   "note": "Proved on the whole domain for splines with a non-empty first span (or above the lower bound, or at it with multiplicity at most p) and spans longer than 1e-16. False of the code otherwise: C13_degenerate_start_refuted, C13_narrow_span_refuted."
  },
  {
   "property": "C14",
   "status": "proved",
   "theorems": [
    "NS.Props.C14_local_control",
    "NS.Props.C14_basis",
    "NS.Props.C14_convex_hull"
   ],
   "note": "Evaluation parts use the hypotheses of C13."
  },
  {
   "property": "C15",
   "status": "partial",
   "theorems": [
    "NS.Props.C15_derivative_partial",
    "NS.Props.C15_evaluators_return",
    "NS.Props.C15_periodic_partial"
   ],
   "note": "Periodic and non-periodic splines, under the hypotheses of C13 (first span not empty, no span below 1e-16); without them evaluate itself is not the spline: C13_degenerate_start_refuted, C13_narrow_span_refuted. At knots the derivative is the right derivative; where the multiplicity allows it is two-sided (C93_derivatives)."
  },
  {
   "property": "C16",
   "status": "proved",
   "theorems": [
    "NS.Props.C16_hodograph",
    "NS.Props.C16_hodograph_periodic",
    "NS.Props.C16_hodograph_degree0"
   ],
   "note": "Evaluation with the hypotheses of C13; degree 0 and periodic curves included."
  },
  {
   "property": "C17",
   "status": "partial",
   "theorems": [
    "NS.Props.C17_insert_knot_partial",
    "NS.Props.C17_bound",
    "NS.Props.C17_sequence_partial",
    "NS.Props.C17_evaluate",
    "NS.Props.C17_lower_bound_refuted",
    "NS.Props.C17_outside_refuted",
    "NS.Props.C17_window_refuted"
   ],
   "note": "Proved for single insertions on the domain and for arbitrary sequences above the lower bound. False of the code for repeated insertion at the lower bound (C17_lower_bound_refuted) and everywhere in the epsilon window outside (C17_outside_refuted, C17_window_refuted)."
  },
  {
   "property": "C18",
   "status": "partial",
   "theorems": [
    "NS.Props.C18_not_interior",
    "NS.Props.C18_bookkeeping_partial",
    "NS.Props.C18_deviation_partial",
    "NS.Props.C18_zero_tolerance_partial",
    "NS.Props.C18_inverse_partial",
    "NS.Props.C18_evaluate_partial",
    "NS.Props.C18_nurbs_inverse_partial",
    "NS.Props.C18_excess_refuted",
    "NS.Props.C18_excess_ub_refuted",
    "NS.Props.C18_domain_end_refuted"
   ],
   "note": "Proved for strictly interior knots requested at most as often as they occur; the default tolerance (negative argument) is the model parameter extent. Refuted: more copies than present remove other knots or read outside the polygon; knots inserted at the domain ends of unclamped splines are not removed."
  },
  {
   "property": "C19",
   "status": "partial",
   "theorems": [
    "NS.Props.C19_split_partial",
    "NS.Props.C19_split_evaluate_partial",
    "NS.Props.C19_split_ends",
    "NS.Props.C19_degree0_refuted",
    "NS.Props.C19_window_refuted"
   ],
   "note": "Proved for positive degree; degree 0 is wrong in the code (C19_degree0_refuted), and parameters within the tolerance above the domain give parts with reversed domains (C19_window_refuted)."
  },
  {
   "property": "C20",
   "status": "partial",
   "theorems": [
    "NS.Props.C20_toBezier_partial",
    "NS.Props.C20_toBezier_evaluate_partial",
    "NS.Props.C20_degenerate_start_refuted"
   ],
   "note": "Proved for every degree and knot vector whose first span is non-empty or whose first knot already has multiplicity p. False of the code otherwise: C20_degenerate_start_refuted."
  },
  {
   "property": "C21",
   "status": "proved",
   "theorems": [
    "NS.Props.C21_ofBezier",
    "NS.Props.C21_periodic_lost"
   ],
   "note": "Non-periodic Bezier curves; the flag is not copied."
  },
  {
   "property": "C22",
   "status": "partial",
   "theorems": [
    "NS.Props.C22_combine_partial",
    "NS.Props.C22_empty",
    "NS.Props.C22_accepts",
    "NS.Props.C22_uniform_partial",
    "NS.Props.C22_exact_refuted",
    "NS.Props.C22_degree_zero_refuted",
    "NS.Props.C22_rational_weights_refuted"
   ],
   "note": "Combining succeeds for pieces of degree >= 1 that join up to epsilon over bounds more than 1e-16 apart, and the result is within r*eps + gap of each piece, r the number of dropped knots; inputs that do not fit are never combined; empty list throws. The stated equality is refuted (a corner below epsilon is straightened), degree 0 ends in an assertion, rational pieces need equal joint weights."
  },
  {
   "property": "C23",
   "status": "proved",
   "theorems": [
    "NS.Props.C23_rational_bezier",
    "NS.Props.C23_nurbs",
    "NS.Props.C23_get_after_set",
    "NS.Props.C23_nurbs_get_after_set"
   ],
   "note": "Induction over any sequence of setters after initialize()."
  },
  {
   "property": "C24",
   "status": "proved",
   "theorems": [
    "NS.Props.C24_rational_bezier",
    "NS.Props.C24_rational_bezier_scale",
    "NS.Props.C24_rational_bezier_equal",
    "NS.Props.C24_rational_bezier_positive",
    "NS.Props.C24_nurbs",
    "NS.Props.C24_nurbs_scale",
    "NS.Props.C24_nurbs_equal",
    "NS.Props.C24_nurbs_positive"
   ],
   "note": "Rational Bezier at every parameter; NURBS on the domain (all parameters if periodic) under the hypotheses of C13. A vanishing denominator is modelled as undefined."
  },
  {
   "property": "C25",
   "status": "partial",
   "theorems": [
    "NS.Props.C25_rational_bezier_periodic",
    "NS.Props.C25_nurbs_periodic_partial",
    "NS.Props.C25_rational_bezier",
    "NS.Props.C25_nurbs_partial"
   ],
   "note": "Rational Bezier complete, periodic or not. NURBS, periodic or not: two-sided derivatives off the knots, right derivatives at knots (two-sided where the multiplicity allows: C93_nurbs_derivatives), left at the end of a non-periodic domain; first span non-degenerate, no span below 1e-16."
  },
  {
   "property": "C26",
   "status": "partial",
   "theorems": [
    "NS.Props.C26_bezier",
    "NS.Props.C26_rational_bezier",
    "NS.Props.C26_bspline",
    "NS.Props.C26_nurbs",
    "NS.Props.C26_periodic_refuted"
   ],
   "note": "Proved for non-periodic curves; conversions drop the periodic flag: C26_periodic_refuted."
  },
  {
   "property": "C27",
   "status": "partial",
   "theorems": [
    "NS.Props.C27_rational_bezier",
    "NS.Props.C27_only_reason",
    "NS.Props.C27_stale_sizes",
    "NS.Props.C27_consistent_accepted",
    "NS.Props.C27_nurbs",
    "NS.Props.C27_stale_knots_refuted"
   ],
   "note": "Sizes and flags: complete for RationalBezier (both directions). NURBS::evaluate does not notice replaced knots: C27_stale_knots_refuted."
  },
  {
   "property": "C28",
   "status": "proved",
   "theorems": [
    "NS.Props.C28_evaluate",
    "NS.Props.C28_iso_order",
    "NS.Props.C28_iso_curves",
    "NS.Props.C28_corners",
    "NS.Props.C28_convex_hull",
    "NS.Props.C28_init_mismatch"
   ],
   "note": "Every degree pair; parameters of periodic directions are folded into the domain. Iso-curves are modelled by the generic Bezier class."
  },
  {
   "property": "C29",
   "status": "proved",
   "theorems": [
    "NS.Props.C29_derivatives",
    "NS.Props.C29_derivative_patches"
   ],
   "note": "Every degree pair; in a periodic direction the seam is excepted."
  },
  {
   "property": "C30",
   "status": "partial",
   "theorems": [
    "NS.Props.C30_split_u_partial",
    "NS.Props.C30_split_v_partial",
    "NS.Props.C30_split_ends",
    "NS.Props.C30_split_partial",
    "NS.Props.C30_split_boundary",
    "NS.Props.C30_dynamic_refuted",
    "NS.Props.C30_subpatch_actual",
    "NS.Props.C30_subpatch_partial",
    "NS.Props.C30_subpatch_refuted"
   ],
   "note": "Proved for fixed-degree patches (split_u, split_v, split; subpatch when each range touches an end of the domain). False of the code for dynamic degrees (C30_dynamic_refuted) and for interior sub-ranges (C30_subpatch_refuted); C30_subpatch_actual says what is returned."
  },
  {
   "property": "C31",
   "status": "proved",
   "theorems": [
    "NS.Props.C31_init",
    "NS.Props.C31_evaluate",
    "NS.Props.C31_evaluate_domain",
    "NS.Props.C31_convex_hull",
    "NS.Props.C31_init_mismatch"
   ],
   "note": "Initialised patch evaluates to the tensor product Cox-de Boor sum at folded parameters, both iso-curve orders agree; hypotheses: no span below the 1e-16 guard of the curve evaluator, parameter in the domain and not the start of an empty first span (the exceptions are refuted under C12/C13)."
  },
  {
   "property": "C32",
   "status": "partial",
   "theorems": [
    "NS.Props.C32_set_control_point_refuted",
    "NS.Props.C32_stale_point_refuted",
    "NS.Props.C32_stale_knot_refuted",
    "NS.Props.C32_history",
    "NS.Props.C32_reinitialised_partial"
   ],
   "note": "False as stated: set_control_point never changes evaluate until initialize is called again (C32_set_control_point_refuted, C32_stale_point_refuted, C32_stale_knot_refuted). Proved: after any history of setters and initialize calls ending with initialize, evaluate is the sum over the last values written."
  },
  {
   "property": "C33",
   "status": "proved",
   "theorems": [
    "NS.Props.C33_bspline_set_get",
    "NS.Props.C33_bspline_history",
    "NS.Props.C33_bspline_rows",
    "NS.Props.C33_set_get",
    "NS.Props.C33_history",
    "NS.Props.C33_rows"
   ],
   "note": "Bezier and B-spline patches, all histories of in-range writes."
  },
  {
   "property": "C34",
   "status": "partial",
   "theorems": [
    "NS.C34_curve_in_range",
    "NS.C34_curve_returns",
    "NS.C34_curve_residual_partial",
    "NS.C34_curve_distance_refuted",
    "NS.PatchBase.C34_patch_in_box",
    "NS.PatchBase.C34_patch_returns",
    "NS.PatchBase.C34_patch_distance",
    "NS.PatchBase.C34_patch_inverse_in_box",
    "NS.PatchBase.C34_patch_step",
    "NS.PatchBase.C34_patch_indefinite"
   ],
   "note": "Range and totality proved for arbitrary curve and patch functions; the distance claim for curves is false (refuted), a residual statement is proved instead; distance statement for patches proved."
  },
  {
   "property": "C35",
   "status": "partial",
   "theorems": [
    "NS.C35_in_range",
    "NS.C35_returns",
    "NS.C35_closer_partial",
    "NS.C35_closer_refuted",
    "NS.PatchBase.C35_patch_closer"
   ],
   "note": "Range and totality proved for all levels; the start of the final refinement is at least as close as all first-round samples for even sample counts; the claim for the final result is refuted. Patch sampling proved for even counts."
  },
  {
   "property": "C36",
   "status": "proved",
   "theorems": [
    "NS.C36_line",
    "NS.C36_line_range",
    "NS.C36_bezier",
    "NS.C36_line_euclidean",
    "NS.Line.C36_line_domain",
    "NS.C36_line_derivatives"
   ],
   "note": "Line and degree-1 Bezier: unique minimiser over the domain, any positive definite dot product."
  },
  {
   "property": "C37",
   "status": "partial",
   "theorems": [
    "NS.Circle.C37_circle_implicit",
    "NS.Circle.C37_circle_derivatives",
    "NS.Circle.C37_circle_inverse_partial",
    "NS.Circle.C37_circle_inverse_refuted",
    "NS.Circle.C37_circle_periodic",
    "NS.Ellipse.C37_ellipse_implicit",
    "NS.Ellipse.C37_ellipse_derivatives"
   ],
   "note": "Implicit equations, derivatives and periodic flags proved for all circles and ellipses; the circle inverse is proved to be a closest point whenever the range does not start below -pi and refuted for the full range [-2pi, 0]."
  },
  {
   "property": "C38",
   "status": "partial",
   "theorems": [
    "NS.Plane.C38_plane_partial",
    "NS.Plane.C38_plane_refuted"
   ],
   "note": "Closest point and inversion proved for every orthogonal frame and box; refuted for every accepted frame that is not orthogonal."
  },
  {
   "property": "C39",
   "status": "proved",
   "theorems": [
    "NS.Plane.C39_plane_partials",
    "NS.Cylinder.C39_cylinder_partials",
    "NS.Cone.C39_cone_partials",
    "NS.Sphere.C39_sphere_partials",
    "NS.Torus.C39_torus_partials"
   ],
   "note": "All five partials of plane, cylinder, cone, sphere and torus, for all parameters and frames."
  },
  {
   "property": "C40",
   "status": "partial",
   "theorems": [
    "NS.Cylinder.C40_cylinder_implicit",
    "NS.Cylinder.C40_cylinder_inverse_partial",
    "NS.Cylinder.C40_cylinder_negative_radius_refuted",
    "NS.Cone.C40_cone_implicit",
    "NS.Cone.C40_cone_closest_partial",
    "NS.Cone.C40_cone_inverse_partial",
    "NS.Cone.C40_cone_apex_refuted",
    "NS.Sphere.C40_sphere_implicit",
    "NS.Sphere.C40_sphere_closest_partial",
    "NS.Sphere.C40_sphere_inverse_partial",
    "NS.Sphere.C40_sphere_pole_refuted",
    "NS.Torus.C40_torus_implicit",
    "NS.Torus.C40_torus_closest_partial",
    "NS.Torus.C40_torus_inverse_partial",
    "NS.Torus.C40_torus_crossing_refuted"
   ],
   "note": "Implicit equations proved for all parameters. Inversion proved for non-negative radii away from the region beyond apex, pole or axis, closest point for ranges that contain the azimuth of the query (any range for the cylinder); refuted for negative radii, beyond the apex, beyond a pole and for self-crossing tori."
  },
  {
   "property": "C41",
   "status": "proved",
   "theorems": [
    "NS.PatchBase.C41_clip"
   ],
   "note": "Range, congruence and nearest-end (circular distance)."
  },
  {
   "property": "C42",
   "status": "proved",
   "theorems": [
    "NS.Revolution.C42_revolution_no_profile",
    "NS.Revolution.C42_revolution_symmetry",
    "NS.Revolution.C42_revolution_partials"
   ],
   "note": "Symmetry, all five partials and the missing profile in full. Inverse evaluation is C80."
  },
  {
   "property": "C43",
   "status": "partial",
   "theorems": [
    "NS.Extrusion.C43_extrusion_no_profile",
    "NS.Extrusion.C43_extrusion_in_box",
    "NS.Extrusion.C43_extrusion_found_partial",
    "NS.Extrusion.C43_extrusion_closest_partial",
    "NS.Extrusion.C43_extrusion_location_refuted",
    "NS.Extrusion.C43_extrusion_partials",
    "NS.Extrusion.C43_extrusion_concrete_refuted"
   ],
   "note": "Derivatives, range and missing profile in full. The inverse is right for location zero; C43_extrusion_location_refuted shows it ignores the location otherwise."
  },
  {
   "property": "C44",
   "status": "proved",
   "theorems": [
    "NS.Offset.C44_offset_second_derivatives",
    "NS.Offset.C44_offset_no_base",
    "NS.Offset.C44_offset_distance",
    "NS.Offset.C44_offset_first_derivatives",
    "NS.Offset.C44_offset_singular",
    "NS.Offset.C44_offset_in_box"
   ],
   "note": "Distance, direction and first derivatives at regular points, for every base patch with true partials; zero derivative vectors at singular points."
  },
  {
   "property": "C45",
   "status": "proved",
   "theorems": [
    "NS.Quadrature.C45_gauss2",
    "NS.Quadrature.C45_gauss3",
    "NS.Quadrature.C45_gauss4",
    "NS.Quadrature.C45_gauss5",
    "NS.Quadrature.C45_other",
    "NS.Quadrature.C45_inside"
   ],
   "note": "Exact real arithmetic, every interval (also reversed), every polynomial up to degree 2N-1; other N throw; the integrand is evaluated only inside the interval."
  },
  {
   "property": "C46",
   "status": "partial",
   "theorems": [
    "NS.Roots.C46_in_interval",
    "NS.Roots.C46_infinite_root",
    "NS.Roots.C46_exact",
    "NS.Roots.C46_band",
    "NS.Roots.C46_eigen",
    "NS.Roots.C46_zero_tolerance_refuted"
   ],
   "note": "All degrees; degree 3 and above relative to an exact eigenvalue solver (Eigen is not modelled). False of the code for tolerance zero with a vanishing leading coefficient (C46_zero_tolerance_refuted)."
  },
  {
   "property": "C47",
   "status": "partial",
   "theorems": [
    "NS.C47_level0_partial",
    "NS.C47_constant_speed_refuted",
    "NS.C47_level1_refuted",
    "NS.C47_line_level0_partial",
    "NS.C47_patch_level0_partial",
    "NS.C47_patch_speed"
   ],
   "note": "Level 0 proved for affine speeds; every level above 0 is refuted for every positive constant speed (strictly too short)."
  },
  {
   "property": "C48",
   "status": "partial",
   "theorems": [
    "NS.C48_step_solves",
    "NS.C48_step_unique",
    "NS.C48_objective_derivatives",
    "NS.C48_curve_patch_flat",
    "NS.C48_curve_plane_line",
    "NS.C48_segment_flat",
    "NS.C48_curve_plane_descends",
    "NS.C48_curve_plane_farther_refuted",
    "NS.C48_curve_patch_descends",
    "NS.C48_segment_descends",
    "NS.C48_no_steps",
    "NS.C48_curve_plane",
    "NS.C48_curve_plane_start",
    "NS.C48_segment_partial",
    "NS.C48_segment_degenerate_refuted",
    "NS.C48_segment_start_refuted",
    "NS.C48_curve_patch"
   ],
   "note": "Curve-plane, non-degenerate segment-plane and curve-patch proved; degenerate segment and start of the segment search refuted."
  },
  {
   "property": "C49",
   "status": "partial",
   "theorems": [
    "NS.C49_whole_domain",
    "NS.C49_uniform_domain",
    "NS.C49_uniform_range_partial",
    "NS.C49_uniform_range_refuted",
    "NS.C49_adaptive",
    "NS.C49_adaptive_tolerance",
    "NS.C49_adaptive_terminates",
    "NS.C49_rejects"
   ],
   "note": "UNIFORM_DOMAIN and ADAPTIVE proved; UNIFORM_RANGE count and ends proved, its range refuted."
  },
  {
   "property": "C50",
   "status": "partial",
   "theorems": [
    "NS.C50_single_curve",
    "NS.C50_single_patch",
    "NS.C50_curves_partial",
    "NS.C50_curves_refuted",
    "NS.C50_patches_partial",
    "NS.C50_patches_refuted",
    "NS.C50_total"
   ],
   "note": "Valid for single curves and patches of any sample count and for lists of at most two; refuted for every list of three or more curves or patches (count accumulation)."
  },
  {
   "property": "C51",
   "status": "partial",
   "theorems": [
    "NS.C51_file_partial",
    "NS.C51_planar_file_partial",
    "NS.C51_curve_data_partial",
    "NS.C51_curve_evaluate_partial",
    "NS.C51_planar_curve",
    "NS.C51_curve_flag_refuted",
    "NS.C51_curve_evaluate_refuted",
    "NS.C51_patch_data_partial",
    "NS.C51_patch_evaluate_partial",
    "NS.C51_planar_patch",
    "NS.C51_patch_flag_refuted",
    "NS.C51_patch_evaluate_refuted"
   ],
   "note": "Data, class and (for non-periodic objects) evaluation survive the round trip for all four curve and patch classes, any sizes and static or dynamic degrees, also for planar objects, which are stored in three dimensions; refuted for the periodic flags, which are lost."
  },
  {
   "property": "C52",
   "status": "partial",
   "theorems": [
    "NS.C52_mesh_partial",
    "NS.C52_total",
    "NS.C52_save_partial",
    "NS.C52_min_node_refuted",
    "NS.C52_entities"
   ],
   "note": "All parts hold for every sequence except the header minimum node tag, refuted for two or more curves without patches."
  },
  {
   "property": "C53",
   "status": "proved",
   "theorems": [
    "NS.Props.C53_choose",
    "NS.Props.C53_multi_indices",
    "NS.Props.C53_size",
    "NS.Props.C53_count",
    "NS.Props.C53_control_points",
    "NS.Props.C53_degree_zero_refuted"
   ],
   "note": "All dimensions and degrees, any initial matrix content; arithmetic over naturals (no uint8/size_t wrap-around). The degree-0 control point is all zeros, recorded as C53_degree_zero_refuted."
  },
  {
   "property": "C54",
   "status": "proved",
   "theorems": [
    "NS.Props.C54_evaluate",
    "NS.Props.C54_total",
    "NS.Props.C54_partition_of_unity",
    "NS.Props.C54_constant",
    "NS.Props.C54_vertex",
    "NS.Props.C54_directional_derivative"
   ],
   "note": "All dimensions, degrees, ordinates, points and directions, exact arithmetic."
  },
  {
   "property": "C55",
   "status": "partial",
   "theorems": [
    "NS.Props.C55_elevate_homogeneous",
    "NS.Props.C55_elevate",
    "NS.Props.C55_fit_partial",
    "NS.Props.C55_fit_reproduces",
    "NS.Props.C55_fit_degree_zero_refuted"
   ],
   "note": "Elevation in full; fit interpolates (and reproduces) for every positive degree, including invertibility of the collocation matrix; refuted for degree 0, where the code divides 0 by 0."
  },
  {
   "property": "C56",
   "status": "partial",
   "theorems": [
    "NS.Props.C56_bezier_matrix",
    "NS.Props.C56_bezier_fit",
    "NS.Props.C56_bezier_fit_unique",
    "NS.Props.C56_bezier_deform",
    "NS.Props.C56_bspline_matrix",
    "NS.Props.C56_bspline_fit",
    "NS.Props.C56_bspline_deform",
    "NS.Props.C56_bspline_dynamic_refuted",
    "NS.Props.C56_bezier_patch_matrix",
    "NS.Props.C56_bezier_patch_fit",
    "NS.Props.C56_bezier_patch_deform",
    "NS.Props.C56_bspline_patch_matrix",
    "NS.Props.C56_bspline_patch_fit",
    "NS.Props.C56_bspline_patch_deform",
    "NS.Props.C56_bspline_patch_class",
    "NS.Props.C56_bspline_patch_dynamic_refuted"
   ],
   "note": "Proved for static degrees (matrix, fit and deform for curves and patches); the SVD solver is an oracle assumed to return a least-squares solution; with a dynamic degree the B-spline versions fail (refuted)."
  },
  {
   "property": "C57",
   "status": "partial",
   "theorems": [
    "NS.Features.C57_supported",
    "NS.Features.C57_inflection_polynomial",
    "NS.Features.C57_singularity_polynomial",
    "NS.Features.C57_tangent_polynomial",
    "NS.Features.C57_rational_inflection_polynomial",
    "NS.Features.C57_rational_singularity_polynomial",
    "NS.Features.C57_rational_tangent_partial",
    "NS.Features.C57_inflections",
    "NS.Features.C57_singularities",
    "NS.Features.C57_turning_angle",
    "NS.Features.C57_turning_angle_degenerate",
    "NS.Features.C57_always",
    "NS.Features.C57_negligible",
    "NS.Features.C57_fixed_degree",
    "NS.Features.C57_low_degree",
    "NS.Features.C57_rational_inflections",
    "NS.Features.C57_rational_singularities",
    "NS.Features.C57_fixed_turning_angle",
    "NS.Features.C57_rational_tangent_refuted",
    "NS.Features.C57_rational_turning_angle_partial",
    "NS.Features.C57_rational_turning_angle_degenerate"
   ],
   "note": "The generated inflection, singularity and tangent polynomials equal the defining ones for every supported degree, and the searches report every zero when the eigenvalue routine is exact and the polynomial is well posed. The rational tangent search ignores the weights: proved for equal weights, refuted for others."
  },
  {
   "property": "C58",
   "status": "proved",
   "theorems": [
    "NS.C58_orthogonal_magnitude",
    "NS.C58_reparametrise",
    "NS.C58_straight",
    "NS.C58_unit_tangent"
   ],
   "note": "Orthogonality, magnitude, affine reparametrisation, straight motion, and derivative of the unit tangent by arc length."
  },
  {
   "property": "C59",
   "status": "proved",
   "theorems": [
    "NS.Props.C59_bspline_closest",
    "NS.Props.C59_closest",
    "NS.Props.C59_in_range"
   ],
   "note": "big is the largest scalar: the code starts from it, so some control point must be closer than that."
  },
  {
   "property": "C60",
   "status": "proved",
   "theorems": [
    "NS.C60_is_closed"
   ],
   "note": ""
  },
  {
   "property": "C61",
   "status": "partial",
   "theorems": [
    "NS.Line.C61_line_clone_partial",
    "NS.Line.C61_line_clone_refuted",
    "NS.Extrusion.C61_extrusion_clone",
    "NS.Circle.C61_circle_clone",
    "NS.Ellipse.C61_ellipse_clone",
    "NS.Revolution.C61_revolution_clone",
    "NS.Offset.C61_offset_clone_partial",
    "NS.Offset.C61_offset_clone_refuted"
   ],
   "note": "Circle, Ellipse, ExtrusionPatch, RevolutionPatch in full; false of the code for periodic lines and for re-initialised offset patches (refuted). Classes cloned by copy construction copy every member."
  },
  {
   "property": "C62",
   "status": "partial",
   "theorems": [
    "NS.Props.C62_rational_bezier_split_any",
    "NS.Props.C62_insert_knot_any_partial",
    "NS.Props.C62_split_any_partial",
    "NS.Props.C62_to_rational_bezier_any_partial",
    "NS.Props.C62_rational_bezier_split",
    "NS.Props.C62_insert_knot_partial",
    "NS.Props.C62_split_partial",
    "NS.Props.C62_to_rational_bezier_partial",
    "NS.Props.C62_zero_refuted"
   ],
   "note": "Positive weights, under the hypotheses of C17/C19/C20. With weights of any sign either a new weight is zero and nothing is returned, or the result is exact (C62_*_any_partial). A zero weight may appear for mixed signs: C62_zero_refuted."
  },
  {
   "property": "C63",
   "status": "partial",
   "theorems": [
    "NS.Props.C63_nurbs_init",
    "NS.Props.C63_nurbs_reinit",
    "NS.Props.C63_nurbs_evaluate",
    "NS.Props.C63_nurbs_positive",
    "NS.Props.C63_nurbs_stale_refuted",
    "NS.Props.C63_nurbs_narrow_refuted",
    "NS.Props.C63_nurbs_split_u_partial",
    "NS.Props.C63_nurbs_split_v_partial",
    "NS.Props.C63_nurbs_split_partial",
    "NS.Props.C63_nurbs_subpatch_partial",
    "NS.Props.C63_nurbs_derivatives_partial",
    "NS.Props.C63_nurbs_mixed_partial",
    "NS.Props.C63_nurbs_history",
    "NS.Props.C63_nurbs_init_after_setters",
    "NS.Props.C63_nurbs_derivatives_any_partial",
    "NS.Props.C63_nurbs_mixed_any_partial",
    "NS.Props.C63_bezier_split_u_any_partial",
    "NS.Props.C63_bezier_split_v_any_partial",
    "NS.Props.C63_bezier_split_any_partial",
    "NS.Props.C63_bezier_subpatch_actual",
    "NS.Props.C63_bezier_subpatch_partial",
    "NS.Props.C63_nurbs_split_u_any_partial",
    "NS.Props.C63_nurbs_split_v_any_partial",
    "NS.Props.C63_nurbs_split_any_partial",
    "NS.Props.C63_nurbs_subpatch_any_partial",
    "NS.Props.C63_bezier_iso",
    "NS.Props.C63_bezier_iso_positive",
    "NS.Props.C63_nurbs_iso",
    "NS.Props.C63_bezier_evaluate",
    "NS.Props.C63_bezier_positive",
    "NS.Props.C63_bezier_set_control_point",
    "NS.Props.C63_bezier_set_weight",
    "NS.Props.C63_bezier_history",
    "NS.Props.C63_bezier_split_u_partial",
    "NS.Props.C63_bezier_split_v_partial",
    "NS.Props.C63_dynamic_refuted",
    "NS.Props.C63_bezier_derivatives",
    "NS.Props.C63_negative_weight_refuted"
   ],
   "note": "Rational Bezier patches: evaluation, positivity, setters over any edit history, derivatives, splits into two and four and subpatch for fixed degrees; NURBS patches, periodic or not: initialisation, evaluation, positivity, derivatives and mixed derivative; splits and subpatch. Splits hold for positive weights, and for weights of any sign unless a new weight is zero. Refuted: spans not longer than 1e-16 (C63_nurbs_narrow_refuted), dynamic-degree splits, negative weights in second derivatives, stale caches after NURBS setters."
  },
  {
   "property": "C64",
   "status": "partial",
   "theorems": [
    "NS.Props.C64_u_partial",
    "NS.Props.C64_v_partial",
    "NS.Props.C64_evaluators_return",
    "NS.Props.C64_uv_partial",
    "NS.Props.C64_uv_returns",
    "NS.Props.C64_uv_degree0",
    "NS.Props.C64_u_any_partial",
    "NS.Props.C64_v_any_partial",
    "NS.Props.C64_uv_any_partial"
   ],
   "note": "One-sided derivatives at knots (two-sided where the multiplicity allows: C93_patch_u, C93_patch_v), two-sided elsewhere; patches periodic or not in either direction, with non-empty first spans wide enough for the evaluator. The mixed derivative does not depend on the value of quotients by an empty support."
  },
  {
   "property": "C65",
   "status": "partial",
   "theorems": [
    "NS.Props.C65_split_u_partial",
    "NS.Props.C65_split_v_partial",
    "NS.Props.C65_split_partial",
    "NS.Props.C65_subpatch_partial",
    "NS.Props.C65_subpatch_point_refuted",
    "NS.Props.C65_split_ends",
    "NS.Props.C65_out_of_domain",
    "NS.Props.C65_split_v_ends",
    "NS.Props.C65_out_of_domain_all",
    "NS.Props.C65_window_refuted"
   ],
   "note": "Positive degrees; left part at the split parameter needs multiplicity at most the degree. Zero-width interior subpatch returns the whole upper part (C65_subpatch_point_refuted). Parameters beyond the tolerance throw in all four functions; within it they are accepted and give parts with reversed domains (C65_window_refuted)."
  },
  {
   "property": "C66",
   "status": "proved",
   "theorems": [
    "NS.Props.C66_preimage_identity",
    "NS.Props.C66_preimage_sorted"
   ],
   "note": "Linear precision of the Greville abscissae for positive degrees (degree 0 divides zero by zero)."
  },
  {
   "property": "C67",
   "status": "partial",
   "theorems": [
    "NS.Ellipse.C67_ellipse_range",
    "NS.Ellipse.C67_ellipse_defined",
    "NS.Ellipse.C67_ellipse_reflection_partial",
    "NS.Ellipse.C67_ellipse_inverse_refuted",
    "NS.Ellipse.C67_ellipse_rest_partial",
    "NS.Ellipse.C67_ellipse_foot_closest",
    "NS.Ellipse.C67_ellipse_residual",
    "NS.Ellipse.C67_ellipse_step_error",
    "NS.Ellipse.C67_ellipse_closest_partial",
    "NS.Ellipse.C67_ellipse_circle"
   ],
   "note": "Range and definedness proved for all inputs; reflection symmetry proved; equal radii solved exactly; in general the answer is closest up to an error proportional to the tolerance unless all 100 steps are used (number of steps and the neighbourhood of the ends of the major axis open); inversion refuted for ranges below 0."
  },
  {
   "property": "C68",
   "status": "partial",
   "theorems": [
    "NS.Extrusion.C68_extrusion_periodic",
    "NS.Revolution.C68_revolution_periodic",
    "NS.Cylinder.C68_cylinder_periodic",
    "NS.Cone.C68_cone_periodic",
    "NS.Torus.C68_torus_periodic",
    "NS.Sphere.C68_sphere_periodic_partial",
    "NS.Sphere.C68_sphere_periodic_refuted"
   ],
   "note": "Cylinder, cone, torus, revolution and extrusion in full. False of the code for the v direction of a sphere (C68_sphere_periodic_refuted) and for re-initialised offset patches (C61_offset_clone_refuted)."
  },
  {
   "property": "C69",
   "status": "partial",
   "theorems": [
    "NS.C69_samples_partial",
    "NS.C69_end_refuted",
    "NS.C69_domain_refuted"
   ],
   "note": "Samples are points of the curve at i/100 on [0,1); refuted: the end point is missed and the domain is ignored."
  },
  {
   "property": "C70",
   "status": "proved",
   "theorems": [
    "NS.C70_curve_samples",
    "NS.C70_patch_samples"
   ],
   "note": ""
  },
  {
   "property": "C71",
   "status": "partial",
   "theorems": [
    "NS.C71_views_partial",
    "NS.C71_views_refuted"
   ],
   "note": "Holds for files with at least one curve; refuted for files without curves and at least two patches."
  },
  {
   "property": "C72",
   "status": "partial",
   "theorems": [
    "NS.Features.C72_pieces",
    "NS.Features.C72_in_range",
    "NS.Features.C72_complete_partial",
    "NS.Features.C72_bspline_singularities_partial",
    "NS.Features.C72_bspline_inflections_partial",
    "NS.Features.C72_nurbs_singularities_partial",
    "NS.Features.C72_nurbs_inflections_partial",
    "NS.Features.C72_bspline_turning_angle_partial",
    "NS.Features.C72_nurbs_turning_angle_partial",
    "NS.Features.C72_inner_knot_refuted"
   ],
   "note": "Proved for intervals whose ends are not inner knots and pieces with well posed polynomials (inflections, singularities and turning angle, for B-spline and NURBS curves; the NURBS turning angle with equal weights, see C57); an interval starting at an inner knot is refuted for every cubic spline."
  },
  {
   "property": "C73",
   "status": "partial",
   "theorems": [
    "NS.Props.C73_elevate_partial",
    "NS.Props.C73_degree_zero",
    "NS.Props.C73_nurbs_partial",
    "NS.Props.C73_discontinuous_refuted",
    "NS.Props.C73_exact_refuted"
   ],
   "note": "Proved up to r*eps with r the number of dropped knots, for continuous splines with a non-empty first span and spans wider than 1e-16; equality and discontinuous splines are refuted; NURBS in homogeneous coordinates."
  },
  {
   "property": "C74",
   "status": "partial",
   "theorems": [
    "NS.SpanSearch.C74_samples_partial",
    "NS.SpanSearch.C74_knots_partial",
    "NS.SpanSearch.C74_in_range",
    "NS.SpanSearch.C74_returns",
    "NS.SpanSearch.C74_periodic_partial",
    "NS.SpanSearch.C74_periodic_refuted",
    "NS.SpanSearch.C74_empty_range_refuted"
   ],
   "note": "Non-periodic curves: the Newton run starts at a parameter of the range at least as close as every sample of every span (and every knot), any evaluator and recursion level. Range and totality hold for periodic curves too. Refuted for periodic curves (only the samples of the whole range are taken because the span of the start is skipped) and for an empty range (parameter 0 is returned)."
  },
  {
   "property": "C75",
   "status": "partial",
   "theorems": [
    "NS.PrimitiveFeatures.C75_ellipse_partial",
    "NS.PrimitiveFeatures.C75_ellipse_refuted",
    "NS.Turning.C75_unique",
    "NS.Turning.C75_bezier_partial",
    "NS.Turning.C75_bezier_modulo",
    "NS.Turning.C75_polygon_refuted",
    "NS.Turning.C75_quadratic",
    "NS.Turning.C75_degree1",
    "NS.Turning.C75_line",
    "NS.Turning.C75_cubic_partial",
    "NS.Turning.C75_cubic_actual",
    "NS.Turning.C75_cubic_refuted",
    "NS.Turning.C75_curve_partial",
    "NS.Turning.C75_rational_partial",
    "NS.Turning.C75_nurbs_partial",
    "NS.Turning.C75_circle_partial",
    "NS.Turning.C75_circle_refuted",
    "NS.Turning.C75_bspline_partial",
    "NS.Turning.C75_bspline_quadratic_partial",
    "NS.Turning.C75_bspline_cubic_partial",
    "NS.Turning.C75_bspline_cubic_start_refuted",
    "NS.Turning.C75_bspline_cubic_end_refuted"
   ],
   "note": "Exact for quadratic Bezier curves and B-splines, lines, positively oriented circles, ellipse arcs shorter than half a turn, and for polygons inside a half plane of any degree (pieces of B-splines likewise); equal modulo full turns for all proper polygons. Refuted: polygons outside half planes, inner ranges of the cubic class, cubic B-spline ranges that start or end at an inner knot, clockwise circle frames, full ellipses."
  },
  {
   "property": "C76",
   "status": "partial",
   "theorems": [
    "NS.Props.C76_bezier_in_box",
    "NS.Props.C76_rational_bezier_in_box",
    "NS.Props.C76_bspline_in_box",
    "NS.Props.C76_nurbs_in_box",
    "NS.Props.C76_regular_bicubic_converges",
    "NS.Props.C76_bezier_total",
    "NS.Props.C76_rational_bezier_total",
    "NS.Props.C76_interior_refuted",
    "NS.Props.C76_corner_refuted",
    "NS.Props.C76_dynamic_refuted",
    "NS.Props.C76_uniform_refuted",
    "NS.Props.C76_bspline_total",
    "NS.Props.C76_nurbs_total"
   ],
   "note": "Containment in the box: all four classes, any query, level and (for Bezier classes) any patch. Totality: degrees at least 3, no periodic direction, fixed degrees for Bezier classes, positive weights for rational ones. Convergence: proved with rate (2/3)^level for bicubic Bezier patches with a regular control grid. Refuted in general: degree 4 (inner ranges of subpatch), dynamic degrees (ub), control nets far from the patch, uniform knots."
  },
  {
   "property": "C77",
   "status": "partial",
   "theorems": [
    "NS.C77_stops",
    "NS.C77_constant_speed_partial",
    "NS.C77_increasing_speed_partial",
    "NS.C77_constant_speed_refuted",
    "NS.C77_flat_patch_refuted"
   ],
   "note": "Refuted with the library's own arc_length (C47): on every curve of constant speed on [0,1], and every flat patch, the returned parameter overshoots by half a percent or more (C77_constant_speed_refuted, C77_flat_patch_refuted), leaving the domain for the whole length. C77_stops holds for every curve. With exact lengths the iteration is right: C77_constant_speed_partial, C77_increasing_speed_partial."
  },
  {
   "property": "C78",
   "status": "partial",
   "theorems": [
    "NS.Props.C78_path",
    "NS.Props.C78_save",
    "NS.Props.C78_save_list",
    "NS.Props.C78_point_refuted",
    "NS.Props.C78_bezier",
    "NS.Props.C78_bspline",
    "NS.Props.C78_rational_bezier",
    "NS.Props.C78_nurbs",
    "NS.Props.C78_negative_weight_refuted"
   ],
   "note": "Holds for Bezier curves, B-splines and rational curves with positive weights having two different control points (C78_save, C78_save_list with C78_bezier, C78_bspline, C78_rational_bezier, C78_nurbs; C78_path for every curve). Refuted when all control points coincide (division by zero) and for weights of mixed sign."
  },
  {
   "property": "C79",
   "status": "partial",
   "theorems": [
    "NS.Props.C79_path_partial",
    "NS.Props.C79_program_refuted"
   ],
   "note": "Refuted for every curve and all arguments (C79_program_refuted): the misspelt operator stoke is an error, nothing is stroked and no arc is written. C79_path_partial: the part before it builds the right path."
  },
  {
   "property": "C80",
   "status": "partial",
   "theorems": [
    "NS.Revolution.C80_revolution_inverse_partial",
    "NS.Revolution.C80_revolution_in_box",
    "NS.Revolution.C80_across_axis_refuted"
   ],
   "note": "Proved for profiles in a half plane bounded by the axis (C80_revolution_inverse_partial) and, for the range, for every result (C80_revolution_in_box). Refuted for profiles across the axis: C80_across_axis_refuted."
  },
  {
   "property": "C81",
   "status": "partial",
   "theorems": [
    "NS.Fl.C81_bezier_ends",
    "NS.Fl.C81_bspline_ends",
    "NS.Fl.C81_patch_corners",
    "NS.Fl.C81_bspline_patch_corners",
    "NS.Fl.C81_rational_first_partial",
    "NS.Fl.C81_rational_first_refuted"
   ],
   "note": "Proved for Bezier curves, clamped B-splines, Bezier patches and clamped B-spline patches. Rational curves: up to two roundings, bit by bit when coordinate times weight is representable (C81_rational_first_partial); refuted otherwise (C81_rational_first_refuted)."
  },
  {
   "property": "C82",
   "status": "proved",
   "theorems": [
    "NS.Fl.C82_exact_arithmetic",
    "NS.Fl.C82_exact_arithmetic_bspline",
    "NS.Fl.C82_bezier_error",
    "NS.Fl.C82_fixed_degree",
    "NS.Fl.C82_bezier_derivative_error",
    "NS.Fl.C82_bspline_error",
    "NS.Fl.C82_patch_error",
    "NS.Fl.C82_rational_error"
   ],
   "note": "Any rounding and contraction. Exponent range unlimited (no overflow or underflow)."
  },
  {
   "property": "C83",
   "status": "partial",
   "theorems": [
    "NS.Fl.C83_bezier_patch_wrap",
    "NS.Fl.C83_bspline_patch_wrap",
    "NS.Fl.C83_rational_patch_wrap",
    "NS.Fl.C83_nurbs_patch_wrap",
    "NS.Fl.C83_nurbs_wrap",
    "NS.Fl.C83_bezier_patch_periodic",
    "NS.Fl.C83_bspline_patch_periodic_zero",
    "NS.Fl.C83_bezier_periodic",
    "NS.Fl.C83_bspline_periodic_zero",
    "NS.Fl.C83_bspline_periodic_partial",
    "NS.Fl.C83_below_refuted"
   ],
   "note": "Proved for Bezier curves and patches, for splines and patches whose domain starts at zero, for rational curves and patches through their homogeneous form, and for parameters from the start of any domain on (C83_bspline_periodic_partial). Refuted before the domain: C83_below_refuted."
  },
  {
   "property": "C84",
   "status": "partial",
   "theorems": [
    "NS.Fl.C84_bezier_sign",
    "NS.Fl.C84_bezier_range",
    "NS.Fl.C84_bspline_sign",
    "NS.Fl.C84_hull_refuted"
   ],
   "note": "Signs and the range up to the rounding error are proved; the exact range is refuted (C84_hull_refuted)."
  },
  {
   "property": "C85",
   "status": "partial",
   "theorems": [
    "NS.Fl.C85_bspline_split",
    "NS.Fl.C85_split",
    "NS.Fl.C85_join_partial",
    "NS.Fl.C85_join_refuted"
   ],
   "note": "End points, common join, evaluation of the pieces at the join and error bounds are proved for every contraction, for Bezier curves and B-splines; equality of the join with evaluate of the whole Bezier curve holds without contraction (C85_join_partial) and is refuted with it (C85_join_refuted)."
  },
  {
   "property": "C86",
   "status": "partial",
   "theorems": [
    "NS.Fl.C86_sample_partial",
    "NS.Fl.C86_sample_unit",
    "NS.Fl.C86_curve_search_partial",
    "NS.Fl.C86_curve_search_unit",
    "NS.Fl.C86_patch_search",
    "NS.Fl.C86_exact_arithmetic",
    "NS.Fl.C86_sample_refuted",
    "NS.Fl.C86_curve_search_refuted"
   ],
   "note": "Patches: proved. Curves: proved on the unit interval and up to a few roundings otherwise (C86_curve_search_partial); sample likewise. Refuted for other ranges: C86_sample_refuted, C86_curve_search_refuted."
  },
  {
   "property": "C87",
   "status": "partial",
   "theorems": [
    "NS.Fl.C87_clip_partial",
    "NS.Fl.C87_clip_azimuth",
    "NS.Fl.C87_exact_arithmetic",
    "NS.Fl.C87_clip_refuted"
   ],
   "note": "Proved for parameters at most one period below the range, which covers angles and ranges starting in [-pi, pi]; refuted further below (C87_clip_refuted)."
  },
  {
   "property": "C88",
   "status": "proved",
   "theorems": [
    "NS.Fl.C88_bspline_derivative_error",
    "NS.Fl.C88_nurbs_error",
    "NS.Fl.C88_bspline_patch_error",
    "NS.Fl.C88_rational_patch_error",
    "NS.Fl.C88_nurbs_patch_error",
    "NS.Fl.C88_bspline_patch_derivative_u",
    "NS.Fl.C88_bspline_patch_derivative_v",
    "NS.Fl.C88_exact_arithmetic_patch",
    "NS.Fl.C88_exact_arithmetic_derivative",
    "NS.Fl.C88_exact_arithmetic_patch_derivatives",
    "NS.Fl.C88_exact_arithmetic_nurbs",
    "NS.Fl.C88_nurbs_derivative_error",
    "NS.Fl.C88_rational_derivative_error",
    "NS.Fl.C88_exact_arithmetic_rational_derivative",
    "NS.Fl.C88_exact_arithmetic_nurbs_derivative"
   ],
   "note": "Non-periodic objects, first span not empty or parameter above the lower bound, spans not below the rounded 1e-16; includes the first derivatives of B-spline, rational Bézier and NURBS curves and the partial derivatives of B-spline patches. Second derivatives are in C113, derivatives of Bézier and rational Bézier patches in C114. Exponent range unlimited (no overflow or underflow)."
  },
  {
   "property": "C89",
   "status": "partial",
   "theorems": [
    "NS.Props.C89_choose_partial",
    "NS.Props.C89_choose_62",
    "NS.Props.C89_choose_refuted",
    "NS.Props.C89_sizes",
    "NS.Props.C89_low_degree",
    "NS.Props.C89_multi_indices",
    "NS.Props.C89_control_points",
    "NS.Props.C89_degree_255_refuted",
    "NS.Props.C89_factorials",
    "NS.Props.C89_evaluate_partial",
    "NS.Props.C89_evaluate_form",
    "NS.Props.C89_high_degree_refuted",
    "NS.Props.C89_line_refuted",
    "NS.Props.C89_elevate_partial",
    "NS.Props.C89_elevate_same",
    "NS.Props.C89_elevate_refuted"
   ],
   "note": "Proved for all dimensions and degrees with sum at most 62 (more generally while the binomial times the smaller of both fits 64 bits); evaluation up to degree 12. Refuted beyond: degree 13 and more (C89_high_degree_refuted, C89_line_refuted), choose(63, 31) (C89_choose_refuted), degree 255 (C89_degree_255_refuted)."
  },
  {
   "property": "C90",
   "status": "partial",
   "theorems": [
    "NS.Props.C90_positive_partial",
    "NS.Props.C90_positive_refuted",
    "NS.Props.C90_angle",
    "NS.Props.C90_save_partial",
    "NS.Props.C90_save_refuted"
   ],
   "note": "Positivity characterised exactly, spacing proved; refuted for sweeps of curves without control points (and offsets of them), where the sampled save divides by zero."
  },
  {
   "property": "C91",
   "status": "proved",
   "theorems": [
    "NS.Props.C91_bezier",
    "NS.Props.C91_bezier_degree",
    "NS.Props.C91_bspline",
    "NS.Props.C91_bspline_all",
    "NS.Props.C91_bspline_iff",
    "NS.Props.C91_seen_iff",
    "NS.Props.C91_rational",
    "NS.Props.C91_bezier_patch",
    "NS.Props.C91_bspline_patch",
    "NS.Props.C91_zero_weight_refuted"
   ],
   "note": "Bezier curves of any degrees, B-splines with exactly the visible control points, rational curves with non-zero weights, patches; a zero weight hides its control point (C91_zero_weight_refuted)."
  },
  {
   "property": "C92",
   "status": "proved",
   "theorems": [
    "NS.Props.C92_subcurve_subcurve",
    "NS.Props.C92_subcurve_full",
    "NS.Props.C92_split_subcurve",
    "NS.Props.C92_elevate_subcurve",
    "NS.Props.C92_elevate_split",
    "NS.Props.C92_split_order",
    "NS.Props.C92_insertion_order",
    "NS.Props.C92_insertion_order_eq",
    "NS.Props.C92_toBezier_congr",
    "NS.Props.C92_insert_toBezier",
    "NS.Props.C92_ofBezier_toBezier",
    "NS.Props.C92_bspline_split_order",
    "NS.Props.C92_bspline_split_order_eq"
   ],
   "note": "Exact scalars; equality of control points, not only of values. The order of B-spline splits gives equal objects for clamped knots (C92_bspline_split_order_eq) and parts with the same relevant knots and points in general (C92_bspline_split_order)."
  },
  {
   "property": "C93",
   "status": "proved",
   "theorems": [
    "NS.Props.C93_join",
    "NS.Props.C93_contDiff",
    "NS.Props.C93_continuous",
    "NS.Props.C93_derivatives",
    "NS.Props.C93_nurbs",
    "NS.Props.C93_nurbs_derivatives",
    "NS.Props.C93_corner_refuted",
    "NS.Props.C93_jump_refuted",
    "NS.Props.C93_patch",
    "NS.Props.C93_patch_u",
    "NS.Props.C93_patch_v",
    "NS.Props.C93_nurbs_patch",
    "NS.Props.C93_nurbs_patch_derivatives"
   ],
   "note": "Exact real scalars, non-periodic curves and patches with a non-empty first span; knots closer than 1e-16 excluded as in C13. The witnesses C93_corner_refuted and C93_jump_refuted show that the order cannot be raised."
  },
  {
   "property": "C94",
   "status": "partial",
   "theorems": [
    "NS.Props.C94_affine",
    "NS.Props.C94_reverse",
    "NS.Props.C94_reverse_knot",
    "NS.Props.C94_nurbs_affine",
    "NS.Props.C94_nurbs_reverse",
    "NS.Props.C94_bezier",
    "NS.Props.C94_rational",
    "NS.Props.C94_bezier_patch",
    "NS.Props.C94_bezier_transpose",
    "NS.Props.C94_bspline_transpose",
    "NS.Props.C94_narrow_refuted",
    "NS.Props.C94_jump_refuted",
    "NS.Props.C94_bspline_patch_affine",
    "NS.Props.C94_bspline_patch_reverse_u",
    "NS.Props.C94_bspline_patch_reverse_v",
    "NS.Props.C94_nurbs_patch_affine",
    "NS.Props.C94_nurbs_patch_reverse_u",
    "NS.Props.C94_nurbs_patch_reverse_v",
    "NS.Props.C94_rational_patch",
    "NS.Props.C94_rational_transpose",
    "NS.Props.C94_bspline_patch_derivatives",
    "NS.Props.C94_nurbs_patch_derivatives",
    "NS.Props.C94_bezier_derivatives",
    "NS.Props.C94_rational_derivatives",
    "NS.Props.C94_bezier_patch_derivatives",
    "NS.Props.C94_rational_patch_derivatives"
   ],
   "note": "Values and all derivative evaluators of curves and patches of every class. Proved for spans longer than 1e-16 before and after; shorter spans are treated as empty by the code (C94_narrow_refuted), and a knot of multiplicity p+1 belongs to its right piece (C94_jump_refuted). Derivatives of reversed Bezier and rational Bezier objects are over the real numbers."
  },
  {
   "property": "C95",
   "status": "proved",
   "theorems": [
    "NS.Props.C95_bspline",
    "NS.Props.C95_bezier",
    "NS.Props.C95_nurbs",
    "NS.Props.C95_rational",
    "NS.Props.C95_monotone",
    "NS.Props.C95_nurbs_monotone",
    "NS.Props.C95_bezier_monotone",
    "NS.Props.C95_rational_monotone",
    "NS.Props.C95_patch_monotone",
    "NS.Props.C95_sharp",
    "NS.Props.C95_negative_weight_refuted"
   ],
   "note": "Every parameter of the domain (half-open for periodic curves); negative weights refuted. For periodic curves the crossings are counted over one period, not cyclically."
  },
  {
   "property": "C96",
   "status": "proved",
   "theorems": [
    "NS.Props.C96_bspline_length",
    "NS.Props.C96_bspline_cone",
    "NS.Props.C96_bezier_length",
    "NS.Props.C96_bezier_cone",
    "NS.Props.C96_nurbs_length",
    "NS.Props.C96_nurbs_cone",
    "NS.Props.C96_rational_length",
    "NS.Props.C96_rational_cone",
    "NS.Props.C96_linear_precision",
    "NS.Props.C96_lipschitz",
    "NS.Props.C96_bezier_lipschitz",
    "NS.Props.C96_convex",
    "NS.Props.C96_bspline_variation",
    "NS.Props.C96_nurbs_variation",
    "NS.Props.C96_negative_weight_refuted"
   ],
   "note": "Curves with any number of inscribed points, over every ordered field and every seminorm; the total variation over the reals. Weights must be positive; C96_negative_weight_refuted shows that this is needed."
  },
  {
   "property": "C97",
   "status": "proved",
   "theorems": [
    "NS.Fl.C97_bezier_edges",
    "NS.Fl.C97_bezier_watertight",
    "NS.Fl.C97_rational_edges",
    "NS.Fl.C97_bspline_edges",
    "NS.Fl.C97_nurbs_edges_u",
    "NS.Fl.C97_nurbs_edges_v",
    "NS.Fl.C97_reversed_refuted",
    "NS.Fl.C97_contraction_refuted",
    "NS.Props.C97_bspline_ends",
    "NS.Props.C97_bspline_end_tangents",
    "NS.Props.C97_bezier_end_tangents",
    "NS.Props.C97_rational_ends",
    "NS.Props.C97_nurbs_ends",
    "NS.Props.C97_exact_edges_u",
    "NS.Props.C97_exact_edges_v",
    "NS.Props.C97_exact_cross",
    "NS.Props.C97_exact_join",
    "NS.Props.C97_exact_spline_edges_u",
    "NS.Props.C97_exact_spline_edges_v",
    "NS.Props.C97_exact_spline_cross",
    "NS.Props.C97_exact_spline_join"
   ],
   "note": "Same direction along the common edge and the same contraction of floating point operations are needed: C97_reversed_refuted and C97_contraction_refuted give gaps in double precision. Derivatives along and across edges are in exact arithmetic. The floating point theorems for patches are about evaluation."
  },
  {
   "property": "C98",
   "status": "partial",
   "theorems": [
    "NS.C98_curve_types",
    "NS.C98_patch_types_partial",
    "NS.C98_patch_types_refuted",
    "NS.C98_curve_record",
    "NS.C98_patch_record_partial",
    "NS.C98_patch_record_refuted",
    "NS.C98_file_partial",
    "NS.C98_primitive_curve_refuted",
    "NS.C98_primitive_patch_refuted",
    "NS.C98_primitive_patch_release_refuted"
   ],
   "note": "Types of curves identify the class; types of patches too except that rational Bezier patches report the type of Bezier patches (refuted). Files of usable spline objects load again with the same classes; a file with a line, circle, ellipse, analytic, swept or offset object is written but cannot be loaded (refuted)."
  },
  {
   "property": "C99",
   "status": "proved",
   "theorems": [
    "NS.Fl.C99_insert_knot",
    "NS.Fl.C99_insertions",
    "NS.Fl.C99_to_bezier",
    "NS.Fl.C99_elevate",
    "NS.Fl.C99_exact_arithmetic",
    "NS.Fl.C99_rounding_changes_curve"
   ],
   "note": "Any rounding and contraction. C99_rounding_changes_curve shows that the bounds cannot be zero."
  },
  {
   "property": "C100",
   "status": "proved",
   "theorems": [
    "NS.Props.C100_polygon",
    "NS.Props.C100_subcurve",
    "NS.Props.C100_split",
    "NS.Props.C100_subdivision",
    "NS.Props.C100_subdivision_converges",
    "NS.Props.C100_elevation",
    "NS.Props.C100_elevation_converges",
    "NS.Props.C100_sharp"
   ],
   "note": "Exact arithmetic (rounding of split and elevate_degree is C85, C99). The clients calling split(0.5) on every piece and elevate_degree repeatedly are defined in Props/Refine.lean."
  },
  {
   "property": "C101",
   "status": "proved",
   "theorems": [
    "NS.Props.C101_insert_knot",
    "NS.Props.C101_insert_sequence",
    "NS.Props.C101_nurbs_insert_knot",
    "NS.Props.C101_elevate",
    "NS.Props.C101_bezier_split",
    "NS.Props.C101_bspline_split",
    "NS.Props.C101_bspline_pieces",
    "NS.Props.C101_to_bezier",
    "NS.Props.C101_refinement",
    "NS.Props.C101_refinement_converges",
    "NS.Props.C101_signed_weights_refuted"
   ],
   "note": "Weights of both signs can lengthen the polygon (C101_signed_weights_refuted)."
  },
  {
   "property": "C102",
   "status": "proved",
   "theorems": [
    "NS.Props.C102_bspline_patch",
    "NS.Props.C102_rational_patch",
    "NS.Props.C102_nurbs_patch",
    "NS.Props.C102_curve",
    "NS.Props.C102_bezier",
    "NS.Props.C102_bspline",
    "NS.Props.C102_patch",
    "NS.Props.C102_bezier_patch",
    "NS.Props.C102_bezier_patch_result"
   ],
   "note": "C102_curve holds for every curve with a Lipschitz bound and an even number of samples, C102_bezier for all Bezier curves (degree 0 has nothing to search) including periodic ones whose ends meet, C102_bspline for continuous B-splines that are not periodic, C102_patch for every patch with Lipschitz bounds, C102_bezier_patch and C102_bezier_patch_result for Bezier patches searched by sampling (degree at most 2 in one direction), C102_bspline_patch, C102_rational_patch and C102_nurbs_patch for the other patches searched by sampling, given Lipschitz bounds."
  },
  {
   "property": "C103",
   "status": "partial",
   "theorems": [
    "NS.Props.C103_curve",
    "NS.Props.C103_bezier",
    "NS.Props.C103_patch_partial",
    "NS.Props.C103_bezier_patch_partial",
    "NS.Props.C103_outside_refuted",
    "NS.Props.C103_greville",
    "NS.Props.C103_greville_nurbs",
    "NS.Props.C103_bspline_patch_partial",
    "NS.Props.C103_rational_patch_partial",
    "NS.Props.C103_nurbs_patch_partial"
   ],
   "note": "Curves: all queries. Patches: proved for queries whose foot point is in the box (C103_patch_partial, C103_bezier_patch_partial, and over the reals C103_bspline_patch_partial, C103_rational_patch_partial, C103_nurbs_patch_partial for patches that are not periodic; C103_greville and C103_greville_nurbs give the flat nets). Outside it is false: the coordinates are clamped one by one, so on an oblique parallelogram the search from a guess stops, reporting convergence, at a point that is not the closest of the box (C103_outside_refuted)."
  },
  {
   "property": "C104",
   "status": "partial",
   "theorems": [
    "NS.Ieee.C104_bezier",
    "NS.Ieee.C104_bezier_ends",
    "NS.Ieee.C104_derivative_partial",
    "NS.Ieee.C104_patch",
    "NS.Ieee.C104_bspline",
    "NS.Ieee.C104_rational_partial",
    "NS.Ieee.C104_exact_bezier",
    "NS.Ieee.C104_exact_bspline",
    "NS.Ieee.C104_exact_patch",
    "NS.Ieee.C104_exact_rational",
    "NS.Ieee.C104_order",
    "NS.Ieee.C104_bezier_infinite_point",
    "NS.Ieee.C104_segment_infinite",
    "NS.Ieee.C104_segment_infinite_points",
    "NS.Ieee.C104_rational_bad_weight",
    "NS.Ieee.C104_rational_no_weight",
    "NS.Ieee.C104_bspline_wide_period",
    "NS.Ieee.C104_bezier_nan",
    "NS.Ieee.C104_bezier_infinite",
    "NS.Ieee.C104_bezier_bad_point",
    "NS.Ieee.C104_periodic_special",
    "NS.Ieee.C104_in_domain",
    "NS.Ieee.C104_bspline_special",
    "NS.Ieee.C104_bspline_local",
    "NS.Ieee.C104_double",
    "NS.Ieee.C104_derivative_refuted",
    "NS.Ieee.C104_rational_refuted",
    "NS.Ieee.C104_infinite_end_refuted",
    "NS.Ieee.C104_bspline_nan_refuted"
   ],
   "note": "Proved for finite curves, patches and B-splines in their domains (any degree and magnitude, any format with round to nearest, IEEE double and single proved to be such), their ends, and for special values. Partial: derivatives and rational curves overflow although the result is representable (C104_derivative_refuted, C104_rational_refuted), so they have hypotheses on the range; a B-spline whose last knot has a multiplicity above degree + 1 reads out of range for NaN (C104_bspline_nan_refuted); ends are not interpolated when another control point is infinite (C104_infinite_end_refuted). Signed zeros are not modelled. Agreement with the exact model on formats without rounding: C104_exact_bezier, _bspline, _patch, _rational."
  },
  {
   "property": "C105",
   "status": "partial",
   "theorems": [
    "NS.Ieee.C105_error_sign",
    "NS.Ieee.C105_infinite_error",
    "NS.Ieee.C105_curve_partial",
    "NS.Ieee.C105_bezier",
    "NS.Ieee.C105_curve_nan",
    "NS.Ieee.C105_bezier_nan",
    "NS.Ieee.C105_patch",
    "NS.Ieee.C105_patch_inverse",
    "NS.Ieee.C105_patch_nan",
    "NS.Ieee.C105_curve_refuted",
    "NS.Ieee.C105_nan_refuted",
    "NS.Ieee.C105_exact_curve",
    "NS.Ieee.C105_exact_bezier",
    "NS.Ieee.C105_exact_patch",
    "NS.Ieee.C105_denominator_overflow",
    "NS.Ieee.C105_residual_overflow"
   ],
   "note": "Ranges on curves need to contain zero unless the distances are below the largest number: otherwise refuted (C105_curve_refuted), and finite input can give NaN (C105_nan_refuted). Everything else in full for Bezier curves and for patches with arbitrary evaluators. Agreement with the exact searches: C105_exact_curve, _bezier, _patch."
  },
  {
   "property": "C106",
   "status": "partial",
   "theorems": [
    "NS.PrimitiveFeatures.C106_inflections",
    "NS.PrimitiveFeatures.C106_singularities_partial",
    "NS.PrimitiveFeatures.C106_singularities_refuted",
    "NS.PrimitiveFeatures.C106_ellipse_refuted",
    "NS.PrimitiveFeatures.C106_circle_halves",
    "NS.PrimitiveFeatures.C106_circle_bisector"
   ],
   "note": "Refuted for circles of radius zero (C106_singularities_refuted) and ellipses with a zero frame row (C106_ellipse_refuted), both accepted by initialize."
  },
  {
   "property": "C107",
   "status": "proved",
   "theorems": [
    "NS.Props.C107_bezier",
    "NS.Props.C107_bezier_derivative",
    "NS.Props.C107_bspline",
    "NS.Props.C107_bezier_patch",
    "NS.Props.C107_bspline_patch",
    "NS.Props.C107_rational_bezier",
    "NS.Props.C107_nurbs",
    "NS.Props.C107_rational_bezier_patch",
    "NS.Props.C107_nurbs_patch"
   ],
   "note": ""
  },
  {
   "property": "C108",
   "status": "proved",
   "theorems": [
    "NS.Props.C108_net",
    "NS.Props.C108_split_u",
    "NS.Props.C108_split_v",
    "NS.Props.C108_subdivision",
    "NS.Props.C108_converges"
   ],
   "note": "Fixed-degree patches (the degree of a split dynamic-degree patch is lost: C30_dynamic_refuted)."
  },
  {
   "property": "C109",
   "status": "proved",
   "theorems": [
    "NS.Props.C109_split_order",
    "NS.Props.C109_split_u_order",
    "NS.Props.C109_split_v_order",
    "NS.Props.C109_derivative_patches",
    "NS.Props.C109_rational_split_order",
    "NS.Props.C109_bspline_split_order",
    "NS.Props.C109_bspline_split_u_order",
    "NS.Props.C109_bspline_split_v_order",
    "NS.Props.C109_nurbs_split_order",
    "NS.Props.C109_nurbs_split_u_order",
    "NS.Props.C109_nurbs_split_v_order"
   ],
   "note": "Splits of Bezier, rational, B-spline and NURBS patches; derivative patches of fixed-degree patches. The strips of B-spline and NURBS patches need clamped knots and continuity across the two lines; without them the parts agree as surfaces (C65)."
  },
  {
   "property": "C110",
   "status": "partial",
   "theorems": [
    "NS.Props.C110_newton",
    "NS.Props.C110_curve_search",
    "NS.Props.C110_patch_from",
    "NS.Props.C110_patch_search",
    "NS.Props.C110_curvature",
    "NS.Props.C110_arc_length",
    "NS.Props.C110_inverse_arc_length",
    "NS.Props.C110_patch_arc_length",
    "NS.Props.C110_patch_inverse_arc_length",
    "NS.Props.C110_intersect_plane",
    "NS.Props.C110_intersect_segment",
    "NS.Props.C110_intersect_patch",
    "NS.Props.C110_is_closed",
    "NS.Props.C110_span_search",
    "NS.Props.C110_sample",
    "NS.Props.C110_bezier",
    "NS.Props.C110_bspline",
    "NS.Props.C110_rational_bezier",
    "NS.Props.C110_nurbs",
    "NS.Props.C110_bezier_patch",
    "NS.Props.C110_bspline_patch",
    "NS.Props.C110_rational_patch",
    "NS.Props.C110_nurbs_patch",
    "NS.Props.C110_bezier_inverse",
    "NS.Props.C110_bspline_inverse",
    "NS.Props.C110_scaling_refuted",
    "NS.Props.C110_bezier_patch_inverse",
    "NS.Props.C110_bspline_patch_inverse",
    "NS.Props.C110_rational_patch_inverse",
    "NS.Props.C110_rational_patch_init",
    "NS.Props.C110_nurbs_patch_inverse",
    "NS.Props.C110_nurbs_patch_init",
    "NS.Props.C110_line",
    "NS.Props.C110_plane",
    "NS.Props.C110_circle",
    "NS.Props.C110_ellipse",
    "NS.Props.C110_cylinder",
    "NS.Props.C110_cone",
    "NS.Props.C110_sphere",
    "NS.Props.C110_torus",
    "NS.Props.C110_extrusion",
    "NS.Props.C110_revolution",
    "NS.Props.C110_offset",
    "NS.Props.C110_extrusion_location_refuted"
   ],
   "note": "Proved for the evaluators of all spline classes, primitives and sweeps and for all queries of the base classes (closest point of curves, patch search from samples and from a start, refinement, arc lengths, intersections, closedness, curvature, sampling, the span search of B-spline curves), the closed forms of the primitives and the iterations of ellipses, extrusions, revolutions and offsets. Also the searches of patches guided by control points, with the cutting of sub-patches inside (C110_*_patch_inverse). Not covered: that search on polynomial Bézier patches of dynamic degrees, which lose their degrees when cut (C76_dynamic_refuted). Refuted: extrusions moved through their location (C110_extrusion_location_refuted); scalings (C110_scaling_refuted, tolerances are absolute)."
  },
  {
   "property": "C111",
   "status": "proved",
   "theorems": [
    "NS.Props.C111_rational_bezier_pull",
    "NS.Props.C111_nurbs_pull",
    "NS.Props.C111_mobius",
    "NS.Props.C111_mobius_image",
    "NS.Props.C111_conic",
    "NS.Props.C111_circle",
    "NS.Props.C111_nurbs_circle",
    "NS.Props.C111_rational_bezier_patch_pull",
    "NS.Props.C111_nurbs_patch_pull"
   ],
   "note": "Pull theorems for all four rational classes (the NURBS patch after set_weight followed by initialize, as the class requires); speed change, conics and circles for rational Bezier curves; the full circle for NURBS curves. Arithmetic is exact."
  },
  {
   "property": "C112",
   "status": "proved",
   "theorems": [
    "NS.Props.C112_subcurve",
    "NS.Props.C112_split",
    "NS.Props.C112_elevate",
    "NS.Props.C112_insert_knot"
   ],
   "note": "Stated for non-periodic curves; the derivative curve of a periodic Bezier curve sets its own flag (C06)."
  },
  {
   "property": "C113",
   "status": "proved",
   "theorems": [
    "NS.Fl.C113_bspline_second_low",
    "NS.Fl.C113_nurbs_second_linear",
    "NS.Fl.C113_rational_constant",
    "NS.Fl.C113_nurbs_constant",
    "NS.Fl.C113_rational_second_linear",
    "NS.Fl.C113_bezier_second_error",
    "NS.Fl.C113_degree1",
    "NS.Fl.C113_degree2",
    "NS.Fl.C113_degree3",
    "NS.Fl.C113_rational_second_error",
    "NS.Fl.C113_bspline_second_error",
    "NS.Fl.C113_nurbs_second_error",
    "NS.Fl.C113_exact_arithmetic",
    "NS.Fl.C113_degree2_relative_refuted"
   ],
   "note": "Non-periodic curves with parameters in the domain, spans not below the rounded 1e-16; all degrees. That the fixed degrees are not accurate relative to the derivative is C113_degree2_relative_refuted. Exponent range unlimited (no overflow or underflow)."
  },
  {
   "property": "C114",
   "status": "proved",
   "theorems": [
    "NS.Fl.C114_patch_mixed_constant",
    "NS.Fl.C114_patch_u_constant",
    "NS.Fl.C114_patch_v_constant",
    "NS.Fl.C114_patch_derivative_u",
    "NS.Fl.C114_patch_derivative_v",
    "NS.Fl.C114_patch_second_uu",
    "NS.Fl.C114_patch_second_vv",
    "NS.Fl.C114_patch_mixed",
    "NS.Fl.C114_rational_patch_derivative_u",
    "NS.Fl.C114_rational_patch_derivative_v",
    "NS.Fl.C114_exact_arithmetic",
    "NS.Fl.C114_patch_second_uu_low",
    "NS.Fl.C114_patch_second_vv_low"
   ],
   "note": "Non-periodic patches, parameters in the unit square, generic iso-curve classes. Second derivatives of rational patches are in C115, first derivatives of NURBS patches in C116. Exponent range unlimited (no overflow or underflow)."
  },
  {
   "property": "C115",
   "status": "proved",
   "theorems": [
    "NS.Fl.C115_rational_patch_u_constant",
    "NS.Fl.C115_rational_patch_v_constant",
    "NS.Fl.C115_rational_patch_uu_linear",
    "NS.Fl.C115_rational_patch_vv_linear",
    "NS.Fl.C115_rational_patch_uu",
    "NS.Fl.C115_rational_patch_vv",
    "NS.Fl.C115_rational_patch_uv",
    "NS.Fl.C115_exact_arithmetic"
   ],
   "note": "Non-periodic patches, parameters in the unit square, generic iso-curve classes; all degrees. The threshold is the constant epsilon of the code, kept as a parameter. Exponent range unlimited (no overflow or underflow)."
  },
  {
   "property": "C116",
   "status": "proved",
   "theorems": [
    "NS.Fl.C116_nurbs_patch_derivative_u",
    "NS.Fl.C116_nurbs_patch_derivative_v",
    "NS.Fl.C116_exact_arithmetic_u",
    "NS.Fl.C116_exact_arithmetic_v"
   ],
   "note": "Non-periodic patches, parameters in the domain, generic iso-curve classes. The second derivatives are C117 and C118. Exponent range unlimited (no overflow or underflow)."
  },
  {
   "property": "C117",
   "status": "proved",
   "theorems": [
    "NS.Fl.C117_nurbs_patch_u_constant",
    "NS.Fl.C117_nurbs_patch_v_constant",
    "NS.Fl.C117_bspline_patch_uu_low",
    "NS.Fl.C117_bspline_patch_vv_low",
    "NS.Fl.C117_nurbs_patch_uu_linear",
    "NS.Fl.C117_nurbs_patch_vv_linear",
    "NS.Fl.C117_bspline_patch_uu",
    "NS.Fl.C117_bspline_patch_vv",
    "NS.Fl.C117_nurbs_patch_uu",
    "NS.Fl.C117_nurbs_patch_vv",
    "NS.Fl.C117_exact_arithmetic_uu",
    "NS.Fl.C117_exact_arithmetic_vv"
   ],
   "note": "Non-periodic patches, parameters in the domain, generic iso-curve classes; every degree (B-spline patches of degree at most one and NURBS patches of degree zero have no error, NURBS patches of degree one have their own bound). The mixed second derivative is C118. Exponent range unlimited (no overflow or underflow)."
  },
  {
   "property": "C118",
   "status": "proved",
   "theorems": [
    "NS.Fl.C118_nurbs_patch_constant_u",
    "NS.Fl.C118_nurbs_patch_constant_v",
    "NS.Fl.C118_bspline_patch_uv_constant",
    "NS.Fl.C118_bspline_patch_uv",
    "NS.Fl.C118_nurbs_patch_uv",
    "NS.Fl.C118_exact_arithmetic"
   ],
   "note": "Non-periodic patches, parameters in the domain, generic iso-curve classes; every degree. If both degrees are positive, no difference of knots dividing a difference of control points is zero; otherwise the result is zero without error. Exponent range unlimited (no overflow or underflow)."
  }
 ]
}
