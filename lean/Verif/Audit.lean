import Verif.Props.Affine
import Verif.Props.BSpline
import Verif.Props.BSplinePatch
import Verif.Props.Bezier
import Verif.Props.BezierPatch
import Verif.Props.Circle
import Verif.Props.Clone
import Verif.Props.Combine
import Verif.Props.Compose
import Verif.Props.ComposePatch
import Verif.Props.ComposeSpline
import Verif.Props.ComposeSplinePatch
import Verif.Props.ControlSearch
import Verif.Props.ControlSearchAffine
import Verif.Props.ControlSearchBezier
import Verif.Props.ControlSearchExamples
import Verif.Props.ControlSearchRefuted
import Verif.Props.ControlSearchRuns
import Verif.Props.CornerCut
import Verif.Props.Edges
import Verif.Props.EdgesExact
import Verif.Props.ElevateSpline
import Verif.Props.Ellipse
import Verif.Props.EllipseStep
import Verif.Props.FeaturePieces
import Verif.Props.Features
import Verif.Props.FlatInverse
import Verif.Props.FlatPatches
import Verif.Props.Float
import Verif.Props.FloatEdit
import Verif.Props.FloatNurbsConstant
import Verif.Props.FloatNurbsLow
import Verif.Props.FloatNurbsMixed
import Verif.Props.FloatNurbsPatch
import Verif.Props.FloatNurbsSecond
import Verif.Props.FloatPatch
import Verif.Props.FloatPatchConstant
import Verif.Props.FloatPatchDeriv
import Verif.Props.FloatPatchLow
import Verif.Props.FloatPatchSecond
import Verif.Props.FloatPatchWrap
import Verif.Props.FloatRational
import Verif.Props.FloatSearch
import Verif.Props.FloatSecond
import Verif.Props.FloatWrap
import Verif.Props.Hodographs
import Verif.Props.Ieee
import Verif.Props.IeeeExact
import Verif.Props.IeeeOrder
import Verif.Props.IeeeSearch
import Verif.Props.IeeeSearchExact
import Verif.Props.IeeeSigns
import Verif.Props.IeeeSpecial
import Verif.Props.IntersectSteps
import Verif.Props.Inverse
import Verif.Props.InverseArcLength
import Verif.Props.LeastSquares
import Verif.Props.Length
import Verif.Props.LineOffset
import Verif.Props.MshFile
import Verif.Props.MshKinds
import Verif.Props.MshRecord
import Verif.Props.NearOptimal
import Verif.Props.Numeric
import Verif.Props.NumericSteps
import Verif.Props.NurbsPatch
import Verif.Props.NurbsPatchEdit
import Verif.Props.Periodic
import Verif.Props.PeriodicDeriv
import Verif.Props.PeriodicNurbsDeriv
import Verif.Props.Primitive
import Verif.Props.PrimitiveFeatures
import Verif.Props.Quadrature
import Verif.Props.Rational
import Verif.Props.RationalAny
import Verif.Props.RationalDeriv
import Verif.Props.RationalIso
import Verif.Props.RationalNurbs
import Verif.Props.RationalOps
import Verif.Props.RationalPatch
import Verif.Props.RationalPatchDeriv
import Verif.Props.Refine
import Verif.Props.RefinePatch
import Verif.Props.RemoveKnot
import Verif.Props.Reparam
import Verif.Props.ReparamPatch
import Verif.Props.ReparamPatchDeriv
import Verif.Props.Rigid
import Verif.Props.RigidControl
import Verif.Props.RigidPrimitives
import Verif.Props.Roots
import Verif.Props.Samples
import Verif.Props.SaveMsh
import Verif.Props.SaveObj
import Verif.Props.Simplex
import Verif.Props.SimplexInt
import Verif.Props.Smooth
import Verif.Props.SmoothPatch
import Verif.Props.SpanSearch
import Verif.Props.Stability
import Verif.Props.Svg
import Verif.Props.Swept
import Verif.Props.TurningAngle
import Verif.Props.TurningSpline
import Verif.Props.Unique
import Verif.Props.Variation
import Verif.Props.Weights
import Verif.Props.WeightsPatch
import Verif.Props.Windows

/-!
# Axioms used by the property theorems
-/

#print axioms NS.Props.C01_evaluate_eq_bernstein
#print axioms NS.Props.C01_evaluate_empty
#print axioms NS.Props.C01_spec_is_mathlib_bernstein
#print axioms NS.Props.C02_degree0
#print axioms NS.Props.C02_degree1_partial
#print axioms NS.Props.C02_degree1_derivatives
#print axioms NS.Props.C02_degree2
#print axioms NS.Props.C02_degree3
#print axioms NS.Props.C02_degree1_periodic_refuted
#print axioms NS.Props.C03_start
#print axioms NS.Props.C03_end
#print axioms NS.Props.C03_convex_hull
#print axioms NS.Props.C03_half_space
#print axioms NS.Props.C04_bspline_affine
#print axioms NS.Props.C04_bspline_patch_affine
#print axioms NS.Props.C04_bezier_affine_any
#print axioms NS.Props.C04_patch_affine_any
#print axioms NS.Props.C04_rational_bezier_affine
#print axioms NS.Props.C04_nurbs_affine
#print axioms NS.Props.C04_rational_patch_affine
#print axioms NS.Props.C04_nurbs_patch_affine
#print axioms NS.Props.C04_bezier_affine
#print axioms NS.Props.C04_patch_affine
#print axioms NS.Props.C05_derivative
#print axioms NS.Props.C05_derivative_periodic
#print axioms NS.Props.C05_derivatives_periodic
#print axioms NS.Props.C06_hodograph
#print axioms NS.Props.C06_hodograph_twice
#print axioms NS.Props.C06_hodograph_periodic
#print axioms NS.Props.C07_split
#print axioms NS.Props.C07_split_periodic
#print axioms NS.Props.C07_split_outside
#print axioms NS.Props.C07_split_alternative_eq
#print axioms NS.Props.C08_freeSplit_partial
#print axioms NS.Props.C08_window_refuted
#print axioms NS.Props.C09_subcurve
#print axioms NS.Props.C09_subcurve_throws
#print axioms NS.Props.C09_subcurve3_partial
#print axioms NS.Props.C09_subcurve3_actual
#print axioms NS.Props.C09_subcurve3_refuted
#print axioms NS.Props.C09_subcurve3_ub
#print axioms NS.Props.C10_elevate
#print axioms NS.Props.C10_elevate_empty
#print axioms NS.Props.C10_elevate_fixed
#print axioms NS.Props.C10_rational_elevate_any
#print axioms NS.Props.C10_rational_elevate
#print axioms NS.Props.C10_rational_zero_refuted
#print axioms NS.Props.C11_bspline
#print axioms NS.Props.C11_bspline_periodic
#print axioms NS.Props.C11_unwrap
#print axioms NS.Props.C11_bezier
#print axioms NS.Props.C11_bezier_periodic
#print axioms NS.Props.C12_locate_partial
#print axioms NS.Props.C12_locate_in_range
#print axioms NS.Props.C12_degenerate_start_refuted
#print axioms NS.Props.C13_evaluate_partial
#print axioms NS.Props.C13_evaluate_periodic_partial
#print axioms NS.Props.C13_evaluate_start_partial
#print axioms NS.Props.C13_degenerate_start_refuted
#print axioms NS.Props.C13_narrow_span_refuted
#print axioms NS.Props.C14_local_control
#print axioms NS.Props.C14_basis
#print axioms NS.Props.C14_convex_hull
#print axioms NS.Props.C15_derivative_partial
#print axioms NS.Props.C15_evaluators_return
#print axioms NS.Props.C15_periodic_partial
#print axioms NS.Props.C16_hodograph
#print axioms NS.Props.C16_hodograph_periodic
#print axioms NS.Props.C16_hodograph_degree0
#print axioms NS.Props.C17_insert_knot_partial
#print axioms NS.Props.C17_bound
#print axioms NS.Props.C17_sequence_partial
#print axioms NS.Props.C17_evaluate
#print axioms NS.Props.C17_lower_bound_refuted
#print axioms NS.Props.C17_outside_refuted
#print axioms NS.Props.C17_window_refuted
#print axioms NS.Props.C18_not_interior
#print axioms NS.Props.C18_bookkeeping_partial
#print axioms NS.Props.C18_deviation_partial
#print axioms NS.Props.C18_zero_tolerance_partial
#print axioms NS.Props.C18_inverse_partial
#print axioms NS.Props.C18_evaluate_partial
#print axioms NS.Props.C18_nurbs_inverse_partial
#print axioms NS.Props.C18_excess_refuted
#print axioms NS.Props.C18_excess_ub_refuted
#print axioms NS.Props.C18_domain_end_refuted
#print axioms NS.Props.C19_split_partial
#print axioms NS.Props.C19_split_evaluate_partial
#print axioms NS.Props.C19_split_ends
#print axioms NS.Props.C19_degree0_refuted
#print axioms NS.Props.C19_window_refuted
#print axioms NS.Props.C20_toBezier_partial
#print axioms NS.Props.C20_toBezier_evaluate_partial
#print axioms NS.Props.C20_degenerate_start_refuted
#print axioms NS.Props.C21_ofBezier
#print axioms NS.Props.C21_periodic_lost
#print axioms NS.Props.C22_combine_partial
#print axioms NS.Props.C22_empty
#print axioms NS.Props.C22_accepts
#print axioms NS.Props.C22_uniform_partial
#print axioms NS.Props.C22_exact_refuted
#print axioms NS.Props.C22_degree_zero_refuted
#print axioms NS.Props.C22_rational_weights_refuted
#print axioms NS.Props.C23_rational_bezier
#print axioms NS.Props.C23_nurbs
#print axioms NS.Props.C23_get_after_set
#print axioms NS.Props.C23_nurbs_get_after_set
#print axioms NS.Props.C24_rational_bezier
#print axioms NS.Props.C24_rational_bezier_scale
#print axioms NS.Props.C24_rational_bezier_equal
#print axioms NS.Props.C24_rational_bezier_positive
#print axioms NS.Props.C24_nurbs
#print axioms NS.Props.C24_nurbs_scale
#print axioms NS.Props.C24_nurbs_equal
#print axioms NS.Props.C24_nurbs_positive
#print axioms NS.Props.C25_rational_bezier_periodic
#print axioms NS.Props.C25_nurbs_periodic_partial
#print axioms NS.Props.C25_rational_bezier
#print axioms NS.Props.C25_nurbs_partial
#print axioms NS.Props.C26_bezier
#print axioms NS.Props.C26_rational_bezier
#print axioms NS.Props.C26_bspline
#print axioms NS.Props.C26_nurbs
#print axioms NS.Props.C26_periodic_refuted
#print axioms NS.Props.C27_rational_bezier
#print axioms NS.Props.C27_only_reason
#print axioms NS.Props.C27_stale_sizes
#print axioms NS.Props.C27_consistent_accepted
#print axioms NS.Props.C27_nurbs
#print axioms NS.Props.C27_stale_knots_refuted
#print axioms NS.Props.C28_evaluate
#print axioms NS.Props.C28_iso_order
#print axioms NS.Props.C28_iso_curves
#print axioms NS.Props.C28_corners
#print axioms NS.Props.C28_convex_hull
#print axioms NS.Props.C28_init_mismatch
#print axioms NS.Props.C29_derivatives
#print axioms NS.Props.C29_derivative_patches
#print axioms NS.Props.C30_split_u_partial
#print axioms NS.Props.C30_split_v_partial
#print axioms NS.Props.C30_split_ends
#print axioms NS.Props.C30_split_partial
#print axioms NS.Props.C30_split_boundary
#print axioms NS.Props.C30_dynamic_refuted
#print axioms NS.Props.C30_subpatch_actual
#print axioms NS.Props.C30_subpatch_partial
#print axioms NS.Props.C30_subpatch_refuted
#print axioms NS.Props.C31_init
#print axioms NS.Props.C31_evaluate
#print axioms NS.Props.C31_evaluate_domain
#print axioms NS.Props.C31_convex_hull
#print axioms NS.Props.C31_init_mismatch
#print axioms NS.Props.C32_set_control_point_refuted
#print axioms NS.Props.C32_stale_point_refuted
#print axioms NS.Props.C32_stale_knot_refuted
#print axioms NS.Props.C32_history
#print axioms NS.Props.C32_reinitialised_partial
#print axioms NS.Props.C33_bspline_set_get
#print axioms NS.Props.C33_bspline_history
#print axioms NS.Props.C33_bspline_rows
#print axioms NS.Props.C33_set_get
#print axioms NS.Props.C33_history
#print axioms NS.Props.C33_rows
#print axioms NS.C34_curve_in_range
#print axioms NS.C34_curve_returns
#print axioms NS.C34_curve_residual_partial
#print axioms NS.C34_curve_distance_refuted
#print axioms NS.PatchBase.C34_patch_in_box
#print axioms NS.PatchBase.C34_patch_returns
#print axioms NS.PatchBase.C34_patch_distance
#print axioms NS.PatchBase.C34_patch_inverse_in_box
#print axioms NS.PatchBase.C34_patch_step
#print axioms NS.PatchBase.C34_patch_indefinite
#print axioms NS.C35_in_range
#print axioms NS.C35_returns
#print axioms NS.C35_closer_partial
#print axioms NS.C35_closer_refuted
#print axioms NS.PatchBase.C35_patch_closer
#print axioms NS.C36_line
#print axioms NS.C36_line_range
#print axioms NS.C36_bezier
#print axioms NS.C36_line_euclidean
#print axioms NS.Line.C36_line_domain
#print axioms NS.C36_line_derivatives
#print axioms NS.Circle.C37_circle_implicit
#print axioms NS.Circle.C37_circle_derivatives
#print axioms NS.Circle.C37_circle_inverse_partial
#print axioms NS.Circle.C37_circle_inverse_refuted
#print axioms NS.Circle.C37_circle_periodic
#print axioms NS.Ellipse.C37_ellipse_implicit
#print axioms NS.Ellipse.C37_ellipse_derivatives
#print axioms NS.Plane.C38_plane_partial
#print axioms NS.Plane.C38_plane_refuted
#print axioms NS.Plane.C39_plane_partials
#print axioms NS.Cylinder.C39_cylinder_partials
#print axioms NS.Cone.C39_cone_partials
#print axioms NS.Sphere.C39_sphere_partials
#print axioms NS.Torus.C39_torus_partials
#print axioms NS.Cylinder.C40_cylinder_implicit
#print axioms NS.Cylinder.C40_cylinder_inverse_partial
#print axioms NS.Cylinder.C40_cylinder_negative_radius_refuted
#print axioms NS.Cone.C40_cone_implicit
#print axioms NS.Cone.C40_cone_closest_partial
#print axioms NS.Cone.C40_cone_inverse_partial
#print axioms NS.Cone.C40_cone_apex_refuted
#print axioms NS.Sphere.C40_sphere_implicit
#print axioms NS.Sphere.C40_sphere_closest_partial
#print axioms NS.Sphere.C40_sphere_inverse_partial
#print axioms NS.Sphere.C40_sphere_pole_refuted
#print axioms NS.Torus.C40_torus_implicit
#print axioms NS.Torus.C40_torus_closest_partial
#print axioms NS.Torus.C40_torus_inverse_partial
#print axioms NS.Torus.C40_torus_crossing_refuted
#print axioms NS.PatchBase.C41_clip
#print axioms NS.Revolution.C42_revolution_no_profile
#print axioms NS.Revolution.C42_revolution_symmetry
#print axioms NS.Revolution.C42_revolution_partials
#print axioms NS.Extrusion.C43_extrusion_no_profile
#print axioms NS.Extrusion.C43_extrusion_in_box
#print axioms NS.Extrusion.C43_extrusion_found_partial
#print axioms NS.Extrusion.C43_extrusion_closest_partial
#print axioms NS.Extrusion.C43_extrusion_location_refuted
#print axioms NS.Extrusion.C43_extrusion_partials
#print axioms NS.Extrusion.C43_extrusion_concrete_refuted
#print axioms NS.Offset.C44_offset_second_derivatives
#print axioms NS.Offset.C44_offset_no_base
#print axioms NS.Offset.C44_offset_distance
#print axioms NS.Offset.C44_offset_first_derivatives
#print axioms NS.Offset.C44_offset_singular
#print axioms NS.Offset.C44_offset_in_box
#print axioms NS.Quadrature.C45_gauss2
#print axioms NS.Quadrature.C45_gauss3
#print axioms NS.Quadrature.C45_gauss4
#print axioms NS.Quadrature.C45_gauss5
#print axioms NS.Quadrature.C45_other
#print axioms NS.Quadrature.C45_inside
#print axioms NS.Roots.C46_in_interval
#print axioms NS.Roots.C46_infinite_root
#print axioms NS.Roots.C46_exact
#print axioms NS.Roots.C46_band
#print axioms NS.Roots.C46_eigen
#print axioms NS.Roots.C46_zero_tolerance_refuted
#print axioms NS.C47_level0_partial
#print axioms NS.C47_constant_speed_refuted
#print axioms NS.C47_level1_refuted
#print axioms NS.C47_line_level0_partial
#print axioms NS.C47_patch_level0_partial
#print axioms NS.C47_patch_speed
#print axioms NS.C48_step_solves
#print axioms NS.C48_step_unique
#print axioms NS.C48_objective_derivatives
#print axioms NS.C48_curve_patch_flat
#print axioms NS.C48_curve_plane_line
#print axioms NS.C48_segment_flat
#print axioms NS.C48_curve_plane_descends
#print axioms NS.C48_curve_plane_farther_refuted
#print axioms NS.C48_curve_patch_descends
#print axioms NS.C48_segment_descends
#print axioms NS.C48_no_steps
#print axioms NS.C48_curve_plane
#print axioms NS.C48_curve_plane_start
#print axioms NS.C48_segment_partial
#print axioms NS.C48_segment_degenerate_refuted
#print axioms NS.C48_segment_start_refuted
#print axioms NS.C48_curve_patch
#print axioms NS.C49_whole_domain
#print axioms NS.C49_uniform_domain
#print axioms NS.C49_uniform_range_partial
#print axioms NS.C49_uniform_range_refuted
#print axioms NS.C49_adaptive
#print axioms NS.C49_adaptive_tolerance
#print axioms NS.C49_adaptive_terminates
#print axioms NS.C49_rejects
#print axioms NS.C50_single_curve
#print axioms NS.C50_single_patch
#print axioms NS.C50_curves_partial
#print axioms NS.C50_curves_refuted
#print axioms NS.C50_patches_partial
#print axioms NS.C50_patches_refuted
#print axioms NS.C50_total
#print axioms NS.C51_file_partial
#print axioms NS.C51_planar_file_partial
#print axioms NS.C51_curve_data_partial
#print axioms NS.C51_curve_evaluate_partial
#print axioms NS.C51_planar_curve
#print axioms NS.C51_curve_flag_refuted
#print axioms NS.C51_curve_evaluate_refuted
#print axioms NS.C51_patch_data_partial
#print axioms NS.C51_patch_evaluate_partial
#print axioms NS.C51_planar_patch
#print axioms NS.C51_patch_flag_refuted
#print axioms NS.C51_patch_evaluate_refuted
#print axioms NS.C52_mesh_partial
#print axioms NS.C52_total
#print axioms NS.C52_save_partial
#print axioms NS.C52_min_node_refuted
#print axioms NS.C52_entities
#print axioms NS.Props.C53_choose
#print axioms NS.Props.C53_multi_indices
#print axioms NS.Props.C53_size
#print axioms NS.Props.C53_count
#print axioms NS.Props.C53_control_points
#print axioms NS.Props.C53_degree_zero_refuted
#print axioms NS.Props.C54_evaluate
#print axioms NS.Props.C54_total
#print axioms NS.Props.C54_partition_of_unity
#print axioms NS.Props.C54_constant
#print axioms NS.Props.C54_vertex
#print axioms NS.Props.C54_directional_derivative
#print axioms NS.Props.C55_elevate_homogeneous
#print axioms NS.Props.C55_elevate
#print axioms NS.Props.C55_fit_partial
#print axioms NS.Props.C55_fit_reproduces
#print axioms NS.Props.C55_fit_degree_zero_refuted
#print axioms NS.Props.C56_bezier_matrix
#print axioms NS.Props.C56_bezier_fit
#print axioms NS.Props.C56_bezier_fit_unique
#print axioms NS.Props.C56_bezier_deform
#print axioms NS.Props.C56_bspline_matrix
#print axioms NS.Props.C56_bspline_fit
#print axioms NS.Props.C56_bspline_deform
#print axioms NS.Props.C56_bspline_dynamic_refuted
#print axioms NS.Props.C56_bezier_patch_matrix
#print axioms NS.Props.C56_bezier_patch_fit
#print axioms NS.Props.C56_bezier_patch_deform
#print axioms NS.Props.C56_bspline_patch_matrix
#print axioms NS.Props.C56_bspline_patch_fit
#print axioms NS.Props.C56_bspline_patch_deform
#print axioms NS.Props.C56_bspline_patch_class
#print axioms NS.Props.C56_bspline_patch_dynamic_refuted
#print axioms NS.Features.C57_supported
#print axioms NS.Features.C57_inflection_polynomial
#print axioms NS.Features.C57_singularity_polynomial
#print axioms NS.Features.C57_tangent_polynomial
#print axioms NS.Features.C57_rational_inflection_polynomial
#print axioms NS.Features.C57_rational_singularity_polynomial
#print axioms NS.Features.C57_rational_tangent_partial
#print axioms NS.Features.C57_inflections
#print axioms NS.Features.C57_singularities
#print axioms NS.Features.C57_turning_angle
#print axioms NS.Features.C57_turning_angle_degenerate
#print axioms NS.Features.C57_always
#print axioms NS.Features.C57_negligible
#print axioms NS.Features.C57_fixed_degree
#print axioms NS.Features.C57_low_degree
#print axioms NS.Features.C57_rational_inflections
#print axioms NS.Features.C57_rational_singularities
#print axioms NS.Features.C57_fixed_turning_angle
#print axioms NS.Features.C57_rational_tangent_refuted
#print axioms NS.Features.C57_rational_turning_angle_partial
#print axioms NS.Features.C57_rational_turning_angle_degenerate
#print axioms NS.C58_orthogonal_magnitude
#print axioms NS.C58_reparametrise
#print axioms NS.C58_straight
#print axioms NS.C58_unit_tangent
#print axioms NS.Props.C59_bspline_closest
#print axioms NS.Props.C59_closest
#print axioms NS.Props.C59_in_range
#print axioms NS.C60_is_closed
#print axioms NS.Line.C61_line_clone_partial
#print axioms NS.Line.C61_line_clone_refuted
#print axioms NS.Extrusion.C61_extrusion_clone
#print axioms NS.Circle.C61_circle_clone
#print axioms NS.Ellipse.C61_ellipse_clone
#print axioms NS.Revolution.C61_revolution_clone
#print axioms NS.Offset.C61_offset_clone_partial
#print axioms NS.Offset.C61_offset_clone_refuted
#print axioms NS.Props.C62_rational_bezier_split_any
#print axioms NS.Props.C62_insert_knot_any_partial
#print axioms NS.Props.C62_split_any_partial
#print axioms NS.Props.C62_to_rational_bezier_any_partial
#print axioms NS.Props.C62_rational_bezier_split
#print axioms NS.Props.C62_insert_knot_partial
#print axioms NS.Props.C62_split_partial
#print axioms NS.Props.C62_to_rational_bezier_partial
#print axioms NS.Props.C62_zero_refuted
#print axioms NS.Props.C63_nurbs_init
#print axioms NS.Props.C63_nurbs_reinit
#print axioms NS.Props.C63_nurbs_evaluate
#print axioms NS.Props.C63_nurbs_positive
#print axioms NS.Props.C63_nurbs_stale_refuted
#print axioms NS.Props.C63_nurbs_narrow_refuted
#print axioms NS.Props.C63_nurbs_split_u_partial
#print axioms NS.Props.C63_nurbs_split_v_partial
#print axioms NS.Props.C63_nurbs_split_partial
#print axioms NS.Props.C63_nurbs_subpatch_partial
#print axioms NS.Props.C63_nurbs_derivatives_partial
#print axioms NS.Props.C63_nurbs_mixed_partial
#print axioms NS.Props.C63_nurbs_history
#print axioms NS.Props.C63_nurbs_init_after_setters
#print axioms NS.Props.C63_nurbs_derivatives_any_partial
#print axioms NS.Props.C63_nurbs_mixed_any_partial
#print axioms NS.Props.C63_bezier_split_u_any_partial
#print axioms NS.Props.C63_bezier_split_v_any_partial
#print axioms NS.Props.C63_bezier_split_any_partial
#print axioms NS.Props.C63_bezier_subpatch_actual
#print axioms NS.Props.C63_bezier_subpatch_partial
#print axioms NS.Props.C63_nurbs_split_u_any_partial
#print axioms NS.Props.C63_nurbs_split_v_any_partial
#print axioms NS.Props.C63_nurbs_split_any_partial
#print axioms NS.Props.C63_nurbs_subpatch_any_partial
#print axioms NS.Props.C63_bezier_iso
#print axioms NS.Props.C63_bezier_iso_positive
#print axioms NS.Props.C63_nurbs_iso
#print axioms NS.Props.C63_bezier_evaluate
#print axioms NS.Props.C63_bezier_positive
#print axioms NS.Props.C63_bezier_set_control_point
#print axioms NS.Props.C63_bezier_set_weight
#print axioms NS.Props.C63_bezier_history
#print axioms NS.Props.C63_bezier_split_u_partial
#print axioms NS.Props.C63_bezier_split_v_partial
#print axioms NS.Props.C63_dynamic_refuted
#print axioms NS.Props.C63_bezier_derivatives
#print axioms NS.Props.C63_negative_weight_refuted
#print axioms NS.Props.C64_u_partial
#print axioms NS.Props.C64_v_partial
#print axioms NS.Props.C64_evaluators_return
#print axioms NS.Props.C64_uv_partial
#print axioms NS.Props.C64_uv_returns
#print axioms NS.Props.C64_uv_degree0
#print axioms NS.Props.C64_u_any_partial
#print axioms NS.Props.C64_v_any_partial
#print axioms NS.Props.C64_uv_any_partial
#print axioms NS.Props.C65_split_u_partial
#print axioms NS.Props.C65_split_v_partial
#print axioms NS.Props.C65_split_partial
#print axioms NS.Props.C65_subpatch_partial
#print axioms NS.Props.C65_subpatch_point_refuted
#print axioms NS.Props.C65_split_ends
#print axioms NS.Props.C65_out_of_domain
#print axioms NS.Props.C65_split_v_ends
#print axioms NS.Props.C65_out_of_domain_all
#print axioms NS.Props.C65_window_refuted
#print axioms NS.Props.C66_preimage_identity
#print axioms NS.Props.C66_preimage_sorted
#print axioms NS.Ellipse.C67_ellipse_range
#print axioms NS.Ellipse.C67_ellipse_defined
#print axioms NS.Ellipse.C67_ellipse_reflection_partial
#print axioms NS.Ellipse.C67_ellipse_inverse_refuted
#print axioms NS.Ellipse.C67_ellipse_rest_partial
#print axioms NS.Ellipse.C67_ellipse_foot_closest
#print axioms NS.Ellipse.C67_ellipse_residual
#print axioms NS.Ellipse.C67_ellipse_step_error
#print axioms NS.Ellipse.C67_ellipse_closest_partial
#print axioms NS.Ellipse.C67_ellipse_circle
#print axioms NS.Extrusion.C68_extrusion_periodic
#print axioms NS.Revolution.C68_revolution_periodic
#print axioms NS.Cylinder.C68_cylinder_periodic
#print axioms NS.Cone.C68_cone_periodic
#print axioms NS.Torus.C68_torus_periodic
#print axioms NS.Sphere.C68_sphere_periodic_partial
#print axioms NS.Sphere.C68_sphere_periodic_refuted
#print axioms NS.C69_samples_partial
#print axioms NS.C69_end_refuted
#print axioms NS.C69_domain_refuted
#print axioms NS.C70_curve_samples
#print axioms NS.C70_patch_samples
#print axioms NS.C71_views_partial
#print axioms NS.C71_views_refuted
#print axioms NS.Features.C72_pieces
#print axioms NS.Features.C72_in_range
#print axioms NS.Features.C72_complete_partial
#print axioms NS.Features.C72_bspline_singularities_partial
#print axioms NS.Features.C72_bspline_inflections_partial
#print axioms NS.Features.C72_nurbs_singularities_partial
#print axioms NS.Features.C72_nurbs_inflections_partial
#print axioms NS.Features.C72_bspline_turning_angle_partial
#print axioms NS.Features.C72_nurbs_turning_angle_partial
#print axioms NS.Features.C72_inner_knot_refuted
#print axioms NS.Props.C73_elevate_partial
#print axioms NS.Props.C73_degree_zero
#print axioms NS.Props.C73_nurbs_partial
#print axioms NS.Props.C73_discontinuous_refuted
#print axioms NS.Props.C73_exact_refuted
#print axioms NS.SpanSearch.C74_samples_partial
#print axioms NS.SpanSearch.C74_knots_partial
#print axioms NS.SpanSearch.C74_in_range
#print axioms NS.SpanSearch.C74_returns
#print axioms NS.SpanSearch.C74_periodic_partial
#print axioms NS.SpanSearch.C74_periodic_refuted
#print axioms NS.SpanSearch.C74_empty_range_refuted
#print axioms NS.PrimitiveFeatures.C75_ellipse_partial
#print axioms NS.PrimitiveFeatures.C75_ellipse_refuted
#print axioms NS.Turning.C75_unique
#print axioms NS.Turning.C75_bezier_partial
#print axioms NS.Turning.C75_bezier_modulo
#print axioms NS.Turning.C75_polygon_refuted
#print axioms NS.Turning.C75_quadratic
#print axioms NS.Turning.C75_degree1
#print axioms NS.Turning.C75_line
#print axioms NS.Turning.C75_cubic_partial
#print axioms NS.Turning.C75_cubic_actual
#print axioms NS.Turning.C75_cubic_refuted
#print axioms NS.Turning.C75_curve_partial
#print axioms NS.Turning.C75_rational_partial
#print axioms NS.Turning.C75_nurbs_partial
#print axioms NS.Turning.C75_circle_partial
#print axioms NS.Turning.C75_circle_refuted
#print axioms NS.Turning.C75_bspline_partial
#print axioms NS.Turning.C75_bspline_quadratic_partial
#print axioms NS.Turning.C75_bspline_cubic_partial
#print axioms NS.Turning.C75_bspline_cubic_start_refuted
#print axioms NS.Turning.C75_bspline_cubic_end_refuted
#print axioms NS.Props.C76_bezier_in_box
#print axioms NS.Props.C76_rational_bezier_in_box
#print axioms NS.Props.C76_bspline_in_box
#print axioms NS.Props.C76_nurbs_in_box
#print axioms NS.Props.C76_regular_bicubic_converges
#print axioms NS.Props.C76_bezier_total
#print axioms NS.Props.C76_rational_bezier_total
#print axioms NS.Props.C76_interior_refuted
#print axioms NS.Props.C76_corner_refuted
#print axioms NS.Props.C76_dynamic_refuted
#print axioms NS.Props.C76_uniform_refuted
#print axioms NS.Props.C76_bspline_total
#print axioms NS.Props.C76_nurbs_total
#print axioms NS.C77_stops
#print axioms NS.C77_constant_speed_partial
#print axioms NS.C77_increasing_speed_partial
#print axioms NS.C77_constant_speed_refuted
#print axioms NS.C77_flat_patch_refuted
#print axioms NS.Props.C78_path
#print axioms NS.Props.C78_save
#print axioms NS.Props.C78_save_list
#print axioms NS.Props.C78_point_refuted
#print axioms NS.Props.C78_bezier
#print axioms NS.Props.C78_bspline
#print axioms NS.Props.C78_rational_bezier
#print axioms NS.Props.C78_nurbs
#print axioms NS.Props.C78_negative_weight_refuted
#print axioms NS.Props.C79_path_partial
#print axioms NS.Props.C79_program_refuted
#print axioms NS.Revolution.C80_revolution_inverse_partial
#print axioms NS.Revolution.C80_revolution_in_box
#print axioms NS.Revolution.C80_across_axis_refuted
#print axioms NS.Fl.C81_bezier_ends
#print axioms NS.Fl.C81_bspline_ends
#print axioms NS.Fl.C81_patch_corners
#print axioms NS.Fl.C81_bspline_patch_corners
#print axioms NS.Fl.C81_rational_first_partial
#print axioms NS.Fl.C81_rational_first_refuted
#print axioms NS.Fl.C82_exact_arithmetic
#print axioms NS.Fl.C82_exact_arithmetic_bspline
#print axioms NS.Fl.C82_bezier_error
#print axioms NS.Fl.C82_fixed_degree
#print axioms NS.Fl.C82_bezier_derivative_error
#print axioms NS.Fl.C82_bspline_error
#print axioms NS.Fl.C82_patch_error
#print axioms NS.Fl.C82_rational_error
#print axioms NS.Fl.C83_bezier_patch_wrap
#print axioms NS.Fl.C83_bspline_patch_wrap
#print axioms NS.Fl.C83_rational_patch_wrap
#print axioms NS.Fl.C83_nurbs_patch_wrap
#print axioms NS.Fl.C83_nurbs_wrap
#print axioms NS.Fl.C83_bezier_patch_periodic
#print axioms NS.Fl.C83_bspline_patch_periodic_zero
#print axioms NS.Fl.C83_bezier_periodic
#print axioms NS.Fl.C83_bspline_periodic_zero
#print axioms NS.Fl.C83_bspline_periodic_partial
#print axioms NS.Fl.C83_below_refuted
#print axioms NS.Fl.C84_bezier_sign
#print axioms NS.Fl.C84_bezier_range
#print axioms NS.Fl.C84_bspline_sign
#print axioms NS.Fl.C84_hull_refuted
#print axioms NS.Fl.C85_bspline_split
#print axioms NS.Fl.C85_split
#print axioms NS.Fl.C85_join_partial
#print axioms NS.Fl.C85_join_refuted
#print axioms NS.Fl.C86_sample_partial
#print axioms NS.Fl.C86_sample_unit
#print axioms NS.Fl.C86_curve_search_partial
#print axioms NS.Fl.C86_curve_search_unit
#print axioms NS.Fl.C86_patch_search
#print axioms NS.Fl.C86_exact_arithmetic
#print axioms NS.Fl.C86_sample_refuted
#print axioms NS.Fl.C86_curve_search_refuted
#print axioms NS.Fl.C87_clip_partial
#print axioms NS.Fl.C87_clip_azimuth
#print axioms NS.Fl.C87_exact_arithmetic
#print axioms NS.Fl.C87_clip_refuted
#print axioms NS.Fl.C88_bspline_derivative_error
#print axioms NS.Fl.C88_nurbs_error
#print axioms NS.Fl.C88_bspline_patch_error
#print axioms NS.Fl.C88_rational_patch_error
#print axioms NS.Fl.C88_nurbs_patch_error
#print axioms NS.Fl.C88_bspline_patch_derivative_u
#print axioms NS.Fl.C88_bspline_patch_derivative_v
#print axioms NS.Fl.C88_exact_arithmetic_patch
#print axioms NS.Fl.C88_exact_arithmetic_derivative
#print axioms NS.Fl.C88_exact_arithmetic_patch_derivatives
#print axioms NS.Fl.C88_exact_arithmetic_nurbs
#print axioms NS.Fl.C88_nurbs_derivative_error
#print axioms NS.Fl.C88_rational_derivative_error
#print axioms NS.Fl.C88_exact_arithmetic_rational_derivative
#print axioms NS.Fl.C88_exact_arithmetic_nurbs_derivative
#print axioms NS.Props.C89_choose_partial
#print axioms NS.Props.C89_choose_62
#print axioms NS.Props.C89_choose_refuted
#print axioms NS.Props.C89_sizes
#print axioms NS.Props.C89_low_degree
#print axioms NS.Props.C89_multi_indices
#print axioms NS.Props.C89_control_points
#print axioms NS.Props.C89_degree_255_refuted
#print axioms NS.Props.C89_factorials
#print axioms NS.Props.C89_evaluate_partial
#print axioms NS.Props.C89_evaluate_form
#print axioms NS.Props.C89_high_degree_refuted
#print axioms NS.Props.C89_line_refuted
#print axioms NS.Props.C89_elevate_partial
#print axioms NS.Props.C89_elevate_same
#print axioms NS.Props.C89_elevate_refuted
#print axioms NS.Props.C90_positive_partial
#print axioms NS.Props.C90_positive_refuted
#print axioms NS.Props.C90_angle
#print axioms NS.Props.C90_save_partial
#print axioms NS.Props.C90_save_refuted
#print axioms NS.Props.C91_bezier
#print axioms NS.Props.C91_bezier_degree
#print axioms NS.Props.C91_bspline
#print axioms NS.Props.C91_bspline_all
#print axioms NS.Props.C91_bspline_iff
#print axioms NS.Props.C91_seen_iff
#print axioms NS.Props.C91_rational
#print axioms NS.Props.C91_bezier_patch
#print axioms NS.Props.C91_bspline_patch
#print axioms NS.Props.C91_zero_weight_refuted
#print axioms NS.Props.C92_subcurve_subcurve
#print axioms NS.Props.C92_subcurve_full
#print axioms NS.Props.C92_split_subcurve
#print axioms NS.Props.C92_elevate_subcurve
#print axioms NS.Props.C92_elevate_split
#print axioms NS.Props.C92_split_order
#print axioms NS.Props.C92_insertion_order
#print axioms NS.Props.C92_insertion_order_eq
#print axioms NS.Props.C92_toBezier_congr
#print axioms NS.Props.C92_insert_toBezier
#print axioms NS.Props.C92_ofBezier_toBezier
#print axioms NS.Props.C92_bspline_split_order
#print axioms NS.Props.C92_bspline_split_order_eq
#print axioms NS.Props.C93_join
#print axioms NS.Props.C93_contDiff
#print axioms NS.Props.C93_continuous
#print axioms NS.Props.C93_derivatives
#print axioms NS.Props.C93_nurbs
#print axioms NS.Props.C93_nurbs_derivatives
#print axioms NS.Props.C93_corner_refuted
#print axioms NS.Props.C93_jump_refuted
#print axioms NS.Props.C93_patch
#print axioms NS.Props.C93_patch_u
#print axioms NS.Props.C93_patch_v
#print axioms NS.Props.C93_nurbs_patch
#print axioms NS.Props.C93_nurbs_patch_derivatives
#print axioms NS.Props.C94_affine
#print axioms NS.Props.C94_reverse
#print axioms NS.Props.C94_reverse_knot
#print axioms NS.Props.C94_nurbs_affine
#print axioms NS.Props.C94_nurbs_reverse
#print axioms NS.Props.C94_bezier
#print axioms NS.Props.C94_rational
#print axioms NS.Props.C94_bezier_patch
#print axioms NS.Props.C94_bezier_transpose
#print axioms NS.Props.C94_bspline_transpose
#print axioms NS.Props.C94_narrow_refuted
#print axioms NS.Props.C94_jump_refuted
#print axioms NS.Props.C94_bspline_patch_affine
#print axioms NS.Props.C94_bspline_patch_reverse_u
#print axioms NS.Props.C94_bspline_patch_reverse_v
#print axioms NS.Props.C94_nurbs_patch_affine
#print axioms NS.Props.C94_nurbs_patch_reverse_u
#print axioms NS.Props.C94_nurbs_patch_reverse_v
#print axioms NS.Props.C94_rational_patch
#print axioms NS.Props.C94_rational_transpose
#print axioms NS.Props.C94_bspline_patch_derivatives
#print axioms NS.Props.C94_nurbs_patch_derivatives
#print axioms NS.Props.C94_bezier_derivatives
#print axioms NS.Props.C94_rational_derivatives
#print axioms NS.Props.C94_bezier_patch_derivatives
#print axioms NS.Props.C94_rational_patch_derivatives
#print axioms NS.Props.C95_bspline
#print axioms NS.Props.C95_bezier
#print axioms NS.Props.C95_nurbs
#print axioms NS.Props.C95_rational
#print axioms NS.Props.C95_monotone
#print axioms NS.Props.C95_nurbs_monotone
#print axioms NS.Props.C95_bezier_monotone
#print axioms NS.Props.C95_rational_monotone
#print axioms NS.Props.C95_patch_monotone
#print axioms NS.Props.C95_sharp
#print axioms NS.Props.C95_negative_weight_refuted
#print axioms NS.Props.C96_bspline_length
#print axioms NS.Props.C96_bspline_cone
#print axioms NS.Props.C96_bezier_length
#print axioms NS.Props.C96_bezier_cone
#print axioms NS.Props.C96_nurbs_length
#print axioms NS.Props.C96_nurbs_cone
#print axioms NS.Props.C96_rational_length
#print axioms NS.Props.C96_rational_cone
#print axioms NS.Props.C96_linear_precision
#print axioms NS.Props.C96_lipschitz
#print axioms NS.Props.C96_bezier_lipschitz
#print axioms NS.Props.C96_convex
#print axioms NS.Props.C96_bspline_variation
#print axioms NS.Props.C96_nurbs_variation
#print axioms NS.Props.C96_negative_weight_refuted
#print axioms NS.Fl.C97_bezier_edges
#print axioms NS.Fl.C97_bezier_watertight
#print axioms NS.Fl.C97_rational_edges
#print axioms NS.Fl.C97_bspline_edges
#print axioms NS.Fl.C97_nurbs_edges_u
#print axioms NS.Fl.C97_nurbs_edges_v
#print axioms NS.Fl.C97_reversed_refuted
#print axioms NS.Fl.C97_contraction_refuted
#print axioms NS.Props.C97_bspline_ends
#print axioms NS.Props.C97_bspline_end_tangents
#print axioms NS.Props.C97_bezier_end_tangents
#print axioms NS.Props.C97_rational_ends
#print axioms NS.Props.C97_nurbs_ends
#print axioms NS.Props.C97_exact_edges_u
#print axioms NS.Props.C97_exact_edges_v
#print axioms NS.Props.C97_exact_cross
#print axioms NS.Props.C97_exact_join
#print axioms NS.Props.C97_exact_spline_edges_u
#print axioms NS.Props.C97_exact_spline_edges_v
#print axioms NS.Props.C97_exact_spline_cross
#print axioms NS.Props.C97_exact_spline_join
#print axioms NS.C98_curve_types
#print axioms NS.C98_patch_types_partial
#print axioms NS.C98_patch_types_refuted
#print axioms NS.C98_curve_record
#print axioms NS.C98_patch_record_partial
#print axioms NS.C98_patch_record_refuted
#print axioms NS.C98_file_partial
#print axioms NS.C98_primitive_curve_refuted
#print axioms NS.C98_primitive_patch_refuted
#print axioms NS.C98_primitive_patch_release_refuted
#print axioms NS.Fl.C99_insert_knot
#print axioms NS.Fl.C99_insertions
#print axioms NS.Fl.C99_to_bezier
#print axioms NS.Fl.C99_elevate
#print axioms NS.Fl.C99_exact_arithmetic
#print axioms NS.Fl.C99_rounding_changes_curve
#print axioms NS.Props.C100_polygon
#print axioms NS.Props.C100_subcurve
#print axioms NS.Props.C100_split
#print axioms NS.Props.C100_subdivision
#print axioms NS.Props.C100_subdivision_converges
#print axioms NS.Props.C100_elevation
#print axioms NS.Props.C100_elevation_converges
#print axioms NS.Props.C100_sharp
#print axioms NS.Props.C101_insert_knot
#print axioms NS.Props.C101_insert_sequence
#print axioms NS.Props.C101_nurbs_insert_knot
#print axioms NS.Props.C101_elevate
#print axioms NS.Props.C101_bezier_split
#print axioms NS.Props.C101_bspline_split
#print axioms NS.Props.C101_bspline_pieces
#print axioms NS.Props.C101_to_bezier
#print axioms NS.Props.C101_refinement
#print axioms NS.Props.C101_refinement_converges
#print axioms NS.Props.C101_signed_weights_refuted
#print axioms NS.Props.C102_bspline_patch
#print axioms NS.Props.C102_rational_patch
#print axioms NS.Props.C102_nurbs_patch
#print axioms NS.Props.C102_curve
#print axioms NS.Props.C102_bezier
#print axioms NS.Props.C102_bspline
#print axioms NS.Props.C102_patch
#print axioms NS.Props.C102_bezier_patch
#print axioms NS.Props.C102_bezier_patch_result
#print axioms NS.Props.C103_curve
#print axioms NS.Props.C103_bezier
#print axioms NS.Props.C103_patch_partial
#print axioms NS.Props.C103_bezier_patch_partial
#print axioms NS.Props.C103_outside_refuted
#print axioms NS.Props.C103_greville
#print axioms NS.Props.C103_greville_nurbs
#print axioms NS.Props.C103_bspline_patch_partial
#print axioms NS.Props.C103_rational_patch_partial
#print axioms NS.Props.C103_nurbs_patch_partial
#print axioms NS.Ieee.C104_bezier
#print axioms NS.Ieee.C104_bezier_ends
#print axioms NS.Ieee.C104_derivative_partial
#print axioms NS.Ieee.C104_patch
#print axioms NS.Ieee.C104_bspline
#print axioms NS.Ieee.C104_rational_partial
#print axioms NS.Ieee.C104_exact_bezier
#print axioms NS.Ieee.C104_exact_bspline
#print axioms NS.Ieee.C104_exact_patch
#print axioms NS.Ieee.C104_exact_rational
#print axioms NS.Ieee.C104_order
#print axioms NS.Ieee.C104_bezier_infinite_point
#print axioms NS.Ieee.C104_segment_infinite
#print axioms NS.Ieee.C104_segment_infinite_points
#print axioms NS.Ieee.C104_rational_bad_weight
#print axioms NS.Ieee.C104_rational_no_weight
#print axioms NS.Ieee.C104_bspline_wide_period
#print axioms NS.Ieee.C104_bezier_nan
#print axioms NS.Ieee.C104_bezier_infinite
#print axioms NS.Ieee.C104_bezier_bad_point
#print axioms NS.Ieee.C104_periodic_special
#print axioms NS.Ieee.C104_in_domain
#print axioms NS.Ieee.C104_bspline_special
#print axioms NS.Ieee.C104_bspline_local
#print axioms NS.Ieee.C104_double
#print axioms NS.Ieee.C104_derivative_refuted
#print axioms NS.Ieee.C104_rational_refuted
#print axioms NS.Ieee.C104_infinite_end_refuted
#print axioms NS.Ieee.C104_bspline_nan_refuted
#print axioms NS.Ieee.C105_error_sign
#print axioms NS.Ieee.C105_infinite_error
#print axioms NS.Ieee.C105_curve_partial
#print axioms NS.Ieee.C105_bezier
#print axioms NS.Ieee.C105_curve_nan
#print axioms NS.Ieee.C105_bezier_nan
#print axioms NS.Ieee.C105_patch
#print axioms NS.Ieee.C105_patch_inverse
#print axioms NS.Ieee.C105_patch_nan
#print axioms NS.Ieee.C105_curve_refuted
#print axioms NS.Ieee.C105_nan_refuted
#print axioms NS.Ieee.C105_exact_curve
#print axioms NS.Ieee.C105_exact_bezier
#print axioms NS.Ieee.C105_exact_patch
#print axioms NS.Ieee.C105_denominator_overflow
#print axioms NS.Ieee.C105_residual_overflow
#print axioms NS.PrimitiveFeatures.C106_inflections
#print axioms NS.PrimitiveFeatures.C106_singularities_partial
#print axioms NS.PrimitiveFeatures.C106_singularities_refuted
#print axioms NS.PrimitiveFeatures.C106_ellipse_refuted
#print axioms NS.PrimitiveFeatures.C106_circle_halves
#print axioms NS.PrimitiveFeatures.C106_circle_bisector
#print axioms NS.Props.C107_bezier
#print axioms NS.Props.C107_bezier_derivative
#print axioms NS.Props.C107_bspline
#print axioms NS.Props.C107_bezier_patch
#print axioms NS.Props.C107_bspline_patch
#print axioms NS.Props.C107_rational_bezier
#print axioms NS.Props.C107_nurbs
#print axioms NS.Props.C107_rational_bezier_patch
#print axioms NS.Props.C107_nurbs_patch
#print axioms NS.Props.C108_net
#print axioms NS.Props.C108_split_u
#print axioms NS.Props.C108_split_v
#print axioms NS.Props.C108_subdivision
#print axioms NS.Props.C108_converges
#print axioms NS.Props.C109_split_order
#print axioms NS.Props.C109_split_u_order
#print axioms NS.Props.C109_split_v_order
#print axioms NS.Props.C109_derivative_patches
#print axioms NS.Props.C109_rational_split_order
#print axioms NS.Props.C109_bspline_split_order
#print axioms NS.Props.C109_bspline_split_u_order
#print axioms NS.Props.C109_bspline_split_v_order
#print axioms NS.Props.C109_nurbs_split_order
#print axioms NS.Props.C109_nurbs_split_u_order
#print axioms NS.Props.C109_nurbs_split_v_order
#print axioms NS.Props.C110_newton
#print axioms NS.Props.C110_curve_search
#print axioms NS.Props.C110_patch_from
#print axioms NS.Props.C110_patch_search
#print axioms NS.Props.C110_curvature
#print axioms NS.Props.C110_arc_length
#print axioms NS.Props.C110_inverse_arc_length
#print axioms NS.Props.C110_patch_arc_length
#print axioms NS.Props.C110_patch_inverse_arc_length
#print axioms NS.Props.C110_intersect_plane
#print axioms NS.Props.C110_intersect_segment
#print axioms NS.Props.C110_intersect_patch
#print axioms NS.Props.C110_is_closed
#print axioms NS.Props.C110_span_search
#print axioms NS.Props.C110_sample
#print axioms NS.Props.C110_bezier
#print axioms NS.Props.C110_bspline
#print axioms NS.Props.C110_rational_bezier
#print axioms NS.Props.C110_nurbs
#print axioms NS.Props.C110_bezier_patch
#print axioms NS.Props.C110_bspline_patch
#print axioms NS.Props.C110_rational_patch
#print axioms NS.Props.C110_nurbs_patch
#print axioms NS.Props.C110_bezier_inverse
#print axioms NS.Props.C110_bspline_inverse
#print axioms NS.Props.C110_scaling_refuted
#print axioms NS.Props.C110_bezier_patch_inverse
#print axioms NS.Props.C110_bspline_patch_inverse
#print axioms NS.Props.C110_rational_patch_inverse
#print axioms NS.Props.C110_rational_patch_init
#print axioms NS.Props.C110_nurbs_patch_inverse
#print axioms NS.Props.C110_nurbs_patch_init
#print axioms NS.Props.C110_line
#print axioms NS.Props.C110_plane
#print axioms NS.Props.C110_circle
#print axioms NS.Props.C110_ellipse
#print axioms NS.Props.C110_cylinder
#print axioms NS.Props.C110_cone
#print axioms NS.Props.C110_sphere
#print axioms NS.Props.C110_torus
#print axioms NS.Props.C110_extrusion
#print axioms NS.Props.C110_revolution
#print axioms NS.Props.C110_offset
#print axioms NS.Props.C110_extrusion_location_refuted
#print axioms NS.Props.C111_rational_bezier_pull
#print axioms NS.Props.C111_nurbs_pull
#print axioms NS.Props.C111_mobius
#print axioms NS.Props.C111_mobius_image
#print axioms NS.Props.C111_conic
#print axioms NS.Props.C111_circle
#print axioms NS.Props.C111_nurbs_circle
#print axioms NS.Props.C111_rational_bezier_patch_pull
#print axioms NS.Props.C111_nurbs_patch_pull
#print axioms NS.Props.C112_subcurve
#print axioms NS.Props.C112_split
#print axioms NS.Props.C112_elevate
#print axioms NS.Props.C112_insert_knot
#print axioms NS.Fl.C113_bspline_second_low
#print axioms NS.Fl.C113_nurbs_second_linear
#print axioms NS.Fl.C113_rational_constant
#print axioms NS.Fl.C113_nurbs_constant
#print axioms NS.Fl.C113_rational_second_linear
#print axioms NS.Fl.C113_bezier_second_error
#print axioms NS.Fl.C113_degree1
#print axioms NS.Fl.C113_degree2
#print axioms NS.Fl.C113_degree3
#print axioms NS.Fl.C113_rational_second_error
#print axioms NS.Fl.C113_bspline_second_error
#print axioms NS.Fl.C113_nurbs_second_error
#print axioms NS.Fl.C113_exact_arithmetic
#print axioms NS.Fl.C113_degree2_relative_refuted
#print axioms NS.Fl.C114_patch_mixed_constant
#print axioms NS.Fl.C114_patch_u_constant
#print axioms NS.Fl.C114_patch_v_constant
#print axioms NS.Fl.C114_patch_derivative_u
#print axioms NS.Fl.C114_patch_derivative_v
#print axioms NS.Fl.C114_patch_second_uu
#print axioms NS.Fl.C114_patch_second_vv
#print axioms NS.Fl.C114_patch_mixed
#print axioms NS.Fl.C114_rational_patch_derivative_u
#print axioms NS.Fl.C114_rational_patch_derivative_v
#print axioms NS.Fl.C114_exact_arithmetic
#print axioms NS.Fl.C114_patch_second_uu_low
#print axioms NS.Fl.C114_patch_second_vv_low
#print axioms NS.Fl.C115_rational_patch_u_constant
#print axioms NS.Fl.C115_rational_patch_v_constant
#print axioms NS.Fl.C115_rational_patch_uu_linear
#print axioms NS.Fl.C115_rational_patch_vv_linear
#print axioms NS.Fl.C115_rational_patch_uu
#print axioms NS.Fl.C115_rational_patch_vv
#print axioms NS.Fl.C115_rational_patch_uv
#print axioms NS.Fl.C115_exact_arithmetic
#print axioms NS.Fl.C116_nurbs_patch_derivative_u
#print axioms NS.Fl.C116_nurbs_patch_derivative_v
#print axioms NS.Fl.C116_exact_arithmetic_u
#print axioms NS.Fl.C116_exact_arithmetic_v
#print axioms NS.Fl.C117_nurbs_patch_u_constant
#print axioms NS.Fl.C117_nurbs_patch_v_constant
#print axioms NS.Fl.C117_bspline_patch_uu_low
#print axioms NS.Fl.C117_bspline_patch_vv_low
#print axioms NS.Fl.C117_nurbs_patch_uu_linear
#print axioms NS.Fl.C117_nurbs_patch_vv_linear
#print axioms NS.Fl.C117_bspline_patch_uu
#print axioms NS.Fl.C117_bspline_patch_vv
#print axioms NS.Fl.C117_nurbs_patch_uu
#print axioms NS.Fl.C117_nurbs_patch_vv
#print axioms NS.Fl.C117_exact_arithmetic_uu
#print axioms NS.Fl.C117_exact_arithmetic_vv
#print axioms NS.Fl.C118_nurbs_patch_constant_u
#print axioms NS.Fl.C118_nurbs_patch_constant_v
#print axioms NS.Fl.C118_bspline_patch_uv_constant
#print axioms NS.Fl.C118_bspline_patch_uv
#print axioms NS.Fl.C118_nurbs_patch_uv
#print axioms NS.Fl.C118_exact_arithmetic
