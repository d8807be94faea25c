{"id": "C01", "title": "Bezier evaluate is the Bernstein sum", "statement": "For a non-periodic Bezier curve with control points P_0..P_n (any degree n>=0), evaluate(t) returns exactly sum_i C(n,i) t^i (1-t)^(n-i) P_i, without throwing and without any out-of-range access. With no control points the call never returns a point computed from valid memory.", "quantifier": "every degree n, every control polygon, every scalar t (also outside [0,1])", "why_tests_cant": "Tests check a handful of degrees and sampled t; the in-place triangular loop could be wrong at any other degree or index.", "anchors": ["include/nanospline/Bezier.h: Bezier::evaluate, blossom, deBoor"]}
{"id": "C02", "title": "Fixed-degree Bezier classes agree with the generic class", "statement": "For degrees 0,1,2,3 the specialised classes return the same evaluate / evaluate_derivative / evaluate_2nd_derivative values as the generic implementation holding the same control points and the same periodic flag.", "quantifier": "all control points, all t, all flag settings", "why_tests_cant": "Equality of two implementations over all reals cannot be sampled; the periodic flag combination is not exercised.", "anchors": ["include/nanospline/Bezier.h: Bezier<_,_,0,false>, <_,_,1,false>, <_,_,2,false>, <_,_,3,false>"]}
{"id": "C03", "title": "Endpoint interpolation and convex hull of Bezier curves", "statement": "evaluate(0) is the first control point, evaluate(1) the last, and for t in [0,1] evaluate(t) is a convex combination of the control points; in particular every closed half-space (and coordinate box) containing the control points contains the curve.", "quantifier": "every degree, polygon, and t in [0,1]", "why_tests_cant": "Convex-hull containment is a statement about a continuum of parameters.", "anchors": ["include/nanospline/Bezier.h: evaluate", "include/nanospline/save_svg.h: bounding box from control points"]}
{"id": "C04", "title": "Affine invariance of evaluation", "statement": "Applying an affine map to all control points and then evaluating gives the affine map of the evaluated point, for Bezier, B-spline, rational Bezier and NURBS curves and patches (weights unchanged).", "quantifier": "every affine map, every curve, every parameter", "why_tests_cant": "Universally quantified over maps and curves.", "anchors": ["include/nanospline/Bezier.h: evaluate", "include/nanospline/BSpline.h: evaluate", "include/nanospline/RationalBezier.h: evaluate", "include/nanospline/NURBS.h: evaluate", "include/nanospline/BezierPatch.h: evaluate", "include/nanospline/BSplinePatch.h: evaluate", "include/nanospline/RationalBezierPatch.h: evaluate", "include/nanospline/NURBSPatch.h: evaluate"]}
{"id": "C05", "title": "Bezier evaluate_derivative is the derivative of evaluate", "statement": "For every non-periodic Bezier curve, t |-> evaluate(t) is differentiable at every t and its derivative is evaluate_derivative(t); same for evaluate_2nd_derivative with respect to evaluate_derivative.", "quantifier": "every degree including 0 and 1, every polygon, every t", "why_tests_cant": "Tests compare with finite differences at tolerance, at sampled parameters only.", "anchors": ["include/nanospline/Bezier.h: evaluate_derivative, evaluate_2nd_derivative, get_derivative_coefficients"]}
{"id": "C06", "title": "Bezier hodograph evaluates to the derivative", "statement": "compute_hodograph(curve).evaluate(t) equals curve.evaluate_derivative(t) for every t; the hodograph of a degree-0 curve is a zero point; applying it twice yields evaluate_2nd_derivative.", "quantifier": "every degree, polygon, t", "why_tests_cant": "Same as above.", "anchors": ["include/nanospline/hodograph.h: compute_hodograph(Bezier)"]}
{"id": "C07", "title": "Bezier split reproduces the curve", "statement": "For 0<t<1, split(t) returns two curves A,B of the same degree with A(s)=C(t s) and B(s)=C(t+(1-t)s) for all s, hence A(1)=B(0)=C(t). Outside (0,1) the member split returns just the curve itself.", "quantifier": "every degree, polygon, split point, s", "why_tests_cant": "Reparametrisation identity over a continuum; the in-place algorithm overwrites its own input.", "anchors": ["include/nanospline/Bezier.h: Bezier::split", "include/nanospline/CurveBase.h: is_split_point_valid"]}
{"id": "C08", "title": "Free function split(curve,t) is total on the domain and rejects everything else", "statement": "split(curve,t) throws exactly when t is outside the (epsilon-enlarged) domain, returns the single curve at the end points, and otherwise returns two pieces; no accepted t leads to an out-of-range access.", "quantifier": "every curve and every t, including t within epsilon outside the domain", "why_tests_cant": "The failing window is a set of width machine-epsilon.", "anchors": ["include/nanospline/split.h: split(Bezier)", "include/nanospline/BezierBase.h: in_domain"]}
{"id": "C09", "title": "subcurve(t0,t1) is the restriction of the curve", "statement": "For 0<=t0<=t1<=1 subcurve(t0,t1) returns the curve S with S(s)=C(t0+(t1-t0)s); arguments out of order or out of range throw. This holds for the generic class and for every fixed-degree class.", "quantifier": "every degree, polygon, t0, t1, s", "why_tests_cant": "A test with t0=0 or one lucky pair does not distinguish the right formula from a wrong one.", "anchors": ["include/nanospline/Bezier.h: subcurve (generic, degree 1, 2, 3)"]}
{"id": "C10", "title": "Degree elevation preserves the curve", "statement": "elevate_degree() returns a curve of degree one higher that evaluates to the same point at every parameter, for Bezier (generic and degree 0..3), rational Bezier curves.", "quantifier": "every degree, polygon, weight vector, t", "why_tests_cant": "Identity of polynomials for all degrees.", "anchors": ["include/nanospline/Bezier.h: elevate_degree", "include/nanospline/RationalBezier.h: elevate_degree"]}
{"id": "C11", "title": "Periodic evaluation folds the parameter into the domain", "statement": "With the periodic flag set, evaluate(t) equals evaluate at a parameter t' that lies in [t_min,t_max) and differs from t by an integer multiple of the period t_max-t_min, for every finite t (also negative); evaluate is t_max-t_min periodic.", "quantifier": "every t, every domain with t_min<t_max", "why_tests_cant": "Unbounded t; sign conventions of fmod.", "anchors": ["include/nanospline/CurveBase.h: unwrap_parameter", "include/nanospline/PatchBase.h: unwrap_parameter_u, unwrap_parameter_v"]}
{"id": "C12", "title": "Knot span lookup is total, in range and brackets the parameter", "statement": "For a valid non-decreasing knot vector and any t, the located span k satisfies degree<=k<=num_control_points-1, knots[k]<knots[k+1], knots[k]<=t<knots[k+1] for t inside the domain (the first/last non-empty span below/at the ends), with no out-of-range access, and the search terminates.", "quantifier": "every knot vector (any multiplicities, any length), every t", "why_tests_cant": "Binary search boundary behaviour with repeated knots.", "anchors": ["include/nanospline/BSplineBase.h: locate_span, get_multiplicity"]}
{"id": "C13", "title": "B-spline evaluate is the Cox-de Boor sum", "statement": "For every B-spline with valid knots, evaluate(t) equals sum_i N_{i,p}(t) P_i with the recursive Cox-de Boor basis, for every t in the domain (at the upper end the basis of the last non-empty span).", "quantifier": "every degree, knot vector with any multiplicity, control polygon, t in the domain", "why_tests_cant": "Tests sample a few knot vectors.", "anchors": ["include/nanospline/BSpline.h: evaluate, blossom, deBoor"]}
{"id": "C14", "title": "Local control, partition of unity and convex hull for B-splines", "statement": "On [knots[k],knots[k+1]) the value depends only on control points k-p..k, the basis values are non-negative and sum to 1, so the point is a convex combination of those control points.", "quantifier": "every spline, every t, every modification of other control points", "why_tests_cant": "Quantifies over all other control polygons.", "anchors": ["include/nanospline/BSpline.h: get_knot_span_control_points, evaluate"]}
{"id": "C15", "title": "B-spline evaluate_derivative is the (one-sided) derivative", "statement": "At every parameter of the domain that is not a knot evaluate is differentiable with derivative evaluate_derivative(t); at a knot (below the upper end) evaluate_derivative is the right derivative; at the upper end it is the left derivative. Same for evaluate_2nd_derivative versus evaluate_derivative. For a periodic spline this holds at every real parameter, with right derivatives at the knots and at the seam.", "quantifier": "every spline, every t in the domain (every real t if periodic)", "why_tests_cant": "Continuum of parameters, arbitrary multiplicities.", "anchors": ["include/nanospline/BSpline.h: evaluate_derivative, evaluate_2nd_derivative, get_derivative_coefficients"]}
{"id": "C16", "title": "B-spline hodograph evaluates to the derivative", "statement": "compute_hodograph(spline) is a valid spline of degree p-1 on the same domain and evaluates to evaluate_derivative(t) at every t of the domain.", "quantifier": "every spline, every t", "why_tests_cant": "Same as above.", "anchors": ["include/nanospline/hodograph.h: compute_hodograph(BSpline)"]}
{"id": "C17", "title": "Knot insertion never changes the curve", "statement": "insert_knot(t,m) with t in the domain and multiplicity bound respected adds exactly m knots equal to t, keeps knots sorted, keeps degree and domain, adds m control points, and the resulting spline evaluates to the same point everywhere on the domain; any sequence of insertions does.", "quantifier": "every spline, t, m, and every sequence of insertions, every evaluation parameter", "why_tests_cant": "Sequence of operations and all parameters.", "anchors": ["include/nanospline/BSplineBase.h: insert_knot"]}
{"id": "C18", "title": "Knot removal bookkeeping and inversion", "statement": "remove_knot(t,m,tol) returns 0 and leaves the curve untouched if t is not an interior knot; it removes exactly the returned number (<=m) of knots and control points; removing with any non-negative tolerance what insert_knot just inserted restores the original curve.", "quantifier": "every spline, t, m, tolerance", "why_tests_cant": "Inversion law over all splines.", "anchors": ["include/nanospline/BSplineBase.h: remove_knot"]}
{"id": "C19", "title": "B-spline split reproduces the curve", "statement": "split(spline,t) for t strictly inside the domain returns two valid splines with domains [t_min,t] and [t,t_max], each evaluating to the original curve on its own domain; at an end point it returns the curve; outside it throws.", "quantifier": "every spline, t, evaluation parameter", "why_tests_cant": "Index arithmetic depends on multiplicity of t in the knot vector.", "anchors": ["include/nanospline/split.h: split(BSpline), split(NURBS)"]}
{"id": "C20", "title": "B-spline to Bezier conversion reproduces each span", "statement": "convert_to_Bezier returns one Bezier per non-empty knot span and the increasing list of span bounds, starting/ending at the domain bounds, and piece i evaluated at s equals the spline at (1-s) b_i + s b_(i+1).", "quantifier": "every spline, every span, every s", "why_tests_cant": "Number of spans unbounded.", "anchors": ["include/nanospline/BSpline.h: convert_to_Bezier", "include/nanospline/conversion.h: convert_to_Bezier"]}
{"id": "C21", "title": "Bezier to B-spline conversion preserves evaluation", "statement": "convert_to_BSpline(bezier) has domain [0,1], the same degree and evaluates identically on it.", "quantifier": "every degree, polygon, t in [0,1]", "why_tests_cant": "All degrees.", "anchors": ["include/nanospline/conversion.h: convert_to_BSpline(Bezier)"]}
{"id": "C22", "title": "Combining Beziers into a B-spline", "statement": "The constructor from a non-empty list of equal-degree Beziers and strictly increasing bounds produces a spline whose value on [b_i,b_(i+1)) is piece i; an empty list throws.", "quantifier": "every list length, degree, bounds", "why_tests_cant": "Unbounded number of pieces.", "anchors": ["include/nanospline/BSpline.h: combine_Beziers"]}
{"id": "C23", "title": "Rational curves keep their homogeneous copy in sync", "statement": "After initialize(), any sequence of set_control_point / set_weight (/ set_knot for NURBS) calls with in-range indices leaves a state in which evaluating gives the same as re-initialising from the visible control points, weights and knots; get_control_point/get_weight return the last value written.", "quantifier": "every sequence of operations", "why_tests_cant": "Histories of unbounded length.", "anchors": ["include/nanospline/RationalBezier.h: set_control_point, set_weight, initialize", "include/nanospline/NURBS.h: set_control_point, set_weight, set_knot, initialize"]}
{"id": "C24", "title": "Rational evaluation is the weighted quotient and is scale invariant", "statement": "RationalBezier::evaluate(t) = sum w_i B_i P_i / sum w_i B_i whenever the denominator is non-zero; multiplying all weights by a common non-zero factor changes nothing; equal weights reduce to the polynomial curve; the same for NURBS with B-spline basis.", "quantifier": "every polygon, weights, t, factor", "why_tests_cant": "Continuum.", "anchors": ["include/nanospline/RationalBezier.h: evaluate", "include/nanospline/NURBS.h: evaluate"]}
{"id": "C25", "title": "Rational derivatives obey the quotient rule", "statement": "RationalBezier / NURBS evaluate_derivative and evaluate_2nd_derivative are the true first and second derivatives of evaluate wherever the denominator is non-zero.", "quantifier": "every curve, t", "why_tests_cant": "Finite difference tests are approximate.", "anchors": ["include/nanospline/RationalBezier.h: evaluate_derivative, evaluate_2nd_derivative", "include/nanospline/NURBS.h"]}
{"id": "C26", "title": "Rational/polynomial conversions are faithful", "statement": "convert_to_RationalBezier(bezier) / convert_to_NURBS(bspline) evaluate like the source; convert_to_Bezier(rational)/convert_to_BSpline(nurbs) succeed exactly when all weights equal the first one (exact comparison) and throw invalid_setting_error otherwise, and when they succeed evaluate like the source; converting there and back returns the same control points.", "quantifier": "every curve and weight vector", "why_tests_cant": "All weight vectors.", "anchors": ["include/nanospline/conversion.h"]}
{"id": "C27", "title": "Uninitialised or inconsistent rational curves throw", "statement": "evaluate, derivatives, set_control_point, set_weight, elevate_degree on a rational curve throw invalid_setting_error exactly when the numbers of control points, weights and homogeneous points disagree or the periodic flags disagree; never UB in that case.", "quantifier": "every state reachable by setters in any order", "why_tests_cant": "Histories.", "anchors": ["include/nanospline/RationalBezier.h: validate_initialization", "include/nanospline/NURBS.h: validate_initialization"]}
{"id": "C28", "title": "Bezier patch evaluation is the tensor Bernstein sum irrespective of direction order", "statement": "For every degree pair the patch value is sum_ij B_i(u) B_j(v) P_ij whatever order of iso-curves the implementation chooses; corners are interpolated.", "quantifier": "every degree pair, grid, (u,v)", "why_tests_cant": "Branch on degree comparison; all degree pairs.", "anchors": ["include/nanospline/BezierPatch.h: evaluate, compute_iso_curve_u, compute_iso_curve_v"]}
{"id": "C29", "title": "Bezier patch partial derivatives are the true partials", "statement": "evaluate_derivative_u/v and the three second derivatives are the partial derivatives of evaluate, for every degree pair including 0 and 1.", "quantifier": "every patch and (u,v)", "why_tests_cant": "Continuum.", "anchors": ["include/nanospline/BezierPatch.h: evaluate_derivative_u, evaluate_derivative_v, evaluate_2nd_derivative_*"]}
{"id": "C30", "title": "Bezier patch split and subpatch are restrictions", "statement": "split_u / split_v / split return pieces in the documented order, each reproducing the patch on its sub-rectangle; subpatch(u0,u1,v0,v1) reproduces the patch on that rectangle; all for fixed and dynamic degree patches.", "quantifier": "every patch, split values, sub-rectangle", "why_tests_cant": "Continuum.", "anchors": ["include/nanospline/BezierPatch.h: split_u, split_v, split, subpatch"]}
{"id": "C31", "title": "B-spline patch evaluation is the tensor B-spline sum", "statement": "After initialize(), BSplinePatch::evaluate(u,v) equals sum_ij N_i(u) N_j(v) P_ij irrespective of the iso-curve order.", "quantifier": "every patch and (u,v) in the domain", "why_tests_cant": "Continuum; branch on degrees.", "anchors": ["include/nanospline/BSplinePatch.h: evaluate, initialize"]}
{"id": "C32", "title": "Setting a control point or knot of a B-spline patch is reflected by evaluate", "statement": "After set_control_point / set_knot_u / set_knot_v on an initialised B-spline (or NURBS) patch, evaluate reflects the new data.", "quantifier": "every history of setter calls", "why_tests_cant": "Cache staleness depends on history.", "anchors": ["include/nanospline/BSplinePatch.h: initialize", "include/nanospline/PatchBase.h: set_control_point", "include/nanospline/NURBSPatch.h"]}
{"id": "C33", "title": "Control grid addressing is a bijection with frame law", "statement": "set_control_point(i,j,p) followed by get_control_point(i',j') returns p if (i',j')=(i,j) and the previous value otherwise, for all in-range indices, and addresses every row of the grid exactly once.", "quantifier": "every grid size, all index pairs, all histories", "why_tests_cant": "Histories and sizes.", "anchors": ["include/nanospline/PatchBase.h: get_control_point, set_control_point, get_linear_index"]}
{"id": "C34", "title": "Newton refinement and inverse evaluation stay in the requested box", "statement": "CurveBase::newton_raphson, PatchBase::newton_raphson and PatchBase::inverse_evaluate return parameters inside the requested range whenever the start is inside, for every curve/patch (also badly behaved ones) and any number of iterations; the distance to the query at the returned parameter is never larger than at the start (curves).", "quantifier": "every curve (as an arbitrary function), query, start, iteration count, tolerance", "why_tests_cant": "Arbitrary user curves and unbounded iteration counts.", "anchors": ["include/nanospline/CurveBase.h: newton_raphson", "include/nanospline/PatchBase.h: newton_raphson, inverse_evaluate"]}
{"id": "C35", "title": "Sampling-based inverse evaluation stays in range", "statement": "CurveBase::approximate_inverse_evaluate returns a parameter in [lower,upper] for any curve, any number of samples >0, any recursion level, and is at least as close to the query as each of its first-round samples.", "quantifier": "every curve function, query, range, level", "why_tests_cant": "Recursion depth and arbitrary curves.", "anchors": ["include/nanospline/CurveBase.h: approximate_inverse_evaluate"]}
{"id": "C36", "title": "Line inverse evaluation is the exact closest point", "statement": "Line::inverse_evaluate and degree-1 Bezier::inverse_evaluate return the parameter in the domain minimising the distance to the query; Line::in_domain accepts exactly the closed parameter range, i.e. the parameters that inverse evaluation of their point gives back, and the derivative functions of a line are the derivatives of evaluate.", "quantifier": "every segment with distinct end points, every query", "why_tests_cant": "Continuum of competitors.", "anchors": ["include/nanospline/Line.h: inverse_evaluate, approximate_inverse_evaluate", "include/nanospline/Bezier.h: degree-1 inverse_evaluate"]}
{"id": "C37", "title": "Circle and ellipse: implicit equation and exact derivatives", "statement": "Every evaluated point of a circle/ellipse with orthonormal frame satisfies the implicit equation; evaluate_derivative and evaluate_2nd_derivative are the true derivatives; the circle inverse evaluation on the full range returns the closest point and inverts evaluate.", "quantifier": "every centre, radii, frame, t, query", "why_tests_cant": "Continuum.", "anchors": ["include/nanospline/Circle.h", "include/nanospline/Ellipse.h"]}
{"id": "C38", "title": "Plane inverse evaluation", "statement": "Plane::inverse_evaluate returns, inside the given box, the parameters of the point of the (bounded) plane patch closest to the query, and inverts evaluate on the box.", "quantifier": "every frame accepted by initialize, every query, every box", "why_tests_cant": "All frames, including non-orthogonal ones that initialize accepts.", "anchors": ["include/nanospline/Plane.h: inverse_evaluate, initialize"]}
{"id": "C39", "title": "Analytic patches: true partial derivatives", "statement": "For Plane, Cylinder, Cone, Sphere and Torus all five partial derivative functions are the true partial derivatives of evaluate.", "quantifier": "every frame, radii, angle, (u,v)", "why_tests_cant": "Continuum.", "anchors": ["include/nanospline/Plane.h", "include/nanospline/Cylinder.h", "include/nanospline/Cone.h", "include/nanospline/Sphere.h", "include/nanospline/Torus.h"]}
{"id": "C40", "title": "Analytic patches: points lie on the surface and inverse evaluation inverts evaluate", "statement": "Points produced by evaluate satisfy the implicit equation of the cylinder/cone/sphere/torus, and inverse_evaluate(evaluate(u,v)) over a box containing (u,v) yields parameters that evaluate to the same point.", "quantifier": "every orthonormal frame, radii, (u,v)", "why_tests_cant": "Continuum; branch cuts of atan2.", "anchors": ["include/nanospline/Cylinder.h", "include/nanospline/Cone.h", "include/nanospline/Sphere.h", "include/nanospline/Torus.h", "include/nanospline/PatchBase.h: clip_periodic_parameter"]}
{"id": "C41", "title": "Clipping of periodic parameters", "statement": "clip_periodic_parameter(u,lo,hi,period) with lo<=hi returns a value in [lo,hi]; if some u+k*period lies in [lo,hi] the result is congruent to u modulo the period; otherwise it is the nearer end.", "quantifier": "every u, lo<=hi, period>0", "why_tests_cant": "Unbounded number of wraps.", "anchors": ["include/nanospline/PatchBase.h: clip_periodic_parameter"]}
{"id": "C42", "title": "Surface of revolution derivatives and symmetry", "statement": "RevolutionPatch with unit axis: rotating by u preserves the distance to and the coordinate along the axis; the five partial derivative functions are the true partials given those of the profile; a missing profile throws.", "quantifier": "every profile curve, axis, location, (u,v)", "why_tests_cant": "Continuum.", "anchors": ["include/nanospline/RevolutionPatch.h"]}
{"id": "C43", "title": "Extrusion patch inverse evaluation", "statement": "ExtrusionPatch derivatives are true partials; inverse_evaluate applied to a point evaluate(u,v) of the patch returns the v it came from once the profile parameter is found, and always returns parameters in the box.", "quantifier": "every profile, location, unit direction, (u,v)", "why_tests_cant": "All locations, in particular non-zero ones.", "anchors": ["include/nanospline/ExtrusionPatch.h"]}
{"id": "C44", "title": "Offset patch lies at the offset distance and has true first derivatives", "statement": "OffsetPatch::evaluate is at distance |offset| from the base surface point along its unit normal at regular points; evaluate_derivative_u/v are the true partial derivatives; the second derivative functions are within the variation of the true second derivatives over one difference step.", "quantifier": "every base patch with regular parametrisation at (u,v), every offset", "why_tests_cant": "Continuum of base patches.", "anchors": ["include/nanospline/OffsetPatch.h"]}
{"id": "C45", "title": "Gauss quadrature exactness", "statement": "Quadrature<N>::integrate equals the integral for every polynomial integrand of degree <= 2N-1 on every interval, N=2..5; other N throw.", "quantifier": "every polynomial up to that degree and every interval", "why_tests_cant": "Infinite-dimensional/continuum quantifier over integrands and intervals.", "anchors": ["include/nanospline/Quadrature.h"]}
{"id": "C46", "title": "Closed-form root finder is sound and complete", "statement": "find_real_roots_in_interval for degree<=2 returns only values in [t0,t1]; away from the tolerance bands every returned value is a root and every root in the interval is returned; it throws infinite_root_error exactly when all coefficients are below tolerance. In higher degrees, given exact eigenvalues of the companion matrix, every root in the interval is returned and every returned value is the real part of a complex root whose modulus differs from it by at most the tolerance.", "quantifier": "every coefficient vector, interval, tolerance >= 0", "why_tests_cant": "Degenerate leading coefficients and discriminants.", "anchors": ["include/nanospline/PolynomialRootFinder.h"]}
{"id": "C47", "title": "Arc length of constant-speed curves is exact", "statement": "arc_length(curve,t0,t1) of a curve with constant speed c is c(t1-t0) at every level; more generally integrating a polynomial speed of low degree is exact.", "quantifier": "every speed, interval, level", "why_tests_cant": "All levels and integrands.", "anchors": ["include/nanospline/arc_length.h: romberg, arc_length"]}
{"id": "C48", "title": "intersect reports convergence only at an intersection", "statement": "For all three intersect overloads, a returned converged=true implies the returned parameters satisfy the tolerance (plane residual below tol in absolute value, or curve-patch distance below tol), whatever the curve, patch, start and iteration count.", "quantifier": "every curve/patch (arbitrary functions), start, iteration count, tolerance", "why_tests_cant": "Arbitrary shapes and iteration counts.", "anchors": ["include/nanospline/intersect.h"]}
{"id": "C49", "title": "Uniform sampling", "statement": "sample(curve,N,...,UNIFORM_DOMAIN,min,max) returns the requested number of parameters, all in [min,max], non-decreasing, first=min and last=max; adaptive sampling returns parameters in range that include the ends; UNIFORM_RANGE samples start at min_t.", "quantifier": "every curve, N, range", "why_tests_cant": "All N.", "anchors": ["include/nanospline/sample.h"]}
{"id": "C50", "title": "OBJ export indices are valid", "statement": "In the file written by save_obj for any list of curves (save_patch_obj for any list of patches) every vertex index in an l/f record refers to a vertex of the curve (patch) that the record belongs to.", "quantifier": "every list length", "why_tests_cant": "Lists longer than the tested ones.", "anchors": ["include/nanospline/save_obj.h: export_obj, save_obj, export_patch_obj"]}
{"id": "C51", "title": "MSH save/load round trip", "statement": "Writing any 3D Bezier, rational Bezier, B-spline or NURBS curve or patch with add_curve/add_patch and loading the record again yields an object with the same type, degree, control points, weights and knots, hence the same evaluation (periodicity included).", "quantifier": "every such curve/patch, any sizes", "why_tests_cant": "All sizes and types.", "anchors": ["include/nanospline/save_msh.h: add_curve, add_patch", "include/nanospline/load_msh.h"]}
{"id": "C52", "title": "MSH sampled mesh tags are unique and consistent", "statement": "After any sequence of add_curve_sampled/add_patch_sampled, node tags are exactly 1..max_node_tag without repetition, element tags exactly 1..max_element_tag, every element refers to existing node tags, and the header minimum tags are correct.", "quantifier": "every sequence of curves and patches and sample counts", "why_tests_cant": "Sequences.", "anchors": ["include/nanospline/save_msh.h: add_curve_sampled, add_patch_sampled"]}
{"id": "C53", "title": "Bezier simplex multi-index enumeration", "statement": "The multi-indices generated for (simplex dimension s, degree d) are exactly the (s+1)-tuples of naturals summing to d, each once, in descending lexicographic order, and their number is the value used to size the arrays.", "quantifier": "every s and d", "why_tests_cant": "All dimensions and degrees.", "anchors": ["include/nanospline/BezierSimplex.h: choose, generate_multi_indices"]}
{"id": "C54", "title": "Bezier simplex evaluation and derivatives", "statement": "evaluate(b) is the multivariate Bernstein form; with barycentric coordinates summing to one the basis is a partition of unity; vertices interpolate; evaluate_directional_derivative is the directional derivative.", "quantifier": "every s, d, ordinates, b, direction", "why_tests_cant": "Continuum.", "anchors": ["include/nanospline/BezierSimplex.h: evaluate, evaluate_bernstein, evaluate_directional_derivative"]}
{"id": "C55", "title": "Bezier simplex degree elevation and fitting", "statement": "elevate_degree preserves evaluation at every barycentric point (coordinates summing to 1); fit(samples) yields a simplex interpolating the samples at its control points.", "quantifier": "every s, d, ordinates", "why_tests_cant": "All dimensions.", "anchors": ["include/nanospline/BezierSimplex.h: elevate_degree, fit, compute_coeff_matrix"]}
{"id": "C56", "title": "Least-squares matrices contain basis values", "statement": "form_least_squares_matrix(params) of Bezier, B-spline (and patches) has in row r exactly the basis values at params[r]: multiplying it by the control points gives evaluate(params[r]); a fit reproducing samples taken from a curve of the same space is consistent with those control points.", "quantifier": "every parameter list, degree, knot vector", "why_tests_cant": "All sizes.", "anchors": ["include/nanospline/Bezier.h: form_least_squares_matrix, fit, deform", "include/nanospline/BSpline.h: form_least_squares_matrix"]}
{"id": "C57", "title": "Generated polynomials for singularities, inflections and tangents are the right ones", "statement": "The coefficient lists passed to the root finder in the generated headers are the coefficients of |C'(t)|^2 (singularities), of a non-zero multiple of C' x C'' (inflections), and of C'(t).n (tangent matching) for Bezier curves of the supported degrees, and the corresponding polynomials of rational curves.", "quantifier": "all control points (symbolically), all t", "why_tests_cant": "Thousands of symbolic terms; tests sample few curves.", "anchors": ["include/nanospline/internal/auto_singularity_Bezier.h", "include/nanospline/internal/auto_inflection_Bezier.h", "include/nanospline/internal/auto_match_tangent_Bezier.h", "include/nanospline/internal/auto_match_tangent_RationalBezier.h"]}
{"id": "C58", "title": "Curvature formula", "statement": "evaluate_curvature returns the curvature vector: orthogonal to the tangent, with the magnitude of the curvature, invariant under reparametrisation t->a t+b, and zero for straight segments.", "quantifier": "every curve with non-zero velocity", "why_tests_cant": "Continuum.", "anchors": ["include/nanospline/CurveBase.h: evaluate_curvature"]}
{"id": "C59", "title": "Closest control point search", "statement": "PatchBase::find_closest_control_point returns an in-range index pair whose control point minimises the distance to the query over the whole grid.", "quantifier": "every grid and query", "why_tests_cant": "All sizes.", "anchors": ["include/nanospline/PatchBase.h: find_closest_control_point"]}
{"id": "C60", "title": "Closedness test", "statement": "is_closed(r) is true exactly when the positions, for r>=1 also the first and for r>=2 also the second derivatives at both ends of the domain differ by less than the tolerance; orders above 2 behave like 2.", "quantifier": "every curve, order", "why_tests_cant": "All curves.", "anchors": ["include/nanospline/CurveBase.h: is_closed"]}
{"id": "C61", "title": "Cloning preserves observable behaviour", "statement": "clone() of every curve and analytic patch evaluates identically and has the same domain and periodicity as the original.", "quantifier": "every object state", "why_tests_cant": "All states including flag settings.", "anchors": ["include/nanospline/Line.h: clone", "include/nanospline/Circle.h: clone", "include/nanospline/Ellipse.h: clone", "include/nanospline/ExtrusionPatch.h: clone", "include/nanospline/OffsetPatch.h: clone"]}
{"id": "C62", "title": "NURBS operations act on the homogeneous spline", "statement": "insert_knot, split, convert_to_RationalBezier on a NURBS preserve the evaluated curve wherever weights are non-zero, and keep control points, weights and knots consistent with the homogeneous spline.", "quantifier": "every NURBS, t, parameter", "why_tests_cant": "Continuum.", "anchors": ["include/nanospline/NURBS.h: insert_knot, convert_to_RationalBezier, set_homogeneous", "include/nanospline/split.h: split(NURBS)"]}
{"id": "C63", "title": "Rational patches", "statement": "RationalBezierPatch and NURBSPatch evaluate to the weighted tensor quotient, all five partial derivative functions are true partials where the weight is above tolerance, set_weight/set_control_point keep the homogeneous copy in sync (Bezier), and split keeps usable patches for dynamic degree.", "quantifier": "every patch and (u,v)", "why_tests_cant": "Continuum and histories.", "anchors": ["include/nanospline/RationalBezierPatch.h", "include/nanospline/NURBSPatch.h"]}
{"id": "C64", "title": "B-spline patch derivative evaluators are the partial derivatives", "statement": "On an initialised B-spline patch evaluate_derivative_u/v, evaluate_2nd_derivative_uu/vv/uv return the first and second partial derivatives of evaluate (one-sided where the surface is not smooth); for degree 0 in a direction the derivative is zero.", "quantifier": "every patch, every (u,v) in the domain", "why_tests_cant": "Continuum of patches and parameters; derivative patches divide by knot differences that may vanish.", "anchors": ["include/nanospline/BSplinePatch.h: evaluate_derivative_u, compute_du_patch, compute_duv_patch"]}
{"id": "C65", "title": "B-spline patch splits and subpatches reproduce the surface", "statement": "split_u, split_v, split and subpatch return initialised patches whose domains tile the requested ranges and whose values equal those of the original patch there; out-of-domain parameters throw invalid_setting.", "quantifier": "every patch, degree, split parameter and range", "why_tests_cant": "All knot multiplicities, all grid sizes.", "anchors": ["include/nanospline/BSplinePatch.h: split_u, split_v, split, subpatch"]}
{"id": "C66", "title": "Control point preimages reproduce the parameter domain", "statement": "The preimages reported by get_control_point_preimage, used as control points over the same knots, give the identity map of the parameter domain; they are sorted and lie between the knots of their support.", "quantifier": "every knot vector pair and degree >= 1", "why_tests_cant": "Identity over a continuum.", "anchors": ["include/nanospline/BSplinePatch.h: get_control_point_preimage"]}
{"id": "C67", "title": "Ellipse inverse evaluation stays in range and returns a closest point", "statement": "Ellipse::approximate_inverse_evaluate and inverse_evaluate terminate, return a parameter inside the requested range, map symmetric queries to the mirrored parameters, and invert evaluate for every range of parameters.", "quantifier": "every initialised ellipse, query point, parameter range and number of iterations", "why_tests_cant": "An iterative root search over a continuum of queries, axis ratios and ranges.", "anchors": ["include/nanospline/Ellipse.h: approximate_inverse_evaluate, inverse_evaluate"]}
{"id": "C68", "title": "A patch direction reported periodic closes up", "statement": "After initialize of a Cylinder, Cone, Sphere, Torus or RevolutionPatch, get_periodic_u / get_periodic_v of an angular direction is true exactly for ranges that are a whole number of turns, and the two edges of the patch at the ends of such a range coincide up to the tolerance times the local radius. A profile direction (RevolutionPatch v, ExtrusionPatch u) is reported periodic only if its edges coincide up to the tolerance, and an OffsetPatch direction only if it covers the range of a periodic base direction.", "quantifier": "every frame, radius and parameter box", "why_tests_cant": "The flag is computed from a continuum of bounds.", "anchors": ["include/nanospline/Cylinder.h: initialize", "include/nanospline/Cone.h: initialize", "include/nanospline/Sphere.h: initialize", "include/nanospline/Torus.h: initialize", "include/nanospline/RevolutionPatch.h: initialize", "include/nanospline/ExtrusionPatch.h: initialize", "include/nanospline/OffsetPatch.h: initialize"]}
{"id": "C69", "title": "OBJ export of a curve samples its whole domain", "statement": "save_obj(filename, curve) writes points of the curve that start at evaluate(get_domain_lower_bound()) and end at evaluate(get_domain_upper_bound()), every one of them a point of the curve inside its domain.", "quantifier": "every curve and every parameter domain", "why_tests_cant": "Domains and curves form a continuum; a file that looks plausible for [0,1] says nothing about the others.", "anchors": ["include/nanospline/save_obj.h: internal::export_obj, save_obj"]}
{"id": "C70", "title": "MSH sampled nodes lie on the entity, cover the domain and their elements join neighbours", "statement": "When a curve or patch is added to an MSH file with sampling, the i-th node (i,j-th node for a patch) is evaluate at the i-th of the equally spaced parameters from the lower to the upper bound, both bounds included, and the elements are exactly the segments (quads for a patch) between neighbouring samples.", "quantifier": "every curve, patch, domain and number of samples", "why_tests_cant": "Quantifies over all curves, domains and sample counts.", "anchors": ["include/nanospline/save_msh.h: add_curve_sampled, add_patch_sampled"]}
{"id": "C71", "title": "MSH element data views tag every element with its entity", "statement": "The saved MSH file has one element data view per kind of entity (curve, patch); the view of a kind lists every element of that kind exactly once with the tag of the entity it was sampled from, and no other element.", "quantifier": "every list of curves and patches", "why_tests_cant": "Quantifies over lists of any length.", "anchors": ["include/nanospline/save_msh.h: save_msh"]}
{"id": "C72", "title": "Feature searches of piecewise curves lose and invent nothing", "statement": "compute_inflections, compute_singularities and reduce_turning_angle of a B-spline or NURBS over [lower, upper] return the strictly increasing list of the features of its Bezier pieces mapped to the curve parameter; every value lies in [lower, upper], and every feature of a piece that lies in the interval is reported, also at piece boundaries and when the interval starts or ends at a knot.", "quantifier": "every B-spline and NURBS, every interval with lower < upper", "why_tests_cant": "Quantifies over all curves, knot vectors and intervals; the failing interval ends are a measure-zero set random tests never hit.", "anchors": ["include/nanospline/BSpline.h:159-304", "include/nanospline/NURBS.h:158-285"]}
{"id": "C73", "title": "Degree elevation of splines preserves the curve", "statement": "elevate_degree() of a B-spline or NURBS returns a spline of one degree more with the same domain and periodic flag that evaluates to the same point at every parameter of the domain, up to the tolerance with which superfluous knots are dropped; a degree 0 spline is refused.", "quantifier": "every degree, number of control points, knot vector, parameter", "why_tests_cant": "Number of spans, degree and multiplicities are unbounded and the parameter ranges over a continuum.", "anchors": ["include/nanospline/BSpline.h: elevate_degree", "include/nanospline/NURBS.h: elevate_degree"]}
{"id": "C74", "title": "Closest-point search of splines samples every span", "statement": "approximate_inverse_evaluate of a B-spline or NURBS over [lower, upper] returns a parameter of that range, and the point it starts the refinement from is at least as close to the query as each of the 2(degree+1)+1 evenly spaced samples of every knot span met by the range, also when the range of a periodic spline wraps around the end of the domain.", "quantifier": "every spline, degree, knot vector, query point, range and number of refinement rounds", "why_tests_cant": "Spans, samples and refinement rounds are unbounded in number, and closeness must hold for every query point and range.", "anchors": ["include/nanospline/BSplineBase.h:29-96"]}
{"id": "C75", "title": "The turning angle is the rotation of the tangent", "statement": "For a planar curve and a range [t0, t1] on which the tangent does not vanish, get_turning_angle(t0, t1) returns the signed angle (counterclockwise positive, several turns counted) by which the tangent rotates from t0 to t1, for Bezier curves of every degree, rational curves, B-splines, NURBS, lines and circles.", "quantifier": "all planar curves of each class, all ranges in the domain", "why_tests_cant": "The angle is a continuous lift along the whole curve; tests compare a few curves whose control polygons turn less than half a turn, but the statement is about every control polygon, every range relative to the knots and every frame of a circle.", "anchors": ["include/nanospline/CurveBase.h:107-129", "include/nanospline/Bezier.h:141-156", "include/nanospline/Bezier.h:642-651", "include/nanospline/Bezier.h:874-889", "include/nanospline/RationalBezier.h:127-142", "include/nanospline/NURBS.h:194-208", "include/nanospline/BSpline.h:197-226", "include/nanospline/Circle.h:172-179", "include/nanospline/Line.h:129"]}
{"id": "C76", "title": "The patch search guided by control points stays in the requested box and closes in on the query", "statement": "approximate_inverse_evaluate of BezierPatch, RationalBezierPatch, BSplinePatch and NURBSPatch returns for every query point, recursion level and parameter box that overlaps the domain; the guess lies in the box; and as the level grows the guess approaches the parameters of the point of the patch closest to the query.", "quantifier": "all patches of each class, all query points, levels and boxes", "why_tests_cant": "The search recurses on sub-patches of sub-patches chosen by the nearest control point, so each level depends on all the earlier ones; tests run a few patches at the default level and cannot show that no query or box leads the recursion outside the box, into an empty sub-patch or away from the closest point.", "anchors": ["include/nanospline/BezierPatch.h:496-583", "include/nanospline/RationalBezierPatch.h:295-384", "include/nanospline/BSplinePatch.h:621-703", "include/nanospline/NURBSPatch.h:331-414", "include/nanospline/PatchBase.h:144-155"]}
{"id": "C77", "title": "Inverse arc length inverts arc length", "statement": "inverse_arc_length(curve, l) returns a parameter t such that the part of the curve from the start of the domain to t has length l up to the relative tolerance 1e-12; the version for patches returns a point of the parameter segment such that the part of the segment's image up to it has length l.", "quantifier": "all curves of constant speed and all l > 0; all length functions with increasing speed; all numbers of iterations", "why_tests_cant": "the result depends on an iteration over an adaptive quadrature for arbitrary speeds and lengths; tests compare the result with the same quadrature, which hides a common error.", "anchors": ["include/nanospline/arc_length.h:79", "include/nanospline/arc_length.h:106"]}
{"id": "C78", "title": "SVG export draws the whole curve on the page", "statement": "to_svg writes a path with num_samples+1 vertices that are curve points at equally spaced parameters from the lower to the upper domain bound, the first and only the first a move, and one circle per control point if asked; save_svg of one or several planar curves draws all of them with one similarity, and every vertex and every control point disc lies inside the viewBox.", "quantifier": "all curves staying in the hull of their control points (Bezier, B-spline, positive weights), all control points, all sample numbers, offsets and scalings", "why_tests_cant": "there are no tests of the export; the page size depends on the control points and the containment on the convex hull property for every parameter.", "anchors": ["include/nanospline/VectorExport.h:8", "include/nanospline/save_svg.h:13", "include/nanospline/save_svg.h:45"]}
{"id": "C79", "title": "EPS export is a program that paints the curve and its control points", "statement": "The output of to_eps, run by a PostScript interpreter, strokes the polyline of the num_samples+1 curve points at equally spaced parameters and, if asked, fills one disc per control point, without errors or operands left over.", "quantifier": "all planar curves, offsets, scalings, colours and sample numbers", "why_tests_cant": "no test runs the output; the claim is about the meaning of the whole program for every curve.", "anchors": ["include/nanospline/VectorExport.h:58"]}
{"id": "C80", "title": "RevolutionPatch::inverse_evaluate inverts evaluate", "statement": "RevolutionPatch::inverse_evaluate over a box terminates, returns parameters inside the box, and applied to a point evaluate(u,v) of the box it reports success only with parameters that evaluate to that point, for every profile that is not contained in the axis.", "quantifier": "all profiles with a profile inverse that returns closest points, all boxes, all points of the patch", "why_tests_cant": "the search alternates between the angle and the profile parameter starting from an averaged profile point; whether it ends and where depends on the position of the profile relative to the axis, which sample patches do not cover.", "anchors": ["include/nanospline/RevolutionPatch.h:124", "include/nanospline/RevolutionPatch.h:133", "include/nanospline/RevolutionPatch.h:176"]}
{"id": "C81", "title": "End points are reproduced bit by bit in floating point", "statement": "In floating point arithmetic Bezier::evaluate at 0 and 1, BSpline::evaluate of a clamped spline at its domain bounds and BezierPatch::evaluate at the four corners return the corresponding control points bit by bit; RationalBezier::evaluate does so too.", "quantifier": "all rounding modes that are monotone, odd and idempotent (all binary formats without overflow and underflow), all choices of fused multiply-add by the compiler, all degrees, control points and weights", "why_tests_cant": "tests compare with a tolerance and with one compiler and format; watertight joins of curves rely on equality of bits for every curve.", "anchors": ["include/nanospline/Bezier.h:43", "include/nanospline/BSpline.h:72", "include/nanospline/RationalBezier.h:38", "include/nanospline/BezierPatch.h:49"]}
{"id": "C82", "title": "Rounding errors of the evaluators are bounded", "statement": "In floating point arithmetic the evaluators of Bezier curves (point and derivative), B-splines, rational Bezier curves with positive weights and Bezier patches return the exact point up to an explicit multiple of the unit roundoff that depends only on the degree and the size of the control points; the special classes of degree one to three compute the same as the general code up to the contraction of products.", "quantifier": "all rounding modes, all contractions, all degrees, control points, knots with spans above 1e-16 and parameters", "why_tests_cant": "an error bound is a statement about every input; tests with a tolerance see a few.", "anchors": ["include/nanospline/Bezier.h:43", "include/nanospline/Bezier.h:67", "include/nanospline/BSpline.h:72", "include/nanospline/RationalBezier.h:38", "include/nanospline/BezierPatch.h:49"]}
{"id": "C83", "title": "Periodic evaluation accepts every floating point parameter", "statement": "Evaluating a periodic curve at any finite parameter wraps the parameter into the domain without failing the range assertion, and returns what the non-periodic curve returns at the wrapped parameter; for domains starting at zero and parameters that are not negative wrapping is exact.", "quantifier": "all binary formats, all finite parameters, all Bezier curves and B-splines, all domains", "why_tests_cant": "the assertion can fail for single parameters next to the domain through the rounding of three operations.", "anchors": ["include/nanospline/CurveBase.h:203", "include/nanospline/Bezier.h:43", "include/nanospline/BSpline.h:72"]}
{"id": "C84", "title": "Computed curves stay in the range of their control points", "statement": "On the domain every coordinate of the computed point lies between the least and the greatest value of that coordinate at the control points; in particular coordinates of one sign keep it.", "quantifier": "all rounding modes, all contractions, all degrees, control points and parameters of the domain", "why_tests_cant": "exact containment depends on the rounding of every intermediate point for every parameter.", "anchors": ["include/nanospline/Bezier.h:43", "include/nanospline/BSpline.h:72"]}
{"id": "C85", "title": "Splitting in floating point leaves no gaps", "statement": "Splitting a Bezier curve or a B-spline in floating point arithmetic keeps the first and last control point bit by bit, both pieces share the join bit by bit, the join is the point evaluate returns at the split parameter and at the ends of the pieces, and every control point is the exact one up to the rounding error.", "quantifier": "all rounding modes, all contractions, all degrees, control points, knot vectors and split parameters inside the domain", "why_tests_cant": "gaps of a few bits are hidden by tolerances and depend on the compiler.", "anchors": ["include/nanospline/Bezier.h:227", "include/nanospline/Bezier.h:43", "include/nanospline/split.h:49"]}
{"id": "C86", "title": "Sampled and searched parameters stay in their range in floating point", "statement": "In floating point arithmetic uniform sampling returns ordered parameters from the lower to the upper end of the range, and the closest point searches of curves and patches return parameters inside the range they were given, without a failing assertion.", "quantifier": "all rounding modes, ranges, sample counts, recursion levels and all values of the computed distances and Newton steps", "why_tests_cant": "the last sample is off by a bit for some ranges only, and the search may then return it.", "anchors": ["include/nanospline/sample.h:51", "include/nanospline/CurveBase.h:141", "include/nanospline/PatchBase.h:235"]}
{"id": "C87", "title": "Clipping of periodic parameters in floating point", "statement": "Clipping a periodic parameter to a range, as inverse evaluation of cylinders, cones, spheres, tori and surfaces of revolution does with computed angles, returns a parameter of the range without a failing assertion in floating point arithmetic.", "quantifier": "all rounding modes, contractions, parameters, ranges and periods", "why_tests_cant": "the assertion depends on the rounding of a quotient close to an integer.", "anchors": ["include/nanospline/PatchBase.h:424", "include/nanospline/Cylinder.h:85", "include/nanospline/Torus.h:107"]}
{"id": "C88", "title": "Error of NURBS, patches and derivatives in floating point", "statement": "In floating point arithmetic the evaluators of NURBS, B-spline patches, rational patches and NURBS patches and the derivatives of B-splines, rational Bézier curves and NURBS curves succeed on the domain, and every coordinate differs from the exact point of the defining surface or curve by at most an explicit multiple, close to a multiple of the unit roundoff, of the largest control coordinate (of the largest difference quotient for the derivative).", "quantifier": "all rounding modes, contractions, degrees, knot vectors with spans wider than the rounded tolerance, control points, positive weights within the stated condition and parameters", "why_tests_cant": "the bound has to hold for all control points and for every choice of fused operations a compiler may make.", "anchors": ["include/nanospline/BSpline.h:94", "include/nanospline/NURBS.h:51", "include/nanospline/NURBS.h:63", "include/nanospline/RationalBezier.h:50", "include/nanospline/BSplinePatch.h:45", "include/nanospline/RationalBezierPatch.h:46", "include/nanospline/NURBSPatch.h:46"]}
{"id": "C89", "title": "Machine integers of Bezier simplices", "statement": "For every simplex dimension and degree that the template parameters admit, the number of control points, the multi-indices, evaluation, directional derivatives and degree elevation computed with 8-bit, 32-bit and 64-bit integers are those of the mathematical definition; no integer overflows or wraps around.", "quantifier": "all dimensions, degrees, ordinates and barycentric points", "why_tests_cant": "overflow depends on the pair of dimension and degree, each pair is a different instantiation of the templates and only a handful can be compiled and run.", "anchors": ["include/nanospline/BezierSimplex.h:20", "include/nanospline/BezierSimplex.h:34", "include/nanospline/BezierSimplex.h:52", "include/nanospline/BezierSimplex.h:265", "include/nanospline/BezierSimplex.h:210"]}
{"id": "C90", "title": "Recommended numbers of samples", "statement": "Every patch recommends at least one sample in each direction, neighbouring samples of an angular range are at most ten degrees apart, and save_msh with sampling succeeds for all patches at the recommended numbers.", "quantifier": "all patch classes, profiles, ranges and nestings of offset patches", "why_tests_cant": "patches nest without bound and the recommended number depends on the class of the innermost profile and on a real range; tests run a few of the combinations.", "anchors": ["include/nanospline/PatchBase.h:226", "include/nanospline/ExtrusionPatch.h:200", "include/nanospline/RevolutionPatch.h:256", "include/nanospline/OffsetPatch.h:246", "include/nanospline/save_msh.h:292"]}
{"id": "C91", "title": "Control points are determined by the curve", "statement": "Two Bezier curves, rational Bezier curves with the same non-zero weights, B-spline curves with the same knots, or patches of these kinds that evaluate to the same points on any interval have the same control points (for B-splines: those whose basis function is not identically zero on the domain), so no information is lost or invented by evaluation.", "quantifier": "all degrees, knot vectors, control points, and all infinite sets of parameters", "why_tests_cant": "injectivity compares all pairs of curves; a test compares the few it builds.", "anchors": ["include/nanospline/Bezier.h:43", "include/nanospline/BSpline.h:72", "include/nanospline/RationalBezier.h:38", "include/nanospline/BezierPatch.h:49", "include/nanospline/BSplinePatch.h:60"]}
{"id": "C92", "title": "Editing operations compose", "statement": "A subcurve of a subcurve is the subcurve of the composed interval, the pieces of split are the two subcurves, splitting three ways does not depend on the order (also for B-spline curves, where the three parts have the same knots and control points whenever the knots are clamped), elevation commutes with subcurve and split, inserting two knots in either order gives the same curve with the same control points, conversion of a B-spline to Bezier pieces is not changed by earlier knot insertion at the piece boundaries, and converting a Bezier curve to a B-spline and back returns it unchanged.", "quantifier": "all curves, degrees, parameters and sequences of insertions", "why_tests_cant": "the laws relate control points of two different sequences of operations for all parameters; tests try one or two sequences.", "anchors": ["include/nanospline/split.h:15", "include/nanospline/split.h:50", "include/nanospline/Bezier.h:309", "include/nanospline/BSplineBase.h:137", "include/nanospline/BSpline.h:330"]}
{"id": "C93", "title": "Smoothness at knots", "statement": "Where an interior knot of a B-spline or NURBS curve of degree p (with positive weights) has multiplicity m <= p, the evaluated curve has p - m continuous derivatives there, and evaluate_derivative and evaluate_2nd_derivative are its two-sided derivatives whenever that many derivatives exist; in particular a curve without knots of multiplicity above p is continuous on its closed domain. The same holds for B-spline and NURBS patches in each parameter, and a patch is jointly differentiable to the smaller of the two orders.", "quantifier": "all degrees, knot vectors, multiplicities, control points and positive weights", "why_tests_cant": "continuity and differentiability are limits over all nearby parameters; finite differences at sampled knots cannot establish them.", "anchors": ["include/nanospline/BSpline.h:72", "include/nanospline/BSpline.h:100", "include/nanospline/NURBS.h:51", "include/nanospline/BSplinePatch.h:63", "include/nanospline/NURBSPatch.h:50"]}
{"id": "C94", "title": "Change of parameter and reversal", "statement": "Scaling and shifting the knot vector of a B-spline or NURBS curve describes the same curve at the scaled and shifted parameter, with derivatives divided by the factor and its square; reversing the control points (and weights, and mirroring the knots) runs the curve backwards, with the first derivative negated; reversing the grid of a Bezier patch reverses both directions, and exchanging the directions of a patch exchanges its parameters.", "quantifier": "all degrees, knot vectors, control points, weights, positive factors, shifts and parameters", "why_tests_cant": "the law relates two different objects at every parameter and factor, including periodic wrapping and parameters at knots.", "anchors": ["include/nanospline/BSpline.h:72", "include/nanospline/BSpline.h:100", "include/nanospline/NURBS.h:51", "include/nanospline/Bezier.h:43", "include/nanospline/BezierPatch.h:49", "include/nanospline/BSplinePatch.h:60"]}
{"id": "C95", "title": "Variation diminishing", "statement": "A Bezier or B-spline curve, and a rational Bezier or NURBS curve with positive weights, crosses a hyperplane no more often than its control polygon: if the signed distance changes its sign n times along the evaluated curve, it changes its sign at least n times, starting with the same sign, along the control points. In particular a coordinate that never decreases along the control points never decreases along the curve, and a coordinate that never decreases along a direction of the grid of a B-spline patch never decreases in that parameter.", "quantifier": "all degrees, knot vectors, control points, positive weights, hyperplanes and numbers of crossings", "why_tests_cant": "crossings are counted over all increasing sequences of parameters; a test samples finitely many and cannot bound the number of crossings.", "anchors": ["include/nanospline/Bezier.h:43", "include/nanospline/BSpline.h:72", "include/nanospline/RationalBezier.h:38", "include/nanospline/NURBS.h:51", "include/nanospline/BSplinePatch.h:63"]}
{"id": "C96", "title": "The control polygon bounds length and directions", "statement": "For a Bezier or B-spline curve, and a rational Bezier or NURBS curve with positive weights, a polygon through evaluated points with increasing parameters is never longer than the control polygon, in every norm; so the length of the curve is at most that of its control polygon. The chords between evaluated points lie in every convex cone that contains the edges of the control polygon. Control points placed on a line at the means of their knots evaluate to the line, a Bezier curve is Lipschitz continuous with the degree times its longest control edge, and convex control values over the means of their knots give a convex function.", "quantifier": "all degrees, knot vectors, control points, positive weights, norms, cones, and increasing sequences of parameters of any length", "why_tests_cant": "the length of a curve is a supremum over all inscribed polygons; a test measures one polygon on one curve.", "anchors": ["include/nanospline/Bezier.h:43", "include/nanospline/BSpline.h:72", "include/nanospline/RationalBezier.h:38", "include/nanospline/NURBS.h:51"]}
{"id": "C97", "title": "Ends of curves and edges of patches are those of the outer control points", "statement": "A clamped B-spline or NURBS curve and a Bezier or rational Bezier curve start and end at their first and last control points, and their derivatives there are the stated multiples of the first and last leg of the control polygon. Along an edge, a Bezier, rational Bezier, or clamped B-spline or NURBS patch is the curve of the control points (and weights) of that edge, with its derivatives along the edge; in floating point it is that curve bit by bit, whatever the degree and the number of control points across the edge. So two patches with the same control points along a common edge, run through in the same direction and contracted alike by the compiler, have no gap, and if the legs across the edge are proportional the derivatives across it agree too.", "quantifier": "all degrees, knot vectors, grids, weights, parameters along the edge, and roundings", "why_tests_cant": "a gap between patches is a single bit at a single parameter; tests sample a few parameters with a tolerance.", "anchors": ["include/nanospline/BezierPatch.h:49", "include/nanospline/BSplinePatch.h:63", "include/nanospline/RationalBezierPatch.h:47", "include/nanospline/NURBSPatch.h:49", "include/nanospline/BSpline.h:72", "include/nanospline/NURBS.h:51"]}
{"id": "C98", "title": "Reported types identify the class and saved files load again", "statement": "Two curves (two patches) report the same get_curve_type (get_patch_type) exactly if they are objects of the same class, and the type stored for a saved object is the one it reports. Whenever save_msh accepts lists of curves and patches, load_msh of the written file returns one object per saved one, in order and of the same class.", "quantifier": "all curve and patch classes, all lists of curves and patches in the plane and in space, of any length", "why_tests_cant": "the tests save single spline objects; a single unsupported entry anywhere in a list decides whether the whole file can be read.", "anchors": ["include/nanospline/enums.h:5", "include/nanospline/RationalBezierPatch.h:36", "include/nanospline/save_msh.h:95", "include/nanospline/save_msh.h:232", "include/nanospline/load_msh.h:238", "include/nanospline/load_msh.h:299"]}
{"id": "C99", "title": "Editing in floating point keeps the curve up to rounding", "statement": "In floating point arithmetic insert_knot, the conversion of B-splines to Bezier curves and elevate_degree succeed exactly when they do in exact arithmetic. The knots, intervals and sizes are the exact ones, control points out of reach of the change and end points are kept bit by bit, neighbouring Bezier curves share their join bit by bit, and every other control point is off by at most a bound relative to the largest coordinate. The bound grows with the number of inserted knots only, so after any sequence of insertions the curve and its evaluation stay within it.", "quantifier": "all rounding modes, all contractions, all degrees, knot vectors, control points, knots inserted, and all sequences of insertions", "why_tests_cant": "tests compare a few curves with tolerances; accumulated error, gaps of a few bits and the effect of contraction depend on the history and the compiler.", "anchors": ["include/nanospline/BSplineBase.h:137", "include/nanospline/BSpline.h:329", "include/nanospline/Bezier.h:309"]}
{"id": "C100", "title": "Refining the control polygon converges to the curve", "statement": "The control polygon of a Bezier curve of degree n, read as the piecewise linear curve with its vertices at i/n, is within n/8 times the largest second difference of the control points of the curve at the same parameter. Halving the curve k times with split gives 2^k curves, the m-th of them the curve over [m/2^k, (m+1)/2^k], whose polygons are within a 4^k-th of that distance; raising the degree r times with elevate_degree keeps the curve and brings its polygon within D n (n-1) / (8 (n+r-1)). So for every tolerance some number of halvings, or of elevations, makes the polygons closer to the curve than the tolerance.", "quantifier": "all degrees, control points, lengths of vectors, parameters, numbers of halvings and of elevations, and all tolerances", "why_tests_cant": "it bounds the error for every number of repeated operations and every parameter; tests compare a few sampled points after one operation.", "anchors": ["include/nanospline/Bezier.h:227", "include/nanospline/Bezier.h:267", "include/nanospline/Bezier.h:309"]}
{"id": "C101", "title": "Refining a curve cuts corners of its control polygon", "statement": "insert_knot (inside the domain above its lower end, or at the lower end when the first span is not empty), any sequence of such insertions, elevate_degree, split and convert_to_Bezier return control polygons that are no wilder than the one they started from: no longer in any norm (for split and convert_to_Bezier the sum of the lengths of all pieces is no longer), crossing no line or plane more often, and with edges only in directions that are positive combinations of the old edges. The same holds for the control points of NURBS curves with positive weights under insert_knot. After any insertions the control points belonging to a span are within p*h*B of the points of the curve on that span, where h bounds the differences of nearby neighbouring knots and B the slopes of the original polygon; for clamped curves inserting m equidistant knots brings all of them within any tolerance once m is large enough.", "quantifier": "all degrees, knot vectors, control points, norms, hyperplanes, cones of directions, inserted knots and multiplicities, sequences of insertions, and all tolerances", "why_tests_cant": "the claims are about every polygon, every hyperplane and every history of insertions, and about a limit; tests compare evaluated points after a few insertions.", "anchors": ["include/nanospline/BSplineBase.h:137", "include/nanospline/BSpline.h:329", "include/nanospline/split.h:49", "include/nanospline/Bezier.h:227", "include/nanospline/Bezier.h:309", "include/nanospline/NURBS.h:119"]}
{"id": "C102", "title": "A closest-point search ends within a stated distance of the closest point", "statement": "The searches behind inverse_evaluate cannot miss the closest point by more than a bound known from the control points. On a Bezier curve of degree at least 1 approximate_inverse_evaluate with the default level returns a parameter whose point is farther from the query than the closest point of the range by at most a quarter of the longest edge of the control polygon times the width of the range. On a B-spline curve the excess is at most a quarter of the longest edge plus what the curve can move in the last range. On a patch the sampling search exceeds the closest point of the box by at most the slopes of the patch times half a sampling step (half an edge of the control net for Bezier patches; B-spline, rational Bezier and NURBS patches use one sample more than control points in each direction), and inverse_evaluate keeps this bound whenever it reports that it did not converge.", "quantifier": "all degrees, control points, knot vectors, query points, ranges and boxes in the domain, and all tolerances", "why_tests_cant": "tests query points on a few well-behaved curves, where every search succeeds; the claim bounds the worst case over all curves, patches and query points.", "anchors": ["include/nanospline/CurveBase.h:141", "include/nanospline/BezierBase.h:37", "include/nanospline/BSplineBase.h:29", "include/nanospline/PatchBase.h:235", "include/nanospline/BezierPatch.h:496", "include/nanospline/BSplinePatch.h:621", "include/nanospline/RationalBezierPatch.h:295", "include/nanospline/NURBSPatch.h:331"]}
{"id": "C103", "title": "Straight curves and flat patches are inverted exactly", "statement": "On a curve that runs through the range with constant velocity, in particular a Bezier curve with equally spaced control points on a line, approximate_inverse_evaluate returns the closest point of the range, or one whose distance exceeds the smallest possible by less than the tolerance over the speed. On a flat patch with independent directions, in particular a Bezier patch whose net is an affine image of the regular grid, a B-spline patch or a NURBS patch with equal weights whose net is an affine image of the control point preimages, and a rational Bezier patch that runs through the plane with constant velocities, inverse_evaluate reports convergence and returns the closest point of the box, or a guess that satisfies the tolerances already.", "quantifier": "all degrees, lines and planes in every dimension, speeds, query points, ranges and boxes, numbers of samples, levels, guesses and tolerances", "why_tests_cant": "a test inverts a few points of a few lines; that one step of the refinement is exact, for every direction, speed and position of the query, is an algebraic identity.", "anchors": ["include/nanospline/CurveBase.h:141", "include/nanospline/CurveBase.h:174", "include/nanospline/PatchBase.h:177", "include/nanospline/PatchBase.h:308", "include/nanospline/BezierPatch.h:49", "include/nanospline/BSplinePatch.h:49", "include/nanospline/RationalBezierPatch.h:47", "include/nanospline/NURBSPatch.h:49"]}
{"id": "C104", "title": "Finite curves stay finite; infinities and NaN are never hidden", "statement": "On IEEE numbers with a largest number, gradual underflow, infinities and NaN: evaluating a Bezier curve or patch or a B-spline with finite control points at a finite parameter of the domain returns finite coordinates, even for control points at the ends of the range, within a bound made of a relative rounding part and an absolute underflow part; end points are returned bit by bit. A NaN parameter returns NaN in every coordinate, an infinite one no finite coordinate; a non-finite coordinate of a Bezier control point shows in every point of the curve, and B-splines keep it local. Derivatives and rational curves stay finite as long as differences and products by weights are in range. With rounding out of the picture and a large enough range, the numbers returned are exactly those of the exact curve, derivative, B-spline, patch or rational curve.", "quantifier": "all formats whose rounding is to nearest (IEEE double and single among them), all degrees, all control points and knots of the format, all parameters including the special values, all choices of the compiler to contract products and sums; all formats without rounding and a sufficiently large range for the exact case", "why_tests_cant": "Overflow depends on the exact rounding of products and sums at the end of the range for every parameter and every degree; tests use moderate numbers.", "anchors": ["include/nanospline/Bezier.h:43-86", "include/nanospline/Bezier.h:389-424", "include/nanospline/BSpline.h:72-87", "include/nanospline/BSpline.h:489-525", "include/nanospline/BSplineBase.h:289-325", "include/nanospline/CurveBase.h:203-213", "include/nanospline/BezierPatch.h:49-58", "include/nanospline/RationalBezier.h:38-43"]}
{"id": "C105", "title": "Closest-point searches survive overflow, infinities and NaN", "statement": "On IEEE numbers, whatever infinite or NaN distances and steps occur: the search on a curve over a finite range containing zero (or with distances that do not overflow) returns NaN or a finite parameter of the range up to rounding, never an infinity; on a Bezier curve over [0,1], for any control points and query, NaN or a parameter in [0,1]. The recursive search on a patch always returns a finite pair in the box; the iteration that follows returns NaN or parameters in the box from every initial guess, even infinite or NaN ones. A query with a NaN coordinate is answered by NaN on curves; on patches the iteration returns NaN (and reports convergence), which the assertion of inverse_evaluate rejects. With exact steps and a large enough range the searches return exactly the parameters of the search in exact arithmetic.", "quantifier": "all binary formats with gradual underflow, all finite ranges and boxes of the format, all distances, steps, query points and control points including special values, all numbers of samples and levels", "why_tests_cant": "Tests query near points with moderate coordinates; that no sequence of overflows, infinite steps and NaN comparisons leads out of the range is a statement about every value each intermediate result can take.", "anchors": ["include/nanospline/CurveBase.h:141-201", "include/nanospline/BezierBase.h:37-45", "include/nanospline/PatchBase.h:144-155", "include/nanospline/PatchBase.h:177-194", "include/nanospline/PatchBase.h:235-371"]}
{"id": "C106", "title": "Feature queries of lines, circles and ellipses are complete", "statement": "The empty lists returned by compute_inflections and compute_singularities of a line, a circle or an ellipse are right: over every range the curvature never changes sign and the derivative never vanishes. reduce_turning_angle of a planar circle returns one parameter of the range; the tangent turns by half of the whole angle before it and by half after it, over any number of turns and for frames of both orientations.", "quantifier": "all lines, circles and ellipses accepted by initialize, all ranges", "why_tests_cant": "An empty answer is a claim about every parameter of every curve; tests can only look at some parameters of some curves, with orthonormal frames and positive radii.", "anchors": ["include/nanospline/Line.h:114-127", "include/nanospline/Circle.h:153-170", "include/nanospline/Ellipse.h:221-235"]}
{"id": "C107", "title": "Small changes of control points and weights move the shape by no more", "statement": "If every control point of a Bezier curve or patch or of a B-spline curve or patch is moved by at most e (in any norm), every point of the shape moves by at most e, and the derivative of a Bezier curve of degree n changes by at most 2 n e. For rational Bezier and NURBS curves and patches with positive weights, moving the points by at most e and changing the weights by at most the fraction d < 1 moves no point by more than e + d / (1 - d) D, where D bounds the distances between control points.", "quantifier": "all degrees, knots, control points, weights, norms and sizes of the change, all parameters of the domain", "why_tests_cant": "The bound is uniform over every perturbation and parameter, with a constant that does not grow with the degree or the number of control points; tests compare a few perturbed curves.", "anchors": ["include/nanospline/Bezier.h:43-86", "include/nanospline/BSpline.h:72-87", "include/nanospline/BezierPatch.h:49-58", "include/nanospline/BSplinePatch.h", "include/nanospline/RationalBezier.h:38-43", "include/nanospline/NURBS.h", "include/nanospline/RationalBezierPatch.h", "include/nanospline/NURBSPatch.h"]}
{"id": "C108", "title": "Refining the control net of a patch converges to the patch", "statement": "At the parameters of its grid cells a Bezier patch is within deg_u/8 times the largest second difference of the control points along u plus deg_v/8 times the largest along v of the bilinear interpolation of its control net. split_u at u multiplies the u second differences by at most u^2 and (1-u)^2 and does not increase the v ones (split_v symmetrically), so after k rounds of split(0.5, 0.5) there are 4^k patches of fixed degree, each over its own dyadic square, whose nets are within the first bound divided by 4^k of the patch, hence arbitrarily close.", "quantifier": "for every valid fixed-degree non-periodic Bezier patch, every seminorm on the points, every grid cell and every point in it, every split parameter in (0,1), every number of rounds and every tolerance", "why_tests_cant": "the bound and the convergence concern all points of all 4^k sub-patches for every k", "anchors": ["include/nanospline/BezierPatch.h:49-58", "include/nanospline/BezierPatch.h:331-457"]}
{"id": "C109", "title": "Editing operations of patches compose", "statement": "Splitting a Bezier patch in u and both halves in v gives control point by control point the same four patches as splitting in v and both halves in u, and they are what split(u, v) returns in its documented order; the same holds for rational patches with positive weights, for B-spline patches with any knots, periodic or not, and for NURBS patches with positive weights. Splitting at s and then the first part at r/s gives the same three strips as splitting at r and then the second part at (s-r)/(1-r); for B-spline and NURBS patches with clamped knots the same with the parameters r and s themselves. Taking derivative patches in u and v commutes and agrees with the mixed derivative patch.", "quantifier": "for every valid patch of any degrees (at least one for the splits of B-spline and NURBS patches) in any dimension, all interior split parameters, all positive weights; for derivative patches every valid patch, degree zero included", "why_tests_cant": "equality of objects for all control grids, weights and parameters", "anchors": ["include/nanospline/BezierPatch.h:184-265", "include/nanospline/BezierPatch.h:331-457", "include/nanospline/RationalBezierPatch.h:252-286", "include/nanospline/BSplinePatch.h:397-581", "include/nanospline/NURBSPatch.h:287-321"]}
{"id": "C110", "title": "Queries do not depend on where an object is placed", "statement": "When an object is moved by a rigid motion, every control point alike, or location and frame of a primitive (an affine map that keeps distances, for example a translation, a rotation, a reflection or an embedding into a space of higher dimension), the evaluators return the moved point and the turned derivatives, and every query returns the same answer for the moved object and the moved query: closest-point search with its samples, levels and refinement, refinement from a given start, curvature up to turning, arc length and its inverse along curves and straight lines in the parameter domain of patches, intersection with a moved plane and between moved curves and patches, closedness to any order, and error-driven sampling. Errors and undefined behaviour are the same too. The same holds for the closed-form inverses of lines, circles, ellipses, planes, cylinders, cones, spheres and tori, and for extrusions, revolutions (rotations and translations) and offsets (a reflection changes the sign of the offset). A uniform scaling does not have this property, because tolerances are absolute.", "quantifier": "for every rigid motion between spaces of any dimensions, every Bezier, B-spline, rational Bezier and NURBS curve and patch of any degree with any knots and weights, every primitive and sweep, every query point, bounds, tolerances, iteration counts and levels", "why_tests_cant": "the branches taken inside the iterations must agree for all motions and objects; tests compare a few fixed objects near the origin", "anchors": ["include/nanospline/CurveBase.h:75-219", "include/nanospline/PatchBase.h:60-451", "include/nanospline/arc_length.h", "include/nanospline/intersect.h", "include/nanospline/sample.h", "include/nanospline/BSpline.h", "include/nanospline/Circle.h", "include/nanospline/Ellipse.h", "include/nanospline/RevolutionPatch.h", "include/nanospline/ExtrusionPatch.h", "include/nanospline/OffsetPatch.h"]}
{"id": "C111", "title": "Weights shape rational curves and patches as expected", "statement": "With positive weights, raising one weight moves every point of a rational curve or patch along a straight line towards the control point of that weight and never past it; the fraction of the way is B_i(t)(w'-w_i) divided by the new denominator, so points outside the support of the basis function stay. Multiplying the weights of a rational Bezier curve by 1, k, k^2, ... keeps the curve and only changes its speed: its value at t becomes the old value at kt/(1-t+kt), and for k > 0 the same set of points is drawn. A rational quadratic with positive weights draws exactly the conic arc of its control triangle; if its end legs are tangent to a circle and its weights obey the tangent rule, every value lies on that circle. The nine-point quadratic NURBS with weights 1 and sqrt(1/2) draws exactly the unit circle: no other point and every point of it.", "quantifier": "for every rational Bezier curve and patch and NURBS curve and patch of any degree, size, knots and positive weights, every index, every new weight and every parameter; every factor k, every control triangle and centre", "why_tests_cant": "the statements are about all parameters of a curve and all weights; a test samples a few points within a tolerance and cannot show that a curve misses no point of a circle", "anchors": ["include/nanospline/RationalBezier.h:60-130", "include/nanospline/NURBS.h:60-140", "include/nanospline/RationalBezierPatch.h", "include/nanospline/NURBSPatch.h"]}
{"id": "C112", "title": "Derivative curves commute with editing", "statement": "Editing a curve and taking its derivative curve can be done in either order. The derivative curve of the sub-curve over [a, b] is (b - a) times the sub-curve of the derivative curve, control point by control point; the derivative curves of the two halves of a split at t are t and 1 - t times the halves of the derivative curve; degree elevation commutes with the derivative curve exactly. For B-splines, inserting a knot with multiplicity and taking the derivative curve in either order gives the same knots, the same number of control points, the same flags and the same control points wherever they influence the curve.", "quantifier": "for every Bezier curve of degree at least 1, every sub-interval and split parameter; every well-formed non-periodic B-spline of positive degree, every interior knot value and multiplicity the derivative curve can take", "why_tests_cant": "equality of control points for all degrees, knots and parameters; tests compare single objects at sampled parameters", "anchors": ["include/nanospline/hodograph.h:8-74", "include/nanospline/split.h:14-60", "include/nanospline/Bezier.h", "include/nanospline/BSpline.h"]}
{"id": "C113", "title": "Rounding errors of second derivatives and of the derivatives of the fixed degrees", "statement": "In floating point every second derivative differs from the exact one by at most an explicit bound that vanishes with the unit roundoff: for Bezier curves and B-splines of every degree in terms of the control points of the first and second derivative, for rational Bezier and NURBS curves in terms of the range of the weights as well, whichever products the compiler fuses. The derivative of the degree-1 class is correctly rounded; the first and second derivatives of the degree-2 and degree-3 classes are accurate relative to the control points, but not relative to the derivative: where the generic class returns the exact derivative 2^-52 in double precision, the degree-2 class returns zero.", "quantifier": "for every rounding that is monotone, odd and relatively accurate, every choice of fused operations, every degree, control points, knots with wide spans, positive weights and parameter in the domain", "why_tests_cant": "the bound must hold for every rounding error pattern and every curve; tests compare a few values with a tolerance", "anchors": ["include/nanospline/Bezier.h:88-109", "include/nanospline/Bezier.h:514-517", "include/nanospline/Bezier.h:615-634", "include/nanospline/Bezier.h:812-842", "include/nanospline/RationalBezier.h:59-71", "include/nanospline/BSpline.h:134-157", "include/nanospline/NURBS.h:72-84"]}
{"id": "C114", "title": "Rounding errors of the derivatives of Bezier patches and rational Bezier patches", "statement": "In floating point the first partial derivatives, the second derivatives in one direction and the mixed derivative of a Bezier patch differ from the exact ones by at most an explicit bound in terms of the control points and of the control points of the derivative patches; the bound vanishes with the unit roundoff. The same holds for the first partial derivatives of a rational Bezier patch with positive weights, in terms of the range of the weights as well. No call throws, whichever products the compiler fuses.", "quantifier": "for every rounding that is monotone, odd and relatively accurate, every choice of fused operations, every pair of degrees, control grid, positive weights and parameters in the unit square", "why_tests_cant": "the bound must hold for every rounding error pattern and every patch; tests compare a few values with a tolerance", "anchors": ["include/nanospline/BezierPatch.h:60-88", "include/nanospline/BezierPatch.h:236-262", "include/nanospline/RationalBezierPatch.h:54-70"]}
{"id": "C115", "title": "Rounding errors of the second derivatives of rational Bezier patches", "statement": "In floating point the second derivatives in u, in v and the mixed derivative of a rational Bezier patch with positive weights above the threshold of the code differ from the exact ones by at most an explicit bound in terms of the range of the weights, of the control points and of the control points of the first and second derivatives of weight and numerator; the bound vanishes with the unit roundoff. No call throws, whichever products the compiler fuses.", "quantifier": "for every rounding that is monotone, odd and relatively accurate, every choice of fused operations in every call, every pair of degrees, control grid, positive weights above the threshold and parameters in the unit square", "why_tests_cant": "the bound must hold for every rounding error pattern and every patch; tests compare a few values with a tolerance", "anchors": ["include/nanospline/RationalBezierPatch.h:72-135", "include/nanospline/BezierPatch.h:72-88"]}
{"id": "C116", "title": "Rounding errors of the partial derivatives of NURBS patches", "statement": "In floating point the first partial derivatives of a NURBS patch with positive weights differ from the exact ones by at most an explicit bound in terms of the range of the weights, of the control points, of the control points of the derivatives of weight and numerator and of the shortest support of their basis functions; the bound vanishes with the unit roundoff. No call throws, whichever products the compiler fuses.", "quantifier": "for every rounding that is monotone, odd and relatively accurate, every choice of fused operations in every call, every pair of degrees, knot vectors with wide spans, control grid, positive weights and parameters in the domain", "why_tests_cant": "the bound must hold for every rounding error pattern and every patch; tests compare a few values with a tolerance", "anchors": ["include/nanospline/NURBSPatch.h:56-72", "include/nanospline/NURBSPatch.h:139-159", "include/nanospline/BSplinePatch.h:74-84"]}
{"id": "C117", "title": "Rounding errors of the second derivatives of B-spline and NURBS patches in one direction", "statement": "In floating point the second derivatives in u and in v of a B-spline patch, and of a NURBS patch with positive weights whose lower bound clears the threshold of the code, differ from the exact ones by at most an explicit bound in terms of the control points of the patch, of those of its first and second derivatives (for a NURBS patch: of weight and numerator, and the range of the weights) and of the shortest support of the basis functions of the second derivatives; the bound vanishes with the unit roundoff. No call throws, whichever products the compiler fuses.", "quantifier": "for every rounding that is monotone, odd and relatively accurate, every choice of fused operations in every call, every pair of degrees with at least two in the direction of the derivative, knot vectors with wide spans, control grid, positive weights and parameters in the domain", "why_tests_cant": "the bound must hold for every rounding error pattern and every patch; tests compare a few values with a tolerance", "anchors": ["include/nanospline/BSplinePatch.h:86-96", "include/nanospline/NURBSPatch.h:74-114", "include/nanospline/NURBSPatch.h:139-159"]}
{"id": "C118", "title": "Rounding errors of the mixed second derivatives of B-spline and NURBS patches", "statement": "In floating point the mixed second derivative of a B-spline patch, and of a NURBS patch with positive weights whose lower bound clears the threshold of the code, differs from the exact one by at most an explicit bound in terms of the control points of the derivatives in u, in v and in both directions (for a NURBS patch: of weight and numerator, together with the control points and the range of the weights) and of the shortest supports of the basis functions; the bound vanishes with the unit roundoff. No call throws, whichever products the compiler fuses.", "quantifier": "for every rounding that is monotone, odd and relatively accurate, every choice of fused operations in every call, every pair of degrees of at least one, knot vectors with wide spans, control grid, positive weights and parameters in the domain", "why_tests_cant": "the bound must hold for every rounding error pattern and every patch; tests compare a few values with a tolerance", "anchors": ["include/nanospline/BSplinePatch.h:98-102", "include/nanospline/BSplinePatch.h:249-318", "include/nanospline/NURBSPatch.h:116-137", "include/nanospline/NURBSPatch.h:139-159"]}
