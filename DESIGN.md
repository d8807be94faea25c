# Formal model of nanospline in Lean 4

This directory contains a machine-checked model of the C++ header library in
`/repo` and proofs of the properties listed in `properties.jsonl`.
`MANIFEST.json` maps every property to the theorems that settle it.
`seeded/LOG.jsonl` records the wrong programs the theorems were tried against.

Layout of `lean/Verif`:

* `Model/` the code, function by function; every definition cites file and lines.
* `Spec/` what the properties talk about (Bernstein sums, Cox-de Boor basis, closest
  points, rotation of a vector field, ...), independent of the model.
* `Proof/` helper lemmas.
* `Props/` the property theorems (`Cnn_...`) with concrete cases beside them.
* `Audit.lean` prints the axioms of every theorem of the manifest.

## 1. Modelling conventions

* **Scalars.** `Scalar` (float/double) is an arbitrary linearly ordered field `K`
  (with floor where `fmod` occurs), or `ℝ` where square roots, trigonometric functions,
  derivatives or integrals appear.  *Simplification:* rounding, overflow, NaN and
  infinities are not modelled there.  Tolerances of the code (`1e-16`, `epsilon()`, `1e-6`)
  are kept, as literals or as parameters.
* **Floating point.** `Model/Rounding.lean`, `Model/Float.lean`, `Model/FloatPatch.lean` (patches, NURBS, B-spline
  derivatives), `Model/FloatRational.lean` (derivatives of rational curves), `Model/FloatSecond.lean` (second derivatives, derivatives of the fixed degrees), `Model/FloatPatchDeriv.lean` (derivatives of Bézier and rational Bézier patches), `Model/FloatPatchSecond.lean` (second derivatives of rational Bézier patches), `Model/FloatNurbsPatch.lean` (partial derivatives of NURBS patches), `Model/FloatNurbsSecond.lean` and `Model/FloatNurbsMixed.lean` (second derivatives of B-spline and NURBS patches in one and in both directions), `Model/FloatEdit.lean` (knot insertion, B-spline split, conversion to Bézier curves, degree
  elevation) and `Model/FloatSearch.lean` (sampling,
  searches and clipping of parameters) model the evaluators of Bézier
  curves and patches, B-splines and rational Bézier curves, the Bézier split and the periodic wrap a
  second time, with every operation rounded and any choice of fused multiply-add.  A rounding is an
  abstract monotone, odd, idempotent function with bounded relative error; `binary p` (round to
  nearest even, `p` bits) is proved to be one.  *Simplification:* the exponent range is unlimited,
  so there is no overflow, underflow, infinity, NaN or signed zero.  `C82_exact_arithmetic` shows
  that without rounding these functions are those of the exact model.
* **IEEE numbers.** `Model/Ieee.lean` models the evaluators of Bézier curves, patches, derivatives,
  rational Bézier curves and B-splines a third time, on finite numbers of a format with a largest number
  and gradual underflow, two infinities and NaN.  `binary p e q` (IEEE double is `binary 53 (-1074) 971`)
  is proved to be such a format.  `Model/IeeeSearch.lean` adds the closest point searches of `CurveBase.h`
  and `PatchBase.h` with arbitrary Eigen reductions.  *Simplification:* zero has no sign, NaN no payload, knots are finite.
* **Points.** A row vector of any dimension is an element of a `K`-module `V`; an
  abstract positive definite dot product (`Geom`) or an inner product space where the
  code uses dot products or norms; `ℝ × ℝ` for planar algorithms, a structure with cross
  product for spatial ones.
* **Outcomes.** A call is a value of `Outcome α = ok a | throw e | ub`.  `throw e` is a
  C++ exception.  `ub` is an out-of-range `Eigen`/`std::vector` access, a violated
  `assert` (compiled out in release builds) or a division by zero whose result the code
  uses.  Every element access of the modelled loops is checked.
* **Mutation.** In-place algorithms are loops over an explicit array in the order of the
  C++ loops.  Objects with caches (rational curves, patches) are state machines with the
  cache as separate state.
* **Integers.** Indices are naturals or integers without overflow; an `int` difference
  that may become negative is an `ℤ`.  `Model/SimplexInt.lean` has the Bezier simplices a second
  time with the 8-bit, 32-bit and 64-bit integers of the source.
* **Loops without a static bound** (binary search, span search) carry fuel; the theorems
  prove that the fuel suffices or hold for every amount of fuel, as stated.
* **Template parameters.** A static degree is an `Option ℕ` field (`none` for dynamic);
  `if constexpr` on it is an ordinary branch.  Fixed-degree specialisations are separate
  functions.
* **Virtual calls** of algorithms that work on any curve or patch (Newton, sampling,
  intersection, arc length, swept patches) are functions passed as arguments, so the
  theorems hold for every class.
* **External code.** Eigen's SVD and eigenvalue solvers are oracles with a stated contract
  (least-squares solution; list of all eigenvalues).  `M.inverse()` is Mathlib's
  matrix inverse.  `mshio` file text is not modelled, its records are.  `std::atan2` is
  `Complex.arg`; `std::sqrt`, `sin`, `cos`, `acos` are the real functions.
* **Generated polynomials** (`internal/auto_*.h`) were transcribed by a script that
  translates each C++ expression term by term.

## 2. Trusted base

* Lean 4.33.0 kernel; Mathlib (only definitions and proved theorems).
* Axioms: every theorem of the manifest depends on at most `propext`, `Classical.choice`,
  `Quot.sound` (`lean/Verif/Audit.lean`).  No own axioms, `sorry`, `native_decide` or
  `bv_decide`.  Concrete cases over ℚ use `decide +kernel` (kernel evaluation).
* The reading of the C++ source: that each definition says what the cited lines say,
  under the conventions above.
* The specification files `lean/Verif/Spec/*`.

## 3. Properties: model, proof, status

`proved`: the statement of `properties.jsonl` holds of the model under the stated
preconditions.  `partial`: only a part holds or is proved; theorems named `_partial` say what
is missing and `_refuted` theorems show where the code differs from the statement.

| Id | Property | Status | Model and proof |
|----|----------|--------|-----------------|
| C01 | Bezier evaluate is the Bernstein sum | proved | `Bezier::evaluate` as blossom loops with checked reads; loop invariant, closed Bernstein form by induction on the degree |
| C02 | Fixed-degree Bezier classes agree with the generic class | partial | the four fixed-degree classes; equality with the Bernstein sum; the periodic degree-1 class refuted |
| C03 | Endpoint interpolation and convex hull of Bezier curves | proved | from C01: Bernstein weights are non-negative and sum to 1 |
| C04 | Affine invariance of evaluation | proved | the loops commute with images under affine maps (affine combinations only), for every object; homogeneous coordinates reduce rational classes to linear maps |
| C05 | Bezier evaluate_derivative is the derivative of evaluate | proved | derivative coefficients and de Boor loop; `HasDerivAt` of the Bernstein sum over ℝ |
| C06 | Bezier hodograph evaluates to the derivative | proved | `compute_hodograph`; equality of evaluators, derivative coefficients |
| C07 | Bezier split reproduces the curve | proved | in-place split loop; invariant by umbral (blossom) calculus |
| C08 | Free function split(curve,t) is total on the domain and rejects everything else | partial | free `split`; decision logic; the epsilon window refuted |
| C09 | subcurve(t0,t1) is the restriction of the curve | partial | generic blossom subcurve and fixed-degree versions; multi-affine blossom; cubic class refuted |
| C10 | Degree elevation preserves the curve | partial | `elevate_degree`; binomial identity; rational version through homogeneous coordinates |
| C11 | Periodic evaluation folds the parameter into the domain | proved | `unwrap_parameter` with `fmod` truncating towards zero; floor arithmetic |
| C12 | Knot span lookup is total, in range and brackets the parameter | partial | `locate_span` with checked reads and fuel-bounded binary search; bracketing invariant |
| C13 | B-spline evaluate is the Cox-de Boor sum | partial | de Boor loops; span polynomials in blossom form; equality with the Cox-de Boor recursion by induction on the degree |
| C14 | Local control, partition of unity and convex hull for B-splines | proved | support, partition of unity and sign of the basis by induction on the degree |
| C15 | B-spline evaluate_derivative is the (one-sided) derivative | partial | derivative coefficient loop; span polynomials are differentiable, one-sided derivatives at knots; periodic extension of derivatives |
| C16 | B-spline hodograph evaluates to the derivative | proved | `compute_hodograph` of splines; same span polynomials |
| C17 | Knot insertion never changes the curve | partial | Boehm insertion loops; every new control point is a blossom value; induction over insertion sequences |
| C18 | Knot removal bookkeeping and inversion | partial | `remove_knot` passes with tolerance; bookkeeping invariant, deviation bound, inversion of insertion |
| C19 | B-spline split reproduces the curve | partial | `split` by insertion; from C17 |
| C20 | B-spline to Bezier conversion reproduces each span | partial | `convert_to_Bezier` loop; induction over the pieces |
| C21 | Bezier to B-spline conversion preserves evaluation | proved | `convert_to_BSpline`; clamped knots give the Bernstein basis |
| C22 | Combining Beziers into a B-spline | partial | `combine_Beziers`; C21 plus the deviation bound of C18 |
| C23 | Rational curves keep their homogeneous copy in sync | proved | rational classes as state machines (own data plus homogeneous copy); invariant by induction over setter histories |
| C24 | Rational evaluation is the weighted quotient and is scale invariant | proved | quotient of homogeneous sums |
| C25 | Rational derivatives obey the quotient rule | partial | quotient rule; `HasDerivAt` |
| C26 | Rational/polynomial conversions are faithful | partial | `conversion.h`; equality of evaluators |
| C27 | Uninitialised or inconsistent rational curves throw | partial | `validate_initialization`; decision logic; stale knots refuted |
| C28 | Bezier patch evaluation is the tensor Bernstein sum irrespective of direction order | proved | `BezierPatch` with its cached iso curves; induction over rows and columns, Fubini for finite sums |
| C29 | Bezier patch partial derivatives are the true partials | proved | derivative patches; from C05 in each direction |
| C30 | Bezier patch split and subpatch are restrictions | partial | `split_u/v`, `split`, `subpatch` with grid copies; addressing lemmas and C07; dynamic degree refuted |
| C31 | B-spline patch evaluation is the tensor B-spline sum | proved | `BSplinePatch` with cached iso curves; from C13 |
| C32 | Setting a control point or knot of a B-spline patch is reflected by evaluate | partial | setters against caches; history invariant; stale caches refuted |
| C33 | Control grid addressing is a bijection with frame law | proved | row-major addressing; bijection; history of writes |
| C34 | Newton refinement and inverse evaluation stay in the requested box | partial | Newton loops over arbitrary evaluators; loop invariants |
| C35 | Sampling-based inverse evaluation stays in range | partial | sampling recursion over arbitrary evaluators; induction over levels |
| C36 | Line inverse evaluation is the exact closest point | proved | projection formulas; minimisation of a quadratic |
| C37 | Circle and ellipse: implicit equation and exact derivatives | partial | trigonometric evaluators over ℝ; calculus, closest point on a circle |
| C38 | Plane inverse evaluation | partial | projection on an orthogonal frame |
| C39 | Analytic patches: true partial derivatives | proved | trigonometric evaluators; `HasDerivAt` of each partial |
| C40 | Analytic patches: points lie on the surface and inverse evaluation inverts evaluate | partial | implicit equations; inversion and closest points by `Complex.arg` |
| C41 | Clipping of periodic parameters | proved | `unwrap`/clip arithmetic |
| C42 | Surface of revolution derivatives and symmetry | proved | revolution of an arbitrary profile; rotation identities and calculus |
| C43 | Extrusion patch inverse evaluation | partial | extrusion of an arbitrary profile |
| C44 | Offset patch lies at the offset distance and has true first derivatives | proved | offset along the normal; calculus of the unit normal |
| C45 | Gauss quadrature exactness | proved | Gauss tables over ℝ with exact radicals; moments up to degree 2N-1 |
| C46 | Closed-form root finder is sound and complete | partial | closed-form branches and companion matrix with an eigenvalue oracle; algebra |
| C47 | Arc length of constant-speed curves is exact | partial | Romberg recursion and Newton inversion; induction over levels |
| C48 | intersect reports convergence only at an intersection | partial | search loops over arbitrary evaluators; Newton steps as linear solves; loop invariants |
| C49 | Uniform sampling | partial | `sample` loops; induction |
| C50 | OBJ export indices are valid | partial | OBJ records as lists; index arithmetic by induction |
| C51 | MSH save/load round trip | partial | MSH records; round trip of encode and decode for every class |
| C52 | MSH sampled mesh tags are unique and consistent | partial | sampled MSH writer as a state machine; invariant by induction over added entities |
| C53 | Bezier simplex multi-index enumeration | proved | recursive enumeration with an explicit matrix; induction over the dimension |
| C54 | Bezier simplex evaluation and derivatives | proved | de Casteljau on simplices; multinomial sums, `HasDerivAt` |
| C55 | Bezier simplex degree elevation and fitting | partial | elevation and collocation matrix; unisolvence by induction |
| C56 | Least-squares matrices contain basis values | partial | matrices as basis values; SVD solver as an oracle with a least-squares contract |
| C57 | Generated polynomials for singularities, inflections and tangents are the right ones | partial | generated coefficient lists transcribed by script; `ring` in the polynomial ring; searches from C46 |
| C58 | Curvature formula | proved | curvature formula over inner product spaces |
| C59 | Closest control point search | proved | argmin loops |
| C60 | Closedness test | proved | end point comparison |
| C61 | Cloning preserves observable behaviour | partial | clone methods as data copies |
| C62 | NURBS operations act on the homogeneous spline | partial | NURBS operations as homogeneous spline operations; C17, C19, C20 |
| C63 | Rational patches | partial | rational patches as state machines on homogeneous patches |
| C64 | B-spline patch derivative evaluators are the partial derivatives | partial | derivative evaluators of B-spline patches; C15 in each direction |
| C65 | B-spline patch splits and subpatches reproduce the surface | partial | `split`/`subpatch` of B-spline patches; C19 on rows and columns |
| C66 | Control point preimages reproduce the parameter domain | proved | preimages (Greville abscissae); linear precision of the basis |
| C67 | Ellipse inverse evaluation stays in range and returns a closest point | partial | ellipse iteration; invariants of the loop |
| C68 | A patch direction reported periodic closes up | partial | periodic flags of analytic patches; periodicity of sin and cos |
| C69 | OBJ export of a curve samples its whole domain | partial | OBJ curve sampling |
| C70 | MSH sampled nodes lie on the entity, cover the domain and their elements join neighbours | proved | MSH curve and patch sampling |
| C71 | MSH element data views tag every element with its entity | partial | MSH data views; counting invariant |
| C72 | Feature searches of piecewise curves lose and invent nothing | partial | search over Bézier pieces; affine reparametrisation and C57 |
| C73 | Degree elevation of splines preserves the curve | partial | `elevate_degree` of splines; C20, C10, C22 |
| C74 | Closest-point search of splines samples every span | partial | span-wise sampling; induction over spans; C35 |
| C75 | The turning angle is the rotation of the tangent | partial | turning angles with `atan2` as `Complex.arg`; continuous lifts of the tangent angle, uniqueness of lifts |
| C76 | The patch search guided by control points stays in the requested box and closes in on the query | partial | control-polygon search of patches; induction over the recursion level |
| C77 | Inverse arc length inverts arc length | partial | Induction over the Newton iterations with a length function as parameter; bounds on the Romberg table (C47) for the refutation |
| C78 | SVG export draws the whole curve on the page | partial | SVG path records; convex hull (C03, C14, C24) and the bounding box |
| C79 | EPS export is a program that paints the curve and its control points | partial | Token stream of the program, run by a small PostScript interpreter (`Spec/PostScript.lean`) |
| C80 | RevolutionPatch::inverse_evaluate inverts evaluate | partial | One or two passes of the alternating search for profiles in a half plane bounded by the axis; explicit run for a profile across the axis |
| C81 | End points are reproduced bit by bit in floating point | partial | Evaluators over an abstract rounding (monotone, odd, idempotent, relative error); the triangle collapses at 0 and 1; explicit doubles for a rational curve |
| C82 | Rounding errors of the evaluators are bounded | proved | Induction over the triangular scheme with an error factor per step; rounding without error gives back the exact model |
| C83 | Periodic evaluation accepts every floating point parameter | partial | `fmod` of two numbers of a binary format is one again; case analysis of the wrap; explicit doubles before the domain |
| C84 | Computed curves stay in the range of their control points | partial | Sign by monotonicity of rounding; range from C82; explicit doubles for a constant curve |
| C85 | Splitting in floating point leaves no gaps | partial | Closed form of the in-place split loop; comparison with the evaluation triangle; explicit doubles under contraction |
| C86 | Sampled and searched parameters stay in their range in floating point | partial | Monotonicity of rounding; invariants over the sampling loops and the recursion with arbitrary distances; the tie after one; explicit doubles |
| C87 | Clipping of periodic parameters in floating point | partial | Case analysis with bounds of the rounded quotient; explicit doubles |
| C88 | Error of NURBS, patches and derivatives in floating point | proved | Perturbation bounds of one evaluation axis with relative input errors, composed over both axes and the quotient; common bound of the rounded difference quotients; the quotient rule by propagating a bound and an error together through each operation |
| C89 | Machine integers of Bezier simplices | partial | Second model with wrap-around and overflow; loop invariants show equality with the model over N whenever the largest product fits 64 bits; explicit degrees at which it fails |
| C90 | Recommended numbers of samples | partial | Induction over the nesting of offsets; totality of the sampling loops from C52; undefined divisions for sweeps of curves without control points |
| C91 | Control points are determined by the curve | proved | A polynomial in Bernstein form that vanishes on an infinite set has zero coefficients; applied to every span of a B-spline through the blossom, twice for patches; a zero weight as counterexample |
| C92 | Editing operations compose | proved | Both sides have the same points by C05-C20, hence the same control points by C91; congruence of the conversion loop under insertion. Order of splits of B-spline curves: both orders give parts of the same degree, domain and multiplicities with the same values inside, so the knots agree by counting and the control points by C91 (ComposeSpline.lean) |
| C93 | Smoothness at knots | proved | Blossoms of neighbouring spans agree on the shared knots, so their polynomials differ by a multiple of (t - tau)^(p-m+1); truncated powers are C^(p-m) by induction; a tent and a step show that the order is sharp |
| C94 | Change of parameter and reversal | partial | Blossoms under the substitution t -> x + y t: the control points of the new curve represent the transported polynomial on every span; the join of C93 for reversal at knots; symmetry of Bernstein polynomials; exchange of sums for patches; B-spline patches one direction at a time through the basis functions, read off from the curve theorem by a unit control vector; NURBS and rational patches through their homogeneous copies, including the parameters at which the denominator vanishes; derivative evaluators of patches through their iso-parametric curves and, for the mixed derivative, sums of differences in both directions (ReparamPatchDeriv.lean); Bézier classes by uniqueness of derivatives |
| C95 | Variation diminishing | proved | Knot insertion cuts corners, which never adds a change of sign along the control values; after inserting the parameters of the crossings to full multiplicity the curve values there are control values; weights through the homogeneous function; a negative weight refutes it |
| C96 | The control polygon bounds length and directions | proved | Cutting corners shortens a polygon and keeps its edges in a cone; inserting the parameters to full multiplicity makes the inscribed polygon a subsequence of control points; weights by projecting the homogeneous polygon; the total variation over the reals; convexity from C95 by subtracting a line; a negative weight refutes it |
| C97 | Ends of curves and edges of patches are those of the outer control points | proved | De Casteljau and de Boor return a stored number at the ends whatever the rounding, so the order of the two directions does not matter along an edge; the columns and rows of the grid are picked out of the intermediate points; exact ends from the polar form with equal knots, derivatives from the hodograph, joins from both; opposite directions and different contractions refute it in double precision |
| C98 | Reported types identify the class and saved files load again | partial | Case analysis over the classes; the round trips of C51 for each entry; induction over the lists with the failing entry between two lists of usable ones |
| C99 | Editing in floating point keeps the curve up to rounding | proved | Every operation of the four functions is rounded by an arbitrary monotone rounding and sums may be contracted arbitrarily (Model/FloatEdit.lean). The rows of the insertion scheme are compared with the exact ones by induction with a multiplicative growth per row; the relation "same knots, control points near" is an invariant of every insertion, so histories follow by induction over the list of insertions. The extraction loop of the conversion copies spans that depend on the knots only. |
| C100 | Refining the control polygon converges to the curve | proved | Every control point deviates from the line through an edge by at most the triangular numbers times the largest second difference (induction in both directions along the polygon); averaging with the Bernstein polynomials gives their variance, at most n/4. Second differences of a part of a curve are blossoms of the second differences of the whole, scaled by the square of the length of the range; those of an elevated curve are averages. Inductions over the number of halvings and elevations; the constant n/8 is attained. |
| C101 | Refining a curve cuts corners of its control polygon | proved | Each operation is a sequence of corner cuts: every new point lies on an edge of the previous polygon, in order (for insert_knot the rounds of the scheme, for split the levels of de Casteljau's scheme arranged as one polygon, for elevate_degree one cut of all corners). A corner cut does not increase lengths, changes of sign or the cone of edge directions. For the distance the polygon is lifted by its mean knots: the cone of slopes is kept, and by uniqueness of control points the last coordinates stay the mean knots of the refined curve. Splitting and conversion copy disjoint runs of edges. |
| C102 | A closest-point search ends within a stated distance of the closest point | proved | The nearest sample of the range is within half a step of any parameter; by the bounds of C96 on how far a curve moves it is hardly farther from the query than the closest point, and the recursive rounds keep the best sample of the first round (even number of samples) while the last refinement stays in a range whose width shrinks geometrically. For B-splines the samples of each piece between knots are used with the slopes of the control polygon. For patches a two-variable bound from the rows and columns of the net, and the descent property of C34 for the final refinement. B-spline, rational and NURBS patches that fall back to sampling: the same bound with their numbers of control points. |
| C103 | Straight curves and flat patches are inverted exactly | partial | On a line the squared distance is a parabola, so the best sample is within a step of the closest parameter, the next range contains it, and by induction over the levels the refinement starts in a range with the same closest parameter; the Newton step there is exact. On a plane the step solves the normal equations exactly, the second iteration stops at the foot point. The derivatives of Bezier curves and patches with affine control points come from the umbral closed forms of C01 and C09. Flat B-spline, rational and NURBS patches: a function that is affine on the domain has one possible derivative (one-sided at knots), so C63/C64 give constant derivatives; Greville nets are flat by C66. Oblique patches with the foot point outside the box give the counterexample C103_outside_refuted. |
| C104 | Finite curves stay finite; infinities and NaN are never hidden | partial | A third model on IEEE numbers. In a convex combination s a + r b with s = fl(1 - r) every product is at most the weight times the largest number after rounding, and the sum of the weights is below one plus half a unit, so the sum rounds to at most the largest number (`binary_safe`, from the significands of the binary format); finiteness follows by induction over the triangular scheme, the error bound by the induction of C82 with an absolute term per round. Special values by case analysis of one combination and induction; span search for NaN directly. Overflow of derivatives and rational curves is refuted by evaluation in double precision. The link to the exact model is a refinement (`Settles`): on formats without rounding the two programs return the same outcome once the range is large enough, proved instruction by instruction through loops and array accesses (C104_exact_*). Comparisons are those of the real line with both ends added (C104_order), signs of infinite results in IeeeSigns.lean. Segments of infinite points at infinite parameters multiply the signs (C104_segment_infinite_points). |
| C105 | Closest-point searches survive overflow, infinities and NaN | partial | The searches of C85 on the IEEE numbers of C104, with arbitrary distances and steps. Clamping by std::min and std::max of an overflowed end gives the clamped end, so all ranges of the recursion are ranges of finite numbers by induction over the levels; the samples stay in the range by monotonicity of the rounding and, on patches, since three roundings and underflow cannot move a sample by a whole step (`moderate_binary`). NaN by induction over the iterations. Overflowing distances leave the initial value 0.0 of the best parameter in place, which gives the counterexample. The same refinement relates both searches to the exact searches, for arbitrary evaluators that settle on the exact ones (C105_exact_*). The error of a candidate is never negative and is infinite only for an infinite distance (C105_error_sign, C105_infinite_error). |
| C106 | Feature queries of lines, circles and ellipses are complete | partial | New model of the feature queries of the three primitive curves. The cross product of the first two derivatives is constant (by the derivatives of C37), so it cannot change sign; the derivative vanishes only if a combination of the frame rows does, which the checks of initialize exclude for circles of non-zero radius and, for ellipses, only if the rows are not negligible (refuted otherwise, as for radius zero). The tangent of a circle has a linear angle, so the midpoint halves it. reduce_turning_angle of lines and ellipses throws not_implemented_error and is not a claim. |
| C107 | Small changes of control points and weights move the shape by no more | proved | The evaluators return the Bernstein and B-spline sums (C01, C13, C28, C31) and the weighted quotients (C24, C63); their coefficients are non-negative and sum to one on the domain, so the difference of two such means is a mean of the differences. For changed weights the difference of the quotients is written as a mean of (w_i - w'_i)(P_i - x) around the unperturbed point x, where the unperturbed terms cancel (`mean_weights`). Derivative of Bezier curves: the same for the differences of neighbouring points. |
| C108 | Refining the control net of a patch converges to the patch | proved | `part_net`: a patch is an umbral image of its control grid, so its distance to the bilinear cell is bounded by applying the curve bound (C101) row by row and column by column; a split is `umb` with a linear substitution, which scales second differences by the square of the factor. `C108_subdivision` is an induction on the number of rounds of `split(0.5, 0.5)`, written as the client recursion `quarter`. Fixed-degree patches only: the split of a dynamic-degree patch loses its degree (C30_dynamic_refuted). |
| C109 | Editing operations of patches compose | proved | C91 (a patch is determined by its values) applied to pieces of equal degree: both orders evaluate the same surface at the same parameters (C30_split_u_partial, C30_split_v_partial), so the pieces are equal as objects; rational patches through their homogeneous form. Derivative patches by comparing control grids, degree zero through the zero patch. Splitting a B-spline along one direction applies one matrix of coefficients to all rows (naturality of the curve split under linear maps), and matrices on different sides commute; strips column by column from C92; NURBS patches through the homogeneous patch (ComposeSplinePatch.lean). |
| C110 | Queries do not depend on where an object is placed | partial | A relation between runs (`ORel` in Turned.lean: same error, same undefined behaviour, related results) is carried through every loop of the evaluators, giving `evaluate ∘ image = f ∘ evaluate` and derivatives turned by the linear part of f. The queries are then compared step by step: each of their numbers is a norm or inner product of differences, which a rigid motion keeps (polarisation from the norm). `MovedCurve`/`MovedPatch` are the interface between the two halves, so each query theorem applies to every class. The searches guided by control points cut sub-patches: cutting commutes with linear maps for every object (SubpatchMap.lean); affine maps are reduced to linear ones by lifting points to weight one, which cutting keeps because pieces stay in the convex hull; `SameOps` then compares both searches member by member. `C110_scaling_refuted` gives the witness for scalings. |
| C111 | Weights shape rational curves and patches as expected | proved | Changing one weight adds B_i(t)(w'-w_i) to the denominator and the same multiple of the control point to the numerator (sum_set, quotient_pull). Weights in geometric progression: B_i(t)k^i = (1-t+kt)^n B_i(s) term by term. Conics: barycentric coordinates of the quadratic and an explicit inverse. The nine-point circle: the quadratic basis is computed on each of the four spans, which reduces it to four conic arcs. |
| C112 | Derivative curves commute with editing | proved | Bezier curves: umbral calculus; the derivative sequence is n(X-1) times the control sequence, and a sub-curve substitutes a linear polynomial whose difference is the factor b - a. Elevation: both sides expanded coefficient by coefficient. B-splines: before and after insertion the polynomial of every span is the same (equal at infinitely many points), so the derivative polynomials are; the inner knots are sorted permutations of each other; uniqueness of B-spline coefficients (C91) gives the control points. |
| C113 | Rounding errors of second derivatives and of the derivatives of the fixed degrees | proved | Bound and error propagated together through each rounded operation; the first differences are perturbed inputs of the second differences, then the evaluation bounds of C82/C83 with perturbed points; quotient rule applied twice. Refutation: a parabola in double precision computed by the kernel |
| C114 | Rounding errors of the derivatives of Bezier patches and rational Bezier patches | proved | The rounded control points of the iso-curve are perturbed inputs of the rounded derivative of a curve; error and size of the exact value are carried together. The mixed derivative is the rounded evaluation of a patch with perturbed control points. Rational patches: rounded homogeneous point and derivative, then the error of the quotient rule |
| C115 | Rounding errors of the second derivatives of rational Bezier patches | proved | Rounded homogeneous point, first and second derivatives with perturbed control points (C114), then error and size propagated together through the formula of the code; each inner call of a first derivative has its own fused operations. Without rounding the bound is zero, which gives exactness |
| C116 | Rounding errors of the partial derivatives of NURBS patches | proved | The rounded products of weights and control points are perturbed inputs of the iso-curve, whose rounded control points are perturbed inputs of the rounded derivative of a B-spline; then the error of the quotient rule. Without rounding the bound is zero, which gives exactness |
| C117 | Rounding errors of the second derivatives of B-spline and NURBS patches in one direction | proved | The rounded points of the iso-curve are perturbed inputs of the rounded second derivative of a B-spline; both errors bound the homogeneous second derivative, then error and size are propagated together through the quotient of the code. Without rounding the bound is zero, which gives exactness |
| C118 | Rounding errors of the mixed second derivatives of B-spline and NURBS patches | proved | Each rounded control point of the two derivative patches is a perturbed difference quotient of the previous ones; evaluating the last patch adds the error of an evaluation of a patch with perturbed control points; then error and size are propagated together through the quotient of the code. Without rounding the bound is zero, which gives exactness |

### Notes per property

* **C01** Exact arithmetic over any ordered field; every degree.
* **C02** Proved for degrees 0, 2, 3 with either flag and degree 1 without it. False of the code for a periodic degree-1 curve: C02_degree1_periodic_refuted.
* **C03** evaluate(1) is stated for non-periodic curves (a periodic curve folds 1 to 0).
* **C04** Every object of all eight classes and every parameter, for arbitrary affine maps; initialisation of the image commutes too, including outcomes that throw or are undefined.
* **C05** Also the periodic case: right derivatives everywhere, two-sided away from the seam, first and second derivatives.
* **C06** Periodic curves: on [0,1) always, everywhere when the hodograph keeps the flag.
* **C07** Both flags; also the alternative _split.
* **C08** False of the code in the epsilon window outside [0,1]: C08_window_refuted.
* **C09** Proved for the generic class. The cubic class is wrong for 0<t0, t1<1 (C09_subcurve3_refuted) and reads out of range for (1,1) (C09_subcurve3_ub).
* **C10** Bezier (generic and degree 0..3) complete; rational curves with any weights: exact result if no elevated weight is zero, no result otherwise (C10_rational_elevate_any); positive weights always succeed. False for weights of mixed sign in general: C10_rational_zero_refuted.
* **C11** Bezier and B-spline curves and the shared parameter folding.
* **C12** Range and termination proved for every well-formed spline. Bracketing fails at the lower bound when the first span is empty: C12_degenerate_start_refuted.
* **C13** Proved on the whole domain for splines with a non-empty first span (or above the lower bound, or at it with multiplicity at most p) and spans longer than 1e-16. False of the code otherwise: C13_degenerate_start_refuted, C13_narrow_span_refuted.
* **C14** Evaluation parts use the hypotheses of C13.
* **C15** Periodic and non-periodic splines, under the hypotheses of C13 (first span not empty, no span below 1e-16); without them evaluate itself is not the spline: C13_degenerate_start_refuted, C13_narrow_span_refuted. At knots the derivative is the right derivative; where the multiplicity allows it is two-sided (C93_derivatives).
* **C16** Evaluation with the hypotheses of C13; degree 0 and periodic curves included.
* **C17** Proved for single insertions on the domain and for arbitrary sequences above the lower bound. False of the code for repeated insertion at the lower bound (C17_lower_bound_refuted) and everywhere in the epsilon window outside (C17_outside_refuted, C17_window_refuted).
* **C18** Proved for strictly interior knots requested at most as often as they occur; the default tolerance (negative argument) is the model parameter extent. Refuted: more copies than present remove other knots or read outside the polygon; knots inserted at the domain ends of unclamped splines are not removed.
* **C19** Proved for positive degree; degree 0 is wrong in the code (C19_degree0_refuted), and parameters within the tolerance above the domain give parts with reversed domains (C19_window_refuted).
* **C20** Proved for every degree and knot vector whose first span is non-empty or whose first knot already has multiplicity p. False of the code otherwise: C20_degenerate_start_refuted.
* **C21** Non-periodic Bezier curves; the flag is not copied.
* **C22** Combining succeeds for pieces of degree >= 1 that join up to epsilon over bounds more than 1e-16 apart, and the result is within r*eps + gap of each piece, r the number of dropped knots; inputs that do not fit are never combined; empty list throws. The stated equality is refuted (a corner below epsilon is straightened), degree 0 ends in an assertion, rational pieces need equal joint weights.
* **C23** Induction over any sequence of setters after initialize().
* **C24** Rational Bezier at every parameter; NURBS on the domain (all parameters if periodic) under the hypotheses of C13. A vanishing denominator is modelled as undefined.
* **C25** Rational Bezier complete, periodic or not. NURBS, periodic or not: two-sided derivatives off the knots, right derivatives at knots (two-sided where the multiplicity allows: C93_nurbs_derivatives), left at the end of a non-periodic domain; first span non-degenerate, no span below 1e-16.
* **C26** Proved for non-periodic curves; conversions drop the periodic flag: C26_periodic_refuted.
* **C27** Sizes and flags: complete for RationalBezier (both directions). NURBS::evaluate does not notice replaced knots: C27_stale_knots_refuted.
* **C28** Every degree pair; parameters of periodic directions are folded into the domain. Iso-curves are modelled by the generic Bezier class.
* **C29** Every degree pair; in a periodic direction the seam is excepted.
* **C30** Proved for fixed-degree patches (split_u, split_v, split; subpatch when each range touches an end of the domain). False of the code for dynamic degrees (C30_dynamic_refuted) and for interior sub-ranges (C30_subpatch_refuted); C30_subpatch_actual says what is returned.
* **C31** Initialised patch evaluates to the tensor product Cox-de Boor sum at folded parameters, both iso-curve orders agree; hypotheses: no span below the 1e-16 guard of the curve evaluator, parameter in the domain and not the start of an empty first span (the exceptions are refuted under C12/C13).
* **C32** False as stated: set_control_point never changes evaluate until initialize is called again (C32_set_control_point_refuted, C32_stale_point_refuted, C32_stale_knot_refuted). Proved: after any history of setters and initialize calls ending with initialize, evaluate is the sum over the last values written.
* **C33** Bezier and B-spline patches, all histories of in-range writes.
* **C34** Range and totality proved for arbitrary curve and patch functions; the distance claim for curves is false (refuted), a residual statement is proved instead; distance statement for patches proved.
* **C35** Range and totality proved for all levels; the start of the final refinement is at least as close as all first-round samples for even sample counts; the claim for the final result is refuted. Patch sampling proved for even counts.
* **C36** Line and degree-1 Bezier: unique minimiser over the domain, any positive definite dot product.
* **C37** Implicit equations, derivatives and periodic flags proved for all circles and ellipses; the circle inverse is proved to be a closest point whenever the range does not start below -pi and refuted for the full range [-2pi, 0].
* **C38** Closest point and inversion proved for every orthogonal frame and box; refuted for every accepted frame that is not orthogonal.
* **C39** All five partials of plane, cylinder, cone, sphere and torus, for all parameters and frames.
* **C40** Implicit equations proved for all parameters. Inversion proved for non-negative radii away from the region beyond apex, pole or axis, closest point for ranges that contain the azimuth of the query (any range for the cylinder); refuted for negative radii, beyond the apex, beyond a pole and for self-crossing tori.
* **C41** Range, congruence and nearest-end (circular distance).
* **C42** Symmetry, all five partials and the missing profile in full. Inverse evaluation is C80.
* **C43** Derivatives, range and missing profile in full. The inverse is right for location zero; C43_extrusion_location_refuted shows it ignores the location otherwise.
* **C44** Distance, direction and first derivatives at regular points, for every base patch with true partials; zero derivative vectors at singular points.
* **C45** Exact real arithmetic, every interval (also reversed), every polynomial up to degree 2N-1; other N throw; the integrand is evaluated only inside the interval.
* **C46** All degrees; degree 3 and above relative to an exact eigenvalue solver (Eigen is not modelled). False of the code for tolerance zero with a vanishing leading coefficient (C46_zero_tolerance_refuted).
* **C47** Level 0 proved for affine speeds; every level above 0 is refuted for every positive constant speed (strictly too short).
* **C48** Curve-plane, non-degenerate segment-plane and curve-patch proved; degenerate segment and start of the segment search refuted.
* **C49** UNIFORM_DOMAIN and ADAPTIVE proved; UNIFORM_RANGE count and ends proved, its range refuted.
* **C50** Valid for single curves and patches of any sample count and for lists of at most two; refuted for every list of three or more curves or patches (count accumulation).
* **C51** Data, class and (for non-periodic objects) evaluation survive the round trip for all four curve and patch classes, any sizes and static or dynamic degrees, also for planar objects, which are stored in three dimensions; refuted for the periodic flags, which are lost.
* **C52** All parts hold for every sequence except the header minimum node tag, refuted for two or more curves without patches.
* **C53** All dimensions and degrees, any initial matrix content; arithmetic over naturals (no uint8/size_t wrap-around). The degree-0 control point is all zeros, recorded as C53_degree_zero_refuted.
* **C54** All dimensions, degrees, ordinates, points and directions, exact arithmetic.
* **C55** Elevation in full; fit interpolates (and reproduces) for every positive degree, including invertibility of the collocation matrix; refuted for degree 0, where the code divides 0 by 0.
* **C56** Proved for static degrees (matrix, fit and deform for curves and patches); the SVD solver is an oracle assumed to return a least-squares solution; with a dynamic degree the B-spline versions fail (refuted).
* **C57** The generated inflection, singularity and tangent polynomials equal the defining ones for every supported degree, and the searches report every zero when the eigenvalue routine is exact and the polynomial is well posed. The rational tangent search ignores the weights: proved for equal weights, refuted for others.
* **C58** Orthogonality, magnitude, affine reparametrisation, straight motion, and derivative of the unit tangent by arc length.
* **C59** big is the largest scalar: the code starts from it, so some control point must be closer than that.
* **C61** Circle, Ellipse, ExtrusionPatch, RevolutionPatch in full; false of the code for periodic lines and for re-initialised offset patches (refuted). Classes cloned by copy construction copy every member.
* **C62** Positive weights, under the hypotheses of C17/C19/C20. With weights of any sign either a new weight is zero and nothing is returned, or the result is exact (C62_*_any_partial). A zero weight may appear for mixed signs: C62_zero_refuted.
* **C63** Rational Bezier patches: evaluation, positivity, setters over any edit history, derivatives, splits into two and four and subpatch for fixed degrees; NURBS patches, periodic or not: initialisation, evaluation, positivity, derivatives and mixed derivative; splits and subpatch. Splits hold for positive weights, and for weights of any sign unless a new weight is zero. Refuted: spans not longer than 1e-16 (C63_nurbs_narrow_refuted), dynamic-degree splits, negative weights in second derivatives, stale caches after NURBS setters.
* **C64** One-sided derivatives at knots (two-sided where the multiplicity allows: C93_patch_u, C93_patch_v), two-sided elsewhere; patches periodic or not in either direction, with non-empty first spans wide enough for the evaluator. The mixed derivative does not depend on the value of quotients by an empty support.
* **C65** Positive degrees; left part at the split parameter needs multiplicity at most the degree. Zero-width interior subpatch returns the whole upper part (C65_subpatch_point_refuted). Parameters beyond the tolerance throw in all four functions; within it they are accepted and give parts with reversed domains (C65_window_refuted).
* **C66** Linear precision of the Greville abscissae for positive degrees (degree 0 divides zero by zero).
* **C67** Range and definedness proved for all inputs; reflection symmetry proved; equal radii solved exactly; in general the answer is closest up to an error proportional to the tolerance unless all 100 steps are used (number of steps and the neighbourhood of the ends of the major axis open); inversion refuted for ranges below 0.
* **C68** Cylinder, cone, torus, revolution and extrusion in full. False of the code for the v direction of a sphere (C68_sphere_periodic_refuted) and for re-initialised offset patches (C61_offset_clone_refuted).
* **C69** Samples are points of the curve at i/100 on [0,1); refuted: the end point is missed and the domain is ignored.
* **C71** Holds for files with at least one curve; refuted for files without curves and at least two patches.
* **C72** Proved for intervals whose ends are not inner knots and pieces with well posed polynomials (inflections, singularities and turning angle, for B-spline and NURBS curves; the NURBS turning angle with equal weights, see C57); an interval starting at an inner knot is refuted for every cubic spline.
* **C73** Proved up to r*eps with r the number of dropped knots, for continuous splines with a non-empty first span and spans wider than 1e-16; equality and discontinuous splines are refuted; NURBS in homogeneous coordinates.
* **C74** Non-periodic curves: the Newton run starts at a parameter of the range at least as close as every sample of every span (and every knot), any evaluator and recursion level. Range and totality hold for periodic curves too. Refuted for periodic curves (only the samples of the whole range are taken because the span of the start is skipped) and for an empty range (parameter 0 is returned).
* **C75** Exact for quadratic Bezier curves and B-splines, lines, positively oriented circles, ellipse arcs shorter than half a turn, and for polygons inside a half plane of any degree (pieces of B-splines likewise); equal modulo full turns for all proper polygons. Refuted: polygons outside half planes, inner ranges of the cubic class, cubic B-spline ranges that start or end at an inner knot, clockwise circle frames, full ellipses.
* **C76** Containment in the box: all four classes, any query, level and (for Bezier classes) any patch. Totality: degrees at least 3, no periodic direction, fixed degrees for Bezier classes, positive weights for rational ones. Convergence: proved with rate (2/3)^level for bicubic Bezier patches with a regular control grid. Refuted in general: degree 4 (inner ranges of subpatch), dynamic degrees (ub), control nets far from the patch, uniform knots.
* **C77** Refuted with the library's own arc_length (C47): on every curve of constant speed on [0,1], and every flat patch, the returned parameter overshoots by half a percent or more (C77_constant_speed_refuted, C77_flat_patch_refuted), leaving the domain for the whole length. C77_stops holds for every curve. With exact lengths the iteration is right: C77_constant_speed_partial, C77_increasing_speed_partial.
* **C78** Holds for Bezier curves, B-splines and rational curves with positive weights having two different control points (C78_save, C78_save_list with C78_bezier, C78_bspline, C78_rational_bezier, C78_nurbs; C78_path for every curve). Refuted when all control points coincide (division by zero) and for weights of mixed sign.
* **C79** Refuted for every curve and all arguments (C79_program_refuted): the misspelt operator stoke is an error, nothing is stroked and no arc is written. C79_path_partial: the part before it builds the right path.
* **C80** Proved for profiles in a half plane bounded by the axis (C80_revolution_inverse_partial) and, for the range, for every result (C80_revolution_in_box). Refuted for profiles across the axis: C80_across_axis_refuted.
* **C81** Proved for Bezier curves, clamped B-splines, Bezier patches and clamped B-spline patches. Rational curves: up to two roundings, bit by bit when coordinate times weight is representable (C81_rational_first_partial); refuted otherwise (C81_rational_first_refuted).
* **C82** Any rounding and contraction. Exponent range unlimited (no overflow or underflow).
* **C83** Proved for Bezier curves and patches, for splines and patches whose domain starts at zero, for rational curves and patches through their homogeneous form, and for parameters from the start of any domain on (C83_bspline_periodic_partial). Refuted before the domain: C83_below_refuted.
* **C84** Signs and the range up to the rounding error are proved; the exact range is refuted (C84_hull_refuted).
* **C85** End points, common join, evaluation of the pieces at the join and error bounds are proved for every contraction, for Bezier curves and B-splines; equality of the join with evaluate of the whole Bezier curve holds without contraction (C85_join_partial) and is refuted with it (C85_join_refuted).
* **C86** Patches: proved. Curves: proved on the unit interval and up to a few roundings otherwise (C86_curve_search_partial); sample likewise. Refuted for other ranges: C86_sample_refuted, C86_curve_search_refuted.
* **C87** Proved for parameters at most one period below the range, which covers angles and ranges starting in [-pi, pi]; refuted further below (C87_clip_refuted).
* **C88** Non-periodic objects, first span not empty or parameter above the lower bound, spans not below the rounded 1e-16; includes the first derivatives of B-spline, rational Bézier and NURBS curves and the partial derivatives of B-spline patches. Second derivatives are in C113, derivatives of Bézier and rational Bézier patches in C114. Exponent range unlimited (no overflow or underflow).
* **C89** Proved for all dimensions and degrees with sum at most 62 (more generally while the binomial times the smaller of both fits 64 bits); evaluation up to degree 12. Refuted beyond: degree 13 and more (C89_high_degree_refuted, C89_line_refuted), choose(63, 31) (C89_choose_refuted), degree 255 (C89_degree_255_refuted).
* **C90** Positivity characterised exactly, spacing proved; refuted for sweeps of curves without control points (and offsets of them), where the sampled save divides by zero.
* **C91** Bezier curves of any degrees, B-splines with exactly the visible control points, rational curves with non-zero weights, patches; a zero weight hides its control point (C91_zero_weight_refuted).
* **C92** Exact scalars; equality of control points, not only of values. The order of B-spline splits gives equal objects for clamped knots (C92_bspline_split_order_eq) and parts with the same relevant knots and points in general (C92_bspline_split_order).
* **C93** Exact real scalars, non-periodic curves and patches with a non-empty first span; knots closer than 1e-16 excluded as in C13. The witnesses C93_corner_refuted and C93_jump_refuted show that the order cannot be raised.
* **C94** Values and all derivative evaluators of curves and patches of every class. Proved for spans longer than 1e-16 before and after; shorter spans are treated as empty by the code (C94_narrow_refuted), and a knot of multiplicity p+1 belongs to its right piece (C94_jump_refuted). Derivatives of reversed Bezier and rational Bezier objects are over the real numbers.
* **C95** Every parameter of the domain (half-open for periodic curves); negative weights refuted. For periodic curves the crossings are counted over one period, not cyclically.
* **C96** Curves with any number of inscribed points, over every ordered field and every seminorm; the total variation over the reals. Weights must be positive; C96_negative_weight_refuted shows that this is needed.
* **C97** Same direction along the common edge and the same contraction of floating point operations are needed: C97_reversed_refuted and C97_contraction_refuted give gaps in double precision. Derivatives along and across edges are in exact arithmetic. The floating point theorems for patches are about evaluation.
* **C98** Types of curves identify the class; types of patches too except that rational Bezier patches report the type of Bezier patches (refuted). Files of usable spline objects load again with the same classes; a file with a line, circle, ellipse, analytic, swept or offset object is written but cannot be loaded (refuted).
* **C99** Any rounding and contraction. C99_rounding_changes_curve shows that the bounds cannot be zero.
* **C100** Exact arithmetic (rounding of split and elevate_degree is C85, C99). The clients calling split(0.5) on every piece and elevate_degree repeatedly are defined in Props/Refine.lean.
* **C101** Weights of both signs can lengthen the polygon (C101_signed_weights_refuted).
* **C102** C102_curve holds for every curve with a Lipschitz bound and an even number of samples, C102_bezier for all Bezier curves (degree 0 has nothing to search) including periodic ones whose ends meet, C102_bspline for continuous B-splines that are not periodic, C102_patch for every patch with Lipschitz bounds, C102_bezier_patch and C102_bezier_patch_result for Bezier patches searched by sampling (degree at most 2 in one direction), C102_bspline_patch, C102_rational_patch and C102_nurbs_patch for the other patches searched by sampling, given Lipschitz bounds.
* **C103** Curves: all queries. Patches: proved for queries whose foot point is in the box (C103_patch_partial, C103_bezier_patch_partial, and over the reals C103_bspline_patch_partial, C103_rational_patch_partial, C103_nurbs_patch_partial for patches that are not periodic; C103_greville and C103_greville_nurbs give the flat nets). Outside it is false: the coordinates are clamped one by one, so on an oblique parallelogram the search from a guess stops, reporting convergence, at a point that is not the closest of the box (C103_outside_refuted).
* **C104** Proved for finite curves, patches and B-splines in their domains (any degree and magnitude, any format with round to nearest, IEEE double and single proved to be such), their ends, and for special values. Partial: derivatives and rational curves overflow although the result is representable (C104_derivative_refuted, C104_rational_refuted), so they have hypotheses on the range; a B-spline whose last knot has a multiplicity above degree + 1 reads out of range for NaN (C104_bspline_nan_refuted); ends are not interpolated when another control point is infinite (C104_infinite_end_refuted). Signed zeros are not modelled. Agreement with the exact model on formats without rounding: C104_exact_bezier, _bspline, _patch, _rational.
* **C105** Ranges on curves need to contain zero unless the distances are below the largest number: otherwise refuted (C105_curve_refuted), and finite input can give NaN (C105_nan_refuted). Everything else in full for Bezier curves and for patches with arbitrary evaluators. Agreement with the exact searches: C105_exact_curve, _bezier, _patch.
* **C106** Refuted for circles of radius zero (C106_singularities_refuted) and ellipses with a zero frame row (C106_ellipse_refuted), both accepted by initialize.
* **C108** Fixed-degree patches (the degree of a split dynamic-degree patch is lost: C30_dynamic_refuted).
* **C109** Splits of Bezier, rational, B-spline and NURBS patches; derivative patches of fixed-degree patches. The strips of B-spline and NURBS patches need clamped knots and continuity across the two lines; without them the parts agree as surfaces (C65).
* **C110** Proved for the evaluators of all spline classes, primitives and sweeps and for all queries of the base classes (closest point of curves, patch search from samples and from a start, refinement, arc lengths, intersections, closedness, curvature, sampling, the span search of B-spline curves), the closed forms of the primitives and the iterations of ellipses, extrusions, revolutions and offsets. Also the searches of patches guided by control points, with the cutting of sub-patches inside (C110_*_patch_inverse). Not covered: that search on polynomial Bézier patches of dynamic degrees, which lose their degrees when cut (C76_dynamic_refuted). Refuted: extrusions moved through their location (C110_extrusion_location_refuted); scalings (C110_scaling_refuted, tolerances are absolute).
* **C111** Pull theorems for all four rational classes (the NURBS patch after set_weight followed by initialize, as the class requires); speed change, conics and circles for rational Bezier curves; the full circle for NURBS curves. Arithmetic is exact.
* **C112** Stated for non-periodic curves; the derivative curve of a periodic Bezier curve sets its own flag (C06).
* **C113** Non-periodic curves with parameters in the domain, spans not below the rounded 1e-16; all degrees. That the fixed degrees are not accurate relative to the derivative is C113_degree2_relative_refuted. Exponent range unlimited (no overflow or underflow).
* **C114** Non-periodic patches, parameters in the unit square, generic iso-curve classes. Second derivatives of rational patches are in C115, first derivatives of NURBS patches in C116. Exponent range unlimited (no overflow or underflow).
* **C115** Non-periodic patches, parameters in the unit square, generic iso-curve classes; all degrees. The threshold is the constant epsilon of the code, kept as a parameter. Exponent range unlimited (no overflow or underflow).
* **C116** Non-periodic patches, parameters in the domain, generic iso-curve classes. The second derivatives are C117 and C118. Exponent range unlimited (no overflow or underflow).
* **C117** Non-periodic patches, parameters in the domain, generic iso-curve classes; every degree (B-spline patches of degree at most one and NURBS patches of degree zero have no error, NURBS patches of degree one have their own bound). The mixed second derivative is C118. Exponent range unlimited (no overflow or underflow).
* **C118** Non-periodic patches, parameters in the domain, generic iso-curve classes; every degree. If both degrees are positive, no difference of knots dividing a difference of control points is zero; otherwise the result is zero without error. Exponent range unlimited (no overflow or underflow).

## 4. Where the code differs from the properties

Each item has a theorem `..._refuted` with a concrete witness (or for all inputs where
said) and, where something weaker is true, a `_partial` theorem.

Curves
* Degree-1 Bézier class ignores the periodic flag (C02).
* Free `split` accepts an epsilon window outside the domain and extrapolates (C08).
* Cubic `subcurve` returns the part `[t0, t0 + (1 - t0) t1]` for inner ranges, and reads out
  of range for `(1, 1)` (C09); its turning angle inherits this (C75).
* Rational elevation, knot insertion and split can produce a zero weight from weights of
  both signs (C10, C62).
* `locate_span` returns an empty span at the lower bound if the first span is empty; the
  evaluators then divide by a guarded zero (C12, C13, C20).
* Spans shorter than `1e-16` are treated as empty (C13).
* Repeated insertion at the lower bound, and insertion in the epsilon window outside the
  domain, change the curve (C17).  More removals than copies remove other knots (C18).
* Degree-0 spline split is wrong (C19).  Parameters up to the machine epsilon outside the domain are accepted
  by knot insertion, split and the patch splits, and leave knots that are not sorted (C17, C19, C65).
* `combine_Beziers`/`elevate_degree` straighten corners below epsilon and fail for
  discontinuous splines (C22, C73).
* Conversions drop the periodic flag (C21, C26).  NURBS does not notice replaced knots (C27).
* `BSpline::subcurve` (BSpline.h:317-326) calls a one-argument `split` that does not exist,
  so the template cannot be instantiated; not modelled.
* Line::clone drops the periodic flag (C61).

* In double precision: rational curves with a weight such as `0.1` may miss their end points by a bit
  (C81); periodic splines abort for a parameter just before a domain such as `[-1, 3.9]` (C83); the
  constant curve `3` evaluates to less than `3` (C84); with contraction of products the join of a split
  is not the evaluated point (C85); the last of the uniform samples of `[-1, 3.9]` is above `3.9`, and
  the closest point search on a curve can return a parameter above its range (C86); clipping the angle
  `-π/2` to a range starting three turns later fails an assertion (C87).

Patches
* `BezierPatch::split_u/v` of dynamic degree (also rational) uses an unset degree (C30, C63);
  `subpatch` applies the second split at an unscaled parameter (C30).
* B-spline and NURBS patches evaluate with stale caches after setters (C32, C63).
* `BSplinePatch::subpatch` of zero width returns the whole upper part (C65).
* Second derivatives of rational patches are zeroed for negative weights (C63).
* `RationalBezierPatch::get_patch_type` returns the type of a polynomial patch (noted in the
  model of the MSH records).
* Sphere reports a periodic v direction (C68).  OffsetPatch clone after re-initialisation
  differs (C61).

Searches and numerics
* Newton and sampling searches may return a point farther away than a sample (C34, C35).
* Circle, ellipse, plane, cylinder, cone, sphere, torus, extrusion inverse evaluation fail
  in the regions named in the notes (C37, C38, C40, C43, C67).
* The root finder with tolerance zero divides by a zero leading coefficient (C46).
* Romberg integration omits a midpoint, so lengths are too short above level 0 (C47).
* `inverse_arc_length` inherits this: at constant speed its parameter is at least half a percent too
  large, and for the whole length of a curve it lies outside the domain (C77).
* Degenerate segments, segment starts and the last plane iterate (C48).
* `UNIFORM_RANGE` ignores its lower end (C49).
* Rational tangent search ignores the weights (C57).
* Feature search of splines fails for intervals starting at an inner knot (C72); so does the
  turning angle of cubic splines, and one ending at an inner knot adds a whole piece (C75).
* The span search of periodic splines has its wrap test inverted; an empty range returns
  parameter 0 (C74).
* The patch search guided by control points takes sub-patches of inner ranges for the ranges
  (degree 4 and up), fails for dynamic degrees, misses corners far from the control net and gets
  stuck at the end of unclamped knots (C76).
* Turning angles of polygons outside a half plane lose full turns; circles with a clockwise
  frame get the wrong sign (C75).
* Dynamic-degree least squares of B-splines use degree -1 (C56); degree-0 simplices (C53, C55).
* `RevolutionPatch::inverse_evaluate` of a boundary point of a disk swept by its diameter reports
  success at the centre of the disk, because the averaged profile point lies on the axis (C80).
* Rational curves multiply points by weights and derivatives take differences before scaling: both
  overflow although the result is representable (C104).
* NaN evaluates a B-spline whose end knot has multiplicity above degree + 1 out of range (C104).
* When all squared distances overflow, `approximate_inverse_evaluate` of a curve keeps its initial best
  parameter `0.0`, which may be outside the range, and it can return NaN for finite curves and queries
  (C105). A query with a NaN coordinate makes `inverse_evaluate` of a patch fail its assertion, in release
  builds return NaN with the flag for convergence (C105).

Bezier simplices
* From the degree 13 on a simplex cannot be evaluated: the table of factorials overflows `int` (C89).
* `choose(63, 31)` is wrong although it fits 64 bits: the product before the division wraps around (C89).
* The degree 255 makes the loop over an 8-bit counter endless (C89).

Files
* OBJ: vertex offsets for three or more entities (C50); curve end and domain (C69).
* `save_svg` divides by zero when all control points coincide, and curves with weights of mixed sign leave
  the page (C78).
* `to_eps` writes `stoke` instead of `stroke` and no `arc` for the control points: the program stops with an
  error before anything is painted (C79).
* Extrusions and revolutions of lines, circles and ellipses, and offsets of them, recommend 0 samples;
  `save_msh` then evaluates at 0/0 (C90).
* MSH: periodic flags lost (C51); header minimum tag (C52); views without curves (C71); files with a line, circle,
  ellipse, analytic, swept or offset object are written and cannot be loaded (C98).
* `RationalBezierPatch::get_patch_type` returns `BEZIER` (C98).


## 5. Not modelled

* Rounding outside of the functions of `Model/Float.lean`, `Model/FloatPatch.lean`, `Model/FloatRational.lean`, `Model/FloatSecond.lean`, `Model/FloatPatchDeriv.lean`, `Model/FloatPatchSecond.lean`, `Model/FloatNurbsPatch.lean`, `Model/FloatNurbsSecond.lean`, `Model/FloatNurbsMixed.lean`,
  `Model/FloatEdit.lean` and `Model/FloatSearch.lean`; overflow, underflow, infinities and NaN outside of `Model/Ieee.lean` and
  `Model/IeeeSearch.lean`;
  signed zeros everywhere; Eigen expression templates and aliasing.
* Text formatting of OBJ/MSH/SVG/EPS files, file system errors.
* Eigen solvers (oracles, see above); the number of steps of the ellipse iteration and the convergence of
  Newton iterations in general.
* Accessors that return a member or throw `not_implemented_error`; `forward_declaration*.h`
  and `src/` (explicit instantiations).
* Uncompilable templates (`BSpline::subcurve`).
