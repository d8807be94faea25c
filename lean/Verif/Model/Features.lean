import Verif.Model.Generated
import Verif.Model.GeneratedRational
import Verif.Model.Rational
import Verif.Model.Roots
import Mathlib.Data.List.Sort

/-!
# Inflections, singularities and turning angle reduction of planar curves

Bezier.h, RationalBezier.h, BSpline.h, NURBS.h and the dispatchers at the end of the generated headers
internal/auto_*.h, with `NANOSPLINE_SYMPY` on.  Only planar curves are modelled: points are pairs, so the
`_dim != 2` exceptions do not occur.  `high` is the compile time switch `HIGH_DEGREE_SUPPORT`
(CMakeLists.txt:15, 54-57).
-/

namespace NS
namespace Features

open Outcome

/-! ### Dispatchers -/

section

variable {K : Type} [CommRing K]

/-- Column 0 of the control points.  The dispatchers read only the rows below the number they switch on. -/
def colX (P : List (K × K)) (i : ℕ) : K := (P.getD i (0, 0)).1

/-- Column 1 of the control points. -/
def colY (P : List (K × K)) (i : ℕ) : K := (P.getD i (0, 0)).2

/-- The switch of `compute_Bezier_inflections`, auto_inflection_Bezier.h:247-286: the coefficients for the
given number of control points; `none` is the default case. -/
def inflectionCoeffs (high : Bool) (P : List (K × K)) : Option (List K) :=
  let x := colX P
  let y := colY P
  match P.length with
  | 3 => some (inflection2 x y)
  | 4 => some (inflection3 x y)
  | 5 => some (inflection4 x y)
  | 6 => if high then some (inflection5 x y) else none
  | 7 => if high then some (inflection6 x y) else none
  | 8 => if high then some (inflection7 x y) else none
  | 9 => if high then some (inflection8 x y) else none
  | 10 => if high then some (inflection9 x y) else none
  | 11 => if high then some (inflection10 x y) else none
  | _ => none

/-- The switch of `compute_Bezier_singularities`, auto_singularity_Bezier.h:137-160. -/
def singularityCoeffs (high : Bool) (P : List (K × K)) : Option (List K) :=
  let x := colX P
  let y := colY P
  match P.length with
  | 3 => some (singularity2 x y)
  | 4 => some (singularity3 x y)
  | 5 => some (singularity4 x y)
  | 6 => if high then some (singularity5 x y) else none
  | 7 => if high then some (singularity6 x y) else none
  | _ => none

/-- The switch of `match_tangent_bezier`, auto_match_tangent_Bezier.h:257-296; the degree passed by the
callers is the number of control points less one. -/
def tangentCoeffs (high : Bool) (P : List (K × K)) (tx ty : K) : Option (List K) :=
  let x := colX P
  let y := colY P
  match P.length with
  | 3 => some (tangent2 x y tx ty)
  | 4 => some (tangent3 x y tx ty)
  | 5 => some (tangent4 x y tx ty)
  | 6 => if high then some (tangent5 x y tx ty) else none
  | 7 => if high then some (tangent6 x y tx ty) else none
  | 8 => if high then some (tangent7 x y tx ty) else none
  | 9 => if high then some (tangent8 x y tx ty) else none
  | 10 => if high then some (tangent9 x y tx ty) else none
  | 11 => if high then some (tangent10 x y tx ty) else none
  | _ => none

/-- The switch of `compute_RationalBezier_inflections`, auto_inflection_RationalBezier.h:104-119. -/
def ratInflectionCoeffs (P : List (K × K)) (w : List K) : Option (List K) :=
  let x := colX P
  let y := colY P
  let w := fun i => w.getD i 0
  match P.length with
  | 3 => some (ratInflection2 x y w)
  | 4 => some (ratInflection3 x y w)
  | 5 => some (ratInflection4 x y w)
  | _ => none

/-- The switch of `compute_RationalBezier_singularities`, auto_singularity_RationalBezier.h:71-84. -/
def ratSingularityCoeffs (P : List (K × K)) (w : List K) : Option (List K) :=
  let x := colX P
  let y := colY P
  let w := fun i => w.getD i 0
  match P.length with
  | 3 => some (ratSingularity2 x y w)
  | 4 => some (ratSingularity3 x y w)
  | _ => none

/-- The switch of `match_tangent_rational_bezier`, auto_match_tangent_RationalBezier.h:96-111. -/
def ratTangentCoeffs (P : List (K × K)) (w : List K) (tx ty : K) : Option (List K) :=
  let x := colX P
  let y := colY P
  let w := fun i => w.getD i 0
  match P.length with
  | 3 => some (ratTangent2 x y w tx ty)
  | 4 => some (ratTangent3 x y w tx ty)
  | 5 => some (ratTangent4 x y w tx ty)
  | _ => none

end

/-! ### Solving -/

/-- The tolerance `1e-8` of the generated functions and of `reduce_turning_angle`, as a real number. -/
noncomputable def tol : ℝ := 1 / 100000000

variable (eig : ℕ → (ℕ → ℕ → ℝ) → List ℂ)

/-- A generated function: the finder whose degree is one less than the number of coefficients, on an empty
result vector; the default case of the dispatchers throws `not_implemented_error`. -/
noncomputable def solve (co : Option (List ℝ)) (t0 t1 : ℝ) : Outcome (List ℝ) :=
  match co with
  | none => Outcome.throw .notImplemented
  | some co => Roots.find eig (co.length - 1) co [] t0 t1 tol

/-- `catch (infinite_root_error&) { res.clear(); }`. -/
def orEmpty : Outcome (List ℝ) → Outcome (List ℝ)
  | .throw .infiniteRoot => ok []
  | r => r

/-- `std::unique` followed by `erase`: of each run of equal neighbours the first stays. -/
noncomputable def unique : List ℝ → List ℝ
  | [] => []
  | [a] => [a]
  | a :: b :: l => if a = b then unique (a :: l) else a :: unique (b :: l)
termination_by l => l.length

/-- `std::sort` and removal of duplicates. -/
noncomputable def sortUnique (l : List ℝ) : List ℝ := unique (l.mergeSort fun a b => decide (a ≤ b))

/-- Eigen's `norm` of a planar vector. -/
noncomputable def norm2 (v : ℝ × ℝ) : ℝ := √(v.1 * v.1 + v.2 * v.2)

/-! ### Bezier -/

/-- `Bezier::compute_inflections`, Bezier.h:111-139. -/
noncomputable def computeInflections (high : Bool) (c : Bezier (ℝ × ℝ)) (lower upper : ℝ) :
    Outcome (List ℝ) :=
  if c.degree ≤ 2 then ok []
  else do
    let res ← orEmpty (solve eig (inflectionCoeffs high c.ctrl) lower upper)
    pure (sortUnique res)

/-- `Bezier::compute_singularities`, Bezier.h:203-221. -/
noncomputable def computeSingularities (high : Bool) (c : Bezier (ℝ × ℝ)) (lower upper : ℝ) :
    Outcome (List ℝ) := do
  let res ← solve eig (singularityCoeffs high c.ctrl) lower upper
  pure (sortUnique res)

/-- The normal of the average unit tangent, Bezier.h:181-185. -/
noncomputable def aveTangent (tan0 tan1 : ℝ × ℝ) : ℝ × ℝ :=
  let tan0 := (norm2 tan0)⁻¹ • tan0
  let tan1 := (norm2 tan1)⁻¹ • tan1
  (-(tan0.2 + tan1.2) / 2, (tan0.1 + tan1.1) / 2)

/-- `Bezier::reduce_turning_angle`, Bezier.h:158-201. -/
noncomputable def reduceTurningAngle (high : Bool) (c : Bezier (ℝ × ℝ)) (lower upper : ℝ) :
    Outcome (List ℝ) :=
  if c.degree < 2 then ok []
  else do
    let tan0 ← c.evaluateDerivative lower
    let tan1 ← c.evaluateDerivative upper
    if norm2 tan0 < tol ∨ norm2 tan1 < tol then pure [(lower + upper) / 2]
    else do
      let n := aveTangent tan0 tan1
      let res ← orEmpty (solve eig (tangentCoeffs high c.ctrl n.1 n.2) lower upper)
      pure (sortUnique res)

/-! ### Fixed degrees -/

/-- Degrees 0 and 1, Bezier.h:452-470 and 521-539: nothing is found. -/
def computeInflections01 (_c : Bezier (ℝ × ℝ)) (_lower _upper : ℝ) : Outcome (List ℝ) := ok []
/-- Degrees 0 and 1. -/
def computeSingularities01 (_c : Bezier (ℝ × ℝ)) (_lower _upper : ℝ) : Outcome (List ℝ) := ok []
/-- Degrees 0 and 1. -/
def reduceTurningAngle01 (_c : Bezier (ℝ × ℝ)) (_lower _upper : ℝ) : Outcome (List ℝ) := ok []

/-- Degree 2, Bezier.h:636-640. -/
def computeInflections2 (_c : Bezier (ℝ × ℝ)) (_lower _upper : ℝ) : Outcome (List ℝ) := ok []

/-- Degree 2, Bezier.h:701-724. -/
noncomputable def computeSingularities2 (c : Bezier (ℝ × ℝ)) (lower upper : ℝ) : Outcome (List ℝ) := do
  Outcome.assert (c.ctrl.length = 3)
  let res ← solve eig (some (singularity2 (colX c.ctrl) (colY c.ctrl))) lower upper
  pure (sortUnique res)

/-- Degree 2, Bezier.h:653-699. -/
noncomputable def reduceTurningAngle2 (c : Bezier (ℝ × ℝ)) (lower upper : ℝ) : Outcome (List ℝ) := do
  Outcome.assert (c.ctrl.length = 3)
  let tan0 ← c.evaluateDerivative2 lower
  let tan1 ← c.evaluateDerivative2 upper
  if norm2 tan0 < tol ∨ norm2 tan1 < tol then pure [(lower + upper) / 2]
  else do
    let n := aveTangent tan0 tan1
    let res ← orEmpty (solve eig (some (tangent2 (colX c.ctrl) (colY c.ctrl) n.1 n.2)) lower upper)
    pure (sortUnique res)

/-- Degree 3, Bezier.h:844-872. -/
noncomputable def computeInflections3 (c : Bezier (ℝ × ℝ)) (lower upper : ℝ) : Outcome (List ℝ) := do
  Outcome.assert (c.ctrl.length = 4)
  let res ← orEmpty (solve eig (some (inflection3 (colX c.ctrl) (colY c.ctrl))) lower upper)
  pure (sortUnique res)

/-- Degree 3, Bezier.h:941-968. -/
noncomputable def computeSingularities3 (c : Bezier (ℝ × ℝ)) (lower upper : ℝ) : Outcome (List ℝ) := do
  Outcome.assert (c.ctrl.length = 4)
  let res ← solve eig (some (singularity3 (colX c.ctrl) (colY c.ctrl))) lower upper
  pure (sortUnique res)

/-- Degree 3, Bezier.h:891-939; unlike the other classes it also looks at the sum of the tangents. -/
noncomputable def reduceTurningAngle3 (c : Bezier (ℝ × ℝ)) (lower upper : ℝ) : Outcome (List ℝ) := do
  Outcome.assert (c.ctrl.length = 4)
  let tan0 ← c.evaluateDerivative3 lower
  let tan1 ← c.evaluateDerivative3 upper
  if norm2 tan0 < tol ∨ norm2 tan1 < tol ∨ norm2 (tan0 + tan1) < 2 * tol then
    pure [(lower + upper) / 2]
  else do
    let n := aveTangent tan0 tan1
    let res ← orEmpty (solve eig (some (tangent3 (colX c.ctrl) (colY c.ctrl) n.1 n.2)) lower upper)
    pure (sortUnique res)

/-! ### Rational Bezier -/

/-- `RationalBezier::compute_inflections`, RationalBezier.h:98-126. -/
noncomputable def ratComputeInflections (c : RationalBezier ℝ (ℝ × ℝ)) (lower upper : ℝ) :
    Outcome (List ℝ) :=
  if c.base.degree ≤ 2 then ok []
  else do
    let res ← orEmpty (solve eig (ratInflectionCoeffs c.base.ctrl c.weights) lower upper)
    pure (sortUnique res)

/-- `RationalBezier::compute_singularities`, RationalBezier.h:189-209. -/
noncomputable def ratComputeSingularities (c : RationalBezier ℝ (ℝ × ℝ)) (lower upper : ℝ) :
    Outcome (List ℝ) := do
  let res ← solve eig (ratSingularityCoeffs c.base.ctrl c.weights) lower upper
  pure (sortUnique res)

/-- `RationalBezier::reduce_turning_angle`, RationalBezier.h:144-187. -/
noncomputable def ratReduceTurningAngle (c : RationalBezier ℝ (ℝ × ℝ)) (lower upper : ℝ) :
    Outcome (List ℝ) :=
  if c.base.degree < 2 then ok []
  else do
    let tan0 ← c.evaluateDerivative lower
    let tan1 ← c.evaluateDerivative upper
    if norm2 tan0 < tol ∨ norm2 tan1 < tol ∨ norm2 (tan0 + tan1) < 2 * tol then
      pure [(lower + upper) / 2]
    else do
      let n := aveTangent tan0 tan1
      let res ← orEmpty (solve eig (ratTangentCoeffs c.base.ctrl c.weights n.1 n.2) lower upper)
      pure (sortUnique res)

/-! ### Piecewise curves -/

/-- The loops of BSpline.h:159-194, 226-264, 266-304 and NURBS.h:158-191, 209-246, 248-285 over the pieces
`segs` with parameter intervals `bounds`; `f` searches one piece.  Bounds increase strictly, so the
quotients are never taken by zero; the model makes that undefined. -/
noncomputable def pieceFeatures {α : Type} (f : α → ℝ → ℝ → Outcome (List ℝ)) (lower upper : ℝ)
    (segs : List α) (bounds : List ℝ) : Outcome (List ℝ) := do
  Outcome.assert (bounds.length = segs.length + 1)
  let res ← loop segs.length (fun idx res => do
    let tMin ← rd bounds idx
    let tMax ← rd bounds (idx + 1)
    if tMax < lower ∨ tMin > upper then ok res
    else do
      Outcome.assert (tMax - tMin ≠ 0)
      let normLower := max ((lower - tMin) / (tMax - tMin)) 0
      let normUpper := min ((upper - tMin) / (tMax - tMin)) 1
      let curve ← rd segs idx
      let found ← f curve normLower normUpper
      pure (res ++ found.map fun t => t * (tMax - tMin) + tMin)) ([] : List ℝ)
  pure (sortUnique res)

/-- `BSpline::compute_inflections`, BSpline.h:159-194; `eps` is the machine epsilon of the conversion.  The pieces
are of the generic class; `C57_fixed_degree` relates it to the fixed degrees. -/
noncomputable def bsplineInflections (high : Bool) (eps : ℝ) (c : BSpline ℝ (ℝ × ℝ)) (lower upper : ℝ) :
    Outcome (List ℝ) := do
  let (segs, bounds) ← c.toBezier eps
  pieceFeatures (computeInflections eig high) lower upper segs bounds

/-- `BSpline::compute_singularities`, BSpline.h:266-304. -/
noncomputable def bsplineSingularities (high : Bool) (eps : ℝ) (c : BSpline ℝ (ℝ × ℝ))
    (lower upper : ℝ) : Outcome (List ℝ) := do
  let (segs, bounds) ← c.toBezier eps
  pieceFeatures (computeSingularities eig high) lower upper segs bounds

/-- `BSpline::reduce_turning_angle`, BSpline.h:226-264. -/
noncomputable def bsplineTurningAngle (high : Bool) (eps : ℝ) (c : BSpline ℝ (ℝ × ℝ))
    (lower upper : ℝ) : Outcome (List ℝ) := do
  let (segs, bounds) ← c.toBezier eps
  pieceFeatures (reduceTurningAngle eig high) lower upper segs bounds

/-- `NURBS::compute_inflections`, NURBS.h:158-191. -/
noncomputable def nurbsInflections (eps : ℝ) (c : NURBS ℝ (ℝ × ℝ)) (lower upper : ℝ) :
    Outcome (List ℝ) := do
  let (segs, bounds) ← c.toRationalBezier eps
  pieceFeatures (ratComputeInflections eig) lower upper segs bounds

/-- `NURBS::compute_singularities`, NURBS.h:248-285. -/
noncomputable def nurbsSingularities (eps : ℝ) (c : NURBS ℝ (ℝ × ℝ)) (lower upper : ℝ) :
    Outcome (List ℝ) := do
  let (segs, bounds) ← c.toRationalBezier eps
  pieceFeatures (ratComputeSingularities eig) lower upper segs bounds

/-- `NURBS::reduce_turning_angle`, NURBS.h:209-246. -/
noncomputable def nurbsTurningAngle (eps : ℝ) (c : NURBS ℝ (ℝ × ℝ)) (lower upper : ℝ) :
    Outcome (List ℝ) := do
  let (segs, bounds) ← c.toRationalBezier eps
  pieceFeatures (ratReduceTurningAngle eig) lower upper segs bounds

end Features
end NS
