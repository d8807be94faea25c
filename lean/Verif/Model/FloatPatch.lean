import Verif.Model.Float
import Verif.Model.BSplinePatch

/-!
# Evaluators of B-spline patches, NURBS and rational patches with rounded arithmetic

The same conventions as in `Model/Float.lean`: points are coordinate functions, every arithmetic
operation is rounded by `R`, the arguments `F`, `G` say which products are fused, and the exponent
range is unlimited.  As there, a zero denominator is `ub`.
-/

namespace NS.Fl

open Outcome

variable {K ι : Type} [Field K] [LinearOrder K] [IsStrictOrderedRing K] [FloorRing K]

/-! ### Derivatives of B-splines -/

/-- `get_derivative_coefficients`, BSpline.h:94-109, in place; `n` is the new degree plus one. -/
def bsplineDerivCoef (R : Rounding K) (c : BSpline K (ι → K)) (n : ℕ) (k : ℤ) (q : List (ι → K)) :
    Outcome (List (ι → K)) :=
  loop n (fun i q => do
    let a ← rdI c.knots (i + k + 1)
    let b ← rdI c.knots (i + k + 1 - n)
    let diff := R.rnd (a - b)
    let alpha : K := if diff > 0 then R.rnd ((n : K) / diff) else 0
    let x ← rd q (i + 1)
    let y ← rd q i
    wr q i (fun l => R.rnd (alpha * R.rnd (x l - y l)))) q

/-- `evaluate_derivative`, BSpline.h:111-132. -/
def bsplineDerivative (R : Rounding K) (F : ℕ → ℕ → ι → Fuse) (c : BSpline K (ι → K)) (t : K) :
    Outcome (ι → K) := do
  c.validate
  let t ← bsplineWrap R c t
  let k ← c.locateSpan t
  Outcome.assert (c.degree ≥ 0)
  let p := c.degree.toNat
  if p = 0 then ok 0 else do
    let q ← c.spanCtrl p k
    let q ← bsplineDerivCoef R c p k q
    bsplineDeBoor R F c t (p - 1) k q

/-! ### NURBS -/

/-- The quotient of the rational evaluators, NURBS.h:55, RationalBezierPatch.h:51, NURBSPatch.h:53. -/
def quotient (R : Rounding K) (x : Option ι → K) : Outcome (ι → K) := do
  Outcome.assert (x none ≠ 0)
  pure fun i => R.rnd (x (some i) / x none)

/-- `evaluate` of an initialised curve, NURBS.h:51-56 with 292-303; `c` holds the control points,
the knots and the flags. -/
def nurbsEvaluate (R : Rounding K) (F : ℕ → ℕ → Option ι → Fuse) (c : BSpline K (ι → K))
    (w : List K) (t : K) : Outcome (ι → K) := do
  let Q ← homogenize R c.ctrl w
  c.validate
  let x ← bsplineEvaluate R F (BSpline.mk Q c.knots c.periodic c.sdeg) t
  quotient R x

/-! ### B-spline patches -/

/-- `compute_iso_curve_u`, BSplinePatch.h:212-229. -/
def bsplineIsoU (R : Rounding K) (F : ℕ → ℕ → ℕ → ι → Fuse) (p : BSplinePatch K (ι → K)) (v : K) :
    Outcome (BSpline K (ι → K)) := do
  let m ← p.numU
  let c ← tab m (fun i => do
    let iso ← rd p.isoV i
    bsplineEvaluate R (F i) iso v)
  pure (BSpline.mk c p.knotsU p.perU (BSplinePatch.staticDeg p.sU))

/-- `compute_iso_curve_v`, BSplinePatch.h:231-247. -/
def bsplineIsoV (R : Rounding K) (F : ℕ → ℕ → ℕ → ι → Fuse) (p : BSplinePatch K (ι → K)) (u : K) :
    Outcome (BSpline K (ι → K)) := do
  let n ← p.numV
  let c ← tab n (fun j => do
    let iso ← rd p.isoU j
    bsplineEvaluate R (F j) iso u)
  pure (BSpline.mk c p.knotsV p.perV (BSplinePatch.staticDeg p.sV))

/-- `evaluate`, BSplinePatch.h:63-72. -/
def bsplinePatchEvaluate (R : Rounding K) (F : ℕ → ℕ → ℕ → ι → Fuse) (G : ℕ → ℕ → ι → Fuse)
    (p : BSplinePatch K (ι → K)) (u v : K) : Outcome (ι → K) :=
  if p.degV > p.degU then do
    let c ← bsplineIsoV R F p u
    bsplineEvaluate R G c v
  else do
    let c ← bsplineIsoU R F p v
    bsplineEvaluate R G c u

/-- `evaluate_derivative_u`, BSplinePatch.h:74-78. -/
def bsplinePatchDerivU (R : Rounding K) (F : ℕ → ℕ → ℕ → ι → Fuse) (G : ℕ → ℕ → ι → Fuse)
    (p : BSplinePatch K (ι → K)) (u v : K) : Outcome (ι → K) := do
  let c ← bsplineIsoU R F p v
  bsplineDerivative R G c u

/-- `evaluate_derivative_v`, BSplinePatch.h:80-84. -/
def bsplinePatchDerivV (R : Rounding K) (F : ℕ → ℕ → ℕ → ι → Fuse) (G : ℕ → ℕ → ι → Fuse)
    (p : BSplinePatch K (ι → K)) (u v : K) : Outcome (ι → K) := do
  let c ← bsplineIsoV R F p u
  bsplineDerivative R G c v

/-! ### Rational patches -/

/-- `evaluate` after `initialize`, RationalBezierPatch.h:47-52 with 139-155; `p` holds the control
grid, the degrees and the flags.  The validation is passed after `initialize`. -/
def rationalPatchEvaluate (R : Rounding K) (F : ℕ → ℕ → ℕ → Option ι → Fuse)
    (G : ℕ → ℕ → Option ι → Fuse) (p : BezierPatch (ι → K)) (w : List K) (u v : K) :
    Outcome (ι → K) := do
  let Q ← homogenize R p.grid w
  let x ← patchEvaluate R F G
    (BezierPatch.mk Q p.degU p.degV p.perU p.perV p.sU p.sV) u v
  quotient R x

/-- `evaluate` after `initialize`, NURBSPatch.h:49-54 with 139-159; `p` holds the control grid, the
knots, the degrees and the flags. -/
def nurbsPatchEvaluate (R : Rounding K) (F : ℕ → ℕ → ℕ → Option ι → Fuse)
    (G : ℕ → ℕ → Option ι → Fuse) (p : BSplinePatch K (ι → K)) (w : List K) (u v : K) :
    Outcome (ι → K) := do
  let Q ← homogenize R p.grid w
  let h ← BSplinePatch.init (BSplinePatch.mk Q p.knotsU p.knotsV p.degU p.degV p.perU p.perV p.sU p.sV
    [] [])
  let x ← bsplinePatchEvaluate R F G h u v
  quotient R x

end NS.Fl
