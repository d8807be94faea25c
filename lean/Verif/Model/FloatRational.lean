import Verif.Model.FloatPatch

/-!
# Derivatives of rational curves with rounded arithmetic

The conventions of `Model/Float.lean`: every operation is rounded, `F` and `G` say which products of
the two homogeneous evaluations are fused, a zero denominator is `ub`.  No product of the quotient
itself is an operand of a sum, so nothing can be fused there.
-/

namespace NS.Fl

open Outcome

variable {K ι : Type} [Field K] [LinearOrder K] [IsStrictOrderedRing K] [FloorRing K]

/-- The quotient of `evaluate_derivative`, RationalBezier.h:56 and NURBS.h:69; the coordinate `none`
is the weight. -/
def derivQuotient (R : Rounding K) (x d : Option ι → K) : Outcome (ι → K) := do
  Outcome.assert (x none ≠ 0)
  pure fun i => R.rnd (R.rnd (d (some i) - R.rnd (R.rnd (x (some i) * d none) / x none)) / x none)

/-- `evaluate_derivative` of an initialised curve, RationalBezier.h:50-57.  The homogeneous curve is
the generic class, as in `rationalEvaluate`. -/
def rationalDerivative (R : Rounding K) (F G : ℕ → ℕ → Option ι → Fuse) (P : List (ι → K))
    (w : List K) (periodic : Bool) (t : K) : Outcome (ι → K) := do
  let Q ← homogenize R P w
  let x ← bezierEvaluate R F { ctrl := Q, periodic := periodic } t
  let d ← bezierDerivative R G { ctrl := Q, periodic := periodic } t
  derivQuotient R x d

/-- `evaluate_derivative` of an initialised curve, NURBS.h:63-70. -/
def nurbsDerivative (R : Rounding K) (F G : ℕ → ℕ → Option ι → Fuse) (c : BSpline K (ι → K))
    (w : List K) (t : K) : Outcome (ι → K) := do
  let Q ← homogenize R c.ctrl w
  c.validate
  let x ← bsplineEvaluate R F (BSpline.mk Q c.knots c.periodic c.sdeg) t
  let d ← bsplineDerivative R G (BSpline.mk Q c.knots c.periodic c.sdeg) t
  derivQuotient R x d

end NS.Fl
