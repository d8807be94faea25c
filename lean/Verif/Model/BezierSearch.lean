import Verif.Model.Bezier
import Verif.Model.Inverse

/-!
# Model of `BezierBase::approximate_inverse_evaluate`
-/

namespace NS

open Outcome

variable {K V : Type} [Field K] [LinearOrder K] [IsStrictOrderedRing K] [FloorRing K]
  [AddCommGroup V] [Module K V] [Geom K V]

namespace Bezier

/-- The virtual evaluators, Bezier.h:43-51, 67-86 and 88-109 (any degree). -/
def fn (c : Bezier V) : CurveFn K V where
  ev := c.evaluate
  d1 := c.evaluateDerivative
  d2 := c.evaluate2ndDerivative

/-- `approximate_inverse_evaluate`, BezierBase.h:37-45: twice as many samples as control points.
`big` is the largest scalar, `tol` the `epsilon * 100` of CurveBase.h:163; negative levels are like
0. -/
def approxInverse (big tol : K) (c : Bezier V) (p : V) (lower upper : K) (level : ℕ) : Outcome K :=
  NS.approxInverse big tol c.fn p (2 * (c.degree + 1)).toNat level lower upper

end Bezier

end NS
