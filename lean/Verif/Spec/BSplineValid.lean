import Verif.Model.BSpline
import Verif.Spec.BSpline

/-!
# Well-formedness of B-spline objects

Preconditions the B-spline code relies on without checking them.
-/

namespace NS.BSpline

open Spec

variable {K V : Type} [Field K] [LinearOrder K]

/-- The object is a B-spline of degree `p`: the sizes fit, knots are sorted and the domain
`[u_p, u_n]` is not a point. -/
structure WellFormed (c : BSpline K V) (p : ℕ) : Prop where
  len : c.knots.length = c.ctrl.length + p + 1
  sdeg : c.sdeg = none ∨ c.sdeg = some p
  ctrl : p + 1 ≤ c.ctrl.length
  sorted : c.knots.Pairwise (· ≤ ·)
  dom : knot c.knots p < knot c.knots c.ctrl.length

/-- The first knot span of the domain is not empty. -/
def FirstSpan (c : BSpline K V) (p : ℕ) : Prop := knot c.knots p < knot c.knots (p + 1)

/-- Non-empty spans of the domain are longer than the `1e-16` of the evaluation code. -/
def Wide (c : BSpline K V) (p : ℕ) : Prop :=
  ∀ i, p ≤ i → i < c.ctrl.length → knot c.knots i < knot c.knots (i + 1) →
    1 / 10 ^ 16 < knot c.knots (i + 1) - knot c.knots i

end NS.BSpline
