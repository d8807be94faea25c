import Verif.Spec.Bernstein
import Verif.Spec.BSpline

/-!
# Specification: rational curves

Weighted quotients of the Bernstein and B-spline sums.  The quotient is only meant where the
denominator is not zero.
-/

namespace NS.Spec

open Finset

variable {K V : Type} [Field K] [LinearOrder K] [AddCommGroup V] [Module K V]

/-- Denominator `Σ B_i(t) w_i`. -/
def ratBezierDen (w : List K) (t : K) : K :=
  ∑ i ∈ range w.length, bernstein (w.length - 1) i t * w.getD i 0

/-- The point `(Σ B_i(t) w_i P_i) / (Σ B_i(t) w_i)`. -/
def ratBezierPoint (P : List V) (w : List K) (t : K) : V :=
  (ratBezierDen w t)⁻¹ •
    ∑ i ∈ range P.length, (bernstein (P.length - 1) i t * w.getD i 0) • P.getD i 0

/-- Denominator `Σ N_i(t) w_i`. -/
def ratBSplineDen (p : ℕ) (u : List K) (w : List K) (t : K) : K :=
  ∑ i ∈ range w.length, basis (knot u) (knot u w.length) p i t * w.getD i 0

/-- The point `(Σ N_i(t) w_i P_i) / (Σ N_i(t) w_i)`. -/
def ratBSplinePoint (p : ℕ) (u : List K) (P : List V) (w : List K) (t : K) : V :=
  (ratBSplineDen p u w t)⁻¹ •
    ∑ i ∈ range P.length, (basis (knot u) (knot u P.length) p i t * w.getD i 0) • P.getD i 0

end NS.Spec
