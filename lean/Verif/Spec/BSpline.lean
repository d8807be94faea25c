import Mathlib.Algebra.Order.Field.Basic
import Mathlib.Algebra.Module.Basic
import Mathlib.Algebra.BigOperators.Group.Finset.Basic

/-!
# Specification: B-spline curves

The recursive Cox-de Boor basis, independent of the model.  The domain of a spline of degree `p`
with `n` control points is `[u_p, u_n]`; at its upper end `tmax` the basis is the one of the last
non-empty span.
-/

namespace NS.Spec

open Finset

variable {K V : Type} [Field K] [LinearOrder K] [AddCommGroup V] [Module K V]

/-- `t` belongs to the `i`-th knot span, spans being closed on the left; at `t = tmax` the span
is the non-empty one ending at `tmax`. -/
def InSpan (u : ℕ → K) (tmax : K) (i : ℕ) (t : K) : Prop :=
  if t = tmax then u i < u (i + 1) ∧ u (i + 1) = tmax else u i ≤ t ∧ t < u (i + 1)

instance (u : ℕ → K) (tmax : K) (i : ℕ) (t : K) : Decidable (InSpan u tmax i t) := by
  unfold InSpan; infer_instance

/-- Cox-de Boor basis function `N_{i,p}(t)`; a quotient with zero denominator counts as zero
(`x / 0 = 0`), the usual convention. -/
def basis (u : ℕ → K) (tmax : K) : ℕ → ℕ → K → K
  | 0, i, t => if InSpan u tmax i t then 1 else 0
  | q + 1, i, t =>
    (t - u i) / (u (i + q + 1) - u i) * basis u tmax q i t
      + (u (i + q + 2) - t) / (u (i + q + 2) - u (i + 1)) * basis u tmax q (i + 1) t

/-- Knot `i` of a knot list. -/
def knot (knots : List K) (i : ℕ) : K := knots.getD i 0

/-- The point `Σ N_{i,p}(t) P_i`; the domain ends at the knot with index `ctrl.length`. -/
def bsplinePoint (p : ℕ) (knots : List K) (ctrl : List V) (t : K) : V :=
  ∑ i ∈ range ctrl.length,
    basis (knot knots) (knot knots ctrl.length) p i t • ctrl.getD i 0

end NS.Spec
