import Verif.Spec.BSpline
import Verif.Spec.Patch
import Verif.Model.BSplinePatch

/-!
# Specification: tensor product B-spline patches
-/

namespace NS.Spec

open Finset

variable {K V : Type} [Field K] [LinearOrder K] [AddCommGroup V] [Module K V]

/-- `Σ_i Σ_j N_{i,p}(u) N_{j,q}(v) P_ij` for a grid of `m` times `n` points. -/
def bsplineSurface (p q m n : ℕ) (ku kv : List K) (grid : List V) (u v : K) : V :=
  ∑ i ∈ range m, ∑ j ∈ range n,
    (basis (knot ku) (knot ku m) p i u * basis (knot kv) (knot kv n) q j v) • gridPoint grid n i j

end NS.Spec

namespace NS.BSplinePatch

open Spec

variable {K V : Type} [Field K] [LinearOrder K]

/-- One direction of a B-spline patch: degree `p`, `n` control points, sorted knots, a domain that
is not a point, and a template degree that is dynamic or equal to `p`. -/
structure Axis (u : List K) (deg s : ℤ) (n p : ℕ) : Prop where
  deg : deg = p
  len : u.length = n + p + 1
  static : s < 0 ∨ s = p
  cnt : p + 1 ≤ n
  sorted : u.Pairwise (· ≤ ·)
  dom : knot u p < knot u n

/-- Knots, degrees and grid fit together. -/
structure Valid (p : BSplinePatch K V) (m n du dv : ℕ) : Prop where
  u : Axis p.knotsU p.degU p.sU m du
  v : Axis p.knotsV p.degV p.sV n dv
  grid : p.grid.length = m * n

/-- Non-empty spans of the domain are longer than the `1e-16` of the curve evaluation. -/
def WideOn (u : List K) (n p : ℕ) : Prop :=
  ∀ i, p ≤ i → i < n → knot u i < knot u (i + 1) → 1 / 10 ^ 16 < knot u (i + 1) - knot u i

/-- `t` is in the domain (strictly above its lower end if the first span is empty). -/
def InDom (u : List K) (n p : ℕ) (t : K) : Prop :=
  knot u p ≤ t ∧ t ≤ knot u n ∧ (knot u p < knot u (p + 1) ∨ knot u p < t)

end NS.BSplinePatch
