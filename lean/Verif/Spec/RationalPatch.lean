import Verif.Spec.Rational
import Verif.Spec.BSplinePatch

/-!
# Specification: rational patches

Weighted quotients of tensor product sums.  The quotient is only meant where the denominator is not
zero.
-/

namespace NS.Spec

open Finset

variable {K V : Type} [Field K] [LinearOrder K] [AddCommGroup V] [Module K V]

/-- Denominator `Σ B_i(u) B_j(v) w_ij`. -/
def ratBezierSurfaceDen (m n : ℕ) (w : List K) (u v : K) : K :=
  ∑ i ∈ range (m + 1), ∑ j ∈ range (n + 1),
    bernstein m i u * bernstein n j v * gridPoint w (n + 1) i j

/-- `(Σ B_i(u) B_j(v) w_ij P_ij) / (Σ B_i(u) B_j(v) w_ij)`. -/
def ratBezierSurface (m n : ℕ) (P : List V) (w : List K) (u v : K) : V :=
  (ratBezierSurfaceDen m n w u v)⁻¹ •
    ∑ i ∈ range (m + 1), ∑ j ∈ range (n + 1),
      (bernstein m i u * bernstein n j v * gridPoint w (n + 1) i j) • gridPoint P (n + 1) i j

/-- Denominator `Σ N_i(u) N_j(v) w_ij`. -/
def ratBSplineSurfaceDen (p q m n : ℕ) (ku kv : List K) (w : List K) (u v : K) : K :=
  ∑ i ∈ range m, ∑ j ∈ range n,
    basis (knot ku) (knot ku m) p i u * basis (knot kv) (knot kv n) q j v * gridPoint w n i j

/-- `(Σ N_i(u) N_j(v) w_ij P_ij) / (Σ N_i(u) N_j(v) w_ij)`. -/
def ratBSplineSurface (p q m n : ℕ) (ku kv : List K) (P : List V) (w : List K) (u v : K) : V :=
  (ratBSplineSurfaceDen p q m n ku kv w u v)⁻¹ •
    ∑ i ∈ range m, ∑ j ∈ range n,
      (basis (knot ku) (knot ku m) p i u * basis (knot kv) (knot kv n) q j v * gridPoint w n i j) •
        gridPoint P n i j

end NS.Spec
