import Verif.Spec.Bernstein

/-!
# Specification: tensor product Bézier patches

The control grid of a patch of degrees `m`, `n` is a list of `(m + 1) * (n + 1)` points, the point
with indices `(i, j)` standing at `i * (n + 1) + j`.
-/

namespace NS.Spec

open Finset

variable {K V : Type} [Field K] [AddCommGroup V] [Module K V]

/-- Point `(i, j)` of a control grid with rows of length `w`. -/
def gridPoint (grid : List V) (w i j : ℕ) : V := grid.getD (i * w + j) 0

/-- `Σ_i Σ_j B_{i,m}(u) B_{j,n}(v) P_ij`. -/
def bezierSurface (m n : ℕ) (grid : List V) (u v : K) : V :=
  ∑ i ∈ range (m + 1), ∑ j ∈ range (n + 1),
    (bernstein m i u * bernstein n j v) • gridPoint grid (n + 1) i j

end NS.Spec
