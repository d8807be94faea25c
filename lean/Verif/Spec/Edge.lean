import Verif.Spec.Patch
import Verif.Model.Rounding

/-!
# Edges of control grids
-/

namespace NS.Spec

variable {V : Type} [Zero V]

/-- The points of column `j` of a grid with `m` rows of length `w`, a curve in the first parameter. -/
def gridColumn (grid : List V) (m w j : ℕ) : List V := (List.range m).map fun i => grid.getD (i * w + j) 0

/-- The points of row `i` of a grid with rows of length `w`, a curve in the second parameter. -/
def gridRow (grid : List V) (w i : ℕ) : List V := (List.range w).map fun j => grid.getD (i * w + j) 0

/-- How the compiler contracts the curves evaluated first, the curves along the direction of lower degree
(along `v` for equal degrees), when it contracts every evaluation of a curve along `u` as `Hu` says and
every evaluation of a curve along `v` as `Hv` says. -/
def firstFuse {ι : Type} (degU degV : ℤ) (Hu Hv : ℕ → ℕ → ι → Fuse) : ℕ → ℕ → ℕ → ι → Fuse :=
  fun _ => if degV > degU then Hu else Hv

/-- How it contracts the curve evaluated last. -/
def lastFuse {ι : Type} (degU degV : ℤ) (Hu Hv : ℕ → ℕ → ι → Fuse) : ℕ → ℕ → ι → Fuse :=
  if degV > degU then Hv else Hu

end NS.Spec
