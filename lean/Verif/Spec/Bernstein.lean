import Mathlib.Algebra.Field.Basic
import Mathlib.Algebra.Module.Basic
import Mathlib.Algebra.BigOperators.Group.Finset.Basic
import Mathlib.Data.Nat.Choose.Basic

/-!
# Specification: Bernstein form

The textbook definition of a Bézier curve, independent of the model.
-/

namespace NS.Spec

open Finset

variable {K V : Type} [Field K] [AddCommGroup V] [Module K V]

/-- Bernstein basis function `B_i^n(t)`. -/
def bernstein (n i : ℕ) (t : K) : K := (n.choose i : K) * t ^ i * (1 - t) ^ (n - i)

/-- The point `Σ B_i^n(t) P_i` of the Bézier curve with control points `P` (degree
`P.length - 1`). -/
def bezierPoint (P : List V) (t : K) : V :=
  ∑ i ∈ range P.length, bernstein (P.length - 1) i t • P.getD i 0

end NS.Spec
