import Mathlib.Algebra.BigOperators.Group.Finset.Basic
import Mathlib.Algebra.Field.Defs
import Mathlib.Algebra.Module.LinearMap.Defs
import Mathlib.Algebra.Order.Ring.Defs
import Mathlib.Order.Lattice
import Mathlib.Data.Finset.Range

/-!
# Specification of a least-squares solution

What is assumed of the linear algebra library: in every coordinate the solution minimises the sum
of squared residuals.
-/

namespace NS
namespace Spec

variable {K : Type} [Field K] [LinearOrder K] {V : Type} [AddCommGroup V] [Module K V]

/-- Row `i` of `M X - Y`. -/
def residual (n : ℕ) (M : List (List K)) (X Y : List V) (i : ℕ) : V :=
  (∑ j ∈ Finset.range n, (M.getD i []).getD j 0 • X.getD j 0) - Y.getD i 0

/-- `X` (`n` rows) solves `M X = Y` (`m` equations) in the least-squares sense. -/
def IsLeastSquares (m n : ℕ) (M : List (List K)) (X Y : List V) : Prop :=
  X.length = n ∧ ∀ Q : List V, Q.length = n → ∀ φ : V →ₗ[K] K,
    ∑ i ∈ Finset.range m, φ (residual n M X Y i) ^ 2
      ≤ ∑ i ∈ Finset.range m, φ (residual n M Q Y i) ^ 2

end Spec
end NS
