import Mathlib.LinearAlgebra.Matrix.ToLinearEquiv
import Mathlib.LinearAlgebra.Matrix.Charpoly.Basic
import Mathlib.Analysis.Complex.Basic

/-!
# Polynomials given by coefficient functions, and what an exact eigenvalue solver returns
-/

namespace NS
namespace Roots

/-- The value of the polynomial with coefficients `c 0, …, c n`. -/
def polyVal {K : Type} [CommRing K] (c : ℕ → K) (n : ℕ) (x : K) : K :=
  ∑ i ∈ Finset.range (n + 1), c i * x ^ i

/-- `e` is the degree left after dropping leading coefficients below the tolerance. -/
structure DegreeUpTo (eps : ℝ) (c : ℕ → ℝ) (d e : ℕ) : Prop where
  le : e ≤ d
  lead : eps ≤ |c e|
  small : ∀ i, e < i → i ≤ d → |c i| < eps

/-- The solver returns precisely the complex eigenvalues of every matrix. -/
def ExactEig (eig : ℕ → (ℕ → ℕ → ℝ) → List ℂ) : Prop :=
  ∀ n M l, l ∈ eig n M ↔ ∃ v : Fin n → ℂ, v ≠ 0 ∧
    (Matrix.of fun i j : Fin n => ((M i j : ℝ) : ℂ)).mulVec v = l • v

end Roots
end NS
