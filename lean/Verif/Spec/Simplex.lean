import Mathlib.Algebra.Field.Defs
import Mathlib.Algebra.Module.BigOperators
import Mathlib.Algebra.Order.Antidiag.Pi
import Mathlib.Data.Nat.Choose.Multinomial

/-!
# Specification of the Bezier simplex

Multi-indices are functions `Fin n → ℕ` of given sum; the basis functions are the multinomial
Bernstein polynomials.  Nothing here refers to the model.
-/

namespace NS
namespace Spec

open Finset

variable {K : Type} [Field K] {V : Type} [AddCommGroup V] [Module K V] {n : ℕ}

/-- The multinomial Bernstein polynomial `(|α|! / ∏ α_j!) ∏ b_j ^ α_j`. -/
def simplexBasis (α : Fin n → ℕ) (b : Fin n → K) : K :=
  (Nat.multinomial univ α : K) * ∏ j, b j ^ α j

/-- The Bernstein form of degree `d` with coefficient `F α` at the multi-index `α`. -/
def simplexForm (d : ℕ) (F : (Fin n → ℕ) → V) (b : Fin n → K) : V :=
  ∑ α ∈ piAntidiag (univ : Finset (Fin n)) d, simplexBasis α b • F α

/-- The coordinates of a barycentric point given as a list. -/
def coords (n : ℕ) (b : List K) : Fin n → K := fun j => b.getD j 0

end Spec
end NS
