import Mathlib.Algebra.Order.Field.Basic
import Mathlib.Algebra.Order.AbsoluteValue.Basic
import Mathlib.Algebra.Module.Basic

/-!
# Specification: lengths of vectors

Only what the error bounds need of a length: the triangle inequality and homogeneity.
-/

namespace NS.Spec

variable {K V : Type} [Field K] [LinearOrder K] [AddCommGroup V] [Module K V]

/-- A length of vectors. -/
structure IsSeminorm (nrm : V → K) : Prop where
  tri : ∀ a b, nrm (a + b) ≤ nrm a + nrm b
  smul : ∀ (a : K) v, nrm (a • v) = |a| * nrm v

end NS.Spec
