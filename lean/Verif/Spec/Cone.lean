import Mathlib.Algebra.Order.Field.Basic
import Mathlib.Algebra.Module.Basic

/-!
# Specification: convex cones of directions
-/

namespace NS.Spec

variable {K V : Type} [Field K] [LinearOrder K] [AddCommGroup V] [Module K V]

/-- A convex cone of vectors. -/
structure IsCone (K : Type) {V : Type} [Field K] [LinearOrder K] [AddCommGroup V] [Module K V]
    (C : V → Prop) : Prop where
  zero : C 0
  add : ∀ a b, C a → C b → C (a + b)
  smul : ∀ (r : K) a, 0 ≤ r → C a → C (r • a)

end NS.Spec
