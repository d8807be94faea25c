import Mathlib.Algebra.Order.Field.Basic

/-!
# What the span-wise search has to sample
-/

namespace NS.SpanSearch

variable {K : Type} [Field K] [LinearOrder K]

/-- `[a, b]` is one of the pieces into which the knots cut `[lower, upper]`. -/
structure Piece (knots : List K) (lower upper a b : K) : Prop where
  lo : lower ≤ a
  lt : a < b
  hi : b ≤ upper
  left : a = lower ∨ a ∈ knots
  right : b = upper ∨ b ∈ knots
  none : ∀ x ∈ knots, ¬(a < x ∧ x < b)

/-- `t` is one of the `num + 1` evenly spaced parameters of one of the pieces. -/
def IsSample (knots : List K) (num : ℕ) (lower upper t : K) : Prop :=
  ∃ a b, Piece knots lower upper a b ∧ ∃ j ≤ num, t = a + (j : K) / (num : K) * (b - a)

end NS.SpanSearch
