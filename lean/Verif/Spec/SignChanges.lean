import Mathlib.Algebra.Order.Field.Basic

/-!
# Sign changes
-/

namespace NS.Spec

variable {K T : Type} [Field K] [LinearOrder K]

/-- `f` changes its sign at least `k` times along increasing arguments that satisfy `D`, starting
with the sign of `σ`: there are `k + 1` such arguments at which `f` is alternately of the sign of
`σ` and of the opposite sign. -/
def Changes [LT T] (D : T → Prop) (f : T → K) (k : ℕ) (σ : K) : Prop :=
  ∃ x : ℕ → T, (∀ j < k, x j < x (j + 1)) ∧ (∀ j ≤ k, D (x j)) ∧
    ∀ j ≤ k, 0 < σ * (-1) ^ j * f (x j)

end NS.Spec
