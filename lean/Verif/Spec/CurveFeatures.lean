import Mathlib.Analysis.Calculus.Deriv.Basic
import Mathlib.Analysis.Calculus.Deriv.Prod

/-!
# Singular points and inflections of a differentiable curve
-/

namespace NS
namespace Spec

/-- The curve stops at `t`: its derivative exists and is zero. -/
def Singular {E : Type} [NormedAddCommGroup E] [NormedSpace ℝ E] (p : ℝ → E) (t : ℝ) : Prop :=
  HasDerivAt p 0 t

/-- The cross product of the first and the second derivative of a planar curve, whose sign is the sign of the
curvature. -/
noncomputable def bend (p : ℝ → ℝ × ℝ) (t : ℝ) : ℝ :=
  (deriv p t).1 * (deriv (deriv p) t).2 - (deriv p t).2 * (deriv (deriv p) t).1

/-- The curvature takes both signs in every neighbourhood of `t`. -/
def Inflection (p : ℝ → ℝ × ℝ) (t : ℝ) : Prop :=
  ∀ e > 0, ∃ a b, |a - t| < e ∧ |b - t| < e ∧ bend p a * bend p b < 0

/-- `l` has exactly the parameters of `[lower, upper]` with the property `P`. -/
def Lists (P : ℝ → Prop) (lower upper : ℝ) (l : List ℝ) : Prop :=
  ∀ t, t ∈ l ↔ lower ≤ t ∧ t ≤ upper ∧ P t

end Spec
end NS
