import Mathlib.Analysis.SpecialFunctions.Trigonometric.Basic
import Mathlib.Topology.ContinuousOn

/-!
# Rotation of a tangent

The signed angle by which a nowhere vanishing planar vector field `d` turns along an interval, by a continuous
choice of its angle.
-/

namespace NS
namespace Turning

/-- The unit vector with angle `a`. -/
noncomputable def dir (a : ℝ) : ℝ × ℝ := (Real.cos a, Real.sin a)

/-- `phi` is a continuous choice of the angle of `d` on `[a, b]`. -/
structure Angle (d : ℝ → ℝ × ℝ) (a b : ℝ) (phi : ℝ → ℝ) : Prop where
  cont : ContinuousOn phi (Set.Icc a b)
  eq : ∀ t, a ≤ t → t ≤ b → ∃ r : ℝ, 0 < r ∧ d t = r • dir (phi t)

/-- `d` turns by the angle `theta` from `a` to `b` (counterclockwise positive; several turns count). -/
def Rotates (d : ℝ → ℝ × ℝ) (a b theta : ℝ) : Prop :=
  ∃ phi, Angle d a b phi ∧ phi b - phi a = theta

/-- Every edge of the polygon `l` has a positive component along `w`. -/
def HalfPlane (w : ℝ × ℝ) (l : List (ℝ × ℝ)) : Prop :=
  ∀ i p q, l[i]? = some p → l[i + 1]? = some q → 0 < w.1 * (q.1 - p.1) + w.2 * (q.2 - p.2)

/-- Consecutive points of the polygon `l` differ. -/
def Proper (l : List (ℝ × ℝ)) : Prop :=
  ∀ i p q, l[i]? = some p → l[i + 1]? = some q → p ≠ q

end Turning
end NS
