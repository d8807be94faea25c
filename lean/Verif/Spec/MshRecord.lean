import Verif.Model.MshRecord

/-!
# What a user sees of a saved and loaded curve or patch

Only the data members of the four classes are used here.
-/

namespace NS

open Outcome

variable {K V : Type} [Field K] [LinearOrder K] [IsStrictOrderedRing K] [FloorRing K]
  [AddCommGroup V] [Module K V]

namespace AnyCurve

/-- Number of the class: 1 Bezier, 2 rational Bezier, 3 B-spline, 4 NURBS. -/
def kind : AnyCurve K V → ℕ
  | .bezier _ => 1
  | .rational _ => 2
  | .bspline _ => 3
  | .nurbs _ => 4

/-- The control points. -/
def points : AnyCurve K V → List V
  | .bezier c => c.ctrl
  | .rational c => c.base.ctrl
  | .bspline c => c.ctrl
  | .nurbs c => c.base.ctrl

/-- The weights, none for polynomial curves. -/
def weights : AnyCurve K V → List K
  | .bezier _ => []
  | .rational c => c.weights
  | .bspline _ => []
  | .nurbs c => c.weights

/-- The knots, none for Bezier curves. -/
def knots : AnyCurve K V → List K
  | .bezier _ => []
  | .rational _ => []
  | .bspline c => c.knots
  | .nurbs c => c.base.knots

/-- The periodic flag. -/
def periodic : AnyCurve K V → Bool
  | .bezier c => c.periodic
  | .rational c => c.base.periodic
  | .bspline c => c.periodic
  | .nurbs c => c.base.periodic

/-- `evaluate` of the class. -/
def evaluate : AnyCurve K V → K → Outcome V
  | .bezier c, t => c.evaluate t
  | .rational c, t => c.evaluate t
  | .bspline c, t => c.evaluate t
  | .nurbs c, t => c.evaluate t

/-- The curve is ready for use: it has control points, passes `validate_curve` and has been initialised. -/
def Ready : AnyCurve K V → Prop
  | .bezier c => c.ctrl ≠ []
  | .rational c => c.base.ctrl ≠ [] ∧ c.init = ok c
  | .bspline c => c.validate = ok ()
  | .nurbs c => c.base.ctrl ≠ [] ∧ c.base.validate = ok () ∧ c.init = ok c

end AnyCurve

namespace AnyPatch

/-- Number of the class: 1 Bezier, 2 rational Bezier, 3 B-spline, 4 NURBS. -/
def kind : AnyPatch K V → ℕ
  | .bezier _ => 1
  | .rational _ => 2
  | .bspline _ => 3
  | .nurbs _ => 4

/-- The control grid, row by row. -/
def points : AnyPatch K V → List V
  | .bezier p => p.grid
  | .rational p => p.base.grid
  | .bspline p => p.grid
  | .nurbs p => p.grid

/-- The weights, none for polynomial patches. -/
def weights : AnyPatch K V → List K
  | .bezier _ => []
  | .rational p => p.weights
  | .bspline _ => []
  | .nurbs p => p.weights

/-- The knots of the two directions. -/
def knots : AnyPatch K V → List K × List K
  | .bezier _ => ([], [])
  | .rational _ => ([], [])
  | .bspline p => (p.knotsU, p.knotsV)
  | .nurbs p => (p.knotsU, p.knotsV)

/-- The degrees of the two directions. -/
def degrees : AnyPatch K V → ℤ × ℤ
  | .bezier p => (p.degU, p.degV)
  | .rational p => (p.base.degU, p.base.degV)
  | .bspline p => (p.degU, p.degV)
  | .nurbs p => (p.degU, p.degV)

/-- The degree template arguments, `-1` if dynamic. -/
def template : AnyPatch K V → ℤ × ℤ
  | .bezier p => (p.sU, p.sV)
  | .rational p => (p.base.sU, p.base.sV)
  | .bspline p => (p.sU, p.sV)
  | .nurbs p => (p.sU, p.sV)

/-- The periodic flags of the two directions. -/
def periodic : AnyPatch K V → Bool × Bool
  | .bezier p => (p.perU, p.perV)
  | .rational p => (p.base.perU, p.base.perV)
  | .bspline p => (p.perU, p.perV)
  | .nurbs p => (p.perU, p.perV)

/-- `evaluate` of the class. -/
def evaluate : AnyPatch K V → K → K → Outcome V
  | .bezier p, u, v => p.evaluate u v
  | .rational p, u, v => p.evaluate u v
  | .bspline p, u, v => p.evaluate u v
  | .nurbs p, u, v => p.evaluate u v

/-- The patch has been initialised; a NURBS patch has control points. -/
def Ready : AnyPatch K V → Prop
  | .bezier p => p.init = ok ()
  | .rational p => p.init = ok p
  | .bspline p => p.init = ok p
  | .nurbs p => p.grid ≠ [] ∧ p.init = ok p

/-- A static degree is the degree (the constructors set it). -/
def Consistent (p : AnyPatch K V) : Prop :=
  (p.template.1 < 0 ∨ p.template.1 = p.degrees.1) ∧ (p.template.2 < 0 ∨ p.template.2 = p.degrees.2)

end AnyPatch

end NS
