import Verif.Model.Line
import Verif.Model.Primitive
import Verif.Model.TurningAngle

/-!
# Model of the feature queries of `Line.h`, `Circle.h` and `Ellipse.h`

`dim` is the template parameter `_dim`; the arguments of the queries are the ends of the range.
-/

namespace NS

open Outcome

namespace Line

/-- `compute_inflections`, Line.h:114-117. -/
def computeInflections (_lower _upper : ℝ) : Outcome (List ℝ) := ok []

/-- `reduce_turning_angle`, Line.h:119-122. -/
def reduceTurningAngle (_lower _upper : ℝ) : Outcome (List ℝ) := throw Err.notImplemented

/-- `compute_singularities`, Line.h:124-127. -/
def computeSingularities (_lower _upper : ℝ) : Outcome (List ℝ) := ok []

end Line

namespace Circle

/-- `compute_inflections`, Circle.h:153-156. -/
def computeInflections (_lower _upper : ℝ) : Outcome (List ℝ) := ok []

/-- `reduce_turning_angle`, Circle.h:158-165. -/
noncomputable def reduceTurningAngle (dim : ℕ) (lower upper : ℝ) : Outcome (List ℝ) := do
  if dim ≠ 2 then throw Err.runtimeError
  else do
    Outcome.assert (lower ≤ upper)
    pure [(lower + upper) / 2]

/-- `compute_singularities`, Circle.h:167-170. -/
def computeSingularities (_lower _upper : ℝ) : Outcome (List ℝ) := ok []

end Circle

namespace Ellipse

/-- `compute_inflections`, Ellipse.h:221-224. -/
def computeInflections (_lower _upper : ℝ) : Outcome (List ℝ) := ok []

/-- `reduce_turning_angle`, Ellipse.h:226-230. -/
def reduceTurningAngle (_lower _upper : ℝ) : Outcome (List ℝ) := throw Err.notImplemented

/-- `compute_singularities`, Ellipse.h:232-235. -/
def computeSingularities (_lower _upper : ℝ) : Outcome (List ℝ) := ok []

/-- `get_turning_angle` of an ellipse in the plane, inherited from `CurveBase` (CurveBase.h:107-129); `eps` is
the machine epsilon. -/
noncomputable def turningAngle (eps : ℝ) (c : Ellipse (ℝ × ℝ)) (t0 t1 : ℝ) : Outcome ℝ :=
  Turning.curve eps (fun t => ok (c.evaluateDerivative t)) t0 t1

end Ellipse
end NS
