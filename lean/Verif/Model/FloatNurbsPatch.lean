import Verif.Model.FloatPatch
import Verif.Model.FloatRational

/-!
# Partial derivatives of NURBS patches with rounded arithmetic

Conventions as in `Model/Float.lean`.  The two evaluations of the homogeneous patch, of the value and
of the derivative, may be compiled differently: they have their own fusing arguments.
-/

namespace NS.Fl

open Outcome

variable {K ι : Type} [Field K] [LinearOrder K] [IsStrictOrderedRing K] [FloorRing K]

/-- The homogeneous patch built by `initialize`, NURBSPatch.h:139-159, from the control grid, knots,
degrees and flags of `p` and the weights `w`. -/
def nurbsPatchHom (R : Rounding K) (p : BSplinePatch K (ι → K)) (w : List K) :
    Outcome (BSplinePatch K (Option ι → K)) := do
  let Q ← homogenize R p.grid w
  BSplinePatch.init (BSplinePatch.mk Q p.knotsU p.knotsV p.degU p.degV p.perU p.perV p.sU p.sV [] [])

/-- `evaluate_derivative_u` after `initialize`, NURBSPatch.h:56-63.  The validation is passed after
`initialize`. -/
def nurbsPatchDerivU (R : Rounding K) (F F' : ℕ → ℕ → ℕ → Option ι → Fuse)
    (G G' : ℕ → ℕ → Option ι → Fuse) (p : BSplinePatch K (ι → K)) (w : List K) (u v : K) :
    Outcome (ι → K) := do
  let h ← nurbsPatchHom R p w
  let x ← bsplinePatchEvaluate R F G h u v
  let d ← bsplinePatchDerivU R F' G' h u v
  derivQuotient R x d

/-- `evaluate_derivative_v` after `initialize`, NURBSPatch.h:65-72. -/
def nurbsPatchDerivV (R : Rounding K) (F F' : ℕ → ℕ → ℕ → Option ι → Fuse)
    (G G' : ℕ → ℕ → Option ι → Fuse) (p : BSplinePatch K (ι → K)) (w : List K) (u v : K) :
    Outcome (ι → K) := do
  let h ← nurbsPatchHom R p w
  let x ← bsplinePatchEvaluate R F G h u v
  let d ← bsplinePatchDerivV R F' G' h u v
  derivQuotient R x d

end NS.Fl
