import Verif.Model.FloatNurbsPatch
import Verif.Model.FloatPatchSecond
import Verif.Model.FloatSecond

/-!
# Second derivatives of B-spline and NURBS patches in one direction with rounded arithmetic

Conventions as in `Model/FloatPatchSecond.lean`: each call has its own fused operations.
-/

namespace NS.Fl

open Outcome

variable {K ι : Type} [Field K] [LinearOrder K] [IsStrictOrderedRing K] [FloorRing K]

/-- `evaluate_2nd_derivative_uu`, BSplinePatch.h:86-90. -/
def bsplinePatchDerivUU (R : Rounding K) (F : ℕ → ℕ → ℕ → ι → Fuse) (G : ℕ → ℕ → ι → Fuse)
    (p : BSplinePatch K (ι → K)) (u v : K) : Outcome (ι → K) := do
  let c ← bsplineIsoU R F p v
  bspline2ndDerivative R G c u

/-- `evaluate_2nd_derivative_vv`, BSplinePatch.h:92-96. -/
def bsplinePatchDerivVV (R : Rounding K) (F : ℕ → ℕ → ℕ → ι → Fuse) (G : ℕ → ℕ → ι → Fuse)
    (p : BSplinePatch K (ι → K)) (u v : K) : Outcome (ι → K) := do
  let c ← bsplineIsoV R F p u
  bspline2ndDerivative R G c v

/-- The first derivative inside of the second derivatives, NURBSPatch.h:87-90, 108-111 and 127-134;
`k` fuses the product. -/
def innerDeriv (R : Rounding K) (k : ι → Bool) (x d : Option ι → K) (i : ι) : K :=
  R.rnd (subMul R (k i) (d (some i)) (d none) (R.rnd (x (some i) / x none)) / x none)

/-- `evaluate_2nd_derivative_uu` after `initialize`, NURBSPatch.h:74-93; the validation is passed. -/
def nurbsPatchDerivUU (R : Rounding K) (tol : K) (a b c : Fuses ι) (k f g : ι → Bool)
    (p : BSplinePatch K (ι → K)) (w : List K) (u v : K) : Outcome (ι → K) := do
  let h ← nurbsPatchHom R p w
  let x ← bsplinePatchEvaluate R a.iso a.curve h u v
  let du ← bsplinePatchDerivU R b.iso b.curve h u v
  let duu ← bsplinePatchDerivUU R c.iso c.curve h u v
  sameQuotient R tol f g x du duu (ok (innerDeriv R k x du))

/-- `evaluate_2nd_derivative_vv` after `initialize`, NURBSPatch.h:95-114; the validation is passed. -/
def nurbsPatchDerivVV (R : Rounding K) (tol : K) (a b c : Fuses ι) (k f g : ι → Bool)
    (p : BSplinePatch K (ι → K)) (w : List K) (u v : K) : Outcome (ι → K) := do
  let h ← nurbsPatchHom R p w
  let x ← bsplinePatchEvaluate R a.iso a.curve h u v
  let dv ← bsplinePatchDerivV R b.iso b.curve h u v
  let dvv ← bsplinePatchDerivVV R c.iso c.curve h u v
  sameQuotient R tol f g x dv dvv (ok (innerDeriv R k x dv))

end NS.Fl
