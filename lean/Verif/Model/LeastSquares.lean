import Verif.Model.BezierPatch
import Verif.Model.BSplinePatch

/-!
# Model of the least-squares functions of `Bezier.h`, `BSpline.h`, `BezierPatch.h`,
`BSplinePatch.h`

The matrices are lists of rows.  The solver `bdcSvd().solve(values)` of Eigen is a parameter
`solve` of the functions that call it; the properties state what they need of its result.
The degrees are the template arguments; a fixed-size result of the wrong size would not compile
and is not represented.  The basis curve of `Bezier<..., _degree, true>` for `_degree <= 3` is the
fixed-degree class, modelled by the generic one (C02).
-/

namespace NS
namespace LeastSquares

open Outcome

variable {K V T : Type} [Field K] [LinearOrder K] [IsStrictOrderedRing K] [FloorRing K]
  [AddCommGroup V] [Module K V]

/-- The body of the loop over the control points: Bezier.h:347-354, BSpline.h:439-447,
BezierPatch.h:610-618, BSplinePatch.h:731-740.  The state is the control points of the basis curve
and the matrix; `ev` sets the control points (and initialises) and evaluates. -/
def column (ev : List K → T → Outcome K) (params : List T) (j : ℕ) (st : List K × List (List K)) :
    Outcome (List K × List (List K)) := do
  let ctrl ← wr st.1 j 1
  let M ← loop params.length (fun i M => do
    let t ← rd params i
    let x ← ev ctrl t
    let row ← rd M i
    let row ← wr row j x
    wr M i row) st.2
  let ctrl ← wr ctrl j 0
  pure (ctrl, M)

/-- `form_least_squares_matrix`, Bezier.h:331-357. -/
def bezierMatrix (degree : ℕ) (params : List K) : Outcome (List (List K)) := do
  let n := degree + 1
  let st ← loop n (column (fun ctrl t => (Bezier.mk ctrl false).evaluate t) params)
    (List.replicate n 0, List.replicate params.length (List.replicate n 0))
  pure st.2

/-- `fit`, Bezier.h:359-377. -/
def bezierFit (solve : List (List K) → List V → List V) (degree : ℕ) (params : List K)
    (values : List V) : Outcome (Bezier V) := do
  Outcome.assert (params.length = values.length)
  let M ← bezierMatrix degree params
  pure { ctrl := solve M values }

/-- `deform`, Bezier.h:379-386. -/
def bezierDeform (solve : List (List K) → List V → List V) (degree : ℕ) (c : Bezier V)
    (params : List K) (changes : List V) : Outcome (Bezier V) := do
  let d ← bezierFit solve degree params changes
  Outcome.assert (c.ctrl.length = d.ctrl.length)
  pure { c with ctrl := List.zipWith (· + ·) c.ctrl d.ctrl }

/-- `form_least_squares_matrix`, BSpline.h:420-450; `sdeg` is the template argument `_degree`
(`none`: `-1`). -/
def bsplineMatrix (sdeg : Option ℕ) (n : ℕ) (knots : List K) (params : List K) :
    Outcome (List (List K)) := do
  Outcome.assert ((knots.length : ℤ) = (n : ℤ) + (match sdeg with | some d => (d : ℤ) | none => -1) + 1)
  let st ← loop n (column (fun ctrl t => (BSpline.mk ctrl knots false sdeg).evaluate t) params)
    (List.replicate n 0, List.replicate params.length (List.replicate n 0))
  pure st.2

/-- `fit`, BSpline.h:452-475. -/
def bsplineFit (solve : List (List K) → List V → List V) (sdeg : Option ℕ) (params : List K)
    (values : List V) (n : ℕ) (knots : List K) : Outcome (BSpline K V) := do
  Outcome.assert (params.length = values.length)
  let M ← bsplineMatrix sdeg n knots params
  pure { ctrl := solve M values, knots := knots, sdeg := sdeg }

/-- `deform`, BSpline.h:478-488. -/
def bsplineDeform (solve : List (List K) → List V → List V) (c : BSpline K V)
    (params : List K) (changes : List V) : Outcome (BSpline K V) := do
  let d ← bsplineFit solve c.sdeg params changes c.ctrl.length c.knots
  Outcome.assert (c.ctrl.length = d.ctrl.length)
  pure { c with ctrl := List.zipWith (· + ·) c.ctrl d.ctrl }

/-- Set the grid of a Bezier patch, initialise and evaluate (BezierPatch.h:611-616). -/
def bezierPatchEv (degU degV : ℕ) (grid : List V) (uv : K × K) : Outcome V := do
  let p := BezierPatch.ofGrid (degU : ℤ) (degV : ℤ) grid
  p.init
  p.evaluate uv.1 uv.2

/-- `form_least_squares_matrix`, BezierPatch.h:585-622. -/
def bezierPatchMatrix (degU degV : ℕ) (params : List (K × K)) : Outcome (List (List K)) := do
  let n := (degU + 1) * (degV + 1)
  let st ← loop (degU + 1) (fun j st => loop (degV + 1) (fun k st =>
      column (bezierPatchEv degU degV) params (j * (degV + 1) + k) st) st)
    (List.replicate n 0, List.replicate params.length (List.replicate n 0))
  pure st.2

/-- `fit`, BezierPatch.h:624-643. -/
def bezierPatchFit (solve : List (List K) → List V → List V) (degU degV : ℕ)
    (params : List (K × K)) (values : List V) : Outcome (BezierPatch V) := do
  Outcome.assert (params.length = values.length)
  let M ← bezierPatchMatrix degU degV params
  let p := BezierPatch.ofGrid (degU : ℤ) (degV : ℤ) (solve M values)
  p.init
  pure p

/-- `deform`, BezierPatch.h:645-653. -/
def bezierPatchDeform (solve : List (List K) → List V → List V) (degU degV : ℕ) (p : BezierPatch V)
    (params : List (K × K)) (changes : List V) : Outcome (BezierPatch V) := do
  let d ← bezierPatchFit solve degU degV params changes
  Outcome.assert (p.grid.length = d.grid.length)
  let p := { p with grid := List.zipWith (· + ·) p.grid d.grid }
  p.init
  pure p

/-- A default-constructed B-spline patch with given knots and grid (BSplinePatch.h:54-58,
189-199; `-1` for a dynamic degree). -/
def bsplinePatch (sU sV : ℤ) (knotsU knotsV : List K) (grid : List V) : BSplinePatch K V :=
  { grid := grid, knotsU := knotsU, knotsV := knotsV, degU := sU, degV := sV, sU := sU, sV := sV }

/-- Set the grid of a B-spline patch, initialise and evaluate (BSplinePatch.h:732-738). -/
def bsplinePatchEv (sU sV : ℤ) (knotsU knotsV : List K) (grid : List V) (uv : K × K) :
    Outcome V := do
  let p ← (bsplinePatch sU sV knotsU knotsV grid).init
  p.evaluate uv.1 uv.2

/-- `form_least_squares_matrix`, BSplinePatch.h:705-744. -/
def bsplinePatchMatrix (sU sV : ℤ) (numU numV : ℕ) (knotsU knotsV : List K)
    (params : List (K × K)) : Outcome (List (List K)) := do
  let n := numU * numV
  let st ← loop numU (fun j st => loop numV (fun k st =>
      column (bsplinePatchEv sU sV knotsU knotsV) params (j * numV + k) st) st)
    (List.replicate n 0, List.replicate params.length (List.replicate n 0))
  pure st.2

/-- `fit`, BSplinePatch.h:746-774. -/
def bsplinePatchFit (solve : List (List K) → List V → List V) (sU sV : ℤ) (params : List (K × K))
    (values : List V) (numU numV : ℕ) (knotsU knotsV : List K) : Outcome (BSplinePatch K V) := do
  Outcome.assert (params.length = values.length)
  let M ← bsplinePatchMatrix sU sV numU numV knotsU knotsV params
  (bsplinePatch sU sV knotsU knotsV (solve M values)).init

/-- `deform`, BSplinePatch.h:776-789. -/
def bsplinePatchDeform (solve : List (List K) → List V → List V) (p : BSplinePatch K V)
    (params : List (K × K)) (changes : List V) : Outcome (BSplinePatch K V) := do
  let m ← p.numU
  let n ← p.numV
  let d ← bsplinePatchFit solve p.sU p.sV params changes m n p.knotsU p.knotsV
  Outcome.assert (p.grid.length = d.grid.length)
  { p with grid := List.zipWith (· + ·) p.grid d.grid }.init

end LeastSquares
end NS
