import Verif.Model.Features
import Mathlib.Analysis.SpecialFunctions.Complex.Arg

/-!
# Model of `get_turning_angle`

Bezier.h, CurveBase.h, RationalBezier.h, NURBS.h, BSpline.h, Circle.h and Line.h.  Only planar curves are
modelled: points are pairs, so the `_dim != 2` exceptions do not occur.  Scalars are real numbers and
`std::atan2(y, x)` is the argument of the complex number `x + i y`, which is `0` at the origin as in C.
-/

namespace NS
namespace Turning

open Outcome Features

/-- The expression `atan2(v0 × v1, v0 · v1)`, Bezier.h:153, 650, 887-888, CurveBase.h:128. -/
noncomputable def turn (v0 v1 : ℝ × ℝ) : ℝ :=
  Complex.arg ⟨v0.1 * v1.1 + v0.2 * v1.2, v0.1 * v1.2 - v0.2 * v1.1⟩

/-- The loop over the control polygon, Bezier.h:147-155. -/
noncomputable def polygonTurning (ctrl : List (ℝ × ℝ)) : Outcome ℝ :=
  loop (ctrl.length - 2) (fun j theta => do
    let a ← rd ctrl j
    let b ← rd ctrl (j + 1)
    let c ← rd ctrl (j + 2)
    pure (theta + turn (b - a) (c - b))) (0 : ℝ)

/-- `Bezier::get_turning_angle` of the generic class, Bezier.h:141-156. -/
noncomputable def bezier (c : Bezier (ℝ × ℝ)) (t0 t1 : ℝ) : Outcome ℝ := do
  let s ← c.subcurve t0 t1
  polygonTurning s.ctrl

/-- Degree 0 and degree 1, Bezier.h:458, 527, and `Line`, Line.h:129-135. -/
def straight (_t0 _t1 : ℝ) : Outcome ℝ := ok 0

/-- Degree 2, Bezier.h:642-651. -/
noncomputable def bezier2 (c : Bezier (ℝ × ℝ)) (t0 t1 : ℝ) : Outcome ℝ := do
  let v0 ← c.evaluateDerivative2 t0
  let v1 ← c.evaluateDerivative2 t1
  pure (turn v0 v1)

/-- Degree 3, Bezier.h:874-889. -/
noncomputable def bezier3 (c : Bezier (ℝ × ℝ)) (t0 t1 : ℝ) : Outcome ℝ := do
  let s ← c.subcurve3 t0 t1
  let p0 ← rd s.ctrl 0
  let p1 ← rd s.ctrl 1
  let p2 ← rd s.ctrl 2
  let p3 ← rd s.ctrl 3
  pure (turn (p1 - p0) (p2 - p1) + turn (p2 - p1) (p3 - p2))

/-- A retry loop of `CurveBase::get_turning_angle`, CurveBase.h:118-126: at most `n` times, while the
derivative `d` at `t` is shorter than `eps`, replace `t` by `step t`. -/
noncomputable def retry (d1 : ℝ → Outcome (ℝ × ℝ)) (eps : ℝ) (step : ℝ → ℝ) :
    ℕ → ℝ → ℝ × ℝ → Outcome (ℝ × (ℝ × ℝ))
  | 0, t, d => ok (t, d)
  | n + 1, t, d =>
    if norm2 d < eps then do
      let d' ← d1 (step t)
      retry d1 eps step n (step t) d'
    else ok (t, d)

/-- `CurveBase::get_turning_angle`, CurveBase.h:107-129; `d1` is `evaluate_derivative`. -/
noncomputable def curve (eps : ℝ) (d1 : ℝ → Outcome (ℝ × ℝ)) (t0 t1 : ℝ) : Outcome ℝ := do
  let v0 ← d1 t0
  let v1 ← d1 t1
  let r0 ← retry d1 eps (fun t => t + (t1 - t) * (1 / 1000)) 10 t0 v0
  let r1 ← retry d1 eps (fun t => t - (t - r0.1) * (1 / 1000)) 10 t1 v1
  pure (turn r0.2 r1.2)

/-- The loop of RationalBezier.h:127-142 and NURBS.h:194-208 for `n` control points. -/
noncomputable def chain (eps : ℝ) (d1 : ℝ → Outcome (ℝ × ℝ)) (n : ℕ) (t0 t1 : ℝ) : Outcome ℝ := do
  let r ← loop (n - 1) (fun j (s : ℝ × ℝ) => do
    let t := t0 + ((j + 1 : ℕ) : ℝ) / ((n : ℝ) - 1) * (t1 - t0)
    let a ← curve eps d1 s.2 t
    pure (s.1 + a, t)) ((0 : ℝ), t0)
  pure r.1

/-- `RationalBezier::get_turning_angle`, RationalBezier.h:127-142. -/
noncomputable def rationalBezier (eps : ℝ) (c : RationalBezier ℝ (ℝ × ℝ)) (t0 t1 : ℝ) : Outcome ℝ :=
  chain eps c.evaluateDerivative c.base.ctrl.length t0 t1

/-- `NURBS::get_turning_angle`, NURBS.h:194-208. -/
noncomputable def nurbs (eps : ℝ) (c : NURBS ℝ (ℝ × ℝ)) (t0 t1 : ℝ) : Outcome ℝ :=
  chain eps c.evaluateDerivative c.base.ctrl.length t0 t1

/-- The loop of `BSpline::get_turning_angle`, BSpline.h:209-224; `f` is the function of one piece.  Bounds
increase strictly, so the quotients are never taken by zero; the model makes that undefined. -/
noncomputable def pieces {α : Type} (f : α → ℝ → ℝ → Outcome ℝ) (t0 t1 : ℝ) (segs : List α)
    (bounds : List ℝ) : Outcome ℝ :=
  loop segs.length (fun i theta => do
    let tMin ← rd bounds i
    let tMax ← rd bounds (i + 1)
    if tMax < t0 ∨ tMin > t1 then ok theta
    else do
      Outcome.assert (tMax - tMin ≠ 0)
      let lower := max ((t0 - tMin) / (tMax - tMin)) 0
      let upper := min ((t1 - tMin) / (tMax - tMin)) 1
      let s ← rd segs i
      let a ← f s lower upper
      pure (theta + a)) (0 : ℝ)

/-- `BSpline::get_turning_angle`, BSpline.h:197-226, with pieces of the generic class. -/
noncomputable def bspline (eps : ℝ) (c : BSpline ℝ (ℝ × ℝ)) (t0 t1 : ℝ) : Outcome ℝ := do
  let (segs, bounds) ← c.toBezier eps
  pieces bezier t0 t1 segs bounds

/-- `BSpline::get_turning_angle`, BSpline.h:197-226, of the fixed degree 2. -/
noncomputable def bspline2 (eps : ℝ) (c : BSpline ℝ (ℝ × ℝ)) (t0 t1 : ℝ) : Outcome ℝ := do
  let (segs, bounds) ← c.toBezier eps
  pieces bezier2 t0 t1 segs bounds

/-- `BSpline::get_turning_angle`, BSpline.h:197-226, of the fixed degree 3. -/
noncomputable def bspline3 (eps : ℝ) (c : BSpline ℝ (ℝ × ℝ)) (t0 t1 : ℝ) : Outcome ℝ := do
  let (segs, bounds) ← c.toBezier eps
  pieces bezier3 t0 t1 segs bounds

/-- `Circle::get_turning_angle`, Circle.h:172-179. -/
noncomputable def circle (t0 t1 : ℝ) : Outcome ℝ := do
  Outcome.assert (t0 ≤ t1)
  pure (t1 - t0)

end Turning
end NS
