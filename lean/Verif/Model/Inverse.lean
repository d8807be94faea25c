import Verif.Model.Curve
import Verif.Model.PatchBase

/-!
# Model of the generic inverse evaluation of `CurveBase.h` and `PatchBase.h`

Curves and patches enter through their virtual evaluators, as arbitrary functions; an evaluator may
throw.  Scalar arithmetic is exact.
-/

namespace NS

open Outcome

/-- The two Eigen operations on points used here: `dot` and `norm`; `squaredNorm` is
`dot x x`. -/
class Geom (K V : Type) where
  dot : V → V → K
  norm : V → K

/-- Virtual evaluators of a curve: `evaluate`, `evaluate_derivative`, `evaluate_2nd_derivative`
(CurveBase.h:62-65). -/
structure CurveFn (K V : Type) where
  ev : K → Outcome V
  d1 : K → Outcome V
  d2 : K → Outcome V

/-- Virtual evaluators of a patch (PatchBase.h:120-125). -/
structure PatchFn (K V : Type) where
  ev : K → K → Outcome V
  du : K → K → Outcome V
  dv : K → K → Outcome V
  duu : K → K → Outcome V
  dvv : K → K → Outcome V
  duv : K → K → Outcome V

variable {K V : Type} [Field K] [LinearOrder K] [IsStrictOrderedRing K] [FloorRing K]
  [AddCommGroup V] [Module K V] [Geom K V]

open Geom

/-- `squaredNorm`. -/
def sqNorm (x : V) : K := dot x x

/-- `CurveBase::newton_raphson`, CurveBase.h:174-201: the loop with `n` iterations left and state
`t`, `prev_t`, `prev_err`.  `t -= f / df` with `df = 0` gives an infinity of sign `-f`, which is then
clamped, or NaN for `f = 0`; NaN is modelled as undefined.  (A zero `df` is `+0.0` here: it is a
difference of equal positive numbers unless `d1 = 0`, and then `f = 0`.) -/
def newtonCurve (c : CurveFn K V) (p : V) (tol lower upper : K) : ℕ → K → K → K → Outcome K
  | 0, t, _, _ => ok t
  | n + 1, t, prevT, prevErr => do
    let d0 ← c.ev t
    let d1 ← c.d1 t
    let d2 ← c.d2 t
    let f : K := dot (p - d0) d1
    let df : K := dot (p - d0) d2 - sqNorm d1
    let err := |f|
    if err < tol then ok t
    else if prevErr > 0 ∧ err > prevErr then ok prevT
    else if df = 0 then
      (if f = 0 then ub else if f > 0 then ok lower else ok upper)
    else if t - f / df ≤ lower then ok lower
    else if t - f / df ≥ upper then ok upper
    else newtonCurve c p tol lower upper n (t - f / df) t err

/-- `CurveBase::newton_raphson`, CurveBase.h:174-183 (initial state). -/
def newtonRaphson (c : CurveFn K V) (p : V) (t : K) (iters : ℕ) (tol lower upper : K) : Outcome K :=
  newtonCurve c p tol lower upper iters t t (-1)

/-- The sampling loop of `CurveBase::approximate_inverse_evaluate`, CurveBase.h:150-161; state
`min_dist`, `min_t`; `big` is the largest scalar. -/
def closestSample (big : K) (c : CurveFn K V) (p : V) (num : ℕ) (lower upper : K) :
    Outcome (K × K) :=
  loop (num + 1) (fun i s => do
    let t := lower + (i : K) / (num : K) * (upper - lower)
    let q ← c.ev t
    let dist : K := sqNorm (p - q)
    pure (if dist < s.1 then (dist, t) else s)) (big, 0)

/-- `CurveBase::approximate_inverse_evaluate`, CurveBase.h:141-172; `tol` is `epsilon * 100`. -/
def approxInverse (big tol : K) (c : CurveFn K V) (p : V) (num : ℕ) :
    ℕ → K → K → Outcome K
  | 0, lower, upper => do
    Outcome.assert (num > 0)
    let s ← closestSample big c p num lower upper
    newtonRaphson c p s.2 10 tol lower upper
  | level + 1, lower, upper => do
    Outcome.assert (num > 0)
    let delta := (upper - lower) / (num : K)
    let s ← closestSample big c p num lower upper
    approxInverse big tol c p num level (min (max (s.2 - delta) lower) upper)
      (min (max (s.2 + delta) lower) upper)

namespace PatchBase

/-- `std::max(lo, std::min(hi, x))`, PatchBase.h:188-189. -/
def clampTo (lo hi x : K) : K := max lo (min hi x)

/-- The clamping at the end of an iteration, PatchBase.h:364-367. -/
def clampStep (lo hi x : K) : K :=
  if (if x < lo then lo else x) > hi then hi else (if x < lo then lo else x)

/-- `PatchBase::newton_raphson`, PatchBase.h:308-371: the loop with `n` iterations left and state
`(u, v)`, `prev_uv`, `prev_dist`.  Result: the final `uv` and the returned flag.  The Jacobian is
only inverted when its determinant is positive. -/
def newtonPatch (s : PatchFn K V) (p : V) (tol minU maxU minV maxV : K) :
    ℕ → K → K → K × K → K → Outcome ((K × K) × Bool)
  | 0, u, v, _, _ => ok ((u, v), true)
  | n + 1, u, v, prev, prevDist => do
    let q ← s.ev u v
    let r := q - p
    let dist : K := norm r
    if dist < tol ∨ |dist - prevDist| < tol then ok ((u, v), true)
    else if dist > prevDist then ok (prev, false)
    else do
      let su ← s.du u v
      let sv ← s.dv u v
      if |(dot su r : K)| < tol ∧ |(dot sv r : K)| < tol then ok ((u, v), true)
      else do
        let suu ← s.duu u v
        let svv ← s.dvv u v
        let suv ← s.duv u v
        let a : K := sqNorm su + dot r suu
        let b : K := dot su sv + dot r suv
        let c : K := dot sv su + dot r suv
        let d : K := sqNorm sv + dot r svv
        let det := a * d - b * c
        if det ≤ 0 then ok ((u, v), false)
        else
          let k1 : K := -dot r su
          let k2 : K := -dot r sv
          newtonPatch s p tol minU maxU minV maxV n
            (clampStep minU maxU (u + (d * k1 - b * k2) / det))
            (clampStep minV maxV (v + (a * k2 - c * k1) / det)) (u, v) dist

/-- `PatchBase::inverse_evaluate` with an initial guess, PatchBase.h:177-194. -/
def inverseFrom (big : K) (s : PatchFn K V) (p : V) (u v minU maxU minV maxV : K) (iters : ℕ)
    (tol : K) : Outcome ((K × K) × Bool) := do
  let u0 := clampTo minU maxU u
  let v0 := clampTo minV maxV v
  let r ← newtonPatch s p tol minU maxU minV maxV iters u0 v0 (u0, v0) big
  Outcome.assert (r.1.1 ≥ minU ∧ r.1.1 ≤ maxU)
  Outcome.assert (r.1.2 ≥ minV ∧ r.1.2 ≤ maxV)
  pure r

/-- Sample position `i` of `num`, PatchBase.h:248-249 and 251-252 (`num = 0` gives the upper end
alone: the test comes before the division). -/
def samplePos (num : ℕ) (lo hi : K) (i : ℕ) : K :=
  if i = num then hi else (i : K) * (hi - lo) / (num : K) + lo

/-- State of the sampling: `min_dist`, `uv`, `min_dist_2`, `uv_2`. -/
structure Best (K : Type) where
  dist : K
  uv : K × K
  dist2 : K
  uv2 : K × K

/-- One sample, PatchBase.h:254-263. -/
def Best.update (b : Best K) (dist : K) (uv : K × K) : Best K :=
  if dist < b.dist then ⟨dist, uv, b.dist, b.uv⟩
  else if dist < b.dist2 then ⟨b.dist, b.uv, dist, uv⟩
  else b

/-- The sampling loop of `PatchBase::approximate_inverse_evaluate`, PatchBase.h:244-265. -/
def bestSamples (big : K) (s : PatchFn K V) (p : V) (nu nv : ℕ) (minU maxU minV maxV : K) :
    Outcome (Best K) :=
  loop (nu + 1) (fun i b => loop (nv + 1) (fun j b => do
    let u := samplePos nu minU maxU i
    let v := samplePos nv minV maxV j
    let q ← s.ev u v
    pure (b.update (sqNorm (p - q)) (u, v))) b) ⟨big, (minU, minV), big, (minU, minV)⟩

/-- `on_opposite_boundary`, PatchBase.h:282-288; `tol` is `epsilon * 10`. -/
def onOpposite (tol uRange vRange : K) (a b : K × K) : Bool :=
  decide (|(|a.1 - b.1| - uRange)| < tol) || decide (|(|a.2 - b.2| - vRange)| < tol)

/-- `PatchBase::approximate_inverse_evaluate`, PatchBase.h:235-306, for `level = 0, 1, ...`
(negative levels are like 0); `uRange`, `vRange` are the widths of the domain.  Both sample counts are
positive in every call (with 0 the step widths are NaN, which is made undefined). -/
def approxInverse (big tol uRange vRange : K) (s : PatchFn K V) (p : V) (nu nv : ℕ) :
    ℕ → K → K → K → K → Outcome (K × K)
  | 0, minU, maxU, minV, maxV => do
    let b ← bestSamples big s p nu nv minU maxU minV maxV
    pure b.uv
  | level + 1, minU, maxU, minV, maxV => do
    let b ← bestSamples big s p nu nv minU maxU minV maxV
    Outcome.assert (nu > 0 ∧ nv > 0)
    let delU := (maxU - minU) / (nu : K)
    let delV := (maxV - minV) / (nv : K)
    let sub : K × K → Outcome (K × K) := fun x =>
      approxInverse big tol uRange vRange s p nu nv level (max (x.1 - delU) minU)
        (min (x.1 + delU) maxU) (max (x.2 - delV) minV) (min (x.2 + delV) maxV)
    if |b.dist - b.dist2| > b.dist * (1 / 1000) ∨ onOpposite tol uRange vRange b.uv b.uv2 = false then
      sub b.uv
    else do
      let c1 ← sub b.uv
      let c2 ← sub b.uv2
      let q1 ← s.ev c1.1 c1.2
      let q2 ← s.ev c2.1 c2.2
      pure (if (sqNorm (q1 - p) : K) < sqNorm (q2 - p) then c1 else c2)

/-- `PatchBase::inverse_evaluate` over a box, PatchBase.h:144-155: recursion level 10, 20 iterations,
`tol10`, `tol100` are 10 and 100 times epsilon. -/
def inverseEvaluate (big tol10 tol100 uRange vRange : K) (s : PatchFn K V) (p : V) (nu nv : ℕ)
    (minU maxU minV maxV : K) : Outcome ((K × K) × Bool) := do
  let uv ← approxInverse big tol10 uRange vRange s p nu nv 10 minU maxU minV maxV
  inverseFrom big s p uv.1 uv.2 minU maxU minV maxV 20 tol100

/-- `PatchBase::clip_periodic_parameter`, PatchBase.h:424-441.  The conversion of `n` to `int` is
exact (no overflow). -/
def clipPeriodic (t tMin tMax period : K) : Outcome K := do
  let t ← (if t < tMin then
      (if period = 0 then ub else ok (t + (⌈(tMin - t) / period⌉ : K) * period))
    else do
      let m ← fmod (t - tMin) period
      ok (tMin + m))
  Outcome.assert (t ≥ tMin)
  let t := if t > tMax then
      (if period - (t - tMin) < t - tMax then tMin else tMax)
    else t
  Outcome.assert (t ≤ tMax)
  pure t

end PatchBase

end NS
