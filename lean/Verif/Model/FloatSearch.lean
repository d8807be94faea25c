import Verif.Model.Float
import Verif.Model.Inverse

/-!
# Sampling and closest point searches in floating point arithmetic

The parameters computed by `sample`, by the searches of `CurveBase` and `PatchBase` and by
`clip_periodic_parameter`, with every arithmetic operation rounded.  The values a search only compares
(squared distances and the numerators and denominators of the Newton steps) come from arbitrary
functions: their rounding errors may be anything.
-/

namespace NS.Fl

open Outcome

variable {K : Type} [Field K] [LinearOrder K] [IsStrictOrderedRing K] [FloorRing K]

/-- One parameter of `UNIFORM_DOMAIN` sampling, sample.h:53-54, with the conversions of the two
integers to the scalar type. -/
def sampleParam (R : Rounding K) (tMin tMax : K) (num i : ℕ) : K :=
  R.rnd (tMin + R.rnd (R.rnd (R.rnd (tMax - tMin) * R.rnd (i : K)) / R.rnd ((num - 1 : ℕ) : K)))

/-- `UNIFORM_DOMAIN` sampling, sample.h:51-56. -/
def uniformDomain (R : Rounding K) (num : ℕ) (tMin tMax : K) : List K :=
  (List.range num).map (sampleParam R tMin tMax num)

/-- A sample of the search on curves, CurveBase.h:153; the product may be contracted with the sum. -/
def searchParam (R : Rounding K) (f : Fuse) (lower upper : K) (num i : ℕ) : K :=
  R.combine f (R.rnd (R.rnd (i : K) / R.rnd (num : K))) (R.rnd (upper - lower)) 1 lower

/-- The sampling loop of `CurveBase::approximate_inverse_evaluate`, CurveBase.h:150-161; `dist` is the
computed squared distance, `big` the largest scalar. -/
def closestSample (R : Rounding K) (f : ℕ → Fuse) (big : K) (dist : K → Outcome K) (num : ℕ)
    (lower upper : K) : Outcome (K × K) :=
  loop (num + 1) (fun i s => do
    let t := searchParam R (f i) lower upper num i
    let d ← dist t
    pure (if d < s.1 then (d, t) else s)) (big, 0)

/-- `CurveBase::newton_raphson`, CurveBase.h:174-201; `g` returns the computed `f` and `df`.  Zero
`df` as in the exact model. -/
def newtonCurve (R : Rounding K) (g : K → Outcome (K × K)) (tol lower upper : K) :
    ℕ → K → K → K → Outcome K
  | 0, t, _, _ => ok t
  | n + 1, t, prevT, prevErr => do
    let s ← g t
    let err := |s.1|
    if err < tol then ok t
    else if prevErr > 0 ∧ err > prevErr then ok prevT
    else if s.2 = 0 then
      (if s.1 = 0 then ub else if s.1 > 0 then ok lower else ok upper)
    else if R.rnd (t - R.rnd (s.1 / s.2)) ≤ lower then ok lower
    else if R.rnd (t - R.rnd (s.1 / s.2)) ≥ upper then ok upper
    else newtonCurve R g tol lower upper n (R.rnd (t - R.rnd (s.1 / s.2))) t err

/-- `CurveBase::approximate_inverse_evaluate`, CurveBase.h:141-172. -/
def curveSearch (R : Rounding K) (f : ℕ → ℕ → Fuse) (big tol : K) (dist : K → Outcome K)
    (g : K → Outcome (K × K)) (num : ℕ) : ℕ → K → K → Outcome K
  | 0, lower, upper => do
    Outcome.assert (num > 0)
    let s ← closestSample R (f 0) big dist num lower upper
    newtonCurve R g tol lower upper 10 s.2 s.2 (-1)
  | level + 1, lower, upper => do
    Outcome.assert (num > 0)
    let delta := R.rnd (R.rnd (upper - lower) / R.rnd (num : K))
    let s ← closestSample R (f (level + 1)) big dist num lower upper
    curveSearch R f big tol dist g num level (min (max (R.rnd (s.2 - delta)) lower) upper)
      (min (max (R.rnd (s.2 + delta)) lower) upper)

/-- Sample position `i` of `num` of the search on patches, PatchBase.h:248-249 and 251-252. -/
def gridParam (R : Rounding K) (num : ℕ) (lo hi : K) (i : ℕ) : K :=
  if i = num then hi
  else R.rnd (R.rnd (R.rnd (R.rnd (i : K) * R.rnd (hi - lo)) / R.rnd (num : K)) + lo)

/-- The sampling loop of `PatchBase::approximate_inverse_evaluate`, PatchBase.h:244-265. -/
def bestSamples (R : Rounding K) (big : K) (dist : K → K → Outcome K) (nu nv : ℕ)
    (minU maxU minV maxV : K) : Outcome (PatchBase.Best K) :=
  loop (nu + 1) (fun i b => loop (nv + 1) (fun j b => do
    let u := gridParam R nu minU maxU i
    let v := gridParam R nv minV maxV j
    let d ← dist u v
    pure (b.update d (u, v))) b) ⟨big, (minU, minV), big, (minU, minV)⟩

/-- `on_opposite_boundary`, PatchBase.h:282-288. -/
def onOpposite (R : Rounding K) (tol uRange vRange : K) (a b : K × K) : Bool :=
  decide (|R.rnd (|R.rnd (a.1 - b.1)| - uRange)| < tol) ||
    decide (|R.rnd (|R.rnd (a.2 - b.2)| - vRange)| < tol)

/-- `PatchBase::approximate_inverse_evaluate`, PatchBase.h:235-306; `dist` is used for both squared
distances (lines 254 and 302-303, where the difference has the other sign), `milli` is `1e-3`. -/
def patchSearch (R : Rounding K) (big tol milli uRange vRange : K) (dist : K → K → Outcome K)
    (nu nv : ℕ) : ℕ → K → K → K → K → Outcome (K × K)
  | 0, minU, maxU, minV, maxV => do
    let b ← bestSamples R big dist nu nv minU maxU minV maxV
    pure b.uv
  | level + 1, minU, maxU, minV, maxV => do
    let b ← bestSamples R big dist nu nv minU maxU minV maxV
    Outcome.assert (nu > 0 ∧ nv > 0)
    let delU := R.rnd (R.rnd (maxU - minU) / R.rnd (nu : K))
    let delV := R.rnd (R.rnd (maxV - minV) / R.rnd (nv : K))
    let sub : K × K → Outcome (K × K) := fun x =>
      patchSearch R big tol milli uRange vRange dist nu nv level (max (R.rnd (x.1 - delU)) minU)
        (min (R.rnd (x.1 + delU)) maxU) (max (R.rnd (x.2 - delV)) minV)
        (min (R.rnd (x.2 + delV)) maxV)
    if |R.rnd (b.dist - b.dist2)| > R.rnd (b.dist * milli) ∨
        onOpposite R tol uRange vRange b.uv b.uv2 = false then
      sub b.uv
    else do
      let c1 ← sub b.uv
      let c2 ← sub b.uv2
      let d1 ← dist c1.1 c1.2
      let d2 ← dist c2.1 c2.2
      pure (if d1 < d2 then c1 else c2)

/-- `PatchBase::newton_raphson`, PatchBase.h:308-371, and the asserts of `inverse_evaluate`,
PatchBase.h:186-192.  `step` stands for the evaluations of one iteration: `none` ends the loop with
the current pair (lines 325-327, 340-343 and 352-355), `some (false, _)` returns the previous pair
(lines 329-334), and `some (true, δ)` is the increment. -/
def newtonPatch (R : Rounding K) (step : ℕ → K × K → Outcome (Option (Bool × K × K)))
    (minU maxU minV maxV : K) : ℕ → K × K → K × K → Outcome (K × K)
  | 0, x, _ => ok x
  | n + 1, x, prev => do
    match ← step n x with
    | none => ok x
    | some (false, _) => ok prev
    | some (true, δ) =>
      newtonPatch R step minU maxU minV maxV n
        (PatchBase.clampStep minU maxU (R.rnd (x.1 + δ.1)),
          PatchBase.clampStep minV maxV (R.rnd (x.2 + δ.2))) x

/-- `PatchBase::inverse_evaluate` over a box, PatchBase.h:144-155 and 177-194. -/
def patchInverse (R : Rounding K) (big tol milli uRange vRange : K) (dist : K → K → Outcome K)
    (step : ℕ → K × K → Outcome (Option (Bool × K × K))) (nu nv : ℕ) (minU maxU minV maxV : K) :
    Outcome (K × K) := do
  let uv ← patchSearch R big tol milli uRange vRange dist nu nv 10 minU maxU minV maxV
  let x0 := (PatchBase.clampTo minU maxU uv.1, PatchBase.clampTo minV maxV uv.2)
  let r ← newtonPatch R step minU maxU minV maxV 20 x0 x0
  Outcome.assert (r.1 ≥ minU ∧ r.1 ≤ maxU)
  Outcome.assert (r.2 ≥ minV ∧ r.2 ≤ maxV)
  pure r

/-- `PatchBase::clip_periodic_parameter`, PatchBase.h:424-441; `t += n * period` may be contracted.
The conversions of `n` are exact (no overflow). -/
def clipPeriodic (R : Rounding K) (f : Fuse) (t tMin tMax period : K) : Outcome K := do
  let t ← (if t < tMin then
      (if period = 0 then ub
       else ok (R.combine f (⌈R.rnd (R.rnd (tMin - t) / period)⌉ : K) period 1 t))
    else do
      let m ← fmod (R.rnd (t - tMin)) period
      ok (R.rnd (tMin + m)))
  Outcome.assert (t ≥ tMin)
  let t := if t > tMax then
      (if R.rnd (period - R.rnd (t - tMin)) < R.rnd (t - tMax) then tMin else tMax)
    else t
  Outcome.assert (t ≤ tMax)
  pure t

end NS.Fl
