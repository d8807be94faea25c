import Verif.Model.Inverse

/-!
# Model of `CurveBase::evaluate_curvature`, `arc_length.h`, `intersect.h` and `sample.h`

Scalars are exact.  A division by zero whose result the code would use is made undefined; where the
code tests for non-finite values the test is modelled as "the divisor is zero".
-/

namespace NS

open Outcome Geom

variable {K V : Type} [Field K] [LinearOrder K] [IsStrictOrderedRing K] [FloorRing K]
  [AddCommGroup V] [Module K V] [Geom K V]

/-- `CurveBase::evaluate_curvature`, CurveBase.h:71-82. -/
def curvature (d1 d2 : K → Outcome V) (t : K) : Outcome V := do
  let a ← d1 t
  let b ← d2 t
  let sq : K := sqNorm a
  pure (if sq = 0 then 0 else (1 / sq) • (b - (1 / sq) • (dot a b : K) • a))

/-! ## arc_length.h -/

/-- The midpoint sum of one level of `romberg`, arc_length.h:155-159.  The loop runs over
`k = 1, ..., num_steps - 1`. -/
def rombergFirst (speed : K → Outcome K) (t0 h : K) (i : ℕ) (above : K) : Outcome K :=
  loop (2 ^ (i - 1) - 1) (fun k r => do
    let s ← speed (t0 + ((2 * (k + 1) - 1 : ℕ) : K) * h)
    pure (r + s * h)) (1 / 2 * above)

/-- The extrapolation of one level of `romberg`, arc_length.h:161-169: state `R_values`, `m`,
`R_prev_above`; the loop runs over `j = 1, ..., i`.  (`m` is a natural number; `size_t` overflow for 32
levels or more is not modelled.) -/
def rombergRow (i : ℕ) (R : List K) (above : K) : Outcome (List K × ℕ × K) :=
  loop i (fun j0 s => do
    let j := j0 + 1
    let m := s.2.1 * 4
    let Rabove ← rd s.1 j
    let a ← rd s.1 (j - 1)
    let R ← wr s.1 j (a + (a - s.2.2) / ((m - 1 : ℕ) : K))
    pure (R, m, Rabove)) (R, 1, above)

/-- The loop over the levels of `romberg`, arc_length.h:151-174, with `n` levels left. -/
def rombergGo (speed : K → Outcome K) (t0 tol : K) (level : ℕ) : ℕ → ℕ → K → List K → Outcome K
  | 0, _, _, R => rd R level
  | n + 1, i, h, R => do
    let h := h / 2
    let above ← rd R 0
    let r0 ← rombergFirst speed t0 h i above
    let R ← wr R 0 r0
    let s ← rombergRow i R above
    let a ← rd s.1 i
    let b ← rd s.1 (i - 1)
    if i > 1 ∧ |a - b| < tol then ok a
    else rombergGo speed t0 tol level n (i + 1) h s.1

/-- `internal::romberg`, arc_length.h:146-178. -/
def romberg (speed : K → Outcome K) (t0 t1 : K) (level : ℕ) (tol : K) : Outcome K := do
  let s0 ← speed t0
  let s1 ← speed t1
  let R ← wr (List.replicate (level + 1) 0) 0 (1 / 2 * (t1 - t0) * (s0 + s1))
  rombergGo speed t0 tol level level 1 (t1 - t0) R

/-- The speed of a curve, arc_length.h:25-28. -/
def curveSpeed (d1 : K → Outcome V) (t : K) : Outcome K := do
  let a ← d1 t
  pure (norm a)

/-- `arc_length` of a curve between two parameters, arc_length.h:22-31. -/
def arcLength (d1 : K → Outcome V) (t0 t1 : K) (level : ℕ) (tol : K) : Outcome K :=
  romberg (curveSpeed d1) t0 t1 level tol

/-- The speed along a segment of the parameter plane of a patch, arc_length.h:57-66. -/
def patchSpeed (s : PatchFn K V) (u0 v0 u1 v1 t : K) : Outcome K := do
  let u := (u1 - u0) * t + u0
  let v := (v1 - v0) * t + v0
  let du ← s.du u v
  let dv ← s.dv u v
  pure (norm ((u1 - u0) • du + (v1 - v0) • dv))

/-- `arc_length` on a patch, arc_length.h:47-69. -/
def patchArcLength (s : PatchFn K V) (u0 v0 u1 v1 : K) (level : ℕ) (tol : K) : Outcome K :=
  romberg (patchSpeed s u0 v0 u1 v1) 0 1 level tol

/-- The Newton loop of `inverse_arc_length`, arc_length.h:94-100, with the length from the start of the
domain as `len` and `n` iterations left. -/
def invArcGo (len speed : K → Outcome K) (l tol : K) : ℕ → K → Outcome K
  | 0, t => ok t
  | n + 1, t => do
    let a ← len t
    let err := a - l
    if |err| < tol then ok t
    else do
      let s ← speed t
      if s = 0 then ub else invArcGo len speed l tol n (t - err / s)

/-- `inverse_arc_length` of a curve, arc_length.h:79-103, with the defaults level 10, `tol = 1e-12` and
10 iterations of `arc_length`. -/
def inverseArcLength (d1 : K → Outcome V) (tMin tMax l : K) : Outcome K := do
  let len : K → Outcome K := fun t => arcLength d1 tMin t 10 (1 / 10 ^ 12)
  let L ← len tMax
  if L = 0 then ub
  else invArcGo len (curveSpeed d1) l (L * (1 / 10 ^ 12)) 10 (l / L)

/-! ## intersect.h -/

/-- The plane residual `a x + b y + c z + d`, intersect.h:35. -/
def planeErr (n : V) (d : K) (x : V) : K := dot n x + d

/-- Curve-plane `intersect`, intersect.h:32-54, with `n` iterations left and state `t`, `prev_t`,
`prev_err`. -/
def intersectPlaneGo (c : CurveFn K V) (nrm : V) (d tol : K) : ℕ → K → K → K → Outcome (K × Bool)
  | 0, t, _, _ => ok (t, false)
  | n + 1, t, prevT, prevErr => do
    let d0 ← c.ev t
    let err := planeErr nrm d d0
    if |err| < tol then ok (t, true)
    else if |err| > prevErr then ok (prevT, false)
    else do
      let d1 ← c.d1 t
      let der : K := dot nrm d1
      if der = 0 then ok (t, false)
      else intersectPlaneGo c nrm d tol n (t - err / der) t |err|

/-- Curve-plane `intersect`, intersect.h:23-55; `big` is the largest scalar. -/
def intersectPlane (big : K) (c : CurveFn K V) (nrm : V) (d t0 : K) (iters : ℕ) (tol : K) :
    Outcome (K × Bool) :=
  intersectPlaneGo c nrm d tol iters t0 t0 big

/-- The loop of the intersection of a parameter segment on a patch with a plane, intersect.h:107-133;
state `(u, v)`, `t`, `prev_t`, `prev_err`. -/
def intersectSegGo (s : PatchFn K V) (pu pv qu qv : K) (nrm : V) (d tol : K) :
    ℕ → K × K → K → K → K → Outcome ((K × K) × Bool)
  | 0, uv, _, _, _ => ok (uv, false)
  | n + 1, _, t, prevT, prevErr => do
    let u := pu * (1 - t) + qu * t
    let v := pv * (1 - t) + qv * t
    let d0 ← s.ev u v
    let err := planeErr nrm d d0
    if |err| < tol then ok ((u, v), true)
    else if |err| > prevErr then
      ok ((pu * (1 - prevT) + qu * prevT, pv * (1 - prevT) + qv * prevT), false)
    else do
      let du ← s.du u v
      let dv ← s.dv u v
      let der : K := dot nrm ((qu - pu) • du + (qv - pv) • dv)
      if der = 0 then ok ((u, v), false)
      else intersectSegGo s pu pv qu qv nrm d tol n (u, v) (t - err / der) t |err|

/-- Intersection of a parameter segment on a patch with a plane, intersect.h:73-135; `hyp` is
`std::hypot`. -/
def intersectSeg (big : K) (hyp : K → K → K) (s : PatchFn K V) (pu pv qu qv : K) (nrm : V)
    (d u0 v0 : K) (iters : ℕ) (tol : K) : Outcome ((K × K) × Bool) :=
  if |pu - qu| < 1 / 10 ^ 12 ∧ |pv - qv| < 1 / 10 ^ 12 then do
    let p ← s.ev pu pv
    let err := planeErr nrm d p
    if err < tol then ok ((pu, pv), true) else ok ((pu, pv), false)
  else
    let t := 1 - hyp (u0 - pu) (v0 - pv) / hyp (pu - qu) (pv - qv)
    intersectSegGo s pu pv qu qv nrm d tol iters (u0, v0) t t big

/-- Objective, gradient and Hessian of the curve-patch distance, intersect.h:163-191.  The Hessian is
symmetric: entries `00, 01, 02, 11, 12, 22`. -/
structure Objective (K : Type) where
  f : K
  g : K × K × K
  h : K × K × K × K × K × K

def objective (c : CurveFn K V) (s : PatchFn K V) (t u v : K) : Outcome (Objective K) := do
  let a ← c.ev t
  let b ← s.ev u v
  let l := a - b
  let dt ← c.d1 t
  let du ← s.du u v
  let dv ← s.dv u v
  let dtt ← c.d2 t
  let duu ← s.duu u v
  let duv ← s.duv u v
  let dvv ← s.dvv u v
  pure ⟨sqNorm l, (dot dt l, -dot du l, -dot dv l),
    (dot dtt l + sqNorm dt, -dot dt du, -dot dt dv, dot duu (-l) + sqNorm du,
      dot duv (-l) + dot du dv, dot dvv (-l) + sqNorm dv)⟩

/-- The Newton step `H⁻¹ (-g)`, intersect.h:213, by cofactors; `none` when the determinant is zero
(the result is then not finite, intersect.h:214-216). -/
def newtonStep (o : Objective K) : Option (K × K × K) :=
  let (a, b, c, d, e, f) := o.h
  let (x, y, z) := o.g
  let c00 := d * f - e * e
  let c01 := c * e - b * f
  let c02 := b * e - c * d
  let c11 := a * f - c * c
  let c12 := b * c - a * e
  let c22 := a * d - b * b
  let det := a * c00 + b * c01 + c * c02
  if det = 0 then none
  else some (-(c00 * x + c01 * y + c02 * z) / det, -(c01 * x + c11 * y + c12 * z) / det,
    -(c02 * x + c12 * y + c22 * z) / det)

/-- The loop of the curve-patch `intersect`, intersect.h:199-221. -/
def intersectPatchGo (c : CurveFn K V) (s : PatchFn K V) (tol : K) :
    ℕ → K × K × K → K × K × K → K → Outcome ((K × K × K) × Bool)
  | 0, x, _, _ => ok (x, false)
  | n + 1, x, prev, prevF => do
    let o ← objective c s x.1 x.2.1 x.2.2
    if o.f > prevF then ok (prev, false)
    else if o.f < tol * tol then ok (x, true)
    else match newtonStep o with
      | none => ok (x, false)
      | some δ => intersectPatchGo c s tol n (x.1 + δ.1, x.2.1 + δ.2.1, x.2.2 + δ.2.2) x o.f

/-- Curve-patch `intersect`, intersect.h:151-224. -/
def intersectPatch (big : K) (c : CurveFn K V) (s : PatchFn K V) (t0 u0 v0 : K) (iters : ℕ)
    (tol : K) : Outcome ((K × K × K) × Bool) :=
  intersectPatchGo c s tol iters (t0, u0, v0) (t0, u0, v0) big

/-! ## sample.h -/

/-- `UNIFORM_DOMAIN` sampling, sample.h:51-56.  The `assert(num_samples > 1)` of sample.h:46 is in
`sample`. -/
def uniformDomain (num : ℕ) (tMin tMax : K) : List K :=
  (List.range num).map (fun i : ℕ => tMin + (tMax - tMin) * (i : K) / ((num - 1 : ℕ) : K))

/-- `UNIFORM_RANGE` sampling, sample.h:57-65; `len` is `arc_length(curve, a, b)` and `inv` is
`inverse_arc_length(curve, l)`. -/
def uniformRange (len : K → K → Outcome K) (inv : K → Outcome K) (num : ℕ) (tMin tMax : K) :
    Outcome (List K) := do
  let l ← len tMin tMax
  let mid ← loop (num - 2) (fun i s => do
    let t ← inv (l * ((i + 1 : ℕ) : K) / ((num - 1 : ℕ) : K))
    pure (s ++ [t])) []
  pure ([tMin] ++ mid ++ [tMax])

/-- `internal::adaptive_sample`, sample.h:14-32.  The C++ recursion has no depth limit; `fuel` bounds
it here and running out of fuel is undefined (a stack overflow). -/
def adaptiveGo (len : K → K → Outcome K) (ev : K → Outcome V) (tol : K) :
    ℕ → K → K → Outcome (List K)
  | 0, _, _ => ub
  | n + 1, t0, t1 => do
    let L ← len t0 t1
    let p0 ← ev t0
    let p1 ← ev t1
    if L - norm (p1 - p0) > tol then do
      let half := (t0 + t1) / 2
      let a ← adaptiveGo len ev tol n t0 half
      let b ← adaptiveGo len ev tol n half t1
      pure (a ++ b)
    else ok [t0]

/-- `ADAPTIVE` sampling, sample.h:66-71. -/
def adaptive (fuel : ℕ) (len : K → K → Outcome K) (ev : K → Outcome V) (num : ℕ) (tMin tMax : K) :
    Outcome (List K) := do
  let l ← len tMin tMax
  let s ← adaptiveGo len ev (l / (num : K) / 10) fuel tMin tMax
  pure (s ++ [tMax])

/-- `SampleMethod`, enums.h:30-34. -/
inductive SampleMethod
  | uniformDomain | uniformRange | adaptive | other
  deriving DecidableEq, Repr

/-- `sample`, sample.h:39-76. -/
def sample (fuel : ℕ) (len : K → K → Outcome K) (inv : K → Outcome K) (ev : K → Outcome V) (num : ℕ)
    (tMin tMax : K) (m : SampleMethod) : Outcome (List K) := do
  Outcome.assert (num > 1)
  match m with
  | .uniformDomain => ok (uniformDomain num tMin tMax)
  | .uniformRange => uniformRange len inv num tMin tMax
  | .adaptive => adaptive fuel len ev num tMin tMax
  | .other => Outcome.throw .notImplemented

end NS
