import Verif.Model.Rounding
import Verif.Model.BSpline
import Verif.Model.BezierPatch

/-!
# The evaluators in floating point arithmetic

The same functions as in `Model/Bezier.lean`, `Model/BSpline.lean`, `Model/Rational.lean` and
`Model/BezierPatch.lean` with every arithmetic operation rounded.  Points are families of
coordinates `ι → K`; Eigen works coordinate by coordinate.  `F` says how the compiler contracted
each combination `s * a + r * b` (see `Fuse`); it may differ between calls, rows and coordinates.
Comparisons, copies and index computations are exact, so the span search and the copies of control
points are those of the exact model.
-/

namespace NS.Fl

open Outcome

variable {K ι : Type} [Field K] [LinearOrder K] [IsStrictOrderedRing K] [FloorRing K]

/-- `CurveBase::unwrap_parameter`, CurveBase.h:203-213 (the assert on `m_periodic` is met by every
caller).  `fmod` is exact in IEEE arithmetic. -/
def unwrap (R : Rounding K) (tMin tMax t : K) : Outcome K := do
  let period := R.rnd (tMax - tMin)
  let m ← fmod (R.rnd (t - tMin)) period
  let t1 := R.rnd (m + tMin)
  let t2 := if t1 < tMin then R.rnd (t1 + period) else t1
  Outcome.assert (t2 ≥ tMin ∧ t2 ≤ tMax)
  pure t2

/-! ### Bézier curves -/

/-- The parameter used by the evaluators, Bezier.h:45-47. -/
def bezierWrap (R : Rounding K) (periodic : Bool) (t : K) : Outcome K :=
  if periodic then unwrap R 0 1 t else ok t

/-- `blossom`, Bezier.h:389-408. -/
def bezierBlossom (R : Rounding K) (F : ℕ → ℕ → ι → Fuse) (bv : List K) (degree : ℕ)
    (c : List (ι → K)) : Outcome (List (ι → K)) :=
  forUp 1 (degree + 1) (fun recStep c =>
    forDown degree recStep (fun j c => do
      let t ← rd bv (recStep - 1)
      let a ← rd c j
      let b ← rd c (j - 1)
      wr c j (fun i => R.combine (F recStep j i) t (a i) (R.rnd (1 - t)) (b i))) c) c

/-- `deBoor`, Bezier.h:410-424. -/
def bezierDeBoor (R : Rounding K) (F : ℕ → ℕ → ι → Fuse) (bvSize : ℕ) (t : K) (degree : ℤ)
    (c : List (ι → K)) : Outcome (ι → K) := do
  let c ← if degree > 0 then bezierBlossom R F (List.replicate bvSize t) degree.toNat c else ok c
  rdI c degree

/-- `evaluate`, Bezier.h:43-51. -/
def bezierEvaluate (R : Rounding K) (F : ℕ → ℕ → ι → Fuse) (c : Bezier (ι → K)) (t : K) :
    Outcome (ι → K) := do
  let t ← bezierWrap R c.periodic t
  bezierDeBoor R F c.degree.toNat t c.degree c.ctrl

/-- `get_derivative_coefficients`, Bezier.h:58-65 (in place). -/
def bezierDerivCoef (R : Rounding K) (curveDegree : ℕ) (c : List (ι → K)) :
    Outcome (List (ι → K)) :=
  loop curveDegree (fun i c => do
    let a ← rd c (i + 1)
    let b ← rd c i
    wr c i (fun l => R.rnd ((curveDegree : K) * R.rnd (a l - b l)))) c

/-- `evaluate_derivative`, Bezier.h:67-86. -/
def bezierDerivative (R : Rounding K) (F : ℕ → ℕ → ι → Fuse) (c : Bezier (ι → K)) (t : K) :
    Outcome (ι → K) := do
  let t ← bezierWrap R c.periodic t
  Outcome.assert (c.degree ≥ 0)
  if c.degree = 0 then ok 0 else do
    let d ← bezierDerivCoef R c.degree.toNat c.ctrl
    bezierDeBoor R F c.degree.toNat t (c.degree - 1) d

/-- Degree 1 `evaluate`, Bezier.h:502-505. -/
def bezierEvaluate1 (R : Rounding K) (F : ι → Fuse) (c : Bezier (ι → K)) (t : K) :
    Outcome (ι → K) := do
  let p0 ← rd c.ctrl 0
  let p1 ← rd c.ctrl 1
  pure fun i => R.combine (F i) (R.rnd (1 - t)) (p0 i) t (p1 i)

/-- Degree 2 `evaluate`, Bezier.h:598-608. -/
def bezierEvaluate2 (R : Rounding K) (F : ℕ → ι → Fuse) (c : Bezier (ι → K)) (t : K) :
    Outcome (ι → K) := do
  let t ← bezierWrap R c.periodic t
  let c0 ← rd c.ctrl 0
  let c1 ← rd c.ctrl 1
  let c2 ← rd c.ctrl 2
  let p0 := fun i => R.combine (F 0 i) (R.rnd (1 - t)) (c0 i) t (c1 i)
  let p1 := fun i => R.combine (F 1 i) (R.rnd (1 - t)) (c1 i) t (c2 i)
  pure fun i => R.combine (F 2 i) (R.rnd (1 - t)) (p0 i) t (p1 i)

/-- Degree 3 `evaluate`, Bezier.h:790-805. -/
def bezierEvaluate3 (R : Rounding K) (F : ℕ → ι → Fuse) (c : Bezier (ι → K)) (t : K) :
    Outcome (ι → K) := do
  let t ← bezierWrap R c.periodic t
  let c0 ← rd c.ctrl 0
  let c1 ← rd c.ctrl 1
  let c2 ← rd c.ctrl 2
  let c3 ← rd c.ctrl 3
  let q0 := fun i => R.combine (F 0 i) (R.rnd (1 - t)) (c0 i) t (c1 i)
  let q1 := fun i => R.combine (F 1 i) (R.rnd (1 - t)) (c1 i) t (c2 i)
  let q2 := fun i => R.combine (F 2 i) (R.rnd (1 - t)) (c2 i) t (c3 i)
  let p0 := fun i => R.combine (F 3 i) (R.rnd (1 - t)) (q0 i) t (q1 i)
  let p1 := fun i => R.combine (F 4 i) (R.rnd (1 - t)) (q1 i) t (q2 i)
  pure fun i => R.combine (F 5 i) (R.rnd (1 - t)) (p0 i) t (p1 i)

/-- The loop of `split`, Bezier.h:233-245 (also 558-570, 750-762, 976-988). -/
def bezierSplitLoop (R : Rounding K) (F : ℕ → ℕ → ι → Fuse) (t : K) (ctrl : List (ι → K)) :
    Outcome (List (ι → K) × List (ι → K) × List (ι → K)) :=
  let n := ctrl.length
  loop n (fun i s => do
    let (c, c1, c2) := s
    let a ← rd c 0
    let c1 ← wr c1 i a
    let b ← rd c (n - 1 - i)
    let c2 ← wr c2 (n - 1 - i) b
    let c ← loop (n - 1 - i) (fun j c => do
      let a ← rd c j
      let b ← rd c (j + 1)
      wr c j (fun l => R.combine (F i j l) (R.rnd (1 - t)) (a l) t (b l))) c
    pure (c, c1, c2)) (ctrl, List.replicate n 0, List.replicate n 0)

/-- `split`, Bezier.h:227-251. -/
def bezierSplit (R : Rounding K) (F : ℕ → ℕ → ι → Fuse) (c : Bezier (ι → K)) (t : K) :
    Outcome (List (Bezier (ι → K))) :=
  if isSplitPointValid 0 1 t then do
    let (_, c1, c2) ← bezierSplitLoop R F t c.ctrl
    pure [{ ctrl := c1 }, { ctrl := c2 }]
  else ok [c]

/-! ### B-splines -/

/-- `blossom`, BSpline.h:489-511; the constant `1e-16` is a number of the format, too. -/
def bsplineBlossom (R : Rounding K) (F : ℕ → ℕ → ι → Fuse) (u : List K) (bv : List K) (p : ℕ)
    (k : ℤ) (q : List (ι → K)) : Outcome (List (ι → K)) := do
  Outcome.assert (q.length ≥ p + 1)
  forUp 1 (p + 1) (fun r q => do
    let t ← rd bv (r - 1)
    forDown p r (fun j q => do
      let a ← rdI u (j + k + 1 - r)
      let b ← rdI u (j + k - p)
      let diff := R.rnd (a - b)
      let alpha := if diff > R.rnd (BSpline.tiny K) then R.rnd (R.rnd (t - b) / diff) else 0
      let x ← rd q (j - 1)
      let y ← rd q j
      wr q j (fun i => R.combine (F r j i) (R.rnd (1 - alpha)) (x i) alpha (y i))) q) q

/-- `deBoor`, BSpline.h:513-525. -/
def bsplineDeBoor (R : Rounding K) (F : ℕ → ℕ → ι → Fuse) (c : BSpline K (ι → K)) (t : K) (p : ℕ)
    (k : ℤ) (q : List (ι → K)) : Outcome (ι → K) := do
  let q ← if p > 0 then bsplineBlossom R F c.knots (List.replicate c.degree.toNat t) p k q else ok q
  rd q p

/-- The periodic wrap, BSpline.h:75-77. -/
def bsplineWrap (R : Rounding K) (c : BSpline K (ι → K)) (t : K) : Outcome K :=
  if c.periodic then do
    let a ← c.lower
    let b ← c.upper
    unwrap R a b t
  else ok t

/-- `evaluate`, BSpline.h:72-87. -/
def bsplineEvaluate (R : Rounding K) (F : ℕ → ℕ → ι → Fuse) (c : BSpline K (ι → K)) (t : K) :
    Outcome (ι → K) := do
  c.validate
  let t ← bsplineWrap R c t
  let k ← c.locateSpan t
  Outcome.assert (c.degree ≥ 0)
  let p := c.degree.toNat
  let q ← c.spanCtrl p k
  bsplineDeBoor R F c t p k q

/-! ### Rational Bézier curves -/

/-- Homogeneous control points of `initialize`, RationalBezier.h:211-220; the coordinate `none` is
the weight, copied without an operation.  Arrays of different lengths are `ub`. -/
def homogenize (R : Rounding K) (P : List (ι → K)) (w : List K) : Outcome (List (Option ι → K)) := do
  Outcome.assert (P.length = w.length)
  pure (List.zipWith (fun p w o => match o with
    | some i => R.rnd (p i * w)
    | none => w) P w)

/-- `evaluate` of an initialised curve, RationalBezier.h:38-43 (the validation is passed after
`initialize`).  Simplified: a denominator that is zero gives infinities or NaNs in IEEE arithmetic,
which the model does not represent; it is `ub` here, as in the exact model. -/
def rationalEvaluate (R : Rounding K) (F : ℕ → ℕ → Option ι → Fuse) (P : List (ι → K))
    (w : List K) (periodic : Bool) (t : K) : Outcome (ι → K) := do
  let Q ← homogenize R P w
  let p ← bezierEvaluate R F { ctrl := Q, periodic := periodic } t
  Outcome.assert (p none ≠ 0)
  pure fun i => R.rnd (p (some i) / p none)

/-! ### Bézier patches -/

/-- `compute_iso_curve_u`, BezierPatch.h:151-166. -/
def isoCurveU (R : Rounding K) (F : ℕ → ℕ → ℕ → ι → Fuse) (p : BezierPatch (ι → K)) (v : K) :
    Outcome (Bezier (ι → K)) := do
  let m ← p.numU
  let isos ← p.isoCurvesV
  let c ← tab m (fun i => do
    let iso ← rd isos i
    bezierEvaluate R (F i) iso v)
  pure { ctrl := c, periodic := p.perU }

/-- `compute_iso_curve_v`, BezierPatch.h:168-183. -/
def isoCurveV (R : Rounding K) (F : ℕ → ℕ → ℕ → ι → Fuse) (p : BezierPatch (ι → K)) (u : K) :
    Outcome (Bezier (ι → K)) := do
  let n ← p.numV
  let isos ← p.isoCurvesU
  let c ← tab n (fun i => do
    let iso ← rd isos i
    bezierEvaluate R (F i) iso u)
  pure { ctrl := c, periodic := p.perV }

/-- `evaluate`, BezierPatch.h:49-58. -/
def patchEvaluate (R : Rounding K) (F : ℕ → ℕ → ℕ → ι → Fuse) (G : ℕ → ℕ → ι → Fuse)
    (p : BezierPatch (ι → K)) (u v : K) : Outcome (ι → K) :=
  if p.degV > p.degU then do
    let c ← isoCurveV R F p u
    bezierEvaluate R G c v
  else do
    let c ← isoCurveU R F p v
    bezierEvaluate R G c u

end NS.Fl
