import Verif.Model.BSpline
import Verif.Model.Inverse

/-!
# Model of `BSplineBase::approximate_inverse_evaluate`

The knots come from the curve `c`; the virtual evaluators (of a B-spline or of a NURBS curve) are the
function record `f`.  Scalar arithmetic is exact.
-/

namespace NS

open Outcome Geom

variable {K V W : Type} [Field K] [LinearOrder K] [IsStrictOrderedRing K] [FloorRing K]
  [AddCommGroup V] [Module K V] [Geom K V] [AddCommGroup W] [Module K W]

namespace SpanSearch

/-- The best sample so far: `min_dist`, `min_t`, `min_delta`, BSplineBase.h:42-43. -/
structure Best (K : Type) where
  dist : K
  t : K
  delta : K

/-- The sampling of one piece `[curr_lower, curr_upper]`, BSplineBase.h:70-80. -/
def samplePiece (f : CurveFn K V) (p : V) (num : ℕ) (lo hi : K) (b : Best K) : Outcome (Best K) :=
  loop (num + 1) (fun j (b : Best K) => do
    let r := (j : K) / (num : K)
    let t := lo + r * (hi - lo)
    let q ← f.ev t
    let dist : K := sqNorm (p - q)
    pure (if dist < b.dist then ⟨dist, t, (hi - lo) / (num : K)⟩ else b)) b

/-- The test for an empty piece, BSplineBase.h:68. -/
def samplePieceIf (f : CurveFn K V) (p : V) (num : ℕ) (lo hi : K) (b : Best K) : Outcome (Best K) :=
  if hi > lo then samplePiece f p num lo hi b else ok b

/-- The `while` loop over the spans, BSplineBase.h:55-84, with state `curr_lower`, `curr_span`,
`period_count` and the best sample.  The C++ loop has no bound; running out of `fuel` is undefined
here. -/
def spans (c : BSpline K W) (f : CurveFn K V) (p : V) (num : ℕ) (upper period : K) :
    ℕ → K → ℤ → ℤ → Best K → Outcome (Best K)
  | 0, _, _, _, _ => ub
  | fuel + 1, currLower, currSpan, count, b =>
    if currLower < upper then
      if c.periodic = false ∧ currSpan + 1 ≥ (c.knots.length : ℤ) then ok b
      else do
        let wrapped : Bool := c.periodic && decide (currSpan + 1 < (c.knots.length : ℤ))
        let span := if wrapped then c.degree else currSpan
        let count := if wrapped then count + 1 else count
        let k ← rdI c.knots (span + 1)
        let currUpper := min upper (k + (count : K) * period)
        let b ← samplePieceIf f p num currLower currUpper b
        spans c f p num upper period fuel currUpper (span + 1) count b
    else ok b

/-- The initial `period_count`, BSplineBase.h:49-54.  For an empty period the quotient is not finite
and its conversion to `int` undefined. -/
def periodCount (c : BSpline K W) (lower tMin period : K) : Outcome ℤ :=
  if c.periodic then do
    Outcome.assert (period ≠ 0)
    let count := ⌊(lower - tMin) / period⌋
    Outcome.assert (period * (count : K) + tMin ≤ lower)
    Outcome.assert (period * ((count : K) + 1) + tMin > lower)
    pure count
  else ok 0

/-- One round of sampling, BSplineBase.h:34-84; `big` is the largest scalar. -/
def round (fuel : ℕ) (big : K) (c : BSpline K W) (f : CurveFn K V) (p : V) (lower upper : K) :
    Outcome (Best K) := do
  Outcome.assert (lower ≤ upper)
  c.validate
  let num := (2 * (c.degree + 1)).toNat
  let span ← c.locateSpan lower
  let tMin ← c.lower
  let tMax ← c.upper
  let period := tMax - tMin
  let count ← periodCount c lower tMin period
  spans c f p num upper period fuel lower span count ⟨big, 0, 0⟩

/-- `BSplineBase::approximate_inverse_evaluate`, BSplineBase.h:29-95; `tol` is `epsilon * 100`. -/
def approxInverse (fuel : ℕ) (big tol : K) (c : BSpline K W) (f : CurveFn K V) (p : V) :
    ℕ → K → K → Outcome K
  | 0, lower, upper => do
    let b ← round fuel big c f p lower upper
    newtonRaphson f p b.t 10 tol lower upper
  | level + 1, lower, upper => do
    let b ← round fuel big c f p lower upper
    approxInverse fuel big tol c f p level (min upper (max lower (b.t - b.delta)))
      (min upper (max lower (b.t + b.delta)))

end SpanSearch

end NS
