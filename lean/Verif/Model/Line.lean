import Verif.Model.Inverse
import Verif.Model.Bezier

/-!
# Model of `Line.h` and of the inverse evaluation of degree-1 Bezier curves
-/

namespace NS

open Outcome Geom

variable {K V : Type} [Field K] [LinearOrder K] [IsStrictOrderedRing K] [FloorRing K]
  [AddCommGroup V] [Module K V] [Geom K V]

/-- The data of a `Line` (Line.h:133-137) and the flag of `CurveBase` (CurveBase.h:221). -/
structure Line (K V : Type) where
  location : V
  direction : V
  lower : K
  upper : K
  periodic : Bool
  deriving DecidableEq, Repr

namespace Line

/-- `initialize`, Line.h:39-42; `eps` is the machine epsilon. -/
def init (eps : K) (c : Line K V) : Outcome (Line K V) := do
  Outcome.assert (c.upper ≥ c.lower)
  Outcome.assert ((sqNorm c.direction : K) > eps)
  pure c

/-- `clone`, Line.h:28-37: a new object (not periodic) with the four fields copied. -/
def clone (eps : K) (c : Line K V) : Outcome (Line K V) :=
  init eps ⟨c.location, c.direction, c.lower, c.upper, false⟩

/-- `in_domain`, Line.h:56. -/
def inDomain (c : Line K V) (t : K) : Bool := decide (t ≥ c.lower) && decide (t ≤ c.upper)

/-- `evaluate`, Line.h:61. -/
def evaluate (c : Line K V) (t : K) : V := c.location + t • c.direction

/-- `evaluate_derivative`, Line.h:68. -/
def evaluateDerivative (c : Line K V) (_t : K) : V := c.direction

/-- `evaluate_2nd_derivative`, Line.h:70. -/
def evaluate2ndDerivative (_c : Line K V) (_t : K) : V := 0

/-- `approximate_inverse_evaluate`, Line.h:72-80.  A zero direction gives `0/0`, NaN, made
undefined. -/
def approxInverse (c : Line K V) (p : V) (lower upper : K) : Outcome K :=
  if (sqNorm c.direction : K) = 0 then ub else
  let t : K := dot (p - c.location) c.direction / sqNorm c.direction
  if t < lower then ok lower else if t > upper then ok upper else ok t

/-- `inverse_evaluate`, Line.h:63-66. -/
def inverseEvaluate (c : Line K V) (p : V) : Outcome K := c.approxInverse p c.lower c.upper

end Line

namespace Bezier

/-- `inverse_evaluate` of the degree-1 specialisation, Bezier.h:507-512.  Equal control points give
NaN, made undefined. -/
def inverseEvaluate1 (c : Bezier V) (p : V) : Outcome K := do
  let p0 ← rd c.ctrl 0
  let p1 ← rd c.ctrl 1
  let e := p1 - p0
  if (sqNorm e : K) = 0 then ub
  else ok (max (min (dot (p - p0) e / sqNorm e) 1) 0)

end Bezier

end NS
