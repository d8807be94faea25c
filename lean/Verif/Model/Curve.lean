import Mathlib.Algebra.Order.Field.Basic
import Mathlib.Algebra.Order.Floor.Ring
import Mathlib.Algebra.Module.Basic
import Verif.Basic.Outcome

/-!
# Model of `CurveBase.h` (scalar part)
-/

namespace NS

open Outcome

variable {K V : Type} [Field K] [LinearOrder K] [IsStrictOrderedRing K] [FloorRing K]

/-- `std::trunc`: rounding toward zero. -/
def trunc (x : K) : ℤ := if 0 ≤ x then ⌊x⌋ else ⌈x⌉

/-- C `fmod(x, y)`: `x - y * trunc(x / y)`.  Exact arithmetic.  `fmod(x, 0)` is NaN in C++; the
model makes it undefined. -/
def fmod (x y : K) : Outcome K := if y = 0 then ub else ok (x - y * (trunc (x / y) : K))

/-- `CurveBase::unwrap_parameter`, include/nanospline/CurveBase.h:203-213 (the assert on
`m_periodic` is the guard of every call site). -/
def unwrapParameter (tMin tMax t : K) : Outcome K := do
  let period := tMax - tMin
  let m ← fmod (t - tMin) period
  let t1 := m + tMin
  let t2 := if t1 < tMin then t1 + period else t1
  Outcome.assert (t2 ≥ tMin ∧ t2 ≤ tMax)
  pure t2

/-- `CurveBase::is_split_point_valid`, include/nanospline/CurveBase.h:132-139. -/
def isSplitPointValid (tMin tMax t : K) : Bool := !(decide (t ≤ tMin) || decide (t ≥ tMax))

/-- `CurveBase::is_closed`, include/nanospline/CurveBase.h:42-59; `nrm` is the Euclidean norm of
a point, `ev`, `d1`, `d2` are the (virtual) evaluators of the curve. -/
def isClosed [AddCommGroup V] (nrm : V → K) (ev d1 d2 : K → Outcome V) (tMin tMax : K)
    (order : ℕ) (tol : K) : Outcome Bool := do
  let a ← ev tMin
  let b ← ev tMax
  let result := decide (nrm (a - b) < tol)
  let result ← if order ≥ 1 then do
      let a ← d1 tMin
      let b ← d1 tMax
      pure (result && decide (nrm (a - b) < tol))
    else ok result
  if order ≥ 2 then do
      let a ← d2 tMin
      let b ← d2 tMax
      pure (result && decide (nrm (a - b) < tol))
    else ok result

end NS
