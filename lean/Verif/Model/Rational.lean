import Mathlib.Algebra.Module.Prod
import Verif.Model.BSpline

/-!
# Model of `RationalBezier.h`, `NURBS.h` and the rational parts of `split.h`, `conversion.h`

A homogeneous point (`_dim + 1` coordinates) is a pair `V × K`: the first `_dim` coordinates and
the last one.  A division by a zero weight produces infinities or NaN in C++; exact arithmetic
has no such values and the model makes the operation undefined (`ub`).
-/

namespace NS

open Outcome

section Homogeneous

variable {K V : Type} [Field K] [LinearOrder K] [AddCommGroup V] [Module K V]

/-- Homogeneous control points of `initialize`, RationalBezier.h:213-216 and NURBS.h:294-298.
The column-wise product needs as many weights as control points. -/
def homogenize (P : List V) (w : List K) : Outcome (List (V × K)) := do
  Outcome.assert (P.length = w.length)
  pure (List.zipWith (fun p w => (w • p, w)) P w)

/-- Control points of `set_homogeneous`, RationalBezier.h:243-244 and NURBS.h:326-327. -/
def dehomogenize (Q : List (V × K)) : Outcome (List V) := do
  Outcome.assert (∀ q ∈ Q, q.2 ≠ 0)
  pure (Q.map (fun q => q.2⁻¹ • q.1))

/-- The quotient of `evaluate`, RationalBezier.h:42 and NURBS.h:55. -/
def quot0 (p : V × K) : Outcome V := do
  Outcome.assert (p.2 ≠ 0)
  pure (p.2⁻¹ • p.1)

/-- The quotient of `evaluate_derivative`, RationalBezier.h:56 and NURBS.h:69. -/
def quot1 (p d : V × K) : Outcome V := do
  Outcome.assert (p.2 ≠ 0)
  pure (p.2⁻¹ • (d.1 - p.2⁻¹ • (d.2 • p.1)))

/-- The quotient of `evaluate_2nd_derivative`, RationalBezier.h:66-70 and NURBS.h:79-83. -/
def quot2 (p d1 d2 : V × K) : Outcome V := do
  Outcome.assert (p.2 ≠ 0)
  let c0 := p.2⁻¹ • p.1
  let c1 := p.2⁻¹ • (d1.1 - p.2⁻¹ • (d1.2 • p.1))
  pure (p.2⁻¹ • (d2.1 - d2.2 • c0 - (2 * d1.2) • c1))

end Homogeneous

/-- Data members of `RationalBezier` (RationalBezier.h:275-276 and the base class). The
homogeneous curve is modelled by the generic class for every degree; C02 relates it to the
fixed-degree classes. -/
structure RationalBezier (K V : Type) where
  base : Bezier V
  weights : List K
  hom : Bezier (V × K)
  deriving DecidableEq, Repr

namespace RationalBezier

variable {K V : Type} [Field K] [LinearOrder K] [IsStrictOrderedRing K] [FloorRing K]
  [AddCommGroup V] [Module K V]

/-- `validate_initialization`, RationalBezier.h:262-272. -/
def validate (c : RationalBezier K V) : Outcome Unit := do
  throwIf (c.hom.ctrl.length ≠ c.base.ctrl.length ∨ c.hom.ctrl.length ≠ c.weights.length)
    .invalidSetting
  throwIf (c.hom.periodic ≠ c.base.periodic) .invalidSetting

/-- `evaluate`, RationalBezier.h:38-43. -/
def evaluate (c : RationalBezier K V) (t : K) : Outcome V := do
  c.validate
  let p ← c.hom.evaluate t
  quot0 p

/-- `evaluate_derivative`, RationalBezier.h:50-57. -/
def evaluateDerivative (c : RationalBezier K V) (t : K) : Outcome V := do
  c.validate
  let p ← c.hom.evaluate t
  let d ← c.hom.evaluateDerivative t
  quot1 p d

/-- `evaluate_2nd_derivative`, RationalBezier.h:59-71. -/
def evaluate2ndDerivative (c : RationalBezier K V) (t : K) : Outcome V := do
  c.validate
  let p ← c.hom.evaluate t
  let d1 ← c.hom.evaluateDerivative t
  let d2 ← c.hom.evaluate2ndDerivative t
  quot2 p d1 d2

/-- `get_control_point`, BezierBase.h:48. -/
def getControlPoint (c : RationalBezier K V) (i : ℕ) : Outcome V := rd c.base.ctrl i

/-- `get_weight`, RationalBezier.h:85. -/
def getWeight (c : RationalBezier K V) (i : ℕ) : Outcome K := rd c.weights i

/-- `set_control_point`, RationalBezier.h:73-81. -/
def setControlPoint (c : RationalBezier K V) (i : ℕ) (p : V) : Outcome (RationalBezier K V) := do
  c.validate
  let P ← wr c.base.ctrl i p
  let q ← rd c.hom.ctrl i
  let w ← rd c.weights i
  let Q ← wr c.hom.ctrl i (w • p, q.2)
  pure { c with base := { c.base with ctrl := P }, hom := { c.hom with ctrl := Q } }

/-- `set_weight`, RationalBezier.h:87-96. -/
def setWeight (c : RationalBezier K V) (i : ℕ) (val : K) : Outcome (RationalBezier K V) := do
  c.validate
  let w ← wr c.weights i val
  let _ ← rd c.hom.ctrl i
  let p ← rd c.base.ctrl i
  let Q ← wr c.hom.ctrl i (val • p, val)
  pure { c with weights := w, hom := { c.hom with ctrl := Q } }

/-- `initialize`, RationalBezier.h:211-220. -/
def init (c : RationalBezier K V) : Outcome (RationalBezier K V) := do
  let Q ← homogenize c.base.ctrl c.weights
  pure { c with hom := { ctrl := Q, periodic := c.base.periodic } }

/-- `set_homogeneous` on any object, RationalBezier.h:238-247. -/
def ofHomogeneous (h : Bezier (V × K)) : Outcome (RationalBezier K V) := do
  let P ← dehomogenize h.ctrl
  let c : RationalBezier K V :=
    { base := { ctrl := P, periodic := h.periodic }, weights := h.ctrl.map Prod.snd, hom := h }
  c.validate
  pure c

/-- `elevate_degree`, RationalBezier.h:249-259. -/
def elevateDegree (c : RationalBezier K V) : Outcome (RationalBezier K V) := do
  c.validate
  let h ← Bezier.elevateDegree K c.hom
  let r ← ofHomogeneous h
  Outcome.assert (r.base.periodic = c.base.periodic)
  pure r

/-- `for (const auto& c : parts) results.back().set_homogeneous(c)`, split.h:41-44. -/
def ofParts : List (Bezier (V × K)) → Outcome (List (RationalBezier K V))
  | [] => ok []
  | h :: hs => do
    let r ← ofHomogeneous h
    let rs ← ofParts hs
    pure (r :: rs)

/-- Free `split(RationalBezier, t)`, split.h:32-46. -/
def split (eps : K) (c : RationalBezier K V) (t : K) : Outcome (List (RationalBezier K V)) := do
  let parts ← Bezier.freeSplit eps c.hom t
  ofParts parts

variable (K) in
/-- `convert_to_RationalBezier(Bezier)`, conversion.h:43-57 (the periodic flag is not copied). -/
def ofBezier (c : Bezier V) : Outcome (RationalBezier K V) :=
  init { base := { ctrl := c.ctrl }, weights := List.replicate c.ctrl.length 1,
               hom := { ctrl := [] } }

/-- `convert_to_Bezier(RationalBezier)`, conversion.h:69-81. -/
def toBezier (c : RationalBezier K V) : Outcome (Bezier V) := do
  throwIf (∃ w ∈ c.weights, some w ≠ c.weights.head?) .invalidSetting
  pure { ctrl := c.base.ctrl }

end RationalBezier

/-- Data members of `NURBS` (NURBS.h:373-374 and the base class). -/
structure NURBS (K V : Type) where
  base : BSpline K V
  weights : List K
  hom : BSpline K (V × K)
  deriving DecidableEq, Repr

namespace NURBS

variable {K V : Type} [Field K] [LinearOrder K] [IsStrictOrderedRing K] [FloorRing K]
  [AddCommGroup V] [Module K V]

/-- `validate_initialization`, NURBS.h:344-355. -/
def validate (c : NURBS K V) : Outcome Unit := do
  c.base.validate
  throwIf (c.hom.ctrl.length ≠ c.base.ctrl.length ∨ c.hom.ctrl.length ≠ c.weights.length)
    .invalidSetting
  throwIf (c.hom.periodic ≠ c.base.periodic) .invalidSetting

/-- `evaluate`, NURBS.h:51-56. -/
def evaluate (c : NURBS K V) (t : K) : Outcome V := do
  c.validate
  let p ← c.hom.evaluate t
  quot0 p

/-- `evaluate_derivative`, NURBS.h:63-70. -/
def evaluateDerivative (c : NURBS K V) (t : K) : Outcome V := do
  c.validate
  let p ← c.hom.evaluate t
  let d ← c.hom.evaluateDerivative t
  quot1 p d

/-- `evaluate_2nd_derivative`, NURBS.h:72-84. -/
def evaluate2ndDerivative (c : NURBS K V) (t : K) : Outcome V := do
  c.validate
  let p ← c.hom.evaluate t
  let d1 ← c.hom.evaluateDerivative t
  let d2 ← c.hom.evaluate2ndDerivative t
  quot2 p d1 d2

/-- `get_control_point`, BSplineBase.h:102. -/
def getControlPoint (c : NURBS K V) (i : ℕ) : Outcome V := rd c.base.ctrl i

/-- `get_weight`, NURBS.h:99. -/
def getWeight (c : NURBS K V) (i : ℕ) : Outcome K := rd c.weights i

/-- `get_knot`, BSplineBase.h:116. -/
def getKnot (c : NURBS K V) (i : ℕ) : Outcome K := rd c.base.knots i

/-- `set_control_point`, NURBS.h:87-95. -/
def setControlPoint (c : NURBS K V) (i : ℕ) (p : V) : Outcome (NURBS K V) := do
  c.validate
  let P ← wr c.base.ctrl i p
  let q ← rd c.hom.ctrl i
  let w ← rd c.weights i
  let Q ← wr c.hom.ctrl i (w • p, q.2)
  pure { c with base := { c.base with ctrl := P }, hom := { c.hom with ctrl := Q } }

/-- `set_weight`, NURBS.h:101-110. -/
def setWeight (c : NURBS K V) (i : ℕ) (val : K) : Outcome (NURBS K V) := do
  c.validate
  let w ← wr c.weights i val
  let _ ← rd c.hom.ctrl i
  let p ← rd c.base.ctrl i
  let Q ← wr c.hom.ctrl i (val • p, val)
  pure { c with weights := w, hom := { c.hom with ctrl := Q } }

/-- `set_knot`, NURBS.h:112-116 (no validation). -/
def setKnot (c : NURBS K V) (i : ℕ) (val : K) : Outcome (NURBS K V) := do
  let u ← wr c.base.knots i val
  let u' ← wr c.hom.knots i val
  pure { c with base := { c.base with knots := u }, hom := { c.hom with knots := u' } }

/-- `initialize`, NURBS.h:292-303. Both splines have the same template argument `_degree`. -/
def init (c : NURBS K V) : Outcome (NURBS K V) := do
  let Q ← homogenize c.base.ctrl c.weights
  pure { c with hom := { ctrl := Q, knots := c.base.knots, periodic := c.base.periodic,
                         sdeg := c.base.sdeg } }

/-- `set_homogeneous` on any object, NURBS.h:321-331. -/
def ofHomogeneous (h : BSpline K (V × K)) : Outcome (NURBS K V) := do
  let P ← dehomogenize h.ctrl
  let c : NURBS K V :=
    { base := { ctrl := P, knots := h.knots, periodic := h.periodic, sdeg := h.sdeg },
      weights := h.ctrl.map Prod.snd, hom := h }
  c.validate
  pure c

/-- `insert_knot`, NURBS.h:119-124. -/
def insertKnot (eps : K) (c : NURBS K V) (t : K) (r : ℕ) : Outcome (NURBS K V) := do
  c.validate
  let h ← c.hom.insertKnot eps t r
  ofHomogeneous h

/-- Loop of `convert_to_RationalBezier`, NURBS.h:148-153: the same as `RationalBezier.ofParts`;
the whole function is NURBS.h:134-156. -/
def toRationalBezier (eps : K) (c : NURBS K V) :
    Outcome (List (RationalBezier K V) × List K) := do
  let out ← c.hom.toBezier eps
  let segs ← RationalBezier.ofParts out.1
  pure (segs, out.2)

/-- Loop of the free `split`, split.h:113-116. -/
def ofParts : List (BSpline K (V × K)) → Outcome (List (NURBS K V))
  | [] => ok []
  | h :: hs => do
    let r ← ofHomogeneous h
    let rs ← ofParts hs
    pure (r :: rs)

/-- Free `split(NURBS, t)`, split.h:104-118. -/
def split (eps : K) (c : NURBS K V) (t : K) : Outcome (List (NURBS K V)) := do
  let parts ← c.hom.split eps t
  ofParts parts

/-- `convert_to_NURBS(BSpline)`, conversion.h:86-101 (the periodic flag is not copied). -/
def ofBSpline (c : BSpline K V) : Outcome (NURBS K V) :=
  init { base := { ctrl := c.ctrl, knots := c.knots, sdeg := c.sdeg },
               weights := List.replicate c.ctrl.length 1,
               hom := { ctrl := [], knots := [], sdeg := c.sdeg } }

/-- `convert_to_BSpline(NURBS)`, conversion.h:106-119. -/
def toBSpline (c : NURBS K V) : Outcome (BSpline K V) := do
  throwIf (∃ w ∈ c.weights, some w ≠ c.weights.head?) .invalidSetting
  pure { ctrl := c.base.ctrl, knots := c.base.knots, sdeg := c.base.sdeg }

end NURBS

end NS
