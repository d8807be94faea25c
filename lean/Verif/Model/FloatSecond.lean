import Verif.Model.FloatRational

/-!
# Second derivatives and the derivatives of the fixed degrees with rounded arithmetic

The conventions of `Model/Float.lean`: every operation is rounded and `F` says which products are
fused into the following sum.
-/

namespace NS.Fl

open Outcome

variable {K ι : Type} [Field K] [LinearOrder K] [IsStrictOrderedRing K] [FloorRing K]

/-- `x - s * y` with the product fused or not. -/
def subMul (R : Rounding K) (f : Bool) (x s y : K) : K :=
  if f then R.rnd (x - s * y) else R.rnd (x - R.rnd (s * y))

/-- `evaluate_2nd_derivative`, Bezier.h:88-109. -/
def bezier2ndDerivative (R : Rounding K) (F : ℕ → ℕ → ι → Fuse) (c : Bezier (ι → K)) (t : K) :
    Outcome (ι → K) := do
  let t ← bezierWrap R c.periodic t
  Outcome.assert (c.degree ≥ 0)
  if c.degree ≤ 1 then ok 0 else do
    let d ← bezierDerivCoef R c.degree.toNat c.ctrl
    let d ← bezierDerivCoef R (c.degree - 1).toNat d
    bezierDeBoor R F c.degree.toNat t (c.degree - 2) d

/-- Degree 1 `evaluate_derivative`, Bezier.h:514-517. -/
def bezierDerivative1 (R : Rounding K) (c : Bezier (ι → K)) (_t : K) : Outcome (ι → K) := do
  let p0 ← rd c.ctrl 0
  let p1 ← rd c.ctrl 1
  pure fun i => R.rnd (p1 i - p0 i)

/-- Degree 2 `evaluate_derivative`, Bezier.h:615-625. -/
def bezierDerivative2 (R : Rounding K) (F : ℕ → ι → Fuse) (c : Bezier (ι → K)) (t : K) :
    Outcome (ι → K) := do
  let t ← bezierWrap R c.periodic t
  let c0 ← rd c.ctrl 0
  let c1 ← rd c.ctrl 1
  let c2 ← rd c.ctrl 2
  let p0 := fun i => R.combine (F 0 i) (R.rnd (1 - t)) (c0 i) t (c1 i)
  let p1 := fun i => R.combine (F 1 i) (R.rnd (1 - t)) (c1 i) t (c2 i)
  pure fun i => R.rnd (R.rnd (p1 i - p0 i) * 2)

/-- Degree 2 `evaluate_2nd_derivative`, Bezier.h:627-634. -/
def bezier2ndDerivative2 (R : Rounding K) (f : ι → Bool) (c : Bezier (ι → K)) (t : K) :
    Outcome (ι → K) := do
  let _t ← bezierWrap R c.periodic t
  let c0 ← rd c.ctrl 0
  let c1 ← rd c.ctrl 1
  let c2 ← rd c.ctrl 2
  pure fun i => R.rnd (2 * subMul R (f i) (R.rnd (c0 i + c2 i)) 2 (c1 i))

/-- Degree 3 `evaluate_derivative`, Bezier.h:812-828. -/
def bezierDerivative3 (R : Rounding K) (F : ℕ → ι → Fuse) (c : Bezier (ι → K)) (t : K) :
    Outcome (ι → K) := do
  let t ← bezierWrap R c.periodic t
  let c0 ← rd c.ctrl 0
  let c1 ← rd c.ctrl 1
  let c2 ← rd c.ctrl 2
  let c3 ← rd c.ctrl 3
  let q0 := fun i => R.combine (F 0 i) (R.rnd (1 - t)) (c0 i) t (c1 i)
  let q1 := fun i => R.combine (F 1 i) (R.rnd (1 - t)) (c1 i) t (c2 i)
  let q2 := fun i => R.combine (F 2 i) (R.rnd (1 - t)) (c2 i) t (c3 i)
  let p0 := fun i => R.combine (F 3 i) (R.rnd (1 - t)) (q0 i) t (q1 i)
  let p1 := fun i => R.combine (F 4 i) (R.rnd (1 - t)) (q1 i) t (q2 i)
  pure fun i => R.rnd (R.rnd (p1 i - p0 i) * 3)

/-- Degree 3 `evaluate_2nd_derivative`, Bezier.h:830-842. -/
def bezier2ndDerivative3 (R : Rounding K) (F : ℕ → ι → Fuse) (f : ι → Bool) (c : Bezier (ι → K))
    (t : K) : Outcome (ι → K) := do
  let t ← bezierWrap R c.periodic t
  let c0 ← rd c.ctrl 0
  let c1 ← rd c.ctrl 1
  let c2 ← rd c.ctrl 2
  let c3 ← rd c.ctrl 3
  let q0 := fun i => R.combine (F 0 i) (R.rnd (1 - t)) (c0 i) t (c1 i)
  let q1 := fun i => R.combine (F 1 i) (R.rnd (1 - t)) (c1 i) t (c2 i)
  let q2 := fun i => R.combine (F 2 i) (R.rnd (1 - t)) (c2 i) t (c3 i)
  pure fun i => R.rnd (6 * subMul R (f i) (R.rnd (q0 i + q2 i)) 2 (q1 i))

/-- The quotient of `evaluate_2nd_derivative`, RationalBezier.h:66-70 and NURBS.h:79-83; the
coordinate `none` is the weight, `f` and `g` fuse the two products. -/
def deriv2Quotient (R : Rounding K) (f g : ι → Bool) (x d1 d2 : Option ι → K) : Outcome (ι → K) := do
  Outcome.assert (x none ≠ 0)
  let c0 := fun i => R.rnd (x (some i) / x none)
  let c1 ← derivQuotient R x d1
  pure fun i => R.rnd (subMul R (g i) (subMul R (f i) (d2 (some i)) (d2 none) (c0 i))
    (R.rnd (2 * d1 none)) (c1 i) / x none)

/-- `evaluate_2nd_derivative` of an initialised curve, RationalBezier.h:59-71.  The homogeneous curve
is the generic class, as in `rationalEvaluate`. -/
def rational2ndDerivative (R : Rounding K) (F G H : ℕ → ℕ → Option ι → Fuse) (f g : ι → Bool)
    (P : List (ι → K)) (w : List K) (periodic : Bool) (t : K) : Outcome (ι → K) := do
  let Q ← homogenize R P w
  let x ← bezierEvaluate R F { ctrl := Q, periodic := periodic } t
  let d1 ← bezierDerivative R G { ctrl := Q, periodic := periodic } t
  let d2 ← bezier2ndDerivative R H { ctrl := Q, periodic := periodic } t
  deriv2Quotient R f g x d1 d2

/-- `evaluate_2nd_derivative`, BSpline.h:134-157. -/
def bspline2ndDerivative (R : Rounding K) (F : ℕ → ℕ → ι → Fuse) (c : BSpline K (ι → K)) (t : K) :
    Outcome (ι → K) := do
  c.validate
  let t ← bsplineWrap R c t
  let k ← c.locateSpan t
  Outcome.assert (c.degree ≥ 0)
  let p := c.degree.toNat
  if p ≤ 1 then ok 0 else do
    let q ← c.spanCtrl p k
    let q ← bsplineDerivCoef R c p k q
    let q ← bsplineDerivCoef R c (p - 1) k q
    bsplineDeBoor R F c t (p - 2) k q

/-- `evaluate_2nd_derivative` of an initialised curve, NURBS.h:72-84. -/
def nurbs2ndDerivative (R : Rounding K) (F G H : ℕ → ℕ → Option ι → Fuse) (f g : ι → Bool)
    (c : BSpline K (ι → K)) (w : List K) (t : K) : Outcome (ι → K) := do
  let Q ← homogenize R c.ctrl w
  c.validate
  let x ← bsplineEvaluate R F (BSpline.mk Q c.knots c.periodic c.sdeg) t
  let d1 ← bsplineDerivative R G (BSpline.mk Q c.knots c.periodic c.sdeg) t
  let d2 ← bspline2ndDerivative R H (BSpline.mk Q c.knots c.periodic c.sdeg) t
  deriv2Quotient R f g x d1 d2

end NS.Fl
