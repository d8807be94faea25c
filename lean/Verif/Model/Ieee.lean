import Verif.Model.Float

/-!
# Floating point numbers with infinities, NaN, overflow and gradual underflow

The evaluators of `Model/Float.lean` once more, on the numbers the machine has: finite numbers of a
format with a largest number and gradual underflow, two infinities and NaN (IEEE 754).  Simplified:
zero has no sign, so a quotient of a number by zero may be the infinity of the other sign; NaN has
no payload; knots and the constants of the code are finite.
-/

namespace NS.Ieee

open Outcome

/-! ### Numbers -/

/-- A format: rounding with unit roundoff `unit` and an additional absolute error `eta` from
underflow; `big` is the largest finite number.  Sums of numbers of the format do not underflow. -/
structure Format (K : Type) [Field K] [LinearOrder K] [IsStrictOrderedRing K] where
  rnd : K → K
  unit : K
  eta : K
  big : K
  unit_nonneg : 0 ≤ unit
  eta_nonneg : 0 ≤ eta
  near : ∀ x, |rnd x - x| ≤ unit * |x| + eta
  sum_near : ∀ x y, rnd x = x → rnd y = y → |rnd (x + y) - (x + y)| ≤ unit * |x + y|
  mono : ∀ x y, x ≤ y → rnd x ≤ rnd y
  odd : ∀ x, rnd (-x) = -rnd x
  idem : ∀ x, rnd (rnd x) = rnd x
  one : rnd 1 = 1
  big_float : rnd big = big
  one_le_big : 1 ≤ big

/-- A floating point datum. -/
inductive Num (K : Type)
  | fin (x : K)
  | inf (neg : Bool)
  | nan
  deriving DecidableEq, Repr

namespace Num

variable {K : Type} [Field K] [LinearOrder K] [IsStrictOrderedRing K] [FloorRing K]

instance : Zero (Num K) := ⟨fin 0⟩

/-- Negation. -/
def neg : Num K → Num K
  | fin x => fin (-x)
  | inf s => inf (!s)
  | nan => nan

/-- Sum before rounding. -/
def add : Num K → Num K → Num K
  | fin x, fin y => fin (x + y)
  | nan, _ => nan
  | _, nan => nan
  | inf s, fin _ => inf s
  | fin _, inf s => inf s
  | inf s, inf t => if s = t then inf s else nan

/-- An infinity times a finite number. -/
def infMul (s : Bool) (x : K) : Num K :=
  if x = 0 then nan else inf (s ^^ decide (x < 0))

/-- Product before rounding. -/
def mul : Num K → Num K → Num K
  | fin x, fin y => fin (x * y)
  | nan, _ => nan
  | _, nan => nan
  | inf s, fin x => infMul s x
  | fin x, inf s => infMul s x
  | inf s, inf t => inf (s ^^ t)

/-- Quotient before rounding. -/
def div : Num K → Num K → Num K
  | fin x, fin y => if y = 0 then (if x = 0 then nan else inf (decide (x < 0))) else fin (x / y)
  | nan, _ => nan
  | _, nan => nan
  | inf s, fin x => inf (s ^^ decide (x < 0))
  | fin _, inf _ => fin 0
  | inf _, inf _ => nan

/-- C `fmod`; the result is exact. -/
def fmod : Num K → Num K → Num K
  | fin x, fin y => if y = 0 then nan else fin (x - y * (trunc (x / y) : K))
  | fin x, inf _ => fin x
  | _, _ => nan

/-- `a <= b`, false for NaN. -/
def le : Num K → Num K → Bool
  | fin x, fin y => decide (x ≤ y)
  | nan, _ => false
  | _, nan => false
  | inf s, fin _ => s
  | fin _, inf s => !s
  | inf s, inf t => s || !t

/-- `a < b`, false for NaN. -/
def lt : Num K → Num K → Bool
  | fin x, fin y => decide (x < y)
  | nan, _ => false
  | _, nan => false
  | inf s, fin _ => s
  | fin _, inf s => !s
  | inf s, inf t => s && !t

end Num

namespace Format

variable {K : Type} [Field K] [LinearOrder K] [IsStrictOrderedRing K] (A : Format K)

/-- Rounding of a result; a rounded number above the largest finite number becomes an infinity. -/
def round : Num K → Num K
  | .fin x => if |A.rnd x| ≤ A.big then .fin (A.rnd x) else .inf (decide (x < 0))
  | y => y

/-- `1.0 - t`. -/
def compl (t : Num K) : Num K := A.round (Num.add (.fin 1) (Num.neg t))

/-- `a - b`. -/
def sub (a b : Num K) : Num K := A.round (Num.add a (Num.neg b))

/-- `s * a + r * b`, see `Rounding.combine`. -/
def combine (f : Fuse) (s a r b : Num K) : Num K :=
  match f with
  | .none => A.round (Num.add (A.round (Num.mul s a)) (A.round (Num.mul r b)))
  | .first => A.round (Num.add (Num.mul s a) (A.round (Num.mul r b)))
  | .second => A.round (Num.add (A.round (Num.mul s a)) (Num.mul r b))

end Format

/-! ### Bézier curves -/

variable {K ι : Type} [Field K] [LinearOrder K] [IsStrictOrderedRing K] [FloorRing K]

/-- `CurveBase::unwrap_parameter`, CurveBase.h:203-213. -/
def unwrap (A : Format K) (tMin tMax t : Num K) : Outcome (Num K) := do
  let period := A.sub tMax tMin
  let t1 := A.round (Num.add (Num.fmod (A.sub t tMin) period) tMin)
  let t2 := if t1.lt tMin then A.round (Num.add t1 period) else t1
  Outcome.assert (tMin.le t2 ∧ t2.le tMax)
  pure t2

/-- The parameter used by the evaluators, Bezier.h:45-47. -/
def bezierWrap (A : Format K) (periodic : Bool) (t : Num K) : Outcome (Num K) :=
  if periodic then unwrap A (.fin 0) (.fin 1) t else ok t

/-- `blossom`, Bezier.h:389-408. -/
def bezierBlossom (A : Format K) (F : ℕ → ℕ → ι → Fuse) (bv : List (Num K)) (degree : ℕ)
    (c : List (ι → Num K)) : Outcome (List (ι → Num K)) :=
  forUp 1 (degree + 1) (fun recStep c =>
    forDown degree recStep (fun j c => do
      let t ← rd bv (recStep - 1)
      let a ← rd c j
      let b ← rd c (j - 1)
      wr c j (fun i => A.combine (F recStep j i) t (a i) (A.compl t) (b i))) c) c

/-- `deBoor`, Bezier.h:410-424. -/
def bezierDeBoor (A : Format K) (F : ℕ → ℕ → ι → Fuse) (bvSize : ℕ) (t : Num K) (degree : ℤ)
    (c : List (ι → Num K)) : Outcome (ι → Num K) := do
  let c ← if degree > 0 then bezierBlossom A F (List.replicate bvSize t) degree.toNat c else ok c
  rdI c degree

/-- `evaluate`, Bezier.h:43-51. -/
def bezierEvaluate (A : Format K) (F : ℕ → ℕ → ι → Fuse) (c : Bezier (ι → Num K)) (t : Num K) :
    Outcome (ι → Num K) := do
  let t ← bezierWrap A c.periodic t
  bezierDeBoor A F c.degree.toNat t c.degree c.ctrl

/-- `get_derivative_coefficients`, Bezier.h:58-65 (in place). -/
def bezierDerivCoef (A : Format K) (curveDegree : ℕ) (c : List (ι → Num K)) :
    Outcome (List (ι → Num K)) :=
  loop curveDegree (fun i c => do
    let a ← rd c (i + 1)
    let b ← rd c i
    wr c i (fun l => A.round (Num.mul (.fin (curveDegree : K)) (A.sub (a l) (b l))))) c

/-- `evaluate_derivative`, Bezier.h:67-86. -/
def bezierDerivative (A : Format K) (F : ℕ → ℕ → ι → Fuse) (c : Bezier (ι → Num K)) (t : Num K) :
    Outcome (ι → Num K) := do
  let t ← bezierWrap A c.periodic t
  Outcome.assert (c.degree ≥ 0)
  if c.degree = 0 then ok (fun _ => .fin 0) else do
    let d ← bezierDerivCoef A c.degree.toNat c.ctrl
    bezierDeBoor A F c.degree.toNat t (c.degree - 1) d

/-- `in_domain`, BezierBase.h:29-35; `eps` is the machine epsilon. -/
def bezierInDomain (A : Format K) (eps : K) (t : Num K) : Bool :=
  (A.sub (.fin 0) (.fin eps)).le t && t.le (A.round (Num.add (.fin 1) (.fin eps)))

/-! ### B-splines -/

/-- The bisection of `locate_span`, BSplineBase.h:315-322. -/
def search (u : List K) (t : Num K) : ℕ → ℕ → ℕ → Outcome ℕ
  | 0, _, _ => ub
  | f + 1, low, high => do
    let mid := (high + low) / 2
    let a ← rd u mid
    if t.lt (.fin a) then search u t f low mid
    else do
      let b ← rd u (mid + 1)
      if Num.le (.fin b) t then search u t f mid high else ok mid

/-- `locate_span`, BSplineBase.h:289-325. -/
def locateSpan (c : BSpline K (ι → Num K)) (t : Num K) : Outcome ℤ := do
  Outcome.assert (c.knots.length > c.ctrl.length)
  let p := c.degree.toNat
  let low := p
  let high := c.knots.length - p - 1
  let a ← rd c.knots low
  if t.le (.fin a) then ok (low : ℤ)
  else do
    let b ← rd c.knots high
    if Num.le (.fin b) t then do
      let i ← BSpline.bypassBefore c.knots high
      ok ((i : ℤ) - 1)
    else do
      let mid ← search c.knots t c.knots.length low high
      let i ← BSpline.bypassAfter c.knots c.knots.length mid
      ok (i : ℤ)

/-- The blending coefficient, BSpline.h:500-506. -/
def coef (A : Format K) (a b : K) (t : Num K) : Num K :=
  let diff := A.sub (.fin a) (.fin b)
  if (A.round (.fin (BSpline.tiny K))).lt diff then A.round (Num.div (A.sub t (.fin b)) diff)
  else .fin 0

/-- `blossom`, BSpline.h:489-511. -/
def bsplineBlossom (A : Format K) (F : ℕ → ℕ → ι → Fuse) (u : List K) (bv : List (Num K)) (p : ℕ)
    (k : ℤ) (q : List (ι → Num K)) : Outcome (List (ι → Num K)) := do
  Outcome.assert (q.length ≥ p + 1)
  forUp 1 (p + 1) (fun r q => do
    let t ← rd bv (r - 1)
    forDown p r (fun j q => do
      let a ← rdI u (j + k + 1 - r)
      let b ← rdI u (j + k - p)
      let alpha := coef A a b t
      let x ← rd q (j - 1)
      let y ← rd q j
      wr q j (fun i => A.combine (F r j i) (A.compl alpha) (x i) alpha (y i))) q) q

/-- `deBoor`, BSpline.h:513-525. -/
def bsplineDeBoor (A : Format K) (F : ℕ → ℕ → ι → Fuse) (c : BSpline K (ι → Num K)) (t : Num K)
    (p : ℕ) (k : ℤ) (q : List (ι → Num K)) : Outcome (ι → Num K) := do
  let q ← if p > 0 then bsplineBlossom A F c.knots (List.replicate c.degree.toNat t) p k q else ok q
  rd q p

/-- The periodic wrap, BSpline.h:75-77. -/
def bsplineWrap (A : Format K) (c : BSpline K (ι → Num K)) (t : Num K) : Outcome (Num K) :=
  if c.periodic then do
    let a ← c.lower
    let b ← c.upper
    unwrap A (.fin a) (.fin b) t
  else ok t

/-- `get_knot_span_control_points`, BSpline.h:59-70. -/
def spanCtrl (c : BSpline K (ι → Num K)) (p : ℕ) (k : ℤ) : Outcome (List (ι → Num K)) :=
  loop (p + 1) (fun i q => do
    let idx : ℤ := k - p + i
    Outcome.assert (idx ≥ 0)
    Outcome.assert (idx < c.ctrl.length)
    let a ← rdI c.ctrl idx
    wr q i a) (List.replicate (p + 1) fun _ => .fin 0)

/-- `evaluate`, BSpline.h:72-87. -/
def bsplineEvaluate (A : Format K) (F : ℕ → ℕ → ι → Fuse) (c : BSpline K (ι → Num K)) (t : Num K) :
    Outcome (ι → Num K) := do
  c.validate
  let t ← bsplineWrap A c t
  let k ← locateSpan c t
  Outcome.assert (c.degree ≥ 0)
  let p := c.degree.toNat
  let q ← spanCtrl c p k
  bsplineDeBoor A F c t p k q

/-! ### Rational Bézier curves -/

/-- Homogeneous control points of `initialize`, RationalBezier.h:211-220; the coordinate `none` is
the weight. -/
def homogenize (A : Format K) (P : List (ι → Num K)) (w : List (Num K)) :
    Outcome (List (Option ι → Num K)) := do
  Outcome.assert (P.length = w.length)
  pure (List.zipWith (fun p w o => match o with
    | some i => A.round (Num.mul (p i) w)
    | none => w) P w)

/-- `evaluate` of an initialised curve, RationalBezier.h:38-43. -/
def rationalEvaluate (A : Format K) (F : ℕ → ℕ → Option ι → Fuse) (P : List (ι → Num K))
    (w : List (Num K)) (periodic : Bool) (t : Num K) : Outcome (ι → Num K) := do
  let Q ← homogenize A P w
  let p ← bezierEvaluate A F { ctrl := Q, periodic := periodic } t
  pure fun i => A.round (Num.div (p (some i)) (p none))

/-! ### Bézier patches -/

/-- `compute_iso_curve_u`, BezierPatch.h:151-166. -/
def isoCurveU (A : Format K) (F : ℕ → ℕ → ℕ → ι → Fuse) (p : BezierPatch (ι → Num K)) (v : Num K) :
    Outcome (Bezier (ι → Num K)) := do
  let m ← p.numU
  let isos ← p.isoCurvesV
  let c ← tab m (fun i => do
    let iso ← rd isos i
    bezierEvaluate A (F i) iso v)
  pure { ctrl := c, periodic := p.perU }

/-- `compute_iso_curve_v`, BezierPatch.h:168-183. -/
def isoCurveV (A : Format K) (F : ℕ → ℕ → ℕ → ι → Fuse) (p : BezierPatch (ι → Num K)) (u : Num K) :
    Outcome (Bezier (ι → Num K)) := do
  let n ← p.numV
  let isos ← p.isoCurvesU
  let c ← tab n (fun i => do
    let iso ← rd isos i
    bezierEvaluate A (F i) iso u)
  pure { ctrl := c, periodic := p.perV }

/-- `evaluate`, BezierPatch.h:49-58. -/
def patchEvaluate (A : Format K) (F : ℕ → ℕ → ℕ → ι → Fuse) (G : ℕ → ℕ → ι → Fuse)
    (p : BezierPatch (ι → Num K)) (u v : Num K) : Outcome (ι → Num K) :=
  if p.degV > p.degU then do
    let c ← isoCurveV A F p u
    bezierEvaluate A G c v
  else do
    let c ← isoCurveU A F p v
    bezierEvaluate A G c u

/-! ### Binary formats -/

/-- Rounding to `p` significant bits and to multiples of `2^e`, ties to even. -/
def rndSub (p : ℕ) (e : ℤ) (x : K) : K :=
  if |x| < 2 ^ (e + p - 1) then (roundEven (x / 2 ^ e) : K) * 2 ^ e else binaryRnd p x

end NS.Ieee
