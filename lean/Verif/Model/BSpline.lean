import Verif.Model.Bezier

/-!
# Model of `BSplineBase.h`, `BSpline.h` and the B-spline parts of `split.h`, `hodograph.h`,
`conversion.h`

C++ `int` sizes and indices are modelled by `ℕ` where the code has just established that they
are non-negative and by `ℤ` otherwise.
-/

namespace NS

open Outcome

/-- Data members of `BSpline` (BSplineBase.h:412-413, CurveBase.h:216). `sdeg` is the template
argument `_degree`, `none` standing for a negative value (dynamic degree). -/
structure BSpline (K V : Type) where
  ctrl : List V
  knots : List K
  periodic : Bool := false
  sdeg : Option ℕ := none
  deriving DecidableEq, Repr

namespace BSpline

variable {K V : Type} [Field K] [LinearOrder K] [IsStrictOrderedRing K] [FloorRing K]
  [AddCommGroup V] [Module K V]

/-- `get_degree`, BSplineBase.h:374-377. -/
def degree (c : BSpline K V) : ℤ := (c.knots.length : ℤ) - c.ctrl.length - 1

/-- `validate_curve`, BSplineBase.h:403-409. -/
def validate (c : BSpline K V) : Outcome Unit :=
  throwIf (c.degree < 0 ∨ (c.sdeg.isSome = true ∧ c.sdeg.map (fun d => (d : ℤ)) ≠ some c.degree))
    .invalidSetting

/-- `get_domain_lower_bound`, BSplineBase.h:389-393. -/
def lower (c : BSpline K V) : Outcome K := rdI c.knots c.degree

/-- `get_domain_upper_bound`, BSplineBase.h:395-400. -/
def upper (c : BSpline K V) : Outcome K := rdI c.knots ((c.knots.length : ℤ) - c.degree - 1)

/-- `in_domain`, BSplineBase.h:379-387; `eps` is the machine epsilon. -/
def inDomain (eps : K) (c : BSpline K V) (t : K) : Outcome Bool := do
  let tMin ← c.lower
  let tMax ← c.upper
  pure (decide (t ≥ tMin - eps) && decide (t ≤ tMax + eps))

/-- `bypass_duplicates_after` of `locate_span`, BSplineBase.h:297-302; the first argument bounds
the number of iterations, running out of it would be an endless loop. -/
def bypassAfter (u : List K) : ℕ → ℕ → Outcome ℕ
  | 0, _ => ub
  | f + 1, i =>
    if i + 1 < u.length then do
      let a ← rd u i
      let b ← rd u (i + 1)
      if a = b then bypassAfter u f (i + 1) else ok i
    else ok i

/-- `bypass_duplicates_before` of `locate_span`, BSplineBase.h:304-309. -/
def bypassBefore (u : List K) : ℕ → Outcome ℕ
  | 0 => ok 0
  | i + 1 => do
    let a ← rd u (i + 1)
    let b ← rd u i
    if a = b then bypassBefore u i else ok (i + 1)

/-- The bisection of `locate_span`, BSplineBase.h:315-322; the first argument bounds the number
of iterations. -/
def search (u : List K) (t : K) : ℕ → ℕ → ℕ → Outcome ℕ
  | 0, _, _ => ub
  | f + 1, low, high => do
    let mid := (high + low) / 2
    let a ← rd u mid
    if t < a then search u t f low mid
    else do
      let b ← rd u (mid + 1)
      if t ≥ b then search u t f mid high else ok mid

/-- `locate_span`, BSplineBase.h:289-325. The result is an `int` that can be `-1`. -/
def locateSpan (c : BSpline K V) (t : K) : Outcome ℤ := do
  Outcome.assert (c.knots.length > c.ctrl.length)
  let p := c.degree.toNat
  let low := p
  let high := c.knots.length - p - 1
  let a ← rd c.knots low
  if t ≤ a then ok (low : ℤ)
  else do
    let b ← rd c.knots high
    if t ≥ b then do
      let i ← bypassBefore c.knots high
      ok ((i : ℤ) - 1)
    else do
      let mid ← search c.knots t c.knots.length low high
      let i ← bypassAfter c.knots c.knots.length mid
      ok (i : ℤ)

/-- First loop of `get_multiplicity`, BSplineBase.h:331-336 (indices `i-1, ..., 0`). -/
def multBefore (u : List K) (k : ℕ) : ℕ → ℕ → Outcome ℕ
  | 0, s => ok s
  | i + 1, s => do
    let a ← rd u i
    let b ← rd u k
    if a = b then multBefore u k i (s + 1) else ok s

/-- Second loop of `get_multiplicity`, BSplineBase.h:337-342; the first argument is the number
of remaining iterations. -/
def multAfter (u : List K) (k : ℕ) : ℕ → ℕ → ℕ → Outcome ℕ
  | 0, _, s => ok s
  | f + 1, i, s => do
    let a ← rd u i
    let b ← rd u k
    if a = b then multAfter u k f (i + 1) (s + 1) else ok s

/-- `get_multiplicity`, BSplineBase.h:327-344. -/
def multiplicity (c : BSpline K V) (k : ℕ) : Outcome ℕ := do
  let s ← multBefore c.knots k k 1
  multAfter c.knots k (c.knots.length - (k + 1)) (k + 1) s

/-- `get_knot_span_control_points`, BSpline.h:59-70 (degree `p`, knot span `k`). -/
def spanCtrl (c : BSpline K V) (p : ℕ) (k : ℤ) : Outcome (List V) :=
  loop (p + 1) (fun i q => do
    let idx : ℤ := k - p + i
    Outcome.assert (idx ≥ 0)
    Outcome.assert (idx < c.ctrl.length)
    let a ← rdI c.ctrl idx
    wr q i a) (List.replicate (p + 1) 0)

variable (K) in
/-- The constant `1e-16` of `blossom`, BSpline.h:504. -/
def tiny : K := 1 / 10 ^ 16

/-- `blossom`, BSpline.h:489-511. -/
def blossom (u : List K) (bv : List K) (p : ℕ) (k : ℤ) (q : List V) : Outcome (List V) := do
  Outcome.assert (q.length ≥ p + 1)
  forUp 1 (p + 1) (fun r q => do
    let t ← rd bv (r - 1)
    forDown p r (fun j q => do
      let a ← rdI u (j + k + 1 - r)
      let b ← rdI u (j + k - p)
      let diff := a - b
      let alpha := if diff > tiny K then (t - b) / diff else 0
      let x ← rd q (j - 1)
      let y ← rd q j
      wr q j ((1 - alpha) • x + alpha • y)) q) q

/-- `deBoor`, BSpline.h:513-525. -/
def deBoor (c : BSpline K V) (t : K) (p : ℕ) (k : ℤ) (q : List V) : Outcome V := do
  let q ← if p > 0 then blossom c.knots (List.replicate c.degree.toNat t) p k q else ok q
  rd q p

/-- The periodic wrap shared by the evaluators (BSpline.h:75-77, 114-116, 137-139). -/
def wrap (c : BSpline K V) (t : K) : Outcome K :=
  if c.periodic then do
    let a ← c.lower
    let b ← c.upper
    unwrapParameter a b t
  else ok t

/-- `evaluate`, BSpline.h:72-87. The second assert of the code holds by definition of the
degree. -/
def evaluate (c : BSpline K V) (t : K) : Outcome V := do
  c.validate
  let t ← c.wrap t
  let k ← c.locateSpan t
  Outcome.assert (c.degree ≥ 0)
  let p := c.degree.toNat
  let q ← c.spanCtrl p k
  c.deBoor t p k q

/-- `get_derivative_coefficients`, BSpline.h:94-109, in place; `n` is the new degree plus one. -/
def derivativeCoefficients (c : BSpline K V) (n : ℕ) (k : ℤ) (q : List V) : Outcome (List V) :=
  loop n (fun i q => do
    let a ← rdI c.knots (i + k + 1)
    let b ← rdI c.knots (i + k + 1 - n)
    let diff := a - b
    let alpha : K := if diff > 0 then (n : K) / diff else 0
    let x ← rd q (i + 1)
    let y ← rd q i
    wr q i (alpha • (x - y))) q

/-- `evaluate_derivative`, BSpline.h:111-132. -/
def evaluateDerivative (c : BSpline K V) (t : K) : Outcome V := do
  c.validate
  let t ← c.wrap t
  let k ← c.locateSpan t
  Outcome.assert (c.degree ≥ 0)
  let p := c.degree.toNat
  if p = 0 then ok 0 else do
    let q ← c.spanCtrl p k
    let q ← c.derivativeCoefficients p k q
    c.deBoor t (p - 1) k q

/-- `evaluate_2nd_derivative`, BSpline.h:134-157. -/
def evaluate2ndDerivative (c : BSpline K V) (t : K) : Outcome V := do
  c.validate
  let t ← c.wrap t
  let k ← c.locateSpan t
  Outcome.assert (c.degree ≥ 0)
  let p := c.degree.toNat
  if p ≤ 1 then ok 0 else do
    let q ← c.spanCtrl p k
    let q ← c.derivativeCoefficients p k q
    let q ← c.derivativeCoefficients (p - 1) k q
    c.deBoor t (p - 2) k q

/-- Body of the triangular scheme of `insert_knot`, BSplineBase.h:169-181: state is the pair
(`Rw`, `ctrl_pts_new`). -/
def insertLoop (u : List K) (t : K) (p k r s : ℕ) (st : List V × List V) :
    Outcome (List V × List V) :=
  forUp 1 (r + 1) (fun j st => do
    let L := k - p + j
    let rw ← loop (p - j - s + 1) (fun i rw => do
      let a ← rd u (i + k + 1)
      let b ← rd u (L + i)
      let diff := a - b
      let alpha := if diff > 0 then (t - b) / diff else 0
      let x ← rd rw (i + 1)
      let y ← rd rw i
      wr rw i (alpha • x + (1 - alpha) • y)) st.1
    let a ← rd rw 0
    let q ← wr st.2 L a
    let b ← rd rw (p - j - s)
    let q ← wr q (k + r - j - s) b
    pure (rw, q)) st

/-- `s = (t == m_knots[k]) ? get_multiplicity(k) : 0`, BSplineBase.h:145 and split.h:66. -/
def multAt (c : BSpline K V) (t : K) (k : ℤ) : Outcome ℕ := do
  let a ← rdI c.knots k
  if t = a then c.multiplicity k.toNat else ok 0

/-- New knots of `insert_knot`, BSplineBase.h:152-156. -/
def insertedKnots (u : List K) (t : K) (k r : ℕ) : Outcome (List K) := do
  let M := u.length
  Outcome.assert (k + 2 ≤ M)
  let w := List.replicate (M + r) (0 : K)
  let a ← seg u 0 (k + 1)
  let w ← wrSeg w 0 a
  let w ← wrSeg w (k + 1) (List.replicate r t)
  let a ← seg u (k + 1) (M - 2 - k)
  let w ← wrSeg w (k + 1 + r) a
  let a ← rd u (M - 1)
  wr w (M - 1 + r) a

/-- New control points of `insert_knot`, BSplineBase.h:158-185. -/
def insertedCtrl (u : List K) (ctrl : List V) (t : K) (p k r s : ℕ) : Outcome (List V) := do
  let N := ctrl.length
  let q := List.replicate (N + r) (0 : V)
  let a ← seg ctrl 0 (k - p + 1)
  let q ← wrSeg q 0 a
  Outcome.assert (N + s ≥ k)
  Outcome.assert (s ≤ k)
  let a ← seg ctrl (k - s) (N + s - k)
  let q ← wrSeg q (k + r - s) a
  let rw ← seg ctrl (k - p) (p - s + 1)
  let st ← insertLoop u t p k r s (rw, q)
  forUp (k - p + r) (k - s) (fun i q => do
    let a ← rd st.1 (i - (k - p + r))
    wr q i a) st.2

/-- `insert_knot`, BSplineBase.h:137-189; `eps` is the machine epsilon of `in_domain`. -/
def insertKnot (eps : K) (c : BSpline K V) (t : K) (r : ℕ) : Outcome (BSpline K V) := do
  Outcome.assert (r ≥ 1)
  let dom ← c.inDomain eps t
  Outcome.assert (dom = true)
  c.validate
  let p := c.degree.toNat
  let k ← c.locateSpan t
  let s ← c.multAt t k
  Outcome.assert (k ≥ p)
  Outcome.assert (r + s ≤ p)
  let w ← insertedKnots c.knots t k.toNat r
  let q ← insertedCtrl c.knots c.ctrl t p k.toNat r s
  pure { c with ctrl := q, knots := w }

/-! ### Free functions -/

/-- Control points of the hodograph, hodograph.h:54-66. -/
def hodographCtrl (c : BSpline K V) : Outcome (List V) :=
  loop (c.ctrl.length - 1) (fun i q => do
    let a ← rdI c.knots (i + c.degree + 1)
    let b ← rd c.knots (i + 1)
    let diff := a - b
    if diff > 0 then do
      let x ← rd c.ctrl (i + 1)
      let y ← rd c.ctrl i
      wr q i (diff⁻¹ • ((c.degree : K) • (x - y)))
    else wr q i 0) (List.replicate (c.ctrl.length - 1) (0 : V))

/-- `if (curve.get_periodic()) hodograph.set_periodic(curve.is_closed(1))`, hodograph.h:68-70;
`eps` is the default tolerance of `is_closed`. -/
def hodographPeriodic (nrm : V → K) (eps : K) (c : BSpline K V) : Outcome Bool :=
  if c.periodic then do
    let a ← c.lower
    let b ← c.upper
    isClosed nrm (evaluate c) (evaluateDerivative c) (evaluate2ndDerivative c) a b 1 eps
  else ok false

/-- `compute_hodograph(BSpline)`, hodograph.h:37-74. The result type has static degree
`degree - 1` (or the same when `≤ 0`). -/
def hodograph (nrm : V → K) (eps : K) (c : BSpline K V) : Outcome (BSpline K V) :=
  let N := c.ctrl.length
  let sdeg := c.sdeg.map (fun d => d - 1)
  if c.degree = 0 then
    ok { ctrl := List.replicate N 0, knots := c.knots, sdeg := sdeg }
  else do
    Outcome.assert (c.knots.length ≥ 2)
    let w ← seg c.knots 1 (c.knots.length - 2)
    Outcome.assert (N ≥ 1)
    let q ← c.hodographCtrl
    let per ← c.hodographPeriodic nrm eps
    pure { ctrl := q, knots := w, periodic := per, sdeg := sdeg }

/-- Second part of `split(BSpline, t)`, split.h:75-101: cut at a knot of multiplicity at least
the degree `d`. -/
def splitPieces (c : BSpline K V) (t : K) (d : ℕ) : Outcome (List (BSpline K V)) := do
  let N := c.ctrl.length
  let M := c.knots.length
  let k' ← c.locateSpan t
  Outcome.assert (k' ≥ d)
  let k := k'.toNat
  let q1 ← seg c.ctrl 0 (k - d + 1)
  let q2 ← seg c.ctrl (k - d) (N - (k - d))
  let w1 ← seg c.knots 0 (k + 1)
  let last ← rd w1 k
  let w2 ← seg c.knots (k - d + 1) (M - 1 - k + d)
  let first ← rd w2 0
  pure [{ ctrl := q1, knots := w1 ++ [last], sdeg := c.sdeg },
        { ctrl := q2, knots := first :: w2, sdeg := c.sdeg }]

/-- Insertion of the missing copies of `t`, split.h:70-72 and BSpline.h:348-356, 363-365. -/
def raise (eps : K) (c : BSpline K V) (t : K) (d s : ℕ) : Outcome (BSpline K V) :=
  if d > s then c.insertKnot eps t (d - s) else ok c

/-- Free `split(BSpline, t)`, split.h:49-102. -/
def split (eps : K) (c : BSpline K V) (t : K) : Outcome (List (BSpline K V)) := do
  let dom ← c.inDomain eps t
  throwIf (¬ dom = true) .invalidSetting
  let lo ← c.lower
  let hi ← c.upper
  if t = lo then ok [c]
  else if t = hi then ok [c]
  else do
    let d := c.degree.toNat
    let k ← c.locateSpan t
    let s ← c.multAt t k
    let c ← c.raise eps t d s
    c.splitPieces t d

/-- Loop of `convert_to_Bezier` raising the multiplicity of interior knots, BSpline.h:358-367. -/
def bezierKnots (eps tMin tMax : K) (d : ℕ) : List K → BSpline K V → Outcome (BSpline K V)
  | [], c => ok c
  | x :: xs, c =>
    if x ≤ tMin then bezierKnots eps tMin tMax d xs c
    else if x ≥ tMax then ok c
    else do
      let k ← c.locateSpan x
      let s ← c.multiplicity k.toNat
      let c ← c.raise eps x d s
      bezierKnots eps tMin tMax d xs c

/-- Extraction loop of `convert_to_Bezier`, BSpline.h:379-389: `i` is the index of the head of
the remaining knots. -/
def bezierPieces (tMax : K) (d : ℕ) (ctrl : List V) : List K → ℕ → K → List (Bezier V) → List K →
    Outcome (List (Bezier V) × List K)
  | [], _, _, segs, bounds => ok (segs, bounds)
  | x :: xs, i, cur, segs, bounds =>
    if x ≤ cur then bezierPieces tMax d ctrl xs (i + 1) cur segs bounds
    else if x > tMax then ok (segs, bounds)
    else do
      Outcome.assert (i ≥ d + 1)
      let q ← seg ctrl (i - d - 1) (d + 1)
      bezierPieces tMax d ctrl xs (i + 1) x (segs ++ [{ ctrl := q }]) (bounds ++ [x])

/-- `convert_to_Bezier`, BSpline.h:329-392. -/
def toBezier (eps : K) (c : BSpline K V) : Outcome (List (Bezier V) × List K) := do
  let d := c.degree.toNat
  let tMin ← c.lower
  let tMax ← c.upper
  let kStart ← c.locateSpan tMin
  let kEnd ← c.locateSpan tMax
  let sStart ← c.multiplicity kStart.toNat
  let sEnd ← c.multiplicity (kEnd + 1).toNat
  let c1 ← c.raise eps tMin d sStart
  let c2 ← c1.raise eps tMax d sEnd
  let c3 ← bezierKnots eps tMin tMax d c.knots c2
  bezierPieces tMax d c3.ctrl c3.knots 0 tMin [] [tMin]

variable (K) in
/-- `convert_to_BSpline(Bezier)`, conversion.h:24-38 (the periodic flag is not copied). -/
def ofBezier (c : Bezier V) : BSpline K V :=
  { ctrl := c.ctrl
    knots := List.replicate c.ctrl.length 0 ++ List.replicate c.ctrl.length 1 }

end BSpline

end NS
