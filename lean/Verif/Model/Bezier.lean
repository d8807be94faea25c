import Verif.Model.Curve

/-!
# Model of `Bezier.h` and `BezierBase.h`

A curve object holds its control points (rows of an Eigen matrix) and the periodic
flag.  Uninitialised Eigen storage is modelled by zero entries.
-/

namespace NS

open Outcome

/-- Data members of `Bezier` (BezierBase.h:119 `m_control_points`, CurveBase.h:216
`m_periodic`). -/
structure Bezier (V : Type) where
  ctrl : List V
  periodic : Bool := false
  deriving DecidableEq, Repr

namespace Bezier

variable {K V : Type} [Field K] [LinearOrder K] [IsStrictOrderedRing K] [FloorRing K]
  [AddCommGroup V] [Module K V]

/-- `get_degree` of the generic class, BezierBase.h:109-112 (an `int`, `-1` without control
points). -/
def degree (c : Bezier V) : ℤ := (c.ctrl.length : ℤ) - 1

/-- `in_domain`, BezierBase.h:29-35; `eps` is the machine epsilon. -/
def inDomain (eps t : K) : Bool := decide (t ≥ 0 - eps) && decide (t ≤ 1 + eps)

/-- The parameter actually used by the evaluators: Bezier.h:45-47, 69-71, 90-92. -/
def wrap (periodic : Bool) (t : K) : Outcome K :=
  if periodic then unwrapParameter 0 1 t else ok t

/-- `blossom`, Bezier.h:389-408: in-place triangular scheme. -/
def blossom (bv : List K) (degree : ℕ) (c : List V) : Outcome (List V) :=
  forUp 1 (degree + 1) (fun recStep c =>
    forDown degree recStep (fun j c => do
      let t ← rd bv (recStep - 1)
      let a ← rd c j
      let b ← rd c (j - 1)
      wr c j (t • a + (1 - t) • b)) c) c

/-- `deBoor`, Bezier.h:410-424; `bvSize` is `Base::get_degree()`, the size of the blossom
vector. -/
def deBoor (bvSize : ℕ) (t : K) (degree : ℤ) (c : List V) : Outcome V := do
  let c ← if degree > 0 then blossom (List.replicate bvSize t) degree.toNat c else ok c
  rdI c degree

/-- `evaluate`, Bezier.h:43-51. -/
def evaluate (c : Bezier V) (t : K) : Outcome V := do
  let t ← wrap c.periodic t
  deBoor c.degree.toNat t c.degree c.ctrl

variable (K) in
/-- `get_derivative_coefficients`, Bezier.h:58-65 (in place). -/
def derivativeCoefficients (curveDegree : ℕ) (c : List V) : Outcome (List V) :=
  loop curveDegree (fun i c => do
    let a ← rd c (i + 1)
    let b ← rd c i
    wr c i ((curveDegree : K) • (a - b))) c

/-- `evaluate_derivative`, Bezier.h:67-86. -/
def evaluateDerivative (c : Bezier V) (t : K) : Outcome V := do
  let t ← wrap c.periodic t
  Outcome.assert (c.degree ≥ 0)
  if c.degree = 0 then ok 0 else do
    let d ← derivativeCoefficients K c.degree.toNat c.ctrl
    deBoor c.degree.toNat t (c.degree - 1) d

/-- `evaluate_2nd_derivative`, Bezier.h:88-109. -/
def evaluate2ndDerivative (c : Bezier V) (t : K) : Outcome V := do
  let t ← wrap c.periodic t
  Outcome.assert (c.degree ≥ 0)
  if c.degree ≤ 1 then ok 0 else do
    let d ← derivativeCoefficients K c.degree.toNat c.ctrl
    let d ← derivativeCoefficients K (c.degree - 1).toNat d
    deBoor c.degree.toNat t (c.degree - 2) d

/-- The two control arrays computed by the loop of `split`, Bezier.h:233-245; the same loop
text is used by the fixed-degree classes (Bezier.h:558-570, 750-762, 976-988). State: working
copy, first half, second half. -/
def splitLoop (t : K) (ctrl : List V) : Outcome (List V × List V × List V) :=
  let n := ctrl.length
  loop n (fun i s => do
    let (c, c1, c2) := s
    let a ← rd c 0
    let c1 ← wr c1 i a
    let b ← rd c (n - 1 - i)
    let c2 ← wr c2 (n - 1 - i) b
    let c ← loop (n - 1 - i) (fun j c => do
      let a ← rd c j
      let b ← rd c (j + 1)
      wr c j ((1 - t) • a + t • b)) c
    pure (c, c1, c2)) (ctrl, List.replicate n 0, List.replicate n 0)

/-- Member `split`, Bezier.h:227-251 (also 553-577, 745-769, 971-995). -/
def split (c : Bezier V) (t : K) : Outcome (List (Bezier V)) :=
  if isSplitPointValid 0 1 t then do
    let (_, c1, c2) ← splitLoop t c.ctrl
    pure [{ ctrl := c1 }, { ctrl := c2 }]
  else ok [c]

/-- `subcurve` of the generic class, Bezier.h:267-304. -/
def subcurve (c : Bezier V) (t0 t1 : K) : Outcome (Bezier V) := do
  throwIf (t0 > t1) .invalidSetting
  throwIf (t0 < 0 ∨ t0 > 1 ∨ t1 < 0 ∨ t1 > 1) .invalidSetting
  let n := c.ctrl.length
  let q ← loop n (fun i q => do
    let bv := arr (n - 1) (fun j => if j < i then t0 else t1)
    let cp ← blossom bv (n - 1) c.ctrl
    let p ← rd cp (n - 1)
    wr q (n - 1 - i) p) (List.replicate n 0)
  pure { ctrl := q }

/-- `_split`, Bezier.h:253-262. -/
def split' (c : Bezier V) (t : K) : Outcome (List (Bezier V)) := do
  Outcome.assert (t ≥ 0)
  Outcome.assert (t ≤ 1)
  let a ← subcurve c 0 t
  let b ← subcurve c t 1
  pure [a, b]

variable (K) in
/-- `elevate_degree`, Bezier.h:309-329. -/
def elevateDegree (c : Bezier V) : Outcome (Bezier V) := do
  let n := c.ctrl.length
  let q := List.replicate (n + 1) (0 : V)
  let a ← rd c.ctrl 0
  let q ← wr q 0 a
  let q ← forUp 1 n (fun i q => do
    let alpha : K := (i : K) / (n : K)
    let a ← rd c.ctrl i
    let b ← rd c.ctrl (i - 1)
    wr q i ((1 - alpha) • a + alpha • b)) q
  let b ← rdI c.ctrl ((n : ℤ) - 1)
  let q ← wr q n b
  pure { ctrl := q, periodic := c.periodic }

/-! ### Fixed-degree classes -/

/-- Degree 0 `evaluate`, Bezier.h:444. -/
def evaluate0 (c : Bezier V) (_t : K) : Outcome V := rd c.ctrl 0
/-- Degree 0 `evaluate_derivative`, Bezier.h:448. -/
def evaluateDerivative0 (_c : Bezier V) (_t : K) : Outcome V := ok 0
/-- Degree 0 `evaluate_2nd_derivative`, Bezier.h:450. -/
def evaluate2ndDerivative0 (_c : Bezier V) (_t : K) : Outcome V := ok 0
/-- Degree 0 `elevate_degree`, Bezier.h:471-481. -/
def elevateDegree0 (c : Bezier V) : Outcome (Bezier V) := do
  let a ← rd c.ctrl 0
  pure { ctrl := [a, a], periodic := c.periodic }

/-- Degree 1 `evaluate`, Bezier.h:502-505. -/
def evaluate1 (c : Bezier V) (t : K) : Outcome V := do
  let p0 ← rd c.ctrl 0
  let p1 ← rd c.ctrl 1
  pure ((1 - t) • p0 + t • p1)
/-- Degree 1 `evaluate_derivative`, Bezier.h:514-517. -/
def evaluateDerivative1 (c : Bezier V) (_t : K) : Outcome V := do
  let p0 ← rd c.ctrl 0
  let p1 ← rd c.ctrl 1
  pure (p1 - p0)
/-- Degree 1 `evaluate_2nd_derivative`, Bezier.h:519. -/
def evaluate2ndDerivative1 (_c : Bezier V) (_t : K) : Outcome V := ok 0
variable (K) in
/-- Degree 1 `elevate_degree`, Bezier.h:540-551. -/
def elevateDegree1 (c : Bezier V) : Outcome (Bezier V) := do
  let p0 ← rd c.ctrl 0
  let p1 ← rd c.ctrl 1
  pure { ctrl := [p0, (1 / 2 : K) • (p0 + p1), p1], periodic := c.periodic }

/-- Degree 2 `evaluate`, Bezier.h:598-608. -/
def evaluate2 (c : Bezier V) (t : K) : Outcome V := do
  let t ← wrap c.periodic t
  let c0 ← rd c.ctrl 0
  let c1 ← rd c.ctrl 1
  let c2 ← rd c.ctrl 2
  let p0 := (1 - t) • c0 + t • c1
  let p1 := (1 - t) • c1 + t • c2
  pure ((1 - t) • p0 + t • p1)
/-- Degree 2 `evaluate_derivative`, Bezier.h:615-625. -/
def evaluateDerivative2 (c : Bezier V) (t : K) : Outcome V := do
  let t ← wrap c.periodic t
  let c0 ← rd c.ctrl 0
  let c1 ← rd c.ctrl 1
  let c2 ← rd c.ctrl 2
  let p0 := (1 - t) • c0 + t • c1
  let p1 := (1 - t) • c1 + t • c2
  pure ((2 : K) • (p1 - p0))
/-- Degree 2 `evaluate_2nd_derivative`, Bezier.h:627-634. -/
def evaluate2ndDerivative2 (c : Bezier V) (t : K) : Outcome V := do
  let _t ← wrap c.periodic t
  let c0 ← rd c.ctrl 0
  let c1 ← rd c.ctrl 1
  let c2 ← rd c.ctrl 2
  pure ((2 : K) • (c0 + c2 - (2 : K) • c1))
variable (K) in
/-- Degree 2 `elevate_degree`, Bezier.h:729-743. -/
def elevateDegree2 (c : Bezier V) : Outcome (Bezier V) := do
  let c0 ← rd c.ctrl 0
  let c1 ← rd c.ctrl 1
  let c2 ← rd c.ctrl 2
  pure { ctrl := [c0, (1 / 3 : K) • c0 + (2 / 3 : K) • c1, (2 / 3 : K) • c1 + (1 / 3 : K) • c2, c2],
         periodic := c.periodic }

/-- Degree 3 `evaluate`, Bezier.h:790-805. -/
def evaluate3 (c : Bezier V) (t : K) : Outcome V := do
  let t ← wrap c.periodic t
  let c0 ← rd c.ctrl 0
  let c1 ← rd c.ctrl 1
  let c2 ← rd c.ctrl 2
  let c3 ← rd c.ctrl 3
  let q0 := (1 - t) • c0 + t • c1
  let q1 := (1 - t) • c1 + t • c2
  let q2 := (1 - t) • c2 + t • c3
  let p0 := (1 - t) • q0 + t • q1
  let p1 := (1 - t) • q1 + t • q2
  pure ((1 - t) • p0 + t • p1)
/-- Degree 3 `evaluate_derivative`, Bezier.h:812-828. -/
def evaluateDerivative3 (c : Bezier V) (t : K) : Outcome V := do
  let t ← wrap c.periodic t
  let c0 ← rd c.ctrl 0
  let c1 ← rd c.ctrl 1
  let c2 ← rd c.ctrl 2
  let c3 ← rd c.ctrl 3
  let q0 := (1 - t) • c0 + t • c1
  let q1 := (1 - t) • c1 + t • c2
  let q2 := (1 - t) • c2 + t • c3
  let p0 := (1 - t) • q0 + t • q1
  let p1 := (1 - t) • q1 + t • q2
  pure ((3 : K) • (p1 - p0))
/-- Degree 3 `evaluate_2nd_derivative`, Bezier.h:830-842. -/
def evaluate2ndDerivative3 (c : Bezier V) (t : K) : Outcome V := do
  let t ← wrap c.periodic t
  let c0 ← rd c.ctrl 0
  let c1 ← rd c.ctrl 1
  let c2 ← rd c.ctrl 2
  let c3 ← rd c.ctrl 3
  let q0 := (1 - t) • c0 + t • c1
  let q1 := (1 - t) • c1 + t • c2
  let q2 := (1 - t) • c2 + t • c3
  pure ((6 : K) • (q0 + q2 - (2 : K) • q1))
variable (K) in
/-- Degree 3 `elevate_degree`, Bezier.h:1021-1036. -/
def elevateDegree3 (c : Bezier V) : Outcome (Bezier V) := do
  let c0 ← rd c.ctrl 0
  let c1 ← rd c.ctrl 1
  let c2 ← rd c.ctrl 2
  let c3 ← rd c.ctrl 3
  pure { ctrl := [c0, (1 / 4 : K) • c0 + (3 / 4 : K) • c1, (1 / 2 : K) • c1 + (1 / 2 : K) • c2,
                  (3 / 4 : K) • c2 + (1 / 4 : K) • c3, c3],
         periodic := c.periodic }
/-- Degree 3 `subcurve`, Bezier.h:1000-1019; `operator[]` of the result vector is checked. -/
def subcurve3 (c : Bezier V) (t0 t1 : K) : Outcome (Bezier V) := do
  throwIf (t0 > t1) .invalidSetting
  if t0 = 0 ∧ t1 = 1 then ok c
  else if t0 = 0 then do
    let s ← split c t1
    rd s 0
  else if t1 = 1 then do
    let s ← split c t0
    rd s 1
  else do
    let s ← split c t0
    let b ← rd s 1
    let s ← split b t1
    rd s 0

/-! ### Free functions -/

/-- Free `split(Bezier, t)`, split.h:14-30; `eps` is the machine epsilon. -/
def freeSplit (eps : K) (c : Bezier V) (t : K) : Outcome (List (Bezier V)) := do
  throwIf (¬ inDomain eps t = true) .invalidSetting
  if t = 0 then ok [c]
  else if t = 1 then ok [c]
  else do
    let r ← split c t
    let a ← rd r 0
    let b ← rd r 1
    pure [a, b]

/-- Free `compute_hodograph(Bezier)`, hodograph.h:8-35; `nrm` and `eps` are the Euclidean norm
and the default tolerance of `is_closed`. Without control points the matrix with `-1` rows is
undefined. -/
def hodograph (nrm : V → K) (eps : K) (c : Bezier V) : Outcome (Bezier V) :=
  let n := c.ctrl.length
  if n = 0 then ub
  else if n = 1 then ok { ctrl := [0] }
  else do
    let q ← loop (n - 1) (fun i q => do
      let a ← rd c.ctrl (i + 1)
      let b ← rd c.ctrl i
      wr q i (((n - 1 : ℕ) : K) • (a - b))) (List.replicate (n - 1) (0 : V))
    let per ← if c.periodic then
        isClosed nrm (evaluate c) (evaluateDerivative c) (evaluate2ndDerivative c) 0 1 1 eps
      else ok false
    pure { ctrl := q, periodic := per }

end Bezier

end NS
