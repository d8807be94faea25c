import Verif.Basic.Grid
import Verif.Model.BSpline
import Verif.Model.PatchBase

/-!
# Model of `BSplinePatch.h`

A negative number of control points (fewer than `degree + 1` knots) reaches an Eigen allocation of
negative size in every function below and is modelled as `ub`.
-/

namespace NS

open Outcome

/-- Data members of `BSplinePatch` (PatchBase.h:443-448, BSplinePatch.h:791-795) and the template
arguments `_degree_u`, `_degree_v`. `isoU`, `isoV` are `m_iso_curves_u`, `m_iso_curves_v`. -/
structure BSplinePatch (K V : Type) where
  grid : List V
  knotsU : List K
  knotsV : List K
  degU : ℤ
  degV : ℤ
  perU : Bool := false
  perV : Bool := false
  sU : ℤ := -1
  sV : ℤ := -1
  isoU : List (BSpline K V) := []
  isoV : List (BSpline K V) := []
  deriving DecidableEq, Repr

namespace BSplinePatch

variable {K V : Type} [Field K] [LinearOrder K] [IsStrictOrderedRing K] [FloorRing K]
  [AddCommGroup V] [Module K V]

/-- Degree argument of the iso-curve classes, BSplinePatch.h:26-27. -/
def staticDeg (s : ℤ) : Option ℕ := if s < 0 then none else some s.toNat

/-- `get_degree_u`, PatchBase.h:74-78. -/
def degreeU (p : BSplinePatch K V) : Outcome ℕ := do
  Outcome.assert (p.degU ≥ 0)
  pure p.degU.toNat

/-- `get_degree_v`, PatchBase.h:80-84. -/
def degreeV (p : BSplinePatch K V) : Outcome ℕ := do
  Outcome.assert (p.degV ≥ 0)
  pure p.degV.toNat

/-- `num_control_points_u`, BSplinePatch.h:320-325. -/
def numU (p : BSplinePatch K V) : Outcome ℕ := do
  let d ← p.degreeU
  Outcome.assert (p.knotsU.length ≥ d + 1)
  pure (p.knotsU.length - d - 1)

/-- `num_control_points_v`, BSplinePatch.h:327-332. -/
def numV (p : BSplinePatch K V) : Outcome ℕ := do
  let d ← p.degreeV
  Outcome.assert (p.knotsV.length ≥ d + 1)
  pure (p.knotsV.length - d - 1)

/-- `get_linear_index`, PatchBase.h:394. -/
def linearIndex (p : BSplinePatch K V) (i j : ℕ) : Outcome ℕ := do
  let n ← p.numV
  pure (i * n + j)

/-- `get_control_point`, PatchBase.h:199-202. -/
def getControlPoint (p : BSplinePatch K V) (i j : ℕ) : Outcome V := do
  let k ← p.linearIndex i j
  rd p.grid k

/-- `set_control_point`, PatchBase.h:204-207; the cached iso-curves are left as they are. -/
def setControlPoint (p : BSplinePatch K V) (i j : ℕ) (x : V) : Outcome (BSplinePatch K V) := do
  let k ← p.linearIndex i j
  let g ← wr p.grid k x
  pure { p with grid := g }

/-- `set_knot_u`, BSplinePatch.h:178. -/
def setKnotU (p : BSplinePatch K V) (i : ℕ) (x : K) : Outcome (BSplinePatch K V) := do
  let g ← wr p.knotsU i x
  pure { p with knotsU := g }

/-- `set_knot_v`, BSplinePatch.h:181. -/
def setKnotV (p : BSplinePatch K V) (i : ℕ) (x : K) : Outcome (BSplinePatch K V) := do
  let g ← wr p.knotsV i x
  pure { p with knotsV := g }

/-- `compute_all_iso_curves_u`, BSplinePatch.h:341-363: the new `m_iso_curves_u`. -/
def allIsoU (p : BSplinePatch K V) : Outcome (List (BSpline K V)) := do
  let m ← p.numU
  let n ← p.numV
  tab n (fun vj => do
    let c ← tab m (fun ui => p.getControlPoint ui vj)
    pure (BSpline.mk c p.knotsU p.perU (staticDeg p.sU)))

/-- `compute_all_iso_curves_v`, BSplinePatch.h:371-393: the new `m_iso_curves_v`. -/
def allIsoV (p : BSplinePatch K V) : Outcome (List (BSpline K V)) := do
  let m ← p.numU
  let n ← p.numV
  tab m (fun ui => do
    let c ← tab n (fun vj => p.getControlPoint ui vj)
    pure (BSpline.mk c p.knotsV p.perV (staticDeg p.sV)))

/-- `initialize`, BSplinePatch.h:104-120 (the first test is behind the assertions of
`get_degree_u`, `get_degree_v`). -/
def init (p : BSplinePatch K V) : Outcome (BSplinePatch K V) := do
  let du ← p.degreeU
  let dv ← p.degreeV
  throwIf ((p.grid.length : ℤ) ≠
    ((p.knotsU.length : ℤ) - du - 1) * ((p.knotsV.length : ℤ) - dv - 1)) .invalidSetting
  let iu ← p.allIsoU
  let iv ← p.allIsoV
  pure { p with isoU := iu, isoV := iv }

/-- `get_u_lower_bound`, BSplinePatch.h:122-126. -/
def lowerU (p : BSplinePatch K V) : Outcome K := do
  let d ← p.degreeU
  rd p.knotsU d

/-- `get_v_lower_bound`, BSplinePatch.h:128-132. -/
def lowerV (p : BSplinePatch K V) : Outcome K := do
  let d ← p.degreeV
  rd p.knotsV d

/-- `get_u_upper_bound`, BSplinePatch.h:134-139. -/
def upperU (p : BSplinePatch K V) : Outcome K := do
  let d ← p.degreeU
  rdI p.knotsU ((p.knotsU.length : ℤ) - d - 1)

/-- `get_v_upper_bound`, BSplinePatch.h:141-146. -/
def upperV (p : BSplinePatch K V) : Outcome K := do
  let d ← p.degreeV
  rdI p.knotsV ((p.knotsV.length : ℤ) - d - 1)

/-- `compute_iso_curve_u`, BSplinePatch.h:212-229. -/
def isoCurveU (p : BSplinePatch K V) (v : K) : Outcome (BSpline K V) := do
  let m ← p.numU
  let c ← tab m (fun i => do
    let iso ← rd p.isoV i
    iso.evaluate v)
  pure (BSpline.mk c p.knotsU p.perU (staticDeg p.sU))

/-- `compute_iso_curve_v`, BSplinePatch.h:231-247. -/
def isoCurveV (p : BSplinePatch K V) (u : K) : Outcome (BSpline K V) := do
  let n ← p.numV
  let c ← tab n (fun j => do
    let iso ← rd p.isoU j
    iso.evaluate u)
  pure (BSpline.mk c p.knotsV p.perV (staticDeg p.sV))

/-- `evaluate`, BSplinePatch.h:63-72. -/
def evaluate (p : BSplinePatch K V) (u v : K) : Outcome V :=
  if p.degV > p.degU then do
    let c ← p.isoCurveV u
    c.evaluate v
  else do
    let c ← p.isoCurveU v
    c.evaluate u

/-- `evaluate_derivative_u`, BSplinePatch.h:74-78. -/
def derivU (p : BSplinePatch K V) (u v : K) : Outcome V := do
  let c ← p.isoCurveU v
  c.evaluateDerivative u

/-- `evaluate_derivative_v`, BSplinePatch.h:80-84. -/
def derivV (p : BSplinePatch K V) (u v : K) : Outcome V := do
  let c ← p.isoCurveV u
  c.evaluateDerivative v

/-- `evaluate_2nd_derivative_uu`, BSplinePatch.h:86-90. -/
def derivUU (p : BSplinePatch K V) (u v : K) : Outcome V := do
  let c ← p.isoCurveU v
  c.evaluate2ndDerivative u

/-- `evaluate_2nd_derivative_vv`, BSplinePatch.h:92-96. -/
def derivVV (p : BSplinePatch K V) (u v : K) : Outcome V := do
  let c ← p.isoCurveV u
  c.evaluate2ndDerivative v

variable (K V) in
/-- `BSplinePatch<_Scalar, _dim, -1, -1>::ZeroPatch`, BSplinePatch.h:30-50. -/
def zeroPatch : Outcome (BSplinePatch K V) :=
  init { grid := [0], knotsU := [0, 1], knotsV := [0, 1], degU := 0, degV := 0 }

/-- Quotient of a point by a scalar (BSplinePatch.h:264-266, 297-299). In C++ a zero divisor gives
a point of infinities or NaNs, which `V` lacks; an arbitrary point `bad` stands for it. -/
def divPt (bad x : V) (d : K) : V := if d = 0 then bad else d⁻¹ • x

/-- `compute_du_patch`, BSplinePatch.h:249-280. -/
def duPatch (bad : V) (p : BSplinePatch K V) : Outcome (BSplinePatch K V) := do
  let du ← p.degreeU
  let dv ← p.degreeV
  if du = 0 then zeroPatch K V
  else do
    let m ← p.numU
    let n ← p.numV
    Outcome.assert (m ≥ 1)
    let g ← fill (m - 1) n (fun i j => i * n + j) (fun i j => do
      let a ← p.getControlPoint (i + 1) j
      let b ← p.getControlPoint i j
      let x ← rd p.knotsU (i + du + 1)
      let y ← rd p.knotsU (i + 1)
      pure (divPt bad ((du : K) • (a - b)) (x - y))) (List.replicate ((m - 1) * n) 0)
    let w ← seg p.knotsU 1 (p.knotsU.length - 2)
    init { grid := g, knotsU := w, knotsV := p.knotsV, degU := (du : ℤ) - 1, degV := dv,
           perU := p.perU, perV := p.perV }

/-- `compute_dv_patch`, BSplinePatch.h:282-313. -/
def dvPatch (bad : V) (p : BSplinePatch K V) : Outcome (BSplinePatch K V) := do
  let du ← p.degreeU
  let dv ← p.degreeV
  if dv = 0 then zeroPatch K V
  else do
    let m ← p.numU
    let n ← p.numV
    Outcome.assert (n ≥ 1)
    let g ← fill m (n - 1) (fun i j => i * (n - 1) + j) (fun i j => do
      let a ← p.getControlPoint i (j + 1)
      let b ← p.getControlPoint i j
      let x ← rd p.knotsV (j + dv + 1)
      let y ← rd p.knotsV (j + 1)
      pure (divPt bad ((dv : K) • (a - b)) (x - y))) (List.replicate (m * (n - 1)) 0)
    let w ← seg p.knotsV 1 (p.knotsV.length - 2)
    init { grid := g, knotsU := p.knotsU, knotsV := w, degU := du, degV := (dv : ℤ) - 1,
           perU := p.perU, perV := p.perV }

/-- `compute_duv_patch`, BSplinePatch.h:315-318. -/
def duvPatch (bad : V) (p : BSplinePatch K V) : Outcome (BSplinePatch K V) := do
  let q ← p.duPatch bad
  q.dvPatch bad

/-- `evaluate_2nd_derivative_uv`, BSplinePatch.h:98-102. -/
def derivUV (bad : V) (p : BSplinePatch K V) (u v : K) : Outcome V := do
  let q ← p.duvPatch bad
  q.evaluate u v

/-- `in_domain_u` / `in_domain_v`, PatchBase.h:42-56. -/
def inDomain (eps lo hi t : K) : Bool := decide (t ≥ lo - eps) && decide (t ≤ hi + eps)

/-- `is_endpoint_u` / `is_endpoint_v`, PatchBase.h:58-66. -/
def isEndpoint (lo hi t : K) : Bool := decide (t = lo) || decide (t = hi)

/-- Number of rows of part `i` of the first split curve, BSplinePatch.h:421-429. -/
def refRows (parts : List (List (BSpline K V))) (i : ℕ) : Outcome (BSpline K V) := do
  let r ← rd parts 0
  rd r i

/-- Copy of part `ci` of every split iso-curve into its grid, BSplinePatch.h:430-444 and 497-515
(the two grids are independent, so they are filled one after the other): `idx rows i k` is the
row of point `k` of curve `i`. -/
def gather (parts : List (List (BSpline K V))) (ci n : ℕ) (idx : ℕ → ℕ → ℕ → ℕ) (rows : ℕ) :
    Outcome (List V) :=
  loop n (fun i g => do
    let ps ← rd parts i
    let c ← rd ps ci
    copyTo c.ctrl.length (idx c.ctrl.length i) c.ctrl g) (List.replicate rows 0)

/-- `_degree_u < 0 || _degree_v < 0` decides whether the degrees are set explicitly,
BSplinePatch.h:455-458 and 526-529; otherwise the constructor's template degrees stay. -/
def partDegree (p : BSplinePatch K V) (explicit template_ : ℤ) : ℤ :=
  if p.sU < 0 ∨ p.sV < 0 then explicit else template_

/-- Construction of part `ci` of `split_u`, BSplinePatch.h:447-461. -/
def partU (p : BSplinePatch K V) (parts : List (List (BSpline K V))) (n ci : ℕ) :
    Outcome (BSplinePatch K V) := do
  let ref ← refRows parts ci
  let g ← gather parts ci n (fun _ vj ui => ui * n + vj) (ref.ctrl.length * n)
  let dv ← p.degreeV
  init { grid := g, knotsU := ref.knots, knotsV := p.knotsV,
         degU := p.partDegree ref.degree p.sU, degV := p.partDegree dv p.sV,
         sU := p.sU, sV := p.sV }

/-- Construction of part `ci` of `split_v`, BSplinePatch.h:518-532. -/
def partV (p : BSplinePatch K V) (parts : List (List (BSpline K V))) (m ci : ℕ) :
    Outcome (BSplinePatch K V) := do
  let ref ← refRows parts ci
  let g ← gather parts ci m (fun w ui vj => ui * w + vj) (ref.ctrl.length * m)
  let du ← p.degreeU
  init { grid := g, knotsU := p.knotsU, knotsV := ref.knots,
         degU := p.partDegree du p.sU, degV := p.partDegree ref.degree p.sV,
         sU := p.sU, sV := p.sV }

/-- `split_u`, BSplinePatch.h:397-463. Line 400 builds the exception object without throwing it, so
the domain test has no effect. -/
def splitU (eps : K) (p : BSplinePatch K V) (u : K) : Outcome (List (BSplinePatch K V)) := do
  let lo ← p.lowerU
  let hi ← p.upperU
  if isEndpoint lo hi u then pure [p]
  else do
    let n ← p.numV
    let parts ← tab n (fun vj => do
      let iso ← rd p.isoU vj
      iso.split eps u)
    let a ← p.partU parts n 0
    let b ← p.partU parts n 1
    pure [a, b]

/-- `split_v`, BSplinePatch.h:465-534. -/
def splitV (eps : K) (p : BSplinePatch K V) (v : K) : Outcome (List (BSplinePatch K V)) := do
  let lo ← p.lowerV
  let hi ← p.upperV
  throwIf (¬ inDomain eps lo hi v = true) .invalidSetting
  if isEndpoint lo hi v then pure [p]
  else do
    let m ← p.numU
    let parts ← tab m (fun ui => do
      let iso ← rd p.isoV ui
      iso.split eps v)
    let a ← p.partV parts m 0
    let b ← p.partV parts m 1
    pure [a, b]

/-- `split`, BSplinePatch.h:536-581. -/
def split (eps : K) (p : BSplinePatch K V) (u v : K) : Outcome (List (BSplinePatch K V)) := do
  let ul ← p.lowerU
  let uh ← p.upperU
  let vl ← p.lowerV
  let vh ← p.upperV
  throwIf (¬ (inDomain eps ul uh u && inDomain eps vl vh v) = true) .invalidSetting
  if isEndpoint ul uh u && isEndpoint vl vh v then pure [p]
  else if isEndpoint ul uh u then p.splitV eps v
  else if isEndpoint vl vh v then p.splitU eps u
  else do
    let ps ← p.splitU eps u
    let l ← rd ps 0
    let r ← rd ps 1
    let pl ← l.splitV eps v
    let pr ← r.splitV eps v
    let a ← rd pl 0
    let b ← rd pl 1
    let c ← rd pr 0
    let d ← rd pr 1
    pure [a, b, c, d]

/-- `is_endpoint_u(u) ? *this : split_u(u)[i]`, BSplinePatch.h:601, 605-606, 610-612, 615-616. -/
def cut (f : K → Outcome (List (BSplinePatch K V))) (isEnd : Bool) (u : K) (i : ℕ)
    (p : BSplinePatch K V) : Outcome (BSplinePatch K V) :=
  if isEnd then pure p
  else do
    let ps ← f u
    rd ps i

/-- `subpatch`, BSplinePatch.h:583-619. -/
def subpatch (eps : K) (p : BSplinePatch K V) (uMin uMax vMin vMax : K) :
    Outcome (BSplinePatch K V) := do
  let ul ← p.lowerU
  let uh ← p.upperU
  let vl ← p.lowerV
  let vh ← p.upperV
  throwIf (uMin > uMax) .invalidSetting
  throwIf (¬ inDomain eps ul uh uMin = true ∨ ¬ inDomain eps ul uh uMax = true) .invalidSetting
  throwIf (vMin > vMax) .invalidSetting
  throwIf (¬ inDomain eps vl vh vMin = true ∨ ¬ inDomain eps vl vh vMax = true) .invalidSetting
  let p1 ← cut (p.splitU eps) (isEndpoint ul uh uMin) uMin 1 p
  let p2 ← cut (p1.splitU eps) (isEndpoint ul uh uMax) uMax 0 p1
  let p3 ← cut (p2.splitV eps) (isEndpoint vl vh vMin) vMin 1 p2
  cut (p3.splitV eps) (isEndpoint vl vh vMax) vMax 0 p3

/-- `find_closest_control_point`, PatchBase.h:373-390. -/
def findClosest (big : K) (sq : V → K) (p : BSplinePatch K V) (x : V) : Outcome (ℕ × ℕ) := do
  let m ← p.numU
  let n ← p.numV
  PatchBase.findClosest big sq m n p.getControlPoint x

/-- One coordinate of `get_control_point_preimage`, BSplinePatch.h:153-156 and 157-160: the mean
of `d` knots. In C++ degree 0 gives `0/0`; modelled as `ub`. -/
def greville (u : List K) (d i : ℕ) : Outcome K := do
  let s ← loop d (fun k s => do
    let x ← rd u (1 + i + k)
    pure (s + x)) (0 : K)
  Outcome.assert (d ≠ 0)
  pure (s / d)

/-- `get_control_point_preimage`, BSplinePatch.h:148-162. -/
def preimage (p : BSplinePatch K V) (i j : ℕ) : Outcome (K × K) := do
  let du ← p.degreeU
  let a ← greville p.knotsU du i
  let dv ← p.degreeV
  let b ← greville p.knotsV dv j
  pure (a, b)

end BSplinePatch

end NS
