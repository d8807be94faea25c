import Verif.Basic.Grid
import Verif.Model.Bezier
import Verif.Model.PatchBase

/-!
# Model of `BezierPatch.h` and of the control grid of `PatchBase.h`

The iso-curves have the class `Bezier<Scalar, dim, degree_u>`; they are modelled by the generic
class (`degree_u = -1` or above 3), see C02 for the fixed-degree classes.
-/

namespace NS

open Outcome

/-- Data members (PatchBase.h:443-448) and the template arguments `_degree_u`, `_degree_v`
(BezierPatch.h:9; `-1` for dynamic degree). -/
structure BezierPatch (V : Type) where
  grid : List V
  degU : ℤ
  degV : ℤ
  perU : Bool := false
  perV : Bool := false
  sU : ℤ := -1
  sV : ℤ := -1
  deriving DecidableEq, Repr

namespace BezierPatch

variable {K V : Type} [Field K] [LinearOrder K] [IsStrictOrderedRing K] [FloorRing K]
  [AddCommGroup V] [Module K V]

/-- Constructor, BezierPatch.h:39-43. -/
def new (V : Type) (sU sV : ℤ) : BezierPatch V :=
  { grid := [], degU := sU, degV := sV, sU := sU, sV := sV }

/-- A default-constructed patch given a control grid, BezierPatch.h:364-367 and 405-408
(`set_control_grid`, PatchBase.h:97-100). -/
def ofGrid (sU sV : ℤ) (g : List V) : BezierPatch V := { new V sU sV with grid := g }

/-- `get_degree_u`, PatchBase.h:74-78. -/
def degreeU (p : BezierPatch V) : Outcome ℕ := do
  Outcome.assert (p.degU ≥ 0)
  pure p.degU.toNat

/-- `get_degree_v`, PatchBase.h:80-84. -/
def degreeV (p : BezierPatch V) : Outcome ℕ := do
  Outcome.assert (p.degV ≥ 0)
  pure p.degV.toNat

/-- `num_control_points_u`, BezierPatch.h:267-271. -/
def numU (p : BezierPatch V) : Outcome ℕ := do
  let d ← p.degreeU
  pure (d + 1)

/-- `num_control_points_v`, BezierPatch.h:273-277. -/
def numV (p : BezierPatch V) : Outcome ℕ := do
  let d ← p.degreeV
  pure (d + 1)

/-- `get_linear_index`, PatchBase.h:394. -/
def linearIndex (p : BezierPatch V) (i j : ℕ) : Outcome ℕ := do
  let n ← p.numV
  pure (i * n + j)

/-- `get_control_point`, PatchBase.h:199-202. -/
def getControlPoint (p : BezierPatch V) (i j : ℕ) : Outcome V := do
  let k ← p.linearIndex i j
  rd p.grid k

/-- `set_control_point`, PatchBase.h:204-207. -/
def setControlPoint (p : BezierPatch V) (i j : ℕ) (x : V) : Outcome (BezierPatch V) := do
  let k ← p.linearIndex i j
  let g ← wr p.grid k x
  pure { p with grid := g }

/-- `initialize`, BezierPatch.h:90-100 (the first test is behind the assertions of
`get_degree_u`, `get_degree_v`). -/
def init (p : BezierPatch V) : Outcome Unit := do
  let m ← p.degreeU
  let n ← p.degreeV
  throwIf (p.grid.length ≠ (m + 1) * (n + 1)) .invalidSetting

/-- `get_all_iso_curves_v`, BezierPatch.h:284-302. -/
def isoCurvesV (p : BezierPatch V) : Outcome (List (Bezier V)) := do
  let m ← p.numU
  let n ← p.numV
  tab m (fun ui => do
    let c ← tab n (fun vj => p.getControlPoint ui vj)
    pure { ctrl := c, periodic := p.perV })

/-- `get_all_iso_curves_u`, BezierPatch.h:308-327. -/
def isoCurvesU (p : BezierPatch V) : Outcome (List (Bezier V)) := do
  let m ← p.numU
  let n ← p.numV
  tab n (fun vj => do
    let c ← tab m (fun ui => p.getControlPoint ui vj)
    pure { ctrl := c, periodic := p.perU })

/-- `compute_iso_curve_u`, BezierPatch.h:151-166. -/
def isoCurveU (p : BezierPatch V) (v : K) : Outcome (Bezier V) := do
  let m ← p.numU
  let isos ← p.isoCurvesV
  let c ← tab m (fun i => do
    let iso ← rd isos i
    iso.evaluate v)
  pure { ctrl := c, periodic := p.perU }

/-- `compute_iso_curve_v`, BezierPatch.h:168-182. -/
def isoCurveV (p : BezierPatch V) (u : K) : Outcome (Bezier V) := do
  let n ← p.numV
  let isos ← p.isoCurvesU
  let c ← tab n (fun i => do
    let iso ← rd isos i
    iso.evaluate u)
  pure { ctrl := c, periodic := p.perV }

/-- `evaluate`, BezierPatch.h:49-58. -/
def evaluate (p : BezierPatch V) (u v : K) : Outcome V :=
  if p.degV > p.degU then do
    let c ← p.isoCurveV u
    c.evaluate v
  else do
    let c ← p.isoCurveU v
    c.evaluate u

/-- `evaluate_derivative_u`, BezierPatch.h:60-64. -/
def derivU (p : BezierPatch V) (u v : K) : Outcome V := do
  let c ← p.isoCurveU v
  c.evaluateDerivative u

/-- `evaluate_derivative_v`, BezierPatch.h:66-70. -/
def derivV (p : BezierPatch V) (u v : K) : Outcome V := do
  let c ← p.isoCurveV u
  c.evaluateDerivative v

/-- `evaluate_2nd_derivative_uu`, BezierPatch.h:72-76. -/
def derivUU (p : BezierPatch V) (u v : K) : Outcome V := do
  let c ← p.isoCurveU v
  c.evaluate2ndDerivative u

/-- `evaluate_2nd_derivative_vv`, BezierPatch.h:78-82. -/
def derivVV (p : BezierPatch V) (u v : K) : Outcome V := do
  let c ← p.isoCurveV u
  c.evaluate2ndDerivative v

/-- `BezierPatch<_Scalar, _dim, -1, -1>::ZeroPatch`, BezierPatch.h:26-36. -/
def zeroPatch (V : Type) [Zero V] : Outcome (BezierPatch V) := do
  let p : BezierPatch V := { grid := [0], degU := 0, degV := 0 }
  p.init
  pure p

variable (K) in
/-- `compute_du_patch`, BezierPatch.h:184-209. -/
def duPatch (p : BezierPatch V) : Outcome (BezierPatch V) := do
  let m ← p.degreeU
  let n ← p.degreeV
  if m = 0 then zeroPatch V
  else do
    let g ← fill m (n + 1) (fun i j => i * (n + 1) + j) (fun i j => do
      let a ← p.getControlPoint (i + 1) j
      let b ← p.getControlPoint i j
      pure ((m : K) • (a - b))) (List.replicate (m * (n + 1)) 0)
    let q : BezierPatch V := { grid := g, degU := (m : ℤ) - 1, degV := n }
    q.init
    pure q

variable (K) in
/-- `compute_dv_patch`, BezierPatch.h:211-236. -/
def dvPatch (p : BezierPatch V) : Outcome (BezierPatch V) := do
  let m ← p.degreeU
  let n ← p.degreeV
  if n = 0 then zeroPatch V
  else do
    let g ← fill (m + 1) n (fun i j => i * n + j) (fun i j => do
      let a ← p.getControlPoint i (j + 1)
      let b ← p.getControlPoint i j
      pure ((n : K) • (a - b))) (List.replicate ((m + 1) * n) 0)
    let q : BezierPatch V := { grid := g, degU := m, degV := (n : ℤ) - 1 }
    q.init
    pure q

variable (K) in
/-- `compute_duv_patch`, BezierPatch.h:238-265. -/
def duvPatch (p : BezierPatch V) : Outcome (BezierPatch V) := do
  let m ← p.degreeU
  let n ← p.degreeV
  if m = 0 ∨ n = 0 then zeroPatch V
  else do
    let g ← fill m n (fun i j => i * n + j) (fun i j => do
      let a ← p.getControlPoint (i + 1) j
      let b ← p.getControlPoint i j
      let c ← p.getControlPoint (i + 1) (j + 1)
      let d ← p.getControlPoint i (j + 1)
      pure ((n : K) • ((m : K) • (c - d) - (m : K) • (a - b)))) (List.replicate (m * n) 0)
    let q : BezierPatch V :=
      { grid := g, degU := (m : ℤ) - 1, degV := (n : ℤ) - 1, perU := p.perU, perV := p.perV }
    q.init
    pure q

/-- `evaluate_2nd_derivative_uv`, BezierPatch.h:84-88. -/
def derivUV (p : BezierPatch V) (u v : K) : Outcome V := do
  let q ← p.duvPatch K
  q.evaluate u v

/-- `is_endpoint_u` with the bounds 0 and 1, PatchBase.h:58-66, BezierPatch.h:102-108. -/
def isEndpoint (u : K) : Bool := decide (u = 0) || decide (u = 1)

/-- One round of the loop of `split_u` / `split_v`, BezierPatch.h:347-361 and 389-403: split the
iso-curve and copy both parts; `idx` gives the rows. -/
def splitStep (eps : K) (iso : Bezier V) (u : K) (n : ℕ) (idx : ℕ → ℕ) (gs : List V × List V) :
    Outcome (List V × List V) := do
  let parts ← Bezier.freeSplit eps iso u
  let c0 ← rd parts 0
  let g0 ← copyTo n idx c0.ctrl gs.1
  let c1 ← rd parts 1
  let g1 ← copyTo n idx c1.ctrl gs.2
  pure (g0, g1)

/-- `split_u`, BezierPatch.h:331-370. The new objects keep only the template degrees. -/
def splitU (eps : K) (p : BezierPatch V) (u : K) : Outcome (List (BezierPatch V)) := do
  throwIf (¬ Bezier.inDomain eps u = true) .invalidSetting
  if isEndpoint u then pure [p]
  else do
    let isos ← p.isoCurvesU
    let m ← p.numU
    let n ← p.numV
    let z := List.replicate (m * n) (0 : V)
    let gs ← loop n (fun vj gs => do
      let iso ← rd isos vj
      splitStep eps iso u m (fun ui => ui * n + vj) gs) (z, z)
    pure [ofGrid p.sU p.sV gs.1, ofGrid p.sU p.sV gs.2]

/-- `split_v`, BezierPatch.h:373-411. -/
def splitV (eps : K) (p : BezierPatch V) (v : K) : Outcome (List (BezierPatch V)) := do
  throwIf (¬ Bezier.inDomain eps v = true) .invalidSetting
  if isEndpoint v then pure [p]
  else do
    let isos ← p.isoCurvesV
    let m ← p.numU
    let n ← p.numV
    let z := List.replicate (m * n) (0 : V)
    let gs ← loop m (fun ui gs => do
      let iso ← rd isos ui
      splitStep eps iso v n (fun vj => ui * n + vj) gs) (z, z)
    pure [ofGrid p.sU p.sV gs.1, ofGrid p.sU p.sV gs.2]

/-- `split`, BezierPatch.h:414-457. -/
def split (eps : K) (p : BezierPatch V) (u v : K) : Outcome (List (BezierPatch V)) :=
  if isEndpoint u && isEndpoint v then pure [p]
  else if isEndpoint u then p.splitV eps v
  else if isEndpoint v then p.splitU eps u
  else do
    let ps ← p.splitU eps u
    let l ← rd ps 0
    let r ← rd ps 1
    let pl ← l.splitV eps v
    let pr ← r.splitV eps v
    let a ← rd pl 0
    let b ← rd pl 1
    let c ← rd pr 0
    let d ← rd pr 1
    pure [a, b, c, d]

/-- `is_endpoint_u(u) ? *this : split_u(u)[i]`, BezierPatch.h:477, 481-482, 486-488, 491-492. -/
def cut (f : K → Outcome (List (BezierPatch V))) (u : K) (i : ℕ) (p : BezierPatch V) :
    Outcome (BezierPatch V) :=
  if isEndpoint u then pure p
  else do
    let ps ← f u
    rd ps i

/-- `subpatch`, BezierPatch.h:459-494. -/
def subpatch (eps : K) (p : BezierPatch V) (uMin uMax vMin vMax : K) :
    Outcome (BezierPatch V) := do
  throwIf (uMin > uMax) .invalidSetting
  throwIf (¬ Bezier.inDomain eps uMin = true ∨ ¬ Bezier.inDomain eps uMax = true) .invalidSetting
  throwIf (vMin > vMax) .invalidSetting
  throwIf (¬ Bezier.inDomain eps vMin = true ∨ ¬ Bezier.inDomain eps vMax = true) .invalidSetting
  let p1 ← cut (p.splitU eps) uMin 1 p
  let p2 ← cut (p1.splitU eps) uMax 0 p1
  let p3 ← cut (p2.splitV eps) vMin 1 p2
  cut (p3.splitV eps) vMax 0 p3

/-- `find_closest_control_point` of a Bézier patch, PatchBase.h:373-390. -/
def findClosest (big : K) (sq : V → K) (p : BezierPatch V) (x : V) : Outcome (ℕ × ℕ) := do
  let m ← p.numU
  let n ← p.numV
  PatchBase.findClosest big sq m n p.getControlPoint x

end BezierPatch

end NS
