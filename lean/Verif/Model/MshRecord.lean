import Verif.Model.RationalPatch

/-!
# Model of the curve and patch records of `save_msh.h` and `load_msh.h`

`mshio::Curve` and `mshio::Patch` are plain records; writing them to a file and reading them back is done by
the external library and outside the model.  Scalars are exact, the conversions to and from `double` are
the identity.  Loaded objects are three-dimensional: points are triples.
-/

namespace NS

open Outcome

/-- A point of three-dimensional space. -/
abbrev P3 (K : Type) := K × K × K

/-- `mshio::Curve`. -/
structure MshCurve (K : Type) where
  tag : ℕ
  ctype : ℕ
  degree : ℕ
  numCtrl : ℕ
  numKnots : ℕ
  withWeights : Bool
  data : List K
  deriving DecidableEq, Repr

/-- `mshio::Patch`. -/
structure MshPatch (K : Type) where
  tag : ℕ
  ptype : ℕ
  degU : ℕ
  degV : ℕ
  numCtrl : ℕ
  numU : ℕ
  numV : ℕ
  withWeights : Bool
  data : List K
  deriving DecidableEq, Repr

/-- The virtual functions of a curve that `add_curve` calls.  `ctrl i` is `get_control_point(i)`, as the
list of its coordinates. -/
structure CurveApi (K : Type) where
  dim : ℕ
  ctype : ℕ
  degree : ℤ
  numCtrl : ℕ
  numWeights : ℕ
  numKnots : ℕ
  ctrl : ℕ → Outcome (List K)
  weight : ℕ → Outcome K
  knot : ℕ → Outcome K

section
variable {K : Type} [Field K] [LinearOrder K] [IsStrictOrderedRing K] [FloorRing K]

/-- `static_cast<size_t>` of an `int`, save_msh.h:114: negative numbers wrap around. -/
def toSize (d : ℤ) : ℕ := if d < 0 then (2 ^ 64 + d).toNat else d.toNat

/-- `internal::add_curve`, save_msh.h:95-133: the record appended to `spec.curves`. -/
def addCurve (c : CurveApi K) (tag : ℕ) : Outcome (MshCurve K) := do
  throwIf (c.dim ≠ 3 ∧ c.dim ≠ 2) .notImplemented
  let rows ← tab c.numCtrl (fun i => do
    let p ← c.ctrl i
    let row := if c.dim = 2 then p ++ [0] else p
    if c.numWeights > 0 then do
      let w ← c.weight i
      pure (row ++ [w])
    else pure row)
  let ks ← tab c.numKnots c.knot
  pure ⟨tag, c.ctype, toSize c.degree, c.numCtrl, c.numKnots, decide (c.numWeights > 0),
    rows.flatten ++ ks⟩

/-- The coordinates of a three-dimensional point. -/
def xyz (p : P3 K) : List K := [p.1, p.2.1, p.2.2]

/-- The four kinds of curves that can be saved and loaded. -/
inductive AnyCurve (K V : Type) where
  | bezier (c : Bezier V)
  | rational (c : RationalBezier K V)
  | bspline (c : BSpline K V)
  | nurbs (c : NURBS K V)
  deriving DecidableEq, Repr

variable {V : Type} [AddCommGroup V] [Module K V]

/-- The accessors of the curve classes: BezierBase.h:47-68 (and Bezier.h:36), RationalBezier.h:31, 83-85,
BSplineBase.h:98-116 (and BSpline.h:52), NURBS.h:43, 97-99; `get_curve_type` by enums.h:5-13.  `co` gives
the `dim` coordinates of a point. -/
def AnyCurve.api (dim : ℕ) (co : V → List K) : AnyCurve K V → CurveApi K
  | .bezier c =>
    { dim := dim, ctype := 1, degree := c.degree, numCtrl := (c.degree + 1).toNat, numWeights := 0,
      numKnots := 0, ctrl := fun i => do { let p ← rd c.ctrl i; pure (co p) },
      weight := fun _ => .throw .notImplemented, knot := fun _ => .throw .notImplemented }
  | .rational c =>
    { dim := dim, ctype := 2, degree := c.base.degree, numCtrl := (c.base.degree + 1).toNat,
      numWeights := (c.base.degree + 1).toNat, numKnots := 0,
      ctrl := fun i => do { let p ← rd c.base.ctrl i; pure (co p) },
      weight := fun i => rd c.weights i, knot := fun _ => .throw .notImplemented }
  | .bspline c =>
    { dim := dim, ctype := 3, degree := c.degree, numCtrl := c.ctrl.length, numWeights := 0,
      numKnots := c.knots.length, ctrl := fun i => do { let p ← rd c.ctrl i; pure (co p) },
      weight := fun _ => .throw .notImplemented, knot := fun i => rd c.knots i }
  | .nurbs c =>
    { dim := dim, ctype := 4, degree := c.base.degree, numCtrl := c.base.ctrl.length,
      numWeights := c.base.ctrl.length, numKnots := c.base.knots.length,
      ctrl := fun i => do { let p ← rd c.base.ctrl i; pure (co p) },
      weight := fun i => rd c.weights i, knot := fun i => rd c.base.knots i }

/-- `extract_control_points`, load_msh.h:27-52 (the two overloads are the same). -/
def extractCtrl (withWeights : Bool) (n : ℕ) (data : List K) : Outcome (List (P3 K)) :=
  let es := if withWeights then 4 else 3
  tab n (fun i => do
    let x ← rd data (i * es)
    let y ← rd data (i * es + 1)
    let z ← rd data (i * es + 2)
    pure (x, y, z))

/-- `extract_weights`, load_msh.h:55-73 (the two overloads are the same). -/
def extractWeights (n : ℕ) (data : List K) : Outcome (List K) :=
  tab n (fun i => rd data (i * 4 + 3))

/-- `extract_knots`, `extract_knots_u`, `extract_knots_v`, load_msh.h:75-105: `k` numbers starting at
`offset`. -/
def extractKnots (offset k : ℕ) (data : List K) : Outcome (List K) :=
  tab k (fun i => rd data (offset + i))

/-- `load_Bezier_curve`, load_msh.h:108-119. -/
def loadBezier (s : MshCurve K) : Outcome (Bezier (P3 K)) := do
  Outcome.assert (s.numKnots = 0)
  Outcome.assert (¬ s.withWeights)
  Outcome.assert (s.numCtrl = s.degree + 1)
  Outcome.assert (s.data.length = s.numCtrl * 3)
  let P ← extractCtrl s.withWeights s.numCtrl s.data
  pure { ctrl := P }

/-- `load_BSpline_curve`, load_msh.h:121-133. -/
def loadBSpline (s : MshCurve K) : Outcome (BSpline K (P3 K)) := do
  Outcome.assert (¬ s.withWeights)
  Outcome.assert (s.numKnots = s.numCtrl + s.degree + 1)
  Outcome.assert (s.data.length = s.numCtrl * 3 + s.numKnots)
  let P ← extractCtrl s.withWeights s.numCtrl s.data
  let u ← extractKnots (s.numCtrl * if s.withWeights then 4 else 3) s.numKnots s.data
  pure { ctrl := P, knots := u }

/-- `load_rational_Bezier_curve`, load_msh.h:135-148. -/
def loadRational (s : MshCurve K) : Outcome (RationalBezier K (P3 K)) := do
  Outcome.assert s.withWeights
  Outcome.assert (s.numKnots = 0)
  Outcome.assert (s.data.length = s.numCtrl * 4)
  let P ← extractCtrl s.withWeights s.numCtrl s.data
  let w ← extractWeights s.numCtrl s.data
  RationalBezier.init { base := { ctrl := P }, weights := w, hom := { ctrl := [] } }

/-- `load_NURBS_curve`, load_msh.h:150-164. -/
def loadNURBS (s : MshCurve K) : Outcome (NURBS K (P3 K)) := do
  Outcome.assert s.withWeights
  Outcome.assert (s.numKnots = s.numCtrl + s.degree + 1)
  Outcome.assert (s.data.length = s.numCtrl * 4 + s.numKnots)
  let P ← extractCtrl s.withWeights s.numCtrl s.data
  let u ← extractKnots (s.numCtrl * if s.withWeights then 4 else 3) s.numKnots s.data
  let w ← extractWeights s.numCtrl s.data
  NURBS.init { base := { ctrl := P, knots := u }, weights := w, hom := { ctrl := [], knots := [] } }

/-- `load_curve`, load_msh.h:238-251. -/
def loadCurve (s : MshCurve K) : Outcome (AnyCurve K (P3 K)) :=
  if s.ctype = 1 then do { let c ← loadBezier s; pure (.bezier c) }
  else if s.ctype = 3 then do { let c ← loadBSpline s; pure (.bspline c) }
  else if s.ctype = 2 then do { let c ← loadRational s; pure (.rational c) }
  else if s.ctype = 4 then do { let c ← loadNURBS s; pure (.nurbs c) }
  else .throw .invalidSetting

/-! ## Patches -/

/-- The virtual functions of a patch that `add_patch` calls. -/
structure PatchApi (K : Type) where
  dim : ℕ
  degU : Outcome ℕ
  degV : Outcome ℕ
  numCtrlU : Outcome ℕ
  numCtrlV : Outcome ℕ
  numWeightsU : Outcome ℕ
  numWeightsV : Outcome ℕ
  numKnotsU : ℕ
  numKnotsV : ℕ
  ctrl : ℕ → ℕ → Outcome (List K)
  weight : ℕ → ℕ → Outcome K
  knotU : ℕ → Outcome K
  knotV : ℕ → Outcome K

/-- `internal::add_patch`, save_msh.h:232-288. -/
def addPatch (p : PatchApi K) (tag : ℕ) : Outcome (MshPatch K) := do
  let du ← p.degU
  let dv ← p.degV
  let m ← p.numCtrlU
  let n ← p.numCtrlV
  let wu ← p.numWeightsU
  let wv ← p.numWeightsV
  let ptype := if p.numKnotsU = 0 ∧ p.numKnotsV = 0 then (if wu = 0 ∧ wv = 0 then 1 else 2)
    else (if wu = 0 ∧ wv = 0 then 3 else 4)
  let rows ← tab m (fun i => tab n (fun j => do
    let x ← p.ctrl i j
    let row := if p.dim = 2 then x ++ [0] else x
    if wu > 0 then do
      let w ← p.weight i j
      pure (row ++ [w])
    else pure row))
  let ku ← tab p.numKnotsU p.knotU
  let kv ← tab p.numKnotsV p.knotV
  pure ⟨tag, ptype, du, dv, m * n, p.numKnotsU, p.numKnotsV, decide (wu > 0),
    rows.flatten.flatten ++ ku ++ kv⟩

/-- The four kinds of patches that can be saved and loaded. -/
inductive AnyPatch (K V : Type) where
  | bezier (p : BezierPatch V)
  | rational (p : RationalBezierPatch K V)
  | bspline (p : BSplinePatch K V)
  | nurbs (p : NURBSPatch K V)
  deriving DecidableEq, Repr

/-- The accessors of the patch classes: BezierPatch.h:119-149, RationalBezierPatch.h:39-40, 183-219,
BSplinePatch.h:165-181, NURBSPatch.h:40-42, 179-214, PatchBase.h:74-84, 199-202. -/
def AnyPatch.api (dim : ℕ) (co : V → List K) : AnyPatch K V → PatchApi K
  | .bezier p =>
    { dim := dim, degU := p.degreeU, degV := p.degreeV, numCtrlU := p.numU, numCtrlV := p.numV,
      numWeightsU := ok 0, numWeightsV := ok 0, numKnotsU := 0, numKnotsV := 0,
      ctrl := fun i j => do { let x ← p.getControlPoint i j; pure (co x) },
      weight := fun _ _ => .throw .notImplemented, knotU := fun _ => .throw .notImplemented,
      knotV := fun _ => .throw .notImplemented }
  | .rational p =>
    { dim := dim, degU := p.base.degreeU, degV := p.base.degreeV, numCtrlU := p.hom.numU,
      numCtrlV := p.hom.numV, numWeightsU := p.hom.numU, numWeightsV := p.hom.numV,
      numKnotsU := 0, numKnotsV := 0,
      ctrl := fun i j => do { let x ← p.getControlPoint i j; pure (co x) },
      weight := p.getWeight, knotU := fun _ => .throw .notImplemented,
      knotV := fun _ => .throw .notImplemented }
  | .bspline p =>
    { dim := dim, degU := p.degreeU, degV := p.degreeV, numCtrlU := p.numU, numCtrlV := p.numV,
      numWeightsU := ok 0, numWeightsV := ok 0, numKnotsU := p.knotsU.length,
      numKnotsV := p.knotsV.length,
      ctrl := fun i j => do { let x ← p.getControlPoint i j; pure (co x) },
      weight := fun _ _ => .throw .notImplemented, knotU := fun i => rd p.knotsU i,
      knotV := fun i => rd p.knotsV i }
  | .nurbs p =>
    { dim := dim, degU := NURBSPatch.degreeOf p.degU, degV := NURBSPatch.degreeOf p.degV,
      numCtrlU := p.hom.numU, numCtrlV := p.hom.numV, numWeightsU := p.hom.numU,
      numWeightsV := p.hom.numV, numKnotsU := p.knotsU.length, numKnotsV := p.knotsV.length,
      ctrl := fun i j => do { let x ← p.getControlPoint i j; pure (co x) },
      weight := p.getWeight, knotU := fun i => rd p.knotsU i, knotV := fun i => rd p.knotsV i }

/-- `load_Bezier_patch`, load_msh.h:166-181. -/
def loadBezierPatch (s : MshPatch K) : Outcome (BezierPatch (P3 K)) := do
  Outcome.assert (s.numCtrl = (s.degU + 1) * (s.degV + 1))
  Outcome.assert (s.numU = 0)
  Outcome.assert (s.numV = 0)
  Outcome.assert (¬ s.withWeights)
  let g ← extractCtrl s.withWeights s.numCtrl s.data
  let p : BezierPatch (P3 K) := { BezierPatch.ofGrid (-1) (-1) g with degU := s.degU, degV := s.degV }
  p.init
  pure p

/-- `load_rational_Bezier_patch`, load_msh.h:183-199. -/
def loadRationalPatch (s : MshPatch K) : Outcome (RationalBezierPatch K (P3 K)) := do
  Outcome.assert (s.numCtrl = (s.degU + 1) * (s.degV + 1))
  Outcome.assert (s.numU = 0)
  Outcome.assert (s.numV = 0)
  Outcome.assert s.withWeights
  let g ← extractCtrl s.withWeights s.numCtrl s.data
  let w ← extractWeights s.numCtrl s.data
  RationalBezierPatch.init
    { base := { BezierPatch.ofGrid (-1) (-1) g with degU := s.degU, degV := s.degV }, weights := w,
      hom := BezierPatch.new (P3 K × K) (-1) (-1) }

/-- `load_BSpline_patch`, load_msh.h:201-217; the assertion is on unsigned numbers, a negative difference
is undefined here. -/
def loadBSplinePatch (s : MshPatch K) : Outcome (BSplinePatch K (P3 K)) := do
  Outcome.assert (s.degU + 1 ≤ s.numU ∧ s.degV + 1 ≤ s.numV)
  Outcome.assert (s.numCtrl = (s.numU - s.degU - 1) * (s.numV - s.degV - 1))
  Outcome.assert (¬ s.withWeights)
  let g ← extractCtrl s.withWeights s.numCtrl s.data
  let es := if s.withWeights then 4 else 3
  let ku ← extractKnots (s.numCtrl * es) s.numU s.data
  let kv ← extractKnots (s.numCtrl * es + s.numU) s.numV s.data
  BSplinePatch.init { grid := g, knotsU := ku, knotsV := kv, degU := s.degU, degV := s.degV }

/-- `load_NURBS_patch`, load_msh.h:219-236. -/
def loadNURBSPatch (s : MshPatch K) : Outcome (NURBSPatch K (P3 K)) := do
  Outcome.assert (s.degU + 1 ≤ s.numU ∧ s.degV + 1 ≤ s.numV)
  Outcome.assert (s.numCtrl = (s.numU - s.degU - 1) * (s.numV - s.degV - 1))
  Outcome.assert s.withWeights
  let g ← extractCtrl s.withWeights s.numCtrl s.data
  let w ← extractWeights s.numCtrl s.data
  let es := if s.withWeights then 4 else 3
  let ku ← extractKnots (s.numCtrl * es) s.numU s.data
  let kv ← extractKnots (s.numCtrl * es + s.numU) s.numV s.data
  NURBSPatch.init
    { grid := g, weights := w, knotsU := ku, knotsV := kv, degU := s.degU, degV := s.degV,
      hom := { grid := [], knotsU := [], knotsV := [], degU := -1, degV := -1 } }

/-- `load_patch`, load_msh.h:253-266. -/
def loadPatch (s : MshPatch K) : Outcome (AnyPatch K (P3 K)) :=
  if s.ptype = 1 then do { let c ← loadBezierPatch s; pure (.bezier c) }
  else if s.ptype = 3 then do { let c ← loadBSplinePatch s; pure (.bspline c) }
  else if s.ptype = 2 then do { let c ← loadRationalPatch s; pure (.rational c) }
  else if s.ptype = 4 then do { let c ← loadNURBSPatch s; pure (.nurbs c) }
  else .throw .invalidSetting

end

end NS
