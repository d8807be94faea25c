import Verif.Model.BSplinePatch
import Verif.Model.BezierPatch
import Verif.Model.Rational

/-!
# Model of `RationalBezierPatch.h` and `NURBSPatch.h`

Homogeneous points are pairs `V × K` as in `Model/Rational.lean`.
-/

namespace NS

open Outcome

section Quotients

variable {K V : Type} [Field K] [LinearOrder K] [AddCommGroup V] [Module K V]

/-- The quotient of `evaluate_2nd_derivative_uu` and `_vv`, RationalBezierPatch.h:79-90 and
100-110, NURBSPatch.h:81-92 and 102-112. The test `w <= tol` comes before any division. -/
def quotSame (tol : K) (p d dd : V × K) : Outcome V :=
  if p.2 ≤ tol then ok 0
  else do
    let s ← quot0 p
    let su ← quot1 p d
    pure (p.2⁻¹ • (dd.1 - (2 * d.2) • su - dd.2 • s))

/-- The quotient of `evaluate_2nd_derivative_uv`, RationalBezierPatch.h:123-134,
NURBSPatch.h:125-136. (`S` is computed before the test there, but only used after it.) -/
def quotMixed (tol : K) (p du dv duv : V × K) : Outcome V :=
  if p.2 ≤ tol then ok 0
  else do
    let s ← quot0 p
    let su ← quot1 p du
    let sv ← quot1 p dv
    pure (p.2⁻¹ • (duv.1 - duv.2 • s - du.2 • sv - dv.2 • su))

end Quotients

/-- Data members of `RationalBezierPatch` (RationalBezierPatch.h:413-414 and the base class). -/
structure RationalBezierPatch (K V : Type) where
  base : BezierPatch V
  weights : List K
  hom : BezierPatch (V × K)
  deriving DecidableEq, Repr

namespace RationalBezierPatch

variable {K V : Type} [Field K] [LinearOrder K] [IsStrictOrderedRing K] [FloorRing K]
  [AddCommGroup V] [Module K V]

/-- `validate_initialization`, RationalBezierPatch.h:395-410. The second test is behind the
assertions of `get_degree_u`, `get_degree_v`. -/
def validate (p : RationalBezierPatch K V) : Outcome Unit := do
  throwIf (p.hom.grid.length ≠ p.base.grid.length ∨ p.hom.grid.length ≠ p.weights.length)
    .invalidSetting
  let _ ← p.base.degreeU
  let _ ← p.base.degreeV
  throwIf (p.hom.perU ≠ p.base.perU) .invalidSetting
  throwIf (p.hom.perV ≠ p.base.perV) .invalidSetting

/-- `evaluate`, RationalBezierPatch.h:47-52. -/
def evaluate (p : RationalBezierPatch K V) (u v : K) : Outcome V := do
  p.validate
  let x ← p.hom.evaluate u v
  quot0 x

/-- `evaluate_derivative_u`, RationalBezierPatch.h:54-61. -/
def derivU (p : RationalBezierPatch K V) (u v : K) : Outcome V := do
  p.validate
  let x ← p.hom.evaluate u v
  let d ← p.hom.derivU u v
  quot1 x d

/-- `evaluate_derivative_v`, RationalBezierPatch.h:63-70. -/
def derivV (p : RationalBezierPatch K V) (u v : K) : Outcome V := do
  p.validate
  let x ← p.hom.evaluate u v
  let d ← p.hom.derivV u v
  quot1 x d

/-- `evaluate_2nd_derivative_uu`, RationalBezierPatch.h:72-91 (`evaluate_derivative_u` is called
again there; it validates and evaluates the same object). -/
def derivUU (tol : K) (p : RationalBezierPatch K V) (u v : K) : Outcome V := do
  p.validate
  let x ← p.hom.evaluate u v
  let d ← p.hom.derivU u v
  let dd ← p.hom.derivUU u v
  quotSame tol x d dd

/-- `evaluate_2nd_derivative_vv`, RationalBezierPatch.h:93-112. -/
def derivVV (tol : K) (p : RationalBezierPatch K V) (u v : K) : Outcome V := do
  p.validate
  let x ← p.hom.evaluate u v
  let d ← p.hom.derivV u v
  let dd ← p.hom.derivVV u v
  quotSame tol x d dd

/-- `evaluate_2nd_derivative_uv`, RationalBezierPatch.h:114-135. -/
def derivUV (tol : K) (p : RationalBezierPatch K V) (u v : K) : Outcome V := do
  p.validate
  let x ← p.hom.evaluate u v
  let du ← p.hom.derivU u v
  let dv ← p.hom.derivV u v
  let dd ← p.hom.derivUV u v
  quotMixed tol x du dv dd

/-- `initialize`, RationalBezierPatch.h:137-151. -/
def init (p : RationalBezierPatch K V) : Outcome (RationalBezierPatch K V) := do
  let g ← homogenize p.base.grid p.weights
  let du ← p.base.degreeU
  let dv ← p.base.degreeV
  let h : BezierPatch (V × K) :=
    { grid := g, degU := du, degV := dv, perU := p.base.perU, perV := p.base.perV,
      sU := p.base.sU, sV := p.base.sV }
  h.init
  pure { p with hom := h }

/-- `set_homogeneous` on a default-constructed object, RationalBezierPatch.h:153-163 and the
constructor, 29-33: the degrees of the result are the template degrees. -/
def ofHomogeneous (h : BezierPatch (V × K)) : Outcome (RationalBezierPatch K V) := do
  let g ← dehomogenize h.grid
  let r : RationalBezierPatch K V :=
    { base := { grid := g, degU := h.sU, degV := h.sV, perU := h.perU, perV := h.perV,
                sU := h.sU, sV := h.sV },
      weights := h.grid.map Prod.snd, hom := h }
  r.validate
  pure r

/-- `get_linear_index` (PatchBase.h:394) with `num_control_points_v`,
RationalBezierPatch.h:40. -/
def linearIndex (p : RationalBezierPatch K V) (i j : ℕ) : Outcome ℕ := p.hom.linearIndex i j

/-- `get_control_point`, PatchBase.h:199-202. -/
def getControlPoint (p : RationalBezierPatch K V) (i j : ℕ) : Outcome V := do
  let k ← p.linearIndex i j
  rd p.base.grid k

/-- `get_weight`, RationalBezierPatch.h:185-188. -/
def getWeight (p : RationalBezierPatch K V) (i j : ℕ) : Outcome K := do
  let k ← p.linearIndex i j
  rd p.weights k

/-- `set_control_point`, RationalBezierPatch.h:174-181. -/
def setControlPoint (p : RationalBezierPatch K V) (i j : ℕ) (x : V) :
    Outcome (RationalBezierPatch K V) := do
  let k ← p.linearIndex i j
  let g ← wr p.base.grid k x
  let q ← p.hom.getControlPoint i j
  let w ← rd p.weights k
  let h ← p.hom.setControlPoint i j (w • x, q.2)
  pure { p with base := { p.base with grid := g }, hom := h }

/-- `set_weight`, RationalBezierPatch.h:189-197. -/
def setWeight (p : RationalBezierPatch K V) (i j : ℕ) (w : K) :
    Outcome (RationalBezierPatch K V) := do
  let k ← p.linearIndex i j
  let ws ← wr p.weights k w
  let _ ← p.hom.getControlPoint i j
  let x ← rd p.base.grid k
  let h ← p.hom.setControlPoint i j (w • x, w)
  pure { p with weights := ws, hom := h }

/-- `for (const auto& c : parts) results.back().set_homogeneous(c)`,
RationalBezierPatch.h:257-260, 269-272, 281-284. -/
def ofParts : List (BezierPatch (V × K)) → Outcome (List (RationalBezierPatch K V))
  | [] => ok []
  | h :: hs => do
    let r ← ofHomogeneous h
    let rs ← ofParts hs
    pure (r :: rs)

/-- `split_u`, RationalBezierPatch.h:252-262. -/
def splitU (eps : K) (p : RationalBezierPatch K V) (u : K) :
    Outcome (List (RationalBezierPatch K V)) := do
  let parts ← p.hom.splitU eps u
  ofParts parts

/-- `split_v`, RationalBezierPatch.h:264-274. -/
def splitV (eps : K) (p : RationalBezierPatch K V) (v : K) :
    Outcome (List (RationalBezierPatch K V)) := do
  let parts ← p.hom.splitV eps v
  ofParts parts

/-- `split`, RationalBezierPatch.h:276-286. -/
def split (eps : K) (p : RationalBezierPatch K V) (u v : K) :
    Outcome (List (RationalBezierPatch K V)) := do
  let parts ← p.hom.split eps u v
  ofParts parts

/-- `subpatch`, RationalBezierPatch.h:287-293. -/
def subpatch (eps : K) (p : RationalBezierPatch K V) (uMin uMax vMin vMax : K) :
    Outcome (RationalBezierPatch K V) := do
  let c ← p.hom.subpatch eps uMin uMax vMin vMax
  ofHomogeneous c

/-- `compute_iso_curve_u`, RationalBezierPatch.h:234-240. -/
def isoCurveU (p : RationalBezierPatch K V) (v : K) : Outcome (RationalBezier K V) := do
  let c ← p.hom.isoCurveU v
  RationalBezier.ofHomogeneous c

/-- `compute_iso_curve_v`, RationalBezierPatch.h:242-248. -/
def isoCurveV (p : RationalBezierPatch K V) (u : K) : Outcome (RationalBezier K V) := do
  let c ← p.hom.isoCurveV u
  RationalBezier.ofHomogeneous c

end RationalBezierPatch

/-- Data members of `NURBSPatch` (NURBSPatch.h:436-439) and of its base class; the iso-curve caches
belong to the homogeneous patch. -/
structure NURBSPatch (K V : Type) where
  grid : List V
  weights : List K
  knotsU : List K
  knotsV : List K
  degU : ℤ
  degV : ℤ
  perU : Bool := false
  perV : Bool := false
  sU : ℤ := -1
  sV : ℤ := -1
  hom : BSplinePatch K (V × K)
  deriving DecidableEq, Repr

namespace NURBSPatch

variable {K V : Type} [Field K] [LinearOrder K] [IsStrictOrderedRing K] [FloorRing K]
  [AddCommGroup V] [Module K V]

/-- `get_degree_u` / `get_degree_v`, PatchBase.h:74-84. -/
def degreeOf (d : ℤ) : Outcome ℕ := do
  Outcome.assert (d ≥ 0)
  pure d.toNat

/-- `validate_initialization`, NURBSPatch.h:418-433. -/
def validate (p : NURBSPatch K V) : Outcome Unit := do
  throwIf (p.hom.grid.length ≠ p.grid.length ∨ p.hom.grid.length ≠ p.weights.length)
    .invalidSetting
  let _ ← degreeOf p.degU
  let _ ← degreeOf p.degV
  throwIf (p.hom.perU ≠ p.perU) .invalidSetting
  throwIf (p.hom.perV ≠ p.perV) .invalidSetting

/-- `evaluate`, NURBSPatch.h:49-54. -/
def evaluate (p : NURBSPatch K V) (u v : K) : Outcome V := do
  p.validate
  let x ← p.hom.evaluate u v
  quot0 x

/-- `evaluate_derivative_u`, NURBSPatch.h:56-63. -/
def derivU (p : NURBSPatch K V) (u v : K) : Outcome V := do
  p.validate
  let x ← p.hom.evaluate u v
  let d ← p.hom.derivU u v
  quot1 x d

/-- `evaluate_derivative_v`, NURBSPatch.h:65-72. -/
def derivV (p : NURBSPatch K V) (u v : K) : Outcome V := do
  p.validate
  let x ← p.hom.evaluate u v
  let d ← p.hom.derivV u v
  quot1 x d

/-- `evaluate_2nd_derivative_uu`, NURBSPatch.h:74-93. -/
def derivUU (tol : K) (p : NURBSPatch K V) (u v : K) : Outcome V := do
  p.validate
  let x ← p.hom.evaluate u v
  let d ← p.hom.derivU u v
  let dd ← p.hom.derivUU u v
  quotSame tol x d dd

/-- `evaluate_2nd_derivative_vv`, NURBSPatch.h:95-114. -/
def derivVV (tol : K) (p : NURBSPatch K V) (u v : K) : Outcome V := do
  p.validate
  let x ← p.hom.evaluate u v
  let d ← p.hom.derivV u v
  let dd ← p.hom.derivVV u v
  quotSame tol x d dd

/-- `evaluate_2nd_derivative_uv`, NURBSPatch.h:116-137; `bad` as in `BSplinePatch.divPt`. -/
def derivUV (tol : K) (bad : V × K) (p : NURBSPatch K V) (u v : K) : Outcome V := do
  p.validate
  let x ← p.hom.evaluate u v
  let du ← p.hom.derivU u v
  let dv ← p.hom.derivV u v
  let dd ← p.hom.derivUV bad u v
  quotMixed tol x du dv dd

/-- `initialize`, NURBSPatch.h:139-159. -/
def init (p : NURBSPatch K V) : Outcome (NURBSPatch K V) := do
  throwIf (p.weights.length ≠ p.grid.length) .invalidSetting
  let g ← homogenize p.grid p.weights
  let du ← degreeOf p.degU
  let dv ← degreeOf p.degV
  let h ← BSplinePatch.init (BSplinePatch.mk g p.knotsU p.knotsV du dv p.perU p.perV p.sU p.sV
    p.hom.isoU p.hom.isoV)
  pure { p with hom := h }

/-- `set_homogeneous` on a default-constructed object, NURBSPatch.h:271-285. -/
def ofHomogeneous (h : BSplinePatch K (V × K)) : Outcome (NURBSPatch K V) := do
  let g ← dehomogenize h.grid
  let du ← h.degreeU
  let dv ← h.degreeV
  let r : NURBSPatch K V :=
    { grid := g, weights := h.grid.map Prod.snd, knotsU := h.knotsU, knotsV := h.knotsV,
      degU := du, degV := dv, perU := h.perU, perV := h.perV, sU := h.sU, sV := h.sV, hom := h }
  r.validate
  pure r

/-- `get_linear_index` (PatchBase.h:394) with `num_control_points_v`, NURBSPatch.h:42. -/
def linearIndex (p : NURBSPatch K V) (i j : ℕ) : Outcome ℕ := p.hom.linearIndex i j

/-- `get_control_point`, PatchBase.h:199-202. -/
def getControlPoint (p : NURBSPatch K V) (i j : ℕ) : Outcome V := do
  let k ← p.linearIndex i j
  rd p.grid k

/-- `get_weight`, NURBSPatch.h:181-184. -/
def getWeight (p : NURBSPatch K V) (i j : ℕ) : Outcome K := do
  let k ← p.linearIndex i j
  rd p.weights k

/-- `set_control_point`, NURBSPatch.h:170-177. -/
def setControlPoint (p : NURBSPatch K V) (i j : ℕ) (x : V) : Outcome (NURBSPatch K V) := do
  let k ← p.linearIndex i j
  let g ← wr p.grid k x
  let q ← p.hom.getControlPoint i j
  let w ← rd p.weights k
  let h ← p.hom.setControlPoint i j (w • x, q.2)
  pure { p with grid := g, hom := h }

/-- `set_weight`, NURBSPatch.h:185-193. -/
def setWeight (p : NURBSPatch K V) (i j : ℕ) (w : K) : Outcome (NURBSPatch K V) := do
  let k ← p.linearIndex i j
  let ws ← wr p.weights k w
  let _ ← p.hom.getControlPoint i j
  let x ← rd p.grid k
  let h ← p.hom.setControlPoint i j (w • x, w)
  pure { p with weights := ws, hom := h }

/-- `set_knot_u`, NURBSPatch.h:197-201. -/
def setKnotU (p : NURBSPatch K V) (i : ℕ) (x : K) : Outcome (NURBSPatch K V) := do
  let k ← wr p.knotsU i x
  let h ← p.hom.setKnotU i x
  pure { p with knotsU := k, hom := h }

/-- `set_knot_v`, NURBSPatch.h:204-208. -/
def setKnotV (p : NURBSPatch K V) (i : ℕ) (x : K) : Outcome (NURBSPatch K V) := do
  let k ← wr p.knotsV i x
  let h ← p.hom.setKnotV i x
  pure { p with knotsV := k, hom := h }

/-- `for (const auto& c : parts) results.back().set_homogeneous(c)`, NURBSPatch.h:292-295,
304-307, 316-319. -/
def ofParts : List (BSplinePatch K (V × K)) → Outcome (List (NURBSPatch K V))
  | [] => ok []
  | h :: hs => do
    let r ← ofHomogeneous h
    let rs ← ofParts hs
    pure (r :: rs)

/-- `split_u`, NURBSPatch.h:287-297. -/
def splitU (eps : K) (p : NURBSPatch K V) (u : K) : Outcome (List (NURBSPatch K V)) := do
  let parts ← p.hom.splitU eps u
  ofParts parts

/-- `split_v`, NURBSPatch.h:299-309. -/
def splitV (eps : K) (p : NURBSPatch K V) (v : K) : Outcome (List (NURBSPatch K V)) := do
  let parts ← p.hom.splitV eps v
  ofParts parts

/-- `split`, NURBSPatch.h:311-321. -/
def split (eps : K) (p : NURBSPatch K V) (u v : K) : Outcome (List (NURBSPatch K V)) := do
  let parts ← p.hom.split eps u v
  ofParts parts

/-- `subpatch`, NURBSPatch.h:323-329. -/
def subpatch (eps : K) (p : NURBSPatch K V) (uMin uMax vMin vMax : K) :
    Outcome (NURBSPatch K V) := do
  let c ← p.hom.subpatch eps uMin uMax vMin vMax
  ofHomogeneous c

/-- `compute_iso_curve_u`, NURBSPatch.h:253-259. -/
def isoCurveU (p : NURBSPatch K V) (v : K) : Outcome (NURBS K V) := do
  let c ← p.hom.isoCurveU v
  NURBS.ofHomogeneous c

/-- `compute_iso_curve_v`, NURBSPatch.h:261-267. -/
def isoCurveV (p : NURBSPatch K V) (u : K) : Outcome (NURBS K V) := do
  let c ← p.hom.isoCurveV u
  NURBS.ofHomogeneous c

end NURBSPatch

end NS
