import Verif.Model.Inverse
import Verif.Model.BezierPatch
import Verif.Model.BSplinePatch
import Verif.Model.RationalPatch

/-!
# Closest point search of patches guided by their control points

Model of the overrides of `approximate_inverse_evaluate` in `BezierPatch.h`, `BSplinePatch.h`,
`RationalBezierPatch.h` and `NURBSPatch.h`.  `PatchBase::inverse_evaluate` (PatchBase.h:144-155)
calls them through the virtual function.
-/

namespace NS

open Outcome

namespace ControlSearch

/-- The four bounds of a range of parameters (arguments `min_u`, `max_u`, `min_v`, `max_v`,
BezierPatch.h:499-502). -/
structure Box (K : Type) where
  minU : K
  maxU : K
  minV : K
  maxV : K
  deriving DecidableEq, Repr

/-- The member functions the searches call, for objects of class `α` and one query point:
the flags (BezierPatch.h:506), degrees (514), numbers of control points (521), bounds (529-532),
`subpatch` (533), `find_closest_control_point` (536), `get_control_point_preimage` (548) and the
search of the base class by its level (507-524). -/
structure Ops (K α : Type) where
  periodic : α → Bool
  degreeU : α → Outcome ℕ
  degreeV : α → Outcome ℕ
  numU : α → Outcome ℕ
  numV : α → Outcome ℕ
  lowerU : α → Outcome K
  upperU : α → Outcome K
  lowerV : α → Outcome K
  upperV : α → Outcome K
  subpatch : α → Box K → Outcome α
  closest : α → Outcome (ℕ × ℕ)
  preimage : α → ℕ → ℕ → Outcome (K × K)
  base : α → ℕ → Box K → Outcome (K × K)

variable {K α : Type} [Field K] [LinearOrder K] [IsStrictOrderedRing K] [FloorRing K]

/-- The three tests that lead to the search of the base class, BezierPatch.h:505-524,
BSplinePatch.h:630-649, RationalBezierPatch.h:304-323, NURBSPatch.h:340-359: the level passed on, if
so.  `low` is the level passed for low degrees: the default 3 of PatchBase.h:242, except for
`BSplinePatch`, which passes its own (BSplinePatch.h:640-641). -/
def fallback (o : Ops K α) (low : ℕ) (s : α) : Outcome (Option ℕ) :=
  if o.periodic s = true then ok (some 3)
  else do
    let du ← o.degreeU s
    if du < 2 then ok (some low)
    else do
      let dv ← o.degreeV s
      if dv < 2 then ok (some low)
      else do
        let m ← o.numU s
        if m ≤ 3 then ok (some 3)
        else do
          let n ← o.numV s
          if n ≤ 3 then ok (some 3) else ok none

/-- The trimmed range, BezierPatch.h:529-532, BSplinePatch.h:654-657,
RationalBezierPatch.h:328-331, NURBSPatch.h:364-367. -/
def trim (o : Ops K α) (s : α) (b : Box K) : Outcome (Box K) := do
  let ul ← o.lowerU s
  let uh ← o.upperU s
  let vl ← o.lowerV s
  let vh ← o.upperV s
  pure ⟨max b.minU ul, min b.maxU uh, max b.minV vl, min b.maxV vh⟩

/-- `clamp_2d` with the bounds of a box: BSplinePatch.h:665-670 and NURBSPatch.h:378-383 with the
trimmed range. -/
def clampBox (b : Box K) (x : K × K) : K × K :=
  (min (max x.1 b.minU) b.maxU, min (max x.2 b.minV) b.maxV)

/-- `clamp_2d` of Bézier patches: the unit square, BezierPatch.h:540-545,
RationalBezierPatch.h:342-347. -/
def unitBox : Box K := ⟨0, 1, 0, 1⟩

/-- From the unit square to a box, BezierPatch.h:550-551 and 579-580,
RationalBezierPatch.h:352-353 and 381-382. -/
def remap (b : Box K) (x : K × K) : K × K :=
  ((b.maxU - b.minU) * x.1 + b.minU, (b.maxV - b.minV) * x.2 + b.minV)

/-- The range of the next round before clamping, BezierPatch.h:559-563, BSplinePatch.h:682-686,
RationalBezierPatch.h:361-365, NURBSPatch.h:394-398: the parameters of the neighbours of control
point `(i, j)` of the active region `r`.  The upper neighbour is tested against the number of
control points of the patch `s`. -/
def neighbours (o : Ops K α) (s r : α) (i j : ℕ) : Outcome ((K × K) × (K × K)) := do
  let lo ← o.preimage r (if i > 0 then i - 1 else i) (if j > 0 then j - 1 else j)
  let m ← o.numU s
  let n ← o.numV s
  let hi ← o.preimage r (if i + 1 < m then i + 1 else i) (if j + 1 < n then j + 1 else j)
  pure (lo, hi)

/-- `approximate_inverse_evaluate` of `BezierPatch` and `RationalBezierPatch`, BezierPatch.h:496-583
and RationalBezierPatch.h:295-384, by the level (negative levels are like 0): the active region is a
patch over the unit square. -/
def unitSearch (o : Ops K α) : ℕ → α → Box K → Outcome (K × K)
  | 0, s, b => do
    let f ← fallback o 3 s
    match f with
    | some l => o.base s l b
    | none => do
      let t ← trim o s b
      let r ← o.subpatch s t
      let c ← o.closest r
      let uv ← o.preimage r c.1 c.2
      pure (remap t (clampBox unitBox uv))
  | level + 1, s, b => do
    let f ← fallback o 3 s
    match f with
    | some l => o.base s l b
    | none => do
      let t ← trim o s b
      let r ← o.subpatch s t
      let c ← o.closest r
      let d ← neighbours o s r c.1 c.2
      let lo := clampBox unitBox d.1
      let hi := clampBox unitBox d.2
      let uv ← unitSearch o level r ⟨lo.1, hi.1, lo.2, hi.2⟩
      pure (remap t uv)

/-- `approximate_inverse_evaluate` of `BSplinePatch` and `NURBSPatch`, BSplinePatch.h:621-703 and
NURBSPatch.h:331-414: the active region keeps the parameters of the patch.  `low` as in
`fallback`. -/
def knotSearch (o : Ops K α) (low : ℕ → ℕ) : ℕ → α → Box K → Outcome (K × K)
  | 0, s, b => do
    let f ← fallback o (low 0) s
    match f with
    | some l => o.base s l b
    | none => do
      let t ← trim o s b
      let r ← o.subpatch s t
      let c ← o.closest r
      let uv ← o.preimage r c.1 c.2
      pure (clampBox t uv)
  | level + 1, s, b => do
    let f ← fallback o (low (level + 1)) s
    match f with
    | some l => o.base s l b
    | none => do
      let t ← trim o s b
      let r ← o.subpatch s t
      let c ← o.closest r
      let d ← neighbours o s r c.1 c.2
      let lo := clampBox t d.1
      let hi := clampBox t d.2
      knotSearch o low level r ⟨lo.1, hi.1, lo.2, hi.2⟩

end ControlSearch

open ControlSearch

variable {K V : Type} [Field K] [LinearOrder K] [IsStrictOrderedRing K] [FloorRing K]
  [AddCommGroup V] [Module K V]

/-- `get_control_point_preimage`, BezierPatch.h:110-116. Degree 0 gives `0/0`; modelled as `ub`. -/
def BezierPatch.preimage (p : BezierPatch V) (i j : ℕ) : Outcome (K × K) := do
  let du ← p.degreeU
  let dv ← p.degreeV
  Outcome.assert (du ≠ 0 ∧ dv ≠ 0)
  pure ((i : K) / (du : K), (j : K) / (dv : K))

variable [Geom K V]

namespace BezierPatch

/-- The virtual evaluators, BezierPatch.h:49-88. -/
def fn (p : BezierPatch V) : PatchFn K V where
  ev := p.evaluate
  du := p.derivU
  dv := p.derivV
  duu := p.derivUU
  dvv := p.derivVV
  duv := p.derivUV

/-- The members `approximate_inverse_evaluate` calls, BezierPatch.h:496-583, for the query `x` and
`nu`, `nv` samples of the base class; `big` is the largest scalar, `tol` the `epsilon * 10` of
PatchBase.h:283. The domain is the unit square (BezierPatch.h:102-108). -/
def ops (eps big tol : K) (x : V) (nu nv : ℕ) : Ops K (BezierPatch V) where
  periodic p := p.perU || p.perV
  degreeU p := p.degreeU
  degreeV p := p.degreeV
  numU p := p.numU
  numV p := p.numV
  lowerU _ := ok 0
  upperU _ := ok 1
  lowerV _ := ok 0
  upperV _ := ok 1
  subpatch p b := p.subpatch eps b.minU b.maxU b.minV b.maxV
  closest p := p.findClosest big sqNorm x
  preimage p i j := p.preimage i j
  base p l b :=
    PatchBase.approxInverse big tol 1 1 p.fn x nu nv l b.minU b.maxU b.minV b.maxV

/-- `approximate_inverse_evaluate`, BezierPatch.h:496-583. -/
def approxInverse (eps big tol : K) (p : BezierPatch V) (x : V) (nu nv level : ℕ) (b : Box K) :
    Outcome (K × K) :=
  unitSearch (ops eps big tol x nu nv) level p b

/-- `inverse_evaluate` over a box (PatchBase.h:144-155) of a Bézier patch: as many samples as
recommended (PatchBase.h:226-232), level 10 and 20 iterations. -/
def inverseEvaluate (eps big tol10 tol100 : K) (p : BezierPatch V) (x : V) (b : Box K) :
    Outcome ((K × K) × Bool) := do
  let m ← p.numU
  let n ← p.numV
  let uv ← p.approxInverse eps big tol10 x (m + 1) (n + 1) 10 b
  PatchBase.inverseFrom big p.fn x uv.1 uv.2 b.minU b.maxU b.minV b.maxV 20 tol100

end BezierPatch

namespace BSplinePatch

/-- The virtual evaluators, BSplinePatch.h (`evaluate` to `evaluate_2nd_derivative_uv`); `bad` is
the value of a division by zero in the derivative patches. -/
def fn (bad : V) (p : BSplinePatch K V) : PatchFn K V where
  ev := p.evaluate
  du := p.derivU
  dv := p.derivV
  duu := p.derivUU
  dvv := p.derivVV
  duv := p.derivUV bad

/-- The search of the base class with the widths of the domain, PatchBase.h:235-306 (the widths
are read at 280-281). -/
def baseSearch (big tol : K) (bad x : V) (nu nv : ℕ) (p : BSplinePatch K V) (l : ℕ) (b : Box K) :
    Outcome (K × K) := do
  let ul ← p.lowerU
  let uh ← p.upperU
  let vl ← p.lowerV
  let vh ← p.upperV
  PatchBase.approxInverse big tol (uh - ul) (vh - vl) (p.fn bad) x nu nv l b.minU b.maxU b.minV
    b.maxV

/-- The members `approximate_inverse_evaluate` calls, BSplinePatch.h:621-703. -/
def ops (eps big tol : K) (bad x : V) (nu nv : ℕ) : Ops K (BSplinePatch K V) where
  periodic p := p.perU || p.perV
  degreeU p := p.degreeU
  degreeV p := p.degreeV
  numU p := p.numU
  numV p := p.numV
  lowerU p := p.lowerU
  upperU p := p.upperU
  lowerV p := p.lowerV
  upperV p := p.upperV
  subpatch p b := p.subpatch eps b.minU b.maxU b.minV b.maxV
  closest p := p.findClosest big sqNorm x
  preimage p i j := p.preimage i j
  base p l b := baseSearch big tol bad x nu nv p l b

/-- `approximate_inverse_evaluate`, BSplinePatch.h:621-703. -/
def approxInverse (eps big tol : K) (bad : V) (p : BSplinePatch K V) (x : V) (nu nv level : ℕ)
    (b : Box K) : Outcome (K × K) :=
  knotSearch (ops eps big tol bad x nu nv) id level p b

/-- `inverse_evaluate` over a box (PatchBase.h:144-155) of a B-spline patch. -/
def inverseEvaluate (eps big tol10 tol100 : K) (bad : V) (p : BSplinePatch K V) (x : V)
    (b : Box K) : Outcome ((K × K) × Bool) := do
  let m ← p.numU
  let n ← p.numV
  let uv ← p.approxInverse eps big tol10 bad x (m + 1) (n + 1) 10 b
  PatchBase.inverseFrom big (p.fn bad) x uv.1 uv.2 b.minU b.maxU b.minV b.maxV 20 tol100

end BSplinePatch

namespace RationalBezierPatch

/-- The virtual evaluators, RationalBezierPatch.h:47-122; `small` is the threshold of the second
derivatives. -/
def fn (small : K) (p : RationalBezierPatch K V) : PatchFn K V where
  ev := p.evaluate
  du := p.derivU
  dv := p.derivV
  duu := p.derivUU small
  dvv := p.derivVV small
  duv := p.derivUV small

/-- The members `approximate_inverse_evaluate` calls, RationalBezierPatch.h:295-384. The numbers
of control points and the preimages are those of the homogeneous patch
(RationalBezierPatch.h:39-45); the control points compared with the query are the Cartesian ones. -/
def ops (eps big tol small : K) (x : V) (nu nv : ℕ) : Ops K (RationalBezierPatch K V) where
  periodic p := p.base.perU || p.base.perV
  degreeU p := p.base.degreeU
  degreeV p := p.base.degreeV
  numU p := p.hom.numU
  numV p := p.hom.numV
  lowerU _ := ok 0
  upperU _ := ok 1
  lowerV _ := ok 0
  upperV _ := ok 1
  subpatch p b := p.subpatch eps b.minU b.maxU b.minV b.maxV
  closest p := do
    let m ← p.hom.numU
    let n ← p.hom.numV
    PatchBase.findClosest big sqNorm m n p.getControlPoint x
  preimage p i j := p.hom.preimage i j
  base p l b :=
    PatchBase.approxInverse big tol 1 1 (p.fn small) x nu nv l b.minU b.maxU b.minV b.maxV

/-- `approximate_inverse_evaluate`, RationalBezierPatch.h:295-384. -/
def approxInverse (eps big tol small : K) (p : RationalBezierPatch K V) (x : V)
    (nu nv level : ℕ) (b : Box K) : Outcome (K × K) :=
  unitSearch (ops eps big tol small x nu nv) level p b

/-- `inverse_evaluate` over a box (PatchBase.h:144-155) of a rational Bézier patch: one sample more
than control points of the homogeneous patch (RationalBezierPatch.h:37-38, PatchBase.h:226-232). -/
def inverseEvaluate (eps big tol10 tol100 small : K) (p : RationalBezierPatch K V) (x : V)
    (b : Box K) : Outcome ((K × K) × Bool) := do
  let m ← p.hom.numU
  let n ← p.hom.numV
  let uv ← p.approxInverse eps big tol10 small x (m + 1) (n + 1) 10 b
  PatchBase.inverseFrom big (p.fn small) x uv.1 uv.2 b.minU b.maxU b.minV b.maxV 20 tol100

end RationalBezierPatch

namespace NURBSPatch

/-- The virtual evaluators, NURBSPatch.h:49-124. -/
def fn (small : K) (bad : V × K) (p : NURBSPatch K V) : PatchFn K V where
  ev := p.evaluate
  du := p.derivU
  dv := p.derivV
  duu := p.derivUU small
  dvv := p.derivVV small
  duv := p.derivUV small bad

/-- The members `approximate_inverse_evaluate` calls, NURBSPatch.h:331-414. Bounds, numbers of
control points and preimages are those of the homogeneous patch. -/
def ops (eps big tol small : K) (bad : V × K) (x : V) (nu nv : ℕ) : Ops K (NURBSPatch K V) where
  periodic p := p.perU || p.perV
  degreeU p := degreeOf p.degU
  degreeV p := degreeOf p.degV
  numU p := p.hom.numU
  numV p := p.hom.numV
  lowerU p := p.hom.lowerU
  upperU p := p.hom.upperU
  lowerV p := p.hom.lowerV
  upperV p := p.hom.upperV
  subpatch p b := p.subpatch eps b.minU b.maxU b.minV b.maxV
  closest p := do
    let m ← p.hom.numU
    let n ← p.hom.numV
    PatchBase.findClosest big sqNorm m n p.getControlPoint x
  preimage p i j := p.hom.preimage i j
  base p l b := do
    let ul ← p.hom.lowerU
    let uh ← p.hom.upperU
    let vl ← p.hom.lowerV
    let vh ← p.hom.upperV
    PatchBase.approxInverse big tol (uh - ul) (vh - vl) (p.fn small bad) x nu nv l b.minU b.maxU
      b.minV b.maxV

/-- `approximate_inverse_evaluate`, NURBSPatch.h:331-414. -/
def approxInverse (eps big tol small : K) (bad : V × K) (p : NURBSPatch K V) (x : V)
    (nu nv level : ℕ) (b : Box K) : Outcome (K × K) :=
  knotSearch (ops eps big tol small bad x nu nv) (fun _ => 3) level p b

/-- `inverse_evaluate` over a box (PatchBase.h:144-155) of a NURBS patch: one sample more than
control points of the homogeneous patch (NURBSPatch.h:39-40, PatchBase.h:226-232). -/
def inverseEvaluate (eps big tol10 tol100 small : K) (bad : V × K) (p : NURBSPatch K V) (x : V)
    (b : Box K) : Outcome ((K × K) × Bool) := do
  let m ← p.hom.numU
  let n ← p.hom.numV
  let uv ← p.approxInverse eps big tol10 small bad x (m + 1) (n + 1) 10 b
  PatchBase.inverseFrom big (p.fn small bad) x uv.1 uv.2 b.minU b.maxU b.minV b.maxV 20 tol100

end NURBSPatch

end NS
