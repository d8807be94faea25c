import Verif.Model.FloatNurbsSecond

/-!
# Mixed second derivatives of B-spline and NURBS patches with rounded arithmetic

Conventions as in `Model/FloatNurbsSecond.lean`.
-/

namespace NS.Fl

open Outcome

variable {K ι : Type} [Field K] [LinearOrder K] [IsStrictOrderedRing K] [FloorRing K]

/-- Control point of a derivative patch of degree `p - 1`, BSplinePatch.h:264-266 and 297-299.  As in
`BSplinePatch.divPt` the point `bad` stands for the result of a division by zero. -/
def divDiff (R : Rounding K) (bad : ι → K) (p : ℕ) (a b : ι → K) (x y : K) : ι → K :=
  if R.rnd (x - y) = 0 then bad
  else fun i => R.rnd (R.rnd ((p : K) * R.rnd (a i - b i)) / R.rnd (x - y))

/-- `compute_du_patch`, BSplinePatch.h:249-280. -/
def bsplineDuPatch (R : Rounding K) (bad : ι → K) (p : BSplinePatch K (ι → K)) :
    Outcome (BSplinePatch K (ι → K)) := do
  let du ← p.degreeU
  let dv ← p.degreeV
  if du = 0 then BSplinePatch.zeroPatch K (ι → K)
  else do
    let m ← p.numU
    let n ← p.numV
    Outcome.assert (m ≥ 1)
    let g ← fill (m - 1) n (fun i j => i * n + j) (fun i j => do
      let a ← p.getControlPoint (i + 1) j
      let b ← p.getControlPoint i j
      let x ← rd p.knotsU (i + du + 1)
      let y ← rd p.knotsU (i + 1)
      pure (divDiff R bad du a b x y)) (List.replicate ((m - 1) * n) 0)
    let w ← seg p.knotsU 1 (p.knotsU.length - 2)
    BSplinePatch.init { grid := g, knotsU := w, knotsV := p.knotsV, degU := (du : ℤ) - 1, degV := dv,
                        perU := p.perU, perV := p.perV }

/-- `compute_dv_patch`, BSplinePatch.h:282-313. -/
def bsplineDvPatch (R : Rounding K) (bad : ι → K) (p : BSplinePatch K (ι → K)) :
    Outcome (BSplinePatch K (ι → K)) := do
  let du ← p.degreeU
  let dv ← p.degreeV
  if dv = 0 then BSplinePatch.zeroPatch K (ι → K)
  else do
    let m ← p.numU
    let n ← p.numV
    Outcome.assert (n ≥ 1)
    let g ← fill m (n - 1) (fun i j => i * (n - 1) + j) (fun i j => do
      let a ← p.getControlPoint i (j + 1)
      let b ← p.getControlPoint i j
      let x ← rd p.knotsV (j + dv + 1)
      let y ← rd p.knotsV (j + 1)
      pure (divDiff R bad dv a b x y)) (List.replicate (m * (n - 1)) 0)
    let w ← seg p.knotsV 1 (p.knotsV.length - 2)
    BSplinePatch.init { grid := g, knotsU := p.knotsU, knotsV := w, degU := du, degV := (dv : ℤ) - 1,
                        perU := p.perU, perV := p.perV }

/-- `evaluate_2nd_derivative_uv`, BSplinePatch.h:98-102 with 315-318. -/
def bsplinePatchDerivUV (R : Rounding K) (bad : ι → K) (F : ℕ → ℕ → ℕ → ι → Fuse) (G : ℕ → ℕ → ι → Fuse)
    (p : BSplinePatch K (ι → K)) (u v : K) : Outcome (ι → K) := do
  let q ← bsplineDuPatch R bad p
  let q ← bsplineDvPatch R bad q
  bsplinePatchEvaluate R F G q u v

/-- `evaluate_2nd_derivative_uv` after `initialize`, NURBSPatch.h:116-137; the validation is passed.
`l` and `l'` fuse the products of the two first derivatives. -/
def nurbsPatchDerivUV (R : Rounding K) (tol : K) (bad : Option ι → K) (a b b' k : Fuses ι)
    (l l' f g h : ι → Bool) (p : BSplinePatch K (ι → K)) (w : List K) (u v : K) : Outcome (ι → K) := do
  let q ← nurbsPatchHom R p w
  let x ← bsplinePatchEvaluate R a.iso a.curve q u v
  let du ← bsplinePatchDerivU R b.iso b.curve q u v
  let dv ← bsplinePatchDerivV R b'.iso b'.curve q u v
  let duv ← bsplinePatchDerivUV R bad k.iso k.curve q u v
  mixedQuotient R tol f g h x du dv duv (ok (innerDeriv R l x du)) (ok (innerDeriv R l' x dv))

end NS.Fl
