import Verif.Model.FloatSecond

/-!
# Derivatives of Bézier patches and rational Bézier patches with rounded arithmetic

The conventions of `Model/Float.lean` and `Model/FloatPatch.lean`.  Simplified as there: the
iso-curves are of the generic class, which is the code for every degree but the template degrees one
to three; the patch of the mixed derivative is always of the generic class.
-/

namespace NS.Fl

open Outcome

variable {K ι : Type} [Field K] [LinearOrder K] [IsStrictOrderedRing K] [FloorRing K]

/-- `evaluate_derivative_u`, BezierPatch.h:60-64. -/
def patchDerivU (R : Rounding K) (F : ℕ → ℕ → ℕ → ι → Fuse) (G : ℕ → ℕ → ι → Fuse)
    (p : BezierPatch (ι → K)) (u v : K) : Outcome (ι → K) := do
  let c ← isoCurveU R F p v
  bezierDerivative R G c u

/-- `evaluate_derivative_v`, BezierPatch.h:66-70. -/
def patchDerivV (R : Rounding K) (F : ℕ → ℕ → ℕ → ι → Fuse) (G : ℕ → ℕ → ι → Fuse)
    (p : BezierPatch (ι → K)) (u v : K) : Outcome (ι → K) := do
  let c ← isoCurveV R F p u
  bezierDerivative R G c v

/-- `evaluate_2nd_derivative_uu`, BezierPatch.h:72-76. -/
def patchDerivUU (R : Rounding K) (F : ℕ → ℕ → ℕ → ι → Fuse) (G : ℕ → ℕ → ι → Fuse)
    (p : BezierPatch (ι → K)) (u v : K) : Outcome (ι → K) := do
  let c ← isoCurveU R F p v
  bezier2ndDerivative R G c u

/-- `evaluate_2nd_derivative_vv`, BezierPatch.h:78-82. -/
def patchDerivVV (R : Rounding K) (F : ℕ → ℕ → ℕ → ι → Fuse) (G : ℕ → ℕ → ι → Fuse)
    (p : BezierPatch (ι → K)) (u v : K) : Outcome (ι → K) := do
  let c ← isoCurveV R F p u
  bezier2ndDerivative R G c v

/-- One row of `compute_duv_patch`, BezierPatch.h:249-253; `a`, `b`, `c`, `d` are the points
`(i+1,j)`, `(i,j)`, `(i+1,j+1)`, `(i,j+1)`. -/
def mixedRow (R : Rounding K) (m n : ℕ) (a b c d : ι → K) : ι → K := fun k =>
  R.rnd (n * R.rnd (R.rnd (m * R.rnd (c k - d k)) - R.rnd (m * R.rnd (a k - b k))))

/-- `compute_duv_patch`, BezierPatch.h:236-262. -/
def mixedPatch (R : Rounding K) (p : BezierPatch (ι → K)) : Outcome (BezierPatch (ι → K)) := do
  let m ← p.degreeU
  let n ← p.degreeV
  if m = 0 ∨ n = 0 then BezierPatch.zeroPatch (ι → K)
  else do
    let g ← fill m n (fun i j => i * n + j) (fun i j => do
      let a ← p.getControlPoint (i + 1) j
      let b ← p.getControlPoint i j
      let c ← p.getControlPoint (i + 1) (j + 1)
      let d ← p.getControlPoint i (j + 1)
      pure (mixedRow R m n a b c d)) (List.replicate (m * n) 0)
    let q : BezierPatch (ι → K) :=
      { grid := g, degU := (m : ℤ) - 1, degV := (n : ℤ) - 1, perU := p.perU, perV := p.perV }
    q.init
    pure q

/-- `evaluate_2nd_derivative_uv`, BezierPatch.h:84-88. -/
def patchDerivUV (R : Rounding K) (F : ℕ → ℕ → ℕ → ι → Fuse) (G : ℕ → ℕ → ι → Fuse)
    (p : BezierPatch (ι → K)) (u v : K) : Outcome (ι → K) := do
  let q ← mixedPatch R p
  patchEvaluate R F G q u v

/-- `evaluate_derivative_u` after `initialize`, RationalBezierPatch.h:54-61; `p` holds the control
grid, the degrees and the flags. -/
def rationalPatchDerivU (R : Rounding K) (F F' : ℕ → ℕ → ℕ → Option ι → Fuse)
    (G G' : ℕ → ℕ → Option ι → Fuse) (p : BezierPatch (ι → K)) (w : List K) (u v : K) :
    Outcome (ι → K) := do
  let Q ← homogenize R p.grid w
  let h : BezierPatch (Option ι → K) := BezierPatch.mk Q p.degU p.degV p.perU p.perV p.sU p.sV
  let x ← patchEvaluate R F G h u v
  let d ← patchDerivU R F' G' h u v
  derivQuotient R x d

/-- `evaluate_derivative_v` after `initialize`, RationalBezierPatch.h:63-70. -/
def rationalPatchDerivV (R : Rounding K) (F F' : ℕ → ℕ → ℕ → Option ι → Fuse)
    (G G' : ℕ → ℕ → Option ι → Fuse) (p : BezierPatch (ι → K)) (w : List K) (u v : K) :
    Outcome (ι → K) := do
  let Q ← homogenize R p.grid w
  let h : BezierPatch (Option ι → K) := BezierPatch.mk Q p.degU p.degV p.perU p.perV p.sU p.sV
  let x ← patchEvaluate R F G h u v
  let d ← patchDerivV R F' G' h u v
  derivQuotient R x d

end NS.Fl
