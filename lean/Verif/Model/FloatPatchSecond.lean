import Verif.Model.FloatPatchDeriv

/-!
# Second derivatives of rational Bézier patches with rounded arithmetic

The conventions of `Model/FloatPatchDeriv.lean`.  The calls of `evaluate_derivative_u` and
`evaluate_derivative_v` inside of the second derivatives may be compiled differently from the
evaluations around them, so that each call has its own fused operations.
-/

namespace NS.Fl

open Outcome

variable {K ι : Type} [Field K] [LinearOrder K] [IsStrictOrderedRing K] [FloorRing K]

/-- The fused operations of one call of an evaluation of a homogeneous patch: those of the
iso-curves and those of the final curve. -/
structure Fuses (ι : Type) where
  iso : ℕ → ℕ → ℕ → Option ι → Fuse
  curve : ℕ → ℕ → Option ι → Fuse

/-- The quotient of `evaluate_2nd_derivative_uu` and `_vv`, RationalBezierPatch.h:80-89 and 101-110;
`f` and `g` fuse the last two products, `su` is the first derivative. -/
def sameQuotient (R : Rounding K) (tol : K) (f g : ι → Bool) (x d dd : Option ι → K)
    (su : Outcome (ι → K)) : Outcome (ι → K) :=
  if x none ≤ tol then ok 0
  else do
    Outcome.assert (x none ≠ 0)
    let s := fun i => R.rnd (x (some i) / x none)
    let su ← su
    pure fun i => R.rnd (subMul R (g i) (subMul R (f i) (dd (some i)) 2 (R.rnd (su i * d none)))
      (dd none) (s i) / x none)

/-- The quotient of `evaluate_2nd_derivative_uv`, RationalBezierPatch.h:123-134; `f`, `g` and `h` fuse
the three products.  Simplified: `S` is computed after the test. -/
def mixedQuotient (R : Rounding K) (tol : K) (f g h : ι → Bool) (x du dv duv : Option ι → K)
    (su sv : Outcome (ι → K)) : Outcome (ι → K) :=
  if x none ≤ tol then ok 0
  else do
    Outcome.assert (x none ≠ 0)
    let s := fun i => R.rnd (x (some i) / x none)
    let su ← su
    let sv ← sv
    pure fun i => R.rnd (subMul R (h i) (subMul R (g i) (subMul R (f i) (duv (some i)) (duv none) (s i))
      (du none) (sv i)) (dv none) (su i) / x none)

/-- The homogeneous patch made by `initialize`, RationalBezierPatch.h:137-151. -/
def ratHom (R : Rounding K) (p : BezierPatch (ι → K)) (w : List K) :
    Outcome (BezierPatch (Option ι → K)) := do
  let Q ← homogenize R p.grid w
  pure (BezierPatch.mk Q p.degU p.degV p.perU p.perV p.sU p.sV)

/-- `evaluate_2nd_derivative_uu` after `initialize`, RationalBezierPatch.h:72-90. -/
def rationalPatchDerivUU (R : Rounding K) (tol : K) (a b c d e : Fuses ι) (f g : ι → Bool)
    (p : BezierPatch (ι → K)) (w : List K) (u v : K) : Outcome (ι → K) := do
  let h ← ratHom R p w
  let x ← patchEvaluate R a.iso a.curve h u v
  let du ← patchDerivU R b.iso b.curve h u v
  let duu ← patchDerivUU R c.iso c.curve h u v
  sameQuotient R tol f g x du duu (rationalPatchDerivU R d.iso e.iso d.curve e.curve p w u v)

/-- `evaluate_2nd_derivative_vv` after `initialize`, RationalBezierPatch.h:92-111. -/
def rationalPatchDerivVV (R : Rounding K) (tol : K) (a b c d e : Fuses ι) (f g : ι → Bool)
    (p : BezierPatch (ι → K)) (w : List K) (u v : K) : Outcome (ι → K) := do
  let h ← ratHom R p w
  let x ← patchEvaluate R a.iso a.curve h u v
  let dv ← patchDerivV R b.iso b.curve h u v
  let dvv ← patchDerivVV R c.iso c.curve h u v
  sameQuotient R tol f g x dv dvv (rationalPatchDerivV R d.iso e.iso d.curve e.curve p w u v)

/-- `evaluate_2nd_derivative_uv` after `initialize`, RationalBezierPatch.h:113-135. -/
def rationalPatchDerivUV (R : Rounding K) (tol : K) (a b b' c d e d' e' : Fuses ι) (f g h : ι → Bool)
    (p : BezierPatch (ι → K)) (w : List K) (u v : K) : Outcome (ι → K) := do
  let q ← ratHom R p w
  let x ← patchEvaluate R a.iso a.curve q u v
  let du ← patchDerivU R b.iso b.curve q u v
  let dv ← patchDerivV R b'.iso b'.curve q u v
  let duv ← patchDerivUV R c.iso c.curve q u v
  mixedQuotient R tol f g h x du dv duv (rationalPatchDerivU R d.iso e.iso d.curve e.curve p w u v)
    (rationalPatchDerivV R d'.iso e'.iso d'.curve e'.curve p w u v)

end NS.Fl
