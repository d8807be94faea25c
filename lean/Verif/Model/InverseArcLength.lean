import Verif.Model.Numeric

/-!
# Model of `inverse_arc_length` on patches, arc_length.h:106-144

The version for curves is `NS.inverseArcLength` in `Verif.Model.Numeric`.  Scalars are exact; a division
by a zero length or speed is made undefined.
-/

namespace NS

open Outcome Geom

variable {K V : Type} [Field K] [LinearOrder K] [IsStrictOrderedRing K] [FloorRing K]
  [AddCommGroup V] [Module K V] [Geom K V]

/-- The lambda `position`, arc_length.h:117-119. -/
def segmentAt (u0 v0 u1 v1 t : K) : K × K := ((u1 - u0) * t + u0, (v1 - v0) * t + v0)

/-- `inverse_arc_length` of a segment of the parameter plane of a patch, arc_length.h:106-144, with the
default arguments of the inner `arc_length` and `iters` iterations.  The lambda `speed`
(arc_length.h:121-126) has the same text as the one of `arc_length` (arc_length.h:57-66). -/
def patchInverseArcLength (s : PatchFn K V) (u0 v0 u1 v1 l : K) (iters : ℕ) : Outcome (K × K) := do
  let len : K → Outcome K := fun t =>
    patchArcLength s u0 v0 (segmentAt u0 v0 u1 v1 t).1 (segmentAt u0 v0 u1 v1 t).2 10 (1 / 10 ^ 12)
  let L ← patchArcLength s u0 v0 u1 v1 10 (1 / 10 ^ 12)
  if L = 0 then ub
  else do
    let t ← invArcGo len (patchSpeed s u0 v0 u1 v1) l (L * (1 / 10 ^ 12)) iters (l / L)
    pure (segmentAt u0 v0 u1 v1 t)

end NS
