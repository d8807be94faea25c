import Verif.Model.Float

/-!
# Editing curves in floating point arithmetic

The same functions as in `Model/BSpline.lean` and `Model/Bezier.lean` with every arithmetic
operation rounded, with the conventions of `Model/Float.lean`.  The span search, the multiplicities,
the knots and the copied control points involve no arithmetic and are those of the exact model.
-/

namespace NS.Fl

open Outcome

variable {K ι : Type} [Field K] [LinearOrder K] [IsStrictOrderedRing K] [FloorRing K]

/-- `in_domain`, BSplineBase.h:379-387; `eps` is the machine epsilon. -/
def bsplineInDomain (R : Rounding K) (eps : K) (c : BSpline K (ι → K)) (t : K) : Outcome Bool := do
  let tMin ← c.lower
  let tMax ← c.upper
  pure (decide (t ≥ R.rnd (tMin - eps)) && decide (t ≤ R.rnd (tMax + eps)))

/-- Body of the triangular scheme of `insert_knot`, BSplineBase.h:169-181: state is the pair
(`Rw`, `ctrl_pts_new`). -/
def insertLoop (R : Rounding K) (F : ℕ → ℕ → ι → Fuse) (u : List K) (t : K) (p k r s : ℕ)
    (st : List (ι → K) × List (ι → K)) : Outcome (List (ι → K) × List (ι → K)) :=
  forUp 1 (r + 1) (fun j st => do
    let L := k - p + j
    let rw ← loop (p - j - s + 1) (fun i rw => do
      let a ← rd u (i + k + 1)
      let b ← rd u (L + i)
      let diff := R.rnd (a - b)
      let alpha := if diff > 0 then R.rnd (R.rnd (t - b) / diff) else 0
      let x ← rd rw (i + 1)
      let y ← rd rw i
      wr rw i (fun l => R.combine (F j i l) alpha (x l) (R.rnd (1 - alpha)) (y l))) st.1
    let a ← rd rw 0
    let q ← wr st.2 L a
    let b ← rd rw (p - j - s)
    let q ← wr q (k + r - j - s) b
    pure (rw, q)) st

/-- New control points of `insert_knot`, BSplineBase.h:158-185. -/
def insertedCtrl (R : Rounding K) (F : ℕ → ℕ → ι → Fuse) (u : List K) (ctrl : List (ι → K)) (t : K)
    (p k r s : ℕ) : Outcome (List (ι → K)) := do
  let N := ctrl.length
  let q := List.replicate (N + r) (0 : ι → K)
  let a ← seg ctrl 0 (k - p + 1)
  let q ← wrSeg q 0 a
  Outcome.assert (N + s ≥ k)
  Outcome.assert (s ≤ k)
  let a ← seg ctrl (k - s) (N + s - k)
  let q ← wrSeg q (k + r - s) a
  let rw ← seg ctrl (k - p) (p - s + 1)
  let st ← insertLoop R F u t p k r s (rw, q)
  forUp (k - p + r) (k - s) (fun i q => do
    let a ← rd st.1 (i - (k - p + r))
    wr q i a) st.2

/-- `insert_knot`, BSplineBase.h:137-189. -/
def insertKnot (R : Rounding K) (F : ℕ → ℕ → ι → Fuse) (eps : K) (c : BSpline K (ι → K)) (t : K)
    (r : ℕ) : Outcome (BSpline K (ι → K)) := do
  Outcome.assert (r ≥ 1)
  let dom ← bsplineInDomain R eps c t
  Outcome.assert (dom = true)
  c.validate
  let p := c.degree.toNat
  let k ← c.locateSpan t
  let s ← c.multAt t k
  Outcome.assert (k ≥ p)
  Outcome.assert (r + s ≤ p)
  let w ← BSpline.insertedKnots c.knots t k.toNat r
  let q ← insertedCtrl R F c.knots c.ctrl t p k.toNat r s
  pure { c with ctrl := q, knots := w }

/-- Insertion of the missing copies of `t`, split.h:70-72 and BSpline.h:348-356, 363-365. -/
def raise (R : Rounding K) (F : ℕ → ℕ → ι → Fuse) (eps : K) (c : BSpline K (ι → K)) (t : K)
    (d s : ℕ) : Outcome (BSpline K (ι → K)) :=
  if d > s then insertKnot R F eps c t (d - s) else ok c

/-- Free `split(BSpline, t)`, split.h:49-102; after the insertion the pieces are copied
(`BSpline.splitPieces`). -/
def bsplineSplit (R : Rounding K) (F : ℕ → ℕ → ι → Fuse) (eps : K) (c : BSpline K (ι → K)) (t : K) :
    Outcome (List (BSpline K (ι → K))) := do
  let dom ← bsplineInDomain R eps c t
  throwIf (¬ dom = true) .invalidSetting
  let lo ← c.lower
  let hi ← c.upper
  if t = lo then ok [c]
  else if t = hi then ok [c]
  else do
    let d := c.degree.toNat
    let k ← c.locateSpan t
    let s ← c.multAt t k
    let c ← raise R F eps c t d s
    c.splitPieces t d

/-- Loop of `convert_to_Bezier` raising the multiplicity of interior knots, BSpline.h:358-367; `F`
may differ between the insertions. -/
def bezierKnots (R : Rounding K) (F : ℕ → ℕ → ℕ → ι → Fuse) (eps tMin tMax : K) (d : ℕ) :
    List K → ℕ → BSpline K (ι → K) → Outcome (BSpline K (ι → K))
  | [], _, c => ok c
  | x :: xs, n, c =>
    if x ≤ tMin then bezierKnots R F eps tMin tMax d xs n c
    else if x ≥ tMax then ok c
    else do
      let k ← c.locateSpan x
      let s ← c.multiplicity k.toNat
      let c ← raise R (F n) eps c x d s
      bezierKnots R F eps tMin tMax d xs (n + 1) c

/-- `convert_to_Bezier`, BSpline.h:329-392; the pieces are copied (`BSpline.bezierPieces`). -/
def bsplineToBezier (R : Rounding K) (F : ℕ → ℕ → ℕ → ι → Fuse) (eps : K) (c : BSpline K (ι → K)) :
    Outcome (List (Bezier (ι → K)) × List K) := do
  let d := c.degree.toNat
  let tMin ← c.lower
  let tMax ← c.upper
  let kStart ← c.locateSpan tMin
  let kEnd ← c.locateSpan tMax
  let sStart ← c.multiplicity kStart.toNat
  let sEnd ← c.multiplicity (kEnd + 1).toNat
  let c1 ← raise R (F 0) eps c tMin d sStart
  let c2 ← raise R (F 1) eps c1 tMax d sEnd
  let c3 ← bezierKnots R F eps tMin tMax d c.knots 2 c2
  BSpline.bezierPieces tMax d c3.ctrl c3.knots 0 tMin [] [tMin]

/-- `elevate_degree`, Bezier.h:309-329; converting the integers to `Scalar` rounds. -/
def bezierElevate (R : Rounding K) (F : ℕ → ι → Fuse) (c : Bezier (ι → K)) :
    Outcome (Bezier (ι → K)) := do
  let n := c.ctrl.length
  let q := List.replicate (n + 1) (0 : ι → K)
  let a ← rd c.ctrl 0
  let q ← wr q 0 a
  let q ← forUp 1 n (fun i q => do
    let alpha := R.rnd (R.rnd (i : K) / R.rnd (n : K))
    let a ← rd c.ctrl i
    let b ← rd c.ctrl (i - 1)
    wr q i (fun l => R.combine (F i l) (R.rnd (1 - alpha)) (a l) alpha (b l))) q
  let b ← rdI c.ctrl ((n : ℤ) - 1)
  let q ← wr q n b
  pure { ctrl := q, periodic := c.periodic }

end NS.Fl
