import Verif.Model.RemoveKnot

/-!
# Model: B-splines from Bézier pieces

The constructors of BSpline.h:34-50 and NURBS.h:29-41, and what is built on them: `elevate_degree`
of B-splines and NURBS; `subcurve`.  The norm of a point difference is a parameter as in
`removeKnot`; `eps` is `std::numeric_limits<Scalar>::epsilon()`.
-/

namespace NS.BSpline

open Outcome

variable {K V : Type} [Field K] [LinearOrder K] [AddCommGroup V] [Module K V]

/-- Control points of `combine_Beziers`, BSpline.h:540-548. -/
def combineCtrl (nrm : V → K) (eps : K) (d : ℕ) (bs : List (Bezier V)) : Outcome (List V) := do
  let b0 ← rd bs 0
  Outcome.assert (b0.ctrl.length = d + 1)
  let P ← wrSeg (List.replicate (bs.length * d + 1) (0 : V)) 0 b0.ctrl
  forUp 1 bs.length (fun i P => do
    let s ← rd bs i
    Outcome.assert ((d : ℤ) = s.degree)
    let x ← rd s.ctrl 0
    let y ← rd P (i * d)
    Outcome.assert (nrm (x - y) < eps)
    let blk ← seg s.ctrl 1 d
    wrSeg P (1 + i * d) blk) P

/-- Knots of `combine_Beziers`, BSpline.h:550-557. -/
def combineKnots (d n : ℕ) (bounds : List K) : Outcome (List K) := do
  let front ← rd bounds 0
  let u ← wrSeg (List.replicate (n * d + d + 2) (0 : K)) 0 (List.replicate (d + 1) front)
  Outcome.assert (1 ≤ bounds.length)
  let back ← rd bounds (bounds.length - 1)
  let u ← wrSeg u (n * d + d + 2 - d - 1) (List.replicate (d + 1) back)
  forUp 1 n (fun i u => do
    let t ← rd bounds i
    wrSeg u (i * d + 1) (List.replicate d t)) u

/-- The last loop of `combine_Beziers`, BSpline.h:559-562. -/
def removeAll (nrm : V → K) (extent : List V → K) (eps : K) (d : ℕ) :
    List K → BSpline K V → Outcome (BSpline K V)
  | [], c => ok c
  | t :: ts, c => do
    let r ← c.removeKnot nrm extent eps t d eps
    removeAll nrm extent eps d ts r.1

/-- `combine_Beziers`, BSpline.h:527-563; `sdeg` is the degree argument of the class template. -/
def combineBeziers (nrm : V → K) (extent : List V → K) (eps : K) (sdeg : Option ℕ)
    (bs : List (Bezier V)) (bounds : List K) : Outcome (BSpline K V) := do
  throwIf (bs.length = 0) .invalidSetting
  Outcome.assert (bounds.length = bs.length + 1)
  let b0 ← rd bs 0
  Outcome.assert (b0.degree ≥ 0)
  let d := b0.degree.toNat
  let P ← combineCtrl nrm eps d bs
  let u ← combineKnots d bs.length bounds
  removeAll nrm extent eps d bounds { ctrl := P, knots := u, sdeg := sdeg }

/-- The constructor with uniform bounds, BSpline.h:44-50. -/
def ofBeziers (nrm : V → K) (extent : List V → K) (eps : K) (sdeg : Option ℕ)
    (bs : List (Bezier V)) : Outcome (BSpline K V) :=
  combineBeziers nrm extent eps sdeg bs (List.map (Nat.cast : ℕ → K) (List.range (bs.length + 1)))

/-- The `for_each` of `elevate_degree`, BSpline.h:409-413. -/
def elevateAll : List (Bezier V) → Outcome (List (Bezier V))
  | [] => ok []
  | b :: bs => do
    let b ← Bezier.elevateDegree K b
    let bs ← elevateAll bs
    pure (b :: bs)

/-- `elevate_degree`, BSpline.h:394-418. -/
def elevateDegree [IsStrictOrderedRing K] [FloorRing K] (nrm : V → K) (extent : List V → K)
    (eps : K) (c : BSpline K V) : Outcome (BSpline K V) := do
  throwIf (c.degree = 0) .invalidSetting
  let r ← c.toBezier eps
  let bs ← elevateAll (K := K) r.1
  let n ← combineBeziers nrm extent eps (c.sdeg.map (· + 1)) bs r.2
  pure { n with periodic := c.periodic }

end NS.BSpline

namespace NS.NURBS

open Outcome

variable {K V : Type} [Field K] [LinearOrder K] [AddCommGroup V] [Module K V]

/-- `combine_rational_Beziers`, NURBS.h:357-371. -/
def combineBeziers (nrm : V × K → K) (extent : List (V × K) → K) (eps : K) (sdeg : Option ℕ)
    (bs : List (RationalBezier K V)) (bounds : List K) : Outcome (NURBS K V) := do
  let h ← BSpline.combineBeziers nrm extent eps sdeg (bs.map (·.hom)) bounds
  ofHomogeneous h

/-- `elevate_degree`, NURBS.h:333-341. -/
def elevateDegree [IsStrictOrderedRing K] [FloorRing K] (nrm : V × K → K)
    (extent : List (V × K) → K) (eps : K) (c : NURBS K V) : Outcome (NURBS K V) := do
  c.validate
  let h ← c.hom.elevateDegree nrm extent eps
  let r ← ofHomogeneous h
  Outcome.assert (r.base.periodic = c.base.periodic)
  pure r

end NS.NURBS
