import Verif.Model.Ieee
import Verif.Model.Inverse

/-!
# Closest point searches on IEEE numbers

The searches of `CurveBase.h` and `PatchBase.h` with overflow, infinities and NaN.  The evaluators are
arbitrary; so are the reductions and small matrix operations of Eigen, whose order of operations
depends on the compiler.  Number constants and the ranges are those of the code.
-/

namespace NS.Ieee

open Outcome

variable {K ι : Type} [Field K] [LinearOrder K] [IsStrictOrderedRing K] [FloorRing K]

namespace Num

/-- `std::min(a, b)`: the first argument unless the second is smaller. -/
def stdMin (a b : Num K) : Num K := if b.lt a then b else a

/-- `std::max(a, b)`: the first argument unless the second is larger. -/
def stdMax (a b : Num K) : Num K := if a.lt b then b else a

/-- `std::abs`. -/
def abs : Num K → Num K
  | fin x => fin |x|
  | inf _ => inf false
  | nan => nan

end Num

/-- Eigen operations: `dot` (also `squaredNorm`) and `norm` of points, the denominator
`(p - d0).dot(d2) - d1.squaredNorm()` of CurveBase.h:188, an entry `x.dot(y) + r.dot(z)` of the matrix
of PatchBase.h:350-351, the determinant of PatchBase.h:352 and the product with the inverse of
PatchBase.h:359 (entries by rows, then the right hand side). -/
structure EigenOps (K ι : Type) where
  dot : (ι → Num K) → (ι → Num K) → Num K
  norm : (ι → Num K) → Num K
  denom : (ι → Num K) → (ι → Num K) → (ι → Num K) → Num K
  entry : (ι → Num K) → (ι → Num K) → (ι → Num K) → (ι → Num K) → Num K
  det : Num K → Num K → Num K → Num K → Num K
  solve : Num K → Num K → Num K → Num K → Num K → Num K → Num K × Num K

/-- Difference of points. -/
def subPoint (A : Format K) (x y : ι → Num K) : ι → Num K := fun i => A.sub (x i) (y i)

/-! ### Curves -/

/-- `evaluate_2nd_derivative` of a Bézier curve, Bezier.h:88-109. -/
def bezier2ndDerivative (A : Format K) (F : ℕ → ℕ → ι → Fuse) (c : Bezier (ι → Num K)) (t : Num K) :
    Outcome (ι → Num K) := do
  let t ← bezierWrap A c.periodic t
  Outcome.assert (c.degree ≥ 0)
  if c.degree ≤ 1 then ok (fun _ => .fin 0) else do
    let d ← bezierDerivCoef A c.degree.toNat c.ctrl
    let d ← bezierDerivCoef A (c.degree - 1).toNat d
    bezierDeBoor A F c.degree.toNat t (c.degree - 2) d

/-- The virtual evaluators of a Bézier curve, Bezier.h:43-51, 67-86 and 88-109. -/
def bezierFn (A : Format K) (F : ℕ → ℕ → ι → Fuse) (c : Bezier (ι → Num K)) :
    CurveFn (Num K) (ι → Num K) where
  ev := bezierEvaluate A F c
  d1 := bezierDerivative A F c
  d2 := bezier2ndDerivative A F c

/-- The squared distance, CurveBase.h:154-155. -/
def curveDist (A : Format K) (E : EigenOps K ι) (c : CurveFn (Num K) (ι → Num K)) (p : ι → Num K)
    (t : Num K) : Outcome (Num K) := do
  let q ← c.ev t
  pure (E.dot (subPoint A p q) (subPoint A p q))

/-- `f` and the step `f / df`, CurveBase.h:184-188 and 196.  A zero `df` counts as positive zero; the
results about the search hold for any step. -/
def curveStep (A : Format K) (E : EigenOps K ι) (c : CurveFn (Num K) (ι → Num K)) (p : ι → Num K)
    (t : Num K) : Outcome (Num K × Num K) := do
  let d0 ← c.ev t
  let d1 ← c.d1 t
  let d2 ← c.d2 t
  let f := E.dot (subPoint A p d0) d1
  pure (f, A.round (Num.div f (E.denom (subPoint A p d0) d2 d1)))

/-- A sample of the search, CurveBase.h:153; the product may be contracted with the sum. -/
def searchParam (A : Format K) (f : Fuse) (lower upper : Num K) (num i : ℕ) : Num K :=
  A.combine f (A.round (Num.div (A.round (.fin (i : K))) (A.round (.fin (num : K)))))
    (A.sub upper lower) (.fin 1) lower

/-- The sampling loop of `CurveBase::approximate_inverse_evaluate`, CurveBase.h:150-161; state
`min_dist`, `min_t`. -/
def closestSample (A : Format K) (f : ℕ → Fuse) (dist : Num K → Outcome (Num K)) (num : ℕ)
    (lower upper : Num K) : Outcome (Num K × Num K) :=
  loop (num + 1) (fun i s => do
    let t := searchParam A (f i) lower upper num i
    let d ← dist t
    pure (if d.lt s.1 then (d, t) else s)) (.fin A.big, .fin 0)

/-- `CurveBase::newton_raphson`, CurveBase.h:174-201; `g` computes `f` and `f / df`. -/
def newtonCurve (A : Format K) (g : Num K → Outcome (Num K × Num K)) (tol lower upper : Num K) :
    ℕ → Num K → Num K → Num K → Outcome (Num K)
  | 0, t, _, _ => ok t
  | n + 1, t, prevT, prevErr => do
    let s ← g t
    let err := s.1.abs
    if err.lt tol then ok t
    else if Num.lt (.fin 0) prevErr && prevErr.lt err then ok prevT
    else if (A.sub t s.2).le lower then ok lower
    else if upper.le (A.sub t s.2) then ok upper
    else newtonCurve A g tol lower upper n (A.sub t s.2) t err

/-- `CurveBase::approximate_inverse_evaluate`, CurveBase.h:141-172. -/
def curveSearch (A : Format K) (f : ℕ → ℕ → Fuse) (tol : Num K) (dist : Num K → Outcome (Num K))
    (g : Num K → Outcome (Num K × Num K)) (num : ℕ) : ℕ → Num K → Num K → Outcome (Num K)
  | 0, lower, upper => do
    Outcome.assert (num > 0)
    let s ← closestSample A (f 0) dist num lower upper
    newtonCurve A g tol lower upper 10 s.2 s.2 (.fin (-1))
  | level + 1, lower, upper => do
    Outcome.assert (num > 0)
    let delta := A.round (Num.div (A.sub upper lower) (A.round (.fin (num : K))))
    let s ← closestSample A (f (level + 1)) dist num lower upper
    curveSearch A f tol dist g num level
      (Num.stdMin (Num.stdMax (A.sub s.2 delta) lower) upper)
      (Num.stdMin (Num.stdMax (A.round (Num.add s.2 delta)) lower) upper)

/-- `approximate_inverse_evaluate` of a curve with evaluators `c`, CurveBase.h:141-172. -/
def curveInverse (A : Format K) (E : EigenOps K ι) (f : ℕ → ℕ → Fuse) (tol : Num K)
    (c : CurveFn (Num K) (ι → Num K)) (p : ι → Num K) (num level : ℕ) (lower upper : Num K) :
    Outcome (Num K) :=
  curveSearch A f tol (curveDist A E c p) (curveStep A E c p) num level lower upper

/-! ### Patches -/

/-- The squared distance, PatchBase.h:253-254; with the other sign of the difference (lines 302-303)
the products are the same. -/
def patchDist (A : Format K) (E : EigenOps K ι) (s : PatchFn (Num K) (ι → Num K)) (p : ι → Num K)
    (u v : Num K) : Outcome (Num K) := do
  let q ← s.ev u v
  pure (E.dot (subPoint A p q) (subPoint A p q))

/-- Sample position `i` of `num` of the search on patches, PatchBase.h:248-249 and 251-252. -/
def gridParam (A : Format K) (num : ℕ) (lo hi : Num K) (i : ℕ) : Num K :=
  if i = num then hi
  else A.round (Num.add (A.round (Num.div
    (A.round (Num.mul (A.round (.fin (i : K))) (A.sub hi lo))) (A.round (.fin (num : K))))) lo)

/-- One sample, PatchBase.h:254-263. -/
def update (b : PatchBase.Best (Num K)) (dist : Num K) (uv : Num K × Num K) : PatchBase.Best (Num K) :=
  if dist.lt b.dist then ⟨dist, uv, b.dist, b.uv⟩
  else if dist.lt b.dist2 then ⟨b.dist, b.uv, dist, uv⟩
  else b

/-- The sampling loop of `PatchBase::approximate_inverse_evaluate`, PatchBase.h:244-265. -/
def bestSamples (A : Format K) (dist : Num K → Num K → Outcome (Num K)) (nu nv : ℕ)
    (minU maxU minV maxV : Num K) : Outcome (PatchBase.Best (Num K)) :=
  loop (nu + 1) (fun i b => loop (nv + 1) (fun j b => do
    let u := gridParam A nu minU maxU i
    let v := gridParam A nv minV maxV j
    let d ← dist u v
    pure (update b d (u, v))) b) ⟨.fin A.big, (minU, minV), .fin A.big, (minU, minV)⟩

/-- `on_opposite_boundary`, PatchBase.h:282-288. -/
def onOpposite (A : Format K) (tol uRange vRange : Num K) (a b : Num K × Num K) : Bool :=
  (Num.abs (A.sub (Num.abs (A.sub a.1 b.1)) uRange)).lt tol ||
    (Num.abs (A.sub (Num.abs (A.sub a.2 b.2)) vRange)).lt tol

/-- `PatchBase::approximate_inverse_evaluate`, PatchBase.h:235-306; `milli` is `1e-3`. -/
def patchSearch (A : Format K) (tol milli uRange vRange : Num K)
    (dist : Num K → Num K → Outcome (Num K)) (nu nv : ℕ) :
    ℕ → Num K → Num K → Num K → Num K → Outcome (Num K × Num K)
  | 0, minU, maxU, minV, maxV => do
    let b ← bestSamples A dist nu nv minU maxU minV maxV
    pure b.uv
  | level + 1, minU, maxU, minV, maxV => do
    let b ← bestSamples A dist nu nv minU maxU minV maxV
    let delU := A.round (Num.div (A.sub maxU minU) (A.round (.fin (nu : K))))
    let delV := A.round (Num.div (A.sub maxV minV) (A.round (.fin (nv : K))))
    let sub : Num K × Num K → Outcome (Num K × Num K) := fun x =>
      patchSearch A tol milli uRange vRange dist nu nv level
        (Num.stdMax (A.sub x.1 delU) minU) (Num.stdMin (A.round (Num.add x.1 delU)) maxU)
        (Num.stdMax (A.sub x.2 delV) minV) (Num.stdMin (A.round (Num.add x.2 delV)) maxV)
    if (A.round (Num.mul b.dist milli)).lt (Num.abs (A.sub b.dist b.dist2)) ||
        !onOpposite A tol uRange vRange b.uv b.uv2 then
      sub b.uv
    else do
      let c1 ← sub b.uv
      let c2 ← sub b.uv2
      let d1 ← dist c1.1 c1.2
      let d2 ← dist c2.1 c2.2
      pure (if d1.lt d2 then c1 else c2)

/-- `std::max(lo, std::min(hi, x))`, PatchBase.h:188-189. -/
def clampTo (lo hi x : Num K) : Num K := Num.stdMax lo (Num.stdMin hi x)

/-- The clamping at the end of an iteration, PatchBase.h:364-367. -/
def clampStep (lo hi x : Num K) : Num K :=
  if hi.lt (if x.lt lo then lo else x) then hi else (if x.lt lo then lo else x)

/-- `PatchBase::newton_raphson`, PatchBase.h:308-371: the loop with `n` iterations left and state
`(u, v)`, `prev_uv`, `prev_dist`.  Result: the final `uv` and the returned flag. -/
def newtonPatch (A : Format K) (E : EigenOps K ι) (s : PatchFn (Num K) (ι → Num K)) (p : ι → Num K)
    (tol minU maxU minV maxV : Num K) :
    ℕ → Num K → Num K → Num K × Num K → Num K → Outcome ((Num K × Num K) × Bool)
  | 0, u, v, _, _ => ok ((u, v), true)
  | n + 1, u, v, prev, prevDist => do
    let q ← s.ev u v
    let r := subPoint A q p
    let dist := E.norm r
    if dist.lt tol || (Num.abs (A.sub dist prevDist)).lt tol then ok ((u, v), true)
    else if prevDist.lt dist then ok (prev, false)
    else do
      let su ← s.du u v
      let sv ← s.dv u v
      if (Num.abs (E.dot su r)).lt tol && (Num.abs (E.dot sv r)).lt tol then ok ((u, v), true)
      else do
        let suu ← s.duu u v
        let svv ← s.dvv u v
        let suv ← s.duv u v
        let a := E.entry su su r suu
        let b := E.entry su sv r suv
        let c := E.entry sv su r suv
        let d := E.entry sv sv r svv
        if (E.det a b c d).le (.fin 0) then ok ((u, v), false)
        else
          let δ := E.solve a b c d (Num.neg (E.dot r su)) (Num.neg (E.dot r sv))
          newtonPatch A E s p tol minU maxU minV maxV n
            (clampStep minU maxU (A.round (Num.add u δ.1)))
            (clampStep minV maxV (A.round (Num.add v δ.2))) (u, v) dist

/-- `PatchBase::inverse_evaluate` with an initial guess, PatchBase.h:177-194. -/
def inverseFrom (A : Format K) (E : EigenOps K ι) (s : PatchFn (Num K) (ι → Num K)) (p : ι → Num K)
    (u v minU maxU minV maxV : Num K) (iters : ℕ) (tol : Num K) :
    Outcome ((Num K × Num K) × Bool) := do
  let u0 := clampTo minU maxU u
  let v0 := clampTo minV maxV v
  let r ← newtonPatch A E s p tol minU maxU minV maxV iters u0 v0 (u0, v0) (.fin A.big)
  Outcome.assert (minU.le r.1.1 ∧ r.1.1.le maxU)
  Outcome.assert (minV.le r.1.2 ∧ r.1.2.le maxV)
  pure r

/-- `PatchBase::inverse_evaluate` over a box, PatchBase.h:144-155: recursion level 10, 20 iterations;
`tol10`, `tol100` are 10 and 100 times epsilon. -/
def patchInverse (A : Format K) (E : EigenOps K ι) (tol10 tol100 milli uRange vRange : Num K)
    (s : PatchFn (Num K) (ι → Num K)) (p : ι → Num K) (nu nv : ℕ) (minU maxU minV maxV : Num K) :
    Outcome ((Num K × Num K) × Bool) := do
  let uv ← patchSearch A tol10 milli uRange vRange (patchDist A E s p) nu nv 10 minU maxU minV maxV
  inverseFrom A E s p uv.1 uv.2 minU maxU minV maxV 20 tol100

end NS.Ieee
