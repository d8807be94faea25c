import Verif.Model.BezierSearch
import Verif.Model.ControlSearch
import Verif.Model.SpanSearch
import Verif.Model.Numeric
import Verif.Model.InverseArcLength
import Verif.Proof.Turned
import Verif.Props.SpanSearch
import Verif.Spec.Geom

/-!
# Queries do not depend on the position of the object (C110)

A linear map that keeps lengths (rotation, reflection, embedding into a space of higher dimension) followed by a
translation is applied to the object and to the query.
-/

set_option linter.unusedSectionVars false

namespace NS.Props

open Outcome Geom LawfulGeom

section Generic

variable {K V W : Type} [Field K] [LinearOrder K] [IsStrictOrderedRing K] [FloorRing K]
  [AddCommGroup V] [Module K V] [Geom K V] [LawfulGeom K V]
  [AddCommGroup W] [Module K W] [Geom K W] [LawfulGeom K W]

/-- A map that keeps distances: rotations, reflections, translations, and embeddings into a space of higher
dimension. -/
def Rigid (f : V →ᵃ[K] W) : Prop := ∀ x y, (Geom.norm (f x - f y) : K) = Geom.norm (x - y)

variable {f : V →ᵃ[K] W}

theorem diff_moved (f : V →ᵃ[K] W) (x y : V) : f x - f y = f.linear (x - y) := by
  rw [affine_eq f x, affine_eq f y, map_sub]; abel

theorem Rigid.norm (h : Rigid f) (x : V) : (Geom.norm (f.linear x) : K) = Geom.norm x := by
  have e := h x 0
  rwa [diff_moved, sub_zero] at e

theorem Rigid.sq (h : Rigid f) (x : V) : (sqNorm (f.linear x) : K) = sqNorm x := by
  change (Geom.dot (f.linear x) (f.linear x) : K) = Geom.dot x x
  rw [← norm_sq, ← norm_sq, h.norm]

theorem Rigid.dot (h : Rigid f) (x y : V) : (dot (f.linear x) (f.linear y) : K) = dot x y := by
  have hA : ∀ x, (Geom.dot (f.linear x) (f.linear x) : K) = Geom.dot x x := h.sq
  generalize f.linear = A at *
  have e := hA (x + y)
  rw [map_add, dot_add, dot_comm (K := K) (A x) (A x + A y), dot_comm (K := K) (A y) (A x + A y), dot_add, dot_add,
    dot_add, dot_comm (K := K) x (x + y), dot_comm (K := K) y (x + y), dot_add, dot_add, hA x, hA y,
    dot_comm (K := K) (A y) (A x), dot_comm (K := K) y x] at e
  linarith

/-- A curve and its image: points are moved, derivatives turned. -/
structure MovedCurve (f : V →ᵃ[K] W) (c : CurveFn K V) (c' : CurveFn K W) : Prop where
  ev : ∀ t, c'.ev t = f <$> c.ev t
  d1 : ∀ t, c'.d1 t = f.linear <$> c.d1 t
  d2 : ∀ t, c'.d2 t = f.linear <$> c.d2 t

/-- A patch and its image. -/
structure MovedPatch (f : V →ᵃ[K] W) (s : PatchFn K V) (s' : PatchFn K W) : Prop where
  ev : ∀ u v, s'.ev u v = f <$> s.ev u v
  du : ∀ u v, s'.du u v = f.linear <$> s.du u v
  dv : ∀ u v, s'.dv u v = f.linear <$> s.dv u v
  duu : ∀ u v, s'.duu u v = f.linear <$> s.duu u v
  dvv : ∀ u v, s'.dvv u v = f.linear <$> s.dvv u v
  duv : ∀ u v, s'.duv u v = f.linear <$> s.duv u v

theorem bind_moved {α β γ : Type} {o : Outcome α} {f : α → β} {g : β → Outcome γ} {g' : α → Outcome γ}
    (h : ∀ x, o = ok x → g (f x) = g' x) : ((f <$> o) >>= g) = (o >>= g') := by
  cases o with
  | ok x => exact h x rfl
  | throw e => rfl
  | ub => rfl

variable {c : CurveFn K V} {c' : CurveFn K W} {s : PatchFn K V} {s' : PatchFn K W}

theorem newtonCurve_moved (hA : Rigid f) (h : MovedCurve f c c') (p : V) (tol lower upper : K) (n : ℕ) (t pt pe : K) :
    newtonCurve c' (f p) tol lower upper n t pt pe = newtonCurve c p tol lower upper n t pt pe := by
  induction n generalizing t pt pe with
  | zero => rfl
  | succ n ih =>
    unfold newtonCurve
    rw [h.ev, h.d1, h.d2]
    refine bind_moved fun x _ => bind_moved fun y _ => bind_moved fun z _ => ?_
    simp only [diff_moved, hA.dot, hA.sq, ih]

theorem closestSample_moved (hA : Rigid f) (h : MovedCurve f c c') (big : K) (p : V) (num : ℕ) (lower upper : K) :
    closestSample big c' (f p) num lower upper = closestSample big c p num lower upper := by
  unfold closestSample
  refine loop_congr _ _ fun i _ s => ?_
  simp only [h.ev]
  refine bind_moved fun x _ => ?_
  simp only [diff_moved, hA.sq]

/-- **C110** (curves): Newton refinement and the closest point search return the same parameter for the moved curve and
the moved query, whatever the curve class. -/
theorem C110_newton (hA : Rigid f) (h : MovedCurve f c c') (p : V) (t : K) (iters : ℕ) (tol lower upper : K) :
    newtonRaphson c' (f p) t iters tol lower upper = newtonRaphson c p t iters tol lower upper :=
  newtonCurve_moved hA h p tol lower upper iters t t (-1)

theorem C110_curve_search (hA : Rigid f) (h : MovedCurve f c c') (big tol : K) (p : V) (num level : ℕ) (lower upper : K) :
    approxInverse big tol c' (f p) num level lower upper = approxInverse big tol c p num level lower upper := by
  induction level generalizing lower upper with
  | zero => simp only [approxInverse, closestSample_moved hA h, C110_newton hA h]
  | succ n ih => simp only [approxInverse, closestSample_moved hA h, ih]

theorem newtonPatch_moved (hA : Rigid f) (h : MovedPatch f s s') (p : V) (tol a₁ a₂ a₃ a₄ : K) (n : ℕ) (u v : K)
    (prev : K × K) (pd : K) :
    PatchBase.newtonPatch s' (f p) tol a₁ a₂ a₃ a₄ n u v prev pd
      = PatchBase.newtonPatch s p tol a₁ a₂ a₃ a₄ n u v prev pd := by
  induction n generalizing u v prev pd with
  | zero => rfl
  | succ n ih =>
    unfold PatchBase.newtonPatch
    rw [h.ev]
    refine bind_moved fun x _ => ?_
    simp only [diff_moved, hA.norm]
    split_ifs
    · rfl
    · rfl
    · rw [h.du, h.dv]
      refine bind_moved fun y _ => bind_moved fun z _ => ?_
      simp only [hA.dot]
      split_ifs
      · rfl
      · rw [h.duu, h.dvv, h.duv]
        refine bind_moved fun x1 _ => bind_moved fun x2 _ => bind_moved fun x3 _ => ?_
        simp only [hA.dot, hA.sq, ih]

theorem bestSamples_moved (hA : Rigid f) (h : MovedPatch f s s') (big : K) (p : V) (nu nv : ℕ) (a₁ a₂ a₃ a₄ : K) :
    PatchBase.bestSamples big s' (f p) nu nv a₁ a₂ a₃ a₄ = PatchBase.bestSamples big s p nu nv a₁ a₂ a₃ a₄ := by
  unfold PatchBase.bestSamples
  refine loop_congr _ _ fun i _ q => loop_congr _ _ fun j _ q => ?_
  simp only [h.ev]
  refine bind_moved fun x _ => ?_
  simp only [diff_moved, hA.sq]

theorem C110_patch_from (hA : Rigid f) (h : MovedPatch f s s') (big : K) (p : V) (u v a₁ a₂ a₃ a₄ : K) (iters : ℕ) (tol : K) :
    PatchBase.inverseFrom big s' (f p) u v a₁ a₂ a₃ a₄ iters tol
      = PatchBase.inverseFrom big s p u v a₁ a₂ a₃ a₄ iters tol := by
  unfold PatchBase.inverseFrom
  simp only [newtonPatch_moved hA h]

theorem patchSearch_moved (hA : Rigid f) (h : MovedPatch f s s') (big tol ur vr : K) (p : V) (nu nv level : ℕ)
    (a₁ a₂ a₃ a₄ : K) :
    PatchBase.approxInverse big tol ur vr s' (f p) nu nv level a₁ a₂ a₃ a₄
      = PatchBase.approxInverse big tol ur vr s p nu nv level a₁ a₂ a₃ a₄ := by
  induction level generalizing a₁ a₂ a₃ a₄ with
  | zero => simp only [PatchBase.approxInverse, bestSamples_moved hA h]
  | succ n ih =>
    unfold PatchBase.approxInverse
    rw [bestSamples_moved hA h]
    refine congrArg _ (funext fun q => congrArg _ (funext fun _ => ?_))
    simp only [ih]
    split_ifs
    · rfl
    · refine congrArg _ (funext fun c1 => congrArg _ (funext fun c2 => ?_))
      rw [h.ev, h.ev]
      refine bind_moved fun x _ => bind_moved fun y _ => ?_
      simp only [diff_moved, hA.sq]

/-- **C110** (patches): `inverse_evaluate` of `PatchBase`. -/
theorem C110_patch_search (hA : Rigid f) (h : MovedPatch f s s') (big tol10 tol100 ur vr : K) (p : V) (nu nv : ℕ)
    (a₁ a₂ a₃ a₄ : K) :
    PatchBase.inverseEvaluate big tol10 tol100 ur vr s' (f p) nu nv a₁ a₂ a₃ a₄
      = PatchBase.inverseEvaluate big tol10 tol100 ur vr s p nu nv a₁ a₂ a₃ a₄ := by
  unfold PatchBase.inverseEvaluate
  rw [patchSearch_moved hA h]
  refine congrArg _ (funext fun uv => ?_)
  exact C110_patch_from hA h big p _ _ _ _ _ _ _ _

/-- **C110** (curvature): the curvature vector is turned. -/
theorem C110_curvature (hA : Rigid f) (h : MovedCurve f c c') (t : K) :
    curvature c'.d1 c'.d2 t = f.linear <$> curvature c.d1 c.d2 t := by
  unfold curvature
  refine bind_map_rel (h.d1 t) fun x _ => bind_map_rel (h.d2 t) fun y _ => ?_
  simp only [hA.sq, hA.dot, pure_eq, map_ok]
  split_ifs
  · rw [map_zero]
  · simp only [map_smul, map_sub]

/-- **C110** (arc length). -/
theorem C110_arc_length (hA : Rigid f) (h : MovedCurve f c c') (t0 t1 : K) (level : ℕ) (tol : K) :
    arcLength c'.d1 t0 t1 level tol = arcLength c.d1 t0 t1 level tol := by
  have e : curveSpeed (K := K) c'.d1 = curveSpeed c.d1 := by
    funext t
    unfold curveSpeed
    rw [h.d1]
    exact bind_moved fun x _ => by rw [hA.norm]
  unfold arcLength
  rw [e]

theorem speed_moved (hA : Rigid f) (h : MovedCurve f c c') : curveSpeed (K := K) c'.d1 = curveSpeed c.d1 := by
  funext t
  unfold curveSpeed
  rw [h.d1]
  exact bind_moved fun x _ => by rw [hA.norm]

theorem C110_inverse_arc_length (hA : Rigid f) (h : MovedCurve f c c') (t0 t1 l : K) :
    inverseArcLength c'.d1 t0 t1 l = inverseArcLength c.d1 t0 t1 l := by
  unfold inverseArcLength
  simp only [C110_arc_length hA h, speed_moved hA h]

theorem patchSpeed_moved (hA : Rigid f) (h : MovedPatch f s s') (u0 v0 u1 v1 : K) :
    patchSpeed s' u0 v0 u1 v1 = patchSpeed s u0 v0 u1 v1 := by
  funext t
  unfold patchSpeed
  simp only [h.du, h.dv]
  refine bind_moved fun x _ => bind_moved fun y _ => ?_
  rw [← map_smul, ← map_smul, ← map_add, hA.norm]

theorem C110_patch_arc_length (hA : Rigid f) (h : MovedPatch f s s') (u0 v0 u1 v1 : K) (level : ℕ) (tol : K) :
    patchArcLength s' u0 v0 u1 v1 level tol = patchArcLength s u0 v0 u1 v1 level tol := by
  unfold patchArcLength
  rw [patchSpeed_moved hA h]

theorem C110_patch_inverse_arc_length (hA : Rigid f) (h : MovedPatch f s s') (u0 v0 u1 v1 l : K) (iters : ℕ) :
    patchInverseArcLength s' u0 v0 u1 v1 l iters = patchInverseArcLength s u0 v0 u1 v1 l iters := by
  unfold patchInverseArcLength
  simp only [C110_patch_arc_length hA h, patchSpeed_moved hA h]

/-- The plane `n · x + d = 0` moved along. -/
theorem planeErr_moved (hA : Rigid f) (n : V) (d : K) (x : V) :
    planeErr (f.linear n) (d - dot (f.linear n) (f 0)) (f x) = planeErr n d x := by
  unfold planeErr
  rw [affine_eq f x, dot_comm (K := K) (f.linear n) (f.linear x + f 0), dot_add, dot_comm (K := K) (f.linear x),
    dot_comm (K := K) (f 0), hA.dot]
  ring

/-- **C110** (intersections): a curve or patch and the plane moved along give the same parameters. -/
theorem C110_intersect_plane (hA : Rigid f) (h : MovedCurve f c c') (big : K) (n : V) (d t0 : K) (iters : ℕ) (tol : K) :
    intersectPlane big c' (f.linear n) (d - dot (f.linear n) (f 0)) t0 iters tol = intersectPlane big c n d t0 iters tol := by
  have key : ∀ k t pt pe, intersectPlaneGo c' (f.linear n) (d - dot (f.linear n) (f 0)) tol k t pt pe
      = intersectPlaneGo c n d tol k t pt pe := by
    intro k
    induction k with
    | zero => intro t pt pe; rfl
    | succ k ih =>
      intro t pt pe
      unfold intersectPlaneGo
      rw [h.ev]
      refine bind_moved fun x _ => ?_
      simp only [planeErr_moved hA]
      split_ifs
      · rfl
      · rfl
      · rw [h.d1]
        refine bind_moved fun y _ => ?_
        simp only [hA.dot, ih]
  exact key _ _ _ _

theorem C110_intersect_segment (hA : Rigid f) (h : MovedPatch f s s') (big : K) (hyp : K → K → K) (pu pv qu qv : K) (n : V)
    (d u0 v0 : K) (iters : ℕ) (tol : K) :
    intersectSeg big hyp s' pu pv qu qv (f.linear n) (d - dot (f.linear n) (f 0)) u0 v0 iters tol
      = intersectSeg big hyp s pu pv qu qv n d u0 v0 iters tol := by
  have key : ∀ k uv t pt pe, intersectSegGo s' pu pv qu qv (f.linear n) (d - dot (f.linear n) (f 0)) tol k uv t pt pe
      = intersectSegGo s pu pv qu qv n d tol k uv t pt pe := by
    intro k
    induction k with
    | zero => intro uv t pt pe; rfl
    | succ k ih =>
      intro uv t pt pe
      unfold intersectSegGo
      simp only [h.ev]
      refine bind_moved fun x _ => ?_
      simp only [planeErr_moved hA]
      split_ifs
      · rfl
      · rfl
      · rw [h.du, h.dv]
        refine bind_moved fun y _ => bind_moved fun z _ => ?_
        simp only [← map_smul, ← map_add, hA.dot, ih]
  unfold intersectSeg
  simp only [key, h.ev]
  split_ifs
  · refine bind_moved fun x _ => ?_
    simp only [planeErr_moved hA]
  · rfl

theorem C110_intersect_patch (hA : Rigid f) (hc : MovedCurve f c c') (h : MovedPatch f s s') (big t0 u0 v0 : K) (iters : ℕ)
    (tol : K) : intersectPatch big c' s' t0 u0 v0 iters tol = intersectPatch big c s t0 u0 v0 iters tol := by
  have obj : ∀ t u v, objective (K := K) c' s' t u v = objective c s t u v := by
    intro t u v
    unfold objective
    rw [hc.ev, h.ev, hc.d1, h.du, h.dv, hc.d2, h.duu, h.duv, h.dvv]
    refine bind_moved fun x _ => bind_moved fun y _ => bind_moved fun z1 _ => bind_moved fun z2 _ =>
      bind_moved fun z3 _ => bind_moved fun z4 _ => bind_moved fun z5 _ => bind_moved fun z6 _ =>
      bind_moved fun z7 _ => ?_
    simp only [diff_moved, ← map_neg, hA.dot, hA.sq]
  have key : ∀ k x prev pf, intersectPatchGo c' s' tol k x prev pf = intersectPatchGo c s tol k x prev pf := by
    intro k
    induction k with
    | zero => intro x prev pf; rfl
    | succ k ih =>
      intro x prev pf
      unfold intersectPatchGo
      simp only [obj, ih]
  exact key _ _ _ _

/-- **C110** (closedness). -/
theorem C110_is_closed (hA : Rigid f) (h : MovedCurve f c c') (t0 t1 : K) (order : ℕ) (tol : K) :
    isClosed (Geom.norm (K := K)) c'.ev c'.d1 c'.d2 t0 t1 order tol
      = isClosed (Geom.norm (K := K)) c.ev c.d1 c.d2 t0 t1 order tol := by
  unfold isClosed
  simp only [h.ev, h.d1, h.d2]
  refine bind_moved fun x _ => bind_moved fun y _ => ?_
  have e2 : ∀ r : Bool, (if order ≥ 2 then (f.linear <$> c.d2 t0) >>= fun a => (f.linear <$> c.d2 t1) >>= fun b =>
        pure (r && decide ((Geom.norm (a - b) : K) < tol)) else ok r)
      = if order ≥ 2 then c.d2 t0 >>= fun a => c.d2 t1 >>= fun b =>
        pure (r && decide ((Geom.norm (a - b) : K) < tol)) else ok r := by
    intro r
    split_ifs
    · refine bind_moved fun x _ => bind_moved fun y _ => ?_
      rw [← map_sub, hA.norm]
    · rfl
  simp only [diff_moved, hA.norm, e2]
  by_cases h1 : order ≥ 1
  · simp only [h1, if_true]
    refine bind_moved fun x _ => bind_moved fun y _ => ?_
    rw [← map_sub, hA.norm]
  · simp only [h1, if_false]

/-! ### The search over the spans of a spline -/

theorem spans_moved (hA : Rigid f) (h : MovedCurve f c c') {U U' : Type} (k : BSpline K U) (k' : BSpline K U')
    (h1 : k'.knots = k.knots) (h2 : k'.periodic = k.periodic) (h3 : k'.degree = k.degree) (p : V) (num : ℕ)
    (upper period : K) (fuel : ℕ) (lo : K) (s n : ℤ) (b : SpanSearch.Best K) :
    SpanSearch.spans k' c' (f p) num upper period fuel lo s n b
      = SpanSearch.spans k c p num upper period fuel lo s n b := by
  have e : ∀ lo hi (b : SpanSearch.Best K),
      SpanSearch.samplePieceIf c' (f p) num lo hi b = SpanSearch.samplePieceIf c p num lo hi b := by
    intro lo hi b
    unfold SpanSearch.samplePieceIf SpanSearch.samplePiece
    split_ifs
    · refine loop_congr _ _ fun i _ s => ?_
      simp only [h.ev]
      refine bind_moved fun x _ => ?_
      simp only [diff_moved, hA.sq]
    · rfl
  induction fuel generalizing lo s n b with
  | zero => rfl
  | succ m ih =>
    unfold SpanSearch.spans
    simp only [h1, h2, h3, e, ih]

/-- **C110** (splines): the closest point search over the spans of a B-spline or NURBS curve. -/
theorem C110_span_search (hA : Rigid f) (h : MovedCurve f c c') {U U' : Type} (k : BSpline K U) (k' : BSpline K U')
    (h1 : k'.knots = k.knots) (h2 : k'.periodic = k.periodic) (h3 : k'.sdeg = k.sdeg)
    (h4 : k'.ctrl.length = k.ctrl.length) (fuel : ℕ) (big tol : K) (p : V) (level : ℕ) (lower upper : K) :
    SpanSearch.approxInverse fuel big tol k' c' (f p) level lower upper
      = SpanSearch.approxInverse fuel big tol k c p level lower upper := by
  have hd : k'.degree = k.degree := by unfold BSpline.degree; rw [h1, h4]
  have e : ∀ lower upper, SpanSearch.round fuel big k' c' (f p) lower upper
      = SpanSearch.round fuel big k c p lower upper := by
    intro lower upper
    unfold SpanSearch.round SpanSearch.periodCount BSpline.validate BSpline.locateSpan BSpline.lower BSpline.upper
    simp only [h1, h2, h3, h4, hd, spans_moved hA h k k' h1 h2 hd]
  induction level generalizing lower upper with
  | zero =>
    unfold SpanSearch.approxInverse
    simp only [e, C110_newton hA h]
  | succ n ih =>
    unfold SpanSearch.approxInverse
    simp only [e, ih]

/-! ### Sampling -/

/-- **C110** (sampling): all three sampling methods give the same parameters. -/
theorem C110_sample (hA : Rigid f) (h : MovedCurve f c c') (fuel num : ℕ) (t0 t1 : K) (level : ℕ) (tol : K)
    (m : SampleMethod) :
    sample fuel (fun a b => arcLength c'.d1 a b level tol) (fun l => inverseArcLength c'.d1 t0 t1 l) c'.ev num t0 t1 m
      = sample fuel (fun a b => arcLength c.d1 a b level tol) (fun l => inverseArcLength c.d1 t0 t1 l) c.ev num t0 t1 m := by
  simp only [C110_arc_length hA h, C110_inverse_arc_length hA h]
  have e : ∀ (len : K → K → Outcome K) tol n a b, adaptiveGo len c'.ev tol n a b = adaptiveGo len c.ev tol n a b := by
    intro len tol n
    induction n with
    | zero => intro a b; rfl
    | succ n ih =>
      intro a b
      unfold adaptiveGo
      simp only [h.ev, ih]
      refine congrArg _ (funext fun L => ?_)
      refine bind_moved fun x _ => bind_moved fun y _ => ?_
      rw [diff_moved, hA.norm]
  unfold sample adaptive
  simp only [e]

end Generic

/-! ### The classes of the library -/

section Classes

variable {K V W : Type} [Field K] [LinearOrder K] [IsStrictOrderedRing K] [FloorRing K]
  [AddCommGroup V] [Module K V] [Geom K V] [AddCommGroup W] [Module K W] [Geom K W] (f : V →ᵃ[K] W)

/-- **C110** (Bézier curves): the point, the first and the second derivative of the curve with control points `f pᵢ`. -/
theorem C110_bezier (c : Bezier V) :
    MovedCurve f c.fn (Bezier.fn { ctrl := c.ctrl.map f, periodic := c.periodic }) where
  ev := C04_bezier_affine_any f c
  d1 := Bezier.evaluateDerivative_affine f c
  d2 := Bezier.evaluate2ndDerivative_affine f c

/-- **C110** (B-spline curves). -/
theorem C110_bspline (c : BSpline K V) :
    MovedCurve f (SpanSearch.fnOf c) (SpanSearch.fnOf (BSpline.mk (c.ctrl.map f) c.knots c.periodic c.sdeg)) where
  ev := C04_bspline_affine f c
  d1 := BSpline.evaluateDerivative_affine f c
  d2 := BSpline.evaluate2ndDerivative_affine f c

/-- The evaluators of a rational Bézier curve. -/
def fnRB (c : RationalBezier K V) : CurveFn K V := ⟨c.evaluate, c.evaluateDerivative, c.evaluate2ndDerivative⟩

/-- The evaluators of a NURBS curve. -/
def fnN (c : NURBS K V) : CurveFn K V := ⟨c.evaluate, c.evaluateDerivative, c.evaluate2ndDerivative⟩

/-- **C110** (rational Bézier curves): initialisation fails for both curves or for neither, and the initialised curves
correspond to each other. -/
theorem C110_rational_bezier (P : List V) (w : List K) (per : Bool) (h : Bezier (V × K)) (h' : Bezier (W × K)) :
    ORel (fun c c' => MovedCurve f (fnRB c) (fnRB c')) (RationalBezier.init ⟨⟨P, per⟩, w, h⟩)
      (RationalBezier.init ⟨⟨P.map f, per⟩, w, h'⟩) := by
  unfold RationalBezier.init
  refine (ORel.of_map (homogenize_affine f P w)).bind fun Q Q' hQ => ?_
  subst hQ
  have hv : RationalBezier.validate (⟨⟨P.map f, per⟩, w, ⟨Q.map (homMap f), per⟩⟩ : RationalBezier K W)
      = RationalBezier.validate (⟨⟨P, per⟩, w, ⟨Q, per⟩⟩ : RationalBezier K V) := by
    simp [RationalBezier.validate]
  have e0 := C04_bezier_affine_any (homMap f).toAffineMap ⟨Q, per⟩
  have e1 := Bezier.evaluateDerivative_affine (homMap f).toAffineMap ⟨Q, per⟩
  have e2 := Bezier.evaluate2ndDerivative_affine (homMap f).toAffineMap ⟨Q, per⟩
  refine ⟨fun t => ?_, fun t => ?_, fun t => ?_⟩
  · change RationalBezier.evaluate _ t = _ <$> RationalBezier.evaluate _ t
    unfold RationalBezier.evaluate
    rw [hv]
    exact bind_map_same fun _ _ => bind_map_rel (e0 t) fun x _ => quot0_affine f x
  · change RationalBezier.evaluateDerivative _ t = _ <$> RationalBezier.evaluateDerivative _ t
    unfold RationalBezier.evaluateDerivative
    rw [hv]
    exact bind_map_same fun _ _ => bind_map_rel (e0 t) fun x _ => bind_map_rel (e1 t) fun y _ => quot1_affine f x y
  · change RationalBezier.evaluate2ndDerivative _ t = _ <$> RationalBezier.evaluate2ndDerivative _ t
    unfold RationalBezier.evaluate2ndDerivative
    rw [hv]
    exact bind_map_same fun _ _ => bind_map_rel (e0 t) fun x _ => bind_map_rel (e1 t) fun y _ =>
      bind_map_rel (e2 t) fun z _ => quot2_affine f x y z

/-- **C110** (NURBS curves). -/
theorem C110_nurbs (c : BSpline K V) (w : List K) (h : BSpline K (V × K)) (h' : BSpline K (W × K)) :
    ORel (fun c c' => MovedCurve f (fnN c) (fnN c')) (NURBS.init ⟨c, w, h⟩)
      (NURBS.init ⟨⟨c.ctrl.map f, c.knots, c.periodic, c.sdeg⟩, w, h'⟩) := by
  unfold NURBS.init
  refine (ORel.of_map (homogenize_affine f c.ctrl w)).bind fun Q Q' hQ => ?_
  subst hQ
  have hb : (BSpline.mk (c.ctrl.map f) c.knots c.periodic c.sdeg).validate = c.validate :=
    BSpline.image_validate f c
  have hv : NURBS.validate (⟨⟨c.ctrl.map f, c.knots, c.periodic, c.sdeg⟩, w,
        ⟨Q.map (homMap f), c.knots, c.periodic, c.sdeg⟩⟩ : NURBS K W)
      = NURBS.validate (⟨c, w, ⟨Q, c.knots, c.periodic, c.sdeg⟩⟩ : NURBS K V) := by
    unfold NURBS.validate
    simp only [hb, List.length_map]
  have e0 := BSpline.evaluate_map (homMap f) ⟨Q, c.knots, c.periodic, c.sdeg⟩
  have e1 := BSpline.evaluateDerivative_map (homMap f) ⟨Q, c.knots, c.periodic, c.sdeg⟩
  have e2 := BSpline.evaluate2ndDerivative_map (homMap f) ⟨Q, c.knots, c.periodic, c.sdeg⟩
  refine ⟨fun t => ?_, fun t => ?_, fun t => ?_⟩
  · change NURBS.evaluate _ t = _ <$> NURBS.evaluate _ t
    unfold NURBS.evaluate
    rw [hv]
    exact bind_map_same fun _ _ => bind_map_rel (e0 t) fun x _ => quot0_affine f x
  · change NURBS.evaluateDerivative _ t = _ <$> NURBS.evaluateDerivative _ t
    unfold NURBS.evaluateDerivative
    rw [hv]
    exact bind_map_same fun _ _ => bind_map_rel (e0 t) fun x _ => bind_map_rel (e1 t) fun y _ => quot1_affine f x y
  · change NURBS.evaluate2ndDerivative _ t = _ <$> NURBS.evaluate2ndDerivative _ t
    unfold NURBS.evaluate2ndDerivative
    rw [hv]
    exact bind_map_same fun _ _ => bind_map_rel (e0 t) fun x _ => bind_map_rel (e1 t) fun y _ =>
      bind_map_rel (e2 t) fun z _ => quot2_affine f x y z

/-- **C110** (Bézier patches). -/
theorem C110_bezier_patch (p : BezierPatch V) :
    MovedPatch f p.fn (BezierPatch.fn (BezierPatch.mk (p.grid.map f) p.degU p.degV p.perU p.perV p.sU p.sV)) where
  ev := C04_patch_affine_any f p
  du u v := bind_map_rel (BezierPatch.isoCurveU_affine f p v) fun c _ => Bezier.evaluateDerivative_affine f c u
  dv u v := bind_map_rel (BezierPatch.isoCurveV_affine f p u) fun c _ => Bezier.evaluateDerivative_affine f c v
  duu u v := bind_map_rel (BezierPatch.isoCurveU_affine f p v) fun c _ => Bezier.evaluate2ndDerivative_affine f c u
  dvv u v := bind_map_rel (BezierPatch.isoCurveV_affine f p u) fun c _ => Bezier.evaluate2ndDerivative_affine f c v
  duv u v := bind_map_rel (BezierPatch.duvPatch_affine f p) fun q _ =>
    C04_patch_affine_any f.linear.toAffineMap q u v

theorem imageBP_moved (bad : V) (p : BSplinePatch K V) :
    MovedPatch f (p.fn bad) ((imageBP f p).fn (f.linear bad)) where
  ev := imageBP_evaluate f p
  du u v := bind_map_rel (BSplinePatch.isoCurveU_affine f p v) fun c _ => BSpline.evaluateDerivative_affine f c u
  dv u v := bind_map_rel (BSplinePatch.isoCurveV_affine f p u) fun c _ => BSpline.evaluateDerivative_affine f c v
  duu u v := bind_map_rel (BSplinePatch.isoCurveU_affine f p v) fun c _ => BSpline.evaluate2ndDerivative_affine f c u
  dvv u v := bind_map_rel (BSplinePatch.isoCurveV_affine f p u) fun c _ => BSpline.evaluate2ndDerivative_affine f c v
  duv u v := bind_map_rel (BSplinePatch.duvPatch_affine f bad p) fun q _ =>
    imageBP_evaluate f.linear.toAffineMap q u v

/-- **C110** (B-spline patches): `bad` stands for the point of infinities a division by an empty knot interval gives. -/
theorem C110_bspline_patch (bad : V) (p : BSplinePatch K V) (iu iv : List (BSpline K W)) :
    ORel (fun q q' => MovedPatch f (BSplinePatch.fn bad q) (BSplinePatch.fn (f.linear bad) q')) p.init
      (BSplinePatch.init (BSplinePatch.mk (p.grid.map f) p.knotsU p.knotsV p.degU p.degV p.perU p.perV p.sU p.sV
        iu iv)) := by
  refine (ORel.of_map (imageBP_init f p iu iv)).mono fun q q' h => ?_
  subst h
  exact imageBP_moved f bad q

/-- The moved rational patch, with its homogeneous patch. -/
def moveRP (f : V →ᵃ[K] W) (q : RationalBezierPatch K V) : RationalBezierPatch K W :=
  ⟨⟨q.base.grid.map f, q.base.degU, q.base.degV, q.base.perU, q.base.perV, q.base.sU, q.base.sV⟩, q.weights,
    ⟨q.hom.grid.map (homMap f), q.hom.degU, q.hom.degV, q.hom.perU, q.hom.perV, q.hom.sU, q.hom.sV⟩⟩

theorem moveRP_moved (small : K) (q : RationalBezierPatch K V) :
    MovedPatch f (RationalBezierPatch.fn small q) (RationalBezierPatch.fn small (moveRP f q)) := by
  have e := @C110_bezier_patch K (V × K) (W × K) _ _ _ _ _ _ ⟨fun _ _ => 0, fun _ => 0⟩ _ _ ⟨fun _ _ => 0, fun _ => 0⟩
    (homMap f).toAffineMap q.hom
  have hv : RationalBezierPatch.validate (moveRP f q) = RationalBezierPatch.validate q := by
    simp [RationalBezierPatch.validate, BezierPatch.degreeU, BezierPatch.degreeV, moveRP]
    congr
  refine ⟨fun u v => ?_, fun u v => ?_, fun u v => ?_, fun u v => ?_, fun u v => ?_, fun u v => ?_⟩
  · change RationalBezierPatch.evaluate _ u v = _ <$> RationalBezierPatch.evaluate _ u v
    unfold RationalBezierPatch.evaluate
    rw [hv]
    exact bind_map_same fun _ _ => bind_map_rel (e.ev u v) fun x _ => quot0_affine f x
  · change RationalBezierPatch.derivU _ u v = _ <$> RationalBezierPatch.derivU _ u v
    unfold RationalBezierPatch.derivU
    rw [hv]
    exact bind_map_same fun _ _ => bind_map_rel (e.ev u v) fun x _ => bind_map_rel (e.du u v) fun y _ =>
      quot1_affine f x y
  · change RationalBezierPatch.derivV _ u v = _ <$> RationalBezierPatch.derivV _ u v
    unfold RationalBezierPatch.derivV
    rw [hv]
    exact bind_map_same fun _ _ => bind_map_rel (e.ev u v) fun x _ => bind_map_rel (e.dv u v) fun y _ =>
      quot1_affine f x y
  · change RationalBezierPatch.derivUU small _ u v = _ <$> RationalBezierPatch.derivUU small _ u v
    unfold RationalBezierPatch.derivUU
    rw [hv]
    exact bind_map_same fun _ _ => bind_map_rel (e.ev u v) fun x _ => bind_map_rel (e.du u v) fun y _ =>
      bind_map_rel (e.duu u v) fun z _ => quotSame_affine f x y z small
  · change RationalBezierPatch.derivVV small _ u v = _ <$> RationalBezierPatch.derivVV small _ u v
    unfold RationalBezierPatch.derivVV
    rw [hv]
    exact bind_map_same fun _ _ => bind_map_rel (e.ev u v) fun x _ => bind_map_rel (e.dv u v) fun y _ =>
      bind_map_rel (e.dvv u v) fun z _ => quotSame_affine f x y z small
  · change RationalBezierPatch.derivUV small _ u v = _ <$> RationalBezierPatch.derivUV small _ u v
    unfold RationalBezierPatch.derivUV
    rw [hv]
    exact bind_map_same fun _ _ => bind_map_rel (e.ev u v) fun x _ => bind_map_rel (e.du u v) fun y _ =>
      bind_map_rel (e.dv u v) fun z _ => bind_map_rel (e.duv u v) fun z' _ => quotMixed_affine f x y z z' small

/-- **C110** (rational Bézier patches). -/
theorem C110_rational_patch (small : K) (p : BezierPatch V) (w : List K) (h : BezierPatch (V × K))
    (h' : BezierPatch (W × K)) :
    ORel (fun q q' => MovedPatch f (RationalBezierPatch.fn small q) (RationalBezierPatch.fn small q'))
      (RationalBezierPatch.init ⟨p, w, h⟩)
      (RationalBezierPatch.init ⟨⟨p.grid.map f, p.degU, p.degV, p.perU, p.perV, p.sU, p.sV⟩, w, h'⟩) := by
  unfold RationalBezierPatch.init
  refine (ORel.of_map (homogenize_affine f p.grid w)).bind fun Q Q' hQ => ?_
  subst hQ
  refine ORel.same _ fun du => ORel.same _ fun dv => ?_
  have hi : BezierPatch.init (⟨Q.map (homMap f), du, dv, p.perU, p.perV, p.sU, p.sV⟩ :
      BezierPatch (W × K)) = BezierPatch.init (⟨Q, du, dv, p.perU, p.perV, p.sU, p.sV⟩ :
      BezierPatch (V × K)) := by
    unfold BezierPatch.init
    simp only [List.length_map]
    rfl
  simp only [hi]
  refine ORel.same _ fun _ => ?_
  exact moveRP_moved f small ⟨p, w, ⟨Q, du, dv, p.perU, p.perV, p.sU, p.sV⟩⟩

/-- The moved NURBS patch, with its homogeneous patch. -/
def moveNP (f : V →ᵃ[K] W) (q : NURBSPatch K V) : NURBSPatch K W :=
  ⟨q.grid.map f, q.weights, q.knotsU, q.knotsV, q.degU, q.degV, q.perU, q.perV, q.sU, q.sV, imageBP (homMap f) q.hom⟩

theorem moveNP_moved (small : K) (bad : V × K) (q : NURBSPatch K V) :
    MovedPatch f (NURBSPatch.fn small bad q) (NURBSPatch.fn small (homMap f bad) (moveNP f q)) := by
  have e := @imageBP_moved K (V × K) (W × K) _ _ _ _ _ _ ⟨fun _ _ => 0, fun _ => 0⟩ _ _ ⟨fun _ _ => 0, fun _ => 0⟩
    (homMap f).toAffineMap bad q.hom
  have hv : NURBSPatch.validate (moveNP f q) = NURBSPatch.validate q := by
    unfold NURBSPatch.validate
    simp only [moveNP, imageBP, List.length_map]
    congr
  refine ⟨fun u v => ?_, fun u v => ?_, fun u v => ?_, fun u v => ?_, fun u v => ?_, fun u v => ?_⟩
  · change NURBSPatch.evaluate _ u v = _ <$> NURBSPatch.evaluate _ u v
    unfold NURBSPatch.evaluate
    rw [hv]
    exact bind_map_same fun _ _ => bind_map_rel (e.ev u v) fun x _ => quot0_affine f x
  · change NURBSPatch.derivU _ u v = _ <$> NURBSPatch.derivU _ u v
    unfold NURBSPatch.derivU
    rw [hv]
    exact bind_map_same fun _ _ => bind_map_rel (e.ev u v) fun x _ => bind_map_rel (e.du u v) fun y _ =>
      quot1_affine f x y
  · change NURBSPatch.derivV _ u v = _ <$> NURBSPatch.derivV _ u v
    unfold NURBSPatch.derivV
    rw [hv]
    exact bind_map_same fun _ _ => bind_map_rel (e.ev u v) fun x _ => bind_map_rel (e.dv u v) fun y _ =>
      quot1_affine f x y
  · change NURBSPatch.derivUU small _ u v = _ <$> NURBSPatch.derivUU small _ u v
    unfold NURBSPatch.derivUU
    rw [hv]
    exact bind_map_same fun _ _ => bind_map_rel (e.ev u v) fun x _ => bind_map_rel (e.du u v) fun y _ =>
      bind_map_rel (e.duu u v) fun z _ => quotSame_affine f x y z small
  · change NURBSPatch.derivVV small _ u v = _ <$> NURBSPatch.derivVV small _ u v
    unfold NURBSPatch.derivVV
    rw [hv]
    exact bind_map_same fun _ _ => bind_map_rel (e.ev u v) fun x _ => bind_map_rel (e.dv u v) fun y _ =>
      bind_map_rel (e.dvv u v) fun z _ => quotSame_affine f x y z small
  · change NURBSPatch.derivUV small (homMap f bad) _ u v = _ <$> NURBSPatch.derivUV small bad _ u v
    unfold NURBSPatch.derivUV
    rw [hv]
    exact bind_map_same fun _ _ => bind_map_rel (e.ev u v) fun x _ => bind_map_rel (e.du u v) fun y _ =>
      bind_map_rel (e.dv u v) fun z _ => bind_map_rel (e.duv u v) fun z' _ => quotMixed_affine f x y z z' small

/-- **C110** (NURBS patches). -/
theorem C110_nurbs_patch (small : K) (bad : V × K) (p : NURBSPatch K V) (h' : BSplinePatch K (W × K)) :
    ORel (fun q q' => MovedPatch f (NURBSPatch.fn small bad q) (NURBSPatch.fn small (homMap f bad) q')) p.init
      (NURBSPatch.init ⟨p.grid.map f, p.weights, p.knotsU, p.knotsV, p.degU, p.degV, p.perU, p.perV, p.sU, p.sV, h'⟩) := by
  unfold NURBSPatch.init
  simp only [List.length_map]
  refine ORel.same _ fun _ => ?_
  refine (ORel.of_map (homogenize_affine f p.grid p.weights)).bind fun Q Q' hQ => ?_
  subst hQ
  refine ORel.same _ fun du => ORel.same _ fun dv => ?_
  refine (ORel.of_map (imageBP_init (homMap f) (BSplinePatch.mk Q p.knotsU p.knotsV du dv p.perU
    p.perV p.sU p.sV p.hom.isoU p.hom.isoV) h'.isoU h'.isoV)).bind fun X X' hX => ?_
  subst hX
  exact moveNP_moved f small bad { p with hom := X }

end Classes

/-! ### End to end -/

section EndToEnd

variable {K V W : Type} [Field K] [LinearOrder K] [IsStrictOrderedRing K] [FloorRing K]
  [AddCommGroup V] [Module K V] [Geom K V] [LawfulGeom K V]
  [AddCommGroup W] [Module K W] [Geom K W] [LawfulGeom K W] {f : V →ᵃ[K] W}

/-- **C110** (closest point of a Bézier curve): the same parameter for the moved curve and the moved query. -/
theorem C110_bezier_inverse (hA : Rigid f) (c : Bezier V) (big tol : K) (p : V) (lower upper : K) (level : ℕ) :
    Bezier.approxInverse big tol { ctrl := c.ctrl.map f, periodic := c.periodic } (f p) lower upper level
      = Bezier.approxInverse big tol c p lower upper level := by
  unfold Bezier.approxInverse Bezier.degree
  rw [C110_curve_search hA (C110_bezier f c), List.length_map]

/-- **C110** (closest point of a B-spline curve). -/
theorem C110_bspline_inverse (hA : Rigid f) (c : BSpline K V) (fuel : ℕ) (big tol : K) (p : V) (level : ℕ)
    (lower upper : K) :
    SpanSearch.approxInverse fuel big tol (BSpline.mk (c.ctrl.map f) c.knots c.periodic c.sdeg)
        (SpanSearch.fnOf (BSpline.mk (c.ctrl.map f) c.knots c.periodic c.sdeg)) (f p) level lower upper
      = SpanSearch.approxInverse fuel big tol c (SpanSearch.fnOf c) p level lower upper :=
  C110_span_search hA (C110_bspline f c) c (BSpline.mk (c.ctrl.map f) c.knots c.periodic c.sdeg) rfl rfl rfl (by simp) fuel big tol p level lower upper

end EndToEnd

/-- Isometries of Euclidean spaces are rigid. -/
theorem rigid_of_isometry {V W : Type} [NormedAddCommGroup V] [InnerProductSpace ℝ V] [NormedAddCommGroup W]
    [InnerProductSpace ℝ W] (f : V →ᵃ[ℝ] W) (hf : Isometry f) : Rigid f := by
  intro x y
  change ‖f x - f y‖ = ‖x - y‖
  rw [← dist_eq_norm, ← dist_eq_norm, hf.dist_eq]

/-- **C110**: scaling is different.  The tolerances are absolute, so the search gives up on a small copy of a curve: the
point of the segment from `0` to `1` closest to `1 / 3` is found exactly, on the copy of length `10⁻⁸` the answer is the
sample `1 / 4`. -/
theorem C110_scaling_refuted :
    Bezier.approxInverse (10 ^ 300) (1 / 10 ^ 13) (⟨[0, 1], false⟩ : Bezier ℚ) (1 / 3) 0 1 0 = ok (1 / 3 : ℚ) ∧
    Bezier.approxInverse (10 ^ 300) (1 / 10 ^ 13) (⟨[0, 1 / 10 ^ 8], false⟩ : Bezier ℚ) (1 / 3 / 10 ^ 8) 0 1 0
      = ok (1 / 4 : ℚ) := by
  constructor <;> decide +kernel

/-! ### Examples -/

/-- The reflection `x ↦ 5 - x` of the line. -/
def exFlip : ℚ →ᵃ[ℚ] ℚ := AffineMap.const ℚ ℚ (5 : ℚ) - AffineMap.id ℚ ℚ

theorem exFlip_apply (x : ℚ) : exFlip x = 5 - x := by simp [exFlip]

theorem exFlip_rigid : Rigid exFlip := by
  intro x y
  change |exFlip x - exFlip y| = |x - y|
  rw [exFlip_apply, exFlip_apply, abs_sub_comm]
  congr 1
  ring

example : Bezier.approxInverse (10 ^ 300) (1 / 10 ^ 13) (⟨[0, 1, 4], false⟩ : Bezier ℚ) 2 0 (1 : ℚ) 2
    = Bezier.approxInverse (10 ^ 300) (1 / 10 ^ 13) (⟨[5, 4, 1], false⟩ : Bezier ℚ) 3 0 (1 : ℚ) 2 := by
  rw [← C110_bezier_inverse exFlip_rigid]
  simp only [List.map_cons, List.map_nil, exFlip_apply]
  norm_num

example : Bezier.approxInverse (10 ^ 300) (1 / 10 ^ 13) (⟨[0, 1, 3], false⟩ : Bezier ℚ) (5 / 4) 0 1 2 = ok (1 / 2 : ℚ) := by
  decide +kernel

example := C110_bspline_inverse exFlip_rigid (BSpline.mk [1, 3, 4, 2] [0, 0, 0, 1, 2, 2, 2] true none) 20
  (10 ^ 300) (1 / 10 ^ 13) 2 3 0 2

example := C110_patch_search exFlip_rigid (C110_bezier_patch exFlip (BezierPatch.mk [0, 1, 3, 2, 5, 7] 2 1 false false 2 1))
  (10 ^ 300) (1 / 10 ^ 14) (1 / 10 ^ 13) 1 1 3 4 3 0 1 0 1

/-- Initialisation succeeds, so the statements about rational objects are about evaluators. -/
example : ∃ c c', RationalBezier.init (⟨⟨[1, 5, 2], false⟩, [1, 2, 1], ⟨[], false⟩⟩ : RationalBezier ℚ ℚ) = ok c ∧
    RationalBezier.init (⟨⟨[4, 0, 3], false⟩, [1, 2, 1], ⟨[], false⟩⟩ : RationalBezier ℚ ℚ) = ok c' ∧
    MovedCurve exFlip (fnRB c) (fnRB c') := by
  refine ⟨⟨⟨[1, 5, 2], false⟩, [1, 2, 1], ⟨[(1, 1), (10, 2), (2, 1)], false⟩⟩,
    ⟨⟨[4, 0, 3], false⟩, [1, 2, 1], ⟨[(4, 1), (0, 2), (3, 1)], false⟩⟩, by decide +kernel, by decide +kernel, ?_⟩
  have := C110_rational_bezier exFlip [1, 5, 2] [1, 2, 1] false ⟨[], false⟩ ⟨[], false⟩
  simp only [List.map_cons, List.map_nil, exFlip_apply] at this
  norm_num at this
  rwa [show RationalBezier.init (⟨⟨[1, 5, 2], false⟩, [1, 2, 1], ⟨[], false⟩⟩ : RationalBezier ℚ ℚ)
      = ok ⟨⟨[1, 5, 2], false⟩, [1, 2, 1], ⟨[(1, 1), (10, 2), (2, 1)], false⟩⟩ by decide +kernel,
    show RationalBezier.init (⟨⟨[4, 0, 3], false⟩, [1, 2, 1], ⟨[], false⟩⟩ : RationalBezier ℚ ℚ)
      = ok ⟨⟨[4, 0, 3], false⟩, [1, 2, 1], ⟨[(4, 1), (0, 2), (3, 1)], false⟩⟩ by decide +kernel] at this

end NS.Props
