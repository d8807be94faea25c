import Verif.Proof.BSplineMap
import Verif.Model.RationalPatch
import Verif.Props.Bezier
import Verif.Props.BezierPatch
import Mathlib.LinearAlgebra.AffineSpace.AffineMap

/-!
# Affine invariance of evaluation (C04), for every object

The theorems below make no assumption on the object: knots may be unsorted, sizes inconsistent,
parameters outside the domain, weights zero.  Both sides then fail in the same way.
-/

set_option linter.unusedSectionVars false
set_option linter.unusedSimpArgs false

namespace NS.Props

open Outcome NS.BSpline

variable {K V W : Type} [Field K] [LinearOrder K] [IsStrictOrderedRing K] [FloorRing K]
  [AddCommGroup V] [Module K V] [AddCommGroup W] [Module K W]

/-- An affine map keeps combinations with coefficients summing to one. -/
theorem affine_comb (f : V →ᵃ[K] W) (a : K) (x y : V) :
    (1 - a) • f x + a • f y = f ((1 - a) • x + a • y) := by
  have h := f.apply_lineMap x y a
  rw [AffineMap.lineMap_apply_module, AffineMap.lineMap_apply_module] at h
  exact h.symm

theorem affine_eq (f : V →ᵃ[K] W) (x : V) : f x = f.linear x + f 0 := by
  conv_lhs => rw [f.decomp]
  rfl

/-- A loop that writes entry `i` in step `i` forgets the initial array. -/
theorem overwrite_map {α β : Type} (f : α → β) (b : ℕ → Outcome α) (N : ℕ) (x : α) (y : β) (n : ℕ)
    (hn : n ≤ N) :
    (loop n (fun i q => ((f <$> b i) >>= fun a => wr q i a)) (List.replicate N y) =
      (fun q : List α => (q.take n).map f ++ List.replicate (N - n) y) <$>
        loop n (fun i q => (b i >>= fun a => wr q i a)) (List.replicate N x)) ∧
    ∀ q, loop n (fun i q => (b i >>= fun a => wr q i a)) (List.replicate N x) = ok q →
      q.length = N := by
  induction n with
  | zero => exact ⟨by simp, by intro q h; rw [loop_zero, ok.injEq] at h; rw [← h]; simp⟩
  | succ n ih =>
    obtain ⟨h1, h2⟩ := ih (by omega)
    rw [loop_succ, loop_succ, h1]
    generalize loop n (fun i q => (b i >>= fun a => wr q i a)) (List.replicate N x) = o at *
    cases o with
    | throw e => simp
    | ub => simp
    | ok q =>
      have hl := h2 q rfl
      simp only [map_ok, ok_bind]
      generalize b n = z
      cases z with
      | throw e => simp
      | ub => simp
      | ok a =>
        simp only [map_ok, ok_bind]
        rw [wr_of_lt _ (by simp; omega), wr_of_lt _ (by omega), map_ok]
        refine ⟨?_, ?_⟩
        · congr 1
          apply List.ext_getElem
          · simp; omega
          · intro i i1 i2
            rw [List.getElem_set]
            by_cases hi : n = i
            · subst hi
              rw [if_pos rfl, List.getElem_append_left (by simp; omega)]
              simp
            · rw [if_neg hi]
              by_cases hlt : i < n
              · rw [List.getElem_append_left (by simp; omega),
                  List.getElem_append_left (by simp; omega)]
                simp [List.getElem_set, hi]
              · rw [List.getElem_append_right (by simp; omega),
                  List.getElem_append_right (by simp; omega)]
                simp
        · intro q' h
          rw [ok.injEq] at h
          rw [← h]
          simpa using hl

/-- `spanCtrl` overwrites its initial array, so it commutes with every map. -/
theorem spanCtrl_image (f : V → W) (c : BSpline K V) (p : ℕ) (k : ℤ) :
    (image f c).spanCtrl p k = (List.map f) <$> c.spanCtrl p k := by
  let b : ℕ → Outcome V := fun i =>
    (Outcome.assert (k - p + i ≥ 0) >>= fun _ => Outcome.assert (k - p + i < c.ctrl.length) >>=
      fun _ => rdI c.ctrl (k - p + i))
  have e2 : c.spanCtrl p k
      = loop (p + 1) (fun i q => (b i >>= fun a => wr q i a)) (List.replicate (p + 1) 0) := by
    unfold spanCtrl
    refine loop_congr _ _ fun i _ q => ?_
    simp only [b, bind_assoc]
  have e1 : (image f c).spanCtrl p k
      = loop (p + 1) (fun i q => ((f <$> b i) >>= fun a => wr q i a))
        (List.replicate (p + 1) 0) := by
    unfold spanCtrl
    refine loop_congr _ _ fun i _ q => ?_
    have : f <$> b i = (Outcome.assert (k - p + i ≥ 0) >>= fun _ =>
        Outcome.assert (k - p + i < (image f c).ctrl.length) >>=
        fun _ => rdI (image f c).ctrl (k - p + i)) := by
      symm
      rw [image_ctrl, List.length_map]
      exact bind_map_same fun _ _ => bind_map_same fun _ _ => rdI_map f _ _
    rw [this]
    simp only [bind_assoc]
  obtain ⟨h1, h2⟩ := overwrite_map f b (p + 1) 0 0 (p + 1) le_rfl
  rw [e1, h1, e2]
  generalize loop (p + 1) (fun i q => (b i >>= fun a => wr q i a))
    (List.replicate (p + 1) (0 : V)) = o at *
  cases o with
  | ok q => simp [h2 q rfl]
  | throw e => rfl
  | ub => rfl

/-- `blossom` commutes with affine maps. -/
theorem blossom_affine (f : V →ᵃ[K] W) (u bv : List K) (p : ℕ) (k : ℤ) (q : List V) :
    blossom u bv p k (q.map f) = (List.map f) <$> blossom u bv p k q := by
  unfold blossom
  rw [List.length_map]
  refine bind_map_same fun _ _ => ?_
  apply forUp_map
  intro r q
  refine bind_map_same fun t _ => ?_
  apply forDown_map
  intro j q
  refine bind_map_same fun a _ => bind_map_same fun b _ => ?_
  refine bind_map_rel (rd_map f _ _) fun x _ => bind_map_rel (rd_map f _ _) fun y _ => ?_
  rw [← wr_map]
  simp only [affine_comb]

/-- C04: B-spline evaluation commutes with affine maps, for every object and every parameter
(whether or not the call succeeds). -/
theorem C04_bspline_affine (f : V →ᵃ[K] W) (c : BSpline K V) (t : K) :
    (BSpline.mk (c.ctrl.map f) c.knots c.periodic c.sdeg : BSpline K W).evaluate t
      = f <$> c.evaluate t := by
  change (image f c).evaluate t = _
  unfold evaluate
  rw [image_validate, image_wrap, image_degree]
  refine bind_map_same fun _ _ => bind_map_same fun t' _ => ?_
  rw [image_locateSpan]
  refine bind_map_same fun k _ => bind_map_same fun _ _ => ?_
  refine bind_map_rel (spanCtrl_image f c _ _) fun q _ => ?_
  unfold deBoor
  rw [image_degree, image_knots]
  split
  · exact bind_map_rel (blossom_affine f _ _ _ _ _) fun _ _ => rd_map f _ _
  · rw [ok_bind, ok_bind]; exact rd_map f _ _

/-! ### Patches -/

theorem tab_map {α β : Type} (f : α → β) (n : ℕ) (g : ℕ → Outcome α) (g' : ℕ → Outcome β)
    (h : ∀ i < n, g' i = f <$> g i) : tab n g' = (List.map f) <$> tab n g := by
  induction n with
  | zero => rfl
  | succ n ih =>
    rw [tab, tab]
    refine bind_map_rel (ih fun i hi => h i (by omega)) fun l _ => ?_
    refine bind_map_rel (h n (by omega)) fun a _ => ?_
    simp

/-- Image of a patch together with its cached iso-curves. -/
def imageBP (f : V → W) (p : BSplinePatch K V) : BSplinePatch K W :=
  { grid := p.grid.map f, knotsU := p.knotsU, knotsV := p.knotsV, degU := p.degU, degV := p.degV,
    perU := p.perU, perV := p.perV, sU := p.sU, sV := p.sV,
    isoU := p.isoU.map (image f), isoV := p.isoV.map (image f) }

theorem imageBP_allIsoU (f : V → W) (p : BSplinePatch K V) (q : BSplinePatch K W)
    (hg : q.grid = p.grid.map f) (h1 : q.knotsU = p.knotsU) (h2 : q.knotsV = p.knotsV)
    (h3 : q.degU = p.degU) (h4 : q.degV = p.degV) (h5 : q.perU = p.perU) (h6 : q.sU = p.sU) :
    q.allIsoU = (List.map (image f)) <$> p.allIsoU := by
  have eU : q.numU = p.numU := by
    unfold BSplinePatch.numU BSplinePatch.degreeU; rw [h1, h3]
  have eV : q.numV = p.numV := by
    unfold BSplinePatch.numV BSplinePatch.degreeV; rw [h2, h4]
  unfold BSplinePatch.allIsoU
  rw [eU, eV]
  refine bind_map_same fun m _ => bind_map_same fun n _ => ?_
  refine tab_map _ _ _ _ fun j _ => ?_
  refine bind_map_rel (φ := List.map f) (tab_map _ _ _ _ fun i _ => ?_) fun l _ => ?_
  · unfold BSplinePatch.getControlPoint BSplinePatch.linearIndex
    rw [eV, hg]
    refine bind_map_same fun k _ => rd_map _ _ _
  · simp [image, h1, h5, h6]

theorem imageBP_allIsoV (f : V → W) (p : BSplinePatch K V) (q : BSplinePatch K W)
    (hg : q.grid = p.grid.map f) (h1 : q.knotsU = p.knotsU) (h2 : q.knotsV = p.knotsV)
    (h3 : q.degU = p.degU) (h4 : q.degV = p.degV) (h5 : q.perV = p.perV) (h6 : q.sV = p.sV) :
    q.allIsoV = (List.map (image f)) <$> p.allIsoV := by
  have eU : q.numU = p.numU := by
    unfold BSplinePatch.numU BSplinePatch.degreeU; rw [h1, h3]
  have eV : q.numV = p.numV := by
    unfold BSplinePatch.numV BSplinePatch.degreeV; rw [h2, h4]
  unfold BSplinePatch.allIsoV
  rw [eU, eV]
  refine bind_map_same fun m _ => bind_map_same fun n _ => ?_
  refine tab_map _ _ _ _ fun i _ => ?_
  refine bind_map_rel (φ := List.map f) (tab_map _ _ _ _ fun j _ => ?_) fun l _ => ?_
  · unfold BSplinePatch.getControlPoint BSplinePatch.linearIndex
    rw [eV, hg]
    refine bind_map_same fun k _ => rd_map _ _ _
  · simp [image, h2, h5, h6]

/-- `initialize` commutes with every map of the control points. -/
theorem imageBP_init (f : V → W) (p : BSplinePatch K V) (iu iv : List (BSpline K W)) :
    BSplinePatch.init (BSplinePatch.mk (p.grid.map f) p.knotsU p.knotsV p.degU p.degV p.perU p.perV
      p.sU p.sV iu iv) = imageBP f <$> p.init := by
  unfold BSplinePatch.init
  refine bind_map_same fun du _ => bind_map_same fun dv _ => ?_
  simp only [List.length_map]
  refine bind_map_same fun _ _ => ?_
  refine bind_map_rel (imageBP_allIsoU f p _ rfl rfl rfl rfl rfl rfl rfl) fun l _ => ?_
  refine bind_map_rel (imageBP_allIsoV f p _ rfl rfl rfl rfl rfl rfl rfl) fun l' _ => ?_
  rfl

theorem imageBP_evaluate (f : V →ᵃ[K] W) (p : BSplinePatch K V) (u v : K) :
    (imageBP f p).evaluate u v = f <$> p.evaluate u v := by
  unfold BSplinePatch.evaluate
  have hd : ((imageBP f p).degV > (imageBP f p).degU) = (p.degV > p.degU) := rfl
  simp only [hd]
  split
  · refine bind_map_rel (φ := image f) ?_ fun c _ => C04_bspline_affine f c v
    unfold BSplinePatch.isoCurveV
    have eV : (imageBP f p).numV = p.numV := rfl
    rw [eV]
    refine bind_map_same fun n _ => ?_
    refine bind_map_rel (φ := List.map f) (tab_map _ _ _ _ fun i _ => ?_) fun l _ => rfl
    exact bind_map_rel (rd_map (image f) _ _) fun c _ => C04_bspline_affine f c u
  · refine bind_map_rel (φ := image f) ?_ fun c _ => C04_bspline_affine f c u
    unfold BSplinePatch.isoCurveU
    have eU : (imageBP f p).numU = p.numU := rfl
    rw [eU]
    refine bind_map_same fun n _ => ?_
    refine bind_map_rel (φ := List.map f) (tab_map _ _ _ _ fun i _ => ?_) fun l _ => rfl
    exact bind_map_rel (rd_map (image f) _ _) fun c _ => C04_bspline_affine f c v

/-- C04 for B-spline patches: initialising and evaluating the patch whose control points are the
images under an affine map gives the image of the point of the patch, for every patch and every
parameters (whether or not the calls succeed; `iu`, `iv` are the stale caches of the new object). -/
theorem C04_bspline_patch_affine (f : V →ᵃ[K] W) (p : BSplinePatch K V) (iu iv : List (BSpline K W))
    (u v : K) :
    (BSplinePatch.init (BSplinePatch.mk (p.grid.map f) p.knotsU p.knotsV p.degU p.degV p.perU p.perV
        p.sU p.sV iu iv) >>= fun q => q.evaluate u v)
      = f <$> (p.init >>= fun q => q.evaluate u v) :=
  bind_map_rel (imageBP_init f p iu iv) fun q _ => imageBP_evaluate f q u v

/-! ### Rational curves and patches -/

/-- The linear map of homogeneous coordinates belonging to an affine map. -/
def homMap (f : V →ᵃ[K] W) : (V × K) →ₗ[K] (W × K) where
  toFun x := (f.linear x.1 + x.2 • f 0, x.2)
  map_add' x y := by
    ext
    · simp only [Prod.fst_add, Prod.snd_add, map_add, add_smul]; abel
    · rfl
  map_smul' a x := by
    ext
    · simp [smul_add, mul_smul]
    · rfl

theorem homogenize_affine (f : V →ᵃ[K] W) (P : List V) (w : List K) :
    homogenize (P.map f) w = (List.map (homMap f)) <$> homogenize P w := by
  unfold homogenize
  rw [List.length_map]
  refine bind_map_same fun _ _ => ?_
  simp only [pure_eq, map_ok, List.map_zipWith, List.zipWith_map_left]
  congr 2
  funext p a
  ext
  · simp only [homMap, LinearMap.coe_mk, AddHom.coe_mk, map_smul]
    rw [affine_eq f p, smul_add]
  · rfl

theorem quot0_affine (f : V →ᵃ[K] W) (x : V × K) : quot0 (homMap f x) = f <$> quot0 x := by
  unfold quot0
  by_cases h : x.2 = 0
  · rw [assert_false (by simpa [homMap] using h), assert_false (by simpa using h)]; rfl
  · rw [assert_true (by simpa [homMap] using h), assert_true (by simpa using h)]
    simp only [ok_bind, pure_eq, map_ok, ok.injEq]
    rw [affine_eq f (_ • _)]
    simp only [homMap, LinearMap.coe_mk, AddHom.coe_mk, map_smul, smul_add]
    rw [inv_smul_smul₀ h]

theorem bezier_empty_evaluate (per : Bool) (t : K) :
    Bezier.evaluate ({ ctrl := [], periodic := per } : Bezier V) t = ub := by
  obtain ⟨t', ht⟩ := Bezier.wrap_ok per t
  unfold Bezier.evaluate
  simp only [ht, ok_bind]
  rfl

/-- C04: Bézier evaluation commutes with affine maps, for every curve. -/
theorem C04_bezier_affine_any (f : V →ᵃ[K] W) (c : Bezier V) (t : K) :
    Bezier.evaluate ({ ctrl := c.ctrl.map f, periodic := c.periodic } : Bezier W) t
      = f <$> Bezier.evaluate c t := by
  by_cases hc : c.ctrl = []
  · obtain ⟨ctrl, per⟩ := c
    simp only at hc
    subst hc
    rw [List.map_nil, bezier_empty_evaluate, bezier_empty_evaluate]
    rfl
  · exact C04_bezier_affine f c hc t

/-- C04: evaluation of Bézier patches commutes with affine maps, for every object. -/
theorem C04_patch_affine_any (f : V →ᵃ[K] W) (p : BezierPatch V) (u v : K) :
    BezierPatch.evaluate (BezierPatch.mk (p.grid.map f) p.degU p.degV p.perU p.perV p.sU p.sV) u v
      = f <$> p.evaluate u v := by
  let q : BezierPatch W := BezierPatch.mk (p.grid.map f) p.degU p.degV p.perU p.perV p.sU p.sV
  change q.evaluate u v = _
  have eU : q.numU = p.numU := rfl
  have eV : q.numV = p.numV := rfl
  have hg : ∀ i j, q.getControlPoint i j = f <$> p.getControlPoint i j := by
    intro i j
    unfold BezierPatch.getControlPoint
    have : q.linearIndex i j = p.linearIndex i j := rfl
    rw [this]
    exact bind_map_same fun k _ => rd_map _ _ _
  have hd : (q.degV > q.degU) = (p.degV > p.degU) := rfl
  unfold BezierPatch.evaluate
  simp only [hd]
  split
  · refine bind_map_rel (φ := fun c : Bezier V => ⟨c.ctrl.map f, c.periodic⟩) ?_
      fun c _ => C04_bezier_affine_any f c v
    unfold BezierPatch.isoCurveV
    rw [eV]
    refine bind_map_same fun n _ => ?_
    refine bind_map_rel (φ := List.map fun c : Bezier V => (⟨c.ctrl.map f, c.periodic⟩ : Bezier W)) ?_
      fun l _ => ?_
    · unfold BezierPatch.isoCurvesU
      rw [eV, eU]
      refine bind_map_same fun m _ => bind_map_same fun n _ => tab_map _ _ _ _ fun j _ => ?_
      refine bind_map_rel (φ := List.map f) (tab_map _ _ _ _ fun i _ => hg _ _) fun l _ => rfl
    · refine bind_map_rel (φ := List.map f) (tab_map _ _ _ _ fun i _ => ?_) fun l _ => rfl
      exact bind_map_rel (rd_map _ _ _) fun c _ => C04_bezier_affine_any f c u
  · refine bind_map_rel (φ := fun c : Bezier V => ⟨c.ctrl.map f, c.periodic⟩) ?_
      fun c _ => C04_bezier_affine_any f c u
    unfold BezierPatch.isoCurveU
    rw [eU]
    refine bind_map_same fun n _ => ?_
    refine bind_map_rel (φ := List.map fun c : Bezier V => (⟨c.ctrl.map f, c.periodic⟩ : Bezier W)) ?_
      fun l _ => ?_
    · unfold BezierPatch.isoCurvesV
      rw [eV, eU]
      refine bind_map_same fun m _ => bind_map_same fun n _ => tab_map _ _ _ _ fun j _ => ?_
      refine bind_map_rel (φ := List.map f) (tab_map _ _ _ _ fun i _ => hg _ _) fun l _ => rfl
    · refine bind_map_rel (φ := List.map f) (tab_map _ _ _ _ fun i _ => ?_) fun l _ => rfl
      exact bind_map_rel (rd_map _ _ _) fun c _ => C04_bezier_affine_any f c v

/-- C04 for rational Bézier curves: any control points and weights, any parameter. -/
theorem C04_rational_bezier_affine (f : V →ᵃ[K] W) (P : List V) (w : List K) (per : Bool)
    (h : Bezier (V × K)) (h' : Bezier (W × K)) (t : K) :
    (RationalBezier.init ⟨⟨P.map f, per⟩, w, h'⟩ >>= fun c => c.evaluate t)
      = f <$> (RationalBezier.init ⟨⟨P, per⟩, w, h⟩ >>= fun c => c.evaluate t) := by
  unfold RationalBezier.init
  simp only [bind_assoc]
  refine bind_map_rel (homogenize_affine f P w) fun Q _ => ?_
  simp only [pure_eq, ok_bind]
  unfold RationalBezier.evaluate
  have hv : RationalBezier.validate (⟨⟨P.map f, per⟩, w, ⟨Q.map (homMap f), per⟩⟩ : RationalBezier K W)
      = RationalBezier.validate (⟨⟨P, per⟩, w, ⟨Q, per⟩⟩ : RationalBezier K V) := by
    simp [RationalBezier.validate]
  rw [hv]
  refine bind_map_same fun _ _ => ?_
  refine bind_map_rel (φ := homMap f) ?_ fun x _ => quot0_affine f x
  exact C04_bezier_affine_any (homMap f).toAffineMap ⟨Q, per⟩ t

/-- C04 for NURBS: any control points, weights and knots, any parameter. -/
theorem C04_nurbs_affine (f : V →ᵃ[K] W) (c : BSpline K V) (w : List K)
    (h : BSpline K (V × K)) (h' : BSpline K (W × K)) (t : K) :
    (NURBS.init ⟨⟨c.ctrl.map f, c.knots, c.periodic, c.sdeg⟩, w, h'⟩ >>= fun c => c.evaluate t)
      = f <$> (NURBS.init ⟨c, w, h⟩ >>= fun c => c.evaluate t) := by
  unfold NURBS.init
  simp only [bind_assoc]
  refine bind_map_rel (homogenize_affine f c.ctrl w) fun Q _ => ?_
  simp only [pure_eq, ok_bind]
  unfold NURBS.evaluate
  have hb : (BSpline.mk (c.ctrl.map f) c.knots c.periodic c.sdeg).validate = c.validate :=
    image_validate f c
  have hv : NURBS.validate (⟨⟨c.ctrl.map f, c.knots, c.periodic, c.sdeg⟩, w,
        ⟨Q.map (homMap f), c.knots, c.periodic, c.sdeg⟩⟩ : NURBS K W)
      = NURBS.validate (⟨c, w, ⟨Q, c.knots, c.periodic, c.sdeg⟩⟩ : NURBS K V) := by
    unfold NURBS.validate
    simp only [hb, List.length_map]
  rw [hv]
  refine bind_map_same fun _ _ => ?_
  refine bind_map_rel (φ := homMap f) ?_ fun x _ => quot0_affine f x
  exact evaluate_map (homMap f) ⟨Q, c.knots, c.periodic, c.sdeg⟩ t

/-- C04 for rational Bézier patches: any control points and weights, any parameters. -/
theorem C04_rational_patch_affine (f : V →ᵃ[K] W) (p : BezierPatch V) (w : List K)
    (h : BezierPatch (V × K)) (h' : BezierPatch (W × K)) (u v : K) :
    (RationalBezierPatch.init ⟨⟨p.grid.map f, p.degU, p.degV, p.perU, p.perV, p.sU, p.sV⟩, w, h'⟩
        >>= fun c => c.evaluate u v)
      = f <$> (RationalBezierPatch.init ⟨p, w, h⟩ >>= fun c => c.evaluate u v) := by
  unfold RationalBezierPatch.init
  simp only [bind_assoc]
  refine bind_map_rel (homogenize_affine f p.grid w) fun Q _ => ?_
  refine bind_map_same fun du _ => bind_map_same fun dv _ => ?_
  have hi : BezierPatch.init (⟨Q.map (homMap f), du, dv, p.perU, p.perV, p.sU, p.sV⟩ :
      BezierPatch (W × K)) = BezierPatch.init (⟨Q, du, dv, p.perU, p.perV, p.sU, p.sV⟩ :
      BezierPatch (V × K)) := by
    unfold BezierPatch.init
    simp only [List.length_map]
    rfl
  simp only [hi]
  refine bind_map_same fun _ hok => ?_
  simp only [pure_eq, ok_bind]
  unfold RationalBezierPatch.evaluate
  refine bind_map_rel (φ := id) ?_ fun _ _ => ?_
  · rw [id_map]
    simp [RationalBezierPatch.validate, BezierPatch.degreeU, BezierPatch.degreeV]
  refine bind_map_rel (φ := homMap f) ?_ fun x _ => quot0_affine f x
  exact C04_patch_affine (homMap f).toAffineMap
    (p := ⟨Q, du, dv, p.perU, p.perV, p.sU, p.sV⟩) hok u v

/-- C04 for NURBS patches: any control points, weights and knots, any parameters. -/
theorem C04_nurbs_patch_affine (f : V →ᵃ[K] W) (p : NURBSPatch K V) (h' : BSplinePatch K (W × K))
    (u v : K) :
    (NURBSPatch.init ⟨p.grid.map f, p.weights, p.knotsU, p.knotsV, p.degU, p.degV, p.perU, p.perV,
        p.sU, p.sV, h'⟩ >>= fun c => c.evaluate u v)
      = f <$> (p.init >>= fun c => c.evaluate u v) := by
  unfold NURBSPatch.init
  simp only [bind_assoc, List.length_map]
  refine bind_map_same fun _ _ => ?_
  refine bind_map_rel (homogenize_affine f p.grid p.weights) fun Q _ => ?_
  refine bind_map_same fun du _ => bind_map_same fun dv _ => ?_
  refine bind_map_rel (imageBP_init (homMap f) (BSplinePatch.mk Q p.knotsU p.knotsV du dv p.perU
    p.perV p.sU p.sV p.hom.isoU p.hom.isoV) h'.isoU h'.isoV) fun q _ => ?_
  simp only [pure_eq, ok_bind]
  unfold NURBSPatch.evaluate
  refine bind_map_rel (φ := id) ?_ fun _ _ => ?_
  · rw [id_map]
    unfold NURBSPatch.validate
    simp only [imageBP, List.length_map]
    rfl
  refine bind_map_rel (φ := homMap f) ?_ fun x _ => quot0_affine f x
  exact imageBP_evaluate (homMap f).toAffineMap q u v

/-! ### Examples -/

/-- The map `x ↦ 3 x + 5`. -/
def exAffine : ℚ →ᵃ[ℚ] ℚ := (3 : ℚ) • AffineMap.id ℚ ℚ + AffineMap.const ℚ ℚ (5 : ℚ)

/-- The theorems speak about calls that return: a quadratic spline with two spans, its rational
version and a bilinear patch. -/
example : (BSpline.mk [1, 3, 4, 2] [0, 0, 0, 1, 2, 2, 2] false none : BSpline ℚ ℚ).evaluate (1 / 2)
      = ok (21 / 8 : ℚ) ∧
    (BSpline.mk [8, 14, 17, 11] [0, 0, 0, 1, 2, 2, 2] false none : BSpline ℚ ℚ).evaluate (1 / 2)
      = ok (3 * (21 / 8) + 5 : ℚ) := by
  constructor <;> decide +kernel

example (x : ℚ) : exAffine x = 3 * x + 5 := by simp [exAffine]

example := C04_bspline_affine exAffine (BSpline.mk [1, 3, 4, 2] [0, 0, 0, 1, 2, 2, 2] true none) (17 / 2)
example := C04_bspline_patch_affine exAffine
  (BSplinePatch.mk [0, 1, 2, 5] [0, 0, 1, 1] [0, 0, 1, 1] 1 1 false true (-1) (-1) [] []) [] [] (1 / 2) (5 / 2)
example := C04_bezier_affine_any exAffine { ctrl := [1, 5, 2], periodic := true } (-1 / 3)
example := C04_patch_affine_any exAffine (BezierPatch.mk [0, 1, 3, 2, 5, 7] 2 1 false false 2 1) (1 / 3) (1 / 4)
example := C04_rational_bezier_affine exAffine [1, 5, 2] [1, 2, 1] false ⟨[], false⟩ ⟨[], false⟩ (1 / 3 : ℚ)
example := C04_nurbs_affine exAffine (BSpline.mk [1, 3, 4, 2] [0, 0, 0, 1, 2, 2, 2] false none)
  [1, 2, 1, 1] ⟨[], [], false, none⟩ ⟨[], [], false, none⟩ (1 / 3)
example := C04_rational_patch_affine exAffine (BezierPatch.mk [0, 1, 3, 2, 5, 7] 2 1 false false 2 1)
  [1, 2, 1, 1, 2, 3] (BezierPatch.new _ 2 1) (BezierPatch.new _ 2 1) (1 / 3) (1 / 4)

example : (NURBS.init ⟨⟨[1, 3, 4, 2], [0, 0, 0, 1, 2, 2, 2], false, none⟩, [1, 2, 1, 1],
      ⟨[], [], false, none⟩⟩ >>= fun c => c.evaluate (1 / 2 : ℚ)) = ok (36 / 13 : ℚ) ∧
    (BSplinePatch.init ⟨[0, 1, 2, 5], [0, 0, 1, 1], [0, 0, 1, 1], 1, 1, false, false, -1, -1, [], []⟩
      >>= fun q => q.evaluate (1 / 2 : ℚ) (1 / 2)) = ok (2 : ℚ) := by
  constructor <;> decide +kernel

end NS.Props
