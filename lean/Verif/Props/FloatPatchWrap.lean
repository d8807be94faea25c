import Verif.Props.FloatPatch

/-!
# C83 for patches: periodic patches in floating point arithmetic

`C83_*_patch_wrap`: evaluating a patch with periodic directions is evaluating the patch without
periodic directions at the wrapped parameters, with the same bits, whichever directions are periodic
and whatever the contraction.  `C83_*_patch_periodic`: for Bézier patches, and for B-spline patches
whose domain starts at zero, the wrapped parameters are the correctly rounded exact ones and lie in
the domain.
-/

set_option linter.unusedSectionVars false

namespace NS.Fl

open Outcome Spec

variable {K ι : Type} [Field K] [LinearOrder K] [IsStrictOrderedRing K] [FloorRing K]

section General

/-- Reduction of one parameter to `[a, b]` in a periodic direction. -/
def dirWrap (R : Rounding K) (periodic : Bool) (a b t : K) : Outcome K :=
  if periodic then unwrap R a b t else ok t

theorem bezier_wrap_eval {R : Rounding K} (F : ℕ → ℕ → ι → Fuse) (l : List (ι → K)) (b : Bool)
    {t t' : K} (h : dirWrap R b 0 1 t = ok t') :
    bezierEvaluate R F { ctrl := l, periodic := b } t = bezierEvaluate R F { ctrl := l } t' := by
  have h1 : bezierWrap R b t = ok t' := by cases b <;> simpa [dirWrap, bezierWrap] using h
  have h2 : bezierWrap R false t' = ok t' := by simp [bezierWrap]
  unfold bezierEvaluate
  rw [h1, h2]
  rfl

theorem axis_wrap_eval {R : Rounding K} (F : ℕ → ℕ → ι → Fuse) {u : List K} {deg s : ℤ} {n p : ℕ}
    (h : BSplinePatch.Axis u deg s n p) (Q : ℕ → ι → K) (b : Bool) {t t' : K}
    (ht : dirWrap R b (knot u p) (knot u n) t = ok t') :
    bsplineEvaluate R F (BSpline.mk (arr n Q) u b (BSplinePatch.staticDeg s)) t
      = bsplineEvaluate R F (BSpline.mk (arr n Q) u false (BSplinePatch.staticDeg s)) t' := by
  have hl : (arr n Q).length = n := by simp
  have hw := h.wf b hl
  have h1 : bsplineWrap R (BSpline.mk (arr n Q) u b (BSplinePatch.staticDeg s)) t = ok t' := by
    unfold bsplineWrap
    cases b
    · simpa [dirWrap] using ht
    · rw [if_pos rfl, BSpline.lower_eq hw, ok_bind, BSpline.upper_eq hw, ok_bind]
      simp only [hl]
      simpa [dirWrap] using ht
  have h2 : bsplineWrap R (BSpline.mk (arr n Q) u false (BSplinePatch.staticDeg s)) t' = ok t' := by
    simp [bsplineWrap]
  unfold bsplineEvaluate
  rw [h1, h2]
  rfl

theorem tab_ext {α : Type} {n : ℕ} {f g : ℕ → Outcome α} (h : ∀ i < n, f i = g i) :
    tab n f = tab n g := by
  induction n with
  | zero => rfl
  | succ n ih =>
    rw [tab, tab, ih (fun i hi => h i (by omega)), h n (by omega)]

/-- Evaluating every row of a family of curves and then the curve of the results. -/
theorem two_step {α A B C : Type} (n : ℕ) {l l' : ℕ → A} {c c' : List α → B} {e e' : ℕ → A → Outcome α}
    {r r' : B → Outcome C} (h1 : ∀ i < n, e i (l i) = e' i (l' i))
    (h2 : ∀ x : List α, x.length = n → r (c x) = r' (c' x)) :
    (do
      let y ← (do
        let x ← tab n (fun i => do
          let a ← rd (arr n l) i
          e i a)
        pure (c x))
      r y) = (do
      let y ← (do
        let x ← tab n (fun i => do
          let a ← rd (arr n l') i
          e' i a)
        pure (c' x))
      r' y) := by
  rw [tab_ext (f := fun i => do
      let a ← rd (arr n l) i
      e i a) (g := fun i => do
      let a ← rd (arr n l') i
      e' i a) (fun i hi => by rw [rd_arr hi, rd_arr hi, ok_bind, ok_bind, h1 i hi])]
  cases hx : tab n (fun i => do
      let a ← rd (arr n l') i
      e' i a) with
  | ok x =>
    rw [ok_bind, ok_bind, pure_eq, pure_eq, ok_bind, ok_bind, h2 x (tab_inv hx).1]
  | throw e => rfl
  | ub => rfl

/-- The patch without periodic directions. -/
def flatBezier (p : BezierPatch (ι → K)) : BezierPatch (ι → K) := { p with perU := false, perV := false }

/-- The patch without periodic directions. -/
def flatBSpline (p : BSplinePatch K (ι → K)) : BSplinePatch K (ι → K) :=
  { p with perU := false, perV := false }

/-- C83: a Bézier patch with periodic directions returns what the patch without them returns at the
wrapped parameters. -/
theorem C83_bezier_patch_wrap (R : Rounding K) (F : ℕ → ℕ → ℕ → ι → Fuse) (G : ℕ → ℕ → ι → Fuse)
    {p : BezierPatch (ι → K)} {m n : ℕ} (hp : p.WellFormed m n) {u v u' v' : K}
    (hu : dirWrap R p.perU 0 1 u = ok u') (hv : dirWrap R p.perV 0 1 v = ok v') :
    patchEvaluate R F G p u v = patchEvaluate R F G (flatBezier p) u' v' := by
  have hf : (flatBezier p).WellFormed m n := ⟨hp.degU, hp.degV, hp.len⟩
  unfold patchEvaluate
  change (if p.degV > p.degU then _ else _) = (if p.degV > p.degU then _ else _)
  split_ifs with hdeg
  · unfold isoCurveV
    rw [hp.numV, hf.numV, ok_bind, ok_bind, hp.isoCurvesU, hf.isoCurvesU, ok_bind, ok_bind]
    exact two_step (c := fun x => Bezier.mk x p.perV) (c' := fun x => Bezier.mk x false) (n + 1)
      (e := fun i a => bezierEvaluate R (F i) a u) (e' := fun i a => bezierEvaluate R (F i) a u')
      (r := fun c => bezierEvaluate R G c v) (r' := fun c => bezierEvaluate R G c v')
      (fun i _ => bezier_wrap_eval _ _ _ hu) (fun x _ => bezier_wrap_eval _ _ _ hv)
  · unfold isoCurveU
    rw [hp.numU, hf.numU, ok_bind, ok_bind, hp.isoCurvesV, hf.isoCurvesV, ok_bind, ok_bind]
    exact two_step (c := fun x => Bezier.mk x p.perU) (c' := fun x => Bezier.mk x false) (m + 1)
      (e := fun i a => bezierEvaluate R (F i) a v) (e' := fun i a => bezierEvaluate R (F i) a v')
      (r := fun c => bezierEvaluate R G c u) (r' := fun c => bezierEvaluate R G c u')
      (fun i _ => bezier_wrap_eval _ _ _ hv) (fun x _ => bezier_wrap_eval _ _ _ hu)

/-- C83: the same for B-spline patches. -/
theorem C83_bspline_patch_wrap (R : Rounding K) (F : ℕ → ℕ → ℕ → ι → Fuse) (G : ℕ → ℕ → ι → Fuse)
    {p r : BSplinePatch K (ι → K)} {m n du dv : ℕ} (hp : p.Valid m n du dv) (hr : p.init = ok r)
    {u v u' v' : K} (hu : dirWrap R p.perU (knot p.knotsU du) (knot p.knotsU m) u = ok u')
    (hv : dirWrap R p.perV (knot p.knotsV dv) (knot p.knotsV n) v = ok v') :
    ∃ r', (flatBSpline p).init = ok r' ∧
      bsplinePatchEvaluate R F G r u v = bsplinePatchEvaluate R F G r' u' v' := by
  have hp' : (flatBSpline p).Valid m n du dv := ⟨hp.u, hp.v, hp.grid⟩
  have hrd := hp.ready hr
  have hr' := hp'.init
  have hrd' := hp'.ready hr'
  refine ⟨_, hr', ?_⟩
  rw [hp.init, ok.injEq] at hr
  subst hr
  have len : ∀ {k : ℕ} {x : List (ι → K)}, x.length = k → x = arr k (fun j => x.getD j 0) := by
    rintro k x rfl
    exact eq_arr x 0
  unfold bsplinePatchEvaluate
  change (if p.degV > p.degU then _ else _) = (if p.degV > p.degU then _ else _)
  split_ifs with hdeg
  · unfold bsplineIsoV
    rw [hrd.toValid.numV, hrd'.toValid.numV, ok_bind, ok_bind, hrd.isoU, hrd'.isoU]
    refine two_step (c := fun x => BSpline.mk x p.knotsV p.perV (BSplinePatch.staticDeg p.sV))
      (c' := fun x => BSpline.mk x p.knotsV false (BSplinePatch.staticDeg p.sV)) n
      (e := fun i a => bsplineEvaluate R (F i) a u) (e' := fun i a => bsplineEvaluate R (F i) a u')
      (r := fun c => bsplineEvaluate R G c v) (r' := fun c => bsplineEvaluate R G c v')
      (fun i _ => axis_wrap_eval (F i) hp.u (fun a => p.pts n a i) _ hu) (fun x hx => ?_)
    rw [len hx]
    exact axis_wrap_eval G hp.v _ _ hv
  · unfold bsplineIsoU
    rw [hrd.toValid.numU, hrd'.toValid.numU, ok_bind, ok_bind, hrd.isoV, hrd'.isoV]
    refine two_step (c := fun x => BSpline.mk x p.knotsU p.perU (BSplinePatch.staticDeg p.sU))
      (c' := fun x => BSpline.mk x p.knotsU false (BSplinePatch.staticDeg p.sU)) m
      (e := fun i a => bsplineEvaluate R (F i) a v) (e' := fun i a => bsplineEvaluate R (F i) a v')
      (r := fun c => bsplineEvaluate R G c u) (r' := fun c => bsplineEvaluate R G c u')
      (fun i _ => axis_wrap_eval (F i) hp.v (p.pts n i) _ hv) (fun x hx => ?_)
    rw [len hx]
    exact axis_wrap_eval G hp.u _ _ hu

/-- C83: the same for rational Bézier patches. -/
theorem C83_rational_patch_wrap (R : Rounding K) (F : ℕ → ℕ → ℕ → Option ι → Fuse)
    (G : ℕ → ℕ → Option ι → Fuse) {p : BezierPatch (ι → K)} {m n : ℕ} (hp : p.WellFormed m n)
    {w : List K} (hlen : p.grid.length = w.length) {u v u' v' : K}
    (hu : dirWrap R p.perU 0 1 u = ok u') (hv : dirWrap R p.perV 0 1 v = ok v') :
    rationalPatchEvaluate R F G p w u v = rationalPatchEvaluate R F G (flatBezier p) w u' v' := by
  have h : (BezierPatch.mk (homPts R p.grid w) p.degU p.degV p.perU p.perV p.sU p.sV).WellFormed m n :=
    ⟨hp.degU, hp.degV, by simp only [homPts_length R _ _ hlen]; exact hp.len⟩
  unfold rationalPatchEvaluate
  change (do
    let Q ← homogenize R p.grid w
    _) = (do
    let Q ← homogenize R p.grid w
    _)
  rw [homogenize_eq R _ _ hlen, ok_bind, ok_bind, C83_bezier_patch_wrap R F G h hu hv]
  rfl

/-- C83: the same for NURBS patches. -/
theorem C83_nurbs_patch_wrap (R : Rounding K) (F : ℕ → ℕ → ℕ → Option ι → Fuse)
    (G : ℕ → ℕ → Option ι → Fuse) {p : BSplinePatch K (ι → K)} {m n du dv : ℕ}
    (hp : p.Valid m n du dv) {w : List K} (hlen : p.grid.length = w.length) {u v u' v' : K}
    (hu : dirWrap R p.perU (knot p.knotsU du) (knot p.knotsU m) u = ok u')
    (hv : dirWrap R p.perV (knot p.knotsV dv) (knot p.knotsV n) v = ok v') :
    nurbsPatchEvaluate R F G p w u v = nurbsPatchEvaluate R F G (flatBSpline p) w u' v' := by
  have h : (BSplinePatch.mk (homPts R p.grid w) p.knotsU p.knotsV p.degU p.degV p.perU p.perV p.sU p.sV
      [] []).Valid m n du dv :=
    ⟨hp.u, hp.v, by simp only [homPts_length R _ _ hlen]; exact hp.grid⟩
  obtain ⟨r', e1, e2⟩ := C83_bspline_patch_wrap R F G h h.init hu hv
  unfold nurbsPatchEvaluate
  change (do
    let Q ← homogenize R p.grid w
    _) = (do
    let Q ← homogenize R p.grid w
    _)
  rw [homogenize_eq R _ _ hlen, ok_bind, ok_bind, h.init, ok_bind]
  rw [flatBSpline] at e1
  change _ = (BSplinePatch.init (BSplinePatch.mk (homPts R p.grid w) p.knotsU p.knotsV p.degU p.degV
    false false p.sU p.sV [] []) >>= _)
  rw [e1, ok_bind, e2]

/-- C83: wrapping NURBS curves. -/
theorem C83_nurbs_wrap (R : Rounding K) (F : ℕ → ℕ → Option ι → Fuse) {c : BSpline K (ι → K)} {d : ℕ}
    (hc : BSpline.WellFormed c d) (w : List K) {t t' : K}
    (ht : dirWrap R c.periodic (knot c.knots d) (knot c.knots c.ctrl.length) t = ok t') :
    nurbsEvaluate R F c w t = nurbsEvaluate R F { c with periodic := false } w t' := by
  by_cases hlen : c.ctrl.length = w.length
  · have hQl : (homPts R c.ctrl w).length = c.ctrl.length := homPts_length R _ _ hlen
    have hw : BSpline.WellFormed (BSpline.mk (homPts R c.ctrl w) c.knots c.periodic c.sdeg) d :=
      ⟨by rw [hQl]; exact hc.len, hc.sdeg, by rw [hQl]; exact hc.ctrl, hc.sorted, by rw [hQl]; exact hc.dom⟩
    have h1 : bsplineWrap R (BSpline.mk (homPts R c.ctrl w) c.knots c.periodic c.sdeg) t = ok t' := by
      unfold bsplineWrap
      rw [BSpline.lower_eq hw, BSpline.upper_eq hw]
      simp only [hQl]
      exact ht
    have h2 : bsplineWrap R (BSpline.mk (homPts R c.ctrl w) c.knots false c.sdeg) t' = ok t' := by
      simp [bsplineWrap]
    unfold nurbsEvaluate
    change (do
      let Q ← homogenize R c.ctrl w
      _) = (do
      let Q ← homogenize R c.ctrl w
      _)
    rw [homogenize_eq R _ _ hlen, ok_bind, ok_bind]
    change (do
      c.validate
      _) = (do
      c.validate
      _)
    congr 1
    funext _
    congr 1
    unfold bsplineEvaluate
    rw [h1, h2]
    rfl
  · have : homogenize R c.ctrl w = ub := by
      unfold homogenize
      rw [assert_false hlen]
      rfl
    unfold nurbsEvaluate
    change (do
      let Q ← homogenize R c.ctrl w
      _) = (do
      let Q ← homogenize R c.ctrl w
      _)
    rw [this]
    rfl

/-- The parameter `t'` is the correctly rounded reduction of `t` to `[0, b]` in a periodic direction
and `t` itself otherwise. -/
def Reduced (R : Rounding K) (periodic : Bool) (b t t' : K) : Prop :=
  if periodic then ∃ s, unwrapParameter 0 b t = ok s ∧ t' = R.rnd s else t' = t

theorem dirWrap_zero {d : ℕ} (hd : 1 ≤ d) (per : Bool) {b t : K} (hb0 : 0 < b)
    (hb : (binary d hd : Rounding K).IsFloat b) (ht : (binary d hd : Rounding K).IsFloat t)
    (hin : per = false → 0 ≤ t ∧ t ≤ b) :
    ∃ t', dirWrap (binary d hd) per 0 b t = ok t' ∧ 0 ≤ t' ∧ t' ≤ b ∧
      Reduced (binary d hd) per b t t' := by
  cases per
  · exact ⟨t, rfl, (hin rfl).1, (hin rfl).2, rfl⟩
  · obtain ⟨t', s, e1, e2, e3, e4, -, e6⟩ := unwrap_zero hd hb0 hb ht
    exact ⟨t', e1, e2, e3, s, e4, e6⟩

/-- C83: every Bézier patch, periodic in any directions, evaluates at every pair of floating point
numbers (in `[0, 1]` for directions that are not periodic), with the bits of the patch without
periodic directions at the correctly rounded reduced parameters. -/
theorem C83_bezier_patch_periodic {d : ℕ} (hd : 1 ≤ d) (F : ℕ → ℕ → ℕ → ι → Fuse)
    (G : ℕ → ℕ → ι → Fuse) {p : BezierPatch (ι → K)} {m n : ℕ} (hp : p.WellFormed m n) {u v : K}
    (hu : (binary d hd : Rounding K).IsFloat u) (hv : (binary d hd : Rounding K).IsFloat v)
    (iu : p.perU = false → 0 ≤ u ∧ u ≤ 1) (iv : p.perV = false → 0 ≤ v ∧ v ≤ 1) :
    ∃ u' v' q, Reduced (binary d hd) p.perU 1 u u' ∧ Reduced (binary d hd) p.perV 1 v v' ∧
      0 ≤ u' ∧ u' ≤ 1 ∧ 0 ≤ v' ∧ v' ≤ 1 ∧ patchEvaluate (binary d hd) F G p u v = ok q ∧
      patchEvaluate (binary d hd) F G (flatBezier p) u' v' = ok q := by
  obtain ⟨u', a1, a2, a3, a4⟩ := dirWrap_zero hd p.perU one_pos (binary d hd : Rounding K).one hu iu
  obtain ⟨v', b1, b2, b3, b4⟩ := dirWrap_zero hd p.perV one_pos (binary d hd : Rounding K).one hv iv
  have e := C83_bezier_patch_wrap (binary d hd) F G hp a1 b1
  obtain ⟨q, hq, -⟩ := bezier_patch (binary d hd) F G (flatBezier p) m n ⟨hp.degU, hp.degV, hp.len⟩
    (u := u') (v := v') (u' := u') (v' := v') (by simp [bezierWrap, flatBezier])
    (by simp [bezierWrap, flatBezier]) a2 a3 b2 b3
  exact ⟨u', v', q, a4, b4, a2, a3, b2, b3, by rw [e, hq], hq⟩

/-- C83: the same for B-spline patches whose domain starts at zero in both directions. -/
theorem C83_bspline_patch_periodic_zero {d : ℕ} (hd : 1 ≤ d) (hunit : (binary d hd : Rounding K).unit < 1)
    (F : ℕ → ℕ → ℕ → ι → Fuse) (G : ℕ → ℕ → ι → Fuse) {p r : BSplinePatch K (ι → K)} {m n du dv : ℕ}
    (hp : p.Valid m n du dv) (hr : p.init = ok r) (wu : FlWideOn (binary d hd) p.knotsU m du)
    (wv : FlWideOn (binary d hd) p.knotsV n dv) (zu : knot p.knotsU du = 0)
    (zv : knot p.knotsV dv = 0) (fu : 0 < knot p.knotsU (du + 1)) (fv : 0 < knot p.knotsV (dv + 1))
    (bu : (binary d hd : Rounding K).IsFloat (knot p.knotsU m))
    (bv : (binary d hd : Rounding K).IsFloat (knot p.knotsV n)) {u v : K}
    (hu : (binary d hd : Rounding K).IsFloat u) (hv : (binary d hd : Rounding K).IsFloat v)
    (iu : p.perU = false → 0 ≤ u ∧ u ≤ knot p.knotsU m)
    (iv : p.perV = false → 0 ≤ v ∧ v ≤ knot p.knotsV n) :
    ∃ u' v' q r', Reduced (binary d hd) p.perU (knot p.knotsU m) u u' ∧
      Reduced (binary d hd) p.perV (knot p.knotsV n) v v' ∧ 0 ≤ u' ∧ u' ≤ knot p.knotsU m ∧ 0 ≤ v' ∧
      v' ≤ knot p.knotsV n ∧ (flatBSpline p).init = ok r' ∧
      bsplinePatchEvaluate (binary d hd) F G r u v = ok q ∧
      bsplinePatchEvaluate (binary d hd) F G r' u' v' = ok q := by
  have du0 := hp.u.dom
  have dv0 := hp.v.dom
  rw [zu] at du0
  rw [zv] at dv0
  obtain ⟨u', a1, a2, a3, a4⟩ := dirWrap_zero hd p.perU du0 bu hu iu
  obtain ⟨v', b1, b2, b3, b4⟩ := dirWrap_zero hd p.perV dv0 bv hv iv
  obtain ⟨r', e1, e2⟩ := C83_bspline_patch_wrap (binary d hd) F G hp hr (by rw [zu]; exact a1)
    (by rw [zv]; exact b1)
  have hp' : (flatBSpline p).Valid m n du dv := ⟨hp.u, hp.v, hp.grid⟩
  have hk : r'.knotsU = p.knotsU ∧ r'.knotsV = p.knotsV ∧ r'.perU = false ∧ r'.perV = false := by
    have := e1
    rw [hp'.init, ok.injEq] at this
    subst this
    exact ⟨rfl, rfl, rfl, rfl⟩
  obtain ⟨q, hq, -⟩ := bspline_patch (binary d hd) hunit F G (hp'.ready e1) hk.2.2.1 hk.2.2.2
    (by rw [hk.1]; exact wu) (by rw [hk.2.1]; exact wv) (u := u') (v := v')
    (by rw [hk.1]; exact ⟨by rw [zu]; exact a2, a3, Or.inl (by rw [zu]; exact fu)⟩)
    (by rw [hk.2.1]; exact ⟨by rw [zv]; exact b2, b3, Or.inl (by rw [zv]; exact fv)⟩)
  exact ⟨u', v', q, r', a4, b4, a2, a3, b2, b3, e1, by rw [e2, hq], hq⟩

end General

/-! ### Concrete cases -/

section Examples

/-- The hypotheses of the theorems above: both directions periodic, domains `[0, 3]` and `[0, 2]`, and
parameters outside of them. -/
example :
    let p : BSplinePatch ℚ (Fin 1 → ℚ) :=
      { someGrid with knotsU := [0, 0, tenth, 3, 3], perU := true, perV := true }
    p.Valid 3 2 1 1 ∧ FlWideOn double p.knotsU 3 1 ∧ FlWideOn double p.knotsV 2 1 ∧
      knot p.knotsU 1 = 0 ∧ knot p.knotsV 1 = 0 ∧ 0 < knot p.knotsU (1 + 1) ∧
      0 < knot p.knotsV (1 + 1) ∧ double.IsFloat (knot p.knotsU 3) ∧ double.IsFloat (knot p.knotsV 2) ∧
      double.IsFloat (-tenth) ∧ double.IsFloat 7 ∧ double.unit < 1 := by
  refine ⟨⟨⟨rfl, rfl, Or.inl (by decide), by decide, by decide +kernel, by decide +kernel⟩,
    ⟨rfl, rfl, Or.inl (by decide), by decide, by decide +kernel, by decide +kernel⟩, rfl⟩, ?_, ?_,
    rfl, rfl, by decide +kernel, by decide +kernel, by unfold Rounding.IsFloat; decide +kernel,
    by unfold Rounding.IsFloat; decide +kernel, by unfold Rounding.IsFloat; decide +kernel,
    by unfold Rounding.IsFloat; decide +kernel, by decide +kernel⟩
  · intro i h1 h2 _
    interval_cases i <;> decide +kernel
  · intro i h1 h2 _
    interval_cases i; decide +kernel

/-- The wrapped parameters in double precision: `-0.1` is rounded to the double next to `2.9`. -/
example : dirWrap double true 0 3 (-tenth) = ok (double.rnd (3 - tenth)) ∧
    dirWrap double true 0 2 7 = ok 1 ∧ dirWrap double false 0 2 7 = ok 7 := by
  refine ⟨by decide +kernel, by decide +kernel, by decide +kernel⟩

end Examples

end NS.Fl
