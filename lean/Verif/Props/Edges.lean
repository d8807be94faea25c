import Verif.Proof.FloatEdge
import Verif.Spec.Edge

/-!
# C97: the edges of patches
-/

set_option linter.unusedSectionVars false

namespace NS.Fl

open Outcome Spec

section Float

variable {K ι : Type} [Field K] [LinearOrder K] [IsStrictOrderedRing K] [FloorRing K]

theorem bezier_end (R : Rounding K) (H : ℕ → ℕ → ι → Fuse) (n : ℕ) {P : ℕ → ι → K}
    (hP : ∀ j i, R.IsFloat (P j i)) :
    bezierEvaluate R H { ctrl := arr (n + 1) P, periodic := false } 0 = ok (P 0) ∧
    bezierEvaluate R H { ctrl := arr (n + 1) P, periodic := false } 1 = ok (P n) := by
  rw [bezierEvaluate_arr R H n P false rfl, bezierEvaluate_arr R H n P false rfl, tri_zero R H P hP,
    tri_one R H P hP, Nat.sub_self]
  exact ⟨rfl, rfl⟩

/-- C97: along its edges a Bézier patch is, bit by bit, the Bézier curve of the control points of the
edge. -/
theorem C97_bezier_edges (R : Rounding K) (Hu Hv : ℕ → ℕ → ι → Fuse) {p : BezierPatch (ι → K)} {m n : ℕ}
    (hp : p.WellFormed m n) (hf : Floats R p.grid) :
    (p.perV = false → ∀ u u', dirWrap R p.perU 0 1 u = ok u' →
      patchEvaluate R (firstFuse p.degU p.degV Hu Hv) (lastFuse p.degU p.degV Hu Hv) p u 0
        = bezierEvaluate R Hu { ctrl := gridColumn p.grid (m + 1) (n + 1) 0, periodic := p.perU } u ∧
      patchEvaluate R (firstFuse p.degU p.degV Hu Hv) (lastFuse p.degU p.degV Hu Hv) p u 1
        = bezierEvaluate R Hu { ctrl := gridColumn p.grid (m + 1) (n + 1) n, periodic := p.perU } u) ∧
    (p.perU = false → ∀ v v', dirWrap R p.perV 0 1 v = ok v' →
      patchEvaluate R (firstFuse p.degU p.degV Hu Hv) (lastFuse p.degU p.degV Hu Hv) p 0 v
        = bezierEvaluate R Hv { ctrl := gridRow p.grid (n + 1) 0, periodic := p.perV } v ∧
      patchEvaluate R (firstFuse p.degU p.degV Hu Hv) (lastFuse p.degU p.degV Hu Hv) p 1 v
        = bezierEvaluate R Hv { ctrl := gridRow p.grid (n + 1) m, periodic := p.perV } v) := by
  have hpt : ∀ a b i, R.IsFloat (p.pts n a b i) := fun a b i => hf.getD _ i
  have hwrap : ∀ {b t t'}, dirWrap R b 0 1 t = ok t' → bezierWrap R b t = ok t' := by
    intro b t t' h
    cases b <;> simpa [dirWrap, bezierWrap] using h
  have col : ∀ j, gridColumn p.grid (m + 1) (n + 1) j = arr (m + 1) fun i => p.pts n i j := fun _ => rfl
  have row : ∀ i, gridRow p.grid (n + 1) i = arr (n + 1) fun j => p.pts n i j := fun _ => rfl
  -- first and last control points of the curves along `v`
  have atV : ∀ (u u' : K), p.perV = false → dirWrap R p.perU 0 1 u = ok u' → ∀ v j,
      (v = 0 ∧ j = 0 ∨ v = 1 ∧ j = n) →
      patchEvaluate R (firstFuse p.degU p.degV Hu Hv) (lastFuse p.degU p.degV Hu Hv) p u v
        = bezierEvaluate R Hu { ctrl := arr (m + 1) fun i => p.pts n i j, periodic := p.perU } u := by
    intro u u' hv hu v j hj
    have hend : ∀ (H : ℕ → ℕ → ι → Fuse) (P : ℕ → ι → K), (∀ j i, R.IsFloat (P j i)) →
        bezierEvaluate R H { ctrl := arr (n + 1) P, periodic := p.perV } v = ok (P j) := by
      intro H P hP
      rw [hv]
      rcases hj with ⟨rfl, rfl⟩ | ⟨rfl, rfl⟩
      · exact (bezier_end R H n hP).1
      · exact (bezier_end R H j hP).2
    unfold patchEvaluate firstFuse lastFuse
    split_ifs with hdeg
    · unfold isoCurveV
      rw [hp.numV, ok_bind, hp.isoCurvesU, ok_bind]
      refine pick_step (n + 1) (l := fun j => Bezier.mk (arr (m + 1) fun i => p.pts n i j) p.perU)
        (c := fun x => Bezier.mk x p.perV) (e := fun _ a => bezierEvaluate R Hu a u)
        (r := fun c => bezierEvaluate R Hv c v)
        (fun i _ => bezierEvaluate_arr R Hu m (fun a => p.pts n a i) p.perU (hwrap hu)) ?_
      rw [hend _ _ fun j i => tri_step_float R _ _ (fun _ _ => hpt _ _ _) _ _ _,
        bezierEvaluate_arr R Hu m _ p.perU (hwrap hu)]
    · unfold isoCurveU
      rw [hp.numU, ok_bind, hp.isoCurvesV, ok_bind]
      exact pick_step (m + 1) (l := fun i => Bezier.mk (arr (n + 1) fun j => p.pts n i j) p.perV)
        (c := fun x => Bezier.mk x p.perU) (e := fun _ a => bezierEvaluate R Hv a v)
        (r := fun c => bezierEvaluate R Hu c u) (g := fun i => p.pts n i j)
        (fun i _ => hend Hv (fun j => p.pts n i j) fun _ _ => hpt _ _ _) rfl
  have atU : ∀ (v v' : K), p.perU = false → dirWrap R p.perV 0 1 v = ok v' → ∀ u i,
      (u = 0 ∧ i = 0 ∨ u = 1 ∧ i = m) →
      patchEvaluate R (firstFuse p.degU p.degV Hu Hv) (lastFuse p.degU p.degV Hu Hv) p u v
        = bezierEvaluate R Hv { ctrl := arr (n + 1) fun j => p.pts n i j, periodic := p.perV } v := by
    intro v v' hu hv u i hi
    have hend : ∀ (H : ℕ → ℕ → ι → Fuse) (P : ℕ → ι → K), (∀ j i, R.IsFloat (P j i)) →
        bezierEvaluate R H { ctrl := arr (m + 1) P, periodic := p.perU } u = ok (P i) := by
      intro H P hP
      rw [hu]
      rcases hi with ⟨rfl, rfl⟩ | ⟨rfl, rfl⟩
      · exact (bezier_end R H m hP).1
      · exact (bezier_end R H i hP).2
    unfold patchEvaluate firstFuse lastFuse
    split_ifs with hdeg
    · unfold isoCurveV
      rw [hp.numV, ok_bind, hp.isoCurvesU, ok_bind]
      exact pick_step (n + 1) (l := fun j => Bezier.mk (arr (m + 1) fun i => p.pts n i j) p.perU)
        (c := fun x => Bezier.mk x p.perV) (e := fun _ a => bezierEvaluate R Hu a u)
        (r := fun c => bezierEvaluate R Hv c v) (g := fun j => p.pts n i j)
        (fun j _ => hend Hu (fun i => p.pts n i j) fun _ _ => hpt _ _ _) rfl
    · unfold isoCurveU
      rw [hp.numU, ok_bind, hp.isoCurvesV, ok_bind]
      refine pick_step (m + 1) (l := fun i => Bezier.mk (arr (n + 1) fun j => p.pts n i j) p.perV)
        (c := fun x => Bezier.mk x p.perU) (e := fun _ a => bezierEvaluate R Hv a v)
        (r := fun c => bezierEvaluate R Hu c u)
        (fun i _ => bezierEvaluate_arr R Hv n (fun b => p.pts n i b) p.perV (hwrap hv)) ?_
      rw [hend _ _ fun j i => tri_step_float R _ _ (fun _ _ => hpt _ _ _) _ _ _,
        bezierEvaluate_arr R Hv n _ p.perV (hwrap hv)]
  refine ⟨fun hv u u' hu => ⟨?_, ?_⟩, fun hu v v' hv => ⟨?_, ?_⟩⟩
  · rw [col]; exact atV u u' hv hu 0 0 (Or.inl ⟨rfl, rfl⟩)
  · rw [col]; exact atV u u' hv hu 1 n (Or.inr ⟨rfl, rfl⟩)
  · rw [row]; exact atU v v' hu hv 0 0 (Or.inl ⟨rfl, rfl⟩)
  · rw [row]; exact atU v v' hu hv 1 m (Or.inr ⟨rfl, rfl⟩)

/-- C97: two Bézier patches of any degrees across the common edge that have the same control points along it
agree along it bit by bit. -/
theorem C97_bezier_watertight (R : Rounding K) (Hu Hv Hw : ℕ → ℕ → ι → Fuse) {p q : BezierPatch (ι → K)}
    {m n k : ℕ} (hp : p.WellFormed m n) (hq : q.WellFormed m k) (fp : Floats R p.grid)
    (fq : Floats R q.grid) (hper : p.perU = q.perU) (pv : p.perV = false) (qv : q.perV = false)
    (hedge : gridColumn p.grid (m + 1) (n + 1) n = gridColumn q.grid (m + 1) (k + 1) 0) {u u' : K}
    (hu : dirWrap R p.perU 0 1 u = ok u') :
    patchEvaluate R (firstFuse p.degU p.degV Hu Hv) (lastFuse p.degU p.degV Hu Hv) p u 1
      = patchEvaluate R (firstFuse q.degU q.degV Hu Hw) (lastFuse q.degU q.degV Hu Hw) q u 0 := by
  rw [((C97_bezier_edges R Hu Hv hp fp).1 pv u u' hu).2,
    ((C97_bezier_edges R Hu Hw hq fq).1 qv u u' (hper ▸ hu)).1, hedge, hper]

/-- C97: along its edges a rational Bézier patch is, bit by bit, the rational curve of the control points and
weights of the edge. -/
theorem C97_rational_edges (R : Rounding K) (Hu Hv : ℕ → ℕ → Option ι → Fuse) {p : BezierPatch (ι → K)}
    {m n : ℕ} (hp : p.WellFormed m n) {w : List K} (hlen : p.grid.length = w.length)
    (hw : ∀ x ∈ w, R.IsFloat x) :
    (p.perV = false → ∀ u u', dirWrap R p.perU 0 1 u = ok u' →
      rationalPatchEvaluate R (firstFuse p.degU p.degV Hu Hv) (lastFuse p.degU p.degV Hu Hv) p w u 0
        = rationalEvaluate R Hu (gridColumn p.grid (m + 1) (n + 1) 0) (gridColumn w (m + 1) (n + 1) 0)
            p.perU u ∧
      rationalPatchEvaluate R (firstFuse p.degU p.degV Hu Hv) (lastFuse p.degU p.degV Hu Hv) p w u 1
        = rationalEvaluate R Hu (gridColumn p.grid (m + 1) (n + 1) n) (gridColumn w (m + 1) (n + 1) n)
            p.perU u) ∧
    (p.perU = false → ∀ v v', dirWrap R p.perV 0 1 v = ok v' →
      rationalPatchEvaluate R (firstFuse p.degU p.degV Hu Hv) (lastFuse p.degU p.degV Hu Hv) p w 0 v
        = rationalEvaluate R Hv (gridRow p.grid (n + 1) 0) (gridRow w (n + 1) 0) p.perV v ∧
      rationalPatchEvaluate R (firstFuse p.degU p.degV Hu Hv) (lastFuse p.degU p.degV Hu Hv) p w 1 v
        = rationalEvaluate R Hv (gridRow p.grid (n + 1) m) (gridRow w (n + 1) m) p.perV v) := by
  have h : (BezierPatch.mk (homPts R p.grid w) p.degU p.degV p.perU p.perV p.sU p.sV).WellFormed m n :=
    ⟨hp.degU, hp.degV, by simp only [homPts_length R _ _ hlen]; exact hp.len⟩
  obtain ⟨a, b⟩ := C97_bezier_edges R Hu Hv h (homPts_floats R _ _ hlen hw)
  have e1 : ∀ u v, rationalPatchEvaluate R (firstFuse p.degU p.degV Hu Hv) (lastFuse p.degU p.degV Hu Hv)
      p w u v = (do
        let x ← patchEvaluate R (firstFuse p.degU p.degV Hu Hv) (lastFuse p.degU p.degV Hu Hv)
          (BezierPatch.mk (homPts R p.grid w) p.degU p.degV p.perU p.perV p.sU p.sV) u v
        quotient R x) := by
    intro u v
    unfold rationalPatchEvaluate
    rw [homogenize_eq R _ _ hlen, ok_bind]
  have e2 : ∀ (H : ℕ → ℕ → Option ι → Fuse) k (f : ℕ → ℕ) (per : Bool) t,
      rationalEvaluate R H (arr k fun i => p.grid.getD (f i) 0) (arr k fun i => w.getD (f i) 0) per t = (do
        let x ← bezierEvaluate R H
          { ctrl := arr k fun i => (homPts R p.grid w).getD (f i) 0, periodic := per } t
        quotient R x) := by
    intro H k f per t
    unfold rationalEvaluate quotient
    rw [homogenize_eq R _ _ (by simp), ok_bind, homPts_pick R _ _ hlen]
  refine ⟨fun hv u u' hu => ?_, fun hu v v' hv => ?_⟩
  · obtain ⟨x, y⟩ := a hv u u' hu
    exact ⟨by rw [e1, x]; exact (e2 Hu _ _ _ _).symm, by rw [e1, y]; exact (e2 Hu _ _ _ _).symm⟩
  · obtain ⟨x, y⟩ := b hu v v' hv
    exact ⟨by rw [e1, x]; exact (e2 Hv _ _ _ _).symm, by rw [e1, y]; exact (e2 Hv _ _ _ _).symm⟩

/-- C97: along its edges a clamped B-spline patch is, bit by bit, the B-spline of the control points of the
edge. -/
theorem C97_bspline_edges (R : Rounding K) (Hu Hv : ℕ → ℕ → ι → Fuse) {p r : BSplinePatch K (ι → K)}
    {m n du dv : ℕ} (hp : p.Valid m n du dv) (hr : p.init = ok r) (hf : Floats R p.grid) :
    (p.perV = false → FlWideOn R p.knotsV n dv → ClampedOn p.knotsV n dv → ∀ u u',
      dirWrap R p.perU (knot p.knotsU du) (knot p.knotsU m) u = ok u' →
      BSplinePatch.InDom p.knotsU m du u' →
      bsplinePatchEvaluate R (firstFuse p.degU p.degV Hu Hv) (lastFuse p.degU p.degV Hu Hv) r u
          (knot p.knotsV dv) = bsplineEvaluate R Hu
            ⟨gridColumn p.grid m n 0, p.knotsU, p.perU, BSplinePatch.staticDeg p.sU⟩ u ∧
      bsplinePatchEvaluate R (firstFuse p.degU p.degV Hu Hv) (lastFuse p.degU p.degV Hu Hv) r u
          (knot p.knotsV n) = bsplineEvaluate R Hu
            ⟨gridColumn p.grid m n (n - 1), p.knotsU, p.perU, BSplinePatch.staticDeg p.sU⟩ u) ∧
    (p.perU = false → FlWideOn R p.knotsU m du → ClampedOn p.knotsU m du → ∀ v v',
      dirWrap R p.perV (knot p.knotsV dv) (knot p.knotsV n) v = ok v' →
      BSplinePatch.InDom p.knotsV n dv v' →
      bsplinePatchEvaluate R (firstFuse p.degU p.degV Hu Hv) (lastFuse p.degU p.degV Hu Hv) r
          (knot p.knotsU du) v = bsplineEvaluate R Hv
            ⟨gridRow p.grid n 0, p.knotsV, p.perV, BSplinePatch.staticDeg p.sV⟩ v ∧
      bsplinePatchEvaluate R (firstFuse p.degU p.degV Hu Hv) (lastFuse p.degU p.degV Hu Hv) r
          (knot p.knotsU m) v = bsplineEvaluate R Hv
            ⟨gridRow p.grid n (m - 1), p.knotsV, p.perV, BSplinePatch.staticDeg p.sV⟩ v) := by
  have hrd := hp.ready hr
  rw [hp.init, ok.injEq] at hr
  subst hr
  set r : BSplinePatch K (ι → K) := { p with isoU := arr n (p.colU m n), isoV := arr m (p.rowV n) } with hr'
  have hpt : ∀ a b i, R.IsFloat (p.pts n a b i) := fun a b i => hf.getD _ i
  have col : ∀ j, gridColumn p.grid m n j = arr m fun i => p.pts n i j := fun _ => rfl
  have row : ∀ i, gridRow p.grid n i = arr n fun j => p.pts n i j := fun _ => rfl
  have atV : p.perV = false → FlWideOn R p.knotsV n dv → ClampedOn p.knotsV n dv → ∀ u u',
      dirWrap R p.perU (knot p.knotsU du) (knot p.knotsU m) u = ok u' →
      BSplinePatch.InDom p.knotsU m du u' → ∀ v j,
      (v = knot p.knotsV dv ∧ j = 0 ∨ v = knot p.knotsV n ∧ j = n - 1) →
      bsplinePatchEvaluate R (firstFuse p.degU p.degV Hu Hv) (lastFuse p.degU p.degV Hu Hv) r u v
        = bsplineEvaluate R Hu
          ⟨arr m fun i => p.pts n i j, p.knotsU, p.perU, BSplinePatch.staticDeg p.sU⟩ u := by
    intro hv wv cv u u' hu du' v j hj
    obtain ⟨g, hg⟩ := axis_value R Hu hp.u p.perU hu du'
    have hend : ∀ (H : ℕ → ℕ → ι → Fuse) (P : ℕ → ι → K), (∀ j < n, ∀ i, R.IsFloat (P j i)) →
        bsplineEvaluate R H ⟨arr n P, p.knotsV, p.perV, BSplinePatch.staticDeg p.sV⟩ v = ok (P j) := by
      intro H P hP
      rw [hv]
      obtain ⟨x, y⟩ := axis_ends R H hp.v wv cv P hP
      rcases hj with ⟨rfl, rfl⟩ | ⟨rfl, rfl⟩
      · exact x
      · exact y
    unfold bsplinePatchEvaluate firstFuse lastFuse
    change (if p.degV > p.degU then _ else _) = _
    split_ifs with hdeg
    · unfold bsplineIsoV
      rw [hrd.toValid.numV, ok_bind, hrd.isoU]
      refine pick_step n (l := fun j =>
          BSpline.mk (arr m fun i => p.pts n i j) p.knotsU p.perU (BSplinePatch.staticDeg p.sU))
        (c := fun x => BSpline.mk x p.knotsV p.perV (BSplinePatch.staticDeg p.sV))
        (e := fun _ a => bsplineEvaluate R Hu a u) (r := fun c => bsplineEvaluate R Hv c v)
        (fun i _ => (hg fun a => p.pts n a i).1) ?_
      rw [hend _ _ fun j _ => (hg fun a => p.pts n a j).2 fun _ _ _ => hpt _ _ _,
        (hg fun a => p.pts n a j).1]
    · unfold bsplineIsoU
      rw [hrd.toValid.numU, ok_bind, hrd.isoV]
      exact pick_step m (l := fun i =>
          BSpline.mk (arr n fun j => p.pts n i j) p.knotsV p.perV (BSplinePatch.staticDeg p.sV))
        (c := fun x => BSpline.mk x p.knotsU p.perU (BSplinePatch.staticDeg p.sU))
        (e := fun _ a => bsplineEvaluate R Hv a v) (r := fun c => bsplineEvaluate R Hu c u)
        (g := fun i => p.pts n i j)
        (fun i _ => hend Hv (fun j => p.pts n i j) fun _ _ _ => hpt _ _ _) rfl
  have atU : p.perU = false → FlWideOn R p.knotsU m du → ClampedOn p.knotsU m du → ∀ v v',
      dirWrap R p.perV (knot p.knotsV dv) (knot p.knotsV n) v = ok v' →
      BSplinePatch.InDom p.knotsV n dv v' → ∀ u i,
      (u = knot p.knotsU du ∧ i = 0 ∨ u = knot p.knotsU m ∧ i = m - 1) →
      bsplinePatchEvaluate R (firstFuse p.degU p.degV Hu Hv) (lastFuse p.degU p.degV Hu Hv) r u v
        = bsplineEvaluate R Hv
          ⟨arr n fun j => p.pts n i j, p.knotsV, p.perV, BSplinePatch.staticDeg p.sV⟩ v := by
    intro hu wu cu v v' hv dv' u i hi
    obtain ⟨g, hg⟩ := axis_value R Hv hp.v p.perV hv dv'
    have hend : ∀ (H : ℕ → ℕ → ι → Fuse) (P : ℕ → ι → K), (∀ j < m, ∀ i, R.IsFloat (P j i)) →
        bsplineEvaluate R H ⟨arr m P, p.knotsU, p.perU, BSplinePatch.staticDeg p.sU⟩ u = ok (P i) := by
      intro H P hP
      rw [hu]
      obtain ⟨x, y⟩ := axis_ends R H hp.u wu cu P hP
      rcases hi with ⟨rfl, rfl⟩ | ⟨rfl, rfl⟩
      · exact x
      · exact y
    unfold bsplinePatchEvaluate firstFuse lastFuse
    change (if p.degV > p.degU then _ else _) = _
    split_ifs with hdeg
    · unfold bsplineIsoV
      rw [hrd.toValid.numV, ok_bind, hrd.isoU]
      exact pick_step n (l := fun j =>
          BSpline.mk (arr m fun i => p.pts n i j) p.knotsU p.perU (BSplinePatch.staticDeg p.sU))
        (c := fun x => BSpline.mk x p.knotsV p.perV (BSplinePatch.staticDeg p.sV))
        (e := fun _ a => bsplineEvaluate R Hu a u) (r := fun c => bsplineEvaluate R Hv c v)
        (g := fun j => p.pts n i j)
        (fun j _ => hend Hu (fun i => p.pts n i j) fun _ _ _ => hpt _ _ _) rfl
    · unfold bsplineIsoU
      rw [hrd.toValid.numU, ok_bind, hrd.isoV]
      refine pick_step m (l := fun i =>
          BSpline.mk (arr n fun j => p.pts n i j) p.knotsV p.perV (BSplinePatch.staticDeg p.sV))
        (c := fun x => BSpline.mk x p.knotsU p.perU (BSplinePatch.staticDeg p.sU))
        (e := fun _ a => bsplineEvaluate R Hv a v) (r := fun c => bsplineEvaluate R Hu c u)
        (fun i _ => (hg fun b => p.pts n i b).1) ?_
      rw [hend _ _ fun i _ => (hg fun b => p.pts n i b).2 fun _ _ _ => hpt _ _ _,
        (hg fun b => p.pts n i b).1]
  refine ⟨fun hv wv cv u u' hu du' => ⟨?_, ?_⟩, fun hu wu cu v v' hv dv' => ⟨?_, ?_⟩⟩
  · rw [col]; exact atV hv wv cv u u' hu du' _ _ (Or.inl ⟨rfl, rfl⟩)
  · rw [col]; exact atV hv wv cv u u' hu du' _ _ (Or.inr ⟨rfl, rfl⟩)
  · rw [row]; exact atU hu wu cu v v' hv dv' _ _ (Or.inl ⟨rfl, rfl⟩)
  · rw [row]; exact atU hu wu cu v v' hv dv' _ _ (Or.inr ⟨rfl, rfl⟩)

/-- C97: along its edges in `u` a NURBS patch clamped in `v` is, bit by bit, the NURBS curve of the edge. -/
theorem C97_nurbs_edges_u (R : Rounding K) (Hu Hv : ℕ → ℕ → Option ι → Fuse) {p : BSplinePatch K (ι → K)}
    {m n du dv : ℕ} (hp : p.Valid m n du dv) {w : List K} (hlen : p.grid.length = w.length)
    (hw : ∀ x ∈ w, R.IsFloat x) (pv : p.perV = false) (wv : FlWideOn R p.knotsV n dv)
    (cv : ClampedOn p.knotsV n dv) {u u' : K}
    (hu : dirWrap R p.perU (knot p.knotsU du) (knot p.knotsU m) u = ok u')
    (hu' : BSplinePatch.InDom p.knotsU m du u') :
    nurbsPatchEvaluate R (firstFuse p.degU p.degV Hu Hv) (lastFuse p.degU p.degV Hu Hv) p w u
        (knot p.knotsV dv) = nurbsEvaluate R Hu
          ⟨gridColumn p.grid m n 0, p.knotsU, p.perU, BSplinePatch.staticDeg p.sU⟩ (gridColumn w m n 0) u ∧
    nurbsPatchEvaluate R (firstFuse p.degU p.degV Hu Hv) (lastFuse p.degU p.degV Hu Hv) p w u
        (knot p.knotsV n) = nurbsEvaluate R Hu
          ⟨gridColumn p.grid m n (n - 1), p.knotsU, p.perU, BSplinePatch.staticDeg p.sU⟩
          (gridColumn w m n (n - 1)) u := by
  have h : (BSplinePatch.mk (homPts R p.grid w) p.knotsU p.knotsV p.degU p.degV p.perU p.perV p.sU p.sV
      [] []).Valid m n du dv :=
    ⟨hp.u, hp.v, by simp only [homPts_length R _ _ hlen]; exact hp.grid⟩
  obtain ⟨r, hr⟩ : ∃ r, (BSplinePatch.mk (homPts R p.grid w) p.knotsU p.knotsV p.degU p.degV p.perU p.perV
      p.sU p.sV [] []).init = ok r := ⟨_, h.init⟩
  obtain ⟨x, y⟩ := (C97_bspline_edges R Hu Hv h hr (homPts_floats R _ _ hlen hw)).1 pv wv cv u u' hu hu'
  have e1 : ∀ v, nurbsPatchEvaluate R (firstFuse p.degU p.degV Hu Hv) (lastFuse p.degU p.degV Hu Hv)
      p w u v = (do
        let x ← bsplinePatchEvaluate R (firstFuse p.degU p.degV Hu Hv) (lastFuse p.degU p.degV Hu Hv) r u v
        quotient R x) := by
    intro v
    unfold nurbsPatchEvaluate
    rw [homogenize_eq R _ _ hlen, ok_bind, hr, ok_bind]
  have e2 : ∀ (f : ℕ → ℕ),
      nurbsEvaluate R Hu ⟨arr m fun i => p.grid.getD (f i) 0, p.knotsU, p.perU,
        BSplinePatch.staticDeg p.sU⟩ (arr m fun i => w.getD (f i) 0) u = (do
        let x ← bsplineEvaluate R Hu ⟨arr m fun i => (homPts R p.grid w).getD (f i) 0, p.knotsU, p.perU,
          BSplinePatch.staticDeg p.sU⟩ u
        quotient R x) := by
    intro f
    unfold nurbsEvaluate
    rw [homogenize_eq R _ _ (by simp), ok_bind, homPts_pick R _ _ hlen,
      BSpline.validate_ok (hp.u.wf p.perU (by simp)), ok_bind]
  exact ⟨by rw [e1, x]; exact (e2 _).symm, by rw [e1, y]; exact (e2 _).symm⟩

/-- C97: the same along the edges in `v`. -/
theorem C97_nurbs_edges_v (R : Rounding K) (Hu Hv : ℕ → ℕ → Option ι → Fuse) {p : BSplinePatch K (ι → K)}
    {m n du dv : ℕ} (hp : p.Valid m n du dv) {w : List K} (hlen : p.grid.length = w.length)
    (hw : ∀ x ∈ w, R.IsFloat x) (pu : p.perU = false) (wu : FlWideOn R p.knotsU m du)
    (cu : ClampedOn p.knotsU m du) {v v' : K}
    (hv : dirWrap R p.perV (knot p.knotsV dv) (knot p.knotsV n) v = ok v')
    (hv' : BSplinePatch.InDom p.knotsV n dv v') :
    nurbsPatchEvaluate R (firstFuse p.degU p.degV Hu Hv) (lastFuse p.degU p.degV Hu Hv) p w
        (knot p.knotsU du) v = nurbsEvaluate R Hv
          ⟨gridRow p.grid n 0, p.knotsV, p.perV, BSplinePatch.staticDeg p.sV⟩ (gridRow w n 0) v ∧
    nurbsPatchEvaluate R (firstFuse p.degU p.degV Hu Hv) (lastFuse p.degU p.degV Hu Hv) p w
        (knot p.knotsU m) v = nurbsEvaluate R Hv
          ⟨gridRow p.grid n (m - 1), p.knotsV, p.perV, BSplinePatch.staticDeg p.sV⟩
          (gridRow w n (m - 1)) v := by
  have h : (BSplinePatch.mk (homPts R p.grid w) p.knotsU p.knotsV p.degU p.degV p.perU p.perV p.sU p.sV
      [] []).Valid m n du dv :=
    ⟨hp.u, hp.v, by simp only [homPts_length R _ _ hlen]; exact hp.grid⟩
  obtain ⟨r, hr⟩ : ∃ r, (BSplinePatch.mk (homPts R p.grid w) p.knotsU p.knotsV p.degU p.degV p.perU p.perV
      p.sU p.sV [] []).init = ok r := ⟨_, h.init⟩
  obtain ⟨x, y⟩ := (C97_bspline_edges R Hu Hv h hr (homPts_floats R _ _ hlen hw)).2 pu wu cu v v' hv hv'
  have e1 : ∀ u, nurbsPatchEvaluate R (firstFuse p.degU p.degV Hu Hv) (lastFuse p.degU p.degV Hu Hv)
      p w u v = (do
        let x ← bsplinePatchEvaluate R (firstFuse p.degU p.degV Hu Hv) (lastFuse p.degU p.degV Hu Hv) r u v
        quotient R x) := by
    intro u
    unfold nurbsPatchEvaluate
    rw [homogenize_eq R _ _ hlen, ok_bind, hr, ok_bind]
  have e2 : ∀ (f : ℕ → ℕ),
      nurbsEvaluate R Hv ⟨arr n fun i => p.grid.getD (f i) 0, p.knotsV, p.perV,
        BSplinePatch.staticDeg p.sV⟩ (arr n fun i => w.getD (f i) 0) v = (do
        let x ← bsplineEvaluate R Hv ⟨arr n fun i => (homPts R p.grid w).getD (f i) 0, p.knotsV, p.perV,
          BSplinePatch.staticDeg p.sV⟩ v
        quotient R x) := by
    intro f
    unfold nurbsEvaluate
    rw [homogenize_eq R _ _ (by simp), ok_bind, homPts_pick R _ _ hlen,
      BSpline.validate_ok (hp.v.wf p.perV (by simp)), ok_bind]
  exact ⟨by rw [e1, x]; exact (e2 _).symm, by rw [e1, y]; exact (e2 _).symm⟩

end Float

/-! ### Limits and concrete cases in double precision -/

/-- The patch of degrees one and one with the numbers of `l` as control points. -/
def flat (l : List ℚ) : BezierPatch (Fin 1 → ℚ) :=
  { grid := l.map fun x _ => x, degU := 1, degV := 1 }

theorem ok_of_first {x : Outcome (Fin 1 → ℚ)} {a : ℚ} (h : (x >>= fun q => ok (q 0)) = ok a) :
    x = ok fun _ => a := by
  cases x with
  | ok q =>
    rw [ok_bind, ok.injEq] at h
    congr 1
    funext i
    rw [Subsingleton.elim i 0, h]
  | throw e => cases h
  | ub => cases h

/-- C97 refuted for edges run through in opposite directions: the right edge of the first patch goes from
`0` to `1`, the left edge of the second one from `1` to `0`, and the point at `0.1` of the first is not the
point at `1 - 0.1` of the second. -/
theorem C97_reversed_refuted :
    gridColumn (flat [5, 0, 7, 1]).grid 2 2 1 = (gridColumn (flat [1, 5, 0, 7]).grid 2 2 0).reverse ∧
    patchEvaluate double (fun _ => plain) plain (flat [5, 0, 7, 1]) tenth 1 = ok (fun _ => tenth) ∧
    patchEvaluate double (fun _ => plain) plain (flat [1, 5, 0, 7]) (double.rnd (1 - tenth)) 0
      = ok (fun _ => 900719925474099 / 2 ^ 53) ∧
    (900719925474099 / 2 ^ 53 : ℚ) ≠ tenth :=
  ⟨rfl, ok_of_first (by decide +kernel), ok_of_first (by decide +kernel), by decide +kernel⟩

/-- C97 refuted if the compiler contracts the two evaluations differently: with the same edge from `1` to
`3`, the points at `0.1` with and without a fused product differ. -/
theorem C97_contraction_refuted :
    gridColumn (flat [5, 1, 7, 3]).grid 2 2 1 = gridColumn (flat [1, 5, 3, 7]).grid 2 2 0 ∧
    patchEvaluate double (fun _ => plain) plain (flat [5, 1, 7, 3]) tenth 1
      = ok (fun _ => 1351079888211149 / 2 ^ 50) ∧
    patchEvaluate double (fun _ => plain) (fun _ _ _ => Fuse.first) (flat [1, 5, 3, 7]) tenth 0
      = ok (fun _ => 5404319552844595 / 2 ^ 52) ∧
    (1351079888211149 / 2 ^ 50 : ℚ) ≠ 5404319552844595 / 2 ^ 52 :=
  ⟨rfl, ok_of_first (by decide +kernel), ok_of_first (by decide +kernel), by decide +kernel⟩

theorem flat_floats {l : List ℚ} (h : ∀ x ∈ l, double.rnd x = x) : Floats double (flat l).grid := by
  intro x hx i
  obtain ⟨y, hy, rfl⟩ := List.mem_map.1 hx
  exact h y hy

/-- Concrete case of `C97_bezier_edges` and `C97_bezier_watertight`: the point at `0.1` of the edge from `1`
to `3` of two patches. -/
example : (flat [5, 1, 7, 3]).WellFormed 1 1 ∧ (flat [1, 5, 3, 7]).WellFormed 1 1 ∧
    Floats double (flat [5, 1, 7, 3]).grid ∧ Floats double (flat [1, 5, 3, 7]).grid ∧
    gridColumn (flat [5, 1, 7, 3]).grid 2 2 1 = gridColumn (flat [1, 5, 3, 7]).grid 2 2 0 ∧
    dirWrap double false 0 1 tenth = ok tenth ∧
    patchEvaluate double (fun _ => plain) plain (flat [5, 1, 7, 3]) tenth 1
      = ok (fun _ => 1351079888211149 / 2 ^ 50) ∧
    patchEvaluate double (fun _ => plain) plain (flat [1, 5, 3, 7]) tenth 0
      = ok (fun _ => 1351079888211149 / 2 ^ 50) :=
  ⟨⟨rfl, rfl, rfl⟩, ⟨rfl, rfl, rfl⟩, flat_floats (by decide +kernel), flat_floats (by decide +kernel), rfl,
    rfl, ok_of_first (by decide +kernel), ok_of_first (by decide +kernel)⟩

/-- Concrete case of `C97_rational_edges`: the same edge with weights `2` and `0.1`. -/
example : (flat [5, 1, 7, 3]).grid.length = [1, 2, 1, tenth].length ∧
    (∀ x ∈ [1, 2, 1, tenth], double.IsFloat x) ∧
    (rationalPatchEvaluate double (fun _ => plain) plain (flat [5, 1, 7, 3]) [1, 2, 1, tenth] tenth 1
        >>= fun q => ok (q 0))
      = (rationalEvaluate double plain [fun _ : Fin 1 => 1, fun _ => 3] [2, tenth] false tenth
        >>= fun q => ok (q 0)) := by
  refine ⟨rfl, ?_, by decide +kernel⟩
  unfold Rounding.IsFloat
  decide +kernel

/-- Concrete case of `C97_bspline_edges` and `C97_nurbs_edges_u`: the values along the edge of `someGrid` at
the end of the second parameter. -/
example : ClampedOn someGrid.knotsV 2 1 ∧ FlWideOn double someGrid.knotsV 2 1 ∧
    dirWrap double false (-1) 3 (2 : ℚ) = ok 2 ∧ BSplinePatch.InDom someGrid.knotsU 3 1 2 ∧
    (do let r ← someGrid.init
        let q ← bsplinePatchEvaluate double (fun _ => plain) plain r 2 2
        ok (q 0))
      = (do let q ← bsplineEvaluate double plain
              ⟨gridColumn someGrid.grid 3 2 1, someGrid.knotsU, false, none⟩ 2
            ok (q 0)) := by
  refine ⟨⟨by decide +kernel, ?_, by decide +kernel, ?_⟩, ?_, rfl,
    ⟨by decide +kernel, by decide +kernel, Or.inl (by decide +kernel)⟩, by decide +kernel⟩
  · intro j h1 h2; interval_cases j; rfl
  · intro j h1 h2; interval_cases j; rfl
  · intro i h1 h2 _
    interval_cases i; decide +kernel

end NS.Fl
