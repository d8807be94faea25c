import Mathlib.Algebra.Order.Ring.Rat
import Mathlib.Algebra.Field.Rat
import Mathlib.Data.Rat.Floor
import Verif.Proof.MshRecord
import Verif.Props.NurbsPatch
import Verif.Spec.MshRecord

/-!
# C51: saving a curve or patch record and loading it again

The statements compare the observable data (Spec/MshRecord.lean) of the object before and after.
-/

set_option linter.unusedSectionVars false

namespace NS

open Outcome

variable {K V : Type} [Field K] [LinearOrder K] [IsStrictOrderedRing K] [FloorRing K]
  [AddCommGroup V] [Module K V]

theorem validate_degree {c : BSpline K V} (h : c.validate = ok ()) : 0 ≤ c.degree := by
  unfold BSpline.validate at h
  by_contra hc
  rw [throwIf_true (Or.inl (by omega))] at h
  cases h

theorem roundtrip_curve {dim : ℕ} {co : V → List K} {e : V → P3 K} (hd : Coords dim co e)
    (c : AnyCurve K V) (hc : c.Ready) (tag : ℕ) :
    ∃ s c', addCurve (c.api dim co) tag = ok s ∧ s.tag = tag ∧ loadCurve s = ok c' ∧ c'.kind = c.kind ∧
      c'.points = c.points.map e ∧ c'.weights = c.weights ∧ c'.knots = c.knots ∧ c'.periodic = false ∧
      c'.Ready := by
  cases c with
  | bezier c =>
    obtain ⟨s, h1, h2, h3⟩ := roundtrip_bezier (K := K) hd (c := c) hc tag
    exact ⟨s, _, h1, h2, h3, rfl, rfl, rfl, rfl, rfl, by simpa [AnyCurve.Ready] using hc⟩
  | rational c =>
    obtain ⟨h0, hi⟩ := hc
    obtain ⟨hl, -⟩ := ((RationalBezier.init_iff _ _).1 hi).1
    obtain ⟨s, h1, h2, h3⟩ := roundtrip_rational hd h0 hl tag
    refine ⟨s, _, h1, h2, h3, rfl, rfl, rfl, rfl, rfl, ?_, ?_⟩
    · simpa using h0
    · exact (RationalBezier.init_iff _ _).2 ⟨⟨by simpa using hl, rfl⟩, rfl, rfl⟩
  | bspline c =>
    obtain ⟨s, h1, h2, h3⟩ := roundtrip_bspline hd (validate_degree hc) tag
    refine ⟨s, _, h1, h2, h3, rfl, rfl, rfl, rfl, rfl, ?_⟩
    have := validate_degree hc
    unfold BSpline.degree at this
    refine throwIf_false ?_
    rintro (h4 | ⟨h4, _⟩)
    · simp only [BSpline.degree, List.length_map] at h4
      omega
    · exact Bool.false_ne_true h4
  | nurbs c =>
    obtain ⟨h0, hv, hi⟩ := hc
    obtain ⟨hl, -⟩ := ((NURBS.init_iff _ _).1 hi).1
    have hdeg := validate_degree hv
    obtain ⟨s, h1, h2, h3⟩ := roundtrip_nurbs hd hdeg h0 hl tag
    refine ⟨s, _, h1, h2, h3, rfl, rfl, rfl, rfl, rfl, ?_, ?_, ?_⟩
    · simpa using h0
    · unfold BSpline.degree at hdeg
      refine throwIf_false ?_
      rintro (h4 | ⟨h4, _⟩)
      · simp only [BSpline.degree, List.length_map] at h4
        omega
      · exact Bool.false_ne_true h4
    · exact (NURBS.init_iff _ _).2 ⟨⟨by simpa using hl, rfl⟩, rfl, rfl⟩

theorem NURBS.evaluate_sdeg {c d : NURBS K V} (h : c.Sync) (hd : d.Sync) (hv : c.base.validate = ok ())
    (hb : d.base = BSpline.mk c.base.ctrl c.base.knots c.base.periodic none) (hw : d.weights = c.weights)
    (t : K) : d.evaluate t = c.evaluate t := by
  have hh : c.hom.validate = ok () := by
    rw [h.hom]
    unfold BSpline.validate BSpline.degree at hv ⊢
    simp only [homog_length h.len]
    exact hv
  have hdv : d.base.validate = ok () := by
    rw [hb]
    have := validate_degree hv
    refine throwIf_false ?_
    rintro (h4 | ⟨h4, _⟩)
    · exact absurd this (not_le.2 h4)
    · exact Bool.false_ne_true h4
  have he : d.hom = BSpline.mk c.hom.ctrl c.hom.knots c.hom.periodic none := by
    rw [hd.hom, hb, hw, h.hom]
  unfold NURBS.evaluate
  rw [h.validate, hd.validate, hv, hdv, he, BSpline.evaluate_sdeg hh]

/-- The points of space are their own coordinates. -/
theorem coords_xyz : Coords (K := K) 3 xyz id := Or.inl ⟨rfl, fun _ => rfl⟩

/-- C51, proved part: any usable curve in space is saved without error, and loading the record gives a
curve of the same class with the same control points, weights and knots.
Missing: the periodic flag, see `C51_curve_flag_refuted`. -/
theorem C51_curve_data_partial (c : AnyCurve K (P3 K)) (hc : c.Ready) (tag : ℕ) :
    ∃ s c', addCurve (c.api 3 xyz) tag = ok s ∧ s.tag = tag ∧ loadCurve s = ok c' ∧ c'.kind = c.kind ∧
      c'.points = c.points ∧ c'.weights = c.weights ∧ c'.knots = c.knots := by
  obtain ⟨s, c', h1, h2, h3, h4, h5, h6, h7, -, -⟩ := roundtrip_curve coords_xyz c hc tag
  exact ⟨s, c', h1, h2, h3, h4, by rw [h5, List.map_id], h6, h7⟩

/-- C51, proved part: the loaded curve has the same `evaluate`, for curves that are not periodic.
Missing: periodic curves, see `C51_curve_evaluate_refuted`. -/
theorem C51_curve_evaluate_partial (c : AnyCurve K (P3 K)) (hc : c.Ready) (hp : c.periodic = false) {tag : ℕ}
    {s : MshCurve K} {c' : AnyCurve K (P3 K)} (hs : addCurve (c.api 3 xyz) tag = ok s)
    (hl : loadCurve s = ok c') (t : K) : c'.evaluate t = c.evaluate t := by
  cases c with
  | bezier c =>
    obtain ⟨s', h1, h2, h3⟩ := roundtrip_bezier (K := K) coords_xyz (c := c) hc tag
    rw [hs, ok.injEq] at h1
    subst h1
    rw [hl, ok.injEq] at h3
    subst h3
    simp only [AnyCurve.periodic] at hp
    rw [List.map_id, ← hp]
  | rational c =>
    obtain ⟨h0, hi⟩ := hc
    obtain ⟨hlen, hh⟩ := ((RationalBezier.init_iff _ _).1 hi).1
    obtain ⟨s', h1, h2, h3⟩ := roundtrip_rational coords_xyz h0 hlen tag
    rw [hs, ok.injEq] at h1
    subst h1
    rw [hl, ok.injEq] at h3
    subst h3
    simp only [AnyCurve.periodic] at hp
    rw [List.map_id, ← hp, ← hh]
  | bspline c =>
    obtain ⟨s', h1, h2, h3⟩ := roundtrip_bspline coords_xyz (validate_degree hc) tag
    rw [hs, ok.injEq] at h1
    subst h1
    rw [hl, ok.injEq] at h3
    subst h3
    simp only [AnyCurve.periodic] at hp
    rw [List.map_id, ← hp]
    exact BSpline.evaluate_sdeg hc t
  | nurbs c =>
    obtain ⟨h0, hv, hi⟩ := hc
    obtain ⟨hlen, hh⟩ := ((NURBS.init_iff _ _).1 hi).1
    obtain ⟨s', h1, h2, h3⟩ := roundtrip_nurbs coords_xyz (validate_degree hv) h0 hlen tag
    rw [hs, ok.injEq] at h1
    subst h1
    rw [hl, ok.injEq] at h3
    subst h3
    simp only [AnyCurve.periodic] at hp
    have := NURBS.evaluate_sdeg (c := c) (d := NURBS.mk (BSpline.mk (c.base.ctrl.map id) c.base.knots false
        none) c.weights (BSpline.mk (homog (c.base.ctrl.map id) c.weights) c.base.knots false none))
      ⟨hlen, hh⟩ ⟨by simpa using hlen, rfl⟩ hv (by rw [hp, List.map_id]) rfl t
    exact this

/-- C51: a curve in the plane is loaded as the same curve in the plane `z = 0` of space. -/
theorem C51_planar_curve (c : AnyCurve K (K × K)) (hc : c.Ready) (tag : ℕ) :
    ∃ s c', addCurve (c.api 2 (fun p => [p.1, p.2])) tag = ok s ∧ s.tag = tag ∧ loadCurve s = ok c' ∧
      c'.kind = c.kind ∧ c'.points = c.points.map (fun p => (p.1, p.2, 0)) ∧ c'.weights = c.weights ∧
      c'.knots = c.knots := by
  obtain ⟨s, c', h1, h2, h3, h4, h5, h6, h7, -, -⟩ := roundtrip_curve
    (co := fun p : K × K => [p.1, p.2]) (e := fun p => (p.1, p.2, 0))
    (Or.inr ⟨rfl, fun _ => rfl⟩) c hc tag
  exact ⟨s, c', h1, h2, h3, h4, h5, h6, h7⟩

/-- C51 is false for the periodic flag: every usable curve, periodic or not, is loaded as a curve that is
not periodic. -/
theorem C51_curve_flag_refuted (c : AnyCurve K (P3 K)) (hc : c.Ready) (tag : ℕ) :
    ∃ s c', addCurve (c.api 3 xyz) tag = ok s ∧ loadCurve s = ok c' ∧ c'.periodic = false := by
  obtain ⟨s, c', h1, -, h3, -, -, -, -, h8, -⟩ := roundtrip_curve coords_xyz c hc tag
  exact ⟨s, c', h1, h3, h8⟩

/-- C51 is false for the evaluation of periodic curves: the segment from the origin to `(1, 0, 0)` with the
periodic flag set has the value `(1/2, 0, 0)` at `3/2`, after loading `(3/2, 0, 0)`. -/
theorem C51_curve_evaluate_refuted :
    ∃ (c : AnyCurve ℚ (P3 ℚ)) (s : MshCurve ℚ) (c' : AnyCurve ℚ (P3 ℚ)), c.Ready ∧
      addCurve (c.api 3 xyz) 1 = ok s ∧ loadCurve s = ok c' ∧ c.evaluate (3 / 2) = ok (1 / 2, 0, 0) ∧
      c'.evaluate (3 / 2) = ok (3 / 2, 0, 0) := by
  refine ⟨.bezier ⟨[(0, 0, 0), (1, 0, 0)], true⟩, ⟨1, 1, 1, 2, 0, false, [0, 0, 0, 1, 0, 0]⟩,
    .bezier ⟨[(0, 0, 0), (1, 0, 0)], false⟩, ?_, ?_, ?_, ?_, ?_⟩
  · exact List.cons_ne_nil _ _
  all_goals decide +kernel

theorem roundtrip_patch {dim : ℕ} {co : V → List K} {e : V → P3 K} (hd : Coords dim co e)
    (p : AnyPatch K V) (hp : p.Ready) (tag : ℕ) :
    ∃ s p', addPatch (p.api dim co) tag = ok s ∧ s.tag = tag ∧ loadPatch s = ok p' ∧ p'.kind = p.kind ∧
      p'.points = p.points.map e ∧ p'.weights = p.weights ∧ p'.knots = p.knots ∧ p'.degrees = p.degrees ∧
      p'.periodic = (false, false) := by
  cases p with
  | bezier p =>
    obtain ⟨m, n, hw⟩ := (BezierPatch.init_iff _).1 hp
    obtain ⟨s, h1, h2, h3⟩ := roundtrip_bezierPatch (K := K) hd hw tag
    exact ⟨s, _, h1, h2, h3, rfl, rfl, rfl, rfl, rfl, rfl⟩
  | rational p =>
    obtain ⟨s, h1, h2, h3⟩ := roundtrip_rationalPatch hd ((RationalBezierPatch.init_iff _ _).1 hp).1 tag
    exact ⟨s, _, h1, h2, h3, rfl, rfl, rfl, rfl, rfl, rfl⟩
  | bspline p =>
    obtain ⟨m, n, du, dv, hs⟩ := sized_of_init hp
    obtain ⟨s, q, h1, h2, h4, h3⟩ := roundtrip_bsplinePatch hd hs tag
    have hs' : Sized (BSplinePatch.mk (p.grid.map e) p.knotsU p.knotsV p.degU p.degV false false (-1) (-1)
      [] []) m n du dv := ⟨hs.degU, hs.degV, hs.lenU, hs.lenV, by simpa using hs.grid⟩
    rw [hs'.init, ok.injEq] at h4
    subst h4
    exact ⟨s, _, h1, h2, h3, rfl, rfl, rfl, rfl, rfl, rfl⟩
  | nurbs p =>
    obtain ⟨h0, hi⟩ := hp
    have hsy := (Props.sync_of_init hi).1
    obtain ⟨m, n, du, dv, hs⟩ := sized_of_init hsy.init
    have hm : 0 < m := by
      rcases Nat.eq_zero_or_pos m with rfl | hm
      · have := hs.grid
        rw [hsy.grid, homog_length hsy.len.symm] at this
        simp at this
        exact absurd this h0
      · exact hm
    obtain ⟨s, q, h1, h2, h4, h3⟩ := roundtrip_nurbsPatch hd hsy hs hm tag
    exact ⟨s, _, h1, h2, h3, rfl, rfl, rfl, rfl, rfl, rfl⟩

/-- C51, proved part: any initialised patch in space is saved without error, and loading the record gives a
patch of the same class with the same control grid, weights, knots and degrees.
Missing: the periodic flags, see `C51_patch_flag_refuted`. -/
theorem C51_patch_data_partial (p : AnyPatch K (P3 K)) (hp : p.Ready) (tag : ℕ) :
    ∃ s p', addPatch (p.api 3 xyz) tag = ok s ∧ s.tag = tag ∧ loadPatch s = ok p' ∧ p'.kind = p.kind ∧
      p'.points = p.points ∧ p'.weights = p.weights ∧ p'.knots = p.knots ∧ p'.degrees = p.degrees := by
  obtain ⟨s, p', h1, h2, h3, h4, h5, h6, h7, h8, -⟩ := roundtrip_patch coords_xyz p hp tag
  exact ⟨s, p', h1, h2, h3, h4, by rw [h5, List.map_id], h6, h7, h8⟩

/-- C51, proved part: the loaded patch has the same `evaluate`, for patches that are not periodic.
Missing: periodic patches, see `C51_patch_evaluate_refuted`. -/
theorem C51_patch_evaluate_partial (p : AnyPatch K (P3 K)) (hp : p.Ready) (hc : p.Consistent)
    (hper : p.periodic = (false, false)) {tag : ℕ} {s : MshPatch K} {p' : AnyPatch K (P3 K)}
    (hs : addPatch (p.api 3 xyz) tag = ok s) (hl : loadPatch s = ok p') (u v : K) :
    p'.evaluate u v = p.evaluate u v := by
  cases p with
  | bezier p =>
    obtain ⟨m, n, hw⟩ := (BezierPatch.init_iff _).1 hp
    obtain ⟨s', h1, h2, h3⟩ := roundtrip_bezierPatch (K := K) coords_xyz hw tag
    rw [hs, ok.injEq] at h1
    subst h1
    rw [hl, ok.injEq] at h3
    subst h3
    simp only [AnyPatch.periodic, Prod.mk.injEq] at hper
    rw [List.map_id]
    obtain ⟨g, a, b, c, d, x, y⟩ := p
    obtain ⟨rfl, rfl⟩ := hper
    rfl
  | rational p =>
    have hsy := ((RationalBezierPatch.init_iff _ _).1 hp).1
    obtain ⟨s', h1, h2, h3⟩ := roundtrip_rationalPatch coords_xyz hsy tag
    rw [hs, ok.injEq] at h1
    subst h1
    rw [hl, ok.injEq] at h3
    subst h3
    simp only [AnyPatch.periodic, Prod.mk.injEq] at hper
    rw [List.map_id]
    obtain ⟨hl, hh, ho⟩ := hsy
    obtain ⟨⟨g, a, b, c, d, x, y⟩, w, q⟩ := p
    simp only at hh hper
    obtain ⟨rfl, rfl⟩ := hper
    subst hh
    rfl
  | bspline p =>
    obtain ⟨m, n, du, dv, hsz⟩ := sized_of_init hp
    obtain ⟨s', q, h1, h2, h4, h3⟩ := roundtrip_bsplinePatch coords_xyz hsz tag
    rw [hs, ok.injEq] at h1
    subst h1
    rw [hl, ok.injEq] at h3
    subst h3
    simp only [AnyPatch.periodic, Prod.mk.injEq] at hper
    rw [List.map_id] at h4
    exact hsz.evaluate_static hp h4 hper.1 hper.2 hc.1 hc.2 u v
  | nurbs p =>
    obtain ⟨h0, hi⟩ := hp
    have hsy := (Props.sync_of_init hi).1
    obtain ⟨m, n, du, dv, hsz⟩ := sized_of_init hsy.init
    have hm : 0 < m := by
      rcases Nat.eq_zero_or_pos m with rfl | hm
      · have := hsz.grid
        rw [hsy.grid, homog_length hsy.len.symm] at this
        simp at this
        exact absurd this h0
      · exact hm
    obtain ⟨s', q, h1, h2, h4, h3⟩ := roundtrip_nurbsPatch coords_xyz hsy hsz hm tag
    rw [hs, ok.injEq] at h1
    subst h1
    rw [hl, ok.injEq] at h3
    subst h3
    simp only [AnyPatch.periodic, Prod.mk.injEq] at hper
    rw [List.map_id] at h4 ⊢
    rw [← hsy.grid, ← hsy.knotsU, ← hsy.knotsV, ← hsy.hdegU, ← hsy.hdegV] at h4
    obtain ⟨hc1, hc2⟩ := hc
    simp only [AnyPatch.template, AnyPatch.degrees] at hc1 hc2
    have he := hsz.evaluate_static hsy.init h4 (by rw [hsy.perU]; exact hper.1)
      (by rw [hsy.perV]; exact hper.2) (by rw [hsy.sU, hsy.hdegU]; exact hc1)
      (by rw [hsy.sV, hsy.hdegV]; exact hc2) u v
    have hs2 : Sized (BSplinePatch.mk p.hom.grid p.hom.knotsU p.hom.knotsV p.hom.degU p.hom.degV false
      false (-1) (-1) [] []) m n du dv := ⟨hsz.degU, hsz.degV, hsz.lenU, hsz.lenV, hsz.grid⟩
    rw [hs2.init, ok.injEq] at h4
    have hv : (NURBSPatch.mk p.grid p.weights p.knotsU p.knotsV p.degU p.degV false false (-1) (-1)
        q).validate = ok () := by
      subst h4
      unfold NURBSPatch.validate
      rw [throwIf_false, ok_bind, NURBSPatch.degreeOf_ok hsy.degU, ok_bind,
        NURBSPatch.degreeOf_ok hsy.degV, ok_bind, throwIf_false (by simp), ok_bind]
      simp only
      rw [hsy.grid, homog_length hsy.len.symm, hsy.len]
      simp
    simp only [AnyPatch.evaluate, NURBSPatch.evaluate]
    rw [hv, hsy.validate, he]

/-- C51: a patch in the plane is loaded as the same patch in the plane `z = 0` of space. -/
theorem C51_planar_patch (p : AnyPatch K (K × K)) (hp : p.Ready) (tag : ℕ) :
    ∃ s p', addPatch (p.api 2 (fun p => [p.1, p.2])) tag = ok s ∧ s.tag = tag ∧ loadPatch s = ok p' ∧
      p'.kind = p.kind ∧ p'.points = p.points.map (fun p => (p.1, p.2, 0)) ∧ p'.weights = p.weights ∧
      p'.knots = p.knots ∧ p'.degrees = p.degrees := by
  obtain ⟨s, p', h1, h2, h3, h4, h5, h6, h7, h8, -⟩ := roundtrip_patch
    (co := fun p : K × K => [p.1, p.2]) (e := fun p => (p.1, p.2, 0))
    (Or.inr ⟨rfl, fun _ => rfl⟩) p hp tag
  exact ⟨s, p', h1, h2, h3, h4, h5, h6, h7, h8⟩

/-- C51 is false for the periodic flags: every initialised patch is loaded as a patch that is not
periodic. -/
theorem C51_patch_flag_refuted (p : AnyPatch K (P3 K)) (hp : p.Ready) (tag : ℕ) :
    ∃ s p', addPatch (p.api 3 xyz) tag = ok s ∧ loadPatch s = ok p' ∧ p'.periodic = (false, false) := by
  obtain ⟨s, p', h1, -, h3, -, -, -, -, -, h9⟩ := roundtrip_patch coords_xyz p hp tag
  exact ⟨s, p', h1, h3, h9⟩

/-- C51 is false for the evaluation of periodic patches: a bilinear patch with the flag of the first
direction set. -/
theorem C51_patch_evaluate_refuted :
    ∃ (p : AnyPatch ℚ (P3 ℚ)) (s : MshPatch ℚ) (p' : AnyPatch ℚ (P3 ℚ)), p.Ready ∧ p.Consistent ∧
      addPatch (p.api 3 xyz) 1 = ok s ∧ loadPatch s = ok p' ∧
      p.evaluate (3 / 2) 0 = ok (1 / 2, 0, 0) ∧ p'.evaluate (3 / 2) 0 = ok (3 / 2, 0, 0) := by
  refine ⟨.bezier ⟨[(0, 0, 0), (0, 1, 0), (1, 0, 0), (1, 1, 0)], 1, 1, true, false, -1, -1⟩,
    ⟨1, 1, 1, 1, 4, 0, 0, false, [0, 0, 0, 0, 1, 0, 1, 0, 0, 1, 1, 0]⟩,
    .bezier ⟨[(0, 0, 0), (0, 1, 0), (1, 0, 0), (1, 1, 0)], 1, 1, false, false, -1, -1⟩, ?_, ?_, ?_, ?_,
    ?_, ?_⟩
  · change BezierPatch.init _ = _
    decide +kernel
  · exact ⟨Or.inl (by decide), Or.inl (by decide)⟩
  all_goals decide +kernel

/-- The hypotheses are met by a NURBS curve, which comes back as it was. -/
example : ∃ c : AnyCurve ℚ (P3 ℚ), c.Ready ∧ c.periodic = false ∧ c.kind = 4 ∧
    (∃ s, addCurve (c.api 3 xyz) 7 = ok s ∧ loadCurve s = ok c) := by
  refine ⟨.nurbs ⟨⟨[(0, 0, 0), (1, 2, 3), (4, 0, 1)], [0, 0, 0, 1, 1, 1], false, none⟩, [1, 2, 1],
    ⟨[((0, 0, 0), 1), ((2, 4, 6), 2), ((4, 0, 1), 1)], [0, 0, 0, 1, 1, 1], false, none⟩⟩, ?_, rfl, rfl,
    ⟨7, 4, 2, 3, 6, true, [0, 0, 0, 1, 1, 2, 3, 2, 4, 0, 1, 1, 0, 0, 0, 1, 1, 1]⟩, ?_, ?_⟩
  · refine ⟨List.cons_ne_nil _ _, ?_, ?_⟩ <;> decide +kernel
  all_goals decide +kernel

/-- A NURBS patch with 3 x 2 points before `initialize`. -/
def exMshRaw : NURBSPatch ℚ (P3 ℚ) :=
  NURBSPatch.mk [(0, 0, 0), (1, 2, 3), (4, 0, 1), (2, 2, 2), (1, 0, 1), (0, 5, 0)] [1, 2, 1, 1, 3, 1]
    [0, 0, 0, 1, 1, 1] [0, 0, 1, 1] 2 1 false false (-1) (-1)
    (BSplinePatch.mk [] [] [] (-1) (-1) false false (-1) (-1) [] [])

/-- The same patch after `initialize`. -/
def exMshPatch : NURBSPatch ℚ (P3 ℚ) :=
  match exMshRaw.init with
  | ok p => p
  | _ => exMshRaw

/-- The hypotheses are met by this patch, which comes back as it was. -/
example : (AnyPatch.nurbs exMshPatch).Ready ∧ (AnyPatch.nurbs exMshPatch).Consistent ∧
    (AnyPatch.nurbs exMshPatch).periodic = (false, false) ∧
    (do let s ← addPatch ((AnyPatch.nurbs exMshPatch).api 3 xyz) 7
        loadPatch s) = ok (AnyPatch.nurbs exMshPatch) := by
  refine ⟨⟨?_, ?_⟩, ⟨Or.inl ?_, Or.inl ?_⟩, ?_, ?_⟩ <;> decide +kernel

end NS
