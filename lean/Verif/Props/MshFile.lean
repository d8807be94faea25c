import Verif.Model.MshFile
import Verif.Props.MshRecord
import Verif.Props.Numeric
import Verif.Props.Affine

/-!
# C51 and C49 at the level of whole files and curves
-/

set_option linter.unusedSectionVars false

namespace NS

open Outcome

variable {K V : Type} [Field K] [LinearOrder K] [IsStrictOrderedRing K] [FloorRing K]
  [AddCommGroup V] [Module K V]

/-- The embedding of the plane as `z = 0`. -/
def flat : K × K →ᵃ[K] P3 K where
  toFun p := (p.1, p.2, 0)
  linear :=
    { toFun := fun p => (p.1, p.2, 0)
      map_add' := fun p q => by simp
      map_smul' := fun a p => by simp }
  map_vadd' p v := by simp

/-- A loaded curve shows the data of the saved one, with the points embedded in space by `e`, and, unless
that was periodic, its values. -/
def SameCurve (e : V → P3 K) (c : AnyCurve K V) (c' : AnyCurve K (P3 K)) : Prop :=
  c'.kind = c.kind ∧ c'.points = c.points.map e ∧ c'.weights = c.weights ∧ c'.knots = c.knots ∧
    (c.periodic = false → ∀ t : K, c'.evaluate t = e <$> c.evaluate t)

/-- The same for patches. -/
def SamePatch (e : V → P3 K) (p : AnyPatch K V) (p' : AnyPatch K (P3 K)) : Prop :=
  p'.kind = p.kind ∧ p'.points = p.points.map e ∧ p'.weights = p.weights ∧ p'.knots = p.knots ∧
    p'.degrees = p.degrees ∧
    (p.Consistent → p.periodic = (false, false) → ∀ u v : K, p'.evaluate u v = e <$> p.evaluate u v)

theorem curve_evaluate_affine {dim : ℕ} {co : V → List K} (e : V →ᵃ[K] P3 K) (hd : Coords dim co e)
    (c : AnyCurve K V) (hc : c.Ready) (hp : c.periodic = false) {tag : ℕ}
    {s : MshCurve K} {c' : AnyCurve K (P3 K)} (hs : addCurve (c.api dim co) tag = ok s)
    (hl : loadCurve s = ok c') (t : K) : c'.evaluate t = e <$> c.evaluate t := by
  cases c with
  | bezier c =>
    obtain ⟨s', h1, h2, h3⟩ := roundtrip_bezier (K := K) hd (c := c) hc tag
    rw [hs, ok.injEq] at h1
    subst h1
    rw [hl, ok.injEq] at h3
    subst h3
    simp only [AnyCurve.periodic] at hp
    rw [← hp]
    exact Props.C04_bezier_affine_any e c t
  | rational c =>
    obtain ⟨h0, hi⟩ := hc
    obtain ⟨hlen, hh⟩ := ((RationalBezier.init_iff _ _).1 hi).1
    obtain ⟨s', h1, h2, h3⟩ := roundtrip_rational hd h0 hlen tag
    rw [hs, ok.injEq] at h1
    subst h1
    rw [hl, ok.injEq] at h3
    subst h3
    simp only [AnyCurve.periodic] at hp
    have h4 := Props.C04_rational_bezier_affine e c.base.ctrl c.weights c.base.periodic c.hom
      ⟨homog (c.base.ctrl.map e) c.weights, c.base.periodic⟩ t
    have i1 : (RationalBezier.mk ⟨c.base.ctrl.map e, c.base.periodic⟩ c.weights
        ⟨homog (c.base.ctrl.map e) c.weights, c.base.periodic⟩).init = ok _ :=
      RationalBezier.Sync.init ⟨by simpa using hlen, rfl⟩
    have i2 : (RationalBezier.mk ⟨c.base.ctrl, c.base.periodic⟩ c.weights c.hom).init = ok c := hi
    rw [i1, i2, ok_bind, ok_bind] at h4
    rw [← hp]
    exact h4
  | bspline c =>
    obtain ⟨s', h1, h2, h3⟩ := roundtrip_bspline hd (validate_degree hc) tag
    rw [hs, ok.injEq] at h1
    subst h1
    rw [hl, ok.injEq] at h3
    subst h3
    simp only [AnyCurve.periodic] at hp
    rw [← hp]
    have h4 := Props.C04_bspline_affine e (BSpline.mk c.ctrl c.knots c.periodic none) t
    rw [BSpline.evaluate_sdeg hc t] at h4
    exact h4
  | nurbs c =>
    obtain ⟨h0, hv, hi⟩ := hc
    obtain ⟨hlen, hh⟩ := ((NURBS.init_iff _ _).1 hi).1
    obtain ⟨s', h1, h2, h3⟩ := roundtrip_nurbs hd (validate_degree hv) h0 hlen tag
    rw [hs, ok.injEq] at h1
    subst h1
    rw [hl, ok.injEq] at h3
    subst h3
    simp only [AnyCurve.periodic] at hp
    have h5 := NURBS.evaluate_sdeg (c := c) (d := NURBS.mk (BSpline.mk c.base.ctrl c.base.knots
        c.base.periodic none) c.weights (BSpline.mk (homog c.base.ctrl c.weights) c.base.knots
        c.base.periodic none)) ⟨hlen, hh⟩ ⟨hlen, rfl⟩ hv rfl rfl t
    have h4 := Props.C04_nurbs_affine e (BSpline.mk c.base.ctrl c.base.knots c.base.periodic none)
      c.weights (BSpline.mk (homog c.base.ctrl c.weights) c.base.knots c.base.periodic none)
      (BSpline.mk (homog (c.base.ctrl.map e) c.weights) c.base.knots c.base.periodic none) t
    have i1 : (NURBS.mk (BSpline.mk (c.base.ctrl.map e) c.base.knots c.base.periodic none) c.weights
        (BSpline.mk (homog (c.base.ctrl.map e) c.weights) c.base.knots c.base.periodic none)).init
        = ok _ := NURBS.Sync.init ⟨by simpa using hlen, rfl⟩
    have i2 : (NURBS.mk (BSpline.mk c.base.ctrl c.base.knots c.base.periodic none) c.weights
        (BSpline.mk (homog c.base.ctrl c.weights) c.base.knots c.base.periodic none)).init
        = ok _ := NURBS.Sync.init ⟨hlen, rfl⟩
    rw [i1, i2, ok_bind, ok_bind] at h4
    rw [← hp]
    exact h4.trans (congrArg _ h5)

theorem patch_evaluate_affine {dim : ℕ} {co : V → List K} (e : V →ᵃ[K] P3 K) (hd : Coords dim co e)
    (p : AnyPatch K V) (hp : p.Ready) (hc : p.Consistent)
    (hper : p.periodic = (false, false)) {tag : ℕ} {s : MshPatch K} {p' : AnyPatch K (P3 K)}
    (hs : addPatch (p.api dim co) tag = ok s) (hl : loadPatch s = ok p') (u v : K) :
    p'.evaluate u v = e <$> p.evaluate u v := by
  cases p with
  | bezier p =>
    obtain ⟨m, n, hw⟩ := (BezierPatch.init_iff _).1 hp
    obtain ⟨s', h1, h2, h3⟩ := roundtrip_bezierPatch (K := K) hd hw tag
    rw [hs, ok.injEq] at h1
    subst h1
    rw [hl, ok.injEq] at h3
    subst h3
    simp only [AnyPatch.periodic, Prod.mk.injEq] at hper
    have := Props.C04_patch_affine_any e p u v
    rw [hper.1, hper.2] at this
    exact this
  | rational p =>
    have hsy := ((RationalBezierPatch.init_iff _ _).1 hp).1
    obtain ⟨s', h1, h2, h3⟩ := roundtrip_rationalPatch hd hsy tag
    rw [hs, ok.injEq] at h1
    subst h1
    rw [hl, ok.injEq] at h3
    subst h3
    simp only [AnyPatch.periodic, Prod.mk.injEq] at hper
    obtain ⟨m, n, hb, hh⟩ := hsy.wf
    have i1 : (RationalBezierPatch.mk ⟨p.base.grid.map e, p.base.degU, p.base.degV, false, false, -1, -1⟩
        p.weights ⟨homog (p.base.grid.map e) p.weights, p.base.degU, p.base.degV, false, false, -1,
        -1⟩).init = ok _ := (RationalBezierPatch.init_iff _ _).2 ⟨⟨by simpa using hsy.len, rfl,
          BezierPatch.init_ok (m := m) (n := n) ⟨hb.degU, hb.degV, by simpa using hb.len⟩⟩, rfl, rfl⟩
    have i2 : (RationalBezierPatch.mk ⟨p.base.grid, p.base.degU, p.base.degV, false, false, -1, -1⟩
        p.weights ⟨homog p.base.grid p.weights, p.base.degU, p.base.degV, false, false, -1,
        -1⟩).init = ok (RationalBezierPatch.mk ⟨p.base.grid, p.base.degU, p.base.degV, false, false, -1,
        -1⟩ p.weights ⟨homog p.base.grid p.weights, p.base.degU, p.base.degV, false, false, -1, -1⟩) := (RationalBezierPatch.init_iff _ _).2 ⟨⟨hsy.len, rfl,
          BezierPatch.init_ok (m := m) (n := n) ⟨hb.degU, hb.degV, hb.len⟩⟩, rfl, rfl⟩
    have h4 := Props.C04_rational_patch_affine e ⟨p.base.grid, p.base.degU, p.base.degV, false, false, -1,
      -1⟩ p.weights ⟨homog p.base.grid p.weights, p.base.degU, p.base.degV, false, false, -1, -1⟩
      ⟨homog (p.base.grid.map e) p.weights, p.base.degU, p.base.degV, false, false, -1, -1⟩ u v
    rw [i1, i2, ok_bind, ok_bind] at h4
    refine h4.trans (congrArg _ ?_)
    obtain ⟨hl, hh, ho⟩ := hsy
    obtain ⟨⟨g, a, b, c, d, x, y⟩, w, q⟩ := p
    simp only at hh hper
    obtain ⟨rfl, rfl⟩ := hper
    subst hh
    rfl
  | bspline p =>
    obtain ⟨m, n, du, dv, hsz⟩ := sized_of_init hp
    obtain ⟨s', q, h1, h2, h4, h3⟩ := roundtrip_bsplinePatch hd hsz tag
    rw [hs, ok.injEq] at h1
    subst h1
    rw [hl, ok.injEq] at h3
    subst h3
    simp only [AnyPatch.periodic, Prod.mk.injEq] at hper
    have hs2 : Sized (BSplinePatch.mk p.grid p.knotsU p.knotsV p.degU p.degV false
      false (-1) (-1) [] []) m n du dv := ⟨hsz.degU, hsz.degV, hsz.lenU, hsz.lenV, hsz.grid⟩
    have h5 := Props.C04_bspline_patch_affine e (BSplinePatch.mk p.grid p.knotsU p.knotsV p.degU p.degV
      false false (-1) (-1) [] []) [] [] u v
    rw [h4, hs2.init, ok_bind, ok_bind] at h5
    exact h5.trans (congrArg _ (hsz.evaluate_static hp hs2.init hper.1 hper.2 hc.1 hc.2 u v))
  | nurbs p =>
    obtain ⟨h0, hi⟩ := hp
    have hsy := (Props.sync_of_init hi).1
    obtain ⟨m, n, du, dv, hsz⟩ := sized_of_init hsy.init
    have hm : 0 < m := by
      rcases Nat.eq_zero_or_pos m with rfl | hm
      · have := hsz.grid
        rw [hsy.grid, homog_length hsy.len.symm] at this
        simp at this
        exact absurd this h0
      · exact hm
    obtain ⟨s', q, h1, h2, h4, h3⟩ := roundtrip_nurbsPatch hd hsy hsz hm tag
    rw [hs, ok.injEq] at h1
    subst h1
    rw [hl, ok.injEq] at h3
    subst h3
    simp only [AnyPatch.periodic, Prod.mk.injEq] at hper
    have hs2 : Sized (BSplinePatch.mk p.hom.grid p.hom.knotsU p.hom.knotsV p.hom.degU p.hom.degV false
      false (-1) (-1) [] []) m n du dv := ⟨hsz.degU, hsz.degV, hsz.lenU, hsz.lenV, hsz.grid⟩
    obtain ⟨q0, hq0⟩ : ∃ q0, (BSplinePatch.mk p.hom.grid p.hom.knotsU p.hom.knotsV p.hom.degU p.hom.degV
      false false (-1) (-1) [] []).init = ok q0 := ⟨_, hs2.init⟩
    obtain ⟨hc1, hc2⟩ := hc
    simp only [AnyPatch.template, AnyPatch.degrees] at hc1 hc2
    have he := hsz.evaluate_static hsy.init hq0 (by rw [hsy.perU]; exact hper.1)
      (by rw [hsy.perV]; exact hper.2) (by rw [hsy.sU, hsy.hdegU]; exact hc1)
      (by rw [hsy.sV, hsy.hdegV]; exact hc2) u v
    have hq1 := hq0
    rw [hs2.init, ok.injEq] at hq1
    have hv : (NURBSPatch.mk p.grid p.weights p.knotsU p.knotsV p.degU p.degV false false (-1) (-1)
        q0).validate = ok () := by
      subst hq1
      unfold NURBSPatch.validate
      rw [throwIf_false, ok_bind, NURBSPatch.degreeOf_ok hsy.degU, ok_bind,
        NURBSPatch.degreeOf_ok hsy.degV, ok_bind, throwIf_false (by simp), ok_bind]
      simp only
      rw [hsy.grid, homog_length hsy.len.symm, hsy.len]
      simp
    rw [hsy.grid, hsy.knotsU, hsy.knotsV, hsy.hdegU, hsy.hdegV] at hq0
    have h5 := Props.C04_nurbs_patch_affine e (NURBSPatch.mk p.grid p.weights p.knotsU p.knotsV p.degU
      p.degV false false (-1) (-1) ⟨[], [], [], 0, 0, false, false, -1, -1, [], []⟩)
      ⟨[], [], [], 0, 0, false, false, -1, -1, [], []⟩ u v
    have du' : ((p.degU.toNat : ℕ) : ℤ) = p.degU := Int.toNat_of_nonneg hsy.degU
    have dv' : ((p.degV.toNat : ℕ) : ℤ) = p.degV := Int.toNat_of_nonneg hsy.degV
    unfold NURBSPatch.init at h5
    simp only [List.length_map] at h5
    rw [throwIf_false (by simp [hsy.len]), ok_bind, ok_bind, homogenize_eq (by simpa using hsy.len.symm),
      homogenize_eq hsy.len.symm, ok_bind, ok_bind, NURBSPatch.degreeOf_ok hsy.degU, ok_bind, ok_bind,
      NURBSPatch.degreeOf_ok hsy.degV, ok_bind, ok_bind, du', dv', h4, hq0, ok_bind, ok_bind, pure_eq,
      pure_eq, ok_bind, ok_bind] at h5
    refine h5.trans (congrArg _ ?_)
    simp only [AnyPatch.evaluate, NURBSPatch.evaluate]
    rw [hv, hsy.validate, he]

theorem curves_roundtrip {dim : ℕ} {co : V → List K} (e : V →ᵃ[K] P3 K) (hd : Coords dim co e) :
    ∀ (cs : List (AnyCurve K V)), (∀ c ∈ cs, c.Ready) → ∀ tag : ℕ,
    ∃ ss cs', saveCurveRecords (cs.map (·.api dim co)) tag = ok ss ∧ loadCurves ss = ok cs' ∧
      (∀ i (h : i < ss.length), ss[i].tag = tag + i) ∧ ss.length = cs.length ∧
      List.Forall₂ (SameCurve e) cs cs' := by
  intro cs
  induction cs with
  | nil => intro _ tag; exact ⟨[], [], rfl, rfl, by simp, rfl, .nil⟩
  | cons c cs ih =>
    intro h tag
    obtain ⟨s, c', h1, h2, h3, h4, h5, h6, h7, -⟩ := roundtrip_curve hd c (h c (by simp)) tag
    obtain ⟨ss, cs', g1, g2, g3, g4, g5⟩ := ih (fun x hx => h x (by simp [hx])) (tag + 1)
    refine ⟨s :: ss, c' :: cs', ?_, ?_, ?_, by simp [g4], .cons ⟨h4, h5, h6, h7, fun hp t => ?_⟩ g5⟩
    · rw [List.map_cons, saveCurveRecords, h1, ok_bind, g1, ok_bind, pure_eq]
    · rw [loadCurves, h3, ok_bind, g2, ok_bind, pure_eq]
    · intro i hi
      cases i with
      | zero => simpa using h2
      | succ i => rw [List.getElem_cons_succ, g3 i (by simpa using hi)]; omega
    · exact curve_evaluate_affine e hd c (h c (by simp)) hp h1 h3 t

theorem patches_roundtrip {dim : ℕ} {co : V → List K} (e : V →ᵃ[K] P3 K) (hd : Coords dim co e) :
    ∀ (ps : List (AnyPatch K V)), (∀ p ∈ ps, p.Ready) → ∀ tag : ℕ,
    ∃ ss ps', savePatchRecords (ps.map (·.api dim co)) tag = ok ss ∧ loadPatches ss = ok ps' ∧
      (∀ i (h : i < ss.length), ss[i].tag = tag + i) ∧ ss.length = ps.length ∧
      List.Forall₂ (SamePatch e) ps ps' := by
  intro ps
  induction ps with
  | nil => intro _ tag; exact ⟨[], [], rfl, rfl, by simp, rfl, .nil⟩
  | cons c cs ih =>
    intro h tag
    obtain ⟨s, c', h1, h2, h3, h4, h5, h6, h7, h8, -⟩ := roundtrip_patch hd c (h c (by simp)) tag
    obtain ⟨ss, cs', g1, g2, g3, g4, g5⟩ := ih (fun x hx => h x (by simp [hx])) (tag + 1)
    refine ⟨s :: ss, c' :: cs', ?_, ?_, ?_, by simp [g4],
      .cons ⟨h4, h5, h6, h7, h8, fun hc hp u v => ?_⟩ g5⟩
    · rw [List.map_cons, savePatchRecords, h1, ok_bind, g1, ok_bind, pure_eq]
    · rw [loadPatches, h3, ok_bind, g2, ok_bind, pure_eq]
    · intro i hi
      cases i with
      | zero => simpa using h2
      | succ i => rw [List.getElem_cons_succ, g3 i (by simpa using hi)]; omega
    · exact patch_evaluate_affine e hd c (h c (by simp)) hc hp h1 h3 u v

theorem file_roundtrip {dim : ℕ} {co : V → List K} (e : V →ᵃ[K] P3 K) (hd : Coords dim co e)
    (cs : List (AnyCurve K V)) (ps : List (AnyPatch K V))
    (hc : ∀ c ∈ cs, c.Ready) (hp : ∀ p ∈ ps, p.Ready) :
    ∃ f cs' ps', saveMshRecords (cs.map (·.api dim co)) (ps.map (·.api dim co)) = ok f ∧
      loadMsh f = ok (cs', ps') ∧
      f.1.map (·.tag) = (List.range cs.length).map (· + 1) ∧
      f.2.map (·.tag) = (List.range ps.length).map (· + 1) ∧
      List.Forall₂ (SameCurve e) cs cs' ∧ List.Forall₂ (SamePatch e) ps ps' := by
  obtain ⟨a, cs', h1, h2, h3, h4, h5⟩ := curves_roundtrip e hd cs hc 1
  obtain ⟨b, ps', g1, g2, g3, g4, g5⟩ := patches_roundtrip e hd ps hp 1
  refine ⟨(a, b), cs', ps', ?_, ?_, ?_, ?_, h5, g5⟩
  · unfold saveMshRecords
    rw [h1, ok_bind, g1, ok_bind, pure_eq]
  · unfold loadMsh
    rw [h2, ok_bind, g2, ok_bind, pure_eq]
  · refine List.ext_getElem (by simp [h4]) (fun i hi _ => ?_)
    simp only [List.getElem_map, List.getElem_range]
    rw [h3 i (by simpa using hi)]; omega
  · refine List.ext_getElem (by simp [g4]) (fun i hi _ => ?_)
    simp only [List.getElem_map, List.getElem_range]
    rw [g3 i (by simpa using hi)]; omega

/-- C51, proved part (files): any lists of usable curves and patches are saved without error, with the
tags 1, 2, ... in each list, and loading the file gives lists of the same lengths and order, each entry of
the same class with the same data, and with the same values where the entry is not periodic.
Missing: the periodic flags, see `C51_curve_flag_refuted`. -/
theorem C51_file_partial (cs : List (AnyCurve K (P3 K))) (ps : List (AnyPatch K (P3 K)))
    (hc : ∀ c ∈ cs, c.Ready) (hp : ∀ p ∈ ps, p.Ready) :
    ∃ f cs' ps', saveMshRecords (cs.map (·.api 3 xyz)) (ps.map (·.api 3 xyz)) = ok f ∧
      loadMsh f = ok (cs', ps') ∧
      f.1.map (·.tag) = (List.range cs.length).map (· + 1) ∧
      f.2.map (·.tag) = (List.range ps.length).map (· + 1) ∧
      List.Forall₂ (SameCurve id) cs cs' ∧ List.Forall₂ (SamePatch id) ps ps' :=
  file_roundtrip (AffineMap.id K (P3 K)) coords_xyz cs ps hc hp

/-- C51, proved part (files of planar objects): curves and patches of the plane come back as the same
curves and patches in the plane `z = 0` of space; where the entry is not periodic, its value at a parameter
is the saved one with a zero appended.
Missing: the periodic flags, see `C51_curve_flag_refuted`. -/
theorem C51_planar_file_partial (cs : List (AnyCurve K (K × K))) (ps : List (AnyPatch K (K × K)))
    (hc : ∀ c ∈ cs, c.Ready) (hp : ∀ p ∈ ps, p.Ready) :
    ∃ f cs' ps', saveMshRecords (cs.map (·.api 2 (fun p => [p.1, p.2])))
        (ps.map (·.api 2 (fun p => [p.1, p.2]))) = ok f ∧ loadMsh f = ok (cs', ps') ∧
      f.1.map (·.tag) = (List.range cs.length).map (· + 1) ∧
      f.2.map (·.tag) = (List.range ps.length).map (· + 1) ∧
      List.Forall₂ (SameCurve (fun p => (p.1, p.2, 0))) cs cs' ∧
      List.Forall₂ (SamePatch (fun p => (p.1, p.2, 0))) ps ps' :=
  file_roundtrip flat (Or.inr ⟨rfl, fun _ => rfl⟩) cs ps hc hp

/-- **C49** (whole curve).  Without a range, uniform sampling returns exactly the requested number of
parameters, equally spaced, from the lower to the upper bound of the domain. -/
theorem C49_whole_domain [Geom K V] (fuel : ℕ) (len : K → K → Outcome K) (inv : K → Outcome K)
    (ev : K → Outcome V) (num : ℕ) (tMin tMax : K) (hn : 1 < num) (h : tMin ≤ tMax) (lower upper : Outcome K)
    (h1 : lower = ok tMin) (h2 : upper = ok tMax) :
    ∃ l, sampleCurve fuel len inv ev lower upper num .uniformDomain = ok l ∧ l.length = num ∧
      l[0]? = some tMin ∧ l[num - 1]? = some tMax ∧
      ∀ i (h : i < l.length), l[i] * ((num - 1 : ℕ) : K) = tMin * ((num - 1 : ℕ) : K) + (tMax - tMin) * i := by
  unfold sampleCurve
  rw [h1, h2, ok_bind, ok_bind]
  obtain ⟨l, e, a, b, c, -⟩ := C49_uniform_domain fuel len inv ev num tMin tMax hn h
  refine ⟨l, e, a, b, c, fun i hi => ?_⟩
  unfold sample at e
  rw [assert_true hn, ok_bind, ok.injEq] at e
  subst e
  have hq : (((num - 1 : ℕ) : K)) ≠ 0 := by
    have : num - 1 ≠ 0 := by omega
    exact_mod_cast this
  simp only [uniformDomain, List.getElem_map, List.getElem_range]
  field_simp

/-! ### Concrete cases -/

example : ∃ f cs' ps', saveMshRecords (K := ℚ)
    ([.bezier ⟨[(0, 0, 0), (1, 0, 2)], false⟩, .bezier ⟨[(0, 0, 0), (1, 0, 0)], true⟩].map
      (AnyCurve.api 3 xyz)) [] = ok f ∧ loadMsh f = ok (cs', ps') ∧ cs'.length = 2 := by
  obtain ⟨f, cs', ps', h1, h2, -, -, h3, -⟩ := C51_file_partial (K := ℚ)
    [.bezier ⟨[(0, 0, 0), (1, 0, 2)], false⟩, .bezier ⟨[(0, 0, 0), (1, 0, 0)], true⟩] []
    (by intro c hc; fin_cases hc <;> exact List.cons_ne_nil _ _) (by simp)
  exact ⟨f, cs', ps', h1, h2, h3.length_eq.symm⟩

example : sampleCurve (K := ℚ) (V := ℚ) 0 (fun _ _ => ub) (fun _ => ub) (fun _ => ub) (ok 1) (ok 3) 5
    .uniformDomain = ok [1, 3 / 2, 2, 5 / 2, 3] := by decide +kernel

end NS
