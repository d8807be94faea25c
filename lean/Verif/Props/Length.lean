import Verif.Proof.PolygonLength
import Verif.Props.Variation
import Mathlib.Topology.EMetricSpace.BoundedVariation

/-!
# C96: the control polygon bounds the length and the directions of the curve
-/

set_option linter.unusedSectionVars false

namespace NS.Props

open Outcome Spec Finset BSpline

section General

variable {K V : Type} [Field K] [LinearOrder K] [IsStrictOrderedRing K] [FloorRing K]
  [AddCommGroup V] [Module K V]

theorem bspline_value {c : BSpline K V} {p : ℕ} (hc : WellFormed c p) (hw : Wide c p) {f : K → V}
    {D : K → Prop}
    (hD : ∀ t, D t → knot c.knots p ≤ t ∧ t ≤ knot c.knots c.ctrl.length ∧
      (FirstSpan c p ∨ knot c.knots p < t) ∧
      (t < knot c.knots c.ctrl.length ∨ c.periodic = false))
    (hf : ∀ t, D t → c.evaluate t = ok (f t)) {t : K} (ht : D t) :
    f t = bsplinePoint p c.knots c.ctrl t := by
  obtain ⟨a1, a2, a3, a4⟩ := hD t ht
  have e := hf t ht
  rw [evaluate_eq hc hw (wrap_of_mem hc a1 (by
    rcases a4 with a4 | a4
    · exact Or.inl a4
    · exact Or.inr ⟨a4, a2⟩)) a3 a1 a2] at e
  exact (ok.inj e).symm

/-- C96: a polygon through points of a B-spline curve with increasing parameters is no longer than
the control polygon, for every way of measuring lengths. -/
theorem C96_bspline_length {nrm : V → K} (hn : IsSeminorm nrm) {c : BSpline K V} {p : ℕ}
    (hc : WellFormed c p) (hw : Wide c p) {f : K → V} {D : K → Prop}
    (hD : ∀ t, D t → knot c.knots p ≤ t ∧ t ≤ knot c.knots c.ctrl.length ∧
      (FirstSpan c p ∨ knot c.knots p < t) ∧
      (t < knot c.knots c.ctrl.length ∨ c.periodic = false))
    (hf : ∀ t, D t → c.evaluate t = ok (f t)) {x : ℕ → K} {n : ℕ}
    (hx : ∀ j < n, x j ≤ x (j + 1)) (hxD : ∀ j ≤ n, D (x j)) :
    ∑ j ∈ range n, nrm (f (x (j + 1)) - f (x j))
      ≤ ∑ i ∈ range (c.ctrl.length - 1), nrm (c.ctrl.getD (i + 1) 0 - c.ctrl.getD i 0) := by
  refine le_trans (le_of_eq (sum_congr rfl fun j hj => ?_)) (polygon_length hn hc hx
    (fun j hj => (hD _ (hxD j hj)).1) fun j hj => (hD _ (hxD j hj)).2.1)
  have hj' : j < n := by simpa using hj
  rw [bspline_value hc hw hD hf (hxD j hj'.le), bspline_value hc hw hD hf (hxD (j + 1) hj')]

/-- C96: the chords of a B-spline curve, in the direction of increasing parameters, lie in every
convex cone that contains the edges of the control polygon. -/
theorem C96_bspline_cone {C : V → Prop} (hC : IsCone K C) {c : BSpline K V} {p : ℕ}
    (hc : WellFormed c p) (hw : Wide c p) {f : K → V} {D : K → Prop}
    (hD : ∀ t, D t → knot c.knots p ≤ t ∧ t ≤ knot c.knots c.ctrl.length ∧
      (FirstSpan c p ∨ knot c.knots p < t) ∧
      (t < knot c.knots c.ctrl.length ∨ c.periodic = false))
    (hf : ∀ t, D t → c.evaluate t = ok (f t))
    (he : ∀ i, i + 1 < c.ctrl.length → C (c.ctrl.getD (i + 1) 0 - c.ctrl.getD i 0)) {a b : K}
    (ha : D a) (hb : D b) (hab : a ≤ b) : C (f b - f a) := by
  rw [bspline_value hc hw hD hf ha, bspline_value hc hw hD hf hb]
  exact chord_cone hC hc he (hD a ha).1 hab (hD b hb).2.1

/-! ### Bézier curves -/

theorem bezier_as_spline {P : List V} {p : ℕ} (hp : P.length = p + 1) :
    WellFormed (ofBezier K { ctrl := P }) p ∧ knot (ofBezier K { ctrl := P }).knots p = 0 ∧
      knot (ofBezier K { ctrl := P }).knots (ofBezier K { ctrl := P }).ctrl.length = 1 ∧
      ∀ t : K, 0 ≤ t → t ≤ 1 →
        bsplinePoint p (ofBezier K { ctrl := P }).knots (ofBezier K { ctrl := P }).ctrl t
          = bezierPoint P t := by
  have hne : P ≠ [] := by intro h; rw [h] at hp; simp at hp
  have hwf := ofBezier_wf (K := K) { ctrl := P } hp
  have k0 : knot (ofBezier K { ctrl := P }).knots p = 0 := by
    rw [ofBezier_knot { ctrl := P } hp p (by omega), if_pos le_rfl]
  have k1 : knot (ofBezier K { ctrl := P }).knots (ofBezier K { ctrl := P }).ctrl.length = 1 := by
    rw [show (ofBezier K { ctrl := P }).ctrl.length = p + 1 from hp,
      ofBezier_knot { ctrl := P } hp _ (by omega), if_neg (by omega)]
  refine ⟨hwf, k0, k1, fun t h0 h1 => ?_⟩
  have e := (C21_ofBezier (K := K) { ctrl := P } hp).2.2.2.2 t
  rw [evaluate_eq hwf (ofBezier_wide { ctrl := P } hp) (wrap_nonperiodic rfl t)
    (Or.inl (ofBezier_first { ctrl := P } hp)) (by rw [k0]; exact h0) (by rw [k1]; exact h1),
    Bezier.evaluate_eq _ hne] at e
  exact ok.inj e

theorem bezier_value {c : Bezier V} (hne : c.ctrl ≠ []) {f : K → V} {D : K → Prop}
    (hD : ∀ t, D t → 0 ≤ t ∧ t ≤ 1 ∧ (t < 1 ∨ c.periodic = false))
    (hf : ∀ t, D t → c.evaluate t = ok (f t)) {t : K} (ht : D t) : f t = bezierPoint c.ctrl t := by
  obtain ⟨t', w1, w2⟩ := bezier_folded c.periodic t
  have hs := folded_self w2 (hD t ht).1 (hD t ht).2.1 (hD t ht).2.2
  subst hs
  have e := hf t' ht
  rw [Bezier.evaluate_wrap, w1, ok_bind, Bezier.evaluate_eq _ hne] at e
  exact (ok.inj e).symm

theorem length_succ {P : List V} (hne : P ≠ []) : ∃ p, P.length = p + 1 :=
  ⟨P.length - 1, by have := List.length_pos_iff.2 hne; omega⟩

/-- C96 for Bézier curves: lengths. -/
theorem C96_bezier_length {nrm : V → K} (hn : IsSeminorm nrm) {c : Bezier V} (hne : c.ctrl ≠ [])
    {f : K → V} {D : K → Prop}
    (hD : ∀ t, D t → 0 ≤ t ∧ t ≤ 1 ∧ (t < 1 ∨ c.periodic = false))
    (hf : ∀ t, D t → c.evaluate t = ok (f t)) {x : ℕ → K} {n : ℕ}
    (hx : ∀ j < n, x j ≤ x (j + 1)) (hxD : ∀ j ≤ n, D (x j)) :
    ∑ j ∈ range n, nrm (f (x (j + 1)) - f (x j))
      ≤ ∑ i ∈ range (c.ctrl.length - 1), nrm (c.ctrl.getD (i + 1) 0 - c.ctrl.getD i 0) := by
  obtain ⟨p, hp⟩ := length_succ hne
  obtain ⟨b1, b2, b3, b4⟩ := bezier_as_spline (K := K) hp
  refine le_trans (le_of_eq (sum_congr rfl fun j hj => ?_)) (polygon_length hn b1 hx
    (fun j hj => by rw [b2]; exact (hD _ (hxD j hj)).1)
    fun j hj => by rw [b3]; exact (hD _ (hxD j hj)).2.1)
  have hj' : j < n := by simpa using hj
  have d1 := hD _ (hxD j hj'.le)
  have d2 := hD _ (hxD (j + 1) hj')
  rw [bezier_value hne hD hf (hxD j hj'.le), bezier_value hne hD hf (hxD (j + 1) hj'),
    b4 _ d1.1 d1.2.1, b4 _ d2.1 d2.2.1]

/-- C96 for Bézier curves: directions. -/
theorem C96_bezier_cone {C : V → Prop} (hC : IsCone K C) {c : Bezier V} (hne : c.ctrl ≠ [])
    {f : K → V} {D : K → Prop}
    (hD : ∀ t, D t → 0 ≤ t ∧ t ≤ 1 ∧ (t < 1 ∨ c.periodic = false))
    (hf : ∀ t, D t → c.evaluate t = ok (f t))
    (he : ∀ i, i + 1 < c.ctrl.length → C (c.ctrl.getD (i + 1) 0 - c.ctrl.getD i 0)) {a b : K}
    (ha : D a) (hb : D b) (hab : a ≤ b) : C (f b - f a) := by
  obtain ⟨p, hp⟩ := length_succ hne
  obtain ⟨b1, b2, b3, b4⟩ := bezier_as_spline (K := K) hp
  have d1 := hD _ ha
  have d2 := hD _ hb
  have := chord_cone hC b1 he (by rw [b2]; exact d1.1) hab (by rw [b3]; exact d2.2.1)
  rwa [b4 _ d1.1 d1.2.1, b4 _ d2.1 d2.2.1, ← bezier_value hne hD hf ha,
    ← bezier_value hne hD hf hb] at this

/-! ### Rational curves -/

theorem nurbs_value {c : NURBS K V} (hi : c.init = ok c) {p : ℕ} (hc : WellFormed c.base p)
    (hw : Wide c.base p) (hfst : FirstSpan c.base p) (hpos : ∀ x ∈ c.weights, 0 < x)
    {f : K → V} {D : K → Prop}
    (hD : ∀ t, D t → knot c.base.knots p ≤ t ∧ t ≤ knot c.base.knots c.base.ctrl.length ∧
      (t < knot c.base.knots c.base.ctrl.length ∨ c.base.periodic = false))
    (hf : ∀ t, D t → c.evaluate t = ok (f t)) {t : K} (ht : D t) :
    f t = (bsplinePoint p c.base.knots (homog c.base.ctrl c.weights) t).2⁻¹ •
      (bsplinePoint p c.base.knots (homog c.base.ctrl c.weights) t).1 := by
  obtain ⟨S, -, -⟩ := (NURBS.init_iff _ _).1 hi
  obtain ⟨a1, a2, a3⟩ := hD t ht
  obtain ⟨t', w1, w2, -⟩ := C24_nurbs hi hc hw hfst t (Or.inr ⟨a1, a2⟩)
  have hs := folded_self w1 a1 a2 a3
  subst hs
  have e := w2 (ratBSplineDen_pos hc hfst S.len hpos a1 a2).ne'
  rw [hf t' ht] at e
  rw [ok.inj e, homog_bsplinePoint S.len]
  rfl

theorem homog_point {P : List V} {w : List K} (hl : P.length = w.length) (hpos : ∀ x ∈ w, 0 < x)
    {i : ℕ} (hi : i < P.length) : 0 < ((homog P w).getD i 0).2 ∧
      ((homog P w).getD i 0).2⁻¹ • ((homog P w).getD i 0).1 = P.getD i 0 := by
  have h := weights_pos hpos (show i < w.length by omega)
  rw [homog_getD i hl]
  refine ⟨h, ?_⟩
  rw [smul_smul, inv_mul_cancel₀ h.ne', one_smul]

/-- C96 for NURBS curves with positive weights: lengths. -/
theorem C96_nurbs_length {nrm : V → K} (hn : IsSeminorm nrm) {c : NURBS K V} (hi : c.init = ok c)
    {p : ℕ} (hc : WellFormed c.base p) (hw : Wide c.base p) (hfst : FirstSpan c.base p)
    (hpos : ∀ x ∈ c.weights, 0 < x) {f : K → V} {D : K → Prop}
    (hD : ∀ t, D t → knot c.base.knots p ≤ t ∧ t ≤ knot c.base.knots c.base.ctrl.length ∧
      (t < knot c.base.knots c.base.ctrl.length ∨ c.base.periodic = false))
    (hf : ∀ t, D t → c.evaluate t = ok (f t)) {x : ℕ → K} {n : ℕ}
    (hx : ∀ j < n, x j ≤ x (j + 1)) (hxD : ∀ j ≤ n, D (x j)) :
    ∑ j ∈ range n, nrm (f (x (j + 1)) - f (x j))
      ≤ ∑ i ∈ range (c.base.ctrl.length - 1),
          nrm (c.base.ctrl.getD (i + 1) 0 - c.base.ctrl.getD i 0) := by
  obtain ⟨S, -, -⟩ := (NURBS.init_iff _ _).1 hi
  have hwf := S.wf.2 hc
  rw [S.hom] at hwf
  have hl := homog_length S.len
  have := polygon_length_rational hn hwf (g := fun t =>
      (bsplinePoint p c.base.knots (homog c.base.ctrl c.weights) t).2⁻¹ •
        (bsplinePoint p c.base.knots (homog c.base.ctrl c.weights) t).1)
    (fun i hi => (homog_point S.len hpos (by rw [← hl]; exact hi)).1) (fun _ _ _ => rfl) hx
    (fun j hj => (hD _ (hxD j hj)).1) (fun j hj => by rw [hl]; exact (hD _ (hxD j hj)).2.1)
  rw [hl] at this
  refine le_trans (le_of_eq (sum_congr rfl fun j hj => ?_)) (this.trans (le_of_eq
    (sum_congr rfl fun i hi => ?_)))
  · have hj' : j < n := by simpa using hj
    rw [nurbs_value hi hc hw hfst hpos hD hf (hxD j hj'.le),
      nurbs_value hi hc hw hfst hpos hD hf (hxD (j + 1) hj')]
  · have hi' : i < c.base.ctrl.length - 1 := by simpa using hi
    rw [(homog_point S.len hpos (by omega)).2, (homog_point S.len hpos (by omega)).2]

/-- C96 for NURBS curves with positive weights: directions. -/
theorem C96_nurbs_cone {C : V → Prop} (hC : IsCone K C) {c : NURBS K V} (hi : c.init = ok c)
    {p : ℕ} (hc : WellFormed c.base p) (hw : Wide c.base p) (hfst : FirstSpan c.base p)
    (hpos : ∀ x ∈ c.weights, 0 < x) {f : K → V} {D : K → Prop}
    (hD : ∀ t, D t → knot c.base.knots p ≤ t ∧ t ≤ knot c.base.knots c.base.ctrl.length ∧
      (t < knot c.base.knots c.base.ctrl.length ∨ c.base.periodic = false))
    (hf : ∀ t, D t → c.evaluate t = ok (f t))
    (he : ∀ i, i + 1 < c.base.ctrl.length → C (c.base.ctrl.getD (i + 1) 0 - c.base.ctrl.getD i 0))
    {a b : K} (ha : D a) (hb : D b) (hab : a ≤ b) : C (f b - f a) := by
  obtain ⟨S, -, -⟩ := (NURBS.init_iff _ _).1 hi
  have hwf := S.wf.2 hc
  rw [S.hom] at hwf
  have hl := homog_length S.len
  have := chord_cone_rational hC hwf (g := fun t =>
      (bsplinePoint p c.base.knots (homog c.base.ctrl c.weights) t).2⁻¹ •
        (bsplinePoint p c.base.knots (homog c.base.ctrl c.weights) t).1)
    (fun i hi => (homog_point S.len hpos (by rw [← hl]; exact hi)).1) (fun _ _ _ => rfl)
    (fun i hi => by
      have hi' : i + 1 < c.base.ctrl.length := by rw [← hl]; exact hi
      simp only
      rw [(homog_point S.len hpos (by omega)).2, (homog_point S.len hpos (by omega)).2]
      exact he i hi')
    (hD a ha).1 hab (by rw [hl]; exact (hD b hb).2.1)
  rw [nurbs_value hi hc hw hfst hpos hD hf ha, nurbs_value hi hc hw hfst hpos hD hf hb]
  exact this

theorem rational_value {c : RationalBezier K V} (hi : c.init = ok c) (hne : c.base.ctrl ≠ [])
    (hpos : ∀ x ∈ c.weights, 0 < x) {f : K → V} {D : K → Prop}
    (hD : ∀ t, D t → 0 ≤ t ∧ t ≤ 1 ∧ (t < 1 ∨ c.base.periodic = false))
    (hf : ∀ t, D t → c.evaluate t = ok (f t)) {t : K} (ht : D t) :
    f t = (bezierPoint (homog c.base.ctrl c.weights) t).2⁻¹ •
      (bezierPoint (homog c.base.ctrl c.weights) t).1 := by
  obtain ⟨S, -, -⟩ := (RationalBezier.init_iff _ _).1 hi
  obtain ⟨a1, a2, a3⟩ := hD t ht
  obtain ⟨t', w1, w2, -⟩ := C24_rational_bezier hi hne t
  have hs := folded_self w1 a1 a2 a3
  subst hs
  have hlw := S.len
  have e := w2 (ratBezierDen_pos (w := c.weights) (by
      intro h; rw [h] at hlw; exact hne (List.length_eq_zero_iff.1 hlw)) hpos a1 a2).ne'
  rw [hf t' ht] at e
  rw [ok.inj e, homog_bezierPoint S.len]
  rfl

/-- C96 for rational Bézier curves with positive weights: lengths. -/
theorem C96_rational_length {nrm : V → K} (hn : IsSeminorm nrm) {c : RationalBezier K V}
    (hi : c.init = ok c) (hne : c.base.ctrl ≠ []) (hpos : ∀ x ∈ c.weights, 0 < x) {f : K → V}
    {D : K → Prop} (hD : ∀ t, D t → 0 ≤ t ∧ t ≤ 1 ∧ (t < 1 ∨ c.base.periodic = false))
    (hf : ∀ t, D t → c.evaluate t = ok (f t)) {x : ℕ → K} {n : ℕ}
    (hx : ∀ j < n, x j ≤ x (j + 1)) (hxD : ∀ j ≤ n, D (x j)) :
    ∑ j ∈ range n, nrm (f (x (j + 1)) - f (x j))
      ≤ ∑ i ∈ range (c.base.ctrl.length - 1),
          nrm (c.base.ctrl.getD (i + 1) 0 - c.base.ctrl.getD i 0) := by
  obtain ⟨S, -, -⟩ := (RationalBezier.init_iff _ _).1 hi
  have hl := homog_length S.len
  obtain ⟨p, hp⟩ := length_succ hne
  obtain ⟨b1, b2, b3, b4⟩ := bezier_as_spline (K := K) (hl.trans hp)
  have := polygon_length_rational hn b1 (g := fun t =>
      (bezierPoint (homog c.base.ctrl c.weights) t).2⁻¹ •
        (bezierPoint (homog c.base.ctrl c.weights) t).1)
    (fun i hi => (homog_point S.len hpos (by rw [← hl]; exact hi)).1)
    (fun y h1 h2 => by rw [b2] at h1; rw [b3] at h2; rw [b4 y h1 h2]) hx
    (fun j hj => by rw [b2]; exact (hD _ (hxD j hj)).1)
    (fun j hj => by rw [b3]; exact (hD _ (hxD j hj)).2.1)
  rw [show (ofBezier K { ctrl := homog c.base.ctrl c.weights }).ctrl.length = c.base.ctrl.length
    from hl] at this
  refine le_trans (le_of_eq (sum_congr rfl fun j hj => ?_)) (this.trans (le_of_eq
    (sum_congr rfl fun i hi => ?_)))
  · have hj' : j < n := by simpa using hj
    rw [rational_value hi hne hpos hD hf (hxD j hj'.le),
      rational_value hi hne hpos hD hf (hxD (j + 1) hj')]
  · have hi' : i < c.base.ctrl.length - 1 := by simpa using hi
    rw [← (homog_point S.len hpos (show i + 1 < _ by omega)).2,
      ← (homog_point S.len hpos (show i < _ by omega)).2]
    rfl

/-- C96 for rational Bézier curves with positive weights: directions. -/
theorem C96_rational_cone {C : V → Prop} (hC : IsCone K C) {c : RationalBezier K V}
    (hi : c.init = ok c) (hne : c.base.ctrl ≠ []) (hpos : ∀ x ∈ c.weights, 0 < x) {f : K → V}
    {D : K → Prop} (hD : ∀ t, D t → 0 ≤ t ∧ t ≤ 1 ∧ (t < 1 ∨ c.base.periodic = false))
    (hf : ∀ t, D t → c.evaluate t = ok (f t))
    (he : ∀ i, i + 1 < c.base.ctrl.length → C (c.base.ctrl.getD (i + 1) 0 - c.base.ctrl.getD i 0))
    {a b : K} (ha : D a) (hb : D b) (hab : a ≤ b) : C (f b - f a) := by
  obtain ⟨S, -, -⟩ := (RationalBezier.init_iff _ _).1 hi
  have hl := homog_length S.len
  obtain ⟨p, hp⟩ := length_succ hne
  obtain ⟨b1, b2, b3, b4⟩ := bezier_as_spline (K := K) (hl.trans hp)
  have := chord_cone_rational hC b1 (g := fun t =>
      (bezierPoint (homog c.base.ctrl c.weights) t).2⁻¹ •
        (bezierPoint (homog c.base.ctrl c.weights) t).1)
    (fun i hi => (homog_point S.len hpos (by rw [← hl]; exact hi)).1)
    (fun y h1 h2 => by rw [b2] at h1; rw [b3] at h2; rw [b4 y h1 h2])
    (fun i hi => by
      have hi' : i + 1 < c.base.ctrl.length := by rw [← hl]; exact hi
      have := he i hi'
      rw [← (homog_point S.len hpos (show i + 1 < _ by omega)).2,
        ← (homog_point S.len hpos (show i < _ by omega)).2] at this
      exact this)
    (by rw [b2]; exact (hD a ha).1) hab (by rw [b3]; exact (hD b hb).2.1)
  rw [rational_value hi hne hpos hD hf ha, rational_value hi hne hpos hD hf hb]
  exact this

/-! ### Linear precision and Lipschitz bounds -/

/-- C96: control points that depend affinely on the means of their knots give a curve that depends
affinely on its parameter. -/
theorem C96_linear_precision {c : BSpline K V} {p : ℕ} (hc : WellFormed c p) (hw : Wide c p)
    (hp : p ≠ 0) {f : K → V} {D : K → Prop}
    (hD : ∀ t, D t → knot c.knots p ≤ t ∧ t ≤ knot c.knots c.ctrl.length ∧
      (FirstSpan c p ∨ knot c.knots p < t) ∧
      (t < knot c.knots c.ctrl.length ∨ c.periodic = false))
    (hf : ∀ t, D t → c.evaluate t = ok (f t)) {o v : V}
    (ho : ∀ i < c.ctrl.length,
      c.ctrl.getD i 0 = o + ((∑ r ∈ range p, knot c.knots (i + 1 + r)) / p) • v) {t : K} (ht : D t) :
    f t = o + t • v := by
  obtain ⟨a1, a2, -, -⟩ := hD t ht
  have hl := hc.len
  have hcl := hc.ctrl
  obtain ⟨k, k1, k2, k3⟩ := exists_inSpan (u := knot c.knots) (p := p) (n := c.ctrl.length)
    hc.dom (by omega) (t := t) a1 a2 (fun i j hij hj => knot_mono hc.sorted hij (by omega))
  rw [bspline_value hc hw hD hf ht, bsplinePoint, sum_congr rfl (fun i hi => by
    rw [ho i (by simpa using hi), smul_add, smul_smul]), sum_add_distrib, ← sum_smul, ← sum_smul,
    (C14_basis hc.sorted hl k1 k2 k3).2.2, one_smul]
  congr 2
  exact linear_precision hc.sorted hp hl k3 k1 k2

theorem chord_le {nrm : V → K} (hn : IsSeminorm nrm) {c : BSpline K V} {p : ℕ} (hc : WellFormed c p)
    (hp : p ≠ 0) {B : K}
    (hB : ∀ i, i + 1 < c.ctrl.length → nrm (c.ctrl.getD (i + 1) 0 - c.ctrl.getD i 0)
      ≤ B * (abscissa c.knots p (i + 1) - abscissa c.knots p i)) {a b : K}
    (ha : knot c.knots p ≤ a) (hab : a ≤ b) (hb : b ≤ knot c.knots c.ctrl.length) :
    nrm (bsplinePoint p c.knots c.ctrl b - bsplinePoint p c.knots c.ctrl a) ≤ B * (b - a) := by
  have hl := hc.len
  have hcl := hc.ctrl
  set N := c.ctrl.length with hN
  set c' : BSpline K (V × K) :=
    BSpline.mk (arr N fun i => (c.ctrl.getD i 0, abscissa c.knots p i)) c.knots false c.sdeg with hc'
  have hl' : c'.ctrl.length = N := by simp [hc']
  have hwf : WellFormed c' p := ⟨by rw [hl']; exact hc.len, hc.sdeg, by rw [hl']; exact hc.ctrl,
    hc.sorted, by rw [hl']; exact hc.dom⟩
  have hpt : ∀ t, knot c.knots p ≤ t → t ≤ knot c.knots N →
      bsplinePoint p c'.knots c'.ctrl t = (bsplinePoint p c.knots c.ctrl t, t) := by
    intro t a1 a2
    obtain ⟨k, k1, k2, k3⟩ := exists_inSpan (u := knot c.knots) (p := p) (n := N)
      hc.dom (by omega) (t := t) a1 a2 (fun i j hij hj => knot_mono hc.sorted hij (by omega))
    have e : bsplinePoint p c'.knots c'.ctrl t = ∑ i ∈ range N,
        (basis (knot c.knots) (knot c.knots N) p i t • c.ctrl.getD i 0,
          basis (knot c.knots) (knot c.knots N) p i t * abscissa c.knots p i) := by
      rw [bsplinePoint, hl']
      refine sum_congr rfl fun i hi => ?_
      simp only [hc']
      rw [arr_getD _ _ _ _ (by simpa using hi)]
      rfl
    rw [e]
    refine Prod.ext ?_ ?_
    · rw [Prod.fst_sum, bsplinePoint]
    · rw [Prod.snd_sum]
      exact linear_precision hc.sorted hp hl k3 k1 k2
  have hC : IsCone K (fun q : V × K => nrm q.1 ≤ B * q.2) := by
    refine ⟨by simp [nrm_zero hn], fun x y hx hy => ?_, fun r x hr hx => ?_⟩
    · have := hn.tri x.1 y.1
      simp only [Prod.fst_add, Prod.snd_add]
      linarith
    · simp only [Prod.smul_fst, Prod.smul_snd, smul_eq_mul]
      rw [hn.smul, abs_of_nonneg hr]
      nlinarith
  have := chord_cone hC hwf (fun i hi => by
    rw [hl'] at hi
    simp only [hc']
    rw [arr_getD _ _ _ _ hi, arr_getD _ _ _ _ (by omega)]
    exact hB i hi) ha hab (by rw [hl']; exact hb)
  rw [hpt a ha (hab.trans hb), hpt b (ha.trans hab) hb] at this
  exact this

/-- C96: if every edge of the control polygon is at most `B` times as long as the distance of the
means of the knots of its ends, the curve is Lipschitz continuous with constant `B`. -/
theorem C96_lipschitz {nrm : V → K} (hn : IsSeminorm nrm) {c : BSpline K V} {p : ℕ}
    (hc : WellFormed c p) (hw : Wide c p) (hp : p ≠ 0) {f : K → V} {D : K → Prop}
    (hD : ∀ t, D t → knot c.knots p ≤ t ∧ t ≤ knot c.knots c.ctrl.length ∧
      (FirstSpan c p ∨ knot c.knots p < t) ∧
      (t < knot c.knots c.ctrl.length ∨ c.periodic = false))
    (hf : ∀ t, D t → c.evaluate t = ok (f t)) {B : K}
    (hB : ∀ i, i + 1 < c.ctrl.length → nrm (c.ctrl.getD (i + 1) 0 - c.ctrl.getD i 0)
      ≤ B * ((∑ r ∈ range p, knot c.knots (i + 1 + 1 + r)) / p
        - (∑ r ∈ range p, knot c.knots (i + 1 + r)) / p)) {a b : K} (ha : D a) (hb : D b) :
    nrm (f b - f a) ≤ B * |b - a| := by
  rw [bspline_value hc hw hD hf ha, bspline_value hc hw hD hf hb]
  rcases le_total a b with h | h
  · rw [abs_of_nonneg (sub_nonneg.2 h)]
    exact chord_le hn hc hp hB (hD a ha).1 h (hD b hb).2.1
  · rw [abs_of_nonpos (sub_nonpos.2 h), neg_sub, nrm_sub_comm hn]
    exact chord_le hn hc hp hB (hD b hb).1 h (hD a ha).2.1

theorem ofBezier_abscissa {P : List V} {p : ℕ} (hp : P.length = p + 1) {i : ℕ}
    (hi : i ≤ p) : abscissa (ofBezier K { ctrl := P }).knots p i = (i : K) / p := by
  unfold abscissa
  congr 1
  have e : ∀ r ∈ range p, knot (ofBezier K { ctrl := P }).knots (i + 1 + r)
      = if p ≤ i + r then (1 : K) else 0 := by
    intro r hr
    have hr' : r < p := by simpa using hr
    rw [ofBezier_knot { ctrl := P } hp _ (by omega)]
    by_cases h : p ≤ i + r
    · rw [if_pos h, if_neg (by omega)]
    · rw [if_neg h, if_pos (by omega)]
  rw [sum_congr rfl e, ← sum_filter, sum_const, nsmul_eq_mul, mul_one]
  congr 1
  rw [show (range p).filter (fun r => p ≤ i + r) = Finset.Ico (p - i) p by
    ext r; simp; omega]
  simp
  omega

/-- C96: a Bézier curve is Lipschitz continuous with the degree times the longest edge of the
control polygon. -/
theorem C96_bezier_lipschitz {nrm : V → K} (hn : IsSeminorm nrm) {c : Bezier V} {p : ℕ}
    (hlen : c.ctrl.length = p + 1) {f : K → V} {D : K → Prop}
    (hD : ∀ t, D t → 0 ≤ t ∧ t ≤ 1 ∧ (t < 1 ∨ c.periodic = false))
    (hf : ∀ t, D t → c.evaluate t = ok (f t)) {B : K}
    (hB : ∀ i < p, nrm (c.ctrl.getD (i + 1) 0 - c.ctrl.getD i 0) ≤ B) {a b : K} (ha : D a)
    (hb : D b) : nrm (f b - f a) ≤ p * B * |b - a| := by
  have hne : c.ctrl ≠ [] := by intro h; rw [h] at hlen; simp at hlen
  rw [bezier_value hne hD hf ha, bezier_value hne hD hf hb]
  obtain ⟨b1, b2, b3, b4⟩ := bezier_as_spline (K := K) hlen
  rcases Nat.eq_zero_or_pos p with rfl | hp
  · obtain ⟨q, hq⟩ := List.length_eq_one_iff.1 hlen
    rw [hq]
    simp [bezierPoint, bernstein, nrm_zero hn]
  · have hp' : (p : K) ≠ 0 := by exact_mod_cast hp.ne'
    have key : ∀ {x y : K}, D x → D y → x ≤ y →
        nrm (bezierPoint c.ctrl y - bezierPoint c.ctrl x) ≤ p * B * (y - x) := by
      intro x y hx hy hxy
      have := chord_le hn b1 hp.ne' (B := p * B) (fun i hi => by
        have hi' : i + 1 < p + 1 := by rw [← hlen]; exact hi
        rw [ofBezier_abscissa hlen (by omega), ofBezier_abscissa hlen (by omega)]
        refine (hB i (by omega)).trans (le_of_eq ?_)
        push_cast
        field_simp
        ring) (by rw [b2]; exact (hD x hx).1) hxy (by rw [b3]; exact (hD y hy).2.1)
      rwa [b4 _ (hD x hx).1 (hD x hx).2.1, b4 _ (hD y hy).1 (hD y hy).2.1] at this
    rcases le_total a b with h | h
    · rw [abs_of_nonneg (sub_nonneg.2 h)]
      exact key ha hb h
    · rw [abs_of_nonpos (sub_nonpos.2 h), neg_sub, nrm_sub_comm hn]
      exact key hb ha h

/-! ### Convex functions -/

/-- C96: a spline function whose control values form a convex polygon over the means of their knots
is convex. -/
theorem C96_convex {c : BSpline K K} {p : ℕ} (hc : WellFormed c p) (hw : Wide c p) (hp : p ≠ 0)
    {f : K → K} {D : K → Prop}
    (hD : ∀ t, D t → knot c.knots p ≤ t ∧ t ≤ knot c.knots c.ctrl.length ∧
      (FirstSpan c p ∨ knot c.knots p < t) ∧
      (t < knot c.knots c.ctrl.length ∨ c.periodic = false))
    (hf : ∀ t, D t → c.evaluate t = ok (f t)) {ξ : ℕ → K}
    (hξ : ∀ i < c.ctrl.length, ξ i = (∑ r ∈ range p, knot c.knots (i + 1 + r)) / p)
    (hlt : ∀ i j, i + 1 < j → j < c.ctrl.length → ξ i < ξ j)
    (hcv : ∀ i j k, i < j → j < k → k < c.ctrl.length →
      (ξ k - ξ i) * c.ctrl.getD j 0
        ≤ (ξ k - ξ j) * c.ctrl.getD i 0 + (ξ j - ξ i) * c.ctrl.getD k 0)
    {x y z : K} (hx : D x) (hy : D y) (hz : D z) (hxy : x < y) (hyz : y < z) :
    (z - x) * f y ≤ (z - y) * f x + (y - x) * f z := by
  by_contra hcon
  push Not at hcon
  have hl := hc.len
  have hcl := hc.ctrl
  set N := c.ctrl.length with hN
  have hzx : 0 < z - x := by linarith
  -- the line through the ends, moved up by half of the gap
  set β : K := (f z - f x) / (z - x) with hβ
  set ε : K := (f y - (f x + β * (y - x))) / 2 with hε
  have hβ' : β * (z - x) = f z - f x := by rw [hβ, div_mul_cancel₀ _ hzx.ne']
  have hε0 : 0 < ε := by
    have : 0 < (z - x) * (2 * ε) := by
      rw [hε]
      have e : (z - x) * (2 * ((f y - (f x + β * (y - x))) / 2))
          = (z - x) * f y - (z - x) * f x - (β * (z - x)) * (y - x) := by ring
      rw [e, hβ']
      nlinarith
    by_contra h
    push Not at h
    nlinarith
  set α : K := f x + ε - β * x with hα
  set c' : BSpline K K :=
    BSpline.mk (arr N fun i => c.ctrl.getD i 0 - (α + β * ξ i)) c.knots false c.sdeg with hc'
  have hl' : c'.ctrl.length = N := by simp [hc']
  have hwf : WellFormed c' p := ⟨by rw [hl']; exact hc.len, hc.sdeg, by rw [hl']; exact hc.ctrl,
    hc.sorted, by rw [hl']; exact hc.dom⟩
  have hpt : ∀ t, D t → bsplinePoint p c'.knots c'.ctrl t = f t - (α + β * t) := by
    intro t ht
    obtain ⟨a1, a2, -, -⟩ := hD t ht
    obtain ⟨k, k1, k2, k3⟩ := exists_inSpan (u := knot c.knots) (p := p) (n := N)
      hc.dom (by omega) (t := t) a1 a2 (fun i j hij hj => knot_mono hc.sorted hij (by omega))
    rw [bspline_value hc hw hD hf ht, bsplinePoint, bsplinePoint, hl', ← hN]
    have e : ∀ i ∈ range N, basis (knot c'.knots) (knot c'.knots N) p i t • c'.ctrl.getD i 0 =
        basis (knot c.knots) (knot c.knots N) p i t • c.ctrl.getD i 0
          - (basis (knot c.knots) (knot c.knots N) p i t * α
            + β * (basis (knot c.knots) (knot c.knots N) p i t * abscissa c.knots p i)) := by
      intro i hi
      have hi' : i < N := by simpa using hi
      simp only [hc']
      rw [arr_getD _ _ _ _ hi', hξ i hi', smul_eq_mul, smul_eq_mul, abscissa]
      ring
    rw [sum_congr rfl e, sum_sub_distrib, sum_add_distrib, ← sum_mul, ← mul_sum,
      (C14_basis hc.sorted hl k1 k2 k3).2.2, linear_precision hc.sorted hp hl k3 k1 k2, one_mul]
  obtain ⟨i, i1, i2, i3⟩ := variation hwf (n := 2) (σ := -1)
    ⟨fun j => if j = 0 then x else if j = 1 then y else z, fun j hj => by
      rcases (by omega : j = 0 ∨ j = 1) with rfl | rfl
      · simpa using hxy
      · simpa using hyz, fun j hj => by
      rw [hl']
      rcases (by omega : j = 0 ∨ j = 1 ∨ j = 2) with rfl | rfl | rfl
      · simpa using ⟨(hD x hx).1, (hD x hx).2.1⟩
      · simpa using ⟨(hD y hy).1, (hD y hy).2.1⟩
      · simpa using ⟨(hD z hz).1, (hD z hz).2.1⟩, fun j hj => by
      rcases (by omega : j = 0 ∨ j = 1 ∨ j = 2) with rfl | rfl | rfl
      · have e : bsplinePoint p c'.knots c'.ctrl x = -ε := by rw [hpt x hx, hα]; ring
        simp only [if_pos, e]
        simpa using hε0
      · have e : bsplinePoint p c'.knots c'.ctrl y = ε := by
          rw [hpt y hy, hα, hε]; ring
        simp only [one_ne_zero, if_false, if_true, e]
        simpa using hε0
      · have e : bsplinePoint p c'.knots c'.ctrl z = -ε := by
          have : α + β * z = f x + ε + β * (z - x) := by rw [hα]; ring
          rw [hpt z hz, this, hβ']; ring
        simp only [OfNat.ofNat_ne_zero, OfNat.ofNat_ne_one, if_false, e]
        simpa using hε0⟩
  have n0 := i2 0 (by omega)
  have n1 := i2 1 (by omega)
  have n2 := i2 2 le_rfl
  rw [hl'] at n0 n1 n2
  have o1 : i 0 < i 1 := i1 0 (by omega)
  have o2 : i 1 < i 2 := i1 1 (by omega)
  have s0 := i3 0 (by omega)
  have s1 := i3 1 (by omega)
  have s2 := i3 2 le_rfl
  simp only [hc'] at s0 s1 s2
  rw [arr_getD _ _ _ _ n0] at s0
  rw [arr_getD _ _ _ _ n1] at s1
  rw [arr_getD _ _ _ _ n2] at s2
  norm_num [-List.getD_eq_getElem?_getD] at s0 s1 s2
  have hcv' := hcv _ _ _ o1 o2 n2
  have q1 : ξ (i 0) < ξ (i 2) := hlt _ _ (by omega) n2
  have hmono : ∀ a b, a ≤ b → b < N → ξ a ≤ ξ b := by
    intro a b hab hb
    rw [hξ a (by omega), hξ b hb]
    refine div_le_div_of_nonneg_right (sum_le_sum fun r hr => ?_) (Nat.cast_nonneg p)
    have hr' : r < p := by simpa using hr
    exact knot_mono hc.sorted (by omega) (by omega)
  have q2 := hmono _ _ o1.le n1
  have q3 := hmono _ _ o2.le n2
  have r1 : 0 < (ξ (i 2) - ξ (i 0)) * (c.ctrl.getD (i 1) 0 - (α + β * ξ (i 1))) :=
    mul_pos (by linarith) (by linarith)
  have r2 : 0 ≤ (ξ (i 2) - ξ (i 1)) * ((α + β * ξ (i 0)) - c.ctrl.getD (i 0) 0) :=
    mul_nonneg (by linarith) (by linarith)
  have r3 : 0 ≤ (ξ (i 1) - ξ (i 0)) * ((α + β * ξ (i 2)) - c.ctrl.getD (i 2) 0) :=
    mul_nonneg (by linarith) (by linarith)
  nlinarith

end General

/-! ### The length of the curve -/

section Real

variable {V : Type} [NormedAddCommGroup V] [NormedSpace ℝ V]

theorem norm_isSeminorm : IsSeminorm (fun v : V => ‖v‖) :=
  ⟨norm_add_le, fun a v => by rw [norm_smul, Real.norm_eq_abs]⟩

theorem variation_le {f : ℝ → V} {S : Set ℝ} {B : ℝ}
    (h : ∀ (n : ℕ) (x : ℕ → ℝ), (∀ j < n, x j ≤ x (j + 1)) → (∀ j ≤ n, x j ∈ S) →
      ∑ j ∈ range n, ‖f (x (j + 1)) - f (x j)‖ ≤ B) : eVariationOn f S ≤ ENNReal.ofReal B := by
  refine iSup_le fun q => ?_
  obtain ⟨n, x, hx, hS⟩ := q
  have := h n x (fun j _ => hx (Nat.le_succ j)) fun j _ => hS j
  refine le_trans (le_of_eq ?_) (ENNReal.ofReal_le_ofReal this)
  rw [ENNReal.ofReal_sum_of_nonneg fun _ _ => norm_nonneg _]
  refine sum_congr rfl fun j _ => ?_
  rw [edist_dist, dist_eq_norm]

/-- C96: the length (total variation) of a B-spline curve is at most that of its control polygon. -/
theorem C96_bspline_variation {c : BSpline ℝ V} {p : ℕ} (hc : WellFormed c p) (hw : Wide c p)
    (hfst : FirstSpan c p) (hper : c.periodic = false) {f : ℝ → V}
    (hf : ∀ t ∈ Set.Icc (knot c.knots p) (knot c.knots c.ctrl.length), c.evaluate t = ok (f t)) :
    eVariationOn f (Set.Icc (knot c.knots p) (knot c.knots c.ctrl.length)) ≤
      ENNReal.ofReal (∑ i ∈ range (c.ctrl.length - 1), ‖c.ctrl.getD (i + 1) 0 - c.ctrl.getD i 0‖) :=
  variation_le fun _ _ hx hS => C96_bspline_length norm_isSeminorm hc hw
    (fun _ ht => ⟨ht.1, ht.2, Or.inl hfst, Or.inr hper⟩) hf hx hS

/-- C96: the same for NURBS curves with positive weights. -/
theorem C96_nurbs_variation {c : NURBS ℝ V} (hi : c.init = ok c) {p : ℕ} (hc : WellFormed c.base p)
    (hw : Wide c.base p) (hfst : FirstSpan c.base p) (hpos : ∀ x ∈ c.weights, 0 < x)
    (hper : c.base.periodic = false) {f : ℝ → V}
    (hf : ∀ t ∈ Set.Icc (knot c.base.knots p) (knot c.base.knots c.base.ctrl.length),
      c.evaluate t = ok (f t)) :
    eVariationOn f (Set.Icc (knot c.base.knots p) (knot c.base.knots c.base.ctrl.length)) ≤
      ENNReal.ofReal (∑ i ∈ range (c.base.ctrl.length - 1),
        ‖c.base.ctrl.getD (i + 1) 0 - c.base.ctrl.getD i 0‖) :=
  variation_le fun _ _ hx hS => C96_nurbs_length norm_isSeminorm hi hc hw hfst hpos
    (fun _ ht => ⟨ht.1, ht.2, Or.inr hper⟩) hf hx hS

end Real

/-! ### Concrete cases -/

theorem abs_isSeminorm : IsSeminorm (fun x : ℚ => |x|) := ⟨abs_add_le, fun a v => abs_mul a v⟩

/-- The spline `exSpline` goes up, down and up: the bound 7 of its control polygon. -/
example (f : ℚ → ℚ) (hf : ∀ t, 0 ≤ t ∧ t ≤ 1 → exSpline.evaluate t = ok (f t)) :
    |f (1 / 2) - f 0| + |f (3 / 4) - f (1 / 2)| + |f 1 - f (3 / 4)| ≤ 7 := by
  have := C96_bspline_length abs_isSeminorm exSpline_wf exSpline_wide (D := fun t => 0 ≤ t ∧ t ≤ 1)
    (fun t ht => ⟨ht.1, ht.2, Or.inl exSpline_first, Or.inr rfl⟩) hf (n := 3)
    (x := fun j => if j = 0 then 0 else if j = 1 then 1 / 2 else if j = 2 then 3 / 4 else 1)
    (by intro j hj; interval_cases j <;> norm_num) (by intro j hj; interval_cases j <;> norm_num)
  have e : ∑ i ∈ range (exSpline.ctrl.length - 1),
      |exSpline.ctrl.getD (i + 1) 0 - exSpline.ctrl.getD i 0| = 8 - 1 := by decide +kernel
  rw [e, sum_range_succ, sum_range_succ, sum_range_succ, range_zero, sum_empty] at this
  norm_num at this
  linarith

/-- A convex spline with an inner knot. -/
def exConvex : BSpline ℚ ℚ := { ctrl := [2, 0, 0, 2], knots := [0, 0, 0, 1 / 2, 1, 1, 1] }

example (f : ℚ → ℚ) (hf : ∀ t, 0 ≤ t ∧ t ≤ 1 → exConvex.evaluate t = ok (f t)) :
    (1 - 0) * f (1 / 3) ≤ (1 - 1 / 3) * f 0 + (1 / 3 - 0) * f 1 := by
  have hwf : WellFormed exConvex 2 :=
    ⟨by decide, Or.inl rfl, by decide, by decide +kernel, by decide +kernel⟩
  have hw : Wide exConvex 2 := by
    intro i h1 h2
    have h2' : i < 4 := h2
    interval_cases i <;> decide +kernel
  refine C96_convex (D := fun t => 0 ≤ t ∧ t ≤ 1) hwf hw two_ne_zero
    (fun t ht => ⟨ht.1, ht.2, Or.inl (by unfold FirstSpan; decide +kernel), Or.inr rfl⟩) hf
    (ξ := fun i => [0, 1 / 4, 3 / 4, 1].getD i 0) ?_ ?_ ?_ (by norm_num) (by norm_num) (by norm_num)
    (by norm_num) (by norm_num)
  · intro i hi
    have hi' : i < 4 := hi
    interval_cases i <;> decide +kernel
  · intro i j h1 h2
    have h2' : j < 4 := h2
    have h1' : i < 4 := by omega
    interval_cases j <;> interval_cases i <;> first | omega | decide +kernel
  · intro i j k h1 h2 h3
    have h3' : k < 4 := h3
    have h2' : j < 4 := by omega
    have h1' : i < 4 := by omega
    interval_cases k <;> interval_cases j <;> interval_cases i <;> first | omega | decide +kernel

/-- C96 is false for a negative weight: with the control values 2, 1, 2 and the weights 1, -3/4, 1
the curve goes from 2 to 5 and back, which is longer than the control polygon. -/
theorem C96_negative_weight_refuted :
    ∃ c : RationalBezier ℚ ℚ, c.init = ok c ∧ c.base = { ctrl := [2, 1, 2] } ∧
      c.weights = [1, -3 / 4, 1] ∧ (∀ t, 0 < ratBezierDen c.weights t) ∧
      c.evaluate 0 = ok 2 ∧ c.evaluate (1 / 2) = ok 5 ∧ c.evaluate 1 = ok 2 := by
  obtain ⟨c, hc⟩ : ∃ c, (RationalBezier.init ⟨{ ctrl := [2, 1, 2] }, [1, -3 / 4, 1], { ctrl := [] }⟩ :
      Outcome (RationalBezier ℚ ℚ)) = ok c := by
    unfold RationalBezier.init
    rw [homogenize_eq (by simp)]
    exact ⟨_, rfl⟩
  obtain ⟨S, e1, e2⟩ := (RationalBezier.init_iff _ _).1 hc
  have hi : c.init = ok c := (RationalBezier.init_iff _ _).2 ⟨S, rfl, rfl⟩
  have hden : ∀ t, 0 < ratBezierDen c.weights t := by
    intro t
    rw [e2]
    simp [ratBezierDen, bernstein, sum_range_succ]
    nlinarith [sq_nonneg (t - 1 / 2)]
  have hev : ∀ t, c.evaluate t = ok (ratBezierPoint [2, 1, 2] [1, -3 / 4, 1] t) := by
    intro t
    obtain ⟨t', w1, w2, -⟩ := C24_rational_bezier hi (by rw [e1]; simp) t
    rw [e1] at w1
    have : t' = t := w1
    subst this
    rw [w2 (hden _).ne', e1, e2]
  refine ⟨c, hi, e1, e2, hden, ?_, ?_, ?_⟩ <;> rw [hev] <;> decide +kernel

end NS.Props
