import Verif.Proof.Stability
import Verif.Props.Variation
import Verif.Props.NurbsPatch
import Verif.Props.RationalNurbs
import Verif.Props.RationalPatch

/-!
# C107: small changes of control points and weights

Two objects of one class that differ in their control points, and in their weights for the rational classes.
-/

set_option linter.unusedSectionVars false

namespace NS.Props

open Outcome Spec Finset BSpline Stability BezierPatch BSplinePatch

variable {K V : Type} [Field K] [LinearOrder K] [IsStrictOrderedRing K] [FloorRing K]
  [AddCommGroup V] [Module K V]

/-- Corresponding points differ by at most `e`. -/
def Near (nrm : V → K) (e : K) (P Q : List V) : Prop :=
  Q.length = P.length ∧ ∀ i < P.length, nrm (P.getD i 0 - Q.getD i 0) ≤ e

/-- Corresponding weights differ by at most the fraction `d` of the first. -/
def NearWeights (d : K) (w w' : List K) : Prop :=
  w'.length = w.length ∧ ∀ i < w.length, |w'.getD i 0 - w.getD i 0| ≤ d * w.getD i 0

/-- No two points are further apart than `D`. -/
def Spread (nrm : V → K) (D : K) (P : List V) : Prop :=
  ∀ i < P.length, ∀ j < P.length, nrm (P.getD i 0 - P.getD j 0) ≤ D

theorem folded_unit {per : Bool} {t t' : K} (h : Folded per 0 1 t t') (ht : per = true ∨ (0 ≤ t ∧ t ≤ 1)) :
    0 ≤ t' ∧ t' ≤ 1 := by
  unfold Folded at h
  split at h
  · exact ⟨h.1, h.2.1.le⟩
  · rename_i hp
    rw [h]
    exact ht.resolve_left hp

/-- **C107** (Bezier curves): moving every control point by at most `e` moves no point of the curve by more. -/
theorem C107_bezier {nrm : V → K} (hn : IsSeminorm nrm) {e : K} {c d : Bezier V} (hne : c.ctrl ≠ [])
    (hp : d.periodic = c.periodic) (h : Near nrm e c.ctrl d.ctrl) {t : K}
    (ht : c.periodic = true ∨ (0 ≤ t ∧ t ≤ 1)) :
    ∃ x y, c.evaluate t = ok x ∧ d.evaluate t = ok y ∧ nrm (x - y) ≤ e := by
  obtain ⟨t', h1, h2⟩ := bezier_folded c.periodic t
  obtain ⟨a, b⟩ := folded_unit h2 ht
  have hne' : d.ctrl ≠ [] := by
    intro g; apply hne; rw [← List.length_eq_zero_iff, ← h.1, g]; rfl
  refine ⟨bezierPoint c.ctrl t', bezierPoint d.ctrl t', ?_, ?_, ?_⟩
  · rw [Bezier.evaluate_wrap, h1, ok_bind, Bezier.evaluate_eq c.ctrl hne]
  · rw [Bezier.evaluate_wrap, hp, h1, ok_bind, Bezier.evaluate_eq d.ctrl hne']
  · unfold bezierPoint
    rw [h.1]
    obtain ⟨n, hl⟩ : ∃ n, c.ctrl.length = n + 1 :=
      ⟨_, (Nat.succ_pred_eq_of_pos (List.length_pos_of_ne_nil hne)).symm⟩
    rw [hl]
    exact mean_points hn (fun i _ => bernstein_nonneg' a b) (bernstein_sum n t')
      fun i hi => h.2 i (by rw [hl]; exact mem_range.1 hi)

/-- Concrete case: a cubic whose inner control points are moved. -/
example := C107_bezier (K := ℚ) (V := ℚ) (nrm := abs) ⟨abs_add_le, abs_mul⟩ (e := 1 / 4)
  (c := { ctrl := [0, 1, 3, 4] }) (d := { ctrl := [0, 5 / 4, 11 / 4, 4] }) (by decide) rfl
  ⟨rfl, by decide +kernel⟩ (t := 1 / 3) (Or.inr ⟨by norm_num, by norm_num⟩)

/-- **C107** (derivatives of Bezier curves): with `n + 1` control points moved by at most `e`, the derivative changes
by at most `2 n e`. -/
theorem C107_bezier_derivative {nrm : V → K} (hn : IsSeminorm nrm) {e : K} {c d : Bezier V} {n : ℕ}
    (hl : c.ctrl.length = n + 1) (hp : d.periodic = c.periodic) (h : Near nrm e c.ctrl d.ctrl) {t : K}
    (ht : c.periodic = true ∨ (0 ≤ t ∧ t ≤ 1)) :
    ∃ x y, c.evaluateDerivative t = ok x ∧ d.evaluateDerivative t = ok y ∧ nrm (x - y) ≤ 2 * n * e := by
  obtain ⟨t', h1, h2⟩ := bezier_folded c.periodic t
  obtain ⟨a, b⟩ := folded_unit h2 ht
  have ec : c.ctrl = arr (n + 1) (fun i => c.ctrl.getD i 0) := by
    rw [← hl]; exact eq_arr c.ctrl 0
  have ed : d.ctrl = arr (n + 1) (fun i => d.ctrl.getD i 0) := by
    rw [← hl, ← h.1]; exact eq_arr d.ctrl 0
  have key : ∀ P : ℕ → V, Bezier.evaluateDerivative ({ ctrl := arr (n + 1) P } : Bezier V) t'
      = ok ((n : K) • ∑ i ∈ range (n - 1 + 1), bernstein (n - 1) i t' • (P (i + 1) - P i)) := by
    intro P
    rw [evaluateDerivative_umb, ← umb_diff, umb_lin_pow]
  refine ⟨_, _, by rw [Bezier.evaluateDerivative_wrap, h1, ok_bind, ec]; exact key _,
    by rw [Bezier.evaluateDerivative_wrap, hp, h1, ok_bind, ed]; exact key _, ?_⟩
  rw [← smul_sub, hn.smul, abs_of_nonneg (Nat.cast_nonneg n)]
  rcases Nat.eq_zero_or_pos n with rfl | hn0
  · simp
  · have := mean_points hn (b := fun i => bernstein (n - 1) i t')
      (P := fun i => c.ctrl.getD (i + 1) 0 - c.ctrl.getD i 0)
      (Q := fun i => d.ctrl.getD (i + 1) 0 - d.ctrl.getD i 0) (e := 2 * e)
      (fun i _ => bernstein_nonneg' a b) (bernstein_sum (n - 1) t') fun i hi => by
        have hi' := mem_range.1 hi
        have g1 := h.2 (i + 1) (by omega)
        have g2 := h.2 i (by omega)
        have g3 := hn.tri (c.ctrl.getD (i + 1) 0 - d.ctrl.getD (i + 1) 0) (-(c.ctrl.getD i 0 - d.ctrl.getD i 0))
        have g4 := hn.smul (-1) (c.ctrl.getD i 0 - d.ctrl.getD i 0)
        rw [neg_one_smul, abs_neg, abs_one, one_mul] at g4
        rw [g4] at g3
        rw [show c.ctrl.getD (i + 1) 0 - c.ctrl.getD i 0 - (d.ctrl.getD (i + 1) 0 - d.ctrl.getD i 0)
          = c.ctrl.getD (i + 1) 0 - d.ctrl.getD (i + 1) 0 + -(c.ctrl.getD i 0 - d.ctrl.getD i 0) by abel]
        linarith
    calc (n : K) * _ ≤ n * (2 * e) := mul_le_mul_of_nonneg_left this (Nat.cast_nonneg n)
      _ = 2 * n * e := by ring

/-- **C107** (B-spline curves). -/
theorem C107_bspline {nrm : V → K} (hn : IsSeminorm nrm) {e : K} {c : BSpline K V} {Q : List V} {p : ℕ}
    (hc : WellFormed c p) (hw : Wide c p) (h : Near nrm e c.ctrl Q) {t : K} (h1 : knot c.knots p ≤ t)
    (h2 : t ≤ knot c.knots c.ctrl.length) (h3 : FirstSpan c p ∨ knot c.knots p < t)
    (h4 : t < knot c.knots c.ctrl.length ∨ c.periodic = false) :
    ∃ x y, c.evaluate t = ok x ∧ ({ c with ctrl := Q } : BSpline K V).evaluate t = ok y ∧ nrm (x - y) ≤ e := by
  have hwrap : ∀ {c : BSpline K V}, WellFormed c p → knot c.knots p ≤ t → t ≤ knot c.knots c.ctrl.length →
      (t < knot c.knots c.ctrl.length ∨ c.periodic = false) → c.wrap t = ok t := by
    intro c hc g1 g2 g4
    exact wrap_of_mem hc g1 (g4.imp_right fun g => ⟨g, g2⟩)
  have hc' : WellFormed ({ c with ctrl := Q } : BSpline K V) p :=
    ⟨by simp only; rw [h.1]; exact hc.len, hc.sdeg, by simp only; rw [h.1]; exact hc.ctrl, hc.sorted,
      by simp only; rw [h.1]; exact hc.dom⟩
  have hw' : Wide ({ c with ctrl := Q } : BSpline K V) p := by
    intro i g1 g2; simp only at g2; rw [h.1] at g2; exact hw i g1 g2
  refine ⟨_, _, evaluate_eq hc hw (hwrap hc h1 h2 h4) h3 h1 h2,
    evaluate_eq hc' hw' (hwrap hc' h1 (by simp only; rw [h.1]; exact h2) (by simp only; rw [h.1]; exact h4)) h3 h1
      (by simp only; rw [h.1]; exact h2), ?_⟩
  obtain ⟨k, R, hk, hin⟩ := exists_atSpan hc t h3 h1 h2
  obtain ⟨b0, -, b1⟩ := C14_basis hc.sorted hc.len hk.le hk.lt hin
  unfold bsplinePoint
  simp only
  rw [h.1]
  exact mean_points hn (fun i hi => b0 i (mem_range.1 hi)) b1 fun i hi => h.2 i (mem_range.1 hi)

example := C107_bspline (nrm := abs) ⟨abs_add_le, abs_mul⟩ (e := 1 / 4) (Q := [0, 5 / 4, 3, 9 / 4, 5]) exSpline_wf exSpline_wide
  ⟨rfl, by decide +kernel⟩ (t := 1 / 3) (by decide +kernel) (by decide +kernel) (Or.inl exSpline_first) (Or.inr rfl)

/-- **C107** (Bezier patches). -/
theorem C107_bezier_patch {nrm : V → K} (hn : IsSeminorm nrm) {e : K} {p : BezierPatch V} (hp : p.init = ok ())
    {G : List V} (h : Near nrm e p.grid G) {u v : K} (hu : p.perU = true ∨ (0 ≤ u ∧ u ≤ 1))
    (hv : p.perV = true ∨ (0 ≤ v ∧ v ≤ 1)) :
    ∃ x y, p.evaluate u v = ok x ∧ ({ p with grid := G } : BezierPatch V).evaluate u v = ok y ∧
      nrm (x - y) ≤ e := by
  obtain ⟨u', wu, fu⟩ := bezier_folded p.perU u
  obtain ⟨v', wv, fv⟩ := bezier_folded p.perV v
  obtain ⟨a, b⟩ := folded_unit fu hu
  obtain ⟨a', b'⟩ := folded_unit fv hv
  have hw := wf_of_init hp
  have hw' : ({ p with grid := G } : BezierPatch V).WellFormed p.degU.toNat p.degV.toNat :=
    ⟨hw.degU, hw.degV, h.1.trans hw.len⟩
  refine ⟨_, _, by rw [hw.evaluate wu wv, part_eq_surface], by rw [hw'.evaluate wu wv, part_eq_surface], ?_⟩
  simp only [bezierSurface, ← sum_product']
  refine mean_points hn (fun i _ => mul_nonneg (bernstein_nonneg' a b) (bernstein_nonneg' a' b')) ?_ fun i hi => ?_
  · rw [sum_product]
    simp only [← mul_sum, bernstein_sum, mul_one]
  · refine h.2 _ ?_
    rw [mem_product] at hi
    rw [hw.len]
    exact lin_lt (mem_range.1 hi.1) (mem_range.1 hi.2)

example := C107_bezier_patch (nrm := abs) ⟨abs_add_le, abs_mul⟩ (e := 1 / 4) (p := exPatch) (by decide +kernel)
  (G := [0, 5 / 4, 3, 9 / 4, 5, 7]) ⟨rfl, by decide +kernel⟩ (u := (1 / 3 : ℚ)) (v := 1 / 4)
  (Or.inr ⟨by norm_num, by norm_num⟩) (Or.inr ⟨by norm_num, by norm_num⟩)

/-- **C107** (B-spline patches). -/
theorem C107_bspline_patch {nrm : V → K} (hn : IsSeminorm nrm) {e : K} {p q : BSplinePatch K V} {m n du dv : ℕ}
    (hp : p.Valid m n du dv) (hi : p.init = ok p) (hq : q.Valid m n du dv) (hj : q.init = ok q)
    (eu : q.knotsU = p.knotsU) (ev : q.knotsV = p.knotsV) (epu : q.perU = p.perU) (epv : q.perV = p.perV)
    (hwu : WideOn p.knotsU m du) (hwv : WideOn p.knotsV n dv)
    (h : Near nrm e p.grid q.grid) {u v : K} (hu : InDom p.knotsU m du u) (hv : InDom p.knotsV n dv v)
    (hu' : u < knot p.knotsU m ∨ p.perU = false) (hv' : v < knot p.knotsV n ∨ p.perV = false) :
    ∃ x y, p.evaluate u v = ok x ∧ q.evaluate u v = ok y ∧ nrm (x - y) ≤ e := by
  refine ⟨_, _, C31_evaluate_domain hp hi hwu hwv hu hv hu' hv', C31_evaluate_domain hq hj (eu ▸ hwu) (ev ▸ hwv)
    (eu ▸ hu) (ev ▸ hv) (by rw [eu, epu]; exact hu') (by rw [ev, epv]; exact hv'), ?_⟩
  obtain ⟨bu, su⟩ := axis_basis hp.u hu
  obtain ⟨bv, sv⟩ := axis_basis hp.v hv
  rw [eu, ev]
  simp only [bsplineSurface, ← sum_product']
  refine mean_points hn (fun i hi => ?_) ?_ fun i hi => ?_
  · rw [mem_product] at hi
    exact mul_nonneg (bu _ (mem_range.1 hi.1)) (bv _ (mem_range.1 hi.2))
  · rw [sum_product]
    simp only [← mul_sum, sv, mul_one, su]
  · refine h.2 _ ?_
    rw [mem_product] at hi
    rw [hp.grid]
    exact lin_lt (mem_range.1 hi.1) (mem_range.1 hi.2)

/-- Concrete case: two points of a grid with an interior knot are moved. -/
example := C107_bspline_patch (nrm := abs) ⟨abs_add_le, abs_mul⟩ (e := 1 / 4) (p := exBP)
  (q := BSplinePatch.mk [0, 5 / 4, 3, 9 / 4, 5, 7, 4, 6] [0, 0, 0, 1/2, 1, 1, 1] [0, 0, 1, 1] 2 1 false false
    2 1
    [BSpline.mk [0, 3, 5, 4] [0, 0, 0, 1/2, 1, 1, 1] false (some 2),
      BSpline.mk [5 / 4, 9 / 4, 7, 6] [0, 0, 0, 1/2, 1, 1, 1] false (some 2)]
    [BSpline.mk [0, 5 / 4] [0, 0, 1, 1] false (some 1), BSpline.mk [3, 9 / 4] [0, 0, 1, 1] false (some 1),
      BSpline.mk [5, 7] [0, 0, 1, 1] false (some 1), BSpline.mk [4, 6] [0, 0, 1, 1] false (some 1)])
  exBP_valid exBP_init.2 ⟨⟨rfl, rfl, Or.inr rfl, by decide, by decide +kernel, by decide +kernel⟩,
    ⟨rfl, rfl, Or.inr rfl, by decide, by decide +kernel, by decide +kernel⟩, rfl⟩ (by decide +kernel) rfl rfl rfl rfl
  exBP_wide.1 exBP_wide.2 ⟨rfl, by decide +kernel⟩ (u := 1 / 3) (v := 1 / 4)
  ⟨by decide +kernel, by decide +kernel, Or.inl (by decide +kernel)⟩
  ⟨by decide +kernel, by decide +kernel, Or.inl (by decide +kernel)⟩ (Or.inr rfl) (Or.inr rfl)

theorem weight_pos_at {w : List K} (hw : ∀ x ∈ w, 0 < x) {i : ℕ} (hi : i < w.length) : 0 < w.getD i 0 := by
  rw [List.getD_eq_getElem?_getD, List.getElem?_eq_getElem hi, Option.getD_some]
  exact hw _ (List.getElem_mem hi)

/-- **C107** (rational Bezier curves): if the control points move by at most `e` and the positive weights change by at
most the fraction `d`, no point of the curve moves by more than `e + d / (1 - d) * D`, where `D` bounds the
distances of the control points from each other. -/
theorem C107_rational_bezier {nrm : V → K} (hn : IsSeminorm nrm) {e d D : K} {a b : RationalBezier K V}
    (ha : a.init = ok a) (hb : b.init = ok b) (hp : b.base.periodic = a.base.periodic) (hne : a.base.ctrl ≠ [])
    (hw : ∀ x ∈ a.weights, 0 < x) (h : Near nrm e a.base.ctrl b.base.ctrl) (hd0 : 0 ≤ d) (hd : d < 1)
    (hww : NearWeights d a.weights b.weights) (hD : Spread nrm D a.base.ctrl) {t : K}
    (ht : a.base.periodic = true ∨ (0 ≤ t ∧ t ≤ 1)) :
    ∃ x y, a.evaluate t = ok x ∧ b.evaluate t = ok y ∧ nrm (x - y) ≤ e + d / (1 - d) * D := by
  obtain ⟨S, -, -⟩ := (RationalBezier.init_iff _ _).1 ha
  obtain ⟨S', -, -⟩ := (RationalBezier.init_iff _ _).1 hb
  obtain ⟨t', wt, ft⟩ := bezier_folded a.base.periodic t
  obtain ⟨g0, g1⟩ := folded_unit ft ht
  obtain ⟨n, hl⟩ : ∃ n, a.base.ctrl.length = n + 1 :=
    ⟨_, (Nat.succ_pred_eq_of_pos (List.length_pos_of_ne_nil hne)).symm⟩
  have hne' : b.base.ctrl ≠ [] := by
    intro g; apply hne; rw [← List.length_eq_zero_iff, ← h.1, g]; rfl
  have la : a.weights.length = n + 1 := by rw [← S.len, hl]
  have lb : b.weights.length = n + 1 := by rw [hww.1, la]
  obtain ⟨W', key⟩ := mean_weights hn (s := range (n + 1)) (b := fun i => bernstein n i t')
    (w := fun i => a.weights.getD i 0) (w' := fun i => b.weights.getD i 0)
    (P := fun i => a.base.ctrl.getD i 0) (Q := fun i => b.base.ctrl.getD i 0) (fun i _ => bernstein_nonneg' g0 g1)
    (bernstein_sum n t') (fun i hi => weight_pos_at hw (by rw [la]; exact mem_range.1 hi)) hd0 hd
    (fun i hi => hww.2 i (by rw [la]; exact mem_range.1 hi)) (fun i hi => h.2 i (by rw [hl]; exact mem_range.1 hi))
    (fun i hi j hj => hD i (by rw [hl]; exact mem_range.1 hi) j (by rw [hl]; exact mem_range.1 hj))
  have W := ratBezierDen_pos (w := a.weights) (by intro g; rw [g] at la; simp at la) hw g0 g1
  have da : ratBezierDen b.weights t' ≠ 0 := by
    rw [ratBezierDen, lb]; exact W'.ne'
  refine ⟨ratBezierPoint a.base.ctrl a.weights t', ratBezierPoint b.base.ctrl b.weights t', ?_, ?_, ?_⟩
  · rw [S.evaluate hne wt, if_neg W.ne']
  · rw [S'.evaluate hne' (hp ▸ wt), if_neg da]
  · rw [ratBezierPoint, ratBezierPoint, ratBezierDen, ratBezierDen, la, lb, h.1, hl]
    exact key

theorem near_weights_pos {d : K} {w w' : List K} (hw : ∀ x ∈ w, 0 < x) (hd : d < 1) (h : NearWeights d w w') :
    ∀ x ∈ w', 0 < x := by
  intro x hx
  obtain ⟨i, hi, rfl⟩ := List.mem_iff_getElem.1 hx
  have hi' : i < w.length := h.1 ▸ hi
  have h1 := (abs_le.1 (h.2 i hi')).1
  have h2 := weight_pos_at hw hi'
  have h3 : w'.getD i 0 = w'[i] := by
    rw [List.getD_eq_getElem?_getD, List.getElem?_eq_getElem hi, Option.getD_some]
  rw [h3] at h1
  have : 0 < (1 - d) * w.getD i 0 := mul_pos (by linarith) h2
  linarith

/-- Concrete case: a quadratic with a changed weight and a moved point. -/
example := C107_rational_bezier (K := ℚ) (V := ℚ) (nrm := abs) ⟨abs_add_le, abs_mul⟩ (e := 1 / 4) (d := 1 / 2) (D := 3)
  (a := { base := { ctrl := [0, 1, 3] }, weights := [1, 2, 1], hom := { ctrl := [(0, 1), (2, 2), (3, 1)] } })
  (b := { base := { ctrl := [0, 5 / 4, 3] }, weights := [1, 1, 1], hom := { ctrl := [(0, 1), (5 / 4, 1), (3, 1)] } })
  (by decide +kernel) (by decide +kernel) rfl (by decide) (by decide +kernel) ⟨rfl, by decide +kernel⟩
  (by norm_num) (by norm_num) ⟨rfl, by decide +kernel⟩ (by unfold Spread; decide +kernel) (t := 1 / 3)
  (Or.inr ⟨by norm_num, by norm_num⟩)

/-- **C107** (NURBS curves): the same bound. -/
theorem C107_nurbs {nrm : V → K} (hn : IsSeminorm nrm) {e d D : K} {a b : NURBS K V} {p : ℕ}
    (ha : a.init = ok a) (hb : b.init = ok b) (hwf : WellFormed a.base p) (hwide : Wide a.base p)
    (hfst : FirstSpan a.base p) (hbase : b.base = { a.base with ctrl := b.base.ctrl })
    (hw : ∀ x ∈ a.weights, 0 < x) (h : Near nrm e a.base.ctrl b.base.ctrl) (hd0 : 0 ≤ d) (hd : d < 1)
    (hww : NearWeights d a.weights b.weights) (hD : Spread nrm D a.base.ctrl) {t : K}
    (ht : Admissible a.base p t) :
    ∃ x y, a.evaluate t = ok x ∧ b.evaluate t = ok y ∧ nrm (x - y) ≤ e + d / (1 - d) * D := by
  obtain ⟨S, -, -⟩ := (NURBS.init_iff _ _).1 ha
  obtain ⟨S', -, -⟩ := (NURBS.init_iff _ _).1 hb
  have ek : b.base.knots = a.base.knots := by rw [hbase]
  have ep : b.base.periodic = a.base.periodic := by rw [hbase]
  have es : b.base.sdeg = a.base.sdeg := by rw [hbase]
  have hwf' : WellFormed b.base p :=
    ⟨by rw [ek, h.1]; exact hwf.len, by rw [es]; exact hwf.sdeg, by rw [h.1]; exact hwf.ctrl,
      by rw [ek]; exact hwf.sorted, by rw [ek, h.1]; exact hwf.dom⟩
  have hwide' : Wide b.base p := by
    intro i g1 g2
    rw [h.1] at g2
    rw [ek]; exact hwide i g1 g2
  have hfst' : FirstSpan b.base p := by unfold FirstSpan; rw [ek]; exact hfst
  obtain ⟨t', wt, ft⟩ := bspline_folded hwf t
  have hm := ht.mem ft
  have wt' : b.base.wrap t = ok t' := by
    rw [← wt]
    unfold BSpline.wrap
    rw [ep, lower_eq hwf', upper_eq hwf', lower_eq hwf, upper_eq hwf, ek, h.1]
  have W := ratBSplineDen_pos hwf hfst S.len hw hm.1 hm.2
  have W' := ratBSplineDen_pos (t := t') hwf' hfst' S'.len (near_weights_pos hw hd hww) (by rw [ek]; exact hm.1)
    (by rw [ek, h.1]; exact hm.2)
  refine ⟨_, _, by rw [S.evaluate hwf hwide wt (Or.inl hfst) hm.1 hm.2, if_neg W.ne'],
    by rw [S'.evaluate hwf' hwide' wt' (Or.inl hfst') (by rw [ek]; exact hm.1) (by rw [ek, h.1]; exact hm.2),
      if_neg W'.ne'], ?_⟩
  obtain ⟨k, R, hk, hin⟩ := exists_atSpan hwf t' (Or.inl hfst) hm.1 hm.2
  obtain ⟨b0, -, b1⟩ := C14_basis hwf.sorted hwf.len hk.le hk.lt hin
  have la : a.weights.length = a.base.ctrl.length := S.len.symm
  have lb : b.weights.length = a.base.ctrl.length := by rw [hww.1, la]
  rw [ratBSplinePoint, ratBSplinePoint, ratBSplineDen, ratBSplineDen, la, lb, h.1, ek]
  exact (mean_weights hn (fun i hi => b0 i (mem_range.1 hi)) b1
    (fun i hi => weight_pos_at hw (by rw [la]; exact mem_range.1 hi)) hd0 hd
    (fun i hi => hww.2 i (by rw [la]; exact mem_range.1 hi)) (fun i hi => h.2 i (mem_range.1 hi))
    (fun i hi j hj => hD i (mem_range.1 hi) j (mem_range.1 hj))).2

/-- Concrete case: one weight of a quarter circle is changed. -/
example := C107_nurbs (nrm := fun v : ℚ × ℚ => |v.1| + |v.2|)
  ⟨fun a b => by have := abs_add_le a.1 b.1; have := abs_add_le a.2 b.2; simp only [Prod.fst_add, Prod.snd_add]; linarith,
    fun a v => by simp [abs_mul, mul_add]⟩ (e := 0) (d := 1 / 4) (D := 2) (a := exNurbs)
  (b := { base := { ctrl := [(1, 0), (1, 1), (0, 1)], knots := [0, 0, 0, 1, 1, 1] }, weights := [1, 5 / 4, 2],
          hom := { ctrl := [((1, 0), 1), ((5 / 4, 5 / 4), 5 / 4), ((0, 2), 2)], knots := [0, 0, 0, 1, 1, 1] } })
  exNurbs_init (by decide +kernel) exNurbs_wf exNurbs_wide exNurbs_first rfl (by decide +kernel)
  ⟨rfl, by decide +kernel⟩ (by norm_num) (by norm_num) ⟨rfl, by decide +kernel⟩ (by unfold Spread; decide +kernel)
  (t := 1 / 3) (Or.inr ⟨by decide +kernel, by decide +kernel⟩)

/-- **C107** (rational Bezier patches): the same bound. -/
theorem C107_rational_bezier_patch {nrm : V → K} (hn : IsSeminorm nrm) {e d D : K} {a b : RationalBezierPatch K V}
    (ha : a.init = ok a) (hb : b.init = ok b) (hbase : b.base = { a.base with grid := b.base.grid })
    (hw : ∀ x ∈ a.weights, 0 < x) (h : Near nrm e a.base.grid b.base.grid) (hd0 : 0 ≤ d) (hd : d < 1)
    (hww : NearWeights d a.weights b.weights) (hD : Spread nrm D a.base.grid) {u v : K}
    (hu : 0 ≤ u ∧ u ≤ 1) (hv : 0 ≤ v ∧ v ≤ 1) (hu' : u < 1 ∨ a.base.perU = false) (hv' : v < 1 ∨ a.base.perV = false) :
    ∃ x y, a.evaluate u v = ok x ∧ b.evaluate u v = ok y ∧ nrm (x - y) ≤ e + d / (1 - d) * D := by
  obtain ⟨S, -, -⟩ := (RationalBezierPatch.init_iff _ _).1 ha
  obtain ⟨S', -, -⟩ := (RationalBezierPatch.init_iff _ _).1 hb
  obtain ⟨u1, v1, fu, fv, E⟩ := C63_bezier_evaluate ha u v
  obtain ⟨u2, v2, fu', fv', E'⟩ := C63_bezier_evaluate hb u v
  have e1 : b.base.perU = a.base.perU := by rw [hbase]
  have e2 : b.base.perV = a.base.perV := by rw [hbase]
  have e3 : b.base.degU = a.base.degU := by rw [hbase]
  have e4 : b.base.degV = a.base.degV := by rw [hbase]
  rw [e1] at fu'
  rw [e2] at fv'
  obtain rfl := folded_self fu hu.1 hu.2 hu'
  obtain rfl := folded_self fv hv.1 hv.2 hv'
  obtain rfl := folded_self fu' hu.1 hu.2 hu'
  obtain rfl := folded_self fv' hv.1 hv.2 hv'
  have hl : a.base.grid.length = (a.base.degU.toNat + 1) * (a.base.degV.toNat + 1) := by
    have := (wf_of_init (init_hom ha)).len
    rw [S.hom] at this
    simpa [homog_length S.len] using this
  have la : a.weights.length = (a.base.degU.toNat + 1) * (a.base.degV.toNat + 1) := by
    rw [← hl]; exact S.len.symm
  have lb : b.weights.length = (a.base.degU.toNat + 1) * (a.base.degV.toNat + 1) := by rw [hww.1, la]
  have W := bezierDen_pos la hw hu hv
  have W' := bezierDen_pos lb (near_weights_pos hw hd hww) hu hv
  rw [e3, e4] at E'
  refine ⟨_, _, E W.ne', E' W'.ne', ?_⟩
  simp only [ratBezierSurface, ratBezierSurfaceDen, ← sum_product']
  have hmem : ∀ i ∈ range (a.base.degU.toNat + 1) ×ˢ range (a.base.degV.toNat + 1),
      i.1 * (a.base.degV.toNat + 1) + i.2 < (a.base.degU.toNat + 1) * (a.base.degV.toNat + 1) := fun i hi => by
    rw [mem_product] at hi
    exact lin_lt (mem_range.1 hi.1) (mem_range.1 hi.2)
  refine (mean_weights hn (fun i _ => mul_nonneg (bernstein_nonneg' hu.1 hu.2) (bernstein_nonneg' hv.1 hv.2)) ?_
    (fun i hi => weight_pos_at hw (by rw [la]; exact hmem i hi)) hd0 hd
    (fun i hi => hww.2 _ (by rw [la]; exact hmem i hi)) (fun i hi => h.2 _ (by rw [hl]; exact hmem i hi))
    (fun i hi j hj => hD _ (by rw [hl]; exact hmem i hi) _ (by rw [hl]; exact hmem j hj))).2
  rw [sum_product]
  simp only [← mul_sum, bernstein_sum, mul_one]

/-- Concrete case: one weight and one point of a patch of degrees 2 and 1 are changed. -/
example := C107_rational_bezier_patch (nrm := abs) ⟨abs_add_le, abs_mul⟩ (e := 1) (d := 1 / 2) (D := 7) (a := exRatPatch)
  (b := RationalBezierPatch.mk (BezierPatch.mk [1, 1, 3, 2, 5, 7] 2 1 false false 2 1) [1, 2, 1, 3, 1, 1]
    (BezierPatch.mk [(1, 1), (2, 2), (3, 1), (6, 3), (5, 1), (7, 1)] 2 1 false false 2 1))
  (by decide +kernel) (by decide +kernel) rfl (by decide +kernel) ⟨rfl, by decide +kernel⟩ (by norm_num) (by norm_num)
  ⟨rfl, by decide +kernel⟩ (by unfold Spread; decide +kernel) (u := 1 / 3) (v := 1 / 4) ⟨by norm_num, by norm_num⟩
  ⟨by norm_num, by norm_num⟩ (Or.inr rfl) (Or.inr rfl)

/-- **C107** (NURBS patches): the same bound. -/
theorem C107_nurbs_patch {nrm : V → K} (hn : IsSeminorm nrm) {e d D : K} {a b : NURBSPatch K V} {m n du dv : ℕ}
    (ha : NValid a m n du dv) (hia : a.init = ok a) (hb : NValid b m n du dv) (hib : b.init = ok b)
    (eu : b.knotsU = a.knotsU) (ev : b.knotsV = a.knotsV) (epu : b.perU = a.perU) (epv : b.perV = a.perV)
    (hwu : WideOn a.knotsU m du) (hwv : WideOn a.knotsV n dv)
    (hw : ∀ x ∈ a.weights, 0 < x) (h : Near nrm e a.grid b.grid) (hd0 : 0 ≤ d) (hd : d < 1)
    (hww : NearWeights d a.weights b.weights) (hD : Spread nrm D a.grid) {u v : K}
    (hu : InDom a.knotsU m du u) (hv : InDom a.knotsV n dv v)
    (hu' : u < knot a.knotsU m ∨ a.perU = false) (hv' : v < knot a.knotsV n ∨ a.perV = false) :
    ∃ x y, a.evaluate u v = ok x ∧ b.evaluate u v = ok y ∧ nrm (x - y) ≤ e + d / (1 - d) * D := by
  refine ⟨_, _, C63_nurbs_positive ha hia hwu hwv hw hu hv hu' hv',
    C63_nurbs_positive hb hib (eu ▸ hwu) (ev ▸ hwv) (near_weights_pos hw hd hww) (eu ▸ hu) (ev ▸ hv)
      (by rw [eu, epu]; exact hu') (by rw [ev, epv]; exact hv'), ?_⟩
  obtain ⟨bu, su⟩ := axis_basis ha.u hu
  obtain ⟨bv, sv⟩ := axis_basis ha.v hv
  rw [eu, ev]
  have hmem : ∀ i ∈ range m ×ˢ range n, i.1 * n + i.2 < m * n := fun i hi => by
    rw [mem_product] at hi
    exact lin_lt (mem_range.1 hi.1) (mem_range.1 hi.2)
  simp only [ratBSplineSurface, ratBSplineSurfaceDen, ← sum_product']
  refine (mean_weights hn (fun i hi => ?_) ?_
    (fun i hi => weight_pos_at hw (by rw [ha.weights]; exact hmem i hi)) hd0 hd
    (fun i hi => hww.2 _ (by rw [ha.weights]; exact hmem i hi)) (fun i hi => h.2 _ (by rw [ha.grid]; exact hmem i hi))
    (fun i hi j hj => hD _ (by rw [ha.grid]; exact hmem i hi) _ (by rw [ha.grid]; exact hmem j hj))).2
  · rw [mem_product] at hi
    exact mul_nonneg (bu _ (mem_range.1 hi.1)) (bv _ (mem_range.1 hi.2))
  · rw [sum_product]
    simp only [← mul_sum, sv, mul_one, su]

/-- Concrete case: one weight of a patch with an interior knot is changed. -/
example : ∃ a b x y, exNPRaw.init = ok a ∧
    ({ exNPRaw with weights := [1, 2, 1, 3, 1, 2, 2, 5 / 4] } : NURBSPatch ℚ ℚ).init = ok b ∧
    a.evaluate (1 / 3) (1 / 4) = ok x ∧ b.evaluate (1 / 3) (1 / 4) = ok y ∧
    |x - y| ≤ 0 + 1 / 4 / (1 - 1 / 4) * 7 := by
  have hv : NValid exNPRaw 4 2 2 1 :=
    ⟨⟨rfl, rfl, Or.inl (by decide), by decide, by decide +kernel, by decide +kernel⟩,
      ⟨rfl, rfl, Or.inl (by decide), by decide, by decide +kernel, by decide +kernel⟩, rfl, rfl⟩
  have hv' : NValid ({ exNPRaw with weights := [1, 2, 1, 3, 1, 2, 2, 5 / 4] } : NURBSPatch ℚ ℚ) 4 2 2 1 :=
    ⟨hv.u, hv.v, rfl, rfl⟩
  obtain ⟨a, ia, ja, ea⟩ := C63_nurbs_init hv
  obtain ⟨b, ib, jb, eb⟩ := C63_nurbs_init hv'
  have ku : a.knotsU = exNPRaw.knotsU := by rw [ea]
  have kv : a.knotsV = exNPRaw.knotsV := by rw [ea]
  have wa : a.weights = [1, 2, 1, 3, 1, 2, 2, 1] := by rw [ea]; rfl
  have ga : a.grid = [0, 1, 3, 2, 5, 7, 4, 6] := by rw [ea]; rfl
  have wb : b.weights = [1, 2, 1, 3, 1, 2, 2, 5 / 4] := by rw [eb]
  have gb : b.grid = [0, 1, 3, 2, 5, 7, 4, 6] := by rw [eb]; rfl
  obtain ⟨x, y, h1, h2, h3⟩ := C107_nurbs_patch (nrm := abs) ⟨abs_add_le, abs_mul⟩ (e := 0) (d := 1 / 4) (D := 7)
    (a := a) (b := b) (m := 4) (n := 2) (du := 2) (dv := 1) (u := 1 / 3) (v := 1 / 4) (by rw [ea]; exact ⟨hv.u, hv.v, hv.grid, hv.weights⟩) ja
    (by rw [eb]; exact ⟨hv'.u, hv'.v, hv'.grid, hv'.weights⟩) jb (by rw [ea, eb]) (by rw [ea, eb]) (by rw [ea, eb]) (by rw [ea, eb])
    (by rw [ku]; intro i h1 h2; interval_cases i <;> decide +kernel)
    (by rw [kv]; intro i h1 h2; interval_cases i; decide +kernel) (by rw [wa]; decide +kernel)
    (by rw [ga, gb]; exact ⟨rfl, by decide +kernel⟩) (by norm_num) (by norm_num)
    (by rw [wa, wb]; exact ⟨rfl, by decide +kernel⟩) (by rw [ga]; unfold Spread; decide +kernel)
    (by rw [ku]; exact ⟨by decide +kernel, by decide +kernel, Or.inl (by decide +kernel)⟩)
    (by rw [kv]; exact ⟨by decide +kernel, by decide +kernel, Or.inl (by decide +kernel)⟩)
    (Or.inr (by rw [ea]; rfl)) (Or.inr (by rw [ea]; rfl))
  exact ⟨a, b, x, y, ia, ib, h1, h2, h3⟩

end NS.Props
