import Mathlib.Algebra.BigOperators.Pi
import Verif.Model.Rational
import Verif.Spec.Rational
import Verif.Proof.BezierEval
import Verif.Proof.BSplineCurve

/-!
# Helper lemmas for rational curves
-/

set_option linter.unusedSectionVars false
set_option linter.unusedSimpArgs false

namespace NS

open Outcome Finset Spec

variable {K V : Type} [Field K] [LinearOrder K] [IsStrictOrderedRing K] [FloorRing K]
  [AddCommGroup V] [Module K V]

/-- Homogeneous list. -/
def homog (P : List V) (w : List K) : List (V × K) := List.zipWith (fun p w => (w • p, w)) P w

theorem homog_length {P : List V} {w : List K} (h : P.length = w.length) :
    (homog P w).length = P.length := by simp [homog, h]

theorem homogenize_eq {P : List V} {w : List K} (h : P.length = w.length) :
    homogenize P w = ok (homog P w) := by
  simp [homogenize, h, homog]

theorem homogenize_ub {P : List V} {w : List K} (h : P.length ≠ w.length) :
    homogenize P w = ub := by
  simp [homogenize, h]

theorem homog_getElem? {P : List V} {w : List K} (i : ℕ) (h : P.length = w.length)
    (hi : i < P.length) :
    (homog P w)[i]? = some (w.getD i 0 • P.getD i 0, w.getD i 0) := by
  have hi' : i < w.length := h ▸ hi
  simp [homog, List.getElem?_zipWith, List.getElem?_eq_getElem hi, List.getElem?_eq_getElem hi',
    List.getD_eq_getElem?_getD]

theorem homog_getD {P : List V} {w : List K} (i : ℕ) (h : P.length = w.length) :
    (homog P w).getD i 0 = (w.getD i 0 • P.getD i 0, w.getD i 0) := by
  by_cases hi : i < P.length
  · rw [List.getD_eq_getElem?_getD, homog_getElem? i h hi, Option.getD_some]
  · have hi' : ¬ i < w.length := h ▸ hi
    have hi'' : ¬ i < (homog P w).length := by rwa [homog_length h]
    rw [List.getD_eq_getElem?_getD, List.getElem?_eq_none (by omega), Option.getD_none,
      List.getD_eq_getElem?_getD, List.getElem?_eq_none (by omega : w.length ≤ i),
      Option.getD_none, zero_smul]
    rfl

theorem homog_set_ctrl (P : List V) (w : List K) (i : ℕ) (p : V) {x : K} (hx : w[i]? = some x) :
    homog (P.set i p) w = (homog P w).set i (x • p, x) := by
  induction P generalizing w i with
  | nil => simp [homog]
  | cons a P ih =>
    cases w with
    | nil => simp at hx
    | cons b w =>
      cases i with
      | zero => simp at hx; subst hx; simp [homog]
      | succ i => simp at hx; simpa [homog] using ih w i hx

theorem homog_set_weight (P : List V) (w : List K) (i : ℕ) (x : K) {p : V} (hp : P[i]? = some p) :
    homog P (w.set i x) = (homog P w).set i (x • p, x) := by
  induction P generalizing w i with
  | nil => simp at hp
  | cons a P ih =>
    cases w with
    | nil => simp [homog]
    | cons b w =>
      cases i with
      | zero => simp at hp; subst hp; simp [homog]
      | succ i => simp at hp; simpa [homog] using ih w i hp

theorem homog_bezierPoint {P : List V} {w : List K} (h : P.length = w.length) (t : K) :
    bezierPoint (homog P w) t
      = (∑ i ∈ range P.length, (bernstein (P.length - 1) i t * w.getD i 0) • P.getD i 0,
         ratBezierDen w t) := by
  unfold bezierPoint ratBezierDen
  rw [homog_length h]
  ext
  · rw [Prod.fst_sum]
    refine sum_congr rfl (fun i _ => ?_)
    rw [homog_getD _ h, mul_smul]; rfl
  · rw [Prod.snd_sum, h]
    refine sum_congr rfl (fun i _ => ?_)
    rw [homog_getD _ h]; rfl

theorem homog_bsplinePoint {P : List V} {w : List K} (h : P.length = w.length) (p : ℕ) (u : List K)
    (t : K) :
    bsplinePoint p u (homog P w) t
      = (∑ i ∈ range P.length,
          (basis (knot u) (knot u P.length) p i t * w.getD i 0) • P.getD i 0,
         ratBSplineDen p u w t) := by
  unfold bsplinePoint ratBSplineDen
  rw [homog_length h]
  ext
  · rw [Prod.fst_sum]
    refine sum_congr rfl (fun i _ => ?_)
    rw [homog_getD _ h, mul_smul]; rfl
  · rw [Prod.snd_sum, h]
    refine sum_congr rfl (fun i _ => ?_)
    rw [homog_getD _ h]; rfl

theorem dehomogenize_eq {Q : List (V × K)} (h : ∀ q ∈ Q, q.2 ≠ 0) :
    dehomogenize Q = ok (Q.map (fun q => q.2⁻¹ • q.1)) := by
  unfold dehomogenize
  rw [assert_true h]; rfl

theorem dehomogenize_ub {Q : List (V × K)} (h : ∃ q ∈ Q, q.2 = 0) :
    dehomogenize Q = ub := by
  unfold dehomogenize
  rw [assert_false (by push Not; exact h)]; rfl

theorem homog_of_dehomogenize {Q : List (V × K)} (h : ∀ q ∈ Q, q.2 ≠ 0) :
    homog (Q.map (fun q => q.2⁻¹ • q.1)) (Q.map Prod.snd) = Q := by
  induction Q with
  | nil => rfl
  | cons a Q ih =>
    simp only [List.mem_cons, forall_eq_or_imp] at h
    simp only [homog, List.map_cons, List.zipWith_cons_cons] at ih ⊢
    rw [ih h.2, smul_inv_smul₀ h.1]

theorem dehomogenize_homog {P : List V} {w : List K} (h : P.length = w.length)
    (hw : ∀ x ∈ w, x ≠ 0) : dehomogenize (homog P w) = ok P := by
  rw [dehomogenize_eq]
  · congr 1
    induction P generalizing w with
    | nil => simp [homog]
    | cons a P ih =>
      cases w with
      | nil => simp at h
      | cons b w =>
        simp only [List.mem_cons, forall_eq_or_imp] at hw
        simp only [List.length_cons, add_left_inj] at h
        have := ih h hw.2
        simp only [homog, List.map_cons, List.zipWith_cons_cons] at this ⊢
        rw [this, inv_smul_smul₀ hw.1]
  · intro q hq
    simp only [homog, List.mem_iff_getElem, List.length_zipWith, List.getElem_zipWith] at hq
    obtain ⟨i, hi, rfl⟩ := hq
    exact hw _ (List.getElem_mem _)

theorem map_snd_homog {P : List V} {w : List K} (h : P.length = w.length) :
    (homog P w).map Prod.snd = w := by
  induction P generalizing w with
  | nil => cases w <;> simp_all [homog]
  | cons a P ih =>
    cases w with
    | nil => simp at h
    | cons b w =>
      simp only [List.length_cons, add_left_inj] at h
      have := ih h
      simp only [homog, List.map_cons, List.zipWith_cons_cons] at this ⊢
      rw [this]

namespace RationalBezier

/-- The homogeneous curve is the one of the visible control points, weights and flag. -/
structure Sync (c : RationalBezier K V) : Prop where
  len : c.base.ctrl.length = c.weights.length
  hom : c.hom = { ctrl := homog c.base.ctrl c.weights, periodic := c.base.periodic }

theorem Sync.validate {c : RationalBezier K V} (h : Sync c) : c.validate = ok () := by
  have hl := h.len
  have h1 : c.hom.ctrl.length = c.base.ctrl.length := by rw [h.hom]; exact homog_length hl
  have h2 : c.hom.periodic = c.base.periodic := by rw [h.hom]
  unfold RationalBezier.validate
  rw [throwIf_false (by omega), ok_bind, throwIf_false (by simp [h2])]

theorem init_iff (c c' : RationalBezier K V) :
    c.init = ok c' ↔ Sync c' ∧ c'.base = c.base ∧ c'.weights = c.weights := by
  unfold init
  by_cases h : c.base.ctrl.length = c.weights.length
  · rw [homogenize_eq h]
    simp only [ok_bind, pure_eq, ok.injEq]
    constructor
    · rintro rfl; exact ⟨⟨h, rfl⟩, rfl, rfl⟩
    · rintro ⟨h1, h2, h3⟩
      have e := h1.hom
      cases c'; cases c
      simp_all
  · rw [homogenize_ub h]
    simp only [ub_bind, reduceCtorEq, false_iff]
    rintro ⟨h1, h2, h3⟩
    exact h (by rw [← h2, ← h3]; exact h1.len)

theorem Sync.init {c : RationalBezier K V} (h : Sync c) : c.init = ok c :=
  (init_iff c c).2 ⟨h, rfl, rfl⟩

theorem Sync.setControlPoint {c : RationalBezier K V} (h : Sync c) {i : ℕ}
    (hi : i < c.base.ctrl.length) (p : V) :
    ∃ c', c.setControlPoint i p = ok c' ∧ Sync c' ∧
      c'.base = { c.base with ctrl := c.base.ctrl.set i p } ∧ c'.weights = c.weights := by
  have hl := h.len
  have hi' : i < c.weights.length := by omega
  have hx : c.weights[i]? = some c.weights[i] := List.getElem?_eq_getElem hi'
  have hhi : i < c.hom.ctrl.length := by rw [h.hom]; rwa [homog_length hl]
  have hq : c.hom.ctrl[i].2 = c.weights[i] := by
    have h1 := homog_getElem? i hl hi
    have e : c.hom.ctrl[i]? = some (c.weights.getD i 0 • c.base.ctrl.getD i 0, c.weights.getD i 0) := by
      rw [h.hom]; exact h1
    rw [List.getElem?_eq_getElem hhi] at e
    rw [Option.some.inj e]
    simp [List.getD_eq_getElem?_getD, hx]
  unfold RationalBezier.setControlPoint
  rw [h.validate, ok_bind, wr_of_lt _ hi, ok_bind, rd_of_lt hhi, ok_bind, rd_of_lt hi', ok_bind,
    wr_of_lt _ hhi, ok_bind, hq]
  refine ⟨_, rfl, ⟨?_, ?_⟩, rfl, rfl⟩
  · simpa using hl
  · simp only [homog_set_ctrl _ _ _ _ hx, h.hom]

theorem Sync.setWeight {c : RationalBezier K V} (h : Sync c) {i : ℕ}
    (hi : i < c.base.ctrl.length) (x : K) :
    ∃ c', c.setWeight i x = ok c' ∧ Sync c' ∧
      c'.base = c.base ∧ c'.weights = c.weights.set i x := by
  have hl := h.len
  have hi' : i < c.weights.length := by omega
  have hx : c.base.ctrl[i]? = some c.base.ctrl[i] := List.getElem?_eq_getElem hi
  have hhi : i < c.hom.ctrl.length := by rw [h.hom]; rwa [homog_length hl]
  unfold RationalBezier.setWeight
  rw [h.validate, ok_bind, wr_of_lt _ hi', ok_bind, rd_of_lt hhi, ok_bind, rd_of_lt hi, ok_bind,
    wr_of_lt _ hhi, ok_bind]
  refine ⟨_, rfl, ⟨?_, ?_⟩, rfl, rfl⟩
  · simpa using hl
  · simp only [homog_set_weight _ _ _ _ hx, h.hom]

/-- Evaluation of a consistent curve, parameter inside the wrap. -/
theorem Sync.evaluate {c : RationalBezier K V} (h : Sync c) (hne : c.base.ctrl ≠ []) {t t' : K}
    (ht : Bezier.wrap c.base.periodic t = ok t') :
    c.evaluate t = if ratBezierDen c.weights t' = 0 then ub
      else ok (ratBezierPoint c.base.ctrl c.weights t') := by
  have hne' : homog c.base.ctrl c.weights ≠ [] := by
    intro e
    have := homog_length h.len
    rw [e] at this
    exact hne (List.length_eq_zero_iff.1 this.symm)
  unfold RationalBezier.evaluate
  rw [h.validate, ok_bind, Bezier.evaluate_wrap]
  rw [h.hom]
  simp only [ht, ok_bind]
  rw [Bezier.evaluate_eq _ hne', ok_bind, homog_bezierPoint h.len]
  unfold quot0
  by_cases hd : ratBezierDen c.weights t' = 0
  · rw [assert_false (by simpa using hd), if_pos hd]; rfl
  · rw [assert_true (by simpa using hd), if_neg hd]; rfl

theorem ofHomogeneous_eq {h : Bezier (V × K)} (hw : ∀ q ∈ h.ctrl, q.2 ≠ 0) :
    ∃ c : RationalBezier K V, ofHomogeneous h = ok c ∧ Sync c ∧ c.hom = h ∧
      c.base.ctrl = h.ctrl.map (fun q => q.2⁻¹ • q.1) ∧ c.weights = h.ctrl.map Prod.snd ∧
      c.base.periodic = h.periodic := by
  unfold ofHomogeneous
  rw [dehomogenize_eq hw, ok_bind]
  have S : Sync (RationalBezier.mk (Bezier.mk (h.ctrl.map (fun q => q.2⁻¹ • q.1)) h.periodic)
      (h.ctrl.map Prod.snd) h) :=
    ⟨by simp, by simp [homog_of_dehomogenize hw]⟩
  simp only [S.validate, ok_bind]
  exact ⟨_, rfl, S, rfl, rfl, rfl, rfl⟩

theorem ofHomogeneous_ub {h : Bezier (V × K)} (hw : ∃ q ∈ h.ctrl, q.2 = 0) :
    (ofHomogeneous h : Outcome (RationalBezier K V)) = ub := by
  unfold ofHomogeneous
  rw [dehomogenize_ub hw]; rfl

end RationalBezier

namespace NURBS

/-- The homogeneous spline is the one of the visible data. -/
structure Sync (c : NURBS K V) : Prop where
  len : c.base.ctrl.length = c.weights.length
  hom : c.hom = { ctrl := homog c.base.ctrl c.weights, knots := c.base.knots,
                  periodic := c.base.periodic, sdeg := c.base.sdeg }

theorem Sync.validate {c : NURBS K V} (h : Sync c) : c.validate = c.base.validate := by
  have hl := h.len
  have h1 : c.hom.ctrl.length = c.base.ctrl.length := by rw [h.hom]; exact homog_length hl
  have h2 : c.hom.periodic = c.base.periodic := by rw [h.hom]
  unfold NURBS.validate
  rw [throwIf_false (by omega : ¬ (c.hom.ctrl.length ≠ c.base.ctrl.length ∨ _))]
  rw [throwIf_false (by simp [h2] : ¬ (c.hom.periodic ≠ c.base.periodic))]
  cases c.base.validate <;> rfl

theorem init_iff (c c' : NURBS K V) :
    c.init = ok c' ↔ Sync c' ∧ c'.base = c.base ∧ c'.weights = c.weights := by
  unfold init
  by_cases h : c.base.ctrl.length = c.weights.length
  · rw [homogenize_eq h]
    simp only [ok_bind, pure_eq, ok.injEq]
    constructor
    · rintro rfl; exact ⟨⟨h, rfl⟩, rfl, rfl⟩
    · rintro ⟨h1, h2, h3⟩
      have e := h1.hom
      cases c'; cases c
      simp_all
  · rw [homogenize_ub h]
    simp only [ub_bind, reduceCtorEq, false_iff]
    rintro ⟨h1, h2, h3⟩
    exact h (by rw [← h2, ← h3]; exact h1.len)

theorem Sync.init {c : NURBS K V} (h : Sync c) : c.init = ok c :=
  (init_iff c c).2 ⟨h, rfl, rfl⟩

theorem Sync.setControlPoint {c : NURBS K V} (h : Sync c) (hv : c.base.validate = ok ()) {i : ℕ}
    (hi : i < c.base.ctrl.length) (p : V) :
    ∃ c', c.setControlPoint i p = ok c' ∧ Sync c' ∧
      c'.base = { c.base with ctrl := c.base.ctrl.set i p } ∧ c'.weights = c.weights := by
  have hl := h.len
  have hi' : i < c.weights.length := by omega
  have hx : c.weights[i]? = some c.weights[i] := List.getElem?_eq_getElem hi'
  have hhi : i < c.hom.ctrl.length := by rw [h.hom]; rwa [homog_length hl]
  have hq : c.hom.ctrl[i].2 = c.weights[i] := by
    have h1 := homog_getElem? i hl hi
    have e : c.hom.ctrl[i]? = some (c.weights.getD i 0 • c.base.ctrl.getD i 0, c.weights.getD i 0) := by
      rw [h.hom]; exact h1
    rw [List.getElem?_eq_getElem hhi] at e
    rw [Option.some.inj e]
    simp [List.getD_eq_getElem?_getD, hx]
  unfold NURBS.setControlPoint
  rw [h.validate, hv, ok_bind, wr_of_lt _ hi, ok_bind, rd_of_lt hhi, ok_bind, rd_of_lt hi',
    ok_bind, wr_of_lt _ hhi, ok_bind, hq]
  refine ⟨_, rfl, ⟨?_, ?_⟩, rfl, rfl⟩
  · simpa using hl
  · simp only [homog_set_ctrl _ _ _ _ hx, h.hom]

theorem Sync.setWeight {c : NURBS K V} (h : Sync c) (hv : c.base.validate = ok ()) {i : ℕ}
    (hi : i < c.base.ctrl.length) (x : K) :
    ∃ c', c.setWeight i x = ok c' ∧ Sync c' ∧
      c'.base = c.base ∧ c'.weights = c.weights.set i x := by
  have hl := h.len
  have hi' : i < c.weights.length := by omega
  have hx : c.base.ctrl[i]? = some c.base.ctrl[i] := List.getElem?_eq_getElem hi
  have hhi : i < c.hom.ctrl.length := by rw [h.hom]; rwa [homog_length hl]
  unfold NURBS.setWeight
  rw [h.validate, hv, ok_bind, wr_of_lt _ hi', ok_bind, rd_of_lt hhi, ok_bind, rd_of_lt hi,
    ok_bind, wr_of_lt _ hhi, ok_bind]
  refine ⟨_, rfl, ⟨?_, ?_⟩, rfl, rfl⟩
  · simpa using hl
  · simp only [homog_set_weight _ _ _ _ hx, h.hom]

theorem Sync.setKnot {c : NURBS K V} (h : Sync c) {i : ℕ} (hi : i < c.base.knots.length) (x : K) :
    ∃ c', c.setKnot i x = ok c' ∧ Sync c' ∧
      c'.base = { c.base with knots := c.base.knots.set i x } ∧ c'.weights = c.weights := by
  have hl := h.len
  have e : c.hom.knots = c.base.knots := by rw [h.hom]
  have hhi : i < c.hom.knots.length := by rwa [e]
  unfold NURBS.setKnot
  rw [wr_of_lt _ hi, ok_bind, wr_of_lt _ hhi, ok_bind]
  refine ⟨_, rfl, ⟨hl, ?_⟩, rfl, rfl⟩
  simp only [e]
  simp only [h.hom]

theorem Sync.wf {c : NURBS K V} (h : Sync c) {p : ℕ} :
    BSpline.WellFormed c.hom p ↔ BSpline.WellFormed c.base p := by
  have hl : (homog c.base.ctrl c.weights).length = c.base.ctrl.length := homog_length h.len
  rw [h.hom]
  constructor
  · rintro ⟨a, b, d, e, f⟩
    simp only [hl] at a d f
    exact ⟨a, b, d, e, f⟩
  · rintro ⟨a, b, d, e, f⟩
    refine ⟨?_, b, ?_, e, ?_⟩ <;> simp only [hl] <;> assumption

theorem Sync.homLen {c : NURBS K V} (h : Sync c) : c.hom.ctrl.length = c.base.ctrl.length := by
  rw [h.hom]; exact homog_length h.len

theorem Sync.knots {c : NURBS K V} (h : Sync c) : c.hom.knots = c.base.knots := by rw [h.hom]

theorem Sync.ctrl {c : NURBS K V} (h : Sync c) : c.hom.ctrl = homog c.base.ctrl c.weights := by
  rw [h.hom]

theorem Sync.per {c : NURBS K V} (h : Sync c) : c.hom.periodic = c.base.periodic := by rw [h.hom]

theorem Sync.wide {c : NURBS K V} (h : Sync c) {p : ℕ} :
    BSpline.Wide c.hom p ↔ BSpline.Wide c.base p := by
  unfold BSpline.Wide
  rw [h.homLen, h.knots]

theorem Sync.first {c : NURBS K V} (h : Sync c) {p : ℕ} :
    BSpline.FirstSpan c.hom p ↔ BSpline.FirstSpan c.base p := by
  unfold BSpline.FirstSpan
  rw [h.knots]

theorem Sync.wrap {c : NURBS K V} (h : Sync c) (t : K) : c.hom.wrap t = c.base.wrap t := by
  unfold BSpline.wrap BSpline.lower BSpline.upper BSpline.degree
  rw [h.homLen, h.knots, h.per]

theorem wf_validate {c : BSpline K V} {p : ℕ} (hc : BSpline.WellFormed c p) :
    c.validate = ok () := by
  unfold BSpline.validate
  rw [BSpline.degree_eq hc]
  apply throwIf_false
  rintro (h | ⟨h1, h2⟩)
  · omega
  · rcases hc.sdeg with e | e
    · rw [e] at h1; simp at h1
    · rw [e] at h2; simp at h2

/-- Evaluation of a consistent curve, parameter inside the wrap. -/
theorem Sync.evaluate {c : NURBS K V} (h : Sync c) {p : ℕ} (hc : BSpline.WellFormed c.base p)
    (hw : BSpline.Wide c.base p) {t t' : K} (ht : c.base.wrap t = ok t')
    (hf : BSpline.FirstSpan c.base p ∨ knot c.base.knots p < t')
    (h1 : knot c.base.knots p ≤ t') (h2 : t' ≤ knot c.base.knots c.base.ctrl.length) :
    c.evaluate t = if ratBSplineDen p c.base.knots c.weights t' = 0 then ub
      else ok (ratBSplinePoint p c.base.knots c.base.ctrl c.weights t') := by
  have e := BSpline.evaluate_eq (h.wf.2 hc) (h.wide.2 hw) (t := t) (t' := t')
    (by rw [h.wrap]; exact ht) (by rw [h.first, h.knots]; exact hf) (by rw [h.knots]; exact h1)
    (by rw [h.knots, h.homLen]; exact h2)
  unfold NURBS.evaluate
  rw [h.validate, wf_validate hc, ok_bind, e, ok_bind, h.ctrl, h.knots, homog_bsplinePoint h.len]
  unfold quot0
  by_cases hd : ratBSplineDen p c.base.knots c.weights t' = 0
  · rw [assert_false (by simpa using hd), if_pos hd]; rfl
  · rw [assert_true (by simpa using hd), if_neg hd]; rfl

theorem ofHomogeneous_eq {h : BSpline K (V × K)} (hw : ∀ q ∈ h.ctrl, q.2 ≠ 0)
    (hv : h.validate = ok ()) :
    ∃ c : NURBS K V, ofHomogeneous h = ok c ∧ Sync c ∧ c.hom = h ∧
      c.base.ctrl = h.ctrl.map (fun q => q.2⁻¹ • q.1) ∧ c.weights = h.ctrl.map Prod.snd := by
  unfold ofHomogeneous
  rw [dehomogenize_eq hw, ok_bind]
  have S : Sync (NURBS.mk (BSpline.mk (h.ctrl.map (fun q => q.2⁻¹ • q.1)) h.knots h.periodic h.sdeg)
      (h.ctrl.map Prod.snd) h) :=
    ⟨by simp, by simp [homog_of_dehomogenize hw]⟩
  have hv' : (BSpline.mk (h.ctrl.map (fun q => q.2⁻¹ • q.1)) h.knots h.periodic h.sdeg).validate
      = ok () := by
    rw [← hv]
    simp [BSpline.validate, BSpline.degree]
  simp only [S.validate, hv', ok_bind]
  exact ⟨_, rfl, S, rfl, rfl, rfl⟩

end NURBS

end NS
