import Verif.Props.Rational

/-!
# Properties of rational curves, continued: NURBS quotient (C24), derivatives (C25), conversions
(C26), size checks (C27)
-/

set_option linter.unusedSectionVars false

namespace NS.Props

open Outcome Spec Finset BSpline

section Nurbs

variable {K V : Type} [Field K] [LinearOrder K] [IsStrictOrderedRing K] [FloorRing K]
  [AddCommGroup V] [Module K V]

theorem bspline_folded {c : BSpline K V} {p : ℕ} (hc : WellFormed c p) (t : K) :
    ∃ t', c.wrap t = ok t' ∧
      Folded c.periodic (knot c.knots p) (knot c.knots c.ctrl.length) t t' := by
  by_cases hp : c.periodic = true
  · obtain ⟨t', h1, h2, h3, h4⟩ := unwrapParameter_spec _ _ t hc.dom
    refine ⟨t', by rw [wrap_periodic hc hp, h1], ?_⟩
    unfold Folded
    rw [if_pos hp]
    exact ⟨h2, h3, h4⟩
  · refine ⟨t, wrap_nonperiodic (by simpa using hp) t, ?_⟩
    unfold Folded
    rw [if_neg hp]

/-- The parameters at which a curve is meant to be evaluated: all for a periodic curve, those of
the domain otherwise. -/
def Admissible (c : BSpline K V) (p : ℕ) (t : K) : Prop :=
  c.periodic = true ∨ (knot c.knots p ≤ t ∧ t ≤ knot c.knots c.ctrl.length)

theorem Admissible.mem {c : BSpline K V} {p : ℕ} {t t' : K} (h : Admissible c p t)
    (hf : Folded c.periodic (knot c.knots p) (knot c.knots c.ctrl.length) t t') :
    knot c.knots p ≤ t' ∧ t' ≤ knot c.knots c.ctrl.length := by
  unfold Folded at hf
  split at hf
  · exact ⟨hf.1, hf.2.1.le⟩
  · rename_i hp
    subst hf
    exact h.resolve_left hp

/-- C24: a NURBS curve evaluates to the weighted quotient of its B-spline sums. -/
theorem C24_nurbs {c : NURBS K V} (hc : c.init = ok c) {p : ℕ} (hwf : WellFormed c.base p)
    (hw : Wide c.base p) (hfst : FirstSpan c.base p) (t : K) (ht : Admissible c.base p t) :
    ∃ t', Folded c.base.periodic (knot c.base.knots p) (knot c.base.knots c.base.ctrl.length) t t' ∧
      (ratBSplineDen p c.base.knots c.weights t' ≠ 0 →
        c.evaluate t = ok (ratBSplinePoint p c.base.knots c.base.ctrl c.weights t')) ∧
      (ratBSplineDen p c.base.knots c.weights t' = 0 → c.evaluate t = ub) := by
  obtain ⟨S, -, -⟩ := (NURBS.init_iff _ _).1 hc
  obtain ⟨t', h1, h2⟩ := bspline_folded hwf t
  have h3 := ht.mem h2
  refine ⟨t', h2, ?_, ?_⟩ <;> intro h <;> rw [S.evaluate hwf hw h1 (Or.inl hfst) h3.1 h3.2]
  · rw [if_neg h]
  · rw [if_pos h]

example := C24_nurbs exNurbs_init exNurbs_wf exNurbs_wide exNurbs_first (1 / 3)
  (Or.inr ⟨by decide +kernel, by decide +kernel⟩)

theorem ratBSplineDen_map (p : ℕ) (u : List K) (k : K) (w : List K) (t : K) :
    ratBSplineDen p u (w.map (k * ·)) t = k * ratBSplineDen p u w t := by
  unfold ratBSplineDen
  rw [mul_sum]
  simp only [List.length_map]
  refine sum_congr rfl (fun i hi => ?_)
  have hi' : i < w.length := by simpa using hi
  simp [hi']
  ring

theorem ratBSplinePoint_map (p : ℕ) (u : List K) {k : K} (hk : k ≠ 0) {P : List V} {w : List K}
    (hl : P.length = w.length) (t : K) :
    ratBSplinePoint p u P (w.map (k * ·)) t = ratBSplinePoint p u P w t := by
  unfold ratBSplinePoint
  rw [ratBSplineDen_map, mul_inv, mul_comm, mul_smul, smul_sum]
  congr 1
  refine sum_congr rfl (fun i hi => ?_)
  have hi' : i < w.length := by rw [← hl]; simpa using hi
  rw [smul_smul]
  congr 1
  simp [hi']
  field_simp

/-- C24: a common factor of the weights changes nothing. -/
theorem C24_nurbs_scale {c : NURBS K V} (hc : c.init = ok c) {p : ℕ} (hwf : WellFormed c.base p)
    (hw : Wide c.base p) (hfst : FirstSpan c.base p) {k : K} (hk : k ≠ 0) :
    ∃ c', ({ c with weights := c.weights.map (k * ·) } : NURBS K V).init = ok c' ∧
      ∀ t, Admissible c.base p t → c'.evaluate t = c.evaluate t := by
  obtain ⟨S, -, -⟩ := (NURBS.init_iff _ _).1 hc
  have hl := S.len
  have hi : ∃ c', ({ c with weights := c.weights.map (k * ·) } : NURBS K V).init = ok c' := by
    unfold NURBS.init
    rw [homogenize_eq (by simpa using hl)]
    exact ⟨_, rfl⟩
  obtain ⟨c', e⟩ := hi
  obtain ⟨S', e1, e2⟩ := (NURBS.init_iff _ _).1 e
  simp only [] at e1 e2
  refine ⟨c', e, fun t ht => ?_⟩
  obtain ⟨t', h1, h2⟩ := bspline_folded hwf t
  have h3 := ht.mem h2
  rw [S.evaluate hwf hw h1 (Or.inl hfst) h3.1 h3.2,
    S'.evaluate (p := p) (t' := t') (by rw [e1]; exact hwf) (by rw [e1]; exact hw)
      (by rw [e1]; exact h1) (by rw [e1]; exact Or.inl hfst) (by rw [e1]; exact h3.1)
      (by rw [e1]; exact h3.2), e1, e2, ratBSplineDen_map, ratBSplinePoint_map p _ hk hl]
  simp [hk]

example := C24_nurbs_scale exNurbs_init exNurbs_wf exNurbs_wide exNurbs_first (k := -3) (by norm_num)

theorem sum_basis_range {c : BSpline K V} {p : ℕ} (hc : WellFormed c p) (hf : FirstSpan c p) {t : K}
    (h1 : knot c.knots p ≤ t) (h2 : t ≤ knot c.knots c.ctrl.length) :
    (∀ i < c.ctrl.length, 0 ≤ basis (knot c.knots) (knot c.knots c.ctrl.length) p i t) ∧
    ∑ i ∈ range c.ctrl.length, basis (knot c.knots) (knot c.knots c.ctrl.length) p i t = 1 := by
  obtain ⟨k, Q, hk, hin⟩ := exists_atSpan hc t (Or.inl hf) h1 h2
  obtain ⟨a, -, b⟩ := C14_basis hc.sorted hc.len hk.le hk.lt hin
  exact ⟨a, b⟩

/-- C24: with equal weights a NURBS curve is the B-spline with the same control points. -/
theorem C24_nurbs_equal {c : NURBS K V} (hc : c.init = ok c) {p : ℕ} (hwf : WellFormed c.base p)
    (hw : Wide c.base p) (hfst : FirstSpan c.base p) {w : K} (hw0 : w ≠ 0)
    (heq : ∀ x ∈ c.weights, x = w) (t : K) (ht : Admissible c.base p t) :
    c.evaluate t = c.base.evaluate t := by
  obtain ⟨S, -, -⟩ := (NURBS.init_iff _ _).1 hc
  have hl := S.len
  obtain ⟨t', h1, h2⟩ := bspline_folded hwf t
  have h3 := ht.mem h2
  have hget : ∀ i, i < c.base.ctrl.length → c.weights.getD i 0 = w := by
    intro i hi
    have hi' : i < c.weights.length := by rw [← hl]; exact hi
    rw [List.getD_eq_getElem?_getD, List.getElem?_eq_getElem hi', Option.getD_some]
    exact heq _ (List.getElem_mem hi')
  have hden : ratBSplineDen p c.base.knots c.weights t' = w := by
    unfold ratBSplineDen
    rw [← hl]
    rw [sum_congr rfl (fun i hi => by rw [hget i (by simpa using hi)]), ← sum_mul,
      (sum_basis_range hwf hfst h3.1 h3.2).2, one_mul]
  rw [S.evaluate hwf hw h1 (Or.inl hfst) h3.1 h3.2, hden, if_neg hw0,
    evaluate_eq hwf hw h1 (Or.inl hfst) h3.1 h3.2]
  unfold ratBSplinePoint bsplinePoint
  rw [hden, smul_sum]
  congr 1
  refine sum_congr rfl (fun i hi => ?_)
  rw [hget i (by simpa using hi), smul_smul]
  congr 1
  field_simp

example := C24_nurbs_equal (K := ℚ) (V := ℚ) (c := ⟨⟨[1, 5, 2], [0, 0, 0, 1, 1, 1], false, none⟩, [3, 3, 3],
  ⟨[(3, 3), (15, 3), (6, 3)], [0, 0, 0, 1, 1, 1], false, none⟩⟩) (by decide +kernel) (p := 2)
  ⟨by decide, Or.inl rfl, by decide, by decide +kernel, by decide +kernel⟩
  (by intro i h1 h2; have h3 : i < 3 := h2; interval_cases i; decide +kernel)
  (by unfold FirstSpan; decide +kernel) (w := 3) (by norm_num) (by decide +kernel) (1 / 3)
  (Or.inr ⟨by decide +kernel, by decide +kernel⟩)

theorem ratBSplineDen_pos {c : BSpline K V} {p : ℕ} (hc : WellFormed c p) (hf : FirstSpan c p)
    {w : List K} (hl : c.ctrl.length = w.length) (hw : ∀ x ∈ w, 0 < x) {t : K}
    (h1 : knot c.knots p ≤ t) (h2 : t ≤ knot c.knots c.ctrl.length) :
    0 < ratBSplineDen p c.knots w t := by
  obtain ⟨a, b⟩ := sum_basis_range hc hf h1 h2
  have hpos : ∀ i ∈ range w.length, 0 < w.getD i 0 := by
    intro i hi
    have hi' : i < w.length := by simpa using hi
    rw [List.getD_eq_getElem?_getD, List.getElem?_eq_getElem hi', Option.getD_some]
    exact hw _ (List.getElem_mem hi')
  have hex : ∃ i ∈ range c.ctrl.length,
      0 < basis (knot c.knots) (knot c.knots c.ctrl.length) p i t := by
    by_contra hcon
    push Not at hcon
    have := sum_nonpos hcon
    rw [b] at this
    linarith
  obtain ⟨i, hi, hb⟩ := hex
  unfold ratBSplineDen
  rw [← hl] at hpos ⊢
  exact sum_pos' (fun j hj => mul_nonneg (a j (by simpa using hj)) (hpos j hj).le)
    ⟨i, hi, mul_pos hb (hpos i hi)⟩

/-- C24: with positive weights a NURBS curve is defined on its whole domain and stays in the convex
hull of its control points. -/
theorem C24_nurbs_positive {c : NURBS K V} (hc : c.init = ok c) {p : ℕ} (hwf : WellFormed c.base p)
    (hw : Wide c.base p) (hfst : FirstSpan c.base p) (hpos : ∀ x ∈ c.weights, 0 < x) (t : K)
    (ht : Admissible c.base p t) :
    ∃ x, c.evaluate t = ok x ∧ x ∈ convexHull K {P | P ∈ c.base.ctrl} := by
  obtain ⟨S, -, -⟩ := (NURBS.init_iff _ _).1 hc
  have hl := S.len
  obtain ⟨t', h1, h2⟩ := bspline_folded hwf t
  have h3 := ht.mem h2
  have hd := ratBSplineDen_pos hwf hfst hl hpos h3.1 h3.2
  obtain ⟨hb, -⟩ := sum_basis_range hwf hfst h3.1 h3.2
  refine ⟨_, by rw [S.evaluate hwf hw h1 (Or.inl hfst) h3.1 h3.2, if_neg hd.ne'], ?_⟩
  unfold ratBSplinePoint
  rw [smul_sum]
  simp only [smul_smul]
  refine (convex_convexHull K _).sum_mem (fun i hi => ?_) ?_ (fun i hi => ?_)
  · have hi' : i < c.weights.length := by rw [← hl]; simpa using hi
    refine mul_nonneg (inv_nonneg.mpr hd.le) (mul_nonneg (hb i (by simpa using hi)) ?_)
    rw [List.getD_eq_getElem?_getD, List.getElem?_eq_getElem hi', Option.getD_some]
    exact (hpos _ (List.getElem_mem hi')).le
  · rw [← mul_sum]
    unfold ratBSplineDen at hd ⊢
    rw [hl]
    exact inv_mul_cancel₀ hd.ne'
  · apply subset_convexHull
    have hi' : i < c.base.ctrl.length := by simpa using hi
    rw [List.getD_eq_getElem?_getD, List.getElem?_eq_getElem hi', Option.getD_some]
    exact List.getElem_mem hi'

example := C24_nurbs_positive exNurbs_init exNurbs_wf exNurbs_wide exNurbs_first (by decide +kernel) (1 / 3)
  (Or.inr ⟨by decide +kernel, by decide +kernel⟩)

example : exNurbs.evaluate (1 / 2) = ok (3 / 5, 4 / 5) := by decide +kernel
example : Admissible exNurbs.base 2 (1 / 2 : ℚ) ∧ (∀ x ∈ exNurbs.weights, 0 < x) :=
  ⟨Or.inr ⟨by decide +kernel, by decide +kernel⟩, by decide +kernel⟩

/-! ### C26 -/

/-- C26: a Bézier curve as a rational one with weights 1: same points, non-periodic, always
possible, evaluates like the source without its flag; converting back gives it again. -/
theorem C26_bezier (c : Bezier V) :
    ∃ r : RationalBezier K V, RationalBezier.ofBezier K c = ok r ∧ r.init = ok r ∧
      r.base = { ctrl := c.ctrl } ∧ r.weights = List.replicate c.ctrl.length 1 ∧
      r.toBezier = ok { ctrl := c.ctrl } ∧
      ∀ t : K, c.ctrl ≠ [] → r.evaluate t = Bezier.evaluate { ctrl := c.ctrl } t := by
  have hi : ∃ r, RationalBezier.ofBezier K c = ok r := by
    unfold RationalBezier.ofBezier RationalBezier.init
    rw [homogenize_eq (by simp)]
    exact ⟨_, rfl⟩
  obtain ⟨r, e⟩ := hi
  obtain ⟨S, e1, e2⟩ := (RationalBezier.init_iff _ _).1 e
  simp only [] at e1 e2
  refine ⟨r, e, S.init, e1, e2, ?_, ?_⟩
  · unfold RationalBezier.toBezier
    rw [throwIf_false, ok_bind, e1]
    · rfl
    · rw [e2]
      rintro ⟨w, hw, h⟩
      rw [List.mem_replicate] at hw
      obtain ⟨n, hn⟩ := Nat.exists_eq_succ_of_ne_zero hw.1
      rw [hn, hw.2] at h
      simp [List.replicate_succ] at h
  · intro t hne
    rw [C24_rational_bezier_equal S.init (by rw [e1]; exact hne) one_ne_zero
      (by rw [e2]; intro x hx; exact List.eq_of_mem_replicate hx), e1]

example := C26_bezier (K := ℚ) ({ ctrl := [1, 5, 2], periodic := true } : Bezier ℚ)

/-- C26: the converse conversion succeeds exactly when all weights are equal; its result is then
the same curve as far as the flag is off and the weights are not all zero. -/
theorem C26_rational_bezier {c : RationalBezier K V} (hc : c.init = ok c) :
    ((∀ x ∈ c.weights, ∀ y ∈ c.weights, x = y) →
      ∃ b, c.toBezier = ok b ∧ b.ctrl = c.base.ctrl ∧
        (c.base.periodic = false → c.base.ctrl ≠ [] → (∀ w ∈ c.weights, w ≠ 0) →
          ∀ t, b.evaluate t = c.evaluate t)) ∧
    ((∃ x ∈ c.weights, ∃ y ∈ c.weights, x ≠ y) → c.toBezier = Outcome.throw .invalidSetting) := by
  obtain ⟨S, -, -⟩ := (RationalBezier.init_iff _ _).1 hc
  have hl := S.len
  refine ⟨fun H => ?_, fun H => ?_⟩
  · refine ⟨{ ctrl := c.base.ctrl }, ?_, rfl, ?_⟩
    · unfold RationalBezier.toBezier
      rw [throwIf_false]; · rfl
      rintro ⟨w, hw, h⟩
      cases hws : c.weights with
      | nil => rw [hws] at hw; simp at hw
      | cons a l =>
        rw [hws] at hw h H
        exact h (by rw [List.head?_cons, H w hw a (by simp)])
    · intro hp hne h0 t
      cases hws : c.weights with
      | nil => rw [hws] at hl; exact absurd (List.length_eq_zero_iff.1 hl) hne
      | cons a l =>
        rw [C24_rational_bezier_equal hc hne (h0 a (by rw [hws]; simp))
          (fun x hx => H x hx a (by rw [hws]; simp))]
        rw [show ({ ctrl := c.base.ctrl } : Bezier V) = c.base by
          cases h : c.base; rw [h] at hp; simp_all]
  · unfold RationalBezier.toBezier
    rw [throwIf_true]; · rfl
    obtain ⟨x, hx, y, hy, hxy⟩ := H
    by_contra hcon
    push Not at hcon
    exact hxy (Option.some.inj ((hcon x hx).trans (hcon y hy).symm))

example : exRational.toBezier = Outcome.throw .invalidSetting :=
  (C26_rational_bezier exRational_init).2 ⟨1, by decide +kernel, 2, by decide +kernel, by norm_num⟩
example := (C26_rational_bezier (K := ℚ) (V := ℚ) (c := ⟨⟨[1, 5, 2], false⟩, [3, 3, 3],
  ⟨[(3, 3), (15, 3), (6, 3)], false⟩⟩) (by decide +kernel)).1 (by decide +kernel)

/-- C26 for splines. -/
theorem C26_bspline (c : BSpline K V) {p : ℕ} (hwf : WellFormed c p) (hw : Wide c p)
    (hfst : FirstSpan c p) :
    ∃ r : NURBS K V, NURBS.ofBSpline c = ok r ∧ r.init = ok r ∧
      r.base = { c with periodic := false } ∧ r.weights = List.replicate c.ctrl.length 1 ∧
      r.toBSpline = ok { c with periodic := false } ∧
      ∀ t : K, knot c.knots p ≤ t → t ≤ knot c.knots c.ctrl.length →
        r.evaluate t = BSpline.evaluate { c with periodic := false } t := by
  have hi : ∃ r, NURBS.ofBSpline c = ok r := by
    unfold NURBS.ofBSpline NURBS.init
    rw [homogenize_eq (by simp)]
    exact ⟨_, rfl⟩
  obtain ⟨r, e⟩ := hi
  obtain ⟨S, e1, e2⟩ := (NURBS.init_iff _ _).1 e
  simp only [] at e1 e2
  refine ⟨r, e, S.init, e1, e2, ?_, ?_⟩
  · unfold NURBS.toBSpline
    rw [throwIf_false, ok_bind, e1]
    · rfl
    · rw [e2]
      rintro ⟨w, hw, h⟩
      rw [List.mem_replicate] at hw
      obtain ⟨n, hn⟩ := Nat.exists_eq_succ_of_ne_zero hw.1
      rw [hn, hw.2] at h
      simp [List.replicate_succ] at h
  · intro t h1 h2
    have hb : WellFormed r.base p := by
      rw [e1]; exact ⟨hwf.len, hwf.sdeg, hwf.ctrl, hwf.sorted, hwf.dom⟩
    rw [C24_nurbs_equal S.init hb (by rw [e1]; exact hw) (by rw [e1]; exact hfst) one_ne_zero
      (by rw [e2]; intro x hx; exact List.eq_of_mem_replicate hx) t
      (by rw [e1]; exact Or.inr ⟨h1, h2⟩), e1]

example := C26_bspline exSpline exSpline_wf exSpline_wide exSpline_first

theorem C26_nurbs {c : NURBS K V} (hc : c.init = ok c) :
    ((∀ x ∈ c.weights, ∀ y ∈ c.weights, x = y) →
      ∃ b, c.toBSpline = ok b ∧ b = { c.base with periodic := false } ∧
        (c.base.periodic = false → (∀ w ∈ c.weights, w ≠ 0) → ∀ p, WellFormed c.base p →
          Wide c.base p → FirstSpan c.base p → ∀ t, Admissible c.base p t →
            b.evaluate t = c.evaluate t)) ∧
    ((∃ x ∈ c.weights, ∃ y ∈ c.weights, x ≠ y) → c.toBSpline = Outcome.throw .invalidSetting) := by
  obtain ⟨S, -, -⟩ := (NURBS.init_iff _ _).1 hc
  have hl := S.len
  refine ⟨fun H => ?_, fun H => ?_⟩
  · refine ⟨{ c.base with periodic := false }, ?_, rfl, ?_⟩
    · unfold NURBS.toBSpline
      rw [throwIf_false]; · rfl
      rintro ⟨w, hw, h⟩
      cases hws : c.weights with
      | nil => rw [hws] at hw; simp at hw
      | cons a l =>
        rw [hws] at hw h H
        exact h (by rw [List.head?_cons, H w hw a (by simp)])
    · intro hp h0 p hwf hw hf t ht
      cases hws : c.weights with
      | nil => rw [hws] at hl; have := hwf.ctrl; simp at hl; rw [hl] at this; simp at this
      | cons a l =>
        rw [C24_nurbs_equal hc hwf hw hf (h0 a (by rw [hws]; simp))
          (fun x hx => H x hx a (by rw [hws]; simp)) t ht]
        rw [show ({ c.base with periodic := false } : BSpline K V) = c.base by
          cases h : c.base; rw [h] at hp; simp_all]
  · unfold NURBS.toBSpline
    rw [throwIf_true]; · rfl
    obtain ⟨x, hx, y, hy, hxy⟩ := H
    by_contra hcon
    push Not at hcon
    exact hxy (Option.some.inj ((hcon x hx).trans (hcon y hy).symm))

example := C26_nurbs exNurbs_init

/-- C26 fails for periodic curves: the flag is lost, hence the values outside the domain (and at
its end) differ. -/
theorem C26_periodic_refuted :
    let c : Bezier ℚ := Bezier.mk [0, 1, 3] true
    ∃ r : RationalBezier ℚ ℚ, RationalBezier.ofBezier ℚ c = ok r ∧
      r.evaluate (3 / 2) = ok (21 / 4) ∧ c.evaluate (3 / 2 : ℚ) = ok (5 / 4) :=
  ⟨RationalBezier.mk (Bezier.mk [0, 1, 3] false) [1, 1, 1]
    (Bezier.mk [(0, 1), (1, 1), (3, 1)] false), by decide +kernel, by decide +kernel,
    by decide +kernel⟩

/-! ### C27 -/

/-- C27: the sizes or the flags of the parts of a rational curve disagree. -/
def RatBad (c : RationalBezier K V) : Prop :=
  c.hom.ctrl.length ≠ c.base.ctrl.length ∨ c.hom.ctrl.length ≠ c.weights.length ∨
    c.hom.periodic ≠ c.base.periodic

/-- C27: inconsistent objects are refused with `invalid_setting_error` by every operation. -/
theorem C27_rational_bezier {c : RationalBezier K V} (h : RatBad c) (t : K) (i : ℕ) (P : V) (w : K) :
    c.evaluate t = Outcome.throw .invalidSetting ∧
    c.evaluateDerivative t = Outcome.throw .invalidSetting ∧
    c.evaluate2ndDerivative t = Outcome.throw .invalidSetting ∧
    c.setControlPoint i P = Outcome.throw .invalidSetting ∧
    c.setWeight i w = Outcome.throw .invalidSetting ∧
    c.elevateDegree = Outcome.throw .invalidSetting := by
  have hv : c.validate = Outcome.throw .invalidSetting := by
    unfold RationalBezier.validate
    by_cases h1 : c.hom.ctrl.length ≠ c.base.ctrl.length ∨ c.hom.ctrl.length ≠ c.weights.length
    · rw [throwIf_true h1]; rfl
    · rw [throwIf_false h1, ok_bind, throwIf_true]
      rcases h with h | h | h
      · exact absurd (Or.inl h) h1
      · exact absurd (Or.inr h) h1
      · exact h
  refine ⟨?_, ?_, ?_, ?_, ?_, ?_⟩
  · unfold RationalBezier.evaluate; rw [hv]; rfl
  · unfold RationalBezier.evaluateDerivative; rw [hv]; rfl
  · unfold RationalBezier.evaluate2ndDerivative; rw [hv]; rfl
  · unfold RationalBezier.setControlPoint; rw [hv]; rfl
  · unfold RationalBezier.setWeight; rw [hv]; rfl
  · unfold RationalBezier.elevateDegree; rw [hv]; rfl

example := C27_rational_bezier (c := RationalBezier.mk (Bezier.mk [(1 : ℚ), 2] false) [(1 : ℚ)]
  (Bezier.mk [((1 : ℚ), (1 : ℚ))] false)) (by unfold RatBad; decide) (1 / 3) 0 7 2

theorem rd_ne_throw {α : Type} (l : List α) (i : ℕ) (e : Err) : rd l i ≠ Outcome.throw e := by
  by_cases h : i < l.length
  · rw [rd_of_lt h]; simp
  · rw [rd_ub (by omega)]; simp

theorem wr_ne_throw {α : Type} (l : List α) (i : ℕ) (a : α) (e : Err) :
    wr l i a ≠ Outcome.throw e := by
  by_cases h : i < l.length
  · rw [wr_of_lt _ h]; simp
  · rw [wr_ub _ (by omega)]; simp

theorem bind_ne_throw {α β : Type} {x : Outcome α} {f : α → Outcome β} {e : Err}
    (hx : x ≠ Outcome.throw e) (hf : ∀ a, x = ok a → f a ≠ Outcome.throw e) :
    (x >>= f) ≠ Outcome.throw e := by
  cases x with
  | ok a => exact hf a rfl
  | throw e' =>
    intro h
    rw [throw_bind] at h
    cases h
    exact hx rfl
  | ub => intro h; exact nomatch h

theorem assert_ne_throw {P : Prop} [Decidable P] (e : Err) :
    Outcome.assert P ≠ Outcome.throw e := by
  by_cases h : P
  · rw [assert_true h]; simp
  · rw [assert_false h]; simp

theorem not_bad_validate {c : RationalBezier K V} (h : ¬ RatBad c) : c.validate = ok () := by
  unfold RatBad at h
  push Not at h
  unfold RationalBezier.validate
  rw [throwIf_false (by push Not; exact ⟨h.1, h.2.1⟩), ok_bind, throwIf_false (by simpa using h.2.2)]

theorem bezier_ne_throw (b : Bezier V) (t : K) (e : Err) : b.evaluate t ≠ Outcome.throw e := by
  by_cases h : b.ctrl = []
  · obtain ⟨l, per⟩ := b
    simp only [] at h
    subst h
    rw [C01_evaluate_empty]; simp
  · obtain ⟨x, hx⟩ := Bezier.evaluate_ok b h t
    rw [hx]; simp

/-- C27: conversely an exception of `evaluate`, `set_control_point` and `set_weight` is always
`invalid_setting_error` and always has this reason, whatever the state of the object. -/
theorem C27_only_reason {c : RationalBezier K V} {e : Err} :
    (∀ t, c.evaluate t = Outcome.throw e → e = .invalidSetting ∧ RatBad c) ∧
    (∀ i P, c.setControlPoint i P = Outcome.throw e → e = .invalidSetting ∧ RatBad c) ∧
    (∀ i w, c.setWeight i w = Outcome.throw e → e = .invalidSetting ∧ RatBad c) := by
  have key : ∀ {α : Type} (x : Outcome α), (RatBad c → x = Outcome.throw .invalidSetting) →
      (¬ RatBad c → x ≠ Outcome.throw e) → x = Outcome.throw e →
      e = .invalidSetting ∧ RatBad c := by
    intro α x h1 h2 h
    by_cases hb : RatBad c
    · rw [h1 hb] at h
      cases h
      exact ⟨rfl, hb⟩
    · exact absurd h (h2 hb)
  refine ⟨fun t => ?_, fun i P => ?_, fun i w => ?_⟩
  · refine key _ (fun h => (C27_rational_bezier h t 0 0 0).1) (fun h => ?_)
    unfold RationalBezier.evaluate
    rw [not_bad_validate h, ok_bind]
    refine bind_ne_throw (bezier_ne_throw _ _ _) (fun p _ => ?_)
    unfold quot0
    exact bind_ne_throw (assert_ne_throw _) (fun _ _ h => nomatch h)
  · refine key _ (fun h => (C27_rational_bezier h 0 i P 0).2.2.2.1) (fun h => ?_)
    unfold RationalBezier.setControlPoint
    rw [not_bad_validate h, ok_bind]
    refine bind_ne_throw (wr_ne_throw _ _ _ _) (fun _ _ => bind_ne_throw (rd_ne_throw _ _ _)
      (fun _ _ => bind_ne_throw (rd_ne_throw _ _ _) (fun _ _ => bind_ne_throw (wr_ne_throw _ _ _ _)
        (fun _ _ h => nomatch h))))
  · refine key _ (fun h => (C27_rational_bezier h 0 i 0 w).2.2.2.2.1) (fun h => ?_)
    unfold RationalBezier.setWeight
    rw [not_bad_validate h, ok_bind]
    refine bind_ne_throw (wr_ne_throw _ _ _ _) (fun _ _ => bind_ne_throw (rd_ne_throw _ _ _)
      (fun _ _ => bind_ne_throw (rd_ne_throw _ _ _) (fun _ _ => bind_ne_throw (wr_ne_throw _ _ _ _)
        (fun _ _ h => nomatch h))))

/-- C27: in particular an object with new control points or weights of another number, without a
call of `initialize()` in between, is refused. -/
theorem C27_stale_sizes {c : RationalBezier K V} (hc : c.init = ok c) (P : List V) (ws : List K)
    (h : P.length ≠ c.base.ctrl.length ∨ ws.length ≠ c.weights.length) (t : K) :
    RationalBezier.evaluate
      { c with base := { c.base with ctrl := P }, weights := ws } t
        = Outcome.throw .invalidSetting := by
  obtain ⟨S, -, -⟩ := (RationalBezier.init_iff _ _).1 hc
  have hl := S.len
  have hh : c.hom.ctrl.length = c.base.ctrl.length := by rw [S.hom]; exact homog_length hl
  refine (C27_rational_bezier ?_ t 0 0 0).1
  unfold RatBad
  simp only []
  rcases h with h | h
  · left; rw [hh]; exact h.symm
  · right; left; rw [hh, hl]; exact h.symm

example := C27_stale_sizes exRational_init [(1, 0), (0, 1)] [1, 2] (by decide) (1 / 3)

/-- C27: a consistent curve is never refused. -/
theorem C27_consistent_accepted {c : RationalBezier K V} (hc : c.init = ok c)
    (hne : c.base.ctrl ≠ []) (t : K) (e : Err) :
    c.evaluate t ≠ Outcome.throw e := by
  obtain ⟨S, -, -⟩ := (RationalBezier.init_iff _ _).1 hc
  obtain ⟨t', h1, -⟩ := bezier_folded c.base.periodic t
  rw [S.evaluate hne h1]
  split <;> simp

example := C27_consistent_accepted exRational_init (by decide) (1 / 3) .invalidSetting

theorem C27_nurbs {c : NURBS K V}
    (h : c.hom.ctrl.length ≠ c.base.ctrl.length ∨ c.hom.ctrl.length ≠ c.weights.length ∨
      c.hom.periodic ≠ c.base.periodic ∨ c.base.knots.length < c.base.ctrl.length + 1)
    (t : K) (i : ℕ) (P : V) (w eps : K) :
    c.evaluate t = Outcome.throw .invalidSetting ∧
    c.evaluateDerivative t = Outcome.throw .invalidSetting ∧
    c.evaluate2ndDerivative t = Outcome.throw .invalidSetting ∧
    c.setControlPoint i P = Outcome.throw .invalidSetting ∧
    c.setWeight i w = Outcome.throw .invalidSetting ∧
    c.insertKnot eps t i = Outcome.throw .invalidSetting := by
  have hv : c.validate = Outcome.throw .invalidSetting := by
    unfold NURBS.validate BSpline.validate
    by_cases h0 : c.base.degree < 0 ∨ (c.base.sdeg.isSome = true ∧
        c.base.sdeg.map (fun d => (d : ℤ)) ≠ some c.base.degree)
    · rw [throwIf_true h0]; rfl
    · rw [throwIf_false h0, ok_bind]
      by_cases h1 : c.hom.ctrl.length ≠ c.base.ctrl.length ∨ c.hom.ctrl.length ≠ c.weights.length
      · rw [throwIf_true h1]; rfl
      · rw [throwIf_false h1, ok_bind, throwIf_true]
        rcases h with h | h | h | h
        · exact absurd (Or.inl h) h1
        · exact absurd (Or.inr h) h1
        · exact h
        · refine absurd (Or.inl ?_) h0
          unfold BSpline.degree
          omega
  refine ⟨?_, ?_, ?_, ?_, ?_, ?_⟩
  · unfold NURBS.evaluate; rw [hv]; rfl
  · unfold NURBS.evaluateDerivative; rw [hv]; rfl
  · unfold NURBS.evaluate2ndDerivative; rw [hv]; rfl
  · unfold NURBS.setControlPoint; rw [hv]; rfl
  · unfold NURBS.setWeight; rw [hv]; rfl
  · unfold NURBS.insertKnot; rw [hv]; rfl

example := C27_nurbs (c := { exNurbs with weights := [1, 2] }) (by decide) (1 / 3) 1 (2, 2) 5 0

example : RatBad (RationalBezier.mk (Bezier.mk [(1 : ℚ), 2] false) [(1 : ℚ)]
    (Bezier.mk [((1 : ℚ), (1 : ℚ))] false)) := by
  unfold RatBad; decide

/-- What the size checks of a NURBS curve do not see: after `set_knots` with as many knots and no
`initialize()`, `evaluate` silently uses the old knots. -/
theorem C27_stale_knots_refuted :
    let c : NURBS ℚ ℚ := NURBS.mk (BSpline.mk [0, 1, 2] [0, 0, 1, 2, 2] false none) [1, 1, 1]
      (BSpline.mk [(0, 1), (1, 1), (2, 1)] [0, 0, 1, 2, 2] false none)
    let c' : NURBS ℚ ℚ := { c with base := { c.base with knots := [0, 0, 3, 4, 4] } }
    c.init = ok c ∧ c'.evaluate (1 / 2) = c.evaluate (1 / 2) ∧
      (c'.init >>= fun d => d.evaluate (1 / 2)) ≠ c'.evaluate (1 / 2) := by
  decide +kernel

end Nurbs

end NS.Props
