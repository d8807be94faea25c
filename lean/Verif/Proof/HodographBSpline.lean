import Verif.Proof.InsertCurve

/-!
# Hodograph of a B-spline, and a Bézier curve as a B-spline
-/

set_option linter.unusedSectionVars false
set_option linter.unusedSimpArgs false

namespace NS.BSpline

open Outcome Spec Polynomial Finset

variable {K V : Type} [Field K] [LinearOrder K] [IsStrictOrderedRing K] [FloorRing K]
  [AddCommGroup V] [Module K V]

/-- Control points computed by the hodograph. -/
def hodoAt (u : ℕ → K) (p : ℕ) (P : ℕ → V) (i : ℕ) : V :=
  if u (i + p + 1) - u (i + 1) > 0 then
    (u (i + p + 1) - u (i + 1))⁻¹ • (((p : ℤ) : K) • (P (i + 1) - P i)) else 0

theorem hodographCtrl_eq {c : BSpline K V} {p : ℕ} (hc : WellFormed c p) :
    c.hodographCtrl = ok (arr (c.ctrl.length - 1)
      (hodoAt (knot c.knots) p (fun i => c.ctrl.getD i 0))) := by
  have hl := hc.len
  have hcl := hc.ctrl
  unfold hodographCtrl
  rw [replicate_eq_arr']
  have key := loop_eq (S := fun m => arr (c.ctrl.length - 1) (fun i =>
      if i < m then hodoAt (knot c.knots) p (fun i => c.ctrl.getD i 0) i else 0))
    (c.ctrl.length - 1) (fun i q => do
    let a ← rdI c.knots (i + c.degree + 1)
    let b ← rd c.knots (i + 1)
    let diff := a - b
    if diff > 0 then do
      let x ← rd c.ctrl (i + 1)
      let y ← rd c.ctrl i
      wr q i (diff⁻¹ • ((c.degree : K) • (x - y)))
    else wr q i 0) (by
      intro i hi
      rw [degree_eq hc, rdI_knot (i := i + p + 1) (by omega) (by omega), ok_bind,
        rd_knot (by omega), ok_bind]
      simp only []
      by_cases h : knot c.knots (i + p + 1) - knot c.knots (i + 1) > 0
      · rw [if_pos h, rd_ctrl (by omega), ok_bind, rd_ctrl (by omega), ok_bind]
        apply wr_arr _ hi
        intro j hj
        by_cases hj' : j = i
        · subst hj'
          rw [if_pos (by omega), if_pos rfl, hodoAt, if_pos h]
          rfl
        · have : j < i + 1 ↔ j < i := by omega
          simp only [this, hj', if_false]
      · rw [if_neg h]
        apply wr_arr _ hi
        intro j hj
        by_cases hj' : j = i
        · subst hj'
          rw [if_pos (by omega), if_pos rfl, hodoAt, if_neg h]
        · have : j < i + 1 ↔ j < i := by omega
          simp only [this, hj', if_false])
  have h0 : arr (c.ctrl.length - 1) (fun _ => (0 : V)) = arr (c.ctrl.length - 1) (fun i =>
      if i < 0 then hodoAt (knot c.knots) p (fun i => c.ctrl.getD i 0) i else 0) := by
    apply arr_congr; intro i _; simp
  rw [h0, key]
  congr 1
  apply arr_congr
  intro i hi
  rw [if_pos hi]

theorem hodograph_zero {c : BSpline K V} (hc : WellFormed c 0) (nrm : V → K) (eps : K) :
    c.hodograph nrm eps = ok (BSpline.mk (List.replicate c.ctrl.length 0) c.knots false
      (c.sdeg.map (fun d => d - 1))) := by
  unfold hodograph
  simp only [degree_eq hc]
  rfl

theorem hodograph_succ {c : BSpline K V} {p : ℕ} (hc : WellFormed c (p + 1)) (nrm : V → K)
    (eps : K) {per : Bool} (hper : c.hodographPeriodic nrm eps = ok per) :
    c.hodograph nrm eps = ok {
      ctrl := arr (c.ctrl.length - 1) (hodoAt (knot c.knots) (p + 1) (fun i => c.ctrl.getD i 0)),
      knots := arr (c.knots.length - 2) (fun i => knot c.knots (1 + i)),
      periodic := per, sdeg := c.sdeg.map (fun d => d - 1) } := by
  have hl := hc.len
  have hcl := hc.ctrl
  have hknots : c.knots = arr c.knots.length (knot c.knots) := eq_arr c.knots 0
  have e1 : seg c.knots 1 (c.knots.length - 2)
      = ok (arr (c.knots.length - 2) (fun i => knot c.knots (1 + i))) := by
    conv_lhs => rw [hknots, arr_length]
    exact seg_arr (by omega)
  unfold hodograph
  simp only [degree_eq hc]
  rw [if_neg (by omega), assert_true (by omega), ok_bind, e1, ok_bind, assert_true (by omega),
    ok_bind, hodographCtrl_eq hc, ok_bind, hper, ok_bind]
  rfl

/-- The object returned by the hodograph of a curve of positive degree. -/
structure IsHodograph (c h : BSpline K V) (p : ℕ) : Prop where
  wf : WellFormed h p
  lower : knot h.knots p = knot c.knots (p + 1)
  upper : knot h.knots h.ctrl.length = knot c.knots c.ctrl.length
  first : FirstSpan c (p + 1) → FirstSpan h p
  wide : Wide c (p + 1) → Wide h p
  span : ∀ x k Q, p + 1 ≤ k → k < c.ctrl.length →
    InSpan (knot c.knots) (knot c.knots c.ctrl.length) k x →
    Repr (knot c.knots) (fun i => c.ctrl.getD i 0) (p + 1) k Q →
    p ≤ k - 1 ∧ k - 1 < h.ctrl.length ∧ InSpan (knot h.knots) (knot h.knots h.ctrl.length) (k - 1) x ∧
      Repr (knot h.knots) (fun i => h.ctrl.getD i 0) p (k - 1) (diffQ (K := K) (p + 1) Q)

theorem hodograph_isHodograph {c : BSpline K V} {p : ℕ} (hc : WellFormed c (p + 1)) (per : Bool) :
    IsHodograph c {
      ctrl := arr (c.ctrl.length - 1) (hodoAt (knot c.knots) (p + 1) (fun i => c.ctrl.getD i 0)),
      knots := arr (c.knots.length - 2) (fun i => knot c.knots (1 + i)),
      periodic := per, sdeg := c.sdeg.map (fun d => d - 1) } p := by
  have hl := hc.len
  have hcl := hc.ctrl
  have hk : ∀ i, i < c.knots.length - 2 →
      knot (arr (c.knots.length - 2) (fun i => knot c.knots (1 + i))) i = knot c.knots (i + 1) := by
    intro i hi
    rw [knot_arr hi, add_comm]
  have hpw : (arr (c.knots.length - 2) (fun i => knot c.knots (1 + i))).Pairwise (· ≤ ·) := by
    rw [List.pairwise_iff_getElem]
    intro i j hi hj hij
    rw [arr_getElem, arr_getElem]
    simp only [arr_length] at hi hj
    exact knot_mono hc.sorted (by omega) (by omega)
  have elow : knot (arr (c.knots.length - 2) (fun i => knot c.knots (1 + i))) p
      = knot c.knots (p + 1) := hk p (by omega)
  have ehigh : knot (arr (c.knots.length - 2) (fun i => knot c.knots (1 + i)))
      (c.ctrl.length - 1) = knot c.knots c.ctrl.length := by
    rw [hk _ (by omega)]
    congr 1
    omega
  refine ⟨⟨by simp; omega, ?_, by simp; omega, hpw, ?_⟩, elow, by simpa using ehigh, ?_, ?_, ?_⟩
  · rcases hc.sdeg with h | h
    · left; simp [h]
    · right; simp [h]
  · simp only [arr_length]
    rw [elow, ehigh]
    exact hc.dom
  · intro h
    unfold FirstSpan at h ⊢
    simp only []
    rw [hk _ (by omega), hk _ (by omega)]
    exact h
  · intro h i hi1 hi2 hlt
    simp only [arr_length] at hi2 hlt ⊢
    rw [hk _ (by omega), hk _ (by omega)] at hlt ⊢
    exact h (i + 1) (by omega) (by omega) hlt
  · intro x k Q hpk hkn hin hQ
    refine ⟨by omega, by simp; omega, ?_, ?_⟩
    · simp only [arr_length]
      unfold InSpan at hin ⊢
      rw [ehigh, hk _ (by omega), hk _ (by omega), show k - 1 + 1 = k by omega]
      exact hin
    · intro i hi1 hi2
      simp only []
      rw [arr_getD _ _ _ _ (by omega)]
      have m1 := knot_mono hc.sorted (i := i + 1) (j := k) (by omega) (by omega)
      have m2 := knot_mono hc.sorted (i := k + 1) (j := i + (p + 1) + 1) (by omega) (by omega)
      have hlt := hin.lt
      have hpos : knot c.knots (i + (p + 1) + 1) - knot c.knots (i + 1) > 0 := by
        have : 0 < knot c.knots (i + (p + 1) + 1) - knot c.knots (i + 1) := by linarith
        exact this
      have := diff_ctrl (knot c.knots) (fun i => c.ctrl.getD i 0) p i Q (hQ i (by omega) (by omega))
        (hQ (i + 1) (by omega) (by omega)) hpos.ne'
      rw [hodoAt, if_pos hpos, smul_smul]
      rw [show lprod (knot (arr (c.knots.length - 2) (fun i => knot c.knots (1 + i)))) (i + 1) p
        = lprod (knot c.knots) (i + 2) p from ?_, ← this]
      · congr 1
        rw [div_eq_mul_inv, mul_comm]
        simp only [Int.cast_natCast]
        rfl
      · apply lprod_congr
        intro l hl
        rw [hk _ (by omega)]
        congr 1
        omega

/-- The hodograph evaluates to the derivative at a common wrapped parameter of the domain. -/
theorem IsHodograph.evaluate {c h : BSpline K V} {p : ℕ} (hc : WellFormed c (p + 1))
    (hw : Wide c (p + 1)) (H : IsHodograph c h p) {t t' : K}
    (ht : c.wrap t = ok t') (hth : h.wrap t = ok t')
    (hf : FirstSpan c (p + 1) ∨ knot c.knots (p + 1) < t')
    (h1 : knot c.knots (p + 1) ≤ t') (h2 : t' ≤ knot c.knots c.ctrl.length) :
    h.evaluate t = c.evaluateDerivative t := by
  obtain ⟨k, Q, hk, hin⟩ := exists_atSpan hc t' hf h1 h2
  obtain ⟨a1, a2, a3, a4⟩ := H.span t' k Q hk.le hk.lt hin hk.repr
  rw [evaluateDerivative_of_span hc hw ht hk]
  have := evaluate_of_span H.wf (H.wide hw) hth (atSpan_of_inSpan H.wf (by
    rw [H.lower]
    exact hf.imp H.first id) a1 a2 a3 a4)
  simpa using this

/-! ### Bézier curve as B-spline -/

theorem ofBezier_knot (c : Bezier V) {p : ℕ} (hp : c.ctrl.length = p + 1) (i : ℕ)
    (hi : i < 2 * p + 2) :
    knot (ofBezier K c).knots i = if i ≤ p then 0 else 1 := by
  unfold knot ofBezier
  simp only [hp]
  rw [List.getD_eq_getElem?_getD]
  by_cases h : i ≤ p
  · rw [List.getElem?_append_left (by simp; omega)]
    simp [h, show i < p + 1 by omega]
  · rw [List.getElem?_append_right (by simp; omega)]
    simp [h, show i - (p + 1) < p + 1 by omega]

theorem ofBezier_wf (c : Bezier V) {p : ℕ} (hp : c.ctrl.length = p + 1) :
    WellFormed (ofBezier K c) p := by
  refine ⟨?_, Or.inl rfl, ?_, ?_, ?_⟩
  · simp [ofBezier, hp]; omega
  · simp [ofBezier, hp]
  · unfold ofBezier
    simp only []
    rw [List.pairwise_append]
    refine ⟨List.pairwise_replicate.mpr (Or.inr le_rfl), List.pairwise_replicate.mpr (Or.inr le_rfl),
      ?_⟩
    intro a ha b hb
    rw [List.eq_of_mem_replicate ha, List.eq_of_mem_replicate hb]
    exact zero_le_one
  · rw [ofBezier_knot c hp p (by omega),
      show (ofBezier K c).ctrl.length = p + 1 from hp, ofBezier_knot c hp (p + 1) (by omega),
      if_pos le_rfl, if_neg (by omega)]
    exact zero_lt_one

theorem ofBezier_first (c : Bezier V) {p : ℕ} (hp : c.ctrl.length = p + 1) :
    FirstSpan (ofBezier K c) p := by
  unfold FirstSpan
  rw [ofBezier_knot c hp p (by omega), ofBezier_knot c hp (p + 1) (by omega),
      if_pos le_rfl, if_neg (by omega)]
  exact zero_lt_one

theorem ofBezier_wide (c : Bezier V) {p : ℕ} (hp : c.ctrl.length = p + 1) :
    Wide (ofBezier K c) p := by
  intro i hi1 hi2 _
  have hi2' : i < p + 1 := by
    have : (ofBezier K c).ctrl.length = p + 1 := hp
    omega
  have : i = p := by omega
  subst this
  rw [ofBezier_knot c hp i (by omega), ofBezier_knot c hp (i + 1) (by omega),
      if_pos le_rfl, if_neg (by omega)]
  rw [sub_zero, div_lt_one (by positivity)]
  norm_num

/-- The converted curve evaluates to the same Bernstein sum, for every parameter. -/
theorem ofBezier_evaluate (c : Bezier V) {p : ℕ} (hp : c.ctrl.length = p + 1) (t : K) :
    (ofBezier K c).evaluate t = ok (umb (fun i => c.ctrl.getD i 0) (lin t ^ p)) := by
  have hwf := ofBezier_wf (K := K) c hp
  have hlen : (ofBezier K c).ctrl.length = p + 1 := hp
  obtain ⟨k, a1, a2, a3, a4, _⟩ := locateSpan_spec hwf t (Or.inl (ofBezier_first c hp))
  have hk : k = p := by omega
  subst hk
  refine evaluate_of_span hwf (ofBezier_wide c hp) (wrap_nonperiodic rfl t) ⟨a1, a2, a3, a4, ?_⟩
  intro i hi1 hi2
  show c.ctrl.getD i 0 = _
  rw [lprod_split (knot (ofBezier K c).knots) (j := i + 1) (m := k) (a := k - i) (b := i)
    (j' := k + 1) (by omega) (by omega), lprod_const (t := (0 : K)), lprod_const (t := (1 : K)),
    lin_zero, lin_one, one_pow, one_mul, umb_X_pow]
  · intro l hl
    rw [ofBezier_knot c hp _ (by omega), if_neg (by omega)]
  · intro l hl
    rw [ofBezier_knot c hp _ (by omega), if_pos (by omega)]

end NS.BSpline
