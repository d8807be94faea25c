import Verif.Proof.CoxDeBoor

/-!
# B-spline evaluators as values of the polynomial of a span
-/

set_option linter.unusedSectionVars false
set_option linter.unusedSimpArgs false

namespace NS.BSpline

open Outcome Spec Polynomial Finset

variable {K V : Type} [Field K] [LinearOrder K] [IsStrictOrderedRing K] [FloorRing K]
  [AddCommGroup V] [Module K V]

theorem deBoor_repr (c : BSpline K V) (t : K) (p n k : ℕ) (P Q : ℕ → V)
    (hn : p < n) (hdeg : p ≤ c.degree.toNat) (hpk : p ≤ k) (hs : c.knots.Pairwise (· ≤ ·))
    (hk : k + p + 1 ≤ c.knots.length) (hu : k + 1 < c.knots.length)
    (hw : tiny K < knot c.knots (k + 1) - knot c.knots k)
    (hlt : knot c.knots k < knot c.knots (k + 1))
    (hP : ∀ j ≤ p, P j = umb Q (lprod (knot c.knots) (k - p + j + 1) p)) :
    c.deBoor t p k (arr n P) = ok (umb Q (lin t ^ p)) := by
  rw [deBoor_eq c t p n k P hn hdeg hpk hs hk hu hw]
  congr 1
  rw [dB_final p _ _ _ (umb Q) (loc_mono hs hpk hk) (by
      have e1 : k - p + p = k := by omega
      have e2 : k - p + (p + 1) = k + 1 := by omega
      simp only [loc, e1, e2]; exact hlt)]
  · rw [lprod_const (t := t) (fun _ _ => rfl)]
  · intro j hj
    rw [hP j hj]
    congr 1
    apply lprod_congr
    intro i _
    simp only [loc]
    congr 1
    omega

theorem derivativeCoefficients_repr (c : BSpline K V) (n k N : ℕ) (P Q : ℕ → V)
    (hn : n + 1 < N) (hnk : n + 1 ≤ k) (hs : c.knots.Pairwise (· ≤ ·))
    (hk : k + n + 2 ≤ c.knots.length)
    (hlt : knot c.knots k < knot c.knots (k + 1))
    (hP : ∀ j ≤ n + 1, P j = umb Q (lprod (knot c.knots) (k - (n + 1) + j + 1) (n + 1))) :
    ∃ P', c.derivativeCoefficients (n + 1) k (arr N P) = ok (arr N P') ∧
      ∀ j ≤ n, P' j = umb (diffQ (K := K) (n + 1) Q) (lprod (knot c.knots) (k - n + j + 1) n) := by
  refine ⟨_, derivativeCoefficients_arr c (n + 1) k N P hn hnk hs (by omega) (by omega) hlt, ?_⟩
  intro j hj
  simp only [show j < n + 1 by omega, if_true]
  have h := diff_ctrl (knot c.knots)
    (fun i => umb Q (lprod (knot c.knots) (i + 1) (n + 1))) n (k - (n + 1) + j) Q rfl rfl (by
      have m1 := knot_mono hs (i := k - (n + 1) + j + 1) (j := k) (by omega) (by omega)
      have m2 := knot_mono hs (i := k + 1) (j := k - (n + 1) + j + n + 2) (by omega) (by omega)
      have : 0 < knot c.knots (k - (n + 1) + j + n + 2) - knot c.knots (k - (n + 1) + j + 1) := by
        linarith
      exact this.ne')
  rw [hP j (by omega), hP (j + 1) (by omega)]
  simp only [show k - (n + 1) + j + n + 2 = j + k + 1 by omega,
    show k - (n + 1) + j + 1 + 1 = k - (n + 1) + (j + 1) + 1 by omega,
    show k - (n + 1) + j + 1 = j + k + 1 - (n + 1) by omega] at h
  rw [show k - (n + 1) + (j + 1) + 1 = j + k + 1 - (n + 1) + 1 by omega,
    show k - (n + 1) + j + 1 = j + k + 1 - (n + 1) by omega, h]
  congr 2
  omega

/-- All that the evaluators need to know about the located span. -/
structure AtSpan (c : BSpline K V) (p : ℕ) (t : K) (k : ℕ) (Q : ℕ → V) : Prop where
  loc : c.locateSpan t = ok (k : ℤ)
  le : p ≤ k
  lt : k < c.ctrl.length
  ne : knot c.knots k < knot c.knots (k + 1)
  repr : Repr (knot c.knots) (fun i => c.ctrl.getD i 0) p k Q

theorem spanCtrl_repr {c : BSpline K V} {p k : ℕ} {t : K} {Q : ℕ → V} (h : AtSpan c p t k Q) :
    ∃ P, c.spanCtrl p k = ok (arr (p + 1) P) ∧
      ∀ j ≤ p, P j = umb Q (lprod (knot c.knots) (k - p + j + 1) p) := by
  refine ⟨_, spanCtrl_eq c p k h.le h.lt, ?_⟩
  intro j hj
  have := h.le
  exact h.repr (k - p + j) (by omega) (by omega)

theorem evaluate_of_span {c : BSpline K V} {p : ℕ} (hc : WellFormed c p) (hw : Wide c p)
    {t t' : K} (ht : c.wrap t = ok t') {k : ℕ} {Q : ℕ → V} (h : AtSpan c p t' k Q) :
    c.evaluate t = ok (umb Q (lin t' ^ p)) := by
  have hl := hc.len; have := h.lt
  obtain ⟨P, e, hP⟩ := spanCtrl_repr h
  unfold evaluate
  rw [validate_ok hc, ok_bind, ht, ok_bind, h.loc, ok_bind, degree_eq hc,
    assert_true (by omega), ok_bind]
  simp only [Int.toNat_natCast]
  rw [e, ok_bind]
  exact deBoor_repr c t' p (p + 1) k P Q (by omega) (by rw [degree_eq hc]; simp) h.le hc.sorted
    (by omega) (by omega) (hw k h.le h.lt h.ne) h.ne hP

theorem evaluateDerivative_of_span {c : BSpline K V} {p : ℕ} (hc : WellFormed c p) (hw : Wide c p)
    {t t' : K} (ht : c.wrap t = ok t') {k : ℕ} {Q : ℕ → V} (h : AtSpan c p t' k Q) :
    c.evaluateDerivative t = ok (umb (diffQ (K := K) p Q) (lin t' ^ (p - 1))) := by
  have hl := hc.len; have := h.lt; have hle := h.le
  unfold evaluateDerivative
  rw [validate_ok hc, ok_bind, ht, ok_bind, h.loc, ok_bind, degree_eq hc,
    assert_true (by omega), ok_bind]
  simp only [Int.toNat_natCast]
  rcases Nat.eq_zero_or_pos p with hp | hp
  · rw [if_pos hp, hp, umb_diffQ]
    simp
  · obtain ⟨n, rfl⟩ : ∃ n, p = n + 1 := ⟨p - 1, by omega⟩
    rw [if_neg (by omega)]
    obtain ⟨P, e, hP⟩ := spanCtrl_repr h
    obtain ⟨P', e', hP'⟩ := derivativeCoefficients_repr c n k (n + 1 + 1) P Q (by omega) (by omega)
      hc.sorted (by omega) h.ne hP
    rw [e, ok_bind, e', ok_bind]
    exact deBoor_repr c t' n (n + 1 + 1) k P' _ (by omega) (by rw [degree_eq hc]; simp)
      (by omega) hc.sorted (by omega) (by omega) (hw k h.le h.lt h.ne) h.ne hP'

theorem evaluate2ndDerivative_of_span {c : BSpline K V} {p : ℕ} (hc : WellFormed c p)
    (hw : Wide c p) {t t' : K} (ht : c.wrap t = ok t') {k : ℕ} {Q : ℕ → V}
    (h : AtSpan c p t' k Q) :
    c.evaluate2ndDerivative t
      = ok (umb (diffQ (K := K) (p - 1) (diffQ (K := K) p Q)) (lin t' ^ (p - 2))) := by
  have hl := hc.len; have := h.lt; have hle := h.le
  unfold evaluate2ndDerivative
  rw [validate_ok hc, ok_bind, ht, ok_bind, h.loc, ok_bind, degree_eq hc,
    assert_true (by omega), ok_bind]
  simp only [Int.toNat_natCast]
  by_cases hp : p ≤ 1
  · rw [if_pos hp, show p - 1 = 0 by omega, umb_diffQ]
    simp
  · obtain ⟨n, rfl⟩ : ∃ n, p = n + 2 := ⟨p - 2, by omega⟩
    rw [if_neg hp]
    obtain ⟨P, e, hP⟩ := spanCtrl_repr h
    obtain ⟨P', e', hP'⟩ := derivativeCoefficients_repr c (n + 1) k (n + 2 + 1) P Q (by omega)
      (by omega) hc.sorted (by omega) h.ne hP
    obtain ⟨P2, e2, hP2⟩ := derivativeCoefficients_repr c n k (n + 2 + 1) P' _ (by omega) (by omega)
      hc.sorted (by omega) h.ne hP'
    rw [e, ok_bind, e', ok_bind, show n + 2 - 1 = n + 1 by omega, e2, ok_bind]
    exact deBoor_repr c t' n (n + 2 + 1) k P2 _ (by omega) (by rw [degree_eq hc]; omega)
      (by omega) hc.sorted (by omega) (by omega) (hw k h.le h.lt h.ne) h.ne hP2

theorem wrap_nonperiodic {c : BSpline K V} (h : c.periodic = false) (t : K) : c.wrap t = ok t := by
  simp [wrap, h]

theorem wrap_periodic {c : BSpline K V} {p : ℕ} (hc : WellFormed c p) (h : c.periodic = true)
    (t : K) : c.wrap t = unwrapParameter (knot c.knots p) (knot c.knots c.ctrl.length) t := by
  simp only [wrap, h, if_true, lower_eq hc, upper_eq hc, ok_bind]

/-- A parameter of the domain, not at its end if periodic, is its own wrap. -/
theorem wrap_of_mem {c : BSpline K V} {p : ℕ} (hc : WellFormed c p) {t : K}
    (h1 : knot c.knots p ≤ t)
    (h2 : t < knot c.knots c.ctrl.length ∨ (c.periodic = false ∧ t ≤ knot c.knots c.ctrl.length)) :
    c.wrap t = ok t := by
  rcases Bool.eq_false_or_eq_true c.periodic with h | h
  · rw [wrap_periodic hc h]
    rcases h2 with h2 | h2
    · exact unwrapParameter_of_mem _ _ _ h1 h2
    · rw [h2.1] at h; cases h
  · exact wrap_nonperiodic h t

/-- Every parameter has a located span with a polynomial. -/
theorem exists_atSpan {c : BSpline K V} {p : ℕ} (hc : WellFormed c p) (t : K)
    (hf : FirstSpan c p ∨ knot c.knots p < t) (h1 : knot c.knots p ≤ t)
    (h2 : t ≤ knot c.knots c.ctrl.length) :
    ∃ k Q, AtSpan c p t k Q ∧ InSpan (knot c.knots) (knot c.knots c.ctrl.length) k t := by
  have := hc.len
  obtain ⟨k, a1, a2, a3, a4, a5⟩ := locateSpan_inSpan hc t hf h1 h2
  obtain ⟨Q, hQ⟩ := exists_repr hc.sorted (fun i => c.ctrl.getD i 0) a2 (by omega) a4
  exact ⟨k, Q, ⟨a1, a2, a3, a4, hQ⟩, a5⟩

/-- If a parameter is in a span, that span is the located one. -/
theorem atSpan_of_inSpan {c : BSpline K V} {p : ℕ} (hc : WellFormed c p) {t : K} {k : ℕ}
    (hf : FirstSpan c p ∨ knot c.knots p < t)
    (hpk : p ≤ k) (hk : k < c.ctrl.length)
    (hin : InSpan (knot c.knots) (knot c.knots c.ctrl.length) k t) {Q : ℕ → V}
    (hQ : Repr (knot c.knots) (fun i => c.ctrl.getD i 0) p k Q) : AtSpan c p t k Q := by
  have hl := hc.len
  have h1 : knot c.knots p ≤ t :=
    (knot_mono hc.sorted hpk (by omega)).trans hin.bounds.1
  have h2 : t ≤ knot c.knots c.ctrl.length :=
    hin.bounds.2.trans (knot_mono hc.sorted (by omega) (by omega))
  obtain ⟨k', a1, a2, a3, a4, a5⟩ := locateSpan_inSpan hc t hf h1 h2
  have : k' = k := hin.unique (monoTo_knot hc.sorted) a5 (by omega) (by omega)
  subst this
  exact ⟨a1, a2, a3, a4, hQ⟩

/-- Evaluation is the Cox-de Boor sum at the wrapped parameter. -/
theorem evaluate_eq {c : BSpline K V} {p : ℕ} (hc : WellFormed c p) (hw : Wide c p) {t t' : K}
    (ht : c.wrap t = ok t') (hf : FirstSpan c p ∨ knot c.knots p < t')
    (h1 : knot c.knots p ≤ t') (h2 : t' ≤ knot c.knots c.ctrl.length) :
    c.evaluate t = ok (bsplinePoint p c.knots c.ctrl t') := by
  obtain ⟨k, Q, hk, hin⟩ := exists_atSpan hc t' hf h1 h2
  rw [evaluate_of_span hc hw ht hk,
    bsplinePoint_eq hc.sorted hc.len hin hk.le hk.lt hk.repr]

end NS.BSpline
