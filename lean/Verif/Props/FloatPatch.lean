import Mathlib.Data.Rat.Floor
import Verif.Proof.FloatPatch
import Verif.Props.FloatWrap
import Verif.Props.RationalPatch

/-!
# Property C88: rounding errors of B-spline derivatives, NURBS, B-spline patches and rational patches

`R` is any rounding, `F`, `G` any choice of contractions.  `growth R` is about `1 + 9 u`, `diffGrowth R`
about `1 + 4 u` with `u = R.unit`.
-/

set_option linter.unusedSectionVars false

namespace NS.Fl

open Outcome Finset Spec

section General

variable {K ι : Type} [Field K] [LinearOrder K] [IsStrictOrderedRing K] [FloorRing K]

/-- The bound of the rational evaluators: numerator and denominator are off by `a` and `b` relative to
the size of the denominator. -/
def quotBound (R : Rounding K) (a b : K) : K := (1 + R.unit) * (1 + (a + b) / (1 - b)) - 1

theorem quotient_err (R : Rounding K) {x : Option ι → K} {W a b : K} (hW : 0 < W)
    (hw : |x none - W| ≤ b * W) (hb : b < 1) :
    ∃ q, quotient R x = ok q ∧ ∀ i N M, |N| ≤ M * W → |x (some i) - N| ≤ a * (M * W) →
      |q i - N / W| ≤ quotBound R a b * M := by
  have hne : x none ≠ 0 := by
    intro h
    rw [h, zero_sub, abs_neg, abs_of_pos hW] at hw
    nlinarith
  refine ⟨fun i => R.rnd (x (some i) / x none), ?_, fun i N M hN hx => ?_⟩
  · unfold quotient
    rw [assert_true hne, ok_bind]
    rfl
  · have h := (quot_err R (a := 1 + a) (b := 1 + b) hW hN (by simpa using hx) (by simpa using hw)
      (by linarith)).2
    refine le_trans h (le_of_eq ?_)
    unfold quotBound
    congr 2
    rw [show (1 + a - 1 + (1 + b - 1)) = a + b by ring, show 2 - (1 + b) = 1 - b by ring]

theorem dB_sub (p : ℕ) (v ts : ℕ → K) (c d : ℕ → ι → K) (r : ℕ) :
    ∀ j, dB p v ts (fun i => c i - d i) r j = dB p v ts c r j - dB p v ts d r j := by
  induction r with
  | zero => intro j; rfl
  | succ r ih =>
    intro j
    rw [dB, dB, dB, ih, ih]
    module

/-- The rounded derivative of a spline whose control points are perturbations of `A`. -/
theorem bspline_deriv_axis (R : Rounding K) (hu1 : R.unit < 1) (F : ℕ → ℕ → ι → Fuse)
    {c : BSpline K (ι → K)} {p : ℕ} (hc : BSpline.WellFormed c (p + 1)) (hper : c.periodic = false)
    (hw : FlWide R c (p + 1)) (A : List (ι → K)) (hA : A.length = c.ctrl.length) {t : K}
    (hf : BSpline.FirstSpan c (p + 1) ∨ knot c.knots (p + 1) < t)
    (h1 : knot c.knots (p + 1) ≤ t) (h2 : t ≤ knot c.knots c.ctrl.length) :
    ∃ q e, bsplineDerivative R F c t = ok q ∧ (BSpline.mk A c.knots c.periodic c.sdeg).evaluateDerivative t
        = ok e ∧ ∀ i M N,
      (∀ j, j + 1 < c.ctrl.length → |((p + 1 : ℕ) : K) * (A.getD (j + 1) 0 i - A.getD j 0 i)|
        ≤ M * (knot c.knots (j + p + 2) - knot c.knots (j + 1))) →
      (∀ j, j + 1 < c.ctrl.length → |((p + 1 : ℕ) : K) * ((c.ctrl.getD (j + 1) 0 i - c.ctrl.getD j 0 i)
          - (A.getD (j + 1) 0 i - A.getD j 0 i))|
        ≤ N * (knot c.knots (j + p + 2) - knot c.knots (j + 1))) →
      |q i - e i| ≤ (diffGrowth R * growth R ^ p - 1) * (M + N) + N ∧ |e i| ≤ M := by
  have hl := hc.len
  have hn := hc.ctrl
  have wrap : bsplineWrap R c t = ok t := by simp [bsplineWrap, hper]
  obtain ⟨k, Q, hk, hin⟩ := BSpline.exists_atSpan hc t hf h1 h2
  have hlt := hk.lt
  have hle := hk.le
  have hwk := hw k hk.le hk.lt hk.ne
  have ht0 : 0 ≤ BSpline.tiny K := by unfold BSpline.tiny; positivity
  have mono : ∀ i < p + 1, knot c.knots (k + 1) - knot c.knots k
      ≤ knot c.knots (i + k + 1) - knot c.knots (i + k + 1 - (p + 1)) := by
    intro i hi
    have m1 := BSpline.knot_mono hc.sorted (i := i + k + 1 - (p + 1)) (j := k) (by omega) (by omega)
    have m2 := BSpline.knot_mono hc.sorted (i := k + 1) (j := i + k + 1) (by omega) (by omega)
    linarith
  have hne := hk.ne
  have pos : ∀ i < p + 1, 0 < knot c.knots (i + k + 1) - knot c.knots (i + k + 1 - (p + 1)) :=
    fun i hi => lt_of_lt_of_le (by linarith) (mono i hi)
  have rpos : ∀ i < p + 1,
      0 < R.rnd (knot c.knots (i + k + 1) - knot c.knots (i + k + 1 - (p + 1))) :=
    fun i hi => lt_of_lt_of_le (lt_of_le_of_lt (R.nonneg ht0) hwk) (R.mono _ _ (mono i hi))
  set P : ℕ → ι → K := fun j => c.ctrl.getD (k - (p + 1) + j) 0 with hP
  set P0 : ℕ → ι → K := fun j => A.getD (k - (p + 1) + j) 0 with hP0
  set D0 : ℕ → ι → K := fun i => if i < p + 1 then (((p + 1 : ℕ) : K)
      / (knot c.knots (i + k + 1) - knot c.knots (i + k + 1 - (p + 1)))) • (P0 (i + 1) - P0 i)
      else P0 i with hD0
  set D : ℕ → ι → K := fun i => if i < p + 1 then (((p + 1 : ℕ) : K)
      / (knot c.knots (i + k + 1) - knot c.knots (i + k + 1 - (p + 1)))) • (P (i + 1) - P i)
      else P i with hD
  set E : ℕ → ι → K := fun i => if i < p + 1 then
      fun l => R.rnd (R.rnd (((p + 1 : ℕ) : K)
        / R.rnd (knot c.knots (i + k + 1) - knot c.knots (i + k + 1 - (p + 1))))
          * R.rnd (P (i + 1) l - P i l))
      else P i with hE
  have e1 : bsplineDerivative R F c t
      = ok (tri (stepB R F p (BSpline.loc (knot c.knots) k p) t) E p p) := by
    unfold bsplineDerivative
    rw [BSpline.validate_ok hc, ok_bind, wrap, ok_bind, hk.loc, ok_bind, BSpline.degree_eq hc,
      assert_true (by omega), ok_bind]
    simp only [Int.toNat_natCast]
    rw [if_neg (by omega), BSpline.spanCtrl_eq c (p + 1) k hk.le hk.lt, ok_bind,
      bsplineDerivCoef_arr R c (p + 1) k (p + 1 + 1) _ (by omega) hk.le (by omega) rpos, ok_bind]
    exact bsplineDeBoor_eq R F c t p (p + 1 + 1) k _ (by omega)
      (by rw [BSpline.degree_eq hc]; simp) (by omega) (by omega)
  set c0 : BSpline K (ι → K) := BSpline.mk A c.knots c.periodic c.sdeg with hc0
  have hwf0 : BSpline.WellFormed c0 (p + 1) := ⟨by rw [hc0, hA]; exact hc.len, hc.sdeg,
    by rw [hc0, hA]; exact hc.ctrl, hc.sorted, by rw [hc0]; simp only [hA]; exact hc.dom⟩
  have hloc0 : c0.locateSpan t = ok (k : ℤ) := by
    rw [← hk.loc, hc0]
    unfold BSpline.locateSpan BSpline.degree
    simp only [hA]
  have hkn : c0.knots.length = c.knots.length := rfl
  have e2 : c0.evaluateDerivative t
      = ok (dB p (BSpline.loc (knot c.knots) k p) (fun _ => t) D0 p p) := by
    unfold BSpline.evaluateDerivative
    rw [BSpline.validate_ok hwf0, ok_bind, show c0.wrap t = ok t by simp [BSpline.wrap, hc0, hper],
      ok_bind, hloc0, ok_bind, BSpline.degree_eq hwf0, assert_true (by omega), ok_bind]
    simp only [Int.toNat_natCast]
    rw [if_neg (by omega), BSpline.spanCtrl_eq c0 (p + 1) k hk.le (by rw [hc0, hA]; exact hk.lt), ok_bind,
      BSpline.derivativeCoefficients_arr c0 (p + 1) k (p + 1 + 1) _ (by omega) hk.le hc.sorted
        (by omega) (by omega) hk.ne, ok_bind]
    exact BSpline.deBoor_eq c0 t p (p + 1 + 1) k _ (by omega)
      (by rw [BSpline.degree_eq hwf0]; simp) (by omega) hc.sorted (by omega) (by omega)
      (hw.wide k hk.le hk.lt hk.ne)
  refine ⟨_, _, e1, e2, fun i M N hM hN => ?_⟩
  have hb : knot c.knots k ≤ t ∧ t ≤ knot c.knots (k + 1) := by
    unfold InSpan at hin
    split_ifs at hin with ht
    · rw [hin.2]; exact ⟨by rw [ht, ← hin.2]; exact hin.1.le, h2⟩
    · exact ⟨hin.1, hin.2.le⟩
  have f1 : k - p + p = k := by omega
  have f2 : k - p + (p + 1) = k + 1 := by omega
  have bound0 : ∀ j ≤ p, |D j i - D0 j i| ≤ N := by
    intro j hj
    have hp := pos j (by omega)
    have := hN (k - (p + 1) + j) (by omega)
    rw [show k - (p + 1) + j + p + 2 = j + k + 1 by omega,
      show k - (p + 1) + j + 1 = j + k + 1 - (p + 1) by omega] at this
    simp only [hD, hD0, if_pos (by omega : j < p + 1), Pi.smul_apply, Pi.sub_apply, smul_eq_mul]
    rw [← mul_sub, div_mul_eq_mul_div, abs_div, abs_of_pos hp, div_le_iff₀ hp]
    simp only [hP, hP0]
    rwa [show k - (p + 1) + (j + 1) = j + k + 1 - (p + 1) by omega]
  have bound1 : ∀ j ≤ p, |D0 j i| ≤ M := by
    intro j hj
    have hp := pos j (by omega)
    have := hM (k - (p + 1) + j) (by omega)
    rw [show k - (p + 1) + j + p + 2 = j + k + 1 by omega,
      show k - (p + 1) + j + 1 = j + k + 1 - (p + 1) by omega] at this
    simp only [hD0, if_pos (by omega : j < p + 1), Pi.smul_apply, Pi.sub_apply, smul_eq_mul]
    rw [div_mul_eq_mul_div, abs_div, abs_of_pos hp, div_le_iff₀ hp]
    simp only [hP0]
    rwa [show k - (p + 1) + (j + 1) = j + k + 1 - (p + 1) by omega]
  have bound : ∀ j ≤ p, |D j i| ≤ M + N := by
    intro j hj
    have := abs_add_le (D0 j i) (D j i - D0 j i)
    rw [add_sub_cancel] at this
    linarith [bound0 j hj, bound1 j hj]
  have m0 := BSpline.loc_mono hc.sorted (k := k) (p := p) (by omega) (by omega)
  have m1 : BSpline.loc (knot c.knots) k p p ≤ t := by simp only [BSpline.loc, f1]; exact hb.1
  have m2 : t ≤ BSpline.loc (knot c.knots) k p (p + 1) := by simp only [BSpline.loc, f2]; exact hb.2
  have m3 : R.rnd (BSpline.tiny K) < R.rnd (BSpline.loc (knot c.knots) k p (p + 1)
      - BSpline.loc (knot c.knots) k p p) := by simp only [BSpline.loc, f1, f2]; exact hwk
  have r1 := (triB_err_pert R hu1 F p _ t m0 m1 m2 m3 D E (M + N) (diffGrowth R)
    (one_le_diffGrowth R hu1) i bound (fun j hj => by
      have hDj : D j i = ((p + 1 : ℕ) : K)
          / (knot c.knots (j + k + 1) - knot c.knots (j + k + 1 - (p + 1))) * (P (j + 1) i - P j i) := by
        simp only [hD, if_pos (by omega : j < p + 1), Pi.smul_apply, Pi.sub_apply, smul_eq_mul]
      have hb := bound j hj
      rw [hDj] at hb ⊢
      simp only [hE, if_pos (by omega : j < p + 1)]
      refine le_trans (diff_coef_err R hu1 (pos j (by omega))) ?_
      exact mul_le_mul_of_nonneg_left hb (by have := one_le_diffGrowth R hu1; linarith))
    p le_rfl p le_rfl le_rfl).1
  have r2 := (triB_err_pert R hu1 F p _ t m0 m1 m2 m3 (fun j => D j - D0 j) (fun j => D j - D0 j) N 1
    le_rfl i bound0 (fun j _ => by simp) p le_rfl p le_rfl le_rfl).2
  have r3 := (triB_err_pert R hu1 F p _ t m0 m1 m2 m3 D0 D0 M 1
    le_rfl i bound1 (fun j _ => by simp) p le_rfl p le_rfl le_rfl).2
  refine ⟨?_, r3⟩
  rw [dB_sub, Pi.sub_apply] at r2
  have := abs_add_le (tri (stepB R F p (BSpline.loc (knot c.knots) k p) t) E p p i
      - dB p (BSpline.loc (knot c.knots) k p) (fun _ => t) D p p i)
    (dB p (BSpline.loc (knot c.knots) k p) (fun _ => t) D p p i
      - dB p (BSpline.loc (knot c.knots) k p) (fun _ => t) D0 p p i)
  rw [sub_add_sub_cancel] at this
  linarith

/-- C88: the derivative of a B-spline of degree `p + 1`; `M` bounds the control points
`(p + 1) (P_{j+1} - P_j) / (u_{j+p+2} - u_{j+1})` of the exact derivative. -/
theorem C88_bspline_derivative_error (R : Rounding K) (hu1 : R.unit < 1) (F : ℕ → ℕ → ι → Fuse)
    {c : BSpline K (ι → K)} {p : ℕ} (hc : BSpline.WellFormed c (p + 1)) (hper : c.periodic = false)
    (hw : FlWide R c (p + 1)) {t : K} (hf : BSpline.FirstSpan c (p + 1) ∨ knot c.knots (p + 1) < t)
    (h1 : knot c.knots (p + 1) ≤ t) (h2 : t ≤ knot c.knots c.ctrl.length) :
    ∃ q e, bsplineDerivative R F c t = ok q ∧ c.evaluateDerivative t = ok e ∧ ∀ i M,
      (∀ j, j + 1 < c.ctrl.length → |((p + 1 : ℕ) : K) * (c.ctrl.getD (j + 1) 0 i - c.ctrl.getD j 0 i)|
        ≤ M * (knot c.knots (j + p + 2) - knot c.knots (j + 1))) →
      |q i - e i| ≤ (diffGrowth R * growth R ^ p - 1) * M := by
  obtain ⟨q, e, h3, h4, H⟩ := bspline_deriv_axis R hu1 F hc hper hw c.ctrl rfl hf h1 h2
  refine ⟨q, e, h3, h4, fun i M hM => ?_⟩
  have := (H i M 0 hM (fun j _ => by simp)).1
  simpa using this

/-- The homogeneous value of a NURBS curve: the weight `W` and the coordinates before the division. -/
theorem nurbs_hom (R : Rounding K) (hu1 : R.unit < 1) (F : ℕ → ℕ → Option ι → Fuse)
    {c : BSpline K (ι → K)} {p : ℕ} (hc : BSpline.WellFormed c p) (hper : c.periodic = false)
    (hw : FlWide R c p) {w : List K} (hlen : c.ctrl.length = w.length) {lo hi : K} (hlo : 0 < lo)
    (hwt : ∀ x ∈ w, lo ≤ x ∧ x ≤ hi) {t : K}
    (hf : BSpline.FirstSpan c p ∨ knot c.knots p < t) (h1 : knot c.knots p ≤ t)
    (h2 : t ≤ knot c.knots c.ctrl.length) :
    ∃ x, bsplineEvaluate R F (BSpline.mk (homPts R c.ctrl w) c.knots c.periodic c.sdeg) t = ok x ∧
      lo ≤ BSplinePatch.bsum p c.knots c.ctrl.length (fun j => w.getD j 0) t ∧
      |x none - BSplinePatch.bsum p c.knots c.ctrl.length (fun j => w.getD j 0) t|
        ≤ (growth R ^ p - 1) * (hi / lo) * BSplinePatch.bsum p c.knots c.ctrl.length (fun j => w.getD j 0) t ∧
      ∀ i M, (∀ x ∈ c.ctrl, |x i| ≤ M) →
        |BSplinePatch.bsum p c.knots c.ctrl.length (fun j => w.getD j 0 * c.ctrl.getD j 0 i) t|
          ≤ M * BSplinePatch.bsum p c.knots c.ctrl.length (fun j => w.getD j 0) t ∧
        |x (some i) - BSplinePatch.bsum p c.knots c.ctrl.length (fun j => w.getD j 0 * c.ctrl.getD j 0 i) t|
          ≤ ((1 + R.unit) * growth R ^ p - 1) * (hi / lo)
            * (M * BSplinePatch.bsum p c.knots c.ctrl.length (fun j => w.getD j 0) t) := by
  have hu := R.unit_nonneg
  have hl := hc.len
  have hn := hc.ctrl
  set n := c.ctrl.length with hnd
  have hQl : (homPts R c.ctrl w).length = n := homPts_length R _ _ hlen
  set h : BSpline K (Option ι → K) := BSpline.mk (homPts R c.ctrl w) c.knots c.periodic c.sdeg with hh
  have hhl : h.ctrl.length = n := hQl
  have hwf : BSpline.WellFormed h p := ⟨by rw [hhl]; exact hc.len, hc.sdeg, by rw [hhl]; exact hc.ctrl,
    hc.sorted, by rw [hhl]; exact hc.dom⟩
  have hwide : FlWide R h p := by
    intro j j1 j2 j3
    rw [hhl] at j2
    exact hw j j1 j2 j3
  have hin : BSplinePatch.InDom c.knots n p t := ⟨h1, h2, hf⟩
  obtain ⟨x, ex, H⟩ := bspline_axis R hu1 F hwf hwide (t := t) (t' := t)
    (by simp [bsplineWrap, hh, hper]) hf h1 (by rw [hhl]; exact h2)
  rw [hhl] at H
  have low := fun A m hm => bsum_lower (u := c.knots) (n := n) (p := p) hl hn hc.sorted hc.dom
    hw.wide hin A m hm
  have hwj : ∀ j < n, lo ≤ w.getD j 0 ∧ w.getD j 0 ≤ hi := by
    intro j hj
    rw [getD_of_lt _ (by omega)]
    exact hwt _ (List.getElem_mem _)
  set W := BSplinePatch.bsum p c.knots n (fun j => w.getD j 0) t with hW
  have hWlo : lo ≤ W := low _ lo fun j hj => (hwj j hj).1
  have hWpos : 0 < W := lt_of_lt_of_le hlo hWlo
  have h0 : (0 : ℕ) < n := by omega
  have hhi : 0 < hi := lt_of_lt_of_le hlo (le_trans (hwj 0 h0).1 (hwj 0 h0).2)
  have hhiW : hi ≤ hi / lo * W := by
    rw [div_mul_eq_mul_div, le_div_iff₀ hlo]
    exact mul_le_mul_of_nonneg_left hWlo hhi.le
  have hG : 1 ≤ growth R ^ p := one_le_pow₀ (one_le_growth R hu1)
  have en := (H none 1 hi (fun j => w.getD j 0) le_rfl
    (fun j hj => by rw [abs_of_pos (lt_of_lt_of_le hlo (hwj j hj).1)]; exact (hwj j hj).2)
    (fun j hj => by rw [homPts_none R _ _ hlen]; simp)).1
  rw [one_mul] at en
  have en' : |x none - W| ≤ (growth R ^ p - 1) * (hi / lo) * W := by
    refine le_trans en ?_
    rw [mul_assoc]
    exact mul_le_mul_of_nonneg_left hhiW (by linarith)
  refine ⟨x, ex, hWlo, en', fun i M hM => ?_⟩
  · have hPj : ∀ j < n, |c.ctrl.getD j 0 i| ≤ M := by
      intro j hj
      rw [getD_of_lt _ (by omega)]
      exact hM _ (List.getElem_mem _)
    have hM0 : 0 ≤ M := le_trans (abs_nonneg _) (hPj 0 h0)
    set N := BSplinePatch.bsum p c.knots n (fun j => w.getD j 0 * c.ctrl.getD j 0 i) t with hN
    have hNb : |N| ≤ M * W := by
      have b : ∀ j < n, |w.getD j 0 * c.ctrl.getD j 0 i| ≤ M * w.getD j 0 := by
        intro j hj
        have := hwj j hj
        rw [abs_mul, abs_of_pos (lt_of_lt_of_le hlo this.1), mul_comm]
        exact mul_le_mul_of_nonneg_right (hPj j hj) (by linarith)
      have l1 := low (fun j => M * w.getD j 0 - w.getD j 0 * c.ctrl.getD j 0 i) 0
        (fun j hj => by have := (abs_le.1 (b j hj)).2; linarith)
      have l2 := low (fun j => M * w.getD j 0 - (-1) * (w.getD j 0 * c.ctrl.getD j 0 i)) 0
        (fun j hj => by have := (abs_le.1 (b j hj)).1; linarith)
      rw [bsum_sub, bsum_mul] at l1 l2
      rw [bsum_mul] at l2
      rw [abs_le]
      constructor <;> linarith
    have es := (H (some i) (1 + R.unit) (M * hi) (fun j => w.getD j 0 * c.ctrl.getD j 0 i)
      (by linarith)
      (fun j hj => by
        have := hwj j hj
        rw [abs_mul, abs_of_pos (lt_of_lt_of_le hlo this.1), mul_comm]
        exact mul_le_mul (hPj j hj) this.2 (by linarith) hM0)
      (fun j hj => by
        have := hwj j hj
        rw [homPts_some R _ _ hlen, mul_comm (w.getD j 0), add_sub_cancel_left]
        refine le_trans (R.near _) (mul_le_mul_of_nonneg_left ?_ hu)
        rw [abs_mul, abs_of_pos (lt_of_lt_of_le hlo this.1)]
        exact mul_le_mul (hPj j hj) this.2 (by linarith) hM0)).1
    have hg1 : 1 ≤ (1 + R.unit) * growth R ^ p := by nlinarith
    have es' : |x (some i) - N| ≤ ((1 + R.unit) * growth R ^ p - 1) * (hi / lo) * (M * W) := by
      refine le_trans es ?_
      rw [mul_assoc]
      refine mul_le_mul_of_nonneg_left ?_ (by linarith)
      have := mul_le_mul_of_nonneg_left hhiW hM0
      linarith
    exact ⟨hNb, es'⟩

/-- C88: NURBS with weights between `lo` and `hi`, `0 < lo`.  The bound grows with the ratio of the
weights: de Boor's coefficients have small absolute errors, not small relative ones. -/
theorem C88_nurbs_error (R : Rounding K) (hu1 : R.unit < 1) (F : ℕ → ℕ → Option ι → Fuse)
    {c : BSpline K (ι → K)} {p : ℕ} (hc : BSpline.WellFormed c p) (hper : c.periodic = false)
    (hw : FlWide R c p) {w : List K} (hlen : c.ctrl.length = w.length) {lo hi : K} (hlo : 0 < lo)
    (hwt : ∀ x ∈ w, lo ≤ x ∧ x ≤ hi) (hcond : (growth R ^ p - 1) * (hi / lo) < 1) {t : K}
    (hf : BSpline.FirstSpan c p ∨ knot c.knots p < t) (h1 : knot c.knots p ≤ t)
    (h2 : t ≤ knot c.knots c.ctrl.length) :
    ∃ q, nurbsEvaluate R F c w t = ok q ∧ ∀ i M, (∀ x ∈ c.ctrl, |x i| ≤ M) →
      |q i - ratBSplinePoint p c.knots c.ctrl w t i|
        ≤ quotBound R (((1 + R.unit) * growth R ^ p - 1) * (hi / lo))
            ((growth R ^ p - 1) * (hi / lo)) * M := by
  have hlen' := hc.len
  obtain ⟨x, ex, hWlo, en, H⟩ := nurbs_hom R hu1 F hc hper hw hlen hlo hwt hf h1 h2
  obtain ⟨q, eq, hq⟩ := quotient_err R (a := ((1 + R.unit) * growth R ^ p - 1) * (hi / lo))
    (lt_of_lt_of_le hlo hWlo) en hcond
  refine ⟨q, ?_, fun i M hM => ?_⟩
  · unfold nurbsEvaluate
    rw [homogenize_eq R _ _ hlen, ok_bind, BSpline.validate_ok hc, ok_bind, ex, ok_bind, eq]
  · obtain ⟨hNb, es⟩ := H i M hM
    have ep : ratBSplinePoint p c.knots c.ctrl w t i
        = BSplinePatch.bsum p c.knots c.ctrl.length (fun j => w.getD j 0 * c.ctrl.getD j 0 i) t
          / BSplinePatch.bsum p c.knots c.ctrl.length (fun j => w.getD j 0) t := by
      rw [ratBSplinePoint, ratBSplineDen, div_eq_inv_mul]
      unfold BSplinePatch.bsum
      simp only [Pi.smul_apply, smul_eq_mul, Finset.sum_apply, ← hlen, mul_assoc]
    rw [ep]
    exact hq i _ M hNb es

/-- C88: evaluating a B-spline patch of degrees `du`, `dv` on its domain. -/
theorem C88_bspline_patch_error (R : Rounding K) (hu1 : R.unit < 1) (F : ℕ → ℕ → ℕ → ι → Fuse)
    (G : ℕ → ℕ → ι → Fuse) {p r : BSplinePatch K (ι → K)} {m n du dv : ℕ} (hp : p.Valid m n du dv)
    (hr : p.init = ok r) (pu : p.perU = false) (pv : p.perV = false) (wu : FlWideOn R p.knotsU m du)
    (wv : FlWideOn R p.knotsV n dv) {u v : K} (hu : BSplinePatch.InDom p.knotsU m du u)
    (hv : BSplinePatch.InDom p.knotsV n dv v) :
    ∃ q, bsplinePatchEvaluate R F G r u v = ok q ∧ ∀ i M, (∀ x ∈ p.grid, |x i| ≤ M) →
      |q i - bsplineSurface du dv m n p.knotsU p.knotsV p.grid u v i|
        ≤ (growth R ^ (du + dv) - 1) * M := by
  have hrd := hp.ready hr
  rw [hp.init, ok.injEq] at hr
  subst hr
  obtain ⟨q, hq, H⟩ := bspline_patch R hu1 F G hrd pu pv wu wv hu hv
  refine ⟨q, hq, fun i M hM => ?_⟩
  have hb : ∀ a < m, ∀ b < n, |p.pts n a b i| ≤ M := by
    intro a ha b hb
    have hk : a * n + b < p.grid.length := by rw [hp.grid]; exact lin_lt ha hb
    rw [BSplinePatch.pts, gridPoint, getD_of_lt _ hk]
    exact hM _ (List.getElem_mem _)
  have h := (H i 1 M (fun a b => p.pts n a b i) le_rfl hb (fun a _ b _ => by
    rw [sub_self, zero_mul]; exact le_of_eq (by simp [BSplinePatch.pts]))).1
  rw [one_mul, bsum2_eq] at h
  refine le_trans (le_of_eq ?_) h
  unfold bsplineSurface
  simp only [Finset.sum_apply, Pi.smul_apply, smul_eq_mul]
  rfl

/-- C88: rational Bézier patches with positive weights on the unit square; the factor is about
`(6 (m + n) + 2) u`. -/
theorem C88_rational_patch_error (R : Rounding K) (F : ℕ → ℕ → ℕ → Option ι → Fuse)
    (G : ℕ → ℕ → Option ι → Fuse) (p : BezierPatch (ι → K)) (m n : ℕ) (hp : p.WellFormed m n)
    (pu : p.perU = false) (pv : p.perV = false) {w : List K} (hlen : p.grid.length = w.length)
    (hw : ∀ x ∈ w, 0 < x) (hu2 : (1 + R.unit) ^ (3 * (m + n)) < 2) {u v : K} (hu : 0 ≤ u ∧ u ≤ 1)
    (hv : 0 ≤ v ∧ v ≤ 1) :
    ∃ q, rationalPatchEvaluate R F G p w u v = ok q ∧ ∀ i M, (∀ x ∈ p.grid, |x i| ≤ M) →
      |q i - ratBezierSurface m n p.grid w u v i|
        ≤ quotBound R ((1 + R.unit) ^ (3 * (m + n) + 1) - 1) ((1 + R.unit) ^ (3 * (m + n)) - 1) * M := by
  have hun := R.unit_nonneg
  set h : BezierPatch (Option ι → K) :=
    BezierPatch.mk (homPts R p.grid w) p.degU p.degV p.perU p.perV p.sU p.sV with hh
  have hwf : h.WellFormed m n := ⟨hp.degU, hp.degV, by
    rw [hh]; simp only [homPts_length R _ _ hlen]; exact hp.len⟩
  obtain ⟨x, ex, H⟩ := bezier_patch R F G h m n hwf (u := u) (v := v) (u' := u) (v' := v)
    (by simp [bezierWrap, hh, pu]) (by simp [bezierWrap, hh, pv]) hu.1 hu.2 hv.1 hv.2
  have hpts : ∀ a b o, h.pts n a b o = (homPts R p.grid w).getD (a * (n + 1) + b) 0 o :=
    fun _ _ _ => rfl
  have hwd : ∀ j, 0 ≤ w.getD j 0 := by
    intro j
    by_cases hj : j < w.length
    · rw [getD_of_lt _ hj]; exact (hw _ (List.getElem_mem hj)).le
    · rw [getD_of_le _ (not_lt.1 hj)]
  set W := ratBezierSurfaceDen m n w u v with hW
  have hWpos : 0 < W := Props.bezierDen_pos (by rw [← hlen]; exact hp.len) hw hu hv
  have hWe : bern2 m n (fun a b => gridPoint w (n + 1) a b) u v = W := by rw [bern2_eq]; rfl
  have en := (H none 1 (fun a b => gridPoint w (n + 1) a b) (fun a b => gridPoint w (n + 1) a b) le_rfl
    (fun a _ b _ => le_of_eq (abs_of_nonneg (hwd _)))
    (fun a _ b _ => by
      rw [sub_self, zero_mul, hpts, homPts_none R _ _ hlen]
      exact le_of_eq (by simp [gridPoint]))).1
  rw [hWe, one_mul] at en
  obtain ⟨q, eq, hq⟩ := quotient_err R (a := (1 + R.unit) ^ (3 * (m + n) + 1) - 1) hWpos en
    (by linarith)
  refine ⟨q, ?_, fun i M hM => ?_⟩
  · unfold rationalPatchEvaluate
    rw [homogenize_eq R _ _ hlen, ok_bind, ex, ok_bind, eq]
  · have hne : p.grid ≠ [] := by
      intro e
      have := hp.len
      rw [e] at this
      simp at this
    have hb : ∀ j, |p.grid.getD j 0 i * w.getD j 0| ≤ M * w.getD j 0 := by
      intro j
      rw [abs_mul, abs_of_nonneg (hwd j)]
      exact mul_le_mul_of_nonneg_right (bound_getD hne hM j) (hwd j)
    obtain ⟨es, bs⟩ := H (some i) (1 + R.unit)
      (fun a b => p.grid.getD (a * (n + 1) + b) 0 i * w.getD (a * (n + 1) + b) 0)
      (fun a b => M * w.getD (a * (n + 1) + b) 0) (by linarith) (fun a _ b _ => hb _)
      (fun a _ b _ => by
        rw [hpts, homPts_some R _ _ hlen, add_sub_cancel_left]
        exact le_trans (R.near _) (mul_le_mul_of_nonneg_left (hb _) hun))
    have eM : bern2 m n (fun a b => M * w.getD (a * (n + 1) + b) 0) u v = M * W := by
      rw [← hWe, bern2_eq, bern2_eq, mul_sum]
      refine sum_congr rfl fun a _ => ?_
      rw [mul_sum]
      exact sum_congr rfl fun b _ => by rw [gridPoint]; ring
    rw [eM] at es bs
    rw [← pow_succ'] at es
    have ep : ratBezierSurface m n p.grid w u v i = bern2 m n
        (fun a b => p.grid.getD (a * (n + 1) + b) 0 i * w.getD (a * (n + 1) + b) 0) u v / W := by
      rw [ratBezierSurface, ← hW, bern2_eq, div_eq_inv_mul]
      simp only [Pi.smul_apply, smul_eq_mul, Finset.sum_apply]
      congr 1
      refine sum_congr rfl fun a _ => sum_congr rfl fun b _ => ?_
      simp only [gridPoint]
      ring
    rw [ep]
    exact hq i _ M bs es

/-- C88: NURBS patches with weights between `lo` and `hi`, `0 < lo`. -/
theorem C88_nurbs_patch_error (R : Rounding K) (hu1 : R.unit < 1)
    (F : ℕ → ℕ → ℕ → Option ι → Fuse) (G : ℕ → ℕ → Option ι → Fuse) {p : BSplinePatch K (ι → K)}
    {m n du dv : ℕ} (hp : p.Valid m n du dv) (pu : p.perU = false) (pv : p.perV = false)
    (wu : FlWideOn R p.knotsU m du) (wv : FlWideOn R p.knotsV n dv) {w : List K}
    (hlen : p.grid.length = w.length) {lo hi : K} (hlo : 0 < lo) (hwt : ∀ x ∈ w, lo ≤ x ∧ x ≤ hi)
    (hcond : (growth R ^ (du + dv) - 1) * (hi / lo) < 1) {u v : K}
    (hu : BSplinePatch.InDom p.knotsU m du u) (hv : BSplinePatch.InDom p.knotsV n dv v) :
    ∃ q, nurbsPatchEvaluate R F G p w u v = ok q ∧ ∀ i M, (∀ x ∈ p.grid, |x i| ≤ M) →
      |q i - ratBSplineSurface du dv m n p.knotsU p.knotsV p.grid w u v i|
        ≤ quotBound R (((1 + R.unit) * growth R ^ (du + dv) - 1) * (hi / lo))
            ((growth R ^ (du + dv) - 1) * (hi / lo)) * M := by
  have hun := R.unit_nonneg
  set h0 : BSplinePatch K (Option ι → K) := BSplinePatch.mk (homPts R p.grid w) p.knotsU p.knotsV
    p.degU p.degV p.perU p.perV p.sU p.sV [] [] with hh0
  have hv0 : h0.Valid m n du dv := ⟨hp.u, hp.v, by
    rw [hh0]; simp only [homPts_length R _ _ hlen]; exact hp.grid⟩
  obtain ⟨h, hinit, hrd, i1, i2, i3, -, -, i6, i7, -, -⟩ := hv0.init_ready
  obtain ⟨x, ex, H⟩ := bspline_patch R hu1 F G hrd (by rw [i6]; exact pu) (by rw [i7]; exact pv)
    (by rw [i2]; exact wu) (by rw [i3]; exact wv) (u := u) (v := v) (by rw [i2]; exact hu)
    (by rw [i3]; exact hv)
  rw [i2, i3] at H
  have hpts : ∀ a b o, h.pts n a b o = (homPts R p.grid w).getD (a * n + b) 0 o := by
    intro a b o
    rw [BSplinePatch.pts, i1]
    rfl
  have wide : ∀ {ku : List K} {c d : ℕ}, FlWideOn R ku c d → BSplinePatch.WideOn ku c d := by
    intro ku c d hw j h1 h2 h3
    by_contra hc
    exact absurd (hw j h1 h2 h3) (not_lt.2 (R.mono _ _ (not_lt.1 hc)))
  have low : ∀ (A : ℕ → ℕ → K) (l : K), (∀ a < m, ∀ b < n, l ≤ A a b) →
      l ≤ bsum2 du dv p.knotsU p.knotsV m n A u v := by
    intro A l hA
    exact bsum_lower hp.u.len hp.u.cnt hp.u.sorted hp.u.dom (wide wu) hu _ l fun a ha =>
      bsum_lower hp.v.len hp.v.cnt hp.v.sorted hp.v.dom (wide wv) hv _ l fun b hb => hA a ha b hb
  have hwj : ∀ a < m, ∀ b < n, lo ≤ w.getD (a * n + b) 0 ∧ w.getD (a * n + b) 0 ≤ hi := by
    intro a ha b hb
    have hk : a * n + b < w.length := by rw [← hlen, hp.grid]; exact lin_lt ha hb
    rw [getD_of_lt _ hk]
    exact hwt _ (List.getElem_mem _)
  set W := bsum2 du dv p.knotsU p.knotsV m n (fun a b => w.getD (a * n + b) 0) u v with hW
  have hWlo : lo ≤ W := low _ lo fun a ha b hb => (hwj a ha b hb).1
  have hWpos : 0 < W := lt_of_lt_of_le hlo hWlo
  have hm0 : 0 < m := by have := hp.u.cnt; omega
  have hn0 : 0 < n := by have := hp.v.cnt; omega
  have hhi : 0 < hi := lt_of_lt_of_le hlo (le_trans (hwj 0 hm0 0 hn0).1 (hwj 0 hm0 0 hn0).2)
  have hhiW : hi ≤ hi / lo * W := by
    rw [div_mul_eq_mul_div, le_div_iff₀ hlo]
    exact mul_le_mul_of_nonneg_left hWlo hhi.le
  have hG : 1 ≤ growth R ^ (du + dv) := one_le_pow₀ (one_le_growth R hu1)
  have en := (H none 1 hi (fun a b => w.getD (a * n + b) 0) le_rfl
    (fun a ha b hb => by
      rw [abs_of_pos (lt_of_lt_of_le hlo (hwj a ha b hb).1)]; exact (hwj a ha b hb).2)
    (fun a _ b _ => by rw [hpts, homPts_none R _ _ hlen]; simp)).1
  rw [one_mul] at en
  have en' : |x none - W| ≤ (growth R ^ (du + dv) - 1) * (hi / lo) * W := by
    refine le_trans en ?_
    rw [mul_assoc]
    exact mul_le_mul_of_nonneg_left hhiW (by linarith)
  obtain ⟨q, eq, hq⟩ := quotient_err R
    (a := ((1 + R.unit) * growth R ^ (du + dv) - 1) * (hi / lo)) hWpos en' hcond
  refine ⟨q, ?_, fun i M hM => ?_⟩
  · unfold nurbsPatchEvaluate
    rw [homogenize_eq R _ _ hlen, ok_bind, hinit, ok_bind, ex, ok_bind, eq]
  · have hPj : ∀ a < m, ∀ b < n, |p.grid.getD (a * n + b) 0 i| ≤ M := by
      intro a ha b hb
      have hk : a * n + b < p.grid.length := by rw [hp.grid]; exact lin_lt ha hb
      rw [getD_of_lt _ hk]
      exact hM _ (List.getElem_mem _)
    have hM0 : 0 ≤ M := le_trans (abs_nonneg _) (hPj 0 hm0 0 hn0)
    set A : ℕ → ℕ → K := fun a b => p.grid.getD (a * n + b) 0 i * w.getD (a * n + b) 0 with hA
    set N := bsum2 du dv p.knotsU p.knotsV m n A u v with hN
    have bAw : ∀ a < m, ∀ b < n, |A a b| ≤ M * w.getD (a * n + b) 0 := by
      intro a ha b hb
      have := hwj a ha b hb
      simp only [hA]
      rw [abs_mul, abs_of_pos (lt_of_lt_of_le hlo this.1)]
      exact mul_le_mul_of_nonneg_right (hPj a ha b hb) (by linarith)
    have bA : ∀ a < m, ∀ b < n, |A a b| ≤ M * hi := fun a ha b hb =>
      le_trans (bAw a ha b hb) (mul_le_mul_of_nonneg_left (hwj a ha b hb).2 hM0)
    have lin2 : ∀ (x y : K) (B C : ℕ → ℕ → K), bsum2 du dv p.knotsU p.knotsV m n
        (fun a b => x * B a b - y * C a b) u v = x * bsum2 du dv p.knotsU p.knotsV m n B u v
          - y * bsum2 du dv p.knotsU p.knotsV m n C u v := by
      intro x y B C
      unfold bsum2
      simp only [bsum_sub, bsum_mul]
    have hNb : |N| ≤ M * W := by
      have l1 := low (fun a b => M * w.getD (a * n + b) 0 - 1 * A a b) 0
        (fun a ha b hb => by have := (abs_le.1 (bAw a ha b hb)).2; linarith)
      have l2 := low (fun a b => M * w.getD (a * n + b) 0 - (-1) * A a b) 0
        (fun a ha b hb => by have := (abs_le.1 (bAw a ha b hb)).1; linarith)
      rw [lin2] at l1 l2
      rw [abs_le]
      constructor <;> linarith
    have es := (H (some i) (1 + R.unit) (M * hi) A (by linarith) bA
      (fun a ha b hb => by
        rw [hpts, homPts_some R _ _ hlen, add_sub_cancel_left]
        exact le_trans (R.near _) (mul_le_mul_of_nonneg_left (bA a ha b hb) hun))).1
    have hg1 : 1 ≤ (1 + R.unit) * growth R ^ (du + dv) := by nlinarith
    have es' : |x (some i) - N|
        ≤ ((1 + R.unit) * growth R ^ (du + dv) - 1) * (hi / lo) * (M * W) := by
      refine le_trans es ?_
      rw [mul_assoc]
      refine mul_le_mul_of_nonneg_left ?_ (by linarith)
      have := mul_le_mul_of_nonneg_left hhiW hM0
      linarith
    have ep : ratBSplineSurface du dv m n p.knotsU p.knotsV p.grid w u v i = N / W := by
      rw [ratBSplineSurface, ratBSplineSurfaceDen, hN, hW, bsum2_eq, bsum2_eq, div_eq_inv_mul]
      simp only [Pi.smul_apply, smul_eq_mul, Finset.sum_apply, gridPoint]
      congr 1
      refine sum_congr rfl fun a _ => sum_congr rfl fun b _ => ?_
      simp only [hA]
      ring
    rw [ep]
    exact hq i N M hNb es'

/-! ### Partial derivatives of B-spline patches -/

/-- Error of the control points of the derivative along a direction of degree `d` whose basis
functions have supports of length at least `δ`, if the control points of the iso-curve, of size `M₀`,
come out of an evaluation of degree `e`. -/
def isoNoise (R : Rounding K) (d e : ℕ) (M₀ δ : K) : K := 2 * d * (growth R ^ e - 1) * M₀ / δ

theorem FlWideOn.wide {R : Rounding K} {u : List K} {n p : ℕ} (h : FlWideOn R u n p) :
    BSplinePatch.WideOn u n p := by
  intro i h1 h2 h3
  by_contra hc
  exact absurd (h i h1 h2 h3) (not_lt.2 (R.mono _ _ (not_lt.1 hc)))

theorem bsum_abs {u : List K} {deg s : ℤ} {n p : ℕ} (h : BSplinePatch.Axis u deg s n p)
    (hw : BSplinePatch.WideOn u n p) {t : K} (ht : BSplinePatch.InDom u n p t) (A : ℕ → K) (M : K)
    (hM : ∀ j < n, |A j| ≤ M) : |BSplinePatch.bsum p u n A t| ≤ M := by
  have a := bsum_lower h.len h.cnt h.sorted h.dom hw ht A (-M) (fun j hj => (abs_le.1 (hM j hj)).1)
  have b := bsum_lower h.len h.cnt h.sorted h.dom hw ht (fun j => -1 * A j) (-M)
    (fun j hj => by linarith [(abs_le.1 (hM j hj)).2])
  rw [bsum_mul] at b
  exact abs_le.2 ⟨a, by linarith⟩

theorem patch_deriv_axis (R : Rounding K) (hu1 : R.unit < 1) (F : ℕ → ℕ → ℕ → ι → Fuse)
    (G : ℕ → ℕ → ι → Fuse) {ku kv : List K} {degu degv su sv : ℤ} {m n d e : ℕ}
    (hU : BSplinePatch.Axis ku degu su m (d + 1)) (hV : BSplinePatch.Axis kv degv sv n e)
    (wu : FlWideOn R ku m (d + 1)) (wv : FlWideOn R kv n e) (P : ℕ → ℕ → ι → K) {u v : K}
    (hu : BSplinePatch.InDom ku m (d + 1) u) (hv : BSplinePatch.InDom kv n e v) :
    ∃ (c : ℕ → ι → K) (q x : ι → K),
      (∀ a, bsplineEvaluate R (F a) (BSpline.mk (arr n (P a)) kv false (BSplinePatch.staticDeg sv)) v
        = ok (c a)) ∧
      bsplineDerivative R G (BSpline.mk (arr m c) ku false (BSplinePatch.staticDeg su)) u = ok q ∧
      (BSpline.mk (arr m fun a => BSplinePatch.bsum e kv n (P a) v) ku false
        (BSplinePatch.staticDeg su)).evaluateDerivative u = ok x ∧
      ∀ i M₀ M δ, 0 < δ → (∀ a < m, ∀ b < n, |P a b i| ≤ M₀) →
        (∀ a, a + 1 < m → ∀ b < n, |((d + 1 : ℕ) : K) * (P (a + 1) b i - P a b i)|
          ≤ M * (knot ku (a + d + 2) - knot ku (a + 1))) →
        (∀ a, a + 1 < m → δ ≤ knot ku (a + d + 2) - knot ku (a + 1)) →
        |q i - x i| ≤ (diffGrowth R * growth R ^ d - 1) * (M + isoNoise R (d + 1) e M₀ δ)
          + isoNoise R (d + 1) e M₀ δ := by
  choose c hc H using fun a => bspline_axis_arr R hu1 (F a) hV wv (P a) hv
  have hl : (arr m c).length = m := by simp
  obtain ⟨q, x, hq, hx, B⟩ := bspline_deriv_axis R hu1 G (hU.wf false hl) rfl
    (by intro j j1 j2 j3; simp only [hl] at j2; exact wu j j1 j2 j3)
    (arr m fun a => BSplinePatch.bsum e kv n (P a) v) (by simp) (t := u) hu.2.2 hu.1
    (by simp only [hl]; exact hu.2.1)
  refine ⟨c, q, x, hc, hq, hx, fun i M₀ M δ hδ h0 h1 h2 => (B i M _ ?_ ?_).1⟩
  all_goals
    intro j hj
    rw [hl] at hj
    have hbs : ∀ a, BSplinePatch.bsum e kv n (P a) v i
        = BSplinePatch.bsum e kv n (fun b => P a b i) v := by
      intro a
      simp [BSplinePatch.bsum, Finset.sum_apply]
    simp only [arr_getD m _ _ _ hj, arr_getD m _ _ _ (show j < m by omega), hbs]
  · rw [← bsum_sub, ← bsum_mul]
    exact bsum_abs hV (FlWideOn.wide wv) hv _ _ (fun b hb => h1 j hj b hb)
  · have e1 := (H (j + 1) i 1 M₀ (fun b => P (j + 1) b i) le_rfl (fun b hb => h0 _ hj b hb)
      (fun b _ => by simp)).1
    have e0 := (H j i 1 M₀ (fun b => P j b i) le_rfl (fun b hb => h0 _ (by omega) b hb)
      (fun b _ => by simp)).1
    rw [one_mul] at e0 e1
    have hW := h2 j hj
    have hN : (d + 1 : ℕ) * (2 * ((growth R ^ e - 1) * M₀))
        = isoNoise R (d + 1) e M₀ δ * δ := by
      unfold isoNoise
      rw [div_mul_cancel₀ _ hδ.ne']
      ring
    have hpos : 0 ≤ (growth R ^ e - 1) * M₀ := le_trans (abs_nonneg _) e0
    have hN0 : 0 ≤ isoNoise R (d + 1) e M₀ δ := by
      have : (0 : K) ≤ (d + 1 : ℕ) * (2 * ((growth R ^ e - 1) * M₀)) := by positivity
      rw [hN] at this
      exact nonneg_of_mul_nonneg_left this hδ
    rw [abs_mul, abs_of_nonneg (by positivity : (0 : K) ≤ ((d + 1 : ℕ) : K))]
    have tri : |c (j + 1) i - c j i - (BSplinePatch.bsum e kv n (fun b => P (j + 1) b i) v
        - BSplinePatch.bsum e kv n (fun b => P j b i) v)| ≤ 2 * ((growth R ^ e - 1) * M₀) := by
      rw [abs_le] at e0 e1 ⊢
      constructor <;> linarith [e0.1, e0.2, e1.1, e1.2]
    calc _ ≤ ((d + 1 : ℕ) : K) * (2 * ((growth R ^ e - 1) * M₀)) :=
          mul_le_mul_of_nonneg_left tri (by positivity)
      _ = isoNoise R (d + 1) e M₀ δ * δ := hN
      _ ≤ _ := mul_le_mul_of_nonneg_left hW hN0

/-- C88: the partial derivative of a B-spline patch in `u`.  `M₀` bounds the control points, `M` the
control points of the derivative, `δ` is the shortest support of the basis functions of the
derivative: the rounding errors of the iso-curve are divided by it. -/
theorem C88_bspline_patch_derivative_u (R : Rounding K) (hu1 : R.unit < 1) (F : ℕ → ℕ → ℕ → ι → Fuse)
    (G : ℕ → ℕ → ι → Fuse) {p r : BSplinePatch K (ι → K)} {m n d dv : ℕ} (hp : p.Valid m n (d + 1) dv)
    (hr : p.init = ok r) (pu : p.perU = false) (pv : p.perV = false)
    (wu : FlWideOn R p.knotsU m (d + 1)) (wv : FlWideOn R p.knotsV n dv) {u v : K}
    (hu : BSplinePatch.InDom p.knotsU m (d + 1) u) (hv : BSplinePatch.InDom p.knotsV n dv v) :
    ∃ q x, bsplinePatchDerivU R F G r u v = ok q ∧ r.derivU u v = ok x ∧ ∀ i M₀ M δ, 0 < δ →
      (∀ y ∈ p.grid, |y i| ≤ M₀) →
      (∀ a, a + 1 < m → ∀ b < n,
        |((d + 1 : ℕ) : K) * (gridPoint p.grid n (a + 1) b i - gridPoint p.grid n a b i)|
          ≤ M * (knot p.knotsU (a + d + 2) - knot p.knotsU (a + 1))) →
      (∀ a, a + 1 < m → δ ≤ knot p.knotsU (a + d + 2) - knot p.knotsU (a + 1)) →
      |q i - x i| ≤ (diffGrowth R * growth R ^ d - 1) * (M + isoNoise R (d + 1) dv M₀ δ)
        + isoNoise R (d + 1) dv M₀ δ := by
  have hrd := hp.ready hr
  rw [hp.init, ok.injEq] at hr
  subst hr
  obtain ⟨c, q, x, hc, hq, hx, H⟩ := patch_deriv_axis R hu1 F G hp.u hp.v wu wv (p.pts n) hu hv
  refine ⟨q, x, ?_, ?_, fun i M₀ M δ hδ h0 => H i M₀ M δ hδ fun a ha b hb => ?_⟩
  · unfold bsplinePatchDerivU bsplineIsoU
    rw [hrd.toValid.numU, ok_bind, hrd.isoV, tab_eq (g := c)]
    · rw [ok_bind, pure_eq, ok_bind, ← hq, ← pu]
    · intro j hj
      rw [rd_arr hj, ok_bind, ← hc j, ← pv]
      rfl
  · unfold BSplinePatch.derivU
    rw [hrd.isoCurveU (v := v) (v' := v) (FlWideOn.wide wv)
      (by simp [BSplinePatch.wrapOn, pv]) hv, ok_bind, ← hx, ← pu]
    rfl
  · have hk : a * n + b < p.grid.length := by rw [hp.grid]; exact lin_lt ha hb
    rw [BSplinePatch.pts, gridPoint, getD_of_lt _ hk]
    exact h0 _ (List.getElem_mem _)

/-- C88: the partial derivative in `v`. -/
theorem C88_bspline_patch_derivative_v (R : Rounding K) (hu1 : R.unit < 1) (F : ℕ → ℕ → ℕ → ι → Fuse)
    (G : ℕ → ℕ → ι → Fuse) {p r : BSplinePatch K (ι → K)} {m n du d : ℕ} (hp : p.Valid m n du (d + 1))
    (hr : p.init = ok r) (pu : p.perU = false) (pv : p.perV = false)
    (wu : FlWideOn R p.knotsU m du) (wv : FlWideOn R p.knotsV n (d + 1)) {u v : K}
    (hu : BSplinePatch.InDom p.knotsU m du u) (hv : BSplinePatch.InDom p.knotsV n (d + 1) v) :
    ∃ q x, bsplinePatchDerivV R F G r u v = ok q ∧ r.derivV u v = ok x ∧ ∀ i M₀ M δ, 0 < δ →
      (∀ y ∈ p.grid, |y i| ≤ M₀) →
      (∀ b, b + 1 < n → ∀ a < m,
        |((d + 1 : ℕ) : K) * (gridPoint p.grid n a (b + 1) i - gridPoint p.grid n a b i)|
          ≤ M * (knot p.knotsV (b + d + 2) - knot p.knotsV (b + 1))) →
      (∀ b, b + 1 < n → δ ≤ knot p.knotsV (b + d + 2) - knot p.knotsV (b + 1)) →
      |q i - x i| ≤ (diffGrowth R * growth R ^ d - 1) * (M + isoNoise R (d + 1) du M₀ δ)
        + isoNoise R (d + 1) du M₀ δ := by
  have hrd := hp.ready hr
  rw [hp.init, ok.injEq] at hr
  subst hr
  obtain ⟨c, q, x, hc, hq, hx, H⟩ := patch_deriv_axis R hu1 F G hp.v hp.u wv wu
    (fun b a => p.pts n a b) hv hu
  refine ⟨q, x, ?_, ?_, fun i M₀ M δ hδ h0 => H i M₀ M δ hδ fun b hb a ha => ?_⟩
  · unfold bsplinePatchDerivV bsplineIsoV
    rw [hrd.toValid.numV, ok_bind, hrd.isoU, tab_eq (g := c)]
    · rw [ok_bind, pure_eq, ok_bind, ← hq, ← pv]
    · intro j hj
      rw [rd_arr hj, ok_bind, ← hc j, ← pu]
      rfl
  · unfold BSplinePatch.derivV
    rw [hrd.isoCurveV (u := u) (u' := u) (FlWideOn.wide wu)
      (by simp [BSplinePatch.wrapOn, pu]) hu, ok_bind, ← hx, ← pv]
    rfl
  · have hk : a * n + b < p.grid.length := by rw [hp.grid]; exact lin_lt ha hb
    rw [BSplinePatch.pts, gridPoint, getD_of_lt _ hk]
    exact h0 _ (List.getElem_mem _)

/-! ### Corners and exact arithmetic -/

/-- The knots outside of the domain coincide with its ends (the very first and last knot may
differ), and the first and last span are not empty. -/
structure ClampedOn (u : List K) (n p : ℕ) : Prop where
  first : knot u p < knot u (p + 1)
  low : ∀ j, 1 ≤ j → j ≤ p → knot u j = knot u p
  last : knot u (n - 1) < knot u n
  high : ∀ j, n ≤ j → j < n + p → knot u j = knot u n

theorem axis_ends (R : Rounding K) (F : ℕ → ℕ → ι → Fuse) {u : List K} {deg s : ℤ} {n p : ℕ}
    (h : BSplinePatch.Axis u deg s n p) (hw : FlWideOn R u n p) (hc : ClampedOn u n p)
    (Q : ℕ → ι → K) (hQ : ∀ j < n, ∀ i, R.IsFloat (Q j i)) :
    bsplineEvaluate R F (BSpline.mk (arr n Q) u false (BSplinePatch.staticDeg s)) (knot u p)
        = ok (Q 0) ∧
      bsplineEvaluate R F (BSpline.mk (arr n Q) u false (BSplinePatch.staticDeg s)) (knot u n)
        = ok (Q (n - 1)) := by
  have hl : (arr n Q).length = n := by simp
  have hn := h.cnt
  obtain ⟨a, b⟩ := C81_bspline_ends R F (h.wf false hl) rfl
    (by intro j j1 j2 j3; simp only [hl] at j2; exact hw j j1 j2 j3)
    (by
      intro x hx i
      obtain ⟨j, hj, rfl⟩ := List.mem_iff_getElem.1 hx
      have hj' : j < n := by simpa using hj
      have : (arr n Q)[j]'hj = Q j := by simp [arr]
      change R.IsFloat ((arr n Q)[j] i)
      rw [this]
      exact hQ j hj' i)
  simp only [hl] at a b
  refine ⟨?_, ?_⟩
  · rw [a hc.first hc.low, arr_getD _ _ _ _ (by omega)]
  · rw [b hc.last hc.high, arr_getD _ _ _ _ (by omega)]

/-- C81: a clamped B-spline patch returns the corners of its control grid bit by bit. -/
theorem C81_bspline_patch_corners (R : Rounding K) (F : ℕ → ℕ → ℕ → ι → Fuse)
    (G : ℕ → ℕ → ι → Fuse) {p r : BSplinePatch K (ι → K)} {m n du dv : ℕ} (hp : p.Valid m n du dv)
    (hr : p.init = ok r) (pu : p.perU = false) (pv : p.perV = false) (wu : FlWideOn R p.knotsU m du)
    (wv : FlWideOn R p.knotsV n dv) (cu : ClampedOn p.knotsU m du) (cv : ClampedOn p.knotsV n dv)
    (hf : Floats R p.grid) :
    bsplinePatchEvaluate R F G r (knot p.knotsU du) (knot p.knotsV dv)
        = ok (gridPoint p.grid n 0 0) ∧
      bsplinePatchEvaluate R F G r (knot p.knotsU m) (knot p.knotsV dv)
        = ok (gridPoint p.grid n (m - 1) 0) ∧
      bsplinePatchEvaluate R F G r (knot p.knotsU du) (knot p.knotsV n)
        = ok (gridPoint p.grid n 0 (n - 1)) ∧
      bsplinePatchEvaluate R F G r (knot p.knotsU m) (knot p.knotsV n)
        = ok (gridPoint p.grid n (m - 1) (n - 1)) := by
  have hrd := hp.ready hr
  rw [hp.init, ok.injEq] at hr
  subst hr
  set r : BSplinePatch K (ι → K) := { p with isoU := arr n (p.colU m n), isoV := arr m (p.rowV n) }
  have hpt : ∀ a b i, R.IsFloat (p.pts n a b i) := fun a b i => hf.getD _ i
  have main : ∀ u v a b, (u = knot p.knotsU du ∧ a = 0 ∨ u = knot p.knotsU m ∧ a = m - 1) →
      (v = knot p.knotsV dv ∧ b = 0 ∨ v = knot p.knotsV n ∧ b = n - 1) →
      bsplinePatchEvaluate R F G r u v = ok (gridPoint p.grid n a b) := by
    intro u v a b h1 h2
    have eu : ∀ (H : ℕ → ℕ → ι → Fuse) (Q : ℕ → ι → K), (∀ j < m, ∀ i, R.IsFloat (Q j i)) →
        bsplineEvaluate R H (BSpline.mk (arr m Q) p.knotsU false (BSplinePatch.staticDeg p.sU)) u
          = ok (Q a) := by
      intro H Q hQ
      obtain ⟨x, y⟩ := axis_ends R H hp.u wu cu Q hQ
      rcases h1 with ⟨rfl, rfl⟩ | ⟨rfl, rfl⟩
      · exact x
      · exact y
    have ev : ∀ (H : ℕ → ℕ → ι → Fuse) (Q : ℕ → ι → K), (∀ j < n, ∀ i, R.IsFloat (Q j i)) →
        bsplineEvaluate R H (BSpline.mk (arr n Q) p.knotsV false (BSplinePatch.staticDeg p.sV)) v
          = ok (Q b) := by
      intro H Q hQ
      obtain ⟨x, y⟩ := axis_ends R H hp.v wv cv Q hQ
      rcases h2 with ⟨rfl, rfl⟩ | ⟨rfl, rfl⟩
      · exact x
      · exact y
    unfold bsplinePatchEvaluate
    split_ifs with hdeg
    · unfold bsplineIsoV
      rw [hrd.toValid.numV, ok_bind, hrd.isoU, tab_eq (g := fun j => p.pts n a j)]
      · rw [ok_bind, pure_eq, ok_bind]
        change bsplineEvaluate R G (BSpline.mk _ p.knotsV p.perV _) v = _
        rw [pv, ev _ _ (fun j _ i => hpt _ _ _)]
        rfl
      · intro j hj
        rw [rd_arr hj, ok_bind]
        change bsplineEvaluate R _ (BSpline.mk (arr m fun i => p.pts n i j) p.knotsU p.perU _) u = _
        rw [pu, eu _ _ (fun j _ i => hpt _ _ _)]
    · unfold bsplineIsoU
      rw [hrd.toValid.numU, ok_bind, hrd.isoV, tab_eq (g := fun i => p.pts n i b)]
      · rw [ok_bind, pure_eq, ok_bind]
        change bsplineEvaluate R G (BSpline.mk _ p.knotsU p.perU _) u = _
        rw [pu, eu _ _ (fun j _ i => hpt _ _ _)]
        rfl
      · intro j hj
        rw [rd_arr hj, ok_bind]
        change bsplineEvaluate R _ (BSpline.mk (arr n (p.pts n j)) p.knotsV p.perV _) v = _
        rw [pv, ev _ _ (fun j _ i => hpt _ _ _)]
  exact ⟨main _ _ _ _ (Or.inl ⟨rfl, rfl⟩) (Or.inl ⟨rfl, rfl⟩),
    main _ _ _ _ (Or.inr ⟨rfl, rfl⟩) (Or.inl ⟨rfl, rfl⟩),
    main _ _ _ _ (Or.inl ⟨rfl, rfl⟩) (Or.inr ⟨rfl, rfl⟩),
    main _ _ _ _ (Or.inr ⟨rfl, rfl⟩) (Or.inr ⟨rfl, rfl⟩)⟩

/-- Rounding without error is the exact model of B-spline patches. -/
theorem C88_exact_arithmetic_patch (F : ℕ → ℕ → ℕ → ι → Fuse) (G : ℕ → ℕ → ι → Fuse)
    (p : BSplinePatch K (ι → K)) (u v : K) :
    bsplinePatchEvaluate Rounding.exact F G p u v = p.evaluate u v := by
  unfold bsplinePatchEvaluate BSplinePatch.evaluate bsplineIsoU bsplineIsoV BSplinePatch.isoCurveU
    BSplinePatch.isoCurveV
  simp only [C82_exact_arithmetic_bspline]

/-- Rounding without error is the exact model of the derivative of B-splines. -/
theorem C88_exact_arithmetic_derivative (F : ℕ → ℕ → ι → Fuse) (c : BSpline K (ι → K)) (t : K) :
    bsplineDerivative Rounding.exact F c t = c.evaluateDerivative t := by
  have hb : ∀ u bv d k q, bsplineBlossom Rounding.exact F u bv d k q
      = BSpline.blossom (K := K) u bv d k q := by
    intro u bv d k q
    unfold bsplineBlossom BSpline.blossom
    simp only [exact_combine]
    rfl
  have hd : ∀ n k q, bsplineDerivCoef Rounding.exact c n k q = c.derivativeCoefficients n k q :=
    fun _ _ _ => rfl
  unfold bsplineDerivative BSpline.evaluateDerivative bsplineDeBoor BSpline.deBoor
  simp only [hb, hd]
  rfl

/-- Rounding without error is the exact model of the partial derivatives of B-spline patches. -/
theorem C88_exact_arithmetic_patch_derivatives (F : ℕ → ℕ → ℕ → ι → Fuse) (G : ℕ → ℕ → ι → Fuse)
    (p : BSplinePatch K (ι → K)) (u v : K) :
    bsplinePatchDerivU Rounding.exact F G p u v = p.derivU u v ∧
      bsplinePatchDerivV Rounding.exact F G p u v = p.derivV u v := by
  unfold bsplinePatchDerivU bsplinePatchDerivV BSplinePatch.derivU BSplinePatch.derivV bsplineIsoU
    bsplineIsoV BSplinePatch.isoCurveU BSplinePatch.isoCurveV
  simp only [C82_exact_arithmetic_bspline, C88_exact_arithmetic_derivative, and_self]

theorem exists_list_max {A : Type} (f : A → K) :
    ∀ l : List A, l ≠ [] → ∃ m ∈ l, ∀ x ∈ l, f x ≤ f m
  | [], h => absurd rfl h
  | [a], _ => ⟨a, by simp, by simp⟩
  | a :: b :: l, _ => by
    obtain ⟨m, hm, H⟩ := exists_list_max f (b :: l) (by simp)
    rcases le_total (f a) (f m) with h | h
    · refine ⟨m, List.mem_cons_of_mem _ hm, fun x hx => ?_⟩
      rcases List.mem_cons.1 hx with rfl | hx
      · exact h
      · exact H x hx
    · refine ⟨a, by simp, fun x hx => ?_⟩
      rcases List.mem_cons.1 hx with rfl | hx
      · exact le_refl _
      · exact (H x hx).trans h

/-- Rounding without error evaluates NURBS exactly. -/
theorem C88_exact_arithmetic_nurbs (F : ℕ → ℕ → Option ι → Fuse) {c : BSpline K (ι → K)} {p : ℕ}
    (hc : BSpline.WellFormed c p) (hper : c.periodic = false) (hw : BSpline.Wide c p) {w : List K}
    (hlen : c.ctrl.length = w.length) (hpos : ∀ x ∈ w, 0 < x) {t : K}
    (hf : BSpline.FirstSpan c p ∨ knot c.knots p < t) (h1 : knot c.knots p ≤ t)
    (h2 : t ≤ knot c.knots c.ctrl.length) :
    nurbsEvaluate Rounding.exact F c w t = ok (ratBSplinePoint p c.knots c.ctrl w t) := by
  have hn := hc.ctrl
  have hwne : w ≠ [] := by rintro rfl; simp at hlen; rw [hlen] at hn; simp at hn
  obtain ⟨lo, hlo, hmin⟩ : ∃ lo ∈ w, ∀ x ∈ w, lo ≤ x := by
    obtain ⟨m, hm, H⟩ := exists_list_max (fun x : K => -x) w hwne
    exact ⟨m, hm, fun x hx => neg_le_neg_iff.1 (H x hx)⟩
  obtain ⟨hi, -, hmax⟩ : ∃ hi ∈ w, ∀ x ∈ w, x ≤ hi := by
    obtain ⟨m, hm, H⟩ := exists_list_max (fun x : K => x) w hwne
    exact ⟨m, hm, H⟩
  have hu : (Rounding.exact : Rounding K).unit = 0 := rfl
  have hg : growth (Rounding.exact : Rounding K) = 1 := by unfold growth; rw [hu]; norm_num
  obtain ⟨q, e, H⟩ := C88_nurbs_error Rounding.exact (by rw [hu]; exact one_pos) F hc hper
    (fun i a b d => hw i a b d) hlen (hpos lo hlo) (fun x hx => ⟨hmin x hx, hmax x hx⟩)
    (by rw [hg]; simp) hf h1 h2
  rw [e]
  congr 1
  funext i
  have hne : c.ctrl ≠ [] := by intro h; rw [h] at hn; simp at hn
  obtain ⟨x, hx, hxm⟩ := exists_list_max (fun x : ι → K => |x i|) c.ctrl hne
  have := H i |x i| hxm
  rw [hg] at this
  simp only [quotBound, hu] at this
  norm_num at this
  linarith [this]

end General

/-! ### Concrete cases -/

section Examples

/-- The hypotheses of `C88_bspline_derivative_error` and `C88_nurbs_error` in double precision: the
spline of degree one on `[-1, 3]` with weights from `0.1` to `2`. -/
example : BSpline.WellFormed someSpline (0 + 1) ∧ someSpline.periodic = false ∧
    FlWide double someSpline 1 ∧ BSpline.FirstSpan someSpline 1 ∧ double.unit < 1 ∧
    someSpline.ctrl.length = [tenth, 1, 2].length ∧ 0 < tenth ∧
    (∀ x ∈ [tenth, 1, 2], tenth ≤ x ∧ x ≤ 2) ∧ (growth double ^ 1 - 1) * (2 / tenth) < 1 := by
  refine ⟨someSpline_wf, rfl, ?_, by unfold BSpline.FirstSpan; decide +kernel, by decide +kernel, rfl,
    by decide +kernel, by decide +kernel, by decide +kernel⟩
  intro i h1 h2 _
  have h2 : i < 3 := h2
  interval_cases i <;> decide +kernel

/-- A patch of degrees one and one with three times two control points. -/
def someGrid : BSplinePatch ℚ (Fin 1 → ℚ) :=
  { grid := someCtrl ++ someCtrl, knotsU := [-1, -1, tenth, 3, 3], knotsV := [0, 0, 2, 2], degU := 1,
    degV := 1 }

/-- The hypotheses of `C88_bspline_patch_error`, `C88_nurbs_patch_error` and
`C81_bspline_patch_corners` in double precision. -/
example : someGrid.Valid 3 2 1 1 ∧ FlWideOn double someGrid.knotsU 3 1 ∧
    FlWideOn double someGrid.knotsV 2 1 ∧ ClampedOn someGrid.knotsU 3 1 ∧
    ClampedOn someGrid.knotsV 2 1 ∧ Floats double someGrid.grid ∧
    BSplinePatch.InDom someGrid.knotsU 3 1 1 ∧ BSplinePatch.InDom someGrid.knotsV 2 1 1 ∧
    someGrid.grid.length = [tenth, 1, 2, 1, 1, 1].length ∧
    (∀ x ∈ [tenth, 1, 2, 1, 1, 1], tenth ≤ x ∧ x ≤ 2) ∧
    (growth double ^ 2 - 1) * (2 / tenth) < 1 := by
  refine ⟨⟨⟨rfl, rfl, Or.inl (by decide), by decide, by decide +kernel, by decide +kernel⟩,
    ⟨rfl, rfl, Or.inl (by decide), by decide, by decide +kernel, by decide +kernel⟩, rfl⟩, ?_, ?_,
    ⟨by decide +kernel, ?_, by decide +kernel, ?_⟩, ⟨by decide +kernel, ?_, by decide +kernel, ?_⟩, ?_,
    ⟨by decide +kernel, by decide +kernel, Or.inl (by decide +kernel)⟩,
    ⟨by decide +kernel, by decide +kernel, Or.inl (by decide +kernel)⟩, rfl, by decide +kernel,
    by decide +kernel⟩
  · intro i h1 h2 _
    interval_cases i <;> decide +kernel
  · intro i h1 h2 _
    interval_cases i; decide +kernel
  · intro j h1 h2; interval_cases j; rfl
  · intro j h1 h2; interval_cases j; rfl
  · intro j h1 h2; interval_cases j; rfl
  · intro j h1 h2; interval_cases j; rfl
  · intro x hx
    exact someCtrl_floats x ((List.mem_append.1 hx).elim id id)

/-- The further hypotheses of `C88_bspline_patch_derivative_u` and `_v`: the supports in `u` have
lengths `1.1` and `2.9`, the one in `v` has length `2`. -/
example : (∀ a, a + 1 < 3 → 1 ≤ knot someGrid.knotsU (a + 0 + 2) - knot someGrid.knotsU (a + 1)) ∧
    (∀ b, b + 1 < 2 → 1 ≤ knot someGrid.knotsV (b + 0 + 2) - knot someGrid.knotsV (b + 1)) ∧
    isoNoise double 1 1 1 1 < 20 * double.unit := by
  refine ⟨fun a ha => ?_, fun b hb => ?_, by decide +kernel⟩
  · have : a < 2 := by omega
    interval_cases a <;> decide +kernel
  · have : b < 1 := by omega
    interval_cases b; decide +kernel

/-- The hypotheses of `C88_rational_patch_error` in double precision. -/
example : ({ grid := someCtrl ++ someCtrl, degU := 1, degV := 2 } :
      BezierPatch (Fin 1 → ℚ)).WellFormed 1 2 ∧
    (someCtrl ++ someCtrl).length = [tenth, 1, 2, 1, 1, 1].length ∧
    (∀ x ∈ [tenth, 1, 2, 1, 1, 1], 0 < x) ∧ (1 + double.unit) ^ (3 * (1 + 2)) < 2 :=
  ⟨⟨rfl, rfl, rfl⟩, rfl, by decide +kernel, by decide +kernel⟩

/-- In double precision the factors are small: `growth double < 1 + 10 u` and
`diffGrowth double < 1 + 5 u`. -/
example : growth double < 1 + 10 * double.unit ∧ diffGrowth double < 1 + 5 * double.unit := by
  constructor <;> decide +kernel

end Examples

end NS.Fl
