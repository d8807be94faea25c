import Verif.Model.FloatRational
import Verif.Proof.BSplineMap
import Verif.Props.FloatPatch

/-!
# Property C88: rounding errors of the derivatives of rational curves
-/

set_option linter.unusedSectionVars false

namespace NS.Fl

open Outcome Finset Spec

section General

variable {K ι : Type} [Field K] [LinearOrder K] [IsStrictOrderedRing K] [FloorRing K]

/-- `y` is an approximation of `x`, which is at most `A`, with an error of at most `B - A`. -/
structure Maj (y x A B : K) : Prop where
  exact : |x| ≤ A
  err : |y - x| ≤ B - A

namespace Maj

variable {x y A B x' y' A' B' : K}

theorem abs_y (h : Maj y x A B) : |y| ≤ B := by
  have := abs_add_le x (y - x)
  rw [add_sub_cancel] at this
  linarith [h.exact, h.err]

theorem rnd (R : Rounding K) (h : Maj y x A B) : Maj (R.rnd y) x A ((1 + R.unit) * B) := by
  refine ⟨h.exact, ?_⟩
  have h1 := R.near y
  have h2 := abs_add_le (R.rnd y - y) (y - x)
  rw [sub_add_sub_cancel] at h2
  have h3 := mul_le_mul_of_nonneg_left h.abs_y R.unit_nonneg
  linarith [h.err]

theorem mul (h : Maj y x A B) (h' : Maj y' x' A' B') : Maj (y * y') (x * x') (A * A') (B * B') := by
  have a0 := (abs_nonneg x).trans h.exact
  have b0 := (abs_nonneg y').trans h'.abs_y
  refine ⟨?_, ?_⟩
  · rw [abs_mul]
    exact mul_le_mul h.exact h'.exact (abs_nonneg _) a0
  · have e : y * y' - x * x' = (y - x) * y' + x * (y' - x') := by ring
    rw [e]
    refine (abs_add_le _ _).trans ?_
    rw [abs_mul, abs_mul]
    have h1 := mul_le_mul h.err h'.abs_y (abs_nonneg _) ((abs_nonneg _).trans h.err)
    have h2 := mul_le_mul h.exact h'.err (abs_nonneg _) a0
    linarith

theorem sub (h : Maj y x A B) (h' : Maj y' x' A' B') : Maj (y - y') (x - x') (A + A') (B + B') := by
  refine ⟨(abs_sub _ _).trans (by linarith [h.exact, h'.exact]), ?_⟩
  have e : y - y' - (x - x') = (y - x) - (y' - x') := by ring
  rw [e]
  exact (abs_sub _ _).trans (by linarith [h.err, h'.err])

/-- The reciprocal of a positive number known up to the relative error `b`. -/
theorem inv {w W b : K} (hW : 0 < W) (hb : b < 1) (h : |w - W| ≤ b * W) :
    0 < w ∧ Maj w⁻¹ W⁻¹ W⁻¹ ((1 - b)⁻¹ * W⁻¹) := by
  have h1 := (abs_le.1 h).1
  have hb' : 0 < 1 - b := by linarith
  have hw : (1 - b) * W ≤ w := by linarith
  have hwp : 0 < w := lt_of_lt_of_le (mul_pos hb' hW) hw
  refine ⟨hwp, by rw [abs_of_pos (inv_pos.2 hW)], ?_⟩
  have e : w⁻¹ - W⁻¹ = (W - w) * (w⁻¹ * W⁻¹) := by field_simp
  have b0 : 0 ≤ b := by
    have := (abs_nonneg _).trans h
    by_contra hc
    push Not at hc
    exact absurd this (not_le.2 (mul_neg_of_neg_of_pos hc hW))
  rw [e, abs_mul, abs_of_pos (mul_pos (inv_pos.2 hwp) (inv_pos.2 hW)), abs_sub_comm]
  have i1 : w⁻¹ ≤ (1 - b)⁻¹ * W⁻¹ := by
    rw [← mul_inv]
    exact inv_anti₀ (mul_pos hb' hW) hw
  calc |w - W| * (w⁻¹ * W⁻¹) ≤ (b * W) * (((1 - b)⁻¹ * W⁻¹) * W⁻¹) := by
        refine mul_le_mul h (mul_le_mul_of_nonneg_right i1 (inv_pos.2 hW).le) ?_ (mul_nonneg b0 hW.le)
        positivity
    _ = (1 - b)⁻¹ * W⁻¹ - W⁻¹ := by field_simp; ring

end Maj

/-- The error of the rounded quotient rule.  `b` is the relative error of the weight; `M`, `D`, `S`
bound the point, the derivative of the numerator and the derivative of the weight, `a`, `x`, `y`
their errors, all relative to the weight. -/
def derivBound (R : Rounding K) (b M a D x S y : K) : K :=
  (1 + R.unit) ^ 2 / (1 - b) * (D + x + (1 + R.unit) ^ 2 / (1 - b) * ((M + a) * (S + y))) - (D + M * S)

theorem derivQuotient_err (R : Rounding K) {x d : Option ι → K} {W b E S y : K} (hW : 0 < W)
    (hw : |x none - W| ≤ b * W) (hb : b < 1) (hE : |E| ≤ S * W) (hd : |d none - E| ≤ y * W) :
    ∃ q, derivQuotient R x d = ok q ∧ ∀ i N D M a T z, |N| ≤ M * W → |x (some i) - N| ≤ a * W →
      |D| ≤ T * W → |d (some i) - D| ≤ z * W →
      |q i - W⁻¹ * (D - W⁻¹ * (E * N))| ≤ derivBound R b M a T z S y := by
  obtain ⟨hpos, hi⟩ := Maj.inv hW hb hw
  refine ⟨_, by unfold derivQuotient; rw [assert_true hpos.ne', ok_bind]; rfl,
    fun i N D M a T z hN hx hD hz => ?_⟩
  have mN : Maj (x (some i)) N (M * W) (M * W + a * W) := ⟨hN, by linarith⟩
  have mE : Maj (d none) E (S * W) (S * W + y * W) := ⟨hE, by linarith⟩
  have mD : Maj (d (some i)) D (T * W) (T * W + z * W) := ⟨hD, by linarith⟩
  have m1 := (((mN.mul mE).rnd R).mul hi).rnd R
  have m2 := (((mD.sub m1).rnd R).mul hi).rnd R
  have h := m2.err
  simp only [div_eq_mul_inv]
  have hb' : 0 < 1 - b := by linarith
  rw [show W⁻¹ * (D - W⁻¹ * (E * N)) = (D - N * E * W⁻¹) * W⁻¹ by ring]
  refine h.trans (le_of_eq ?_)
  unfold derivBound
  field_simp

/-- The homogeneous points as functions, exactly. -/
def homFun (ι : Type) (K : Type) [Field K] : ((ι → K) × K) →ₗ[K] (Option ι → K) where
  toFun x o := match o with
    | some i => x.1 i
    | none => x.2
  map_add' x y := by funext o; cases o <;> rfl
  map_smul' c x := by funext o; cases o <;> rfl

/-- **C88**: the derivative of a NURBS curve of degree `p + 1` with weights between `lo` and `hi`,
`0 < lo`.  `M` bounds the control points, `S` and `T` the control points of the exact derivatives of
the weight and of the numerator, `δ` is the shortest support of their basis functions: the rounding
errors of the products of weights and control points are divided by it. -/
theorem C88_nurbs_derivative_error (R : Rounding K) (hu1 : R.unit < 1) (F G : ℕ → ℕ → Option ι → Fuse)
    {c : NURBS K (ι → K)} (hinit : c.init = ok c) {p : ℕ} (hc : BSpline.WellFormed c.base (p + 1))
    (hper : c.base.periodic = false) (hw : FlWide R c.base (p + 1)) {lo hi : K} (hlo : 0 < lo)
    (hwt : ∀ x ∈ c.weights, lo ≤ x ∧ x ≤ hi) (hcond : (growth R ^ (p + 1) - 1) * (hi / lo) < 1) {t : K}
    (hf : BSpline.FirstSpan c.base (p + 1) ∨ knot c.base.knots (p + 1) < t)
    (h1 : knot c.base.knots (p + 1) ≤ t) (h2 : t ≤ knot c.base.knots c.base.ctrl.length)
    {S δ : K} (hδ : 0 < δ)
    (hgap : ∀ j, j + 1 < c.base.ctrl.length → δ ≤ knot c.base.knots (j + p + 2) - knot c.base.knots (j + 1))
    (hS : ∀ j, j + 1 < c.base.ctrl.length →
      |((p + 1 : ℕ) : K) * (c.weights.getD (j + 1) 0 - c.weights.getD j 0)|
        ≤ S * (knot c.base.knots (j + p + 2) - knot c.base.knots (j + 1))) :
    ∃ q e, nurbsDerivative R F G c.base c.weights t = ok q ∧ c.evaluateDerivative t = ok e ∧
      ∀ i M T, (∀ x ∈ c.base.ctrl, |x i| ≤ M) →
        (∀ j, j + 1 < c.base.ctrl.length →
          |((p + 1 : ℕ) : K) * (c.weights.getD (j + 1) 0 * c.base.ctrl.getD (j + 1) 0 i
              - c.weights.getD j 0 * c.base.ctrl.getD j 0 i)|
            ≤ T * (knot c.base.knots (j + p + 2) - knot c.base.knots (j + 1))) →
        |q i - e i| ≤ derivBound R ((growth R ^ (p + 1) - 1) * (hi / lo)) M
          (((1 + R.unit) * growth R ^ (p + 1) - 1) * (hi / lo) * M) (T / lo)
          (((diffGrowth R * growth R ^ p - 1) * (T + 2 * (p + 1 : ℕ) * R.unit * (hi * M) / δ)
            + 2 * (p + 1 : ℕ) * R.unit * (hi * M) / δ) / lo)
          (S / lo) ((diffGrowth R * growth R ^ p - 1) * S / lo) := by
  obtain ⟨Sy, -, -⟩ := (NURBS.init_iff _ _).1 hinit
  have hlen := Sy.len
  have hu := R.unit_nonneg
  have hl := hc.len
  have hn := hc.ctrl
  set n := c.base.ctrl.length with hnd
  set w := c.weights with hwd
  obtain ⟨x, ex, hWlo, en, HN⟩ := nurbs_hom R hu1 F hc hper hw hlen hlo hwt hf h1 h2
  rw [← hnd] at hWlo en HN
  set W := BSplinePatch.bsum (p + 1) c.base.knots n (fun j => w.getD j 0) t with hW
  have hWpos : 0 < W := lt_of_lt_of_le hlo hWlo
  set h : BSpline K (Option ι → K) :=
    BSpline.mk (homPts R c.base.ctrl w) c.base.knots c.base.periodic c.base.sdeg with hh
  have hhl : h.ctrl.length = n := homPts_length R _ _ hlen
  have hwf : BSpline.WellFormed h (p + 1) := ⟨by rw [hhl]; exact hc.len, hc.sdeg,
    by rw [hhl]; exact hc.ctrl, hc.sorted, by rw [hhl]; exact hc.dom⟩
  have hwide : FlWide R h (p + 1) := by
    intro j j1 j2 j3
    rw [hhl] at j2
    exact hw j j1 j2 j3
  have hhom : c.hom.ctrl.length = n := by rw [Sy.hom]; exact homog_length hlen
  obtain ⟨d, e, ed, ee, HD⟩ := bspline_deriv_axis R hu1 G hwf hper hwide
    (c.hom.ctrl.map (homFun ι K)) (by rw [List.length_map, hhom, hhl]) (t := t) hf h1
    (by rw [hhl]; exact h2)
  rw [hhl] at HD
  -- the exact homogeneous derivative
  have eimg : (BSpline.mk (c.hom.ctrl.map (homFun ι K)) h.knots h.periodic h.sdeg : BSpline K (Option ι → K))
      = BSpline.image (homFun ι K) c.hom := by
    rw [Sy.hom]; rfl
  rw [eimg, BSpline.evaluateDerivative_map, map_eq_ok] at ee
  obtain ⟨e', ee', rfl⟩ := ee
  have hget : ∀ j < n, (c.hom.ctrl.map (homFun ι K)).getD j 0
      = homFun ι K (w.getD j 0 • c.base.ctrl.getD j 0, w.getD j 0) := by
    intro j hj
    have : c.hom.ctrl[j]? = some (w.getD j 0 • c.base.ctrl.getD j 0, w.getD j 0) := by
      rw [Sy.hom]; exact homog_getElem? j hlen hj
    rw [List.getD_eq_getElem?_getD, List.getElem?_map, this]
    rfl
  have hws : BSpline.Wide c.base (p + 1) := hw.wide
  -- the exact homogeneous value
  obtain ⟨x', ex', x2, x1⟩ : ∃ x', c.hom.evaluate t = ok x' ∧ x'.2 = W ∧
      ∀ i, x'.1 i = BSplinePatch.bsum (p + 1) c.base.knots n
        (fun j => w.getD j 0 * c.base.ctrl.getD j 0 i) t := by
    have e := BSpline.evaluate_eq (Sy.wf.2 hc) (Sy.wide.2 hws) (t := t) (t' := t)
      (by rw [Sy.wrap]; simp [BSpline.wrap, hper]) (by rw [Sy.first, Sy.knots]; exact hf)
      (by rw [Sy.knots]; exact h1) (by rw [Sy.knots, Sy.homLen]; exact h2)
    rw [Sy.ctrl, Sy.knots, homog_bsplinePoint hlen] at e
    refine ⟨_, e, ?_, fun i => ?_⟩
    · rw [hW, hlen]
      unfold ratBSplineDen BSplinePatch.bsum
      simp only [smul_eq_mul]
    · unfold BSplinePatch.bsum
      simp only [Finset.sum_apply, Pi.smul_apply, smul_eq_mul, mul_assoc]
      rfl
  have eex : c.evaluateDerivative t = ok (W⁻¹ • (e'.1 - W⁻¹ • (e'.2 • x'.1))) := by
    unfold NURBS.evaluateDerivative
    rw [Sy.validate, BSpline.validate_ok hc, ok_bind, ex', ok_bind, ee', ok_bind]
    unfold quot1
    rw [x2, assert_true hWpos.ne', ok_bind]
    rfl
  have scale : ∀ {z : K}, 0 ≤ z → z ≤ z / lo * W := by
    intro z hz
    rw [div_mul_eq_mul_div, le_div_iff₀ hlo]
    exact mul_le_mul_of_nonneg_left hWlo hz
  obtain ⟨dn, en'⟩ := HD none S 0
    (fun j hj => by rw [hget _ hj, hget _ (by omega)]; exact hS j hj)
    (fun j hj => by
      rw [hget _ hj, hget _ (by omega), hh]
      simp only [homPts_none R _ _ hlen]
      simp [homFun])
  simp only [add_zero] at dn
  have hS0 : 0 ≤ S := (abs_nonneg _).trans en'
  have hg0 := (abs_nonneg _).trans dn
  obtain ⟨q, eq, hq⟩ := derivQuotient_err R (d := d) (S := S / lo)
    (y := (diffGrowth R * growth R ^ p - 1) * S / lo) hWpos en hcond
    (E := e'.2) (en'.trans (scale hS0)) (dn.trans (scale hg0))
  refine ⟨q, _, ?_, eex, fun i M T hM hT => ?_⟩
  · unfold nurbsDerivative
    rw [homogenize_eq R _ _ hlen, ok_bind, BSpline.validate_ok hc, ok_bind, ex, ok_bind, ed, ok_bind, eq]
  · obtain ⟨N1, N2⟩ := HN i M hM
    have hPj : ∀ j < n, |c.base.ctrl.getD j 0 i| ≤ M := by
      intro j hj
      rw [getD_of_lt _ (by omega)]
      exact hM _ (List.getElem_mem _)
    have hwj : ∀ j < n, lo ≤ w.getD j 0 ∧ w.getD j 0 ≤ hi := by
      intro j hj
      rw [getD_of_lt _ (by omega)]
      exact hwt _ (List.getElem_mem _)
    have hM0 : 0 ≤ M := (abs_nonneg _).trans (hPj 0 (by omega))
    have hprod : ∀ j < n, |h.ctrl.getD j 0 (some i) - w.getD j 0 * c.base.ctrl.getD j 0 i|
        ≤ R.unit * (hi * M) := by
      intro j hj
      have := hwj j hj
      rw [hh]
      simp only [homPts_some R _ _ hlen]
      rw [mul_comm (w.getD j 0)]
      refine (R.near _).trans (mul_le_mul_of_nonneg_left ?_ hu)
      rw [abs_mul, abs_of_pos (lt_of_lt_of_le hlo this.1), mul_comm]
      exact mul_le_mul this.2 (hPj j hj) (abs_nonneg _) (by linarith)
    set ν := 2 * (p + 1 : ℕ) * R.unit * (hi * M) / δ with hν
    have hhi : 0 ≤ hi := by have := hwj 0 (by omega); linarith
    have hν0 : 0 ≤ ν := by rw [hν]; positivity
    obtain ⟨ds, es⟩ := HD (some i) T ν
      (fun j hj => by rw [hget _ hj, hget _ (by omega)]; exact hT j hj)
      (fun j hj => by
        rw [hget _ hj, hget _ (by omega)]
        have a1 := hprod (j + 1) hj
        have a0 := hprod j (by omega)
        rw [abs_mul, abs_of_nonneg (by positivity : (0 : K) ≤ ((p + 1 : ℕ) : K))]
        have tri : |h.ctrl.getD (j + 1) 0 (some i) - h.ctrl.getD j 0 (some i)
            - (w.getD (j + 1) 0 * c.base.ctrl.getD (j + 1) 0 i - w.getD j 0 * c.base.ctrl.getD j 0 i)|
            ≤ 2 * (R.unit * (hi * M)) := by
          rw [abs_le] at a0 a1 ⊢
          constructor <;> linarith [a0.1, a0.2, a1.1, a1.2]
        calc _ ≤ ((p + 1 : ℕ) : K) * (2 * (R.unit * (hi * M))) :=
              mul_le_mul_of_nonneg_left tri (by positivity)
          _ = ν * δ := by rw [hν]; field_simp
          _ ≤ _ := mul_le_mul_of_nonneg_left (hgap j hj) hν0)
    have := hq i _ (e'.1 i) M _ (T / lo) _ N1 (N2.trans (le_of_eq (mul_assoc _ _ _).symm))
      (es.trans (scale ((abs_nonneg _).trans es))) (ds.trans (scale ((abs_nonneg _).trans ds)))
    rw [← x1 i] at this
    simpa only [Pi.smul_apply, Pi.sub_apply, smul_eq_mul] using this

/-- The exact derivative of a Bézier curve as a combination of the differences of its points. -/
theorem deriv_bern {V : Type} [AddCommGroup V] [Module K V] (n : ℕ) (P : ℕ → V) (t : K) :
    Bezier.evaluateDerivative { ctrl := arr (n + 2) P } t
      = ok (∑ k ∈ range (n + 1), bernstein n k t • (((n + 1 : ℕ) : K) • (P (k + 1) - P k))) := by
  rw [Bezier.evaluateDerivative_arr, mul_sub, mul_one, map_sub, mul_comm, umb_shift, umb_lin_pow,
    umb_lin_pow, ← sum_sub_distrib, smul_sum]
  congr 1
  refine sum_congr rfl fun k _ => ?_
  rw [← smul_sub, smul_comm]
  push_cast
  rfl

/-- The derivative of a rounded Bézier curve whose points are already perturbed. -/
theorem bezier_deriv_axis (R : Rounding K) (G : ℕ → ℕ → ι → Fuse) (n : ℕ) (Q : ℕ → ι → K) {t : K}
    (h0 : 0 ≤ t) (h1 : t ≤ 1) :
    ∃ q, bezierDerivative R G { ctrl := arr (n + 2) Q } t = ok q ∧ ∀ i (A : ℕ → K) (T ν : K),
      (∀ k ≤ n, |((n + 1 : ℕ) : K) * (A (k + 1) - A k)| ≤ T) →
      (∀ k ≤ n, |((n + 1 : ℕ) : K) * (Q (k + 1) i - Q k i - (A (k + 1) - A k))| ≤ ν) →
      |q i - ∑ k ∈ range (n + 1), bernstein n k t * (((n + 1 : ℕ) : K) * (A (k + 1) - A k))|
          ≤ ((1 + R.unit) ^ (3 * n + 2) - 1) * (T + ν) + ν ∧
        |∑ k ∈ range (n + 1), bernstein n k t * (((n + 1 : ℕ) : K) * (A (k + 1) - A k))| ≤ T := by
  obtain ⟨q, e, hq, he, H⟩ := C82_bezier_derivative_error R G n Q t
  refine ⟨q, hq, fun i A T ν hT hν => ?_⟩
  rw [deriv_bern] at he
  have hb : ∀ k, 0 ≤ bernstein n k t := fun k => by
    unfold bernstein
    have : 0 ≤ 1 - t := by linarith
    positivity
  have avg : ∀ (B : ℕ → K) (C : K), (∀ k ≤ n, B k ≤ C) → ∑ k ∈ range (n + 1), bernstein n k t * B k ≤ C := by
    intro B C hB
    calc _ ≤ ∑ k ∈ range (n + 1), bernstein n k t * C := sum_le_sum fun k hk =>
          mul_le_mul_of_nonneg_left (hB k (by have := mem_range.1 hk; omega)) (hb k)
      _ = C := by rw [← sum_mul, bernstein_sum, one_mul]
  have avgAbs : ∀ (B : ℕ → K) (C : K), (∀ k ≤ n, |B k| ≤ C) →
      |∑ k ∈ range (n + 1), bernstein n k t * B k| ≤ C := by
    intro B C hB
    refine (abs_sum_le_sum_abs _ _).trans ?_
    simp only [abs_mul, abs_of_nonneg (hb _)]
    exact avg _ C hB
  refine ⟨?_, avgAbs _ T hT⟩
  have hei : e i = ∑ k ∈ range (n + 1), bernstein n k t * (((n + 1 : ℕ) : K) * (Q (k + 1) i - Q k i)) := by
    rw [← ok.inj he]
    simp only [Finset.sum_apply, Pi.smul_apply, Pi.sub_apply, smul_eq_mul]
  have a1 : |q i - e i| ≤ ((1 + R.unit) ^ (3 * n + 2) - 1) * (T + ν) := by
    refine (H i).trans (mul_le_mul_of_nonneg_left ?_ ?_)
    · simp only [abs_of_nonneg (hb _)]
      refine avg _ _ fun k hk => ?_
      have := abs_add_le (((n + 1 : ℕ) : K) * (A (k + 1) - A k))
        (((n + 1 : ℕ) : K) * (Q (k + 1) i - Q k i - (A (k + 1) - A k)))
      rw [← mul_add, add_sub_cancel] at this
      exact this.trans (add_le_add (hT k hk) (hν k hk))
    · have := one_le_pow₀ (n := 3 * n + 2) (by linarith [R.unit_nonneg] : 1 ≤ 1 + R.unit)
      linarith
  have a2 : |e i - ∑ k ∈ range (n + 1), bernstein n k t * (((n + 1 : ℕ) : K) * (A (k + 1) - A k))| ≤ ν := by
    rw [hei, ← sum_sub_distrib]
    simp only [← mul_sub]
    exact avgAbs _ ν hν
  have := abs_sub_le (q i) (e i) (∑ k ∈ range (n + 1), bernstein n k t * (((n + 1 : ℕ) : K) * (A (k + 1) - A k)))
  linarith

/-- **C88**: the derivative of a rational Bézier curve of degree `n + 1` with weights between `lo`
and `hi`, `0 < lo`, on the unit interval.  `M` bounds the control points, `S` and `T` the control
points of the exact derivatives of the weight and of the numerator. -/
theorem C88_rational_derivative_error (R : Rounding K) (F G : ℕ → ℕ → Option ι → Fuse)
    {c : RationalBezier K (ι → K)} (hinit : c.init = ok c) {n : ℕ} (hn : c.base.ctrl.length = n + 2)
    (hper : c.base.periodic = false) {lo hi : K} (hlo : 0 < lo)
    (hwt : ∀ x ∈ c.weights, lo ≤ x ∧ x ≤ hi) (hcond : (1 + R.unit) ^ (3 * (n + 1)) < 2) {t : K}
    (h0 : 0 ≤ t) (h1 : t ≤ 1) {S : K}
    (hS : ∀ j ≤ n, |((n + 1 : ℕ) : K) * (c.weights.getD (j + 1) 0 - c.weights.getD j 0)| ≤ S) :
    ∃ q e, rationalDerivative R F G c.base.ctrl c.weights c.base.periodic t = ok q ∧
      c.evaluateDerivative t = ok e ∧ ∀ i M T, (∀ x ∈ c.base.ctrl, |x i| ≤ M) →
        (∀ j ≤ n, |((n + 1 : ℕ) : K) * (c.weights.getD (j + 1) 0 * c.base.ctrl.getD (j + 1) 0 i
            - c.weights.getD j 0 * c.base.ctrl.getD j 0 i)| ≤ T) →
        |q i - e i| ≤ derivBound R ((1 + R.unit) ^ (3 * (n + 1)) - 1) M
          (((1 + R.unit) ^ (3 * (n + 1) + 1) - 1) * M) (T / lo)
          ((((1 + R.unit) ^ (3 * n + 2) - 1) * (T + 2 * (n + 1 : ℕ) * R.unit * (hi * M))
            + 2 * (n + 1 : ℕ) * R.unit * (hi * M)) / lo)
          (S / lo) (((1 + R.unit) ^ (3 * n + 2) - 1) * S / lo) := by
  obtain ⟨Sy, -, -⟩ := (RationalBezier.init_iff _ _).1 hinit
  have hlen := Sy.len
  have hu := R.unit_nonneg
  set P := c.base.ctrl with hPd
  set w := c.weights with hwd
  have hwj : ∀ j < n + 2, lo ≤ w.getD j 0 ∧ w.getD j 0 ≤ hi := by
    intro j hj
    rw [getD_of_lt _ (by omega)]
    exact hwt _ (List.getElem_mem _)
  have hQl : (homPts R P w).length = n + 2 := by rw [homPts_length R P w hlen, hn]
  have hQ : homPts R P w = arr (n + 2) fun j => (homPts R P w).getD j 0 := by
    rw [← hQl]; exact eq_arr _ 0
  -- the exact homogeneous value and derivative
  have hH : homog P w = arr (n + 2) fun j => (w.getD j 0 • P.getD j 0, w.getD j 0) := by
    have e := eq_arr (homog P w) 0
    rw [homog_length hlen, hn] at e
    rw [e]
    congr 1
    funext j
    exact homog_getD j hlen
  set W := bern (n + 1) (fun j => w.getD j 0) t with hW
  set N : ι → K := fun i => bern (n + 1) (fun j => w.getD j 0 * P.getD j 0 i) t with hN
  set E := ∑ k ∈ range (n + 1), bernstein n k t * (((n + 1 : ℕ) : K) * (w.getD (k + 1) 0 - w.getD k 0)) with hE
  set D : ι → K := fun i => ∑ k ∈ range (n + 1), bernstein n k t *
    (((n + 1 : ℕ) : K) * (w.getD (k + 1) 0 * P.getD (k + 1) 0 i - w.getD k 0 * P.getD k 0 i)) with hD
  have ehom : c.hom = { ctrl := arr (n + 2) fun j => (w.getD j 0 • P.getD j 0, w.getD j 0) } := by
    rw [Sy.hom, hper, ← hPd, ← hwd, hH]
  have ex' : c.hom.evaluate t = ok (N, W) := by
    rw [ehom, Bezier.evaluate_arr, umb_lin_pow]
    congr 1
    ext i
    · simp [hN, bern, Prod.fst_sum, Finset.sum_apply]
    · simp [hW, bern, Prod.snd_sum]
  have ee' : c.hom.evaluateDerivative t = ok (D, E) := by
    rw [ehom, deriv_bern]
    congr 1
    ext i
    · simp [hD, Prod.fst_sum, Finset.sum_apply]
    · simp [hE, Prod.snd_sum]
  have hb : ∀ k, 0 ≤ bernstein (n + 1) k t := fun k => by
    unfold bernstein
    have : 0 ≤ 1 - t := by linarith
    positivity
  have hWlo : lo ≤ W := by
    calc lo = ∑ k ∈ range (n + 1 + 1), bernstein (n + 1) k t * lo := by
          rw [← sum_mul, bernstein_sum, one_mul]
      _ ≤ W := sum_le_sum fun k hk => mul_le_mul_of_nonneg_left
          (hwj k (by have := mem_range.1 hk; omega)).1 (hb k)
  have hWpos : 0 < W := lt_of_lt_of_le hlo hWlo
  have eex : c.evaluateDerivative t = ok (W⁻¹ • (D - W⁻¹ • (E • N))) := by
    unfold RationalBezier.evaluateDerivative
    rw [Sy.validate, ok_bind, ex', ok_bind, ee', ok_bind]
    unfold quot1
    rw [assert_true hWpos.ne', ok_bind]
    rfl
  -- the rounded ones
  obtain ⟨x, ex, HX⟩ := bezier_axis R F (n + 1) (fun j => (homPts R P w).getD j 0) false
    (t := t) (t' := t) (by simp [bezierWrap]) h0 h1
  obtain ⟨d, ed, HD⟩ := bezier_deriv_axis R G n (fun j => (homPts R P w).getD j 0) h0 h1
  rw [← hQ] at ex ed
  have en := (HX none 1 (fun j => w.getD j 0) (fun j => w.getD j 0) le_rfl
    (fun j hj => le_of_eq (abs_of_nonneg (by have := hwj j (by omega); linarith)))
    (fun j _ => by rw [sub_self, zero_mul, homPts_none R _ _ hlen, sub_self, abs_zero])).1
  rw [one_mul, ← hW] at en
  have scale : ∀ {z : K}, 0 ≤ z → z ≤ z / lo * W := by
    intro z hz
    rw [div_mul_eq_mul_div, le_div_iff₀ hlo]
    exact mul_le_mul_of_nonneg_left hWlo hz
  obtain ⟨dn, en'⟩ := HD none (fun j => w.getD j 0) S 0 hS
    (fun j _ => by rw [homPts_none R _ _ hlen, homPts_none R _ _ hlen, sub_self, mul_zero, abs_zero])
  simp only [add_zero] at dn
  obtain ⟨q, eq, hq⟩ := derivQuotient_err R (d := d) (S := S / lo)
    (y := ((1 + R.unit) ^ (3 * n + 2) - 1) * S / lo) hWpos en (by linarith)
    (E := E) (en'.trans (scale ((abs_nonneg _).trans en'))) (dn.trans (scale ((abs_nonneg _).trans dn)))
  refine ⟨q, _, ?_, eex, fun i M T hM hT => ?_⟩
  · unfold rationalDerivative
    rw [homogenize_eq R _ _ hlen, ok_bind, hper, ex, ok_bind, ed, ok_bind, eq]
  · have hPj : ∀ j < n + 2, |P.getD j 0 i| ≤ M := by
      intro j hj
      rw [getD_of_lt _ (by omega)]
      exact hM _ (List.getElem_mem _)
    have hprodM : ∀ j < n + 2, |w.getD j 0 * P.getD j 0 i| ≤ M * w.getD j 0 := by
      intro j hj
      have := hwj j hj
      rw [abs_mul, abs_of_pos (lt_of_lt_of_le hlo this.1), mul_comm]
      exact mul_le_mul_of_nonneg_right (hPj j hj) (by linarith)
    have hM0 : 0 ≤ M := (abs_nonneg _).trans (hPj 0 (by omega))
    have near : ∀ j, |(homPts R P w).getD j 0 (some i) - w.getD j 0 * P.getD j 0 i|
        ≤ R.unit * |w.getD j 0 * P.getD j 0 i| := by
      intro j
      rw [homPts_some R _ _ hlen, mul_comm (w.getD j 0)]
      exact R.near _
    have hprod : ∀ j < n + 2, |(homPts R P w).getD j 0 (some i) - w.getD j 0 * P.getD j 0 i|
        ≤ R.unit * (hi * M) := by
      intro j hj
      refine (near j).trans (mul_le_mul_of_nonneg_left ((hprodM j hj).trans ?_) hu)
      rw [mul_comm]
      exact mul_le_mul_of_nonneg_right (hwj j hj).2 hM0
    obtain ⟨es, bs⟩ := HX (some i) (1 + R.unit) (fun j => w.getD j 0 * P.getD j 0 i)
      (fun j => M * w.getD j 0) (by linarith) (fun j hj => hprodM j (by omega))
      (fun j hj => by
        rw [add_sub_cancel_left]
        exact (near j).trans (mul_le_mul_of_nonneg_left (hprodM j (by omega)) hu))
    have eM : bern (n + 1) (fun j => M * w.getD j 0) t = M * W := by
      rw [hW, bern, bern, mul_sum]
      exact sum_congr rfl fun k _ => by ring
    rw [eM] at es bs
    rw [← pow_succ'] at es
    obtain ⟨ds, ds'⟩ := HD (some i) (fun j => w.getD j 0 * P.getD j 0 i) T
      (2 * (n + 1 : ℕ) * R.unit * (hi * M)) hT
      (fun k hk => by
        have a1 := hprod (k + 1) (by omega)
        have a0 := hprod k (by omega)
        rw [abs_mul, abs_of_nonneg (by positivity : (0 : K) ≤ ((n + 1 : ℕ) : K))]
        have tri : |(homPts R P w).getD (k + 1) 0 (some i) - (homPts R P w).getD k 0 (some i)
            - (w.getD (k + 1) 0 * P.getD (k + 1) 0 i - w.getD k 0 * P.getD k 0 i)|
            ≤ 2 * (R.unit * (hi * M)) := by
          rw [abs_le] at a0 a1 ⊢
          constructor <;> linarith [a0.1, a0.2, a1.1, a1.2]
        calc _ ≤ ((n + 1 : ℕ) : K) * (2 * (R.unit * (hi * M))) :=
              mul_le_mul_of_nonneg_left tri (by positivity)
          _ = _ := by ring)
    have := hq i (N i) (D i) M _ (T / lo) _ bs (es.trans (le_of_eq (mul_assoc _ _ _).symm))
      (ds'.trans (scale ((abs_nonneg _).trans ds'))) (ds.trans (scale ((abs_nonneg _).trans ds)))
    simpa only [Pi.smul_apply, Pi.sub_apply, smul_eq_mul] using this

/-- A bound for finitely many numbers. -/
theorem exists_bound (n : ℕ) (f : ℕ → K) : ∃ M, 0 ≤ M ∧ ∀ j ≤ n, |f j| ≤ M :=
  ⟨∑ j ∈ range (n + 1), |f j|, sum_nonneg fun _ _ => abs_nonneg _, fun j hj =>
    single_le_sum (f := fun j => |f j|) (fun _ _ => abs_nonneg _) (mem_range.2 (by omega))⟩

theorem exists_list_bound {α : Type} (f : α → K) (l : List α) : ∃ M, ∀ x ∈ l, |f x| ≤ M := by
  induction l with
  | nil => exact ⟨0, fun _ h => by simp at h⟩
  | cons a l ih =>
    obtain ⟨M, hM⟩ := ih
    exact ⟨max |f a| M, fun x hx => by
      rcases List.mem_cons.1 hx with rfl | h
      · exact le_max_left _ _
      · exact (hM x h).trans (le_max_right _ _)⟩

theorem exists_weight_bounds {w : List K} (hw : ∀ x ∈ w, 0 < x) :
    ∃ lo hi, 0 < lo ∧ ∀ x ∈ w, lo ≤ x ∧ x ≤ hi := by
  induction w with
  | nil => exact ⟨1, 1, one_pos, fun _ h => by simp at h⟩
  | cons a w ih =>
    obtain ⟨lo, hi, h0, H⟩ := ih fun x hx => hw x (List.mem_cons_of_mem _ hx)
    refine ⟨min a lo, max a hi, lt_min (hw a (List.mem_cons_self ..)) h0, fun x hx => ?_⟩
    rcases List.mem_cons.1 hx with rfl | h
    · exact ⟨min_le_left _ _, le_max_left _ _⟩
    · exact ⟨(min_le_right _ _).trans (H x h).1, (H x h).2.trans (le_max_right _ _)⟩

/-- C88: with exact arithmetic the model with rounded arithmetic computes the derivative of the
rational Bézier curve. -/
theorem C88_exact_arithmetic_rational_derivative (F G : ℕ → ℕ → Option ι → Fuse)
    {c : RationalBezier K (ι → K)} (hinit : c.init = ok c) (hn : 2 ≤ c.base.ctrl.length)
    (hper : c.base.periodic = false) (hwt : ∀ x ∈ c.weights, 0 < x) {t : K} (h0 : 0 ≤ t) (h1 : t ≤ 1) :
    rationalDerivative Rounding.exact F G c.base.ctrl c.weights c.base.periodic t
      = c.evaluateDerivative t := by
  obtain ⟨n, hn⟩ : ∃ n, c.base.ctrl.length = n + 2 := ⟨c.base.ctrl.length - 2, by omega⟩
  have hu : (Rounding.exact : Rounding K).unit = 0 := rfl
  obtain ⟨lo, hi, hlo, hw⟩ := exists_weight_bounds hwt
  obtain ⟨S, -, hS⟩ := exists_bound n fun j =>
    ((n + 1 : ℕ) : K) * (c.weights.getD (j + 1) 0 - c.weights.getD j 0)
  obtain ⟨q, e, hq, he, H⟩ := C88_rational_derivative_error Rounding.exact F G hinit hn hper hlo hw
    (by rw [hu]; norm_num) h0 h1 hS
  rw [hq, he]
  congr 1
  funext i
  obtain ⟨M, hM⟩ := exists_list_bound (fun x : ι → K => x i) c.base.ctrl
  obtain ⟨T, -, hT⟩ := exists_bound n fun j =>
    ((n + 1 : ℕ) : K) * (c.weights.getD (j + 1) 0 * c.base.ctrl.getD (j + 1) 0 i
      - c.weights.getD j 0 * c.base.ctrl.getD j 0 i)
  have := H i M T hM hT
  simp [derivBound, hu] at this
  linarith

/-- C88: the same for NURBS curves. -/
theorem C88_exact_arithmetic_nurbs_derivative (F G : ℕ → ℕ → Option ι → Fuse)
    {c : NURBS K (ι → K)} (hinit : c.init = ok c) {p : ℕ} (hc : BSpline.WellFormed c.base (p + 1))
    (hper : c.base.periodic = false) (hw : BSpline.Wide c.base (p + 1)) (hwt : ∀ x ∈ c.weights, 0 < x)
    (hgap : ∀ j, j + 1 < c.base.ctrl.length → knot c.base.knots (j + 1) < knot c.base.knots (j + p + 2))
    {t : K} (hf : BSpline.FirstSpan c.base (p + 1) ∨ knot c.base.knots (p + 1) < t)
    (h1 : knot c.base.knots (p + 1) ≤ t) (h2 : t ≤ knot c.base.knots c.base.ctrl.length) :
    nurbsDerivative Rounding.exact F G c.base c.weights t = c.evaluateDerivative t := by
  have hu : (Rounding.exact : Rounding K).unit = 0 := rfl
  have hg : growth (Rounding.exact : Rounding K) = 1 := by unfold growth; rw [hu]; norm_num
  have hg' : diffGrowth (Rounding.exact : Rounding K) = 1 := by unfold diffGrowth; rw [hu]; norm_num
  obtain ⟨lo, hi, hlo, hwb⟩ := exists_weight_bounds hwt
  set n := c.base.ctrl.length with hn
  set g : ℕ → K := fun j => knot c.base.knots (j + p + 2) - knot c.base.knots (j + 1) with hgd
  have gpos : ∀ j, j + 1 < n → 0 < g j := fun j hj => sub_pos.2 (hgap j hj)
  have rel : ∀ f : ℕ → K, ∃ S, ∀ j, j + 1 < n → |f j| ≤ S * g j := by
    intro f
    obtain ⟨S, -, hS⟩ := exists_bound n fun j => f j / g j
    refine ⟨S, fun j hj => ?_⟩
    have := hS j (by omega)
    rwa [abs_div, abs_of_pos (gpos j hj), div_le_iff₀ (gpos j hj)] at this
  obtain ⟨δ, hδ, hgap'⟩ : ∃ δ, 0 < δ ∧ ∀ j, j + 1 < n → δ ≤ g j := by
    obtain ⟨D, hD0, hD⟩ := exists_bound n fun j => (g j)⁻¹
    refine ⟨(D + 1)⁻¹, by positivity, fun j hj => ?_⟩
    have := hD j (by omega)
    rw [abs_of_pos (inv_pos.2 (gpos j hj))] at this
    exact inv_le_of_inv_le₀ (gpos j hj) (by linarith)
  obtain ⟨S, hS⟩ := rel fun j => ((p + 1 : ℕ) : K) * (c.weights.getD (j + 1) 0 - c.weights.getD j 0)
  obtain ⟨q, e, hq, he, H⟩ := C88_nurbs_derivative_error Rounding.exact (by rw [hu]; exact one_pos) F G
    hinit hc hper (fun i a b d => hw i a b d) hlo hwb (by rw [hg]; simp) hf h1 h2 hδ hgap' hS
  rw [hq, he]
  congr 1
  funext i
  obtain ⟨M, hM⟩ := exists_list_bound (fun x : ι → K => x i) c.base.ctrl
  obtain ⟨T, hT⟩ := rel fun j =>
    ((p + 1 : ℕ) : K) * (c.weights.getD (j + 1) 0 * c.base.ctrl.getD (j + 1) 0 i
      - c.weights.getD j 0 * c.base.ctrl.getD j 0 i)
  have := H i M T hM hT
  simp [derivBound, hu, hg, hg'] at this
  linarith

end General

/-! ### Concrete cases -/

section Examples

/-- The bound vanishes in exact arithmetic. -/
example (M T S : ℚ) : derivBound (Rounding.exact : Rounding ℚ) 0 M 0 T 0 S 0 = 0 := by
  simp [derivBound, Rounding.exact]

/-- A rational curve of degree two with weights from `0.1` to `2`. -/
def someRational : RationalBezier ℚ (Fin 1 → ℚ) :=
  { base := { ctrl := someCtrl }, weights := [tenth, 1, 2],
    hom := { ctrl := homog someCtrl [tenth, 1, 2] } }

/-- The hypotheses of `C88_rational_derivative_error` in double precision. -/
example : someRational.init = ok someRational ∧ someRational.base.ctrl.length = 1 + 2 ∧
    (∀ x ∈ someRational.weights, tenth ≤ x ∧ x ≤ 2) ∧ (1 + double.unit) ^ (3 * (1 + 1)) < 2 ∧
    (∀ j ≤ 1, |((1 + 1 : ℕ) : ℚ) * (someRational.weights.getD (j + 1) 0
      - someRational.weights.getD j 0)| ≤ 2) := by
  refine ⟨RationalBezier.Sync.init ⟨rfl, rfl⟩, rfl, by decide +kernel, by decide +kernel, ?_⟩
  intro j hj
  interval_cases j <;> decide +kernel

/-- The NURBS curve of degree one on `[-1, 3]` with weights from `0.1` to `2`. -/
def someNurbs : NURBS ℚ (Fin 1 → ℚ) :=
  { base := someSpline, weights := [tenth, 1, 2],
    hom := BSpline.mk (homog someSpline.ctrl [tenth, 1, 2]) someSpline.knots someSpline.periodic
      someSpline.sdeg }

/-- The hypotheses of `C88_nurbs_derivative_error` in double precision. -/
example : someNurbs.init = ok someNurbs ∧ BSpline.WellFormed someNurbs.base (0 + 1) ∧
    FlWide double someNurbs.base 1 ∧ BSpline.FirstSpan someNurbs.base 1 ∧
    (∀ x ∈ someNurbs.weights, tenth ≤ x ∧ x ≤ 2) ∧ (growth double ^ 1 - 1) * (2 / tenth) < 1 ∧
    (∀ j, j + 1 < 3 → 1 ≤ knot someNurbs.base.knots (j + 0 + 2) - knot someNurbs.base.knots (j + 1)) ∧
    (∀ j, j + 1 < 3 → |((0 + 1 : ℕ) : ℚ) * (someNurbs.weights.getD (j + 1) 0
        - someNurbs.weights.getD j 0)|
      ≤ 1 * (knot someNurbs.base.knots (j + 0 + 2) - knot someNurbs.base.knots (j + 1))) := by
  refine ⟨NURBS.Sync.init ⟨rfl, rfl⟩, someSpline_wf, ?_, by unfold BSpline.FirstSpan; decide +kernel,
    by decide +kernel, by decide +kernel, ?_, ?_⟩
  · intro i h1 h2 _
    have h2 : i < 3 := h2
    interval_cases i <;> decide +kernel
  · intro j hj
    have : j < 2 := by omega
    interval_cases j <;> decide +kernel
  · intro j hj
    have : j < 2 := by omega
    interval_cases j <;> decide +kernel

/-- On that curve the bound is below `10⁻¹⁰`: points, weights and their differences below four. -/
example : derivBound double ((growth double ^ 1 - 1) * (2 / tenth)) 4
    (((1 + double.unit) * growth double ^ 1 - 1) * (2 / tenth) * 4) (8 / tenth)
    (((diffGrowth double * growth double ^ 0 - 1) * (8 + 2 * (0 + 1 : ℕ) * double.unit * (2 * 4) / 1)
      + 2 * (0 + 1 : ℕ) * double.unit * (2 * 4) / 1) / tenth) (1 / tenth)
    ((diffGrowth double * growth double ^ 0 - 1) * 1 / tenth) < 1 / 10 ^ 10 := by
  decide +kernel

end Examples

end NS.Fl
