import Mathlib.Data.Rat.Floor
import Mathlib.LinearAlgebra.Lagrange
import Verif.Proof.BezierEval
import Verif.Proof.BezierPatch
import Verif.Proof.BSplinePatch
import Verif.Proof.LeastSquares

/-! # C56: least-squares matrices, fitting and deforming -/

set_option linter.unusedSectionVars false

namespace NS
namespace Props

open Outcome Spec LeastSquares

variable {K V : Type} [Field K] [LinearOrder K] [IsStrictOrderedRing K] [FloorRing K]
  [AddCommGroup V] [Module K V]

/-- Row `i` of `M P`. -/
def rowApply (n : ℕ) (M : List (List K)) (P : List V) (i : ℕ) : V :=
  ∑ j ∈ Finset.range n, (M.getD i []).getD j 0 • P.getD j 0

theorem rowApply_arr {m n : ℕ} (B : ℕ → ℕ → K) (P : List V) {i : ℕ} (hi : i < m) :
    rowApply n (arr m fun i => arr n fun j => B i j) P i
      = ∑ j ∈ Finset.range n, B i j • P.getD j 0 := by
  have := residual_arr (n := n) B P [] hi
  simpa [residual, rowApply] using this

/-- `M` is an `m × n` matrix. -/
def IsMatrix (m n : ℕ) (M : List (List K)) : Prop := M.length = m ∧ ∀ row ∈ M, row.length = n

theorem isMatrix_arr (m n : ℕ) (B : ℕ → ℕ → K) : IsMatrix m n (arr m fun i => arr n fun j => B i j) := by
  refine ⟨by simp, fun row h => ?_⟩
  obtain ⟨i, _, rfl⟩ := List.mem_map.1 h
  simp

/-- The hypothesis on the solver is satisfiable: an exact solution is a least-squares solution. -/
theorem isLeastSquares_of_exact {m n : ℕ} {M : List (List K)} {Q Y : List V} (hQ : Q.length = n)
    (h : ∀ i < m, residual n M Q Y i = 0) : IsLeastSquares m n M Q Y := by
  refine ⟨hQ, fun X _ φ => ?_⟩
  rw [Finset.sum_eq_zero fun i hi => by rw [h i (Finset.mem_range.1 hi)]; simp]
  exact Finset.sum_nonneg fun i _ => sq_nonneg _

/-! ### Bezier curves -/

theorem bezier_basis (deg : ℕ) (params : List K) :
    ∃ B : ℕ → ℕ → K, bezierMatrix deg params = ok (arr params.length fun i => arr (deg + 1) fun j => B i j) ∧
      ∀ (W : Type) [AddCommGroup W] [Module K W] (Q : List W), Q.length = deg + 1 →
        ∀ i (hi : i < params.length), (Bezier.mk Q false).evaluate params[i]
          = ok (∑ j ∈ Finset.range (deg + 1), B i j • Q.getD j 0) := by
  obtain ⟨B, h1, h2⟩ := basis (V := K) (n := deg + 1) (params := params)
    (ev := fun V [AddCommGroup V] [Module K V] l t => (Bezier.mk l false).evaluate t)
    (P := List.replicate (deg + 1) 0) natural_bezier (by simp)
    (fun t _ => ⟨_, Bezier.evaluate_eq _ (by simp) t⟩)
  refine ⟨B, ?_, h2⟩
  unfold bezierMatrix
  simp only
  rw [columns_eq h1, ok_bind, pure_eq]

/-- C56: the matrix of any parameter list has one row per parameter; applied to any control points
it gives the points of the curve at the parameters. -/
theorem C56_bezier_matrix (deg : ℕ) (params : List K) :
    ∃ M, bezierMatrix deg params = ok M ∧ IsMatrix params.length (deg + 1) M ∧
      ∀ P : List V, P.length = deg + 1 → ∀ i (hi : i < params.length),
        (Bezier.mk P false).evaluate params[i] = ok (rowApply (deg + 1) M P i) := by
  obtain ⟨B, h1, h2⟩ := bezier_basis deg params
  refine ⟨_, h1, isMatrix_arr _ _ _, fun P hP i hi => ?_⟩
  rw [rowApply_arr B P hi]
  exact h2 V P hP i hi

example : bezierMatrix 2 [(0 : ℚ), 1 / 2, 2] = ok [[1, 0, 0], [1 / 4, 1 / 2, 1 / 4], [1, -4, 4]] := by
  decide +kernel

/-- C56: fitting samples of a curve of the same degree gives a curve through the samples. -/
theorem C56_bezier_fit (solve : List (List K) → List V → List V) (deg : ℕ) {params : List K}
    {values Q : List V} (hl : params.length = values.length)
    (hsolve : ∀ M, bezierMatrix deg params = ok M →
      IsLeastSquares params.length (deg + 1) M (solve M values) values)
    (hQ : Q.length = deg + 1)
    (hs : ∀ i (hi : i < params.length), (Bezier.mk Q false).evaluate params[i] = rd values i) :
    ∃ c, bezierFit solve deg params values = ok c ∧ c.ctrl.length = deg + 1 ∧ c.periodic = false ∧
      ∀ i (hi : i < params.length), c.evaluate params[i] = rd values i := by
  obtain ⟨B, h1, h2⟩ := bezier_basis deg params
  have hL := hsolve _ h1
  refine ⟨_, by rw [bezierFit, assert_true hl, ok_bind, h1, ok_bind, pure_eq], hL.1, rfl,
    fun i hi => ?_⟩
  have h3 := exact hL hQ (fun i hi => (residual_zero_iff hi hl.symm (h2 V Q hQ i hi)).2 (hs i hi)) i hi
  exact (residual_zero_iff hi hl.symm (h2 V _ hL.1 i hi)).1 h3

/-- The Bernstein sum vanishing at more parameters than its degree has zero coefficients. -/
theorem bernstein_unique {n : ℕ} (d : ℕ → K) (S : Finset K) (hS : n < S.card)
    (h : ∀ t ∈ S, ∑ j ∈ Finset.range (n + 1), (n.choose j : K) * t ^ j * (1 - t) ^ (n - j) * d j = 0) :
    ∀ j < n + 1, d j = 0 := by
  have hch : ∀ j < n + 1, (n.choose j : K) ≠ 0 := fun j hj =>
    Nat.cast_ne_zero.2 (Nat.choose_pos (by omega)).ne'
  -- the polynomial in `s = t / (1 - t)`
  let q : Polynomial K := ∑ j ∈ Finset.range (n + 1), Polynomial.C ((n.choose j : K) * d j) * Polynomial.X ^ j
  have hcoeff : ∀ j < n + 1, q.coeff j = (n.choose j : K) * d j := by
    intro j hj
    simp only [q, Polynomial.finsetSum_coeff, Polynomial.coeff_C_mul, Polynomial.coeff_X_pow]
    rw [Finset.sum_eq_single j]
    · simp
    · intro k _ hk
      simp [Ne.symm hk]
    · intro h
      exact absurd (Finset.mem_range.2 hj) h
  have hroot : ∀ t ∈ S, t ≠ 1 → q.eval (t / (1 - t)) = 0 := by
    intro t ht h1
    have h1' : 1 - t ≠ 0 := sub_ne_zero.2 (Ne.symm h1)
    have h2 : (1 - t) ^ n * q.eval (t / (1 - t)) = 0 := by
      rw [← h t ht]
      simp only [q, Polynomial.eval_finsetSum, Polynomial.eval_mul, Polynomial.eval_C,
        Polynomial.eval_pow, Polynomial.eval_X]
      rw [Finset.mul_sum]
      refine Finset.sum_congr rfl fun j hj => ?_
      have hj' : j ≤ n := by have := Finset.mem_range.1 hj; omega
      have h3 : (1 - t) ^ n = (1 - t) ^ (n - j) * (1 - t) ^ j := by
        rw [← pow_add]; congr 1; omega
      rw [h3, div_pow]
      field_simp
    exact (mul_eq_zero.1 h2).resolve_left (pow_ne_zero _ h1')
  have hinj : Set.InjOn (fun t : K => t / (1 - t)) (S.erase 1 : Finset K) := by
    intro a ha b hb hab
    have ha' : 1 - a ≠ 0 := sub_ne_zero.2 (Ne.symm (Finset.ne_of_mem_erase ha))
    have hb' : 1 - b ≠ 0 := sub_ne_zero.2 (Ne.symm (Finset.ne_of_mem_erase hb))
    simp only at hab
    rw [div_eq_div_iff ha' hb'] at hab
    linear_combination hab
  have hdeg : q.degree < ((n + 1 : ℕ) : WithBot ℕ) := by
    refine (Polynomial.degree_lt_iff_coeff_zero q (n + 1)).2 fun m hm => ?_
    simp only [q, Polynomial.finsetSum_coeff, Polynomial.coeff_C_mul, Polynomial.coeff_X_pow]
    refine Finset.sum_eq_zero fun k hk => ?_
    have := Finset.mem_range.1 hk
    have : ¬ m = k := by omega
    simp [this]
  have hcard : ((S.erase 1).image fun t : K => t / (1 - t)).card = (S.erase 1).card :=
    Finset.card_image_of_injOn hinj
  have hq : q = 0 := by
    by_cases h1 : (1 : K) ∈ S
    · -- the parameter 1 gives the last coefficient
      have hn : d n = 0 := by
        have h2 := h 1 h1
        rw [Finset.sum_eq_single n] at h2
        · simpa using h2
        · intro j hj hjn
          have := Finset.mem_range.1 hj
          have : n - j ≠ 0 := by omega
          simp [this]
        · simp
      have hdeg' : q.degree < ((n : ℕ) : WithBot ℕ) := by
        refine (Polynomial.degree_lt_iff_coeff_zero q n).2 fun m hm => ?_
        rcases Nat.lt_or_ge m (n + 1) with h3 | h3
        · obtain rfl : m = n := by omega
          rw [hcoeff m h3, hn, mul_zero]
        · exact (Polynomial.degree_lt_iff_coeff_zero q (n + 1)).1 hdeg m h3
      refine Polynomial.eq_zero_of_degree_lt_of_eval_finset_eq_zero
        ((S.erase 1).image fun t : K => t / (1 - t)) (hdeg'.trans_le ?_) ?_
      · rw [hcard, Finset.card_erase_of_mem h1]
        exact_mod_cast (by omega : n ≤ S.card - 1)
      · intro x hx
        obtain ⟨t, ht, rfl⟩ := Finset.mem_image.1 hx
        exact hroot t (Finset.mem_of_mem_erase ht) (Finset.ne_of_mem_erase ht)
    · refine Polynomial.eq_zero_of_degree_lt_of_eval_finset_eq_zero
        ((S.erase 1).image fun t : K => t / (1 - t)) (hdeg.trans_le ?_) ?_
      · rw [hcard, Finset.erase_eq_of_notMem h1]
        exact_mod_cast (by omega : n + 1 ≤ S.card)
      · intro x hx
        obtain ⟨t, ht, rfl⟩ := Finset.mem_image.1 hx
        exact hroot t (Finset.mem_of_mem_erase ht) (Finset.ne_of_mem_erase ht)
  intro j hj
  have := hcoeff j hj
  rw [hq, Polynomial.coeff_zero] at this
  exact (mul_eq_zero.1 this.symm).resolve_left (hch j hj)

/-- C56: with more distinct parameters than the degree the fit returns the sampled curve itself. -/
theorem C56_bezier_fit_unique (solve : List (List K) → List V → List V) (deg : ℕ) {params : List K}
    {values Q : List V} (hl : params.length = values.length)
    (hsolve : ∀ M, bezierMatrix deg params = ok M →
      IsLeastSquares params.length (deg + 1) M (solve M values) values)
    (hQ : Q.length = deg + 1) (hd : deg < params.toFinset.card)
    (hs : ∀ i (hi : i < params.length), (Bezier.mk Q false).evaluate params[i] = rd values i) :
    bezierFit solve deg params values = ok (Bezier.mk Q false) := by
  obtain ⟨c, h1, h2, h3, h4⟩ := C56_bezier_fit solve deg hl hsolve hQ hs
  rw [h1]
  obtain ⟨P, per⟩ := c
  simp only at h2 h3
  subst h3
  congr 2
  have key : ∀ φ : V →ₗ[K] K, ∀ j < deg + 1, φ (P.getD j 0 - Q.getD j 0) = 0 := by
    intro φ
    refine bernstein_unique (n := deg) (fun j => φ (P.getD j 0 - Q.getD j 0)) params.toFinset hd ?_
    intro t ht
    obtain ⟨i, hi, rfl⟩ := List.getElem_of_mem (List.mem_toFinset.1 ht)
    have h5 := (h4 i hi).trans (hs i hi).symm
    rw [Bezier.evaluate_eq P (by intro h; simp [h] at h2) _,
      Bezier.evaluate_eq Q (by intro h; simp [h] at hQ) _, ok.injEq] at h5
    have hP' := eq_arr P 0
    have hQ' := eq_arr Q 0
    rw [h2] at hP'
    rw [hQ] at hQ'
    rw [hP', hQ', Bezier.arr_bezierPoint, Bezier.arr_bezierPoint] at h5
    rw [umb_lin_pow, umb_lin_pow] at h5
    have h6 := congrArg φ h5
    rw [map_sum, map_sum, ← sub_eq_zero, ← Finset.sum_sub_distrib] at h6
    rw [← h6]
    refine Finset.sum_congr rfl fun j _ => ?_
    simp only [map_smul, smul_eq_mul, bernstein, map_sub]
    ring
  apply List.ext_getElem (by omega)
  intro j hj1 hj2
  have := (Module.forall_dual_apply_eq_zero_iff K (P.getD j 0 - Q.getD j 0)).1
    (fun φ => key φ j (by omega))
  rw [sub_eq_zero] at this
  simpa [List.getD, hj1, hj2] using this


example : (Bezier.mk [(0 : ℚ), 3, 2] false).evaluate (1 / 2 : ℚ) = rd [(0 : ℚ), 2, 2] 1 ∧
    2 < ([0, 1 / 2, 1] : List ℚ).toFinset.card := by
  decide +kernel

/-- The sum of two linear combinations. -/
theorem sum_zipWith {n : ℕ} {P D : List V} (hP : P.length = n) (hD : D.length = n) (w : ℕ → K) :
    ∑ j ∈ Finset.range n, w j • (List.zipWith (· + ·) P D).getD j 0
      = (∑ j ∈ Finset.range n, w j • P.getD j 0) + ∑ j ∈ Finset.range n, w j • D.getD j 0 := by
  rw [← Finset.sum_add_distrib]
  refine Finset.sum_congr rfl fun j hj => ?_
  rw [getD_zipWith_add hP hD (Finset.mem_range.1 hj), smul_add]

/-- C56: deforming by changes that some curve of the degree attains moves the curve by exactly these
changes at the parameters. -/
theorem C56_bezier_deform (solve : List (List K) → List V → List V) {deg : ℕ} {params : List K}
    {c : Bezier V} {changes Q : List V} (hc : c.ctrl.length = deg + 1) (hper : c.periodic = false)
    (hl : params.length = changes.length)
    (hsolve : ∀ M, bezierMatrix deg params = ok M →
      IsLeastSquares params.length (deg + 1) M (solve M changes) changes)
    (hQ : Q.length = deg + 1)
    (hs : ∀ i (hi : i < params.length), (Bezier.mk Q false).evaluate params[i] = rd changes i) :
    ∃ c', bezierDeform solve deg c params changes = ok c' ∧ c'.ctrl.length = deg + 1 ∧
      c'.periodic = false ∧
      ∀ i (hi : i < params.length), ∃ x d, c.evaluate params[i] = ok x ∧ rd changes i = ok d ∧
        c'.evaluate params[i] = ok (x + d) := by
  obtain ⟨d, h1, h2, h3, h4⟩ := C56_bezier_fit solve deg hl hsolve hQ hs
  obtain ⟨B, _, hB⟩ := bezier_basis deg params
  obtain ⟨P, per⟩ := c
  obtain ⟨D, perD⟩ := d
  simp only at hc hper h2 h3
  subst hper h3
  refine ⟨⟨List.zipWith (· + ·) P D, false⟩, ?_, by simp [hc, h2], rfl, fun i hi => ?_⟩
  · rw [bezierDeform, h1, ok_bind, assert_true (by simp [hc, h2]), ok_bind, pure_eq]
  · refine ⟨_, _, hB V P hc i hi, (h4 i hi).symm.trans (hB V D h2 i hi), ?_⟩
    rw [hB V _ (by simp [hc, h2]) i hi, sum_zipWith hc h2]

/-! ### B-spline curves -/

theorem bspline_basis {d n : ℕ} {knots params : List K} (hn : knots.length = n + d + 1) {P : List V}
    (hP : P.length = n)
    (hok : ∀ t ∈ params, ∃ x, (BSpline.mk P knots false (some d)).evaluate t = ok x) :
    ∃ B : ℕ → ℕ → K,
      bsplineMatrix (some d) n knots params = ok (arr params.length fun i => arr n fun j => B i j) ∧
      ∀ (W : Type) [AddCommGroup W] [Module K W] (Q : List W), Q.length = n →
        ∀ i (hi : i < params.length), (BSpline.mk Q knots false (some d)).evaluate params[i]
          = ok (∑ j ∈ Finset.range n, B i j • Q.getD j 0) := by
  obtain ⟨B, h1, h2⟩ := basis (V := V) (n := n) (params := params)
    (ev := fun V [AddCommGroup V] [Module K V] l t => (BSpline.mk l knots false (some d)).evaluate t)
    (P := P) (natural_bspline knots false (some d)) hP hok
  refine ⟨B, ?_, h2⟩
  unfold bsplineMatrix
  simp only
  rw [assert_true (by rw [hn]; push_cast; ring), ok_bind, columns_eq h1, ok_bind, pure_eq]

/-- C56: the matrix of a B-spline with static degree `d`, for parameters where some curve over the
knots evaluates. -/
theorem C56_bspline_matrix {d n : ℕ} {knots params : List K} (hn : knots.length = n + d + 1)
    {P : List V} (hP : P.length = n)
    (hok : ∀ t ∈ params, ∃ x, (BSpline.mk P knots false (some d)).evaluate t = ok x) :
    ∃ M, bsplineMatrix (some d) n knots params = ok M ∧ IsMatrix params.length n M ∧
      ∀ Q : List V, Q.length = n → ∀ i (hi : i < params.length),
        (BSpline.mk Q knots false (some d)).evaluate params[i] = ok (rowApply n M Q i) := by
  obtain ⟨B, h1, h2⟩ := bspline_basis hn hP hok
  refine ⟨_, h1, isMatrix_arr _ _ _, fun Q hQ i hi => ?_⟩
  rw [rowApply_arr B Q hi]
  exact h2 V Q hQ i hi

example : bsplineMatrix (some 1) 3 [(0 : ℚ), 0, 1, 2, 2] [0, 1 / 2, 3 / 2]
    = ok [[1, 0, 0], [1 / 2, 1 / 2, 0], [0, 1 / 2, 1 / 2]] := by
  decide +kernel

/-- C56: fitting samples of a B-spline over the same knots gives a curve through the samples. -/
theorem C56_bspline_fit (solve : List (List K) → List V → List V) {d n : ℕ} {knots params : List K}
    (hn : knots.length = n + d + 1) {values Q : List V} (hl : params.length = values.length)
    (hsolve : ∀ M, bsplineMatrix (some d) n knots params = ok M →
      IsLeastSquares params.length n M (solve M values) values)
    (hQ : Q.length = n)
    (hs : ∀ i (hi : i < params.length),
      (BSpline.mk Q knots false (some d)).evaluate params[i] = rd values i) :
    ∃ X, bsplineFit solve (some d) params values n knots = ok (BSpline.mk X knots false (some d)) ∧
      X.length = n ∧ ∀ i (hi : i < params.length),
        (BSpline.mk X knots false (some d)).evaluate params[i] = rd values i := by
  have hok : ∀ t ∈ params, ∃ x, (BSpline.mk Q knots false (some d)).evaluate t = ok x := by
    intro t ht
    obtain ⟨i, hi, rfl⟩ := List.getElem_of_mem ht
    exact ⟨_, (hs i hi).trans (rd_of_lt (by omega))⟩
  obtain ⟨B, h1, h2⟩ := bspline_basis hn hQ hok
  have hL := hsolve _ h1
  refine ⟨_, by rw [bsplineFit, assert_true hl, ok_bind, h1, ok_bind, pure_eq], hL.1,
    fun i hi => ?_⟩
  have h3 := exact hL hQ (fun i hi => (residual_zero_iff hi hl.symm (h2 V Q hQ i hi)).2 (hs i hi)) i hi
  exact (residual_zero_iff hi hl.symm (h2 V _ hL.1 i hi)).1 h3

/-- C56: deforming a B-spline by attainable changes. -/
theorem C56_bspline_deform (solve : List (List K) → List V → List V) {d n : ℕ} {knots params : List K}
    (hn : knots.length = n + d + 1) {P changes Q : List V} (hP : P.length = n)
    (hl : params.length = changes.length)
    (hsolve : ∀ M, bsplineMatrix (some d) n knots params = ok M →
      IsLeastSquares params.length n M (solve M changes) changes)
    (hQ : Q.length = n)
    (hs : ∀ i (hi : i < params.length),
      (BSpline.mk Q knots false (some d)).evaluate params[i] = rd changes i) :
    ∃ P', bsplineDeform solve (BSpline.mk P knots false (some d)) params changes
        = ok (BSpline.mk P' knots false (some d)) ∧ P'.length = n ∧
      ∀ i (hi : i < params.length), ∃ x dx,
        (BSpline.mk P knots false (some d)).evaluate params[i] = ok x ∧ rd changes i = ok dx ∧
        (BSpline.mk P' knots false (some d)).evaluate params[i] = ok (x + dx) := by
  obtain ⟨D, h1, h2, h4⟩ := C56_bspline_fit solve hn hl hsolve hQ hs
  have hok : ∀ t ∈ params, ∃ x, (BSpline.mk Q knots false (some d)).evaluate t = ok x := by
    intro t ht
    obtain ⟨i, hi, rfl⟩ := List.getElem_of_mem ht
    exact ⟨_, (hs i hi).trans (rd_of_lt (by omega))⟩
  obtain ⟨B, _, hB⟩ := bspline_basis hn hQ hok
  refine ⟨List.zipWith (· + ·) P D, ?_, by simp [hP, h2], fun i hi => ?_⟩
  · unfold bsplineDeform
    simp only
    rw [hP, h1, ok_bind, assert_true (by simp [hP, h2]), ok_bind, pure_eq]
  · refine ⟨_, _, hB V P hP i hi, (h4 i hi).symm.trans (hB V D h2 i hi), ?_⟩
    rw [hB V _ (by simp [hP, h2]) i hi, sum_zipWith hP h2]

/-- C56 fails for B-splines of dynamic degree: on a knot vector that fits the control points of
*any* valid curve the assertion on its size fails, whatever the parameters. -/
theorem C56_bspline_dynamic_refuted {c : BSpline K V} (hs : c.sdeg = none) (hv : c.validate = ok ())
    (params : List K) : bsplineMatrix c.sdeg c.ctrl.length c.knots params = ub := by
  have h : 0 ≤ c.degree := by
    by_contra h
    rw [BSpline.validate, throwIf, if_pos (Or.inl (by omega))] at hv
    cases hv
  rw [hs]
  unfold bsplineMatrix
  rw [assert_false, ub_bind]
  unfold BSpline.degree at h
  simp only
  omega

example : (BSpline.mk [(0 : ℚ), 1] [0, 0, 1, 1] false none).validate = ok () := by decide +kernel

/-! ### Bezier patches -/

theorem bezierPatchEv_total (dU dV : ℕ) {grid : List V} (hg : grid.length = (dU + 1) * (dV + 1))
    (uv : K × K) : bezierPatchEv dU dV grid uv
      = (BezierPatch.ofGrid (dU : ℤ) (dV : ℤ) grid).evaluate uv.1 uv.2 ∧
      ∃ x, bezierPatchEv dU dV grid uv = ok x := by
  have hw : (BezierPatch.ofGrid (dU : ℤ) (dV : ℤ) grid).WellFormed dU dV := ⟨rfl, rfl, hg⟩
  have h1 : bezierPatchEv dU dV grid uv
      = (BezierPatch.ofGrid (dU : ℤ) (dV : ℤ) grid).evaluate uv.1 uv.2 := by
    unfold bezierPatchEv
    simp only
    rw [(BezierPatch.init_iff _).2 ⟨dU, dV, hw⟩, ok_bind]
  refine ⟨h1, ?_⟩
  rw [h1]
  exact ⟨_, hw.evaluate (u' := uv.1) (v' := uv.2) rfl rfl⟩

theorem bezierPatch_basis (dU dV : ℕ) (params : List (K × K)) :
    ∃ B : ℕ → ℕ → K, bezierPatchMatrix dU dV params
        = ok (arr params.length fun i => arr ((dU + 1) * (dV + 1)) fun j => B i j) ∧
      ∀ (W : Type) [AddCommGroup W] [Module K W] (Q : List W), Q.length = (dU + 1) * (dV + 1) →
        ∀ i (hi : i < params.length),
          (BezierPatch.ofGrid (dU : ℤ) (dV : ℤ) Q).evaluate params[i].1 params[i].2
            = ok (∑ j ∈ Finset.range ((dU + 1) * (dV + 1)), B i j • Q.getD j 0) := by
  obtain ⟨B, h1, h2⟩ := basis (V := K) (n := (dU + 1) * (dV + 1)) (params := params)
    (ev := fun V [AddCommGroup V] [Module K V] l t => bezierPatchEv dU dV l t)
    (P := List.replicate ((dU + 1) * (dV + 1)) 0) (natural_bezierPatch dU dV) (by simp)
    (fun t _ => (bezierPatchEv_total dU dV (by simp) t).2)
  refine ⟨B, ?_, fun W _ _ Q hQ i hi => ?_⟩
  · unfold bezierPatchMatrix
    simp only
    rw [columns2_eq h1, ok_bind, pure_eq]
  · rw [← (bezierPatchEv_total dU dV hQ params[i]).1]
    exact h2 W Q hQ i hi

/-- C56: the matrix of a Bezier patch. -/
theorem C56_bezier_patch_matrix (dU dV : ℕ) (params : List (K × K)) :
    ∃ M, bezierPatchMatrix dU dV params = ok M ∧
      IsMatrix params.length ((dU + 1) * (dV + 1)) M ∧
      ∀ P : List V, P.length = (dU + 1) * (dV + 1) → ∀ i (hi : i < params.length),
        (BezierPatch.ofGrid (dU : ℤ) (dV : ℤ) P).evaluate params[i].1 params[i].2
          = ok (rowApply ((dU + 1) * (dV + 1)) M P i) := by
  obtain ⟨B, h1, h2⟩ := bezierPatch_basis dU dV params
  refine ⟨_, h1, isMatrix_arr _ _ _, fun P hP i hi => ?_⟩
  rw [rowApply_arr B P hi]
  exact h2 V P hP i hi

example : bezierPatchMatrix 1 1 [((1 / 2 : ℚ), (1 / 4 : ℚ))] = ok [[3 / 8, 1 / 8, 3 / 8, 1 / 8]] := by
  decide +kernel

/-- C56: fitting samples of a Bezier patch of the same degrees. -/
theorem C56_bezier_patch_fit (solve : List (List K) → List V → List V) (dU dV : ℕ)
    {params : List (K × K)} {values Q : List V} (hl : params.length = values.length)
    (hsolve : ∀ M, bezierPatchMatrix dU dV params = ok M →
      IsLeastSquares params.length ((dU + 1) * (dV + 1)) M (solve M values) values)
    (hQ : Q.length = (dU + 1) * (dV + 1))
    (hs : ∀ i (hi : i < params.length),
      (BezierPatch.ofGrid (dU : ℤ) (dV : ℤ) Q).evaluate params[i].1 params[i].2 = rd values i) :
    ∃ X, bezierPatchFit solve dU dV params values = ok (BezierPatch.ofGrid (dU : ℤ) (dV : ℤ) X) ∧
      X.length = (dU + 1) * (dV + 1) ∧ ∀ i (hi : i < params.length),
        (BezierPatch.ofGrid (dU : ℤ) (dV : ℤ) X).evaluate params[i].1 params[i].2 = rd values i := by
  obtain ⟨B, h1, h2⟩ := bezierPatch_basis dU dV params
  have hL := hsolve _ h1
  refine ⟨_, ?_, hL.1, fun i hi => ?_⟩
  · unfold bezierPatchFit
    simp only
    rw [assert_true hl, ok_bind, h1, ok_bind,
      (BezierPatch.init_iff _).2 ⟨dU, dV, ⟨rfl, rfl, hL.1⟩⟩, ok_bind, pure_eq]
  · have h3 := exact hL hQ (fun i hi => (residual_zero_iff hi hl.symm (h2 V Q hQ i hi)).2 (hs i hi)) i hi
    exact (residual_zero_iff hi hl.symm (h2 V _ hL.1 i hi)).1 h3

/-- C56: deforming a Bezier patch by attainable changes. -/
theorem C56_bezier_patch_deform (solve : List (List K) → List V → List V) {dU dV : ℕ}
    {params : List (K × K)} {P changes Q : List V} (hP : P.length = (dU + 1) * (dV + 1))
    (hl : params.length = changes.length)
    (hsolve : ∀ M, bezierPatchMatrix dU dV params = ok M →
      IsLeastSquares params.length ((dU + 1) * (dV + 1)) M (solve M changes) changes)
    (hQ : Q.length = (dU + 1) * (dV + 1))
    (hs : ∀ i (hi : i < params.length),
      (BezierPatch.ofGrid (dU : ℤ) (dV : ℤ) Q).evaluate params[i].1 params[i].2 = rd changes i) :
    ∃ P', bezierPatchDeform solve dU dV (BezierPatch.ofGrid (dU : ℤ) (dV : ℤ) P) params changes
        = ok (BezierPatch.ofGrid (dU : ℤ) (dV : ℤ) P') ∧ P'.length = (dU + 1) * (dV + 1) ∧
      ∀ i (hi : i < params.length), ∃ x dx,
        (BezierPatch.ofGrid (dU : ℤ) (dV : ℤ) P).evaluate params[i].1 params[i].2 = ok x ∧
        rd changes i = ok dx ∧
        (BezierPatch.ofGrid (dU : ℤ) (dV : ℤ) P').evaluate params[i].1 params[i].2
          = ok (x + dx) := by
  obtain ⟨D, h1, h2, h4⟩ := C56_bezier_patch_fit solve dU dV hl hsolve hQ hs
  obtain ⟨B, _, hB⟩ := bezierPatch_basis dU dV params
  have hZ : (List.zipWith (· + ·) P D).length = (dU + 1) * (dV + 1) := by simp [hP, h2]
  refine ⟨List.zipWith (· + ·) P D, ?_, hZ, fun i hi => ?_⟩
  · rw [bezierPatchDeform, h1, ok_bind, assert_true (by simp [BezierPatch.ofGrid, hP, h2]), ok_bind]
    have hw : (BezierPatch.ofGrid (dU : ℤ) (dV : ℤ) (List.zipWith (· + ·) P D)).WellFormed dU dV :=
      ⟨rfl, rfl, hZ⟩
    have := (BezierPatch.init_iff _).2 ⟨dU, dV, hw⟩
    change ((BezierPatch.ofGrid (dU : ℤ) (dV : ℤ) (List.zipWith (· + ·) P D)).init >>= fun _ =>
      pure (BezierPatch.ofGrid (dU : ℤ) (dV : ℤ) (List.zipWith (· + ·) P D))) = _
    rw [this, ok_bind, pure_eq]
  · refine ⟨_, _, hB V P hP i hi, (h4 i hi).symm.trans (hB V D h2 i hi), ?_⟩
    rw [hB V _ hZ i hi, sum_zipWith hP h2]

/-! ### B-spline patches -/

theorem bsplinePatch_basis {dU dV : ℤ} {m n : ℕ} {kU kV : List K} {params : List (K × K)}
    {P : List V} (hP : P.length = m * n)
    (hok : ∀ t ∈ params, ∃ x, bsplinePatchEv dU dV kU kV P t = ok x) :
    ∃ B : ℕ → ℕ → K, bsplinePatchMatrix dU dV m n kU kV params
        = ok (arr params.length fun i => arr (m * n) fun j => B i j) ∧
      ∀ (W : Type) [AddCommGroup W] [Module K W] (Q : List W), Q.length = m * n →
        ∀ i (hi : i < params.length), bsplinePatchEv dU dV kU kV Q params[i]
            = ok (∑ j ∈ Finset.range (m * n), B i j • Q.getD j 0) := by
  obtain ⟨B, h1, h2⟩ := basis (V := V) (n := m * n) (params := params)
    (ev := fun V [AddCommGroup V] [Module K V] l t => bsplinePatchEv dU dV kU kV l t)
    (P := P) (natural_bsplinePatch dU dV kU kV) hP hok
  refine ⟨B, ?_, h2⟩
  unfold bsplinePatchMatrix
  simp only
  rw [columns2_eq h1, ok_bind, pure_eq]

/-- C56: the matrix of a B-spline patch of static degrees (`bsplinePatchEv` builds the patch with
the given knots and grid, initialises and evaluates). -/
theorem C56_bspline_patch_matrix {dU dV : ℤ} {m n : ℕ} {kU kV : List K} {params : List (K × K)}
    {P : List V} (hP : P.length = m * n)
    (hok : ∀ t ∈ params, ∃ x, bsplinePatchEv dU dV kU kV P t = ok x) :
    ∃ M, bsplinePatchMatrix dU dV m n kU kV params = ok M ∧ IsMatrix params.length (m * n) M ∧
      ∀ Q : List V, Q.length = m * n → ∀ i (hi : i < params.length),
        bsplinePatchEv dU dV kU kV Q params[i] = ok (rowApply (m * n) M Q i) := by
  obtain ⟨B, h1, h2⟩ := bsplinePatch_basis hP hok
  refine ⟨_, h1, isMatrix_arr _ _ _, fun Q hQ i hi => ?_⟩
  rw [rowApply_arr B Q hi]
  exact h2 V Q hQ i hi

example : bsplinePatchMatrix 1 1 3 2 [(0 : ℚ), 0, 1, 2, 2] [0, 0, 1, 1] [(3 / 2, 1 / 4)]
    = ok [[0, 0, 3 / 8, 1 / 8, 3 / 8, 1 / 8]] := by
  decide +kernel

/-- C56: fitting samples of a B-spline patch over the same knots. -/
theorem C56_bspline_patch_fit (solve : List (List K) → List V → List V) {dU dV : ℤ} {m n du dv : ℕ}
    {kU kV : List K} {params : List (K × K)} {values Q : List V} {q : BSplinePatch K V}
    (hv : (bsplinePatch dU dV kU kV Q).Valid m n du dv)
    (hq : (bsplinePatch dU dV kU kV Q).init = ok q) (hl : params.length = values.length)
    (hsolve : ∀ M, bsplinePatchMatrix dU dV m n kU kV params = ok M →
      IsLeastSquares params.length (m * n) M (solve M values) values)
    (hs : ∀ i (hi : i < params.length), q.evaluate params[i].1 params[i].2 = rd values i) :
    ∃ X x, bsplinePatchFit solve dU dV params values m n kU kV = ok x ∧
      (bsplinePatch dU dV kU kV X).init = ok x ∧ X.length = m * n ∧
      ∀ i (hi : i < params.length), x.evaluate params[i].1 params[i].2 = rd values i := by
  have hQ : Q.length = m * n := hv.grid
  have hev : ∀ i (hi : i < params.length),
      bsplinePatchEv dU dV kU kV Q params[i] = rd values i := fun i hi => by
    rw [bsplinePatchEv, hq, ok_bind]
    exact hs i hi
  have hok : ∀ t ∈ params, ∃ x, bsplinePatchEv dU dV kU kV Q t = ok x := by
    intro t ht
    obtain ⟨i, hi, rfl⟩ := List.getElem_of_mem ht
    exact ⟨_, (hev i hi).trans (rd_of_lt (by omega))⟩
  obtain ⟨B, h1, h2⟩ := bsplinePatch_basis hQ hok
  have hL := hsolve _ h1
  obtain ⟨x, hx, _⟩ := BSplinePatch.Valid.init_ready (m := m) (n := n) (du := du) (dv := dv)
    (p := bsplinePatch dU dV kU kV
      (solve (arr params.length fun i => arr (m * n) fun j => B i j) values)) ⟨hv.u, hv.v, hL.1⟩
  refine ⟨_, x, ?_, hx, hL.1, fun i hi => ?_⟩
  · rw [bsplinePatchFit, assert_true hl, ok_bind, h1, ok_bind, hx]
  · have h3 := exact hL hQ (fun i hi => (residual_zero_iff hi hl.symm (h2 V Q hQ i hi)).2 (hev i hi)) i hi
    have h4 := (residual_zero_iff hi hl.symm (h2 V _ hL.1 i hi)).1 h3
    rw [bsplinePatchEv, hx, ok_bind] at h4
    exact h4

/-- C56: deforming a B-spline patch by attainable changes. -/
theorem C56_bspline_patch_deform (solve : List (List K) → List V → List V) {dU dV : ℤ}
    {m n du dv : ℕ} {kU kV : List K} {params : List (K × K)} {P changes Q : List V}
    {p q : BSplinePatch K V}
    (hv : (bsplinePatch dU dV kU kV P).Valid m n du dv)
    (hp : (bsplinePatch dU dV kU kV P).init = ok p) (hQ : Q.length = m * n)
    (hq : (bsplinePatch dU dV kU kV Q).init = ok q) (hl : params.length = changes.length)
    (hsolve : ∀ M, bsplinePatchMatrix dU dV m n kU kV params = ok M →
      IsLeastSquares params.length (m * n) M (solve M changes) changes)
    (hs : ∀ i (hi : i < params.length), q.evaluate params[i].1 params[i].2 = rd changes i) :
    ∃ P' p', bsplinePatchDeform solve p params changes = ok p' ∧
      (bsplinePatch dU dV kU kV P').init = ok p' ∧ P'.length = m * n ∧
      ∀ i (hi : i < params.length), ∃ x dx, p.evaluate params[i].1 params[i].2 = ok x ∧
        rd changes i = ok dx ∧ p'.evaluate params[i].1 params[i].2 = ok (x + dx) := by
  have hvQ : (bsplinePatch dU dV kU kV Q).Valid m n du dv := ⟨hv.u, hv.v, hQ⟩
  obtain ⟨D, d, h1, hd, h2, h4⟩ := C56_bspline_patch_fit solve hvQ hq hl hsolve hs
  have hok : ∀ t ∈ params, ∃ x, bsplinePatchEv dU dV kU kV Q t = ok x := by
    intro t ht
    obtain ⟨i, hi, rfl⟩ := List.getElem_of_mem ht
    rw [bsplinePatchEv, hq, ok_bind]
    exact ⟨_, (hs i hi).trans (rd_of_lt (by omega))⟩
  obtain ⟨B, _, hB⟩ := bsplinePatch_basis hQ hok
  have hP : P.length = m * n := hv.grid
  have hZ : (List.zipWith (· + ·) P D).length = m * n := by simp [hP, h2]
  have hvZ : (bsplinePatch dU dV kU kV (List.zipWith (· + ·) P D)).Valid m n du dv :=
    ⟨hv.u, hv.v, hZ⟩
  have hvD : (bsplinePatch dU dV kU kV D).Valid m n du dv := ⟨hv.u, hv.v, h2⟩
  have hdg : d.grid = D := by
    rw [hvD.init, ok.injEq] at hd
    rw [← hd]
    rfl
  have hrp := hv.ready hp
  have hp2 := hp
  rw [hv.init, ok.injEq] at hp2
  have hz := hvZ.init
  refine ⟨_, _, ?_, hz, hZ, fun i hi => ?_⟩
  · unfold bsplinePatchDeform
    have e1 : p.numU = ok m := hrp.toValid.numU
    have e2 : p.numV = ok n := hrp.toValid.numV
    rw [e1, ok_bind, e2, ok_bind]
    have e3 : bsplinePatchFit solve p.sU p.sV params changes m n p.knotsU p.knotsV = ok d := by
      rw [← hp2]
      exact h1
    rw [e3, ok_bind, assert_true (by rw [← hp2, hdg, h2]; exact hP), ok_bind, hdg]
    have e4 : ({ p with grid := List.zipWith (· + ·) p.grid D } : BSplinePatch K V).Valid m n du dv := by
      rw [← hp2]
      exact ⟨hv.u, hv.v, hZ⟩
    rw [e4.init, ← hp2]
    rfl
  · have e1 := hB V P hP i hi
    have e2 := hB V D h2 i hi
    have e3 := hB V _ hZ i hi
    rw [bsplinePatchEv, hp, ok_bind] at e1
    rw [bsplinePatchEv, hd, ok_bind] at e2
    rw [bsplinePatchEv, hz, ok_bind, sum_zipWith hP h2] at e3
    exact ⟨_, _, e1, (h4 i hi).symm.trans e2, e3⟩

example : (bsplinePatch 1 1 [(0 : ℚ), 0, 1, 2, 2] [0, 0, 1, 1] [(1 : ℚ), 2, 3, 4, 5, 7]).Valid 3 2 1 1 ∧
    ∃ q, (bsplinePatch 1 1 [(0 : ℚ), 0, 1, 2, 2] [0, 0, 1, 1] [(1 : ℚ), 2, 3, 4, 5, 7]).init = ok q ∧
      q.evaluate (3 / 2) (1 / 4) = ok (35 / 8 : ℚ) := by
  refine ⟨⟨⟨rfl, rfl, Or.inr rfl, by omega, by decide +kernel, by decide +kernel⟩,
    ⟨rfl, rfl, Or.inr rfl, by omega, by decide +kernel, by decide +kernel⟩, rfl⟩, ?_⟩
  exact ⟨_, rfl, by decide +kernel⟩

/-- C56: the patches that are fitted are those of the class with the given degrees: knot vectors that fit the
degrees and the numbers of control points suffice for the hypotheses of `C56_bspline_patch_fit` and
`C56_bspline_patch_deform`, and the patch has the given degrees, each in its own direction. -/
theorem C56_bspline_patch_class {m n du dv : ℕ} {kU kV : List K} {Q : List V} (hQ : Q.length = m * n)
    (hu : kU.length = m + du + 1) (hm : du + 1 ≤ m) (su : kU.Pairwise (· ≤ ·))
    (ku : kU.getD du 0 < kU.getD m 0)
    (hv : kV.length = n + dv + 1) (hn : dv + 1 ≤ n) (sv : kV.Pairwise (· ≤ ·))
    (kv : kV.getD dv 0 < kV.getD n 0) :
    (bsplinePatch du dv kU kV Q).Valid m n du dv ∧
    ∃ q, (bsplinePatch du dv kU kV Q).init = ok q ∧ q.degreeU = ok du ∧ q.degreeV = ok dv ∧
      q.numU = ok m ∧ q.numV = ok n := by
  have h : (bsplinePatch du dv kU kV Q).Valid m n du dv :=
    ⟨⟨rfl, hu, Or.inr rfl, hm, su, ku⟩, ⟨rfl, hv, Or.inr rfl, hn, sv, kv⟩, hQ⟩
  refine ⟨h, ?_⟩
  obtain ⟨q, hq, hr, -⟩ := h.init_ready
  exact ⟨q, hq, hr.toValid.degreeU, hr.toValid.degreeV, hr.toValid.numU, hr.toValid.numV⟩

example : (bsplinePatch 1 2 [(0 : ℚ), 0, 1, 2, 2] [0, 0, 0, 1, 1, 1] [(1 : ℚ), 2, 3, 4, 5, 6, 7, 8, 9]).Valid 3 3 1 2 :=
  (C56_bspline_patch_class (du := 1) (dv := 2) rfl rfl (by omega) (by decide +kernel) (by decide +kernel) rfl
    (by omega) (by decide +kernel) (by decide +kernel)).1

/-- A loop whose first iteration is undefined is undefined. -/
theorem loop_ub {σ : Type} {f : ℕ → σ → Outcome σ} {s : σ} (h : f 0 s = ub) :
    ∀ {n : ℕ}, 0 < n → loop n f s = ub
  | 1, _ => by rw [loop, loop, ok_bind, h]
  | n + 2, _ => by rw [loop, loop_ub h (Nat.succ_pos n), ub_bind]

/-- C56 fails for B-spline patches with a dynamic degree: the default-constructed basis patch has
degree `-1` and the degree assertion fails for every non-empty grid and parameter list. -/
theorem C56_bspline_patch_dynamic_refuted (dV : ℤ) {m n : ℕ} (hm : 0 < m) (hn : 0 < n)
    (kU kV : List K) {params : List (K × K)} (hp : params ≠ []) :
    bsplinePatchMatrix (-1) dV m n kU kV params = ub := by
  have hev : ∀ (grid : List K) (uv : K × K), bsplinePatchEv (-1) dV kU kV grid uv = ub := by
    intro grid uv
    unfold bsplinePatchEv BSplinePatch.init BSplinePatch.degreeU
    rw [assert_false (by simp [bsplinePatch])]
    rfl
  have hpos : 0 < params.length := List.length_pos_of_ne_nil hp
  have hcol : ∀ M : List (List K), column (bsplinePatchEv (-1) dV kU kV) params (0 * n + 0)
      (List.replicate (m * n) 0, M) = ub := by
    intro M
    unfold column
    simp only
    have h0 : 0 * n + 0 < (List.replicate (m * n) (0 : K)).length := by
      rw [List.length_replicate]
      have := Nat.mul_pos hm hn
      omega
    rw [wr_of_lt _ h0, ok_bind,
      loop_ub (by rw [rd_of_lt hpos, ok_bind, hev, ub_bind]) hpos, ub_bind]
  unfold bsplinePatchMatrix
  simp only
  rw [loop_ub (loop_ub (hcol _) hn) hm, ub_bind]

end Props
end NS
