import Verif.Proof.FeaturesSolve
import Verif.Props.Bezier

/-!
# C57: inflections, singularities and tangents of planar curves

`Bezier.wrap c.periodic t = ok t` says that evaluation happens at `t` itself: it holds for every `t` when
the curve is not periodic.
-/

set_option linter.unusedSectionVars false
set_option linter.unusedSimpArgs false

namespace NS
namespace Features

open Outcome Finset Spec

section Polynomials

variable {K : Type} [Field K] [LinearOrder K] [IsStrictOrderedRing K] [FloorRing K]

/-- The degrees for which polynomials were generated. -/
theorem C57_supported (high : Bool) (P : List (K × K)) (w : List K) (tx ty : K) :
    ((inflectionCoeffs high P).isSome ↔ 3 ≤ P.length ∧ P.length ≤ if high then 11 else 5) ∧
    ((singularityCoeffs high P).isSome ↔ 3 ≤ P.length ∧ P.length ≤ if high then 7 else 5) ∧
    ((tangentCoeffs high P tx ty).isSome ↔ 3 ≤ P.length ∧ P.length ≤ if high then 11 else 5) ∧
    ((ratInflectionCoeffs P w).isSome ↔ 3 ≤ P.length ∧ P.length ≤ 5) ∧
    ((ratSingularityCoeffs P w).isSome ↔ 3 ≤ P.length ∧ P.length ≤ 4) ∧
    ((ratTangentCoeffs P w tx ty).isSome ↔ 3 ≤ P.length ∧ P.length ≤ 5) := by
  refine ⟨?_, ?_, ?_, ?_, ?_, ?_⟩
  · unfold inflectionCoeffs; dsimp only
    split <;> cases high <;> (simp_all; try omega)
  · unfold singularityCoeffs; dsimp only
    split <;> cases high <;> (simp_all; try omega)
  · unfold tangentCoeffs; dsimp only
    split <;> cases high <;> (simp_all; try omega)
  · unfold ratInflectionCoeffs; dsimp only
    split <;> (simp_all; try omega)
  · unfold ratSingularityCoeffs; dsimp only
    split <;> (simp_all; try omega)
  · unfold ratTangentCoeffs; dsimp only
    split <;> (simp_all; try omega)

/-- The inflection polynomial is the cross product of the first two derivatives, negated. -/
theorem C57_inflection_polynomial {high : Bool} {c : Bezier (K × K)} {co : List K}
    (h : inflectionCoeffs high c.ctrl = some co) {t : K} (hw : Bezier.wrap c.periodic t = ok t) :
    ∃ v a, c.evaluateDerivative t = ok v ∧ c.evaluate2ndDerivative t = ok a ∧
      Roots.polyVal (fun i => co.getD i 0) (co.length - 1) t = -cross v a := by
  obtain ⟨n, hP, hl, he⟩ := inflectionCoeffs_eval h
  refine ⟨_, _, bezier_der (n := n + 1) hP hw, bezier_der2 hP hw, ?_⟩
  rw [evalP_polyVal (by omega), he, cross]; ring

/-- The singularity polynomial is the squared speed. -/
theorem C57_singularity_polynomial {high : Bool} {c : Bezier (K × K)} {co : List K}
    (h : singularityCoeffs high c.ctrl = some co) {t : K} (hw : Bezier.wrap c.periodic t = ok t) :
    ∃ v, c.evaluateDerivative t = ok v ∧
      Roots.polyVal (fun i => co.getD i 0) (co.length - 1) t = dot v v := by
  obtain ⟨n, hP, hl, he⟩ := singularityCoeffs_eval h
  refine ⟨_, bezier_der (n := n + 1) hP hw, ?_⟩
  rw [evalP_polyVal (by omega), he, dot]

/-- The tangent polynomial is the component of the derivative along the given vector. -/
theorem C57_tangent_polynomial {high : Bool} {c : Bezier (K × K)} {tx ty : K} {co : List K}
    (h : tangentCoeffs high c.ctrl tx ty = some co) {t : K} (hw : Bezier.wrap c.periodic t = ok t) :
    ∃ v, c.evaluateDerivative t = ok v ∧
      Roots.polyVal (fun i => co.getD i 0) (co.length - 1) t = dot v (tx, ty) := by
  obtain ⟨n, hP, hl, he⟩ := tangentCoeffs_eval h
  refine ⟨_, bezier_der (n := n + 1) hP hw, ?_⟩
  rw [evalP_polyVal (by omega), he, dot]

theorem homog_cols {c : RationalBezier K (K × K)} (hs : c.init = ok c) :
    c.base.ctrl.length = c.weights.length ∧ c.hom.ctrl.length = c.base.ctrl.length ∧
    c.hom.periodic = c.base.periodic ∧ c.validate = ok () ∧
    ∀ i, c.hom.ctrl.getD i 0 = ((c.weights.getD i 0 * colX c.base.ctrl i,
      c.weights.getD i 0 * colY c.base.ctrl i), c.weights.getD i 0) := by
  by_cases hl : c.base.ctrl.length = c.weights.length
  · rw [RationalBezier.init, homogenize_eq hl, ok_bind, pure_eq, ok.injEq] at hs
    have e1 : c.hom.ctrl = homog c.base.ctrl c.weights := by
      conv_lhs => rw [← hs]
    have e2 : c.hom.periodic = c.base.periodic := by
      conv_lhs => rw [← hs]
    have hlen : c.hom.ctrl.length = c.base.ctrl.length := by rw [e1, homog_length hl]
    refine ⟨hl, hlen, e2, ?_, fun i => ?_⟩
    · unfold RationalBezier.validate
      rw [throwIf_false (by simp [hlen, ← hl]), ok_bind, throwIf_false (by simp [e2])]
    · rw [e1, homog_getD i hl]; rfl
  · rw [RationalBezier.init, homogenize_ub hl] at hs
    cases hs

/-- The rational inflection polynomial is `-W ^ 5` times the cross product of the first two derivatives,
`W` being the denominator at the parameter. -/
theorem C57_rational_inflection_polynomial {c : RationalBezier K (K × K)} (hs : c.init = ok c)
    {co : List K} (h : ratInflectionCoeffs c.base.ctrl c.weights = some co) {t : K}
    (hw : Bezier.wrap c.base.periodic t = ok t) :
    ∃ W, (∃ p, c.hom.evaluate t = ok (p, W)) ∧ (W ≠ 0 →
      ∃ v a, c.evaluateDerivative t = ok v ∧ c.evaluate2ndDerivative t = ok a ∧
      Roots.polyVal (fun i => co.getD i 0) (co.length - 1) t = -(W ^ 5 * cross v a)) := by
  obtain ⟨hl, hlen, hper, hval, hcols⟩ := homog_cols hs
  obtain ⟨n, hP, hcl, he⟩ := ratInflectionCoeffs_eval h
  rw [← hper] at hw
  have e0 := hom_eval (n := n + 2) (by omega) hw _ hcols
  have e1 := hom_der (n := n + 1) (by omega) hw _ hcols
  have e2 := hom_der2 (n := n) (by omega) hw _ hcols
  refine ⟨_, ⟨_, e0⟩, fun hW => ?_⟩
  simp only [RationalBezier.evaluateDerivative, RationalBezier.evaluate2ndDerivative, hval, ok_bind,
    e0, e1, e2, quot1, quot2, Outcome.assert, if_pos hW, hW, ne_eq, not_false_eq_true, if_true]
  refine ⟨_, _, rfl, rfl, ?_⟩
  rw [evalP_polyVal (by omega), he]
  simp only [cross, Prod.smul_fst, Prod.smul_snd, Prod.fst_sub, Prod.snd_sub, smul_eq_mul]
  field_simp
  ring

/-- The rational singularity polynomial is `W ^ 4` times the squared speed. -/
theorem C57_rational_singularity_polynomial {c : RationalBezier K (K × K)} (hs : c.init = ok c)
    {co : List K} (h : ratSingularityCoeffs c.base.ctrl c.weights = some co) {t : K}
    (hw : Bezier.wrap c.base.periodic t = ok t) :
    ∃ W, (∃ p, c.hom.evaluate t = ok (p, W)) ∧ (W ≠ 0 →
      ∃ v, c.evaluateDerivative t = ok v ∧
      Roots.polyVal (fun i => co.getD i 0) (co.length - 1) t = W ^ 4 * dot v v) := by
  obtain ⟨hl, hlen, hper, hval, hcols⟩ := homog_cols hs
  obtain ⟨n, hP, hcl, he⟩ := ratSingularityCoeffs_eval h
  rw [← hper] at hw
  have e0 := hom_eval (n := n + 1) (by omega) hw _ hcols
  have e1 := hom_der (n := n) (by omega) hw _ hcols
  refine ⟨_, ⟨_, e0⟩, fun hW => ?_⟩
  simp only [RationalBezier.evaluateDerivative, hval, ok_bind,
    e0, e1, quot1, Outcome.assert, if_pos hW, hW, ne_eq, not_false_eq_true, if_true]
  refine ⟨_, rfl, ?_⟩
  rw [evalP_polyVal (by omega), he]
  simp only [dot, Prod.smul_fst, Prod.smul_snd, Prod.fst_sub, Prod.snd_sub, smul_eq_mul]
  field_simp

theorem flat_weights {n : ℕ} (hn : n = 0 ∨ n = 1 ∨ n = 2) {W : ℕ → K} {w : K}
    (hW : ∀ i < n + 3, W i = w) (X : ℕ → K) (t : K) :
    val (n + 2) W t = w ∧ der (n + 1) W t = 0 ∧
      der (n + 1) (fun i => W i * X i) t = w * der (n + 1) X t := by
  have w0 := hW 0 (by omega)
  have w1 := hW 1 (by omega)
  have w2 := hW 2 (by omega)
  rcases hn with rfl | rfl | rfl
  · refine ⟨?_, ?_, ?_⟩ <;>
      simp only [val, der, hodo, List.range_succ, fwd, evalP, sum_range_succ, Nat.choose,
        List.range_zero, List.nil_append, List.cons_append, List.map_cons, List.map_nil, range_zero,
        sum_empty, w0, w1, w2] <;>
      push_cast <;> ring
  · have w3 := hW 3 (by omega)
    refine ⟨?_, ?_, ?_⟩ <;>
      simp only [val, der, hodo, List.range_succ, fwd, evalP, sum_range_succ, Nat.choose,
        List.range_zero, List.nil_append, List.cons_append, List.map_cons, List.map_nil, range_zero,
        sum_empty, w0, w1, w2, w3] <;>
      push_cast <;> ring
  · have w3 := hW 3 (by omega)
    have w4 := hW 4 (by omega)
    refine ⟨?_, ?_, ?_⟩ <;>
      simp only [val, der, hodo, List.range_succ, fwd, evalP, sum_range_succ, Nat.choose,
        List.range_zero, List.nil_append, List.cons_append, List.map_cons, List.map_nil, range_zero,
        sum_empty, w0, w1, w2, w3,
        w4] <;>
      push_cast <;> ring

theorem ratTangentCoeffs_eq (P : List (K × K)) (W : List K) (tx ty : K) :
    ratTangentCoeffs P W tx ty = tangentCoeffs false P tx ty := by
  unfold ratTangentCoeffs tangentCoeffs
  dsimp only
  split <;> simp_all [ratTangent2, ratTangent3, ratTangent4, tangent2, tangent3, tangent4]
  split <;> simp_all

/-- The tangent polynomial of a rational curve is that of the polynomial curve with the same control points
(`C57_rational_tangent_refuted` shows that the weights matter); it is the component of the derivative along
the given vector when the weights are equal.  Missing: other weights. -/
theorem C57_rational_tangent_partial {c : RationalBezier K (K × K)} (hs : c.init = ok c) {tx ty : K}
    {co : List K} (h : ratTangentCoeffs c.base.ctrl c.weights tx ty = some co) {t : K}
    (hw : Bezier.wrap c.base.periodic t = ok t) :
    (∃ v, c.base.evaluateDerivative t = ok v ∧
      Roots.polyVal (fun i => co.getD i 0) (co.length - 1) t = dot v (tx, ty)) ∧
    ∀ w, w ≠ 0 → (∀ x ∈ c.weights, x = w) → c.evaluateDerivative t = c.base.evaluateDerivative t := by
  have h' : tangentCoeffs false c.base.ctrl tx ty = some co := by
    rw [← h, ratTangentCoeffs_eq]
  refine ⟨C57_tangent_polynomial h' hw, fun w hw0 hwt => ?_⟩
  obtain ⟨n, hP, -, -⟩ := tangentCoeffs_eval h'
  obtain ⟨hl, hlen, hper, hval, hcols⟩ := homog_cols hs
  have hw' := hw
  rw [← hper] at hw'
  have e0 := hom_eval (n := n + 2) (by omega) hw' _ hcols
  have e1 := hom_der (n := n + 1) (by omega) hw' _ hcols
  have hwi : ∀ i < n + 3, c.weights.getD i 0 = w := by
    intro i hi
    have hi' : i < c.weights.length := by omega
    rw [List.getD_eq_getElem?_getD, List.getElem?_eq_getElem hi']
    exact hwt _ (List.getElem_mem hi')
  have hn : n = 0 ∨ n = 1 ∨ n = 2 := by
    have := (C57_supported false c.base.ctrl c.weights tx ty).2.2.1.1 (by rw [h']; rfl)
    simp at this
    omega
  rw [RationalBezier.evaluateDerivative, hval, ok_bind, e0, ok_bind, e1, ok_bind,
    bezier_der (n := n + 1) hP hw]
  obtain ⟨f1, f2, f3⟩ := flat_weights hn hwi (colX c.base.ctrl) t
  obtain ⟨-, -, f4⟩ := flat_weights hn hwi (colY c.base.ctrl) t
  simp only [f1, f2, f3, f4, quot1, Outcome.assert, ne_eq, hw0, not_false_eq_true, if_true, ok_bind, pure_eq,
    ok.injEq]
  refine Prod.ext ?_ ?_ <;>
    simp [hw0]

example : ratTangentCoeffs [((0 : ℚ), (0 : ℚ)), (1, 1), (2, 0)] [2, 2, 2] 0 1 = some [2, -4] ∧
    ∀ x ∈ [(2 : ℚ), 2, 2], x = 2 := by
  decide +kernel

end Polynomials

/-! ### Searches -/

section Searches

variable {eig : ℕ → (ℕ → ℕ → ℝ) → List ℂ}

/-- Inflections of a Bezier curve of degree at least three: an increasing list in the interval, with
every parameter at which the first two derivatives are linearly dependent. -/
theorem C57_inflections (hE : Roots.ExactEig eig) {high : Bool} {c : Bezier (ℝ × ℝ)} {co : List ℝ}
    (h : inflectionCoeffs high c.ctrl = some co) (h4 : 4 ≤ c.ctrl.length) {e : ℕ}
    (hp : WellPosed tol co e) {lower upper : ℝ} (hlt : lower < upper) :
    ∃ l, computeInflections eig high c lower upper = ok l ∧
      Reports tol co lower upper (fun t => Bezier.wrap c.periodic t = ok t ∧
        ∃ v a, c.evaluateDerivative t = ok v ∧ c.evaluate2ndDerivative t = ok a ∧ cross v a = 0) l ∧
      (e ≤ 2 → ∀ t ∈ l, Bezier.wrap c.periodic t = ok t →
        ∃ v a, c.evaluateDerivative t = ok v ∧ c.evaluate2ndDerivative t = ok a ∧ cross v a = 0) := by
  obtain ⟨n, hP, hl, -⟩ := inflectionCoeffs_eval h
  have key : ∀ t, Bezier.wrap c.periodic t = ok t → ∃ v a, c.evaluateDerivative t = ok v ∧
      c.evaluate2ndDerivative t = ok a ∧ evalP co t = -cross v a := by
    intro t ht
    obtain ⟨v, a, hv, ha, he⟩ := C57_inflection_polynomial h ht
    exact ⟨v, a, hv, ha, by rw [← he, evalP_polyVal (by omega)]⟩
  obtain ⟨l, h1, h2, h3⟩ := solve_reports hE (d := 2 * n) hl hlt hp
  refine ⟨sortUnique l, ?_, ⟨h2.increasing, h2.inRange, ?_, h2.sound⟩, ?_⟩
  · rw [computeInflections, if_neg (by simp only [Bezier.degree]; omega), h, h1]; rfl
  · rintro t ht1 ht2 ⟨hw, v, a, hv, ha, hz⟩
    refine h2.complete t ht1 ht2 ?_
    obtain ⟨v', a', hv', ha', he⟩ := key t hw
    rw [hv, ok.injEq] at hv'
    rw [ha, ok.injEq] at ha'
    rw [he, ← hv', ← ha', hz, neg_zero]
  · intro h2' t ht hw
    obtain ⟨v, a, hv, ha, he⟩ := key t hw
    refine ⟨v, a, hv, ha, ?_⟩
    rw [h3 h2' t ((mem_sortUnique _ _).1 ht)] at he
    linarith

/-- Singularities of a Bezier curve: an increasing list in the interval, with every parameter at which the
derivative vanishes. -/
theorem C57_singularities (hE : Roots.ExactEig eig) {high : Bool} {c : Bezier (ℝ × ℝ)} {co : List ℝ}
    (h : singularityCoeffs high c.ctrl = some co) {e : ℕ}
    (hp : WellPosed tol co e) {lower upper : ℝ} (hlt : lower < upper) :
    ∃ l, computeSingularities eig high c lower upper = ok l ∧
      Reports tol co lower upper (fun t => Bezier.wrap c.periodic t = ok t ∧
        c.evaluateDerivative t = ok 0) l ∧
      (e ≤ 2 → ∀ t ∈ l, Bezier.wrap c.periodic t = ok t → c.evaluateDerivative t = ok 0) := by
  obtain ⟨n, hP, hl, -⟩ := singularityCoeffs_eval h
  have key : ∀ t, Bezier.wrap c.periodic t = ok t → ∃ v, c.evaluateDerivative t = ok v ∧
      evalP co t = dot v v := by
    intro t ht
    obtain ⟨v, hv, he⟩ := C57_singularity_polynomial h ht
    exact ⟨v, hv, by rw [← he, evalP_polyVal (by omega)]⟩
  obtain ⟨l, h1, h2, h3⟩ := solve_reports hE (d := 2 * n + 2) hl hlt hp
  refine ⟨sortUnique l, ?_, ⟨h2.increasing, h2.inRange, ?_, h2.sound⟩, ?_⟩
  · rw [computeSingularities, h, h1]; rfl
  · rintro t ht1 ht2 ⟨hw, hv⟩
    refine h2.complete t ht1 ht2 ?_
    obtain ⟨v', hv', he⟩ := key t hw
    rw [hv, ok.injEq] at hv'
    rw [he, ← hv', dot]; simp
  · intro h2' t ht hw
    obtain ⟨v, hv, he⟩ := key t hw
    rw [h3 h2' t ((mem_sortUnique _ _).1 ht), dot] at he
    have h1 : v.1 = 0 := by nlinarith [mul_self_nonneg v.1, mul_self_nonneg v.2]
    have h2 : v.2 = 0 := by nlinarith [mul_self_nonneg v.1, mul_self_nonneg v.2]
    rw [hv, ok.injEq]
    exact Prod.ext h1 h2

/-- Turning angle reduction of a Bezier curve: when the end tangents are not negligible, the list has every
parameter at which the derivative is parallel to the bisector of the end tangents. -/
theorem C57_turning_angle (hE : Roots.ExactEig eig) {high : Bool} {c : Bezier (ℝ × ℝ)}
    {lower upper : ℝ} (hlt : lower < upper) {v0 v1 : ℝ × ℝ}
    (h0 : c.evaluateDerivative lower = ok v0) (h1 : c.evaluateDerivative upper = ok v1)
    (hn0 : tol ≤ √(dot v0 v0)) (hn1 : tol ≤ √(dot v1 v1)) {co : List ℝ}
    (h : tangentCoeffs high c.ctrl
      (-((√(dot v0 v0))⁻¹ * v0.2 + (√(dot v1 v1))⁻¹ * v1.2) / 2)
      (((√(dot v0 v0))⁻¹ * v0.1 + (√(dot v1 v1))⁻¹ * v1.1) / 2) = some co) {e : ℕ}
    (hp : WellPosed tol co e) :
    ∃ l, reduceTurningAngle eig high c lower upper = ok l ∧
      Reports tol co lower upper (fun t => Bezier.wrap c.periodic t = ok t ∧
        ∃ v, c.evaluateDerivative t = ok v ∧
          cross v ((√(dot v0 v0))⁻¹ • v0 + (√(dot v1 v1))⁻¹ • v1) = 0) l ∧
      (e ≤ 2 → ∀ t ∈ l, Bezier.wrap c.periodic t = ok t → ∃ v, c.evaluateDerivative t = ok v ∧
          cross v ((√(dot v0 v0))⁻¹ • v0 + (√(dot v1 v1))⁻¹ • v1) = 0) := by
  obtain ⟨n, hP, hl, -⟩ := tangentCoeffs_eval h
  have key : ∀ t, Bezier.wrap c.periodic t = ok t → ∃ v, c.evaluateDerivative t = ok v ∧
      evalP co t = cross v ((√(dot v0 v0))⁻¹ • v0 + (√(dot v1 v1))⁻¹ • v1) / -2 := by
    intro t ht
    obtain ⟨v, hv, he⟩ := C57_tangent_polynomial h ht
    refine ⟨v, hv, ?_⟩
    rw [← evalP_polyVal (d := n + 1) hl, ← show co.length - 1 = n + 1 by omega, he, dot, cross]
    simp only [Prod.fst_add, Prod.snd_add, Prod.smul_fst, Prod.smul_snd, smul_eq_mul]
    ring
  obtain ⟨l, h4, h2, h3⟩ := solve_reports hE (d := n + 1) hl hlt hp
  refine ⟨sortUnique l, ?_, ⟨h2.increasing, h2.inRange, ?_, h2.sound⟩, ?_⟩
  · rw [reduceTurningAngle, if_neg (by simp only [Bezier.degree]; omega), h0, ok_bind, h1, ok_bind,
      if_neg (by rw [not_or, not_lt, not_lt]; exact ⟨hn0, hn1⟩)]
    have : tangentCoeffs high c.ctrl (aveTangent v0 v1).1 (aveTangent v0 v1).2 = some co := h
    simp only [this, h4]; rfl
  · rintro t ht1 ht2 ⟨hw, v, hv, hz⟩
    refine h2.complete t ht1 ht2 ?_
    obtain ⟨v', hv', he⟩ := key t hw
    rw [hv, ok.injEq] at hv'
    rw [he, ← hv', hz]; ring
  · intro h2' t ht hw
    obtain ⟨v, hv, he⟩ := key t hw
    refine ⟨v, hv, ?_⟩
    rw [h3 h2' t ((mem_sortUnique _ _).1 ht)] at he
    linarith

/-- A negligible end tangent: the answer is the midpoint. -/
theorem C57_turning_angle_degenerate {high : Bool} {c : Bezier (ℝ × ℝ)} (h3 : 3 ≤ c.ctrl.length)
    {lower upper : ℝ} {v0 v1 : ℝ × ℝ}
    (h0 : c.evaluateDerivative lower = ok v0) (h1 : c.evaluateDerivative upper = ok v1)
    (hn : √(dot v0 v0) < tol ∨ √(dot v1 v1) < tol) :
    reduceTurningAngle eig high c lower upper = ok [(lower + upper) / 2] := by
  rw [reduceTurningAngle, if_neg (by simp only [Bezier.degree]; omega), h0, ok_bind, h1, ok_bind,
    if_pos (show norm2 v0 < tol ∨ norm2 v1 < tol from hn)]
  rfl

/-- Whatever the curve: results lie in the interval and increase, and an empty list or the exception
`infinite_root_error` is the answer to a negligible polynomial. -/
theorem C57_always {high : Bool} {c : Bezier (ℝ × ℝ)} {lower upper : ℝ} (hle : lower ≤ upper)
    {l : List ℝ}
    (h : computeInflections eig high c lower upper = ok l ∨
      computeSingularities eig high c lower upper = ok l ∨
      reduceTurningAngle eig high c lower upper = ok l) :
    l.Pairwise (· < ·) ∧ ∀ t ∈ l, lower ≤ t ∧ t ≤ upper := by
  have e : ∀ {co : Option (List ℝ)} {r : List ℝ}, orEmpty (solve eig co lower upper) = ok r →
      ∀ t ∈ r, lower ≤ t ∧ t ≤ upper := by
    intro co r hr
    cases hs : solve eig co lower upper with
    | ok r' =>
      rw [hs, orEmpty, ok.injEq] at hr
      · rw [← hr]; exact solve_inRange hs
      · simp
    | throw er =>
      rw [hs] at hr
      cases er <;> simp [orEmpty] at hr
      rw [hr]; simp
    | ub => rw [hs] at hr; simp [orEmpty] at hr
  rcases h with h | h | h
  · rw [computeInflections] at h
    split at h
    · rw [ok.injEq] at h; rw [← h]; simp
    · obtain ⟨r, hr, h⟩ := bind_eq_ok.1 h
      rw [pure_eq, ok.injEq] at h
      rw [← h]
      exact ⟨sortUnique_increasing _, fun t ht => e hr t ((mem_sortUnique _ _).1 ht)⟩
  · rw [computeSingularities] at h
    obtain ⟨r, hr, h⟩ := bind_eq_ok.1 h
    rw [pure_eq, ok.injEq] at h
    rw [← h]
    exact ⟨sortUnique_increasing _, fun t ht => solve_inRange hr t ((mem_sortUnique _ _).1 ht)⟩
  · rw [reduceTurningAngle] at h
    split at h
    · rw [ok.injEq] at h; rw [← h]; simp
    · obtain ⟨v0, -, h⟩ := bind_eq_ok.1 h
      obtain ⟨v1, -, h⟩ := bind_eq_ok.1 h
      split at h
      · rw [pure_eq, ok.injEq] at h
        rw [← h]
        refine ⟨by simp, fun t ht => ?_⟩
        rw [List.mem_singleton] at ht
        rw [ht]; constructor <;> linarith
      · obtain ⟨r, hr, h⟩ := bind_eq_ok.1 h
        rw [pure_eq, ok.injEq] at h
        rw [← h]
        exact ⟨sortUnique_increasing _, fun t ht => e hr t ((mem_sortUnique _ _).1 ht)⟩

/-- A negligible polynomial: no inflections are reported, the search for singularities throws. -/
theorem C57_negligible {high : Bool} {c : Bezier (ℝ × ℝ)} {lower upper : ℝ} (hlt : lower < upper) :
    (∀ co, inflectionCoeffs high c.ctrl = some co → (∀ a ∈ co, |a| < tol) →
      computeInflections eig high c lower upper = ok []) ∧
    (∀ co, singularityCoeffs high c.ctrl = some co →
      (computeSingularities eig high c lower upper = Outcome.throw .infiniteRoot ↔
        ∀ a ∈ co, |a| < tol)) := by
  constructor
  · intro co h hs
    obtain ⟨n, -, hl, -⟩ := inflectionCoeffs_eval h
    rw [computeInflections]
    split
    · rfl
    · rw [h, (solve_infinite hl hlt).2 hs]
      simp [orEmpty, ok_bind, pure_eq, sortUnique, unique]
  · intro co h
    obtain ⟨n, -, hl, -⟩ := singularityCoeffs_eval h
    rw [computeSingularities, h, ← solve_infinite (eig := eig) hl hlt]
    cases solve eig (some co) lower upper <;> simp [ok_bind, throw_bind, ub_bind, pure_eq]

/-- The classes of fixed degree agree with the generic one; the search for inflections of the quadratic
class finds none, as the generic class in degree two. -/
theorem C57_fixed_degree {high : Bool} {c : Bezier (ℝ × ℝ)} (lower upper : ℝ) :
    (c.ctrl.length ≤ 2 → computeInflections eig high c lower upper = computeInflections01 c lower upper ∧
      reduceTurningAngle eig high c lower upper = reduceTurningAngle01 c lower upper) ∧
    (c.ctrl.length = 3 →
      computeInflections eig high c lower upper = computeInflections2 c lower upper ∧
      computeSingularities eig high c lower upper = computeSingularities2 eig c lower upper) ∧
    (c.ctrl.length = 4 →
      computeInflections eig high c lower upper = computeInflections3 eig c lower upper ∧
      computeSingularities eig high c lower upper = computeSingularities3 eig c lower upper) := by
  refine ⟨fun h => ⟨?_, ?_⟩, fun h => ⟨?_, ?_⟩, fun h => ⟨?_, ?_⟩⟩
  · rw [computeInflections, if_pos (by simp only [Bezier.degree]; omega)]; rfl
  · rw [reduceTurningAngle, if_pos (by simp only [Bezier.degree]; omega)]; rfl
  · rw [computeInflections, if_pos (by simp only [Bezier.degree]; omega)]; rfl
  · rw [computeSingularities, computeSingularities2, assert_true h, ok_bind]
    simp only [singularityCoeffs, h]
  · rw [computeInflections, if_neg (by simp only [Bezier.degree]; omega), computeInflections3,
      assert_true h, ok_bind]
    simp only [inflectionCoeffs, h]
  · rw [computeSingularities, computeSingularities3, assert_true h, ok_bind]
    simp only [singularityCoeffs, h]

/-- In degrees zero and one the fixed-degree classes report no singularity, the generic class throws. -/
theorem C57_low_degree {high : Bool} {c : Bezier (ℝ × ℝ)} (h : c.ctrl.length ≤ 2) (lower upper : ℝ) :
    computeSingularities01 c lower upper = ok [] ∧
    computeSingularities eig high c lower upper = Outcome.throw .notImplemented := by
  refine ⟨rfl, ?_⟩
  have : singularityCoeffs high c.ctrl = none := by
    rw [← Option.not_isSome_iff_eq_none, (C57_supported high c.ctrl ([] : List ℝ) 0 0).2.1]; omega
  rw [computeSingularities, this]; rfl

/-- Inflections of a rational Bezier curve with positive weights on the way. -/
theorem C57_rational_inflections (hE : Roots.ExactEig eig) {c : RationalBezier ℝ (ℝ × ℝ)}
    (hs : c.init = ok c) {co : List ℝ}
    (h : ratInflectionCoeffs c.base.ctrl c.weights = some co) (h4 : 4 ≤ c.base.ctrl.length) {e : ℕ}
    (hp : WellPosed tol co e) {lower upper : ℝ} (hlt : lower < upper) :
    ∃ l, ratComputeInflections eig c lower upper = ok l ∧
      Reports tol co lower upper (fun t => Bezier.wrap c.base.periodic t = ok t ∧
        ∃ v a, c.evaluateDerivative t = ok v ∧ c.evaluate2ndDerivative t = ok a ∧ cross v a = 0) l := by
  obtain ⟨n, hP, hl, -⟩ := ratInflectionCoeffs_eval h
  obtain ⟨l, h1, h2, -⟩ := solve_reports hE (d := 5 * n + 4) hl hlt hp
  refine ⟨sortUnique l, ?_, ⟨h2.increasing, h2.inRange, ?_, h2.sound⟩⟩
  · rw [ratComputeInflections, if_neg (by simp only [Bezier.degree]; omega), h, h1]; rfl
  · rintro t ht1 ht2 ⟨hw, v, a, hv, ha, hz⟩
    refine h2.complete t ht1 ht2 ?_
    obtain ⟨W, ⟨p, hW⟩, he⟩ := C57_rational_inflection_polynomial hs h hw
    have hW0 : W ≠ 0 := by
      intro h0
      rw [RationalBezier.evaluateDerivative, (homog_cols hs).2.2.2.1, ok_bind, hW, ok_bind] at hv
      obtain ⟨d, -, hv⟩ := bind_eq_ok.1 hv
      simp [quot1, h0, ub_bind] at hv
    obtain ⟨v', a', hv', ha', he⟩ := he hW0
    rw [hv, ok.injEq] at hv'
    rw [ha, ok.injEq] at ha'
    rw [← evalP_polyVal (d := 5 * n + 4) hl, ← show co.length - 1 = 5 * n + 4 by omega, he, ← hv', ← ha', hz]
    ring

/-- Singularities of a rational Bezier curve. -/
theorem C57_rational_singularities (hE : Roots.ExactEig eig) {c : RationalBezier ℝ (ℝ × ℝ)}
    (hs : c.init = ok c) {co : List ℝ}
    (h : ratSingularityCoeffs c.base.ctrl c.weights = some co) {e : ℕ}
    (hp : WellPosed tol co e) {lower upper : ℝ} (hlt : lower < upper) :
    ∃ l, ratComputeSingularities eig c lower upper = ok l ∧
      Reports tol co lower upper (fun t => Bezier.wrap c.base.periodic t = ok t ∧
        c.evaluateDerivative t = ok 0) l := by
  obtain ⟨n, hP, hl, -⟩ := ratSingularityCoeffs_eval h
  obtain ⟨l, h1, h2, -⟩ := solve_reports hE (d := 4 * n) hl hlt hp
  refine ⟨sortUnique l, ?_, ⟨h2.increasing, h2.inRange, ?_, h2.sound⟩⟩
  · rw [ratComputeSingularities, h, h1]; rfl
  · rintro t ht1 ht2 ⟨hw, hv⟩
    refine h2.complete t ht1 ht2 ?_
    obtain ⟨W, ⟨p, hW⟩, he⟩ := C57_rational_singularity_polynomial hs h hw
    have hW0 : W ≠ 0 := by
      intro h0
      rw [RationalBezier.evaluateDerivative, (homog_cols hs).2.2.2.1, ok_bind, hW, ok_bind] at hv
      obtain ⟨d, -, hv⟩ := bind_eq_ok.1 hv
      simp [quot1, h0, ub_bind] at hv
    obtain ⟨v', hv', he⟩ := he hW0
    rw [hv, ok.injEq] at hv'
    rw [← evalP_polyVal (d := 4 * n) hl, ← show co.length - 1 = 4 * n by omega, he, ← hv', dot]
    simp

/-- Turning angle reduction of the classes of fixed degree; the cubic class answers with the midpoint also when
the end tangents almost cancel. -/
theorem C57_fixed_turning_angle {high : Bool} {c : Bezier (ℝ × ℝ)} {lower upper : ℝ} :
    (c.ctrl.length = 3 →
      reduceTurningAngle eig high c lower upper = reduceTurningAngle2 eig c lower upper) ∧
    (c.ctrl.length = 4 → ∀ v0 v1, c.evaluateDerivative lower = ok v0 → c.evaluateDerivative upper = ok v1 →
      (2 * tol ≤ √(dot (v0 + v1) (v0 + v1)) →
        reduceTurningAngle3 eig c lower upper = reduceTurningAngle eig high c lower upper) ∧
      (√(dot (v0 + v1) (v0 + v1)) < 2 * tol →
        reduceTurningAngle3 eig c lower upper = ok [(lower + upper) / 2])) := by
  constructor
  · intro h
    obtain ⟨P, per⟩ := c
    obtain ⟨p0, p1, p2, rfl⟩ := List.length_eq_three.1 h
    rw [reduceTurningAngle, if_neg (by simp only [Bezier.degree]; norm_num), reduceTurningAngle2,
      assert_true h, ok_bind, (Props.C02_degree2 p0 p1 p2 per lower).2.1,
      (Props.C02_degree2 p0 p1 p2 per upper).2.1]
    simp only [tangentCoeffs, h]
  · intro h v0 v1 h0 h1
    obtain ⟨P, per⟩ := c
    obtain ⟨p0, p1, p2, p3, rfl⟩ : ∃ p0 p1 p2 p3, P = [p0, p1, p2, p3] := by
      match P, h with
      | [a, b, c, d], _ => exact ⟨a, b, c, d, rfl⟩
    rw [← (Props.C02_degree3 p0 p1 p2 p3 per lower).2.1] at h0
    rw [← (Props.C02_degree3 p0 p1 p2 p3 per upper).2.1] at h1
    refine ⟨fun hs => ?_, fun hs => ?_⟩
    · rw [reduceTurningAngle, if_neg (by simp only [Bezier.degree]; norm_num), reduceTurningAngle3,
        assert_true h, ok_bind, ← (Props.C02_degree3 p0 p1 p2 p3 per lower).2.1,
        ← (Props.C02_degree3 p0 p1 p2 p3 per upper).2.1, h0, h1]
      have : ¬ norm2 (v0 + v1) < 2 * tol := not_lt.2 hs
      simp only [tangentCoeffs, h, ok_bind, this, or_false]
    · rw [reduceTurningAngle3, assert_true h, ok_bind, h0, ok_bind, h1, ok_bind,
        if_pos (Or.inr (Or.inr (show norm2 (v0 + v1) < 2 * tol from hs)))]
      rfl

/-- The tangent polynomials of rational curves ignore the weights: for the weights `1, 1, 2` the search for a
horizontal tangent answers `1/2`, where the tangent is not horizontal. -/
theorem C57_rational_tangent_refuted :
    let c : RationalBezier ℝ (ℝ × ℝ) :=
      ⟨⟨[(0, 0), (1, 1), (2, 0)], false⟩, [1, 1, 2], ⟨[((0, 0), 1), ((1, 1), 1), ((4, 0), 2)], false⟩⟩
    c.init = ok c ∧
    solve eig (ratTangentCoeffs c.base.ctrl c.weights 0 1) 0 1 = ok [1 / 2] ∧
    ∃ v, c.evaluateDerivative (1 / 2) = ok v ∧ dot v (0, 1) ≠ 0 := by
  intro c
  refine ⟨?_, ?_, ?_⟩
  · norm_num [c, RationalBezier.init, homogenize, Outcome.assert, ok_bind, pure_eq]
  · norm_num [c, solve, ratTangentCoeffs, ratTangent2, colX, colY, Roots.find, Roots.find1, Roots.find0,
      Outcome.assert, rd, ok_bind, pure_eq, tol, Roots.push, abs_of_neg, abs_of_pos]
  · have hi : c.init = ok c := by
      norm_num [c, RationalBezier.init, homogenize, Outcome.assert, ok_bind, pure_eq]
    obtain ⟨-, -, -, hval, hcols⟩ := homog_cols hi
    have e0 := hom_eval (c := c.hom) (n := 2) (t := 1 / 2) rfl rfl _ hcols
    have e1 := hom_der (c := c.hom) (n := 1) (t := 1 / 2) rfl rfl _ hcols
    have r3 : List.range 3 = [0, 1, 2] := rfl
    have r2 : List.range 2 = [0, 1] := rfl
    norm_num [val, hodo, r3, fwd, evalP, sum_range_succ, Nat.choose, colX, colY, c] at e0
    norm_num [der, hodo, r2, fwd, evalP, sum_range_succ, Nat.choose, colX, colY, c] at e1
    refine ⟨(56 / 25, -8 / 25), ?_, by norm_num [dot]⟩
    rw [RationalBezier.evaluateDerivative, hval, ok_bind]
    norm_num [c, e0, e1, ok_bind, quot1, Outcome.assert, pure_eq]

/-- Turning angle reduction of a rational curve: when neither the end tangents nor their sum are negligible, the
list has every parameter at which the derivative of the polynomial curve with the same control points is
parallel to the bisector of the end tangents of the rational curve; when the weights are equal, every parameter
at which its own derivative is.  Missing: other weights, `C57_rational_tangent_refuted`. -/
theorem C57_rational_turning_angle_partial (hE : Roots.ExactEig eig) {c : RationalBezier ℝ (ℝ × ℝ)}
    (hs : c.init = ok c) {lower upper : ℝ} (hlt : lower < upper) {v0 v1 : ℝ × ℝ}
    (h0 : c.evaluateDerivative lower = ok v0) (h1 : c.evaluateDerivative upper = ok v1)
    (hn0 : tol ≤ √(dot v0 v0)) (hn1 : tol ≤ √(dot v1 v1))
    (hn : 2 * tol ≤ √(dot (v0 + v1) (v0 + v1))) {co : List ℝ}
    (h : ratTangentCoeffs c.base.ctrl c.weights
      (-((√(dot v0 v0))⁻¹ * v0.2 + (√(dot v1 v1))⁻¹ * v1.2) / 2)
      (((√(dot v0 v0))⁻¹ * v0.1 + (√(dot v1 v1))⁻¹ * v1.1) / 2) = some co) {e : ℕ}
    (hp : WellPosed tol co e) :
    ∃ l, ratReduceTurningAngle eig c lower upper = ok l ∧
      Reports tol co lower upper (fun t => Bezier.wrap c.base.periodic t = ok t ∧
        ∃ v, c.base.evaluateDerivative t = ok v ∧
          cross v ((√(dot v0 v0))⁻¹ • v0 + (√(dot v1 v1))⁻¹ • v1) = 0) l ∧
      ∀ w, w ≠ 0 → (∀ x ∈ c.weights, x = w) →
        Reports tol co lower upper (fun t => Bezier.wrap c.base.periodic t = ok t ∧
          ∃ v, c.evaluateDerivative t = ok v ∧
            cross v ((√(dot v0 v0))⁻¹ • v0 + (√(dot v1 v1))⁻¹ • v1) = 0) l := by
  have h' := h
  rw [ratTangentCoeffs_eq] at h'
  obtain ⟨n, hP, hl, -⟩ := tangentCoeffs_eval h'
  have key : ∀ t, Bezier.wrap c.base.periodic t = ok t → ∃ v, c.base.evaluateDerivative t = ok v ∧
      evalP co t = cross v ((√(dot v0 v0))⁻¹ • v0 + (√(dot v1 v1))⁻¹ • v1) / -2 := by
    intro t ht
    obtain ⟨v, hv, he⟩ := (C57_rational_tangent_partial hs h ht).1
    refine ⟨v, hv, ?_⟩
    rw [← evalP_polyVal (d := n + 1) hl, ← show co.length - 1 = n + 1 by omega, he, dot, cross]
    simp only [Prod.fst_add, Prod.snd_add, Prod.smul_fst, Prod.smul_snd, smul_eq_mul]
    ring
  obtain ⟨l, h4, h2, h3⟩ := solve_reports hE (d := n + 1) hl hlt hp
  have main : ∀ t, lower ≤ t → t ≤ upper → Bezier.wrap c.base.periodic t = ok t →
      ∀ v, c.base.evaluateDerivative t = ok v →
      cross v ((√(dot v0 v0))⁻¹ • v0 + (√(dot v1 v1))⁻¹ • v1) = 0 → t ∈ sortUnique l := by
    intro t ht1 ht2 hw v hv hz
    refine h2.complete t ht1 ht2 ?_
    obtain ⟨v', hv', he⟩ := key t hw
    rw [hv, ok.injEq] at hv'
    rw [he, ← hv', hz]; ring
  refine ⟨sortUnique l, ?_, ⟨h2.increasing, h2.inRange, ?_, h2.sound⟩, fun w hw0 hwt =>
    ⟨h2.increasing, h2.inRange, ?_, h2.sound⟩⟩
  · rw [ratReduceTurningAngle, if_neg (by simp only [Bezier.degree]; omega), h0, ok_bind, h1, ok_bind,
      if_neg (by rw [not_or, not_or, not_lt, not_lt, not_lt]; exact ⟨hn0, hn1, hn⟩)]
    have : ratTangentCoeffs c.base.ctrl c.weights (aveTangent v0 v1).1 (aveTangent v0 v1).2 = some co := h
    simp only [this, h4]; rfl
  · rintro t ht1 ht2 ⟨hw, v, hv, hz⟩
    exact main t ht1 ht2 hw v hv hz
  · rintro t ht1 ht2 ⟨hw, v, hv, hz⟩
    rw [(C57_rational_tangent_partial hs h hw).2 w hw0 hwt] at hv
    exact main t ht1 ht2 hw v hv hz

/-- A negligible end tangent of a rational curve, or end tangents that almost cancel: the answer is the
midpoint. -/
theorem C57_rational_turning_angle_degenerate {c : RationalBezier ℝ (ℝ × ℝ)} (h3 : 3 ≤ c.base.ctrl.length)
    {lower upper : ℝ} {v0 v1 : ℝ × ℝ}
    (h0 : c.evaluateDerivative lower = ok v0) (h1 : c.evaluateDerivative upper = ok v1)
    (hn : √(dot v0 v0) < tol ∨ √(dot v1 v1) < tol ∨ √(dot (v0 + v1) (v0 + v1)) < 2 * tol) :
    ratReduceTurningAngle eig c lower upper = ok [(lower + upper) / 2] := by
  rw [ratReduceTurningAngle, if_neg (by simp only [Bezier.degree]; omega), h0, ok_bind, h1, ok_bind,
    if_pos (show norm2 v0 < tol ∨ norm2 v1 < tol ∨ norm2 (v0 + v1) < 2 * tol from hn)]
  rfl

/-- Concrete case of `C57_inflections`: the cubic with control points `(0,0), (1,1), (2,-1), (3,0)`, whose
inflection is at `1/2`. -/
example : inflectionCoeffs false [((0 : ℝ), (0 : ℝ)), (1, 1), (2, -1), (3, 0)] = some [54, -108, 0] ∧
    WellPosed tol [54, -108, 0] 1 := by
  refine ⟨?_, ⟨⟨by norm_num, ?_, ?_⟩, ?_, by norm_num⟩⟩
  · norm_num [inflectionCoeffs, inflection3, colX, colY]
  · norm_num [tol]
  · intro i h1 h2
    obtain rfl : i = 2 := by simp at h2; omega
    norm_num [tol]
  · intro i h
    match i with
    | 2 => rfl
    | (n + 3) => simp

/-- Concrete case of `C57_singularities`: the parabola with control points `(0,0), (1,0), (0,0)` stops at
`1/2`. -/
example : singularityCoeffs false [((0 : ℝ), (0 : ℝ)), (1, 0), (0, 0)] = some [4, -16, 16] ∧
    WellPosed tol [4, -16, 16] 2 := by
  refine ⟨?_, ⟨⟨by norm_num, ?_, ?_⟩, ?_, by norm_num⟩⟩
  · norm_num [singularityCoeffs, singularity2, colX, colY]
  · norm_num [tol]
  · intro i h1 h2
    simp at h2; omega
  · intro i h
    match i with
    | (n + 3) => simp

end Searches

end Features
end NS
