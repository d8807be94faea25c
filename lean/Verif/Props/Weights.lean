import Verif.Props.Rational
import Verif.Props.RationalNurbs
import Verif.Spec.Geom
import Mathlib.Tactic.LinearCombination
import Mathlib.Analysis.InnerProductSpace.Basic
import Mathlib.Analysis.Complex.Basic

/-!
# What weights do to rational curves (C111)
-/

set_option linter.unusedSectionVars false
set_option linter.unusedSimpArgs false

namespace NS.Props

open Outcome Spec Finset Geom LawfulGeom
open BSpline (WellFormed Wide FirstSpan)

variable {K V : Type} [Field K] [LinearOrder K] [IsStrictOrderedRing K] [FloorRing K]
  [AddCommGroup V] [Module K V]

/-! ### One weight -/

theorem sum_set {M : Type} [AddCommGroup M] [Module K M] (b : ℕ → K) (P : ℕ → M) (w : List K) (x : K) {k : ℕ}
    (hk : k < w.length) :
    ∑ i ∈ range w.length, (b i * (w.set k x).getD i 0) • P i
      = ∑ i ∈ range w.length, (b i * w.getD i 0) • P i + (b k * (x - w.getD k 0)) • P k := by
  have h : ∀ i ∈ range w.length, (b i * (w.set k x).getD i 0) • P i
      = (b i * w.getD i 0) • P i + if i = k then (b k * (x - w.getD k 0)) • P k else 0 := by
    intro i hi
    have hi' := mem_range.1 hi
    by_cases e : i = k
    · subst e
      rw [if_pos rfl, List.getD_eq_getElem?_getD, List.getElem?_set_self hi', Option.getD_some, ← add_smul]
      congr 1; ring
    · rw [if_neg e, add_zero, List.getD_eq_getElem?_getD, List.getElem?_set_ne (Ne.symm e), ← List.getD_eq_getElem?_getD]
  rw [sum_congr rfl h, sum_add_distrib, sum_ite_eq' (range w.length) k, if_pos (mem_range.2 hk)]

/-- The weighted mean with one weight changed. -/
theorem quotient_pull {D δ : K} {N P : V} (hD : D ≠ 0) (hD' : D + δ ≠ 0) :
    (D + δ)⁻¹ • (N + δ • P) = (1 - δ / (D + δ)) • (D⁻¹ • N) + (δ / (D + δ)) • P := by
  rw [smul_add, smul_smul, smul_smul, show δ / (D + δ) = (D + δ)⁻¹ * δ by field_simp]
  congr 2
  field_simp
  ring

theorem pull_mem {D δ : K} (hD : 0 < D) (hδ : 0 ≤ δ) : 0 ≤ δ / (D + δ) ∧ δ / (D + δ) < 1 :=
  ⟨by positivity, (div_lt_one (by positivity)).2 (by linarith)⟩

/-- **C111**: increasing a weight of a rational Bézier curve moves each point of the curve on a straight line towards
the control point of that weight, by the fraction `B_i(t) (x - w_i) / Σ B_j(t) w'_j` of the distance. -/
theorem C111_rational_bezier_pull {c : RationalBezier K V} (hc : c.init = ok c) (hw : ∀ y ∈ c.weights, 0 < y) {i : ℕ}
    (hi : i < c.base.ctrl.length) {x : K} (hx : c.weights.getD i 0 ≤ x) :
    ∃ c', c.setWeight i x = ok c' ∧ ∀ t, (c.base.periodic = true ∨ (0 ≤ t ∧ t ≤ 1)) →
      ∃ t' q q' r, Folded c.base.periodic 0 1 t t' ∧ c.evaluate t = ok q ∧ c'.evaluate t = ok q' ∧
        q' = (1 - r) • q + r • c.base.ctrl.getD i 0 ∧ 0 ≤ r ∧ r < 1 ∧
        r = bernstein (c.base.ctrl.length - 1) i t' * (x - c.weights.getD i 0)
          / (ratBezierDen c.weights t' + bernstein (c.base.ctrl.length - 1) i t' * (x - c.weights.getD i 0)) := by
  obtain ⟨S, -, -⟩ := (RationalBezier.init_iff _ _).1 hc
  have hl := S.len
  have hne : c.base.ctrl ≠ [] := by rintro e; simp [e] at hi
  obtain ⟨c', e, S', eb, ew⟩ := S.setWeight hi x
  refine ⟨c', e, fun t ht => ?_⟩
  obtain ⟨t', h1, h2⟩ := bezier_folded c.base.periodic t
  have ht' : 0 ≤ t' ∧ t' ≤ 1 := by
    unfold Folded at h2
    split at h2
    · exact ⟨h2.1, h2.2.1.le⟩
    · rename_i hp
      subst h2
      exact ht.resolve_left (by simpa using hp)
  have hwne : c.weights ≠ [] := by
    intro e; rw [e] at hl; exact hne (List.length_eq_zero_iff.1 hl)
  have hD := ratBezierDen_pos hwne hw ht'.1 ht'.2
  set δ := bernstein (c.base.ctrl.length - 1) i t' * (x - c.weights.getD i 0) with hδ
  have hb : 0 ≤ δ := mul_nonneg (by
    unfold bernstein
    have := sub_nonneg.2 ht'.2
    have := ht'.1
    positivity) (sub_nonneg.2 hx)
  have hden : ratBezierDen c'.weights t' = ratBezierDen c.weights t' + δ := by
    unfold ratBezierDen
    have := sum_set (M := K) (fun j => bernstein (c.weights.length - 1) j t') (fun _ => 1) c.weights x (k := i) (by omega)
    simp only [smul_eq_mul, mul_one] at this
    rw [ew, List.length_set, this, hδ, hl]
  have hnum := sum_set (fun j => bernstein (c.weights.length - 1) j t') (fun j => c.base.ctrl.getD j 0) c.weights x
    (k := i) (by omega)
  have hpos : 0 < ratBezierDen c.weights t' + δ := by positivity
  refine ⟨t', ratBezierPoint c.base.ctrl c.weights t', ratBezierPoint c.base.ctrl c'.weights t',
    δ / (ratBezierDen c.weights t' + δ), h2, ?_, ?_, ?_, (pull_mem hD hb).1, (pull_mem hD hb).2, rfl⟩
  · rw [S.evaluate hne h1, if_neg hD.ne']
  · rw [S'.evaluate (by rw [eb]; exact hne) (by rw [eb]; exact h1), if_neg (by rw [hden]; exact hpos.ne'), eb]
  · unfold ratBezierPoint
    rw [hden, ew, hl, hnum, ← quotient_pull hD.ne' hpos.ne', hδ, hl]

example := C111_rational_bezier_pull exRational_init (by decide +kernel) (i := 1) (by decide) (x := 5) (by decide +kernel)

/-- **C111**: the same for NURBS curves; where the basis function of the control point vanishes the point stays. -/
theorem C111_nurbs_pull {c : NURBS K V} (hc : c.init = ok c) {p : ℕ} (hwf : WellFormed c.base p)
    (hwd : Wide c.base p) (hfst : FirstSpan c.base p) (hw : ∀ y ∈ c.weights, 0 < y) {i : ℕ}
    (hi : i < c.base.ctrl.length) {x : K} (hx : c.weights.getD i 0 ≤ x) :
    ∃ c', c.setWeight i x = ok c' ∧ ∀ t, Admissible c.base p t →
      ∃ t' q q' r, Folded c.base.periodic (knot c.base.knots p) (knot c.base.knots c.base.ctrl.length) t t' ∧
        c.evaluate t = ok q ∧ c'.evaluate t = ok q' ∧
        q' = (1 - r) • q + r • c.base.ctrl.getD i 0 ∧ 0 ≤ r ∧ r < 1 ∧
        r = basis (knot c.base.knots) (knot c.base.knots c.base.ctrl.length) p i t' * (x - c.weights.getD i 0)
          / (ratBSplineDen p c.base.knots c.weights t'
            + basis (knot c.base.knots) (knot c.base.knots c.base.ctrl.length) p i t' * (x - c.weights.getD i 0)) := by
  obtain ⟨S, -, -⟩ := (NURBS.init_iff _ _).1 hc
  have hl := S.len
  obtain ⟨c', e, S', eb, ew⟩ := S.setWeight (BSpline.validate_ok hwf) hi x
  refine ⟨c', e, fun t ht => ?_⟩
  obtain ⟨t', h1, h2⟩ := bspline_folded hwf t
  have h3 := ht.mem h2
  have hD := ratBSplineDen_pos hwf hfst hl hw h3.1 h3.2
  set B := fun j => basis (knot c.base.knots) (knot c.base.knots c.base.ctrl.length) p j t' with hB
  set δ := B i * (x - c.weights.getD i 0) with hδ
  have hb : 0 ≤ δ := mul_nonneg ((sum_basis_range hwf hfst h3.1 h3.2).1 i hi) (sub_nonneg.2 hx)
  have hden : ratBSplineDen p c.base.knots c'.weights t' = ratBSplineDen p c.base.knots c.weights t' + δ := by
    unfold ratBSplineDen
    have := sum_set (M := K) B (fun _ => 1) c.weights x (k := i) (by omega)
    simp only [smul_eq_mul, mul_one] at this
    rw [ew, List.length_set, ← hl]
    rw [← hl] at this
    exact this
  have hnum := sum_set B (fun j => c.base.ctrl.getD j 0) c.weights x (k := i) (by omega)
  have hpos : 0 < ratBSplineDen p c.base.knots c.weights t' + δ := by positivity
  refine ⟨t', ratBSplinePoint p c.base.knots c.base.ctrl c.weights t',
    ratBSplinePoint p c.base.knots c.base.ctrl c'.weights t',
    δ / (ratBSplineDen p c.base.knots c.weights t' + δ), h2, ?_, ?_, ?_, (pull_mem hD hb).1, (pull_mem hD hb).2, rfl⟩
  · rw [S.evaluate hwf hwd h1 (Or.inl hfst) h3.1 h3.2, if_neg hD.ne']
  · rw [S'.evaluate (by rw [eb]; exact hwf) (by rw [eb]; exact hwd) (by rw [eb]; exact h1)
      (by rw [eb]; exact Or.inl hfst) (by rw [eb]; exact h3.1) (by rw [eb]; exact h3.2), eb,
      if_neg (by rw [hden]; exact hpos.ne')]
  · rw [← hl] at hnum
    unfold ratBSplinePoint
    rw [hden, ew, hnum, ← quotient_pull hD.ne' hpos.ne']

example := C111_nurbs_pull exNurbs_init exNurbs_wf exNurbs_wide exNurbs_first (by decide +kernel) (i := 1) (by decide)
  (x := 5) (by decide +kernel)

/-! ### Weights in geometric progression -/

theorem bernstein_mobius {n i : ℕ} (hi : i ≤ n) {k t : K} (hL : 1 - t + k * t ≠ 0) :
    bernstein n i t * k ^ i = (1 - t + k * t) ^ n * bernstein n i (k * t / (1 - t + k * t)) := by
  have e1 : 1 - k * t / (1 - t + k * t) = (1 - t) / (1 - t + k * t) := by field_simp; ring
  obtain ⟨m, rfl⟩ := Nat.exists_eq_add_of_le hi
  unfold bernstein
  rw [e1, div_pow, div_pow, Nat.add_sub_cancel_left, pow_add, mul_pow]
  have h1 := pow_ne_zero i hL
  have h2 := pow_ne_zero m hL
  generalize (1 - t + k * t) ^ i = x at *
  generalize (1 - t + k * t) ^ m = y at *
  field_simp

/-- **C111**: multiplying the weights of a rational Bézier curve by `1, k, k², …` keeps the curve and changes only its
speed: the new curve at `t` is the old one at `k t / (1 - t + k t)`. -/
theorem C111_mobius {c c' : RationalBezier K V} (hc : c.init = ok c) (hc' : c'.init = ok c') (hne : c.base.ctrl ≠ [])
    (hper : c.base.periodic = false) (hb : c'.base = c.base) {k : K}
    (hw : c'.weights = c.weights.mapIdx fun i x => k ^ i * x) (t : K) (hL : 1 - t + k * t ≠ 0) :
    c'.evaluate t = c.evaluate (k * t / (1 - t + k * t)) := by
  obtain ⟨S, -, -⟩ := (RationalBezier.init_iff _ _).1 hc
  obtain ⟨S', -, -⟩ := (RationalBezier.init_iff _ _).1 hc'
  have hl := S.len
  set s := k * t / (1 - t + k * t) with hs
  set L := (1 - t + k * t) ^ (c.weights.length - 1) with hLd
  have hL' : L ≠ 0 := pow_ne_zero _ hL
  have hlen : 0 < c.weights.length := by rw [← hl]; exact List.length_pos_iff.2 hne
  have hterm : ∀ i ∈ range c.weights.length, bernstein (c.weights.length - 1) i t * c'.weights.getD i 0
      = L * (bernstein (c.weights.length - 1) i s * c.weights.getD i 0) := by
    intro i hi
    have hi' := mem_range.1 hi
    have : c'.weights.getD i 0 = k ^ i * c.weights.getD i 0 := by
      rw [hw]
      simp [List.getD_eq_getElem?_getD, hi']
    rw [this, ← mul_assoc, bernstein_mobius (by omega) hL, ← mul_assoc]
  have hden : ratBezierDen c'.weights t = L * ratBezierDen c.weights s := by
    unfold ratBezierDen
    rw [hw, List.length_mapIdx, ← hw, mul_sum]
    exact sum_congr rfl hterm
  have w1 : Bezier.wrap c.base.periodic t = ok t := by simp [Bezier.wrap, hper, pure_eq]
  have w2 : Bezier.wrap c.base.periodic s = ok s := by simp [Bezier.wrap, hper, pure_eq]
  rw [S'.evaluate (by rw [hb]; exact hne) (by rw [hb]; exact w1), S.evaluate hne w2, hden]
  by_cases h0 : ratBezierDen c.weights s = 0
  · rw [if_pos h0, if_pos (by rw [h0, mul_zero])]
  · rw [if_neg h0, if_neg (mul_ne_zero hL' h0), hb]
    congr 1
    unfold ratBezierPoint
    have hnum : ∑ i ∈ range c.base.ctrl.length,
          (bernstein (c.base.ctrl.length - 1) i t * c'.weights.getD i 0) • c.base.ctrl.getD i 0
        = L • ∑ i ∈ range c.base.ctrl.length,
          (bernstein (c.base.ctrl.length - 1) i s * c.weights.getD i 0) • c.base.ctrl.getD i 0 := by
      rw [smul_sum, hl]
      refine sum_congr rfl fun i hi => ?_
      rw [hterm i hi, smul_smul]
    rw [hden, hnum, smul_smul, mul_inv, mul_assoc, mul_comm _ L, ← mul_assoc, inv_mul_cancel₀ hL', one_mul]

/-- **C111**: so for a positive factor the two curves pass through the same points. -/
theorem C111_mobius_image {c c' : RationalBezier K V} (hc : c.init = ok c) (hc' : c'.init = ok c')
    (hne : c.base.ctrl ≠ []) (hper : c.base.periodic = false) (hb : c'.base = c.base) {k : K} (hk : 0 < k)
    (hw : c'.weights = c.weights.mapIdx fun i x => k ^ i * x) :
    {q | ∃ t, 0 ≤ t ∧ t ≤ 1 ∧ c'.evaluate t = ok q} = {q | ∃ t, 0 ≤ t ∧ t ≤ 1 ∧ c.evaluate t = ok q} := by
  have hL : ∀ k t : K, 0 < k → 0 ≤ t → t ≤ 1 → 0 < 1 - t + k * t := by
    intro k t hk h0 h1
    rcases h1.eq_or_lt with rfl | h
    · simpa using hk
    · have := mul_nonneg hk.le h0
      linarith
  have hin : ∀ k t : K, 0 < k → 0 ≤ t → t ≤ 1 →
      0 ≤ k * t / (1 - t + k * t) ∧ k * t / (1 - t + k * t) ≤ 1 := fun k t hk h0 h1 =>
    ⟨div_nonneg (mul_nonneg hk.le h0) (hL k t hk h0 h1).le, (div_le_one (hL k t hk h0 h1)).2 (by linarith)⟩
  ext q
  constructor
  · rintro ⟨t, h0, h1, h⟩
    rw [C111_mobius hc hc' hne hper hb hw t (hL k t hk h0 h1).ne'] at h
    exact ⟨_, (hin k t hk h0 h1).1, (hin k t hk h0 h1).2, h⟩
  · rintro ⟨t, h0, h1, h⟩
    have hp := hL k⁻¹ t (inv_pos.2 hk) h0 h1
    obtain ⟨a, b⟩ := hin k⁻¹ t (inv_pos.2 hk) h0 h1
    refine ⟨_, a, b, ?_⟩
    rw [C111_mobius hc hc' hne hper hb hw _ (hL k _ hk a b).ne', ← h]
    congr 1
    have hk' := hk.ne'
    have hp' := hp.ne'
    rw [div_eq_iff (hL k _ hk a b).ne']
    have : k⁻¹ * t / (1 - t + k⁻¹ * t) = t / (k * (1 - t) + t) := by
      have : k * (1 - t) + t = k * (1 - t + k⁻¹ * t) := by field_simp
      rw [this]
      field_simp
    have h3 : k * (1 - t) + t ≠ 0 := by
      have : k * (1 - t) + t = k * (1 - t + k⁻¹ * t) := by field_simp
      rw [this]
      exact mul_ne_zero hk' hp'
    rw [this]
    field_simp
    ring

/-- The curve of the example with weights `1, 1 · 2, 2 · 4`. -/
def exMobius : RationalBezier ℚ (ℚ × ℚ) :=
  { base := { ctrl := [(1, 0), (1, 1), (0, 1)] }, weights := [1, 2, 8],
    hom := { ctrl := [((1, 0), 1), ((2, 2), 2), ((0, 8), 8)] } }

example := C111_mobius exRational_init (by decide +kernel : exMobius.init = ok exMobius) (by decide) rfl rfl (k := 2)
  (by decide +kernel) (1 / 3) (by norm_num)
example := C111_mobius_image exRational_init (by decide +kernel : exMobius.init = ok exMobius) (by decide) rfl rfl
  (k := 2) (by norm_num) (by decide +kernel)

/-! ### Conics -/

theorem den_three (a b g t : K) :
    ratBezierDen [a, b, g] t = (1 - t) ^ 2 * a + 2 * t * (1 - t) * b + t ^ 2 * g := by
  simp [ratBezierDen, bernstein, sum_range_succ]

theorem point_three (A B C : V) (a b g t : K) :
    ratBezierPoint [A, B, C] [a, b, g] t
      = ((1 - t) ^ 2 * a / ratBezierDen [a, b, g] t) • A + (2 * t * (1 - t) * b / ratBezierDen [a, b, g] t) • B
        + (t ^ 2 * g / ratBezierDen [a, b, g] t) • C := by
  simp only [ratBezierPoint, bernstein, sum_range_succ, List.length_cons, List.length_nil, smul_add, smul_smul]
  simp
  simp only [div_eq_inv_mul]

/-- The conic arc with weights `a b g` in the triangle `A B C`. -/
def conicArc (A B C : V) (a b g : K) : Set V :=
  {q | ∃ α β γ : K, 0 ≤ α ∧ 0 ≤ β ∧ 0 ≤ γ ∧ α + β + γ = 1 ∧ a * g * β ^ 2 = 4 * b ^ 2 * α * γ ∧
    q = α • A + β • B + γ • C}

theorem conic_points (A B C : V) {a b g : K} (ha : 0 < a) (hb : 0 < b) (hg : 0 < g) (q : V) :
    (∃ t, 0 ≤ t ∧ t ≤ 1 ∧ ratBezierPoint [A, B, C] [a, b, g] t = q) ↔ q ∈ conicArc A B C a b g := by
  constructor
  · rintro ⟨t, h0, h1, h⟩
    have hD : 0 < ratBezierDen [a, b, g] t := ratBezierDen_pos (by simp) (by simp [ha, hb, hg]) h0 h1
    have h1' := sub_nonneg.2 h1
    refine ⟨_, _, _, ?_, ?_, ?_, ?_, ?_, by rw [← h, point_three]⟩
    · positivity
    · positivity
    · positivity
    · rw [← add_div, ← add_div, ← den_three, div_self hD.ne']
    · field_simp
      ring
  · rintro ⟨α, β, γ, h1, h2, h3, h4, h5, rfl⟩
    by_cases hM : a * β + 2 * b * α = 0
    · have e1 : a * β = 0 := le_antisymm (by nlinarith [mul_nonneg hb.le h1]) (by positivity)
      have e2 : b * α = 0 := by linarith
      obtain rfl : β = 0 := (mul_eq_zero.1 e1).resolve_left ha.ne'
      obtain rfl : α = 0 := (mul_eq_zero.1 e2).resolve_left hb.ne'
      obtain rfl : γ = 1 := by linarith
      refine ⟨1, zero_le_one, le_rfl, ?_⟩
      rw [point_three, den_three]
      simp [hg.ne']
    · have hMp : 0 < a * β + 2 * b * α := lt_of_le_of_ne (by positivity) (Ne.symm hM)
      have hα : α ≠ 0 := by
        rintro rfl
        apply hM
        have : a * g * β ^ 2 = 0 := by rw [h5]; ring
        have : β = 0 := by simpa [ha.ne', hg.ne'] using this
        simp [this]
      have i0 : 0 ≤ a * β / (a * β + 2 * b * α) := by positivity
      have i1 : a * β / (a * β + 2 * b * α) ≤ 1 := (div_le_one hMp).2 (by nlinarith [mul_nonneg hb.le h1])
      have e1 : 1 - a * β / (a * β + 2 * b * α) = 2 * b * α / (a * β + 2 * b * α) := by field_simp; ring
      refine ⟨_, i0, i1, ?_⟩
      rw [point_three]
      set M := a * β + 2 * b * α
      have f1 : (1 - a * β / M) ^ 2 * a = 4 * a * b ^ 2 * α / M ^ 2 * α := by rw [e1]; field_simp; ring
      have f2 : 2 * (a * β / M) * (1 - a * β / M) * b = 4 * a * b ^ 2 * α / M ^ 2 * β := by rw [e1]; field_simp; ring
      have f3 : (a * β / M) ^ 2 * g = 4 * a * b ^ 2 * α / M ^ 2 * γ := by
        rw [div_pow, div_mul_eq_mul_div, div_mul_eq_mul_div]
        congr 1
        linear_combination a * h5
      have fD : ratBezierDen [a, b, g] (a * β / M) = 4 * a * b ^ 2 * α / M ^ 2 := by
        rw [den_three, f1, f2, f3, ← mul_add, ← mul_add, h4, mul_one]
      have hne : 4 * a * b ^ 2 * α / M ^ 2 ≠ 0 := by
        refine div_ne_zero ?_ (pow_ne_zero _ hM)
        simp [ha.ne', hb.ne', hα]
      rw [f1, f2, f3, fD, mul_div_cancel_left₀ _ hne, mul_div_cancel_left₀ _ hne, mul_div_cancel_left₀ _ hne]

/-- **C111**: the points of a rational quadratic Bézier curve with positive weights are exactly the points of the conic
arc in its control triangle: barycentric coordinates `α β γ ≥ 0` with `a g β² = 4 b² α γ`. -/
theorem C111_conic {c : RationalBezier K V} (hc : c.init = ok c) (hper : c.base.periodic = false) {A B C : V}
    {a b g : K} (hP : c.base.ctrl = [A, B, C]) (hw : c.weights = [a, b, g]) (ha : 0 < a) (hb : 0 < b) (hg : 0 < g) :
    {q | ∃ t, 0 ≤ t ∧ t ≤ 1 ∧ c.evaluate t = ok q} = conicArc A B C a b g := by
  obtain ⟨S, -, -⟩ := (RationalBezier.init_iff _ _).1 hc
  ext q
  rw [← conic_points A B C ha hb hg]
  refine exists_congr fun t => and_congr_right fun h0 => and_congr_right fun h1 => ?_
  have w1 : Bezier.wrap c.base.periodic t = ok t := by simp [Bezier.wrap, hper, pure_eq]
  rw [S.evaluate (by simp [hP]) w1, hP, hw,
    if_neg (ratBezierDen_pos (by simp) (by simp [ha, hb, hg]) h0 h1).ne']
  exact ⟨fun h => by injection h, fun h => by rw [h]⟩

example := C111_conic exRational_init rfl (A := (1, 0)) (B := (1, 1)) (C := (0, 1)) (a := 1) (b := 1) (g := 2) rfl rfl
  (by norm_num) (by norm_num) (by norm_num)

section Circle

variable [Geom K V] [LawfulGeom K V]

/-- **C111**: a rational quadratic Bézier curve whose end legs are tangent to a circle about `O` and whose weights obey
`4 w₁² |A - B|² = w₀ w₂ |A - C|²` lies on that circle, wherever it has a point. -/
theorem C111_circle {c : RationalBezier K V} (hc : c.init = ok c) {A B C O : V} {a b g r2 : K}
    (hP : c.base.ctrl = [A, B, C]) (hw : c.weights = [a, b, g]) (ha : a ≠ 0) (hg : g ≠ 0)
    (hA : (dot (A - O) (A - O) : K) = r2) (hC : (dot (C - O) (C - O) : K) = r2)
    (tA : (dot (B - A) (A - O) : K) = 0) (tC : (dot (B - C) (C - O) : K) = 0)
    (rule : 4 * b ^ 2 * (dot (A - B) (A - B) : K) = a * g * dot (A - C) (A - C)) (t : K) {q : V}
    (hq : c.evaluate t = ok q) : (dot (q - O) (q - O) : K) = r2 := by
  obtain ⟨S, -, -⟩ := (RationalBezier.init_iff _ _).1 hc
  obtain ⟨t', h1, -⟩ := bezier_folded c.base.periodic t
  rw [S.evaluate (by simp [hP]) h1, hP, hw] at hq
  split at hq
  · cases hq
  rename_i hD
  injection hq with hq
  rw [point_three] at hq
  set D := ratBezierDen [a, b, g] t' with hDd
  generalize hα : (1 - t') ^ 2 * a / D = α at hq
  generalize hβ : 2 * t' * (1 - t') * b / D = β at hq
  generalize hγ : t' ^ 2 * g / D = γ at hq
  have hs : α + β + γ = 1 := by
    rw [← hα, ← hβ, ← hγ, ← add_div, ← add_div, ← den_three, ← hDd, div_self hD]
  have hcon : a * g * β ^ 2 = 4 * b ^ 2 * α * γ := by
    rw [← hα, ← hβ, ← hγ]
    field_simp
    ring
  have hqO : q - O = α • (A - O) + β • (B - O) + γ • (C - O) := by
    rw [← hq]
    have : O = α • O + β • O + γ • O := by rw [← add_smul, ← add_smul, hs, one_smul]
    nth_rewrite 1 [this]
    simp only [smul_sub]
    abel
  set x := A - O with hx
  set y := B - O with hy
  set z := C - O with hz
  have e1 : B - A = y - x := by rw [hx, hy]; abel
  have e2 : B - C = y - z := by rw [hz, hy]; abel
  have e3 : A - B = x - y := by rw [hx, hy]; abel
  have e4 : A - C = x - z := by rw [hx, hz]; abel
  rw [e1, dot_sub_left] at tA
  rw [e2, dot_sub_left] at tC
  rw [e3, e4] at rule
  simp only [dot_sub_left, dot_sub_right] at rule
  rw [hqO]
  simp only [dot_add, dot_smul, dot_smul_right, dot_add_right]
  have c1 : (dot x y : K) = r2 := by rw [dot_comm]; linarith
  have c2 : (dot y z : K) = r2 := by linarith
  have c3 : (dot z x : K) = dot x z := dot_comm _ _
  have c4 : (dot y x : K) = r2 := by rw [dot_comm]; exact c1
  have c5 : (dot z y : K) = r2 := by rw [dot_comm]; exact c2
  rw [hA, hC, c1, c3, c4] at rule
  rw [hA, hC, c1, c2, c3, c4, c5]
  apply mul_left_cancel₀ (mul_ne_zero ha hg)
  linear_combination (a * g * r2 * (α + β + γ + 1)) * hs + (dot y y - r2) * hcon + α * γ * rule

/-- The rational quarter circle in the complex plane. -/
noncomputable def exQuarter : RationalBezier ℝ ℂ :=
  { base := { ctrl := [1, 1 + Complex.I, Complex.I] }, weights := [1, 1, 2],
    hom := { ctrl := [((1 : ℝ) • 1, 1), ((1 : ℝ) • (1 + Complex.I), 1), ((2 : ℝ) • Complex.I, 2)] } }

theorem exQuarter_init : exQuarter.init = ok exQuarter := by
  simp [exQuarter, RationalBezier.init, homogenize, Outcome.assert, ok_bind, pure_eq]

example := C111_circle exQuarter_init (A := 1) (B := 1 + Complex.I) (C := Complex.I) (O := 0) (a := 1) (b := 1) (g := 2)
  (r2 := 1) rfl rfl (by norm_num) (by norm_num) (by simp [dot]) (by simp [dot]) (by simp [dot]) (by simp [dot])
  (by
    simp only [dot, real_inner_self_eq_norm_sq, Complex.sq_norm, Complex.normSq_apply]; simp; norm_num)

end Circle

/-! ### The nine-point circle -/

/-- Knots of the nine-point circle. -/
def circleKnots : List K := [0, 0, 0, 1, 1, 2, 2, 3, 3, 4, 4, 4]
/-- Its control points. -/
def circlePoints : List (K × K) :=
  [(1, 0), (1, 1), (0, 1), (-1, 1), (-1, 0), (-1, -1), (0, -1), (1, -1), (1, 0)]
/-- Its weights. -/
def circleWeights (s : K) : List K := [1, s, 1, s, 1, s, 1, s, 1]

theorem basis_next (u : ℕ → K) (T : K) (q i : ℕ) (t : K) : basis u T (q + 1) i t
    = (t - u i) / (u (i + q + 1) - u i) * basis u T q i t
      + (u (i + q + 2) - t) / (u (i + q + 2) - u (i + 1)) * basis u T q (i + 1) t := rfl

theorem circle_basis (t : K) (k : ℕ) (hk : k < 4) (hin : InSpan (knot circleKnots) (4 : K) (2 + 2 * k) t) (i : ℕ)
    (hi : i < 9) : basis (knot circleKnots) (4 : K) 2 i t
      = if i = 2 * k then (1 - (t - k)) ^ 2 else if i = 2 * k + 1 then 2 * (t - k) * (1 - (t - k))
        else if i = 2 * k + 2 then (t - k) ^ 2 else 0 := by
  have hb0 : ∀ i, i < 11 → basis (knot circleKnots) (4 : K) 0 i t = if i = 2 + 2 * k then 1 else 0 := by
    intro i hi
    unfold basis
    have : InSpan (knot circleKnots) (4 : K) i t ↔ i = 2 + 2 * k := by
      constructor
      · intro h
        unfold InSpan at h hin
        interval_cases k <;> interval_cases i <;> simp [knot, circleKnots] at h hin ⊢ <;> grind
      · rintro rfl; exact hin
    simp only [this]
  rw [basis_next, basis_next, basis_next, hb0 i (by omega), hb0 (i + 1) (by omega), hb0 (i + 1 + 1) (by omega)]
  interval_cases k <;> interval_cases i <;> simp [knot, circleKnots] <;> ring

theorem circle_piece (s t : K) (k : ℕ) (hk : k < 4) (hin : InSpan (knot circleKnots) (4 : K) (2 + 2 * k) t) :
    ratBSplineDen 2 (circleKnots (K := K)) (circleWeights s) t = ratBezierDen [1, s, 1] (t - k) ∧
    ratBSplinePoint 2 (circleKnots (K := K)) circlePoints (circleWeights s) t
      = ratBezierPoint (((circlePoints (K := K)).drop (2 * k)).take 3) [1, s, 1] (t - k) := by
  have hb := circle_basis t k hk hin
  have hden : ratBSplineDen 2 (circleKnots (K := K)) (circleWeights s) t = ratBezierDen [1, s, 1] (t - k) := by
    rw [den_three]
    unfold ratBSplineDen
    have : knot circleKnots (circleWeights s).length = (4 : K) := by simp [knot, circleKnots, circleWeights]
    rw [this, sum_congr rfl fun i hi => by rw [hb i (mem_range.1 hi)]]
    interval_cases k <;> simp [circleWeights, sum_range_succ]
  refine ⟨hden, ?_⟩
  have : knot circleKnots (circlePoints (K := K)).length = (4 : K) := by simp [knot, circleKnots, circlePoints]
  have h3 : ∃ A B C : K × K, ((circlePoints (K := K)).drop (2 * k)).take 3 = [A, B, C] ∧
      ∑ i ∈ range (circlePoints (K := K)).length, (basis (knot circleKnots) (4 : K) 2 i t * (circleWeights s).getD i 0) •
        (circlePoints (K := K)).getD i 0
      = ((1 - (t - k)) ^ 2) • A + (2 * (t - k) * (1 - (t - k)) * s) • B + ((t - k) ^ 2) • C := by
    rw [sum_congr rfl fun i hi => by rw [hb i (mem_range.1 hi)]]
    interval_cases k <;> refine ⟨_, _, _, rfl, ?_⟩ <;> simp [circleWeights, circlePoints, sum_range_succ]
  obtain ⟨A, B, C, e, h⟩ := h3
  unfold ratBSplinePoint
  rw [this, h, hden, e, point_three]
  simp only [smul_add, smul_smul, div_eq_inv_mul, mul_one]

theorem circle_closed (s x : K) (k : ℕ) (hk : k < 4) (h0 : 0 ≤ x) (h1 : x ≤ 1) :
    ratBSplineDen 2 (circleKnots (K := K)) (circleWeights s) (k + x) = ratBezierDen [1, s, 1] x ∧
    ratBSplinePoint 2 (circleKnots (K := K)) circlePoints (circleWeights s) (k + x)
      = ratBezierPoint (((circlePoints (K := K)).drop (2 * k)).take 3) [1, s, 1] x := by
  by_cases h : x < 1 ∨ k = 3
  · have := circle_piece s (k + x) k hk (by
      unfold InSpan
      interval_cases k <;> simp [knot, circleKnots] <;> grind)
    rwa [add_sub_cancel_left] at this
  · push Not at h
    obtain rfl : x = 1 := le_antisymm h1 h.1
    have := circle_piece s (k + 1) (k + 1) (by omega) (by
      unfold InSpan
      have hk' : k < 3 := by omega
      interval_cases k <;> norm_num [knot, circleKnots])
    rw [this.1, this.2]
    have hk' : k < 3 := by omega
    push_cast
    rw [sub_self]
    refine ⟨by simp [den_three], ?_⟩
    interval_cases k <;> simp [circlePoints, point_three, den_three]

/-- **C111**: the NURBS curve with nine control points on a square, knots `0 0 0 1 1 2 2 3 3 4 4 4` and weights
alternating between `1` and `√½` draws the unit circle: every point of the curve is on the circle and every point of the
circle is on the curve. -/
theorem C111_nurbs_circle {c : NURBS K (K × K)} (hc : c.init = ok c) (hper : c.base.periodic = false)
    (hdeg : c.base.sdeg = none ∨ c.base.sdeg = some 2) {s : K} (hs : 0 < s) (hs2 : 2 * s ^ 2 = 1) (hP : c.base.ctrl = circlePoints)
    (hK : c.base.knots = circleKnots) (hw : c.weights = circleWeights s) :
    {q | ∃ t, 0 ≤ t ∧ t ≤ 4 ∧ c.evaluate t = ok q} = {q | q.1 ^ 2 + q.2 ^ 2 = 1} := by
  obtain ⟨S, -, -⟩ := (NURBS.init_iff _ _).1 hc
  have hwf : WellFormed c.base 2 := by
    refine ⟨by rw [hK, hP]; simp [circleKnots, circlePoints], hdeg, by rw [hP]; simp [circlePoints], ?_, ?_⟩
    · rw [hK]
      simp [circleKnots]
      norm_num
    · rw [hK, hP]
      simp [knot, circleKnots, circlePoints]
  have hwd : Wide c.base 2 := by
    intro i h1 h2 h3
    have h2' : i < 9 := by rw [hP] at h2; exact h2
    rw [hK] at h3 ⊢
    interval_cases i <;> simp [knot, circleKnots] at h3 ⊢ <;> norm_num
  have hf : FirstSpan c.base 2 := by
    unfold FirstSpan; rw [hK]; simp [knot, circleKnots]
  have k2 : knot c.base.knots 2 = 0 := by rw [hK]; simp [knot, circleKnots]
  have k9 : knot c.base.knots c.base.ctrl.length = 4 := by rw [hK, hP]; simp [knot, circleKnots, circlePoints]
  have hev : ∀ (k : ℕ) (x : K), k < 4 → 0 ≤ x → x ≤ 1 →
      c.evaluate (k + x) = ok (ratBezierPoint (((circlePoints (K := K)).drop (2 * k)).take 3) [1, s, 1] x) := by
    intro k x hk h0 h1
    have hk3 : (k : K) ≤ 3 := by exact_mod_cast (by omega : k ≤ 3)
    have hk0 : (0 : K) ≤ k := Nat.cast_nonneg k
    obtain ⟨t', e1, e2⟩ := bspline_folded hwf ((k : K) + x)
    rw [hper, Folded, if_neg (by simp)] at e2
    subst e2
    obtain ⟨d, e⟩ := circle_closed s x k hk h0 h1
    rw [S.evaluate hwf hwd e1 (Or.inl hf) (by rw [k2]; linarith) (by rw [k9]; linarith), hK, hP, hw, d, e,
      if_neg (ratBezierDen_pos (by simp) (by simp [hs]) h0 h1).ne']
  ext q
  constructor
  · rintro ⟨t, h0, h4, h⟩
    have : ∃ (k : ℕ) (x : K), k < 4 ∧ 0 ≤ x ∧ x ≤ 1 ∧ t = k + x := by
      by_cases a1 : t ≤ 1
      · exact ⟨0, t, by norm_num, h0, a1, by simp⟩
      by_cases a2 : t ≤ 2
      · exact ⟨1, t - 1, by norm_num, by linarith, by linarith, by simp⟩
      by_cases a3 : t ≤ 3
      · exact ⟨2, t - 2, by norm_num, by linarith, by linarith, by simp⟩
      · exact ⟨3, t - 3, by norm_num, by linarith, by linarith, by simp⟩
    obtain ⟨k, x, hk, x0, x1, rfl⟩ := this
    rw [hev k x hk x0 x1] at h
    injection h with h
    have main : ∀ A B C : K × K, ((circlePoints (K := K)).drop (2 * k)).take 3 = [A, B, C] → q ∈ conicArc A B C 1 s 1 := by
      intro A B C e
      rw [e] at h
      exact (conic_points A B C one_pos hs one_pos q).1 ⟨x, x0, x1, h⟩
    clear h
    interval_cases k <;> obtain ⟨α, β, γ, -, -, -, e1, e2, rfl⟩ := main _ _ _ rfl <;> simp <;>
      obtain rfl : γ = 1 - α - β := by linarith
    all_goals linear_combination e2 + 2 * α * (1 - α - β) * hs2
  · intro hq
    have main : ∀ (k : ℕ) (A B C : K × K), k < 4 → ((circlePoints (K := K)).drop (2 * k)).take 3 = [A, B, C] →
        q ∈ conicArc A B C 1 s 1 → q ∈ {q | ∃ t, 0 ≤ t ∧ t ≤ 4 ∧ c.evaluate t = ok q} := by
      intro k A B C hk e h
      obtain ⟨x, x0, x1, h⟩ := (conic_points A B C one_pos hs one_pos q).2 h
      have hk3 : (k : K) ≤ 3 := by exact_mod_cast (by omega : k ≤ 3)
      have hk0 : (0 : K) ≤ k := Nat.cast_nonneg k
      exact ⟨k + x, by linarith, by linarith, by rw [hev k x hk x0 x1, e, h]⟩
    obtain ⟨x, y⟩ := q
    have hq : x ^ 2 + y ^ 2 = 1 := hq
    have bx : x ≤ 1 ∧ -1 ≤ x := ⟨by nlinarith [sq_nonneg y], by nlinarith [sq_nonneg y]⟩
    have by' : y ≤ 1 ∧ -1 ≤ y := ⟨by nlinarith [sq_nonneg x], by nlinarith [sq_nonneg x]⟩
    rcases le_total 0 x with hx | hx <;> rcases le_total 0 y with hy | hy
    · refine main 0 _ _ _ (by norm_num) rfl ⟨1 - y, x + y - 1, 1 - x, by linarith, by nlinarith [mul_nonneg hx hy],
        by linarith, by ring, ?_, ?_⟩
      · linear_combination hq - 2 * (1 - y) * (1 - x) * hs2
      · ext <;> simp
    · refine main 3 _ _ _ (by norm_num) rfl ⟨1 - x, x - y - 1, 1 + y, by linarith,
        by nlinarith [mul_nonneg hx (neg_nonneg.2 hy)], by linarith, by ring, ?_, ?_⟩
      · linear_combination hq - 2 * (1 + y) * (1 - x) * hs2
      · ext <;> (simp; try ring)
    · refine main 1 _ _ _ (by norm_num) rfl ⟨1 + x, y - x - 1, 1 - y, by linarith,
        by nlinarith [mul_nonneg (neg_nonneg.2 hx) hy], by linarith, by ring, ?_, ?_⟩
      · linear_combination hq - 2 * (1 - y) * (1 + x) * hs2
      · ext <;> (simp; try ring)
    · refine main 2 _ _ _ (by norm_num) rfl ⟨1 + y, -x - y - 1, 1 + x, by linarith,
        by nlinarith [mul_nonneg (neg_nonneg.2 hx) (neg_nonneg.2 hy)], by linarith, by ring, ?_, ?_⟩
      · linear_combination hq - 2 * (1 + y) * (1 + x) * hs2
      · ext <;> (simp; try ring)

/-- The circle over the reals. -/
noncomputable def exCircleNurbs : NURBS ℝ (ℝ × ℝ) :=
  { base := { ctrl := circlePoints, knots := circleKnots }, weights := circleWeights (Real.sqrt (1 / 2)),
    hom := { ctrl := homog circlePoints (circleWeights (Real.sqrt (1 / 2))), knots := circleKnots } }

example := C111_nurbs_circle (c := exCircleNurbs)
  (by simp [exCircleNurbs, NURBS.init, homogenize, homog, circlePoints, circleWeights, Outcome.assert, ok_bind, pure_eq])
  rfl (Or.inl rfl) (s := Real.sqrt (1 / 2)) (by positivity)
  (by rw [Real.sq_sqrt (by norm_num)]; norm_num) rfl rfl rfl

end NS.Props
