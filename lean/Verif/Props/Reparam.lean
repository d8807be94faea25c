import Verif.Props.RationalNurbs
import Verif.Props.BezierPatch
import Verif.Props.BSplinePatch
import Verif.Proof.BSplineMap
import Verif.Proof.Reparam

/-!
# C94: changing the parameter of a curve

Scaling and shifting the knots, and reversing knots and control points, describe the same curve in
another parameter.
-/

set_option linter.unusedSectionVars false

namespace NS.Props

open Outcome Spec Finset NS.BSpline

variable {K V : Type} [Field K] [LinearOrder K] [IsStrictOrderedRing K] [FloorRing K]
  [AddCommGroup V] [Module K V]

/-! ### Scaling and shifting -/

/-- The curve with the knots `x + y u`. -/
def rescaled (c : BSpline K V) (x y : K) : BSpline K V :=
  { c with knots := c.knots.map fun u => x + y * u }

theorem knot_map (f : K → K) {u : List K} {i : ℕ} (hi : i < u.length) :
    knot (u.map f) i = f (knot u i) := by
  simp [knot, hi]

theorem rescaled_wf {c : BSpline K V} {p : ℕ} (hc : WellFormed c p) (x : K) {y : K} (hy : 0 < y) :
    WellFormed (rescaled c x y) p := by
  have hl := hc.len
  have h2 := hc.ctrl
  refine ⟨by simp [rescaled, hl], hc.sdeg, hc.ctrl, ?_, ?_⟩
  · refine hc.sorted.map _ fun a b hab => ?_
    have := mul_le_mul_of_nonneg_left hab hy.le
    linarith
  · simp only [rescaled]
    rw [knot_map _ (by omega), knot_map _ (by omega)]
    have := mul_lt_mul_of_pos_left hc.dom hy
    linarith

theorem rescaled_first {c : BSpline K V} {p : ℕ} (hc : WellFormed c p) (x : K) {y : K} (hy : 0 < y)
    (hf : FirstSpan c p) : FirstSpan (rescaled c x y) p := by
  have hl := hc.len
  have h2 := hc.ctrl
  unfold FirstSpan at hf ⊢
  simp only [rescaled]
  rw [knot_map _ (by omega), knot_map _ (by omega)]
  have := mul_lt_mul_of_pos_left hf hy
  linarith

theorem rescaled_wrap {c : BSpline K V} {p : ℕ} (hc : WellFormed c p) (x : K) {y : K} (hy : 0 < y)
    {t t' : K} (h : c.wrap t = ok t') : (rescaled c x y).wrap (x + y * t) = ok (x + y * t') := by
  have hl := hc.len
  have h2 := hc.ctrl
  by_cases hp : c.periodic = true
  · rw [wrap_periodic hc hp, unwrapParameter_eq _ _ _ hc.dom] at h
    have hw := rescaled_wf hc x hy
    rw [wrap_periodic hw (by exact hp), unwrapParameter_eq _ _ _ hw.dom]
    rw [← ok.inj h]
    simp only [rescaled]
    rw [knot_map _ (by omega), knot_map _ (by omega)]
    have hd := sub_pos.2 hc.dom
    have e : (x + y * t - (x + y * knot c.knots p))
        / (x + y * knot c.knots c.ctrl.length - (x + y * knot c.knots p))
        = (t - knot c.knots p) / (knot c.knots c.ctrl.length - knot c.knots p) := by
      rw [show x + y * t - (x + y * knot c.knots p) = y * (t - knot c.knots p) by ring,
        show x + y * knot c.knots c.ctrl.length - (x + y * knot c.knots p)
          = y * (knot c.knots c.ctrl.length - knot c.knots p) by ring,
        mul_div_mul_left _ _ hy.ne']
    rw [e]
    congr 1
    ring
  · have hp' : c.periodic = false := by simpa using hp
    rw [wrap_nonperiodic hp'] at h
    rw [wrap_nonperiodic (by exact hp'), ok.inj h]

/-- C94: scaling and shifting the knots moves the parameter and scales the derivatives. -/
theorem C94_affine {c : BSpline K V} {p : ℕ} (hc : WellFormed c p) (hw : Wide c p)
    (hfst : FirstSpan c p) (x : K) {y : K} (hy : 0 < y) (hw' : Wide (rescaled c x y) p) (t : K)
    (ht : Admissible c p t) :
    ∃ P D E, c.evaluate t = ok P ∧ c.evaluateDerivative t = ok D ∧
      c.evaluate2ndDerivative t = ok E ∧
      (rescaled c x y).evaluate (x + y * t) = ok P ∧
      (rescaled c x y).evaluateDerivative (x + y * t) = ok (y⁻¹ • D) ∧
      (rescaled c x y).evaluate2ndDerivative (x + y * t) = ok ((y⁻¹ * y⁻¹) • E) := by
  have hl := hc.len
  obtain ⟨t', h1, h2⟩ := bspline_folded hc t
  have h3 := ht.mem h2
  obtain ⟨k, Q, hk, hin⟩ := exists_atSpan hc t' (Or.inl hfst) h3.1 h3.2
  have hkl := hk.lt
  have hle := hk.le
  have hkn : ∀ i, i < c.knots.length → knot (rescaled c x y).knots i = x + y * knot c.knots i :=
    fun i hi => knot_map _ hi
  have hR : Repr (knot (rescaled c x y).knots) (fun i => (rescaled c x y).ctrl.getD i 0) p k
      (moved Q p (-(y⁻¹ * x)) y⁻¹) := by
    intro i i1 i2
    rw [moved_prod]
    refine (hk.repr i i1 i2).trans (congrArg _ (lprod_congr fun j hj => ?_))
    rw [hkn _ (by omega)]
    field_simp
    ring
  have hA : AtSpan (rescaled c x y) p (x + y * t') k (moved Q p (-(y⁻¹ * x)) y⁻¹) := by
    refine atSpan_of_inSpan (rescaled_wf hc x hy) (Or.inl (rescaled_first hc x hy hfst)) hle hkl ?_ hR
    have e : knot (rescaled c x y).knots (rescaled c x y).ctrl.length
        = x + y * knot c.knots c.ctrl.length :=
      hkn c.ctrl.length (by omega)
    unfold InSpan at hin ⊢
    rw [e, hkn _ (by omega), hkn _ (by omega)]
    split at hin
    · rename_i he
      rw [if_pos (by rw [he]), hin.2]
      refine ⟨?_, rfl⟩
      have := mul_lt_mul_of_pos_left hin.1 hy
      rw [hin.2] at this
      linarith
    · rename_i he
      rw [if_neg fun h => he (mul_left_cancel₀ hy.ne' (add_left_cancel h))]
      have a1 := mul_le_mul_of_nonneg_left hin.1 hy.le
      have a2 := mul_lt_mul_of_pos_left hin.2 hy
      exact ⟨by linarith, by linarith⟩
  have hwr := rescaled_wrap hc x hy h1
  have hwf := rescaled_wf hc x hy
  have et : -(y⁻¹ * x) + y⁻¹ * (x + y * t') = t' := by field_simp; ring
  refine ⟨_, _, _, evaluate_of_span hc hw h1 hk, evaluateDerivative_of_span hc hw h1 hk,
    evaluate2ndDerivative_of_span hc hw h1 hk, ?_, ?_, ?_⟩
  · rw [evaluate_of_span hwf hw' hwr hA, moved_value, et]
  · rw [evaluateDerivative_of_span hwf hw' hwr hA, moved_deriv, et]
  · rw [evaluate2ndDerivative_of_span hwf hw' hwr hA, moved_deriv2, et]

/-! ### Reversal -/

/-- The curve run backwards: the parameter `t` becomes `a - t`. -/
def flipped (c : BSpline K V) (a : K) : BSpline K V :=
  { c with ctrl := c.ctrl.reverse, knots := c.knots.reverse.map fun u => a - u }

theorem knot_flipped (c : BSpline K V) (a : K) {i : ℕ} (hi : i < c.knots.length) :
    knot (flipped c a).knots i = a - knot c.knots (c.knots.length - 1 - i) := by
  have h : i < c.knots.reverse.length := by simpa using hi
  simp only [flipped]
  rw [knot_map (fun u => a - u) h]
  congr 1
  have : c.knots.length - 1 - i < c.knots.length := by omega
  simp [knot, List.getElem?_reverse hi]

theorem flipped_wf {c : BSpline K V} {p : ℕ} (hc : WellFormed c p) (a : K) :
    WellFormed (flipped c a) p := by
  have hl := hc.len
  have h2 := hc.ctrl
  have hcl : (flipped c a).ctrl.length = c.ctrl.length := by simp [flipped]
  refine ⟨by simp [flipped, hl], hc.sdeg, by rw [hcl]; exact hc.ctrl, ?_, ?_⟩
  · simp only [flipped]
    rw [List.map_reverse, List.pairwise_reverse]
    exact hc.sorted.map _ fun x y h => by linarith
  · rw [hcl, knot_flipped c a (by omega), knot_flipped c a (by omega),
      show c.knots.length - 1 - p = c.ctrl.length by omega,
      show c.knots.length - 1 - c.ctrl.length = p by omega]
    have := hc.dom
    linarith

theorem flipped_repr {c : BSpline K V} {p k : ℕ} (hc : WellFormed c p) (a : K) (hle : p ≤ k)
    (hkl : k < c.ctrl.length) {Q : ℕ → V}
    (h : Repr (knot c.knots) (fun i => c.ctrl.getD i 0) p k Q) :
    Repr (knot (flipped c a).knots) (fun i => (flipped c a).ctrl.getD i 0) p
      (c.ctrl.length + p - 1 - k) (moved Q p a (-1)) := by
  have hl := hc.len
  intro i i1 i2
  have hi : i < c.ctrl.length := by omega
  have e : (flipped c a).ctrl.getD i 0 = c.ctrl.getD (c.ctrl.length - 1 - i) 0 := by
    simp only [flipped, List.getD_eq_getElem?_getD]
    rw [List.getElem?_reverse hi]
  simp only [e]
  rw [moved_prod]
  refine (h _ (by omega) (by omega)).trans (congrArg _ (lprod_reflect _ _ fun j hj => ?_))
  rw [knot_flipped c a (by omega)]
  rw [show c.knots.length - 1 - (i + 1 + (p - 1 - j)) = c.ctrl.length - 1 - i + 1 + j by omega]
  ring

/-- The reversed span of a span. -/
theorem flipped_at {c : BSpline K V} {p k : ℕ} (hc : WellFormed c p) (a : K)
    (hl : FirstSpan (flipped c a) p) (hle : p ≤ k)
    (hkl : k < c.ctrl.length) {Q : ℕ → V}
    (h : Repr (knot c.knots) (fun i => c.ctrl.getD i 0) p k Q) {t : K}
    (h1 : knot c.knots k < t ∨ (k = p ∧ knot c.knots k < knot c.knots (k + 1) ∧ t = knot c.knots k))
    (h2 : t ≤ knot c.knots (k + 1)) :
    AtSpan (flipped c a) p (a - t) (c.ctrl.length + p - 1 - k) (moved Q p a (-1)) := by
  have hlen := hc.len
  have hcl : (flipped c a).ctrl.length = c.ctrl.length := by simp [flipped]
  refine atSpan_of_inSpan (flipped_wf hc a) (Or.inl hl) (by omega) (by rw [hcl]; omega) ?_
    (flipped_repr hc a hle hkl h)
  rw [hcl]
  unfold InSpan
  rw [knot_flipped c a (by omega), knot_flipped c a (by omega), knot_flipped c a (by omega),
    show c.knots.length - 1 - c.ctrl.length = p by omega,
    show c.knots.length - 1 - (c.ctrl.length + p - 1 - k) = k + 1 by omega,
    show c.knots.length - 1 - (c.ctrl.length + p - 1 - k + 1) = k by omega]
  rcases h1 with h1 | ⟨h1, h3, h4⟩
  · have hpk := knot_mono hc.sorted hle (by omega : k < c.knots.length)
    rw [if_neg (by intro e; have : t = knot c.knots p := by linarith
                   rw [this] at h1; exact absurd h1 (not_lt.2 hpk))]
    exact ⟨by linarith, by linarith⟩
  · subst h1
    rw [if_pos (by rw [h4])]
    exact ⟨by linarith, rfl⟩

/-- C94: running the curve backwards keeps the points, negates the first derivative and keeps the
second, at every parameter that is no interior knot. -/
theorem C94_reverse {c : BSpline K V} {p : ℕ} (hc : WellFormed c p) (hw : Wide c p)
    (hfst : FirstSpan c p) (a : K) (hlst : FirstSpan (flipped c a) p) (hw' : Wide (flipped c a) p)
    {t : K} (h1 : knot c.knots p ≤ t) (h2 : t ≤ knot c.knots c.ctrl.length)
    (hper : c.periodic = false ∨ (knot c.knots p < t ∧ t < knot c.knots c.ctrl.length))
    (ht : t ∉ c.knots ∨ t = knot c.knots p ∨ t = knot c.knots c.ctrl.length) :
    ∃ P D E, c.evaluate t = ok P ∧ c.evaluateDerivative t = ok D ∧
      c.evaluate2ndDerivative t = ok E ∧
      (flipped c a).evaluate (a - t) = ok P ∧
      (flipped c a).evaluateDerivative (a - t) = ok (-D) ∧
      (flipped c a).evaluate2ndDerivative (a - t) = ok E := by
  have hl := hc.len
  have hcl : (flipped c a).ctrl.length = c.ctrl.length := by simp [flipped]
  obtain ⟨k, Q, hk, hin⟩ := exists_atSpan hc t (Or.inl hfst) h1 h2
  have hkl := hk.lt
  have hle := hk.le
  have hwf := flipped_wf hc a
  have w1 : c.wrap t = ok t := by
    refine wrap_of_mem hc h1 ?_
    rcases hper with h | h
    · exact Or.inr ⟨h, h2⟩
    · exact Or.inl h.2
  have w2 : (flipped c a).wrap (a - t) = ok (a - t) := by
    refine wrap_of_mem hwf ?_ ?_
    · rw [knot_flipped c a (by omega), show c.knots.length - 1 - p = c.ctrl.length by omega]
      linarith
    · rw [hcl, knot_flipped c a (by omega), show c.knots.length - 1 - c.ctrl.length = p by omega]
      rcases hper with h | h
      · exact Or.inr ⟨h, by linarith⟩
      · exact Or.inl (by linarith [h.1])
  have hA : AtSpan (flipped c a) p (a - t) (c.ctrl.length + p - 1 - k) (moved Q p a (-1)) := by
    refine flipped_at hc a hlst hle hkl hk.repr ?_ hin.bounds.2
    rcases ht with ht | ht | ht
    · left
      refine lt_of_le_of_ne hin.bounds.1 fun e => ht ?_
      rw [← e, knot, List.getD_eq_getElem?_getD, List.getElem?_eq_getElem (by omega),
        Option.getD_some]
      exact List.getElem_mem _
    · right
      have hne : t ≠ knot c.knots c.ctrl.length := by rw [ht]; exact hc.dom.ne
      have hkp : k = p := by
        by_contra hne'
        unfold InSpan at hin
        rw [if_neg hne] at hin
        have := knot_mono hc.sorted (i := p + 1) (j := k) (by omega) (by omega)
        exact absurd hfst (not_lt.2 (this.trans (by rw [← ht]; exact hin.1)))
      exact ⟨hkp, hk.ne, by rw [ht, hkp]⟩
    · left
      unfold InSpan at hin
      rw [if_pos ht] at hin
      rw [ht, ← hin.2]
      exact hin.1
  have et : a + -1 * (a - t) = t := by ring
  refine ⟨_, _, _, evaluate_of_span hc hw w1 hk, evaluateDerivative_of_span hc hw w1 hk,
    evaluate2ndDerivative_of_span hc hw w1 hk, ?_, ?_, ?_⟩
  · rw [evaluate_of_span hwf hw' w2 hA, moved_value, et]
  · rw [evaluateDerivative_of_span hwf hw' w2 hA, moved_deriv, et, neg_one_smul]
  · rw [evaluate2ndDerivative_of_span hwf hw' w2 hA, moved_deriv2, et]
    norm_num

/-- C94: the points are kept at interior knots of multiplicity at most `p` too. -/
theorem C94_reverse_knot {c : BSpline K V} {p : ℕ} (hc : WellFormed c p) (hw : Wide c p)
    (hfst : FirstSpan c p) (a : K) (hlst : FirstSpan (flipped c a) p) (hw' : Wide (flipped c a) p)
    {t : K} (h1 : knot c.knots p < t) (h2 : t < knot c.knots c.ctrl.length)
    (hm : c.knots.count t ≤ p) : (flipped c a).evaluate (a - t) = c.evaluate t := by
  have hl := hc.len
  by_cases hτ : t ∈ c.knots
  · have hcl : (flipped c a).ctrl.length = c.ctrl.length := by simp [flipped]
    have hwf := flipped_wf hc a
    obtain ⟨k, k1, k2, k3, k4, k5⟩ := knot_block hc h1 h2 hτ
    have hpos : 0 < c.knots.count t := List.count_pos_iff.2 hτ
    set m := c.knots.count t with hmdef
    have e1 : knot c.knots (k + 1) = t := k4 0 hpos
    have e2 : knot c.knots (k + m) = t := by
      have := k4 (m - 1) (by omega)
      rwa [show k + 1 + (m - 1) = k + m by omega] at this
    obtain ⟨Q1, hQ1⟩ := exists_repr hc.sorted (fun i => c.ctrl.getD i 0) k1 (by omega)
      (by rw [e1]; exact k3)
    obtain ⟨Q2, hQ2⟩ := exists_repr hc.sorted (fun i => c.ctrl.getD i 0) (k := k + m) (p := p)
      (by omega) (by omega) (by rw [e2]; exact k5)
    obtain ⟨R, hR⟩ := umb_join (m := m) hm (fun g hg =>
      repr_join hc.sorted k1 (by omega) hm k3 k4 k5 hQ1 hQ2 g hg)
    have hA := flipped_at hc a hlst k1 (by omega) hQ1 (t := t) (Or.inl k3) e1.ge
    have hB : AtSpan c p t (k + m) Q2 := by
      refine atSpan_of_inSpan hc (Or.inl hfst) (by omega) k2 ?_ hQ2
      rw [InSpan, if_neg h2.ne, e2]
      exact ⟨le_rfl, k5⟩
    have w1 : c.wrap t = ok t := wrap_of_mem hc h1.le (Or.inl h2)
    have w2 : (flipped c a).wrap (a - t) = ok (a - t) := by
      refine wrap_of_mem hwf ?_ (Or.inl ?_)
      · rw [knot_flipped c a (by omega), show c.knots.length - 1 - p = c.ctrl.length by omega]
        linarith
      · rw [hcl, knot_flipped c a (by omega), show c.knots.length - 1 - c.ctrl.length = p by omega]
        linarith
    rw [evaluate_of_span hwf hw' w2 hA, moved_value, evaluate_of_span hc hw w1 hB, hR,
      show a + -1 * (a - t) = t by ring, sub_self, zero_pow (by omega), zero_smul, add_zero]
  · obtain ⟨P, D, E, g1, -, -, g2, -⟩ := C94_reverse hc hw hfst a hlst hw' h1.le h2.le
      (Or.inr ⟨h1, h2⟩) (Or.inl hτ)
    rw [g1, g2]

/-! ### NURBS -/

theorem quot1_smul (s : K) (P D : V × K) : quot1 P (s • D) = (s • ·) <$> quot1 P D := by
  unfold quot1
  by_cases h : P.2 ≠ 0
  · rw [assert_true h]
    simp only [ok_bind, pure_eq, Prod.smul_fst, Prod.smul_snd, smul_eq_mul]
    refine congrArg ok ?_
    module
  · rw [assert_false h]
    rfl

theorem quot2_smul (s : K) (P D E : V × K) :
    quot2 P (s • D) ((s * s) • E) = ((s * s) • ·) <$> quot2 P D E := by
  unfold quot2
  by_cases h : P.2 ≠ 0
  · rw [assert_true h]
    simp only [ok_bind, pure_eq, Prod.smul_fst, Prod.smul_snd, smul_eq_mul]
    refine congrArg ok ?_
    module
  · rw [assert_false h]
    rfl

/-- C94 for NURBS curves: values, first and second derivatives, including the parameters at which
the denominator vanishes. -/
theorem C94_nurbs_affine {c c' : NURBS K V} (hi : c.init = ok c) (hi' : c'.init = ok c') {p : ℕ}
    (hc : WellFormed c.base p) (hw : Wide c.base p) (hfst : FirstSpan c.base p) (x : K) {y : K}
    (hy : 0 < y) (hb : c'.base = rescaled c.base x y) (hwt : c'.weights = c.weights)
    (hw' : Wide c'.base p) (t : K) (ht : Admissible c.base p t) :
    c'.evaluate (x + y * t) = c.evaluate t ∧
    c'.evaluateDerivative (x + y * t) = (y⁻¹ • ·) <$> c.evaluateDerivative t ∧
    c'.evaluate2ndDerivative (x + y * t) = ((y⁻¹ * y⁻¹) • ·) <$> c.evaluate2ndDerivative t := by
  obtain ⟨S, -, -⟩ := (NURBS.init_iff _ _).1 hi
  obtain ⟨S', -, -⟩ := (NURBS.init_iff _ _).1 hi'
  have hh : c'.hom = rescaled c.hom x y := by
    rw [S'.hom, S.hom, hb, hwt]
    rfl
  have hwf' : WellFormed c'.base p := by rw [hb]; exact rescaled_wf hc x hy
  have v1 : c.validate = ok () := by rw [S.validate]; exact NURBS.wf_validate hc
  have v2 : c'.validate = ok () := by rw [S'.validate]; exact NURBS.wf_validate hwf'
  have hA : Admissible c.hom p t := by
    unfold Admissible at ht ⊢
    rw [S.per, S.knots, S.homLen]
    exact ht
  obtain ⟨P, D, E, e1, e2, e3, e4, e5, e6⟩ := C94_affine (S.wf.2 hc) (S.wide.2 hw) (S.first.2 hfst)
    x hy (by rw [← hh]; exact S'.wide.2 hw') t hA
  unfold NURBS.evaluate NURBS.evaluateDerivative NURBS.evaluate2ndDerivative
  rw [v1, v2, hh, e1, e2, e3, e4, e5, e6]
  simp only [ok_bind]
  exact ⟨trivial, quot1_smul _ _ _, quot2_smul _ _ _ _⟩

/-- C94 for NURBS curves run backwards. -/
theorem C94_nurbs_reverse {c c' : NURBS K V} (hi : c.init = ok c) (hi' : c'.init = ok c') {p : ℕ}
    (hc : WellFormed c.base p) (hw : Wide c.base p) (hfst : FirstSpan c.base p) (a : K)
    (hb : c'.base = flipped c.base a) (hwt : c'.weights = c.weights.reverse)
    (hlst : FirstSpan c'.base p) (hw' : Wide c'.base p) {t : K}
    (h1 : knot c.base.knots p ≤ t) (h2 : t ≤ knot c.base.knots c.base.ctrl.length)
    (hper : c.base.periodic = false ∨
      (knot c.base.knots p < t ∧ t < knot c.base.knots c.base.ctrl.length))
    (ht : t ∉ c.base.knots ∨ t = knot c.base.knots p ∨ t = knot c.base.knots c.base.ctrl.length) :
    c'.evaluate (a - t) = c.evaluate t ∧
    c'.evaluateDerivative (a - t) = (-·) <$> c.evaluateDerivative t ∧
    c'.evaluate2ndDerivative (a - t) = c.evaluate2ndDerivative t := by
  obtain ⟨S, -, -⟩ := (NURBS.init_iff _ _).1 hi
  obtain ⟨S', -, -⟩ := (NURBS.init_iff _ _).1 hi'
  have hh : c'.hom = flipped c.hom a := by
    rw [S'.hom, S.hom, hb, hwt]
    simp only [flipped, homog]
    rw [List.reverse_zipWith S.len]
  have hwf' : WellFormed c'.base p := by rw [hb]; exact flipped_wf hc a
  have v1 : c.validate = ok () := by rw [S.validate]; exact NURBS.wf_validate hc
  have v2 : c'.validate = ok () := by rw [S'.validate]; exact NURBS.wf_validate hwf'
  obtain ⟨P, D, E, e1, e2, e3, e4, e5, e6⟩ := C94_reverse (S.wf.2 hc) (S.wide.2 hw) (S.first.2 hfst)
    a (by rw [← hh]; exact S'.first.2 hlst) (by rw [← hh]; exact S'.wide.2 hw') (t := t)
    (by rw [S.knots]; exact h1) (by rw [S.knots, S.homLen]; exact h2)
    (by rw [S.per, S.knots, S.homLen]; exact hper) (by rw [S.knots, S.homLen]; exact ht)
  unfold NURBS.evaluate NURBS.evaluateDerivative NURBS.evaluate2ndDerivative
  rw [v1, v2, hh, e1, e2, e3, e4, e5, e6]
  simp only [ok_bind]
  refine ⟨trivial, ?_, ?_⟩
  · have := quot1_smul (-1) P D
    simpa only [neg_one_smul] using this
  · have := quot2_smul (-1) P D E
    simp only [neg_mul_neg, one_mul, one_smul, neg_one_smul] at this
    unfold quot2 at this ⊢
    by_cases h : P.2 ≠ 0
    · rw [assert_true h] at this ⊢
      simp only [ok_bind, pure_eq]
      refine congrArg ok ?_
      simp only [Prod.fst_neg, Prod.snd_neg]
      module
    · rw [assert_false h]
      rfl

/-! ### Bézier curves and patches -/

theorem bernstein_flip {n i : ℕ} (hi : i ≤ n) (t : K) :
    bernstein n i (1 - t) = bernstein n (n - i) t := by
  unfold bernstein
  rw [Nat.choose_symm hi, Nat.sub_sub_self hi, sub_sub_cancel]
  ring

theorem bezierPoint_reverse (P : List V) (t : K) :
    bezierPoint P.reverse (1 - t) = bezierPoint P t := by
  unfold bezierPoint
  rw [List.length_reverse, ← sum_range_reflect]
  refine sum_congr rfl fun i hi => ?_
  have hi' : i < P.length := by simpa using hi
  rw [bernstein_flip (by omega), show P.length - 1 - (P.length - 1 - i) = i by omega]
  congr 1
  rw [List.getD_eq_getElem?_getD, List.getElem?_reverse (by omega), List.getD_eq_getElem?_getD]
  congr 2
  omega

/-- C94 for Bézier curves. -/
theorem C94_bezier (P : List V) (t : K) :
    ({ ctrl := P.reverse } : Bezier V).evaluate (1 - t) = ({ ctrl := P } : Bezier V).evaluate t := by
  by_cases hP : P = []
  · subst hP
    rw [List.reverse_nil, C01_evaluate_empty, C01_evaluate_empty]
  · rw [C01_evaluate_eq_bernstein _ (by simpa using hP) rfl, C01_evaluate_eq_bernstein _ hP rfl,
      bezierPoint_reverse]

/-- C94 for rational Bézier curves. -/
theorem C94_rational {c c' : RationalBezier K V} (hi : c.init = ok c) (hi' : c'.init = ok c')
    (hb : c'.base.ctrl = c.base.ctrl.reverse) (hwt : c'.weights = c.weights.reverse)
    (hp : c.base.periodic = false) (hp' : c'.base.periodic = false) (t : K) :
    c'.evaluate (1 - t) = c.evaluate t := by
  obtain ⟨S, -, -⟩ := (RationalBezier.init_iff _ _).1 hi
  obtain ⟨S', -, -⟩ := (RationalBezier.init_iff _ _).1 hi'
  unfold RationalBezier.evaluate
  rw [S.validate, S'.validate, S.hom, S'.hom, hb, hwt, hp, hp', homog,
    ← List.reverse_zipWith S.len]
  simp only [ok_bind]
  rw [C94_bezier]
  rfl

/-- C94 for Bézier patches: reversing the whole grid reverses both directions. -/
theorem C94_bezier_patch {p : BezierPatch V} (h : p.init = ok ()) (hu : p.perU = false)
    (hv : p.perV = false) (u v : K) :
    ({ p with grid := p.grid.reverse } : BezierPatch V).evaluate (1 - u) (1 - v)
      = p.evaluate u v := by
  have hw := wf_of_init h
  set m := p.degU.toNat
  set n := p.degV.toNat
  have hw' : ({ p with grid := p.grid.reverse } : BezierPatch V).WellFormed m n :=
    ⟨hw.degU, hw.degV, by simpa using hw.len⟩
  have hl := hw.len
  rw [hw.evaluate (u' := u) (v' := v) (by rw [hu]; rfl) (by rw [hv]; rfl),
    hw'.evaluate (u' := 1 - u) (v' := 1 - v) (by simp only [hu]; rfl) (by simp only [hv]; rfl),
    BezierPatch.part_eq_surface, BezierPatch.part_eq_surface]
  refine congrArg ok ?_
  unfold bezierSurface
  rw [← sum_range_reflect]
  refine sum_congr rfl fun i hi => ?_
  rw [← sum_range_reflect]
  refine sum_congr rfl fun j hj => ?_
  have hi' : i < m + 1 := by simpa using hi
  have hj' : j < n + 1 := by simpa using hj
  rw [bernstein_flip (by omega), bernstein_flip (by omega),
    show m - (m + 1 - 1 - i) = i by omega, show n - (n + 1 - 1 - j) = j by omega]
  congr 1
  have hlt : i * (n + 1) + j < (m + 1) * (n + 1) := by nlinarith
  have e : (m + 1 - 1 - i) * (n + 1) + (n + 1 - 1 - j)
      = p.grid.length - 1 - (i * (n + 1) + j) := by
    obtain ⟨d, hd⟩ : ∃ d, m = i + d := ⟨m - i, by omega⟩
    obtain ⟨e, he⟩ : ∃ e, n = j + e := ⟨n - j, by omega⟩
    rw [hl, hd, show i + d + 1 - 1 - i = d by omega, show n + 1 - 1 - j = e by omega]
    have : (i + d + 1) * (n + 1) = i * (n + 1) + d * (n + 1) + (n + 1) := by ring
    omega
  unfold gridPoint
  simp only [List.getD_eq_getElem?_getD]
  rw [e, List.getElem?_reverse (by omega)]
  congr 2
  omega

/-- C94: exchanging the two directions of a Bézier patch. -/
theorem C94_bezier_transpose {p q : BezierPatch V} (h : p.init = ok ()) (hq : q.init = ok ())
    (hu : q.degU = p.degV) (hv : q.degV = p.degU) (pu : q.perU = p.perV) (pv : q.perV = p.perU)
    (hg : ∀ i ≤ p.degU.toNat, ∀ j ≤ p.degV.toNat,
      gridPoint q.grid (p.degU.toNat + 1) j i = gridPoint p.grid (p.degV.toNat + 1) i j) (u v : K) :
    q.evaluate v u = p.evaluate u v := by
  obtain ⟨u', eu, -⟩ := bezier_folded p.perU u
  obtain ⟨v', ev, -⟩ := bezier_folded p.perV v
  rw [(wf_of_init h).evaluate eu ev, (wf_of_init hq).evaluate (by rw [pu]; exact ev)
    (by rw [pv]; exact eu), BezierPatch.part_eq_surface, BezierPatch.part_eq_surface, hu, hv]
  refine congrArg ok ?_
  unfold bezierSurface
  rw [sum_comm]
  refine sum_congr rfl fun i hi => sum_congr rfl fun j hj => ?_
  rw [hg i (by simpa [Nat.lt_succ_iff] using hi) j (by simpa [Nat.lt_succ_iff] using hj), mul_comm]

/-- C94: exchanging the two directions of a B-spline patch. -/
theorem C94_bspline_transpose {p q : BSplinePatch K V} {m n du dv : ℕ} (h : p.Valid m n du dv)
    (hi : p.init = ok p) (h' : q.Valid n m dv du) (hi' : q.init = ok q)
    (hwu : BSplinePatch.WideOn p.knotsU m du) (hwv : BSplinePatch.WideOn p.knotsV n dv)
    (ku : q.knotsU = p.knotsV) (kv : q.knotsV = p.knotsU) (pu : q.perU = p.perV)
    (pv : q.perV = p.perU)
    (hg : ∀ i < m, ∀ j < n, gridPoint q.grid m j i = gridPoint p.grid n i j) (u v : K)
    (hu : p.perU = true ∨ (knot p.knotsU du ≤ u ∧ u ≤ knot p.knotsU m))
    (hv : p.perV = true ∨ (knot p.knotsV dv ≤ v ∧ v ≤ knot p.knotsV n))
    (fu : knot p.knotsU du < knot p.knotsU (du + 1))
    (fv : knot p.knotsV dv < knot p.knotsV (dv + 1)) :
    q.evaluate v u = p.evaluate u v := by
  obtain ⟨u', eu, gu⟩ := axis_folded h.u p.perU u
  obtain ⟨v', ev, gv⟩ := axis_folded h.v p.perV v
  have du' : BSplinePatch.InDom p.knotsU m du u' := by
    unfold Folded at gu
    split at gu
    · exact ⟨gu.1, gu.2.1.le, Or.inl fu⟩
    · rename_i hn
      have := hu.resolve_left hn
      rw [gu]
      exact ⟨this.1, this.2, Or.inl fu⟩
  have dv' : BSplinePatch.InDom p.knotsV n dv v' := by
    unfold Folded at gv
    split at gv
    · exact ⟨gv.1, gv.2.1.le, Or.inl fv⟩
    · rename_i hn
      have := hv.resolve_left hn
      rw [gv]
      exact ⟨this.1, this.2, Or.inl fv⟩
  rw [(h.ready hi).evaluate hwu hwv eu du' ev dv', (h'.ready hi').evaluate (by rw [ku]; exact hwv)
    (by rw [kv]; exact hwu) (by rw [ku, pu]; exact ev) (by rw [ku]; exact dv')
    (by rw [kv, pv]; exact eu) (by rw [kv]; exact du'), BSplinePatch.tsum_eq,
    BSplinePatch.tsum_eq, ku, kv]
  refine congrArg ok ?_
  unfold bsplineSurface
  rw [sum_comm]
  refine sum_congr rfl fun i hi => sum_congr rfl fun j hj => ?_
  rw [hg i (by simpa using hi) j (by simpa using hj), mul_comm]

/-! ### Cases -/

/-- Knots of the rescaled and the reversed example. -/
example : (rescaled exSpline 3 2).knots = [3, 3, 3, 4, 4, 5, 5, 5] ∧
    (flipped exSpline 1).knots = [0, 0, 0, 1 / 2, 1 / 2, 1, 1, 1] ∧
    (flipped exSpline 1).ctrl = [5, 2, 3, 1, 0] := by decide +kernel

theorem exFlip_wide : Wide (flipped exSpline 1) 2 := by
  intro i h1 h2 h3
  have h2' : i < 5 := h2
  interval_cases i
  · decide +kernel
  · exact absurd h3 (by decide +kernel)
  · decide +kernel

/-- The double knot in the middle of a quadratic spline has multiplicity `p`. -/
example : (flipped exSpline 1).evaluate (1 - 1 / 2) = exSpline.evaluate (1 / 2 : ℚ) ∧
    exSpline.evaluate (1 / 2 : ℚ) = ok 3 :=
  ⟨C94_reverse_knot exSpline_wf exSpline_wide exSpline_first 1 (by unfold FirstSpan; decide +kernel)
    exFlip_wide (by decide +kernel) (by decide +kernel) (by decide +kernel), by decide +kernel⟩

/-- The hypotheses of `C94_affine` and of `C94_reverse`. -/
example : Wide (rescaled exSpline 3 2) 2 ∧ Admissible exSpline 2 (1 / 4 : ℚ) ∧
    (1 / 4 : ℚ) ∉ exSpline.knots ∧ (rescaled exSpline 3 2).evaluateDerivative (7 / 2) = ok 3 ∧
    exSpline.evaluateDerivative (1 / 4 : ℚ) = ok 6 ∧
    (flipped exSpline 1).evaluateDerivative (3 / 4) = ok (-6) := by
  refine ⟨?_, Or.inr (by decide +kernel), by decide +kernel, by decide +kernel, by decide +kernel,
    by decide +kernel⟩
  intro i h1 h2
  have h2' : i < 5 := h2
  interval_cases i <;> decide +kernel

/-- Without `Wide`: shrinking the knots until the spans are shorter than `1e-16` changes the
points. -/
theorem C94_narrow_refuted :
    WellFormed (rescaled exSpline 0 (1 / 10 ^ 17)) 2 ∧
      (rescaled exSpline 0 (1 / 10 ^ 17)).evaluate (0 + 1 / 10 ^ 17 * (1 / 4))
        ≠ exSpline.evaluate (1 / 4 : ℚ) :=
  ⟨rescaled_wf exSpline_wf _ (by norm_num), by decide +kernel⟩

/-- A knot of multiplicity `p + 1` belongs to its right piece, so running the curve backwards
changes the point there. -/
theorem C94_jump_refuted : ∃ c : BSpline ℚ ℚ, WellFormed c 1 ∧ FirstSpan c 1 ∧
    FirstSpan (flipped c 2) 1 ∧ c.evaluate 1 = ok 1 ∧ (flipped c 2).evaluate (2 - 1) = ok 0 :=
  ⟨{ ctrl := [0, 0, 1, 1], knots := [0, 0, 1, 1, 2, 2] },
    ⟨by decide, Or.inl rfl, by decide, by decide +kernel, by decide +kernel⟩,
    by unfold FirstSpan; decide +kernel, by unfold FirstSpan; decide +kernel,
    by decide +kernel, by decide +kernel⟩

/-- A transposed patch. -/
example : ({ grid := [0, 3, 5, 1, 2, 7], degU := 1, degV := 2 } : BezierPatch ℚ).evaluate
      (1 / 3 : ℚ) (1 / 4)
    = ({ grid := [0, 1, 3, 2, 5, 7], degU := 2, degV := 1 } : BezierPatch ℚ).evaluate (1 / 4 : ℚ)
      (1 / 3) :=
  C94_bezier_transpose (by decide) (by decide) rfl rfl rfl rfl (by decide +kernel) _ _

end NS.Props
