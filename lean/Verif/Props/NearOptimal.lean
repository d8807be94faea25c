import Verif.Proof.NearOptimal
import Verif.Proof.ControlSearch
import Verif.Model.BezierSearch
import Verif.Model.ControlSearch
import Verif.Props.Inverse
import Verif.Props.SpanSearch
import Verif.Props.Length

/-!
# C102: a closest-point search ends within a stated distance of the closest point
-/

set_option linter.unusedSectionVars false

namespace NS.Props

open Outcome Geom Spec NearOptimal BSpline Finset

variable {K V : Type} [Field K] [LinearOrder K] [IsStrictOrderedRing K] [FloorRing K]
  [AddCommGroup V] [Module K V] [Geom K V] [LawfulGeom K V]

/-! ### Curves -/

/-- C102: the search by sampling on any curve that moves at most `L` per unit of the parameter.  With
an even number of samples, or without refinement, the result is farther from the query than the
closest point of the range by at most `L` times half the distance of two samples plus the width of
the last range. -/
theorem C102_curve {big tol L : K} {c : CurveFn K V} {p : V} {num level : ℕ} {lower upper : K}
    {e0 : K → V} (hn : 0 < num) (he : Even num ∨ level = 0) (h : lower ≤ upper)
    (h0 : ∀ t, lower ≤ t → t ≤ upper → c.ev t = ok (e0 t))
    (hb : ∀ t, lower ≤ t → t ≤ upper → (dot (p - e0 t) (p - e0 t) : K) < big) (hL : 0 ≤ L)
    (hlip : ∀ s t, lower ≤ s → s ≤ upper → lower ≤ t → t ≤ upper →
      (norm (e0 s - e0 t) : K) ≤ L * |s - t|) {r : K}
    (hr : approxInverse big tol c p num level lower upper = ok r) {t : K} (h1 : lower ≤ t)
    (h2 : t ≤ upper) :
    (norm (p - e0 r) : K) ≤ norm (p - e0 t)
      + L * ((upper - lower) * (1 / (2 * num) + (2 / num) ^ level)) := by
  obtain ⟨lo, hi, t', a1, a2, a3, a4, aw, a5, a6⟩ := approxInverse_width (tol := tol)
    (level := level) hn h h0 hb
  rw [a5] at hr
  obtain ⟨r1, r2⟩ := C34_curve_in_range c p t' tol lo hi 10 r a2 a3 hr
  obtain ⟨i, hi', ei⟩ := near_sample (K := K) hn h1 h2
  obtain ⟨s1, s2⟩ := sampleAt_mem (K := K) hn h hi'
  have hs := norm_seminorm (K := K) (V := V)
  have g1 := norm_le_of_sq (a6 he i hi')
  have g2 := hlip t _ h1 h2 s1 s2
  have g3 := hs.tri (p - e0 t) (e0 t - e0 (sampleAt num lower upper i))
  rw [sub_add_sub_cancel] at g3
  have g4 := hlip t' r (a1.trans a2) (a3.trans a4) (a1.trans r1) (r2.trans a4)
  have g5 := hs.tri (p - e0 t') (e0 t' - e0 r)
  rw [sub_add_sub_cancel] at g5
  have g6 : |t' - r| ≤ hi - lo := abs_le.2 ⟨by linarith, by linarith⟩
  have g7 := mul_le_mul_of_nonneg_left (g6.trans aw) hL
  have g8 := mul_le_mul_of_nonneg_left ei hL
  have e : L * ((upper - lower) * (1 / (2 * num) + (2 / num) ^ level))
      = L * ((upper - lower) / (2 * num)) + L * ((upper - lower) * (2 / (num : K)) ^ level) := by
    ring
  rw [e]
  linarith

theorem bezierPoint_ends {l : List V} {m : ℕ} (h : l.length = m + 1) :
    bezierPoint l (0 : K) = l.getD 0 0 ∧ bezierPoint l (1 : K) = l.getD m 0 := by
  have h1 : l = arr (m + 1) (fun i => l.getD i 0) := by
    rw [← h]; exact eq_arr l 0
  constructor
  · conv_lhs => rw [h1]
    rw [Bezier.arr_bezierPoint, lin_zero, one_pow, umb_one]
  · conv_lhs => rw [h1]
    rw [Bezier.arr_bezierPoint, lin_one, umb_X_pow]

/-- The values of a Bézier curve on the unit interval, also for periodic curves whose ends meet. -/
theorem bezier_unit {c : Bezier V} {n : ℕ} (hlen : c.ctrl.length = n + 1)
    (hper : c.periodic = true → c.ctrl.getD n 0 = c.ctrl.getD 0 0) {t : K} (h1 : 0 ≤ t)
    (h2 : t ≤ 1) : c.evaluate t = ok (bezierPoint c.ctrl t) := by
  have hne : c.ctrl ≠ [] := by intro h; rw [h] at hlen; simp at hlen
  obtain ⟨t', w1, w2⟩ := bezier_folded c.periodic t
  rw [Bezier.evaluate_wrap, w1, ok_bind, Bezier.evaluate_eq _ hne]
  congr 1
  by_cases hc : t < 1 ∨ c.periodic = false
  · rw [folded_self w2 h1 h2 hc]
  · push Not at hc
    have hp : c.periodic = true := by simpa using hc.2
    have ht : t = 1 := le_antisymm h2 hc.1
    have ht' : t' = 0 := by
      rw [hp] at w2
      obtain ⟨a1, a2, z, a3⟩ := w2
      rw [ht, sub_zero, mul_one] at a3
      have z1 : (-1 : K) ≤ z := by linarith
      have z2 : (z : K) < 0 := by linarith
      have z1' : (-1 : ℤ) ≤ z := by exact_mod_cast z1
      have z2' : z < 0 := by exact_mod_cast z2
      have : z = -1 := by omega
      rw [a3, this]; simp
    rw [ht, ht', (bezierPoint_ends hlen).1, (bezierPoint_ends hlen).2, hper hp]

/-- C102 for Bézier curves of degree `n ≥ 1` and the default level 3: the search returns a parameter
of the range whose point is farther from the query than the closest point of the range by at most a
quarter of the longest edge of the control polygon, times the width of the range. -/
theorem C102_bezier {big tol E : K} {c : Bezier V} {n : ℕ} (hlen : c.ctrl.length = n + 1)
    (hn : 1 ≤ n) (hper : c.periodic = true → c.ctrl.getD n 0 = c.ctrl.getD 0 0)
    (hE : ∀ i < n, (norm (c.ctrl.getD (i + 1) 0 - c.ctrl.getD i 0) : K) ≤ E) (htol : 0 < tol)
    {p : V} {lower upper : K} (hl : 0 ≤ lower) (hlu : lower ≤ upper) (hu : upper ≤ 1)
    (hb : ∀ t, lower ≤ t → t ≤ upper →
      (dot (p - bezierPoint c.ctrl t) (p - bezierPoint c.ctrl t) : K) < big) :
    ∃ r, c.approxInverse big tol p lower upper 3 = ok r ∧ lower ≤ r ∧ r ≤ upper ∧
      ∀ t, lower ≤ t → t ≤ upper → (norm (p - bezierPoint c.ctrl r) : K)
        ≤ norm (p - bezierPoint c.ctrl t) + (upper - lower) * E / 4 := by
  have hne : c.ctrl ≠ [] := by intro h; rw [h] at hlen; simp at hlen
  have hnum : (2 * (c.degree + 1)).toNat = 2 * (n + 1) := by
    unfold Bezier.degree; rw [hlen]; push_cast; omega
  have h0 : ∀ t, lower ≤ t → t ≤ upper → (c.fn : CurveFn K V).ev t = ok (bezierPoint c.ctrl t) :=
    fun t a b => bezier_unit hlen hper (hl.trans a) (b.trans hu)
  choose e1 he1 using fun t : K => Bezier.evaluateDerivative_ok c hne t
  choose e2 he2 using fun t : K => Bezier.evaluate2ndDerivative_ok c hne t
  obtain ⟨r, er⟩ := C35_returns big tol c.fn p (2 * (n + 1)) 3 lower upper _ e1 e2 (by omega) hlu htol
    h0 (fun t _ _ => he1 t) (fun t _ _ => he2 t) hb
  obtain ⟨r1, r2⟩ := C35_in_range big tol c.fn p (2 * (n + 1)) 3 lower upper _ (by omega) hlu h0 hb r er
  refine ⟨r, by unfold Bezier.approxInverse; rw [hnum]; exact er, r1, r2, fun t t1 t2 => ?_⟩
  have hE0 : 0 ≤ E := (LawfulGeom.norm_nonneg _).trans (hE 0 (by omega))
  have hlip : ∀ s t, lower ≤ s → s ≤ upper → lower ≤ t → t ≤ upper →
      (norm (bezierPoint c.ctrl s - bezierPoint c.ctrl t) : K) ≤ n * E * |s - t| := by
    intro s t a1 a2 a3 a4
    exact C96_bezier_lipschitz (norm_seminorm (K := K) (V := V)) (c := { ctrl := c.ctrl }) hlen
      (f := bezierPoint c.ctrl) (D := fun t => 0 ≤ t ∧ t ≤ 1)
      (fun t h => ⟨h.1, h.2, Or.inr rfl⟩) (fun t _ => Bezier.evaluate_eq _ hne t) hE
      ⟨hl.trans a3, a4.trans hu⟩ ⟨hl.trans a1, a2.trans hu⟩
  refine (C102_curve (by omega) (Or.inl ⟨n + 1, by ring⟩) hlu h0 hb
    (mul_nonneg (Nat.cast_nonneg n) hE0) hlip er t1 t2).trans ?_
  have hw : 0 ≤ upper - lower := sub_nonneg.2 hlu
  have hn' : (1 : K) ≤ n := by exact_mod_cast hn
  have hm : (0 : K) < n + 1 := by linarith
  have key : (n : K) * (1 / (2 * (2 * (n + 1))) + (2 / (2 * (n + 1))) ^ 3) ≤ 1 / 4 := by
    have : (n : K) * (1 / (2 * (2 * (n + 1))) + (2 / (2 * (n + 1))) ^ 3)
        = 1 / 4 - (n - 1) ^ 2 / (4 * (n + 1) ^ 3) := by
      field_simp; ring
    rw [this]
    have : 0 ≤ ((n : K) - 1) ^ 2 / (4 * (n + 1) ^ 3) := by positivity
    linarith
  have := mul_le_mul_of_nonneg_left key (mul_nonneg hw hE0)
  push_cast
  calc _ = norm (p - bezierPoint c.ctrl t) + (upper - lower) * E *
        ((n : K) * (1 / (2 * (2 * (n + 1))) + (2 / (2 * (n + 1))) ^ 3)) := by ring
    _ ≤ _ := by linarith

/-- On one span the curve moves at most the degree times the longest edge per length of the span. -/
theorem span_lipschitz {nrm : V → K} (hn : IsSeminorm nrm) {c : BSpline K V} {d : ℕ}
    (hc : WellFormed c d) (hd : d ≠ 0) {B E : K}
    (hB : ∀ i, i + 1 < c.ctrl.length → nrm (c.ctrl.getD (i + 1) 0 - c.ctrl.getD i 0)
      ≤ B * (abscissa c.knots d (i + 1) - abscissa c.knots d i))
    (hE : ∀ i, i + 1 < c.ctrl.length → nrm (c.ctrl.getD (i + 1) 0 - c.ctrl.getD i 0) ≤ E)
    {k : ℕ} (hk1 : d ≤ k) (hk2 : k < c.ctrl.length)
    (hlt : knot c.knots k < knot c.knots (k + 1)) {x y : K} (h1 : knot c.knots k ≤ x) (h2 : x ≤ y)
    (h3 : y ≤ knot c.knots (k + 1)) :
    nrm (bsplinePoint d c.knots c.ctrl y - bsplinePoint d c.knots c.ctrl x)
      ≤ d * E / (knot c.knots (k + 1) - knot c.knots k) * (y - x) := by
  have hl := hc.len
  have hcl := hc.ctrl
  set N := c.ctrl.length with hN
  set h := knot c.knots (k + 1) - knot c.knots k with hh
  have hpos : 0 < h := sub_pos.2 hlt
  have hd' : (0 : K) < d := by exact_mod_cast Nat.pos_of_ne_zero hd
  have hE0 : 0 ≤ E := (nrm_nonneg hn _).trans (hE 0 (by omega))
  set B' := d * E / h with hB'
  have hB'0 : 0 ≤ B' := div_nonneg (mul_nonneg hd'.le hE0) hpos.le
  have hdiff : ∀ i, abscissa c.knots d (i + 1) - abscissa c.knots d i
      = (knot c.knots (i + 1 + d) - knot c.knots (i + 1)) / d := by
    intro i
    unfold abscissa
    rw [← sub_div, ← sum_sub_distrib]
    congr 1
    have := sum_range_sub (fun r => knot c.knots (i + 1 + r)) d
    rw [add_zero] at this
    rw [← this]
    exact sum_congr rfl fun r _ => by rw [show i + 1 + 1 + r = i + 1 + (r + 1) by ring]
  -- the same control points on this span, constant beyond
  set c' : BSpline K V :=
    { c with ctrl := arr N fun i => c.ctrl.getD (min k (max (k - d) i)) 0 } with hc'
  have hl' : c'.ctrl.length = N := by simp [hc']
  have hwf : WellFormed c' d := ⟨by rw [hl']; exact hl, hc.sdeg, by rw [hl']; exact hcl,
    hc.sorted, by rw [hl']; exact hc.dom⟩
  have hpt : ∀ t, knot c.knots k ≤ t → t < knot c.knots (k + 1) →
      bsplinePoint d c'.knots c'.ctrl t = bsplinePoint d c.knots c.ctrl t := by
    intro t a1 a2
    have hm := knot_mono hc.sorted (show k + 1 ≤ N by omega) (by omega)
    have hin : InSpan (knot c.knots) (knot c.knots N) k t := by
      unfold InSpan
      rw [if_neg (ne_of_lt (lt_of_lt_of_le a2 hm))]
      exact ⟨a1, a2⟩
    unfold bsplinePoint
    rw [hl', sum_basis_support (monoTo_knot hc.sorted) hin hk1 hk2 (by omega),
      sum_basis_support (monoTo_knot hc.sorted) hin hk1 hk2 (by omega)]
    refine sum_congr rfl fun j hj => ?_
    have hj' : j < d + 1 := by simpa using hj
    simp only [hc']
    rw [arr_getD _ _ _ _ (by omega), show min k (max (k - d) (k - d + j)) = k - d + j by omega]
  have hB'' : ∀ i, i + 1 < c'.ctrl.length → nrm (c'.ctrl.getD (i + 1) 0 - c'.ctrl.getD i 0)
      ≤ B' * (abscissa c'.knots d (i + 1) - abscissa c'.knots d i) := by
    intro i hi
    rw [hl'] at hi
    show _ ≤ B' * (abscissa c.knots d (i + 1) - abscissa c.knots d i)
    simp only [hc']
    rw [arr_getD _ _ _ _ hi, arr_getD _ _ _ _ (by omega), hdiff]
    by_cases hin : k - d ≤ i ∧ i < k
    · rw [show min k (max (k - d) (i + 1)) = i + 1 by omega, show min k (max (k - d) i) = i by omega]
      refine (hE i hi).trans ?_
      have w1 := knot_mono hc.sorted (show i + 1 ≤ k by omega) (by omega)
      have w2 := knot_mono hc.sorted (show k + 1 ≤ i + 1 + d by omega) (by omega)
      have w3 : h / d ≤ (knot c.knots (i + 1 + d) - knot c.knots (i + 1)) / d :=
        div_le_div_of_nonneg_right (by rw [hh]; linarith) hd'.le
      have w4 := mul_le_mul_of_nonneg_left w3 hB'0
      have w5 : B' * (h / d) = E := by rw [hB']; field_simp
      linarith
    · rw [show min k (max (k - d) (i + 1)) = min k (max (k - d) i) by omega, sub_self, nrm_zero hn]
      have w1 := knot_mono hc.sorted (show i + 1 ≤ i + 1 + d by omega) (by omega)
      exact mul_nonneg hB'0 (div_nonneg (sub_nonneg.2 w1) hd'.le)
  have hlow := knot_mono hc.sorted hk1 (by omega)
  have hup := knot_mono hc.sorted (show k + 1 ≤ N by omega) (by omega)
  have hopen : ∀ z, x ≤ z → z < knot c.knots (k + 1) →
      nrm (bsplinePoint d c.knots c.ctrl z - bsplinePoint d c.knots c.ctrl x) ≤ B' * (z - x) := by
    intro z hz1 hz2
    have := chord_le hn hwf hd hB'' (hlow.trans h1) hz1 (by rw [hl']; exact hz2.le.trans hup)
    rwa [hpt z (h1.trans hz1) hz2, hpt x h1 (lt_of_le_of_lt hz1 hz2)] at this
  rcases eq_or_lt_of_le h2 with hxy | hxy
  · subst hxy
    simp [nrm_zero hn]
  rcases eq_or_lt_of_le h3 with hy | hy
  swap
  · exact hopen y h2 hy
  refine le_of_forall_pos_le_add fun ε hε => ?_
  have hden : 0 < |B| + 1 := by have := abs_nonneg B; linarith
  set δ := min (y - x) (ε / (|B| + 1)) with hδ
  have hδ0 : 0 < δ := lt_min (sub_pos.2 hxy) (div_pos hε hden)
  have hδ1 : δ ≤ y - x := min_le_left _ _
  have hδ2 : δ ≤ ε / (|B| + 1) := min_le_right _ _
  have q1 := hopen (y - δ) (by linarith) (by linarith)
  have q2 := chord_le hn hc hd hB (a := y - δ) (b := y) (by linarith) (by linarith)
    (by rw [hy]; exact hup)
  have q3 := hn.tri (bsplinePoint d c.knots c.ctrl y - bsplinePoint d c.knots c.ctrl (y - δ))
    (bsplinePoint d c.knots c.ctrl (y - δ) - bsplinePoint d c.knots c.ctrl x)
  rw [sub_add_sub_cancel] at q3
  have q4 : B * δ ≤ ε := by
    have : (|B| + 1) * δ ≤ ε := by rw [le_div_iff₀ hden] at hδ2; linarith
    have := mul_le_mul_of_nonneg_right (le_abs_self B) hδ0.le
    nlinarith
  have q5 : B' * (y - δ - x) ≤ B' * (y - x) := mul_le_mul_of_nonneg_left (by linarith) hB'0
  have q6 : B * (y - (y - δ)) = B * δ := by ring
  linarith

/-- C102 for B-spline curves of degree `d ≥ 1` that are not periodic, whose control polygon is at
most `B` times as steep as its knots (in particular the curve has no jumps).  The search ends with a
parameter whose point is farther from the query than the closest point of the range by at most a
quarter of the longest edge of the control polygon, plus what the curve can move in the last
range. -/
theorem C102_bspline {c : BSpline K V} {d : ℕ} (hc : WellFormed c d) (hw : Wide c d) (hd : 1 ≤ d)
    (hper : c.periodic = false) {B E : K}
    (hB : ∀ i, i + 1 < c.ctrl.length → (norm (c.ctrl.getD (i + 1) 0 - c.ctrl.getD i 0) : K)
      ≤ B * ((∑ r ∈ range d, knot c.knots (i + 1 + 1 + r)) / d
        - (∑ r ∈ range d, knot c.knots (i + 1 + r)) / d))
    (hE : ∀ i, i + 1 < c.ctrl.length → (norm (c.ctrl.getD (i + 1) 0 - c.ctrl.getD i 0) : K) ≤ E)
    {f : CurveFn K V} (hf : f.ev = c.evaluate) {p : V} {big tol : K} {fuel level : ℕ}
    (hfuel : c.knots.length ≤ fuel) {lower upper : K} (hlt : lower < upper)
    (hlo : knot c.knots d ≤ lower) (hfs : FirstSpan c d ∨ knot c.knots d < lower)
    (hup : upper ≤ knot c.knots c.ctrl.length)
    (hb : ∀ t, lower ≤ t → t ≤ upper → (dot (p - bsplinePoint d c.knots c.ctrl t)
      (p - bsplinePoint d c.knots c.ctrl t) : K) < big) {r : K}
    (hr : SpanSearch.approxInverse fuel big tol c f p level lower upper = ok r) :
    lower ≤ r ∧ r ≤ upper ∧ ∀ t, lower ≤ t → t ≤ upper →
      (norm (p - bsplinePoint d c.knots c.ctrl r) : K) ≤ norm (p - bsplinePoint d c.knots c.ctrl t)
        + E / 4 + B * ((upper - lower) * (1 / (d + 1)) ^ level) := by
  have hs := norm_seminorm (K := K) (V := V)
  have hl := hc.len
  have hcl := hc.ctrl
  have hd0 : d ≠ 0 := by omega
  have h0 : ∀ t, lower ≤ t → t ≤ upper → f.ev t = ok (bsplinePoint d c.knots c.ctrl t) := by
    intro t a b
    rw [hf]
    exact BSpline.evaluate_eq hc hw (wrap_nonperiodic hper t)
      (hfs.imp id (fun h => lt_of_lt_of_le h a)) (hlo.trans a) (b.trans hup)
  obtain ⟨lo, hi, t', a1, a2, a3, a4, a5, aw, a6, a7⟩ := SpanSearch.approxInverse_width (tol := tol)
    (level := level) (fun a b e h g => SpanSearch.round_spec hc hper a b e h g hfuel) hlt hlo hup h0 hb
  rw [a6] at hr
  obtain ⟨r1, r2⟩ := C34_curve_in_range f p t' tol lo hi 10 r a4 a5 hr
  refine ⟨a1.trans r1, r2.trans a3, fun t t1 t2 => ?_⟩
  have hE0 : 0 ≤ E := (LawfulGeom.norm_nonneg _).trans (hE 0 (by omega))
  -- the nearest sample of the piece of `t`
  obtain ⟨a, b, hP, ta, tb⟩ := SpanSearch.exists_piece_at (knots := c.knots) hlt t1 t2
  obtain ⟨k, k1, k2, k3⟩ := exists_inSpan (u := knot c.knots) (p := d) (n := c.ctrl.length)
    hc.dom (by omega) (t := a) (hlo.trans hP.lo) ((hP.lt.le.trans hP.hi).trans hup)
    (fun i j hij hj => knot_mono hc.sorted hij (by omega))
  have k4 : knot c.knots k ≤ a ∧ a < knot c.knots (k + 1) := by
    unfold InSpan at k3
    rw [if_neg (ne_of_lt (lt_of_lt_of_le hP.lt (hP.hi.trans hup)))] at k3
    exact k3
  have k5 : b ≤ knot c.knots (k + 1) := by
    by_contra hcon
    push Not at hcon
    exact hP.none _ (SpanSearch.knot_mem (by omega)) ⟨k4.2, hcon⟩
  have hn0 : 0 < 2 * (d + 1) := by omega
  obtain ⟨i, hi', ei⟩ := near_sample (K := K) hn0 ta tb
  obtain ⟨s1, s2⟩ := sampleAt_mem (K := K) hn0 hP.lt.le hi'
  set s := sampleAt (2 * (d + 1)) a b i with hsdef
  have hspan : 0 < knot c.knots (k + 1) - knot c.knots k := by
    have := hP.lt; linarith [k4.1, k4.2]
  have hd' : (1 : K) ≤ d := by exact_mod_cast hd
  have hlocal : (norm (bsplinePoint d c.knots c.ctrl t - bsplinePoint d c.knots c.ctrl s) : K)
      ≤ d * E / (knot c.knots (k + 1) - knot c.knots k) * |t - s| := by
    have hlt' : knot c.knots k < knot c.knots (k + 1) := sub_pos.1 hspan
    rcases le_total s t with hst | hst
    · rw [abs_of_nonneg (sub_nonneg.2 hst)]
      exact span_lipschitz hs hc hd0 hB hE k1 k2 hlt' (k4.1.trans s1) hst (tb.trans k5)
    · rw [abs_of_nonpos (sub_nonpos.2 hst), neg_sub, nrm_sub_comm hs]
      exact span_lipschitz hs hc hd0 hB hE k1 k2 hlt' (k4.1.trans ta) hst (s2.trans k5)
  have hquarter : d * E / (knot c.knots (k + 1) - knot c.knots k) * |t - s| ≤ E / 4 := by
    have w0 : 0 ≤ d * E / (knot c.knots (k + 1) - knot c.knots k) :=
      div_nonneg (mul_nonneg (by linarith) hE0) hspan.le
    have w1 : |t - s| ≤ (knot c.knots (k + 1) - knot c.knots k) / (4 * (d + 1)) := by
      refine ei.trans ?_
      push_cast
      rw [show (2 * (2 * ((d : K) + 1))) = 4 * (d + 1) by ring]
      exact div_le_div_of_nonneg_right (by linarith [k4.1]) (by positivity)
    refine (mul_le_mul_of_nonneg_left w1 w0).trans ?_
    have : d * E / (knot c.knots (k + 1) - knot c.knots k) *
        ((knot c.knots (k + 1) - knot c.knots k) / (4 * (d + 1))) = E / 4 * (d / (d + 1)) := by
      field_simp
    rw [this]
    have : (d : K) / (d + 1) ≤ 1 := by rw [div_le_one (by linarith)]; linarith
    have := mul_le_mul_of_nonneg_left this (show 0 ≤ E / 4 by linarith)
    linarith
  have hglobal : (norm (bsplinePoint d c.knots c.ctrl t' - bsplinePoint d c.knots c.ctrl r) : K)
      ≤ B * |t' - r| := by
    rcases le_total r t' with hst | hst
    · rw [abs_of_nonneg (sub_nonneg.2 hst)]
      exact chord_le hs hc hd0 hB ((hlo.trans a1).trans r1) hst ((a5.trans a3).trans hup)
    · rw [abs_of_nonpos (sub_nonpos.2 hst), neg_sub, nrm_sub_comm hs]
      exact chord_le hs hc hd0 hB ((hlo.trans a1).trans a4) hst ((r2.trans a3).trans hup)
  have hB0 : 0 ≤ B := by
    have q := chord_le hs hc hd0 hB le_rfl hc.dom.le le_rfl
    have q0 := (LawfulGeom.norm_nonneg (K := K) _).trans q
    by_contra hneg
    push Not at hneg
    have := mul_neg_of_neg_of_pos hneg (sub_pos.2 hc.dom)
    linarith
  have g1 := norm_le_of_sq (a7 s ⟨a, b, hP, i, hi', rfl⟩)
  have g3 := hs.tri (p - bsplinePoint d c.knots c.ctrl t)
    (bsplinePoint d c.knots c.ctrl t - bsplinePoint d c.knots c.ctrl s)
  rw [sub_add_sub_cancel] at g3
  have g5 := hs.tri (p - bsplinePoint d c.knots c.ctrl t')
    (bsplinePoint d c.knots c.ctrl t' - bsplinePoint d c.knots c.ctrl r)
  rw [sub_add_sub_cancel] at g5
  have g6 : |t' - r| ≤ hi - lo := abs_le.2 ⟨by linarith, by linarith⟩
  have g7 := mul_le_mul_of_nonneg_left (g6.trans aw) hB0
  linarith

/-! ### Patches -/

/-- C102 for patches: the search by sampling on any patch that moves at most `Lu` and `Lv` per unit of
the parameters.  With `nu, nv > 2` samples and at every level the guess is farther from the query than
the closest point of the box by at most `Lu` and `Lv` times half the widths of the box over `nu - 2`
and `nv - 2`. -/
theorem C102_patch {big tol uR vR : K} {s : PatchFn K V} {p : V} {nu nv level : ℕ} (hnu : 2 < nu)
    (hnv : 2 < nv) {e0 : K → K → V} {Lu Lv : K} (hLu : 0 ≤ Lu) (hLv : 0 ≤ Lv)
    {minU maxU minV maxV : K} (hu : minU ≤ maxU) (hv : minV ≤ maxV)
    (h0 : ∀ u v, (minU ≤ u ∧ u ≤ maxU) ∧ (minV ≤ v ∧ v ≤ maxV) → s.ev u v = ok (e0 u v))
    (hb : ∀ u v, (minU ≤ u ∧ u ≤ maxU) ∧ (minV ≤ v ∧ v ≤ maxV) →
      (dot (p - e0 u v) (p - e0 u v) : K) < big)
    (hL : ∀ u v u' v', (minU ≤ u ∧ u ≤ maxU) ∧ (minV ≤ v ∧ v ≤ maxV) →
      (minU ≤ u' ∧ u' ≤ maxU) ∧ (minV ≤ v' ∧ v' ≤ maxV) →
      (norm (e0 u v - e0 u' v') : K) ≤ Lu * |u - u'| + Lv * |v - v'|) :
    ∃ r, PatchBase.approxInverse big tol uR vR s p nu nv level minU maxU minV maxV = ok r ∧
      (minU ≤ r.1 ∧ r.1 ≤ maxU) ∧ (minV ≤ r.2 ∧ r.2 ≤ maxV) ∧
      ∀ u v, (minU ≤ u ∧ u ≤ maxU) ∧ (minV ≤ v ∧ v ≤ maxV) →
        (norm (p - e0 r.1 r.2) : K) ≤ norm (p - e0 u v)
          + Lu * ((maxU - minU) / (2 * (nu - 2))) + Lv * ((maxV - minV) / (2 * (nv - 2))) := by
  obtain ⟨r, e, h, hr⟩ := PatchBase.approxInverse_near (tol := tol) (uR := uR) (vR := vR)
    (level := level) hnu hnv hLu hLv hu hv h0 hb hL
  exact ⟨r, e, h.1, h.2, hr⟩

/-- A mean of Bernstein weights is no longer than the longest vector. -/
theorem bezier_norm_le {nrm : V → K} (hn : IsSeminorm nrm) {n : ℕ} {P : ℕ → V} {E : K}
    (hE : ∀ i ≤ n, nrm (P i) ≤ E) {t : K} (h1 : 0 ≤ t) (h2 : t ≤ 1) :
    nrm (umb P (lin t ^ n)) ≤ E := by
  have := nrm_combo hn (q := n + 1) (l := fun i => bernstein n i t) (e := P) (v := 0) (B := E)
    (fun j _ => bernstein_nonneg n j t h1 h2) (bernstein_sum n t)
    (fun j hj => by rw [nrm_sub_comm hn, sub_zero]; exact hE j (by omega))
  rw [nrm_sub_comm hn, sub_zero] at this
  rw [umb_lin_pow]
  exact this

theorem umb_lipschitz {nrm : V → K} (hn : IsSeminorm nrm) {n : ℕ} {P : ℕ → V} {E : K}
    (hE : ∀ i < n, nrm (P (i + 1) - P i) ≤ E) {s t : K} (h1 : 0 ≤ s) (h2 : s ≤ 1) (h3 : 0 ≤ t)
    (h4 : t ≤ 1) : nrm (umb P (lin s ^ n) - umb P (lin t ^ n)) ≤ n * E * |s - t| := by
  have hne : arr (n + 1) P ≠ [] := by intro h; simpa using congrArg List.length h
  rw [← Bezier.arr_bezierPoint, ← Bezier.arr_bezierPoint]
  exact C96_bezier_lipschitz hn (c := { ctrl := arr (n + 1) P }) (by simp)
    (f := bezierPoint (arr (n + 1) P)) (D := fun t => 0 ≤ t ∧ t ≤ 1)
    (fun t h => ⟨h.1, h.2, Or.inr rfl⟩) (fun t _ => Bezier.evaluate_eq _ hne t)
    (fun i hi => by rw [arr_getD _ _ _ _ (by omega), arr_getD _ _ _ _ (by omega)]; exact hE i hi)
    ⟨h3, h4⟩ ⟨h1, h2⟩

/-- A Bézier patch moves at most the degrees times the longest edges of its net. -/
theorem surface_lipschitz {nrm : V → K} (hn : IsSeminorm nrm) {q : BezierPatch V} {m n : ℕ}
    {Eu Ev : K}
    (hEu : ∀ i < m, ∀ j ≤ n,
      nrm (gridPoint q.grid (n + 1) (i + 1) j - gridPoint q.grid (n + 1) i j) ≤ Eu)
    (hEv : ∀ i ≤ m, ∀ j < n,
      nrm (gridPoint q.grid (n + 1) i (j + 1) - gridPoint q.grid (n + 1) i j) ≤ Ev)
    {u v u' v' : K} (hu : 0 ≤ u ∧ u ≤ 1) (hv : 0 ≤ v ∧ v ≤ 1) (hu' : 0 ≤ u' ∧ u' ≤ 1)
    (hv' : 0 ≤ v' ∧ v' ≤ 1) :
    nrm (bezierSurface m n q.grid u v - bezierSurface m n q.grid u' v')
      ≤ m * Eu * |u - u'| + n * Ev * |v - v'| := by
  rw [← BezierPatch.part_eq_surface, ← BezierPatch.part_eq_surface, BezierPatch.part_zero,
    BezierPatch.part_zero]
  have h1 := umb_lipschitz hn (n := m) (P := fun i => umb (q.pts n i) (lin v ^ n)) (E := Eu)
    (fun i hi => by
      rw [← umb_sub_fun]
      exact bezier_norm_le hn (fun j hj => hEu i hi j hj) hv.1 hv.2) hu.1 hu.2 hu'.1 hu'.2
  have h2 := umb_lipschitz hn (n := n) (P := fun j => umb (fun i => q.pts n i j) (lin u' ^ m)) (E := Ev)
    (fun j hj => by
      rw [← umb_sub_fun]
      exact bezier_norm_le hn (fun i hi => hEv i hi j hj) hu'.1 hu'.2) hv.1 hv.2 hv'.1 hv'.2
  rw [← umb_fubini (q.pts n) _ (lin v ^ n), ← umb_fubini (q.pts n) _ (lin v' ^ n)] at h2
  have h3 := hn.tri (umb (fun i => umb (q.pts n i) (lin v ^ n)) (lin u ^ m)
      - umb (fun i => umb (q.pts n i) (lin v ^ n)) (lin u' ^ m))
    (umb (fun i => umb (q.pts n i) (lin v ^ n)) (lin u' ^ m)
      - umb (fun i => umb (q.pts n i) (lin v' ^ n)) (lin u' ^ m))
  rw [sub_add_sub_cancel] at h3
  linarith

/-- C102 for Bézier patches that are searched by sampling, that is, with degree 1 or 2 in one of the
directions: `inverse_evaluate` over a box in the unit square refines a guess in the box that is
farther from the query than the closest point of the box by at most half the longest edges of the
control net, times the widths of the box. -/
theorem C102_bezier_patch {eps big tol10 tol100 : K} {q : BezierPatch V} {m n : ℕ}
    (hq : q.WellFormed m n) (hm : 1 ≤ m) (hn : 1 ≤ n) (hlow : m ≤ 2 ∨ n ≤ 2)
    (hpu : q.perU = false) (hpv : q.perV = false) {Eu Ev : K}
    (hEu : ∀ i < m, ∀ j ≤ n,
      (norm (gridPoint q.grid (n + 1) (i + 1) j - gridPoint q.grid (n + 1) i j) : K) ≤ Eu)
    (hEv : ∀ i ≤ m, ∀ j < n,
      (norm (gridPoint q.grid (n + 1) i (j + 1) - gridPoint q.grid (n + 1) i j) : K) ≤ Ev)
    {p : V} {b : ControlSearch.Box K} (hu : b.minU ≤ b.maxU) (hv : b.minV ≤ b.maxV)
    (hin : 0 ≤ b.minU ∧ b.maxU ≤ 1 ∧ 0 ≤ b.minV ∧ b.maxV ≤ 1)
    (hb : ∀ u v, (b.minU ≤ u ∧ u ≤ b.maxU) ∧ (b.minV ≤ v ∧ v ≤ b.maxV) →
      (dot (p - bezierSurface m n q.grid u v) (p - bezierSurface m n q.grid u v) : K) < big) :
    ∃ u0 v0, (b.minU ≤ u0 ∧ u0 ≤ b.maxU) ∧ (b.minV ≤ v0 ∧ v0 ≤ b.maxV) ∧
      q.inverseEvaluate eps big tol10 tol100 p b
        = PatchBase.inverseFrom big q.fn p u0 v0 b.minU b.maxU b.minV b.maxV 20 tol100 ∧
      ∀ u v, (b.minU ≤ u ∧ u ≤ b.maxU) ∧ (b.minV ≤ v ∧ v ≤ b.maxV) →
        (norm (p - bezierSurface m n q.grid u0 v0) : K) ≤ norm (p - bezierSurface m n q.grid u v)
          + (b.maxU - b.minU) * Eu / 2 + (b.maxV - b.minV) * Ev / 2 := by
  have hs := norm_seminorm (K := K) (V := V)
  have hunit : ∀ u v, (b.minU ≤ u ∧ u ≤ b.maxU) ∧ (b.minV ≤ v ∧ v ≤ b.maxV) →
      (0 ≤ u ∧ u ≤ 1) ∧ (0 ≤ v ∧ v ≤ 1) := fun u v h =>
    ⟨⟨hin.1.trans h.1.1, h.1.2.trans hin.2.1⟩, ⟨hin.2.2.1.trans h.2.1, h.2.2.trans hin.2.2.2⟩⟩
  have h0 : ∀ u v, (b.minU ≤ u ∧ u ≤ b.maxU) ∧ (b.minV ≤ v ∧ v ≤ b.maxV) →
      (q.fn : PatchFn K V).ev u v = ok (bezierSurface m n q.grid u v) := by
    intro u v _
    have := hq.evaluate (u := u) (v := v) (u' := u) (v' := v) (by rw [hpu]; rfl) (by rw [hpv]; rfl)
    rw [BezierPatch.part_eq_surface] at this
    exact this
  have hEu0 : 0 ≤ Eu := (LawfulGeom.norm_nonneg _).trans (hEu 0 (by omega) 0 (by omega))
  have hEv0 : 0 ≤ Ev := (LawfulGeom.norm_nonneg _).trans (hEv 0 (by omega) 0 (by omega))
  have hsearch : q.approxInverse eps big tol10 p (m + 1 + 1) (n + 1 + 1) 10 b
      = PatchBase.approxInverse big tol10 1 1 q.fn p (m + 1 + 1) (n + 1 + 1) 3
          b.minU b.maxU b.minV b.maxV := by
    have hfall : ControlSearch.fallback (BezierPatch.ops eps big tol10 p (m + 1 + 1) (n + 1 + 1)) 3 q
        = ok (some 3) := by
      unfold ControlSearch.fallback
      have e1 : (BezierPatch.ops eps big tol10 p (m + 1 + 1) (n + 1 + 1)).periodic q = false := by
        show (q.perU || q.perV) = false
        rw [hpu, hpv]; rfl
      have e2 : (BezierPatch.ops eps big tol10 p (m + 1 + 1) (n + 1 + 1)).degreeU q = ok m := hq.degreeU
      have e3 : (BezierPatch.ops eps big tol10 p (m + 1 + 1) (n + 1 + 1)).degreeV q = ok n := hq.degreeV
      have e4 : (BezierPatch.ops eps big tol10 p (m + 1 + 1) (n + 1 + 1)).numU q = ok (m + 1) := hq.numU
      have e5 : (BezierPatch.ops eps big tol10 p (m + 1 + 1) (n + 1 + 1)).numV q = ok (n + 1) := hq.numV
      rw [e1, if_neg (by simp), e2, ok_bind]
      split
      · rfl
      rw [e3, ok_bind]
      split
      · rfl
      rw [e4, ok_bind]
      split
      · rfl
      rw [e5, ok_bind, if_pos (by omega)]
    unfold BezierPatch.approxInverse
    rw [ControlSearch.unitSearch, hfall, ok_bind]
    rfl
  obtain ⟨r, er, h1, h2, hr⟩ := C102_patch (tol := tol10) (uR := 1) (vR := 1) (level := 3)
    (nu := m + 1 + 1) (nv := n + 1 + 1) (by omega) (by omega)
    (mul_nonneg (Nat.cast_nonneg m) hEu0) (mul_nonneg (Nat.cast_nonneg n) hEv0) hu hv h0 hb
    (fun u v u' v' h h' => surface_lipschitz hs hEu hEv (hunit _ _ h).1 (hunit _ _ h).2
      (hunit _ _ h').1 (hunit _ _ h').2)
  refine ⟨r.1, r.2, h1, h2, ?_, fun u v huv => (hr u v huv).trans (le_of_eq ?_)⟩
  · unfold BezierPatch.inverseEvaluate
    rw [hq.numU, ok_bind, hq.numV, ok_bind, hsearch, er, ok_bind]
  · have hm' : (m : K) ≠ 0 := by exact_mod_cast (by omega : m ≠ 0)
    have hn' : (n : K) ≠ 0 := by exact_mod_cast (by omega : n ≠ 0)
    push_cast
    rw [show (m : K) + 1 + 1 - 2 = m by ring, show (n : K) + 1 + 1 - 2 = n by ring]
    field_simp

/-- C102, the result of `inverse_evaluate` on these patches when it reports no convergence: it is
then no farther than the guess. -/
theorem C102_bezier_patch_result {eps big tol10 tol100 : K} (ht : 0 < tol100) {q : BezierPatch V}
    {m n : ℕ} (hq : q.WellFormed m n) (hm : 1 ≤ m) (hn : 1 ≤ n) (hlow : m ≤ 2 ∨ n ≤ 2)
    (hpu : q.perU = false) (hpv : q.perV = false) {Eu Ev : K}
    (hEu : ∀ i < m, ∀ j ≤ n,
      (norm (gridPoint q.grid (n + 1) (i + 1) j - gridPoint q.grid (n + 1) i j) : K) ≤ Eu)
    (hEv : ∀ i ≤ m, ∀ j < n,
      (norm (gridPoint q.grid (n + 1) i (j + 1) - gridPoint q.grid (n + 1) i j) : K) ≤ Ev)
    {p : V} {b : ControlSearch.Box K} (hu : b.minU ≤ b.maxU) (hv : b.minV ≤ b.maxV)
    (hin : 0 ≤ b.minU ∧ b.maxU ≤ 1 ∧ 0 ≤ b.minV ∧ b.maxV ≤ 1)
    (hb : ∀ u v, (b.minU ≤ u ∧ u ≤ b.maxU) ∧ (b.minV ≤ v ∧ v ≤ b.maxV) →
      (dot (p - bezierSurface m n q.grid u v) (p - bezierSurface m n q.grid u v) : K) < big)
    (hb' : ∀ u v, (b.minU ≤ u ∧ u ≤ b.maxU) ∧ (b.minV ≤ v ∧ v ≤ b.maxV) →
      (norm (p - bezierSurface m n q.grid u v) : K) ≤ big) {x : K × K}
    (hr : q.inverseEvaluate eps big tol10 tol100 p b = ok (x, false)) {u v : K}
    (huv : (b.minU ≤ u ∧ u ≤ b.maxU) ∧ (b.minV ≤ v ∧ v ≤ b.maxV)) :
    (norm (p - bezierSurface m n q.grid x.1 x.2) : K) ≤ norm (p - bezierSurface m n q.grid u v)
      + (b.maxU - b.minU) * Eu / 2 + (b.maxV - b.minV) * Ev / 2 := by
  have hs := norm_seminorm (K := K) (V := V)
  obtain ⟨u0, v0, h1, h2, e, hr0⟩ := C102_bezier_patch (eps := eps) (tol10 := tol10)
    (tol100 := tol100) hq hm hn hlow hpu hpv hEu hEv hu hv hin hb
  rw [e] at hr
  have h0 : ∀ u v, (b.minU ≤ u ∧ u ≤ b.maxU) ∧ (b.minV ≤ v ∧ v ≤ b.maxV) →
      (q.fn : PatchFn K V).ev u v = ok (bezierSurface m n q.grid u v) := by
    intro u v _
    have := hq.evaluate (u := u) (v := v) (u' := u) (v' := v) (by rw [hpu]; rfl) (by rw [hpv]; rfl)
    rw [BezierPatch.part_eq_surface] at this
    exact this
  have := (PatchBase.C34_patch_distance big q.fn p u0 v0 b.minU b.maxU b.minV b.maxV tol100 20 _
    (by omega) ht h1 h2 h0 (by rw [nrm_sub_comm hs]; exact hb' _ _ ⟨h1, h2⟩) _ hr).1 rfl
  rw [nrm_sub_comm hs, nrm_sub_comm hs (bezierSurface m n q.grid u0 v0)] at this
  exact this.trans (hr0 u v huv)

/-! ### Examples -/

/-- A cubic on the line that turns twice. -/
def exTwist : Bezier ℚ := { ctrl := [0, 5, -2, 3] }

/-- A bilinear patch on the line, the values `u + v + 5 u v`. -/
def exBilin : BezierPatch ℚ := { grid := [0, 1, 1, 7], degU := 1, degV := 1 }

/-- The point 3 and the range `[0, 1]`: the search ends at most `7 / 4` farther than the closest point. -/
example : ∃ r : ℚ, exTwist.approxInverse (1000 : ℚ) (1 / 1000) 3 0 1 3 = ok r ∧
    0 ≤ r ∧ r ≤ 1 ∧ ∀ t : ℚ, 0 ≤ t → t ≤ 1 → (Geom.norm ((3 : ℚ) - bezierPoint exTwist.ctrl r) : ℚ)
      ≤ Geom.norm ((3 : ℚ) - bezierPoint exTwist.ctrl t) + (1 - 0) * 7 / 4 := by
  refine C102_bezier (K := ℚ) (c := exTwist) (n := 3) rfl (by omega) (by simp [exTwist])
    (fun i hi => ?_) (by norm_num) le_rfl zero_le_one le_rfl (fun t h1 h2 => ?_)
  · interval_cases i <;> decide +kernel
  · have hs : bezierPoint exTwist.ctrl t = 15 * t * (1 - t) ^ 2 - 6 * t ^ 2 * (1 - t) + 3 * t ^ 3 := by
      simp [exTwist, bezierPoint, Finset.sum_range_succ, bernstein]
      ring
    have h3 : 0 ≤ 1 - t := by linarith
    have a1 : 0 ≤ t * (1 - t) ^ 2 ∧ t * (1 - t) ^ 2 ≤ 1 :=
      ⟨by positivity, mul_le_one₀ h2 (by positivity) (pow_le_one₀ h3 (by linarith))⟩
    have a2 : 0 ≤ t ^ 2 * (1 - t) ∧ t ^ 2 * (1 - t) ≤ 1 :=
      ⟨by positivity, mul_le_one₀ (pow_le_one₀ h1 h2) h3 (by linarith)⟩
    have a3 : 0 ≤ t ^ 3 ∧ t ^ 3 ≤ 1 := ⟨by positivity, pow_le_one₀ h1 h2⟩
    have a4 : |3 - bezierPoint exTwist.ctrl t| ≤ 20 := by
      rw [hs, abs_le]
      constructor <;> nlinarith
    have a5 := abs_le.1 a4
    show (3 - bezierPoint exTwist.ctrl t) * (3 - bezierPoint exTwist.ctrl t) < 1000
    nlinarith

/-- The point 4 and the unit square. -/
example : ∃ u0 v0 : ℚ, ((0 : ℚ) ≤ u0 ∧ u0 ≤ 1) ∧ ((0 : ℚ) ≤ v0 ∧ v0 ≤ 1) ∧
    exBilin.inverseEvaluate (0 : ℚ) 1000 (1 / 100) (1 / 100) 4 ⟨0, 1, 0, 1⟩
      = PatchBase.inverseFrom (1000 : ℚ) exBilin.fn 4 u0 v0 0 1 0 1 20 (1 / 100) ∧
    ∀ u v : ℚ, ((0 : ℚ) ≤ u ∧ u ≤ 1) ∧ ((0 : ℚ) ≤ v ∧ v ≤ 1) →
      (Geom.norm ((4 : ℚ) - bezierSurface 1 1 exBilin.grid u0 v0) : ℚ)
        ≤ Geom.norm ((4 : ℚ) - bezierSurface 1 1 exBilin.grid u v)
          + (1 - 0) * 6 / 2 + (1 - 0) * 6 / 2 := by
  refine C102_bezier_patch (K := ℚ) (q := exBilin) (m := 1) (n := 1) (b := ⟨0, 1, 0, 1⟩)
    ⟨rfl, rfl, rfl⟩ le_rfl le_rfl (Or.inl (by omega)) rfl rfl (fun i hi j hj => ?_)
    (fun i hi j hj => ?_) zero_le_one zero_le_one ⟨le_rfl, le_rfl, le_rfl, le_rfl⟩ (fun u v h => ?_)
  · interval_cases i; interval_cases j <;> decide +kernel
  · interval_cases i <;> interval_cases j <;> decide +kernel
  · have hs : bezierSurface 1 1 exBilin.grid u v = u + v + 5 * u * v := by
      simp [exBilin, bezierSurface, gridPoint, Finset.sum_range_succ, bernstein]
      ring
    obtain ⟨⟨h1, h2⟩, h3, h4⟩ := h
    have h1 : 0 ≤ u := h1
    have h2 : u ≤ 1 := h2
    have h3 : 0 ≤ v := h3
    have h4 : v ≤ 1 := h4
    have h5 : 0 ≤ u * v ∧ u * v ≤ 1 := ⟨mul_nonneg h1 h3, mul_le_one₀ h2 h3 h4⟩
    show ((4 : ℚ) - bezierSurface 1 1 exBilin.grid u v)
      * ((4 : ℚ) - bezierSurface 1 1 exBilin.grid u v) < 1000
    rw [hs]
    nlinarith

/-- The polygon with a peak at 3, the point 4 and the range `[1/2, 7]`: after three rounds the answer is
at most `10 / 4 + 10 * 13/16` farther than the closest point. -/
example {r : ℚ} (hr : SpanSearch.approxInverse 11 (10 ^ 9) (1 / 10 ^ 13) (SpanSearch.exPeak false)
      (SpanSearch.fnOf (SpanSearch.exPeak false)) (4 : ℚ) 3 (1 / 2) 7 = ok r) :
    1 / 2 ≤ r ∧ r ≤ 7 ∧ ∀ t : ℚ, 1 / 2 ≤ t → t ≤ 7 →
      (Geom.norm ((4 : ℚ) - bsplinePoint 1 (SpanSearch.exPeak false).knots
          (SpanSearch.exPeak false).ctrl r) : ℚ)
        ≤ Geom.norm ((4 : ℚ) - bsplinePoint 1 (SpanSearch.exPeak false).knots
            (SpanSearch.exPeak false).ctrl t)
          + 10 / 4 + 10 * ((7 - 1 / 2) * (1 / ((1 : ℕ) + 1)) ^ 3) := by
  have hc := SpanSearch.exPeak_wf false
  have hB : ∀ i, i + 1 < (SpanSearch.exPeak false).ctrl.length →
      (Geom.norm ((SpanSearch.exPeak false).ctrl.getD (i + 1) 0
        - (SpanSearch.exPeak false).ctrl.getD i 0) : ℚ)
      ≤ 10 * ((∑ r ∈ range 1, knot (SpanSearch.exPeak false).knots (i + 1 + 1 + r)) / (1 : ℕ)
        - (∑ r ∈ range 1, knot (SpanSearch.exPeak false).knots (i + 1 + r)) / (1 : ℕ)) := by
    intro i hi
    have hi : i < 8 := by change i + 1 < 9 at hi; omega
    interval_cases i <;> decide +kernel
  refine C102_bspline (K := ℚ) hc ?_ le_rfl rfl hB (fun i hi => ?_) rfl (by decide) (by norm_num)
    (by decide +kernel) (Or.inr (by decide +kernel)) (by decide +kernel) (fun t h1 h2 => ?_) hr
  · intro i _ hi
    have hi : i < 9 := hi
    interval_cases i <;> decide +kernel
  · have hi : i < 8 := by change i + 1 < 9 at hi; omega
    interval_cases i <;> decide +kernel
  · have h3 : bsplinePoint 1 (SpanSearch.exPeak false).knots (SpanSearch.exPeak false).ctrl (0 : ℚ)
        = 0 := by decide +kernel
    have := chord_le (norm_seminorm (K := ℚ) (V := ℚ)) hc one_ne_zero hB (a := 0) (b := t)
      (by decide +kernel) (by linarith)
      (h2.trans (by decide +kernel : (7 : ℚ) ≤ knot (SpanSearch.exPeak false).knots 9))
    rw [h3, sub_zero] at this
    have h4 := abs_le.1 (this : |bsplinePoint 1 (SpanSearch.exPeak false).knots
      (SpanSearch.exPeak false).ctrl t| ≤ 10 * (t - 0))
    show ((4 : ℚ) - bsplinePoint 1 (SpanSearch.exPeak false).knots (SpanSearch.exPeak false).ctrl t)
      * ((4 : ℚ) - bsplinePoint 1 (SpanSearch.exPeak false).knots (SpanSearch.exPeak false).ctrl t)
        < 10 ^ 9
    generalize bsplinePoint 1 (SpanSearch.exPeak false).knots (SpanSearch.exPeak false).ctrl t = x at *
    nlinarith

end NS.Props
