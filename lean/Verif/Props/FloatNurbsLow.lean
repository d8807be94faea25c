import Verif.Props.FloatNurbsMixed

/-!
# Properties C113, C117 and C118: second derivatives of B-splines and NURBS patches of low degree
-/

set_option linter.unusedSectionVars false

namespace NS.Fl

open Outcome Finset Spec NS.Props

section General

variable {K ι : Type} [Field K] [LinearOrder K] [IsStrictOrderedRing K] [FloorRing K]

/-! ### Curves -/

/-- **C113**: the second derivative of a B-spline of degree at most one is zero, without error. -/
theorem C113_bspline_second_low (R : Rounding K) (F : ℕ → ℕ → ι → Fuse) {c : BSpline K (ι → K)} {p : ℕ}
    (hc : BSpline.WellFormed c p) (hp : p ≤ 1) (hper : c.periodic = false) {t : K}
    (hf : BSpline.FirstSpan c p ∨ knot c.knots p < t) :
    bspline2ndDerivative R F c t = ok 0 ∧ c.evaluate2ndDerivative t = ok 0 := by
  obtain ⟨k, hk, -⟩ := BSpline.locateSpan_spec hc t hf
  constructor
  · unfold bspline2ndDerivative
    rw [BSpline.validate_ok hc, ok_bind, show bsplineWrap R c t = ok t by simp [bsplineWrap, hper], ok_bind,
      hk, ok_bind, BSpline.degree_eq hc, assert_true (by omega), ok_bind]
    simp only [Int.toNat_natCast]
    rw [if_pos hp]
  · unfold BSpline.evaluate2ndDerivative
    rw [BSpline.validate_ok hc, ok_bind, show c.wrap t = ok t by simp [BSpline.wrap, hper], ok_bind,
      hk, ok_bind, BSpline.degree_eq hc, assert_true (by omega), ok_bind]
    simp only [Int.toNat_natCast]
    rw [if_pos hp]

theorem second_low_exact {V : Type} [AddCommGroup V] [Module K V] {c : BSpline K V} {p : ℕ}
    (hc : BSpline.WellFormed c p) (hp : p ≤ 1) (hper : c.periodic = false) {t : K}
    (hf : BSpline.FirstSpan c p ∨ knot c.knots p < t) : c.evaluate2ndDerivative t = ok 0 := by
  obtain ⟨k, hk, -⟩ := BSpline.locateSpan_spec hc t hf
  unfold BSpline.evaluate2ndDerivative
  rw [BSpline.validate_ok hc, ok_bind, show c.wrap t = ok t by simp [BSpline.wrap, hper], ok_bind,
    hk, ok_bind, BSpline.degree_eq hc, assert_true (by omega), ok_bind]
  simp only [Int.toNat_natCast]
  rw [if_pos hp]

/-- **C113**: the second derivative of a NURBS curve of degree one with weights between `lo` and `hi`,
`0 < lo`; it need not be zero. -/
theorem C113_nurbs_second_linear (R : Rounding K) (hu1 : R.unit < 1) (F G H : ℕ → ℕ → Option ι → Fuse)
    (f g : ι → Bool) {c : NURBS K (ι → K)} (hinit : c.init = ok c)
    (hc : BSpline.WellFormed c.base (0 + 1)) (hper : c.base.periodic = false)
    (hw : FlWide R c.base (0 + 1)) {lo hi : K} (hlo : 0 < lo) (hwt : ∀ x ∈ c.weights, lo ≤ x ∧ x ≤ hi)
    (hcond : (growth R ^ (0 + 1) - 1) * (hi / lo) < 1) {t : K}
    (hf : BSpline.FirstSpan c.base (0 + 1) ∨ knot c.base.knots (0 + 1) < t)
    (h1 : knot c.base.knots (0 + 1) ≤ t) (h2 : t ≤ knot c.base.knots c.base.ctrl.length)
    {S δ : K} (hδ : 0 < δ)
    (hgap : ∀ j, j + 1 < c.base.ctrl.length → δ ≤ knot c.base.knots (j + 0 + 2) - knot c.base.knots (j + 1))
    (hS : ∀ j, j + 1 < c.base.ctrl.length → |diffQuot c.base.knots 0 (fun j => c.weights.getD j 0) j| ≤ S) :
    ∃ q e, nurbs2ndDerivative R F G H f g c.base c.weights t = ok q ∧ c.evaluate2ndDerivative t = ok e ∧
      ∀ i M T, (∀ x ∈ c.base.ctrl, |x i| ≤ M) →
        (∀ j, j + 1 < c.base.ctrl.length → |diffQuot c.base.knots 0
          (fun j => c.weights.getD j 0 * c.base.ctrl.getD j 0 i) j| ≤ T) →
        |q i - e i| ≤ deriv2Bound R ((growth R ^ (0 + 1) - 1) * (hi / lo)) M
          (((1 + R.unit) * growth R ^ (0 + 1) - 1) * (hi / lo) * M) (T / lo)
          (((diffGrowth R * growth R ^ 0 - 1) * (T + 2 * R.unit * (hi * M) / δ)
            + 2 * R.unit * (hi * M) / δ) / lo)
          (S / lo) ((diffGrowth R * growth R ^ 0 - 1) * S / lo) 0 0 0 0 := by
  obtain ⟨Sy, -, -⟩ := (NURBS.init_iff _ _).1 hinit
  have hlen := Sy.len
  have hu := R.unit_nonneg
  have hl := hc.len
  have hn := hc.ctrl
  set n := c.base.ctrl.length with hnd
  set w := c.weights with hwd
  have gpos : ∀ j, j + 1 < n → 0 < knot c.base.knots (j + 0 + 2) - knot c.base.knots (j + 1) :=
    fun j hj => lt_of_lt_of_le hδ (hgap j hj)
  have toMul : ∀ (a : ℕ → K) (j : ℕ) (B : K), j + 1 < n → |diffQuot c.base.knots 0 a j| ≤ B →
      |((0 + 1 : ℕ) : K) * (a (j + 1) - a j)|
        ≤ B * (knot c.base.knots (j + 0 + 2) - knot c.base.knots (j + 1)) := by
    intro a j B hj hB
    unfold diffQuot at hB
    rw [div_mul_eq_mul_div, abs_div, abs_of_pos (gpos j hj), div_le_iff₀ (gpos j hj)] at hB
    exact hB
  obtain ⟨x, ex, hWlo, en, HN⟩ := nurbs_hom R hu1 F hc hper hw hlen hlo hwt hf h1 h2
  rw [← hnd] at hWlo en HN
  set W := BSplinePatch.bsum (0 + 1) c.base.knots n (fun j => w.getD j 0) t with hW
  have hWpos : 0 < W := lt_of_lt_of_le hlo hWlo
  set h : BSpline K (Option ι → K) :=
    BSpline.mk (homPts R c.base.ctrl w) c.base.knots c.base.periodic c.base.sdeg with hh
  have hhl : h.ctrl.length = n := homPts_length R _ _ hlen
  have hwf : BSpline.WellFormed h (0 + 1) := ⟨by rw [hhl]; exact hc.len, hc.sdeg,
    by rw [hhl]; exact hc.ctrl, hc.sorted, by rw [hhl]; exact hc.dom⟩
  have hwide : FlWide R h (0 + 1) := by
    intro j j1 j2 j3
    rw [hhl] at j2
    exact hw j j1 j2 j3
  have hhom : c.hom.ctrl.length = n := by rw [Sy.hom]; exact homog_length hlen
  obtain ⟨d, e, ed, ee, HD⟩ := bspline_deriv_axis R hu1 G (p := 0) hwf hper hwide
    (c.hom.ctrl.map (homFun ι K)) (by rw [List.length_map, hhom, hhl]) (t := t) hf h1
    (by rw [hhl]; exact h2)
  have ed2 := (C113_bspline_second_low R H hwf le_rfl hper (t := t) hf).1
  have ee2 : c.hom.evaluate2ndDerivative t = ok 0 := second_low_exact (Sy.wf.2 hc) le_rfl
    (by rw [Sy.hom]; exact hper) (by rw [Sy.first, Sy.knots]; exact hf)
  rw [hhl] at HD
  have eimg : (BSpline.mk (c.hom.ctrl.map (homFun ι K)) h.knots h.periodic h.sdeg : BSpline K (Option ι → K))
      = BSpline.image (homFun ι K) c.hom := by
    rw [Sy.hom]; rfl
  rw [eimg, BSpline.evaluateDerivative_map, map_eq_ok] at ee
  obtain ⟨e', ee', rfl⟩ := ee
  have hget : ∀ j < n, (c.hom.ctrl.map (homFun ι K)).getD j 0
      = homFun ι K (w.getD j 0 • c.base.ctrl.getD j 0, w.getD j 0) := by
    intro j hj
    have : c.hom.ctrl[j]? = some (w.getD j 0 • c.base.ctrl.getD j 0, w.getD j 0) := by
      rw [Sy.hom]; exact homog_getElem? j hlen hj
    rw [List.getD_eq_getElem?_getD, List.getElem?_map, this]
    rfl
  have hws : BSpline.Wide c.base (0 + 1) := hw.wide
  obtain ⟨x', ex', x2, x1⟩ : ∃ x', c.hom.evaluate t = ok x' ∧ x'.2 = W ∧
      ∀ i, x'.1 i = BSplinePatch.bsum (0 + 1) c.base.knots n
        (fun j => w.getD j 0 * c.base.ctrl.getD j 0 i) t := by
    have e := BSpline.evaluate_eq (Sy.wf.2 hc) (Sy.wide.2 hws) (t := t) (t' := t)
      (by rw [Sy.wrap]; simp [BSpline.wrap, hper]) (by rw [Sy.first, Sy.knots]; exact hf)
      (by rw [Sy.knots]; exact h1) (by rw [Sy.knots, Sy.homLen]; exact h2)
    rw [Sy.ctrl, Sy.knots, homog_bsplinePoint hlen] at e
    refine ⟨_, e, ?_, fun i => ?_⟩
    · rw [hW, hlen]
      unfold ratBSplineDen BSplinePatch.bsum
      simp only [smul_eq_mul]
    · unfold BSplinePatch.bsum
      simp only [Finset.sum_apply, Pi.smul_apply, smul_eq_mul, mul_assoc]
      rfl
  have eex : c.evaluate2ndDerivative t
      = ok (W⁻¹ • ((0 : ι → K) - (0 : K) • (W⁻¹ • x'.1)
          - (2 * e'.2) • (W⁻¹ • (e'.1 - W⁻¹ • (e'.2 • x'.1))))) := by
    unfold NURBS.evaluate2ndDerivative
    rw [Sy.validate, BSpline.validate_ok hc, ok_bind, ex', ok_bind, ee', ok_bind, ee2, ok_bind]
    unfold quot2
    rw [x2, assert_true hWpos.ne', ok_bind]
    rfl
  have scale' : ∀ {y z : K}, |y| ≤ z → |y| ≤ z / lo * W := fun h => scale_lo hlo hWlo h
  obtain ⟨dn, en'⟩ := HD none S 0
    (fun j hj => by rw [hget _ hj, hget _ (by omega)]; exact toMul _ j S hj (hS j hj))
    (fun j hj => by
      rw [hget _ hj, hget _ (by omega), hh]
      simp only [homPts_none R _ _ hlen]
      simp [homFun])
  simp only [add_zero] at dn
  obtain ⟨q, eq, hq⟩ := deriv2Quotient_err R f g (d1 := d) (d2 := 0) (S2 := 0) (y2 := 0) hWpos en hcond
    (E := e'.2) (scale' en') (scale' dn) (E2 := 0) (by simp) (by simp)
  refine ⟨q, _, ?_, eex, fun i M T hM hT => ?_⟩
  · unfold nurbs2ndDerivative
    rw [homogenize_eq R _ _ hlen, ok_bind, BSpline.validate_ok hc, ok_bind, ex, ok_bind, ed, ok_bind,
      ed2, ok_bind, eq]
  · obtain ⟨N1, N2⟩ := HN i M hM
    have hPj : ∀ j < n, |c.base.ctrl.getD j 0 i| ≤ M := by
      intro j hj
      rw [getD_of_lt _ (by omega)]
      exact hM _ (List.getElem_mem _)
    have hwj : ∀ j < n, lo ≤ w.getD j 0 ∧ w.getD j 0 ≤ hi := by
      intro j hj
      rw [getD_of_lt _ (by omega)]
      exact hwt _ (List.getElem_mem _)
    have hM0 : 0 ≤ M := (abs_nonneg _).trans (hPj 0 (by omega))
    have hprod : ∀ j < n, |h.ctrl.getD j 0 (some i) - w.getD j 0 * c.base.ctrl.getD j 0 i|
        ≤ R.unit * (hi * M) := by
      intro j hj
      have := hwj j hj
      rw [hh]
      simp only [homPts_some R _ _ hlen]
      rw [mul_comm (w.getD j 0)]
      refine (R.near _).trans (mul_le_mul_of_nonneg_left ?_ hu)
      rw [abs_mul, abs_of_pos (lt_of_lt_of_le hlo this.1), mul_comm]
      exact mul_le_mul this.2 (hPj j hj) (abs_nonneg _) (by linarith)
    set ν := 2 * R.unit * (hi * M) / δ with hν
    have hhi : 0 ≤ hi := by have := hwj 0 (by omega); linarith
    have hν0 : 0 ≤ ν := by rw [hν]; positivity
    have noise : ∀ j, j + 1 < n → |((0 + 1 : ℕ) : K) *
        (h.ctrl.getD (j + 1) 0 (some i) - h.ctrl.getD j 0 (some i)
          - (w.getD (j + 1) 0 * c.base.ctrl.getD (j + 1) 0 i - w.getD j 0 * c.base.ctrl.getD j 0 i))|
        ≤ ν * (knot c.base.knots (j + 0 + 2) - knot c.base.knots (j + 1)) := by
      intro j hj
      have a1 := hprod (j + 1) hj
      have a0 := hprod j (by omega)
      have tri : |h.ctrl.getD (j + 1) 0 (some i) - h.ctrl.getD j 0 (some i)
          - (w.getD (j + 1) 0 * c.base.ctrl.getD (j + 1) 0 i - w.getD j 0 * c.base.ctrl.getD j 0 i)|
          ≤ 2 * (R.unit * (hi * M)) := by
        rw [abs_le] at a0 a1 ⊢
        constructor <;> linarith [a0.1, a0.2, a1.1, a1.2]
      calc _ ≤ 2 * (R.unit * (hi * M)) := by simpa using tri
        _ = ν * δ := by rw [hν]; field_simp
        _ ≤ _ := mul_le_mul_of_nonneg_left (hgap j hj) hν0
    obtain ⟨ds, es⟩ := HD (some i) T ν
      (fun j hj => by
        rw [hget _ hj, hget _ (by omega)]
        exact toMul (fun j => w.getD j 0 * c.base.ctrl.getD j 0 i) j T hj (hT j hj))
      (fun j hj => by rw [hget _ hj, hget _ (by omega)]; exact noise j hj)
    have := hq i (x'.1 i) (e'.1 i) 0 M (((1 + R.unit) * growth R ^ (0 + 1) - 1) * (hi / lo) * M)
      _ _ 0 0 (by rw [x1 i]; exact N1) (by rw [x1 i, mul_assoc]; exact N2)
      (scale' es) (scale' ds) (by simp) (by simp)
    exact this

/-! ### Patches -/

theorem patch_uu_low (R : Rounding K) (hu1 : R.unit < 1) (F : ℕ → ℕ → ℕ → ι → Fuse)
    (G : ℕ → ℕ → ι → Fuse) {r : BSplinePatch K (ι → K)} {m n d e : ℕ} (hrd : r.Ready m n d e) (hd : d ≤ 1)
    (pu : r.perU = false) (pv : r.perV = false) (wv : FlWideOn R r.knotsV n e) {u v : K}
    (hu : BSplinePatch.InDom r.knotsU m d u) (hv : BSplinePatch.InDom r.knotsV n e v) :
    bsplinePatchDerivUU R F G r u v = ok 0 := by
  choose k hk _ using fun a => bspline_axis_arr R hu1 (F a) hrd.v wv (fun b => r.pts n a b) hv
  unfold bsplinePatchDerivUU bsplineIsoU
  rw [hrd.toValid.numU, ok_bind, hrd.isoV, tab_eq (g := k)]
  · rw [ok_bind, pure_eq, ok_bind]
    exact (C113_bspline_second_low R G (hrd.u.wf _ (by simp)) hd pu hu.2.2).1
  · intro j hj
    rw [rd_arr hj, ok_bind, ← hk j, ← pv]
    rfl

theorem patch_uu_low_exact {V : Type} [AddCommGroup V] [Module K V] {r : BSplinePatch K V} {m n d e : ℕ}
    (hrd : r.Ready m n d e) (hd : d ≤ 1) (pu : r.perU = false) (pv : r.perV = false)
    (wv : BSplinePatch.WideOn r.knotsV n e) {u v : K}
    (hu : BSplinePatch.InDom r.knotsU m d u) (hv : BSplinePatch.InDom r.knotsV n e v) :
    r.derivUU u v = ok 0 := by
  unfold BSplinePatch.derivUU
  rw [hrd.isoCurveU (v := v) (v' := v) wv (by simp [BSplinePatch.wrapOn, pv]) hv, ok_bind]
  exact second_low_exact (hrd.u.wf _ (by simp)) hd pu hu.2.2

/-- **C117**: the second derivative in `u` of a B-spline patch of degree at most one in `u` is zero,
without error. -/
theorem C117_bspline_patch_uu_low (R : Rounding K) (hu1 : R.unit < 1) (F : ℕ → ℕ → ℕ → ι → Fuse)
    (G : ℕ → ℕ → ι → Fuse) {p r : BSplinePatch K (ι → K)} {m n d e : ℕ} (hp : p.Valid m n d e) (hd : d ≤ 1)
    (hr : p.init = ok r) (pu : p.perU = false) (pv : p.perV = false)
    (wv : FlWideOn R p.knotsV n e) {u v : K}
    (hu : BSplinePatch.InDom p.knotsU m d u) (hv : BSplinePatch.InDom p.knotsV n e v) :
    bsplinePatchDerivUU R F G r u v = ok 0 ∧ r.derivUU u v = ok 0 := by
  have hrd := hp.ready hr
  rw [hp.init, ok.injEq] at hr
  subst hr
  exact ⟨patch_uu_low R hu1 F G hrd hd pu pv wv hu hv,
    patch_uu_low_exact hrd hd pu pv (FlWideOn.wide wv) hu hv⟩

theorem patch_vv_low (R : Rounding K) (hu1 : R.unit < 1) (F : ℕ → ℕ → ℕ → ι → Fuse)
    (G : ℕ → ℕ → ι → Fuse) {r : BSplinePatch K (ι → K)} {m n d e : ℕ} (hrd : r.Ready m n e d) (hd : d ≤ 1)
    (pu : r.perU = false) (pv : r.perV = false) (wu : FlWideOn R r.knotsU m e) {u v : K}
    (hu : BSplinePatch.InDom r.knotsU m e u) (hv : BSplinePatch.InDom r.knotsV n d v) :
    bsplinePatchDerivVV R F G r u v = ok 0 := by
  choose k hk _ using fun a => bspline_axis_arr R hu1 (F a) hrd.u wu (fun b => r.pts n b a) hu
  unfold bsplinePatchDerivVV bsplineIsoV
  rw [hrd.toValid.numV, ok_bind, hrd.isoU, tab_eq (g := k)]
  · rw [ok_bind, pure_eq, ok_bind]
    exact (C113_bspline_second_low R G (hrd.v.wf _ (by simp)) hd pv hv.2.2).1
  · intro j hj
    rw [rd_arr hj, ok_bind, ← hk j, ← pu]
    rfl

theorem patch_vv_low_exact {V : Type} [AddCommGroup V] [Module K V] {r : BSplinePatch K V} {m n d e : ℕ}
    (hrd : r.Ready m n e d) (hd : d ≤ 1) (pu : r.perU = false) (pv : r.perV = false)
    (wu : BSplinePatch.WideOn r.knotsU m e) {u v : K}
    (hu : BSplinePatch.InDom r.knotsU m e u) (hv : BSplinePatch.InDom r.knotsV n d v) :
    r.derivVV u v = ok 0 := by
  unfold BSplinePatch.derivVV
  rw [hrd.isoCurveV (u := u) (u' := u) wu (by simp [BSplinePatch.wrapOn, pu]) hu, ok_bind]
  exact second_low_exact (hrd.v.wf _ (by simp)) hd pv hv.2.2

/-- **C117**: the second derivative in `v` of a B-spline patch of degree at most one in `v` is zero,
without error. -/
theorem C117_bspline_patch_vv_low (R : Rounding K) (hu1 : R.unit < 1) (F : ℕ → ℕ → ℕ → ι → Fuse)
    (G : ℕ → ℕ → ι → Fuse) {p r : BSplinePatch K (ι → K)} {m n d e : ℕ} (hp : p.Valid m n e d) (hd : d ≤ 1)
    (hr : p.init = ok r) (pu : p.perU = false) (pv : p.perV = false)
    (wu : FlWideOn R p.knotsU m e) {u v : K}
    (hu : BSplinePatch.InDom p.knotsU m e u) (hv : BSplinePatch.InDom p.knotsV n d v) :
    bsplinePatchDerivVV R F G r u v = ok 0 ∧ r.derivVV u v = ok 0 := by
  have hrd := hp.ready hr
  rw [hp.init, ok.injEq] at hr
  subst hr
  exact ⟨patch_vv_low R hu1 F G hrd hd pu pv wu hu hv,
    patch_vv_low_exact hrd hd pu pv (FlWideOn.wide wu) hu hv⟩

/-- **C117**: the second derivative in `u` of a NURBS patch of degree one in `u`; it need not be zero.
The names are as in `C117_nurbs_patch_uu`. -/
theorem C117_nurbs_patch_uu_linear (R : Rounding K) (hu1 : R.unit < 1) (tol : K) (a b k : Fuses ι)
    (l f g : ι → Bool) {c : NURBSPatch K (ι → K)} (hinit : c.init = ok c) {m n e : ℕ}
    (hp : NValid c m n (0 + 1) e) (pu : c.perU = false) (pv : c.perV = false)
    (wu : FlWideOn R c.knotsU m (0 + 1)) (wv : FlWideOn R c.knotsV n e) {lo hi : K} (hlo : 0 < lo)
    (hwt : ∀ x ∈ c.weights, lo ≤ x ∧ x ≤ hi)
    (hcond : (growth R ^ (0 + 1 + e) - 1) * (hi / lo) < 1) (htol : tol < (1 - (growth R ^ (0 + 1 + e) - 1) * (hi / lo)) * lo) {u v : K}
    (hu : BSplinePatch.InDom c.knotsU m (0 + 1) u) (hv : BSplinePatch.InDom c.knotsV n e v)
    {S δ : K} (hδ : 0 < δ)
    (hgap : ∀ j, j + 1 < m → δ ≤ knot c.knotsU (j + 0 + 2) - knot c.knotsU (j + 1))
    (hS : ∀ a, a + 1 < m → ∀ b < n, |diffQuot c.knotsU 0 (fun j => gridPoint c.weights n j b) a| ≤ S) :
    ∃ q r, nurbsPatchDerivUU R tol a b k l f g (nurbsData c) c.weights u v = ok q ∧
      c.derivUU tol u v = ok r ∧ ∀ i M T, (∀ x ∈ c.grid, |x i| ≤ M) →
        (∀ a, a + 1 < m → ∀ b < n, |diffQuot c.knotsU 0 (fun j => gridPoint c.weights n j b * gridPoint c.grid n j b i) a| ≤ T) →
        |q i - r i| ≤ sameBound R ((growth R ^ (0 + 1 + e) - 1) * (hi / lo)) M
          (((1 + R.unit) * growth R ^ (0 + 1 + e) - 1) * (hi / lo) * M) (T / lo + M * (S / lo))
          (innerBound R ((growth R ^ (0 + 1 + e) - 1) * (hi / lo)) M
            (((1 + R.unit) * growth R ^ (0 + 1 + e) - 1) * (hi / lo) * M) (T / lo)
            (splineErr R 0 T (gridNoise (0 + 1) ((1 + R.unit) * growth R ^ e) (M * hi) δ) / lo)
            (S / lo) (splineErr R 0 S (gridNoise (0 + 1) (growth R ^ e) hi δ) / lo))
          (S / lo) (splineErr R 0 S (gridNoise (0 + 1) (growth R ^ e) hi δ) / lo) 0 0 0 0 := by
  have Sy := (sync_of_init hinit).1
  obtain ⟨h, eh, hrd, i2, i3, i6, i7, i8, i9, hn, hs⟩ := nurbs_patch_hom R Sy hp
  have hrd' : c.hom.Ready m n (0 + 1) e := (hp.hom Sy).ready Sy.init
  obtain ⟨x, ex, hWlo, en, HN⟩ := nurbs_patch_value R hu1 a.iso a.curve hp pu pv wu wv hlo hwt hu hv hrd
    i2 i3 i6 i7 hn hs
  have exx := nurbs_patch_exact Sy hp pu pv (FlWideOn.wide wu) (FlWideOn.wide wv) hu hv
  obtain ⟨du, D, E, hdu, edu, HE, HD⟩ := nurbs_first_u R hu1 b.iso b.curve Sy hp pu pv wu wv hlo hwt
    hu hv hδ hgap hrd i2 i3 i6 i7 i8 i9 hn hs
  have hdd := patch_uu_low R hu1 k.iso k.curve hrd le_rfl (by rw [i6, pu]) (by rw [i7, pv])
    (by rw [i3]; exact wv) (by rw [i2]; exact hu) (by rw [i3]; exact hv)
  have edd := patch_uu_low_exact hrd' le_rfl (by rw [Sy.perU, pu]) (by rw [Sy.perV, pv])
    (by rw [Sy.knotsV]; exact FlWideOn.wide wv) (by rw [Sy.knotsU]; exact hu) (by rw [Sy.knotsV]; exact hv)
  set W := bsum2 (0 + 1) e c.knotsU c.knotsV m n (gridPoint c.weights n) u v with hW
  set N : ι → K := fun i => bsum2 (0 + 1) e c.knotsU c.knotsV m n
    (fun a b => gridPoint c.weights n a b * gridPoint c.grid n a b i) u v with hN
  set β := (growth R ^ (0 + 1 + e) - 1) * (hi / lo) with hβ
  have hWpos : 0 < W := lt_of_lt_of_le hlo hWlo
  have β0 : 0 ≤ β := by
    have := (abs_nonneg _).trans en
    exact nonneg_of_mul_nonneg_left this hWpos
  have t1 : tol < (1 - β) * W := lt_of_lt_of_le htol (mul_le_mul_of_nonneg_left hWlo (by linarith))
  have t2 : tol < W := by
    refine lt_of_lt_of_le t1 ?_
    have := mul_nonneg β0 hWpos.le
    linarith
  obtain ⟨bE, dE⟩ := HE S hS
  have scale : ∀ {y z : K}, |y| ≤ z → |y| ≤ z / lo * W := fun h => scale_lo hlo hWlo h
  obtain ⟨q, eq, hq⟩ := sameQuotient_err R f g (su := innerDeriv R l x du) (dd := 0) (tol := tol)
    (E2 := 0) (S2 := 0) (y2 := 0) hWpos en hcond t1 (scale bE) (scale dE) (by simp) (by simp)
  refine ⟨q, W⁻¹ • (0 - (2 * E) • (W⁻¹ • (D - W⁻¹ • (E • N))) - (0 : K) • (W⁻¹ • N)), ?_, ?_,
    fun i M T hM hT => ?_⟩
  · unfold nurbsPatchDerivUU
    rw [eh, ok_bind, ex, ok_bind, hdu, ok_bind, hdd, ok_bind, eq]
  · unfold NURBSPatch.derivUU
    rw [Sy.validate, ok_bind, exx, ok_bind, edu, ok_bind, edd, ok_bind]
    unfold quotSame quot0 quot1
    rw [if_neg (not_le.2 t2), assert_true hWpos.ne', ok_bind, pure_eq, ok_bind, ok_bind, pure_eq, ok_bind,
      pure_eq]
    rfl
  · obtain ⟨N1, N2⟩ := HN i M hM
    obtain ⟨bD, dD⟩ := HD i M T hM hT
    have hU := quot_abs hWpos (scale bE) (scale bD) N1
    have h1 := innerDeriv_err R l hWpos en hcond (scale bE) (scale dE) N1 N2 (scale bD) (scale dD)
    exact hq i (N i) _ 0 M _ _ _ 0 0 N1 N2 hU h1 (by simp) (by simp)

/-- **C117**: the second derivative in `v` of a NURBS patch of degree one in `v`; it need not be zero.
The names are as in `C117_nurbs_patch_vv`. -/
theorem C117_nurbs_patch_vv_linear (R : Rounding K) (hu1 : R.unit < 1) (tol : K) (a b k : Fuses ι)
    (l f g : ι → Bool) {c : NURBSPatch K (ι → K)} (hinit : c.init = ok c) {m n e : ℕ}
    (hp : NValid c m n e (0 + 1)) (pu : c.perU = false) (pv : c.perV = false)
    (wu : FlWideOn R c.knotsU m e) (wv : FlWideOn R c.knotsV n (0 + 1)) {lo hi : K} (hlo : 0 < lo)
    (hwt : ∀ x ∈ c.weights, lo ≤ x ∧ x ≤ hi)
    (hcond : (growth R ^ (e + (0 + 1)) - 1) * (hi / lo) < 1) (htol : tol < (1 - (growth R ^ (e + (0 + 1)) - 1) * (hi / lo)) * lo) {u v : K}
    (hu : BSplinePatch.InDom c.knotsU m e u) (hv : BSplinePatch.InDom c.knotsV n (0 + 1) v)
    {S δ : K} (hδ : 0 < δ)
    (hgap : ∀ j, j + 1 < n → δ ≤ knot c.knotsV (j + 0 + 2) - knot c.knotsV (j + 1))
    (hS : ∀ a, a + 1 < n → ∀ b < m, |diffQuot c.knotsV 0 (fun j => gridPoint c.weights n b j) a| ≤ S) :
    ∃ q r, nurbsPatchDerivVV R tol a b k l f g (nurbsData c) c.weights u v = ok q ∧
      c.derivVV tol u v = ok r ∧ ∀ i M T, (∀ x ∈ c.grid, |x i| ≤ M) →
        (∀ a, a + 1 < n → ∀ b < m, |diffQuot c.knotsV 0 (fun j => gridPoint c.weights n b j * gridPoint c.grid n b j i) a| ≤ T) →
        |q i - r i| ≤ sameBound R ((growth R ^ (e + (0 + 1)) - 1) * (hi / lo)) M
          (((1 + R.unit) * growth R ^ (e + (0 + 1)) - 1) * (hi / lo) * M) (T / lo + M * (S / lo))
          (innerBound R ((growth R ^ (e + (0 + 1)) - 1) * (hi / lo)) M
            (((1 + R.unit) * growth R ^ (e + (0 + 1)) - 1) * (hi / lo) * M) (T / lo)
            (splineErr R 0 T (gridNoise (0 + 1) ((1 + R.unit) * growth R ^ e) (M * hi) δ) / lo)
            (S / lo) (splineErr R 0 S (gridNoise (0 + 1) (growth R ^ e) hi δ) / lo))
          (S / lo) (splineErr R 0 S (gridNoise (0 + 1) (growth R ^ e) hi δ) / lo) 0 0 0 0 := by
  have Sy := (sync_of_init hinit).1
  obtain ⟨h, eh, hrd, i2, i3, i6, i7, i8, i9, hn, hs⟩ := nurbs_patch_hom R Sy hp
  have hrd' : c.hom.Ready m n e (0 + 1) := (hp.hom Sy).ready Sy.init
  obtain ⟨x, ex, hWlo, en, HN⟩ := nurbs_patch_value R hu1 a.iso a.curve hp pu pv wu wv hlo hwt hu hv hrd
    i2 i3 i6 i7 hn hs
  have exx := nurbs_patch_exact Sy hp pu pv (FlWideOn.wide wu) (FlWideOn.wide wv) hu hv
  obtain ⟨du, D, E, hdu, edu, HE, HD⟩ := nurbs_first_v R hu1 b.iso b.curve Sy hp pu pv wu wv hlo hwt
    hu hv hδ hgap hrd i2 i3 i6 i7 i8 i9 hn hs
  have hdd := patch_vv_low R hu1 k.iso k.curve hrd le_rfl (by rw [i6, pu]) (by rw [i7, pv])
    (by rw [i2]; exact wu) (by rw [i2]; exact hu) (by rw [i3]; exact hv)
  have edd := patch_vv_low_exact hrd' le_rfl (by rw [Sy.perU, pu]) (by rw [Sy.perV, pv])
    (by rw [Sy.knotsU]; exact FlWideOn.wide wu) (by rw [Sy.knotsU]; exact hu) (by rw [Sy.knotsV]; exact hv)
  set W := bsum2 e (0 + 1) c.knotsU c.knotsV m n (gridPoint c.weights n) u v with hW
  set N : ι → K := fun i => bsum2 e (0 + 1) c.knotsU c.knotsV m n
    (fun a b => gridPoint c.weights n a b * gridPoint c.grid n a b i) u v with hN
  set β := (growth R ^ (e + (0 + 1)) - 1) * (hi / lo) with hβ
  have hWpos : 0 < W := lt_of_lt_of_le hlo hWlo
  have β0 : 0 ≤ β := by
    have := (abs_nonneg _).trans en
    exact nonneg_of_mul_nonneg_left this hWpos
  have t1 : tol < (1 - β) * W := lt_of_lt_of_le htol (mul_le_mul_of_nonneg_left hWlo (by linarith))
  have t2 : tol < W := by
    refine lt_of_lt_of_le t1 ?_
    have := mul_nonneg β0 hWpos.le
    linarith
  obtain ⟨bE, dE⟩ := HE S hS
  have scale : ∀ {y z : K}, |y| ≤ z → |y| ≤ z / lo * W := fun h => scale_lo hlo hWlo h
  obtain ⟨q, eq, hq⟩ := sameQuotient_err R f g (su := innerDeriv R l x du) (dd := 0) (tol := tol)
    (E2 := 0) (S2 := 0) (y2 := 0) hWpos en hcond t1 (scale bE) (scale dE) (by simp) (by simp)
  refine ⟨q, W⁻¹ • (0 - (2 * E) • (W⁻¹ • (D - W⁻¹ • (E • N))) - (0 : K) • (W⁻¹ • N)), ?_, ?_,
    fun i M T hM hT => ?_⟩
  · unfold nurbsPatchDerivVV
    rw [eh, ok_bind, ex, ok_bind, hdu, ok_bind, hdd, ok_bind, eq]
  · unfold NURBSPatch.derivVV
    rw [Sy.validate, ok_bind, exx, ok_bind, edu, ok_bind, edd, ok_bind]
    unfold quotSame quot0 quot1
    rw [if_neg (not_le.2 t2), assert_true hWpos.ne', ok_bind, pure_eq, ok_bind, ok_bind, pure_eq, ok_bind,
      pure_eq]
    rfl
  · obtain ⟨N1, N2⟩ := HN i M hM
    obtain ⟨bD, dD⟩ := HD i M T hM hT
    have hU := quot_abs hWpos (scale bE) (scale bD) N1
    have h1 := innerDeriv_err R l hWpos en hcond (scale bE) (scale dE) N1 N2 (scale bD) (scale dD)
    exact hq i (N i) _ 0 M _ _ _ 0 0 N1 N2 hU h1 (by simp) (by simp)

/-! ### Mixed derivatives of degree zero -/

/-- The rounded evaluation of the zero patch is zero everywhere. -/
theorem zeroPatch_rounded (R : Rounding K) (F : ℕ → ℕ → ℕ → ι → Fuse) (G : ℕ → ℕ → ι → Fuse) :
    ∃ z, BSplinePatch.zeroPatch K (ι → K) = ok z ∧ z.Ready 1 1 0 0 ∧
      ∀ u v, bsplinePatchEvaluate R F G z u v = ok 0 := by
  have ha : BSplinePatch.Axis ([0, 1] : List K) 0 (-1) 1 0 :=
    ⟨rfl, rfl, Or.inl (by decide), le_rfl, by simp, by simp [knot]⟩
  have hv : BSplinePatch.Valid (BSplinePatch.mk [0] [0, 1] [0, 1] 0 0 false false (-1) (-1) [] [] :
      BSplinePatch K (ι → K)) 1 1 0 0 := ⟨ha, ha, rfl⟩
  obtain ⟨z, e, hr, e1, e2, e3, e4, e5, e6, e7, e8, e9⟩ := hv.init_ready
  have key : ∀ (H : ℕ → ℕ → ι → Fuse) (P : ℕ → ι → K) (t : K), P 0 = 0 →
      bsplineEvaluate R H (BSpline.mk (arr 1 P) [0, 1] false none) t = ok 0 := by
    intro H P t hP
    have hwf : BSpline.WellFormed (BSpline.mk (arr 1 P) [0, 1] false none : BSpline K (ι → K)) 0 :=
      ⟨rfl, Or.inl rfl, by simp, by simp, by simp [knot]⟩
    have hf : BSpline.FirstSpan (BSpline.mk (arr 1 P) [0, 1] false none : BSpline K (ι → K)) 0 := by
      simp [BSpline.FirstSpan, knot]
    obtain ⟨k, a1, a2, a3, a4, -⟩ := BSpline.locateSpan_spec hwf t (Or.inl hf)
    have hk : k = 0 := by simp at a3; omega
    subst hk
    unfold bsplineEvaluate
    rw [BSpline.validate_ok hwf, ok_bind, show bsplineWrap R (BSpline.mk (arr 1 P) [0, 1] false none) t = ok t
      by simp [bsplineWrap], ok_bind, a1, ok_bind, BSpline.degree_eq hwf, assert_true (by omega), ok_bind]
    simp only [Int.toNat_natCast]
    rw [BSpline.spanCtrl_eq _ 0 0 le_rfl (by simp), ok_bind]
    simp [bsplineDeBoor, rd, arr, BSpline.ctrlAt, hP]
  have hg : ∀ i j, z.pts 1 i j = 0 := by
    intro i j
    unfold BSplinePatch.pts gridPoint
    rw [e1]
    rcases i * 1 + j with _ | k <;> simp
  refine ⟨z, e, hr, fun u v => ?_⟩
  have hs : BSplinePatch.staticDeg z.sU = none ∧ BSplinePatch.staticDeg z.sV = none := by
    rw [e8, e9]; exact ⟨rfl, rfl⟩
  unfold bsplinePatchEvaluate
  rw [e4, e5, if_neg (lt_irrefl _)]
  unfold bsplineIsoU
  rw [hr.toValid.numU, ok_bind, hr.isoV, tab_eq (g := fun _ => (0 : ι → K)), ok_bind, pure_eq, ok_bind,
    e2, e6, hs.1]
  · exact key _ _ u rfl
  · intro i hi
    rw [rd_arr hi, ok_bind]
    unfold BSplinePatch.rowV
    rw [e3, e7, hs.2]
    exact key _ _ v (hg i 0)

/-- **C118**: the mixed second derivative of a B-spline patch of degree zero in `u` or `v` is zero
everywhere, without error. -/
theorem C118_bspline_patch_uv_constant (R : Rounding K) (bad : ι → K) (F : ℕ → ℕ → ℕ → ι → Fuse)
    (G : ℕ → ℕ → ι → Fuse) {p r : BSplinePatch K (ι → K)} {m n d e : ℕ} (hp : p.Valid m n d e)
    (h0 : d = 0 ∨ e = 0) (hr : p.init = ok r) (u v : K) :
    bsplinePatchDerivUV R bad F G r u v = ok 0 ∧ r.derivUV bad u v = ok 0 := by
  have hrd := hp.ready hr
  refine ⟨?_, C64_uv_degree0 bad hrd.toValid h0 u v⟩
  obtain ⟨z, ez, hz, H⟩ := zeroPatch_rounded R F G
  have zdv : ∀ {q : BSplinePatch K (ι → K)} {m n d : ℕ}, q.Valid m n d 0 →
      bsplineDvPatch R bad q = ok z := by
    intro q m n d h
    unfold bsplineDvPatch
    rw [h.degreeU, ok_bind, h.degreeV, ok_bind, if_pos rfl, ez]
  unfold bsplinePatchDerivUV
  cases d with
  | zero =>
    have : bsplineDuPatch R bad r = ok z := by
      unfold bsplineDuPatch
      rw [hrd.toValid.degreeU, ok_bind, hrd.toValid.degreeV, ok_bind, if_pos rfl, ez]
    rw [this, ok_bind, zdv hz.toValid, ok_bind, H]
  | succ d =>
    have he : e = 0 := by omega
    subst he
    obtain ⟨q, e, hq, -⟩ := bsplineDuPatch_eq R bad hrd.toValid
    rw [e, ok_bind, zdv hq.toValid, ok_bind, H]

end General

/-! ### Concrete cases -/

section Examples

/-- A NURBS patch of degrees one and one with three times three control points and weights from `0.1`
to `2`. -/
def someLinearGrid : NURBSPatch ℚ (Fin 1 → ℚ) :=
  { grid := someCtrl ++ someCtrl ++ someCtrl, weights := [tenth, 1, 2, 1, 1, 1, 2, tenth, 1],
    knotsU := [-1, -1, tenth, 3, 3], knotsV := [0, 0, 1, 2, 2], degU := 1, degV := 1,
    hom := BSplinePatch.mk [] [] [] 0 0 false false (-1) (-1) [] [] }

theorem someLinearGrid_valid : NValid someLinearGrid 3 3 1 1 :=
  ⟨⟨rfl, rfl, Or.inl (by decide), by decide, by decide +kernel, by decide +kernel⟩,
    ⟨rfl, rfl, Or.inl (by decide), by decide, by decide +kernel, by decide +kernel⟩, rfl, rfl⟩

/-- The hypotheses of `C117_nurbs_patch_uu_linear` and `C117_nurbs_patch_vv_linear`, and those of
`C117_bspline_patch_uu_low` and `C117_bspline_patch_vv_low` on the knots, in double precision. -/
example : (∃ c, someLinearGrid.init = ok c ∧ c.init = ok c ∧ NValid c 3 3 (0 + 1) (0 + 1) ∧
      c.perU = false ∧ c.perV = false ∧ c.knotsU = someLinearGrid.knotsU ∧
      c.knotsV = someLinearGrid.knotsV ∧ c.weights = someLinearGrid.weights ∧ c.grid = someLinearGrid.grid) ∧
    FlWideOn double someLinearGrid.knotsU 3 1 ∧ FlWideOn double someLinearGrid.knotsV 3 1 ∧
    (∀ x ∈ someLinearGrid.weights, tenth ≤ x ∧ x ≤ 2) ∧
    (growth double ^ (0 + 1 + 1) - 1) * (2 / tenth) < 1 ∧
    1 / 2 ^ 52 < (1 - (growth double ^ (0 + 1 + 1) - 1) * (2 / tenth)) * tenth ∧
    BSplinePatch.InDom someLinearGrid.knotsU 3 1 2 ∧ BSplinePatch.InDom someLinearGrid.knotsV 3 1 (1 / 3) ∧
    (∀ j, j + 1 < 3 → 1 ≤ knot someLinearGrid.knotsU (j + 0 + 2) - knot someLinearGrid.knotsU (j + 1)) ∧
    (∀ j, j + 1 < 3 → 1 ≤ knot someLinearGrid.knotsV (j + 0 + 2) - knot someLinearGrid.knotsV (j + 1)) ∧
    (∀ a, a + 1 < 3 → ∀ b < 3,
      |diffQuot someLinearGrid.knotsU 0 (fun j => gridPoint someLinearGrid.weights 3 j b) a| ≤ 4) ∧
    (∀ a, a + 1 < 3 → ∀ b < 3,
      |diffQuot someLinearGrid.knotsV 0 (fun j => gridPoint someLinearGrid.weights 3 b j) a| ≤ 4) := by
  refine ⟨?_, ?_, ?_, by decide +kernel, by decide +kernel, by decide +kernel,
    ⟨by decide +kernel, by decide +kernel,
      Or.inl (by show knot someLinearGrid.knotsU 1 < knot someLinearGrid.knotsU 2; decide +kernel)⟩,
    ⟨by decide +kernel, by decide +kernel,
      Or.inl (by show knot someLinearGrid.knotsV 1 < knot someLinearGrid.knotsV 2; decide +kernel)⟩,
    ?_, ?_, ?_, ?_⟩
  · obtain ⟨c, e, e', hc⟩ := C63_nurbs_init someLinearGrid_valid
    refine ⟨c, e, e', ?_⟩
    rw [hc]
    exact ⟨⟨someLinearGrid_valid.u, someLinearGrid_valid.v, rfl, rfl⟩, rfl, rfl, rfl, rfl, rfl, rfl⟩
  · intro i h1 h2 _
    interval_cases i <;> decide +kernel
  · intro i h1 h2 _
    interval_cases i <;> decide +kernel
  · intro a ha
    have : a < 2 := by omega
    interval_cases a <;> decide +kernel
  · intro a ha
    have : a < 2 := by omega
    interval_cases a <;> decide +kernel
  · intro a ha b hb
    have : a < 2 := by omega
    interval_cases a <;> interval_cases b <;> decide +kernel
  · intro a ha b hb
    have : a < 2 := by omega
    interval_cases a <;> interval_cases b <;> decide +kernel

/-- The second derivatives of this patch are not zero, and rounding shows. -/
example : (someLinearGrid.init >>= fun c => c.derivUU (1 / 2 ^ 52) (2 : ℚ) (1 / 3) >>= fun q => ok (q 0)) ≠ ok 0 ∧
    ((nurbsPatchDerivUU double (1 / 2 ^ 52) ⟨fun _ _ _ _ => .none, fun _ _ _ => .none⟩
      ⟨fun _ _ _ _ => .none, fun _ _ _ => .none⟩ ⟨fun _ _ _ _ => .none, fun _ _ _ => .none⟩
      (fun _ => false) (fun _ => false) (fun _ => false) (nurbsData someLinearGrid) someLinearGrid.weights
      2 (1 / 3) >>= fun q => ok (q 0))
    ≠ (someLinearGrid.init >>= fun c => c.derivUU (1 / 2 ^ 52) (2 : ℚ) (1 / 3) >>= fun q => ok (q 0))) := by
  decide +kernel

/-- The hypotheses of `C113_bspline_second_low`. -/
example : BSpline.WellFormed (BSpline.mk someCtrl ([0, 0, 1, 2, 2] : List ℚ) false none) 1 ∧
    BSpline.FirstSpan (BSpline.mk someCtrl ([0, 0, 1, 2, 2] : List ℚ) false none) 1 := by
  refine ⟨⟨by decide, by decide, by decide, by decide +kernel, by decide +kernel⟩, ?_⟩
  show knot [0, 0, 1, 2, 2] 1 < knot [0, 0, 1, 2, 2] 2
  decide +kernel

/-- The hypotheses of `C113_nurbs_second_linear` in double precision; the second derivative is not zero. -/
example : someNurbs.init = ok someNurbs ∧ BSpline.WellFormed someNurbs.base (0 + 1) ∧
    FlWide double someNurbs.base 1 ∧ BSpline.FirstSpan someNurbs.base 1 ∧
    (∀ x ∈ someNurbs.weights, tenth ≤ x ∧ x ≤ 2) ∧ (growth double ^ 1 - 1) * (2 / tenth) < 1 ∧
    (∀ j, j + 1 < 3 → 1 ≤ knot someNurbs.base.knots (j + 0 + 2) - knot someNurbs.base.knots (j + 1)) ∧
    (∀ j, j + 1 < 3 → |diffQuot someNurbs.base.knots 0 (fun j => someNurbs.weights.getD j 0) j| ≤ 1) ∧
    (someNurbs.evaluate2ndDerivative (1 / 2) >>= fun q => ok (q 0)) ≠ ok 0 := by
  refine ⟨?_, ⟨by decide +kernel, by decide, by decide, by decide +kernel, by decide +kernel⟩, ?_, ?_,
    by decide +kernel, by decide +kernel, ?_, ?_, by decide +kernel⟩
  · exact NURBS.Sync.init ⟨rfl, rfl⟩
  · intro i h1 h2 h3
    have : i < 3 := h2
    interval_cases i <;> decide +kernel
  · show knot someNurbs.base.knots 1 < knot someNurbs.base.knots 2
    decide +kernel
  · intro a ha
    have : a < 2 := by omega
    interval_cases a <;> decide +kernel
  · intro a ha
    have : a < 2 := by omega
    interval_cases a <;> decide +kernel

/-- The hypotheses of `C118_bspline_patch_uv_constant`. -/
example : BSplinePatch.Valid (BSplinePatch.mk someCtrl ([0, 1, 2, 3] : List ℚ) [0, 1] 0 0 false false
    (-1) (-1) [] []) 3 1 0 0 :=
  ⟨⟨rfl, rfl, Or.inl (by decide), by decide, by decide +kernel, by decide +kernel⟩,
    ⟨rfl, rfl, Or.inl (by decide), by decide, by decide +kernel, by decide +kernel⟩, rfl⟩

end Examples

end NS.Fl
