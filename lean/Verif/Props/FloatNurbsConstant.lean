import Verif.Props.FloatNurbsLow

/-!
# Properties C116, C117 and C118: derivatives of NURBS patches in a direction of degree zero
-/

set_option linter.unusedSectionVars false

namespace NS.Fl

open Outcome Finset Spec NS.Props

section General

variable {K ι : Type} [Field K] [LinearOrder K] [IsStrictOrderedRing K] [FloorRing K]

theorem rnd_zero (R : Rounding K) : R.rnd 0 = 0 := by
  have := R.near 0
  simpa using this

theorem first_low (R : Rounding K) (F : ℕ → ℕ → ι → Fuse) {c : BSpline K (ι → K)}
    (hc : BSpline.WellFormed c 0) (hper : c.periodic = false) {t : K}
    (hf : BSpline.FirstSpan c 0 ∨ knot c.knots 0 < t) : bsplineDerivative R F c t = ok 0 := by
  obtain ⟨k, hk, -⟩ := BSpline.locateSpan_spec hc t hf
  unfold bsplineDerivative
  rw [BSpline.validate_ok hc, ok_bind, show bsplineWrap R c t = ok t by simp [bsplineWrap, hper], ok_bind,
    hk, ok_bind, BSpline.degree_eq hc, assert_true (by omega), ok_bind]
  simp

theorem first_low_exact {V : Type} [AddCommGroup V] [Module K V] {c : BSpline K V}
    (hc : BSpline.WellFormed c 0) (hper : c.periodic = false) {t : K}
    (hf : BSpline.FirstSpan c 0 ∨ knot c.knots 0 < t) : c.evaluateDerivative t = ok 0 := by
  obtain ⟨k, hk, -⟩ := BSpline.locateSpan_spec hc t hf
  unfold BSpline.evaluateDerivative
  rw [BSpline.validate_ok hc, ok_bind, show c.wrap t = ok t by simp [BSpline.wrap, hper], ok_bind,
    hk, ok_bind, BSpline.degree_eq hc, assert_true (by omega), ok_bind]
  simp

/-! ### The quotients at zero -/

theorem derivQuotient_zero (R : Rounding K) {x : Option ι → K} (h : x none ≠ 0) :
    derivQuotient R x 0 = ok 0 := by
  unfold derivQuotient
  rw [assert_true h, ok_bind, pure_eq]
  refine congrArg ok (funext fun i => ?_)
  simp [rnd_zero]

theorem innerDeriv_zero (R : Rounding K) (k : ι → Bool) (x : Option ι → K) : innerDeriv R k x 0 = 0 := by
  funext i
  unfold innerDeriv subMul
  split <;> simp [rnd_zero]

theorem sameQuotient_zero (R : Rounding K) (tol : K) (f g : ι → Bool) {x : Option ι → K} (h : x none ≠ 0) :
    sameQuotient R tol f g x 0 0 (ok (0 : ι → K)) = ok 0 := by
  unfold sameQuotient
  split
  · rfl
  · rw [assert_true h, ok_bind, ok_bind, pure_eq]
    refine congrArg ok (funext fun i => ?_)
    unfold subMul
    split <;> split <;> simp [rnd_zero]

theorem mixedQuotient_zero_u (R : Rounding K) (tol : K) (f g h : ι → Bool) {x : Option ι → K}
    (hx : x none ≠ 0) (d : Option ι → K) (s : ι → K) :
    mixedQuotient R tol f g h x 0 d 0 (ok (0 : ι → K)) (ok s) = ok 0 := by
  unfold mixedQuotient
  split
  · rfl
  · rw [assert_true hx, ok_bind, ok_bind, ok_bind, pure_eq]
    refine congrArg ok (funext fun i => ?_)
    unfold subMul
    split <;> split <;> split <;> simp [rnd_zero]

theorem mixedQuotient_zero_v (R : Rounding K) (tol : K) (f g h : ι → Bool) {x : Option ι → K}
    (hx : x none ≠ 0) (d : Option ι → K) (s : ι → K) :
    mixedQuotient R tol f g h x d 0 0 (ok s) (ok (0 : ι → K)) = ok 0 := by
  unfold mixedQuotient
  split
  · rfl
  · rw [assert_true hx, ok_bind, ok_bind, ok_bind, pure_eq]
    refine congrArg ok (funext fun i => ?_)
    unfold subMul
    split <;> split <;> split <;> simp [rnd_zero]

/-! ### Direction `u` -/

theorem patch_u_low (R : Rounding K) (hu1 : R.unit < 1) (F : ℕ → ℕ → ℕ → ι → Fuse)
    (G : ℕ → ℕ → ι → Fuse) {r : BSplinePatch K (ι → K)} {m n e : ℕ} (hrd : r.Ready m n 0 e)
    (pu : r.perU = false) (pv : r.perV = false) (wv : FlWideOn R r.knotsV n e) {u v : K}
    (hu : BSplinePatch.InDom r.knotsU m 0 u) (hv : BSplinePatch.InDom r.knotsV n e v) :
    bsplinePatchDerivU R F G r u v = ok 0 := by
  choose k hk _ using fun a => bspline_axis_arr R hu1 (F a) hrd.v wv (fun b => r.pts n a b) hv
  unfold bsplinePatchDerivU bsplineIsoU
  rw [hrd.toValid.numU, ok_bind, hrd.isoV, tab_eq (g := k)]
  · rw [ok_bind, pure_eq, ok_bind]
    exact first_low R G (hrd.u.wf _ (by simp)) pu hu.2.2
  · intro j hj
    rw [rd_arr hj, ok_bind, ← hk j, ← pv]
    rfl

theorem patch_u_low_exact {V : Type} [AddCommGroup V] [Module K V] {r : BSplinePatch K V} {m n e : ℕ}
    (hrd : r.Ready m n 0 e) (pu : r.perU = false) (pv : r.perV = false)
    (wv : BSplinePatch.WideOn r.knotsV n e) {u v : K}
    (hu : BSplinePatch.InDom r.knotsU m 0 u) (hv : BSplinePatch.InDom r.knotsV n e v) :
    r.derivU u v = ok 0 := by
  unfold BSplinePatch.derivU
  rw [hrd.isoCurveU (v := v) (v' := v) wv (by simp [BSplinePatch.wrapOn, pv]) hv, ok_bind]
  exact first_low_exact (hrd.u.wf _ (by simp)) pu hu.2.2

/-- The derivative in `u` returns. -/
theorem patch_u_returns (R : Rounding K) (hu1 : R.unit < 1) (F : ℕ → ℕ → ℕ → ι → Fuse)
    (G : ℕ → ℕ → ι → Fuse) {r : BSplinePatch K (ι → K)} {m n d e : ℕ} (hrd : r.Ready m n d e)
    (pu : r.perU = false) (pv : r.perV = false) (wu : FlWideOn R r.knotsU m d)
    (wv : FlWideOn R r.knotsV n e) {u v : K}
    (hu : BSplinePatch.InDom r.knotsU m d u) (hv : BSplinePatch.InDom r.knotsV n e v) :
    ∃ q, bsplinePatchDerivU R F G r u v = ok q := by
  cases d with
  | zero => exact ⟨0, patch_u_low R hu1 F G hrd pu pv wv hu hv⟩
  | succ d =>
    choose k hk _ using fun a => bspline_axis_arr R hu1 (F a) hrd.v wv (fun b => r.pts n a b) hv
    have hwf := hrd.u.wf r.perU (c := arr m k) (by simp)
    obtain ⟨q, -, hq, -⟩ := bspline_deriv_axis R hu1 G hwf pu
      (by intro j j1 j2 j3; exact wu j j1 (by simpa using j2) j3) (arr m k) rfl
      (t := u) hu.2.2 hu.1 (by simpa using hu.2.1)
    refine ⟨q, ?_⟩
    unfold bsplinePatchDerivU bsplineIsoU
    rw [hrd.toValid.numU, ok_bind, hrd.isoV, tab_eq (g := k)]
    · rw [ok_bind, pure_eq, ok_bind]
      exact hq
    · intro j hj
      rw [rd_arr hj, ok_bind, ← hk j, ← pv]
      rfl

theorem patch_u_returns_exact {V : Type} [AddCommGroup V] [Module K V] {r : BSplinePatch K V} {m n d e : ℕ}
    (hrd : r.Ready m n d e) (pu : r.perU = false) (pv : r.perV = false)
    (wu : BSplinePatch.WideOn r.knotsU m d)
    (wv : BSplinePatch.WideOn r.knotsV n e) {u v : K}
    (hu : BSplinePatch.InDom r.knotsU m d u) (hv : BSplinePatch.InDom r.knotsV n e v) :
    ∃ q, r.derivU u v = ok q := by
  unfold BSplinePatch.derivU
  rw [hrd.isoCurveU (v := v) (v' := v) wv (by simp [BSplinePatch.wrapOn, pv]) hv, ok_bind]
  have hwf := hrd.u.wf r.perU (c := arr m (fun a => BSplinePatch.bsum e r.knotsV n
    (fun b => r.pts n a b) v)) (by simp)
  obtain ⟨k, Q, hk, -⟩ := BSpline.exists_atSpan hwf u hu.2.2 hu.1 (by simpa using hu.2.1)
  exact ⟨_, BSpline.evaluateDerivative_of_span hwf
    (by intro j j1 j2 j3; exact wu j j1 (by simpa using j2) j3)
    (t := u) (t' := u) (by simp [BSpline.wrap, pu]) hk⟩

/-- **C116**, **C117**: the first and second derivative in `u` of a NURBS patch of degree zero in `u` are
zero, without error. -/
theorem C117_nurbs_patch_u_constant (R : Rounding K) (hu1 : R.unit < 1) (tol : K) (a b k : Fuses ι)
    (l f g : ι → Bool) {c : NURBSPatch K (ι → K)} (hinit : c.init = ok c) {m n e : ℕ}
    (hp : NValid c m n 0 e) (pu : c.perU = false) (pv : c.perV = false)
    (wu : FlWideOn R c.knotsU m 0) (wv : FlWideOn R c.knotsV n e) {lo hi : K} (hlo : 0 < lo)
    (hwt : ∀ x ∈ c.weights, lo ≤ x ∧ x ≤ hi) (hcond : (growth R ^ (0 + e) - 1) * (hi / lo) < 1) {u v : K}
    (hu : BSplinePatch.InDom c.knotsU m 0 u) (hv : BSplinePatch.InDom c.knotsV n e v) :
    nurbsPatchDerivU R a.iso b.iso a.curve b.curve (nurbsData c) c.weights u v = ok 0 ∧
      c.derivU u v = ok 0 ∧
      nurbsPatchDerivUU R tol a b k l f g (nurbsData c) c.weights u v = ok 0 ∧
      c.derivUU tol u v = ok 0 := by
  have Sy := (sync_of_init hinit).1
  obtain ⟨h, eh, hrd, i2, i3, i6, i7, i8, i9, hn, hs⟩ := nurbs_patch_hom R Sy hp
  have hrd' : c.hom.Ready m n 0 e := (hp.hom Sy).ready Sy.init
  obtain ⟨x, ex, hWlo, en, HN⟩ := nurbs_patch_value R hu1 a.iso a.curve hp pu pv wu wv hlo hwt hu hv hrd
    i2 i3 i6 i7 hn hs
  have exx := nurbs_patch_exact Sy hp pu pv (FlWideOn.wide wu) (FlWideOn.wide wv) hu hv
  have hd1 := patch_u_low R hu1 b.iso b.curve hrd (by rw [i6, pu]) (by rw [i7, pv])
    (by rw [i3]; exact wv) (by rw [i2]; exact hu) (by rw [i3]; exact hv)
  have ed1 := patch_u_low_exact hrd' (by rw [Sy.perU, pu]) (by rw [Sy.perV, pv])
    (by rw [Sy.knotsV]; exact FlWideOn.wide wv) (by rw [Sy.knotsU]; exact hu) (by rw [Sy.knotsV]; exact hv)
  have hdd := patch_uu_low R hu1 k.iso k.curve hrd (by omega) (by rw [i6, pu]) (by rw [i7, pv])
    (by rw [i3]; exact wv) (by rw [i2]; exact hu) (by rw [i3]; exact hv)
  have edd := patch_uu_low_exact hrd' (by omega) (by rw [Sy.perU, pu]) (by rw [Sy.perV, pv])
    (by rw [Sy.knotsV]; exact FlWideOn.wide wv) (by rw [Sy.knotsU]; exact hu) (by rw [Sy.knotsV]; exact hv)
  have hWpos := lt_of_lt_of_le hlo hWlo
  have hx := (Maj.inv hWpos hcond en).1.ne'
  refine ⟨?_, ?_, ?_, ?_⟩
  · unfold nurbsPatchDerivU
    rw [eh, ok_bind, ex, ok_bind, hd1, ok_bind]
    exact derivQuotient_zero R hx
  · unfold NURBSPatch.derivU
    rw [Sy.validate, ok_bind, exx, ok_bind, ed1, ok_bind]
    unfold quot1
    rw [assert_true hWpos.ne', ok_bind, pure_eq]
    simp
  · unfold nurbsPatchDerivUU
    rw [eh, ok_bind, ex, ok_bind, hd1, ok_bind, hdd, ok_bind, innerDeriv_zero]
    exact sameQuotient_zero R tol f g hx
  · unfold NURBSPatch.derivUU
    rw [Sy.validate, ok_bind, exx, ok_bind, ed1, ok_bind, edd, ok_bind]
    unfold quotSame quot0 quot1
    split
    · rfl
    · rw [assert_true hWpos.ne', ok_bind, pure_eq, ok_bind, ok_bind, pure_eq, ok_bind, pure_eq]
      simp

/-! ### Direction `v` -/

theorem patch_v_low (R : Rounding K) (hu1 : R.unit < 1) (F : ℕ → ℕ → ℕ → ι → Fuse)
    (G : ℕ → ℕ → ι → Fuse) {r : BSplinePatch K (ι → K)} {m n e : ℕ} (hrd : r.Ready m n e 0)
    (pu : r.perU = false) (pv : r.perV = false) (wu : FlWideOn R r.knotsU m e) {u v : K}
    (hu : BSplinePatch.InDom r.knotsU m e u) (hv : BSplinePatch.InDom r.knotsV n 0 v) :
    bsplinePatchDerivV R F G r u v = ok 0 := by
  choose k hk _ using fun a => bspline_axis_arr R hu1 (F a) hrd.u wu (fun b => r.pts n b a) hu
  unfold bsplinePatchDerivV bsplineIsoV
  rw [hrd.toValid.numV, ok_bind, hrd.isoU, tab_eq (g := k)]
  · rw [ok_bind, pure_eq, ok_bind]
    exact first_low R G (hrd.v.wf _ (by simp)) pv hv.2.2
  · intro j hj
    rw [rd_arr hj, ok_bind, ← hk j, ← pu]
    rfl

theorem patch_v_low_exact {V : Type} [AddCommGroup V] [Module K V] {r : BSplinePatch K V} {m n e : ℕ}
    (hrd : r.Ready m n e 0) (pu : r.perU = false) (pv : r.perV = false)
    (wu : BSplinePatch.WideOn r.knotsU m e) {u v : K}
    (hu : BSplinePatch.InDom r.knotsU m e u) (hv : BSplinePatch.InDom r.knotsV n 0 v) :
    r.derivV u v = ok 0 := by
  unfold BSplinePatch.derivV
  rw [hrd.isoCurveV (u := u) (u' := u) wu (by simp [BSplinePatch.wrapOn, pu]) hu, ok_bind]
  exact first_low_exact (hrd.v.wf _ (by simp)) pv hv.2.2

/-- The derivative in `v` returns. -/
theorem patch_v_returns (R : Rounding K) (hu1 : R.unit < 1) (F : ℕ → ℕ → ℕ → ι → Fuse)
    (G : ℕ → ℕ → ι → Fuse) {r : BSplinePatch K (ι → K)} {m n d e : ℕ} (hrd : r.Ready m n e d)
    (pu : r.perU = false) (pv : r.perV = false) (wv : FlWideOn R r.knotsV n d)
    (wu : FlWideOn R r.knotsU m e) {u v : K}
    (hu : BSplinePatch.InDom r.knotsU m e u) (hv : BSplinePatch.InDom r.knotsV n d v) :
    ∃ q, bsplinePatchDerivV R F G r u v = ok q := by
  cases d with
  | zero => exact ⟨0, patch_v_low R hu1 F G hrd pu pv wu hu hv⟩
  | succ d =>
    choose k hk _ using fun a => bspline_axis_arr R hu1 (F a) hrd.u wu (fun b => r.pts n b a) hu
    have hwf := hrd.v.wf r.perV (c := arr n k) (by simp)
    obtain ⟨q, -, hq, -⟩ := bspline_deriv_axis R hu1 G hwf pv
      (by intro j j1 j2 j3; exact wv j j1 (by simpa using j2) j3) (arr n k) rfl
      (t := v) hv.2.2 hv.1 (by simpa using hv.2.1)
    refine ⟨q, ?_⟩
    unfold bsplinePatchDerivV bsplineIsoV
    rw [hrd.toValid.numV, ok_bind, hrd.isoU, tab_eq (g := k)]
    · rw [ok_bind, pure_eq, ok_bind]
      exact hq
    · intro j hj
      rw [rd_arr hj, ok_bind, ← hk j, ← pu]
      rfl

theorem patch_v_returns_exact {V : Type} [AddCommGroup V] [Module K V] {r : BSplinePatch K V} {m n d e : ℕ}
    (hrd : r.Ready m n e d) (pu : r.perU = false) (pv : r.perV = false)
    (wv : BSplinePatch.WideOn r.knotsV n d)
    (wu : BSplinePatch.WideOn r.knotsU m e) {u v : K}
    (hu : BSplinePatch.InDom r.knotsU m e u) (hv : BSplinePatch.InDom r.knotsV n d v) :
    ∃ q, r.derivV u v = ok q := by
  unfold BSplinePatch.derivV
  rw [hrd.isoCurveV (u := u) (u' := u) wu (by simp [BSplinePatch.wrapOn, pu]) hu, ok_bind]
  have hwf := hrd.v.wf r.perV (c := arr n (fun a => BSplinePatch.bsum e r.knotsU m
    (fun b => r.pts n b a) u)) (by simp)
  obtain ⟨k, Q, hk, -⟩ := BSpline.exists_atSpan hwf v hv.2.2 hv.1 (by simpa using hv.2.1)
  exact ⟨_, BSpline.evaluateDerivative_of_span hwf
    (by intro j j1 j2 j3; exact wv j j1 (by simpa using j2) j3)
    (t := v) (t' := v) (by simp [BSpline.wrap, pv]) hk⟩

/-- **C116**, **C117**: the first and second derivative in `v` of a NURBS patch of degree zero in `v` are
zero, without error. -/
theorem C117_nurbs_patch_v_constant (R : Rounding K) (hu1 : R.unit < 1) (tol : K) (a b k : Fuses ι)
    (l f g : ι → Bool) {c : NURBSPatch K (ι → K)} (hinit : c.init = ok c) {m n e : ℕ}
    (hp : NValid c m n e 0) (pu : c.perU = false) (pv : c.perV = false)
    (wu : FlWideOn R c.knotsU m e) (wv : FlWideOn R c.knotsV n 0) {lo hi : K} (hlo : 0 < lo)
    (hwt : ∀ x ∈ c.weights, lo ≤ x ∧ x ≤ hi) (hcond : (growth R ^ (e + 0) - 1) * (hi / lo) < 1) {u v : K}
    (hu : BSplinePatch.InDom c.knotsU m e u) (hv : BSplinePatch.InDom c.knotsV n 0 v) :
    nurbsPatchDerivV R a.iso b.iso a.curve b.curve (nurbsData c) c.weights u v = ok 0 ∧
      c.derivV u v = ok 0 ∧
      nurbsPatchDerivVV R tol a b k l f g (nurbsData c) c.weights u v = ok 0 ∧
      c.derivVV tol u v = ok 0 := by
  have Sy := (sync_of_init hinit).1
  obtain ⟨h, eh, hrd, i2, i3, i6, i7, i8, i9, hn, hs⟩ := nurbs_patch_hom R Sy hp
  have hrd' : c.hom.Ready m n e 0 := (hp.hom Sy).ready Sy.init
  obtain ⟨x, ex, hWlo, en, HN⟩ := nurbs_patch_value R hu1 a.iso a.curve hp pu pv wu wv hlo hwt hu hv hrd
    i2 i3 i6 i7 hn hs
  have exx := nurbs_patch_exact Sy hp pu pv (FlWideOn.wide wu) (FlWideOn.wide wv) hu hv
  have hd1 := patch_v_low R hu1 b.iso b.curve hrd (by rw [i6, pu]) (by rw [i7, pv])
    (by rw [i2]; exact wu) (by rw [i2]; exact hu) (by rw [i3]; exact hv)
  have ed1 := patch_v_low_exact hrd' (by rw [Sy.perU, pu]) (by rw [Sy.perV, pv])
    (by rw [Sy.knotsU]; exact FlWideOn.wide wu) (by rw [Sy.knotsU]; exact hu) (by rw [Sy.knotsV]; exact hv)
  have hdd := patch_vv_low R hu1 k.iso k.curve hrd (by omega) (by rw [i6, pu]) (by rw [i7, pv])
    (by rw [i2]; exact wu) (by rw [i2]; exact hu) (by rw [i3]; exact hv)
  have edd := patch_vv_low_exact hrd' (by omega) (by rw [Sy.perU, pu]) (by rw [Sy.perV, pv])
    (by rw [Sy.knotsU]; exact FlWideOn.wide wu) (by rw [Sy.knotsU]; exact hu) (by rw [Sy.knotsV]; exact hv)
  have hWpos := lt_of_lt_of_le hlo hWlo
  have hx := (Maj.inv hWpos hcond en).1.ne'
  refine ⟨?_, ?_, ?_, ?_⟩
  · unfold nurbsPatchDerivV
    rw [eh, ok_bind, ex, ok_bind, hd1, ok_bind]
    exact derivQuotient_zero R hx
  · unfold NURBSPatch.derivV
    rw [Sy.validate, ok_bind, exx, ok_bind, ed1, ok_bind]
    unfold quot1
    rw [assert_true hWpos.ne', ok_bind, pure_eq]
    simp
  · unfold nurbsPatchDerivVV
    rw [eh, ok_bind, ex, ok_bind, hd1, ok_bind, hdd, ok_bind, innerDeriv_zero]
    exact sameQuotient_zero R tol f g hx
  · unfold NURBSPatch.derivVV
    rw [Sy.validate, ok_bind, exx, ok_bind, ed1, ok_bind, edd, ok_bind]
    unfold quotSame quot0 quot1
    split
    · rfl
    · rw [assert_true hWpos.ne', ok_bind, pure_eq, ok_bind, ok_bind, pure_eq, ok_bind, pure_eq]
      simp

/-- **C118**: the mixed second derivative of a NURBS patch of degree zero in `u` is zero, without error. -/
theorem C118_nurbs_patch_constant_u (R : Rounding K) (hu1 : R.unit < 1) (tol : K) (bad : (ι → K) × K)
    (bad' : Option ι → K) (a b b' k : Fuses ι) (l l' f g h : ι → Bool) {c : NURBSPatch K (ι → K)}
    (hinit : c.init = ok c) {m n e : ℕ}
    (hp : NValid c m n 0 e) (pu : c.perU = false) (pv : c.perV = false)
    (wu : FlWideOn R c.knotsU m 0) (wv : FlWideOn R c.knotsV n e) {lo hi : K} (hlo : 0 < lo)
    (hwt : ∀ x ∈ c.weights, lo ≤ x ∧ x ≤ hi) (hcond : (growth R ^ (0 + e) - 1) * (hi / lo) < 1) {u v : K}
    (hu : BSplinePatch.InDom c.knotsU m 0 u) (hv : BSplinePatch.InDom c.knotsV n e v) :
    nurbsPatchDerivUV R tol bad' a b b' k l l' f g h (nurbsData c) c.weights u v = ok 0 ∧
      c.derivUV tol bad u v = ok 0 := by
  have Sy := (sync_of_init hinit).1
  obtain ⟨w, eh, hrd, i2, i3, i6, i7, i8, i9, hn, hs⟩ := nurbs_patch_hom R Sy hp
  have hrd' : c.hom.Ready m n 0 e := (hp.hom Sy).ready Sy.init
  obtain ⟨x, ex, hWlo, en, HN⟩ := nurbs_patch_value R hu1 a.iso a.curve hp pu pv wu wv hlo hwt hu hv hrd
    i2 i3 i6 i7 hn hs
  have exx := nurbs_patch_exact Sy hp pu pv (FlWideOn.wide wu) (FlWideOn.wide wv) hu hv
  have hd1 := patch_u_low R hu1 b.iso b.curve hrd (by rw [i6, pu]) (by rw [i7, pv])
    (by rw [i3]; exact wv) (by rw [i2]; exact hu) (by rw [i3]; exact hv)
  have ed1 := patch_u_low_exact hrd' (by rw [Sy.perU, pu]) (by rw [Sy.perV, pv])
    (by rw [Sy.knotsV]; exact FlWideOn.wide wv) (by rw [Sy.knotsU]; exact hu) (by rw [Sy.knotsV]; exact hv)
  obtain ⟨d, hd2⟩ := patch_v_returns R hu1 b'.iso b'.curve hrd (by rw [i6, pu])
    (by rw [i7, pv]) (by rw [i3]; exact wv) (by rw [i2]; exact wu)
    (by rw [i2]; exact hu) (by rw [i3]; exact hv)
  obtain ⟨d', ed2⟩ := patch_v_returns_exact hrd' (by rw [Sy.perU, pu]) (by rw [Sy.perV, pv])
    (by rw [Sy.knotsV]; exact FlWideOn.wide wv) (by rw [Sy.knotsU]; exact FlWideOn.wide wu)
    (by rw [Sy.knotsU]; exact hu) (by rw [Sy.knotsV]; exact hv)
  have hdd := (C118_bspline_patch_uv_constant R bad' k.iso k.curve hrd.toValid (Or.inl rfl)
    (by rw [hrd.toValid.init, ← hrd.isoU, ← hrd.isoV]) u v).1
  have edd := C64_uv_degree0 bad hrd'.toValid (Or.inl rfl) u v
  have hWpos := lt_of_lt_of_le hlo hWlo
  have hx := (Maj.inv hWpos hcond en).1.ne'
  constructor
  · unfold nurbsPatchDerivUV
    rw [eh, ok_bind, ex, ok_bind, hd1, ok_bind, hd2, ok_bind, hdd, ok_bind, innerDeriv_zero]
    exact mixedQuotient_zero_u R tol f g h hx d _
  · unfold NURBSPatch.derivUV
    rw [Sy.validate, ok_bind, exx, ok_bind, ed1, ok_bind, ed2, ok_bind, edd, ok_bind]
    unfold quotMixed quot0 quot1
    split
    · rfl
    · rw [assert_true hWpos.ne']
      simp [pure_eq]

/-- **C118**: the mixed second derivative of a NURBS patch of degree zero in `v` is zero, without error. -/
theorem C118_nurbs_patch_constant_v (R : Rounding K) (hu1 : R.unit < 1) (tol : K) (bad : (ι → K) × K)
    (bad' : Option ι → K) (a b b' k : Fuses ι) (l l' f g h : ι → Bool) {c : NURBSPatch K (ι → K)}
    (hinit : c.init = ok c) {m n e : ℕ}
    (hp : NValid c m n e 0) (pu : c.perU = false) (pv : c.perV = false)
    (wu : FlWideOn R c.knotsU m e) (wv : FlWideOn R c.knotsV n 0) {lo hi : K} (hlo : 0 < lo)
    (hwt : ∀ x ∈ c.weights, lo ≤ x ∧ x ≤ hi) (hcond : (growth R ^ (e + 0) - 1) * (hi / lo) < 1) {u v : K}
    (hu : BSplinePatch.InDom c.knotsU m e u) (hv : BSplinePatch.InDom c.knotsV n 0 v) :
    nurbsPatchDerivUV R tol bad' a b b' k l l' f g h (nurbsData c) c.weights u v = ok 0 ∧
      c.derivUV tol bad u v = ok 0 := by
  have Sy := (sync_of_init hinit).1
  obtain ⟨w, eh, hrd, i2, i3, i6, i7, i8, i9, hn, hs⟩ := nurbs_patch_hom R Sy hp
  have hrd' : c.hom.Ready m n e 0 := (hp.hom Sy).ready Sy.init
  obtain ⟨x, ex, hWlo, en, HN⟩ := nurbs_patch_value R hu1 a.iso a.curve hp pu pv wu wv hlo hwt hu hv hrd
    i2 i3 i6 i7 hn hs
  have exx := nurbs_patch_exact Sy hp pu pv (FlWideOn.wide wu) (FlWideOn.wide wv) hu hv
  have hd1 := patch_v_low R hu1 b'.iso b'.curve hrd (by rw [i6, pu]) (by rw [i7, pv])
    (by rw [i2]; exact wu) (by rw [i2]; exact hu) (by rw [i3]; exact hv)
  have ed1 := patch_v_low_exact hrd' (by rw [Sy.perU, pu]) (by rw [Sy.perV, pv])
    (by rw [Sy.knotsU]; exact FlWideOn.wide wu) (by rw [Sy.knotsU]; exact hu) (by rw [Sy.knotsV]; exact hv)
  obtain ⟨d, hd2⟩ := patch_u_returns R hu1 b.iso b.curve hrd (by rw [i6, pu])
    (by rw [i7, pv]) (by rw [i2]; exact wu) (by rw [i3]; exact wv)
    (by rw [i2]; exact hu) (by rw [i3]; exact hv)
  obtain ⟨d', ed2⟩ := patch_u_returns_exact hrd' (by rw [Sy.perU, pu]) (by rw [Sy.perV, pv])
    (by rw [Sy.knotsU]; exact FlWideOn.wide wu) (by rw [Sy.knotsV]; exact FlWideOn.wide wv)
    (by rw [Sy.knotsU]; exact hu) (by rw [Sy.knotsV]; exact hv)
  have hdd := (C118_bspline_patch_uv_constant R bad' k.iso k.curve hrd.toValid (Or.inr rfl)
    (by rw [hrd.toValid.init, ← hrd.isoU, ← hrd.isoV]) u v).1
  have edd := C64_uv_degree0 bad hrd'.toValid (Or.inr rfl) u v
  have hWpos := lt_of_lt_of_le hlo hWlo
  have hx := (Maj.inv hWpos hcond en).1.ne'
  constructor
  · unfold nurbsPatchDerivUV
    rw [eh, ok_bind, ex, ok_bind, hd2, ok_bind, hd1, ok_bind, hdd, ok_bind, innerDeriv_zero]
    exact mixedQuotient_zero_v R tol f g h hx d _
  · unfold NURBSPatch.derivUV
    rw [Sy.validate, ok_bind, exx, ok_bind, ed2, ok_bind, ed1, ok_bind, edd, ok_bind]
    unfold quotMixed quot0 quot1
    split
    · rfl
    · rw [assert_true hWpos.ne']
      simp [pure_eq]

end General

/-! ### Concrete cases -/

section Examples

/-- A NURBS patch of degree zero in `u` and one in `v`. -/
def someStepGrid : NURBSPatch ℚ (Fin 1 → ℚ) :=
  { grid := someCtrl ++ someCtrl, weights := [tenth, 1, 2, 1, 1, 1],
    knotsU := [-1, tenth, 3], knotsV := [0, 0, 1, 2, 2], degU := 0, degV := 1,
    hom := BSplinePatch.mk [] [] [] 0 0 false false (-1) (-1) [] [] }

theorem someStepGrid_valid : NValid someStepGrid 2 3 0 1 :=
  ⟨⟨rfl, rfl, Or.inl (by decide), by decide, by decide +kernel, by decide +kernel⟩,
    ⟨rfl, rfl, Or.inl (by decide), by decide, by decide +kernel, by decide +kernel⟩, rfl, rfl⟩

/-- The hypotheses of `C117_nurbs_patch_u_constant` and `C118_nurbs_patch_constant_u` in double
precision. -/
example : (∃ c, someStepGrid.init = ok c ∧ c.init = ok c ∧ NValid c 2 3 0 1 ∧
      c.perU = false ∧ c.perV = false ∧ c.knotsU = someStepGrid.knotsU ∧
      c.knotsV = someStepGrid.knotsV ∧ c.weights = someStepGrid.weights) ∧
    FlWideOn double someStepGrid.knotsU 2 0 ∧ FlWideOn double someStepGrid.knotsV 3 1 ∧
    (∀ x ∈ someStepGrid.weights, tenth ≤ x ∧ x ≤ 2) ∧
    (growth double ^ (0 + 1) - 1) * (2 / tenth) < 1 ∧
    BSplinePatch.InDom someStepGrid.knotsU 2 0 2 ∧ BSplinePatch.InDom someStepGrid.knotsV 3 1 (1 / 3) := by
  refine ⟨?_, ?_, ?_, by decide +kernel, by decide +kernel,
    ⟨by decide +kernel, by decide +kernel,
      Or.inl (by show knot someStepGrid.knotsU 0 < knot someStepGrid.knotsU 1; decide +kernel)⟩,
    ⟨by decide +kernel, by decide +kernel,
      Or.inl (by show knot someStepGrid.knotsV 1 < knot someStepGrid.knotsV 2; decide +kernel)⟩⟩
  · obtain ⟨c, e, e', hc⟩ := C63_nurbs_init someStepGrid_valid
    refine ⟨c, e, e', ?_⟩
    rw [hc]
    exact ⟨⟨someStepGrid_valid.u, someStepGrid_valid.v, rfl, rfl⟩, rfl, rfl, rfl, rfl, rfl⟩
  · intro i h1 h2 _
    interval_cases i <;> decide +kernel
  · intro i h1 h2 _
    interval_cases i <;> decide +kernel

end Examples

end NS.Fl
