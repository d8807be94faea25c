import Verif.Props.FloatPatchSecond

/-!
# Properties C113, C114 and C115: second derivatives of Bézier curves and patches of low degree
-/

set_option linter.unusedSectionVars false

namespace NS.Fl

open Outcome Finset Spec NS.Props

section General

variable {K ι : Type} [Field K] [LinearOrder K] [IsStrictOrderedRing K] [FloorRing K]

theorem bezier_second_low (R : Rounding K) (F : ℕ → ℕ → ι → Fuse) {m : ℕ} (hm : m ≤ 1) (c : ℕ → ι → K) (t : K) :
    bezier2ndDerivative R F { ctrl := arr (m + 1) c } t = ok 0 := by
  have hd : (Bezier.mk (arr (m + 1) c) false : Bezier (ι → K)).degree = (m : ℤ) := by
    simp [Bezier.degree]
  unfold bezier2ndDerivative
  rw [show bezierWrap R false t = ok t by simp [bezierWrap], ok_bind, hd, assert_true (by omega), ok_bind,
    if_pos (by omega)]

/-! ### Direction `u` -/

/-- **C114**: the second derivative in `u` of a Bézier patch of degree at most one in `u` is zero, without
error. -/
theorem C114_patch_second_uu_low (R : Rounding K) (F : ℕ → ℕ → ℕ → ι → Fuse) (G : ℕ → ℕ → ι → Fuse)
    {p : BezierPatch (ι → K)} {m n : ℕ} (hp : p.WellFormed m n) (hm : m ≤ 1) (pu : p.perU = false)
    (pv : p.perV = false) {u v : K} (v0 : 0 ≤ v) (v1 : v ≤ 1) :
    patchDerivUU R F G p u v = ok 0 ∧ p.derivUU u v = ok 0 := by
  constructor
  · obtain ⟨c, hc, -⟩ := iso_points R F n (p.pts n) v0 v1
    unfold patchDerivUU
    rw [isoU_run R F hp pu pv hc, ok_bind]
    exact bezier_second_low R G hm c u
  · rw [hp.derivUU (by rw [pu]; rfl) (by rw [pv]; rfl)]
    simp only [BezierPatch.part, Nat.descFactorial_of_lt (show m < 2 by omega), Nat.cast_zero, zero_smul]

/-- **C115**: the second derivative in `u` of a rational Bézier patch of degree one in `u`; it need not be
zero.  The names are as in `C115_rational_patch_uu`. -/
theorem C115_rational_patch_uu_linear (R : Rounding K) (tol : K) (a b k d e : Fuses ι) (f g : ι → Bool)
    {c : RationalBezierPatch K (ι → K)} (hinit : c.init = ok c) {n : ℕ}
    (hp : c.base.WellFormed (0 + 1) n) (pu : c.base.perU = false) (pv : c.base.perV = false)
    {lo hi : K} (hlo : 0 < lo) (hwt : ∀ x ∈ c.weights, lo ≤ x ∧ x ≤ hi)
    (hcond : (1 + R.unit) ^ (3 * (0 + 1 + n)) < 2) (htol : tol < (2 - (1 + R.unit) ^ (3 * (0 + 1 + n))) * lo)
    {u v : K} (u0 : 0 ≤ u) (u1 : u ≤ 1) (v0 : 0 ≤ v) (v1 : v ≤ 1) {S : K}
    (hS : ∀ a ≤ 0, ∀ b ≤ n, |((0 + 1 : ℕ) : K) * (gridPoint c.weights (n + 1) (a + 1) b - gridPoint c.weights (n + 1) a b)| ≤ S) :
    ∃ q r, rationalPatchDerivUU R tol a b k d e f g c.base c.weights u v = ok q ∧
      c.derivUU tol u v = ok r ∧ ∀ i M T, (∀ x ∈ c.base.grid, |x i| ≤ M) →
      (∀ a ≤ 0, ∀ b ≤ n, |((0 + 1 : ℕ) : K) *
        (gridPoint c.weights (n + 1) (a + 1) b * gridPoint c.base.grid (n + 1) (a + 1) b i
          - gridPoint c.weights (n + 1) a b * gridPoint c.base.grid (n + 1) a b i)| ≤ T) →
      |q i - r i| ≤ sameBound R ((1 + R.unit) ^ (3 * (0 + 1 + n)) - 1) M (((1 + R.unit) ^ (3 * (0 + 1 + n) + 1) - 1) * M)
        (T / lo + M * (S / lo))
        (derivBound R ((1 + R.unit) ^ (3 * (0 + 1 + n)) - 1) M (((1 + R.unit) ^ (3 * (0 + 1 + n) + 1) - 1) * M) (T / lo)
          (d1Err R 0 ((1 + R.unit) * (1 + R.unit) ^ (3 * n)) T (M * hi) / lo) (S / lo)
          (d1Err R 0 ((1 + R.unit) ^ (3 * n)) S hi / lo))
        (S / lo) (d1Err R 0 ((1 + R.unit) ^ (3 * n)) S hi / lo) 0 0 0 0 := by
  obtain ⟨Sy, -, -⟩ := (RationalBezierPatch.init_iff _ _).1 hinit
  have hlen := Sy.len
  obtain ⟨x, ex, hWlo, en, HN⟩ := rational_patch_value R a.iso a.curve hp pu pv hlen hlo
    (fun x hx => (hwt x hx).1) u0 u1 v0 v1
  have exx := rational_patch_exact Sy hp pu pv u v
  obtain ⟨du, D, E, hdu, edu, HE, HD⟩ := rat_u R b.iso b.curve Sy hp pu pv hlo hwt u0 u1 v0 v1
  have hdd := (C114_patch_second_uu_low R k.iso k.curve (p := BezierPatch.mk (homPts R c.base.grid c.weights)
    c.base.degU c.base.degV c.base.perU c.base.perV c.base.sU c.base.sV) (u := u) (v := v)
    ⟨hp.degU, hp.degV, by simp only [homPts_length R _ _ hlen]; exact hp.len⟩ le_rfl pu pv v0 v1).1
  have hh : c.hom.WellFormed (0 + 1) n := by
    rw [Sy.hom]
    exact ⟨hp.degU, hp.degV, by simp only; rw [homog_length hlen]; exact hp.len⟩
  have edd : c.hom.derivUU u v = ok 0 := by
    rw [hh.derivUU (u' := u) (v' := v) (by rw [Sy.hom]; simp [pu, Bezier.wrap])
      (by rw [Sy.hom]; simp [pv, Bezier.wrap])]
    simp [BezierPatch.part]
  obtain ⟨su, es, hsu, hes, HS⟩ := C114_rational_patch_derivative_u R d.iso e.iso d.curve e.curve hinit
    hp pu pv hlo hwt hcond u0 u1 v0 v1 hS
  set W := bern2 (0 + 1) n (gridPoint c.weights (n + 1)) u v with hW
  set N : ι → K := fun i => bern2 (0 + 1) n (fun a b =>
    gridPoint c.weights (n + 1) a b * gridPoint c.base.grid (n + 1) a b i) u v with hN
  have hWpos : 0 < W := lt_of_lt_of_le hlo hWlo
  have hes' : c.derivU u v = ok (W⁻¹ • (D - W⁻¹ • (E • N))) := by
    unfold RationalBezierPatch.derivU
    rw [Sy.validate, ok_bind, exx, ok_bind, edu, ok_bind]
    unfold quot1
    rw [assert_true hWpos.ne', ok_bind]
    rfl
  rw [hes', ok.injEq] at hes
  subst hes
  have p1 : 1 ≤ (1 + R.unit) ^ (3 * (0 + 1 + n)) := one_le_pow₀ (by linarith [R.unit_nonneg])
  have t1 : tol < (1 - ((1 + R.unit) ^ (3 * (0 + 1 + n)) - 1)) * W := by
    refine lt_of_lt_of_le htol ?_
    rw [show 1 - ((1 + R.unit) ^ (3 * (0 + 1 + n)) - 1) = 2 - (1 + R.unit) ^ (3 * (0 + 1 + n)) by ring]
    exact mul_le_mul_of_nonneg_left hWlo (by linarith)
  have t2 : tol < W := by
    refine lt_of_lt_of_le t1 ?_
    have := mul_le_mul_of_nonneg_right (show 1 - ((1 + R.unit) ^ (3 * (0 + 1 + n)) - 1) ≤ 1 by linarith) hWpos.le
    linarith
  obtain ⟨bE, dE⟩ := HE S hS
  have scale : ∀ {y z : K}, |y| ≤ z → |y| ≤ z / lo * W := fun h => scale_lo hlo hWlo h
  obtain ⟨q, eq, hq⟩ := sameQuotient_err R f g (su := su) (dd := 0) (tol := tol) (E2 := 0) (S2 := 0) (y2 := 0)
    hWpos en (by linarith) t1 (scale bE) (scale dE) (by simp) (by simp)
  refine ⟨q, W⁻¹ • (0 - (2 * E) • (W⁻¹ • (D - W⁻¹ • (E • N))) - (0 : K) • (W⁻¹ • N)), ?_, ?_,
    fun i M T hM hT => ?_⟩
  · unfold rationalPatchDerivUU ratHom
    rw [homogenize_eq R _ _ hlen, ok_bind, pure_eq, ok_bind, ex, ok_bind, hdu, ok_bind, hdd, ok_bind, hsu, eq]
  · unfold RationalBezierPatch.derivUU
    rw [Sy.validate, ok_bind, exx, ok_bind, edu, ok_bind, edd, ok_bind]
    unfold quotSame quot0 quot1
    rw [if_neg (not_le.2 t2), assert_true hWpos.ne', ok_bind, pure_eq, ok_bind, ok_bind, pure_eq, ok_bind,
      pure_eq]
    rfl
  · obtain ⟨N1, N2⟩ := HN i M hM
    obtain ⟨bD, dD⟩ := HD i M T hM hT
    have hU := quot_abs hWpos (scale bE) (scale bD) N1
    have h1 := HS i M T hM hT
    have := hq i (N i) _ 0 M _ _ _ 0 0 N1 (N2.trans (le_of_eq (mul_assoc _ _ _).symm)) hU h1
      (by simp) (by simp)
    exact this

/-! ### Direction `v` -/

/-- **C114**: the second derivative in `v` of a Bézier patch of degree at most one in `v` is zero, without
error. -/
theorem C114_patch_second_vv_low (R : Rounding K) (F : ℕ → ℕ → ℕ → ι → Fuse) (G : ℕ → ℕ → ι → Fuse)
    {p : BezierPatch (ι → K)} {m n : ℕ} (hp : p.WellFormed n m) (hm : m ≤ 1) (pu : p.perU = false)
    (pv : p.perV = false) {u v : K} (u0 : 0 ≤ u) (u1 : u ≤ 1) :
    patchDerivVV R F G p u v = ok 0 ∧ p.derivVV u v = ok 0 := by
  constructor
  · obtain ⟨c, hc, -⟩ := iso_points R F n (fun b a => p.pts m a b) u0 u1
    unfold patchDerivVV
    rw [isoV_run R F hp pu pv hc, ok_bind]
    exact bezier_second_low R G hm c v
  · rw [hp.derivVV (by rw [pu]; rfl) (by rw [pv]; rfl)]
    simp only [BezierPatch.part, Nat.descFactorial_of_lt (show m < 2 by omega), Nat.cast_zero, zero_smul,
      smul_zero]

/-- **C115**: the second derivative in `v` of a rational Bézier patch of degree one in `v`; it need not be
zero.  The names are as in `C115_rational_patch_vv`. -/
theorem C115_rational_patch_vv_linear (R : Rounding K) (tol : K) (a b k d e : Fuses ι) (f g : ι → Bool)
    {c : RationalBezierPatch K (ι → K)} (hinit : c.init = ok c) {n : ℕ}
    (hp : c.base.WellFormed n (0 + 1)) (pu : c.base.perU = false) (pv : c.base.perV = false)
    {lo hi : K} (hlo : 0 < lo) (hwt : ∀ x ∈ c.weights, lo ≤ x ∧ x ≤ hi)
    (hcond : (1 + R.unit) ^ (3 * (n + (0 + 1))) < 2) (htol : tol < (2 - (1 + R.unit) ^ (3 * (n + (0 + 1)))) * lo)
    {u v : K} (u0 : 0 ≤ u) (u1 : u ≤ 1) (v0 : 0 ≤ v) (v1 : v ≤ 1) {S : K}
    (hS : ∀ b ≤ 0, ∀ a ≤ n, |((0 + 1 : ℕ) : K) * (gridPoint c.weights (0 + 2) a (b + 1) - gridPoint c.weights (0 + 2) a b)| ≤ S) :
    ∃ q r, rationalPatchDerivVV R tol a b k d e f g c.base c.weights u v = ok q ∧
      c.derivVV tol u v = ok r ∧ ∀ i M T, (∀ x ∈ c.base.grid, |x i| ≤ M) →
      (∀ b ≤ 0, ∀ a ≤ n, |((0 + 1 : ℕ) : K) *
        (gridPoint c.weights (0 + 2) a (b + 1) * gridPoint c.base.grid (0 + 2) a (b + 1) i
          - gridPoint c.weights (0 + 2) a b * gridPoint c.base.grid (0 + 2) a b i)| ≤ T) →
      |q i - r i| ≤ sameBound R ((1 + R.unit) ^ (3 * (n + (0 + 1))) - 1) M (((1 + R.unit) ^ (3 * (n + (0 + 1)) + 1) - 1) * M)
        (T / lo + M * (S / lo))
        (derivBound R ((1 + R.unit) ^ (3 * (n + (0 + 1))) - 1) M (((1 + R.unit) ^ (3 * (n + (0 + 1)) + 1) - 1) * M) (T / lo)
          (d1Err R 0 ((1 + R.unit) * (1 + R.unit) ^ (3 * n)) T (M * hi) / lo) (S / lo)
          (d1Err R 0 ((1 + R.unit) ^ (3 * n)) S hi / lo))
        (S / lo) (d1Err R 0 ((1 + R.unit) ^ (3 * n)) S hi / lo) 0 0 0 0 := by
  obtain ⟨Sy, -, -⟩ := (RationalBezierPatch.init_iff _ _).1 hinit
  have hlen := Sy.len
  obtain ⟨x, ex, hWlo, en, HN⟩ := rational_patch_value R a.iso a.curve hp pu pv hlen hlo
    (fun x hx => (hwt x hx).1) u0 u1 v0 v1
  have exx := rational_patch_exact Sy hp pu pv u v
  obtain ⟨du, D, E, hdu, edu, HE, HD⟩ := rat_v R b.iso b.curve Sy hp pu pv hlo hwt u0 u1 v0 v1
  have hdd := (C114_patch_second_vv_low R k.iso k.curve (p := BezierPatch.mk (homPts R c.base.grid c.weights)
    c.base.degU c.base.degV c.base.perU c.base.perV c.base.sU c.base.sV) (u := u) (v := v)
    ⟨hp.degU, hp.degV, by simp only [homPts_length R _ _ hlen]; exact hp.len⟩ le_rfl pu pv u0 u1).1
  have hh : c.hom.WellFormed n (0 + 1) := by
    rw [Sy.hom]
    exact ⟨hp.degU, hp.degV, by simp only; rw [homog_length hlen]; exact hp.len⟩
  have edd : c.hom.derivVV u v = ok 0 := by
    rw [hh.derivVV (u' := u) (v' := v) (by rw [Sy.hom]; simp [pu, Bezier.wrap])
      (by rw [Sy.hom]; simp [pv, Bezier.wrap])]
    simp [BezierPatch.part]
  obtain ⟨su, es, hsu, hes, HS⟩ := C114_rational_patch_derivative_v R d.iso e.iso d.curve e.curve hinit
    hp pu pv hlo hwt hcond u0 u1 v0 v1 hS
  set W := bern2 n (0 + 1) (gridPoint c.weights (0 + 2)) u v with hW
  set N : ι → K := fun i => bern2 n (0 + 1) (fun a b =>
    gridPoint c.weights (0 + 2) a b * gridPoint c.base.grid (0 + 2) a b i) u v with hN
  have hWpos : 0 < W := lt_of_lt_of_le hlo hWlo
  have hes' : c.derivV u v = ok (W⁻¹ • (D - W⁻¹ • (E • N))) := by
    unfold RationalBezierPatch.derivV
    rw [Sy.validate, ok_bind, exx, ok_bind, edu, ok_bind]
    unfold quot1
    rw [assert_true hWpos.ne', ok_bind]
    rfl
  rw [hes', ok.injEq] at hes
  subst hes
  have p1 : 1 ≤ (1 + R.unit) ^ (3 * (n + (0 + 1))) := one_le_pow₀ (by linarith [R.unit_nonneg])
  have t1 : tol < (1 - ((1 + R.unit) ^ (3 * (n + (0 + 1))) - 1)) * W := by
    refine lt_of_lt_of_le htol ?_
    rw [show 1 - ((1 + R.unit) ^ (3 * (n + (0 + 1))) - 1) = 2 - (1 + R.unit) ^ (3 * (n + (0 + 1))) by ring]
    exact mul_le_mul_of_nonneg_left hWlo (by linarith)
  have t2 : tol < W := by
    refine lt_of_lt_of_le t1 ?_
    have := mul_le_mul_of_nonneg_right (show 1 - ((1 + R.unit) ^ (3 * (n + (0 + 1))) - 1) ≤ 1 by linarith) hWpos.le
    linarith
  obtain ⟨bE, dE⟩ := HE S hS
  have scale : ∀ {y z : K}, |y| ≤ z → |y| ≤ z / lo * W := fun h => scale_lo hlo hWlo h
  obtain ⟨q, eq, hq⟩ := sameQuotient_err R f g (su := su) (dd := 0) (tol := tol) (E2 := 0) (S2 := 0) (y2 := 0)
    hWpos en (by linarith) t1 (scale bE) (scale dE) (by simp) (by simp)
  refine ⟨q, W⁻¹ • (0 - (2 * E) • (W⁻¹ • (D - W⁻¹ • (E • N))) - (0 : K) • (W⁻¹ • N)), ?_, ?_,
    fun i M T hM hT => ?_⟩
  · unfold rationalPatchDerivVV ratHom
    rw [homogenize_eq R _ _ hlen, ok_bind, pure_eq, ok_bind, ex, ok_bind, hdu, ok_bind, hdd, ok_bind, hsu, eq]
  · unfold RationalBezierPatch.derivVV
    rw [Sy.validate, ok_bind, exx, ok_bind, edu, ok_bind, edd, ok_bind]
    unfold quotSame quot0 quot1
    rw [if_neg (not_le.2 t2), assert_true hWpos.ne', ok_bind, pure_eq, ok_bind, ok_bind, pure_eq, ok_bind,
      pure_eq]
    rfl
  · obtain ⟨N1, N2⟩ := HN i M hM
    obtain ⟨bD, dD⟩ := HD i M T hM hT
    have hU := quot_abs hWpos (scale bE) (scale bD) N1
    have h1 := HS i M T hM hT
    have := hq i (N i) _ 0 M _ _ _ 0 0 N1 (N2.trans (le_of_eq (mul_assoc _ _ _).symm)) hU h1
      (by simp) (by simp)
    exact this

/-! ### Curves -/

/-- **C113**: the second derivative of a rational Bézier curve of degree one, which need not be zero.  The
names are as in `C113_rational_second_error`. -/
theorem C113_rational_second_linear (R : Rounding K) (F G H : ℕ → ℕ → Option ι → Fuse) (f g : ι → Bool)
    {c : RationalBezier K (ι → K)} (hinit : c.init = ok c) (hn : c.base.ctrl.length = 0 + 2)
    (hper : c.base.periodic = false) {lo hi : K} (hlo : 0 < lo)
    (hwt : ∀ x ∈ c.weights, lo ≤ x ∧ x ≤ hi) (hcond : (1 + R.unit) ^ (3 * (0 + 1)) < 2) {t : K}
    (h0 : 0 ≤ t) (h1 : t ≤ 1) {S : K}
    (hS : ∀ j ≤ 0, |((0 + 1 : ℕ) : K) * (c.weights.getD (j + 1) 0 - c.weights.getD j 0)| ≤ S) :
    ∃ q e, rational2ndDerivative R F G H f g c.base.ctrl c.weights c.base.periodic t = ok q ∧
      c.evaluate2ndDerivative t = ok e ∧ ∀ i M T, (∀ x ∈ c.base.ctrl, |x i| ≤ M) →
        (∀ j ≤ 0, |((0 + 1 : ℕ) : K) * (c.weights.getD (j + 1) 0 * c.base.ctrl.getD (j + 1) 0 i
            - c.weights.getD j 0 * c.base.ctrl.getD j 0 i)| ≤ T) →
        |q i - e i| ≤ deriv2Bound R ((1 + R.unit) ^ (3 * (0 + 1)) - 1) M
          (((1 + R.unit) ^ (3 * (0 + 1) + 1) - 1) * M) (T / lo)
          ((((1 + R.unit) ^ (3 * 0 + 2) - 1) * (T + 2 * (0 + 1 : ℕ) * R.unit * (hi * M))
            + 2 * (0 + 1 : ℕ) * R.unit * (hi * M)) / lo)
          (S / lo) (((1 + R.unit) ^ (3 * 0 + 2) - 1) * S / lo) 0 0 0 0 := by
  obtain ⟨Sy, -, -⟩ := (RationalBezier.init_iff _ _).1 hinit
  have hlen := Sy.len
  have hu := R.unit_nonneg
  set P := c.base.ctrl with hPd
  set w := c.weights with hwd
  have hwj : ∀ j < 0 + 2, lo ≤ w.getD j 0 ∧ w.getD j 0 ≤ hi := by
    intro j hj
    rw [getD_of_lt _ (by omega)]
    exact hwt _ (List.getElem_mem _)
  have hQl : (homPts R P w).length = 0 + 2 := by rw [homPts_length R P w hlen, hn]
  have hQ : homPts R P w = arr (0 + 2) fun j => (homPts R P w).getD j 0 := by
    rw [← hQl]; exact eq_arr _ 0
  -- the exact homogeneous value and derivatives
  have hH : homog P w = arr (0 + 2) fun j => (w.getD j 0 • P.getD j 0, w.getD j 0) := by
    have e := eq_arr (homog P w) 0
    rw [homog_length hlen, hn] at e
    rw [e]
    congr 1
    funext j
    exact homog_getD j hlen
  set W := bern (0 + 1) (fun j => w.getD j 0) t with hW
  set N : ι → K := fun i => bern (0 + 1) (fun j => w.getD j 0 * P.getD j 0 i) t with hN
  set E := ∑ k ∈ range (0 + 1), bernstein 0 k t
    * (((0 + 1 : ℕ) : K) * (w.getD (k + 1) 0 - w.getD k 0)) with hE
  set D : ι → K := fun i => ∑ k ∈ range (0 + 1), bernstein 0 k t *
    (((0 + 1 : ℕ) : K) * (w.getD (k + 1) 0 * P.getD (k + 1) 0 i - w.getD k 0 * P.getD k 0 i)) with hD
  have ehom : c.hom = { ctrl := arr (0 + 2) fun j => (w.getD j 0 • P.getD j 0, w.getD j 0) } := by
    rw [Sy.hom, hper, ← hPd, ← hwd, hH]
  have ex' : c.hom.evaluate t = ok (N, W) := by
    rw [ehom, Bezier.evaluate_arr, umb_lin_pow]
    congr 1
  have ee' : c.hom.evaluateDerivative t = ok (D, E) := by
    rw [ehom, deriv_bern 0]
    congr 1
  have ee2 : c.hom.evaluate2ndDerivative t = ok 0 := by
    rw [ehom]
    unfold Bezier.evaluate2ndDerivative
    simp [Bezier.wrap, Bezier.degree, assert_true]
  have hb : ∀ k, 0 ≤ bernstein (0 + 1) k t := fun k => by
    unfold bernstein
    have : 0 ≤ 1 - t := by linarith
    positivity
  have hWlo : lo ≤ W := by
    calc lo = ∑ k ∈ range (0 + 1 + 1), bernstein (0 + 1) k t * lo := by
          rw [← sum_mul, bernstein_sum, one_mul]
      _ ≤ W := sum_le_sum fun k hk => mul_le_mul_of_nonneg_left
          (hwj k (by have := mem_range.1 hk; omega)).1 (hb k)
  have hWpos : 0 < W := lt_of_lt_of_le hlo hWlo
  have eex : c.evaluate2ndDerivative t
      = ok (W⁻¹ • (0 - (0 : K) • (W⁻¹ • N) - (2 * E) • (W⁻¹ • (D - W⁻¹ • (E • N))))) := by
    unfold RationalBezier.evaluate2ndDerivative
    rw [Sy.validate, ok_bind, ex', ok_bind, ee', ok_bind, ee2, ok_bind]
    unfold quot2
    rw [assert_true hWpos.ne', ok_bind]
    rfl
  -- the rounded ones
  obtain ⟨x, ex, HX⟩ := bezier_axis R F (0 + 1) (fun j => (homPts R P w).getD j 0) false
    (t := t) (t' := t) (by simp [bezierWrap]) h0 h1
  obtain ⟨d, ed, HD⟩ := bezier_deriv_axis R G 0 (fun j => (homPts R P w).getD j 0) h0 h1
  have ed2 := bezier_second_low R H (m := 1) le_rfl (fun j => (homPts R P w).getD j 0) t
  rw [← hQ] at ex ed ed2
  have en := (HX none 1 (fun j => w.getD j 0) (fun j => w.getD j 0) le_rfl
    (fun j hj => le_of_eq (abs_of_nonneg (by have := hwj j (by omega); linarith)))
    (fun j _ => by rw [sub_self, zero_mul, homPts_none R _ _ hlen, sub_self, abs_zero])).1
  rw [one_mul, ← hW] at en
  have scale : ∀ {z : K}, 0 ≤ z → z ≤ z / lo * W := by
    intro z hz
    rw [div_mul_eq_mul_div, le_div_iff₀ hlo]
    exact mul_le_mul_of_nonneg_left hWlo hz
  have scale' : ∀ {y z : K}, |y| ≤ z → |y| ≤ z / lo * W := fun h => h.trans (scale ((abs_nonneg _).trans h))
  obtain ⟨dn, en'⟩ := HD none (fun j => w.getD j 0) S 0 hS
    (fun j _ => by rw [homPts_none R _ _ hlen, homPts_none R _ _ hlen, sub_self, mul_zero, abs_zero])
  simp only [add_zero] at dn
  obtain ⟨q, eq, hq⟩ := deriv2Quotient_err R f g (d1 := d) (d2 := 0) hWpos en (by linarith)
    (E := E) (scale' en') (scale' dn) (E2 := 0) (S2 := 0) (y2 := 0) (by simp) (by simp)
  refine ⟨q, _, ?_, eex, fun i M T hM hT => ?_⟩
  · unfold rational2ndDerivative
    rw [homogenize_eq R _ _ hlen, ok_bind, hper, ex, ok_bind, ed, ok_bind, ed2, ok_bind, eq]
  · have hPj : ∀ j < 0 + 2, |P.getD j 0 i| ≤ M := by
      intro j hj
      rw [getD_of_lt _ (by omega)]
      exact hM _ (List.getElem_mem _)
    have hprodM : ∀ j < 0 + 2, |w.getD j 0 * P.getD j 0 i| ≤ M * w.getD j 0 := by
      intro j hj
      have := hwj j hj
      rw [abs_mul, abs_of_pos (lt_of_lt_of_le hlo this.1), mul_comm]
      exact mul_le_mul_of_nonneg_right (hPj j hj) (by linarith)
    have hM0 : 0 ≤ M := (abs_nonneg _).trans (hPj 0 (by omega))
    have near : ∀ j, |(homPts R P w).getD j 0 (some i) - w.getD j 0 * P.getD j 0 i|
        ≤ R.unit * |w.getD j 0 * P.getD j 0 i| := by
      intro j
      rw [homPts_some R _ _ hlen, mul_comm (w.getD j 0)]
      exact R.near _
    have hprod : ∀ j < 0 + 2, |(homPts R P w).getD j 0 (some i) - w.getD j 0 * P.getD j 0 i|
        ≤ R.unit * (hi * M) := by
      intro j hj
      refine (near j).trans (mul_le_mul_of_nonneg_left ((hprodM j hj).trans ?_) hu)
      rw [mul_comm]
      exact mul_le_mul_of_nonneg_right (hwj j hj).2 hM0
    obtain ⟨es, bs⟩ := HX (some i) (1 + R.unit) (fun j => w.getD j 0 * P.getD j 0 i)
      (fun j => M * w.getD j 0) (by linarith) (fun j hj => hprodM j (by omega))
      (fun j hj => by
        rw [add_sub_cancel_left]
        exact (near j).trans (mul_le_mul_of_nonneg_left (hprodM j (by omega)) hu))
    have eM : bern (0 + 1) (fun j => M * w.getD j 0) t = M * W := by
      rw [hW, bern, bern, mul_sum]
      exact sum_congr rfl fun k _ => by ring
    rw [eM] at es bs
    rw [← pow_succ'] at es
    have noise : ∀ k ≤ 0, |((0 + 1 : ℕ) : K) * ((homPts R P w).getD (k + 1) 0 (some i)
        - (homPts R P w).getD k 0 (some i)
        - (w.getD (k + 1) 0 * P.getD (k + 1) 0 i - w.getD k 0 * P.getD k 0 i))|
        ≤ 2 * (0 + 1 : ℕ) * R.unit * (hi * M) := by
      intro k hk
      have a1 := hprod (k + 1) (by omega)
      have a0 := hprod k (by omega)
      rw [abs_mul, abs_of_nonneg (by positivity : (0 : K) ≤ ((0 + 1 : ℕ) : K))]
      have tri : |(homPts R P w).getD (k + 1) 0 (some i) - (homPts R P w).getD k 0 (some i)
          - (w.getD (k + 1) 0 * P.getD (k + 1) 0 i - w.getD k 0 * P.getD k 0 i)|
          ≤ 2 * (R.unit * (hi * M)) := by
        rw [abs_le] at a0 a1 ⊢
        constructor <;> linarith [a0.1, a0.2, a1.1, a1.2]
      calc _ ≤ ((0 + 1 : ℕ) : K) * (2 * (R.unit * (hi * M))) :=
            mul_le_mul_of_nonneg_left tri (by positivity)
        _ = _ := by ring
    obtain ⟨ds, ds'⟩ := HD (some i) (fun j => w.getD j 0 * P.getD j 0 i) T
      (2 * (0 + 1 : ℕ) * R.unit * (hi * M)) hT noise
    have := hq i (N i) (D i) 0 M _ (T / lo) _ 0 0 bs
      (es.trans (le_of_eq (mul_assoc _ _ _).symm)) (scale' ds') (scale' ds) (by simp) (by simp)
    simpa only [Pi.smul_apply, Pi.sub_apply, Pi.zero_apply, smul_eq_mul] using this

end General

/-! ### Concrete cases -/

section Examples

/-- A rational Bézier patch of degrees one and two. -/
def someRuledPatch : RationalBezierPatch ℚ (Fin 1 → ℚ) :=
  let b : BezierPatch (Fin 1 → ℚ) := { grid := someCtrl ++ someCtrl.reverse, degU := 1, degV := 2 }
  { base := b, weights := [tenth, 1, 2, 1, 1, 1],
    hom := { b with grid := homog b.grid [tenth, 1, 2, 1, 1, 1] } }

/-- The hypotheses of `C115_rational_patch_uu_linear` in double precision; the second derivative is not
zero, and rounding shows. -/
example : someRuledPatch.init = ok someRuledPatch ∧ someRuledPatch.base.WellFormed (0 + 1) 2 ∧
    (∀ x ∈ someRuledPatch.weights, tenth ≤ x ∧ x ≤ 2) ∧ (1 + double.unit) ^ (3 * (0 + 1 + 2)) < 2 ∧
    1 / 2 ^ 52 < (2 - (1 + double.unit) ^ (3 * (0 + 1 + 2))) * tenth ∧
    (∀ a ≤ 0, ∀ b ≤ 2, |((0 + 1 : ℕ) : ℚ) * (gridPoint someRuledPatch.weights 3 (a + 1) b
        - gridPoint someRuledPatch.weights 3 a b)| ≤ 1) ∧
    (someRuledPatch.derivUU (1 / 2 ^ 52) (1 / 4 : ℚ) (1 / 4) >>= fun q => ok (q 0)) ≠ ok 0 ∧
    (rationalPatchDerivUU double (1 / 2 ^ 52) ⟨fun _ _ _ _ => .none, fun _ _ _ => .none⟩
      ⟨fun _ _ _ _ => .none, fun _ _ _ => .none⟩ ⟨fun _ _ _ _ => .none, fun _ _ _ => .none⟩
      ⟨fun _ _ _ _ => .none, fun _ _ _ => .none⟩ ⟨fun _ _ _ _ => .none, fun _ _ _ => .none⟩
      (fun _ => false) (fun _ => false) someRuledPatch.base someRuledPatch.weights
      (1 / 4) (1 / 4) >>= fun q => ok (q 0))
    ≠ (someRuledPatch.derivUU (1 / 2 ^ 52) (1 / 4 : ℚ) (1 / 4) >>= fun q => ok (q 0)) := by
  refine ⟨(RationalBezierPatch.init_iff _ _).2 ⟨⟨rfl, rfl, by decide +kernel⟩, by decide +kernel,
    by decide +kernel⟩, ⟨rfl, rfl, rfl⟩, by decide +kernel, by decide +kernel, by decide +kernel,
    ?_, by decide +kernel, by decide +kernel⟩
  intro a ha b hb
  interval_cases a; interval_cases b <;> decide +kernel

/-- A rational Bézier patch of degrees two and one. -/
def someRuledPatch' : RationalBezierPatch ℚ (Fin 1 → ℚ) :=
  let b : BezierPatch (Fin 1 → ℚ) := { grid := someCtrl ++ someCtrl.reverse, degU := 2, degV := 1 }
  { base := b, weights := [tenth, 1, 1, 1, 2, 1],
    hom := { b with grid := homog b.grid [tenth, 1, 1, 1, 2, 1] } }

/-- The hypotheses of `C115_rational_patch_vv_linear` in double precision; the second derivative is not
zero. -/
example : someRuledPatch'.init = ok someRuledPatch' ∧ someRuledPatch'.base.WellFormed 2 (0 + 1) ∧
    (∀ x ∈ someRuledPatch'.weights, tenth ≤ x ∧ x ≤ 2) ∧ (1 + double.unit) ^ (3 * (2 + (0 + 1))) < 2 ∧
    1 / 2 ^ 52 < (2 - (1 + double.unit) ^ (3 * (2 + (0 + 1)))) * tenth ∧
    (∀ b ≤ 0, ∀ a ≤ 2, |((0 + 1 : ℕ) : ℚ) * (gridPoint someRuledPatch'.weights (0 + 2) a (b + 1)
        - gridPoint someRuledPatch'.weights (0 + 2) a b)| ≤ 1) ∧
    (someRuledPatch'.derivVV (1 / 2 ^ 52) (1 / 4 : ℚ) (1 / 4) >>= fun q => ok (q 0)) ≠ ok 0 := by
  refine ⟨(RationalBezierPatch.init_iff _ _).2 ⟨⟨rfl, rfl, by decide +kernel⟩, by decide +kernel,
    by decide +kernel⟩, ⟨rfl, rfl, rfl⟩, by decide +kernel, by decide +kernel, by decide +kernel,
    ?_, by decide +kernel⟩
  intro b hb a ha
  interval_cases b; interval_cases a <;> decide +kernel

/-- A rational Bézier curve of degree one. -/
def someRationalLine : RationalBezier ℚ (Fin 1 → ℚ) :=
  { base := { ctrl := someCtrl.take 2 }, weights := [tenth, 1],
    hom := { ctrl := homog (someCtrl.take 2) [tenth, 1] } }

/-- The hypotheses of `C113_rational_second_linear` in double precision; the second derivative is not
zero, and rounding shows. -/
example : someRationalLine.init = ok someRationalLine ∧ someRationalLine.base.ctrl.length = 0 + 2 ∧
    (∀ x ∈ someRationalLine.weights, tenth ≤ x ∧ x ≤ 1) ∧ (1 + double.unit) ^ (3 * (0 + 1)) < 2 ∧
    (∀ j ≤ 0, |((0 + 1 : ℕ) : ℚ) * (someRationalLine.weights.getD (j + 1) 0
        - someRationalLine.weights.getD j 0)| ≤ 1) ∧
    (someRationalLine.evaluate2ndDerivative (1 / 4 : ℚ) >>= fun q => ok (q 0)) ≠ ok 0 ∧
    (rational2ndDerivative double (fun _ _ _ => .none) (fun _ _ _ => .none) (fun _ _ _ => .none)
      (fun _ => false) (fun _ => false) someRationalLine.base.ctrl someRationalLine.weights
      someRationalLine.base.periodic (1 / 4) >>= fun q => ok (q 0))
    ≠ (someRationalLine.evaluate2ndDerivative (1 / 4 : ℚ) >>= fun q => ok (q 0)) := by
  refine ⟨(RationalBezier.init_iff _ _).2 ⟨⟨rfl, rfl⟩, by decide +kernel, by decide +kernel⟩, rfl,
    by decide +kernel, by decide +kernel, ?_, by decide +kernel, by decide +kernel⟩
  intro j hj
  interval_cases j; decide +kernel

end Examples

end NS.Fl
