import Verif.Props.FloatPatchLow
import Verif.Props.FloatNurbsConstant

/-!
# Properties C88, C113, C114 and C115: derivatives of curves and patches of degree zero
-/

set_option linter.unusedSectionVars false

namespace NS.Fl

open Outcome Finset Spec NS.Props

section General

variable {K ι : Type} [Field K] [LinearOrder K] [IsStrictOrderedRing K] [FloorRing K]

theorem bezier_first_low (R : Rounding K) (F : ℕ → ℕ → ι → Fuse) (c : ℕ → ι → K) (t : K) :
    bezierDerivative R F { ctrl := arr (0 + 1) c } t = ok 0 := by
  unfold bezierDerivative
  rw [show bezierWrap R false t = ok t by simp [bezierWrap], ok_bind]
  simp [Bezier.degree, assert_true]

theorem one_point (R : Rounding K) (H : ℕ → ℕ → ι → Fuse) (P : ℕ → ι → K) (t : K) :
    bezierEvaluate R H { ctrl := arr (0 + 1) P } t = ok (P 0) := by
  unfold bezierEvaluate
  rw [show bezierWrap R false t = ok t by simp [bezierWrap], ok_bind]
  simp only [Bezier.degree, arr_length, zero_add, Nat.cast_one, sub_self, Int.toNat_zero]
  rfl

/-- The zero patch evaluates to zero everywhere. -/
theorem zero_patch_rounded (R : Rounding K) (F : ℕ → ℕ → ℕ → ι → Fuse) (G : ℕ → ℕ → ι → Fuse) (u v : K) :
    patchEvaluate R F G { grid := [0], degU := 0, degV := 0 } u v = ok 0 := by
  have hwf : BezierPatch.WellFormed ({ grid := [0], degU := 0, degV := 0 } : BezierPatch (ι → K)) 0 0 :=
    ⟨rfl, rfl, rfl⟩
  unfold patchEvaluate
  rw [if_neg (lt_irrefl _), isoU_run R F hwf rfl rfl (fun a => one_point R (F a) _ v), ok_bind, one_point]
  simp [BezierPatch.pts, gridPoint]

/-- **C114**: the mixed second derivative of a Bézier patch of degree zero in `u` or `v` is zero
everywhere, without error. -/
theorem C114_patch_mixed_constant (R : Rounding K) (F : ℕ → ℕ → ℕ → ι → Fuse) (G : ℕ → ℕ → ι → Fuse)
    {p : BezierPatch (ι → K)} {m n : ℕ} (hp : p.WellFormed m n) (h0 : m = 0 ∨ n = 0) (u v : K) :
    patchDerivUV R F G p u v = ok 0 ∧ p.derivUV u v = ok 0 := by
  constructor
  · unfold patchDerivUV mixedPatch
    rw [hp.degreeU, ok_bind, hp.degreeV, ok_bind, if_pos h0, BezierPatch.zeroPatch_eq, ok_bind]
    exact zero_patch_rounded R F G u v
  · unfold BezierPatch.derivUV BezierPatch.duvPatch
    rw [hp.degreeU, ok_bind, hp.degreeV, ok_bind, if_pos h0, BezierPatch.zeroPatch_eq, ok_bind]
    exact BezierPatch.zeroPatch_evaluate u v

/-! ### Direction `u` -/

/-- **C114**: the derivative in `u` of a Bézier patch of degree zero in `u` is zero, without error. -/
theorem C114_patch_u_constant (R : Rounding K) (F : ℕ → ℕ → ℕ → ι → Fuse) (G : ℕ → ℕ → ι → Fuse)
    {p : BezierPatch (ι → K)} {n : ℕ} (hp : p.WellFormed 0 n) (pu : p.perU = false)
    (pv : p.perV = false) {u v : K} (v0 : 0 ≤ v) (v1 : v ≤ 1) :
    patchDerivU R F G p u v = ok 0 ∧ p.derivU u v = ok 0 := by
  constructor
  · obtain ⟨c, hc, -⟩ := iso_points R F n (p.pts n) v0 v1
    unfold patchDerivU
    rw [isoU_run R F hp pu pv hc, ok_bind]
    exact bezier_first_low R G c u
  · rw [hp.derivU (by rw [pu]; rfl) (by rw [pv]; rfl)]
    simp [BezierPatch.part]

/-- The derivative in `v` returns. -/
theorem bezier_patch_v_returns (R : Rounding K) (F : ℕ → ℕ → ℕ → ι → Fuse) (G : ℕ → ℕ → ι → Fuse)
    {p : BezierPatch (ι → K)} {m n : ℕ} (hp : p.WellFormed m n) (pu : p.perU = false)
    (pv : p.perV = false) {u v : K} (u0 : 0 ≤ u) (u1 : u ≤ 1) (v0 : 0 ≤ v) (v1 : v ≤ 1) :
    ∃ q, patchDerivV R F G p u v = ok q := by
  obtain ⟨c, hc, -⟩ := iso_points R F m (fun b a => p.pts n a b) u0 u1
  unfold patchDerivV
  rw [isoV_run R F hp pu pv hc, ok_bind]
  cases n with
  | zero => exact ⟨0, bezier_first_low R G c v⟩
  | succ k =>
    obtain ⟨q, hq, -⟩ := bezier_deriv_axis R G k c v0 v1
    exact ⟨q, hq⟩

/-- **C114**, **C115**: the derivatives of a rational Bézier patch of degree zero in `u` that involve `u`
are zero, without error. -/
theorem C115_rational_patch_u_constant (R : Rounding K) (tol : K) (a b b' k k' d e d' e' : Fuses ι)
    (f g h : ι → Bool) {c : RationalBezierPatch K (ι → K)} (hinit : c.init = ok c) {n : ℕ}
    (hp : c.base.WellFormed 0 n) (pu : c.base.perU = false) (pv : c.base.perV = false)
    {lo : K} (hlo : 0 < lo) (hwt : ∀ x ∈ c.weights, lo ≤ x)
    (hcond : (1 + R.unit) ^ (3 * (0 + n)) < 2) {u v : K} (u0 : 0 ≤ u) (u1 : u ≤ 1) (v0 : 0 ≤ v)
    (v1 : v ≤ 1) :
    (rationalPatchDerivU R a.iso b.iso a.curve b.curve c.base c.weights u v = ok 0 ∧
      c.derivU u v = ok 0) ∧
    (rationalPatchDerivUU R tol a b k d e f g c.base c.weights u v = ok 0 ∧
      c.derivUU tol u v = ok 0) ∧
    (rationalPatchDerivUV R tol a b b' k' d e d' e' f g h c.base c.weights u v = ok 0 ∧
      c.derivUV tol u v = ok 0) := by
  obtain ⟨Sy, -, -⟩ := (RationalBezierPatch.init_iff _ _).1 hinit
  have hlen := Sy.len
  have hH : BezierPatch.WellFormed (BezierPatch.mk (homPts R c.base.grid c.weights) c.base.degU
      c.base.degV c.base.perU c.base.perV c.base.sU c.base.sV) 0 n :=
    ⟨hp.degU, hp.degV, by simp only [homPts_length R _ _ hlen]; exact hp.len⟩
  have value : ∀ a : Fuses ι, ∃ x, patchEvaluate R a.iso a.curve (BezierPatch.mk
      (homPts R c.base.grid c.weights) c.base.degU c.base.degV c.base.perU c.base.perV c.base.sU c.base.sV)
      u v = ok x ∧ x none ≠ 0 := by
    intro a
    obtain ⟨x, ex, hWlo, en, -⟩ := rational_patch_value R a.iso a.curve hp pu pv hlen hlo hwt u0 u1 v0 v1
    exact ⟨x, ex, (Maj.inv (lt_of_lt_of_le hlo hWlo) (by linarith) en).1.ne'⟩
  obtain ⟨x, ex, hx⟩ := value a
  obtain ⟨-, -, hWlo, -, -⟩ := rational_patch_value R a.iso a.curve hp pu pv hlen hlo hwt u0 u1 v0 v1
  have hW := (lt_of_lt_of_le hlo hWlo).ne'
  have exx := rational_patch_exact Sy hp pu pv u v
  have hh : c.hom.WellFormed 0 n := by
    rw [Sy.hom]
    exact ⟨hp.degU, hp.degV, by simp only; rw [homog_length hlen]; exact hp.len⟩
  have wu : Bezier.wrap c.hom.perU u = ok u := by rw [Sy.hom]; simp [pu, Bezier.wrap]
  have wv : Bezier.wrap c.hom.perV v = ok v := by rw [Sy.hom]; simp [pv, Bezier.wrap]
  have e1 : c.hom.derivU u v = ok 0 := by
    rw [hh.derivU wu wv]
    simp [BezierPatch.part]
  have e2 : c.hom.derivUU u v = ok 0 := by
    rw [hh.derivUU wu wv]
    simp [BezierPatch.part]
  have e3 : c.hom.derivUV u v = ok 0 := by
    rw [hh.derivUV wu wv]
    simp [BezierPatch.part]
  have first : ∀ a b : Fuses ι,
      rationalPatchDerivU R a.iso b.iso a.curve b.curve c.base c.weights u v = ok 0 := by
    intro a b
    obtain ⟨x, ex, hx⟩ := value a
    unfold rationalPatchDerivU
    rw [homogenize_eq R _ _ hlen, ok_bind]
    dsimp only
    rw [ex, ok_bind, (C114_patch_u_constant R b.iso b.curve hH pu pv v0 v1).1,
      ok_bind]
    exact derivQuotient_zero R hx
  obtain ⟨s, hs⟩ : ∃ s, rationalPatchDerivV R d'.iso e'.iso d'.curve e'.curve c.base c.weights u v = ok s := by
    obtain ⟨x, ex, hx⟩ := value d'
    obtain ⟨y, hy⟩ := bezier_patch_v_returns R e'.iso e'.curve hH pu pv u0 u1 v0 v1
    unfold rationalPatchDerivV
    rw [homogenize_eq R _ _ hlen, ok_bind]
    dsimp only
    rw [ex, ok_bind, hy, ok_bind]
    unfold derivQuotient
    rw [assert_true hx, ok_bind]
    exact ⟨_, rfl⟩
  obtain ⟨y, hy⟩ := bezier_patch_v_returns R b'.iso b'.curve hH pu pv u0 u1 v0 v1
  refine ⟨⟨first a b, ?_⟩, ⟨?_, ?_⟩, ⟨?_, ?_⟩⟩
  · unfold RationalBezierPatch.derivU
    rw [Sy.validate, ok_bind, exx, ok_bind, e1, ok_bind]
    unfold quot1
    rw [assert_true hW, ok_bind, pure_eq]
    simp
  · unfold rationalPatchDerivUU ratHom
    rw [homogenize_eq R _ _ hlen, ok_bind, pure_eq, ok_bind, ex, ok_bind,
      (C114_patch_u_constant R b.iso b.curve hH pu pv v0 v1).1, ok_bind,
      (C114_patch_second_uu_low R k.iso k.curve hH (Nat.zero_le 1) pu pv v0 v1).1, ok_bind, first]
    exact sameQuotient_zero R tol f g hx
  · unfold RationalBezierPatch.derivUU
    rw [Sy.validate, ok_bind, exx, ok_bind, e1, ok_bind, e2, ok_bind]
    unfold quotSame quot0 quot1
    split
    · rfl
    · rw [assert_true hW, ok_bind, pure_eq, ok_bind, ok_bind, pure_eq, ok_bind, pure_eq]
      simp
  · unfold rationalPatchDerivUV ratHom
    rw [homogenize_eq R _ _ hlen, ok_bind, pure_eq, ok_bind, ex, ok_bind,
      (C114_patch_u_constant R b.iso b.curve hH pu pv v0 v1).1, ok_bind, hy, ok_bind,
      (C114_patch_mixed_constant R k'.iso k'.curve hH (Or.inl rfl) u v).1, ok_bind, first, hs]
    exact mixedQuotient_zero_u R tol f g h hx y s
  · unfold RationalBezierPatch.derivUV
    rw [Sy.validate, ok_bind, exx, ok_bind, e1, ok_bind, hh.derivV wu wv, ok_bind, e3, ok_bind]
    unfold quotMixed quot0 quot1
    split
    · rfl
    · rw [assert_true hW]
      simp [pure_eq]

/-! ### Direction `v` -/

/-- **C114**: the derivative in `v` of a Bézier patch of degree zero in `v` is zero, without error. -/
theorem C114_patch_v_constant (R : Rounding K) (F : ℕ → ℕ → ℕ → ι → Fuse) (G : ℕ → ℕ → ι → Fuse)
    {p : BezierPatch (ι → K)} {n : ℕ} (hp : p.WellFormed n 0) (pu : p.perU = false)
    (pv : p.perV = false) {u v : K} (u0 : 0 ≤ u) (u1 : u ≤ 1) :
    patchDerivV R F G p u v = ok 0 ∧ p.derivV u v = ok 0 := by
  constructor
  · obtain ⟨c, hc, -⟩ := iso_points R F n (fun b a => p.pts 0 a b) u0 u1
    unfold patchDerivV
    rw [isoV_run R F hp pu pv hc, ok_bind]
    exact bezier_first_low R G c v
  · rw [hp.derivV (by rw [pu]; rfl) (by rw [pv]; rfl)]
    simp [BezierPatch.part]

/-- The derivative in `u` returns. -/
theorem bezier_patch_u_returns (R : Rounding K) (F : ℕ → ℕ → ℕ → ι → Fuse) (G : ℕ → ℕ → ι → Fuse)
    {p : BezierPatch (ι → K)} {m n : ℕ} (hp : p.WellFormed m n) (pu : p.perU = false)
    (pv : p.perV = false) {u v : K} (u0 : 0 ≤ u) (u1 : u ≤ 1) (v0 : 0 ≤ v) (v1 : v ≤ 1) :
    ∃ q, patchDerivU R F G p u v = ok q := by
  obtain ⟨c, hc, -⟩ := iso_points R F n (p.pts n) v0 v1
  unfold patchDerivU
  rw [isoU_run R F hp pu pv hc, ok_bind]
  cases m with
  | zero => exact ⟨0, bezier_first_low R G c u⟩
  | succ k =>
    obtain ⟨q, hq, -⟩ := bezier_deriv_axis R G k c u0 u1
    exact ⟨q, hq⟩

/-- **C114**, **C115**: the derivatives of a rational Bézier patch of degree zero in `v` that involve `v`
are zero, without error. -/
theorem C115_rational_patch_v_constant (R : Rounding K) (tol : K) (a b b' k k' d e d' e' : Fuses ι)
    (f g h : ι → Bool) {c : RationalBezierPatch K (ι → K)} (hinit : c.init = ok c) {n : ℕ}
    (hp : c.base.WellFormed n 0) (pu : c.base.perU = false) (pv : c.base.perV = false)
    {lo : K} (hlo : 0 < lo) (hwt : ∀ x ∈ c.weights, lo ≤ x)
    (hcond : (1 + R.unit) ^ (3 * (n + 0)) < 2) {u v : K} (u0 : 0 ≤ u) (u1 : u ≤ 1) (v0 : 0 ≤ v)
    (v1 : v ≤ 1) :
    (rationalPatchDerivV R a.iso b.iso a.curve b.curve c.base c.weights u v = ok 0 ∧
      c.derivV u v = ok 0) ∧
    (rationalPatchDerivVV R tol a b k d e f g c.base c.weights u v = ok 0 ∧
      c.derivVV tol u v = ok 0) ∧
    (rationalPatchDerivUV R tol a b b' k' d e d' e' f g h c.base c.weights u v = ok 0 ∧
      c.derivUV tol u v = ok 0) := by
  obtain ⟨Sy, -, -⟩ := (RationalBezierPatch.init_iff _ _).1 hinit
  have hlen := Sy.len
  have hH : BezierPatch.WellFormed (BezierPatch.mk (homPts R c.base.grid c.weights) c.base.degU
      c.base.degV c.base.perU c.base.perV c.base.sU c.base.sV) n 0 :=
    ⟨hp.degU, hp.degV, by simp only [homPts_length R _ _ hlen]; exact hp.len⟩
  have value : ∀ a : Fuses ι, ∃ x, patchEvaluate R a.iso a.curve (BezierPatch.mk
      (homPts R c.base.grid c.weights) c.base.degU c.base.degV c.base.perU c.base.perV c.base.sU c.base.sV)
      u v = ok x ∧ x none ≠ 0 := by
    intro a
    obtain ⟨x, ex, hWlo, en, -⟩ := rational_patch_value R a.iso a.curve hp pu pv hlen hlo hwt u0 u1 v0 v1
    exact ⟨x, ex, (Maj.inv (lt_of_lt_of_le hlo hWlo) (by linarith) en).1.ne'⟩
  obtain ⟨x, ex, hx⟩ := value a
  obtain ⟨-, -, hWlo, -, -⟩ := rational_patch_value R a.iso a.curve hp pu pv hlen hlo hwt u0 u1 v0 v1
  have hW := (lt_of_lt_of_le hlo hWlo).ne'
  have exx := rational_patch_exact Sy hp pu pv u v
  have hh : c.hom.WellFormed n 0 := by
    rw [Sy.hom]
    exact ⟨hp.degU, hp.degV, by simp only; rw [homog_length hlen]; exact hp.len⟩
  have wu : Bezier.wrap c.hom.perU u = ok u := by rw [Sy.hom]; simp [pu, Bezier.wrap]
  have wv : Bezier.wrap c.hom.perV v = ok v := by rw [Sy.hom]; simp [pv, Bezier.wrap]
  have e1 : c.hom.derivV u v = ok 0 := by
    rw [hh.derivV wu wv]
    simp [BezierPatch.part]
  have e2 : c.hom.derivVV u v = ok 0 := by
    rw [hh.derivVV wu wv]
    simp [BezierPatch.part]
  have e3 : c.hom.derivUV u v = ok 0 := by
    rw [hh.derivUV wu wv]
    simp [BezierPatch.part]
  have first : ∀ a b : Fuses ι,
      rationalPatchDerivV R a.iso b.iso a.curve b.curve c.base c.weights u v = ok 0 := by
    intro a b
    obtain ⟨x, ex, hx⟩ := value a
    unfold rationalPatchDerivV
    rw [homogenize_eq R _ _ hlen, ok_bind]
    dsimp only
    rw [ex, ok_bind, (C114_patch_v_constant R b.iso b.curve hH pu pv u0 u1).1,
      ok_bind]
    exact derivQuotient_zero R hx
  obtain ⟨s, hs⟩ : ∃ s, rationalPatchDerivU R d.iso e.iso d.curve e.curve c.base c.weights u v = ok s := by
    obtain ⟨x, ex, hx⟩ := value d
    obtain ⟨y, hy⟩ := bezier_patch_u_returns R e.iso e.curve hH pu pv u0 u1 v0 v1
    unfold rationalPatchDerivU
    rw [homogenize_eq R _ _ hlen, ok_bind]
    dsimp only
    rw [ex, ok_bind, hy, ok_bind]
    unfold derivQuotient
    rw [assert_true hx, ok_bind]
    exact ⟨_, rfl⟩
  obtain ⟨y, hy⟩ := bezier_patch_u_returns R b.iso b.curve hH pu pv u0 u1 v0 v1
  refine ⟨⟨first a b, ?_⟩, ⟨?_, ?_⟩, ⟨?_, ?_⟩⟩
  · unfold RationalBezierPatch.derivV
    rw [Sy.validate, ok_bind, exx, ok_bind, e1, ok_bind]
    unfold quot1
    rw [assert_true hW, ok_bind, pure_eq]
    simp
  · unfold rationalPatchDerivVV ratHom
    rw [homogenize_eq R _ _ hlen, ok_bind, pure_eq, ok_bind, ex, ok_bind,
      (C114_patch_v_constant R b.iso b.curve hH pu pv u0 u1).1, ok_bind,
      (C114_patch_second_vv_low R k.iso k.curve hH (Nat.zero_le 1) pu pv u0 u1).1, ok_bind, first]
    exact sameQuotient_zero R tol f g hx
  · unfold RationalBezierPatch.derivVV
    rw [Sy.validate, ok_bind, exx, ok_bind, e1, ok_bind, e2, ok_bind]
    unfold quotSame quot0 quot1
    split
    · rfl
    · rw [assert_true hW, ok_bind, pure_eq, ok_bind, ok_bind, pure_eq, ok_bind, pure_eq]
      simp
  · unfold rationalPatchDerivUV ratHom
    rw [homogenize_eq R _ _ hlen, ok_bind, pure_eq, ok_bind, ex, ok_bind, hy, ok_bind,
      (C114_patch_v_constant R b'.iso b'.curve hH pu pv u0 u1).1, ok_bind,
      (C114_patch_mixed_constant R k'.iso k'.curve hH (Or.inr rfl) u v).1, ok_bind, first, hs]
    exact mixedQuotient_zero_v R tol f g h hx y s
  · unfold RationalBezierPatch.derivUV
    rw [Sy.validate, ok_bind, exx, ok_bind, hh.derivU wu wv, ok_bind, e1, ok_bind, e3, ok_bind]
    unfold quotMixed quot0 quot1
    split
    · rfl
    · rw [assert_true hW]
      simp [pure_eq]

/-! ### Curves -/

theorem deriv2Quotient_zero (R : Rounding K) (f g : ι → Bool) {x : Option ι → K} (hx : x none ≠ 0) :
    deriv2Quotient R f g x 0 0 = ok 0 := by
  unfold deriv2Quotient
  rw [assert_true hx, ok_bind, derivQuotient_zero R hx, ok_bind, pure_eq]
  refine congrArg ok (funext fun i => ?_)
  unfold subMul
  split <;> split <;> simp [rnd_zero]

/-- **C88**, **C113**: the derivatives of a rational Bézier curve with one control point are zero, without
error. -/
theorem C113_rational_constant (R : Rounding K) (F G H : ℕ → ℕ → Option ι → Fuse) (f g : ι → Bool)
    {c : RationalBezier K (ι → K)} (hinit : c.init = ok c) (hn : c.base.ctrl.length = 0 + 1)
    (hper : c.base.periodic = false) (hwt : ∀ x ∈ c.weights, 0 < x) (t : K) :
    (rationalDerivative R F G c.base.ctrl c.weights c.base.periodic t = ok 0 ∧
      c.evaluateDerivative t = ok 0) ∧
    (rational2ndDerivative R F G H f g c.base.ctrl c.weights c.base.periodic t = ok 0 ∧
      c.evaluate2ndDerivative t = ok 0) := by
  obtain ⟨Sy, -, -⟩ := (RationalBezier.init_iff _ _).1 hinit
  have hlen := Sy.len
  set P := c.base.ctrl with hPd
  set w := c.weights with hwd
  have hQ : homPts R P w = arr (0 + 1) fun j => (homPts R P w).getD j 0 := by
    have := eq_arr (homPts R P w) 0
    rwa [homPts_length R P w hlen, hn] at this
  have hH : homog P w = arr (0 + 1) fun j => (homog P w).getD j 0 := by
    have := eq_arr (homog P w) 0
    rwa [homog_length hlen, hn] at this
  have w0 : w.getD 0 0 ≠ 0 := by
    rw [getD_of_lt _ (by omega)]
    exact (hwt _ (List.getElem_mem _)).ne'
  have key : bezierEvaluate R F { ctrl := arr (0 + 1) fun j => (homPts R P w).getD j 0 } t
      = ok ((homPts R P w).getD 0 0) := one_point R F _ t
  have hx : (homPts R P w).getD 0 0 none ≠ 0 := by rw [homPts_none R _ _ hlen]; exact w0
  have ehom : c.hom = { ctrl := arr (0 + 1) fun j => (homog P w).getD j 0 } := by
    rw [Sy.hom, hper, ← hPd, ← hwd, ← hH]
  have e0 : c.hom.evaluate t = ok ((homog P w).getD 0 0) := by
    rw [ehom, Bezier.evaluate_arr]
    simp [umb_one]
  have hs : ((homog P w).getD 0 0).2 ≠ 0 := by
    rw [homog_getD 0 hlen]
    exact w0
  have e1 : c.hom.evaluateDerivative t = ok 0 := by
    rw [ehom]
    unfold Bezier.evaluateDerivative
    simp [Bezier.wrap, Bezier.degree, assert_true]
  have e2 : c.hom.evaluate2ndDerivative t = ok 0 := by
    rw [ehom]
    unfold Bezier.evaluate2ndDerivative
    simp [Bezier.wrap, Bezier.degree, assert_true]
  have d1 := bezier_first_low R G (fun j => (homPts R P w).getD j 0) t
  have d2 := bezier_second_low R H (Nat.zero_le 1) (fun j => (homPts R P w).getD j 0) t
  rw [← hQ] at key d1 d2
  refine ⟨⟨?_, ?_⟩, ?_, ?_⟩
  · unfold rationalDerivative
    rw [homogenize_eq R _ _ hlen, ok_bind, hper, key, ok_bind, d1, ok_bind]
    exact derivQuotient_zero R hx
  · unfold RationalBezier.evaluateDerivative
    rw [Sy.validate, ok_bind, e0, ok_bind, e1, ok_bind]
    unfold quot1
    rw [assert_true hs, ok_bind, pure_eq]
    simp
  · unfold rational2ndDerivative
    rw [homogenize_eq R _ _ hlen, ok_bind, hper, key, ok_bind, d1, ok_bind, d2, ok_bind]
    exact deriv2Quotient_zero R f g hx
  · unfold RationalBezier.evaluate2ndDerivative
    rw [Sy.validate, ok_bind, e0, ok_bind, e1, ok_bind, e2, ok_bind]
    unfold quot2
    rw [assert_true hs, ok_bind, pure_eq]
    simp

/-- **C88**, **C113**: the derivatives of a NURBS curve of degree zero are zero, without error. -/
theorem C113_nurbs_constant (R : Rounding K) (hu1 : R.unit < 1) (F G H : ℕ → ℕ → Option ι → Fuse)
    (f g : ι → Bool) {c : NURBS K (ι → K)} (hinit : c.init = ok c)
    (hc : BSpline.WellFormed c.base 0) (hper : c.base.periodic = false)
    (hw : FlWide R c.base 0) {lo hi : K} (hlo : 0 < lo) (hwt : ∀ x ∈ c.weights, lo ≤ x ∧ x ≤ hi) {t : K}
    (hf : BSpline.FirstSpan c.base 0 ∨ knot c.base.knots 0 < t)
    (h1 : knot c.base.knots 0 ≤ t) (h2 : t ≤ knot c.base.knots c.base.ctrl.length) :
    (nurbsDerivative R F G c.base c.weights t = ok 0 ∧ c.evaluateDerivative t = ok 0) ∧
    (nurbs2ndDerivative R F G H f g c.base c.weights t = ok 0 ∧ c.evaluate2ndDerivative t = ok 0) := by
  obtain ⟨Sy, -, -⟩ := (NURBS.init_iff _ _).1 hinit
  have hlen := Sy.len
  obtain ⟨x, ex, hWlo, en, -⟩ := nurbs_hom R hu1 F hc hper hw hlen hlo hwt hf h1 h2
  have hWpos := lt_of_lt_of_le hlo hWlo
  have hx : x none ≠ 0 := (Maj.inv hWpos (by simp) en).1.ne'
  have hhl : (homPts R c.base.ctrl c.weights).length = c.base.ctrl.length := homPts_length R _ _ hlen
  have hwf : BSpline.WellFormed (BSpline.mk (homPts R c.base.ctrl c.weights) c.base.knots c.base.periodic
      c.base.sdeg) 0 := ⟨by rw [hhl]; exact hc.len, hc.sdeg, by rw [hhl]; exact hc.ctrl, hc.sorted,
    by rw [hhl]; exact hc.dom⟩
  have d1 := first_low R G hwf hper (t := t) hf
  have d2 := (C113_bspline_second_low R H hwf (Nat.zero_le 1) hper (t := t) hf).1
  have hp : c.hom.periodic = false := by rw [Sy.hom]; exact hper
  have hf' : BSpline.FirstSpan c.hom 0 ∨ knot c.hom.knots 0 < t := by rw [Sy.first, Sy.knots]; exact hf
  have e1 := first_low_exact (Sy.wf.2 hc) hp hf'
  have e2 := second_low_exact (Sy.wf.2 hc) (Nat.zero_le 1) hp hf'
  obtain ⟨y, ey, hy⟩ : ∃ y, c.hom.evaluate t = ok y ∧ y.2 ≠ 0 := by
    have e := BSpline.evaluate_eq (Sy.wf.2 hc) (Sy.wide.2 hw.wide) (t := t) (t' := t)
      (by rw [Sy.wrap]; simp [BSpline.wrap, hper]) hf'
      (by rw [Sy.knots]; exact h1) (by rw [Sy.knots, Sy.homLen]; exact h2)
    rw [Sy.ctrl, Sy.knots, homog_bsplinePoint hlen] at e
    refine ⟨_, e, ?_⟩
    refine ne_of_eq_of_ne ?_ hWpos.ne'
    rw [hlen]
    unfold ratBSplineDen BSplinePatch.bsum
    simp only [smul_eq_mul]
  refine ⟨⟨?_, ?_⟩, ?_, ?_⟩
  · unfold nurbsDerivative
    rw [homogenize_eq R _ _ hlen, ok_bind, BSpline.validate_ok hc, ok_bind, ex, ok_bind, d1, ok_bind]
    exact derivQuotient_zero R hx
  · unfold NURBS.evaluateDerivative
    rw [Sy.validate, BSpline.validate_ok hc, ok_bind, ey, ok_bind, e1, ok_bind]
    unfold quot1
    rw [assert_true hy, ok_bind, pure_eq]
    simp
  · unfold nurbs2ndDerivative
    rw [homogenize_eq R _ _ hlen, ok_bind, BSpline.validate_ok hc, ok_bind, ex, ok_bind, d1, ok_bind, d2,
      ok_bind]
    exact deriv2Quotient_zero R f g hx
  · unfold NURBS.evaluate2ndDerivative
    rw [Sy.validate, BSpline.validate_ok hc, ok_bind, ey, ok_bind, e1, ok_bind, e2, ok_bind]
    unfold quot2
    rw [assert_true hy, ok_bind, pure_eq]
    simp

end General

/-! ### Concrete cases -/

section Examples

/-- A rational Bézier patch of degrees zero and two. -/
def someStripPatch : RationalBezierPatch ℚ (Fin 1 → ℚ) :=
  let b : BezierPatch (Fin 1 → ℚ) := { grid := someCtrl, degU := 0, degV := 2 }
  { base := b, weights := [tenth, 1, 2], hom := { b with grid := homog b.grid [tenth, 1, 2] } }

/-- The hypotheses of `C115_rational_patch_u_constant` in double precision; the derivative in the other
direction is not zero. -/
example : someStripPatch.init = ok someStripPatch ∧ someStripPatch.base.WellFormed 0 2 ∧
    (∀ x ∈ someStripPatch.weights, tenth ≤ x) ∧ (1 + double.unit) ^ (3 * (0 + 2)) < 2 ∧
    (someStripPatch.derivV (1 / 4 : ℚ) (1 / 4) >>= fun q => ok (q 0)) ≠ ok 0 := by
  exact ⟨(RationalBezierPatch.init_iff _ _).2 ⟨⟨rfl, rfl, by decide +kernel⟩, by decide +kernel,
    by decide +kernel⟩, ⟨rfl, rfl, rfl⟩, by decide +kernel, by decide +kernel, by decide +kernel⟩

/-- A rational Bézier patch of degrees two and zero. -/
def someStripPatch' : RationalBezierPatch ℚ (Fin 1 → ℚ) :=
  let b : BezierPatch (Fin 1 → ℚ) := { grid := someCtrl, degU := 2, degV := 0 }
  { base := b, weights := [tenth, 1, 2], hom := { b with grid := homog b.grid [tenth, 1, 2] } }

/-- The hypotheses of `C115_rational_patch_v_constant` in double precision; the derivative in the other
direction is not zero. -/
example : someStripPatch'.init = ok someStripPatch' ∧ someStripPatch'.base.WellFormed 2 0 ∧
    (∀ x ∈ someStripPatch'.weights, tenth ≤ x) ∧ (1 + double.unit) ^ (3 * (2 + 0)) < 2 ∧
    (someStripPatch'.derivU (1 / 4 : ℚ) (1 / 4) >>= fun q => ok (q 0)) ≠ ok 0 := by
  exact ⟨(RationalBezierPatch.init_iff _ _).2 ⟨⟨rfl, rfl, by decide +kernel⟩, by decide +kernel,
    by decide +kernel⟩, ⟨rfl, rfl, rfl⟩, by decide +kernel, by decide +kernel, by decide +kernel⟩

/-- A rational Bézier curve with one control point. -/
def someRationalPoint : RationalBezier ℚ (Fin 1 → ℚ) :=
  { base := { ctrl := someCtrl.take 1 }, weights := [tenth],
    hom := { ctrl := homog (someCtrl.take 1) [tenth] } }

/-- The hypotheses of `C113_rational_constant`. -/
example : someRationalPoint.init = ok someRationalPoint ∧ someRationalPoint.base.ctrl.length = 0 + 1 ∧
    someRationalPoint.base.periodic = false ∧ (∀ x ∈ someRationalPoint.weights, 0 < x) :=
  ⟨(RationalBezier.init_iff _ _).2 ⟨⟨rfl, rfl⟩, by decide +kernel, by decide +kernel⟩, rfl, rfl,
    by decide +kernel⟩

/-- A NURBS curve of degree zero with three spans. -/
def someStepNurbs : NURBS ℚ (Fin 1 → ℚ) :=
  let b : BSpline ℚ (Fin 1 → ℚ) := { ctrl := someCtrl, knots := [-1, tenth, 2, 3] }
  { base := b, weights := [tenth, 1, 2],
    hom := BSpline.mk (homog b.ctrl [tenth, 1, 2]) b.knots b.periodic b.sdeg }

/-- The hypotheses of `C113_nurbs_constant` in double precision. -/
example : someStepNurbs.init = ok someStepNurbs ∧ BSpline.WellFormed someStepNurbs.base 0 ∧
    FlWide double someStepNurbs.base 0 ∧ BSpline.FirstSpan someStepNurbs.base 0 ∧
    (∀ x ∈ someStepNurbs.weights, tenth ≤ x ∧ x ≤ 2) := by
  refine ⟨NURBS.Sync.init ⟨rfl, rfl⟩, ⟨rfl, Or.inl rfl, by decide, by decide +kernel, by decide +kernel⟩, ?_,
    by unfold BSpline.FirstSpan; decide +kernel, by decide +kernel⟩
  intro j j1 j2 j3
  replace j2 : j < 3 := j2
  interval_cases j <;> decide +kernel

end Examples

end NS.Fl
