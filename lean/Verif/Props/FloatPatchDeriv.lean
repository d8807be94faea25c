import Verif.Model.FloatPatchDeriv
import Verif.Props.FloatSecond

/-!
# Property C114: rounding errors of the derivatives of Bézier patches and rational Bézier patches
-/

set_option linter.unusedSectionVars false

namespace NS.Fl

open Outcome Finset Spec

section General

variable {K ι : Type} [Field K] [LinearOrder K] [IsStrictOrderedRing K] [FloorRing K]

/-! ### One direction after the other -/

theorem bern_sub (n : ℕ) (A B : ℕ → K) (t : K) :
    bern n A t - bern n B t = bern n (fun k => A k - B k) t := by
  unfold bern
  rw [← sum_sub_distrib]
  exact sum_congr rfl fun k _ => by ring

theorem bern_mul (n : ℕ) (x : K) (A : ℕ → K) (t : K) : x * bern n A t = bern n (fun k => x * A k) t := by
  unfold bern
  rw [mul_sum]
  exact sum_congr rfl fun k _ => by ring

theorem bern_abs {n : ℕ} {t : K} (h0 : 0 ≤ t) (h1 : t ≤ 1) {A : ℕ → K} {M : K}
    (hM : ∀ k ≤ n, |A k| ≤ M) : |bern n A t| ≤ M := by
  have hb : ∀ k, 0 ≤ bernstein n k t := fun k => by
    unfold bernstein
    have : 0 ≤ 1 - t := by linarith
    positivity
  unfold bern
  refine (abs_sum_le_sum_abs _ _).trans ?_
  calc _ ≤ ∑ k ∈ range (n + 1), bernstein n k t * M := sum_le_sum fun k hk => by
        rw [abs_mul, abs_of_nonneg (hb k)]
        exact mul_le_mul_of_nonneg_left (hM k (by have := mem_range.1 hk; omega)) (hb k)
    _ = M := by rw [← sum_mul, bernstein_sum, one_mul]

theorem bern_const (n : ℕ) (M t : K) : bern n (fun _ => M) t = M := by
  unfold bern
  rw [← sum_mul, bernstein_sum, one_mul]

theorem umb_bern (n : ℕ) (P : ℕ → ι → K) (t : K) (i : ι) :
    umb P (lin t ^ n) i = bern n (fun k => P k i) t := by
  rw [umb_lin_pow, bern]
  simp only [Finset.sum_apply, Pi.smul_apply, smul_eq_mul]

/-- The error of the differences of the control points of an iso-curve of degree `d`, computed with
relative error `g` from points of size `M`. -/
def isoErr (d : ℕ) (g M : K) : K := 2 * d * ((g - 1) * M)

/-- The control points of the derivative of an iso-curve. -/
def isoDiff (d n : ℕ) (A : ℕ → ℕ → K) (v : K) (k : ℕ) : K :=
  (d : K) * (bern n (A (k + 1)) v - bern n (A k) v)

theorem isoDiff_eq (d n : ℕ) (A : ℕ → ℕ → K) (v : K) (k : ℕ) :
    isoDiff d n A v k = bern n (fun b => (d : K) * (A (k + 1) b - A k b)) v := by
  unfold isoDiff
  rw [bern_sub, bern_mul]

section Axis

variable (R : Rounding K) (F : ℕ → ℕ → ℕ → ι → Fuse) (G : ℕ → ℕ → ι → Fuse) (n : ℕ)
  (P : ℕ → ℕ → ι → K) {u v : K} (u0 : 0 ≤ u) (u1 : u ≤ 1) (v0 : 0 ≤ v) (v1 : v ≤ 1)

include v0 v1 in
/-- The control points of the rounded iso-curve. -/
theorem iso_points : ∃ c : ℕ → ι → K,
    (∀ a, bezierEvaluate R (F a) { ctrl := arr (n + 1) (P a) } v = ok (c a)) ∧
    ∀ i g M (A : ℕ → ℕ → K) a, 1 ≤ g → (∀ b ≤ n, |A a b| ≤ M) →
      (∀ b ≤ n, |P a b i - A a b| ≤ (g - 1) * M) →
      |c a i - bern n (A a) v| ≤ (g * (1 + R.unit) ^ (3 * n) - 1) * M := by
  choose c hc H using fun a => bezier_axis R (F a) n (P a) false (t := v) (t' := v)
    (by simp [bezierWrap]) v0 v1
  refine ⟨c, hc, fun i g M A a hg hA hP => ?_⟩
  have := (H a i g (A a) (fun _ => M) hg hA hP).1
  rwa [bern_const] at this

include u0 u1 v0 v1 in
theorem bezier_patch_deriv (m : ℕ) :
    ∃ (c : ℕ → ι → K) (q : ι → K),
      (∀ a, bezierEvaluate R (F a) { ctrl := arr (n + 1) (P a) } v = ok (c a)) ∧
      bezierDerivative R G { ctrl := arr (m + 2) c } u = ok q ∧
      ∀ i g M T (A : ℕ → ℕ → K), 1 ≤ g → (∀ a ≤ m + 1, ∀ b ≤ n, |A a b| ≤ M) →
        (∀ a ≤ m + 1, ∀ b ≤ n, |P a b i - A a b| ≤ (g - 1) * M) →
        (∀ a ≤ m, ∀ b ≤ n, |((m + 1 : ℕ) : K) * (A (a + 1) b - A a b)| ≤ T) →
        |q i - bern m (isoDiff (m + 1) n A v) u| ≤ ((1 + R.unit) ^ (3 * m + 2) - 1)
            * (T + isoErr (m + 1) (g * (1 + R.unit) ^ (3 * n)) M)
          + isoErr (m + 1) (g * (1 + R.unit) ^ (3 * n)) M ∧
        |bern m (isoDiff (m + 1) n A v) u| ≤ T := by
  obtain ⟨c, hc, H⟩ := iso_points R F n P v0 v1
  obtain ⟨q, hq, H'⟩ := bezier_deriv_axis R G m c u0 u1
  refine ⟨c, q, hc, hq, fun i g M T A hg hA hP hT => ?_⟩
  refine H' i (fun a => bern n (A a) v) T _ (fun k hk => ?_) (fun k hk => ?_)
  · exact (congrArg abs (isoDiff_eq (m + 1) n A v k)).le.trans (bern_abs v0 v1 (hT k hk))
  · have a1 := H i g M A (k + 1) hg (hA _ (by omega)) (hP _ (by omega))
    have a0 := H i g M A k hg (hA _ (by omega)) (hP _ (by omega))
    rw [abs_mul, abs_of_nonneg (by positivity : (0 : K) ≤ ((m + 1 : ℕ) : K))]
    have tri : |c (k + 1) i - c k i - (bern n (A (k + 1)) v - bern n (A k) v)|
        ≤ 2 * ((g * (1 + R.unit) ^ (3 * n) - 1) * M) := by
      rw [abs_le] at a0 a1 ⊢
      constructor <;> linarith [a0.1, a0.2, a1.1, a1.2]
    refine (mul_le_mul_of_nonneg_left tri (by positivity)).trans (le_of_eq ?_)
    unfold isoErr
    ring

include u0 u1 v0 v1 in
theorem bezier_patch_deriv2 (m : ℕ) :
    ∃ (c : ℕ → ι → K) (q : ι → K),
      (∀ a, bezierEvaluate R (F a) { ctrl := arr (n + 1) (P a) } v = ok (c a)) ∧
      bezier2ndDerivative R G { ctrl := arr (m + 3) c } u = ok q ∧
      ∀ i g M T T2 (A : ℕ → ℕ → K), 1 ≤ g → (∀ a ≤ m + 2, ∀ b ≤ n, |A a b| ≤ M) →
        (∀ a ≤ m + 2, ∀ b ≤ n, |P a b i - A a b| ≤ (g - 1) * M) →
        (∀ a ≤ m + 1, ∀ b ≤ n, |((m + 2 : ℕ) : K) * (A (a + 1) b - A a b)| ≤ T) →
        (∀ a ≤ m, ∀ b ≤ n, |((m + 1 : ℕ) : K) * (((m + 2 : ℕ) : K) * (A (a + 2) b - A (a + 1) b)
          - ((m + 2 : ℕ) : K) * (A (a + 1) b - A a b))| ≤ T2) →
        |q i - bern m (fun k => ((m + 1 : ℕ) : K) *
            (isoDiff (m + 2) n A v (k + 1) - isoDiff (m + 2) n A v k)) u|
          ≤ ((1 + R.unit) ^ (3 * m + 2) - 1) * (T2 + 2 * (m + 1 : ℕ) *
              firstErr R T (isoErr (m + 2) (g * (1 + R.unit) ^ (3 * n)) M))
            + 2 * (m + 1 : ℕ) * firstErr R T (isoErr (m + 2) (g * (1 + R.unit) ^ (3 * n)) M) ∧
        |bern m (fun k => ((m + 1 : ℕ) : K) *
            (isoDiff (m + 2) n A v (k + 1) - isoDiff (m + 2) n A v k)) u| ≤ T2 := by
  obtain ⟨c, hc, H⟩ := iso_points R F n P v0 v1
  obtain ⟨q, hq, H'⟩ := bezier_deriv2_axis R G m c u0 u1
  refine ⟨c, q, hc, hq, fun i g M T T2 A hg hA hP hT hT2 => ?_⟩
  refine H' i (fun a => bern n (A a) v) T T2 _ (fun k hk => ?_) (fun k hk => ?_) (fun k hk => ?_)
  · exact (congrArg abs (isoDiff_eq (m + 2) n A v k)).le.trans (bern_abs v0 v1 (hT k hk))
  · have a1 := H i g M A (k + 1) hg (hA _ (by omega)) (hP _ (by omega))
    have a0 := H i g M A k hg (hA _ (by omega)) (hP _ (by omega))
    rw [abs_mul, abs_of_nonneg (by positivity : (0 : K) ≤ ((m + 2 : ℕ) : K))]
    have tri : |c (k + 1) i - c k i - (bern n (A (k + 1)) v - bern n (A k) v)|
        ≤ 2 * ((g * (1 + R.unit) ^ (3 * n) - 1) * M) := by
      rw [abs_le] at a0 a1 ⊢
      constructor <;> linarith [a0.1, a0.2, a1.1, a1.2]
    refine (mul_le_mul_of_nonneg_left tri (by positivity)).trans (le_of_eq ?_)
    unfold isoErr
    ring
  · have e : ((m + 1 : ℕ) : K) * (((m + 2 : ℕ) : K) * (bern n (A (k + 2)) v - bern n (A (k + 1)) v)
        - ((m + 2 : ℕ) : K) * (bern n (A (k + 1)) v - bern n (A k) v))
        = bern n (fun b => ((m + 1 : ℕ) : K) * (((m + 2 : ℕ) : K) * (A (k + 2) b - A (k + 1) b)
          - ((m + 2 : ℕ) : K) * (A (k + 1) b - A k b))) v := by
      rw [bern_sub, bern_mul, bern_sub, bern_mul, bern_sub, bern_mul]
    rw [e]
    exact bern_abs v0 v1 (hT2 k hk)

end Axis

/-! ### Bézier patches -/

section Patches

variable (R : Rounding K) (F : ℕ → ℕ → ℕ → ι → Fuse) (G : ℕ → ℕ → ι → Fuse)
  {p : BezierPatch (ι → K)} {m n : ℕ}

theorem isoU_run (hp : p.WellFormed m n) (pu : p.perU = false) (pv : p.perV = false) {v : K}
    {c : ℕ → ι → K} (hc : ∀ a, bezierEvaluate R (F a) { ctrl := arr (n + 1) (p.pts n a) } v = ok (c a)) :
    isoCurveU R F p v = ok { ctrl := arr (m + 1) c } := by
  unfold isoCurveU
  rw [hp.numU, ok_bind, hp.isoCurvesV, ok_bind, tab_eq (g := c)]
  · rw [ok_bind, pure_eq, pu]
  · intro j hj
    rw [rd_arr hj, ok_bind, pv, hc]

theorem isoV_run (hp : p.WellFormed m n) (pu : p.perU = false) (pv : p.perV = false) {u : K}
    {c : ℕ → ι → K}
    (hc : ∀ b, bezierEvaluate R (F b) { ctrl := arr (m + 1) (fun a => p.pts n a b) } u = ok (c b)) :
    isoCurveV R F p u = ok { ctrl := arr (n + 1) c } := by
  unfold isoCurveV
  rw [hp.numV, ok_bind, hp.isoCurvesU, ok_bind, tab_eq (g := c)]
  · rw [ok_bind, pure_eq, pv]
  · intro j hj
    rw [rd_arr hj, ok_bind, pu, hc]

theorem pts_bound (hp : p.WellFormed m n) {i : ι} {M : K} (hM : ∀ x ∈ p.grid, |x i| ≤ M) (a b : ℕ) :
    |p.pts n a b i| ≤ M := by
  have hne : p.grid ≠ [] := by
    intro e
    have := hp.len
    rw [e] at this
    simp at this
  exact bound_getD hne hM _

/-- **C114**: the partial derivatives of a Bézier patch on the unit square.  `M` bounds the control
points, `T` the control points of the exact derivative: the rounding errors of the iso-curve are
differenced. -/
theorem C114_patch_derivative_u (hp : p.WellFormed (m + 1) n) (pu : p.perU = false)
    (pv : p.perV = false) {u v : K} (u0 : 0 ≤ u) (u1 : u ≤ 1) (v0 : 0 ≤ v) (v1 : v ≤ 1) :
    ∃ q e, patchDerivU R F G p u v = ok q ∧ p.derivU u v = ok e ∧ ∀ i M T,
      (∀ x ∈ p.grid, |x i| ≤ M) →
      (∀ a ≤ m, ∀ b ≤ n, |((m + 1 : ℕ) : K) * (gridPoint p.grid (n + 1) (a + 1) b i
        - gridPoint p.grid (n + 1) a b i)| ≤ T) →
      |q i - e i| ≤ ((1 + R.unit) ^ (3 * m + 2) - 1) * (T + isoErr (m + 1) ((1 + R.unit) ^ (3 * n)) M)
        + isoErr (m + 1) ((1 + R.unit) ^ (3 * n)) M := by
  obtain ⟨c, q, hc, hq, H⟩ := bezier_patch_deriv R F G n (p.pts n) u0 u1 v0 v1 m
  refine ⟨q, _, by unfold patchDerivU; rw [isoU_run R F hp pu pv hc, ok_bind, hq],
    by unfold BezierPatch.derivU; rw [hp.isoCurveU (v := v) (v' := v) (by rw [pv]; rfl), ok_bind, pu, deriv_bern],
    fun i M T hM hT => ?_⟩
  have := (H i 1 M T (fun a b => p.pts n a b i) le_rfl (fun a _ b _ => pts_bound hp hM a b)
    (fun a _ b _ => by simp) hT).1
  rw [one_mul] at this
  simpa only [Finset.sum_apply, Pi.smul_apply, Pi.sub_apply, smul_eq_mul, umb_bern, bern, isoDiff] using this

/-- **C114**: the partial derivative in `v`. -/
theorem C114_patch_derivative_v (hp : p.WellFormed m (n + 1)) (pu : p.perU = false)
    (pv : p.perV = false) {u v : K} (u0 : 0 ≤ u) (u1 : u ≤ 1) (v0 : 0 ≤ v) (v1 : v ≤ 1) :
    ∃ q e, patchDerivV R F G p u v = ok q ∧ p.derivV u v = ok e ∧ ∀ i M T,
      (∀ x ∈ p.grid, |x i| ≤ M) →
      (∀ b ≤ n, ∀ a ≤ m, |((n + 1 : ℕ) : K) * (gridPoint p.grid (n + 2) a (b + 1) i
        - gridPoint p.grid (n + 2) a b i)| ≤ T) →
      |q i - e i| ≤ ((1 + R.unit) ^ (3 * n + 2) - 1) * (T + isoErr (n + 1) ((1 + R.unit) ^ (3 * m)) M)
        + isoErr (n + 1) ((1 + R.unit) ^ (3 * m)) M := by
  obtain ⟨c, q, hc, hq, H⟩ := bezier_patch_deriv R F G m (fun b a => p.pts (n + 1) a b) v0 v1 u0 u1 n
  refine ⟨q, _, by unfold patchDerivV; rw [isoV_run R F hp pu pv hc, ok_bind, hq],
    by unfold BezierPatch.derivV; rw [hp.isoCurveV (u := u) (u' := u) (by rw [pu]; rfl), ok_bind, pv, deriv_bern],
    fun i M T hM hT => ?_⟩
  have := (H i 1 M T (fun b a => p.pts (n + 1) a b i) le_rfl (fun b _ a _ => pts_bound hp hM a b)
    (fun a _ b _ => by simp) hT).1
  rw [one_mul] at this
  simpa only [Finset.sum_apply, Pi.smul_apply, Pi.sub_apply, smul_eq_mul, umb_bern, bern, isoDiff] using this

/-- **C114**: the second derivative in `u`. -/
theorem C114_patch_second_uu (hp : p.WellFormed (m + 2) n) (pu : p.perU = false)
    (pv : p.perV = false) {u v : K} (u0 : 0 ≤ u) (u1 : u ≤ 1) (v0 : 0 ≤ v) (v1 : v ≤ 1) :
    ∃ q e, patchDerivUU R F G p u v = ok q ∧ p.derivUU u v = ok e ∧ ∀ i M T T2,
      (∀ x ∈ p.grid, |x i| ≤ M) →
      (∀ a ≤ m + 1, ∀ b ≤ n, |((m + 2 : ℕ) : K) * (gridPoint p.grid (n + 1) (a + 1) b i
        - gridPoint p.grid (n + 1) a b i)| ≤ T) →
      (∀ a ≤ m, ∀ b ≤ n, |((m + 1 : ℕ) : K) * (((m + 2 : ℕ) : K) *
            (gridPoint p.grid (n + 1) (a + 2) b i - gridPoint p.grid (n + 1) (a + 1) b i)
          - ((m + 2 : ℕ) : K) * (gridPoint p.grid (n + 1) (a + 1) b i
            - gridPoint p.grid (n + 1) a b i))| ≤ T2) →
      |q i - e i| ≤ ((1 + R.unit) ^ (3 * m + 2) - 1) * (T2 + 2 * (m + 1 : ℕ) *
            firstErr R T (isoErr (m + 2) ((1 + R.unit) ^ (3 * n)) M))
          + 2 * (m + 1 : ℕ) * firstErr R T (isoErr (m + 2) ((1 + R.unit) ^ (3 * n)) M) := by
  obtain ⟨c, q, hc, hq, H⟩ := bezier_patch_deriv2 R F G n (p.pts n) u0 u1 v0 v1 m
  refine ⟨q, _, by unfold patchDerivUU; rw [isoU_run R F hp pu pv hc, ok_bind, hq],
    by unfold BezierPatch.derivUU; rw [hp.isoCurveU (v := v) (v' := v) (by rw [pv]; rfl), ok_bind, pu, exact2nd_eq],
    fun i M T T2 hM hT hT2 => ?_⟩
  have := (H i 1 M T T2 (fun a b => p.pts n a b i) le_rfl (fun a _ b _ => pts_bound hp hM a b)
    (fun a _ b _ => by simp) hT hT2).1
  rw [one_mul] at this
  simpa only [Finset.sum_apply, Pi.smul_apply, Pi.sub_apply, smul_eq_mul, umb_bern, bern, isoDiff] using this

/-- **C114**: the second derivative in `v`. -/
theorem C114_patch_second_vv (hp : p.WellFormed m (n + 2)) (pu : p.perU = false)
    (pv : p.perV = false) {u v : K} (u0 : 0 ≤ u) (u1 : u ≤ 1) (v0 : 0 ≤ v) (v1 : v ≤ 1) :
    ∃ q e, patchDerivVV R F G p u v = ok q ∧ p.derivVV u v = ok e ∧ ∀ i M T T2,
      (∀ x ∈ p.grid, |x i| ≤ M) →
      (∀ b ≤ n + 1, ∀ a ≤ m, |((n + 2 : ℕ) : K) * (gridPoint p.grid (n + 3) a (b + 1) i
        - gridPoint p.grid (n + 3) a b i)| ≤ T) →
      (∀ b ≤ n, ∀ a ≤ m, |((n + 1 : ℕ) : K) * (((n + 2 : ℕ) : K) *
            (gridPoint p.grid (n + 3) a (b + 2) i - gridPoint p.grid (n + 3) a (b + 1) i)
          - ((n + 2 : ℕ) : K) * (gridPoint p.grid (n + 3) a (b + 1) i
            - gridPoint p.grid (n + 3) a b i))| ≤ T2) →
      |q i - e i| ≤ ((1 + R.unit) ^ (3 * n + 2) - 1) * (T2 + 2 * (n + 1 : ℕ) *
            firstErr R T (isoErr (n + 2) ((1 + R.unit) ^ (3 * m)) M))
          + 2 * (n + 1 : ℕ) * firstErr R T (isoErr (n + 2) ((1 + R.unit) ^ (3 * m)) M) := by
  obtain ⟨c, q, hc, hq, H⟩ := bezier_patch_deriv2 R F G m (fun b a => p.pts (n + 2) a b) v0 v1 u0 u1 n
  refine ⟨q, _, by unfold patchDerivVV; rw [isoV_run R F hp pu pv hc, ok_bind, hq],
    by unfold BezierPatch.derivVV; rw [hp.isoCurveV (u := u) (u' := u) (by rw [pu]; rfl), ok_bind, pv, exact2nd_eq],
    fun i M T T2 hM hT hT2 => ?_⟩
  have := (H i 1 M T T2 (fun b a => p.pts (n + 2) a b i) le_rfl (fun b _ a _ => pts_bound hp hM a b)
    (fun a _ b _ => by simp) hT hT2).1
  rw [one_mul] at this
  simpa only [Finset.sum_apply, Pi.smul_apply, Pi.sub_apply, smul_eq_mul, umb_bern, bern, isoDiff] using this

/-- The rounded patch of the mixed derivative. -/
theorem mixedPatch_eq (hp : p.WellFormed (m + 1) (n + 1)) :
    mixedPatch R p = ok
      { grid := gridOf (m + 1) (n + 1) (fun i j => mixedRow R (m + 1) (n + 1) (p.pts (n + 1) (i + 1) j)
          (p.pts (n + 1) i j) (p.pts (n + 1) (i + 1) (j + 1)) (p.pts (n + 1) i (j + 1))),
        degU := m, degV := n, perU := p.perU, perV := p.perV } := by
  unfold mixedPatch
  rw [hp.degreeU, ok_bind, hp.degreeV, ok_bind, if_neg (by omega)]
  rw [BezierPatch.fill_grid (Q := fun i j => mixedRow R (m + 1) (n + 1) (p.pts (n + 1) (i + 1) j)
          (p.pts (n + 1) i j) (p.pts (n + 1) (i + 1) (j + 1)) (p.pts (n + 1) i (j + 1)))]
  · rw [ok_bind]
    have e1 : (((m + 1 : ℕ) : ℤ) - 1) = m := by omega
    have e2 : (((n + 1 : ℕ) : ℤ) - 1) = n := by omega
    simp only [e1, e2]
    rw [BezierPatch.init_ok (m := m) (n := n) ⟨rfl, rfl, by simp⟩]
    rfl
  · intro i hi j hj
    rw [hp.getControlPoint (by omega) (by omega), ok_bind,
      hp.getControlPoint (by omega) (by omega), ok_bind,
      hp.getControlPoint (by omega) (by omega), ok_bind,
      hp.getControlPoint (by omega) (by omega), ok_bind]
    rfl

theorem twice_rnd (x y : K) : |R.rnd (x * R.rnd y) - x * y| ≤ ((1 + R.unit) ^ 2 - 1) * |x * y| := by
  have m := ((Maj.refl (le_refl |x|)).mul ((Maj.refl (le_refl |y|)).rnd R)).rnd R
  refine m.err.trans (le_of_eq ?_)
  rw [abs_mul]
  ring

theorem mixedRow_err (d e : ℕ) (a b c f : ι → K) (i : ι) {T T2 : K}
    (h1 : |(d : K) * (a i - b i)| ≤ T) (h2 : |(d : K) * (c i - f i)| ≤ T)
    (h3 : |(e : K) * ((d : K) * (c i - f i) - (d : K) * (a i - b i))| ≤ T2) :
    ∃ A : K, |A| ≤ T2 + 2 * e * (((1 + R.unit) ^ 2 - 1) * T) ∧
      |mixedRow R d e a b c f i - A| ≤ ((1 + R.unit) ^ 2 - 1) * (T2 + 2 * e * (((1 + R.unit) ^ 2 - 1) * T)) ∧
      |A - (e : K) * ((d : K) * (c i - f i) - (d : K) * (a i - b i))|
        ≤ 2 * e * (((1 + R.unit) ^ 2 - 1) * T) := by
  have hu := R.unit_nonneg
  have hk : 0 ≤ (1 + R.unit) ^ 2 - 1 := by nlinarith
  set p1 := R.rnd ((d : K) * R.rnd (c i - f i)) with hp1
  set p0 := R.rnd ((d : K) * R.rnd (a i - b i)) with hp0
  have e1 : |p1 - d * (c i - f i)| ≤ ((1 + R.unit) ^ 2 - 1) * T :=
    (twice_rnd R _ _).trans (mul_le_mul_of_nonneg_left h2 hk)
  have e0 : |p0 - d * (a i - b i)| ≤ ((1 + R.unit) ^ 2 - 1) * T :=
    (twice_rnd R _ _).trans (mul_le_mul_of_nonneg_left h1 hk)
  have diff : |(e : K) * (p1 - p0) - (e : K) * ((d : K) * (c i - f i) - (d : K) * (a i - b i))|
      ≤ 2 * e * (((1 + R.unit) ^ 2 - 1) * T) := by
    rw [← mul_sub, abs_mul, abs_of_nonneg (by positivity : (0 : K) ≤ (e : K))]
    have tri : |p1 - p0 - ((d : K) * (c i - f i) - (d : K) * (a i - b i))|
        ≤ 2 * (((1 + R.unit) ^ 2 - 1) * T) := by
      rw [abs_le] at e0 e1 ⊢
      constructor <;> linarith [e0.1, e0.2, e1.1, e1.2]
    refine (mul_le_mul_of_nonneg_left tri (by positivity)).trans (le_of_eq (by ring))
  have size : |(e : K) * (p1 - p0)| ≤ T2 + 2 * e * (((1 + R.unit) ^ 2 - 1) * T) := by
    have := abs_sub_abs_le_abs_sub ((e : K) * (p1 - p0))
      ((e : K) * ((d : K) * (c i - f i) - (d : K) * (a i - b i)))
    linarith
  exact ⟨(e : K) * (p1 - p0), size,
    (twice_rnd R _ _).trans (mul_le_mul_of_nonneg_left size hk), diff⟩

/-- The exact patch of the mixed derivative. -/
def exactMixed (p : BezierPatch (ι → K)) (m n : ℕ) : BezierPatch (ι → K) where
  grid := gridOf (m + 1) (n + 1) (fun i j => ((n + 1 : ℕ) : K) •
    (((m + 1 : ℕ) : K) • (p.pts (n + 1) (i + 1) (j + 1) - p.pts (n + 1) i (j + 1))
      - ((m + 1 : ℕ) : K) • (p.pts (n + 1) (i + 1) j - p.pts (n + 1) i j)))
  degU := m
  degV := n
  perU := p.perU
  perV := p.perV

/-- **C114**: the mixed derivative of a Bézier patch of degrees `m + 1`, `n + 1` on the unit square.
`T` and `T2` bound the control points of the derivative in `u` and of the mixed derivative. -/
theorem C114_patch_mixed (hp : p.WellFormed (m + 1) (n + 1)) (pu : p.perU = false)
    (pv : p.perV = false) {u v : K} (u0 : 0 ≤ u) (u1 : u ≤ 1) (v0 : 0 ≤ v) (v1 : v ≤ 1) :
    ∃ q e, patchDerivUV R F G p u v = ok q ∧ p.derivUV u v = ok e ∧ ∀ i T T2,
      (∀ a ≤ m, ∀ b ≤ n + 1, |((m + 1 : ℕ) : K) * (gridPoint p.grid (n + 2) (a + 1) b i
        - gridPoint p.grid (n + 2) a b i)| ≤ T) →
      (∀ a ≤ m, ∀ b ≤ n, |((n + 1 : ℕ) : K) * (((m + 1 : ℕ) : K) *
            (gridPoint p.grid (n + 2) (a + 1) (b + 1) i - gridPoint p.grid (n + 2) a (b + 1) i)
          - ((m + 1 : ℕ) : K) * (gridPoint p.grid (n + 2) (a + 1) b i
            - gridPoint p.grid (n + 2) a b i))| ≤ T2) →
      |q i - e i| ≤ ((1 + R.unit) ^ (3 * (m + n) + 2) - 1)
            * (T2 + 2 * (n + 1 : ℕ) * (((1 + R.unit) ^ 2 - 1) * T))
          + 2 * (n + 1 : ℕ) * (((1 + R.unit) ^ 2 - 1) * T) := by
  have hu := R.unit_nonneg
  obtain ⟨q, hq, H⟩ := bezier_patch R F G
    { grid := gridOf (m + 1) (n + 1) (fun i j => mixedRow R (m + 1) (n + 1) (p.pts (n + 1) (i + 1) j)
          (p.pts (n + 1) i j) (p.pts (n + 1) (i + 1) (j + 1)) (p.pts (n + 1) i (j + 1))),
        degU := m, degV := n, perU := p.perU, perV := p.perV } m n ⟨rfl, rfl, by simp⟩
    (u := u) (v := v) (u' := u) (v' := v) (by simp [bezierWrap, pu]) (by simp [bezierWrap, pv])
    u0 u1 v0 v1
  have wf' : (exactMixed p m n).WellFormed m n := ⟨rfl, rfl, by simp [exactMixed]⟩
  have duv : p.duvPatch K = ok (exactMixed p m n) := hp.duvPatch
  refine ⟨q, _, by unfold patchDerivUV; rw [mixedPatch_eq R hp, ok_bind, hq],
    by unfold BezierPatch.derivUV; rw [duv, ok_bind,
      wf'.evaluate (u' := u) (v' := v) (by simp [exactMixed, pu, Bezier.wrap]) (by simp [exactMixed, pv, Bezier.wrap]), BezierPatch.part_eq_surface],
    fun i T T2 hT hT2 => ?_⟩
  choose A A1 A2 A3 using fun (a : ℕ) (ha : a ≤ m) (b : ℕ) (hb : b ≤ n) =>
    mixedRow_err R (m + 1) (n + 1) (p.pts (n + 1) (a + 1) b) (p.pts (n + 1) a b)
      (p.pts (n + 1) (a + 1) (b + 1)) (p.pts (n + 1) a (b + 1)) i (hT a ha b (by omega))
      (hT a ha (b + 1) (by omega)) (hT2 a ha b hb)
  set C := T2 + 2 * (n + 1 : ℕ) * (((1 + R.unit) ^ 2 - 1) * T) with hC
  set B : ℕ → ℕ → K := fun a b => if h : a ≤ m ∧ b ≤ n then A a h.1 b h.2 else 0 with hB
  have hBe : ∀ a (ha : a ≤ m) b (hb : b ≤ n), B a b = A a ha b hb := by
    intro a ha b hb
    simp only [hB]
    rw [dif_pos ⟨ha, hb⟩]
  set X : ℕ → ℕ → K := fun a b => ((n + 1 : ℕ) : K) * (((m + 1 : ℕ) : K) *
      (p.pts (n + 1) (a + 1) (b + 1) i - p.pts (n + 1) a (b + 1) i)
    - ((m + 1 : ℕ) : K) * (p.pts (n + 1) (a + 1) b i - p.pts (n + 1) a b i)) with hX
  have h := (H i ((1 + R.unit) ^ 2) B (fun _ _ => C) (one_le_pow₀ (by linarith))
    (fun a ha b hb => by rw [hBe a ha b hb]; exact A1 a ha b hb)
    (fun a ha b hb => by
      rw [hBe a ha b hb, BezierPatch.pts_gridOf (m := m) (n := n) (fun i j => mixedRow R (m + 1) (n + 1)
        (p.pts (n + 1) (i + 1) j) (p.pts (n + 1) i j) (p.pts (n + 1) (i + 1) (j + 1))
        (p.pts (n + 1) i (j + 1))) _ rfl (by omega) (by omega)]
      exact A2 a ha b hb)).1
  have hCC : bern2 m n (fun _ _ => C) u v = C := by unfold bern2; simp only [bern_const]
  rw [hCC, ← pow_add] at h
  have hd : |bern2 m n B u v - bern2 m n X u v| ≤ 2 * (n + 1 : ℕ) * (((1 + R.unit) ^ 2 - 1) * T) := by
    unfold bern2
    rw [bern_sub]
    refine bern_abs u0 u1 fun a ha => ?_
    rw [bern_sub]
    refine bern_abs v0 v1 fun b hb => ?_
    rw [hBe a ha b hb]
    exact A3 a ha b hb
  have hs : ∀ (g : List (ι → K)), (∀ a ≤ m, ∀ b ≤ n, gridPoint g (n + 1) a b i = X a b) →
      bezierSurface m n g u v i = bern2 m n X u v := by
    intro g hg
    rw [bern2_eq]
    unfold bezierSurface
    simp only [Finset.sum_apply, Pi.smul_apply, smul_eq_mul]
    refine sum_congr rfl fun a ha => sum_congr rfl fun b hb => ?_
    rw [hg a (by have := mem_range.1 ha; omega) b (by have := mem_range.1 hb; omega)]
  rw [hs _ fun a ha b hb => by
    have := congrFun (BezierPatch.pts_gridOf (m := m) (n := n) (fun i j => ((n + 1 : ℕ) : K) •
      (((m + 1 : ℕ) : K) • (p.pts (n + 1) (i + 1) (j + 1) - p.pts (n + 1) i (j + 1))
        - ((m + 1 : ℕ) : K) • (p.pts (n + 1) (i + 1) j - p.pts (n + 1) i j)))
      (exactMixed p m n) rfl (i := a) (j := b) (by omega) (by omega)) i
    simpa only [hX, BezierPatch.pts, Pi.smul_apply, Pi.sub_apply, smul_eq_mul] using this]
  have tri := abs_sub_le (q i) (bern2 m n B u v) (bern2 m n X u v)
  rw [show 2 + 3 * (m + n) = 3 * (m + n) + 2 by omega] at h
  linarith

end Patches

/-! ### Rational Bézier patches -/

/-- The rounded homogeneous point of a rational Bézier patch. -/
theorem rational_patch_value (R : Rounding K) (F : ℕ → ℕ → ℕ → Option ι → Fuse)
    (G : ℕ → ℕ → Option ι → Fuse) {p : BezierPatch (ι → K)} {m n : ℕ} (hp : p.WellFormed m n)
    (pu : p.perU = false) (pv : p.perV = false) {w : List K} (hlen : p.grid.length = w.length) {lo : K}
    (hlo : 0 < lo) (hw : ∀ x ∈ w, lo ≤ x) {u v : K} (u0 : 0 ≤ u) (u1 : u ≤ 1) (v0 : 0 ≤ v) (v1 : v ≤ 1) :
    ∃ x, patchEvaluate R F G (BezierPatch.mk (homPts R p.grid w) p.degU p.degV p.perU p.perV p.sU p.sV) u v
        = ok x ∧
      lo ≤ bern2 m n (gridPoint w (n + 1)) u v ∧
      |x none - bern2 m n (gridPoint w (n + 1)) u v|
        ≤ ((1 + R.unit) ^ (3 * (m + n)) - 1) * bern2 m n (gridPoint w (n + 1)) u v ∧
      ∀ i M, (∀ y ∈ p.grid, |y i| ≤ M) →
        |bern2 m n (fun a b => gridPoint w (n + 1) a b * gridPoint p.grid (n + 1) a b i) u v|
          ≤ M * bern2 m n (gridPoint w (n + 1)) u v ∧
        |x (some i) - bern2 m n (fun a b => gridPoint w (n + 1) a b * gridPoint p.grid (n + 1) a b i) u v|
          ≤ ((1 + R.unit) ^ (3 * (m + n) + 1) - 1) * (M * bern2 m n (gridPoint w (n + 1)) u v) := by
  have hun := R.unit_nonneg
  set h : BezierPatch (Option ι → K) :=
    BezierPatch.mk (homPts R p.grid w) p.degU p.degV p.perU p.perV p.sU p.sV with hh
  have hwf : h.WellFormed m n := ⟨hp.degU, hp.degV, by
    rw [hh]; simp only [homPts_length R _ _ hlen]; exact hp.len⟩
  obtain ⟨x, ex, H⟩ := bezier_patch R F G h m n hwf (u := u) (v := v) (u' := u) (v' := v)
    (by simp [bezierWrap, hh, pu]) (by simp [bezierWrap, hh, pv]) u0 u1 v0 v1
  have hwd : ∀ j, 0 ≤ w.getD j 0 := by
    intro j
    by_cases hj : j < w.length
    · rw [getD_of_lt _ hj]; exact hlo.le.trans (hw _ (List.getElem_mem hj))
    · rw [getD_of_le _ (not_lt.1 hj)]
  have hwlo : ∀ a ≤ m, ∀ b ≤ n, lo ≤ gridPoint w (n + 1) a b := by
    intro a ha b hb
    have hk : a * (n + 1) + b < w.length := by
      rw [← hlen, hp.len]; exact lin_lt (by omega) (by omega)
    rw [gridPoint, getD_of_lt _ hk]
    exact hw _ (List.getElem_mem _)
  have low : ∀ (d : ℕ) (A : ℕ → K) (t : K), 0 ≤ t → t ≤ 1 → (∀ k ≤ d, lo ≤ A k) → lo ≤ bern d A t := by
    intro d A t t0 t1 hA
    calc lo = bern d (fun _ => lo) t := (bern_const d lo t).symm
      _ ≤ bern d A t := sum_le_sum fun k hk => mul_le_mul_of_nonneg_left
          (hA k (by have := mem_range.1 hk; omega)) (by
            unfold bernstein
            have : 0 ≤ 1 - t := by linarith
            positivity)
  refine ⟨x, ex, low _ _ u u0 u1 fun a ha => low _ _ v v0 v1 fun b hb => hwlo a ha b hb, ?_,
    fun i M hM => ?_⟩
  · have := (H none 1 (gridPoint w (n + 1)) (gridPoint w (n + 1)) le_rfl
      (fun a _ b _ => le_of_eq (abs_of_nonneg (hwd _)))
      (fun a _ b _ => by
        rw [sub_self, zero_mul]
        have : h.pts n a b none = gridPoint w (n + 1) a b := homPts_none R _ _ hlen _
        rw [this, sub_self, abs_zero])).1
    rwa [one_mul] at this
  · have hb : ∀ a b, |gridPoint w (n + 1) a b * gridPoint p.grid (n + 1) a b i|
        ≤ M * gridPoint w (n + 1) a b := by
      intro a b
      rw [abs_mul, abs_of_nonneg (show 0 ≤ gridPoint w (n + 1) a b from hwd _), mul_comm]
      exact mul_le_mul_of_nonneg_right (pts_bound hp hM a b) (hwd _)
    obtain ⟨es, bs⟩ := H (some i) (1 + R.unit)
      (fun a b => gridPoint w (n + 1) a b * gridPoint p.grid (n + 1) a b i)
      (fun a b => M * gridPoint w (n + 1) a b) (by linarith) (fun a _ b _ => hb a b)
      (fun a _ b _ => by
        have : h.pts n a b (some i) = R.rnd (gridPoint p.grid (n + 1) a b i * gridPoint w (n + 1) a b) :=
          homPts_some R _ _ hlen _ i
        rw [this, add_sub_cancel_left, mul_comm (gridPoint w _ _ _)]
        refine (R.near _).trans (mul_le_mul_of_nonneg_left ?_ hun)
        rw [mul_comm]
        exact hb a b)
    have eM : bern2 m n (fun a b => M * gridPoint w (n + 1) a b) u v
        = M * bern2 m n (gridPoint w (n + 1)) u v := by
      unfold bern2
      simp only [bern_mul]
    rw [eM] at es bs
    rw [← pow_succ'] at es
    exact ⟨bs, es⟩

/-- The exact homogeneous point of a rational Bézier patch. -/
theorem rational_patch_exact {c : RationalBezierPatch K (ι → K)} (Sy : RationalBezierPatch.Sync c)
    {m n : ℕ} (hp : c.base.WellFormed m n) (pu : c.base.perU = false) (pv : c.base.perV = false) (u v : K) :
    c.hom.evaluate u v = ok (fun i => bern2 m n
        (fun a b => gridPoint c.weights (n + 1) a b * gridPoint c.base.grid (n + 1) a b i) u v,
      bern2 m n (gridPoint c.weights (n + 1)) u v) := by
  rw [Sy.evaluate (u' := u) (v' := v) (by rw [pu]; rfl) (by rw [pv]; rfl), hp.degU, hp.degV,
    homog_bezierSurface Sy.len]
  simp only [Int.toNat_natCast]
  congr 1
  ext i
  · simp only [bern2_eq, Finset.sum_apply, Pi.smul_apply, smul_eq_mul, mul_assoc]
  · simp only [bern2_eq]
    rfl

/-- **C114**: the partial derivative in `u` of a rational Bézier patch with weights between `lo` and
`hi`, `0 < lo`, on the unit square.  `M` bounds the control points, `S` and `T` the control points of
the exact derivatives of the weight and of the numerator. -/
theorem C114_rational_patch_derivative_u (R : Rounding K) (F F' : ℕ → ℕ → ℕ → Option ι → Fuse)
    (G G' : ℕ → ℕ → Option ι → Fuse) {c : RationalBezierPatch K (ι → K)} (hinit : c.init = ok c)
    {m n : ℕ} (hp : c.base.WellFormed (m + 1) n) (pu : c.base.perU = false) (pv : c.base.perV = false)
    {lo hi : K} (hlo : 0 < lo) (hwt : ∀ x ∈ c.weights, lo ≤ x ∧ x ≤ hi)
    (hcond : (1 + R.unit) ^ (3 * (m + 1 + n)) < 2) {u v : K} (u0 : 0 ≤ u) (u1 : u ≤ 1) (v0 : 0 ≤ v)
    (v1 : v ≤ 1) {S : K}
    (hS : ∀ a ≤ m, ∀ b ≤ n, |((m + 1 : ℕ) : K) * (gridPoint c.weights (n + 1) (a + 1) b
      - gridPoint c.weights (n + 1) a b)| ≤ S) :
    ∃ q e, rationalPatchDerivU R F F' G G' c.base c.weights u v = ok q ∧ c.derivU u v = ok e ∧
      ∀ i M T, (∀ x ∈ c.base.grid, |x i| ≤ M) →
        (∀ a ≤ m, ∀ b ≤ n, |((m + 1 : ℕ) : K) *
          (gridPoint c.weights (n + 1) (a + 1) b * gridPoint c.base.grid (n + 1) (a + 1) b i
            - gridPoint c.weights (n + 1) a b * gridPoint c.base.grid (n + 1) a b i)| ≤ T) →
        |q i - e i| ≤ derivBound R ((1 + R.unit) ^ (3 * (m + 1 + n)) - 1) M
          (((1 + R.unit) ^ (3 * (m + 1 + n) + 1) - 1) * M) (T / lo)
          ((((1 + R.unit) ^ (3 * m + 2) - 1)
              * (T + isoErr (m + 1) ((1 + R.unit) * (1 + R.unit) ^ (3 * n)) (M * hi))
            + isoErr (m + 1) ((1 + R.unit) * (1 + R.unit) ^ (3 * n)) (M * hi)) / lo)
          (S / lo)
          ((((1 + R.unit) ^ (3 * m + 2) - 1) * (S + isoErr (m + 1) ((1 + R.unit) ^ (3 * n)) hi)
            + isoErr (m + 1) ((1 + R.unit) ^ (3 * n)) hi) / lo) := by
  obtain ⟨Sy, -, -⟩ := (RationalBezierPatch.init_iff _ _).1 hinit
  have hu := R.unit_nonneg
  have hlen := Sy.len
  obtain ⟨x, ex, hWlo, en, HN⟩ := rational_patch_value R F G hp pu pv hlen hlo
    (fun x hx => (hwt x hx).1) u0 u1 v0 v1
  have exx := rational_patch_exact Sy hp pu pv u v
  set W := bern2 (m + 1) n (gridPoint c.weights (n + 1)) u v with hW
  have hWpos : 0 < W := lt_of_lt_of_le hlo hWlo
  set h : BezierPatch (Option ι → K) := BezierPatch.mk (homPts R c.base.grid c.weights) c.base.degU
    c.base.degV c.base.perU c.base.perV c.base.sU c.base.sV with hhd
  have hwf : h.WellFormed (m + 1) n := ⟨hp.degU, hp.degV, by
    rw [hhd]; simp only [homPts_length R _ _ hlen]; exact hp.len⟩
  obtain ⟨k, d, hk, hd, HD⟩ := bezier_patch_deriv R F' G' n (h.pts n) u0 u1 v0 v1 m
  have hh : c.hom.WellFormed (m + 1) n := by
    rw [Sy.hom]
    exact ⟨hp.degU, hp.degV, by simp only; rw [homog_length hlen]; exact hp.len⟩
  have hpu : c.hom.perU = false := by rw [Sy.hom]; exact pu
  have hpv : c.hom.perV = false := by rw [Sy.hom]; exact pv
  have hpts : ∀ a b, c.hom.pts n a b = (gridPoint c.weights (n + 1) a b • gridPoint c.base.grid (n + 1) a b,
      gridPoint c.weights (n + 1) a b) := by
    intro a b
    rw [BezierPatch.pts, Sy.hom]
    exact homog_gridPoint hlen _ a b
  set E := bern m (isoDiff (m + 1) n (fun a b => gridPoint c.weights (n + 1) a b) v) u with hE
  set D : ι → K := fun i => bern m (isoDiff (m + 1) n (fun a b => gridPoint c.weights (n + 1) a b * gridPoint c.base.grid (n + 1) a b i) v) u with hD
  have ee : c.hom.derivU u v = ok (D, E) := by
    unfold BezierPatch.derivU
    rw [hh.isoCurveU (v := v) (v' := v) (by rw [hpv]; rfl), ok_bind, hpu, deriv_bern]
    congr 1
    ext i
    · simp only [hD, umb_lin_pow, hpts, Prod.fst_sum, Finset.sum_apply, Prod.smul_fst, Prod.fst_sub,
        Pi.smul_apply, Pi.sub_apply, smul_eq_mul, bern, isoDiff]
    · simp only [hE, umb_lin_pow, hpts, Prod.snd_sum, Prod.smul_snd, Prod.snd_sub, smul_eq_mul, bern,
        isoDiff]
  have eex : c.derivU u v = ok (W⁻¹ • (D - W⁻¹ • (E • fun i => bern2 (m + 1) n (fun a b =>
      gridPoint c.weights (n + 1) a b * gridPoint c.base.grid (n + 1) a b i) u v))) := by
    unfold RationalBezierPatch.derivU
    rw [Sy.validate, ok_bind, exx, ok_bind, ee, ok_bind]
    unfold quot1
    rw [assert_true hWpos.ne', ok_bind]
    rfl
  have hwn : ∀ a b, |gridPoint c.weights (n + 1) a b| ≤ hi := by
    have hne : c.weights ≠ [] := by
      intro e
      have := hp.len
      rw [hlen, e] at this
      simp at this
    intro a b
    rw [gridPoint]
    by_cases hj : a * (n + 1) + b < c.weights.length
    · rw [getD_of_lt _ hj, abs_of_pos (lt_of_lt_of_le hlo (hwt _ (List.getElem_mem hj)).1)]
      exact (hwt _ (List.getElem_mem hj)).2
    · rw [getD_of_le _ (not_lt.1 hj), abs_zero]
      obtain ⟨y, hy⟩ := List.exists_mem_of_ne_nil _ hne
      have := hwt y hy
      linarith
  have scale : ∀ {y z : K}, |y| ≤ z → |y| ≤ z / lo * W := by
    intro y z hz
    refine hz.trans ?_
    rw [div_mul_eq_mul_div, le_div_iff₀ hlo]
    exact mul_le_mul_of_nonneg_left hWlo ((abs_nonneg _).trans hz)
  have hn : ∀ a b, h.pts n a b none = gridPoint c.weights (n + 1) a b :=
    fun a b => homPts_none R _ _ hlen _
  have hs : ∀ a b i, h.pts n a b (some i)
      = R.rnd (gridPoint c.base.grid (n + 1) a b i * gridPoint c.weights (n + 1) a b) :=
    fun a b i => homPts_some R _ _ hlen _ i
  obtain ⟨dn, bn⟩ := HD none 1 hi S (fun a b => gridPoint c.weights (n + 1) a b) le_rfl
    (fun _ _ _ _ => hwn _ _) (fun _ _ _ _ => by simp only [hn]; simp) hS
  rw [one_mul] at dn
  obtain ⟨q, eq, hq⟩ := derivQuotient_err R (d := d) hWpos en (by linarith) (E := E) (scale bn) (scale dn)
  refine ⟨q, _, ?_, eex, fun i M T hM hT => ?_⟩
  · unfold rationalPatchDerivU patchDerivU
    rw [homogenize_eq R _ _ hlen, ok_bind]
    simp only
    rw [← hhd, ex, ok_bind, isoU_run R F' hwf pu pv hk, ok_bind, hd, ok_bind, eq]
  · obtain ⟨N1, N2⟩ := HN i M hM
    have hPn : ∀ a b, |gridPoint c.base.grid (n + 1) a b i| ≤ M := fun a b => pts_bound hp hM a b
    have hM0 : 0 ≤ M := (abs_nonneg _).trans (hPn 0 0)
    have hprod : ∀ a b, |gridPoint c.weights (n + 1) a b * gridPoint c.base.grid (n + 1) a b i| ≤ M * hi := by
      intro a b
      rw [abs_mul, mul_comm]
      exact mul_le_mul (hPn a b) (hwn a b) (abs_nonneg _) hM0
    obtain ⟨ds, bs⟩ := HD (some i) (1 + R.unit) (M * hi) T
      (fun a b => gridPoint c.weights (n + 1) a b * gridPoint c.base.grid (n + 1) a b i) (by linarith)
      (fun _ _ _ _ => hprod _ _)
      (fun _ _ _ _ => by
        simp only [hs]
        rw [add_sub_cancel_left, mul_comm (gridPoint c.weights _ _ _)]
        refine (R.near _).trans (mul_le_mul_of_nonneg_left ?_ hu)
        rw [mul_comm]
        exact hprod _ _) hT
    have := hq i _ (D i) M _ (T / lo) _ N1 (N2.trans (le_of_eq (mul_assoc _ _ _).symm)) (scale bs) (scale ds)
    simpa only [Pi.smul_apply, Pi.sub_apply, smul_eq_mul] using this

/-- **C114**: the partial derivative in `v` of a rational Bézier patch with weights between `lo` and
`hi`, `0 < lo`, on the unit square.  `M` bounds the control points, `S` and `T` the control points of
the exact derivatives of the weight and of the numerator. -/
theorem C114_rational_patch_derivative_v (R : Rounding K) (F F' : ℕ → ℕ → ℕ → Option ι → Fuse)
    (G G' : ℕ → ℕ → Option ι → Fuse) {c : RationalBezierPatch K (ι → K)} (hinit : c.init = ok c)
    {m n : ℕ} (hp : c.base.WellFormed m (n + 1)) (pu : c.base.perU = false) (pv : c.base.perV = false)
    {lo hi : K} (hlo : 0 < lo) (hwt : ∀ x ∈ c.weights, lo ≤ x ∧ x ≤ hi)
    (hcond : (1 + R.unit) ^ (3 * (m + (n + 1))) < 2) {u v : K} (u0 : 0 ≤ u) (u1 : u ≤ 1) (v0 : 0 ≤ v)
    (v1 : v ≤ 1) {S : K}
    (hS : ∀ b ≤ n, ∀ a ≤ m, |((n + 1 : ℕ) : K) * (gridPoint c.weights (n + 2) a (b + 1)
      - gridPoint c.weights (n + 2) a b)| ≤ S) :
    ∃ q e, rationalPatchDerivV R F F' G G' c.base c.weights u v = ok q ∧ c.derivV u v = ok e ∧
      ∀ i M T, (∀ x ∈ c.base.grid, |x i| ≤ M) →
        (∀ b ≤ n, ∀ a ≤ m, |((n + 1 : ℕ) : K) *
          (gridPoint c.weights (n + 2) a (b + 1) * gridPoint c.base.grid (n + 2) a (b + 1) i
            - gridPoint c.weights (n + 2) a b * gridPoint c.base.grid (n + 2) a b i)| ≤ T) →
        |q i - e i| ≤ derivBound R ((1 + R.unit) ^ (3 * (m + (n + 1))) - 1) M
          (((1 + R.unit) ^ (3 * (m + (n + 1)) + 1) - 1) * M) (T / lo)
          ((((1 + R.unit) ^ (3 * n + 2) - 1)
              * (T + isoErr (n + 1) ((1 + R.unit) * (1 + R.unit) ^ (3 * m)) (M * hi))
            + isoErr (n + 1) ((1 + R.unit) * (1 + R.unit) ^ (3 * m)) (M * hi)) / lo)
          (S / lo)
          ((((1 + R.unit) ^ (3 * n + 2) - 1) * (S + isoErr (n + 1) ((1 + R.unit) ^ (3 * m)) hi)
            + isoErr (n + 1) ((1 + R.unit) ^ (3 * m)) hi) / lo) := by
  obtain ⟨Sy, -, -⟩ := (RationalBezierPatch.init_iff _ _).1 hinit
  have hu := R.unit_nonneg
  have hlen := Sy.len
  obtain ⟨x, ex, hWlo, en, HN⟩ := rational_patch_value R F G hp pu pv hlen hlo
    (fun x hx => (hwt x hx).1) u0 u1 v0 v1
  have exx := rational_patch_exact Sy hp pu pv u v
  set W := bern2 m (n + 1) (gridPoint c.weights (n + 2)) u v with hW
  have hWpos : 0 < W := lt_of_lt_of_le hlo hWlo
  set h : BezierPatch (Option ι → K) := BezierPatch.mk (homPts R c.base.grid c.weights) c.base.degU
    c.base.degV c.base.perU c.base.perV c.base.sU c.base.sV with hhd
  have hwf : h.WellFormed m (n + 1) := ⟨hp.degU, hp.degV, by
    rw [hhd]; simp only [homPts_length R _ _ hlen]; exact hp.len⟩
  obtain ⟨k, d, hk, hd, HD⟩ := bezier_patch_deriv R F' G' m (fun b a => h.pts (n + 1) a b) v0 v1 u0 u1 n
  have hh : c.hom.WellFormed m (n + 1) := by
    rw [Sy.hom]
    exact ⟨hp.degU, hp.degV, by simp only; rw [homog_length hlen]; exact hp.len⟩
  have hpu : c.hom.perU = false := by rw [Sy.hom]; exact pu
  have hpv : c.hom.perV = false := by rw [Sy.hom]; exact pv
  have hpts : ∀ a b, c.hom.pts (n + 1) a b = (gridPoint c.weights (n + 2) a b • gridPoint c.base.grid (n + 2) a b,
      gridPoint c.weights (n + 2) a b) := by
    intro a b
    rw [BezierPatch.pts, Sy.hom]
    exact homog_gridPoint hlen _ a b
  set E := bern n (isoDiff (n + 1) m (fun b a => gridPoint c.weights (n + 2) a b) u) v with hE
  set D : ι → K := fun i => bern n (isoDiff (n + 1) m (fun b a => gridPoint c.weights (n + 2) a b * gridPoint c.base.grid (n + 2) a b i) u) v with hD
  have ee : c.hom.derivV u v = ok (D, E) := by
    unfold BezierPatch.derivV
    rw [hh.isoCurveV (u := u) (u' := u) (by rw [hpu]; rfl), ok_bind, hpv, deriv_bern]
    congr 1
    ext i
    · simp only [hD, umb_lin_pow, hpts, Prod.fst_sum, Finset.sum_apply, Prod.smul_fst, Prod.fst_sub,
        Pi.smul_apply, Pi.sub_apply, smul_eq_mul, bern, isoDiff]
    · simp only [hE, umb_lin_pow, hpts, Prod.snd_sum, Prod.smul_snd, Prod.snd_sub, smul_eq_mul, bern,
        isoDiff]
  have eex : c.derivV u v = ok (W⁻¹ • (D - W⁻¹ • (E • fun i => bern2 m (n + 1) (fun a b =>
      gridPoint c.weights (n + 2) a b * gridPoint c.base.grid (n + 2) a b i) u v))) := by
    unfold RationalBezierPatch.derivV
    rw [Sy.validate, ok_bind, exx, ok_bind, ee, ok_bind]
    unfold quot1
    rw [assert_true hWpos.ne', ok_bind]
    rfl
  have hwn : ∀ a b, |gridPoint c.weights (n + 2) a b| ≤ hi := by
    have hne : c.weights ≠ [] := by
      intro e
      have := hp.len
      rw [hlen, e] at this
      simp at this
    intro a b
    rw [gridPoint]
    by_cases hj : a * (n + 2) + b < c.weights.length
    · rw [getD_of_lt _ hj, abs_of_pos (lt_of_lt_of_le hlo (hwt _ (List.getElem_mem hj)).1)]
      exact (hwt _ (List.getElem_mem hj)).2
    · rw [getD_of_le _ (not_lt.1 hj), abs_zero]
      obtain ⟨y, hy⟩ := List.exists_mem_of_ne_nil _ hne
      have := hwt y hy
      linarith
  have scale : ∀ {y z : K}, |y| ≤ z → |y| ≤ z / lo * W := by
    intro y z hz
    refine hz.trans ?_
    rw [div_mul_eq_mul_div, le_div_iff₀ hlo]
    exact mul_le_mul_of_nonneg_left hWlo ((abs_nonneg _).trans hz)
  have hn : ∀ a b, h.pts (n + 1) a b none = gridPoint c.weights (n + 2) a b :=
    fun a b => homPts_none R _ _ hlen _
  have hs : ∀ a b i, h.pts (n + 1) a b (some i)
      = R.rnd (gridPoint c.base.grid (n + 2) a b i * gridPoint c.weights (n + 2) a b) :=
    fun a b i => homPts_some R _ _ hlen _ i
  obtain ⟨dn, bn⟩ := HD none 1 hi S (fun b a => gridPoint c.weights (n + 2) a b) le_rfl
    (fun _ _ _ _ => hwn _ _) (fun _ _ _ _ => by simp only [hn]; simp) hS
  rw [one_mul] at dn
  obtain ⟨q, eq, hq⟩ := derivQuotient_err R (d := d) hWpos en (by linarith) (E := E) (scale bn) (scale dn)
  refine ⟨q, _, ?_, eex, fun i M T hM hT => ?_⟩
  · unfold rationalPatchDerivV patchDerivV
    rw [homogenize_eq R _ _ hlen, ok_bind]
    simp only
    rw [← hhd, ex, ok_bind, isoV_run R F' hwf pu pv hk, ok_bind, hd, ok_bind, eq]
  · obtain ⟨N1, N2⟩ := HN i M hM
    have hPn : ∀ a b, |gridPoint c.base.grid (n + 2) a b i| ≤ M := fun a b => pts_bound hp hM a b
    have hM0 : 0 ≤ M := (abs_nonneg _).trans (hPn 0 0)
    have hprod : ∀ a b, |gridPoint c.weights (n + 2) a b * gridPoint c.base.grid (n + 2) a b i| ≤ M * hi := by
      intro a b
      rw [abs_mul, mul_comm]
      exact mul_le_mul (hPn a b) (hwn a b) (abs_nonneg _) hM0
    obtain ⟨ds, bs⟩ := HD (some i) (1 + R.unit) (M * hi) T
      (fun b a => gridPoint c.weights (n + 2) a b * gridPoint c.base.grid (n + 2) a b i) (by linarith)
      (fun _ _ _ _ => hprod _ _)
      (fun _ _ _ _ => by
        simp only [hs]
        rw [add_sub_cancel_left, mul_comm (gridPoint c.weights _ _ _)]
        refine (R.near _).trans (mul_le_mul_of_nonneg_left ?_ hu)
        rw [mul_comm]
        exact hprod _ _) hT
    have := hq i _ (D i) M _ (T / lo) _ N1 (N2.trans (le_of_eq (mul_assoc _ _ _).symm)) (scale bs) (scale ds)
    simpa only [Pi.smul_apply, Pi.sub_apply, smul_eq_mul] using this

/-- Rounding without error gives the exact derivatives. -/
theorem C114_exact_arithmetic (F : ℕ → ℕ → ℕ → ι → Fuse) (G : ℕ → ℕ → ι → Fuse)
    (p : BezierPatch (ι → K)) (u v : K) :
    patchDerivU Rounding.exact F G p u v = p.derivU u v ∧
    patchDerivV Rounding.exact F G p u v = p.derivV u v ∧
    patchDerivUU Rounding.exact F G p u v = p.derivUU u v ∧
    patchDerivVV Rounding.exact F G p u v = p.derivVV u v ∧
    patchDerivUV Rounding.exact F G p u v = p.derivUV u v := by
  have e1 : ∀ (b : Bezier (ι → K)) t, bezierDerivative Rounding.exact G b t = b.evaluateDerivative t :=
    fun b t => by
      have hb : ∀ bv d q, bezierBlossom Rounding.exact G bv d q = Bezier.blossom (K := K) bv d q := by
        intro bv d q
        unfold bezierBlossom Bezier.blossom
        simp only [exact_combine]
        rfl
      have hw : bezierWrap Rounding.exact b.periodic t = Bezier.wrap b.periodic t := rfl
      have hd' : ∀ n (q : List (ι → K)), bezierDerivCoef Rounding.exact n q
        = Bezier.derivativeCoefficients K n q := fun _ _ => rfl
      unfold bezierDerivative Bezier.evaluateDerivative bezierDeBoor Bezier.deBoor
      simp only [hw, hb, hd']
  have e2 : ∀ (b : Bezier (ι → K)) t, bezier2ndDerivative Rounding.exact G b t = b.evaluate2ndDerivative t :=
    fun b t => (C113_exact_arithmetic G (fun _ _ => .none) (fun _ => false) b ⟨[], [], false, none⟩ t).1
  have hU : isoCurveU Rounding.exact F p v = p.isoCurveU v := by
    unfold isoCurveU BezierPatch.isoCurveU
    simp only [C82_exact_arithmetic]
  have hV : isoCurveV Rounding.exact F p u = p.isoCurveV u := by
    unfold isoCurveV BezierPatch.isoCurveV
    simp only [C82_exact_arithmetic]
  have hM : mixedPatch Rounding.exact p = p.duvPatch K := rfl
  refine ⟨?_, ?_, ?_, ?_, ?_⟩
  · unfold patchDerivU BezierPatch.derivU; simp only [hU, e1]
  · unfold patchDerivV BezierPatch.derivV; simp only [hV, e1]
  · unfold patchDerivUU BezierPatch.derivUU; simp only [hU, e2]
  · unfold patchDerivVV BezierPatch.derivVV; simp only [hV, e2]
  · unfold patchDerivUV BezierPatch.derivUV patchEvaluate BezierPatch.evaluate isoCurveU isoCurveV
      BezierPatch.isoCurveU BezierPatch.isoCurveV
    simp only [hM, C82_exact_arithmetic]

end General

/-! ### Concrete cases -/

section Examples

/-- A rational patch of degrees two and two with weights from `0.1` to `2`. -/
def someRationalPatch : RationalBezierPatch ℚ (Fin 1 → ℚ) :=
  let g : BezierPatch (Fin 1 → ℚ) :=
    { grid := [fun _ => tenth, fun _ => 3, fun _ => -1 / 4, fun _ => 7, fun _ => 1, fun _ => 2,
        fun _ => -5, fun _ => 1 / 2, fun _ => 4], degU := 2, degV := 2 }
  let w : List ℚ := [tenth, 1, 2, 1 / 2, 1, 1, 2, 1, tenth]
  { base := g, weights := w, hom := BezierPatch.mk (homog g.grid w) g.degU g.degV g.perU g.perV g.sU g.sV }

/-- The hypotheses of the theorems on Bézier patches, in double precision. -/
example : someRationalPatch.base.WellFormed (0 + 2) 2 ∧ someRationalPatch.base.perU = false ∧
    someRationalPatch.base.perV = false ∧ (∀ x ∈ someRationalPatch.base.grid, |x 0| ≤ 7) ∧
    (∀ a ≤ 1, ∀ b ≤ 2, |((0 + 2 : ℕ) : ℚ) * (gridPoint someRationalPatch.base.grid 3 (a + 1) b 0
        - gridPoint someRationalPatch.base.grid 3 a b 0)| ≤ 24) ∧
    (∀ a ≤ 0, ∀ b ≤ 2, |((0 + 1 : ℕ) : ℚ) * (((0 + 2 : ℕ) : ℚ) *
            (gridPoint someRationalPatch.base.grid 3 (a + 2) b 0
              - gridPoint someRationalPatch.base.grid 3 (a + 1) b 0)
          - ((0 + 2 : ℕ) : ℚ) * (gridPoint someRationalPatch.base.grid 3 (a + 1) b 0
            - gridPoint someRationalPatch.base.grid 3 a b 0))| ≤ 40) ∧
    (∀ a ≤ 1, ∀ b ≤ 1, |((1 + 1 : ℕ) : ℚ) * (((1 + 1 : ℕ) : ℚ) *
            (gridPoint someRationalPatch.base.grid 3 (a + 1) (b + 1) 0
              - gridPoint someRationalPatch.base.grid 3 a (b + 1) 0)
          - ((1 + 1 : ℕ) : ℚ) * (gridPoint someRationalPatch.base.grid 3 (a + 1) b 0
            - gridPoint someRationalPatch.base.grid 3 a b 0))| ≤ 48) ∧
    ((1 + double.unit) ^ (3 * 1 + 2) - 1) * (24 + isoErr (1 + 1) ((1 + double.unit) ^ (3 * 2)) 7)
        + isoErr (1 + 1) ((1 + double.unit) ^ (3 * 2)) 7 < 1 / 2 ^ 44 := by
  refine ⟨⟨rfl, rfl, rfl⟩, rfl, rfl, by decide +kernel, ?_, ?_, ?_, by unfold isoErr; decide +kernel⟩
  all_goals
    intro a ha b hb
    interval_cases a <;> interval_cases b <;> decide +kernel

/-- The hypotheses of `C114_rational_patch_derivative_u` in double precision. -/
example : someRationalPatch.init = ok someRationalPatch ∧
    someRationalPatch.base.WellFormed (1 + 1) 2 ∧
    (∀ x ∈ someRationalPatch.weights, tenth ≤ x ∧ x ≤ 2) ∧ (1 + double.unit) ^ (3 * (1 + 1 + 2)) < 2 ∧
    (∀ a ≤ 1, ∀ b ≤ 2, |((1 + 1 : ℕ) : ℚ) * (gridPoint someRationalPatch.weights 3 (a + 1) b
        - gridPoint someRationalPatch.weights 3 a b)| ≤ 3) ∧
    (∀ a ≤ 1, ∀ b ≤ 2, |((1 + 1 : ℕ) : ℚ) *
      (gridPoint someRationalPatch.weights 3 (a + 1) b * gridPoint someRationalPatch.base.grid 3 (a + 1) b 0
        - gridPoint someRationalPatch.weights 3 a b * gridPoint someRationalPatch.base.grid 3 a b 0)|
      ≤ 27) := by
  refine ⟨(RationalBezierPatch.init_iff _ _).2 ⟨⟨rfl, rfl, by decide +kernel⟩, by decide +kernel,
    by decide +kernel⟩, ⟨rfl, rfl, rfl⟩, by decide +kernel, by decide +kernel, ?_, ?_⟩
  all_goals
    intro a ha b hb
    interval_cases a <;> interval_cases b <;> decide +kernel

/-- Rounding shows: in double precision the derivatives of this patch differ from the exact ones. -/
example : (patchDerivU double (fun _ _ _ _ => .none) (fun _ _ _ => .none) someRationalPatch.base
      (1 / 4) (1 / 4) >>= fun q => ok (q 0))
    ≠ (someRationalPatch.base.derivU (1 / 4 : ℚ) (1 / 4) >>= fun q => ok (q 0)) := by
  decide +kernel

end Examples

end NS.Fl
