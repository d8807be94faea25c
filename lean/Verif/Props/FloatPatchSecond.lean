import Verif.Model.FloatPatchSecond
import Verif.Props.FloatPatchDeriv

/-!
# Property C115: rounding errors of the second derivatives of rational Bézier patches
-/

set_option linter.unusedSectionVars false

namespace NS.Fl

open Outcome Finset Spec

section General

variable {K ι : Type} [Field K] [LinearOrder K] [IsStrictOrderedRing K] [FloorRing K]

/-! ### The homogeneous patch -/

/-- The error of a first derivative of degree `d + 1`; `T` bounds the control points of the
derivative, `M` the control points, which have the relative error `g - 1`. -/
def d1Err (R : Rounding K) (d : ℕ) (g T M : K) : K :=
  ((1 + R.unit) ^ (3 * d + 2) - 1) * (T + isoErr (d + 1) g M) + isoErr (d + 1) g M

/-- The error of a second derivative of degree `d + 2`. -/
def d2Err (R : Rounding K) (d : ℕ) (g T T2 M : K) : K :=
  ((1 + R.unit) ^ (3 * d + 2) - 1) * (T2 + 2 * (d + 1 : ℕ) * firstErr R T (isoErr (d + 2) g M))
    + 2 * (d + 1 : ℕ) * firstErr R T (isoErr (d + 2) g M)

theorem weight_abs {c : RationalBezierPatch K (ι → K)} {m n : ℕ} (hp : c.base.WellFormed m n)
    (hlen : c.base.grid.length = c.weights.length) {lo hi : K} (hlo : 0 < lo)
    (hwt : ∀ x ∈ c.weights, lo ≤ x ∧ x ≤ hi) (k a b : ℕ) : |gridPoint c.weights k a b| ≤ hi := by
  have hne : c.weights ≠ [] := by
    intro e
    have := hp.len
    rw [hlen, e] at this
    simp at this
  rw [gridPoint]
  by_cases hj : a * k + b < c.weights.length
  · rw [getD_of_lt _ hj, abs_of_pos (lt_of_lt_of_le hlo (hwt _ (List.getElem_mem hj)).1)]
    exact (hwt _ (List.getElem_mem hj)).2
  · rw [getD_of_le _ (not_lt.1 hj), abs_zero]
    obtain ⟨y, hy⟩ := List.exists_mem_of_ne_nil _ hne
    have := hwt y hy
    linarith

theorem rat_u (R : Rounding K) (F : ℕ → ℕ → ℕ → Option ι → Fuse) (G : ℕ → ℕ → Option ι → Fuse)
    {c : RationalBezierPatch K (ι → K)} (Sy : RationalBezierPatch.Sync c) {m n : ℕ}
    (hp : c.base.WellFormed (m + 1) n) (pu : c.base.perU = false) (pv : c.base.perV = false)
    {lo hi : K} (hlo : 0 < lo) (hwt : ∀ x ∈ c.weights, lo ≤ x ∧ x ≤ hi) {u v : K} (u0 : 0 ≤ u)
    (u1 : u ≤ 1) (v0 : 0 ≤ v) (v1 : v ≤ 1) :
    ∃ d D E, patchDerivU R F G (BezierPatch.mk (homPts R c.base.grid c.weights) c.base.degU
        c.base.degV c.base.perU c.base.perV c.base.sU c.base.sV) u v = ok d ∧
      c.hom.derivU u v = ok (D, E) ∧
      (∀ S, (∀ a ≤ m, ∀ b ≤ n, |((m + 1 : ℕ) : K) * (gridPoint c.weights (n + 1) (a + 1) b - gridPoint c.weights (n + 1) a b)| ≤ S) →
        |E| ≤ S ∧ |d none - E| ≤ d1Err R m ((1 + R.unit) ^ (3 * n)) S hi) ∧
      ∀ i M T, (∀ x ∈ c.base.grid, |x i| ≤ M) → (∀ a ≤ m, ∀ b ≤ n, |((m + 1 : ℕ) : K) * (gridPoint c.weights (n + 1) (a + 1) b * gridPoint c.base.grid (n + 1) (a + 1) b i - gridPoint c.weights (n + 1) a b * gridPoint c.base.grid (n + 1) a b i)| ≤ T) →
        |D i| ≤ T ∧ |d (some i) - D i| ≤ d1Err R m ((1 + R.unit) * (1 + R.unit) ^ (3 * n)) T (M * hi) := by
  have hu := R.unit_nonneg
  have hlen := Sy.len
  set h : BezierPatch (Option ι → K) := BezierPatch.mk (homPts R c.base.grid c.weights) c.base.degU
    c.base.degV c.base.perU c.base.perV c.base.sU c.base.sV with hhd
  have hwf : h.WellFormed (m + 1) n := ⟨hp.degU, hp.degV, by
    rw [hhd]; simp only [homPts_length R _ _ hlen]; exact hp.len⟩
  obtain ⟨k, d, hk, hd, HD⟩ := bezier_patch_deriv R F G n (h.pts n) u0 u1 v0 v1 m
  have hh : c.hom.WellFormed (m + 1) n := by
    rw [Sy.hom]
    exact ⟨hp.degU, hp.degV, by simp only; rw [homog_length hlen]; exact hp.len⟩
  have hpu : c.hom.perU = false := by rw [Sy.hom]; exact pu
  have hpv : c.hom.perV = false := by rw [Sy.hom]; exact pv
  have hpts : ∀ a b, c.hom.pts n a b = (gridPoint c.weights (n + 1) a b • gridPoint c.base.grid (n + 1) a b,
      gridPoint c.weights (n + 1) a b) := by
    intro a b
    rw [BezierPatch.pts, Sy.hom]
    exact homog_gridPoint hlen _ a b
  have hn : ∀ a b, h.pts n a b none = gridPoint c.weights (n + 1) a b :=
    fun a b => homPts_none R _ _ hlen _
  have hs : ∀ a b i, h.pts n a b (some i)
      = R.rnd (gridPoint c.base.grid (n + 1) a b i * gridPoint c.weights (n + 1) a b) :=
    fun a b i => homPts_some R _ _ hlen _ i
  refine ⟨d, fun i => bern m (isoDiff (m + 1) n (fun a b => gridPoint c.weights (n + 1) a b * gridPoint c.base.grid (n + 1) a b i) v) u, bern m (isoDiff (m + 1) n (fun a b => gridPoint c.weights (n + 1) a b) v) u, ?_, ?_, fun S hS => ?_, fun i M T hM hT => ?_⟩
  · unfold patchDerivU
    rw [isoU_run R F hwf pu pv hk, ok_bind, hd]
  · unfold BezierPatch.derivU
    rw [hh.isoCurveU (v := v) (v' := v) (by rw [hpv]; rfl), ok_bind, hpu, deriv_bern]
    congr 1
    ext i
    · simp only [umb_lin_pow, hpts, Prod.fst_sum, Finset.sum_apply, Prod.smul_fst, Prod.fst_sub,
        Pi.smul_apply, Pi.sub_apply, smul_eq_mul, bern, isoDiff]
    · simp only [umb_lin_pow, hpts, Prod.snd_sum, Prod.smul_snd, Prod.snd_sub, smul_eq_mul, bern,
        isoDiff]
  · obtain ⟨dn, bn⟩ := HD none 1 hi S (fun a b => gridPoint c.weights (n + 1) a b) le_rfl
      (fun _ _ _ _ => weight_abs hp hlen hlo hwt _ _ _) (fun _ _ _ _ => by simp only [hn]; simp) hS
    rw [one_mul] at dn
    exact ⟨bn, dn⟩
  · have hM0 : 0 ≤ M := (abs_nonneg _).trans (pts_bound hp hM 0 0)
    have hprod : ∀ a b, |gridPoint c.weights (n + 1) a b * gridPoint c.base.grid (n + 1) a b i| ≤ M * hi := by
      intro a b
      rw [abs_mul, mul_comm]
      exact mul_le_mul (pts_bound hp hM a b) (weight_abs hp hlen hlo hwt _ a b) (abs_nonneg _) hM0
    obtain ⟨ds, bs⟩ := HD (some i) (1 + R.unit) (M * hi) T
      (fun a b => gridPoint c.weights (n + 1) a b * gridPoint c.base.grid (n + 1) a b i) (by linarith)
      (fun _ _ _ _ => hprod _ _)
      (fun _ _ _ _ => by
        simp only [hs]
        rw [add_sub_cancel_left, mul_comm (gridPoint c.weights _ _ _)]
        refine (R.near _).trans (mul_le_mul_of_nonneg_left ?_ hu)
        rw [mul_comm]
        exact hprod _ _) hT
    exact ⟨bs, ds⟩

theorem rat_v (R : Rounding K) (F : ℕ → ℕ → ℕ → Option ι → Fuse) (G : ℕ → ℕ → Option ι → Fuse)
    {c : RationalBezierPatch K (ι → K)} (Sy : RationalBezierPatch.Sync c) {m n : ℕ}
    (hp : c.base.WellFormed m (n + 1)) (pu : c.base.perU = false) (pv : c.base.perV = false)
    {lo hi : K} (hlo : 0 < lo) (hwt : ∀ x ∈ c.weights, lo ≤ x ∧ x ≤ hi) {u v : K} (u0 : 0 ≤ u)
    (u1 : u ≤ 1) (v0 : 0 ≤ v) (v1 : v ≤ 1) :
    ∃ d D E, patchDerivV R F G (BezierPatch.mk (homPts R c.base.grid c.weights) c.base.degU
        c.base.degV c.base.perU c.base.perV c.base.sU c.base.sV) u v = ok d ∧
      c.hom.derivV u v = ok (D, E) ∧
      (∀ S, (∀ b ≤ n, ∀ a ≤ m, |((n + 1 : ℕ) : K) * (gridPoint c.weights (n + 2) a (b + 1) - gridPoint c.weights (n + 2) a b)| ≤ S) →
        |E| ≤ S ∧ |d none - E| ≤ d1Err R n ((1 + R.unit) ^ (3 * m)) S hi) ∧
      ∀ i M T, (∀ x ∈ c.base.grid, |x i| ≤ M) → (∀ b ≤ n, ∀ a ≤ m, |((n + 1 : ℕ) : K) * (gridPoint c.weights (n + 2) a (b + 1) * gridPoint c.base.grid (n + 2) a (b + 1) i - gridPoint c.weights (n + 2) a b * gridPoint c.base.grid (n + 2) a b i)| ≤ T) →
        |D i| ≤ T ∧ |d (some i) - D i| ≤ d1Err R n ((1 + R.unit) * (1 + R.unit) ^ (3 * m)) T (M * hi) := by
  have hu := R.unit_nonneg
  have hlen := Sy.len
  set h : BezierPatch (Option ι → K) := BezierPatch.mk (homPts R c.base.grid c.weights) c.base.degU
    c.base.degV c.base.perU c.base.perV c.base.sU c.base.sV with hhd
  have hwf : h.WellFormed m (n + 1) := ⟨hp.degU, hp.degV, by
    rw [hhd]; simp only [homPts_length R _ _ hlen]; exact hp.len⟩
  obtain ⟨k, d, hk, hd, HD⟩ := bezier_patch_deriv R F G m (fun b a => h.pts (n + 1) a b) v0 v1 u0 u1 n
  have hh : c.hom.WellFormed m (n + 1) := by
    rw [Sy.hom]
    exact ⟨hp.degU, hp.degV, by simp only; rw [homog_length hlen]; exact hp.len⟩
  have hpu : c.hom.perU = false := by rw [Sy.hom]; exact pu
  have hpv : c.hom.perV = false := by rw [Sy.hom]; exact pv
  have hpts : ∀ a b, c.hom.pts (n + 1) a b = (gridPoint c.weights (n + 2) a b • gridPoint c.base.grid (n + 2) a b,
      gridPoint c.weights (n + 2) a b) := by
    intro a b
    rw [BezierPatch.pts, Sy.hom]
    exact homog_gridPoint hlen _ a b
  have hn : ∀ a b, h.pts (n + 1) a b none = gridPoint c.weights (n + 2) a b :=
    fun a b => homPts_none R _ _ hlen _
  have hs : ∀ a b i, h.pts (n + 1) a b (some i)
      = R.rnd (gridPoint c.base.grid (n + 2) a b i * gridPoint c.weights (n + 2) a b) :=
    fun a b i => homPts_some R _ _ hlen _ i
  refine ⟨d, fun i => bern n (isoDiff (n + 1) m (fun b a => gridPoint c.weights (n + 2) a b * gridPoint c.base.grid (n + 2) a b i) u) v, bern n (isoDiff (n + 1) m (fun b a => gridPoint c.weights (n + 2) a b) u) v, ?_, ?_, fun S hS => ?_, fun i M T hM hT => ?_⟩
  · unfold patchDerivV
    rw [isoV_run R F hwf pu pv hk, ok_bind, hd]
  · unfold BezierPatch.derivV
    rw [hh.isoCurveV (u := u) (u' := u) (by rw [hpu]; rfl), ok_bind, hpv, deriv_bern]
    congr 1
    ext i
    · simp only [umb_lin_pow, hpts, Prod.fst_sum, Finset.sum_apply, Prod.smul_fst, Prod.fst_sub,
        Pi.smul_apply, Pi.sub_apply, smul_eq_mul, bern, isoDiff]
    · simp only [umb_lin_pow, hpts, Prod.snd_sum, Prod.smul_snd, Prod.snd_sub, smul_eq_mul, bern,
        isoDiff]
  · obtain ⟨dn, bn⟩ := HD none 1 hi S (fun b a => gridPoint c.weights (n + 2) a b) le_rfl
      (fun _ _ _ _ => weight_abs hp hlen hlo hwt _ _ _) (fun _ _ _ _ => by simp only [hn]; simp) hS
    rw [one_mul] at dn
    exact ⟨bn, dn⟩
  · have hM0 : 0 ≤ M := (abs_nonneg _).trans (pts_bound hp hM 0 0)
    have hprod : ∀ a b, |gridPoint c.weights (n + 2) a b * gridPoint c.base.grid (n + 2) a b i| ≤ M * hi := by
      intro a b
      rw [abs_mul, mul_comm]
      exact mul_le_mul (pts_bound hp hM a b) (weight_abs hp hlen hlo hwt _ a b) (abs_nonneg _) hM0
    obtain ⟨ds, bs⟩ := HD (some i) (1 + R.unit) (M * hi) T
      (fun b a => gridPoint c.weights (n + 2) a b * gridPoint c.base.grid (n + 2) a b i) (by linarith)
      (fun _ _ _ _ => hprod _ _)
      (fun _ _ _ _ => by
        simp only [hs]
        rw [add_sub_cancel_left, mul_comm (gridPoint c.weights _ _ _)]
        refine (R.near _).trans (mul_le_mul_of_nonneg_left ?_ hu)
        rw [mul_comm]
        exact hprod _ _) hT
    exact ⟨bs, ds⟩

theorem rat_uu (R : Rounding K) (F : ℕ → ℕ → ℕ → Option ι → Fuse) (G : ℕ → ℕ → Option ι → Fuse)
    {c : RationalBezierPatch K (ι → K)} (Sy : RationalBezierPatch.Sync c) {m n : ℕ}
    (hp : c.base.WellFormed (m + 2) n) (pu : c.base.perU = false) (pv : c.base.perV = false)
    {lo hi : K} (hlo : 0 < lo) (hwt : ∀ x ∈ c.weights, lo ≤ x ∧ x ≤ hi) {u v : K} (u0 : 0 ≤ u)
    (u1 : u ≤ 1) (v0 : 0 ≤ v) (v1 : v ≤ 1) :
    ∃ d D E, patchDerivUU R F G (BezierPatch.mk (homPts R c.base.grid c.weights) c.base.degU
        c.base.degV c.base.perU c.base.perV c.base.sU c.base.sV) u v = ok d ∧
      c.hom.derivUU u v = ok (D, E) ∧
      (∀ S S2, (∀ a ≤ m + 1, ∀ b ≤ n, |((m + 2 : ℕ) : K) * (gridPoint c.weights (n + 1) (a + 1) b - gridPoint c.weights (n + 1) a b)| ≤ S) → (∀ a ≤ m, ∀ b ≤ n, |((m + 1 : ℕ) : K) * (((m + 2 : ℕ) : K) * (gridPoint c.weights (n + 1) (a + 2) b - gridPoint c.weights (n + 1) (a + 1) b) - ((m + 2 : ℕ) : K) * (gridPoint c.weights (n + 1) (a + 1) b - gridPoint c.weights (n + 1) a b))| ≤ S2) →
        |E| ≤ S2 ∧ |d none - E| ≤ d2Err R m ((1 + R.unit) ^ (3 * n)) S S2 hi) ∧
      ∀ i M T T2, (∀ x ∈ c.base.grid, |x i| ≤ M) → (∀ a ≤ m + 1, ∀ b ≤ n, |((m + 2 : ℕ) : K) * (gridPoint c.weights (n + 1) (a + 1) b * gridPoint c.base.grid (n + 1) (a + 1) b i - gridPoint c.weights (n + 1) a b * gridPoint c.base.grid (n + 1) a b i)| ≤ T) → (∀ a ≤ m, ∀ b ≤ n, |((m + 1 : ℕ) : K) * (((m + 2 : ℕ) : K) * (gridPoint c.weights (n + 1) (a + 2) b * gridPoint c.base.grid (n + 1) (a + 2) b i - gridPoint c.weights (n + 1) (a + 1) b * gridPoint c.base.grid (n + 1) (a + 1) b i) - ((m + 2 : ℕ) : K) * (gridPoint c.weights (n + 1) (a + 1) b * gridPoint c.base.grid (n + 1) (a + 1) b i - gridPoint c.weights (n + 1) a b * gridPoint c.base.grid (n + 1) a b i))| ≤ T2) →
        |D i| ≤ T2 ∧ |d (some i) - D i| ≤ d2Err R m ((1 + R.unit) * (1 + R.unit) ^ (3 * n)) T T2 (M * hi) := by
  have hu := R.unit_nonneg
  have hlen := Sy.len
  set h : BezierPatch (Option ι → K) := BezierPatch.mk (homPts R c.base.grid c.weights) c.base.degU
    c.base.degV c.base.perU c.base.perV c.base.sU c.base.sV with hhd
  have hwf : h.WellFormed (m + 2) n := ⟨hp.degU, hp.degV, by
    rw [hhd]; simp only [homPts_length R _ _ hlen]; exact hp.len⟩
  obtain ⟨k, d, hk, hd, HD⟩ := bezier_patch_deriv2 R F G n (h.pts n) u0 u1 v0 v1 m
  have hh : c.hom.WellFormed (m + 2) n := by
    rw [Sy.hom]
    exact ⟨hp.degU, hp.degV, by simp only; rw [homog_length hlen]; exact hp.len⟩
  have hpu : c.hom.perU = false := by rw [Sy.hom]; exact pu
  have hpv : c.hom.perV = false := by rw [Sy.hom]; exact pv
  have hpts : ∀ a b, c.hom.pts n a b = (gridPoint c.weights (n + 1) a b • gridPoint c.base.grid (n + 1) a b,
      gridPoint c.weights (n + 1) a b) := by
    intro a b
    rw [BezierPatch.pts, Sy.hom]
    exact homog_gridPoint hlen _ a b
  have hn : ∀ a b, h.pts n a b none = gridPoint c.weights (n + 1) a b :=
    fun a b => homPts_none R _ _ hlen _
  have hs : ∀ a b i, h.pts n a b (some i)
      = R.rnd (gridPoint c.base.grid (n + 1) a b i * gridPoint c.weights (n + 1) a b) :=
    fun a b i => homPts_some R _ _ hlen _ i
  refine ⟨d, fun i => bern m (fun k => ((m + 1 : ℕ) : K) * (isoDiff (m + 2) n (fun a b => gridPoint c.weights (n + 1) a b * gridPoint c.base.grid (n + 1) a b i) v (k + 1) - isoDiff (m + 2) n (fun a b => gridPoint c.weights (n + 1) a b * gridPoint c.base.grid (n + 1) a b i) v k)) u, bern m (fun k => ((m + 1 : ℕ) : K) * (isoDiff (m + 2) n (fun a b => gridPoint c.weights (n + 1) a b) v (k + 1) - isoDiff (m + 2) n (fun a b => gridPoint c.weights (n + 1) a b) v k)) u, ?_, ?_, fun S S2 hS hS2 => ?_, fun i M T T2 hM hT hT2 => ?_⟩
  · unfold patchDerivUU
    rw [isoU_run R F hwf pu pv hk, ok_bind, hd]
  · unfold BezierPatch.derivUU
    rw [hh.isoCurveU (v := v) (v' := v) (by rw [hpv]; rfl), ok_bind, hpu, exact2nd_eq]
    congr 1
    ext i
    · simp only [umb_lin_pow, hpts, Prod.fst_sum, Finset.sum_apply, Prod.smul_fst, Prod.fst_sub,
        Pi.smul_apply, Pi.sub_apply, smul_eq_mul, bern, isoDiff]
    · simp only [umb_lin_pow, hpts, Prod.snd_sum, Prod.smul_snd, Prod.snd_sub, smul_eq_mul, bern,
        isoDiff]
  · obtain ⟨dn, bn⟩ := HD none 1 hi S S2 (fun a b => gridPoint c.weights (n + 1) a b) le_rfl
      (fun _ _ _ _ => weight_abs hp hlen hlo hwt _ _ _) (fun _ _ _ _ => by simp only [hn]; simp) hS hS2
    rw [one_mul] at dn
    exact ⟨bn, dn⟩
  · have hM0 : 0 ≤ M := (abs_nonneg _).trans (pts_bound hp hM 0 0)
    have hprod : ∀ a b, |gridPoint c.weights (n + 1) a b * gridPoint c.base.grid (n + 1) a b i| ≤ M * hi := by
      intro a b
      rw [abs_mul, mul_comm]
      exact mul_le_mul (pts_bound hp hM a b) (weight_abs hp hlen hlo hwt _ a b) (abs_nonneg _) hM0
    obtain ⟨ds, bs⟩ := HD (some i) (1 + R.unit) (M * hi) T T2
      (fun a b => gridPoint c.weights (n + 1) a b * gridPoint c.base.grid (n + 1) a b i) (by linarith)
      (fun _ _ _ _ => hprod _ _)
      (fun _ _ _ _ => by
        simp only [hs]
        rw [add_sub_cancel_left, mul_comm (gridPoint c.weights _ _ _)]
        refine (R.near _).trans (mul_le_mul_of_nonneg_left ?_ hu)
        rw [mul_comm]
        exact hprod _ _) hT hT2
    exact ⟨bs, ds⟩

theorem rat_vv (R : Rounding K) (F : ℕ → ℕ → ℕ → Option ι → Fuse) (G : ℕ → ℕ → Option ι → Fuse)
    {c : RationalBezierPatch K (ι → K)} (Sy : RationalBezierPatch.Sync c) {m n : ℕ}
    (hp : c.base.WellFormed m (n + 2)) (pu : c.base.perU = false) (pv : c.base.perV = false)
    {lo hi : K} (hlo : 0 < lo) (hwt : ∀ x ∈ c.weights, lo ≤ x ∧ x ≤ hi) {u v : K} (u0 : 0 ≤ u)
    (u1 : u ≤ 1) (v0 : 0 ≤ v) (v1 : v ≤ 1) :
    ∃ d D E, patchDerivVV R F G (BezierPatch.mk (homPts R c.base.grid c.weights) c.base.degU
        c.base.degV c.base.perU c.base.perV c.base.sU c.base.sV) u v = ok d ∧
      c.hom.derivVV u v = ok (D, E) ∧
      (∀ S S2, (∀ b ≤ n + 1, ∀ a ≤ m, |((n + 2 : ℕ) : K) * (gridPoint c.weights (n + 3) a (b + 1) - gridPoint c.weights (n + 3) a b)| ≤ S) → (∀ b ≤ n, ∀ a ≤ m, |((n + 1 : ℕ) : K) * (((n + 2 : ℕ) : K) * (gridPoint c.weights (n + 3) a (b + 2) - gridPoint c.weights (n + 3) a (b + 1)) - ((n + 2 : ℕ) : K) * (gridPoint c.weights (n + 3) a (b + 1) - gridPoint c.weights (n + 3) a b))| ≤ S2) →
        |E| ≤ S2 ∧ |d none - E| ≤ d2Err R n ((1 + R.unit) ^ (3 * m)) S S2 hi) ∧
      ∀ i M T T2, (∀ x ∈ c.base.grid, |x i| ≤ M) → (∀ b ≤ n + 1, ∀ a ≤ m, |((n + 2 : ℕ) : K) * (gridPoint c.weights (n + 3) a (b + 1) * gridPoint c.base.grid (n + 3) a (b + 1) i - gridPoint c.weights (n + 3) a b * gridPoint c.base.grid (n + 3) a b i)| ≤ T) → (∀ b ≤ n, ∀ a ≤ m, |((n + 1 : ℕ) : K) * (((n + 2 : ℕ) : K) * (gridPoint c.weights (n + 3) a (b + 2) * gridPoint c.base.grid (n + 3) a (b + 2) i - gridPoint c.weights (n + 3) a (b + 1) * gridPoint c.base.grid (n + 3) a (b + 1) i) - ((n + 2 : ℕ) : K) * (gridPoint c.weights (n + 3) a (b + 1) * gridPoint c.base.grid (n + 3) a (b + 1) i - gridPoint c.weights (n + 3) a b * gridPoint c.base.grid (n + 3) a b i))| ≤ T2) →
        |D i| ≤ T2 ∧ |d (some i) - D i| ≤ d2Err R n ((1 + R.unit) * (1 + R.unit) ^ (3 * m)) T T2 (M * hi) := by
  have hu := R.unit_nonneg
  have hlen := Sy.len
  set h : BezierPatch (Option ι → K) := BezierPatch.mk (homPts R c.base.grid c.weights) c.base.degU
    c.base.degV c.base.perU c.base.perV c.base.sU c.base.sV with hhd
  have hwf : h.WellFormed m (n + 2) := ⟨hp.degU, hp.degV, by
    rw [hhd]; simp only [homPts_length R _ _ hlen]; exact hp.len⟩
  obtain ⟨k, d, hk, hd, HD⟩ := bezier_patch_deriv2 R F G m (fun b a => h.pts (n + 2) a b) v0 v1 u0 u1 n
  have hh : c.hom.WellFormed m (n + 2) := by
    rw [Sy.hom]
    exact ⟨hp.degU, hp.degV, by simp only; rw [homog_length hlen]; exact hp.len⟩
  have hpu : c.hom.perU = false := by rw [Sy.hom]; exact pu
  have hpv : c.hom.perV = false := by rw [Sy.hom]; exact pv
  have hpts : ∀ a b, c.hom.pts (n + 2) a b = (gridPoint c.weights (n + 3) a b • gridPoint c.base.grid (n + 3) a b,
      gridPoint c.weights (n + 3) a b) := by
    intro a b
    rw [BezierPatch.pts, Sy.hom]
    exact homog_gridPoint hlen _ a b
  have hn : ∀ a b, h.pts (n + 2) a b none = gridPoint c.weights (n + 3) a b :=
    fun a b => homPts_none R _ _ hlen _
  have hs : ∀ a b i, h.pts (n + 2) a b (some i)
      = R.rnd (gridPoint c.base.grid (n + 3) a b i * gridPoint c.weights (n + 3) a b) :=
    fun a b i => homPts_some R _ _ hlen _ i
  refine ⟨d, fun i => bern n (fun k => ((n + 1 : ℕ) : K) * (isoDiff (n + 2) m (fun b a => gridPoint c.weights (n + 3) a b * gridPoint c.base.grid (n + 3) a b i) u (k + 1) - isoDiff (n + 2) m (fun b a => gridPoint c.weights (n + 3) a b * gridPoint c.base.grid (n + 3) a b i) u k)) v, bern n (fun k => ((n + 1 : ℕ) : K) * (isoDiff (n + 2) m (fun b a => gridPoint c.weights (n + 3) a b) u (k + 1) - isoDiff (n + 2) m (fun b a => gridPoint c.weights (n + 3) a b) u k)) v, ?_, ?_, fun S S2 hS hS2 => ?_, fun i M T T2 hM hT hT2 => ?_⟩
  · unfold patchDerivVV
    rw [isoV_run R F hwf pu pv hk, ok_bind, hd]
  · unfold BezierPatch.derivVV
    rw [hh.isoCurveV (u := u) (u' := u) (by rw [hpu]; rfl), ok_bind, hpv, exact2nd_eq]
    congr 1
    ext i
    · simp only [umb_lin_pow, hpts, Prod.fst_sum, Finset.sum_apply, Prod.smul_fst, Prod.fst_sub,
        Pi.smul_apply, Pi.sub_apply, smul_eq_mul, bern, isoDiff]
    · simp only [umb_lin_pow, hpts, Prod.snd_sum, Prod.smul_snd, Prod.snd_sub, smul_eq_mul, bern,
        isoDiff]
  · obtain ⟨dn, bn⟩ := HD none 1 hi S S2 (fun b a => gridPoint c.weights (n + 3) a b) le_rfl
      (fun _ _ _ _ => weight_abs hp hlen hlo hwt _ _ _) (fun _ _ _ _ => by simp only [hn]; simp) hS hS2
    rw [one_mul] at dn
    exact ⟨bn, dn⟩
  · have hM0 : 0 ≤ M := (abs_nonneg _).trans (pts_bound hp hM 0 0)
    have hprod : ∀ a b, |gridPoint c.weights (n + 3) a b * gridPoint c.base.grid (n + 3) a b i| ≤ M * hi := by
      intro a b
      rw [abs_mul, mul_comm]
      exact mul_le_mul (pts_bound hp hM a b) (weight_abs hp hlen hlo hwt _ a b) (abs_nonneg _) hM0
    obtain ⟨ds, bs⟩ := HD (some i) (1 + R.unit) (M * hi) T T2
      (fun b a => gridPoint c.weights (n + 3) a b * gridPoint c.base.grid (n + 3) a b i) (by linarith)
      (fun _ _ _ _ => hprod _ _)
      (fun _ _ _ _ => by
        simp only [hs]
        rw [add_sub_cancel_left, mul_comm (gridPoint c.weights _ _ _)]
        refine (R.near _).trans (mul_le_mul_of_nonneg_left ?_ hu)
        rw [mul_comm]
        exact hprod _ _) hT hT2
    exact ⟨bs, ds⟩

/-- The control points of the mixed derivative. -/
def mix (m n : ℕ) (A : ℕ → ℕ → K) (a b : ℕ) : K :=
  ((n + 1 : ℕ) : K) * (((m + 1 : ℕ) : K) * (A (a + 1) (b + 1) - A a (b + 1))
    - ((m + 1 : ℕ) : K) * (A (a + 1) b - A a b))

/-- The error of a mixed derivative of degrees `m + 1`, `n + 1`. -/
def mixErr (R : Rounding K) (m n : ℕ) (T T2 : K) : K :=
  ((1 + R.unit) ^ (3 * (m + n) + 2) - 1) * (T2 + 2 * (n + 1 : ℕ) * (((1 + R.unit) ^ 2 - 1) * T))
    + 2 * (n + 1 : ℕ) * (((1 + R.unit) ^ 2 - 1) * T)

theorem derivUV_eq {V : Type} [AddCommGroup V] [Module K V] {p : BezierPatch V} {m n : ℕ}
    (hp : p.WellFormed (m + 1) (n + 1)) (pu : p.perU = false) (pv : p.perV = false) (u v : K) :
    p.derivUV u v = ok (∑ a ∈ range (m + 1), ∑ b ∈ range (n + 1), (bernstein m a u * bernstein n b v) •
      (((n + 1 : ℕ) : K) •
        (((m + 1 : ℕ) : K) • (p.pts (n + 1) (a + 1) (b + 1) - p.pts (n + 1) a (b + 1))
          - ((m + 1 : ℕ) : K) • (p.pts (n + 1) (a + 1) b - p.pts (n + 1) a b)))) := by
  unfold BezierPatch.derivUV
  have e := hp.duvPatch (K := K)
  rw [e, ok_bind]
  set q : BezierPatch V := BezierPatch.mk _ _ _ _ _ _ _ with hq
  have wf : q.WellFormed m n := ⟨rfl, rfl, by simp [hq]⟩
  rw [wf.evaluate (u' := u) (v' := v) (by simp [hq, pu, Bezier.wrap]) (by simp [hq, pv, Bezier.wrap]),
    BezierPatch.part_eq_surface]
  unfold bezierSurface
  congr 1
  refine sum_congr rfl fun a ha => sum_congr rfl fun b hb => ?_
  have ha := mem_range.1 ha
  have hb := mem_range.1 hb
  congr 1
  exact BezierPatch.pts_gridOf (m := m) (n := n) (fun i j => ((n + 1 : ℕ) : K) •
      (((m + 1 : ℕ) : K) • (p.pts (n + 1) (i + 1) (j + 1) - p.pts (n + 1) i (j + 1))
        - ((m + 1 : ℕ) : K) • (p.pts (n + 1) (i + 1) j - p.pts (n + 1) i j))) q rfl ha hb

theorem bern2_abs {m n : ℕ} {A : ℕ → ℕ → K} {u v T : K} (u0 : 0 ≤ u) (u1 : u ≤ 1) (v0 : 0 ≤ v)
    (v1 : v ≤ 1) (h : ∀ a ≤ m, ∀ b ≤ n, |A a b| ≤ T) : |bern2 m n A u v| ≤ T :=
  bern_abs u0 u1 fun a ha => bern_abs v0 v1 (h a ha)

theorem rat_uv (R : Rounding K) (F : ℕ → ℕ → ℕ → Option ι → Fuse) (G : ℕ → ℕ → Option ι → Fuse)
    {c : RationalBezierPatch K (ι → K)} (Sy : RationalBezierPatch.Sync c) {m n : ℕ}
    (hp : c.base.WellFormed (m + 1) (n + 1)) (pu : c.base.perU = false) (pv : c.base.perV = false)
    {lo hi : K} (hlo : 0 < lo) (hwt : ∀ x ∈ c.weights, lo ≤ x ∧ x ≤ hi) {u v : K} (u0 : 0 ≤ u)
    (u1 : u ≤ 1) (v0 : 0 ≤ v) (v1 : v ≤ 1) :
    ∃ d D E, patchDerivUV R F G (BezierPatch.mk (homPts R c.base.grid c.weights) c.base.degU
        c.base.degV c.base.perU c.base.perV c.base.sU c.base.sV) u v = ok d ∧
      c.hom.derivUV u v = ok (D, E) ∧
      (∀ S S2, (∀ a ≤ m, ∀ b ≤ n + 1, |((m + 1 : ℕ) : K) * (gridPoint c.weights (n + 2) (a + 1) b
          - gridPoint c.weights (n + 2) a b)| ≤ S) →
        (∀ a ≤ m, ∀ b ≤ n, |mix m n (gridPoint c.weights (n + 2)) a b| ≤ S2) →
        |E| ≤ S2 ∧ |d none - E| ≤ mixErr R m n S S2) ∧
      ∀ i M T T2, (∀ x ∈ c.base.grid, |x i| ≤ M) →
        (∀ a ≤ m, ∀ b ≤ n + 1, |((m + 1 : ℕ) : K) *
          (gridPoint c.weights (n + 2) (a + 1) b * gridPoint c.base.grid (n + 2) (a + 1) b i
            - gridPoint c.weights (n + 2) a b * gridPoint c.base.grid (n + 2) a b i)| ≤ T) →
        (∀ a ≤ m, ∀ b ≤ n, |mix m n (fun a b =>
          gridPoint c.weights (n + 2) a b * gridPoint c.base.grid (n + 2) a b i) a b| ≤ T2) →
        |D i| ≤ T2 ∧ |d (some i) - D i| ≤ mixErr R m n (T + 2 * (m + 1 : ℕ) * (R.unit * (M * hi)))
            (T2 + 2 * (n + 1 : ℕ) * (2 * (m + 1 : ℕ) * (R.unit * (M * hi))))
          + 2 * (n + 1 : ℕ) * (2 * (m + 1 : ℕ) * (R.unit * (M * hi))) := by
  have hu := R.unit_nonneg
  have hlen := Sy.len
  set h : BezierPatch (Option ι → K) := BezierPatch.mk (homPts R c.base.grid c.weights) c.base.degU
    c.base.degV c.base.perU c.base.perV c.base.sU c.base.sV with hhd
  have hwf : h.WellFormed (m + 1) (n + 1) := ⟨hp.degU, hp.degV, by
    rw [hhd]; simp only [homPts_length R _ _ hlen]; exact hp.len⟩
  obtain ⟨d, e, hd, he, HD⟩ := C114_patch_mixed R F G hwf pu pv u0 u1 v0 v1
  have hh : c.hom.WellFormed (m + 1) (n + 1) := by
    rw [Sy.hom]
    exact ⟨hp.degU, hp.degV, by simp only; rw [homog_length hlen]; exact hp.len⟩
  have hpu : c.hom.perU = false := by rw [Sy.hom]; exact pu
  have hpv : c.hom.perV = false := by rw [Sy.hom]; exact pv
  have hpts : ∀ a b, c.hom.pts (n + 1) a b = (gridPoint c.weights (n + 2) a b • gridPoint c.base.grid (n + 2) a b,
      gridPoint c.weights (n + 2) a b) := by
    intro a b
    rw [BezierPatch.pts, Sy.hom]
    exact homog_gridPoint hlen _ a b
  have hn : ∀ a b, gridPoint h.grid (n + 2) a b none = gridPoint c.weights (n + 2) a b :=
    fun a b => homPts_none R _ _ hlen _
  have hs : ∀ a b i, gridPoint h.grid (n + 2) a b (some i)
      = R.rnd (gridPoint c.base.grid (n + 2) a b i * gridPoint c.weights (n + 2) a b) :=
    fun a b i => homPts_some R _ _ hlen _ i
  have ee : ∀ o, e o = bern2 m n (mix m n fun a b => gridPoint h.grid (n + 2) a b o) u v := by
    intro o
    rw [derivUV_eq hwf pu pv, ok.injEq] at he
    rw [← he, bern2_eq]
    simp only [Finset.sum_apply, Pi.smul_apply, Pi.sub_apply, smul_eq_mul, mix, BezierPatch.pts]
  refine ⟨d, fun i => bern2 m n (mix m n fun a b =>
      gridPoint c.weights (n + 2) a b * gridPoint c.base.grid (n + 2) a b i) u v,
    bern2 m n (mix m n (gridPoint c.weights (n + 2))) u v, hd, ?_, fun S S2 hS hS2 => ?_,
    fun i M T T2 hM hT hT2 => ?_⟩
  · rw [derivUV_eq hh hpu hpv]
    congr 1
    ext i
    · simp only [hpts, Prod.fst_sum, Finset.sum_apply, Prod.smul_fst, Prod.fst_sub, Pi.smul_apply,
        Pi.sub_apply, smul_eq_mul, bern2_eq, mix]
    · simp only [hpts, Prod.snd_sum, Prod.smul_snd, Prod.snd_sub, smul_eq_mul, bern2_eq, mix]
  · have := HD none S S2 (by simpa only [hn] using hS) (by simpa only [hn, mix] using hS2)
    rw [ee] at this
    simp only [hn] at this
    exact ⟨bern2_abs u0 u1 v0 v1 hS2, this⟩
  · have hM0 : 0 ≤ M := (abs_nonneg _).trans (pts_bound hp hM 0 0)
    set A : ℕ → ℕ → K := fun a b => gridPoint c.weights (n + 2) a b * gridPoint c.base.grid (n + 2) a b i with hA
    set B : ℕ → ℕ → K := fun a b => gridPoint h.grid (n + 2) a b (some i) with hB
    set ν : K := 2 * (m + 1 : ℕ) * (R.unit * (M * hi)) with hν
    have near : ∀ a b, |B a b - A a b| ≤ R.unit * (M * hi) := by
      intro a b
      simp only [hB, hA, hs]
      rw [mul_comm (gridPoint c.weights _ _ _)]
      refine (R.near _).trans (mul_le_mul_of_nonneg_left ?_ hu)
      rw [abs_mul]
      exact mul_le_mul (pts_bound hp hM a b) (weight_abs hp hlen hlo hwt _ a b) (abs_nonneg _) hM0
    have hm : (0 : K) ≤ ((m + 1 : ℕ) : K) := by positivity
    have hn' : (0 : K) ≤ ((n + 1 : ℕ) : K) := by positivity
    have diff : ∀ a b, |((m + 1 : ℕ) : K) * (B (a + 1) b - B a b) - ((m + 1 : ℕ) : K) * (A (a + 1) b - A a b)|
        ≤ ν := by
      intro a b
      rw [← mul_sub, abs_mul, abs_of_nonneg hm]
      have h1 := near (a + 1) b
      have h2 := near a b
      have : |B (a + 1) b - B a b - (A (a + 1) b - A a b)| ≤ 2 * (R.unit * (M * hi)) := by
        rw [abs_le] at h1 h2 ⊢
        constructor <;> linarith [h1.1, h1.2, h2.1, h2.2]
      have := mul_le_mul_of_nonneg_left this hm
      rw [hν]
      linarith
    have diff2 : ∀ a b, |mix m n B a b - mix m n A a b| ≤ 2 * (n + 1 : ℕ) * ν := by
      intro a b
      unfold mix
      rw [← mul_sub, abs_mul, abs_of_nonneg hn']
      have h1 := diff a (b + 1)
      have h2 := diff a b
      have : |((m + 1 : ℕ) : K) * (B (a + 1) (b + 1) - B a (b + 1)) - ((m + 1 : ℕ) : K) * (B (a + 1) b - B a b)
          - (((m + 1 : ℕ) : K) * (A (a + 1) (b + 1) - A a (b + 1)) - ((m + 1 : ℕ) : K) * (A (a + 1) b - A a b))|
          ≤ 2 * ν := by
        rw [abs_le] at h1 h2 ⊢
        constructor <;> linarith [h1.1, h1.2, h2.1, h2.2]
      have := mul_le_mul_of_nonneg_left this hn'
      linarith
    have plus : ∀ {x y p q : K}, |x - y| ≤ q → |y| ≤ p → |x| ≤ p + q := by
      intro x y p q h1 h2
      have := abs_add_le y (x - y)
      rw [add_sub_cancel] at this
      linarith
    have := HD (some i) (T + ν) (T2 + 2 * (n + 1 : ℕ) * ν)
      (fun a ha b hb => plus (diff a b) (hT a ha b hb)) (fun a ha b hb => plus (diff2 a b) (hT2 a ha b hb))
    rw [ee] at this
    have e2 : |bern2 m n (mix m n B) u v - bern2 m n (mix m n A) u v| ≤ 2 * (n + 1 : ℕ) * ν := by
      have : bern2 m n (mix m n B) u v - bern2 m n (mix m n A) u v
          = bern2 m n (fun a b => mix m n B a b - mix m n A a b) u v := by
        unfold bern2
        simp only [bern_sub]
      rw [this]
      exact bern2_abs u0 u1 v0 v1 fun a _ b _ => diff2 a b
    refine ⟨bern2_abs u0 u1 v0 v1 hT2, ?_⟩
    have tri := abs_sub_le (d (some i)) (bern2 m n (mix m n B) u v) (bern2 m n (mix m n A) u v)
    unfold mixErr
    linarith

/-! ### The quotients -/

/-- The error of the rounded formula of `evaluate_2nd_derivative_uu`.  `b` is the relative error of the
weight; `M`, `S`, `D2`, `S2` bound the point, the derivative of the weight and the second derivatives
of the numerator and of the weight, `a`, `y`, `x2`, `y2` their errors, all relative to the weight; `U`
bounds the first derivative of the patch and `z` its error. -/
def sameBound (R : Rounding K) (b M a U z S y D2 x2 S2 y2 : K) : K :=
  (1 + R.unit) / (1 - b) * ((1 + R.unit) *
      ((1 + R.unit) * (D2 + x2 + (1 + R.unit) * (2 * ((1 + R.unit) * ((U + z) * (S + y)))))
        + (1 + R.unit) * ((S2 + y2) * ((1 + R.unit) / (1 - b) * (M + a)))))
    - (D2 + 2 * (U * S) + S2 * M)

/-- The error of the rounded formula of `evaluate_2nd_derivative_uv`; the arguments are as in
`sameBound`, with one first derivative for each direction. -/
def mixedBound (R : Rounding K) (b M a U z S y U' z' S' y' D2 x2 S2 y2 : K) : K :=
  (1 + R.unit) / (1 - b) * ((1 + R.unit) * ((1 + R.unit) *
      ((1 + R.unit) * (D2 + x2 + (1 + R.unit) * ((S2 + y2) * ((1 + R.unit) / (1 - b) * (M + a))))
        + (1 + R.unit) * ((S + y) * (U' + z'))) + (1 + R.unit) * ((S' + y') * (U + z))))
    - (D2 + S2 * M + S * U' + S' * U)

theorem above_tol {w W b tol : K} (h : |w - W| ≤ b * W) (ht : tol < (1 - b) * W) : tol < w := by
  have := (abs_le.1 h).1
  linarith

theorem sameQuotient_err (R : Rounding K) (f g : ι → Bool) {x d dd : Option ι → K} {su : ι → K}
    {tol W b E S y E2 S2 y2 : K} (hW : 0 < W) (hw : |x none - W| ≤ b * W) (hb : b < 1)
    (htol : tol < (1 - b) * W) (hE : |E| ≤ S * W)
    (hd : |d none - E| ≤ y * W) (hE2 : |E2| ≤ S2 * W) (hd2 : |dd none - E2| ≤ y2 * W) :
    ∃ q, sameQuotient R tol f g x d dd (ok su) = ok q ∧ ∀ i N U D2 M a U0 z T2 z2, |N| ≤ M * W →
      |x (some i) - N| ≤ a * W → |U| ≤ U0 → |su i - U| ≤ z → |D2| ≤ T2 * W →
      |dd (some i) - D2| ≤ z2 * W →
      |q i - W⁻¹ * (D2 - 2 * E * U - E2 * (W⁻¹ * N))| ≤ sameBound R b M a U0 z S y T2 z2 S2 y2 := by
  obtain ⟨hpos, hi⟩ := Maj.inv hW hb hw
  refine ⟨_, (by
    unfold sameQuotient
    rw [if_neg (not_le.2 (above_tol hw htol)), assert_true hpos.ne', ok_bind]
    rfl), ?_⟩
  intro i N U D2 M a U0 z T2 z2 hN hxN hU hsu hD2 hdD2
  have hW' := hW.ne'
  have hb' : 1 - b ≠ 0 := by linarith
  have mN : Maj (x (some i)) N (M * W) (M * W + a * W) := ⟨hN, by linarith⟩
  have mE : Maj (d none) E (S * W) (S * W + y * W) := ⟨hE, by linarith⟩
  have mE2 : Maj (dd none) E2 (S2 * W) (S2 * W + y2 * W) := ⟨hE2, by linarith⟩
  have mD2 : Maj (dd (some i)) D2 (T2 * W) (T2 * W + z2 * W) := ⟨hD2, by linarith⟩
  have mU : Maj (su i) U U0 (U0 + z) := ⟨hU, by linarith⟩
  have two : Maj (2 : K) 2 2 2 := Maj.refl (by norm_num)
  have m0 := (hi.mul mN).rnd R
  have m2 := Maj.subMul R (f i) mD2 two ((mU.mul mE).rnd R)
  have m3 := Maj.subMul R (g i) m2 mE2 m0
  have h := ((m3.mul hi).rnd R).err
  simp only [div_eq_mul_inv]
  rw [show W⁻¹ * (D2 - 2 * E * U - E2 * (W⁻¹ * N))
      = (D2 - 2 * (U * E) - E2 * (W⁻¹ * N)) * W⁻¹ by ring, mul_comm (x (some i))]
  refine h.trans (le_of_eq ?_)
  unfold sameBound
  field_simp

theorem mixedQuotient_err (R : Rounding K) (f g k : ι → Bool) {x du dv dd : Option ι → K}
    {su sv : ι → K} {tol W b E S y E' S' y' E2 S2 y2 : K} (hW : 0 < W) (hw : |x none - W| ≤ b * W)
    (hb : b < 1) (htol : tol < (1 - b) * W) (hE : |E| ≤ S * W) (hd : |du none - E| ≤ y * W)
    (hE' : |E'| ≤ S' * W) (hd' : |dv none - E'| ≤ y' * W)
    (hE2 : |E2| ≤ S2 * W) (hd2 : |dd none - E2| ≤ y2 * W) :
    ∃ q, mixedQuotient R tol f g k x du dv dd (ok su) (ok sv) = ok q ∧
      ∀ i N U V D2 M a U0 z V0 z' T2 z2, |N| ≤ M * W → |x (some i) - N| ≤ a * W → |U| ≤ U0 →
      |su i - U| ≤ z → |V| ≤ V0 → |sv i - V| ≤ z' → |D2| ≤ T2 * W → |dd (some i) - D2| ≤ z2 * W →
      |q i - W⁻¹ * (D2 - E2 * (W⁻¹ * N) - E * V - E' * U)|
        ≤ mixedBound R b M a U0 z S y V0 z' S' y' T2 z2 S2 y2 := by
  obtain ⟨hpos, hi⟩ := Maj.inv hW hb hw
  refine ⟨_, (by
    unfold mixedQuotient
    rw [if_neg (not_le.2 (above_tol hw htol)), assert_true hpos.ne', ok_bind]
    rfl), ?_⟩
  intro i N U V D2 M a U0 z V0 z' T2 z2 hN hxN hU hsu hV hsv hD2 hdD2
  have hW' := hW.ne'
  have hb' : 1 - b ≠ 0 := by linarith
  have mN : Maj (x (some i)) N (M * W) (M * W + a * W) := ⟨hN, by linarith⟩
  have mE : Maj (du none) E (S * W) (S * W + y * W) := ⟨hE, by linarith⟩
  have mE' : Maj (dv none) E' (S' * W) (S' * W + y' * W) := ⟨hE', by linarith⟩
  have mE2 : Maj (dd none) E2 (S2 * W) (S2 * W + y2 * W) := ⟨hE2, by linarith⟩
  have mD2 : Maj (dd (some i)) D2 (T2 * W) (T2 * W + z2 * W) := ⟨hD2, by linarith⟩
  have mU : Maj (su i) U U0 (U0 + z) := ⟨hU, by linarith⟩
  have mV : Maj (sv i) V V0 (V0 + z') := ⟨hV, by linarith⟩
  have m0 := (hi.mul mN).rnd R
  have m2 := Maj.subMul R (f i) mD2 mE2 m0
  have m3 := Maj.subMul R (g i) m2 mE mV
  have m4 := Maj.subMul R (k i) m3 mE' mU
  have h := ((m4.mul hi).rnd R).err
  simp only [div_eq_mul_inv]
  rw [show W⁻¹ * (D2 - E2 * (W⁻¹ * N) - E * V - E' * U)
      = (D2 - E2 * (W⁻¹ * N) - E * V - E' * U) * W⁻¹ by ring, mul_comm (x (some i))]
  refine h.trans (le_of_eq ?_)
  unfold mixedBound
  field_simp

theorem scale_lo {lo W y z : K} (hlo : 0 < lo) (hW : lo ≤ W) (h : |y| ≤ z) : |y| ≤ z / lo * W := by
  refine h.trans ?_
  rw [div_mul_eq_mul_div, le_div_iff₀ hlo]
  exact mul_le_mul_of_nonneg_left hW ((abs_nonneg _).trans h)

theorem quot_abs {W N D E M T S : K} (hW : 0 < W) (hE : |E| ≤ S * W) (hD : |D| ≤ T * W)
    (hN : |N| ≤ M * W) : |W⁻¹ * (D - W⁻¹ * (E * N))| ≤ T + M * S := by
  rw [abs_mul, abs_of_pos (inv_pos.2 hW)]
  have k : |D - W⁻¹ * (E * N)| ≤ (T + M * S) * W := by
    refine (abs_sub _ _).trans ?_
    rw [abs_mul, abs_of_pos (inv_pos.2 hW), abs_mul]
    have := mul_le_mul hE hN (abs_nonneg _) ((abs_nonneg _).trans hE)
    have := mul_le_mul_of_nonneg_left this (inv_pos.2 hW).le
    have e : W⁻¹ * (S * W * (M * W)) = M * S * W := by field_simp
    rw [e] at this
    linarith
  calc _ ≤ W⁻¹ * ((T + M * S) * W) := mul_le_mul_of_nonneg_left k (inv_pos.2 hW).le
    _ = _ := by field_simp

/-! ### The second derivatives -/

/-- **C115**: the second derivative in `u` of a rational Bézier patch with weights between `lo` and
`hi`, `0 < lo`, on the unit square, where the weight stays above the threshold `tol`.  `M` bounds the
control points, `S`, `T` and `S2`, `T2` the control points of the first and second exact derivatives
of the weight and of the numerator. -/
theorem C115_rational_patch_uu (R : Rounding K) (tol : K) (a b k d e : Fuses ι) (f g : ι → Bool)
    {c : RationalBezierPatch K (ι → K)} (hinit : c.init = ok c) {m n : ℕ}
    (hp : c.base.WellFormed (m + 2) n) (pu : c.base.perU = false) (pv : c.base.perV = false)
    {lo hi : K} (hlo : 0 < lo) (hwt : ∀ x ∈ c.weights, lo ≤ x ∧ x ≤ hi)
    (hcond : (1 + R.unit) ^ (3 * (m + 2 + n)) < 2) (htol : tol < (2 - (1 + R.unit) ^ (3 * (m + 2 + n))) * lo)
    {u v : K} (u0 : 0 ≤ u) (u1 : u ≤ 1) (v0 : 0 ≤ v) (v1 : v ≤ 1) {S S2 : K}
    (hS : ∀ a ≤ m + 1, ∀ b ≤ n, |((m + 2 : ℕ) : K) *
        (gridPoint c.weights (n + 1) (a + 1) b - gridPoint c.weights (n + 1) a b)| ≤ S)
    (hS2 : ∀ a ≤ m, ∀ b ≤ n, |((m + 1 : ℕ) : K) *
        (((m + 2 : ℕ) : K) * (gridPoint c.weights (n + 1) (a + 2) b - gridPoint c.weights (n + 1) (a + 1) b)
          - ((m + 2 : ℕ) : K) * (gridPoint c.weights (n + 1) (a + 1) b - gridPoint c.weights (n + 1) a b))| ≤ S2) :
    ∃ q r, rationalPatchDerivUU R tol a b k d e f g c.base c.weights u v = ok q ∧
      c.derivUU tol u v = ok r ∧ ∀ i M T T2, (∀ x ∈ c.base.grid, |x i| ≤ M) →
      (∀ a ≤ m + 1, ∀ b ≤ n, |((m + 2 : ℕ) : K) *
        (gridPoint c.weights (n + 1) (a + 1) b * gridPoint c.base.grid (n + 1) (a + 1) b i - gridPoint c.weights (n + 1) a b * gridPoint c.base.grid (n + 1) a b i)| ≤ T) →
      (∀ a ≤ m, ∀ b ≤ n, |((m + 1 : ℕ) : K) *
        (((m + 2 : ℕ) : K) * (gridPoint c.weights (n + 1) (a + 2) b * gridPoint c.base.grid (n + 1) (a + 2) b i - gridPoint c.weights (n + 1) (a + 1) b * gridPoint c.base.grid (n + 1) (a + 1) b i)
          - ((m + 2 : ℕ) : K) * (gridPoint c.weights (n + 1) (a + 1) b * gridPoint c.base.grid (n + 1) (a + 1) b i - gridPoint c.weights (n + 1) a b * gridPoint c.base.grid (n + 1) a b i))| ≤ T2) →
      |q i - r i| ≤ sameBound R ((1 + R.unit) ^ (3 * (m + 2 + n)) - 1) M (((1 + R.unit) ^ (3 * (m + 2 + n) + 1) - 1) * M)
        (T / lo + M * (S / lo))
        (derivBound R ((1 + R.unit) ^ (3 * (m + 2 + n)) - 1) M (((1 + R.unit) ^ (3 * (m + 2 + n) + 1) - 1) * M) (T / lo)
          (d1Err R (m + 1) ((1 + R.unit) * (1 + R.unit) ^ (3 * n)) T (M * hi) / lo) (S / lo)
          (d1Err R (m + 1) ((1 + R.unit) ^ (3 * n)) S hi / lo))
        (S / lo) (d1Err R (m + 1) ((1 + R.unit) ^ (3 * n)) S hi / lo)
        (T2 / lo) (d2Err R m ((1 + R.unit) * (1 + R.unit) ^ (3 * n)) T T2 (M * hi) / lo)
        (S2 / lo) (d2Err R m ((1 + R.unit) ^ (3 * n)) S S2 hi / lo) := by
  obtain ⟨Sy, -, -⟩ := (RationalBezierPatch.init_iff _ _).1 hinit
  have hlen := Sy.len
  obtain ⟨x, ex, hWlo, en, HN⟩ := rational_patch_value R a.iso a.curve hp pu pv hlen hlo
    (fun x hx => (hwt x hx).1) u0 u1 v0 v1
  have exx := rational_patch_exact Sy hp pu pv u v
  obtain ⟨du, D, E, hdu, edu, HE, HD⟩ := rat_u R b.iso b.curve Sy hp pu pv hlo hwt u0 u1 v0 v1
  obtain ⟨dd, D2, E2, hdd, edd, HE2, HD2⟩ := rat_uu R k.iso k.curve Sy hp pu pv hlo hwt u0 u1 v0 v1
  obtain ⟨su, es, hsu, hes, HS⟩ := C114_rational_patch_derivative_u R d.iso e.iso d.curve e.curve hinit
    hp pu pv hlo hwt hcond u0 u1 v0 v1 hS
  set W := bern2 (m + 2) n (gridPoint c.weights (n + 1)) u v with hW
  set N : ι → K := fun i => bern2 (m + 2) n (fun a b =>
    gridPoint c.weights (n + 1) a b * gridPoint c.base.grid (n + 1) a b i) u v with hN
  have hWpos : 0 < W := lt_of_lt_of_le hlo hWlo
  have hes' : c.derivU u v = ok (W⁻¹ • (D - W⁻¹ • (E • N))) := by
    unfold RationalBezierPatch.derivU
    rw [Sy.validate, ok_bind, exx, ok_bind, edu, ok_bind]
    unfold quot1
    rw [assert_true hWpos.ne', ok_bind]
    rfl
  rw [hes', ok.injEq] at hes
  subst hes
  have p1 : 1 ≤ (1 + R.unit) ^ (3 * (m + 2 + n)) := one_le_pow₀ (by linarith [R.unit_nonneg])
  have t1 : tol < (1 - ((1 + R.unit) ^ (3 * (m + 2 + n)) - 1)) * W := by
    refine lt_of_lt_of_le htol ?_
    rw [show 1 - ((1 + R.unit) ^ (3 * (m + 2 + n)) - 1) = 2 - (1 + R.unit) ^ (3 * (m + 2 + n)) by ring]
    exact mul_le_mul_of_nonneg_left hWlo (by linarith)
  have t2 : tol < W := by
    refine lt_of_lt_of_le t1 ?_
    have := mul_le_mul_of_nonneg_right (show 1 - ((1 + R.unit) ^ (3 * (m + 2 + n)) - 1) ≤ 1 by linarith) hWpos.le
    linarith
  obtain ⟨bE, dE⟩ := HE S hS
  obtain ⟨bE2, dE2⟩ := HE2 S S2 hS hS2
  have scale : ∀ {y z : K}, |y| ≤ z → |y| ≤ z / lo * W := fun h => scale_lo hlo hWlo h
  obtain ⟨q, eq, hq⟩ := sameQuotient_err R f g (su := su) (dd := dd) (tol := tol) hWpos en (by linarith) t1
    (scale bE) (scale dE) (scale bE2) (scale dE2)
  refine ⟨q, W⁻¹ • (D2 - (2 * E) • (W⁻¹ • (D - W⁻¹ • (E • N))) - E2 • (W⁻¹ • N)), ?_, ?_,
    fun i M T T2 hM hT hT2 => ?_⟩
  · unfold rationalPatchDerivUU ratHom
    rw [homogenize_eq R _ _ hlen, ok_bind, pure_eq, ok_bind, ex, ok_bind, hdu, ok_bind, hdd, ok_bind, hsu, eq]
  · unfold RationalBezierPatch.derivUU
    rw [Sy.validate, ok_bind, exx, ok_bind, edu, ok_bind, edd, ok_bind]
    unfold quotSame quot0 quot1
    rw [if_neg (not_le.2 t2), assert_true hWpos.ne', ok_bind, pure_eq, ok_bind, ok_bind, pure_eq, ok_bind,
      pure_eq]
  · obtain ⟨N1, N2⟩ := HN i M hM
    obtain ⟨bD, dD⟩ := HD i M T hM hT
    obtain ⟨bD2, dD2⟩ := HD2 i M T T2 hM hT hT2
    have hU := quot_abs hWpos (scale bE) (scale bD) N1
    have h1 := HS i M T hM hT
    have := hq i (N i) _ (D2 i) M _ _ _ (T2 / lo) _ N1 (N2.trans (le_of_eq (mul_assoc _ _ _).symm)) hU h1
      (scale bD2) (scale dD2)
    exact this

/-- **C115**: the second derivative in `v` of a rational Bézier patch with weights between `lo` and
`hi`, `0 < lo`, on the unit square, where the weight stays above the threshold `tol`.  `M` bounds the
control points, `S`, `T` and `S2`, `T2` the control points of the first and second exact derivatives
of the weight and of the numerator. -/
theorem C115_rational_patch_vv (R : Rounding K) (tol : K) (a b k d e : Fuses ι) (f g : ι → Bool)
    {c : RationalBezierPatch K (ι → K)} (hinit : c.init = ok c) {m n : ℕ}
    (hp : c.base.WellFormed m (n + 2)) (pu : c.base.perU = false) (pv : c.base.perV = false)
    {lo hi : K} (hlo : 0 < lo) (hwt : ∀ x ∈ c.weights, lo ≤ x ∧ x ≤ hi)
    (hcond : (1 + R.unit) ^ (3 * (m + (n + 2))) < 2) (htol : tol < (2 - (1 + R.unit) ^ (3 * (m + (n + 2)))) * lo)
    {u v : K} (u0 : 0 ≤ u) (u1 : u ≤ 1) (v0 : 0 ≤ v) (v1 : v ≤ 1) {S S2 : K}
    (hS : ∀ b ≤ n + 1, ∀ a ≤ m, |((n + 2 : ℕ) : K) *
        (gridPoint c.weights (n + 3) a (b + 1) - gridPoint c.weights (n + 3) a b)| ≤ S)
    (hS2 : ∀ b ≤ n, ∀ a ≤ m, |((n + 1 : ℕ) : K) *
        (((n + 2 : ℕ) : K) * (gridPoint c.weights (n + 3) a (b + 2) - gridPoint c.weights (n + 3) a (b + 1))
          - ((n + 2 : ℕ) : K) * (gridPoint c.weights (n + 3) a (b + 1) - gridPoint c.weights (n + 3) a b))| ≤ S2) :
    ∃ q r, rationalPatchDerivVV R tol a b k d e f g c.base c.weights u v = ok q ∧
      c.derivVV tol u v = ok r ∧ ∀ i M T T2, (∀ x ∈ c.base.grid, |x i| ≤ M) →
      (∀ b ≤ n + 1, ∀ a ≤ m, |((n + 2 : ℕ) : K) *
        (gridPoint c.weights (n + 3) a (b + 1) * gridPoint c.base.grid (n + 3) a (b + 1) i - gridPoint c.weights (n + 3) a b * gridPoint c.base.grid (n + 3) a b i)| ≤ T) →
      (∀ b ≤ n, ∀ a ≤ m, |((n + 1 : ℕ) : K) *
        (((n + 2 : ℕ) : K) * (gridPoint c.weights (n + 3) a (b + 2) * gridPoint c.base.grid (n + 3) a (b + 2) i - gridPoint c.weights (n + 3) a (b + 1) * gridPoint c.base.grid (n + 3) a (b + 1) i)
          - ((n + 2 : ℕ) : K) * (gridPoint c.weights (n + 3) a (b + 1) * gridPoint c.base.grid (n + 3) a (b + 1) i - gridPoint c.weights (n + 3) a b * gridPoint c.base.grid (n + 3) a b i))| ≤ T2) →
      |q i - r i| ≤ sameBound R ((1 + R.unit) ^ (3 * (m + (n + 2))) - 1) M (((1 + R.unit) ^ (3 * (m + (n + 2)) + 1) - 1) * M)
        (T / lo + M * (S / lo))
        (derivBound R ((1 + R.unit) ^ (3 * (m + (n + 2))) - 1) M (((1 + R.unit) ^ (3 * (m + (n + 2)) + 1) - 1) * M) (T / lo)
          (d1Err R (n + 1) ((1 + R.unit) * (1 + R.unit) ^ (3 * m)) T (M * hi) / lo) (S / lo)
          (d1Err R (n + 1) ((1 + R.unit) ^ (3 * m)) S hi / lo))
        (S / lo) (d1Err R (n + 1) ((1 + R.unit) ^ (3 * m)) S hi / lo)
        (T2 / lo) (d2Err R n ((1 + R.unit) * (1 + R.unit) ^ (3 * m)) T T2 (M * hi) / lo)
        (S2 / lo) (d2Err R n ((1 + R.unit) ^ (3 * m)) S S2 hi / lo) := by
  obtain ⟨Sy, -, -⟩ := (RationalBezierPatch.init_iff _ _).1 hinit
  have hlen := Sy.len
  obtain ⟨x, ex, hWlo, en, HN⟩ := rational_patch_value R a.iso a.curve hp pu pv hlen hlo
    (fun x hx => (hwt x hx).1) u0 u1 v0 v1
  have exx := rational_patch_exact Sy hp pu pv u v
  obtain ⟨du, D, E, hdu, edu, HE, HD⟩ := rat_v R b.iso b.curve Sy hp pu pv hlo hwt u0 u1 v0 v1
  obtain ⟨dd, D2, E2, hdd, edd, HE2, HD2⟩ := rat_vv R k.iso k.curve Sy hp pu pv hlo hwt u0 u1 v0 v1
  obtain ⟨su, es, hsu, hes, HS⟩ := C114_rational_patch_derivative_v R d.iso e.iso d.curve e.curve hinit
    hp pu pv hlo hwt hcond u0 u1 v0 v1 hS
  set W := bern2 m (n + 2) (gridPoint c.weights (n + 3)) u v with hW
  set N : ι → K := fun i => bern2 m (n + 2) (fun a b =>
    gridPoint c.weights (n + 3) a b * gridPoint c.base.grid (n + 3) a b i) u v with hN
  have hWpos : 0 < W := lt_of_lt_of_le hlo hWlo
  have hes' : c.derivV u v = ok (W⁻¹ • (D - W⁻¹ • (E • N))) := by
    unfold RationalBezierPatch.derivV
    rw [Sy.validate, ok_bind, exx, ok_bind, edu, ok_bind]
    unfold quot1
    rw [assert_true hWpos.ne', ok_bind]
    rfl
  rw [hes', ok.injEq] at hes
  subst hes
  have p1 : 1 ≤ (1 + R.unit) ^ (3 * (m + (n + 2))) := one_le_pow₀ (by linarith [R.unit_nonneg])
  have t1 : tol < (1 - ((1 + R.unit) ^ (3 * (m + (n + 2))) - 1)) * W := by
    refine lt_of_lt_of_le htol ?_
    rw [show 1 - ((1 + R.unit) ^ (3 * (m + (n + 2))) - 1) = 2 - (1 + R.unit) ^ (3 * (m + (n + 2))) by ring]
    exact mul_le_mul_of_nonneg_left hWlo (by linarith)
  have t2 : tol < W := by
    refine lt_of_lt_of_le t1 ?_
    have := mul_le_mul_of_nonneg_right (show 1 - ((1 + R.unit) ^ (3 * (m + (n + 2))) - 1) ≤ 1 by linarith) hWpos.le
    linarith
  obtain ⟨bE, dE⟩ := HE S hS
  obtain ⟨bE2, dE2⟩ := HE2 S S2 hS hS2
  have scale : ∀ {y z : K}, |y| ≤ z → |y| ≤ z / lo * W := fun h => scale_lo hlo hWlo h
  obtain ⟨q, eq, hq⟩ := sameQuotient_err R f g (su := su) (dd := dd) (tol := tol) hWpos en (by linarith) t1
    (scale bE) (scale dE) (scale bE2) (scale dE2)
  refine ⟨q, W⁻¹ • (D2 - (2 * E) • (W⁻¹ • (D - W⁻¹ • (E • N))) - E2 • (W⁻¹ • N)), ?_, ?_,
    fun i M T T2 hM hT hT2 => ?_⟩
  · unfold rationalPatchDerivVV ratHom
    rw [homogenize_eq R _ _ hlen, ok_bind, pure_eq, ok_bind, ex, ok_bind, hdu, ok_bind, hdd, ok_bind, hsu, eq]
  · unfold RationalBezierPatch.derivVV
    rw [Sy.validate, ok_bind, exx, ok_bind, edu, ok_bind, edd, ok_bind]
    unfold quotSame quot0 quot1
    rw [if_neg (not_le.2 t2), assert_true hWpos.ne', ok_bind, pure_eq, ok_bind, ok_bind, pure_eq, ok_bind,
      pure_eq]
  · obtain ⟨N1, N2⟩ := HN i M hM
    obtain ⟨bD, dD⟩ := HD i M T hM hT
    obtain ⟨bD2, dD2⟩ := HD2 i M T T2 hM hT hT2
    have hU := quot_abs hWpos (scale bE) (scale bD) N1
    have h1 := HS i M T hM hT
    have := hq i (N i) _ (D2 i) M _ _ _ (T2 / lo) _ N1 (N2.trans (le_of_eq (mul_assoc _ _ _).symm)) hU h1
      (scale bD2) (scale dD2)
    exact this

/-- **C115**: the mixed derivative of a rational Bézier patch, under the same conditions.  `S`, `T` and
`S'`, `T'` bound the control points of the exact derivatives in `u` and in `v` of the weight and of the
numerator, `S2` and `T2` those of the mixed derivatives. -/
theorem C115_rational_patch_uv (R : Rounding K) (tol : K) (a b b' k d e d' e' : Fuses ι)
    (f g h : ι → Bool) {c : RationalBezierPatch K (ι → K)} (hinit : c.init = ok c) {m n : ℕ}
    (hp : c.base.WellFormed (m + 1) (n + 1)) (pu : c.base.perU = false) (pv : c.base.perV = false)
    {lo hi : K} (hlo : 0 < lo) (hwt : ∀ x ∈ c.weights, lo ≤ x ∧ x ≤ hi)
    (hcond : (1 + R.unit) ^ (3 * (m + 1 + (n + 1))) < 2) (htol : tol < (2 - (1 + R.unit) ^ (3 * (m + 1 + (n + 1)))) * lo)
    {u v : K} (u0 : 0 ≤ u) (u1 : u ≤ 1) (v0 : 0 ≤ v) (v1 : v ≤ 1) {S S' S2 : K}
    (hS : ∀ a ≤ m, ∀ b ≤ n + 1, |((m + 1 : ℕ) : K) * (gridPoint c.weights (n + 2) (a + 1) b - gridPoint c.weights (n + 2) a b)| ≤ S)
    (hS' : ∀ b ≤ n, ∀ a ≤ m + 1, |((n + 1 : ℕ) : K) * (gridPoint c.weights (n + 2) a (b + 1) - gridPoint c.weights (n + 2) a b)| ≤ S')
    (hS2 : ∀ a ≤ m, ∀ b ≤ n, |mix m n (gridPoint c.weights (n + 2)) a b| ≤ S2) :
    ∃ q r, rationalPatchDerivUV R tol a b b' k d e d' e' f g h c.base c.weights u v = ok q ∧
      c.derivUV tol u v = ok r ∧ ∀ i M T T' T2, (∀ x ∈ c.base.grid, |x i| ≤ M) →
      (∀ a ≤ m, ∀ b ≤ n + 1, |((m + 1 : ℕ) : K) *
        (gridPoint c.weights (n + 2) (a + 1) b * gridPoint c.base.grid (n + 2) (a + 1) b i - gridPoint c.weights (n + 2) a b * gridPoint c.base.grid (n + 2) a b i)| ≤ T) →
      (∀ b ≤ n, ∀ a ≤ m + 1, |((n + 1 : ℕ) : K) *
        (gridPoint c.weights (n + 2) a (b + 1) * gridPoint c.base.grid (n + 2) a (b + 1) i - gridPoint c.weights (n + 2) a b * gridPoint c.base.grid (n + 2) a b i)| ≤ T') →
      (∀ a ≤ m, ∀ b ≤ n, |mix m n (fun a b => gridPoint c.weights (n + 2) a b * gridPoint c.base.grid (n + 2) a b i) a b| ≤ T2) →
      |q i - r i| ≤ mixedBound R ((1 + R.unit) ^ (3 * (m + 1 + (n + 1))) - 1) M (((1 + R.unit) ^ (3 * (m + 1 + (n + 1)) + 1) - 1) * M)
        (T / lo + M * (S / lo))
        (derivBound R ((1 + R.unit) ^ (3 * (m + 1 + (n + 1))) - 1) M (((1 + R.unit) ^ (3 * (m + 1 + (n + 1)) + 1) - 1) * M) (T / lo)
          (d1Err R m ((1 + R.unit) * (1 + R.unit) ^ (3 * (n + 1))) T (M * hi) / lo) (S / lo)
          (d1Err R m ((1 + R.unit) ^ (3 * (n + 1))) S hi / lo))
        (S / lo) (d1Err R m ((1 + R.unit) ^ (3 * (n + 1))) S hi / lo)
        (T' / lo + M * (S' / lo))
        (derivBound R ((1 + R.unit) ^ (3 * (m + 1 + (n + 1))) - 1) M (((1 + R.unit) ^ (3 * (m + 1 + (n + 1)) + 1) - 1) * M) (T' / lo)
          (d1Err R n ((1 + R.unit) * (1 + R.unit) ^ (3 * (m + 1))) T' (M * hi) / lo) (S' / lo)
          (d1Err R n ((1 + R.unit) ^ (3 * (m + 1))) S' hi / lo))
        (S' / lo) (d1Err R n ((1 + R.unit) ^ (3 * (m + 1))) S' hi / lo)
        (T2 / lo) ((mixErr R m n (T + (2 * (m + 1 : ℕ) * (R.unit * (M * hi)))) (T2 + 2 * (n + 1 : ℕ) * (2 * (m + 1 : ℕ) * (R.unit * (M * hi))))
          + 2 * (n + 1 : ℕ) * (2 * (m + 1 : ℕ) * (R.unit * (M * hi)))) / lo)
        (S2 / lo) (mixErr R m n S S2 / lo) := by
  obtain ⟨Sy, -, -⟩ := (RationalBezierPatch.init_iff _ _).1 hinit
  have hlen := Sy.len
  obtain ⟨x, ex, hWlo, en, HN⟩ := rational_patch_value R a.iso a.curve hp pu pv hlen hlo
    (fun x hx => (hwt x hx).1) u0 u1 v0 v1
  have exx := rational_patch_exact Sy hp pu pv u v
  obtain ⟨du, D, E, hdu, edu, HE, HD⟩ := rat_u R b.iso b.curve Sy hp pu pv hlo hwt u0 u1 v0 v1
  obtain ⟨dv, D', E', hdv, edv, HE', HD'⟩ := rat_v R b'.iso b'.curve Sy hp pu pv hlo hwt u0 u1 v0 v1
  obtain ⟨dd, D2, E2, hdd, edd, HE2, HD2⟩ := rat_uv R k.iso k.curve Sy hp pu pv hlo hwt u0 u1 v0 v1
  obtain ⟨su, es, hsu, hes, HS⟩ := C114_rational_patch_derivative_u R d.iso e.iso d.curve e.curve hinit
    hp pu pv hlo hwt hcond u0 u1 v0 v1 hS
  obtain ⟨sv, es', hsv, hes', HS'⟩ := C114_rational_patch_derivative_v R d'.iso e'.iso d'.curve e'.curve hinit
    hp pu pv hlo hwt hcond u0 u1 v0 v1 hS'
  set W := bern2 (m + 1) (n + 1) (gridPoint c.weights (n + 2)) u v with hW
  set N : ι → K := fun i => bern2 (m + 1) (n + 1) (fun a b => gridPoint c.weights (n + 2) a b * gridPoint c.base.grid (n + 2) a b i) u v with hN
  have hWpos : 0 < W := lt_of_lt_of_le hlo hWlo
  have r1 : c.derivU u v = ok (W⁻¹ • (D - W⁻¹ • (E • N))) := by
    unfold RationalBezierPatch.derivU
    rw [Sy.validate, ok_bind, exx, ok_bind, edu, ok_bind]
    unfold quot1
    rw [assert_true hWpos.ne', ok_bind]
    rfl
  have r2 : c.derivV u v = ok (W⁻¹ • (D' - W⁻¹ • (E' • N))) := by
    unfold RationalBezierPatch.derivV
    rw [Sy.validate, ok_bind, exx, ok_bind, edv, ok_bind]
    unfold quot1
    rw [assert_true hWpos.ne', ok_bind]
    rfl
  rw [r1, ok.injEq] at hes
  rw [r2, ok.injEq] at hes'
  subst hes hes'
  have p1 : 1 ≤ (1 + R.unit) ^ (3 * (m + 1 + (n + 1))) := one_le_pow₀ (by linarith [R.unit_nonneg])
  have t1 : tol < (1 - ((1 + R.unit) ^ (3 * (m + 1 + (n + 1))) - 1)) * W := by
    refine lt_of_lt_of_le htol ?_
    rw [show 1 - ((1 + R.unit) ^ (3 * (m + 1 + (n + 1))) - 1) = 2 - (1 + R.unit) ^ (3 * (m + 1 + (n + 1))) by ring]
    exact mul_le_mul_of_nonneg_left hWlo (by linarith)
  have t2 : tol < W := by
    refine lt_of_lt_of_le t1 ?_
    have := mul_le_mul_of_nonneg_right (show 1 - ((1 + R.unit) ^ (3 * (m + 1 + (n + 1))) - 1) ≤ 1 by linarith) hWpos.le
    linarith
  obtain ⟨bE, dE⟩ := HE S hS
  obtain ⟨bE', dE'⟩ := HE' S' hS'
  obtain ⟨bE2, dE2⟩ := HE2 S S2 hS hS2
  have scale : ∀ {y z : K}, |y| ≤ z → |y| ≤ z / lo * W := fun h => scale_lo hlo hWlo h
  obtain ⟨q, eq, hq⟩ := mixedQuotient_err R f g h (su := su) (sv := sv) (dd := dd) (tol := tol) hWpos en
    (by linarith) t1 (scale bE) (scale dE) (scale bE') (scale dE') (scale bE2) (scale dE2)
  refine ⟨q, W⁻¹ • (D2 - E2 • (W⁻¹ • N) - E • (W⁻¹ • (D' - W⁻¹ • (E' • N)))
    - E' • (W⁻¹ • (D - W⁻¹ • (E • N)))), ?_, ?_, fun i M T T' T2 hM hT hT' hT2 => ?_⟩
  · unfold rationalPatchDerivUV ratHom
    rw [homogenize_eq R _ _ hlen, ok_bind, pure_eq, ok_bind, ex, ok_bind, hdu, ok_bind, hdv, ok_bind, hdd,
      ok_bind, hsu, hsv, eq]
  · unfold RationalBezierPatch.derivUV
    rw [Sy.validate, ok_bind, exx, ok_bind, edu, ok_bind, edv, ok_bind, edd, ok_bind]
    unfold quotMixed quot0 quot1
    rw [if_neg (not_le.2 t2), assert_true hWpos.ne']
    rfl
  · obtain ⟨N1, N2⟩ := HN i M hM
    obtain ⟨bD, dD⟩ := HD i M T hM hT
    obtain ⟨bD', dD'⟩ := HD' i M T' hM hT'
    obtain ⟨bD2, dD2⟩ := HD2 i M T T2 hM hT hT2
    have hU := quot_abs hWpos (scale bE) (scale bD) N1
    have hV := quot_abs hWpos (scale bE') (scale bD') N1
    have := hq i (N i) _ _ (D2 i) M _ _ _ _ _ (T2 / lo) _ N1 (N2.trans (le_of_eq (mul_assoc _ _ _).symm)) hU
      (HS i M T hM hT) hV (HS' i M T' hM hT') (scale bD2) (scale dD2)
    exact this

/-! ### Exact arithmetic -/

theorem fin_bound (X : ℕ → ℕ → K) (m n : ℕ) : ∃ T, ∀ a ≤ m, ∀ b ≤ n, |X a b| ≤ T :=
  ⟨∑ a ∈ range (m + 1), ∑ b ∈ range (n + 1), |X a b|, fun a ha b hb =>
    (single_le_sum (f := fun b => |X a b|) (fun _ _ => abs_nonneg _) (mem_range.2 (by omega : b < n + 1))).trans
      (single_le_sum (f := fun a => ∑ b ∈ range (n + 1), |X a b|)
        (fun _ _ => sum_nonneg fun _ _ => abs_nonneg _) (mem_range.2 (by omega : a < m + 1)))⟩

theorem list_bound {A : Type} (f : A → K) (l : List A) : ∃ T, ∀ x ∈ l, |f x| ≤ T := by
  by_cases h : l = []
  · exact ⟨0, by simp [h]⟩
  · obtain ⟨y, -, hy⟩ := exists_list_max (fun x => |f x|) l h
    exact ⟨_, hy⟩

/-- Rounding without error gives the exact second derivatives, for positive weights above the
threshold. -/
theorem C115_exact_arithmetic (tol : K) (a b b' k d e d' e' : Fuses ι) (f g h : ι → Bool)
    {c : RationalBezierPatch K (ι → K)} (hinit : c.init = ok c) {m n : ℕ}
    (hp : c.base.WellFormed (m + 2) (n + 2)) (pu : c.base.perU = false) (pv : c.base.perV = false)
    {lo : K} (hlo : 0 < lo) (hwt : ∀ x ∈ c.weights, lo ≤ x) (htol : tol < lo)
    {u v : K} (u0 : 0 ≤ u) (u1 : u ≤ 1) (v0 : 0 ≤ v) (v1 : v ≤ 1) :
    rationalPatchDerivUU Rounding.exact tol a b k d e f g c.base c.weights u v = c.derivUU tol u v ∧
    rationalPatchDerivVV Rounding.exact tol a b k d e f g c.base c.weights u v = c.derivVV tol u v ∧
    rationalPatchDerivUV Rounding.exact tol a b b' k d e d' e' f g h c.base c.weights u v
      = c.derivUV tol u v := by
  have hun : (Rounding.exact : Rounding K).unit = 0 := rfl
  obtain ⟨hi, hhi⟩ := list_bound id c.weights
  have hw : ∀ x ∈ c.weights, lo ≤ x ∧ x ≤ hi := fun x hx =>
    ⟨hwt x hx, (le_abs_self _).trans (hhi x hx)⟩
  have eq0 : ∀ {q r : ι → K}, (∀ i, |q i - r i| ≤ 0) → q = r := fun h =>
    funext fun i => sub_eq_zero.1 (abs_eq_zero.1 (le_antisymm (h i) (abs_nonneg _)))
  refine ⟨?_, ?_, ?_⟩
  · obtain ⟨S, hS⟩ := fin_bound (fun a b => ((m + 2 : ℕ) : K) *
      (gridPoint c.weights (n + 3) (a + 1) b - gridPoint c.weights (n + 3) a b)) (m + 1) (n + 2)
    obtain ⟨S2, hS2⟩ := fin_bound (fun a b => ((m + 1 : ℕ) : K) *
        (((m + 2 : ℕ) : K) * (gridPoint c.weights (n + 3) (a + 2) b - gridPoint c.weights (n + 3) (a + 1) b)
          - ((m + 2 : ℕ) : K) * (gridPoint c.weights (n + 3) (a + 1) b - gridPoint c.weights (n + 3) a b)))
        m (n + 2)
    obtain ⟨q, r, hq, hr, H⟩ := C115_rational_patch_uu Rounding.exact tol a b k d e f g hinit hp pu pv hlo hw
      (by simp [hun]) (by simp only [hun]; norm_num; exact htol) u0 u1 v0 v1 hS hS2
    rw [hq, hr]
    refine congrArg ok (eq0 fun i => ?_)
    obtain ⟨M, hM⟩ := list_bound (fun x : ι → K => x i) c.base.grid
    obtain ⟨T, hT⟩ := fin_bound (fun a b => ((m + 2 : ℕ) : K) *
      (gridPoint c.weights (n + 3) (a + 1) b * gridPoint c.base.grid (n + 3) (a + 1) b i
        - gridPoint c.weights (n + 3) a b * gridPoint c.base.grid (n + 3) a b i)) (m + 1) (n + 2)
    obtain ⟨T2, hT2⟩ := fin_bound (fun a b => ((m + 1 : ℕ) : K) *
        (((m + 2 : ℕ) : K) *
            (gridPoint c.weights (n + 3) (a + 2) b * gridPoint c.base.grid (n + 3) (a + 2) b i
              - gridPoint c.weights (n + 3) (a + 1) b * gridPoint c.base.grid (n + 3) (a + 1) b i)
          - ((m + 2 : ℕ) : K) *
            (gridPoint c.weights (n + 3) (a + 1) b * gridPoint c.base.grid (n + 3) (a + 1) b i
              - gridPoint c.weights (n + 3) a b * gridPoint c.base.grid (n + 3) a b i))) m (n + 2)
    refine (H i M T T2 hM hT hT2).trans (le_of_eq ?_)
    simp [sameBound, derivBound, d1Err, d2Err, isoErr, firstErr, hun]
  · obtain ⟨S, hS⟩ := fin_bound (fun b a => ((n + 2 : ℕ) : K) *
      (gridPoint c.weights (n + 3) a (b + 1) - gridPoint c.weights (n + 3) a b)) (n + 1) (m + 2)
    obtain ⟨S2, hS2⟩ := fin_bound (fun b a => ((n + 1 : ℕ) : K) *
        (((n + 2 : ℕ) : K) * (gridPoint c.weights (n + 3) a (b + 2) - gridPoint c.weights (n + 3) a (b + 1))
          - ((n + 2 : ℕ) : K) * (gridPoint c.weights (n + 3) a (b + 1) - gridPoint c.weights (n + 3) a b)))
        n (m + 2)
    obtain ⟨q, r, hq, hr, H⟩ := C115_rational_patch_vv Rounding.exact tol a b k d e f g hinit hp pu pv hlo hw
      (by simp [hun]) (by simp only [hun]; norm_num; exact htol) u0 u1 v0 v1 hS hS2
    rw [hq, hr]
    refine congrArg ok (eq0 fun i => ?_)
    obtain ⟨M, hM⟩ := list_bound (fun x : ι → K => x i) c.base.grid
    obtain ⟨T, hT⟩ := fin_bound (fun b a => ((n + 2 : ℕ) : K) *
      (gridPoint c.weights (n + 3) a (b + 1) * gridPoint c.base.grid (n + 3) a (b + 1) i
        - gridPoint c.weights (n + 3) a b * gridPoint c.base.grid (n + 3) a b i)) (n + 1) (m + 2)
    obtain ⟨T2, hT2⟩ := fin_bound (fun b a => ((n + 1 : ℕ) : K) *
        (((n + 2 : ℕ) : K) *
            (gridPoint c.weights (n + 3) a (b + 2) * gridPoint c.base.grid (n + 3) a (b + 2) i
              - gridPoint c.weights (n + 3) a (b + 1) * gridPoint c.base.grid (n + 3) a (b + 1) i)
          - ((n + 2 : ℕ) : K) *
            (gridPoint c.weights (n + 3) a (b + 1) * gridPoint c.base.grid (n + 3) a (b + 1) i
              - gridPoint c.weights (n + 3) a b * gridPoint c.base.grid (n + 3) a b i))) n (m + 2)
    refine (H i M T T2 hM hT hT2).trans (le_of_eq ?_)
    simp [sameBound, derivBound, d1Err, d2Err, isoErr, firstErr, hun]
  · obtain ⟨S, hS⟩ := fin_bound (fun a b => ((m + 1 + 1 : ℕ) : K) *
      (gridPoint c.weights (n + 3) (a + 1) b - gridPoint c.weights (n + 3) a b)) (m + 1) (n + 2)
    obtain ⟨S', hS'⟩ := fin_bound (fun b a => ((n + 1 + 1 : ℕ) : K) *
      (gridPoint c.weights (n + 3) a (b + 1) - gridPoint c.weights (n + 3) a b)) (n + 1) (m + 2)
    obtain ⟨S2, hS2⟩ := fin_bound (mix (m + 1) (n + 1) (gridPoint c.weights (n + 3))) (m + 1) (n + 1)
    obtain ⟨q, r, hq, hr, H⟩ := C115_rational_patch_uv Rounding.exact tol a b b' k d e d' e' f g h hinit hp pu
      pv hlo hw (by simp [hun]) (by simp only [hun]; norm_num; exact htol) u0 u1 v0 v1 hS hS' hS2
    rw [hq, hr]
    refine congrArg ok (eq0 fun i => ?_)
    obtain ⟨M, hM⟩ := list_bound (fun x : ι → K => x i) c.base.grid
    obtain ⟨T, hT⟩ := fin_bound (fun a b => ((m + 1 + 1 : ℕ) : K) *
      (gridPoint c.weights (n + 3) (a + 1) b * gridPoint c.base.grid (n + 3) (a + 1) b i
        - gridPoint c.weights (n + 3) a b * gridPoint c.base.grid (n + 3) a b i)) (m + 1) (n + 2)
    obtain ⟨T', hT'⟩ := fin_bound (fun b a => ((n + 1 + 1 : ℕ) : K) *
      (gridPoint c.weights (n + 3) a (b + 1) * gridPoint c.base.grid (n + 3) a (b + 1) i
        - gridPoint c.weights (n + 3) a b * gridPoint c.base.grid (n + 3) a b i)) (n + 1) (m + 2)
    obtain ⟨T2, hT2⟩ := fin_bound (mix (m + 1) (n + 1) fun a b =>
      gridPoint c.weights (n + 3) a b * gridPoint c.base.grid (n + 3) a b i) (m + 1) (n + 1)
    refine (H i M T T' T2 hM hT hT' hT2).trans (le_of_eq ?_)
    simp [mixedBound, derivBound, d1Err, mixErr, isoErr, hun]

end General

/-! ### Concrete cases -/

section Examples

/-- The hypotheses of `C115_rational_patch_uu` and `C115_rational_patch_uv` in double precision. -/
example : someRationalPatch.init = ok someRationalPatch ∧
    someRationalPatch.base.WellFormed (0 + 2) 2 ∧
    (∀ x ∈ someRationalPatch.weights, tenth ≤ x ∧ x ≤ 2) ∧ (1 + double.unit) ^ (3 * (0 + 2 + 2)) < 2 ∧
    1 / 2 ^ 52 < (2 - (1 + double.unit) ^ (3 * (0 + 2 + 2))) * tenth ∧
    (∀ a ≤ 1, ∀ b ≤ 2, |((0 + 2 : ℕ) : ℚ) * (gridPoint someRationalPatch.weights 3 (a + 1) b
        - gridPoint someRationalPatch.weights 3 a b)| ≤ 3) ∧
    (∀ a ≤ 0, ∀ b ≤ 2, |((0 + 1 : ℕ) : ℚ) *
        (((0 + 2 : ℕ) : ℚ) * (gridPoint someRationalPatch.weights 3 (a + 2) b
            - gridPoint someRationalPatch.weights 3 (a + 1) b)
          - ((0 + 2 : ℕ) : ℚ) * (gridPoint someRationalPatch.weights 3 (a + 1) b
            - gridPoint someRationalPatch.weights 3 a b))| ≤ 4) ∧
    (∀ b ≤ 1, ∀ a ≤ 2, |((1 + 1 : ℕ) : ℚ) * (gridPoint someRationalPatch.weights 3 a (b + 1)
        - gridPoint someRationalPatch.weights 3 a b)| ≤ 2) ∧
    (∀ a ≤ 1, ∀ b ≤ 1, |mix 1 1 (gridPoint someRationalPatch.weights 3) a b| ≤ 8) := by
  refine ⟨(RationalBezierPatch.init_iff _ _).2 ⟨⟨rfl, rfl, by decide +kernel⟩, by decide +kernel,
    by decide +kernel⟩, ⟨rfl, rfl, rfl⟩, by decide +kernel, by decide +kernel, by decide +kernel,
    ?_, ?_, ?_, ?_⟩
  all_goals
    intro a ha b hb
    interval_cases a <;> interval_cases b <;> (try unfold mix) <;> decide +kernel

/-- Rounding shows: in double precision the second derivative of this patch differs from the exact one. -/
example : (rationalPatchDerivUU double (1 / 2 ^ 52) ⟨fun _ _ _ _ => .none, fun _ _ _ => .none⟩
      ⟨fun _ _ _ _ => .none, fun _ _ _ => .none⟩ ⟨fun _ _ _ _ => .none, fun _ _ _ => .none⟩
      ⟨fun _ _ _ _ => .none, fun _ _ _ => .none⟩ ⟨fun _ _ _ _ => .none, fun _ _ _ => .none⟩
      (fun _ => false) (fun _ => false) someRationalPatch.base someRationalPatch.weights
      (1 / 4) (1 / 4) >>= fun q => ok (q 0))
    ≠ (someRationalPatch.derivUU (1 / 2 ^ 52) (1 / 4 : ℚ) (1 / 4) >>= fun q => ok (q 0)) := by
  decide +kernel

end Examples

end NS.Fl
