import Verif.Model.FloatNurbsPatch
import Verif.Props.FloatRational
import Verif.Props.NurbsPatch

/-!
# Property C116: rounding errors of the partial derivatives of NURBS patches
-/

set_option linter.unusedSectionVars false

namespace NS.Fl

open Outcome Finset Spec NS.Props

section General

variable {K ι : Type} [Field K] [LinearOrder K] [IsStrictOrderedRing K] [FloorRing K]

/-- Error of the control points of the derivative along a direction of degree `d` whose basis
functions have supports of length at least `δ`, if the control points of the iso-curve, of size `M₀`,
have the relative error `g - 1`. -/
def gridNoise (d : ℕ) (g M₀ δ : K) : K := 2 * d * (g - 1) * M₀ / δ

/-- Bound on the error of a derivative of degree `d` whose control points, bounded by `M`, have the
error `N`. -/
def splineErr (R : Rounding K) (d : ℕ) (M N : K) : K := (diffGrowth R * growth R ^ d - 1) * (M + N) + N

/-- One direction after the other, with perturbed control points: `P` are the stored points, `A` the
exact ones. -/
theorem patch_deriv_pert (R : Rounding K) (hu1 : R.unit < 1) (F : ℕ → ℕ → ℕ → ι → Fuse)
    (G : ℕ → ℕ → ι → Fuse) {ku kv : List K} {degu degv su sv : ℤ} {m n d e : ℕ}
    (hU : BSplinePatch.Axis ku degu su m (d + 1)) (hV : BSplinePatch.Axis kv degv sv n e)
    (wu : FlWideOn R ku m (d + 1)) (wv : FlWideOn R kv n e) (P A : ℕ → ℕ → ι → K) {u v : K}
    (hu : BSplinePatch.InDom ku m (d + 1) u) (hv : BSplinePatch.InDom kv n e v) :
    ∃ (c : ℕ → ι → K) (q x : ι → K),
      (∀ a, bsplineEvaluate R (F a) (BSpline.mk (arr n (P a)) kv false (BSplinePatch.staticDeg sv)) v
        = ok (c a)) ∧
      bsplineDerivative R G (BSpline.mk (arr m c) ku false (BSplinePatch.staticDeg su)) u = ok q ∧
      (BSpline.mk (arr m fun a => BSplinePatch.bsum e kv n (A a) v) ku false
        (BSplinePatch.staticDeg su)).evaluateDerivative u = ok x ∧
      ∀ i g M₀ M δ, 0 < δ → 1 ≤ g → (∀ a < m, ∀ b < n, |A a b i| ≤ M₀) →
        (∀ a < m, ∀ b < n, |P a b i - A a b i| ≤ (g - 1) * M₀) →
        (∀ a, a + 1 < m → ∀ b < n, |((d + 1 : ℕ) : K) * (A (a + 1) b i - A a b i)|
          ≤ M * (knot ku (a + d + 2) - knot ku (a + 1))) →
        (∀ a, a + 1 < m → δ ≤ knot ku (a + d + 2) - knot ku (a + 1)) →
        |q i - x i| ≤ splineErr R d M (gridNoise (d + 1) (g * growth R ^ e) M₀ δ) ∧ |x i| ≤ M := by
  choose c hc H using fun a => bspline_axis_arr R hu1 (F a) hV wv (P a) hv
  have hl : (arr m c).length = m := by simp
  obtain ⟨q, x, hq, hx, B⟩ := bspline_deriv_axis R hu1 G (hU.wf false hl) rfl
    (by intro j j1 j2 j3; simp only [hl] at j2; exact wu j j1 j2 j3)
    (arr m fun a => BSplinePatch.bsum e kv n (A a) v) (by simp) (t := u) hu.2.2 hu.1
    (by simp only [hl]; exact hu.2.1)
  refine ⟨c, q, x, hc, hq, hx, fun i g M₀ M δ hδ hg h0 hP h1 h2 => B i M _ ?_ ?_⟩
  all_goals
    intro j hj
    rw [hl] at hj
    have hbs : ∀ a, BSplinePatch.bsum e kv n (A a) v i
        = BSplinePatch.bsum e kv n (fun b => A a b i) v := by
      intro a
      simp [BSplinePatch.bsum, Finset.sum_apply]
    simp only [arr_getD m _ _ _ hj, arr_getD m _ _ _ (show j < m by omega), hbs]
  · rw [← bsum_sub, ← bsum_mul]
    exact bsum_abs hV (FlWideOn.wide wv) hv _ _ (fun b hb => h1 j hj b hb)
  · have e1 := (H (j + 1) i g M₀ (fun b => A (j + 1) b i) hg (fun b hb => h0 _ hj b hb)
      (fun b hb => hP _ hj b hb)).1
    have e0 := (H j i g M₀ (fun b => A j b i) hg (fun b hb => h0 _ (by omega) b hb)
      (fun b hb => hP _ (by omega) b hb)).1
    have hW := h2 j hj
    have hN : (d + 1 : ℕ) * (2 * ((g * growth R ^ e - 1) * M₀))
        = gridNoise (d + 1) (g * growth R ^ e) M₀ δ * δ := by
      unfold gridNoise
      rw [div_mul_cancel₀ _ hδ.ne']
      ring
    have hpos : 0 ≤ (g * growth R ^ e - 1) * M₀ := le_trans (abs_nonneg _) e0
    have hN0 : 0 ≤ gridNoise (d + 1) (g * growth R ^ e) M₀ δ := by
      have : (0 : K) ≤ (d + 1 : ℕ) * (2 * ((g * growth R ^ e - 1) * M₀)) := by positivity
      rw [hN] at this
      exact nonneg_of_mul_nonneg_left this hδ
    rw [abs_mul, abs_of_nonneg (by positivity : (0 : K) ≤ ((d + 1 : ℕ) : K))]
    have tri : |c (j + 1) i - c j i - (BSplinePatch.bsum e kv n (fun b => A (j + 1) b i) v
        - BSplinePatch.bsum e kv n (fun b => A j b i) v)| ≤ 2 * ((g * growth R ^ e - 1) * M₀) := by
      rw [abs_le] at e0 e1 ⊢
      constructor <;> linarith [e0.1, e0.2, e1.1, e1.2]
    calc _ ≤ ((d + 1 : ℕ) : K) * (2 * ((g * growth R ^ e - 1) * M₀)) :=
          mul_le_mul_of_nonneg_left tri (by positivity)
      _ = gridNoise (d + 1) (g * growth R ^ e) M₀ δ * δ := hN
      _ ≤ _ := mul_le_mul_of_nonneg_left hW hN0

/-- The control grid, knots, degrees and flags of a NURBS patch. -/
def nurbsData (c : NURBSPatch K (ι → K)) : BSplinePatch K (ι → K) :=
  BSplinePatch.mk c.grid c.knotsU c.knotsV c.degU c.degV c.perU c.perV c.sU c.sV [] []

/-- The rounded homogeneous patch. -/
theorem nurbs_patch_hom (R : Rounding K) {c : NURBSPatch K (ι → K)} (S : c.Sync) {m n du dv : ℕ}
    (hp : NValid c m n du dv) : ∃ h, nurbsPatchHom R (nurbsData c) c.weights = ok h ∧
      h.Ready m n du dv ∧ h.knotsU = c.knotsU ∧ h.knotsV = c.knotsV ∧ h.perU = c.perU ∧
      h.perV = c.perV ∧ h.sU = c.sU ∧ h.sV = c.sV ∧
      (∀ a b, h.pts n a b none = gridPoint c.weights n a b) ∧
      ∀ a b i, h.pts n a b (some i) = R.rnd (gridPoint c.grid n a b i * gridPoint c.weights n a b) := by
  have hlen := S.len.symm
  set h0 : BSplinePatch K (Option ι → K) := BSplinePatch.mk (homPts R c.grid c.weights) c.knotsU
    c.knotsV c.degU c.degV c.perU c.perV c.sU c.sV [] [] with hh0
  have hv0 : h0.Valid m n du dv := ⟨hp.u, hp.v, by
    rw [hh0]; simp only [homPts_length R _ _ hlen]; exact hp.grid⟩
  obtain ⟨h, hinit, hrd, i1, i2, i3, -, -, i6, i7, i8, i9⟩ := hv0.init_ready
  have hpts : ∀ a b o, h.pts n a b o = (homPts R c.grid c.weights).getD (a * n + b) 0 o := by
    intro a b o
    rw [BSplinePatch.pts, i1]
    rfl
  refine ⟨h, ?_, hrd, i2, i3, i6, i7, i8, i9, fun a b => ?_, fun a b i => ?_⟩
  · unfold nurbsPatchHom nurbsData
    rw [homogenize_eq R _ _ hlen, ok_bind, hinit]
  · rw [hpts, homPts_none R _ _ hlen]; rfl
  · rw [hpts, homPts_some R _ _ hlen]; rfl

/-- The rounded homogeneous value of a NURBS patch. -/
theorem nurbs_patch_value (R : Rounding K) (hu1 : R.unit < 1) (F : ℕ → ℕ → ℕ → Option ι → Fuse)
    (G : ℕ → ℕ → Option ι → Fuse) {c : NURBSPatch K (ι → K)} {m n du dv : ℕ} (hp : NValid c m n du dv)
    (pu : c.perU = false) (pv : c.perV = false) (wu : FlWideOn R c.knotsU m du)
    (wv : FlWideOn R c.knotsV n dv) {lo hi : K} (hlo : 0 < lo)
    (hwt : ∀ x ∈ c.weights, lo ≤ x ∧ x ≤ hi) {u v : K}
    (hu : BSplinePatch.InDom c.knotsU m du u) (hv : BSplinePatch.InDom c.knotsV n dv v)
    {h : BSplinePatch K (Option ι → K)} (hrd : h.Ready m n du dv) (i2 : h.knotsU = c.knotsU)
    (i3 : h.knotsV = c.knotsV) (i6 : h.perU = c.perU) (i7 : h.perV = c.perV)
    (hn : ∀ a b, h.pts n a b none = gridPoint c.weights n a b)
    (hs : ∀ a b i, h.pts n a b (some i) = R.rnd (gridPoint c.grid n a b i * gridPoint c.weights n a b)) :
    ∃ x, bsplinePatchEvaluate R F G h u v = ok x ∧
      lo ≤ bsum2 du dv c.knotsU c.knotsV m n (gridPoint c.weights n) u v ∧
      |x none - bsum2 du dv c.knotsU c.knotsV m n (gridPoint c.weights n) u v|
        ≤ (growth R ^ (du + dv) - 1) * (hi / lo)
          * bsum2 du dv c.knotsU c.knotsV m n (gridPoint c.weights n) u v ∧
      ∀ i M, (∀ x ∈ c.grid, |x i| ≤ M) →
        |bsum2 du dv c.knotsU c.knotsV m n
            (fun a b => gridPoint c.weights n a b * gridPoint c.grid n a b i) u v|
          ≤ M * bsum2 du dv c.knotsU c.knotsV m n (gridPoint c.weights n) u v ∧
        |x (some i) - bsum2 du dv c.knotsU c.knotsV m n
            (fun a b => gridPoint c.weights n a b * gridPoint c.grid n a b i) u v|
          ≤ ((1 + R.unit) * growth R ^ (du + dv) - 1) * (hi / lo) * M
            * bsum2 du dv c.knotsU c.knotsV m n (gridPoint c.weights n) u v := by
  have hun := R.unit_nonneg
  obtain ⟨x, ex, H⟩ := bspline_patch R hu1 F G hrd (by rw [i6]; exact pu) (by rw [i7]; exact pv)
    (by rw [i2]; exact wu) (by rw [i3]; exact wv) (u := u) (v := v) (by rw [i2]; exact hu)
    (by rw [i3]; exact hv)
  rw [i2, i3] at H
  have low : ∀ (A : ℕ → ℕ → K) (l : K), (∀ a < m, ∀ b < n, l ≤ A a b) →
      l ≤ bsum2 du dv c.knotsU c.knotsV m n A u v := by
    intro A l hA
    exact bsum_lower hp.u.len hp.u.cnt hp.u.sorted hp.u.dom (FlWideOn.wide wu) hu _ l fun a ha =>
      bsum_lower hp.v.len hp.v.cnt hp.v.sorted hp.v.dom (FlWideOn.wide wv) hv _ l fun b hb => hA a ha b hb
  have hwj : ∀ a < m, ∀ b < n, lo ≤ gridPoint c.weights n a b ∧ gridPoint c.weights n a b ≤ hi := by
    intro a ha b hb
    have hk : a * n + b < c.weights.length := by rw [hp.weights]; exact lin_lt ha hb
    rw [gridPoint, getD_of_lt _ hk]
    exact hwt _ (List.getElem_mem _)
  set W := bsum2 du dv c.knotsU c.knotsV m n (gridPoint c.weights n) u v with hW
  have hWlo : lo ≤ W := low _ lo fun a ha b hb => (hwj a ha b hb).1
  have hm0 : 0 < m := by have := hp.u.cnt; omega
  have hn0 : 0 < n := by have := hp.v.cnt; omega
  have hhi : 0 < hi := lt_of_lt_of_le hlo (le_trans (hwj 0 hm0 0 hn0).1 (hwj 0 hm0 0 hn0).2)
  have hhiW : hi ≤ hi / lo * W := by
    rw [div_mul_eq_mul_div, le_div_iff₀ hlo]
    exact mul_le_mul_of_nonneg_left hWlo hhi.le
  have hG : 1 ≤ growth R ^ (du + dv) := one_le_pow₀ (one_le_growth R hu1)
  have en := (H none 1 hi (gridPoint c.weights n) le_rfl
    (fun a ha b hb => by
      rw [abs_of_pos (lt_of_lt_of_le hlo (hwj a ha b hb).1)]; exact (hwj a ha b hb).2)
    (fun a _ b _ => by rw [hn]; simp)).1
  rw [one_mul] at en
  refine ⟨x, ex, hWlo, ?_, fun i M hM => ?_⟩
  · refine le_trans en ?_
    rw [mul_assoc]
    exact mul_le_mul_of_nonneg_left hhiW (by linarith)
  · have hPj : ∀ a < m, ∀ b < n, |gridPoint c.grid n a b i| ≤ M := by
      intro a ha b hb
      have hk : a * n + b < c.grid.length := by rw [hp.grid]; exact lin_lt ha hb
      rw [gridPoint, getD_of_lt _ hk]
      exact hM _ (List.getElem_mem _)
    have hM0 : 0 ≤ M := le_trans (abs_nonneg _) (hPj 0 hm0 0 hn0)
    set A : ℕ → ℕ → K := fun a b => gridPoint c.weights n a b * gridPoint c.grid n a b i with hA
    have bAw : ∀ a < m, ∀ b < n, |A a b| ≤ M * gridPoint c.weights n a b := by
      intro a ha b hb
      have := hwj a ha b hb
      simp only [hA]
      rw [abs_mul, abs_of_pos (lt_of_lt_of_le hlo this.1), mul_comm]
      exact mul_le_mul_of_nonneg_right (hPj a ha b hb) (by linarith)
    have bA : ∀ a < m, ∀ b < n, |A a b| ≤ M * hi := fun a ha b hb =>
      le_trans (bAw a ha b hb) (mul_le_mul_of_nonneg_left (hwj a ha b hb).2 hM0)
    have lin2 : ∀ (x y : K) (B C : ℕ → ℕ → K), bsum2 du dv c.knotsU c.knotsV m n
        (fun a b => x * B a b - y * C a b) u v = x * bsum2 du dv c.knotsU c.knotsV m n B u v
          - y * bsum2 du dv c.knotsU c.knotsV m n C u v := by
      intro x y B C
      unfold bsum2
      simp only [bsum_sub, bsum_mul]
    constructor
    · have l1 := low (fun a b => M * gridPoint c.weights n a b - 1 * A a b) 0
        (fun a ha b hb => by have := (abs_le.1 (bAw a ha b hb)).2; linarith)
      have l2 := low (fun a b => M * gridPoint c.weights n a b - (-1) * A a b) 0
        (fun a ha b hb => by have := (abs_le.1 (bAw a ha b hb)).1; linarith)
      rw [lin2, ← hW] at l1 l2
      rw [abs_le]
      constructor <;> linarith
    · have es := (H (some i) (1 + R.unit) (M * hi) A (by linarith) bA
        (fun a ha b hb => by
          rw [hs, add_sub_cancel_left, hA]
          simp only
          rw [mul_comm (gridPoint c.weights n a b)]
          refine le_trans (R.near _) (mul_le_mul_of_nonneg_left ?_ hun)
          rw [mul_comm]
          exact bA a ha b hb)).1
      have hg1 : 1 ≤ (1 + R.unit) * growth R ^ (du + dv) := by nlinarith
      refine le_trans es ?_
      rw [mul_assoc, mul_assoc]
      refine mul_le_mul_of_nonneg_left ?_ (by linarith)
      have := mul_le_mul_of_nonneg_left hhiW hM0
      linarith

/-- The exact homogeneous value. -/
theorem nurbs_patch_exact {c : NURBSPatch K (ι → K)} (S : c.Sync) {m n du dv : ℕ}
    (hp : NValid c m n du dv) (pu : c.perU = false) (pv : c.perV = false)
    (wu : BSplinePatch.WideOn c.knotsU m du) (wv : BSplinePatch.WideOn c.knotsV n dv) {u v : K}
    (hu : BSplinePatch.InDom c.knotsU m du u) (hv : BSplinePatch.InDom c.knotsV n dv v) :
    c.hom.evaluate u v = ok ((fun i => bsum2 du dv c.knotsU c.knotsV m n
        (fun a b => gridPoint c.weights n a b * gridPoint c.grid n a b i) u v),
      bsum2 du dv c.knotsU c.knotsV m n (gridPoint c.weights n) u v) := by
  obtain ⟨u', v', fu, fv, H⟩ := C31_evaluate (hp.hom S) S.init (by rw [S.knotsU]; exact wu)
    (by rw [S.knotsV]; exact wv) u v
  rw [S.knotsU, S.perU, pu] at fu
  rw [S.knotsV, S.perV, pv] at fv
  rw [S.knotsU, S.knotsV] at H
  have eu : u' = u := by simpa [Folded] using fu
  have ev : v' = v := by simpa [Folded] using fv
  subst eu ev
  rw [(H hu hv).1, S.grid, homog_bsplineSurface S.len.symm]
  congr 1
  ext i
  · simp only [bsum2_eq, Finset.sum_apply, Pi.smul_apply, smul_eq_mul, mul_assoc]
  · simp only [bsum2_eq]
    rfl

theorem nurbs_pts {c : NURBSPatch K (ι → K)} (S : c.Sync) (n a b : ℕ) :
    c.hom.pts n a b = (gridPoint c.weights n a b • gridPoint c.grid n a b, gridPoint c.weights n a b) := by
  rw [BSplinePatch.pts, S.grid]
  exact homog_gridPoint S.len.symm n a b

/-- Linear images of curves whose control points are sums. -/
theorem image_arr_bsum (e m n : ℕ) (kv ku : List K) (P : ℕ → ℕ → (ι → K) × K) (v : K) (s : Option ℕ) :
    (BSpline.mk (arr m fun a => BSplinePatch.bsum e kv n (fun b => homFun ι K (P a b)) v) ku false s
        : BSpline K (Option ι → K))
      = BSpline.image (homFun ι K)
        (BSpline.mk (arr m fun a => BSplinePatch.bsum e kv n (P a) v) ku false s) := by
  unfold BSpline.image
  simp only [arr, List.map_map, BSpline.mk.injEq, and_true]
  refine List.map_congr_left fun a _ => ?_
  simp only [Function.comp, BSplinePatch.bsum, map_sum, map_smul]

theorem weights_le {c : NURBSPatch K (ι → K)} {m n du dv : ℕ} (hp : NValid c m n du dv) {lo hi : K}
    (hlo : 0 < lo) (hwt : ∀ x ∈ c.weights, lo ≤ x ∧ x ≤ hi) :
    ∀ a < m, ∀ b < n, |gridPoint c.weights n a b| ≤ hi := by
  intro a ha b hb
  have hk : a * n + b < c.weights.length := by rw [hp.weights]; exact lin_lt ha hb
  have := hwt _ (List.getElem_mem hk)
  rw [gridPoint, getD_of_lt _ hk, abs_of_pos (by linarith)]
  exact this.2

theorem products_le {c : NURBSPatch K (ι → K)} {m n du dv : ℕ} (hp : NValid c m n du dv) {lo hi : K}
    (hlo : 0 < lo) (hwt : ∀ x ∈ c.weights, lo ≤ x ∧ x ≤ hi) {i : ι} {M : K}
    (hM : ∀ x ∈ c.grid, |x i| ≤ M) :
    ∀ a < m, ∀ b < n, |gridPoint c.weights n a b * gridPoint c.grid n a b i| ≤ M * hi := by
  intro a ha b hb
  have hk : a * n + b < c.grid.length := by rw [hp.grid]; exact lin_lt ha hb
  have hP : |gridPoint c.grid n a b i| ≤ M := by
    rw [gridPoint, getD_of_lt _ hk]
    exact hM _ (List.getElem_mem _)
  rw [abs_mul, mul_comm]
  exact mul_le_mul hP (weights_le hp hlo hwt a ha b hb) (abs_nonneg _) ((abs_nonneg _).trans hP)

/-- **C116**: the partial derivative in `u` of a NURBS patch of degrees `d + 1`, `e` with weights
between `lo` and `hi`, `0 < lo`.  `M` bounds the control points, `S` and `T` the control points of the
exact derivatives of the weight and of the numerator, `δ` is the shortest support of their basis
functions. -/
theorem C116_nurbs_patch_derivative_u (R : Rounding K) (hu1 : R.unit < 1)
    (F F' : ℕ → ℕ → ℕ → Option ι → Fuse) (G G' : ℕ → ℕ → Option ι → Fuse)
    {c : NURBSPatch K (ι → K)} (hinit : c.init = ok c) {m n d e : ℕ} (hp : NValid c m n (d + 1) e)
    (pu : c.perU = false) (pv : c.perV = false) (wu : FlWideOn R c.knotsU m (d + 1))
    (wv : FlWideOn R c.knotsV n e) {lo hi : K} (hlo : 0 < lo)
    (hwt : ∀ x ∈ c.weights, lo ≤ x ∧ x ≤ hi)
    (hcond : (growth R ^ (d + 1 + e) - 1) * (hi / lo) < 1) {u v : K}
    (hu : BSplinePatch.InDom c.knotsU m (d + 1) u) (hv : BSplinePatch.InDom c.knotsV n e v)
    {S δ : K} (hδ : 0 < δ)
    (hgap : ∀ a, a + 1 < m → δ ≤ knot c.knotsU (a + d + 2) - knot c.knotsU (a + 1))
    (hS : ∀ a, a + 1 < m → ∀ b < n,
      |((d + 1 : ℕ) : K) * (gridPoint c.weights n (a + 1) b - gridPoint c.weights n a b)|
        ≤ S * (knot c.knotsU (a + d + 2) - knot c.knotsU (a + 1))) :
    ∃ q y, nurbsPatchDerivU R F F' G G' (nurbsData c) c.weights u v = ok q ∧ c.derivU u v = ok y ∧
      ∀ i M T, (∀ x ∈ c.grid, |x i| ≤ M) →
        (∀ a, a + 1 < m → ∀ b < n,
          |((d + 1 : ℕ) : K) * (gridPoint c.weights n (a + 1) b * gridPoint c.grid n (a + 1) b i
              - gridPoint c.weights n a b * gridPoint c.grid n a b i)|
            ≤ T * (knot c.knotsU (a + d + 2) - knot c.knotsU (a + 1))) →
        |q i - y i| ≤ derivBound R ((growth R ^ (d + 1 + e) - 1) * (hi / lo)) M
          (((1 + R.unit) * growth R ^ (d + 1 + e) - 1) * (hi / lo) * M) (T / lo)
          (splineErr R d T (gridNoise (d + 1) ((1 + R.unit) * growth R ^ e) (M * hi) δ) / lo)
          (S / lo) (splineErr R d S (gridNoise (d + 1) (growth R ^ e) hi δ) / lo) := by
  have Sy := (sync_of_init hinit).1
  have hun := R.unit_nonneg
  obtain ⟨h, eh, hrd, i2, i3, i6, i7, i8, i9, hn, hs⟩ := nurbs_patch_hom R Sy hp
  obtain ⟨x, ex, hWlo, en, HN⟩ := nurbs_patch_value R hu1 F G hp pu pv wu wv hlo hwt hu hv hrd i2 i3
    i6 i7 hn hs
  have exx := nurbs_patch_exact Sy hp pu pv (FlWideOn.wide wu) (FlWideOn.wide wv) hu hv
  set W := bsum2 (d + 1) e c.knotsU c.knotsV m n (gridPoint c.weights n) u v with hW
  have hWpos : 0 < W := lt_of_lt_of_le hlo hWlo
  obtain ⟨k, r, z, hk, hr, hz, HD⟩ := patch_deriv_pert R hu1 F' G' hp.u hp.v wu wv (h.pts n)
    (fun a b => homFun ι K (c.hom.pts n a b)) hu hv
  rw [image_arr_bsum, BSpline.evaluateDerivative_map, map_eq_ok] at hz
  obtain ⟨y, hy, rfl⟩ := hz
  have hget : ∀ a b, homFun ι K (c.hom.pts n a b) none = gridPoint c.weights n a b := by
    intro a b; rw [nurbs_pts Sy]; rfl
  have hgets : ∀ a b i, homFun ι K (c.hom.pts n a b) (some i)
      = gridPoint c.weights n a b * gridPoint c.grid n a b i := by
    intro a b i; rw [nurbs_pts Sy]; rfl
  have hrd' : c.hom.Ready m n (d + 1) e := (hp.hom Sy).ready Sy.init
  have ey : c.hom.derivU u v = ok y := by
    unfold BSplinePatch.derivU
    rw [hrd'.isoCurveU (v := v) (v' := v) (by rw [Sy.knotsV]; exact FlWideOn.wide wv)
      (by simp [BSplinePatch.wrapOn, Sy.perV, pv]) (by rw [Sy.knotsV]; exact hv), ok_bind, Sy.knotsU,
      Sy.knotsV, Sy.perU, pu, Sy.sU]
    exact hy
  have eex : c.derivU u v = ok (W⁻¹ • (y.1 - W⁻¹ • (y.2 • fun i => bsum2 (d + 1) e c.knotsU c.knotsV m n
      (fun a b => gridPoint c.weights n a b * gridPoint c.grid n a b i) u v))) := by
    unfold NURBSPatch.derivU
    rw [Sy.validate, ok_bind, exx, ok_bind, ey, ok_bind]
    unfold quot1
    rw [assert_true hWpos.ne', ok_bind]
    rfl
  have scale : ∀ {y z : K}, |y| ≤ z → |y| ≤ z / lo * W := by
    intro y z hz
    refine hz.trans ?_
    rw [div_mul_eq_mul_div, le_div_iff₀ hlo]
    exact mul_le_mul_of_nonneg_left hWlo ((abs_nonneg _).trans hz)
  obtain ⟨dn, bn⟩ := HD none 1 hi S δ hδ le_rfl
    (fun a ha b hb => by rw [hget]; exact weights_le hp hlo hwt a ha b hb)
    (fun a _ b _ => by rw [hget, hn]; simp)
    (fun a ha b hb => by rw [hget, hget]; exact hS a ha b hb) hgap
  rw [one_mul] at dn
  obtain ⟨q, eq, hq⟩ := derivQuotient_err R (d := r) hWpos en hcond (E := y.2) (scale bn) (scale dn)
  refine ⟨q, _, ?_, eex, fun i M T hM hT => ?_⟩
  · unfold nurbsPatchDerivU bsplinePatchDerivU bsplineIsoU
    rw [eh, ok_bind, ex, ok_bind, hrd.toValid.numU, ok_bind, hrd.isoV, tab_eq (g := k)]
    · rw [ok_bind, pure_eq, ok_bind, i2, i6, pu, i8, hr, ok_bind, eq]
    · intro j hj
      rw [rd_arr hj, ok_bind, ← hk j]
      unfold BSplinePatch.rowV
      rw [i3, i7, pv, i9]
  · obtain ⟨N1, N2⟩ := HN i M hM
    obtain ⟨ds, bs⟩ := HD (some i) (1 + R.unit) (M * hi) T δ hδ (by linarith)
      (fun a ha b hb => by rw [hgets]; exact products_le hp hlo hwt hM a ha b hb)
      (fun a ha b hb => by
        rw [hgets, hs, add_sub_cancel_left, mul_comm (gridPoint c.weights _ _ _)]
        refine (R.near _).trans (mul_le_mul_of_nonneg_left ?_ hun)
        rw [mul_comm]
        exact products_le hp hlo hwt hM a ha b hb)
      (fun a ha b hb => by rw [hgets, hgets]; exact hT a ha b hb) hgap
    have := hq i _ (y.1 i) M _ (T / lo) _ N1 N2 (scale bs) (scale ds)
    simpa only [Pi.smul_apply, Pi.sub_apply, smul_eq_mul] using this

/-- **C116**: the partial derivative in `v` of a NURBS patch of degrees `e`, `d + 1`. -/
theorem C116_nurbs_patch_derivative_v (R : Rounding K) (hu1 : R.unit < 1)
    (F F' : ℕ → ℕ → ℕ → Option ι → Fuse) (G G' : ℕ → ℕ → Option ι → Fuse)
    {c : NURBSPatch K (ι → K)} (hinit : c.init = ok c) {m n d e : ℕ} (hp : NValid c m n e (d + 1))
    (pu : c.perU = false) (pv : c.perV = false) (wu : FlWideOn R c.knotsU m e)
    (wv : FlWideOn R c.knotsV n (d + 1)) {lo hi : K} (hlo : 0 < lo)
    (hwt : ∀ x ∈ c.weights, lo ≤ x ∧ x ≤ hi)
    (hcond : (growth R ^ (e + (d + 1)) - 1) * (hi / lo) < 1) {u v : K}
    (hu : BSplinePatch.InDom c.knotsU m e u) (hv : BSplinePatch.InDom c.knotsV n (d + 1) v)
    {S δ : K} (hδ : 0 < δ)
    (hgap : ∀ b, b + 1 < n → δ ≤ knot c.knotsV (b + d + 2) - knot c.knotsV (b + 1))
    (hS : ∀ b, b + 1 < n → ∀ a < m,
      |((d + 1 : ℕ) : K) * (gridPoint c.weights n a (b + 1) - gridPoint c.weights n a b)|
        ≤ S * (knot c.knotsV (b + d + 2) - knot c.knotsV (b + 1))) :
    ∃ q y, nurbsPatchDerivV R F F' G G' (nurbsData c) c.weights u v = ok q ∧ c.derivV u v = ok y ∧
      ∀ i M T, (∀ x ∈ c.grid, |x i| ≤ M) →
        (∀ b, b + 1 < n → ∀ a < m,
          |((d + 1 : ℕ) : K) * (gridPoint c.weights n a (b + 1) * gridPoint c.grid n a (b + 1) i
              - gridPoint c.weights n a b * gridPoint c.grid n a b i)|
            ≤ T * (knot c.knotsV (b + d + 2) - knot c.knotsV (b + 1))) →
        |q i - y i| ≤ derivBound R ((growth R ^ (e + (d + 1)) - 1) * (hi / lo)) M
          (((1 + R.unit) * growth R ^ (e + (d + 1)) - 1) * (hi / lo) * M) (T / lo)
          (splineErr R d T (gridNoise (d + 1) ((1 + R.unit) * growth R ^ e) (M * hi) δ) / lo)
          (S / lo) (splineErr R d S (gridNoise (d + 1) (growth R ^ e) hi δ) / lo) := by
  have Sy := (sync_of_init hinit).1
  have hun := R.unit_nonneg
  obtain ⟨h, eh, hrd, i2, i3, i6, i7, i8, i9, hn, hs⟩ := nurbs_patch_hom R Sy hp
  obtain ⟨x, ex, hWlo, en, HN⟩ := nurbs_patch_value R hu1 F G hp pu pv wu wv hlo hwt hu hv hrd i2 i3
    i6 i7 hn hs
  have exx := nurbs_patch_exact Sy hp pu pv (FlWideOn.wide wu) (FlWideOn.wide wv) hu hv
  set W := bsum2 e (d + 1) c.knotsU c.knotsV m n (gridPoint c.weights n) u v with hW
  have hWpos : 0 < W := lt_of_lt_of_le hlo hWlo
  obtain ⟨k, r, z, hk, hr, hz, HD⟩ := patch_deriv_pert R hu1 F' G' hp.v hp.u wv wu
    (fun b a => h.pts n a b) (fun b a => homFun ι K (c.hom.pts n a b)) hv hu
  rw [image_arr_bsum e n m c.knotsU c.knotsV (fun b a => c.hom.pts n a b),
    BSpline.evaluateDerivative_map, map_eq_ok] at hz
  obtain ⟨y, hy, rfl⟩ := hz
  have hget : ∀ a b, homFun ι K (c.hom.pts n a b) none = gridPoint c.weights n a b := by
    intro a b; rw [nurbs_pts Sy]; rfl
  have hgets : ∀ a b i, homFun ι K (c.hom.pts n a b) (some i)
      = gridPoint c.weights n a b * gridPoint c.grid n a b i := by
    intro a b i; rw [nurbs_pts Sy]; rfl
  have hrd' : c.hom.Ready m n e (d + 1) := (hp.hom Sy).ready Sy.init
  have ey : c.hom.derivV u v = ok y := by
    unfold BSplinePatch.derivV
    rw [hrd'.isoCurveV (u := u) (u' := u) (by rw [Sy.knotsU]; exact FlWideOn.wide wu)
      (by simp [BSplinePatch.wrapOn, Sy.perU, pu]) (by rw [Sy.knotsU]; exact hu), ok_bind, Sy.knotsU,
      Sy.knotsV, Sy.perV, pv, Sy.sV]
    exact hy
  have eex : c.derivV u v = ok (W⁻¹ • (y.1 - W⁻¹ • (y.2 • fun i => bsum2 e (d + 1) c.knotsU c.knotsV m n
      (fun a b => gridPoint c.weights n a b * gridPoint c.grid n a b i) u v))) := by
    unfold NURBSPatch.derivV
    rw [Sy.validate, ok_bind, exx, ok_bind, ey, ok_bind]
    unfold quot1
    rw [assert_true hWpos.ne', ok_bind]
    rfl
  have scale : ∀ {y z : K}, |y| ≤ z → |y| ≤ z / lo * W := by
    intro y z hz
    refine hz.trans ?_
    rw [div_mul_eq_mul_div, le_div_iff₀ hlo]
    exact mul_le_mul_of_nonneg_left hWlo ((abs_nonneg _).trans hz)
  obtain ⟨dn, bn⟩ := HD none 1 hi S δ hδ le_rfl
    (fun b hb a ha => by rw [hget]; exact weights_le hp hlo hwt a ha b hb)
    (fun b _ a _ => by rw [hget, hn]; simp)
    (fun b hb a ha => by rw [hget, hget]; exact hS b hb a ha) hgap
  rw [one_mul] at dn
  obtain ⟨q, eq, hq⟩ := derivQuotient_err R (d := r) hWpos en hcond (E := y.2) (scale bn) (scale dn)
  refine ⟨q, _, ?_, eex, fun i M T hM hT => ?_⟩
  · unfold nurbsPatchDerivV bsplinePatchDerivV bsplineIsoV
    rw [eh, ok_bind, ex, ok_bind, hrd.toValid.numV, ok_bind, hrd.isoU, tab_eq (g := k)]
    · rw [ok_bind, pure_eq, ok_bind, i3, i7, pv, i9, hr, ok_bind, eq]
    · intro j hj
      rw [rd_arr hj, ok_bind, ← hk j]
      unfold BSplinePatch.colU
      rw [i2, i6, pu, i8]
  · obtain ⟨N1, N2⟩ := HN i M hM
    obtain ⟨ds, bs⟩ := HD (some i) (1 + R.unit) (M * hi) T δ hδ (by linarith)
      (fun b hb a ha => by rw [hgets]; exact products_le hp hlo hwt hM a ha b hb)
      (fun b hb a ha => by
        rw [hgets, hs, add_sub_cancel_left, mul_comm (gridPoint c.weights _ _ _)]
        refine (R.near _).trans (mul_le_mul_of_nonneg_left ?_ hun)
        rw [mul_comm]
        exact products_le hp hlo hwt hM a ha b hb)
      (fun b hb a ha => by rw [hgets, hgets]; exact hT b hb a ha) hgap
    have := hq i _ (y.1 i) M _ (T / lo) _ N1 N2 (scale bs) (scale ds)
    simpa only [Pi.smul_apply, Pi.sub_apply, smul_eq_mul] using this

/-- Bounds relative to finitely many positive numbers. -/
theorem exists_relative (g : ℕ → K) (m n : ℕ) (hg : ∀ a, a + 1 < m → 0 < g a) :
    (∃ δ, 0 < δ ∧ ∀ a, a + 1 < m → δ ≤ g a) ∧
      ∀ f : ℕ → ℕ → K, ∃ S, ∀ a, a + 1 < m → ∀ b < n, |f a b| ≤ S * g a := by
  refine ⟨?_, fun f => ?_⟩
  · obtain ⟨D, hD0, hD⟩ := exists_bound m fun j => (g j)⁻¹
    refine ⟨(D + 1)⁻¹, by positivity, fun j hj => ?_⟩
    have := hD j (by omega)
    rw [abs_of_pos (inv_pos.2 (hg j hj))] at this
    exact inv_le_of_inv_le₀ (hg j hj) (by linarith)
  · obtain ⟨S, -, hS⟩ := exists_bound (m * n) fun k => f (k / n) (k % n) / g (k / n)
    refine ⟨S, fun a ha b hb => ?_⟩
    have := hS (a * n + b) (lin_lt (show a < m by omega) hb).le
    rw [show (a * n + b) / n = a by
        rw [mul_comm, Nat.mul_add_div (by omega), Nat.div_eq_of_lt hb, add_zero],
      show (a * n + b) % n = b by rw [mul_comm, Nat.mul_add_mod, Nat.mod_eq_of_lt hb],
      abs_div, abs_of_pos (hg a ha), div_le_iff₀ (hg a ha)] at this
    exact this

/-- Rounding without error is the exact model of the partial derivative in `u`. -/
theorem C116_exact_arithmetic_u (F F' : ℕ → ℕ → ℕ → Option ι → Fuse) (G G' : ℕ → ℕ → Option ι → Fuse)
    {c : NURBSPatch K (ι → K)} (hinit : c.init = ok c) {m n d e : ℕ} (hp : NValid c m n (d + 1) e)
    (pu : c.perU = false) (pv : c.perV = false) (wu : BSplinePatch.WideOn c.knotsU m (d + 1))
    (wv : BSplinePatch.WideOn c.knotsV n e) (hwt : ∀ x ∈ c.weights, 0 < x)
    (hgap : ∀ a, a + 1 < m → knot c.knotsU (a + 1) < knot c.knotsU (a + d + 2)) {u v : K}
    (hu : BSplinePatch.InDom c.knotsU m (d + 1) u) (hv : BSplinePatch.InDom c.knotsV n e v) :
    nurbsPatchDerivU Rounding.exact F F' G G' (nurbsData c) c.weights u v = c.derivU u v := by
  have h0 : (Rounding.exact : Rounding K).unit = 0 := rfl
  have hg : growth (Rounding.exact : Rounding K) = 1 := by unfold growth; rw [h0]; norm_num
  have hg' : diffGrowth (Rounding.exact : Rounding K) = 1 := by unfold diffGrowth; rw [h0]; norm_num
  obtain ⟨lo, hi, hlo, hwb⟩ := exists_weight_bounds hwt
  obtain ⟨⟨δ, hδ, hgap'⟩, rel⟩ := exists_relative (fun a => knot c.knotsU (a + d + 2) - knot c.knotsU (a + 1))
    m n (fun a ha => sub_pos.2 (hgap a ha))
  obtain ⟨S, hS⟩ := rel fun a b =>
    ((d + 1 : ℕ) : K) * (gridPoint c.weights n (a + 1) b - gridPoint c.weights n a b)
  obtain ⟨q, y, hq, hy, H⟩ := C116_nurbs_patch_derivative_u Rounding.exact (by rw [h0]; exact one_pos)
    F F' G G' hinit hp pu pv (fun i a b d => wu i a b d) (fun i a b d => wv i a b d) hlo hwb
    (by rw [hg]; simp) hu hv hδ hgap' hS
  rw [hq, hy]
  congr 1
  funext i
  obtain ⟨M, hM⟩ := exists_list_bound (fun x : ι → K => x i) c.grid
  obtain ⟨T, hT⟩ := rel fun a b =>
    ((d + 1 : ℕ) : K) * (gridPoint c.weights n (a + 1) b * gridPoint c.grid n (a + 1) b i
      - gridPoint c.weights n a b * gridPoint c.grid n a b i)
  have := H i M T hM hT
  simp [derivBound, splineErr, gridNoise, h0, hg, hg'] at this
  linarith

/-- Rounding without error is the exact model of the partial derivative in `v`. -/
theorem C116_exact_arithmetic_v (F F' : ℕ → ℕ → ℕ → Option ι → Fuse) (G G' : ℕ → ℕ → Option ι → Fuse)
    {c : NURBSPatch K (ι → K)} (hinit : c.init = ok c) {m n d e : ℕ} (hp : NValid c m n e (d + 1))
    (pu : c.perU = false) (pv : c.perV = false) (wu : BSplinePatch.WideOn c.knotsU m e)
    (wv : BSplinePatch.WideOn c.knotsV n (d + 1)) (hwt : ∀ x ∈ c.weights, 0 < x)
    (hgap : ∀ b, b + 1 < n → knot c.knotsV (b + 1) < knot c.knotsV (b + d + 2)) {u v : K}
    (hu : BSplinePatch.InDom c.knotsU m e u) (hv : BSplinePatch.InDom c.knotsV n (d + 1) v) :
    nurbsPatchDerivV Rounding.exact F F' G G' (nurbsData c) c.weights u v = c.derivV u v := by
  have h0 : (Rounding.exact : Rounding K).unit = 0 := rfl
  have hg : growth (Rounding.exact : Rounding K) = 1 := by unfold growth; rw [h0]; norm_num
  have hg' : diffGrowth (Rounding.exact : Rounding K) = 1 := by unfold diffGrowth; rw [h0]; norm_num
  obtain ⟨lo, hi, hlo, hwb⟩ := exists_weight_bounds hwt
  obtain ⟨⟨δ, hδ, hgap'⟩, rel⟩ := exists_relative (fun b => knot c.knotsV (b + d + 2) - knot c.knotsV (b + 1))
    n m (fun b hb => sub_pos.2 (hgap b hb))
  obtain ⟨S, hS⟩ := rel fun b a =>
    ((d + 1 : ℕ) : K) * (gridPoint c.weights n a (b + 1) - gridPoint c.weights n a b)
  obtain ⟨q, y, hq, hy, H⟩ := C116_nurbs_patch_derivative_v Rounding.exact (by rw [h0]; exact one_pos)
    F F' G G' hinit hp pu pv (fun i a b d => wu i a b d) (fun i a b d => wv i a b d) hlo hwb
    (by rw [hg]; simp) hu hv hδ hgap' hS
  rw [hq, hy]
  congr 1
  funext i
  obtain ⟨M, hM⟩ := exists_list_bound (fun x : ι → K => x i) c.grid
  obtain ⟨T, hT⟩ := rel fun b a =>
    ((d + 1 : ℕ) : K) * (gridPoint c.weights n a (b + 1) * gridPoint c.grid n a (b + 1) i
      - gridPoint c.weights n a b * gridPoint c.grid n a b i)
  have := H i M T hM hT
  simp [derivBound, splineErr, gridNoise, h0, hg, hg'] at this
  linarith

end General

/-! ### Concrete cases -/

section Examples

/-- A NURBS patch of degrees one and one with three times two control points and weights from `0.1`
to `2`. -/
def someNurbsGrid : NURBSPatch ℚ (Fin 1 → ℚ) :=
  { grid := someGrid.grid, weights := [tenth, 1, 2, 1, 1, 1], knotsU := someGrid.knotsU,
    knotsV := someGrid.knotsV, degU := 1, degV := 1,
    hom := BSplinePatch.mk [] [] [] 0 0 false false (-1) (-1) [] [] }

theorem someNurbsGrid_valid : NValid someNurbsGrid 3 2 1 1 :=
  ⟨⟨rfl, rfl, Or.inl (by decide), by decide, by decide +kernel, by decide +kernel⟩,
    ⟨rfl, rfl, Or.inl (by decide), by decide, by decide +kernel, by decide +kernel⟩, rfl, rfl⟩

/-- The hypotheses of both error theorems in double precision, for this patch once initialised. -/
example : ∃ c, someNurbsGrid.init = ok c ∧ c.init = ok c ∧ NValid c 3 2 (0 + 1) 1 ∧
    c.perU = false ∧ c.perV = false ∧ FlWideOn double c.knotsU 3 1 ∧ FlWideOn double c.knotsV 2 1 ∧
    (∀ x ∈ c.weights, tenth ≤ x ∧ x ≤ 2) ∧ (growth double ^ (0 + 1 + 1) - 1) * (2 / tenth) < 1 ∧
    BSplinePatch.InDom c.knotsU 3 1 1 ∧ BSplinePatch.InDom c.knotsV 2 1 1 ∧
    (∀ a, a + 1 < 3 → 1 ≤ knot c.knotsU (a + 0 + 2) - knot c.knotsU (a + 1)) ∧
    (∀ b, b + 1 < 2 → 1 ≤ knot c.knotsV (b + 0 + 2) - knot c.knotsV (b + 1)) ∧
    (∀ a, a + 1 < 3 → ∀ b < 2,
      |((0 + 1 : ℕ) : ℚ) * (gridPoint c.weights 2 (a + 1) b - gridPoint c.weights 2 a b)|
        ≤ 2 * (knot c.knotsU (a + 0 + 2) - knot c.knotsU (a + 1))) ∧
    (∀ b, b + 1 < 2 → ∀ a < 3,
      |((0 + 1 : ℕ) : ℚ) * (gridPoint c.weights 2 a (b + 1) - gridPoint c.weights 2 a b)|
        ≤ 1 * (knot c.knotsV (b + 0 + 2) - knot c.knotsV (b + 1))) := by
  obtain ⟨c, e, e', hc⟩ := C63_nurbs_init someNurbsGrid_valid
  refine ⟨c, e, e', ?_⟩
  rw [hc]
  refine ⟨⟨someNurbsGrid_valid.u, someNurbsGrid_valid.v, rfl, rfl⟩, rfl, rfl, ?_, ?_,
    by show ∀ x ∈ someNurbsGrid.weights, _; decide +kernel, by decide +kernel,
    ⟨by show knot someNurbsGrid.knotsU 1 ≤ 1; decide +kernel, by show 1 ≤ knot someNurbsGrid.knotsU 3; decide +kernel,
      Or.inl (by show knot someNurbsGrid.knotsU 1 < knot someNurbsGrid.knotsU 2; decide +kernel)⟩,
    ⟨by show knot someNurbsGrid.knotsV 1 ≤ 1; decide +kernel, by show 1 ≤ knot someNurbsGrid.knotsV 2; decide +kernel,
      Or.inl (by show knot someNurbsGrid.knotsV 1 < knot someNurbsGrid.knotsV 2; decide +kernel)⟩, ?_, ?_, ?_, ?_⟩
  · show FlWideOn double someGrid.knotsU 3 1
    intro i h1 h2 _
    interval_cases i <;> decide +kernel
  · show FlWideOn double someGrid.knotsV 2 1
    intro i h1 h2 _
    interval_cases i; decide +kernel
  · intro a ha
    have : a < 2 := by omega
    show (1 : ℚ) ≤ knot someGrid.knotsU (a + 0 + 2) - knot someGrid.knotsU (a + 1)
    interval_cases a <;> decide +kernel
  · intro b hb
    have : b < 1 := by omega
    show (1 : ℚ) ≤ knot someGrid.knotsV (b + 0 + 2) - knot someGrid.knotsV (b + 1)
    interval_cases b; decide +kernel
  · intro a ha b hb
    have : a < 2 := by omega
    show |((0 + 1 : ℕ) : ℚ) * (gridPoint someNurbsGrid.weights 2 (a + 1) b
        - gridPoint someNurbsGrid.weights 2 a b)|
      ≤ 2 * (knot someGrid.knotsU (a + 0 + 2) - knot someGrid.knotsU (a + 1))
    interval_cases a <;> interval_cases b <;> decide +kernel
  · intro b hb a ha
    have : b < 1 := by omega
    show |((0 + 1 : ℕ) : ℚ) * (gridPoint someNurbsGrid.weights 2 a (b + 1)
        - gridPoint someNurbsGrid.weights 2 a b)|
      ≤ 1 * (knot someGrid.knotsV (b + 0 + 2) - knot someGrid.knotsV (b + 1))
    interval_cases b; interval_cases a <;> decide +kernel

/-- Rounding shows: in double precision this derivative is not the exact one, although it is close. -/
example : (nurbsPatchDerivU double (fun _ _ _ _ => .none) (fun _ _ _ _ => .none) (fun _ _ _ => .none)
      (fun _ _ _ => .none) (nurbsData someNurbsGrid) someNurbsGrid.weights 1 (1 / 3) >>= fun q => ok (q 0))
    ≠ (someNurbsGrid.init >>= fun c => c.derivU (1 : ℚ) (1 / 3) >>= fun q => ok (q 0)) := by
  decide +kernel

end Examples

end NS.Fl
