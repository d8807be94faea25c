import Verif.Model.FloatNurbsSecond
import Verif.Props.FloatNurbsPatch
import Verif.Props.FloatPatchSecond

/-!
# Property C117: rounding errors of the second derivatives of B-spline and NURBS patches in one direction
-/

set_option linter.unusedSectionVars false

namespace NS.Fl

open Outcome Finset Spec NS.Props

section General

variable {K ι : Type} [Field K] [LinearOrder K] [IsStrictOrderedRing K] [FloorRing K]

/-- Bound on the error of a second derivative of degree `p`: `T` and `T2` bound the control points of
the first and second derivative, `N` the error of those of the first one, `δ` is the shortest support
of the basis functions of the second one. -/
def splineErr2 (R : Rounding K) (p : ℕ) (T T2 N δ : K) : K :=
  splineErr R p T2 (2 * (p + 1 : ℕ) * ((diffGrowth R - 1) * (T + N) + N) / δ)

theorem firstQuot_scale {u : List K} {p j : ℕ} {a : ℕ → K} {T : K}
    (hg : 0 < knot u (j + p + 3) - knot u (j + 1)) (h : |firstQuot u p a j| ≤ T) :
    |((p + 2 : ℕ) : K) * (a (j + 1) - a j)| ≤ T * (knot u (j + p + 3) - knot u (j + 1)) := by
  unfold firstQuot at h
  rw [div_mul_eq_mul_div, abs_div, abs_of_pos hg, div_le_iff₀ hg] at h
  exact h

/-- The supports of the first derivative contain those of the second one. -/
theorem axis_gap {u : List K} {deg s : ℤ} {n p : ℕ} (hU : BSplinePatch.Axis u deg s n (p + 2)) {δ : K}
    (hgap : ∀ j, j + 2 < n → δ ≤ knot u (j + p + 3) - knot u (j + 2)) :
    ∀ j, j + 1 < n → δ ≤ knot u (j + p + 3) - knot u (j + 1) := by
  have hl := hU.len
  have hn := hU.cnt
  intro j hj
  rcases Nat.lt_or_ge (j + 2) n with h | h
  · have := BSpline.knot_mono hU.sorted (i := j + 1) (j := j + 2) (by omega) (by omega)
    linarith [hgap j h]
  · obtain ⟨m, rfl⟩ : ∃ m, j = m + 1 := ⟨j - 1, by omega⟩
    have := BSpline.knot_mono hU.sorted (i := m + p + 3) (j := m + 1 + p + 3) (by omega) (by omega)
    linarith [hgap m (by omega)]

theorem firstQuot_bsum (ku kv : List K) (p e n : ℕ) (A : ℕ → ℕ → K) (v : K) (j : ℕ) :
    firstQuot ku p (fun a => BSplinePatch.bsum e kv n (A a) v) j
      = BSplinePatch.bsum e kv n (fun b => firstQuot ku p (fun a => A a b) j) v := by
  unfold firstQuot
  rw [bsum_mul, bsum_sub]

/-- One direction after the other, with perturbed control points: `P` are the stored points, `A` the
exact ones. -/
theorem patch_deriv2_pert (R : Rounding K) (hu1 : R.unit < 1) (F : ℕ → ℕ → ℕ → ι → Fuse)
    (G : ℕ → ℕ → ι → Fuse) {ku kv : List K} {degu degv su sv : ℤ} {m n d e : ℕ}
    (hU : BSplinePatch.Axis ku degu su m (d + 2)) (hV : BSplinePatch.Axis kv degv sv n e)
    (wu : FlWideOn R ku m (d + 2)) (wv : FlWideOn R kv n e) (P A : ℕ → ℕ → ι → K) {u v : K}
    (hu : BSplinePatch.InDom ku m (d + 2) u) (hv : BSplinePatch.InDom kv n e v) {δ : K} (hδ : 0 < δ)
    (hgap : ∀ j, j + 2 < m → δ ≤ knot ku (j + d + 3) - knot ku (j + 2)) :
    ∃ (c : ℕ → ι → K) (q x : ι → K),
      (∀ a, bsplineEvaluate R (F a) (BSpline.mk (arr n (P a)) kv false (BSplinePatch.staticDeg sv)) v
        = ok (c a)) ∧
      bspline2ndDerivative R G (BSpline.mk (arr m c) ku false (BSplinePatch.staticDeg su)) u = ok q ∧
      (BSpline.mk (arr m fun a => BSplinePatch.bsum e kv n (A a) v) ku false
        (BSplinePatch.staticDeg su)).evaluate2ndDerivative u = ok x ∧
      ∀ i g M₀ T T2, 1 ≤ g → (∀ a < m, ∀ b < n, |A a b i| ≤ M₀) →
        (∀ a < m, ∀ b < n, |P a b i - A a b i| ≤ (g - 1) * M₀) →
        (∀ a, a + 1 < m → ∀ b < n, |firstQuot ku d (fun j => A j b i) a| ≤ T) →
        (∀ a, a + 2 < m → ∀ b < n, |((d + 1 : ℕ) : K) * (firstQuot ku d (fun j => A j b i) (a + 1)
            - firstQuot ku d (fun j => A j b i) a)| ≤ T2 * (knot ku (a + d + 3) - knot ku (a + 2))) →
        |q i - x i| ≤ splineErr2 R d T T2 (gridNoise (d + 2) (g * growth R ^ e) M₀ δ) δ ∧ |x i| ≤ T2 := by
  have gap1 := axis_gap hU hgap
  choose c hc H using fun a => bspline_axis_arr R hu1 (F a) hV wv (P a) hv
  have hl : (arr m c).length = m := by simp
  obtain ⟨q, x, hq, hx, B⟩ := bspline_deriv2_axis R hu1 G (hU.wf false hl) rfl
    (by intro j j1 j2 j3; simp only [hl] at j2; exact wu j j1 j2 j3)
    (arr m fun a => BSplinePatch.bsum e kv n (A a) v) (by simp) (t := u) hu.2.2 hu.1
    (by simp only [hl]; exact hu.2.1) hδ (by simp only [hl]; exact hgap)
  refine ⟨c, q, x, hc, hq, hx, fun i g M₀ T T2 hg h0 hP h1 h2 => B i T _ T2 ?_ ?_ ?_⟩
  all_goals
    intro j hj
    simp only [hl] at hj
    have hbs : ∀ a, BSplinePatch.bsum e kv n (A a) v i
        = BSplinePatch.bsum e kv n (fun b => A a b i) v := by
      intro a
      simp [BSplinePatch.bsum, Finset.sum_apply]
    have hfq : ∀ k, k + 1 < m → firstQuot ku d (fun j => (arr m fun a =>
        BSplinePatch.bsum e kv n (A a) v).getD j 0 i) k
          = BSplinePatch.bsum e kv n (fun b => firstQuot ku d (fun a => A a b i) k) v := by
      intro k hk
      rw [← firstQuot_bsum]
      unfold firstQuot
      beta_reduce
      rw [arr_getD m _ _ _ hk, arr_getD m _ _ _ (show k < m by omega), hbs, hbs]
  · rw [hfq j hj]
    exact bsum_abs hV (FlWideOn.wide wv) hv _ _ (fun b hb => h1 j hj b hb)
  · rw [hfq j hj, ← firstQuot_bsum]
    unfold firstQuot
    simp only [arr_getD m _ _ _ hj, arr_getD m _ _ _ (show j < m by omega)]
    have e1 := (H (j + 1) i g M₀ (fun b => A (j + 1) b i) hg (fun b hb => h0 _ hj b hb)
      (fun b hb => hP _ hj b hb)).1
    have e0 := (H j i g M₀ (fun b => A j b i) hg (fun b hb => h0 _ (by omega) b hb)
      (fun b hb => hP _ (by omega) b hb)).1
    have hW := gap1 j hj
    have hW0 : 0 < knot ku (j + d + 3) - knot ku (j + 1) := lt_of_lt_of_le hδ hW
    have hpos : 0 ≤ (g * growth R ^ e - 1) * M₀ := le_trans (abs_nonneg _) e0
    have tri : |c (j + 1) i - c j i - (BSplinePatch.bsum e kv n (fun b => A (j + 1) b i) v
        - BSplinePatch.bsum e kv n (fun b => A j b i) v)| ≤ 2 * ((g * growth R ^ e - 1) * M₀) := by
      rw [abs_le] at e0 e1 ⊢
      constructor <;> linarith [e0.1, e0.2, e1.1, e1.2]
    rw [← mul_sub, abs_mul, abs_div, abs_of_pos hW0,
      abs_of_nonneg (by positivity : (0 : K) ≤ ((d + 2 : ℕ) : K))]
    calc _ ≤ ((d + 2 : ℕ) : K) / δ * (2 * ((g * growth R ^ e - 1) * M₀)) :=
          mul_le_mul (div_le_div_of_nonneg_left (by positivity) hδ hW) tri (abs_nonneg _) (by positivity)
      _ = gridNoise (d + 2) (g * growth R ^ e) M₀ δ := by unfold gridNoise; ring
  · rw [hfq _ (by omega), hfq _ (by omega), ← bsum_sub, ← bsum_mul]
    exact bsum_abs hV (FlWideOn.wide wv) hv _ _ (fun b hb => h2 j hj b hb)

/-! ### B-spline patches -/

/-- **C117**: the second derivative of a B-spline patch in `u`.  `M₀` bounds the control points, `T`
and `T2` those of the first and second derivative in `u`, `δ` is the shortest support of the basis
functions of the second derivative. -/
theorem C117_bspline_patch_uu (R : Rounding K) (hu1 : R.unit < 1) (F : ℕ → ℕ → ℕ → ι → Fuse)
    (G : ℕ → ℕ → ι → Fuse) {p r : BSplinePatch K (ι → K)} {m n d e : ℕ} (hp : p.Valid m n (d + 2) e)
    (hr : p.init = ok r) (pu : p.perU = false) (pv : p.perV = false)
    (wu : FlWideOn R p.knotsU m (d + 2)) (wv : FlWideOn R p.knotsV n e) {u v : K}
    (hu : BSplinePatch.InDom p.knotsU m (d + 2) u) (hv : BSplinePatch.InDom p.knotsV n e v)
    {δ : K} (hδ : 0 < δ)
    (hgap : ∀ j, j + 2 < m → δ ≤ knot p.knotsU (j + d + 3) - knot p.knotsU (j + 2)) :
    ∃ q x, bsplinePatchDerivUU R F G r u v = ok q ∧ r.derivUU u v = ok x ∧ ∀ i M₀ T T2,
      (∀ y ∈ p.grid, |y i| ≤ M₀) →
      (∀ a, a + 1 < m → ∀ b < n,
        |firstQuot p.knotsU d (fun j => gridPoint p.grid n j b i) a| ≤ T) →
      (∀ a, a + 2 < m → ∀ b < n, |((d + 1 : ℕ) : K)
          * (firstQuot p.knotsU d (fun j => gridPoint p.grid n j b i) (a + 1)
            - firstQuot p.knotsU d (fun j => gridPoint p.grid n j b i) a)|
        ≤ T2 * (knot p.knotsU (a + d + 3) - knot p.knotsU (a + 2))) →
      |q i - x i| ≤ splineErr2 R d T T2 (gridNoise (d + 2) (growth R ^ e) M₀ δ) δ ∧ |x i| ≤ T2 := by
  have hrd := hp.ready hr
  rw [hp.init, ok.injEq] at hr
  subst hr
  obtain ⟨c, q, x, hc, hq, hx, H⟩ := patch_deriv2_pert R hu1 F G hp.u hp.v wu wv (p.pts n)
    (p.pts n) hu hv hδ hgap
  refine ⟨q, x, ?_, ?_, fun i M₀ T T2 h0 h1 h2 => ?_⟩
  · unfold bsplinePatchDerivUU bsplineIsoU
    rw [hrd.toValid.numU, ok_bind, hrd.isoV, tab_eq (g := c)]
    · rw [ok_bind, pure_eq, ok_bind, ← hq, ← pu]
    · intro j hj
      rw [rd_arr hj, ok_bind, ← hc j, ← pv]
      rfl
  · unfold BSplinePatch.derivUU
    rw [hrd.isoCurveU (v := v) (v' := v) (FlWideOn.wide wv)
      (by simp [BSplinePatch.wrapOn, pv]) hv, ok_bind, ← hx, ← pu]
    rfl
  · have := H i 1 M₀ T T2 le_rfl (fun a ha b hb => by
        have hk : a * n + b < p.grid.length := by rw [hp.grid]; exact lin_lt ha hb
        simp only [BSplinePatch.pts, gridPoint]
        rw [getD_of_lt _ hk]
        exact h0 _ (List.getElem_mem _)) (fun _ _ _ _ => by simp) h1 h2
    rwa [one_mul] at this

/-- **C117**: the second derivative of a B-spline patch in `v`.  `M₀` bounds the control points, `T`
and `T2` those of the first and second derivative in `v`, `δ` is the shortest support of the basis
functions of the second derivative. -/
theorem C117_bspline_patch_vv (R : Rounding K) (hu1 : R.unit < 1) (F : ℕ → ℕ → ℕ → ι → Fuse)
    (G : ℕ → ℕ → ι → Fuse) {p r : BSplinePatch K (ι → K)} {m n d e : ℕ} (hp : p.Valid m n e (d + 2))
    (hr : p.init = ok r) (pu : p.perU = false) (pv : p.perV = false)
    (wu : FlWideOn R p.knotsU m e) (wv : FlWideOn R p.knotsV n (d + 2)) {u v : K}
    (hu : BSplinePatch.InDom p.knotsU m e u) (hv : BSplinePatch.InDom p.knotsV n (d + 2) v)
    {δ : K} (hδ : 0 < δ)
    (hgap : ∀ j, j + 2 < n → δ ≤ knot p.knotsV (j + d + 3) - knot p.knotsV (j + 2)) :
    ∃ q x, bsplinePatchDerivVV R F G r u v = ok q ∧ r.derivVV u v = ok x ∧ ∀ i M₀ T T2,
      (∀ y ∈ p.grid, |y i| ≤ M₀) →
      (∀ a, a + 1 < n → ∀ b < m,
        |firstQuot p.knotsV d (fun j => gridPoint p.grid n b j i) a| ≤ T) →
      (∀ a, a + 2 < n → ∀ b < m, |((d + 1 : ℕ) : K)
          * (firstQuot p.knotsV d (fun j => gridPoint p.grid n b j i) (a + 1)
            - firstQuot p.knotsV d (fun j => gridPoint p.grid n b j i) a)|
        ≤ T2 * (knot p.knotsV (a + d + 3) - knot p.knotsV (a + 2))) →
      |q i - x i| ≤ splineErr2 R d T T2 (gridNoise (d + 2) (growth R ^ e) M₀ δ) δ ∧ |x i| ≤ T2 := by
  have hrd := hp.ready hr
  rw [hp.init, ok.injEq] at hr
  subst hr
  obtain ⟨c, q, x, hc, hq, hx, H⟩ := patch_deriv2_pert R hu1 F G hp.v hp.u wv wu (fun b a => p.pts n a b)
    (fun b a => p.pts n a b) hv hu hδ hgap
  refine ⟨q, x, ?_, ?_, fun i M₀ T T2 h0 h1 h2 => ?_⟩
  · unfold bsplinePatchDerivVV bsplineIsoV
    rw [hrd.toValid.numV, ok_bind, hrd.isoU, tab_eq (g := c)]
    · rw [ok_bind, pure_eq, ok_bind, ← hq, ← pv]
    · intro j hj
      rw [rd_arr hj, ok_bind, ← hc j, ← pu]
      rfl
  · unfold BSplinePatch.derivVV
    rw [hrd.isoCurveV (u := u) (u' := u) (FlWideOn.wide wu)
      (by simp [BSplinePatch.wrapOn, pu]) hu, ok_bind, ← hx, ← pv]
    rfl
  · have := H i 1 M₀ T T2 le_rfl (fun a ha b hb => by
        have hk : b * n + a < p.grid.length := by rw [hp.grid]; exact lin_lt hb ha
        simp only [BSplinePatch.pts, gridPoint]
        rw [getD_of_lt _ hk]
        exact h0 _ (List.getElem_mem _)) (fun _ _ _ _ => by simp) h1 h2
    rwa [one_mul] at this

/-! ### NURBS patches -/

/-- The error of the first derivative inside of the second ones; the arguments are as in
`derivBound`. -/
def innerBound (R : Rounding K) (b M a D x S y : K) : K :=
  (1 + R.unit) ^ 2 / (1 - b) * (D + x + (1 + R.unit) ^ 2 / (1 - b) * ((M + a) * (S + y))) - (D + M * S)

theorem innerDeriv_err (R : Rounding K) (k : ι → Bool) {x d : Option ι → K} {W b E S y N D M a T z : K}
    {i : ι} (hW : 0 < W) (hw : |x none - W| ≤ b * W) (hb : b < 1) (hE : |E| ≤ S * W)
    (hd : |d none - E| ≤ y * W) (hN : |N| ≤ M * W) (hx : |x (some i) - N| ≤ a * W) (hD : |D| ≤ T * W)
    (hz : |d (some i) - D| ≤ z * W) :
    |innerDeriv R k x d i - W⁻¹ * (D - W⁻¹ * (E * N))| ≤ innerBound R b M a T z S y := by
  obtain ⟨hpos, hi⟩ := Maj.inv hW hb hw
  have hW' := hW.ne'
  have hb' : 1 - b ≠ 0 := by linarith
  have mN : Maj (x (some i)) N (M * W) (M * W + a * W) := ⟨hN, by linarith⟩
  have mE : Maj (d none) E (S * W) (S * W + y * W) := ⟨hE, by linarith⟩
  have mD : Maj (d (some i)) D (T * W) (T * W + z * W) := ⟨hD, by linarith⟩
  have m1 := Maj.subMul R (k i) mD mE ((hi.mul mN).rnd R)
  have h := ((m1.mul hi).rnd R).err
  unfold innerDeriv
  simp only [div_eq_mul_inv]
  rw [show W⁻¹ * (D - W⁻¹ * (E * N)) = (D - E * (W⁻¹ * N)) * W⁻¹ by ring, mul_comm (x (some i))]
  refine h.trans (le_of_eq ?_)
  unfold innerBound
  field_simp

/-- The first derivative in `u` of the rounded homogeneous patch. -/
theorem nurbs_hom_u (R : Rounding K) (hu1 : R.unit < 1) (F : ℕ → ℕ → ℕ → Option ι → Fuse)
    (G : ℕ → ℕ → Option ι → Fuse) {c : NURBSPatch K (ι → K)} (Sy : c.Sync) {m n d e : ℕ}
    (hp : NValid c m n (d + 2) e) (pu : c.perU = false) (pv : c.perV = false)
    (wu : FlWideOn R c.knotsU m (d + 2)) (wv : FlWideOn R c.knotsV n e) {lo hi : K} (hlo : 0 < lo)
    (hwt : ∀ x ∈ c.weights, lo ≤ x ∧ x ≤ hi) {u v : K}
    (hu : BSplinePatch.InDom c.knotsU m (d + 2) u) (hv : BSplinePatch.InDom c.knotsV n e v)
    {δ : K} (hδ : 0 < δ)
    (hgap : ∀ j, j + 2 < m → δ ≤ knot c.knotsU (j + d + 3) - knot c.knotsU (j + 2))
    {h : BSplinePatch K (Option ι → K)} (hrd : h.Ready m n (d + 2) e) (i2 : h.knotsU = c.knotsU)
    (i3 : h.knotsV = c.knotsV) (i6 : h.perU = c.perU) (i7 : h.perV = c.perV) (i8 : h.sU = c.sU)
    (i9 : h.sV = c.sV) (hn : ∀ a b, h.pts n a b none = gridPoint c.weights n a b)
    (hs : ∀ a b i, h.pts n a b (some i) = R.rnd (gridPoint c.grid n a b i * gridPoint c.weights n a b)) :
    (∃ r D E, bsplinePatchDerivU R F G h u v = ok r ∧ c.hom.derivU u v = ok (D, E) ∧
      (∀ S, (∀ a, a + 1 < m → ∀ b < n, |firstQuot c.knotsU d (fun j => gridPoint c.weights n j b) a| ≤ S) →
        |E| ≤ S ∧ |r none - E| ≤ splineErr R (d + 1) S (gridNoise (d + 2) (growth R ^ e) hi δ)) ∧
      ∀ i M T, (∀ x ∈ c.grid, |x i| ≤ M) →
        (∀ a, a + 1 < m → ∀ b < n, |firstQuot c.knotsU d (fun j => gridPoint c.weights n j b * gridPoint c.grid n j b i) a| ≤ T) →
        |D i| ≤ T ∧ |r (some i) - D i|
          ≤ splineErr R (d + 1) T (gridNoise (d + 2) ((1 + R.unit) * growth R ^ e) (M * hi) δ)) ∧
    ∃ r D E, bsplinePatchDerivUU R F G h u v = ok r ∧ c.hom.derivUU u v = ok (D, E) ∧
      (∀ S S2, (∀ a, a + 1 < m → ∀ b < n, |firstQuot c.knotsU d (fun j => gridPoint c.weights n j b) a| ≤ S) →
        (∀ a, a + 2 < m → ∀ b < n, |((d + 1 : ℕ) : K)
            * (firstQuot c.knotsU d (fun j => gridPoint c.weights n j b) (a + 1)
              - firstQuot c.knotsU d (fun j => gridPoint c.weights n j b) a)|
          ≤ S2 * (knot c.knotsU (a + d + 3) - knot c.knotsU (a + 2))) →
        |E| ≤ S2 ∧ |r none - E| ≤ splineErr2 R d S S2 (gridNoise (d + 2) (growth R ^ e) hi δ) δ) ∧
      ∀ i M T T2, (∀ x ∈ c.grid, |x i| ≤ M) →
        (∀ a, a + 1 < m → ∀ b < n, |firstQuot c.knotsU d (fun j => gridPoint c.weights n j b * gridPoint c.grid n j b i) a| ≤ T) →
        (∀ a, a + 2 < m → ∀ b < n, |((d + 1 : ℕ) : K)
            * (firstQuot c.knotsU d (fun j => gridPoint c.weights n j b * gridPoint c.grid n j b i) (a + 1)
              - firstQuot c.knotsU d (fun j => gridPoint c.weights n j b * gridPoint c.grid n j b i) a)|
          ≤ T2 * (knot c.knotsU (a + d + 3) - knot c.knotsU (a + 2))) →
        |D i| ≤ T2 ∧ |r (some i) - D i|
          ≤ splineErr2 R d T T2 (gridNoise (d + 2) ((1 + R.unit) * growth R ^ e) (M * hi) δ) δ := by
  have hun := R.unit_nonneg
  have gap1 := axis_gap hp.u hgap
  have hrd' : c.hom.Ready m n (d + 2) e := (hp.hom Sy).ready Sy.init
  have hget : ∀ a b, homFun ι K (c.hom.pts n a b) none = gridPoint c.weights n a b := by
    intro a b; rw [nurbs_pts Sy]; rfl
  have hgets : ∀ a b i, homFun ι K (c.hom.pts n a b) (some i)
      = gridPoint c.weights n a b * gridPoint c.grid n a b i := by
    intro a b i; rw [nurbs_pts Sy]; rfl
  have pert : ∀ i M, (∀ x ∈ c.grid, |x i| ≤ M) → ∀ a < m, ∀ b < n,
      |h.pts n a b (some i) - homFun ι K (c.hom.pts n a b) (some i)| ≤ (1 + R.unit - 1) * (M * hi) := by
    intro i M hM a ha b hb
    rw [hgets, hs, add_sub_cancel_left, mul_comm (gridPoint c.weights _ _ _)]
    refine (R.near _).trans (mul_le_mul_of_nonneg_left ?_ hun)
    rw [mul_comm]
    exact products_le hp hlo hwt hM a ha b hb
  have isoE : c.hom.isoCurveU v = ok (BSpline.mk (arr m fun a => BSplinePatch.bsum e c.knotsV n
      (fun b => c.hom.pts n a b) v) c.knotsU false (BSplinePatch.staticDeg c.sU)) := by
    rw [hrd'.isoCurveU (v := v) (v' := v) (by rw [Sy.knotsV]; exact FlWideOn.wide wv)
      (by simp [BSplinePatch.wrapOn, Sy.perV, pv]) (by rw [Sy.knotsV]; exact hv), Sy.knotsU,
      Sy.knotsV, Sy.perU, pu, Sy.sU]
  have isoR : ∀ k : ℕ → Option ι → K, (∀ a, bsplineEvaluate R (F a) (BSpline.mk (arr n (fun b => h.pts n a b))
      c.knotsV false (BSplinePatch.staticDeg c.sV)) v = ok (k a)) →
      bsplineIsoU R F h v = ok (BSpline.mk (arr m k) c.knotsU false (BSplinePatch.staticDeg c.sU)) := by
    intro k hk
    unfold bsplineIsoU
    rw [hrd.toValid.numU, ok_bind, hrd.isoV, tab_eq (g := k)]
    · rw [ok_bind, pure_eq, i2, i6, pu, i8]
    · intro j hj
      rw [rd_arr hj, ok_bind, ← hk j]
      unfold BSplinePatch.rowV
      rw [i3, i7, pv, i9]
  constructor
  · obtain ⟨k, r, z, hk, hr, hz, HD⟩ := patch_deriv_pert R hu1 F G (d := d + 1) hp.u hp.v wu wv
      (fun a b => h.pts n a b) (fun a b => homFun ι K (c.hom.pts n a b)) hu hv
    rw [image_arr_bsum e m n c.knotsV c.knotsU (fun a b => c.hom.pts n a b),
      BSpline.evaluateDerivative_map, map_eq_ok] at hz
    obtain ⟨y, hy, rfl⟩ := hz
    refine ⟨r, y.1, y.2, ?_, ?_, fun S hS => ?_, fun i M T hM hT => ?_⟩
    · unfold bsplinePatchDerivU
      rw [isoR k hk, ok_bind, hr]
    · unfold BSplinePatch.derivU
      rw [isoE, ok_bind]
      exact hy
    · obtain ⟨dn, bn⟩ := HD none 1 hi S δ hδ le_rfl
        (fun a ha b hb => by rw [hget]; exact weights_le hp hlo hwt a ha b hb)
        (fun a _ b _ => by rw [hget, hn]; simp)
        (fun a ha b hb => by
          rw [hget, hget]
          exact firstQuot_scale (a := fun j => gridPoint c.weights n j b) (lt_of_lt_of_le hδ (gap1 a ha)) (hS a ha b hb)) gap1
      rw [one_mul] at dn
      exact ⟨bn, dn⟩
    · obtain ⟨ds, bs⟩ := HD (some i) (1 + R.unit) (M * hi) T δ hδ (by linarith)
        (fun a ha b hb => by rw [hgets]; exact products_le hp hlo hwt hM a ha b hb)
        (fun a ha b hb => pert i M hM a ha b hb)
        (fun a ha b hb => by
          rw [hgets, hgets]
          exact firstQuot_scale (a := fun j => gridPoint c.weights n j b * gridPoint c.grid n j b i) (lt_of_lt_of_le hδ (gap1 a ha)) (hT a ha b hb)) gap1
      exact ⟨bs, ds⟩
  · obtain ⟨k, r, z, hk, hr, hz, HD⟩ := patch_deriv2_pert R hu1 F G hp.u hp.v wu wv
      (fun a b => h.pts n a b) (fun a b => homFun ι K (c.hom.pts n a b)) hu hv hδ hgap
    rw [image_arr_bsum e m n c.knotsV c.knotsU (fun a b => c.hom.pts n a b),
      BSpline.evaluate2ndDerivative_map, map_eq_ok] at hz
    obtain ⟨y, hy, rfl⟩ := hz
    refine ⟨r, y.1, y.2, ?_, ?_, fun S S2 hS hS2 => ?_, fun i M T T2 hM hT hT2 => ?_⟩
    · unfold bsplinePatchDerivUU
      rw [isoR k hk, ok_bind, hr]
    · unfold BSplinePatch.derivUU
      rw [isoE, ok_bind]
      exact hy
    · obtain ⟨dn, bn⟩ := HD none 1 hi S S2 le_rfl
        (fun a ha b hb => by rw [hget]; exact weights_le hp hlo hwt a ha b hb)
        (fun a _ b _ => by rw [hget, hn]; simp)
        (fun a ha b hb => by simp only [hget]; exact hS a ha b hb)
        (fun a ha b hb => by simp only [hget]; exact hS2 a ha b hb)
      rw [one_mul] at dn
      exact ⟨bn, dn⟩
    · obtain ⟨ds, bs⟩ := HD (some i) (1 + R.unit) (M * hi) T T2 (by linarith)
        (fun a ha b hb => by rw [hgets]; exact products_le hp hlo hwt hM a ha b hb)
        (fun a ha b hb => pert i M hM a ha b hb)
        (fun a ha b hb => by simp only [hgets]; exact hT a ha b hb)
        (fun a ha b hb => by simp only [hgets]; exact hT2 a ha b hb)
      exact ⟨bs, ds⟩

/-- The first derivative in `v` of the rounded homogeneous patch. -/
theorem nurbs_hom_v (R : Rounding K) (hu1 : R.unit < 1) (F : ℕ → ℕ → ℕ → Option ι → Fuse)
    (G : ℕ → ℕ → Option ι → Fuse) {c : NURBSPatch K (ι → K)} (Sy : c.Sync) {m n d e : ℕ}
    (hp : NValid c m n e (d + 2)) (pu : c.perU = false) (pv : c.perV = false)
    (wu : FlWideOn R c.knotsU m e) (wv : FlWideOn R c.knotsV n (d + 2)) {lo hi : K} (hlo : 0 < lo)
    (hwt : ∀ x ∈ c.weights, lo ≤ x ∧ x ≤ hi) {u v : K}
    (hu : BSplinePatch.InDom c.knotsU m e u) (hv : BSplinePatch.InDom c.knotsV n (d + 2) v)
    {δ : K} (hδ : 0 < δ)
    (hgap : ∀ j, j + 2 < n → δ ≤ knot c.knotsV (j + d + 3) - knot c.knotsV (j + 2))
    {h : BSplinePatch K (Option ι → K)} (hrd : h.Ready m n e (d + 2)) (i2 : h.knotsU = c.knotsU)
    (i3 : h.knotsV = c.knotsV) (i6 : h.perU = c.perU) (i7 : h.perV = c.perV) (i8 : h.sU = c.sU)
    (i9 : h.sV = c.sV) (hn : ∀ a b, h.pts n a b none = gridPoint c.weights n a b)
    (hs : ∀ a b i, h.pts n a b (some i) = R.rnd (gridPoint c.grid n a b i * gridPoint c.weights n a b)) :
    (∃ r D E, bsplinePatchDerivV R F G h u v = ok r ∧ c.hom.derivV u v = ok (D, E) ∧
      (∀ S, (∀ a, a + 1 < n → ∀ b < m, |firstQuot c.knotsV d (fun j => gridPoint c.weights n b j) a| ≤ S) →
        |E| ≤ S ∧ |r none - E| ≤ splineErr R (d + 1) S (gridNoise (d + 2) (growth R ^ e) hi δ)) ∧
      ∀ i M T, (∀ x ∈ c.grid, |x i| ≤ M) →
        (∀ a, a + 1 < n → ∀ b < m, |firstQuot c.knotsV d (fun j => gridPoint c.weights n b j * gridPoint c.grid n b j i) a| ≤ T) →
        |D i| ≤ T ∧ |r (some i) - D i|
          ≤ splineErr R (d + 1) T (gridNoise (d + 2) ((1 + R.unit) * growth R ^ e) (M * hi) δ)) ∧
    ∃ r D E, bsplinePatchDerivVV R F G h u v = ok r ∧ c.hom.derivVV u v = ok (D, E) ∧
      (∀ S S2, (∀ a, a + 1 < n → ∀ b < m, |firstQuot c.knotsV d (fun j => gridPoint c.weights n b j) a| ≤ S) →
        (∀ a, a + 2 < n → ∀ b < m, |((d + 1 : ℕ) : K)
            * (firstQuot c.knotsV d (fun j => gridPoint c.weights n b j) (a + 1)
              - firstQuot c.knotsV d (fun j => gridPoint c.weights n b j) a)|
          ≤ S2 * (knot c.knotsV (a + d + 3) - knot c.knotsV (a + 2))) →
        |E| ≤ S2 ∧ |r none - E| ≤ splineErr2 R d S S2 (gridNoise (d + 2) (growth R ^ e) hi δ) δ) ∧
      ∀ i M T T2, (∀ x ∈ c.grid, |x i| ≤ M) →
        (∀ a, a + 1 < n → ∀ b < m, |firstQuot c.knotsV d (fun j => gridPoint c.weights n b j * gridPoint c.grid n b j i) a| ≤ T) →
        (∀ a, a + 2 < n → ∀ b < m, |((d + 1 : ℕ) : K)
            * (firstQuot c.knotsV d (fun j => gridPoint c.weights n b j * gridPoint c.grid n b j i) (a + 1)
              - firstQuot c.knotsV d (fun j => gridPoint c.weights n b j * gridPoint c.grid n b j i) a)|
          ≤ T2 * (knot c.knotsV (a + d + 3) - knot c.knotsV (a + 2))) →
        |D i| ≤ T2 ∧ |r (some i) - D i|
          ≤ splineErr2 R d T T2 (gridNoise (d + 2) ((1 + R.unit) * growth R ^ e) (M * hi) δ) δ := by
  have hun := R.unit_nonneg
  have gap1 := axis_gap hp.v hgap
  have hrd' : c.hom.Ready m n e (d + 2) := (hp.hom Sy).ready Sy.init
  have hget : ∀ a b, homFun ι K (c.hom.pts n a b) none = gridPoint c.weights n a b := by
    intro a b; rw [nurbs_pts Sy]; rfl
  have hgets : ∀ a b i, homFun ι K (c.hom.pts n a b) (some i)
      = gridPoint c.weights n a b * gridPoint c.grid n a b i := by
    intro a b i; rw [nurbs_pts Sy]; rfl
  have pert : ∀ i M, (∀ x ∈ c.grid, |x i| ≤ M) → ∀ a < m, ∀ b < n,
      |h.pts n a b (some i) - homFun ι K (c.hom.pts n a b) (some i)| ≤ (1 + R.unit - 1) * (M * hi) := by
    intro i M hM a ha b hb
    rw [hgets, hs, add_sub_cancel_left, mul_comm (gridPoint c.weights _ _ _)]
    refine (R.near _).trans (mul_le_mul_of_nonneg_left ?_ hun)
    rw [mul_comm]
    exact products_le hp hlo hwt hM a ha b hb
  have isoE : c.hom.isoCurveV u = ok (BSpline.mk (arr n fun a => BSplinePatch.bsum e c.knotsU m
      (fun b => c.hom.pts n b a) u) c.knotsV false (BSplinePatch.staticDeg c.sV)) := by
    rw [hrd'.isoCurveV (u := u) (u' := u) (by rw [Sy.knotsU]; exact FlWideOn.wide wu)
      (by simp [BSplinePatch.wrapOn, Sy.perU, pu]) (by rw [Sy.knotsU]; exact hu), Sy.knotsV,
      Sy.knotsU, Sy.perV, pv, Sy.sV]
  have isoR : ∀ k : ℕ → Option ι → K, (∀ a, bsplineEvaluate R (F a) (BSpline.mk (arr m (fun b => h.pts n b a))
      c.knotsU false (BSplinePatch.staticDeg c.sU)) u = ok (k a)) →
      bsplineIsoV R F h u = ok (BSpline.mk (arr n k) c.knotsV false (BSplinePatch.staticDeg c.sV)) := by
    intro k hk
    unfold bsplineIsoV
    rw [hrd.toValid.numV, ok_bind, hrd.isoU, tab_eq (g := k)]
    · rw [ok_bind, pure_eq, i3, i7, pv, i9]
    · intro j hj
      rw [rd_arr hj, ok_bind, ← hk j]
      unfold BSplinePatch.colU
      rw [i2, i6, pu, i8]
  constructor
  · obtain ⟨k, r, z, hk, hr, hz, HD⟩ := patch_deriv_pert R hu1 F G (d := d + 1) hp.v hp.u wv wu
      (fun a b => h.pts n b a) (fun a b => homFun ι K (c.hom.pts n b a)) hv hu
    rw [image_arr_bsum e n m c.knotsU c.knotsV (fun a b => c.hom.pts n b a),
      BSpline.evaluateDerivative_map, map_eq_ok] at hz
    obtain ⟨y, hy, rfl⟩ := hz
    refine ⟨r, y.1, y.2, ?_, ?_, fun S hS => ?_, fun i M T hM hT => ?_⟩
    · unfold bsplinePatchDerivV
      rw [isoR k hk, ok_bind, hr]
    · unfold BSplinePatch.derivV
      rw [isoE, ok_bind]
      exact hy
    · obtain ⟨dn, bn⟩ := HD none 1 hi S δ hδ le_rfl
        (fun a ha b hb => by rw [hget]; exact weights_le hp hlo hwt b hb a ha)
        (fun a _ b _ => by rw [hget, hn]; simp)
        (fun a ha b hb => by
          rw [hget, hget]
          exact firstQuot_scale (a := fun j => gridPoint c.weights n b j) (lt_of_lt_of_le hδ (gap1 a ha)) (hS a ha b hb)) gap1
      rw [one_mul] at dn
      exact ⟨bn, dn⟩
    · obtain ⟨ds, bs⟩ := HD (some i) (1 + R.unit) (M * hi) T δ hδ (by linarith)
        (fun a ha b hb => by rw [hgets]; exact products_le hp hlo hwt hM b hb a ha)
        (fun a ha b hb => pert i M hM b hb a ha)
        (fun a ha b hb => by
          rw [hgets, hgets]
          exact firstQuot_scale (a := fun j => gridPoint c.weights n b j * gridPoint c.grid n b j i) (lt_of_lt_of_le hδ (gap1 a ha)) (hT a ha b hb)) gap1
      exact ⟨bs, ds⟩
  · obtain ⟨k, r, z, hk, hr, hz, HD⟩ := patch_deriv2_pert R hu1 F G hp.v hp.u wv wu
      (fun a b => h.pts n b a) (fun a b => homFun ι K (c.hom.pts n b a)) hv hu hδ hgap
    rw [image_arr_bsum e n m c.knotsU c.knotsV (fun a b => c.hom.pts n b a),
      BSpline.evaluate2ndDerivative_map, map_eq_ok] at hz
    obtain ⟨y, hy, rfl⟩ := hz
    refine ⟨r, y.1, y.2, ?_, ?_, fun S S2 hS hS2 => ?_, fun i M T T2 hM hT hT2 => ?_⟩
    · unfold bsplinePatchDerivVV
      rw [isoR k hk, ok_bind, hr]
    · unfold BSplinePatch.derivVV
      rw [isoE, ok_bind]
      exact hy
    · obtain ⟨dn, bn⟩ := HD none 1 hi S S2 le_rfl
        (fun a ha b hb => by rw [hget]; exact weights_le hp hlo hwt b hb a ha)
        (fun a _ b _ => by rw [hget, hn]; simp)
        (fun a ha b hb => by simp only [hget]; exact hS a ha b hb)
        (fun a ha b hb => by simp only [hget]; exact hS2 a ha b hb)
      rw [one_mul] at dn
      exact ⟨bn, dn⟩
    · obtain ⟨ds, bs⟩ := HD (some i) (1 + R.unit) (M * hi) T T2 (by linarith)
        (fun a ha b hb => by rw [hgets]; exact products_le hp hlo hwt hM b hb a ha)
        (fun a ha b hb => pert i M hM b hb a ha)
        (fun a ha b hb => by simp only [hgets]; exact hT a ha b hb)
        (fun a ha b hb => by simp only [hgets]; exact hT2 a ha b hb)
      exact ⟨bs, ds⟩

/-- **C117**: the second derivative in `u` of a NURBS patch with weights between `lo` and `hi`,
`0 < lo`, where the weight stays above the threshold `tol`.  `M` bounds the control points, `S`, `T`
and `S2`, `T2` the control points of the first and second exact derivatives of the weight and of the
numerator, `δ` is the shortest support of the basis functions of the second derivatives. -/
theorem C117_nurbs_patch_uu (R : Rounding K) (hu1 : R.unit < 1) (tol : K) (a b k : Fuses ι)
    (l f g : ι → Bool) {c : NURBSPatch K (ι → K)} (hinit : c.init = ok c) {m n d e : ℕ}
    (hp : NValid c m n (d + 2) e) (pu : c.perU = false) (pv : c.perV = false)
    (wu : FlWideOn R c.knotsU m (d + 2)) (wv : FlWideOn R c.knotsV n e) {lo hi : K} (hlo : 0 < lo)
    (hwt : ∀ x ∈ c.weights, lo ≤ x ∧ x ≤ hi)
    (hcond : (growth R ^ (d + 2 + e) - 1) * (hi / lo) < 1)
    (htol : tol < (1 - (growth R ^ (d + 2 + e) - 1) * (hi / lo)) * lo) {u v : K}
    (hu : BSplinePatch.InDom c.knotsU m (d + 2) u) (hv : BSplinePatch.InDom c.knotsV n e v)
    {S S2 δ : K} (hδ : 0 < δ)
    (hgap : ∀ j, j + 2 < m → δ ≤ knot c.knotsU (j + d + 3) - knot c.knotsU (j + 2))
    (hS : ∀ a, a + 1 < m → ∀ b < n, |firstQuot c.knotsU d (fun j => gridPoint c.weights n j b) a| ≤ S)
    (hS2 : ∀ a, a + 2 < m → ∀ b < n, |((d + 1 : ℕ) : K)
        * (firstQuot c.knotsU d (fun j => gridPoint c.weights n j b) (a + 1)
          - firstQuot c.knotsU d (fun j => gridPoint c.weights n j b) a)|
      ≤ S2 * (knot c.knotsU (a + d + 3) - knot c.knotsU (a + 2))) :
    ∃ q r, nurbsPatchDerivUU R tol a b k l f g (nurbsData c) c.weights u v = ok q ∧
      c.derivUU tol u v = ok r ∧ ∀ i M T T2, (∀ x ∈ c.grid, |x i| ≤ M) →
        (∀ a, a + 1 < m → ∀ b < n, |firstQuot c.knotsU d (fun j => gridPoint c.weights n j b * gridPoint c.grid n j b i) a| ≤ T) →
        (∀ a, a + 2 < m → ∀ b < n, |((d + 1 : ℕ) : K)
            * (firstQuot c.knotsU d (fun j => gridPoint c.weights n j b * gridPoint c.grid n j b i) (a + 1)
              - firstQuot c.knotsU d (fun j => gridPoint c.weights n j b * gridPoint c.grid n j b i) a)|
          ≤ T2 * (knot c.knotsU (a + d + 3) - knot c.knotsU (a + 2))) →
        |q i - r i| ≤ sameBound R ((growth R ^ (d + 2 + e) - 1) * (hi / lo)) M
          (((1 + R.unit) * growth R ^ (d + 2 + e) - 1) * (hi / lo) * M) (T / lo + M * (S / lo))
          (innerBound R ((growth R ^ (d + 2 + e) - 1) * (hi / lo)) M
            (((1 + R.unit) * growth R ^ (d + 2 + e) - 1) * (hi / lo) * M) (T / lo)
            (splineErr R (d + 1) T (gridNoise (d + 2) ((1 + R.unit) * growth R ^ e) (M * hi) δ) / lo)
            (S / lo) (splineErr R (d + 1) S (gridNoise (d + 2) (growth R ^ e) hi δ) / lo))
          (S / lo) (splineErr R (d + 1) S (gridNoise (d + 2) (growth R ^ e) hi δ) / lo)
          (T2 / lo)
          (splineErr2 R d T T2 (gridNoise (d + 2) ((1 + R.unit) * growth R ^ e) (M * hi) δ) δ / lo)
          (S2 / lo) (splineErr2 R d S S2 (gridNoise (d + 2) (growth R ^ e) hi δ) δ / lo) := by
  have Sy := (sync_of_init hinit).1
  obtain ⟨h, eh, hrd, i2, i3, i6, i7, i8, i9, hn, hs⟩ := nurbs_patch_hom R Sy hp
  obtain ⟨x, ex, hWlo, en, HN⟩ := nurbs_patch_value R hu1 a.iso a.curve hp pu pv wu wv hlo hwt hu hv hrd
    i2 i3 i6 i7 hn hs
  have exx := nurbs_patch_exact Sy hp pu pv (FlWideOn.wide wu) (FlWideOn.wide wv) hu hv
  obtain ⟨⟨du, D, E, hdu, edu, HE, HD⟩, -⟩ := nurbs_hom_u R hu1 b.iso b.curve Sy hp pu pv wu wv hlo hwt
    hu hv hδ hgap hrd i2 i3 i6 i7 i8 i9 hn hs
  obtain ⟨-, dd, D2, E2, hdd, edd, HE2, HD2⟩ := nurbs_hom_u R hu1 k.iso k.curve Sy hp pu pv wu wv hlo hwt
    hu hv hδ hgap hrd i2 i3 i6 i7 i8 i9 hn hs
  set W := bsum2 (d + 2) e c.knotsU c.knotsV m n (gridPoint c.weights n) u v with hW
  set N : ι → K := fun i => bsum2 (d + 2) e c.knotsU c.knotsV m n
    (fun a b => gridPoint c.weights n a b * gridPoint c.grid n a b i) u v with hN
  set β := (growth R ^ (d + 2 + e) - 1) * (hi / lo) with hβ
  have hWpos : 0 < W := lt_of_lt_of_le hlo hWlo
  have β0 : 0 ≤ β := by
    have := (abs_nonneg _).trans en
    exact nonneg_of_mul_nonneg_left this hWpos
  have t1 : tol < (1 - β) * W := lt_of_lt_of_le htol (mul_le_mul_of_nonneg_left hWlo (by linarith))
  have t2 : tol < W := by
    refine lt_of_lt_of_le t1 ?_
    have := mul_nonneg β0 hWpos.le
    linarith
  obtain ⟨bE, dE⟩ := HE S hS
  obtain ⟨bE2, dE2⟩ := HE2 S S2 hS hS2
  have scale : ∀ {y z : K}, |y| ≤ z → |y| ≤ z / lo * W := fun h => scale_lo hlo hWlo h
  obtain ⟨q, eq, hq⟩ := sameQuotient_err R f g (su := innerDeriv R l x du) (dd := dd) (tol := tol) hWpos en
    hcond t1 (scale bE) (scale dE) (scale bE2) (scale dE2)
  refine ⟨q, W⁻¹ • (D2 - (2 * E) • (W⁻¹ • (D - W⁻¹ • (E • N))) - E2 • (W⁻¹ • N)), ?_, ?_,
    fun i M T T2 hM hT hT2 => ?_⟩
  · unfold nurbsPatchDerivUU
    rw [eh, ok_bind, ex, ok_bind, hdu, ok_bind, hdd, ok_bind, eq]
  · unfold NURBSPatch.derivUU
    rw [Sy.validate, ok_bind, exx, ok_bind, edu, ok_bind, edd, ok_bind]
    unfold quotSame quot0 quot1
    rw [if_neg (not_le.2 t2), assert_true hWpos.ne', ok_bind, pure_eq, ok_bind, ok_bind, pure_eq, ok_bind,
      pure_eq]
  · obtain ⟨N1, N2⟩ := HN i M hM
    obtain ⟨bD, dD⟩ := HD i M T hM hT
    obtain ⟨bD2, dD2⟩ := HD2 i M T T2 hM hT hT2
    have hU := quot_abs hWpos (scale bE) (scale bD) N1
    have h1 := innerDeriv_err R l hWpos en hcond (scale bE) (scale dE) N1 N2 (scale bD) (scale dD)
    exact hq i (N i) _ (D2 i) M _ _ _ (T2 / lo) _ N1 N2 hU h1 (scale bD2) (scale dD2)

/-- **C117**: the second derivative in `v` of a NURBS patch with weights between `lo` and `hi`,
`0 < lo`, where the weight stays above the threshold `tol`.  `M` bounds the control points, `S`, `T`
and `S2`, `T2` the control points of the first and second exact derivatives of the weight and of the
numerator, `δ` is the shortest support of the basis functions of the second derivatives. -/
theorem C117_nurbs_patch_vv (R : Rounding K) (hu1 : R.unit < 1) (tol : K) (a b k : Fuses ι)
    (l f g : ι → Bool) {c : NURBSPatch K (ι → K)} (hinit : c.init = ok c) {m n d e : ℕ}
    (hp : NValid c m n e (d + 2)) (pu : c.perU = false) (pv : c.perV = false)
    (wu : FlWideOn R c.knotsU m e) (wv : FlWideOn R c.knotsV n (d + 2)) {lo hi : K} (hlo : 0 < lo)
    (hwt : ∀ x ∈ c.weights, lo ≤ x ∧ x ≤ hi)
    (hcond : (growth R ^ (e + (d + 2)) - 1) * (hi / lo) < 1)
    (htol : tol < (1 - (growth R ^ (e + (d + 2)) - 1) * (hi / lo)) * lo) {u v : K}
    (hu : BSplinePatch.InDom c.knotsU m e u) (hv : BSplinePatch.InDom c.knotsV n (d + 2) v)
    {S S2 δ : K} (hδ : 0 < δ)
    (hgap : ∀ j, j + 2 < n → δ ≤ knot c.knotsV (j + d + 3) - knot c.knotsV (j + 2))
    (hS : ∀ a, a + 1 < n → ∀ b < m, |firstQuot c.knotsV d (fun j => gridPoint c.weights n b j) a| ≤ S)
    (hS2 : ∀ a, a + 2 < n → ∀ b < m, |((d + 1 : ℕ) : K)
        * (firstQuot c.knotsV d (fun j => gridPoint c.weights n b j) (a + 1)
          - firstQuot c.knotsV d (fun j => gridPoint c.weights n b j) a)|
      ≤ S2 * (knot c.knotsV (a + d + 3) - knot c.knotsV (a + 2))) :
    ∃ q r, nurbsPatchDerivVV R tol a b k l f g (nurbsData c) c.weights u v = ok q ∧
      c.derivVV tol u v = ok r ∧ ∀ i M T T2, (∀ x ∈ c.grid, |x i| ≤ M) →
        (∀ a, a + 1 < n → ∀ b < m, |firstQuot c.knotsV d (fun j => gridPoint c.weights n b j * gridPoint c.grid n b j i) a| ≤ T) →
        (∀ a, a + 2 < n → ∀ b < m, |((d + 1 : ℕ) : K)
            * (firstQuot c.knotsV d (fun j => gridPoint c.weights n b j * gridPoint c.grid n b j i) (a + 1)
              - firstQuot c.knotsV d (fun j => gridPoint c.weights n b j * gridPoint c.grid n b j i) a)|
          ≤ T2 * (knot c.knotsV (a + d + 3) - knot c.knotsV (a + 2))) →
        |q i - r i| ≤ sameBound R ((growth R ^ (e + (d + 2)) - 1) * (hi / lo)) M
          (((1 + R.unit) * growth R ^ (e + (d + 2)) - 1) * (hi / lo) * M) (T / lo + M * (S / lo))
          (innerBound R ((growth R ^ (e + (d + 2)) - 1) * (hi / lo)) M
            (((1 + R.unit) * growth R ^ (e + (d + 2)) - 1) * (hi / lo) * M) (T / lo)
            (splineErr R (d + 1) T (gridNoise (d + 2) ((1 + R.unit) * growth R ^ e) (M * hi) δ) / lo)
            (S / lo) (splineErr R (d + 1) S (gridNoise (d + 2) (growth R ^ e) hi δ) / lo))
          (S / lo) (splineErr R (d + 1) S (gridNoise (d + 2) (growth R ^ e) hi δ) / lo)
          (T2 / lo)
          (splineErr2 R d T T2 (gridNoise (d + 2) ((1 + R.unit) * growth R ^ e) (M * hi) δ) δ / lo)
          (S2 / lo) (splineErr2 R d S S2 (gridNoise (d + 2) (growth R ^ e) hi δ) δ / lo) := by
  have Sy := (sync_of_init hinit).1
  obtain ⟨h, eh, hrd, i2, i3, i6, i7, i8, i9, hn, hs⟩ := nurbs_patch_hom R Sy hp
  obtain ⟨x, ex, hWlo, en, HN⟩ := nurbs_patch_value R hu1 a.iso a.curve hp pu pv wu wv hlo hwt hu hv hrd
    i2 i3 i6 i7 hn hs
  have exx := nurbs_patch_exact Sy hp pu pv (FlWideOn.wide wu) (FlWideOn.wide wv) hu hv
  obtain ⟨⟨du, D, E, hdu, edu, HE, HD⟩, -⟩ := nurbs_hom_v R hu1 b.iso b.curve Sy hp pu pv wu wv hlo hwt
    hu hv hδ hgap hrd i2 i3 i6 i7 i8 i9 hn hs
  obtain ⟨-, dd, D2, E2, hdd, edd, HE2, HD2⟩ := nurbs_hom_v R hu1 k.iso k.curve Sy hp pu pv wu wv hlo hwt
    hu hv hδ hgap hrd i2 i3 i6 i7 i8 i9 hn hs
  set W := bsum2 e (d + 2) c.knotsU c.knotsV m n (gridPoint c.weights n) u v with hW
  set N : ι → K := fun i => bsum2 e (d + 2) c.knotsU c.knotsV m n
    (fun a b => gridPoint c.weights n a b * gridPoint c.grid n a b i) u v with hN
  set β := (growth R ^ (e + (d + 2)) - 1) * (hi / lo) with hβ
  have hWpos : 0 < W := lt_of_lt_of_le hlo hWlo
  have β0 : 0 ≤ β := by
    have := (abs_nonneg _).trans en
    exact nonneg_of_mul_nonneg_left this hWpos
  have t1 : tol < (1 - β) * W := lt_of_lt_of_le htol (mul_le_mul_of_nonneg_left hWlo (by linarith))
  have t2 : tol < W := by
    refine lt_of_lt_of_le t1 ?_
    have := mul_nonneg β0 hWpos.le
    linarith
  obtain ⟨bE, dE⟩ := HE S hS
  obtain ⟨bE2, dE2⟩ := HE2 S S2 hS hS2
  have scale : ∀ {y z : K}, |y| ≤ z → |y| ≤ z / lo * W := fun h => scale_lo hlo hWlo h
  obtain ⟨q, eq, hq⟩ := sameQuotient_err R f g (su := innerDeriv R l x du) (dd := dd) (tol := tol) hWpos en
    hcond t1 (scale bE) (scale dE) (scale bE2) (scale dE2)
  refine ⟨q, W⁻¹ • (D2 - (2 * E) • (W⁻¹ • (D - W⁻¹ • (E • N))) - E2 • (W⁻¹ • N)), ?_, ?_,
    fun i M T T2 hM hT hT2 => ?_⟩
  · unfold nurbsPatchDerivVV
    rw [eh, ok_bind, ex, ok_bind, hdu, ok_bind, hdd, ok_bind, eq]
  · unfold NURBSPatch.derivVV
    rw [Sy.validate, ok_bind, exx, ok_bind, edu, ok_bind, edd, ok_bind]
    unfold quotSame quot0 quot1
    rw [if_neg (not_le.2 t2), assert_true hWpos.ne', ok_bind, pure_eq, ok_bind, ok_bind, pure_eq, ok_bind,
      pure_eq]
  · obtain ⟨N1, N2⟩ := HN i M hM
    obtain ⟨bD, dD⟩ := HD i M T hM hT
    obtain ⟨bD2, dD2⟩ := HD2 i M T T2 hM hT hT2
    have hU := quot_abs hWpos (scale bE) (scale bD) N1
    have h1 := innerDeriv_err R l hWpos en hcond (scale bE) (scale dE) N1 N2 (scale bD) (scale dD)
    exact hq i (N i) _ (D2 i) M _ _ _ (T2 / lo) _ N1 N2 hU h1 (scale bD2) (scale dD2)

/-- Rounding without error is the exact model of the second derivative in `u`. -/
theorem C117_exact_arithmetic_uu (tol : K) (a b k : Fuses ι) (l f g : ι → Bool)
    {c : NURBSPatch K (ι → K)} (hinit : c.init = ok c) {m n d e : ℕ} (hp : NValid c m n (d + 2) e)
    (pu : c.perU = false) (pv : c.perV = false) (wu : BSplinePatch.WideOn c.knotsU m (d + 2))
    (wv : BSplinePatch.WideOn c.knotsV n e) {lo : K} (hlo : 0 < lo) (hwt : ∀ x ∈ c.weights, lo ≤ x)
    (htol : tol < lo) (hgap : ∀ a, a + 2 < m → knot c.knotsU (a + 2) < knot c.knotsU (a + d + 3)) {u v : K}
    (hu : BSplinePatch.InDom c.knotsU m (d + 2) u) (hv : BSplinePatch.InDom c.knotsV n e v) :
    nurbsPatchDerivUU Rounding.exact tol a b k l f g (nurbsData c) c.weights u v = c.derivUU tol u v := by
  have h0 : (Rounding.exact : Rounding K).unit = 0 := rfl
  have hg : growth (Rounding.exact : Rounding K) = 1 := by unfold growth; rw [h0]; norm_num
  have hg' : diffGrowth (Rounding.exact : Rounding K) = 1 := by unfold diffGrowth; rw [h0]; norm_num
  obtain ⟨hi, hhi⟩ := list_bound id c.weights
  have hwb : ∀ x ∈ c.weights, lo ≤ x ∧ x ≤ hi := fun x hx =>
    ⟨hwt x hx, (le_abs_self _).trans (hhi x hx)⟩
  obtain ⟨⟨δ, hδ, hgap'⟩, rel⟩ := exists_relative (fun a => knot c.knotsU (a + d + 3) - knot c.knotsU (a + 2))
    (m - 1) n (fun a ha => sub_pos.2 (hgap a (by omega)))
  obtain ⟨S, hS⟩ := fin_bound (fun a b => firstQuot c.knotsU d (fun j => gridPoint c.weights n j b) a) m n
  obtain ⟨S2, hS2⟩ := rel fun a b => ((d + 1 : ℕ) : K)
    * (firstQuot c.knotsU d (fun j => gridPoint c.weights n j b) (a + 1)
      - firstQuot c.knotsU d (fun j => gridPoint c.weights n j b) a)
  obtain ⟨q, y, hq, hy, H⟩ := C117_nurbs_patch_uu Rounding.exact (by rw [h0]; exact one_pos) tol
    a b k l f g hinit hp pu pv (fun i a b d => wu i a b d) (fun i a b d => wv i a b d) hlo hwb
    (by rw [hg]; simp) (by rw [hg]; simpa using htol) hu hv hδ (fun a ha => hgap' a (by omega))
    (fun a ha b hb => hS a (by omega) b hb.le) (fun a ha b hb => hS2 a (by omega) b hb)
  rw [hq, hy]
  congr 1
  funext i
  obtain ⟨M, hM⟩ := list_bound (fun x : ι → K => x i) c.grid
  obtain ⟨T, hT⟩ := fin_bound (fun a b => firstQuot c.knotsU d (fun j => gridPoint c.weights n j b * gridPoint c.grid n j b i) a) m n
  obtain ⟨T2, hT2⟩ := rel fun a b => ((d + 1 : ℕ) : K)
    * (firstQuot c.knotsU d (fun j => gridPoint c.weights n j b * gridPoint c.grid n j b i) (a + 1)
      - firstQuot c.knotsU d (fun j => gridPoint c.weights n j b * gridPoint c.grid n j b i) a)
  have := H i M T T2 hM (fun a ha b hb => hT a (by omega) b hb.le) (fun a ha b hb => hT2 a (by omega) b hb)
  simp [sameBound, innerBound, splineErr2, splineErr, gridNoise, h0, hg, hg'] at this
  linarith

/-- Rounding without error is the exact model of the second derivative in `v`. -/
theorem C117_exact_arithmetic_vv (tol : K) (a b k : Fuses ι) (l f g : ι → Bool)
    {c : NURBSPatch K (ι → K)} (hinit : c.init = ok c) {m n d e : ℕ} (hp : NValid c m n e (d + 2))
    (pu : c.perU = false) (pv : c.perV = false) (wu : BSplinePatch.WideOn c.knotsU m e)
    (wv : BSplinePatch.WideOn c.knotsV n (d + 2)) {lo : K} (hlo : 0 < lo) (hwt : ∀ x ∈ c.weights, lo ≤ x)
    (htol : tol < lo) (hgap : ∀ a, a + 2 < n → knot c.knotsV (a + 2) < knot c.knotsV (a + d + 3)) {u v : K}
    (hu : BSplinePatch.InDom c.knotsU m e u) (hv : BSplinePatch.InDom c.knotsV n (d + 2) v) :
    nurbsPatchDerivVV Rounding.exact tol a b k l f g (nurbsData c) c.weights u v = c.derivVV tol u v := by
  have h0 : (Rounding.exact : Rounding K).unit = 0 := rfl
  have hg : growth (Rounding.exact : Rounding K) = 1 := by unfold growth; rw [h0]; norm_num
  have hg' : diffGrowth (Rounding.exact : Rounding K) = 1 := by unfold diffGrowth; rw [h0]; norm_num
  obtain ⟨hi, hhi⟩ := list_bound id c.weights
  have hwb : ∀ x ∈ c.weights, lo ≤ x ∧ x ≤ hi := fun x hx =>
    ⟨hwt x hx, (le_abs_self _).trans (hhi x hx)⟩
  obtain ⟨⟨δ, hδ, hgap'⟩, rel⟩ := exists_relative (fun a => knot c.knotsV (a + d + 3) - knot c.knotsV (a + 2))
    (n - 1) m (fun a ha => sub_pos.2 (hgap a (by omega)))
  obtain ⟨S, hS⟩ := fin_bound (fun a b => firstQuot c.knotsV d (fun j => gridPoint c.weights n b j) a) n m
  obtain ⟨S2, hS2⟩ := rel fun a b => ((d + 1 : ℕ) : K)
    * (firstQuot c.knotsV d (fun j => gridPoint c.weights n b j) (a + 1)
      - firstQuot c.knotsV d (fun j => gridPoint c.weights n b j) a)
  obtain ⟨q, y, hq, hy, H⟩ := C117_nurbs_patch_vv Rounding.exact (by rw [h0]; exact one_pos) tol
    a b k l f g hinit hp pu pv (fun i a b d => wu i a b d) (fun i a b d => wv i a b d) hlo hwb
    (by rw [hg]; simp) (by rw [hg]; simpa using htol) hu hv hδ (fun a ha => hgap' a (by omega))
    (fun a ha b hb => hS a (by omega) b hb.le) (fun a ha b hb => hS2 a (by omega) b hb)
  rw [hq, hy]
  congr 1
  funext i
  obtain ⟨M, hM⟩ := list_bound (fun x : ι → K => x i) c.grid
  obtain ⟨T, hT⟩ := fin_bound (fun a b => firstQuot c.knotsV d (fun j => gridPoint c.weights n b j * gridPoint c.grid n b j i) a) n m
  obtain ⟨T2, hT2⟩ := rel fun a b => ((d + 1 : ℕ) : K)
    * (firstQuot c.knotsV d (fun j => gridPoint c.weights n b j * gridPoint c.grid n b j i) (a + 1)
      - firstQuot c.knotsV d (fun j => gridPoint c.weights n b j * gridPoint c.grid n b j i) a)
  have := H i M T T2 hM (fun a ha b hb => hT a (by omega) b hb.le) (fun a ha b hb => hT2 a (by omega) b hb)
  simp [sameBound, innerBound, splineErr2, splineErr, gridNoise, h0, hg, hg'] at this
  linarith

end General

/-! ### Concrete cases -/

section Examples

/-- A NURBS patch of degrees two and two with four times three control points and weights from `0.1`
to `2`. -/
def someQuadGrid : NURBSPatch ℚ (Fin 1 → ℚ) :=
  { grid := someCtrl ++ someCtrl ++ someCtrl ++ someCtrl,
    weights := [tenth, 1, 2, 1, 1, 1, 2, 1, 1, tenth, 1, 1],
    knotsU := [-1, -1, -1, tenth, 3, 3, 3], knotsV := [0, 0, 0, 2, 2, 2], degU := 2, degV := 2,
    hom := BSplinePatch.mk [] [] [] 0 0 false false (-1) (-1) [] [] }

theorem someQuadGrid_valid : NValid someQuadGrid 4 3 2 2 :=
  ⟨⟨rfl, rfl, Or.inl (by decide), by decide, by decide +kernel, by decide +kernel⟩,
    ⟨rfl, rfl, Or.inl (by decide), by decide, by decide +kernel, by decide +kernel⟩, rfl, rfl⟩

/-- The hypotheses of `C117_nurbs_patch_uu` and `C117_nurbs_patch_vv` in double precision, for this
patch once initialised. -/
example : (∃ c, someQuadGrid.init = ok c ∧ c.init = ok c ∧ NValid c 4 3 (0 + 2) 2 ∧
      c.perU = false ∧ c.perV = false ∧ c.knotsU = someQuadGrid.knotsU ∧ c.knotsV = someQuadGrid.knotsV ∧
      c.weights = someQuadGrid.weights ∧ c.grid = someQuadGrid.grid) ∧
    FlWideOn double someQuadGrid.knotsU 4 2 ∧ FlWideOn double someQuadGrid.knotsV 3 2 ∧
    (∀ x ∈ someQuadGrid.weights, tenth ≤ x ∧ x ≤ 2) ∧
    (growth double ^ (0 + 2 + 2) - 1) * (2 / tenth) < 1 ∧
    1 / 2 ^ 52 < (1 - (growth double ^ (0 + 2 + 2) - 1) * (2 / tenth)) * tenth ∧
    BSplinePatch.InDom someQuadGrid.knotsU 4 2 1 ∧ BSplinePatch.InDom someQuadGrid.knotsV 3 2 1 ∧
    (∀ j, j + 2 < 4 → 1 ≤ knot someQuadGrid.knotsU (j + 0 + 3) - knot someQuadGrid.knotsU (j + 2)) ∧
    (∀ a, a + 1 < 4 → ∀ b < 3, |firstQuot someQuadGrid.knotsU 0 (fun j => gridPoint someQuadGrid.weights 3 j b) a| ≤ 4) ∧
    (∀ a, a + 2 < 4 → ∀ b < 3, |((0 + 1 : ℕ) : ℚ)
        * (firstQuot someQuadGrid.knotsU 0 (fun j => gridPoint someQuadGrid.weights 3 j b) (a + 1)
          - firstQuot someQuadGrid.knotsU 0 (fun j => gridPoint someQuadGrid.weights 3 j b) a)|
      ≤ 8 * (knot someQuadGrid.knotsU (a + 0 + 3) - knot someQuadGrid.knotsU (a + 2))) ∧
    (∀ j, j + 2 < 3 → 1 ≤ knot someQuadGrid.knotsV (j + 0 + 3) - knot someQuadGrid.knotsV (j + 2)) ∧
    (∀ a, a + 1 < 3 → ∀ b < 4, |firstQuot someQuadGrid.knotsV 0 (fun j => gridPoint someQuadGrid.weights 3 b j) a| ≤ 4) ∧
    (∀ a, a + 2 < 3 → ∀ b < 4, |((0 + 1 : ℕ) : ℚ)
        * (firstQuot someQuadGrid.knotsV 0 (fun j => gridPoint someQuadGrid.weights 3 b j) (a + 1)
          - firstQuot someQuadGrid.knotsV 0 (fun j => gridPoint someQuadGrid.weights 3 b j) a)|
      ≤ 8 * (knot someQuadGrid.knotsV (a + 0 + 3) - knot someQuadGrid.knotsV (a + 2))) := by
  refine ⟨?_, ?_, ?_, by decide +kernel, by decide +kernel, by decide +kernel,
    ⟨by decide +kernel, by decide +kernel,
      Or.inl (by show knot someQuadGrid.knotsU 2 < knot someQuadGrid.knotsU 3; decide +kernel)⟩,
    ⟨by decide +kernel, by decide +kernel,
      Or.inl (by show knot someQuadGrid.knotsV 2 < knot someQuadGrid.knotsV 3; decide +kernel)⟩,
    ?_, ?_, ?_, ?_, ?_, ?_⟩
  · obtain ⟨c, e, e', hc⟩ := C63_nurbs_init someQuadGrid_valid
    refine ⟨c, e, e', ?_⟩
    rw [hc]
    exact ⟨⟨someQuadGrid_valid.u, someQuadGrid_valid.v, rfl, rfl⟩, rfl, rfl, rfl, rfl, rfl, rfl⟩
  · intro i h1 h2 _
    interval_cases i <;> decide +kernel
  · intro i h1 h2 _
    interval_cases i; decide +kernel
  · intro a ha
    have : a < 2 := by omega
    interval_cases a <;> decide +kernel
  · intro a ha b hb
    have : a < 3 := by omega
    interval_cases a <;> interval_cases b <;> decide +kernel
  · intro a ha b hb
    have : a < 2 := by omega
    interval_cases a <;> interval_cases b <;> decide +kernel
  · intro a ha
    have : a < 1 := by omega
    interval_cases a; decide +kernel
  · intro a ha b hb
    have : a < 2 := by omega
    interval_cases a <;> interval_cases b <;> decide +kernel
  · intro a ha b hb
    have : a < 1 := by omega
    interval_cases a; interval_cases b <;> decide +kernel

/-- Rounding shows: in double precision the second derivatives are not the exact ones, although they
are close. -/
example : ((nurbsPatchDerivUU double (1 / 2 ^ 52) ⟨fun _ _ _ _ => .none, fun _ _ _ => .none⟩
      ⟨fun _ _ _ _ => .none, fun _ _ _ => .none⟩ ⟨fun _ _ _ _ => .none, fun _ _ _ => .none⟩
      (fun _ => false) (fun _ => false) (fun _ => false) (nurbsData someQuadGrid) someQuadGrid.weights
      1 (1 / 3) >>= fun q => ok (q 0))
    ≠ (someQuadGrid.init >>= fun c => c.derivUU (1 / 2 ^ 52) (1 : ℚ) (1 / 3) >>= fun q => ok (q 0))) ∧
    ((nurbsPatchDerivVV double (1 / 2 ^ 52) ⟨fun _ _ _ _ => .none, fun _ _ _ => .none⟩
      ⟨fun _ _ _ _ => .none, fun _ _ _ => .none⟩ ⟨fun _ _ _ _ => .none, fun _ _ _ => .none⟩
      (fun _ => false) (fun _ => false) (fun _ => false) (nurbsData someQuadGrid) someQuadGrid.weights
      1 (1 / 3) >>= fun q => ok (q 0))
    ≠ (someQuadGrid.init >>= fun c => c.derivVV (1 / 2 ^ 52) (1 : ℚ) (1 / 3) >>= fun q => ok (q 0))) := by
  decide +kernel

end Examples

end NS.Fl
