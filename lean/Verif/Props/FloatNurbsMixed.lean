import Verif.Model.FloatNurbsMixed
import Verif.Props.FloatNurbsSecond

/-!
# Property C118: rounding errors of the mixed second derivatives of B-spline and NURBS patches
-/

set_option linter.unusedSectionVars false

namespace NS.Fl

open Outcome Finset Spec NS.Props

section General

variable {K ι : Type} [Field K] [LinearOrder K] [IsStrictOrderedRing K] [FloorRing K]

/-! ### Specification -/

/-- Control points of the derivative of a B-spline of degree `p + 1`. -/
def diffQuot (u : List K) (p : ℕ) (a : ℕ → K) (j : ℕ) : K :=
  ((p + 1 : ℕ) : K) / (knot u (j + p + 2) - knot u (j + 1)) * (a (j + 1) - a j)

/-- Control points of the mixed derivative of a B-spline patch of degrees `d + 1` and `e + 1`. -/
def mixQuot (ku kv : List K) (d e : ℕ) (A : ℕ → ℕ → K) (a b : ℕ) : K :=
  diffQuot kv e (fun j => diffQuot ku d (fun i => A i j) a) b

/-- Error of a rounded control point of a derivative: `T` bounds the exact one and `N` the effect of
the errors of the points it is computed from. -/
def quotErr (R : Rounding K) (T N : K) : K := (diffGrowth R - 1) * (T + N) + N

/-- Error of a control point of the mixed derivative: `T` and `T2` bound those of the derivative in `u`
and of the mixed one, `N` the effect of the errors of the grid on the former, `δ` is the shortest
support of the basis functions in `v`. -/
def mixPtErr (R : Rounding K) (e : ℕ) (T T2 N δ : K) : K :=
  quotErr R T2 (2 * (e + 1 : ℕ) * quotErr R T N / δ)

/-- Error of the mixed derivative; the arguments are as in `mixPtErr`. -/
def duvErr (R : Rounding K) (d e : ℕ) (T T2 N δ : K) : K :=
  (growth R ^ (d + e) - 1) * (T2 + mixPtErr R e T T2 N δ) + mixPtErr R e T T2 N δ

theorem diffQuot_scale {u : List K} {p j : ℕ} {a : ℕ → K} {T : K}
    (hg : 0 < knot u (j + p + 2) - knot u (j + 1)) (h : |diffQuot u p a j| ≤ T) :
    |((p + 1 : ℕ) : K) * (a (j + 1) - a j)| ≤ T * (knot u (j + p + 2) - knot u (j + 1)) := by
  unfold diffQuot at h
  rw [div_mul_eq_mul_div, abs_div, abs_of_pos hg, div_le_iff₀ hg] at h
  exact h

/-! ### One control point -/

theorem divDiff_err (R : Rounding K) (hu1 : R.unit < 1) (bad : ι → K) (p : ℕ) (a b : ι → K) {x y : K}
    (hd : 0 < x - y) (i : ι) :
    |divDiff R bad p a b x y i - (p : K) / (x - y) * (a i - b i)|
      ≤ (diffGrowth R - 1) * |(p : K) / (x - y) * (a i - b i)| := by
  have hu := R.unit_nonneg
  have h1u : 0 < 1 - R.unit := by linarith
  have hr := abs_le.1 (R.near (x - y))
  rw [abs_of_pos hd] at hr
  have r1 : (1 - R.unit) * (x - y) ≤ R.rnd (x - y) := by linarith [hr.1]
  have rp : 0 < R.rnd (x - y) := lt_of_lt_of_le (mul_pos h1u hd) r1
  have hi : |(R.rnd (x - y))⁻¹ - (x - y)⁻¹| ≤ (1 / (1 - R.unit) - 1) * |(x - y)⁻¹| := by
    have e : (R.rnd (x - y))⁻¹ - (x - y)⁻¹ = (x - y)⁻¹ * ((x - y - R.rnd (x - y)) / R.rnd (x - y)) := by
      field_simp
    rw [e, abs_mul, mul_comm]
    refine mul_le_mul_of_nonneg_right ?_ (abs_nonneg _)
    rw [abs_div, abs_of_pos rp, div_le_iff₀ rp, abs_sub_comm]
    have h3 : |R.rnd (x - y) - (x - y)| ≤ R.unit * (x - y) := by
      have := R.near (x - y)
      rwa [abs_of_pos hd] at this
    have h4 : 1 / (1 - R.unit) - 1 = R.unit / (1 - R.unit) := by field_simp; ring
    rw [h4, div_mul_eq_mul_div, le_div_iff₀ h1u]
    nlinarith [mul_le_mul_of_nonneg_left r1 hu, mul_le_mul_of_nonneg_right h3 h1u.le]
  have hab : |R.rnd (a i - b i) - (a i - b i)| ≤ ((1 + R.unit) - 1) * |a i - b i| := by
    rw [add_sub_cancel_left]; exact R.near _
  have hn : |(p : K) - (p : K)| ≤ (1 - 1) * |(p : K)| := by simp
  have h := rel_rnd R (rel_mul (rel_rnd R (rel_mul hn hab)) hi)
  unfold divDiff
  rw [if_neg rp.ne', div_eq_mul_inv (R.rnd _)]
  rw [show (p : K) / (x - y) * (a i - b i) = (p : K) * (a i - b i) * (x - y)⁻¹ by
    rw [div_eq_mul_inv]; ring]
  refine h.trans (le_of_eq ?_)
  congr 2
  unfold diffGrowth
  field_simp

/-- The rounded control point of a derivative with perturbed inputs. -/
theorem divDiff_pert (R : Rounding K) (hu1 : R.unit < 1) (bad : ι → K) (p : ℕ) (a b : ι → K) {x y δ : K}
    (hδ : 0 < δ) (hd : δ ≤ x - y) (i : ι) {A B N T : K} (ha : |a i - A| ≤ N) (hb : |b i - B| ≤ N)
    (hT : |((p : ℕ) : K) / (x - y) * (A - B)| ≤ T) :
    |divDiff R bad p a b x y i - (p : K) / (x - y) * (A - B)| ≤ quotErr R T (2 * p * N / δ) := by
  have hd0 : 0 < x - y := lt_of_lt_of_le hδ hd
  have hN : 0 ≤ N := le_trans (abs_nonneg _) ha
  have h1 := divDiff_err R hu1 bad p a b hd0 i
  have hg := one_le_diffGrowth R hu1
  have h2 : |(p : K) / (x - y) * (a i - b i) - (p : K) / (x - y) * (A - B)| ≤ 2 * p * N / δ := by
    rw [← mul_sub, abs_mul, abs_div, abs_of_pos hd0, abs_of_nonneg (Nat.cast_nonneg p)]
    have tri : |a i - b i - (A - B)| ≤ 2 * N := by
      rw [abs_le] at ha hb ⊢
      constructor <;> linarith [ha.1, ha.2, hb.1, hb.2]
    calc _ ≤ (p : K) / δ * (2 * N) :=
          mul_le_mul (div_le_div_of_nonneg_left (Nat.cast_nonneg p) hδ hd) tri (abs_nonneg _) (by positivity)
      _ = 2 * p * N / δ := by ring
  have h3 : |(p : K) / (x - y) * (a i - b i)| ≤ T + 2 * p * N / δ := by
    have := abs_add_le ((p : K) / (x - y) * (a i - b i) - (p : K) / (x - y) * (A - B))
      ((p : K) / (x - y) * (A - B))
    rw [sub_add_cancel] at this
    linarith
  have h4 := mul_le_mul_of_nonneg_left h3 (by linarith : (0 : K) ≤ diffGrowth R - 1)
  have h5 := abs_sub_le (divDiff R bad p a b x y i) ((p : K) / (x - y) * (a i - b i))
    ((p : K) / (x - y) * (A - B))
  unfold quotErr
  linarith

/-! ### The derivative patches -/

variable {p : BSplinePatch K (ι → K)} {m n d e : ℕ}

theorem bsplineDuPatch_eq (R : Rounding K) (bad : ι → K) (h : p.Valid m n (d + 1) e) :
    ∃ q, bsplineDuPatch R bad p = ok q ∧ q.Ready (m - 1) n d e ∧
      q.knotsU = BSplinePatch.innerKnots p.knotsU ∧
      q.knotsV = p.knotsV ∧ q.perU = p.perU ∧ q.perV = p.perV ∧
      ∀ i < m - 1, ∀ j < n, q.pts n i j = divDiff R bad (d + 1) (p.pts n (i + 1) j) (p.pts n i j)
        (knot p.knotsU (i + (d + 1) + 1)) (knot p.knotsU (i + 1)) := by
  have hlu := h.u.len
  have hcu := h.u.cnt
  obtain ⟨hin, -⟩ := h.u.inner
  have hv : BSplinePatch.Valid (BSplinePatch.mk (gridOf (m - 1) n (fun i j =>
      divDiff R bad (d + 1) (p.pts n (i + 1) j) (p.pts n i j)
        (knot p.knotsU (i + (d + 1) + 1)) (knot p.knotsU (i + 1)))) (BSplinePatch.innerKnots p.knotsU)
      p.knotsV (((d + 1 : ℕ) : ℤ) - 1) (e : ℤ) p.perU p.perV (-1) (-1) [] []) (m - 1) n d e := by
    refine ⟨?_, ⟨rfl, h.v.len, Or.inl (by show (-1 : ℤ) < 0; decide), h.v.cnt, h.v.sorted, h.v.dom⟩, by simp⟩
    have : (((d + 1 : ℕ) : ℤ) - 1) = (d : ℤ) := by push_cast; ring
    simp only [this]
    exact hin
  obtain ⟨q, e, hr, e1, e2, e3, e4, e5, e6, e7, e8, e9⟩ := hv.init_ready
  refine ⟨q, ?_, hr, e2, e3, e6, e7, fun i hi j hj => ?_⟩
  · unfold bsplineDuPatch
    rw [h.degreeU, ok_bind, h.degreeV, ok_bind, if_neg (by omega), h.numU, ok_bind, h.numV, ok_bind,
      assert_true (by omega), ok_bind, BSplinePatch.Valid.fill_grid (s := fun i j =>
        divDiff R bad (d + 1) (p.pts n (i + 1) j) (p.pts n i j)
        (knot p.knotsU (i + (d + 1) + 1)) (knot p.knotsU (i + 1))), ok_bind,
      BSplinePatch.seg_inner (by omega), ok_bind]
    · exact e
    · intro i hi j hj
      rw [h.getControlPoint (by omega) hj, ok_bind, h.getControlPoint (by omega) hj, ok_bind,
        BSpline.rd_knot (by omega), ok_bind, BSpline.rd_knot (by omega), ok_bind]
      rfl
  · exact BSplinePatch.pts_gridOf' (fun i j => divDiff R bad (d + 1) (p.pts n (i + 1) j) (p.pts n i j)
        (knot p.knotsU (i + (d + 1) + 1)) (knot p.knotsU (i + 1))) q e1 hi hj

theorem bsplineDvPatch_eq (R : Rounding K) (bad : ι → K) (h : p.Valid m n d (e + 1)) :
    ∃ q, bsplineDvPatch R bad p = ok q ∧ q.Ready m (n - 1) d e ∧ q.knotsU = p.knotsU ∧
      q.knotsV = BSplinePatch.innerKnots p.knotsV ∧ q.perU = p.perU ∧ q.perV = p.perV ∧
      ∀ i < m, ∀ j < n - 1, q.pts (n - 1) i j = divDiff R bad (e + 1) (p.pts n i (j + 1)) (p.pts n i j)
        (knot p.knotsV (j + (e + 1) + 1)) (knot p.knotsV (j + 1)) := by
  have hlv := h.v.len
  have hcv := h.v.cnt
  obtain ⟨hin, -⟩ := h.v.inner
  have hv : BSplinePatch.Valid (BSplinePatch.mk (gridOf m (n - 1) (fun i j =>
      divDiff R bad (e + 1) (p.pts n i (j + 1)) (p.pts n i j)
        (knot p.knotsV (j + (e + 1) + 1)) (knot p.knotsV (j + 1)))) p.knotsU
      (BSplinePatch.innerKnots p.knotsV)
      (d : ℤ) (((e + 1 : ℕ) : ℤ) - 1) p.perU p.perV (-1) (-1) [] []) m (n - 1) d e := by
    refine ⟨⟨rfl, h.u.len, Or.inl (by show (-1 : ℤ) < 0; decide), h.u.cnt, h.u.sorted, h.u.dom⟩, ?_, by simp⟩
    have : (((e + 1 : ℕ) : ℤ) - 1) = (e : ℤ) := by push_cast; ring
    simp only [this]
    exact hin
  obtain ⟨q, e, hr, e1, e2, e3, e4, e5, e6, e7, e8, e9⟩ := hv.init_ready
  refine ⟨q, ?_, hr, e2, e3, e6, e7, fun i hi j hj => ?_⟩
  · unfold bsplineDvPatch
    rw [h.degreeU, ok_bind, h.degreeV, ok_bind, if_neg (by omega), h.numU, ok_bind, h.numV, ok_bind,
      assert_true (by omega), ok_bind, BSplinePatch.Valid.fill_grid (s := fun i j => divDiff R bad _
        (p.pts n i (j + 1)) (p.pts n i j)
        (knot p.knotsV (j + _ + 1)) (knot p.knotsV (j + 1))), ok_bind,
      BSplinePatch.seg_inner (by omega), ok_bind]
    · exact e
    · intro i hi j hj
      rw [h.getControlPoint hi (by omega), ok_bind, h.getControlPoint hi (by omega), ok_bind,
        BSpline.rd_knot (by omega), ok_bind, BSpline.rd_knot (by omega), ok_bind]
      rfl
  · exact BSplinePatch.pts_gridOf' (fun i j => divDiff R bad _ (p.pts n i (j + 1)) (p.pts n i j)
        (knot p.knotsV (j + _ + 1)) (knot p.knotsV (j + 1))) q e1 hi hj

theorem inner_flWide {R : Rounding K} {u : List K} {deg s : ℤ} {n p : ℕ}
    (h : BSplinePatch.Axis u deg s n (p + 1)) (hw : FlWideOn R u n (p + 1)) :
    FlWideOn R (BSplinePatch.innerKnots u) (n - 1) p := by
  have hl := h.len
  intro i h1 h2
  rw [BSplinePatch.inner_knot (by omega), BSplinePatch.inner_knot (by omega)]
  intro h3
  exact hw (i + 1) (by omega) (by omega) h3

theorem bsum2_sub (d e : ℕ) (ku kv : List K) (m n : ℕ) (A B : ℕ → ℕ → K) (u v : K) :
    bsum2 d e ku kv m n (fun a b => A a b - B a b) u v
      = bsum2 d e ku kv m n A u v - bsum2 d e ku kv m n B u v := by
  unfold bsum2
  simp only [bsum_sub]

/-- The mixed derivative of a rounded patch whose control points are perturbed. -/
theorem duv_patch_pert (R : Rounding K) (hu1 : R.unit < 1) (bad : ι → K) (F : ℕ → ℕ → ℕ → ι → Fuse)
    (G : ℕ → ℕ → ι → Fuse) (hp : p.Valid m n (d + 1) (e + 1)) (pu : p.perU = false)
    (pv : p.perV = false) (wu : FlWideOn R p.knotsU m (d + 1)) (wv : FlWideOn R p.knotsV n (e + 1)) {u v : K}
    (hu : BSplinePatch.InDom p.knotsU m (d + 1) u) (hv : BSplinePatch.InDom p.knotsV n (e + 1) v)
    {δ δ' : K} (hδ : 0 < δ) (hδ' : 0 < δ')
    (hgap : ∀ a, a + 1 < m → δ ≤ knot p.knotsU (a + d + 2) - knot p.knotsU (a + 1))
    (hgap' : ∀ b, b + 1 < n → δ' ≤ knot p.knotsV (b + e + 2) - knot p.knotsV (b + 1)) :
    ∃ q, bsplinePatchDerivUV R bad F G p u v = ok q ∧ ∀ i g M₀ T T2 (A : ℕ → ℕ → K), 1 ≤ g →
      (∀ a < m, ∀ b < n, |A a b| ≤ M₀) → (∀ a < m, ∀ b < n, |p.pts n a b i - A a b| ≤ (g - 1) * M₀) →
      (∀ a, a + 1 < m → ∀ b < n, |diffQuot p.knotsU d (fun j => A j b) a| ≤ T) →
      (∀ a, a + 1 < m → ∀ b, b + 1 < n → |mixQuot p.knotsU p.knotsV d e A a b| ≤ T2) →
      |q i - bsum2 d e (BSplinePatch.innerKnots p.knotsU) (BSplinePatch.innerKnots p.knotsV) (m - 1) (n - 1)
          (mixQuot p.knotsU p.knotsV d e A) u v|
        ≤ duvErr R d e T T2 (gridNoise (d + 1) g M₀ δ) δ' ∧
      |bsum2 d e (BSplinePatch.innerKnots p.knotsU) (BSplinePatch.innerKnots p.knotsV) (m - 1) (n - 1)
          (mixQuot p.knotsU p.knotsV d e A) u v| ≤ T2 := by
  obtain ⟨q1, eq1, r1, ku1, kv1, pu1, pv1, hpt1⟩ := bsplineDuPatch_eq R bad hp
  obtain ⟨q2, eq2, r2, ku2, kv2, pu2, pv2, hpt2⟩ := bsplineDvPatch_eq R bad r1.toValid
  rw [ku1] at ku2
  rw [kv1] at kv2
  rw [kv1] at hpt2
  have W1 : FlWideOn R q2.knotsU (m - 1) d := by rw [ku2]; exact inner_flWide hp.u wu
  have W2 : FlWideOn R q2.knotsV (n - 1) e := by rw [kv2]; exact inner_flWide hp.v wv
  have I1 : BSplinePatch.InDom q2.knotsU (m - 1) d u := by rw [ku2, hp.u.inner_dom]; exact hu
  have I2 : BSplinePatch.InDom q2.knotsV (n - 1) e v := by rw [kv2, hp.v.inner_dom]; exact hv
  obtain ⟨q, hq, H⟩ := bspline_patch R hu1 F G r2 (by rw [pu2, pu1, pu]) (by rw [pv2, pv1, pv]) W1 W2 I1 I2
  rw [ku2, kv2] at H
  refine ⟨q, ?_, fun i g M₀ T T2 A hg hA hP hT hT2 => ?_⟩
  · unfold bsplinePatchDerivUV
    rw [eq1, ok_bind, eq2, ok_bind, hq]
  · have l1 : ∀ a, a + 1 < m → ∀ b < n, |q1.pts n a b i - diffQuot p.knotsU d (fun j => A j b) a|
        ≤ quotErr R T (gridNoise (d + 1) g M₀ δ) := by
      intro a ha b hb
      rw [hpt1 a (by omega) b hb]
      have := divDiff_pert R hu1 bad (d + 1) (p.pts n (a + 1) b) (p.pts n a b)
        (x := knot p.knotsU (a + (d + 1) + 1)) (y := knot p.knotsU (a + 1)) hδ (hgap a ha) i
        (hP _ ha b hb) (hP _ (by omega) b hb) (hT a ha b hb)
      refine this.trans (le_of_eq ?_)
      unfold gridNoise
      congr 1
      push_cast
      ring
    have l2 : ∀ a, a < m - 1 → ∀ b, b < n - 1 → |q2.pts (n - 1) a b i - mixQuot p.knotsU p.knotsV d e A a b|
        ≤ mixPtErr R e T T2 (gridNoise (d + 1) g M₀ δ) δ' := by
      intro a ha b hb
      rw [hpt2 a ha b hb]
      exact divDiff_pert R hu1 bad (e + 1) (q1.pts n a (b + 1)) (q1.pts n a b)
        (x := knot p.knotsV (b + (e + 1) + 1)) (y := knot p.knotsV (b + 1)) hδ' (hgap' b (by omega)) i
        (l1 a (by omega) (b + 1) (by omega)) (l1 a (by omega) b (by omega)) (hT2 a (by omega) b (by omega))
    set Q := mixQuot p.knotsU p.knotsV d e A with hQ
    set ε := mixPtErr R e T T2 (gridNoise (d + 1) g M₀ δ) δ' with hε
    have bQ : ∀ a < m - 1, ∀ b < n - 1, |Q a b| ≤ T2 := fun a ha b hb =>
      hT2 a (by omega) b (by omega)
    have h1 := (H i 1 (T2 + ε) (fun a b => q2.pts (n - 1) a b i) le_rfl (fun a ha b hb => by
      have := abs_add_le (q2.pts (n - 1) a b i - Q a b) (Q a b)
      rw [sub_add_cancel] at this
      linarith [l2 a ha b hb, bQ a ha b hb]) (fun a _ b _ => by simp)).1
    have ax1 := hp.u.inner.1
    have ax2 := hp.v.inner.1
    rw [ku2] at W1 I1
    rw [kv2] at W2 I2
    have bound : ∀ (X : ℕ → ℕ → K) (C : K), (∀ a < m - 1, ∀ b < n - 1, |X a b| ≤ C) →
        |bsum2 d e (BSplinePatch.innerKnots p.knotsU) (BSplinePatch.innerKnots p.knotsV) (m - 1) (n - 1) X u v| ≤ C :=
      fun X C hX => bsum_abs ax1 (FlWideOn.wide W1) I1 _ _ (fun a ha =>
        bsum_abs ax2 (FlWideOn.wide W2) I2 _ _ (fun b hb => hX a ha b hb))
    refine ⟨?_, bound Q T2 bQ⟩
    have h2 := bound (fun a b => q2.pts (n - 1) a b i - Q a b) ε (fun a ha b hb => l2 a ha b hb)
    rw [bsum2_sub] at h2
    rw [one_mul] at h1
    have := abs_add_le _ _ |>.trans (add_le_add h1 h2)
    rw [sub_add_sub_cancel] at this
    exact this

theorem map_bsum {V : Type} [AddCommGroup V] [Module K V] (L : V →ₗ[K] K) (d : ℕ) (u : List K) (n : ℕ)
    (P : ℕ → V) (t : K) : L (BSplinePatch.bsum d u n P t) = BSplinePatch.bsum d u n (fun i => L (P i)) t := by
  unfold BSplinePatch.bsum
  simp only [map_sum, map_smul]

theorem map_dAt {V : Type} [AddCommGroup V] [Module K V] (L : V →ₗ[K] K) (bad : V) {u : List K} {d : ℕ}
    (P : ℕ → V) {i : ℕ} (h : knot u (i + 1) < knot u (i + d + 2)) :
    L (BSplinePatch.dAt bad (knot u) (d + 1) P i) = diffQuot u d (fun j => L (P j)) i := by
  unfold BSplinePatch.dAt BSplinePatch.divPt diffQuot
  rw [show i + (d + 1) + 1 = i + d + 2 by omega, if_neg (sub_pos.2 h).ne']
  simp only [map_smul, map_sub, smul_eq_mul]
  rw [div_eq_mul_inv]
  ring

/-- The exact mixed derivative. -/
theorem duv_patch_exact {V : Type} [AddCommGroup V] [Module K V] {p : BSplinePatch K V} (bad : V)
    (hp : p.Valid m n (d + 1) (e + 1)) (pu : p.perU = false) (pv : p.perV = false)
    (wu : BSplinePatch.WideOn p.knotsU m (d + 1)) (wv : BSplinePatch.WideOn p.knotsV n (e + 1)) {u v : K}
    (hu : BSplinePatch.InDom p.knotsU m (d + 1) u) (hv : BSplinePatch.InDom p.knotsV n (e + 1) v)
    (hgap : ∀ a, a + 1 < m → knot p.knotsU (a + 1) < knot p.knotsU (a + d + 2))
    (hgap' : ∀ b, b + 1 < n → knot p.knotsV (b + 1) < knot p.knotsV (b + e + 2)) :
    ∃ x, p.derivUV bad u v = ok x ∧ ∀ L : V →ₗ[K] K,
      L x = bsum2 d e (BSplinePatch.innerKnots p.knotsU) (BSplinePatch.innerKnots p.knotsV) (m - 1) (n - 1)
        (mixQuot p.knotsU p.knotsV d e fun a b => L (p.pts n a b)) u v := by
  obtain ⟨q1, eq1, r1, ku1, kv1, pu1, pv1, hpt1⟩ := hp.duPatch bad
  obtain ⟨q2, eq2, r2, ku2, kv2, pu2, pv2, hpt2⟩ := r1.toValid.dvPatch bad
  rw [ku1] at ku2
  rw [kv1] at kv2
  rw [kv1] at hpt2
  refine ⟨_, by
    unfold BSplinePatch.derivUV BSplinePatch.duvPatch
    rw [eq1, ok_bind, eq2, ok_bind]
    exact r2.evaluate (u := u) (v := v) (u' := u) (v' := v) (by rw [ku2]; exact hp.u.inner_wide wu)
      (by rw [kv2]; exact hp.v.inner_wide wv) (by simp [BSplinePatch.wrapOn, pu2, pu1, pu])
      (by rw [ku2, hp.u.inner_dom]; exact hu) (by simp [BSplinePatch.wrapOn, pv2, pv1, pv])
      (by rw [kv2, hp.v.inner_dom]; exact hv), fun L => ?_⟩
  unfold BSplinePatch.tsum bsum2
  rw [ku2, kv2, map_bsum]
  refine BSplinePatch.bsum_congr (fun a ha => ?_) _
  rw [map_bsum]
  refine BSplinePatch.bsum_congr (fun b hb => ?_) _
  rw [hpt2 a ha b hb, map_dAt L bad _ (hgap' b (by omega))]
  unfold mixQuot diffQuot
  simp only [hpt1 a ha (b + 1) (by omega), hpt1 a ha b (by omega), map_dAt L bad _ (hgap a (by omega))]
  rfl

/-! ### B-spline patches -/

/-- **C118**: the mixed second derivative of a B-spline patch.  `T` and `T2` bound the control points of
the derivative in `u` and of the mixed one, `δ` is the shortest support of the basis functions in `v`. -/
theorem C118_bspline_patch_uv (R : Rounding K) (hu1 : R.unit < 1) (bad : ι → K) (F : ℕ → ℕ → ℕ → ι → Fuse)
    (G : ℕ → ℕ → ι → Fuse) {r : BSplinePatch K (ι → K)} (hp : p.Valid m n (d + 1) (e + 1))
    (hr : p.init = ok r) (pu : p.perU = false) (pv : p.perV = false)
    (wu : FlWideOn R p.knotsU m (d + 1)) (wv : FlWideOn R p.knotsV n (e + 1)) {u v : K}
    (hu : BSplinePatch.InDom p.knotsU m (d + 1) u) (hv : BSplinePatch.InDom p.knotsV n (e + 1) v)
    {δ : K} (hδ : 0 < δ) (hgap : ∀ a, a + 1 < m → knot p.knotsU (a + 1) < knot p.knotsU (a + d + 2))
    (hgap' : ∀ b, b + 1 < n → δ ≤ knot p.knotsV (b + e + 2) - knot p.knotsV (b + 1)) :
    ∃ q x, bsplinePatchDerivUV R bad F G r u v = ok q ∧ r.derivUV bad u v = ok x ∧ ∀ i T T2,
      (∀ a, a + 1 < m → ∀ b < n, |diffQuot p.knotsU d (fun j => gridPoint p.grid n j b i) a| ≤ T) →
      (∀ a, a + 1 < m → ∀ b, b + 1 < n →
        |mixQuot p.knotsU p.knotsV d e (fun a b => gridPoint p.grid n a b i) a b| ≤ T2) →
      |q i - x i| ≤ duvErr R d e T T2 0 δ ∧ |x i| ≤ T2 := by
  have hrd := hp.ready hr
  rw [hp.init, ok.injEq] at hr
  subst hr
  obtain ⟨⟨δ₁, hδ₁, hg₁⟩, -⟩ := exists_relative (fun a => knot p.knotsU (a + d + 2) - knot p.knotsU (a + 1))
    m n (fun a ha => sub_pos.2 (hgap a ha))
  obtain ⟨q, eq, H⟩ := duv_patch_pert R hu1 bad F G hrd.toValid pu pv wu wv hu hv hδ₁ hδ hg₁ hgap'
  obtain ⟨x, ex, HX⟩ := duv_patch_exact bad hrd.toValid pu pv (FlWideOn.wide wu) (FlWideOn.wide wv) hu hv hgap
    (fun b hb => sub_pos.1 (lt_of_lt_of_le hδ (hgap' b hb)))
  refine ⟨q, x, eq, ex, fun i T T2 hT hT2 => ?_⟩
  obtain ⟨M₀, hM⟩ := fin_bound (fun a b => gridPoint p.grid n a b i) m n
  have h := H i 1 M₀ T T2 (fun a b => gridPoint p.grid n a b i) le_rfl
    (fun a ha b hb => hM a ha.le b hb.le) (fun a _ b _ => by simp [BSplinePatch.pts]) hT hT2
  have hx := HX (LinearMap.proj i)
  rw [LinearMap.proj_apply] at hx
  rw [hx]
  have g0 : gridNoise (d + 1) (1 : K) M₀ δ₁ = 0 := by simp [gridNoise]
  rw [g0] at h
  exact h

/-! ### NURBS patches -/

/-- The first derivative in `u` of the rounded homogeneous patch. -/
theorem nurbs_first_u (R : Rounding K) (hu1 : R.unit < 1) (F : ℕ → ℕ → ℕ → Option ι → Fuse)
    (G : ℕ → ℕ → Option ι → Fuse) {c : NURBSPatch K (ι → K)} (Sy : c.Sync)
    (hp : NValid c m n (d + 1) e) (pu : c.perU = false) (pv : c.perV = false)
    (wu : FlWideOn R c.knotsU m (d + 1)) (wv : FlWideOn R c.knotsV n e) {lo hi : K} (hlo : 0 < lo)
    (hwt : ∀ x ∈ c.weights, lo ≤ x ∧ x ≤ hi) {u v : K}
    (hu : BSplinePatch.InDom c.knotsU m (d + 1) u) (hv : BSplinePatch.InDom c.knotsV n e v)
    {δ : K} (hδ : 0 < δ)
    (hgap : ∀ j, j + 1 < m → δ ≤ knot c.knotsU (j + d + 2) - knot c.knotsU (j + 1))
    {h : BSplinePatch K (Option ι → K)} (hrd : h.Ready m n (d + 1) e) (i2 : h.knotsU = c.knotsU)
    (i3 : h.knotsV = c.knotsV) (i6 : h.perU = c.perU) (i7 : h.perV = c.perV) (i8 : h.sU = c.sU)
    (i9 : h.sV = c.sV) (hn : ∀ a b, h.pts n a b none = gridPoint c.weights n a b)
    (hs : ∀ a b i, h.pts n a b (some i) = R.rnd (gridPoint c.grid n a b i * gridPoint c.weights n a b)) :
    ∃ r D E, bsplinePatchDerivU R F G h u v = ok r ∧ c.hom.derivU u v = ok (D, E) ∧
      (∀ S, (∀ a, a + 1 < m → ∀ b < n, |diffQuot c.knotsU d (fun j => gridPoint c.weights n j b) a| ≤ S) →
        |E| ≤ S ∧ |r none - E| ≤ splineErr R d S (gridNoise (d + 1) (growth R ^ e) hi δ)) ∧
      ∀ i M T, (∀ x ∈ c.grid, |x i| ≤ M) →
        (∀ a, a + 1 < m → ∀ b < n, |diffQuot c.knotsU d (fun j => gridPoint c.weights n j b * gridPoint c.grid n j b i) a| ≤ T) →
        |D i| ≤ T ∧ |r (some i) - D i|
          ≤ splineErr R d T (gridNoise (d + 1) ((1 + R.unit) * growth R ^ e) (M * hi) δ) := by
  have hun := R.unit_nonneg
  have hrd' : c.hom.Ready m n (d + 1) e := (hp.hom Sy).ready Sy.init
  have hget : ∀ a b, homFun ι K (c.hom.pts n a b) none = gridPoint c.weights n a b := by
    intro a b; rw [nurbs_pts Sy]; rfl
  have hgets : ∀ a b i, homFun ι K (c.hom.pts n a b) (some i)
      = gridPoint c.weights n a b * gridPoint c.grid n a b i := by
    intro a b i; rw [nurbs_pts Sy]; rfl
  obtain ⟨k, r, z, hk, hr, hz, HD⟩ := patch_deriv_pert R hu1 F G (d := d) hp.u hp.v wu wv
    (fun a b => h.pts n a b) (fun a b => homFun ι K (c.hom.pts n a b)) hu hv
  rw [image_arr_bsum e m n c.knotsV c.knotsU (fun a b => c.hom.pts n a b),
    BSpline.evaluateDerivative_map, map_eq_ok] at hz
  obtain ⟨y, hy, rfl⟩ := hz
  refine ⟨r, y.1, y.2, ?_, ?_, fun S hS => ?_, fun i M T hM hT => ?_⟩
  · unfold bsplinePatchDerivU bsplineIsoU
    rw [hrd.toValid.numU, ok_bind, hrd.isoV, tab_eq (g := k)]
    · rw [ok_bind, pure_eq, ok_bind, i2, i6, pu, i8, hr]
    · intro j hj
      rw [rd_arr hj, ok_bind, ← hk j]
      unfold BSplinePatch.rowV
      rw [i3, i7, pv, i9]
  · unfold BSplinePatch.derivU
    rw [hrd'.isoCurveU (v := v) (v' := v) (by rw [Sy.knotsV]; exact FlWideOn.wide wv)
      (by simp [BSplinePatch.wrapOn, Sy.perV, pv]) (by rw [Sy.knotsV]; exact hv), Sy.knotsU,
      Sy.knotsV, Sy.perU, pu, Sy.sU, ok_bind]
    exact hy
  · obtain ⟨dn, bn⟩ := HD none 1 hi S δ hδ le_rfl
      (fun a ha b hb => by rw [hget]; exact weights_le hp hlo hwt a ha b hb)
      (fun a _ b _ => by rw [hget, hn]; simp)
      (fun a ha b hb => by
        rw [hget, hget]
        exact diffQuot_scale (a := fun j => gridPoint c.weights n j b) (lt_of_lt_of_le hδ (hgap a ha)) (hS a ha b hb)) hgap
    rw [one_mul] at dn
    exact ⟨bn, dn⟩
  · obtain ⟨ds, bs⟩ := HD (some i) (1 + R.unit) (M * hi) T δ hδ (by linarith)
      (fun a ha b hb => by rw [hgets]; exact products_le hp hlo hwt hM a ha b hb)
      (fun a ha b hb => by
        rw [hgets, hs, add_sub_cancel_left, mul_comm (gridPoint c.weights _ _ _)]
        refine (R.near _).trans (mul_le_mul_of_nonneg_left ?_ hun)
        rw [mul_comm]
        exact products_le hp hlo hwt hM a ha b hb)
      (fun a ha b hb => by
        rw [hgets, hgets]
        exact diffQuot_scale (a := fun j => gridPoint c.weights n j b * gridPoint c.grid n j b i) (lt_of_lt_of_le hδ (hgap a ha)) (hT a ha b hb)) hgap
    exact ⟨bs, ds⟩

/-- The first derivative in `v` of the rounded homogeneous patch. -/
theorem nurbs_first_v (R : Rounding K) (hu1 : R.unit < 1) (F : ℕ → ℕ → ℕ → Option ι → Fuse)
    (G : ℕ → ℕ → Option ι → Fuse) {c : NURBSPatch K (ι → K)} (Sy : c.Sync)
    (hp : NValid c m n e (d + 1)) (pu : c.perU = false) (pv : c.perV = false)
    (wu : FlWideOn R c.knotsU m e) (wv : FlWideOn R c.knotsV n (d + 1)) {lo hi : K} (hlo : 0 < lo)
    (hwt : ∀ x ∈ c.weights, lo ≤ x ∧ x ≤ hi) {u v : K}
    (hu : BSplinePatch.InDom c.knotsU m e u) (hv : BSplinePatch.InDom c.knotsV n (d + 1) v)
    {δ : K} (hδ : 0 < δ)
    (hgap : ∀ j, j + 1 < n → δ ≤ knot c.knotsV (j + d + 2) - knot c.knotsV (j + 1))
    {h : BSplinePatch K (Option ι → K)} (hrd : h.Ready m n e (d + 1)) (i2 : h.knotsU = c.knotsU)
    (i3 : h.knotsV = c.knotsV) (i6 : h.perU = c.perU) (i7 : h.perV = c.perV) (i8 : h.sU = c.sU)
    (i9 : h.sV = c.sV) (hn : ∀ a b, h.pts n a b none = gridPoint c.weights n a b)
    (hs : ∀ a b i, h.pts n a b (some i) = R.rnd (gridPoint c.grid n a b i * gridPoint c.weights n a b)) :
    ∃ r D E, bsplinePatchDerivV R F G h u v = ok r ∧ c.hom.derivV u v = ok (D, E) ∧
      (∀ S, (∀ a, a + 1 < n → ∀ b < m, |diffQuot c.knotsV d (fun j => gridPoint c.weights n b j) a| ≤ S) →
        |E| ≤ S ∧ |r none - E| ≤ splineErr R d S (gridNoise (d + 1) (growth R ^ e) hi δ)) ∧
      ∀ i M T, (∀ x ∈ c.grid, |x i| ≤ M) →
        (∀ a, a + 1 < n → ∀ b < m, |diffQuot c.knotsV d (fun j => gridPoint c.weights n b j * gridPoint c.grid n b j i) a| ≤ T) →
        |D i| ≤ T ∧ |r (some i) - D i|
          ≤ splineErr R d T (gridNoise (d + 1) ((1 + R.unit) * growth R ^ e) (M * hi) δ) := by
  have hun := R.unit_nonneg
  have hrd' : c.hom.Ready m n e (d + 1) := (hp.hom Sy).ready Sy.init
  have hget : ∀ a b, homFun ι K (c.hom.pts n a b) none = gridPoint c.weights n a b := by
    intro a b; rw [nurbs_pts Sy]; rfl
  have hgets : ∀ a b i, homFun ι K (c.hom.pts n a b) (some i)
      = gridPoint c.weights n a b * gridPoint c.grid n a b i := by
    intro a b i; rw [nurbs_pts Sy]; rfl
  obtain ⟨k, r, z, hk, hr, hz, HD⟩ := patch_deriv_pert R hu1 F G (d := d) hp.v hp.u wv wu
    (fun a b => h.pts n b a) (fun a b => homFun ι K (c.hom.pts n b a)) hv hu
  rw [image_arr_bsum e n m c.knotsU c.knotsV (fun a b => c.hom.pts n b a),
    BSpline.evaluateDerivative_map, map_eq_ok] at hz
  obtain ⟨y, hy, rfl⟩ := hz
  refine ⟨r, y.1, y.2, ?_, ?_, fun S hS => ?_, fun i M T hM hT => ?_⟩
  · unfold bsplinePatchDerivV bsplineIsoV
    rw [hrd.toValid.numV, ok_bind, hrd.isoU, tab_eq (g := k)]
    · rw [ok_bind, pure_eq, ok_bind, i3, i7, pv, i9, hr]
    · intro j hj
      rw [rd_arr hj, ok_bind, ← hk j]
      unfold BSplinePatch.colU
      rw [i2, i6, pu, i8]
  · unfold BSplinePatch.derivV
    rw [hrd'.isoCurveV (u := u) (u' := u) (by rw [Sy.knotsU]; exact FlWideOn.wide wu)
      (by simp [BSplinePatch.wrapOn, Sy.perU, pu]) (by rw [Sy.knotsU]; exact hu), Sy.knotsV,
      Sy.knotsU, Sy.perV, pv, Sy.sV, ok_bind]
    exact hy
  · obtain ⟨dn, bn⟩ := HD none 1 hi S δ hδ le_rfl
      (fun a ha b hb => by rw [hget]; exact weights_le hp hlo hwt b hb a ha)
      (fun a _ b _ => by rw [hget, hn]; simp)
      (fun a ha b hb => by
        rw [hget, hget]
        exact diffQuot_scale (a := fun j => gridPoint c.weights n b j) (lt_of_lt_of_le hδ (hgap a ha)) (hS a ha b hb)) hgap
    rw [one_mul] at dn
    exact ⟨bn, dn⟩
  · obtain ⟨ds, bs⟩ := HD (some i) (1 + R.unit) (M * hi) T δ hδ (by linarith)
      (fun a ha b hb => by rw [hgets]; exact products_le hp hlo hwt hM b hb a ha)
      (fun a ha b hb => by
        rw [hgets, hs, add_sub_cancel_left, mul_comm (gridPoint c.weights _ _ _)]
        refine (R.near _).trans (mul_le_mul_of_nonneg_left ?_ hun)
        rw [mul_comm]
        exact products_le hp hlo hwt hM b hb a ha)
      (fun a ha b hb => by
        rw [hgets, hgets]
        exact diffQuot_scale (a := fun j => gridPoint c.weights n b j * gridPoint c.grid n b j i) (lt_of_lt_of_le hδ (hgap a ha)) (hT a ha b hb)) hgap
    exact ⟨bs, ds⟩

/-- **C118**: the mixed second derivative of a NURBS patch with weights between `lo` and `hi`,
`0 < lo`, where the weight stays above the threshold `tol`.  `M` bounds the control points; `S`, `S'`
and `S2` bound the control points of the exact derivatives of the weight in `u`, in `v` and in both,
`T`, `T'` and `T2` those of the numerator; `δ` and `δ'` are the shortest supports of the basis functions
of the derivatives in each direction. -/
theorem C118_nurbs_patch_uv (R : Rounding K) (hu1 : R.unit < 1) (tol : K) (bad : (ι → K) × K)
    (bad' : Option ι → K) (a b b' k : Fuses ι) (l l' f g h : ι → Bool) {c : NURBSPatch K (ι → K)}
    (hinit : c.init = ok c) (hp : NValid c m n (d + 1) (e + 1)) (pu : c.perU = false)
    (pv : c.perV = false) (wu : FlWideOn R c.knotsU m (d + 1)) (wv : FlWideOn R c.knotsV n (e + 1))
    {lo hi : K} (hlo : 0 < lo) (hwt : ∀ x ∈ c.weights, lo ≤ x ∧ x ≤ hi)
    (hcond : (growth R ^ (d + 1 + (e + 1)) - 1) * (hi / lo) < 1) (htol : tol < (1 - (growth R ^ (d + 1 + (e + 1)) - 1) * (hi / lo)) * lo) {u v : K}
    (hu : BSplinePatch.InDom c.knotsU m (d + 1) u) (hv : BSplinePatch.InDom c.knotsV n (e + 1) v)
    {S S' S2 δ δ' : K} (hδ : 0 < δ) (hδ' : 0 < δ')
    (hgap : ∀ a, a + 1 < m → δ ≤ knot c.knotsU (a + d + 2) - knot c.knotsU (a + 1))
    (hgap' : ∀ b, b + 1 < n → δ' ≤ knot c.knotsV (b + e + 2) - knot c.knotsV (b + 1))
    (hS : ∀ a, a + 1 < m → ∀ b < n, |diffQuot c.knotsU d (fun j => gridPoint c.weights n j b) a| ≤ S)
    (hS' : ∀ b, b + 1 < n → ∀ a < m, |diffQuot c.knotsV e (fun j => gridPoint c.weights n a j) b| ≤ S')
    (hS2 : ∀ a, a + 1 < m → ∀ b, b + 1 < n →
      |mixQuot c.knotsU c.knotsV d e (gridPoint c.weights n) a b| ≤ S2) :
    ∃ q r, nurbsPatchDerivUV R tol bad' a b b' k l l' f g h (nurbsData c) c.weights u v = ok q ∧
      c.derivUV tol bad u v = ok r ∧ ∀ i M T T' T2, (∀ x ∈ c.grid, |x i| ≤ M) →
        (∀ a, a + 1 < m → ∀ b < n,
          |diffQuot c.knotsU d (fun j => gridPoint c.weights n j b * gridPoint c.grid n j b i) a| ≤ T) →
        (∀ b, b + 1 < n → ∀ a < m,
          |diffQuot c.knotsV e (fun j => gridPoint c.weights n a j * gridPoint c.grid n a j i) b| ≤ T') →
        (∀ a, a + 1 < m → ∀ b, b + 1 < n → |mixQuot c.knotsU c.knotsV d e
          (fun a b => gridPoint c.weights n a b * gridPoint c.grid n a b i) a b| ≤ T2) →
        |q i - r i| ≤ mixedBound R ((growth R ^ (d + 1 + (e + 1)) - 1) * (hi / lo)) M
          (((1 + R.unit) * growth R ^ (d + 1 + (e + 1)) - 1) * (hi / lo) * M) (T / lo + M * (S / lo))
          (innerBound R ((growth R ^ (d + 1 + (e + 1)) - 1) * (hi / lo)) M
            (((1 + R.unit) * growth R ^ (d + 1 + (e + 1)) - 1) * (hi / lo) * M) (T / lo)
            (splineErr R d T (gridNoise (d + 1) ((1 + R.unit) * growth R ^ (e + 1)) (M * hi) δ) / lo)
            (S / lo) (splineErr R d S (gridNoise (d + 1) (growth R ^ (e + 1)) hi δ) / lo))
          (S / lo) (splineErr R d S (gridNoise (d + 1) (growth R ^ (e + 1)) hi δ) / lo)
          (T' / lo + M * (S' / lo))
          (innerBound R ((growth R ^ (d + 1 + (e + 1)) - 1) * (hi / lo)) M
            (((1 + R.unit) * growth R ^ (d + 1 + (e + 1)) - 1) * (hi / lo) * M) (T' / lo)
            (splineErr R e T' (gridNoise (e + 1) ((1 + R.unit) * growth R ^ (d + 1)) (M * hi) δ') / lo)
            (S' / lo) (splineErr R e S' (gridNoise (e + 1) (growth R ^ (d + 1)) hi δ') / lo))
          (S' / lo) (splineErr R e S' (gridNoise (e + 1) (growth R ^ (d + 1)) hi δ') / lo)
          (T2 / lo) (duvErr R d e T T2 (gridNoise (d + 1) (1 + R.unit) (M * hi) δ) δ' / lo)
          (S2 / lo) (duvErr R d e S S2 0 δ' / lo) := by
  have hun := R.unit_nonneg
  have Sy := (sync_of_init hinit).1
  obtain ⟨w, eh, hrd, i2, i3, i6, i7, i8, i9, hn, hs⟩ := nurbs_patch_hom R Sy hp
  obtain ⟨x, ex, hWlo, en, HN⟩ := nurbs_patch_value R hu1 a.iso a.curve hp pu pv wu wv hlo hwt hu hv hrd
    i2 i3 i6 i7 hn hs
  have exx := nurbs_patch_exact Sy hp pu pv (FlWideOn.wide wu) (FlWideOn.wide wv) hu hv
  obtain ⟨du, D, E, hdu, edu, HE, HD⟩ := nurbs_first_u R hu1 b.iso b.curve Sy hp pu pv wu wv hlo hwt
    hu hv hδ hgap hrd i2 i3 i6 i7 i8 i9 hn hs
  obtain ⟨dv, D', E', hdv, edv, HE', HD'⟩ := nurbs_first_v R hu1 b'.iso b'.curve Sy hp pu pv wu wv hlo hwt
    hu hv hδ' hgap' hrd i2 i3 i6 i7 i8 i9 hn hs
  obtain ⟨dd, hdd, HP⟩ := duv_patch_pert R hu1 bad' k.iso k.curve hrd.toValid (by rw [i6, pu])
    (by rw [i7, pv]) (by rw [i2]; exact wu) (by rw [i3]; exact wv) (by rw [i2]; exact hu)
    (by rw [i3]; exact hv) hδ hδ' (by rw [i2]; exact hgap) (by rw [i3]; exact hgap')
  obtain ⟨y, edd, HX⟩ := duv_patch_exact bad (hp.hom Sy) (by rw [Sy.perU, pu]) (by rw [Sy.perV, pv])
    (by rw [Sy.knotsU]; exact FlWideOn.wide wu) (by rw [Sy.knotsV]; exact FlWideOn.wide wv)
    (by rw [Sy.knotsU]; exact hu) (by rw [Sy.knotsV]; exact hv)
    (by rw [Sy.knotsU]; exact fun a ha => sub_pos.1 (lt_of_lt_of_le hδ (hgap a ha)))
    (by rw [Sy.knotsV]; exact fun b hb => sub_pos.1 (lt_of_lt_of_le hδ' (hgap' b hb)))
  rw [Sy.knotsU, Sy.knotsV] at HX
  rw [i2, i3] at HP
  obtain ⟨D2, E2⟩ := y
  have xn : E2 = bsum2 d e (BSplinePatch.innerKnots c.knotsU) (BSplinePatch.innerKnots c.knotsV) (m - 1) (n - 1)
      (mixQuot c.knotsU c.knotsV d e (gridPoint c.weights n)) u v := by
    refine (HX (LinearMap.snd K (ι → K) K)).trans ?_
    congr 2
    funext a b
    rw [nurbs_pts Sy]
    rfl
  have xs : ∀ i, D2 i = bsum2 d e (BSplinePatch.innerKnots c.knotsU) (BSplinePatch.innerKnots c.knotsV)
      (m - 1) (n - 1) (mixQuot c.knotsU c.knotsV d e
        (fun a b => gridPoint c.weights n a b * gridPoint c.grid n a b i)) u v := by
    intro i
    refine (HX ((LinearMap.proj i).comp (LinearMap.fst K (ι → K) K))).trans ?_
    congr 2
    funext a b
    rw [nurbs_pts Sy]
    rfl
  obtain ⟨dE2, bE2⟩ := HP none 1 hi S S2 (gridPoint c.weights n) le_rfl (weights_le hp hlo hwt)
    (fun a _ b _ => by rw [hn]; simp) hS hS2
  rw [← xn] at dE2 bE2
  rw [show gridNoise (d + 1) (1 : K) hi δ = 0 by simp [gridNoise]] at dE2
  set W := bsum2 (d + 1) (e + 1) c.knotsU c.knotsV m n (gridPoint c.weights n) u v with hW
  set N : ι → K := fun i => bsum2 (d + 1) (e + 1) c.knotsU c.knotsV m n
    (fun a b => gridPoint c.weights n a b * gridPoint c.grid n a b i) u v with hN
  set β := (growth R ^ (d + 1 + (e + 1)) - 1) * (hi / lo) with hβ
  have hWpos : 0 < W := lt_of_lt_of_le hlo hWlo
  have β0 : 0 ≤ β := by
    have := (abs_nonneg _).trans en
    exact nonneg_of_mul_nonneg_left this hWpos
  have t1 : tol < (1 - β) * W := lt_of_lt_of_le htol (mul_le_mul_of_nonneg_left hWlo (by linarith))
  have t2 : tol < W := by
    refine lt_of_lt_of_le t1 ?_
    have := mul_nonneg β0 hWpos.le
    linarith
  obtain ⟨bE, dE⟩ := HE S hS
  obtain ⟨bE', dE'⟩ := HE' S' hS'
  have scale : ∀ {y z : K}, |y| ≤ z → |y| ≤ z / lo * W := fun h => scale_lo hlo hWlo h
  obtain ⟨q, eq, hq⟩ := mixedQuotient_err R f g h (su := innerDeriv R l x du) (sv := innerDeriv R l' x dv)
    (dd := dd) (tol := tol) hWpos en
    hcond t1 (scale bE) (scale dE) (scale bE') (scale dE') (scale bE2) (scale dE2)
  refine ⟨q, W⁻¹ • (D2 - E2 • (W⁻¹ • N) - E • (W⁻¹ • (D' - W⁻¹ • (E' • N)))
    - E' • (W⁻¹ • (D - W⁻¹ • (E • N)))), ?_, ?_, fun i M T T' T2 hM hT hT' hT2 => ?_⟩
  · unfold nurbsPatchDerivUV
    rw [eh, ok_bind, ex, ok_bind, hdu, ok_bind, hdv, ok_bind, hdd, ok_bind, eq]
  · unfold NURBSPatch.derivUV
    rw [Sy.validate, ok_bind, exx, ok_bind, edu, ok_bind, edv, ok_bind, edd, ok_bind]
    unfold quotMixed quot0 quot1
    rw [if_neg (not_le.2 t2), assert_true hWpos.ne']
    rfl
  · obtain ⟨N1, N2⟩ := HN i M hM
    obtain ⟨bD, dD⟩ := HD i M T hM hT
    obtain ⟨bD', dD'⟩ := HD' i M T' hM hT'
    obtain ⟨dD2, bD2⟩ := HP (some i) (1 + R.unit) (M * hi) T T2
      (fun a b => gridPoint c.weights n a b * gridPoint c.grid n a b i) (by linarith)
      (products_le hp hlo hwt hM) (fun a ha b hb => by
        rw [hs, add_sub_cancel_left, mul_comm (gridPoint c.weights _ _ _)]
        refine (R.near _).trans (mul_le_mul_of_nonneg_left ?_ hun)
        rw [mul_comm]
        exact products_le hp hlo hwt hM a ha b hb) hT hT2
    rw [← xs] at dD2 bD2
    have hU := quot_abs hWpos (scale bE) (scale bD) N1
    have hV := quot_abs hWpos (scale bE') (scale bD') N1
    have h1 := innerDeriv_err R l hWpos en hcond (scale bE) (scale dE) N1 N2 (scale bD) (scale dD)
    have h2 := innerDeriv_err R l' hWpos en hcond (scale bE') (scale dE') N1 N2 (scale bD') (scale dD')
    exact hq i (N i) _ _ (D2 i) M _ _ _ _ _ (T2 / lo) _ N1 N2 hU h1 hV h2 (scale bD2) (scale dD2)

/-! ### Exact arithmetic -/

/-- Rounding without error is the exact model of the mixed derivative of a NURBS patch. -/
theorem C118_exact_arithmetic (tol : K) (bad : (ι → K) × K) (bad' : Option ι → K) (a b b' k : Fuses ι)
    (l l' f g h : ι → Bool) {c : NURBSPatch K (ι → K)} (hinit : c.init = ok c)
    (hp : NValid c m n (d + 1) (e + 1)) (pu : c.perU = false) (pv : c.perV = false)
    (wu : BSplinePatch.WideOn c.knotsU m (d + 1)) (wv : BSplinePatch.WideOn c.knotsV n (e + 1)) {lo : K}
    (hlo : 0 < lo) (hwt : ∀ x ∈ c.weights, lo ≤ x) (htol : tol < lo)
    (hgap : ∀ a, a + 1 < m → knot c.knotsU (a + 1) < knot c.knotsU (a + d + 2))
    (hgap' : ∀ b, b + 1 < n → knot c.knotsV (b + 1) < knot c.knotsV (b + e + 2)) {u v : K}
    (hu : BSplinePatch.InDom c.knotsU m (d + 1) u) (hv : BSplinePatch.InDom c.knotsV n (e + 1) v) :
    nurbsPatchDerivUV Rounding.exact tol bad' a b b' k l l' f g h (nurbsData c) c.weights u v
      = c.derivUV tol bad u v := by
  have h0 : (Rounding.exact : Rounding K).unit = 0 := rfl
  have hg : growth (Rounding.exact : Rounding K) = 1 := by unfold growth; rw [h0]; norm_num
  have hg' : diffGrowth (Rounding.exact : Rounding K) = 1 := by unfold diffGrowth; rw [h0]; norm_num
  obtain ⟨hi, hhi⟩ := list_bound id c.weights
  have hwb : ∀ x ∈ c.weights, lo ≤ x ∧ x ≤ hi := fun x hx =>
    ⟨hwt x hx, (le_abs_self _).trans (hhi x hx)⟩
  obtain ⟨⟨δ, hδ, hg₁⟩, -⟩ := exists_relative (fun a => knot c.knotsU (a + d + 2) - knot c.knotsU (a + 1))
    m n (fun a ha => sub_pos.2 (hgap a ha))
  obtain ⟨⟨δ', hδ', hg₂⟩, -⟩ := exists_relative (fun a => knot c.knotsV (a + e + 2) - knot c.knotsV (a + 1))
    n m (fun a ha => sub_pos.2 (hgap' a ha))
  obtain ⟨S, hS⟩ := fin_bound (fun a b => diffQuot c.knotsU d (fun j => gridPoint c.weights n j b) a) m n
  obtain ⟨S', hS'⟩ := fin_bound (fun b a => diffQuot c.knotsV e (fun j => gridPoint c.weights n a j) b) n m
  obtain ⟨S2, hS2⟩ := fin_bound (mixQuot c.knotsU c.knotsV d e (gridPoint c.weights n)) m n
  obtain ⟨q, y, hq, hy, H⟩ := C118_nurbs_patch_uv Rounding.exact (by rw [h0]; exact one_pos) tol bad bad'
    a b b' k l l' f g h hinit hp pu pv (fun i a b d => wu i a b d) (fun i a b d => wv i a b d) hlo hwb
    (by rw [hg]; simp) (by rw [hg]; simpa using htol) hu hv hδ hδ' hg₁ hg₂
    (fun a ha b hb => hS a (by omega) b hb.le) (fun a ha b hb => hS' a (by omega) b hb.le)
    (fun a ha b hb => hS2 a (by omega) b (by omega))
  rw [hq, hy]
  congr 1
  funext i
  obtain ⟨M, hM⟩ := list_bound (fun x : ι → K => x i) c.grid
  obtain ⟨T, hT⟩ := fin_bound (fun a b => diffQuot c.knotsU d
    (fun j => gridPoint c.weights n j b * gridPoint c.grid n j b i) a) m n
  obtain ⟨T', hT'⟩ := fin_bound (fun b a => diffQuot c.knotsV e
    (fun j => gridPoint c.weights n a j * gridPoint c.grid n a j i) b) n m
  obtain ⟨T2, hT2⟩ := fin_bound (mixQuot c.knotsU c.knotsV d e
    (fun a b => gridPoint c.weights n a b * gridPoint c.grid n a b i)) m n
  have := H i M T T' T2 hM (fun a ha b hb => hT a (by omega) b hb.le)
    (fun a ha b hb => hT' a (by omega) b hb.le) (fun a ha b hb => hT2 a (by omega) b (by omega))
  simp [mixedBound, innerBound, duvErr, mixPtErr, quotErr, splineErr, gridNoise, h0, hg, hg'] at this
  linarith

end General

/-! ### Concrete cases -/

section Examples

/-- The hypotheses of `C118_nurbs_patch_uv` in double precision, for the patch of `C117` once
initialised. -/
example : (∃ c, someQuadGrid.init = ok c ∧ c.init = ok c ∧ NValid c 4 3 (1 + 1) (1 + 1) ∧
      c.perU = false ∧ c.perV = false ∧ c.knotsU = someQuadGrid.knotsU ∧ c.knotsV = someQuadGrid.knotsV ∧
      c.weights = someQuadGrid.weights ∧ c.grid = someQuadGrid.grid) ∧
    FlWideOn double someQuadGrid.knotsU 4 2 ∧ FlWideOn double someQuadGrid.knotsV 3 2 ∧
    (∀ x ∈ someQuadGrid.weights, tenth ≤ x ∧ x ≤ 2) ∧
    (growth double ^ (1 + 1 + (1 + 1)) - 1) * (2 / tenth) < 1 ∧
    1 / 2 ^ 52 < (1 - (growth double ^ (1 + 1 + (1 + 1)) - 1) * (2 / tenth)) * tenth ∧
    BSplinePatch.InDom someQuadGrid.knotsU 4 2 1 ∧ BSplinePatch.InDom someQuadGrid.knotsV 3 2 1 ∧
    (∀ a, a + 1 < 4 → 1 ≤ knot someQuadGrid.knotsU (a + 1 + 2) - knot someQuadGrid.knotsU (a + 1)) ∧
    (∀ b, b + 1 < 3 → 1 ≤ knot someQuadGrid.knotsV (b + 1 + 2) - knot someQuadGrid.knotsV (b + 1)) ∧
    (∀ a, a + 1 < 4 → ∀ b < 3,
      |diffQuot someQuadGrid.knotsU 1 (fun j => gridPoint someQuadGrid.weights 3 j b) a| ≤ 4) ∧
    (∀ b, b + 1 < 3 → ∀ a < 4,
      |diffQuot someQuadGrid.knotsV 1 (fun j => gridPoint someQuadGrid.weights 3 a j) b| ≤ 4) ∧
    (∀ a, a + 1 < 4 → ∀ b, b + 1 < 3 → |mixQuot someQuadGrid.knotsU someQuadGrid.knotsV 1 1
      (gridPoint someQuadGrid.weights 3) a b| ≤ 8) := by
  refine ⟨?_, ?_, ?_, by decide +kernel, by decide +kernel, by decide +kernel,
    ⟨by decide +kernel, by decide +kernel,
      Or.inl (by show knot someQuadGrid.knotsU 2 < knot someQuadGrid.knotsU 3; decide +kernel)⟩,
    ⟨by decide +kernel, by decide +kernel,
      Or.inl (by show knot someQuadGrid.knotsV 2 < knot someQuadGrid.knotsV 3; decide +kernel)⟩,
    ?_, ?_, ?_, ?_, ?_⟩
  · obtain ⟨c, e, e', hc⟩ := C63_nurbs_init someQuadGrid_valid
    refine ⟨c, e, e', ?_⟩
    rw [hc]
    exact ⟨⟨someQuadGrid_valid.u, someQuadGrid_valid.v, rfl, rfl⟩, rfl, rfl, rfl, rfl, rfl, rfl⟩
  · intro i h1 h2 _
    interval_cases i <;> decide +kernel
  · intro i h1 h2 _
    interval_cases i; decide +kernel
  · intro a ha
    have : a < 3 := by omega
    interval_cases a <;> decide +kernel
  · intro a ha
    have : a < 2 := by omega
    interval_cases a <;> decide +kernel
  · intro a ha b hb
    have : a < 3 := by omega
    interval_cases a <;> interval_cases b <;> decide +kernel
  · intro a ha b hb
    have : a < 2 := by omega
    interval_cases a <;> interval_cases b <;> decide +kernel
  · intro a ha b hb
    have : a < 3 := by omega
    have : b < 2 := by omega
    interval_cases a <;> interval_cases b <;> decide +kernel

/-- Rounding shows: in double precision the mixed derivative is not the exact one, although it is
close. -/
example : (nurbsPatchDerivUV double (1 / 2 ^ 52) 0 ⟨fun _ _ _ _ => .none, fun _ _ _ => .none⟩
      ⟨fun _ _ _ _ => .none, fun _ _ _ => .none⟩ ⟨fun _ _ _ _ => .none, fun _ _ _ => .none⟩
      ⟨fun _ _ _ _ => .none, fun _ _ _ => .none⟩ (fun _ => false) (fun _ => false) (fun _ => false)
      (fun _ => false) (fun _ => false) (nurbsData someQuadGrid) someQuadGrid.weights
      1 (1 / 3) >>= fun q => ok (q 0))
    ≠ (someQuadGrid.init >>= fun c => c.derivUV (1 / 2 ^ 52) 0 (1 : ℚ) (1 / 3) >>= fun q => ok (q 0)) := by
  decide +kernel

end Examples

end NS.Fl
