import Verif.Model.FloatPatch
import Verif.Proof.FloatEval
import Verif.Proof.BSplinePatch
import Verif.Spec.RationalPatch

/-! # Rounding errors along one direction, from perturbed control points -/

set_option linter.unusedSectionVars false

namespace NS.Fl

open Outcome Finset Spec

variable {K ι : Type} [Field K] [LinearOrder K] [IsStrictOrderedRing K] [FloorRing K]

/-! ### Bézier -/

/-- `Σ B_k(t) A_k`. -/
def bern (n : ℕ) (A : ℕ → K) (t : K) : K := ∑ k ∈ range (n + 1), bernstein n k t * A k

theorem bern_congr {n : ℕ} {A B : ℕ → K} (h : ∀ k ≤ n, A k = B k) (t : K) :
    bern n A t = bern n B t :=
  sum_congr rfl fun k hk => by rw [h k (by have := mem_range.1 hk; omega)]

theorem dcv_const (n : ℕ) (A : ℕ → K) (t : K) (i : ι) :
    Bezier.dcv (V := ι → K) (fun _ => t) (fun j _ => A j) n n i = bern n A t := by
  have e : ∀ r j, Bezier.dcv (V := ι → K) (fun _ => t) (fun j _ => A j) r j i
      = Bezier.dcv (V := K) (fun _ => t) A r j := by
    intro r
    induction r with
    | zero => intro j; rfl
    | succ r ih => intro j; simp only [Bezier.dcv, Pi.add_apply, Pi.smul_apply, ih]
  rw [e, Bezier.dcv_diag, bern]
  simp [umb_lin_pow]

/-- Evaluating rounded Bézier curves whose control points are already perturbed. -/
theorem bezier_axis (R : Rounding K) (F : ℕ → ℕ → ι → Fuse) (n : ℕ) (Q : ℕ → ι → K) (per : Bool)
    {t t' : K} (ht : bezierWrap R per t = ok t') (h0 : 0 ≤ t') (h1 : t' ≤ 1) :
    ∃ q, bezierEvaluate R F { ctrl := arr (n + 1) Q, periodic := per } t = ok q ∧
      ∀ i g (A B : ℕ → K), 1 ≤ g → (∀ j ≤ n, |A j| ≤ B j) → (∀ j ≤ n, |Q j i - A j| ≤ (g - 1) * B j) →
        |q i - bern n A t'| ≤ (g * (1 + R.unit) ^ (3 * n) - 1) * bern n B t' ∧
          |bern n A t'| ≤ bern n B t' := by
  refine ⟨_, bezierEvaluate_arr R F n Q per ht, fun i g A B hg hA hQ => ?_⟩
  set Q' : ℕ → ι → K := fun j => if j ≤ n then Q j else 0
  set A' : ℕ → K := fun j => if j ≤ n then A j else 0
  set B' : ℕ → K := fun j => if j ≤ n then B j else 0
  have h := tri_err R F t' (fun j _ => A' j) Q' B' g hg i
    (fun j => by simp only [A', B']; split_ifs with hj; exacts [hA j hj, by simp])
    (fun j => by simp only [A', B', Q']; split_ifs with hj; exacts [hQ j hj, by simp]) n n
  rw [dcv_const, mag_eq _ _ _ _ _ le_rfl, abs_of_nonneg h0,
    abs_of_nonneg (by linarith : 0 ≤ 1 - t')] at h
  have e : ∑ k ∈ range (n + 1), (n.choose k : K) * t' ^ k * (1 - t') ^ (n - k) * B' (n - n + k)
      = bern n B t' := by
    refine sum_congr rfl fun k hk => ?_
    have := mem_range.1 hk
    rw [bernstein, Nat.sub_self, zero_add]
    simp only [B', if_pos (by omega : k ≤ n)]
  rw [e, bern_congr (B := A) (fun k hk => by simp only [A', if_pos hk]),
    ← tri_congr _ Q Q' n n (fun j hj => by simp only [Q', if_pos hj])] at h
  exact h

/-! ### B-splines -/

/-- Error of the rounded de Boor scheme with perturbed start values. -/
theorem triB_err_pert (R : Rounding K) (hu1 : R.unit < 1) (F : ℕ → ℕ → ι → Fuse) (p : ℕ) (v : ℕ → K)
    (t : K) (hv : ∀ i j, 1 ≤ i → i ≤ j → j ≤ 2 * p → v i ≤ v j) (h1 : v p ≤ t) (h2 : t ≤ v (p + 1))
    (hw : R.rnd (BSpline.tiny K) < R.rnd (v (p + 1) - v p)) (P Q : ℕ → ι → K) (M g : K) (hg : 1 ≤ g)
    (i : ι) (hM : ∀ j ≤ p, |P j i| ≤ M) (hQ : ∀ j ≤ p, |Q j i - P j i| ≤ (g - 1) * M) (r : ℕ) :
    r ≤ p → ∀ j, r ≤ j → j ≤ p →
    |tri (stepB R F p v t) Q r j i - dB p v (fun _ => t) P r j i|
        ≤ (g * growth R ^ r - 1) * M ∧
      |dB p v (fun _ => t) P r j i| ≤ M := by
  have hM0 : 0 ≤ M := le_trans (abs_nonneg _) (hM 0 (Nat.zero_le _))
  have hG := one_le_growth R hu1
  have hu := R.unit_nonneg
  induction r with
  | zero => intro _ j _ hj; simpa [tri, dB] using ⟨hQ j hj, hM j hj⟩
  | succ r ih =>
    intro hr j hj1 hj2
    obtain ⟨x1, x2⟩ := ih (by omega) (j - 1) (by omega) (by omega)
    obtain ⟨y1, y2⟩ := ih (by omega) j (by omega) hj2
    have b1 : v j ≤ t := le_trans (hv j p (by omega) hj2 (by omega)) h1
    have b2 : t ≤ v (p + j - r) := le_trans h2 (hv (p + 1) (p + j - r) (by omega) (by omega)
      (by omega))
    have hww : R.rnd (BSpline.tiny K) < R.rnd (v (p + j - r) - v j) := by
      refine lt_of_lt_of_le hw (R.mono _ _ ?_)
      have := hv j p (by omega) hj2 (by omega)
      have := hv (p + 1) (p + j - r) (by omega) (by omega) (by omega)
      linarith
    have hpos : 0 < v (p + j - r) - v j := by
      by_contra hc
      push Not at hc
      have ht : 0 ≤ BSpline.tiny K := by unfold BSpline.tiny; positivity
      exact absurd hww (not_lt.2 (R.mono _ _ (le_trans hc ht)))
    have q0 : 0 ≤ (t - v j) / (v (p + j - r) - v j) := div_nonneg (by linarith) hpos.le
    have q1 : (t - v j) / (v (p + j - r) - v j) ≤ 1 := (div_le_one hpos).2 (by linarith)
    obtain ⟨c0, c1⟩ := coef_mem R b1 b2
    have hE : 0 ≤ (1 + R.unit) ^ 2 / (1 - R.unit) - 1 := by
      have h1u : 0 < 1 - R.unit := by linarith
      rw [sub_nonneg, le_div_iff₀ h1u]; nlinarith
    have hgr : 1 ≤ g * growth R ^ r := by
      have := one_le_pow₀ hG (n := r)
      nlinarith
    constructor
    · have key := blend_err R (F (r + 1) j i) hM0 hgr hE c0 c1 q0 q1
        (coef_err R hu1 b1 b2 hww) x1 x2 y1 y2
      rw [show g * growth R ^ r * ((1 + R.unit) ^ 3 + 2 * ((1 + R.unit) ^ 2 / (1 - R.unit) - 1))
        = g * growth R ^ (r + 1) by rw [pow_succ (growth R), mul_assoc]; rfl] at key
      simpa [tri, stepB, dB] using key
    · simp only [dB, Pi.add_apply, Pi.smul_apply, smul_eq_mul]
      refine le_trans (abs_add_le _ _) ?_
      rw [abs_mul, abs_mul, abs_of_nonneg q0, abs_of_nonneg (by linarith : (0:K) ≤ 1 - _)]
      nlinarith

/-- The de Boor scheme on a span does not go below its start values. -/
theorem dB_lower (p : ℕ) (v : ℕ → K) (t : K) (hv : ∀ i j, 1 ≤ i → i ≤ j → j ≤ 2 * p → v i ≤ v j)
    (h1 : v p ≤ t) (h2 : t ≤ v (p + 1)) (P : ℕ → ι → K) (m : K) (i : ι)
    (hm : ∀ j ≤ p, m ≤ P j i) (r : ℕ) :
    r ≤ p → ∀ j, r ≤ j → j ≤ p → m ≤ dB p v (fun _ => t) P r j i := by
  induction r with
  | zero => intro _ j _ hj; exact hm j hj
  | succ r ih =>
    intro hr j hj1 hj2
    have x := ih (by omega) (j - 1) (by omega) (by omega)
    have y := ih (by omega) j (by omega) hj2
    have b1 : v j ≤ t := le_trans (hv j p (by omega) hj2 (by omega)) h1
    have b2 : t ≤ v (p + j - r) := le_trans h2 (hv (p + 1) (p + j - r) (by omega) (by omega)
      (by omega))
    have q0 : 0 ≤ (t - v j) / (v (p + j - r) - v j) := div_nonneg (by linarith) (by linarith)
    have q1 : (t - v j) / (v (p + j - r) - v j) ≤ 1 := div_le_one_of_le₀ (by linarith) (by linarith)
    simp only [dB, Pi.add_apply, Pi.smul_apply, smul_eq_mul]
    nlinarith

/-- Evaluating rounded B-splines whose control points are already perturbed. -/
theorem bspline_axis (R : Rounding K) (hu1 : R.unit < 1) (F : ℕ → ℕ → ι → Fuse)
    {c : BSpline K (ι → K)} {p : ℕ} (hc : BSpline.WellFormed c p) (hw : FlWide R c p) {t t' : K}
    (hwrap : bsplineWrap R c t = ok t') (hf : BSpline.FirstSpan c p ∨ knot c.knots p < t')
    (h1 : knot c.knots p ≤ t') (h2 : t' ≤ knot c.knots c.ctrl.length) :
    ∃ q, bsplineEvaluate R F c t = ok q ∧ ∀ i g M (A : ℕ → K), 1 ≤ g →
      (∀ j < c.ctrl.length, |A j| ≤ M) →
      (∀ j < c.ctrl.length, |c.ctrl.getD j 0 i - A j| ≤ (g - 1) * M) →
        |q i - BSplinePatch.bsum p c.knots c.ctrl.length A t'| ≤ (g * growth R ^ p - 1) * M ∧
          |BSplinePatch.bsum p c.knots c.ctrl.length A t'| ≤ M := by
  have hl := hc.len
  have hn := hc.ctrl
  obtain ⟨k, a1, a2, a3, a4, a5⟩ := bsplineEvaluate_eq R F hc hwrap hf h1 h2
  refine ⟨_, a5, fun i g M A hg hA hQ => ?_⟩
  set d : BSpline K (ι → K) := { c with ctrl := arr c.ctrl.length (fun j _ => A j) } with hd
  have dl : d.ctrl.length = c.ctrl.length := by simp [hd]
  have hdw : BSpline.WellFormed d p := by
    refine ⟨?_, hc.sdeg, ?_, hc.sorted, ?_⟩
    · rw [dl]; exact hc.len
    · rw [dl]; exact hc.ctrl
    · rw [dl]; exact hc.dom
  have hww : BSpline.Wide d p := by
    intro j j1 j2 j3
    rw [dl] at j2
    exact hw.wide j j1 j2 j3
  have e := dB_bsplinePoint hdw hww (t := t') (k := k) a1 (by rw [dl]; exact a2) a3
    (by rw [dl]; exact a4) hf h1 (by rw [dl]; exact h2)
  have e' : bsplinePoint p d.knots d.ctrl t' i = BSplinePatch.bsum p c.knots c.ctrl.length A t' := by
    rw [hd]
    simp only [BSplinePatch.bsplinePoint_arr, BSplinePatch.bsum, Finset.sum_apply, Pi.smul_apply]
  rw [← e', ← e]
  have hb : knot c.knots k ≤ t' ∧ t' ≤ knot c.knots (k + 1) := by
    unfold InSpan at a4
    split_ifs at a4 with ht
    · rw [a4.2]; exact ⟨by rw [ht, ← a4.2]; exact a4.1.le, h2⟩
    · exact ⟨a4.1, a4.2.le⟩
  have e1 : k - p + p = k := by omega
  have e2 : k - p + (p + 1) = k + 1 := by omega
  have g1 : BSpline.loc (knot c.knots) k p p ≤ t' := by simp only [BSpline.loc, e1]; exact hb.1
  have g2 : t' ≤ BSpline.loc (knot c.knots) k p (p + 1) := by
    simp only [BSpline.loc, e2]; exact hb.2
  refine triB_err_pert R hu1 F p _ t' (BSpline.loc_mono hc.sorted a1 (by omega)) g1 g2
    ?_ (fun j => d.ctrl.getD (k - p + j) 0) _ M g hg i ?_ ?_ p le_rfl p le_rfl le_rfl
  · simp only [BSpline.loc, e1, e2]; exact hw k a1 a2 a3
  · intro j hj
    simp only [hd]
    rw [arr_getD _ _ _ _ (by omega)]
    exact hA _ (by omega)
  · intro j hj
    simp only [hd]
    rw [arr_getD _ _ _ _ (by omega)]
    exact hQ _ (by omega)

/-- The sum with the basis functions is at least the least coefficient. -/
theorem bsum_lower {u : List K} {n p : ℕ} (hl : u.length = n + p + 1) (hn : p + 1 ≤ n)
    (hs : u.Pairwise (· ≤ ·)) (hdom : knot u p < knot u n) (hw : BSplinePatch.WideOn u n p) {t : K}
    (ht : BSplinePatch.InDom u n p t) (A : ℕ → K) (m : K) (hm : ∀ j < n, m ≤ A j) :
    m ≤ BSplinePatch.bsum p u n A t := by
  set d : BSpline K (Unit → K) := { ctrl := arr n (fun j _ => A j), knots := u } with hd
  have dl : d.ctrl.length = n := by simp [hd]
  have hdw : BSpline.WellFormed d p := ⟨by rw [dl]; exact hl, Or.inl rfl, by rw [dl]; exact hn, hs,
    by rw [dl]; exact hdom⟩
  have hww : BSpline.Wide d p := by
    intro j j1 j2 j3
    rw [dl] at j2
    exact hw j j1 j2 j3
  have h2 : t ≤ knot d.knots d.ctrl.length := by rw [dl]; exact ht.2.1
  obtain ⟨k, a1, a2, a3, a4, -⟩ := bsplineEvaluate_eq Rounding.exact (fun _ _ _ => .none) hdw
    (t := t) (t' := t) rfl ht.2.2 ht.1 h2
  have e := dB_bsplinePoint hdw hww (t := t) (k := k) a1 a2 a3 a4 ht.2.2 ht.1 h2
  have e' : bsplinePoint p d.knots d.ctrl t () = BSplinePatch.bsum p u n A t := by
    rw [hd]
    simp only [BSplinePatch.bsplinePoint_arr, BSplinePatch.bsum, Finset.sum_apply, Pi.smul_apply]
  rw [← e', ← e]
  have hb : knot u k ≤ t ∧ t ≤ knot u (k + 1) := by
    rw [dl] at a4
    unfold InSpan at a4
    split_ifs at a4 with ht'
    · exact ⟨by rw [ht', ← a4.2]; exact a4.1.le, by rw [a4.2]; exact ht.2.1⟩
    · exact ⟨a4.1, a4.2.le⟩
  rw [dl] at a2
  have e1 : k - p + p = k := by omega
  have e2 : k - p + (p + 1) = k + 1 := by omega
  refine dB_lower p _ t (BSpline.loc_mono hs a1 (by omega)) ?_ ?_ _ m () ?_ p le_rfl p le_rfl le_rfl
  · simp only [BSpline.loc, e1]; exact hb.1
  · simp only [BSpline.loc, e2]; exact hb.2
  · intro j hj
    simp only [hd]
    rw [arr_getD _ _ _ _ (by omega)]
    exact hm _ (by omega)

theorem bsum_sub {u : List K} {n p : ℕ} (A B : ℕ → K) (t : K) :
    BSplinePatch.bsum p u n (fun j => A j - B j) t
      = BSplinePatch.bsum p u n A t - BSplinePatch.bsum p u n B t := by
  unfold BSplinePatch.bsum
  rw [← sum_sub_distrib]
  exact sum_congr rfl fun _ _ => by simp only [smul_eq_mul]; ring

theorem bsum_mul {u : List K} {n p : ℕ} (x : K) (A : ℕ → K) (t : K) :
    BSplinePatch.bsum p u n (fun j => x * A j) t = x * BSplinePatch.bsum p u n A t := by
  unfold BSplinePatch.bsum
  rw [mul_sum]
  exact sum_congr rfl fun _ _ => by simp only [smul_eq_mul]; ring

/-- Non-empty spans of a knot vector are still longer than the threshold after rounding. -/
def FlWideOn (R : Rounding K) (u : List K) (n p : ℕ) : Prop :=
  ∀ i, p ≤ i → i < n → knot u i < knot u (i + 1) →
    R.rnd (BSpline.tiny K) < R.rnd (knot u (i + 1) - knot u i)

theorem bspline_axis_arr (R : Rounding K) (hu1 : R.unit < 1) (F : ℕ → ℕ → ι → Fuse) {u : List K}
    {deg s : ℤ} {n p : ℕ} (h : BSplinePatch.Axis u deg s n p) (hw : FlWideOn R u n p)
    (Q : ℕ → ι → K) {t : K} (hd : BSplinePatch.InDom u n p t) :
    ∃ q, bsplineEvaluate R F (BSpline.mk (arr n Q) u false (BSplinePatch.staticDeg s)) t = ok q ∧
      ∀ i g M (A : ℕ → K), 1 ≤ g → (∀ j < n, |A j| ≤ M) → (∀ j < n, |Q j i - A j| ≤ (g - 1) * M) →
        |q i - BSplinePatch.bsum p u n A t| ≤ (g * growth R ^ p - 1) * M ∧
          |BSplinePatch.bsum p u n A t| ≤ M := by
  have hl : (arr n Q).length = n := by simp
  obtain ⟨q, e, H⟩ := bspline_axis R hu1 F (h.wf false hl)
    (by intro j j1 j2 j3; simp only [hl] at j2; exact hw j j1 j2 j3) (t := t) (t' := t) rfl hd.2.2
    hd.1 (by simp only [hl]; exact hd.2.1)
  simp only [hl] at H
  refine ⟨q, e, fun i g M A hg hA hQ => H i g M A hg hA (fun j hj => ?_)⟩
  rw [arr_getD _ _ _ _ hj]
  exact hQ j hj

/-! ### Patches -/

/-- `Σ Σ B_a(u) B_b(v) A_ab`. -/
def bern2 (m n : ℕ) (A : ℕ → ℕ → K) (u v : K) : K := bern m (fun a => bern n (A a) v) u

theorem bern2_swap (m n : ℕ) (A : ℕ → ℕ → K) (u v : K) :
    bern2 m n A u v = bern n (fun b => bern m (fun a => A a b) u) v := by
  unfold bern2 bern
  simp only [mul_sum]
  rw [sum_comm]
  exact sum_congr rfl fun _ _ => sum_congr rfl fun _ _ => by ring

theorem bern2_eq (m n : ℕ) (A : ℕ → ℕ → K) (u v : K) : bern2 m n A u v
    = ∑ a ∈ range (m + 1), ∑ b ∈ range (n + 1), bernstein m a u * bernstein n b v * A a b := by
  unfold bern2 bern
  simp only [mul_sum, mul_assoc]

/-- Evaluating rounded Bézier patches whose control points are already perturbed. -/
theorem bezier_patch (R : Rounding K) (F : ℕ → ℕ → ℕ → ι → Fuse) (G : ℕ → ℕ → ι → Fuse)
    (p : BezierPatch (ι → K)) (m n : ℕ) (hp : p.WellFormed m n) {u v u' v' : K}
    (hu : bezierWrap R p.perU u = ok u') (hv : bezierWrap R p.perV v = ok v')
    (u0 : 0 ≤ u') (u1 : u' ≤ 1) (v0 : 0 ≤ v') (v1 : v' ≤ 1) :
    ∃ q, patchEvaluate R F G p u v = ok q ∧
      ∀ i g (A B : ℕ → ℕ → K), 1 ≤ g → (∀ a ≤ m, ∀ b ≤ n, |A a b| ≤ B a b) →
        (∀ a ≤ m, ∀ b ≤ n, |p.pts n a b i - A a b| ≤ (g - 1) * B a b) →
        |q i - bern2 m n A u' v'| ≤ (g * (1 + R.unit) ^ (3 * (m + n)) - 1) * bern2 m n B u' v' ∧
          |bern2 m n A u' v'| ≤ bern2 m n B u' v' := by
  have hun := R.unit_nonneg
  have up : ∀ {g : K} (k : ℕ), 1 ≤ g → 1 ≤ g * (1 + R.unit) ^ (3 * k) := by
    intro g k hg
    have : (1 : K) ≤ (1 + R.unit) ^ (3 * k) := one_le_pow₀ (by linarith)
    nlinarith
  unfold patchEvaluate
  split_ifs with hdeg
  · choose f hf H using fun j => bezier_axis R (F j) m (fun a => p.pts n a j) p.perU hu u0 u1
    obtain ⟨q, hq, H2⟩ := bezier_axis R G n f p.perV hv v0 v1
    refine ⟨q, ?_, fun i g A B hg hA hQ => ?_⟩
    · unfold isoCurveV
      rw [hp.numV, ok_bind, hp.isoCurvesU, ok_bind, tab_eq (g := f)]
      · rw [ok_bind, pure_eq, ok_bind, hq]
      · intro j hj
        rw [rd_arr hj, ok_bind, hf]
    · have h := H2 i (g * (1 + R.unit) ^ (3 * m)) (fun b => bern m (fun a => A a b) u')
        (fun b => bern m (fun a => B a b) u') (up m hg)
        (fun b hb => (H b i g _ _ hg (fun a ha => hA a ha b hb) (fun a ha => hQ a ha b hb)).2)
        (fun b hb => (H b i g _ _ hg (fun a ha => hA a ha b hb) (fun a ha => hQ a ha b hb)).1)
      rw [← bern2_swap, ← bern2_swap, mul_assoc, ← pow_add, ← mul_add] at h
      exact h
  · choose f hf H using fun j => bezier_axis R (F j) n (p.pts n j) p.perV hv v0 v1
    obtain ⟨q, hq, H2⟩ := bezier_axis R G m f p.perU hu u0 u1
    refine ⟨q, ?_, fun i g A B hg hA hQ => ?_⟩
    · unfold isoCurveU
      rw [hp.numU, ok_bind, hp.isoCurvesV, ok_bind, tab_eq (g := f)]
      · rw [ok_bind, pure_eq, ok_bind, hq]
      · intro j hj
        rw [rd_arr hj, ok_bind, hf]
    · have h := H2 i (g * (1 + R.unit) ^ (3 * n)) (fun a => bern n (A a) v')
        (fun a => bern n (B a) v') (up n hg)
        (fun a ha => (H a i g _ _ hg (fun b hb => hA a ha b hb) (fun b hb => hQ a ha b hb)).2)
        (fun a ha => (H a i g _ _ hg (fun b hb => hA a ha b hb) (fun b hb => hQ a ha b hb)).1)
      rw [mul_assoc, ← pow_add, ← mul_add, add_comm n m] at h
      exact h

/-- `Σ Σ N_a(u) N_b(v) A_ab`. -/
def bsum2 (p q : ℕ) (ku kv : List K) (m n : ℕ) (A : ℕ → ℕ → K) (u v : K) : K :=
  BSplinePatch.bsum p ku m (fun a => BSplinePatch.bsum q kv n (A a) v) u

theorem bsum2_eq (p q : ℕ) (ku kv : List K) (m n : ℕ) (A : ℕ → ℕ → K) (u v : K) :
    bsum2 p q ku kv m n A u v = ∑ a ∈ range m, ∑ b ∈ range n,
      basis (knot ku) (knot ku m) p a u * basis (knot kv) (knot kv n) q b v * A a b := by
  unfold bsum2 BSplinePatch.bsum
  simp only [mul_sum, smul_eq_mul, mul_assoc]

/-- Evaluating rounded B-spline patches whose control points are already perturbed. -/
theorem bspline_patch (R : Rounding K) (hu1 : R.unit < 1) (F : ℕ → ℕ → ℕ → ι → Fuse)
    (G : ℕ → ℕ → ι → Fuse) {p : BSplinePatch K (ι → K)} {m n du dv : ℕ} (hp : p.Ready m n du dv)
    (pu : p.perU = false) (pv : p.perV = false) (wu : FlWideOn R p.knotsU m du)
    (wv : FlWideOn R p.knotsV n dv) {u v : K} (hu : BSplinePatch.InDom p.knotsU m du u)
    (hv : BSplinePatch.InDom p.knotsV n dv v) :
    ∃ q, bsplinePatchEvaluate R F G p u v = ok q ∧
      ∀ i g M (A : ℕ → ℕ → K), 1 ≤ g → (∀ a < m, ∀ b < n, |A a b| ≤ M) →
        (∀ a < m, ∀ b < n, |p.pts n a b i - A a b| ≤ (g - 1) * M) →
        |q i - bsum2 du dv p.knotsU p.knotsV m n A u v| ≤ (g * growth R ^ (du + dv) - 1) * M ∧
          |bsum2 du dv p.knotsU p.knotsV m n A u v| ≤ M := by
  have up : ∀ {g : K} (k : ℕ), 1 ≤ g → 1 ≤ g * growth R ^ k := by
    intro g k hg
    have : (1 : K) ≤ growth R ^ k := one_le_pow₀ (one_le_growth R hu1)
    nlinarith
  unfold bsplinePatchEvaluate
  split_ifs with hdeg
  · choose f hf H using fun j => bspline_axis_arr R hu1 (F j) hp.u wu (fun a => p.pts n a j) hu
    obtain ⟨q, hq, H2⟩ := bspline_axis_arr R hu1 G hp.v wv f hv
    refine ⟨q, ?_, fun i g M A hg hA hQ => ?_⟩
    · unfold bsplineIsoV
      rw [hp.toValid.numV, ok_bind, hp.isoU, tab_eq (g := f)]
      · rw [ok_bind, pure_eq, ok_bind, pv, hq]
      · intro j hj
        rw [rd_arr hj, ok_bind, BSplinePatch.colU, pu, hf]
    · have sw : bsum2 du dv p.knotsU p.knotsV m n A u v = BSplinePatch.bsum dv p.knotsV n
          (fun b => BSplinePatch.bsum du p.knotsU m (fun a => A a b) u) v :=
        BSplinePatch.bsum_swap A u v
      rw [sw]
      have h := H2 i (g * growth R ^ du) M
        (fun b => BSplinePatch.bsum du p.knotsU m (fun a => A a b) u) (up du hg)
        (fun b hb => (H b i g _ _ hg (fun a ha => hA a ha b hb) (fun a ha => hQ a ha b hb)).2)
        (fun b hb => (H b i g _ _ hg (fun a ha => hA a ha b hb) (fun a ha => hQ a ha b hb)).1)
      rw [mul_assoc, ← pow_add] at h
      exact h
  · choose f hf H using fun j => bspline_axis_arr R hu1 (F j) hp.v wv (p.pts n j) hv
    obtain ⟨q, hq, H2⟩ := bspline_axis_arr R hu1 G hp.u wu f hu
    refine ⟨q, ?_, fun i g M A hg hA hQ => ?_⟩
    · unfold bsplineIsoU
      rw [hp.toValid.numU, ok_bind, hp.isoV, tab_eq (g := f)]
      · rw [ok_bind, pure_eq, ok_bind, pu, hq]
      · intro j hj
        rw [rd_arr hj, ok_bind, BSplinePatch.rowV, pv, hf]
    · have h := H2 i (g * growth R ^ dv) M
        (fun a => BSplinePatch.bsum dv p.knotsV n (A a) v) (up dv hg)
        (fun a ha => (H a i g _ _ hg (fun b hb => hA a ha b hb) (fun b hb => hQ a ha b hb)).2)
        (fun a ha => (H a i g _ _ hg (fun b hb => hA a ha b hb) (fun b hb => hQ a ha b hb)).1)
      rw [mul_assoc, ← pow_add, add_comm dv du] at h
      exact h

/-! ### Derivatives of B-splines -/

theorem rel_mul {a a0 b b0 g h : K} (ha : |a - a0| ≤ (g - 1) * |a0|)
    (hb : |b - b0| ≤ (h - 1) * |b0|) : |a * b - a0 * b0| ≤ (g * h - 1) * |a0 * b0| := by
  have e : a * b - a0 * b0 = (a - a0) * b + a0 * (b - b0) := by ring
  have b1 : |b| ≤ h * |b0| := by
    have := abs_add_le (b - b0) b0
    rw [sub_add_cancel] at this
    linarith
  have t1 : |(a - a0) * b| ≤ (g - 1) * |a0| * (h * |b0|) := by
    rw [abs_mul]
    exact mul_le_mul ha b1 (abs_nonneg _) (le_trans (abs_nonneg _) ha)
  have t2 : |a0 * (b - b0)| ≤ |a0| * ((h - 1) * |b0|) := by
    rw [abs_mul]
    exact mul_le_mul_of_nonneg_left hb (abs_nonneg _)
  rw [e, abs_mul a0 b0]
  refine le_trans (abs_add_le _ _) (le_trans (add_le_add t1 t2) (le_of_eq (by ring)))

theorem rel_rnd (R : Rounding K) {x x0 g : K} (hx : |x - x0| ≤ (g - 1) * |x0|) :
    |R.rnd x - x0| ≤ ((1 + R.unit) * g - 1) * |x0| := by
  have hu := R.unit_nonneg
  have h := R.near x
  have b1 : |x| ≤ g * |x0| := by
    have := abs_add_le (x - x0) x0
    rw [sub_add_cancel] at this
    linarith
  have t := abs_add_le (R.rnd x - x) (x - x0)
  rw [sub_add_sub_cancel] at t
  have := mul_le_mul_of_nonneg_left b1 hu
  linarith

/-- Growth of the relative error by the derivative coefficients. -/
def diffGrowth (R : Rounding K) : K := (1 + R.unit) ^ 3 / (1 - R.unit)

theorem one_le_diffGrowth (R : Rounding K) (hu1 : R.unit < 1) : 1 ≤ diffGrowth R := by
  have hu := R.unit_nonneg
  have h1u : 0 < 1 - R.unit := by linarith
  unfold diffGrowth
  rw [le_div_iff₀ h1u]
  have : (1 : K) ≤ (1 + R.unit) ^ 3 := one_le_pow₀ (by linarith)
  linarith

/-- The rounded coefficient of the derivative. -/
theorem diff_coef_err (R : Rounding K) (hu1 : R.unit < 1) {n a b x y : K}
    (hd : 0 < a - b) :
    |R.rnd (R.rnd (n / R.rnd (a - b)) * R.rnd (x - y)) - n / (a - b) * (x - y)|
      ≤ (diffGrowth R - 1) * |n / (a - b) * (x - y)| := by
  have hu := R.unit_nonneg
  have h1u : 0 < 1 - R.unit := by linarith
  have hr := abs_le.1 (R.near (a - b))
  rw [abs_of_pos hd] at hr
  have r1 : (1 - R.unit) * (a - b) ≤ R.rnd (a - b) := by linarith [hr.1]
  have rp : 0 < R.rnd (a - b) := lt_of_lt_of_le (mul_pos h1u hd) r1
  have h1 : |n / R.rnd (a - b) - n / (a - b)| ≤ (1 / (1 - R.unit) - 1) * |n / (a - b)| := by
    have e : n / R.rnd (a - b) - n / (a - b)
        = (n / (a - b)) * ((a - b - R.rnd (a - b)) / R.rnd (a - b)) := by
      field_simp
    rw [e, abs_mul, mul_comm]
    refine mul_le_mul_of_nonneg_right ?_ (abs_nonneg _)
    rw [abs_div, abs_of_pos rp, div_le_iff₀ rp, abs_sub_comm]
    have h3 : |R.rnd (a - b) - (a - b)| ≤ R.unit * (a - b) := by
      have := R.near (a - b)
      rwa [abs_of_pos hd] at this
    have h4 : 1 / (1 - R.unit) - 1 = R.unit / (1 - R.unit) := by field_simp; ring
    rw [h4, div_mul_eq_mul_div, le_div_iff₀ h1u]
    nlinarith [mul_le_mul_of_nonneg_left r1 hu, mul_le_mul_of_nonneg_right h3 h1u.le]
  have h2 := rel_rnd R h1
  have hxy : |R.rnd (x - y) - (x - y)| ≤ ((1 + R.unit) - 1) * |x - y| := by
    rw [add_sub_cancel_left]; exact R.near _
  have h3 := rel_rnd R (rel_mul h2 hxy)
  refine le_trans h3 (le_of_eq ?_)
  congr 2
  unfold diffGrowth
  field_simp

theorem bsplineDerivCoef_arr (R : Rounding K) (c : BSpline K (ι → K)) (n k N : ℕ) (P : ℕ → ι → K)
    (hn : n < N) (hnk : n ≤ k) (hk : k + n + 1 ≤ c.knots.length)
    (hp : ∀ i < n, 0 < R.rnd (knot c.knots (i + k + 1) - knot c.knots (i + k + 1 - n))) :
    bsplineDerivCoef R c n k (arr N P) = ok (arr N (fun i => if i < n then
      fun l => R.rnd (R.rnd ((n : K) / R.rnd (knot c.knots (i + k + 1) - knot c.knots (i + k + 1 - n)))
        * R.rnd (P (i + 1) l - P i l))
      else P i)) := by
  unfold bsplineDerivCoef
  have key := loop_eq
    (S := fun m => arr N (fun i => if i < m then
      fun l => R.rnd (R.rnd ((n : K) / R.rnd (knot c.knots (i + k + 1) - knot c.knots (i + k + 1 - n)))
        * R.rnd (P (i + 1) l - P i l))
      else P i)) n
    (fun i q => do
      let a ← rdI c.knots (i + k + 1)
      let b ← rdI c.knots (i + k + 1 - n)
      let diff := R.rnd (a - b)
      let alpha : K := if diff > 0 then R.rnd ((n : K) / diff) else 0
      let x ← rd q (i + 1)
      let y ← rd q i
      wr q i (fun l => R.rnd (alpha * R.rnd (x l - y l)))) ?_
  · rw [← key]
    congr 1
  · intro i hi
    have e1 : ((i : ℤ) + k + 1) = (i + k + 1 : ℕ) := by omega
    have e2 : ((i : ℤ) + k + 1 - n) = (i + k + 1 - n : ℕ) := by omega
    rw [BSpline.rdI_knot e1 (by omega), ok_bind, BSpline.rdI_knot e2 (by omega), ok_bind]
    simp only [gt_iff_lt, hp i hi, if_true]
    rw [rd_arr (by omega), ok_bind, rd_arr (by omega), ok_bind]
    apply wr_arr _ (by omega)
    intro j hj
    by_cases h : j = i
    · subst h
      simp
    · have : j < i + 1 ↔ j < i := by omega
      simp [h, this]

end NS.Fl
