import Mathlib.Data.Rat.Floor
import Verif.Proof.FloatEval
import Verif.Props.Rational

/-!
# Properties C81-C85: the evaluators in floating point arithmetic

`R` is any rounding (in particular `binary 53`, IEEE double without overflow and underflow), `F` any
choice of the compiler to contract products and sums.
-/

set_option linter.unusedSectionVars false
set_option linter.unnecessarySeqFocus false

namespace NS.Fl

open Outcome Finset Spec

section General

variable {K ι : Type} [Field K] [LinearOrder K] [IsStrictOrderedRing K] [FloorRing K]

/-! ### C81: end points -/

/-- C81: a Bézier curve of any degree returns its first and last control point bit by bit. -/
theorem C81_bezier_ends (R : Rounding K) (F : ℕ → ℕ → ι → Fuse) (l : List (ι → K)) (hl : l ≠ [])
    (hf : Floats R l) :
    bezierEvaluate R F { ctrl := l } 0 = ok (l.head hl) ∧
      bezierEvaluate R F { ctrl := l } 1 = ok (l.getLast hl) := by
  have h0 : 0 < l.length := List.length_pos_of_ne_nil hl
  constructor
  · rw [bezierEvaluate_eq R F l hl false (t' := 0) rfl, tri_zero R F _ (fun j i => hf.getD j i),
      Nat.sub_self, getD_of_lt _ h0, List.head_eq_getElem]
  · rw [bezierEvaluate_eq R F l hl false (t' := 1) rfl, tri_one R F _ (fun j i => hf.getD j i),
      getD_of_lt _ (by omega), List.getLast_eq_getElem]

/-- C81: a clamped B-spline of any degree does so at the ends of its domain. -/
theorem C81_bspline_ends (R : Rounding K) (F : ℕ → ℕ → ι → Fuse) {c : BSpline K (ι → K)} {p : ℕ}
    (hc : BSpline.WellFormed c p) (hper : c.periodic = false) (hw : FlWide R c p)
    (hf : Floats R c.ctrl) :
    (BSpline.FirstSpan c p → (∀ j, 1 ≤ j → j ≤ p → knot c.knots j = knot c.knots p) →
      bsplineEvaluate R F c (knot c.knots p) = ok (c.ctrl.getD 0 0)) ∧
    (knot c.knots (c.ctrl.length - 1) < knot c.knots c.ctrl.length →
      (∀ j, c.ctrl.length ≤ j → j < c.ctrl.length + p →
        knot c.knots j = knot c.knots c.ctrl.length) →
      bsplineEvaluate R F c (knot c.knots c.ctrl.length)
        = ok (c.ctrl.getD (c.ctrl.length - 1) 0)) := by
  have hl := hc.len
  have hn := hc.ctrl
  have wrap : ∀ t, bsplineWrap R c t = ok t := by intro t; simp [bsplineWrap, hper]
  constructor
  · intro hfirst hcl
    obtain ⟨k, a1, a2, a3, a4, a5⟩ := bsplineEvaluate_eq R F hc (wrap (knot c.knots p))
      (Or.inl hfirst) le_rfl hc.dom.le
    have hk : k = p := by
      rw [InSpan, if_neg hc.dom.ne] at a4
      by_contra hne
      have := BSpline.knot_mono hc.sorted (i := p + 1) (j := k) (by omega) (by omega)
      exact absurd (lt_of_lt_of_le hfirst (le_trans this a4.1)) (lt_irrefl _)
    subst hk
    rw [a5, triB_lower R F k _ _ (fun j h1 h2 => ?_) _ (fun j i => hf.getD _ i) k k le_rfl le_rfl]
    · simp
    · simp only [BSpline.loc, Nat.sub_self, zero_add]; exact hcl j h1 h2
  · intro hlast hcl
    obtain ⟨k, a1, a2, a3, a4, a5⟩ := bsplineEvaluate_eq R F hc (wrap (knot c.knots c.ctrl.length))
      (Or.inr hc.dom) hc.dom.le le_rfl
    rw [InSpan, if_pos rfl] at a4
    have hk : k = c.ctrl.length - 1 := by
      by_contra hne
      have m1 := BSpline.knot_mono hc.sorted (i := k + 1) (j := c.ctrl.length - 1) (by omega)
        (by omega)
      rw [a4.2] at m1
      exact absurd hlast (not_lt.2 m1)
    subst hk
    rw [a5, triB_upper R F p _ _ (BSpline.loc_mono hc.sorted a1 (by omega)) ?_ (fun j h1 h2 => ?_) _
      (fun j i => hf.getD _ i) p p le_rfl le_rfl]
    · rw [show c.ctrl.length - 1 - p + p = c.ctrl.length - 1 by omega]
    · have := hw _ a1 a2 a3
      simp only [BSpline.loc]
      rwa [show c.ctrl.length - 1 - p + (p + 1) = c.ctrl.length - 1 + 1 by omega,
        show c.ctrl.length - 1 - p + p = c.ctrl.length - 1 by omega]
    · simp only [BSpline.loc]
      exact hcl _ (by omega) (by omega)

/-- C81: a Bézier patch returns the corners of its control grid bit by bit. -/
theorem C81_patch_corners (R : Rounding K) (F : ℕ → ℕ → ℕ → ι → Fuse) (G : ℕ → ℕ → ι → Fuse)
    (p : BezierPatch (ι → K)) (m n : ℕ) (hp : p.WellFormed m n) (hu : p.perU = false)
    (hv : p.perV = false) (hf : Floats R p.grid) :
    patchEvaluate R F G p 0 0 = ok (gridPoint p.grid (n + 1) 0 0) ∧
      patchEvaluate R F G p 1 0 = ok (gridPoint p.grid (n + 1) m 0) ∧
      patchEvaluate R F G p 0 1 = ok (gridPoint p.grid (n + 1) 0 n) ∧
      patchEvaluate R F G p 1 1 = ok (gridPoint p.grid (n + 1) m n) := by
  have hpt : ∀ a b i, R.IsFloat (p.pts n a b i) := fun a b i => hf.getD _ i
  have tfl : ∀ {t : K} {H : ℕ → ℕ → ι → Fuse} {P : ℕ → ι → K}, (∀ j i, R.IsFloat (P j i)) →
      (t = 0 ∨ t = 1) → ∀ r, tri (step R H fun _ => t) P r r = if t = 0 then P 0 else P r := by
    intro t H P hP ht r
    rcases ht with rfl | rfl
    · rw [tri_zero R H P hP, if_pos rfl, Nat.sub_self]
    · rw [tri_one R H P hP, if_neg one_ne_zero]
  have main : ∀ u v : K, (u = 0 ∨ u = 1) → (v = 0 ∨ v = 1) → patchEvaluate R F G p u v
      = ok (p.pts n (if u = 0 then 0 else m) (if v = 0 then 0 else n)) := by
    intro u v h1 h2
    have w1 : bezierWrap R p.perU u = ok u := by rw [hu]; rfl
    have w2 : bezierWrap R p.perV v = ok v := by rw [hv]; rfl
    unfold patchEvaluate
    split_ifs with hdeg
    all_goals
      first
      | (unfold isoCurveV
         rw [hp.numV, ok_bind, hp.isoCurvesU, ok_bind,
           tab_eq (g := fun j => p.pts n (if u = 0 then 0 else m) j)]
         · rw [ok_bind, pure_eq, ok_bind, bezierEvaluate_arr R G n _ _ w2,
             tfl (fun j i => hpt _ _ _) h2]
           split_ifs <;> simp_all
         · intro j hj
           rw [rd_arr hj, ok_bind, bezierEvaluate_arr R _ m _ _ w1, tfl (fun j i => hpt _ _ _) h1]
           split_ifs <;> simp_all)
      | (unfold isoCurveU
         rw [hp.numU, ok_bind, hp.isoCurvesV, ok_bind,
           tab_eq (g := fun i => p.pts n i (if v = 0 then 0 else n))]
         · rw [ok_bind, pure_eq, ok_bind, bezierEvaluate_arr R G m _ _ w1,
             tfl (fun j i => hpt _ _ _) h1]
           split_ifs <;> simp_all
         · intro j hj
           rw [rd_arr hj, ok_bind, bezierEvaluate_arr R _ n _ _ w2, tfl (fun j i => hpt _ _ _) h2]
           split_ifs <;> simp_all)
  refine ⟨?_, ?_, ?_, ?_⟩
  · rw [main 0 0 (Or.inl rfl) (Or.inl rfl)]; simp [BezierPatch.pts, gridPoint]
  · rw [main 1 0 (Or.inr rfl) (Or.inl rfl)]; simp [BezierPatch.pts, gridPoint]
  · rw [main 0 1 (Or.inl rfl) (Or.inr rfl)]; simp [BezierPatch.pts, gridPoint]
  · rw [main 1 1 (Or.inr rfl) (Or.inr rfl)]; simp [BezierPatch.pts, gridPoint]

/-! ### C82: error bounds -/

/-- Rounding without error is the exact model of Bézier curves. -/
theorem C82_exact_arithmetic (F : ℕ → ℕ → ι → Fuse) (c : Bezier (ι → K)) (t : K) :
    bezierEvaluate Rounding.exact F c t = c.evaluate t := by
  have hw : bezierWrap Rounding.exact c.periodic t = Bezier.wrap c.periodic t := rfl
  have hb : ∀ bv d q, bezierBlossom Rounding.exact F bv d q = Bezier.blossom (K := K) bv d q := by
    intro bv d q
    unfold bezierBlossom Bezier.blossom
    simp only [exact_combine]
    rfl
  unfold bezierEvaluate Bezier.evaluate bezierDeBoor Bezier.deBoor
  simp only [hw, hb]

/-- Rounding without error is the exact model of B-splines. -/
theorem C82_exact_arithmetic_bspline (F : ℕ → ℕ → ι → Fuse) (c : BSpline K (ι → K)) (t : K) :
    bsplineEvaluate Rounding.exact F c t = c.evaluate t := by
  have hb : ∀ u bv d k q, bsplineBlossom Rounding.exact F u bv d k q
      = BSpline.blossom (K := K) u bv d k q := by
    intro u bv d k q
    unfold bsplineBlossom BSpline.blossom
    simp only [exact_combine]
    rfl
  unfold bsplineEvaluate BSpline.evaluate bsplineDeBoor BSpline.deBoor
  simp only [hb]
  rfl

/-- C82: evaluating a Bézier curve of degree `n` at any parameter, inside or outside of the domain,
is off by at most `(1 + u)^(3n) - 1` times the sum of the magnitudes of its terms. -/
theorem C82_bezier_error (R : Rounding K) (F : ℕ → ℕ → ι → Fuse) (l : List (ι → K)) (hl : l ≠ [])
    (t : K) :
    ∃ q, bezierEvaluate R F { ctrl := l } t = ok q ∧ ∀ i, |q i - bezierPoint l t i|
      ≤ ((1 + R.unit) ^ (3 * (l.length - 1)) - 1) *
        ∑ k ∈ range l.length, |bernstein (l.length - 1) k t| * |l.getD k 0 i| := by
  have h0 : 0 < l.length := List.length_pos_of_ne_nil hl
  refine ⟨_, bezierEvaluate_eq R F l hl false (t' := t) rfl, fun i => ?_⟩
  have h := (tri_err R F t (fun j => l.getD j 0) (fun j => l.getD j 0) (fun j => |l.getD j 0 i|) 1
    le_rfl i (fun _ => le_rfl) (fun j => by simp) (l.length - 1) (l.length - 1)).1
  rw [dcv_bezierPoint l hl, mag_eq _ _ _ _ _ le_rfl, one_mul] at h
  refine le_trans h (le_of_eq ?_)
  congr 1
  rw [show l.length - 1 + 1 = l.length by omega]
  refine sum_congr rfl fun k _ => ?_
  rw [abs_bernstein, Nat.sub_self, zero_add]

/-- C82: the classes with fixed degrees 1, 2 and 3 compute what the generic class computes under
some choice of contractions, so all bounds hold for them, too. -/
theorem C82_fixed_degree (R : Rounding K) (F : ℕ → ι → Fuse) (p0 p1 p2 p3 : ι → K) (per : Bool)
    (t : K) :
    (∃ G, bezierEvaluate1 R (F 0) { ctrl := [p0, p1] } t
      = bezierEvaluate R G { ctrl := [p0, p1] } t) ∧
    (∃ G, bezierEvaluate2 R F { ctrl := [p0, p1, p2], periodic := per } t
      = bezierEvaluate R G { ctrl := [p0, p1, p2], periodic := per } t) ∧
    (∃ G, bezierEvaluate3 R F { ctrl := [p0, p1, p2, p3], periodic := per } t
      = bezierEvaluate R G { ctrl := [p0, p1, p2, p3], periodic := per } t) := by
  refine ⟨⟨fun _ _ i => swap (F 0 i), ?_⟩, ⟨fun r j i => swap (F (if r = 2 then 2 else j - 1) i), ?_⟩,
    ⟨fun r j i => swap (F (if r = 1 then j - 1 else if r = 2 then j + 1 else 5) i), ?_⟩⟩
  · rw [bezierEvaluate_eq R _ _ (by simp) _ (t' := t) rfl]
    unfold bezierEvaluate1
    simp only [rd, List.getElem?_cons_zero, List.getElem?_cons_succ, ok_bind, pure_eq]
    congr 1
    funext i
    rw [combine_swap]
    rfl
  · have e : bezierEvaluate2 R F { ctrl := [p0, p1, p2], periodic := per } t
        = (bezierWrap R per t >>= fun t' =>
          bezierEvaluate2 R F { ctrl := [p0, p1, p2] } t') := rfl
    have e2 : ∀ G, bezierEvaluate R G { ctrl := [p0, p1, p2], periodic := per } t
        = (bezierWrap R per t >>= fun t' => bezierEvaluate R G { ctrl := [p0, p1, p2] } t') :=
      fun _ => rfl
    rw [e, e2]
    congr 1
    funext t
    rw [bezierEvaluate_eq R _ _ (by simp) _ (t' := t) rfl]
    unfold bezierEvaluate2
    simp only [rd, List.getElem?_cons_zero, List.getElem?_cons_succ, ok_bind, pure_eq, bezierWrap,
      Bool.false_eq_true, if_false]
    congr 1
    funext i
    rw [combine_swap]
    simp only [combine_swap R (F 0 i), combine_swap R (F 1 i)]
    rfl
  · have e : bezierEvaluate3 R F { ctrl := [p0, p1, p2, p3], periodic := per } t
        = (bezierWrap R per t >>= fun t' =>
          bezierEvaluate3 R F { ctrl := [p0, p1, p2, p3] } t') := rfl
    have e2 : ∀ G, bezierEvaluate R G { ctrl := [p0, p1, p2, p3], periodic := per } t
        = (bezierWrap R per t >>= fun t' => bezierEvaluate R G { ctrl := [p0, p1, p2, p3] } t') :=
      fun _ => rfl
    rw [e, e2]
    congr 1
    funext t
    rw [bezierEvaluate_eq R _ _ (by simp) _ (t' := t) rfl]
    unfold bezierEvaluate3
    simp only [rd, List.getElem?_cons_zero, List.getElem?_cons_succ, ok_bind, pure_eq, bezierWrap,
      Bool.false_eq_true, if_false]
    congr 1
    funext i
    rw [combine_swap]
    simp only [combine_swap R (F 0 i), combine_swap R (F 1 i), combine_swap R (F 2 i),
      combine_swap R (F 3 i), combine_swap R (F 4 i)]
    rfl

/-- C82: the derivative of a Bézier curve of degree `n + 1` at any parameter. -/
theorem C82_bezier_derivative_error (R : Rounding K) (F : ℕ → ℕ → ι → Fuse) (n : ℕ)
    (P : ℕ → ι → K) (t : K) :
    ∃ q e, bezierDerivative R F { ctrl := arr (n + 2) P } t = ok q ∧
      Bezier.evaluateDerivative { ctrl := arr (n + 2) P } t = ok e ∧
      ∀ i, |q i - e i| ≤ ((1 + R.unit) ^ (3 * n + 2) - 1) *
        ∑ k ∈ range (n + 1), |bernstein n k t| * |((n + 1 : ℕ) : K) * (P (k + 1) i - P k i)| := by
  set D : ℕ → ι → K := fun j l => ((n + 1 : ℕ) : K) * (P (j + 1) l - P j l) with hD
  set E : ℕ → ι → K := fun j => if j < n + 1 then
      fun l => R.rnd (((n + 1 : ℕ) : K) * R.rnd (P (j + 1) l - P j l)) else P j with hE
  have hq : bezierDerivative R F { ctrl := arr (n + 2) P } t
      = ok (tri (step R F fun _ => t) E n n) := by
    unfold bezierDerivative
    have hd : ({ ctrl := arr (n + 2) P } : Bezier (ι → K)).degree = ((n + 1 : ℕ) : ℤ) := by
      simp [Bezier.degree]; omega
    rw [show bezierWrap R (Bezier.periodic { ctrl := arr (n + 2) P }) t = ok t from rfl, ok_bind, hd,
      assert_true (by omega), ok_bind, if_neg (by omega), Int.toNat_natCast,
      bezierDerivCoef_arr R (n + 1) (n + 2) P (by omega), ok_bind,
      show ((n + 1 : ℕ) : ℤ) - 1 = (n : ℤ) by omega]
    exact bezierDeBoor_eq R F (n + 1) t n (n + 2) E (by omega) (by omega)
  have he : Bezier.evaluateDerivative { ctrl := arr (n + 2) P } t
      = ok (Bezier.dcv (fun _ => t) D n n) := by
    rw [Bezier.evaluateDerivative_arr, Bezier.dcv_diag]
    have e : D = BSpline.diffQ (K := K) (n + 1) P := by
      funext j l
      simp [hD, BSpline.diffQ]
    rw [e, BSpline.umb_diffQ]
    congr 1
    simp [mul_comm]
  refine ⟨_, _, hq, he, fun i => ?_⟩
  set E' : ℕ → ι → K := fun j l => R.rnd (((n + 1 : ℕ) : K) * R.rnd (P (j + 1) l - P j l)) with hE'
  rw [tri_congr _ E E' n n (fun j hj => by simp only [hE, hE', if_pos (by omega : j < n + 1)])]
  have hu := R.unit_nonneg
  have h := (tri_err R F t D E' (fun j => |D j i|) ((1 + R.unit) ^ 2) (one_le_pow₀ (by linarith)) i
    (fun _ => le_rfl) (fun j => deriv_coef_err R _ _ _) n n).1
  rw [mag_eq _ _ _ _ _ le_rfl, ← pow_add, add_comm 2] at h
  refine le_trans h (le_of_eq ?_)
  congr 1
  refine sum_congr rfl fun k _ => ?_
  rw [abs_bernstein, Nat.sub_self, zero_add]

/-- C82: evaluating a B-spline of degree `p` at any parameter of its domain is off by at most
`growth ^ p - 1` times the largest coordinate, where `growth = (1 + u)^3 + 2 ((1 + u)^2 / (1 - u) - 1)`,
about `1 + 9 u`. -/
theorem C82_bspline_error (R : Rounding K) (hu1 : R.unit < 1) (F : ℕ → ℕ → ι → Fuse)
    {c : BSpline K (ι → K)} {p : ℕ} (hc : BSpline.WellFormed c p) (hper : c.periodic = false)
    (hw : FlWide R c p) {t : K} (hf : BSpline.FirstSpan c p ∨ knot c.knots p < t)
    (h1 : knot c.knots p ≤ t) (h2 : t ≤ knot c.knots c.ctrl.length) :
    ∃ q, bsplineEvaluate R F c t = ok q ∧ ∀ i M, (∀ x ∈ c.ctrl, |x i| ≤ M) →
      |q i - bsplinePoint p c.knots c.ctrl t i|
        ≤ (((1 + R.unit) ^ 3 + 2 * ((1 + R.unit) ^ 2 / (1 - R.unit) - 1)) ^ p - 1) * M := by
  have hl := hc.len
  have hn := hc.ctrl
  have wrap : bsplineWrap R c t = ok t := by simp [bsplineWrap, hper]
  obtain ⟨k, a1, a2, a3, a4, a5⟩ := bsplineEvaluate_eq R F hc wrap hf h1 h2
  refine ⟨_, a5, fun i M hM => ?_⟩
  have hne : c.ctrl ≠ [] := by intro h; rw [h] at hn; simp at hn
  rw [← dB_bsplinePoint hc hw.wide a1 a2 a3 a4 hf h1 h2]
  have e1 : k - p + p = k := by omega
  have e2 : k - p + (p + 1) = k + 1 := by omega
  have hb : knot c.knots k ≤ t ∧ t ≤ knot c.knots (k + 1) := by
    unfold InSpan at a4
    split_ifs at a4 with ht
    · rw [a4.2]; exact ⟨by rw [ht, ← a4.2]; exact a4.1.le, h2⟩
    · exact ⟨a4.1, a4.2.le⟩
  refine (triB_err R hu1 F p _ t (BSpline.loc_mono hc.sorted a1 (by omega)) ?_ ?_ ?_ _ M i
    (fun j => bound_getD hne hM _) p le_rfl p le_rfl le_rfl).1
  · simp only [BSpline.loc, e1]; exact hb.1
  · simp only [BSpline.loc, e2]; exact hb.2
  · simp only [BSpline.loc, e1, e2]; exact hw k a1 a2 a3

/-- C82: evaluating a Bézier patch of degrees `m`, `n` on the unit square. -/
theorem C82_patch_error (R : Rounding K) (F : ℕ → ℕ → ℕ → ι → Fuse) (G : ℕ → ℕ → ι → Fuse)
    (p : BezierPatch (ι → K)) (m n : ℕ) (hp : p.WellFormed m n) (hu : p.perU = false)
    (hv : p.perV = false) {u v : K} (u0 : 0 ≤ u) (u1 : u ≤ 1) (v0 : 0 ≤ v) (v1 : v ≤ 1) :
    ∃ q e, patchEvaluate R F G p u v = ok q ∧ p.evaluate u v = ok e ∧
      ∀ i M, (∀ x ∈ p.grid, |x i| ≤ M) →
        |q i - e i| ≤ ((1 + R.unit) ^ (3 * (m + n)) - 1) * M := by
  have hun := R.unit_nonneg
  have hne : p.grid ≠ [] := by
    intro h
    have := congrArg List.length hp.grid
    rw [h] at this
    simp at this
  have w1 : bezierWrap R p.perU u = ok u := by rw [hu]; rfl
  have w2 : bezierWrap R p.perV v = ok v := by rw [hv]; rfl
  have x1 : Bezier.wrap p.perU u = ok u := by rw [hu]; rfl
  have x2 : Bezier.wrap p.perV v = ok v := by rw [hv]; rfl
  have two : ∀ (s t : K) (_ : 0 ≤ s) (_ : s ≤ 1) (_ : 0 ≤ t) (_ : t ≤ 1) (a b : ℕ)
      (P : ℕ → ℕ → ι → K) (i : ι) (M : K), (∀ x y, |P x y i| ≤ M) →
      |tri (step R G fun _ => t) (fun y => tri (step R (F y) fun _ => s) (P y) a a) b b i
        - Bezier.dcv (fun _ => t) (fun y => Bezier.dcv (fun _ => s) (P y) a a) b b i|
        ≤ ((1 + R.unit) ^ (3 * (a + b)) - 1) * M := by
    intro s t hs0 hs1 ht0 ht1 a b P i M hP
    have hg : (1 : K) ≤ (1 + R.unit) ^ (3 * a) := one_le_pow₀ (by linarith)
    have inner : ∀ y, |tri (step R (F y) fun _ => s) (P y) a a i - Bezier.dcv (fun _ => s) (P y) a a i|
        ≤ ((1 + R.unit) ^ (3 * a) - 1) * M ∧ |Bezier.dcv (fun _ => s) (P y) a a i| ≤ M := by
      intro y
      obtain ⟨h1, h2⟩ := tri_err R (F y) s (P y) (P y) (fun _ => M) 1 le_rfl i (hP y)
        (fun j => by simp) a a
      have hm := mag_unit hs0 hs1 (A := fun _ => M) (M := M) (fun _ => le_rfl) a a
      rw [one_mul] at h1
      exact ⟨le_trans h1 (mul_le_mul_of_nonneg_left hm (by linarith)), le_trans h2 hm⟩
    have h := (tri_err R G t (fun y => Bezier.dcv (fun _ => s) (P y) a a)
      (fun y => tri (step R (F y) fun _ => s) (P y) a a) (fun _ => M) _ hg i
      (fun y => (inner y).2) (fun y => (inner y).1) b b).1
    have hm := mag_unit ht0 ht1 (A := fun _ => M) (M := M) (fun _ => le_rfl) b b
    rw [← pow_add, ← mul_add] at h
    have hge : (1 : K) ≤ (1 + R.unit) ^ (3 * (a + b)) := one_le_pow₀ (by linarith)
    exact le_trans h (mul_le_mul_of_nonneg_left hm (by linarith))
  have dcvu : ∀ (P : ℕ → ι → K) (t : K) (d : ℕ), umb P (lin t ^ d) = Bezier.dcv (fun _ => t) P d d := by
    intro P t d
    rw [Bezier.dcv_diag]; simp
  unfold patchEvaluate BezierPatch.evaluate
  split_ifs with hdeg
  · refine ⟨tri (step R G fun _ => v) (fun y => tri (step R (F y) fun _ => u)
      (fun x => p.pts n x y) m m) n n, Bezier.dcv (fun _ => v) (fun y => Bezier.dcv (fun _ => u)
      (fun x => p.pts n x y) m m) n n, ?_, ?_, fun i M hM => ?_⟩
    · unfold isoCurveV
      rw [hp.numV, ok_bind, hp.isoCurvesU, ok_bind,
        tab_eq (g := fun y => tri (step R (F y) fun _ => u) (fun x => p.pts n x y) m m)]
      · rw [ok_bind, pure_eq, ok_bind, bezierEvaluate_arr R G n _ _ w2]
      · intro j hj
        rw [rd_arr hj, ok_bind, bezierEvaluate_arr R _ m _ _ w1]
    · rw [hp.isoCurveV x1, ok_bind, BezierPatch.evaluate_arr_wrap n _ _ x2, dcvu]
      simp only [dcvu]
    · exact two u v u0 u1 v0 v1 m n (fun y x => p.pts n x y) i M (fun _ _ => bound_getD hne hM _)
  · refine ⟨tri (step R G fun _ => u) (fun x => tri (step R (F x) fun _ => v)
      (p.pts n x) n n) m m, Bezier.dcv (fun _ => u) (fun x => Bezier.dcv (fun _ => v)
      (p.pts n x) n n) m m, ?_, ?_, fun i M hM => ?_⟩
    · unfold isoCurveU
      rw [hp.numU, ok_bind, hp.isoCurvesV, ok_bind,
        tab_eq (g := fun x => tri (step R (F x) fun _ => v) (p.pts n x) n n)]
      · rw [ok_bind, pure_eq, ok_bind, bezierEvaluate_arr R G m _ _ w1]
      · intro j hj
        rw [rd_arr hj, ok_bind, bezierEvaluate_arr R _ n _ _ w2]
    · rw [hp.isoCurveU x2, ok_bind, BezierPatch.evaluate_arr_wrap m _ _ x1, dcvu]
      simp only [dcvu]
    · rw [add_comm m n]
      exact two v u v0 v1 u0 u1 n m (fun x y => p.pts n x y) i M (fun _ _ => bound_getD hne hM _)

/-- C82: evaluating a rational Bézier curve of degree `n` with positive weights on the unit
interval; the factor is about `(6 n + 2) u`. -/
theorem C82_rational_error (R : Rounding K) (F : ℕ → ℕ → Option ι → Fuse) (P : List (ι → K))
    (w : List K) (hP : P ≠ []) (hlen : P.length = w.length) (hw : ∀ x ∈ w, 0 < x) {t : K}
    (h0 : 0 ≤ t) (h1 : t ≤ 1) (hu2 : (1 + R.unit) ^ (3 * (P.length - 1)) < 2) :
    ∃ q, rationalEvaluate R F P w false t = ok q ∧ ∀ i M, (∀ x ∈ P, |x i| ≤ M) →
      |q i - ratBezierPoint P w t i|
        ≤ ((1 + R.unit) * (1 + (((1 + R.unit) ^ (3 * (P.length - 1) + 1) - 1)
            + ((1 + R.unit) ^ (3 * (P.length - 1)) - 1))
              / (2 - (1 + R.unit) ^ (3 * (P.length - 1)))) - 1) * M := by
  have hu := R.unit_nonneg
  have hpos : 0 < P.length := List.length_pos_of_ne_nil hP
  set n := P.length - 1 with hn
  set Q : List (Option ι → K) := homPts R P w with hQ
  have hQl : Q.length = P.length := homPts_length R P w hlen
  have hQne : Q ≠ [] := by intro h; rw [h] at hQl; simp at hQl; omega
  have hwd : ∀ j, 0 ≤ w.getD j 0 := by
    intro j
    by_cases hj : j < w.length
    · rw [getD_of_lt _ hj]; exact (hw _ (List.getElem_mem hj)).le
    · rw [getD_of_le _ (not_lt.1 hj)]
  -- the exact homogeneous points
  set H : ℕ → Option ι → K := fun j o => match o with
    | some i => P.getD j 0 i * w.getD j 0
    | none => w.getD j 0 with hH
  have hQs : ∀ j i, Q.getD j 0 (some i) = R.rnd (P.getD j 0 i * w.getD j 0) :=
    homPts_some R P w hlen
  have hQn : ∀ j, Q.getD j 0 none = w.getD j 0 := homPts_none R P w hlen
  set W := ratBezierDen w t with hWdef
  have hsum : ∀ A : ℕ → K, mag |1 - t| |t| A n n = ∑ k ∈ range (n + 1), bernstein n k t * A k := by
    intro A
    rw [mag_eq _ _ _ _ _ le_rfl, abs_of_nonneg h0, abs_of_nonneg (by linarith : 0 ≤ 1 - t)]
    refine sum_congr rfl fun k _ => ?_
    rw [bernstein, Nat.sub_self, zero_add]
  have hW : W = ∑ k ∈ range (n + 1), bernstein n k t * w.getD k 0 := by
    rw [hWdef, ratBezierDen, ← hlen, show P.length = n + 1 by omega, Nat.add_sub_cancel]
  have hWpos : 0 < W := Props.ratBezierDen_pos (by rintro rfl; simp at hlen; exact hP hlen) hw h0 h1
  -- the weight coordinate
  have dn : Bezier.dcv (fun _ => t) H n n none = W := by
    have e : ∀ r j, Bezier.dcv (fun _ => t) H r j none
        = Bezier.dcv (V := K) (fun _ => t) (fun j => w.getD j 0) r j := by
      intro r
      induction r with
      | zero => intro j; rfl
      | succ r ih => intro j; simp only [Bezier.dcv, Pi.add_apply, Pi.smul_apply, ih]
    rw [e, Bezier.dcv_diag, hW]
    simp [umb_lin_pow]
  have ds : ∀ i, Bezier.dcv (fun _ => t) H n n (some i)
      = ∑ k ∈ range (n + 1), bernstein n k t * w.getD k 0 * P.getD k 0 i := by
    intro i
    have e : ∀ r j, Bezier.dcv (fun _ => t) H r j (some i)
        = Bezier.dcv (V := K) (fun _ => t) (fun j => P.getD j 0 i * w.getD j 0) r j := by
      intro r
      induction r with
      | zero => intro j; rfl
      | succ r ih => intro j; simp only [Bezier.dcv, Pi.add_apply, Pi.smul_apply, ih]
    rw [e, Bezier.dcv_diag]
    simp only [prod_const, card_range, umb_lin_pow, smul_eq_mul]
    exact sum_congr rfl fun k _ => by ring
  have en := (tri_err R F t H (fun j => Q.getD j 0) (fun j => w.getD j 0) 1 le_rfl none
    (fun j => by simp only [hH]; rw [abs_of_nonneg (hwd j)])
    (fun j => by simp only [hH, hQn]; simp) n n).1
  rw [one_mul, hsum, ← hW, dn] at en
  have key : ∀ i M, (∀ x ∈ P, |x i| ≤ M) →
      tri (step R F fun _ => t) (fun j => Q.getD j 0) n n none ≠ 0 ∧
      |R.rnd (tri (step R F fun _ => t) (fun j => Q.getD j 0) n n (some i)
          / tri (step R F fun _ => t) (fun j => Q.getD j 0) n n none)
        - ratBezierPoint P w t i|
      ≤ ((1 + R.unit) * (1 + (((1 + R.unit) ^ (3 * n + 1) - 1) + ((1 + R.unit) ^ (3 * n) - 1))
              / (2 - (1 + R.unit) ^ (3 * n))) - 1) * M := by
    intro i M hM
    have hb : ∀ j, |P.getD j 0 i * w.getD j 0| ≤ M * w.getD j 0 := by
      intro j
      rw [abs_mul, abs_of_nonneg (hwd j)]
      exact mul_le_mul_of_nonneg_right (bound_getD hP hM j) (hwd j)
    obtain ⟨es, bs⟩ := tri_err R F t H (fun j => Q.getD j 0) (fun j => M * w.getD j 0) (1 + R.unit)
      (by linarith) (some i) (fun j => hb j)
      (fun j => by
        simp only [hH, hQs]
        refine le_trans (R.near _) ?_
        rw [add_sub_cancel_left]
        exact mul_le_mul_of_nonneg_left (hb j) hu) n n
    have eM : mag |1 - t| |t| (fun j => M * w.getD j 0) n n = M * W := by
      rw [hsum, hW, mul_sum]
      exact sum_congr rfl fun k _ => by ring
    rw [eM] at es bs
    rw [← pow_succ'] at es
    have := quot_err R hWpos bs es en hu2
    refine ⟨this.1, ?_⟩
    have ep : ratBezierPoint P w t i = Bezier.dcv (fun _ => t) H n n (some i) / W := by
      rw [ds, ratBezierPoint, ← hWdef, ← hn, show P.length = n + 1 by omega]
      simp only [Pi.smul_apply, smul_eq_mul, Finset.sum_apply]
      rw [div_eq_inv_mul]
    rw [ep]
    exact this.2
  have hne0 : tri (step R F fun _ => t) (fun j => Q.getD j 0) n n none ≠ 0 := by
    have hb := (abs_le.1 en).1
    have : 0 < (2 - (1 + R.unit) ^ (3 * n)) * W := mul_pos (by linarith) hWpos
    intro h
    rw [h] at hb
    linarith
  refine ⟨fun i => R.rnd (tri (step R F fun _ => t) (fun j => Q.getD j 0) n n (some i)
          / tri (step R F fun _ => t) (fun j => Q.getD j 0) n n none), ?_, fun i M hM => (key i M hM).2⟩
  unfold rationalEvaluate
  rw [homogenize_eq R P w hlen, ok_bind, ← hQ,
    bezierEvaluate_eq R F Q hQne false (t' := t) rfl, ok_bind, hQl, ← hn, assert_true hne0, ok_bind]
  rfl

end General

end NS.Fl
