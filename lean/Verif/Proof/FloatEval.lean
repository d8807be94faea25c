import Verif.Proof.FloatUnwrap
import Verif.Proof.BezierPatch

/-!
# Closed forms of the rounded evaluators
-/

set_option linter.unusedSectionVars false

namespace NS.Fl

open Outcome Finset Spec

variable {K ι : Type} [Field K] [LinearOrder K] [IsStrictOrderedRing K] [FloorRing K]

/-- Every coordinate of every point is a number of the format. -/
def Floats (R : Rounding K) (l : List (ι → K)) : Prop := ∀ p ∈ l, ∀ i, R.IsFloat (p i)

theorem getD_of_lt {V : Type} {l : List V} {j : ℕ} (d : V) (h : j < l.length) : l.getD j d = l[j] := by
  simp [h]

theorem getD_of_le {V : Type} {l : List V} {j : ℕ} (d : V) (h : l.length ≤ j) : l.getD j d = d := by
  simp [List.getD, List.getElem?_eq_none h]

theorem Floats.getD {R : Rounding K} {l : List (ι → K)} (h : Floats R l) (j : ℕ) (i : ι) :
    R.IsFloat (l.getD j 0 i) := by
  by_cases hj : j < l.length
  · rw [getD_of_lt _ hj]
    exact h _ (List.getElem_mem hj) i
  · rw [getD_of_le _ (not_lt.1 hj)]
    exact R.zero

theorem bound_getD {l : List (ι → K)} {M : K} {i : ι} (hl : l ≠ []) (h : ∀ p ∈ l, |p i| ≤ M)
    (j : ℕ) : |l.getD j 0 i| ≤ M := by
  by_cases hj : j < l.length
  · rw [getD_of_lt _ hj]
    exact h _ (List.getElem_mem hj)
  · rw [getD_of_le _ (not_lt.1 hj)]
    simpa using le_trans (abs_nonneg _) (h _ (List.head_mem hl))

theorem list_arr {V : Type} [Zero V] (l : List V) (hl : l ≠ []) :
    l = arr (l.length - 1 + 1) (fun j => l.getD j 0) := by
  have : l.length ≠ 0 := by simpa using hl
  rw [show l.length - 1 + 1 = l.length by omega]
  exact eq_arr l 0

theorem bezierEvaluate_arr (R : Rounding K) (F : ℕ → ℕ → ι → Fuse) (n : ℕ) (P : ℕ → ι → K)
    (per : Bool) {t t' : K} (ht : bezierWrap R per t = ok t') :
    bezierEvaluate R F { ctrl := arr (n + 1) P, periodic := per } t
      = ok (tri (step R F fun _ => t') P n n) := by
  unfold bezierEvaluate
  rw [ht, ok_bind]
  have hd : ({ ctrl := arr (n + 1) P, periodic := per } : Bezier (ι → K)).degree = (n : ℤ) := by
    simp [Bezier.degree]
  rw [hd, Int.toNat_natCast]
  exact bezierDeBoor_eq R F n t' n (n + 1) P (by omega) le_rfl

theorem bezierEvaluate_eq (R : Rounding K) (F : ℕ → ℕ → ι → Fuse) (l : List (ι → K)) (hl : l ≠ [])
    (per : Bool) {t t' : K} (ht : bezierWrap R per t = ok t') :
    bezierEvaluate R F { ctrl := l, periodic := per } t
      = ok (tri (step R F fun _ => t') (fun j => l.getD j 0) (l.length - 1) (l.length - 1)) := by
  have := bezierEvaluate_arr R F (l.length - 1) (fun j => l.getD j 0) per ht
  rwa [← list_arr l hl] at this

theorem dcv_bezierPoint (l : List (ι → K)) (hl : l ≠ []) (t : K) :
    Bezier.dcv (fun _ => t) (fun j => l.getD j 0) (l.length - 1) (l.length - 1)
      = bezierPoint l t := by
  rw [Bezier.dcv_diag]
  have := Bezier.arr_bezierPoint (l.length - 1) (fun j => l.getD j 0) t
  rw [← list_arr l hl] at this
  rw [this]
  simp

theorem abs_bernstein (n k : ℕ) (t : K) :
    |bernstein n k t| = (n.choose k : K) * |t| ^ k * |1 - t| ^ (n - k) := by
  simp [bernstein, abs_mul, abs_pow]

/-- On the unit interval the magnitudes do not grow. -/
theorem mag_unit {t : K} (h0 : 0 ≤ t) (h1 : t ≤ 1) {A : ℕ → K} {M : K} (hA : ∀ j, A j ≤ M) (r : ℕ) :
    ∀ j, mag |1 - t| |t| A r j ≤ M := by
  rw [abs_of_nonneg h0, abs_of_nonneg (by linarith : 0 ≤ 1 - t)]
  induction r with
  | zero => exact hA
  | succ r ih =>
    intro j
    have a := mul_le_mul_of_nonneg_left (ih j) h0
    have b := mul_le_mul_of_nonneg_left (ih (j - 1)) (by linarith : 0 ≤ 1 - t)
    rw [mag]
    linarith

/-- Contraction with the summands exchanged. -/
def swap : Fuse → Fuse
  | .none => .none
  | .first => .second
  | .second => .first

theorem combine_swap (R : Rounding K) (f : Fuse) (s a r b : K) :
    R.combine f s a r b = R.combine (swap f) r b s a := by
  cases f <;> simp [Rounding.combine, swap, add_comm]

/-! ### Derivative -/

theorem bezierDerivCoef_arr (R : Rounding K) (d n : ℕ) (P : ℕ → ι → K) (hd : d < n) :
    bezierDerivCoef R d (arr n P) = ok (arr n (fun j => if j < d then
      fun l => R.rnd ((d : K) * R.rnd (P (j + 1) l - P j l)) else P j)) := by
  unfold bezierDerivCoef
  have key := loop_eq
    (S := fun m => arr n (fun j => if j < m then
      fun l => R.rnd ((d : K) * R.rnd (P (j + 1) l - P j l)) else P j)) d
    (fun i c => do
      let a ← rd c (i + 1)
      let b ← rd c i
      wr c i (fun l => R.rnd ((d : K) * R.rnd (a l - b l)))) ?_
  · rw [← key]
    congr 1
  · intro i hi
    rw [rd_arr (by omega), ok_bind, rd_arr (by omega), ok_bind]
    apply wr_arr _ (by omega)
    intro j hj
    by_cases h : j = i
    · subst h; simp
    · have : j < i + 1 ↔ j < i := by omega
      simp [h, this]

theorem deriv_coef_err (R : Rounding K) (n a b : K) :
    |R.rnd (n * R.rnd (a - b)) - n * (a - b)| ≤ ((1 + R.unit) ^ 2 - 1) * |n * (a - b)| := by
  have hu := R.unit_nonneg
  have h1 := R.near (a - b)
  have h2 := R.near (n * R.rnd (a - b))
  have e : R.rnd (n * R.rnd (a - b)) - n * (a - b)
      = (R.rnd (n * R.rnd (a - b)) - n * R.rnd (a - b)) + n * (R.rnd (a - b) - (a - b)) := by ring
  have t1 := abs_add_le (R.rnd (n * R.rnd (a - b)) - n * R.rnd (a - b))
    (n * (R.rnd (a - b) - (a - b)))
  have t2 : |n * (R.rnd (a - b) - (a - b))| ≤ R.unit * |n * (a - b)| := by
    rw [abs_mul, abs_mul]
    have := mul_le_mul_of_nonneg_left h1 (abs_nonneg n)
    linarith
  have t3 : |n * R.rnd (a - b)| ≤ (1 + R.unit) * |n * (a - b)| := by
    have := abs_add_le (n * (R.rnd (a - b) - (a - b))) (n * (a - b))
    rw [show n * (R.rnd (a - b) - (a - b)) + n * (a - b) = n * R.rnd (a - b) by ring] at this
    linarith
  have t4 := mul_le_mul_of_nonneg_left t3 hu
  rw [e]
  linarith

theorem tri_congr {V : Type} (f : ℕ → ℕ → V → V → V) (P Q : ℕ → V) (r : ℕ) :
    ∀ j, (∀ i ≤ j, P i = Q i) → tri f P r j = tri f Q r j := by
  induction r with
  | zero => intro j h; exact h j le_rfl
  | succ r ih =>
    intro j h
    rw [tri, tri, ih j h, ih (j - 1) (fun i hi => h i (by omega))]

/-! ### Rational quotient -/

/-- Error of the rounded quotient of perturbed numbers. -/
theorem quot_err (R : Rounding K) {N W n w M a b : K} (hW : 0 < W) (hN : |N| ≤ M * W)
    (hn : |n - N| ≤ (a - 1) * (M * W)) (hw : |w - W| ≤ (b - 1) * W) (hb2 : b < 2) :
    w ≠ 0 ∧ |R.rnd (n / w) - N / W|
      ≤ ((1 + R.unit) * (1 + ((a - 1) + (b - 1)) / (2 - b)) - 1) * M := by
  have hu := R.unit_nonneg
  have hb := (abs_le.1 hw).1
  have hw0 : (2 - b) * W ≤ w := by linarith
  have h2b : 0 < 2 - b := by linarith
  have hwp : 0 < w := lt_of_lt_of_le (by positivity) hw0
  refine ⟨hwp.ne', ?_⟩
  have hM : 0 ≤ M := by
    by_contra hc
    push Not at hc
    have := mul_neg_of_neg_of_pos hc hW
    exact absurd (le_trans (abs_nonneg N) hN) (not_le.2 this)
  have hNW : |N / W| ≤ M := by
    rw [abs_div, abs_of_pos hW, div_le_iff₀ hW]; exact hN
  have hd : |n / w - N / W| ≤ ((a - 1) + (b - 1)) / (2 - b) * M := by
    have e : n / w - N / W = ((n - N) - (w - W) * (N / W)) / w := by field_simp; ring
    have t1 : |(n - N) - (w - W) * (N / W)| ≤ ((a - 1) + (b - 1)) * M * W := by
      refine le_trans (abs_sub _ _) ?_
      rw [abs_mul]
      have hbw : 0 ≤ (b - 1) * W := le_trans (abs_nonneg _) hw
      have := mul_le_mul hw hNW (abs_nonneg _) hbw
      linarith
    rw [e, abs_div, abs_of_pos hwp, div_le_iff₀ hwp]
    refine le_trans t1 ?_
    have hc : 0 ≤ ((a - 1) + (b - 1)) * M := by
      have := le_trans (abs_nonneg _) t1
      by_contra hc
      push Not at hc
      exact absurd this (not_le.2 (mul_neg_of_neg_of_pos hc hW))
    have := mul_le_mul_of_nonneg_left hw0 (div_nonneg hc h2b.le)
    rw [← mul_assoc, div_mul_cancel₀ _ h2b.ne'] at this
    linarith [show ((a - 1) + (b - 1)) / (2 - b) * M * w = ((a - 1) + (b - 1)) * M / (2 - b) * w by ring]
  have hq := R.near (n / w)
  have t2 : |n / w| ≤ (1 + ((a - 1) + (b - 1)) / (2 - b)) * M := by
    have := abs_add_le (n / w - N / W) (N / W)
    rw [sub_add_cancel] at this
    linarith
  have t3 := abs_add_le (R.rnd (n / w) - n / w) (n / w - N / W)
  rw [sub_add_sub_cancel] at t3
  have t4 := mul_le_mul_of_nonneg_left t2 hu
  linarith

/-- The rounded homogeneous control points. -/
def homPts (R : Rounding K) (P : List (ι → K)) (w : List K) : List (Option ι → K) :=
  List.zipWith (fun p w o => match o with
    | some i => R.rnd (p i * w)
    | none => w) P w

theorem homogenize_eq (R : Rounding K) (P : List (ι → K)) (w : List K) (h : P.length = w.length) :
    homogenize R P w = ok (homPts R P w) := by
  unfold homogenize
  rw [assert_true h, ok_bind]
  rfl

theorem homPts_length (R : Rounding K) (P : List (ι → K)) (w : List K) (h : P.length = w.length) :
    (homPts R P w).length = P.length := by simp [homPts, h]

theorem homPts_some (R : Rounding K) (P : List (ι → K)) (w : List K) (h : P.length = w.length)
    (j : ℕ) (i : ι) : (homPts R P w).getD j 0 (some i) = R.rnd (P.getD j 0 i * w.getD j 0) := by
  have hl := homPts_length R P w h
  by_cases hj : j < P.length
  · rw [getD_of_lt _ (by omega), getD_of_lt _ hj, getD_of_lt _ (by omega : j < w.length)]
    exact congrFun (List.getElem_zipWith ..) (some i)
  · rw [getD_of_le _ (by omega), getD_of_le _ (not_lt.1 hj)]
    simp [R.zero]

theorem homPts_none (R : Rounding K) (P : List (ι → K)) (w : List K) (h : P.length = w.length)
    (j : ℕ) : (homPts R P w).getD j 0 none = w.getD j 0 := by
  have hl := homPts_length R P w h
  by_cases hj : j < P.length
  · rw [getD_of_lt _ (by omega), getD_of_lt _ (by omega : j < w.length)]
    exact congrFun (List.getElem_zipWith ..) none
  · rw [getD_of_le _ (by omega), getD_of_le _ (by omega : w.length ≤ j)]
    rfl

/-! ### B-splines -/

/-- Non-empty spans of the domain are still longer than the threshold after rounding. -/
def FlWide (R : Rounding K) (c : BSpline K (ι → K)) (p : ℕ) : Prop :=
  ∀ i, p ≤ i → i < c.ctrl.length → knot c.knots i < knot c.knots (i + 1) →
    R.rnd (1 / 10 ^ 16) < R.rnd (knot c.knots (i + 1) - knot c.knots i)

theorem FlWide.wide {R : Rounding K} {c : BSpline K (ι → K)} {p : ℕ} (h : FlWide R c p) :
    BSpline.Wide c p := by
  intro i h1 h2 h3
  by_contra hc
  exact absurd (h i h1 h2 h3) (not_lt.2 (R.mono _ _ (not_lt.1 hc)))

open BSpline in
/-- The rounded evaluator on the located span. -/
theorem bsplineEvaluate_eq (R : Rounding K) (F : ℕ → ℕ → ι → Fuse) {c : BSpline K (ι → K)} {p : ℕ}
    (hc : WellFormed c p) {t t' : K} (ht : bsplineWrap R c t = ok t')
    (hf : FirstSpan c p ∨ knot c.knots p < t') (h1 : knot c.knots p ≤ t')
    (h2 : t' ≤ knot c.knots c.ctrl.length) :
    ∃ k, p ≤ k ∧ k < c.ctrl.length ∧ knot c.knots k < knot c.knots (k + 1) ∧
      InSpan (knot c.knots) (knot c.knots c.ctrl.length) k t' ∧
      bsplineEvaluate R F c t = ok (tri (stepB R F p (loc (knot c.knots) k p) t')
        (fun j => c.ctrl.getD (k - p + j) 0) p p) := by
  obtain ⟨k, Q, hk, hin⟩ := exists_atSpan hc t' hf h1 h2
  have hl := hc.len
  have hlt := hk.lt
  refine ⟨k, hk.le, hk.lt, hk.ne, hin, ?_⟩
  unfold bsplineEvaluate
  rw [validate_ok hc, ok_bind, ht, ok_bind, hk.loc, ok_bind, degree_eq hc,
    assert_true (by omega), ok_bind]
  simp only [Int.toNat_natCast]
  rw [spanCtrl_eq c p k hk.le hk.lt, ok_bind]
  exact bsplineDeBoor_eq R F c t' p (p + 1) k _ (by omega) (by rw [degree_eq hc]; simp) hk.le
    (by omega)

open BSpline in
/-- The Cox-de Boor sum as de Boor scheme on a span. -/
theorem dB_bsplinePoint {c : BSpline K (ι → K)} {p : ℕ} (hc : WellFormed c p) (hw : Wide c p)
    {t : K} {k : ℕ} (hpk : p ≤ k) (hk : k < c.ctrl.length)
    (hne : knot c.knots k < knot c.knots (k + 1))
    (hin : InSpan (knot c.knots) (knot c.knots c.ctrl.length) k t)
    (hf : FirstSpan c p ∨ knot c.knots p < t) (h1 : knot c.knots p ≤ t)
    (h2 : t ≤ knot c.knots c.ctrl.length) :
    dB p (loc (knot c.knots) k p) (fun _ => t) (fun j => c.ctrl.getD (k - p + j) 0) p p
      = bsplinePoint p c.knots c.ctrl t := by
  have hl := hc.len
  obtain ⟨Q, hQ⟩ := exists_repr hc.sorted (fun i => c.ctrl.getD i 0) hpk (by omega) hne
  rw [dB_repr hc.sorted hpk (by omega) hne hQ t]
  set c' : BSpline K (ι → K) := { c with periodic := false }
  have hc' : WellFormed c' p := ⟨hc.len, hc.sdeg, hc.ctrl, hc.sorted, hc.dom⟩
  have hat := atSpan_of_inSpan hc' (t := t) hf hpk hk hin hQ
  have e1 := evaluate_of_span hc' (t := t) hw rfl hat
  have e2 := evaluate_eq hc' hw (t := t) (t' := t) rfl hf h1 h2
  rw [e1] at e2
  injection e2

end NS.Fl
