import Verif.Proof.FloatUnwrap
import Verif.Props.Float

/-!
# Properties C81, C83-C85: further properties of the evaluators in floating point arithmetic
-/

set_option linter.unusedSectionVars false

namespace NS.Fl

open Outcome Finset Spec

/-- IEEE double precision without overflow and underflow. -/
abbrev double : Rounding ℚ := binary 53 (by decide)

section General

variable {K ι : Type} [Field K] [LinearOrder K] [IsStrictOrderedRing K] [FloorRing K]

/-! ### Helpers -/

theorem combine_nonpos (R : Rounding K) (f : Fuse) {s a r b : K} (hs : 0 ≤ s) (ha : a ≤ 0)
    (hr : 0 ≤ r) (hb : b ≤ 0) : R.combine f s a r b ≤ 0 := by
  have e : R.combine f s a r b = -R.combine f s (-a) r (-b) := by
    cases f <;> simp only [Rounding.combine, mul_neg, R.odd, ← neg_add, neg_neg]
  rw [e]
  have := combine_nonneg R f hs (neg_nonneg.2 ha) hr (neg_nonneg.2 hb)
  linarith

theorem tri_nonpos (R : Rounding K) (F : ℕ → ℕ → ι → Fuse) {t : K} (h0 : 0 ≤ t) (h1 : t ≤ 1)
    (P : ℕ → ι → K) (i : ι) (hP : ∀ j, P j i ≤ 0) (r : ℕ) :
    ∀ j, tri (step R F fun _ => t) P r j i ≤ 0 := by
  induction r with
  | zero => exact hP
  | succ r ih =>
    intro j
    exact combine_nonpos R _ h0 (ih _) (R.nonneg (by linarith)) (ih _)

theorem triB_sign (R : Rounding K) (F : ℕ → ℕ → ι → Fuse) (p : ℕ) (v : ℕ → K) (t : K)
    (hv : ∀ i j, 1 ≤ i → i ≤ j → j ≤ 2 * p → v i ≤ v j) (h1 : v p ≤ t) (h2 : t ≤ v (p + 1))
    (P : ℕ → ι → K) (i : ι) (r : ℕ) : r ≤ p → ∀ j, r ≤ j → j ≤ p →
    ((∀ j, 0 ≤ P j i) → 0 ≤ tri (stepB R F p v t) P r j i) ∧
      ((∀ j, P j i ≤ 0) → tri (stepB R F p v t) P r j i ≤ 0) := by
  induction r with
  | zero => intro _ j _ _; exact ⟨fun h => h j, fun h => h j⟩
  | succ r ih =>
    intro hr j hj hjp
    have b1 : v j ≤ t := le_trans (hv j p (by omega) hjp (by omega)) h1
    have b2 : t ≤ v (p + j - r) := le_trans h2 (hv (p + 1) _ (by omega) (by omega) (by omega))
    have c := coef_mem R b1 b2
    have a1 := ih (by omega) j (by omega) hjp
    have a2 := ih (by omega) (j - 1) (by omega) (by omega)
    have c' : 0 ≤ R.rnd (1 - coef R (v (p + j - r)) (v j) t) := R.nonneg (by linarith [c.2])
    simp only [tri, stepB, Nat.add_sub_cancel]
    exact ⟨fun h => combine_nonneg R _ c' (a2.1 h) c.1 (a1.1 h),
      fun h => combine_nonpos R _ c' (a2.2 h) c.1 (a1.2 h)⟩

theorem bezierPoint_range (l : List (ι → K)) (hl : l ≠ []) {t : K} (h0 : 0 ≤ t) (h1 : t ≤ 1) (i : ι)
    {a b : K} (hab : ∀ x ∈ l, a ≤ x i ∧ x i ≤ b) :
    a ≤ bezierPoint l t i ∧ bezierPoint l t i ≤ b := by
  have hpos : 0 < l.length := List.length_pos_of_ne_nil hl
  have hs := bernstein_sum (l.length - 1) t
  rw [show l.length - 1 + 1 = l.length by omega] at hs
  have hb : ∀ j, 0 ≤ bernstein (l.length - 1) j t := fun j => by
    unfold bernstein
    have : 0 ≤ 1 - t := by linarith
    positivity
  have hm : ∀ j ∈ range l.length, a ≤ l.getD j 0 i ∧ l.getD j 0 i ≤ b := by
    intro j hj
    rw [getD_of_lt _ (mem_range.1 hj)]
    exact hab _ (List.getElem_mem _)
  have e : bezierPoint l t i = ∑ j ∈ range l.length, bernstein (l.length - 1) j t * l.getD j 0 i := by
    simp [bezierPoint, Finset.sum_apply]
  rw [e]
  constructor
  · calc a = ∑ j ∈ range l.length, bernstein (l.length - 1) j t * a := by
          rw [← sum_mul, hs, one_mul]
      _ ≤ _ := sum_le_sum fun j hj => mul_le_mul_of_nonneg_left (hm j hj).1 (hb j)
  · calc _ ≤ ∑ j ∈ range l.length, bernstein (l.length - 1) j t * b :=
          sum_le_sum fun j hj => mul_le_mul_of_nonneg_left (hm j hj).2 (hb j)
      _ = b := by rw [← sum_mul, hs, one_mul]

open BSpline in
theorem bspline_wrap_eval {R : Rounding K} (F : ℕ → ℕ → ι → Fuse) {c : BSpline K (ι → K)} {d : ℕ}
    (hc : WellFormed c d) (hf : FirstSpan c d) {t t' : K}
    (hu : unwrap R (knot c.knots d) (knot c.knots c.ctrl.length) t = ok t')
    (h1 : knot c.knots d ≤ t') (h2 : t' ≤ knot c.knots c.ctrl.length) :
    ∃ q, bsplineEvaluate R F { c with periodic := true } t = ok q ∧
      bsplineEvaluate R F { c with periodic := false } t' = ok q := by
  have c1 : WellFormed { c with periodic := true } d := ⟨hc.len, hc.sdeg, hc.ctrl, hc.sorted, hc.dom⟩
  have w : bsplineWrap R { c with periodic := true } t = ok t' := by
    unfold bsplineWrap
    rw [if_pos rfl, lower_eq c1, ok_bind, upper_eq c1, ok_bind]
    exact hu
  obtain ⟨k, -, -, -, -, e⟩ := bsplineEvaluate_eq R F c1 w (Or.inl hf) h1 h2
  refine ⟨_, e, ?_⟩
  rw [← e]
  unfold bsplineEvaluate
  rw [validate_ok c1, ok_bind, w, ok_bind]
  have c0 : WellFormed { c with periodic := false } d :=
    ⟨hc.len, hc.sdeg, hc.ctrl, hc.sorted, hc.dom⟩
  rw [validate_ok c0, ok_bind, show bsplineWrap R { c with periodic := false } t' = ok t' from rfl,
    ok_bind]
  rfl

/-! ### C81: end points of rational curves -/

/-- C81: a rational curve returns its first control point up to two roundings, and bit by bit when
the product with the weight is a number of the format (for example a weight of one).  Missing: the
exact end point for other weights, which is refuted below. -/
theorem C81_rational_first_partial (R : Rounding K) (F : ℕ → ℕ → Option ι → Fuse) (P : List (ι → K))
    (w : List K) (hP : P ≠ []) (hlen : P.length = w.length) (hw : ∀ x ∈ w, x ≠ 0 ∧ R.IsFloat x)
    (hf : Floats R P) :
    ∃ q, rationalEvaluate R F P w false 0 = ok q ∧
      (∀ i, |q i - P.head hP i| ≤ ((1 + R.unit) ^ 2 - 1) * |P.head hP i|) ∧
      ∀ i, R.IsFloat (P.head hP i * w.getD 0 0) → q i = P.head hP i := by
  have hu := R.unit_nonneg
  have hpos : 0 < P.length := List.length_pos_of_ne_nil hP
  have h0 : w.getD 0 0 ∈ w := by
    rw [getD_of_lt _ (by omega : 0 < w.length)]; exact List.getElem_mem _
  have hQl := homPts_length R P w hlen
  have hQne : homPts R P w ≠ [] := by intro h; rw [h] at hQl; simp at hQl; omega
  have hQf : ∀ j o, R.IsFloat ((homPts R P w).getD j 0 o) := by
    intro j o
    cases o with
    | none =>
      rw [homPts_none R P w hlen]
      by_cases hj : j < w.length
      · rw [getD_of_lt _ hj]; exact (hw _ (List.getElem_mem hj)).2
      · rw [getD_of_le _ (not_lt.1 hj)]; exact R.zero
    | some i => rw [homPts_some R P w hlen]; exact R.idem _
  have hhead : P.getD 0 0 = P.head hP := by rw [getD_of_lt _ hpos, List.head_eq_getElem]
  have ev : rationalEvaluate R F P w false 0
      = ok fun i => R.rnd (R.rnd (P.head hP i * w.getD 0 0) / w.getD 0 0) := by
    unfold rationalEvaluate
    rw [homogenize_eq R P w hlen, ok_bind, bezierEvaluate_eq R F _ hQne false (t' := 0) rfl, ok_bind,
      tri_zero R F _ hQf, Nat.sub_self, homPts_none R P w hlen, assert_true (hw _ h0).1, ok_bind,
      pure_eq]
    congr 1
    funext i
    rw [homPts_some R P w hlen, hhead]
  refine ⟨_, ev, fun i => ?_, fun i hi => ?_⟩
  · generalize P.head hP i = a
    have hw0 := (hw _ h0).1
    generalize w.getD 0 0 = b at *
    have e1 := R.near (a * b)
    have e2 := R.near (R.rnd (a * b) / b)
    have hb : 0 < |b| := abs_pos.2 hw0
    have e3 : |R.rnd (a * b) / b - a| ≤ R.unit * |a| := by
      have : R.rnd (a * b) / b - a = (R.rnd (a * b) - a * b) / b := by field_simp
      rw [this, abs_div, div_le_iff₀ hb, mul_assoc, ← abs_mul]
      exact e1
    have e4 : |R.rnd (a * b) / b| ≤ (1 + R.unit) * |a| := by
      have := abs_add_le (R.rnd (a * b) / b - a) a
      rw [sub_add_cancel] at this
      linarith
    have e5 := abs_add_le (R.rnd (R.rnd (a * b) / b) - R.rnd (a * b) / b) (R.rnd (a * b) / b - a)
    rw [sub_add_sub_cancel] at e5
    have e6 := mul_le_mul_of_nonneg_left e4 hu
    nlinarith
  · have e1 : R.rnd (P.head hP i * w.getD 0 0) = P.head hP i * w.getD 0 0 := hi
    rw [e1, mul_div_cancel_right₀ _ (hw _ h0).1]
    exact hf _ (List.head_mem hP) i

/-! ### C84: signs and bounds -/

/-- C84: on the unit interval a coordinate that is nowhere negative (positive) at the control points
of a Bézier curve is nowhere negative (positive) on the computed curve. -/
theorem C84_bezier_sign (R : Rounding K) (F : ℕ → ℕ → ι → Fuse) (l : List (ι → K)) (hl : l ≠ [])
    {t : K} (h0 : 0 ≤ t) (h1 : t ≤ 1) :
    ∃ q, bezierEvaluate R F { ctrl := l } t = ok q ∧
      (∀ i, (∀ x ∈ l, 0 ≤ x i) → 0 ≤ q i) ∧ (∀ i, (∀ x ∈ l, x i ≤ 0) → q i ≤ 0) := by
  refine ⟨_, bezierEvaluate_eq R F l hl false (t' := t) rfl, fun i hi => ?_, fun i hi => ?_⟩
  · refine tri_nonneg R F h0 h1 _ i (fun j => ?_) _ _
    by_cases hj : j < l.length
    · rw [getD_of_lt _ hj]; exact hi _ (List.getElem_mem hj)
    · rw [getD_of_le _ (not_lt.1 hj)]; exact le_rfl
  · refine tri_nonpos R F h0 h1 _ i (fun j => ?_) _ _
    by_cases hj : j < l.length
    · rw [getD_of_lt _ hj]; exact hi _ (List.getElem_mem hj)
    · rw [getD_of_le _ (not_lt.1 hj)]; exact le_rfl

/-- C84: the computed curve leaves the range of its control points by at most the rounding
error. -/
theorem C84_bezier_range (R : Rounding K) (F : ℕ → ℕ → ι → Fuse) (l : List (ι → K)) (hl : l ≠ [])
    {t : K} (h0 : 0 ≤ t) (h1 : t ≤ 1) :
    ∃ q, bezierEvaluate R F { ctrl := l } t = ok q ∧ ∀ i a b M, (∀ x ∈ l, a ≤ x i ∧ x i ≤ b) →
      (∀ x ∈ l, |x i| ≤ M) →
      a - ((1 + R.unit) ^ (3 * (l.length - 1)) - 1) * M ≤ q i ∧
        q i ≤ b + ((1 + R.unit) ^ (3 * (l.length - 1)) - 1) * M := by
  have hu := R.unit_nonneg
  refine ⟨_, bezierEvaluate_eq R F l hl false (t' := t) rfl, fun i a b M hab hM => ?_⟩
  have h := (tri_err R F t (fun j => l.getD j 0) (fun j => l.getD j 0) (fun j => |l.getD j 0 i|) 1
    le_rfl i (fun _ => le_rfl) (fun j => by simp) (l.length - 1) (l.length - 1)).1
  have hm := mag_unit h0 h1 (A := fun j => |l.getD j 0 i|) (bound_getD hl hM) (l.length - 1)
    (l.length - 1)
  have g : 0 ≤ (1 + R.unit) ^ (3 * (l.length - 1)) - 1 :=
    sub_nonneg.2 (one_le_pow₀ (by linarith))
  rw [one_mul] at h
  have h' := abs_le.1 (le_trans h (mul_le_mul_of_nonneg_left hm g))
  rw [dcv_bezierPoint l hl] at h'
  have hr := bezierPoint_range l hl h0 h1 i hab
  constructor <;> linarith [h'.1, h'.2, hr.1, hr.2]

/-- C84: signs on the domain of a B-spline. -/
theorem C84_bspline_sign (R : Rounding K) (F : ℕ → ℕ → ι → Fuse) {c : BSpline K (ι → K)} {p : ℕ}
    (hc : BSpline.WellFormed c p) (hper : c.periodic = false) {t : K}
    (hf : BSpline.FirstSpan c p ∨ knot c.knots p < t) (h1 : knot c.knots p ≤ t)
    (h2 : t ≤ knot c.knots c.ctrl.length) :
    ∃ q, bsplineEvaluate R F c t = ok q ∧
      (∀ i, (∀ x ∈ c.ctrl, 0 ≤ x i) → 0 ≤ q i) ∧ (∀ i, (∀ x ∈ c.ctrl, x i ≤ 0) → q i ≤ 0) := by
  have hl := hc.len
  have wrap : bsplineWrap R c t = ok t := by simp [bsplineWrap, hper]
  obtain ⟨k, a1, a2, a3, a4, a5⟩ := bsplineEvaluate_eq R F hc wrap hf h1 h2
  have e1 : k - p + p = k := by omega
  have e2 : k - p + (p + 1) = k + 1 := by omega
  have hin : knot c.knots k ≤ t ∧ t ≤ knot c.knots (k + 1) := by
    rw [InSpan] at a4
    split_ifs at a4 with h
    · exact ⟨by rw [h, ← a4.2]; exact a3.le, by rw [h, a4.2]⟩
    · exact ⟨a4.1, a4.2.le⟩
  have m : ∀ i j, 1 ≤ i → i ≤ j → j ≤ 2 * p →
      BSpline.loc (knot c.knots) k p i ≤ BSpline.loc (knot c.knots) k p j :=
    BSpline.loc_mono hc.sorted a1 (by omega)
  have b1 : BSpline.loc (knot c.knots) k p p ≤ t := by simp only [BSpline.loc, e1]; exact hin.1
  have b2 : t ≤ BSpline.loc (knot c.knots) k p (p + 1) := by
    simp only [BSpline.loc, e2]; exact hin.2
  refine ⟨_, a5, fun i hi => ?_, fun i hi => ?_⟩
  · refine (triB_sign R F p _ t m b1 b2 _ i p le_rfl p le_rfl le_rfl).1 (fun j => ?_)
    by_cases hj : k - p + j < c.ctrl.length
    · rw [getD_of_lt _ hj]; exact hi _ (List.getElem_mem hj)
    · rw [getD_of_le _ (not_lt.1 hj)]; exact le_rfl
  · refine (triB_sign R F p _ t m b1 b2 _ i p le_rfl p le_rfl le_rfl).2 (fun j => ?_)
    by_cases hj : k - p + j < c.ctrl.length
    · rw [getD_of_lt _ hj]; exact hi _ (List.getElem_mem hj)
    · rw [getD_of_le _ (not_lt.1 hj)]; exact le_rfl

/-! ### C85: splitting -/

/-- C85: splitting keeps the end points, the pieces share the join and every control point is within
the rounding error of the exact one, whatever the compiler contracts. -/
theorem C85_split (R : Rounding K) (F : ℕ → ℕ → ι → Fuse) (l : List (ι → K)) (hl : l ≠ [])
    (per : Bool) {t : K} (h0 : 0 < t) (h1 : t < 1) :
    ∃ A B A' B', bezierSplit R F { ctrl := l, periodic := per } t = ok [{ ctrl := A }, { ctrl := B }] ∧
      Bezier.split { ctrl := l, periodic := per } t = ok [{ ctrl := A' }, { ctrl := B' }] ∧
      A.length = l.length ∧ B.length = l.length ∧
      A.getD 0 0 = l.getD 0 0 ∧ B.getD (l.length - 1) 0 = l.getD (l.length - 1) 0 ∧
      A.getD (l.length - 1) 0 = B.getD 0 0 ∧
      ∀ i M, (∀ x ∈ l, |x i| ≤ M) → ∀ j, j < l.length →
        |A.getD j 0 i - A'.getD j 0 i| ≤ ((1 + R.unit) ^ (3 * j) - 1) * M ∧
        |B.getD j 0 i - B'.getD j 0 i| ≤ ((1 + R.unit) ^ (3 * (l.length - 1 - j)) - 1) * M := by
  have hpos : 0 < l.length := List.length_pos_of_ne_nil hl
  set P : ℕ → ι → K := fun j => l.getD j 0 with hP
  have el : l = arr l.length P := eq_arr l 0
  have hv : isSplitPointValid 0 1 t = true := by simp [isSplitPointValid, h0, h1]
  obtain ⟨x, hx⟩ := bezierSplitLoop_arr R F t l.length P
  have g : ∀ (n : ℕ) (f : ℕ → ι → K) j, j < n → (arr n f).getD j 0 = f j := by
    intro n f j hj
    rw [getD_of_lt _ (by simpa using hj)]
    simp [arr]
  refine ⟨arr l.length (fun i => spl R F t P i 0), arr l.length (fun i => spl R F t P (l.length - 1 - i) i),
    arr l.length (fun i => Bezier.dcs t P i 0),
    arr l.length (fun i => Bezier.dcs t P (l.length - 1 - i) i), ?_, ?_, by simp, by simp, ?_, ?_, ?_, ?_⟩
  · unfold bezierSplit
    rw [if_pos hv]
    simp only
    rw [el] at hx ⊢
    simp only [arr_length] at hx ⊢
    rw [hx]
    rfl
  · have := Bezier.split_arr l.length P per t h0 h1
    rw [← el] at this
    rw [this]
    simp only [Bezier.dcs_eq_umb, pow_zero, mul_one]
  · rw [g _ _ _ hpos]; rfl
  · rw [g _ _ _ (by omega), Nat.sub_self]; rfl
  · rw [g _ _ _ (by omega), g _ _ _ hpos]; rfl
  · intro i M hM j hj
    rw [g _ _ _ hj, g _ _ _ hj, g _ _ _ hj, g _ _ _ hj]
    exact ⟨(spl_err R F h0.le h1.le P M i (bound_getD hl hM) j 0).1,
      (spl_err R F h0.le h1.le P M i (bound_getD hl hM) (l.length - 1 - j) j).1⟩

/-- C85: when nothing is contracted, the join is the very point that evaluation returns.  Missing:
the same with contraction, which is refuted below. -/
theorem C85_join_partial (R : Rounding K) (l : List (ι → K)) (hl : l ≠ []) {t : K} (h0 : 0 < t)
    (h1 : t < 1) :
    ∃ A B, bezierSplit R (fun _ _ _ => .none) { ctrl := l } t = ok [{ ctrl := A }, { ctrl := B }] ∧
      bezierEvaluate R (fun _ _ _ => .none) { ctrl := l } t = ok (B.getD 0 0) ∧
      A.getD (l.length - 1) 0 = B.getD 0 0 := by
  have hpos : 0 < l.length := List.length_pos_of_ne_nil hl
  set P : ℕ → ι → K := fun j => l.getD j 0 with hP
  have el : l = arr l.length P := eq_arr l 0
  have hv : isSplitPointValid 0 1 t = true := by simp [isSplitPointValid, h0, h1]
  obtain ⟨x, hx⟩ := bezierSplitLoop_arr R (fun _ _ _ => .none) t l.length P
  have g : ∀ (n : ℕ) (f : ℕ → ι → K) j, j < n → (arr n f).getD j 0 = f j := by
    intro n f j hj
    rw [getD_of_lt _ (by simpa using hj)]
    simp [arr]
  refine ⟨arr l.length (fun i => spl R (fun _ _ _ => .none) t P i 0),
    arr l.length (fun i => spl R (fun _ _ _ => .none) t P (l.length - 1 - i) i),
    ?_, ?_, ?_⟩
  · unfold bezierSplit
    rw [if_pos hv]
    simp only
    rw [el] at hx ⊢
    simp only [arr_length] at hx ⊢
    rw [hx]
    rfl
  · rw [bezierEvaluate_eq R _ l hl false (t' := t) rfl, g _ _ _ hpos, spl_eq_tri]
    simp [hP]
  · rw [g _ _ _ (by omega), g _ _ _ hpos]; rfl

/-! ### C83: periodic curves -/

/-- C83: evaluating a periodic Bézier curve in a binary format never aborts: it is the evaluation at
the wrapped parameter, which is exact for parameters that are not negative. -/
theorem C83_bezier_periodic {p : ℕ} (hp : 1 ≤ p) (F : ℕ → ℕ → ι → Fuse) (l : List (ι → K))
    (hl : l ≠ []) {t : K} (ht : (binary p hp : Rounding K).IsFloat t) :
    ∃ s t' q, unwrapParameter 0 1 t = ok s ∧ t' = (binary p hp : Rounding K).rnd s ∧
      (0 ≤ t → t' = s) ∧ 0 ≤ t' ∧ t' ≤ 1 ∧
      bezierEvaluate (binary p hp) F { ctrl := l, periodic := true } t = ok q ∧
      bezierEvaluate (binary p hp) F { ctrl := l } t' = ok q := by
  obtain ⟨t', s, e1, e2, e3, e4, e5, e6⟩ := unwrap_zero hp one_pos
    (binary p hp : Rounding K).one ht
  refine ⟨s, t', _, e4, e6, e5, e2, e3, ?_, bezierEvaluate_eq _ F l hl false (t' := t') rfl⟩
  exact bezierEvaluate_eq _ F l hl true (t' := t') (by simpa [bezierWrap] using e1)

/-- C83: so does a periodic B-spline whose domain starts at zero. -/
theorem C83_bspline_periodic_zero {p : ℕ} (hp : 1 ≤ p) (F : ℕ → ℕ → ι → Fuse)
    {c : BSpline K (ι → K)} {d : ℕ} (hc : BSpline.WellFormed c d) (hf : BSpline.FirstSpan c d)
    (h0 : knot c.knots d = 0) (hb : (binary p hp : Rounding K).IsFloat (knot c.knots c.ctrl.length))
    {t : K} (ht : (binary p hp : Rounding K).IsFloat t) :
    ∃ s t' q, unwrapParameter 0 (knot c.knots c.ctrl.length) t = ok s ∧
      t' = (binary p hp : Rounding K).rnd s ∧ (0 ≤ t → t' = s) ∧
      0 ≤ t' ∧ t' ≤ knot c.knots c.ctrl.length ∧
      bsplineEvaluate (binary p hp) F { c with periodic := true } t = ok q ∧
      bsplineEvaluate (binary p hp) F { c with periodic := false } t' = ok q := by
  have hdom := hc.dom
  rw [h0] at hdom
  obtain ⟨t', s, e1, e2, e3, e4, e5, e6⟩ := unwrap_zero hp hdom hb ht
  obtain ⟨q, h1, h2⟩ := bspline_wrap_eval (R := binary p hp) F hc hf (t := t) (t' := t')
    (by rw [h0]; exact e1) (by rw [h0]; exact e2) e3
  exact ⟨s, t', q, e4, e6, e5, e2, e3, h1, h2⟩

/-- C83: on any domain a periodic B-spline can be evaluated from the start of the domain on.
Missing: parameters before the domain, which is refuted below. -/
theorem C83_bspline_periodic_partial {p : ℕ} (hp : 1 ≤ p) (F : ℕ → ℕ → ι → Fuse)
    {c : BSpline K (ι → K)} {d : ℕ} (hc : BSpline.WellFormed c d) (hf : BSpline.FirstSpan c d)
    (ha : (binary p hp : Rounding K).IsFloat (knot c.knots d))
    (hb : (binary p hp : Rounding K).IsFloat (knot c.knots c.ctrl.length)) {t : K}
    (ht : knot c.knots d ≤ t) :
    ∃ t' q, knot c.knots d ≤ t' ∧ t' ≤ knot c.knots c.ctrl.length ∧
      bsplineEvaluate (binary p hp) F { c with periodic := true } t = ok q ∧
      bsplineEvaluate (binary p hp) F { c with periodic := false } t' = ok q := by
  obtain ⟨t', e1, e2, e3⟩ := unwrap_forward hp hc.dom ha hb ht
  obtain ⟨q, h1, h2⟩ := bspline_wrap_eval (R := binary p hp) F hc hf (t := t) (t' := t') e1 e2 e3
  exact ⟨t', q, e2, e3, h1, h2⟩

end General

/-! ### Refutations in double precision -/

/-- No contraction. -/
abbrev plain {ι : Type} : ℕ → ℕ → ι → Fuse := fun _ _ _ => .none

/-- `0.1`. -/
def tenth : ℚ := 3602879701896397 / 2 ^ 55

/-- C81 refuted for rational curves: the line from `0.1` with weight `0.1` starts at
`0.10000000000000002`. -/
theorem C81_rational_first_refuted :
    ∃ q, rationalEvaluate double plain [fun _ : Fin 1 => tenth, fun _ => 1] [tenth, 1] false 0 = ok q ∧
      q 0 = 7205759403792795 / 2 ^ 56 ∧ q 0 ≠ tenth := by
  have h : (rationalEvaluate double plain [fun _ : Fin 1 => tenth, fun _ => 1] [tenth, 1] false 0
      >>= fun q => ok (q 0)) = ok (7205759403792795 / 2 ^ 56) := by decide +kernel
  revert h
  cases rationalEvaluate double plain [fun _ : Fin 1 => tenth, fun _ => 1] [tenth, 1] false 0 with
  | ok q =>
    intro h
    rw [ok_bind, ok.injEq] at h
    exact ⟨q, rfl, h, by rw [h]; decide +kernel⟩
  | throw e => intro h; cases h
  | ub => intro h; cases h

/-- C84 refuted for the hull: the constant curve `3` evaluates to less than `3` at `0.3`. -/
theorem C84_hull_refuted :
    ∃ q, bezierEvaluate double plain { ctrl := [fun _ : Fin 1 => 3, fun _ => 3] }
      (5404319552844595 / 2 ^ 54) = ok q ∧ q 0 = 3 - 1 / 2 ^ 51 := by
  have h : (bezierEvaluate double plain { ctrl := [fun _ : Fin 1 => 3, fun _ => 3] }
      (5404319552844595 / 2 ^ 54) >>= fun q => ok (q 0)) = ok (3 - 1 / 2 ^ 51) := by decide +kernel
  revert h
  cases bezierEvaluate double plain { ctrl := [fun _ : Fin 1 => (3 : ℚ), fun _ => 3] }
      (5404319552844595 / 2 ^ 54) with
  | ok q =>
    intro h
    rw [ok_bind, ok.injEq] at h
    exact ⟨q, rfl, h⟩
  | throw e => intro h; cases h
  | ub => intro h; cases h

/-- The periodic B-spline of degree one on `[-1, 3.9]`. -/
def wrapCurve : BSpline ℚ (Fin 1 → ℚ) :=
  { ctrl := [fun _ => 0, fun _ => 0],
    knots := [-1, -1, 8782019273372467 / 2251799813685248, 8782019273372467 / 2251799813685248],
    periodic := true }

/-- C83 refuted before the domain: in double precision the wrapped parameter of the number before
`-1` leaves the domain `[-1, 3.9]` and the assertion fails. -/
theorem C83_below_refuted (F : ℕ → ℕ → Fin 1 → Fuse) :
    bsplineEvaluate double F wrapCurve (-1 - 1 / 2 ^ 52) = ub ∧
      BSpline.WellFormed wrapCurve 1 ∧ BSpline.FirstSpan wrapCurve 1 := by
  refine ⟨?_, ⟨by decide, by decide, by decide, by decide +kernel, by decide +kernel⟩,
    by unfold BSpline.FirstSpan; decide +kernel⟩
  have w : bsplineWrap double wrapCurve (-1 - 1 / 2 ^ 52) = ub := by decide +kernel
  have v : wrapCurve.validate = ok () := by decide +kernel
  unfold bsplineEvaluate
  rw [v, ok_bind, w]
  rfl

/-- C85 refuted with contraction: a compiler fusing the first product of every sum makes the
evaluation of the line from `1` to `3` at `0.1` differ from the join of the pieces. -/
theorem C85_join_refuted :
    ∃ A B q, bezierSplit double (fun _ _ _ => .first)
        { ctrl := [fun _ : Fin 1 => 1, fun _ => 3] } tenth = ok [A, B] ∧
      bezierEvaluate double (fun _ _ _ => .first)
        { ctrl := [fun _ : Fin 1 => 1, fun _ => 3] } tenth = ok q ∧
      B.ctrl.getD 0 0 ≠ q := by
  obtain ⟨A, B, A', B', h, -⟩ := C85_split double (fun _ _ _ => .first)
    [fun _ : Fin 1 => (1 : ℚ), fun _ => 3] (by simp) false (t := tenth) (by decide +kernel)
    (by decide +kernel)
  have e := bezierEvaluate_eq double (fun _ _ _ => .first) [fun _ : Fin 1 => (1 : ℚ), fun _ => 3]
    (by simp) false (t := tenth) (t' := tenth) rfl
  refine ⟨_, _, _, h, e, ?_⟩
  have d1 : (bezierSplit double (fun _ _ _ => .first)
      { ctrl := [fun _ : Fin 1 => 1, fun _ => 3] } tenth >>= fun l =>
        ok ((l.getD 1 { ctrl := [] }).ctrl.getD 0 0 0)) = ok (5404319552844596 / 2 ^ 52) := by
    decide +kernel
  have d2 : (bezierEvaluate double (fun _ _ _ => .first)
      { ctrl := [fun _ : Fin 1 => 1, fun _ => 3] } tenth >>= fun q => ok (q 0))
        = ok (5404319552844595 / 2 ^ 52) := by decide +kernel
  rw [h, ok_bind, ok.injEq] at d1
  rw [e, ok_bind, ok.injEq] at d2
  intro hq
  have := congrFun hq 0
  rw [d2] at this
  simp only [List.getD_cons_succ, List.getD_cons_zero] at d1
  rw [d1] at this
  exact absurd this (by decide +kernel)

/-! ### Cases meeting the hypotheses -/

/-- Control points `0.1, 3, -1/4` of a curve in double precision. -/
def someCtrl : List (Fin 1 → ℚ) := [fun _ => tenth, fun _ => 3, fun _ => -1 / 4]

theorem someCtrl_floats : Floats double someCtrl := by
  intro x hx i
  simp only [someCtrl, List.mem_cons, List.not_mem_nil, or_false] at hx
  have h : double.IsFloat tenth ∧ double.IsFloat 3 ∧ double.IsFloat (-1 / 4) := by
    unfold Rounding.IsFloat; decide +kernel
  rcases hx with rfl | rfl | rfl
  exacts [h.1, h.2.1, h.2.2]

/-- The hypotheses of `C81_bezier_ends`. -/
example : someCtrl ≠ [] ∧ Floats double someCtrl := ⟨by simp [someCtrl], someCtrl_floats⟩

/-- A clamped B-spline of degree one on `[-1, 3]`, with a knot at `0.1`. -/
def someSpline : BSpline ℚ (Fin 1 → ℚ) :=
  { ctrl := someCtrl, knots := [-1, -1, tenth, 3, 3] }

theorem someSpline_wf : BSpline.WellFormed someSpline 1 :=
  ⟨by decide, by decide, by decide, by decide +kernel, by decide +kernel⟩

/-- The hypotheses of `C81_bspline_ends`, `C82_bspline_error` and `C84_bspline_sign`. -/
example : BSpline.WellFormed someSpline 1 ∧ someSpline.periodic = false ∧ FlWide double someSpline 1 ∧
    Floats double someSpline.ctrl ∧ BSpline.FirstSpan someSpline 1 ∧
    (∀ j, 1 ≤ j → j ≤ 1 → knot someSpline.knots j = knot someSpline.knots 1) ∧
    knot someSpline.knots 2 < knot someSpline.knots 3 ∧
    (∀ j, 3 ≤ j → j < 4 → knot someSpline.knots j = knot someSpline.knots 3) ∧
    double.unit < 1 := by
  refine ⟨someSpline_wf, rfl, ?_, someCtrl_floats, by unfold BSpline.FirstSpan; decide +kernel, ?_,
    by decide +kernel, ?_, by decide +kernel⟩
  · intro i h1 h2 _
    have h2 : i < 3 := h2
    interval_cases i <;> decide +kernel
  · intro j h1 h2; interval_cases j; rfl
  · intro j h1 h2; interval_cases j; rfl

/-- A patch of degrees one and two: the hypotheses of `C81_patch_corners` and `C82_patch_error`. -/
example : ∃ p : BezierPatch (Fin 1 → ℚ), p.WellFormed 1 2 ∧ p.perU = false ∧ p.perV = false ∧
    Floats double p.grid := by
  refine ⟨{ grid := someCtrl ++ someCtrl, degU := 1, degV := 2 }, ⟨rfl, rfl, rfl⟩, rfl, rfl, ?_⟩
  intro x hx
  exact someCtrl_floats x ((List.mem_append.1 hx).elim id id)

/-- The hypotheses of `C82_rational_error` and `C81_rational_first_partial`. -/
example : someCtrl.length = [tenth, 1, 2].length ∧ (∀ x ∈ [tenth, 1, 2], 0 < x) ∧
    (∀ x ∈ [tenth, 1, 2], x ≠ 0 ∧ double.IsFloat x) ∧
    (1 + double.unit) ^ (3 * (someCtrl.length - 1)) < 2 := by
  refine ⟨rfl, by decide +kernel, ?_, by decide +kernel⟩
  intro x hx
  simp only [List.mem_cons, List.not_mem_nil, or_false] at hx
  rcases hx with rfl | rfl | rfl <;> (unfold Rounding.IsFloat; decide +kernel)

/-- The hypotheses of `C83_bezier_periodic`: `-0.1` is a number of the format. -/
example : double.IsFloat (-tenth) := by unfold Rounding.IsFloat; decide +kernel

/-- The hypotheses of `C83_bspline_periodic_partial`, with a parameter behind the domain. -/
example : BSpline.FirstSpan someSpline 1 ∧ double.IsFloat (knot someSpline.knots 1) ∧
    double.IsFloat (knot someSpline.knots someSpline.ctrl.length) ∧ knot someSpline.knots 1 ≤ 100 := by
  refine ⟨by unfold BSpline.FirstSpan; decide +kernel, ?_, ?_, by decide +kernel⟩ <;>
    (unfold Rounding.IsFloat; decide +kernel)

/-- The hypotheses of `C83_bspline_periodic_zero`. -/
example : ∃ c : BSpline ℚ (Fin 1 → ℚ), BSpline.WellFormed c 1 ∧ BSpline.FirstSpan c 1 ∧
    knot c.knots 1 = 0 ∧ double.IsFloat (knot c.knots c.ctrl.length) := by
  refine ⟨{ ctrl := someCtrl, knots := [0, 0, tenth, 3, 3] },
    ⟨by decide, by decide, by decide, by decide +kernel, by decide +kernel⟩,
    by unfold BSpline.FirstSpan; decide +kernel, rfl, ?_⟩
  unfold Rounding.IsFloat; decide +kernel

/-- The hypotheses of `C85_split` and `C85_join_partial`. -/
example : someCtrl ≠ [] ∧ 0 < tenth ∧ tenth < 1 :=
  ⟨by simp [someCtrl], by decide +kernel, by decide +kernel⟩

end NS.Fl
