import Mathlib.Data.Rat.Floor
import Verif.Props.Ieee

/-!
# Property C104: infinities, NaN and overflow
-/

set_option linter.unusedSectionVars false

namespace NS.Ieee

open Outcome Spec

section General

variable {K ι : Type} [Field K] [LinearOrder K] [IsStrictOrderedRing K] [FloorRing K]

/-! ### Bézier curves -/

/-- C104: a NaN parameter gives NaN in every coordinate of a curve of degree at least 1. -/
theorem C104_bezier_nan (A : Format K) (F : ℕ → ℕ → ι → Fuse) (l : List (ι → Num K))
    (hl : 2 ≤ l.length) : bezierEvaluate A F { ctrl := l } .nan = ok fun _ => .nan := by
  rw [bezierEvaluate_eq A F l (by rintro rfl; simp at hl) false (t' := .nan) rfl]
  congr 1
  funext i
  exact tri_nan_param A F _ (by omega) _ i

/-- C104: an infinite parameter never gives a finite coordinate. -/
theorem C104_bezier_infinite (A : Format K) (F : ℕ → ℕ → ι → Fuse) (l : List (ι → Num K))
    (hl : 2 ≤ l.length) (s : Bool) :
    ∃ q, bezierEvaluate A F { ctrl := l } (.inf s) = ok q ∧ ∀ i, (q i).special :=
  ⟨_, bezierEvaluate_eq A F l (by rintro rfl; simp at hl) false (t' := .inf s) rfl,
    fun i => tri_special_param A F (t := .inf s) trivial _ (by omega) _ i⟩

/-- C104: an infinite or NaN coordinate of any control point is never lost: no parameter, not even
that of the other end, gives a finite value for that coordinate. -/
theorem C104_bezier_bad_point (A : Format K) (F : ℕ → ℕ → ι → Fuse) (l : List (ι → Num K))
    {x : ι → Num K} (hx : x ∈ l) {i : ι} (hi : (x i).special) (t : Num K) :
    ∃ q, bezierEvaluate A F { ctrl := l } t = ok q ∧ (q i).special := by
  refine ⟨_, bezierEvaluate_eq A F l (List.ne_nil_of_mem hx) false (t' := t) rfl, ?_⟩
  obtain ⟨k, hk, rfl⟩ := List.getElem_of_mem hx
  refine tri_special_ctrl (fun r j x y h => ?_) _ _ _ le_rfl ⟨k, by omega, by omega, ?_⟩
  · simp only [step]
    apply A.combine_special
    rcases h with h | h
    · exact Or.inr h
    · exact Or.inl (Or.inr h)
  · simpa [hk] using hi

theorem unwrap_special (A : Format K) (a b : K) {t : Num K} (ht : t.special) :
    unwrap A (.fin a) (.fin b) t = ub := by
  have h1 : A.round (Num.add (Num.fmod (A.sub t (.fin a)) (A.sub (.fin b) (.fin a))) (.fin a))
      = .nan := by
    have : Num.fmod (A.sub t (.fin a)) (A.sub (.fin b) (.fin a)) = .nan := by
      cases t with
      | fin x => exact absurd ht id
      | inf s => cases A.sub (.fin b) (.fin a) <;> rfl
      | nan => cases A.sub (.fin b) (.fin a) <;> rfl
    rw [this]; rfl
  unfold unwrap
  simp only [h1, Num.lt, Bool.false_eq_true, if_false, Num.le]
  rw [assert_false (by simp)]
  rfl

/-- C104: on a periodic curve an infinite or NaN parameter violates the assertion of the wrap. -/
theorem C104_periodic_special (A : Format K) (F : ℕ → ℕ → ι → Fuse) (l : List (ι → Num K))
    {t : Num K} (ht : t.special) :
    bezierEvaluate A F { ctrl := l, periodic := true } t = ub ∧
      ∀ {c : BSpline K (ι → Num K)} {p : ℕ}, BSpline.WellFormed (skel c) p → c.periodic = true →
        bsplineEvaluate A F c t = ub := by
  constructor
  · unfold bezierEvaluate bezierWrap
    simp only [if_true]
    rw [unwrap_special A _ _ ht]
    rfl
  · intro c p hc hp
    have hl : c.lower = ok (knot c.knots p) := by
      have := BSpline.lower_eq hc
      unfold BSpline.lower BSpline.degree at this ⊢
      simpa only [skel, List.length_replicate] using this
    have hu : c.upper = ok (knot c.knots c.ctrl.length) := by
      have := BSpline.upper_eq hc
      unfold BSpline.upper BSpline.degree at this ⊢
      simpa only [skel, List.length_replicate] using this
    have hv : c.validate = ok () := by
      have := BSpline.validate_ok hc
      unfold BSpline.validate BSpline.degree at this ⊢
      simpa only [skel, List.length_replicate] using this
    unfold bsplineEvaluate bsplineWrap
    rw [hv, ok_bind, if_pos hp, hl, ok_bind, hu, ok_bind, unwrap_special A _ _ ht]
    rfl

/-- C104: NaN and the infinities are outside of the domain for `in_domain`, so that operations that
test it reject them. -/
theorem C104_in_domain (A : Format K) {eps : K} (h0 : 0 ≤ eps) (h1 : 1 + eps ≤ A.big) {t : Num K}
    (ht : t.special) : bezierInDomain A eps t = false := by
  have hb := A.one_le_big
  have e1 : A.sub (.fin 0) (.fin eps) = .fin (A.rnd (0 - eps)) :=
    A.sub_fin (by rw [zero_sub, abs_neg, abs_of_nonneg h0]; linarith)
  have e2 : A.round (Num.add (.fin 1) (.fin eps)) = .fin (A.rnd (1 + eps)) :=
    A.round_fin (A.abs_le_big (by rw [abs_of_nonneg (by linarith)]; exact h1))
  unfold bezierInDomain
  rw [e1, e2]
  cases t with
  | fin x => exact absurd ht id
  | inf s => cases s <;> rfl
  | nan => rfl

/-! ### B-splines -/

theorem stepB_special (A : Format K) (F : ℕ → ℕ → ι → Fuse) (p : ℕ) (v : ℕ → K) {t : Num K}
    (ht : t.special) (P : ℕ → ι → Num K) (hp : p ≠ 0) (hb : |v (p + 1) - v p| ≤ A.big)
    (hw : A.rnd (BSpline.tiny K) < A.rnd (v (p + 1) - v p)) (i : ι) :
    (tri (stepB A F p v t) P p p i).special ∧
      (t = .nan → tri (stepB A F p v t) P p p i = .nan) := by
  obtain ⟨r, rfl⟩ := Nat.exists_eq_succ_of_ne_zero hp
  have htiny : |A.rnd (BSpline.tiny K)| ≤ A.big := by
    apply A.abs_le_big
    rw [abs_of_nonneg tiny_nonneg]
    exact tiny_le_one.trans A.one_le_big
  have hpos : 0 < A.rnd (v (r + 1 + 1) - v (r + 1)) := lt_of_le_of_lt (A.nonneg tiny_nonneg) hw
  have hco : (coef A (v (r + 1 + 1)) (v (r + 1)) t).special ∧
      (t = .nan → coef A (v (r + 1 + 1)) (v (r + 1)) t = .nan) := by
    unfold coef
    simp only [A.sub_fin hb, A.round_fin htiny, Num.lt, decide_eq_true hw, if_true]
    cases t with
    | fin x => exact absurd ht id
    | inf s => exact ⟨trivial, fun h => by cases h⟩
    | nan => exact ⟨trivial, fun _ => rfl⟩
  have e : r + 1 + (r + 1) - r = r + 1 + 1 := by omega
  simp only [tri, stepB, Nat.succ_eq_add_one, Nat.add_sub_cancel, e]
  refine ⟨?_, fun h => ?_⟩
  · rw [A.combine_swap_num]
    exact A.combine_special _ (Or.inl (Or.inl hco.1))
  · rw [hco.2 h]
    exact A.combine_nan_third _ _ _ _

theorem bypassAfter_spec {u : List K} {n : ℕ} (hn : n < u.length) : ∀ f i, n - i ≤ f → i < n →
    knot u (n - 1) < knot u n →
    ∃ k, BSpline.bypassAfter u f i = ok k ∧ i ≤ k ∧ k < n ∧ knot u k ≠ knot u (k + 1) := by
  intro f
  induction f with
  | zero => intro i h1 h2; omega
  | succ f ih =>
    intro i h1 h2 h3
    rw [BSpline.bypassAfter, if_pos (by omega), BSpline.rd_knot (by omega), ok_bind,
      BSpline.rd_knot (by omega), ok_bind]
    by_cases h : knot u i = knot u (i + 1)
    · rw [if_pos h]
      have hi : i + 1 < n := by
        by_contra hc
        have e : i = n - 1 := by omega
        rw [e, show n - 1 + 1 = n by omega] at h
        exact h3.ne h
      obtain ⟨k, k1, k2, k3, k4⟩ := ih (i + 1) (by omega) hi h3
      exact ⟨k, k1, by omega, k3, k4⟩
    · rw [if_neg h]
      exact ⟨i, rfl, le_rfl, h2, h⟩

/-- C104: NaN and infinite parameters never give finite points of a B-spline of degree at least 1
whose first and last spans are not empty; NaN gives NaN in every coordinate. -/
theorem C104_bspline_special (A : Format K) (F : ℕ → ℕ → ι → Fuse) {c : BSpline K (ι → Num K)} {p : ℕ}
    (hp : p ≠ 0) (hc : BSpline.WellFormed (skel c) p) (hper : c.periodic = false)
    (hfirst : knot c.knots p < knot c.knots (p + 1))
    (hlast : knot c.knots (c.ctrl.length - 1) < knot c.knots c.ctrl.length)
    (hkb : ∀ i, p ≤ i → i < c.ctrl.length → knot c.knots (i + 1) - knot c.knots i ≤ A.big)
    (hw : WideI A c.knots c.ctrl.length p) {t : Num K} (ht : t.special) :
    ∃ q, bsplineEvaluate A F c t = ok q ∧ (∀ i, (q i).special) ∧ (t = .nan → ∀ i, q i = .nan) := by
  have hl : c.knots.length = c.ctrl.length + p + 1 := by simpa [skel] using hc.len
  have hn : p + 1 ≤ c.ctrl.length := by simpa [skel] using hc.ctrl
  have hd : c.degree = p := by unfold BSpline.degree; rw [hl]; push_cast; ring
  have loc : ∃ k : ℕ, locateSpan c t = ok (k : ℤ) ∧ p ≤ k ∧ k < c.ctrl.length ∧
      knot c.knots k < knot c.knots (k + 1) := by
    unfold locateSpan
    rw [assert_true (by omega), ok_bind, hd]
    simp only [Int.toNat_natCast]
    rw [BSpline.rd_knot (by omega), ok_bind, show c.knots.length - p - 1 = c.ctrl.length by omega]
    cases t with
    | fin x => exact absurd ht id
    | inf s =>
      cases s with
      | true =>
        exact ⟨p, by simp [Num.le], le_rfl, by omega, hfirst⟩
      | false =>
        obtain ⟨j, j1, j2, j3, j4⟩ := BSpline.bypassBefore_spec c.knots c.ctrl.length (by omega)
        have hj : j = c.ctrl.length := by
          by_contra hne
          exact hlast.ne (j3 (c.ctrl.length - 1) (by omega) (by omega))
        refine ⟨c.ctrl.length - 1, ?_, by omega, by omega, ?_⟩
        · simp only [Num.le, Bool.false_eq_true, if_false]
          rw [BSpline.rd_knot (by omega), ok_bind]
          simp only [Bool.not_false, if_true]
          rw [j1, ok_bind, hj]
          congr 1
          omega
        · rwa [show c.ctrl.length - 1 + 1 = c.ctrl.length by omega]
    | nan =>
      obtain ⟨k, k1, k2, k3, k4⟩ := bypassAfter_spec (u := c.knots) (n := c.ctrl.length) (by omega)
        c.knots.length ((c.ctrl.length + p) / 2) (by omega) (by omega) hlast
      refine ⟨k, ?_, by omega, k3, lt_of_le_of_ne
        (BSpline.knot_mono hc.sorted (Nat.le_succ k) (show k + 1 < c.knots.length by omega)) k4⟩
      simp only [Num.le, Bool.false_eq_true, if_false]
      rw [BSpline.rd_knot (by omega), ok_bind]
      have hs : search c.knots .nan c.knots.length p c.ctrl.length
          = ok ((c.ctrl.length + p) / 2) := by
        rw [hl, search, BSpline.rd_knot (by omega), ok_bind]
        simp only [Num.lt, Num.le, Bool.false_eq_true, if_false]
        rw [BSpline.rd_knot (by omega), ok_bind]
      rw [hs, ok_bind, k1, ok_bind]
  obtain ⟨k, k1, k2, k3, k4⟩ := loc
  have e1 : k - p + p = k := by omega
  have e2 : k - p + (p + 1) = k + 1 := by omega
  have key := stepB_special A F p (BSpline.loc (knot c.knots) k p) ht
    (fun j => c.ctrl.getD (k - p + j) 0) hp
    (by
      simp only [BSpline.loc, e1, e2]
      rw [abs_of_pos (by linarith)]
      exact hkb k k2 k3)
    (by simp only [BSpline.loc, e1, e2]; exact hw k k2 k3 k4)
  exact ⟨_, bsplineEvaluate_at A F hc (by simp [bsplineWrap, hper]) k1 k2 k3,
    fun i => (key i).1, fun h i => (key i).2 h⟩

/-- C104: points of a B-spline only depend on the control points whose knot interval contains the
parameter; infinities and NaN elsewhere do no harm. -/
theorem C104_bspline_local (A : Format K) (F : ℕ → ℕ → ι → Fuse) {c d : BSpline K (ι → Num K)} {p : ℕ}
    (hc : BSpline.WellFormed (skel c) p) (hper : c.periodic = false) (hk : d.knots = c.knots)
    (hlen : d.ctrl.length = c.ctrl.length) (hp : d.periodic = c.periodic) (hs : d.sdeg = c.sdeg)
    {t : K} (hf : knot c.knots p < knot c.knots (p + 1) ∨ knot c.knots p < t)
    (h1 : knot c.knots p ≤ t) (h2 : t ≤ knot c.knots c.ctrl.length)
    (heq : ∀ j, knot c.knots j ≤ t → t ≤ knot c.knots (j + p + 1) →
      d.ctrl.getD j 0 = c.ctrl.getD j 0) :
    bsplineEvaluate A F d (.fin t) = bsplineEvaluate A F c (.fin t) := by
  have hsk : skel d = skel c := by simp [skel, hk, hlen, hp, hs]
  have hl : c.knots.length = c.ctrl.length + p + 1 := by simpa [skel] using hc.len
  obtain ⟨k, a1, a2, a3, a4, a5, a6, a7⟩ := BSpline.locateSpan_spec hc t hf
  have elen : (skel c).ctrl.length = c.ctrl.length := by simp [skel]
  rw [elen] at a3 a5 a7
  change knot c.knots k < knot c.knots (k + 1) at a4
  change knot c.knots p ≤ t → t < knot c.knots c.ctrl.length →
    knot c.knots k ≤ t ∧ t < knot c.knots (k + 1) at a5
  change knot c.knots c.ctrl.length ≤ t → knot c.knots (k + 1) = knot c.knots c.ctrl.length at a7
  have hbd : knot c.knots k ≤ t ∧ t ≤ knot c.knots (k + 1) := by
    rcases h2.eq_or_lt with h | h
    · have := a7 h.ge
      rw [this]
      exact ⟨by rw [h, ← this]; exact a4.le, h2⟩
    · exact ⟨(a5 h1 h).1, (a5 h1 h).2.le⟩
  have ec := bsplineEvaluate_at A F hc (t := .fin t) (t' := .fin t)
    (by simp [bsplineWrap, hper]) (by rw [locateSpan_fin]; exact a1) a2 a3
  have ed := bsplineEvaluate_at A F (c := d) (p := p) (by rw [hsk]; exact hc) (t := .fin t)
    (t' := .fin t) (by simp [bsplineWrap, hp, hper]) (by rw [locateSpan_fin, hsk]; exact a1) a2
    (by omega)
  rw [ec, ed, hk]
  congr 1
  apply Fl.tri_congr
  intro j hj
  have s := hc.sorted
  exact heq _ ((BSpline.knot_mono s (by omega) (show k < c.knots.length by omega)).trans hbd.1)
    (hbd.2.trans (BSpline.knot_mono s (by omega)
      (show k - p + j + p + 1 < c.knots.length by omega)))

end General

/-! ### IEEE double precision -/

/-- IEEE 754 double: 53 bits, smallest number `2^-1074`, largest number `(2^53 - 1) 2^971`. -/
def double : Format ℚ := binary 53 (-1074) 971 (by norm_num) (by norm_num) (by norm_num)

/-- IEEE 754 single: 24 bits, smallest number `2^-149`, largest number `(2^24 - 1) 2^104`. -/
def single : Format ℚ := binary 24 (-149) 104 (by norm_num) (by norm_num) (by norm_num)

theorem double_safe : double.Safe := binary_safe _ _ _

theorem single_safe : single.Safe := binary_safe _ _ _

/-- C104 for doubles: a relative part for rounding and one smallest number per degree for underflow. -/
theorem C104_double {ι : Type} (F : ℕ → ℕ → ι → Fuse) (l : List (ι → ℚ)) (hl : l ≠ [])
    (hb : ∀ x ∈ l, ∀ i, |x i| ≤ (2 ^ 53 - 1) * 2 ^ 971) {t : ℚ} (ht : rndSub 53 (-1074) t = t)
    (h0 : 0 ≤ t) (h1 : t ≤ 1) :
    ∃ q, bezierEvaluate double F { ctrl := l.map lift } (.fin t) = ok (lift q) ∧
      ∀ i M, (∀ x ∈ l, |x i| ≤ M) →
        |q i - bezierPoint l t i| ≤ (1 + (1 / 2) ^ 53) ^ (3 * (l.length - 1)) *
          (M + (l.length - 1 : ℕ) * (2 : ℚ) ^ (-1074 : ℤ)) - M := by
  have hbig : double.big = (2 ^ 53 - 1) * 2 ^ 971 := by
    change ((2 ^ 53 - 1 : ℤ) : ℚ) * 2 ^ (971 : ℤ) = _
    norm_num
  obtain ⟨q, e, h⟩ := C104_bezier double_safe F l hl (fun x hx i => hbig ▸ hb x hx i) ht h0 h1
  refine ⟨q, e, fun i M hM => ?_⟩
  have := (h i).2 M hM
  have e2 : (2 : ℚ) * (l.length - 1 : ℕ) * double.eta
      = (l.length - 1 : ℕ) * (2 : ℚ) ^ (-1074 : ℤ) := by
    change (2 : ℚ) * (l.length - 1 : ℕ) * ((2 : ℚ) ^ (-1074 : ℤ) / 2) = _
    ring
  rw [e2] at this
  exact this

/-- No contraction. -/
abbrev plain {κ : Type} : ℕ → ℕ → κ → Fuse := fun _ _ _ => .none

/-- C104 refuted for derivatives: control points at the two ends of the range have an infinite
derivative, although the curve is finite everywhere. -/
theorem C104_derivative_refuted :
    (bezierDerivative double plain
      { ctrl := [fun _ : Fin 1 => .fin (-double.big), fun _ => .fin double.big] } (.fin (1 / 2)) >>=
        fun q => ok (q 0)) = ok (.inf false) := by
  decide +kernel

/-- C104 refuted for rational curves: the products of the points by the weights overflow, although
point and weight are in the middle of the range (`2^600`). -/
theorem C104_rational_refuted :
    (rationalEvaluate double plain [fun _ : Fin 1 => .fin (2 ^ 600), fun _ => .fin (2 ^ 600)]
      [.fin (2 ^ 600), .fin (2 ^ 600)] false (.fin (1 / 2)) >>= fun q => ok (q 0))
        = ok (.inf false) ∧
    (rationalEvaluate double plain [fun _ : Fin 1 => .fin (1 / 2 ^ 600), fun _ => .fin (1 / 2 ^ 600)]
      [.fin (1 / 2 ^ 600), .fin (1 / 2 ^ 600)] false (.fin (1 / 2)) >>= fun q => ok (q 0))
        = ok (.fin 0) := by
  decide +kernel

/-- C104 refuted for infinite control points: the curve does not start at its finite first control
point when the last one is infinite. -/
theorem C104_infinite_end_refuted :
    (bezierEvaluate double plain { ctrl := [fun _ : Fin 1 => .fin 1, fun _ => .inf false] } (.fin 0)
      >>= fun q => ok (q 0)) = ok .nan := by
  decide +kernel

/-- A linear spline with a knot of multiplicity four at the end. -/
def multEnd : BSpline ℚ (Fin 1 → Num ℚ) :=
  { ctrl := [fun _ => .fin 0, fun _ => .fin 1, fun _ => .fin 2, fun _ => .fin 3],
    knots := [0, 0, 1, 1, 1, 1] }

/-- C104 refuted for B-splines with a knot of higher multiplicity at the end: finite parameters are
fine, but NaN makes the evaluation read control points out of range. -/
theorem C104_bspline_nan_refuted :
    BSpline.WellFormed (skel multEnd) 1 ∧
    (bsplineEvaluate double plain multEnd (.fin 1) >>= fun q => ok (q 0)) = ok (.fin 1) ∧
    (bsplineEvaluate double plain multEnd .nan >>= fun q => ok (q 0)) = ub := by
  refine ⟨⟨rfl, Or.inl rfl, by decide, by decide +kernel, by decide +kernel⟩, ?_, ?_⟩ <;> decide +kernel

/-! ### Instances of the hypotheses -/

/-- Control points at both ends of the range and in between. -/
def extreme : List (Fin 2 → ℚ) :=
  [![double.big, 2 ^ (-1074 : ℤ)], ![double.big, -double.big], ![-double.big, 1]]

theorem extreme_range : ∀ x ∈ extreme, ∀ i, |x i| ≤ double.big := by decide +kernel

theorem extreme_float : ∀ x ∈ extreme, ∀ i, double.rnd (x i) = x i := by decide +kernel

example : ∃ q, bezierEvaluate double plain { ctrl := extreme.map lift } (.fin (3 / 8)) = ok (lift q) :=
  (C104_bezier double_safe plain extreme (by simp [extreme]) extreme_range
    (show double.rnd (3 / 8) = 3 / 8 by decide +kernel) (by norm_num) (by norm_num)).imp
    fun _ h => h.1

example : bezierEvaluate double plain { ctrl := extreme.map lift } (.fin 0)
    = ok (lift ![double.big, 2 ^ (-1074 : ℤ)]) :=
  (C104_bezier_ends double_safe plain extreme (by simp [extreme]) extreme_range extreme_float).1

/-- Halves of the smallest number round to zero, so the constant curve at the smallest number is zero in
the middle: the absolute term of the bound is needed. -/
example : (bezierEvaluate double plain { ctrl := [fun _ : Fin 1 => .fin (2 ^ (-1074 : ℤ)),
    fun _ => .fin (2 ^ (-1074 : ℤ))] } (.fin (1 / 2)) >>= fun q => ok (q 0)) = ok (.fin 0) := by
  decide +kernel

/-- Control points up to `2^1000`. -/
def steep : ℕ → Fin 1 → ℚ := fun j _ => if j = 0 then 0 else 2 ^ 1000

example : ∃ q e, bezierDerivative double plain { ctrl := (arr (1 + 2) steep).map lift } (.fin (1 / 2))
    = ok (lift q) ∧
    Bezier.evaluateDerivative { ctrl := arr (1 + 2) steep } (1 / 2 : ℚ) = ok e := by
  obtain ⟨q, e, h1, h2, -⟩ := C104_derivative_partial double_safe plain 1 steep
    (fun j i => by
      unfold steep
      split_ifs
      · exact double.zero
      · exact (by decide +kernel : double.rnd (2 ^ 1000) = 2 ^ 1000))
    (M := 2 ^ 1000)
    (fun j i => by
      unfold steep
      split_ifs
      · simp
      · exact (abs_of_nonneg (by positivity)).le)
    (by decide +kernel) (t := 1 / 2) (show double.rnd (1 / 2) = 1 / 2 by decide +kernel)
    (by norm_num) (by norm_num)
  exact ⟨q, e, h1, h2⟩

/-- A quadratic spline with control points at the ends of the range. -/
def wild : BSpline ℚ (Fin 1 → ℚ) :=
  { ctrl := [fun _ => double.big, fun _ => -double.big, fun _ => 2 ^ (-1074 : ℤ), fun _ => double.big],
    knots := [0, 0, 0, 1 / 2, 1, 1, 1] }

theorem wild_wide : WideI double wild.knots wild.ctrl.length 2 := by
  intro i h1 h2
  have : i = 2 ∨ i = 3 := by
    have : wild.ctrl.length = 4 := rfl
    omega
  rcases this with rfl | rfl <;> decide +kernel

example : ∃ q, bsplineEvaluate double plain (liftSpline wild) (.fin (3 / 4)) = ok (lift q) :=
  (C104_bspline double_safe (show double.unit < 1 by decide +kernel) plain (c := wild) (p := 2)
    ⟨rfl, Or.inl rfl, by decide, by decide +kernel, by decide +kernel⟩ rfl (by decide +kernel)
    (show ∀ x ∈ wild.knots, double.rnd x = x by decide +kernel) (by decide +kernel) wild_wide
    (show double.rnd (3 / 4) = 3 / 4 by decide +kernel) (Or.inr (by decide +kernel))
    (by decide +kernel) (by decide +kernel)).imp fun _ h => h.1

example : ∃ q, bsplineEvaluate double plain (liftSpline wild) .nan = ok q ∧ ∀ i, q i = .nan :=
  (C104_bspline_special double plain (c := liftSpline wild) (p := 2) (by norm_num)
    (skel_wf (c := wild) ⟨rfl, Or.inl rfl, by decide, by decide +kernel, by decide +kernel⟩) rfl
    (by decide +kernel) (by decide +kernel)
    (by
      intro i h1 h2
      have : i = 2 ∨ i = 3 := by
        have : (liftSpline wild).ctrl.length = 4 := rfl
        omega
      rcases this with rfl | rfl <;> decide +kernel) wild_wide (t := .nan) trivial).imp
    fun _ h => ⟨h.1, h.2.2 rfl⟩

/-- The last control point of `wild` replaced by NaN. -/
def wildNan : BSpline ℚ (Fin 1 → Num ℚ) :=
  { liftSpline wild with ctrl := ((liftSpline wild).ctrl.take 3) ++ [fun _ => .nan] }

example : bsplineEvaluate double plain wildNan (.fin (1 / 4))
    = bsplineEvaluate double plain (liftSpline wild) (.fin (1 / 4)) := by
  refine C104_bspline_local double plain (c := liftSpline wild) (d := wildNan) (p := 2)
    (skel_wf (c := wild) ⟨rfl, Or.inl rfl, by decide, by decide +kernel, by decide +kernel⟩) rfl rfl rfl
    rfl rfl (t := 1 / 4) (Or.inl (by decide +kernel)) (by decide +kernel) (by decide +kernel) ?_
  intro j h1 h2
  match j with
  | 0 => rfl
  | 1 => rfl
  | 2 => rfl
  | 3 => exact absurd h1 (by decide +kernel)
  | j + 4 => rfl

/-- Weights between `1` and `2` and points up to `2^900`. -/
example : ∃ q, rationalEvaluate double plain ([fun _ : Fin 1 => 2 ^ 900, fun _ => (-1 : ℚ)].map lift)
    ([1, 2].map .fin) false (.fin (1 / 4)) = ok (lift q) :=
  (C104_rational_partial double_safe plain [fun _ : Fin 1 => 2 ^ 900, fun _ => (-1 : ℚ)] [1, 2]
    (by simp) rfl (lo := 1) (hi := 2) (X := 2 ^ 900) (by norm_num) (by decide +kernel)
    (by decide +kernel) (by decide +kernel) (by decide +kernel) rfl rfl (by decide +kernel) rfl
    (by decide +kernel) (show double.rnd (1 / 4) = 1 / 4 by decide +kernel) (by norm_num)
    (by norm_num)).imp fun _ h => h.1

/-- A bilinear patch with corners at the ends of the range. -/
def wildPatch : BezierPatch (Fin 1 → ℚ) :=
  { grid := [fun _ => double.big, fun _ => -double.big, fun _ => double.big, fun _ => 1], degU := 1,
    degV := 1 }

example : ∃ q, patchEvaluate double (fun _ => plain) plain (liftPatch wildPatch) (.fin (1 / 2))
    (.fin (1 / 4)) = ok (lift q) := by
  obtain ⟨q, e, h, -⟩ := C104_patch double_safe (fun _ => plain) plain wildPatch 1 1
    ⟨rfl, rfl, rfl⟩ rfl rfl (by decide +kernel) (u := 1 / 2) (v := 1 / 4)
    (show double.rnd (1 / 2) = 1 / 2 by decide +kernel)
    (show double.rnd (1 / 4) = 1 / 4 by decide +kernel) (by norm_num) (by norm_num) (by norm_num)
    (by norm_num)
  exact ⟨q, h⟩

end NS.Ieee
