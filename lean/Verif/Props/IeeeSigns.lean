import Verif.Props.IeeeSpecial
import Verif.Props.IeeeSearch

/-!
# Properties C104 and C105: which infinity, and when NaN
-/

set_option linter.unusedSectionVars false

namespace NS.Ieee

open Outcome Spec

section General

variable {K ι : Type} [Field K] [LinearOrder K] [IsStrictOrderedRing K] [FloorRing K]

/-! ### Infinite control points -/

/-- A finite number in range, or the infinity of sign `s`. -/
def Num.FinOr (A : Format K) (s : Bool) (x : Num K) : Prop := x = .inf s ∨ ∃ y, x = .fin y ∧ |y| ≤ A.big

theorem infMul_pos (s : Bool) {x : K} (h : 0 < x) : Num.infMul s x = .inf s := by
  unfold Num.infMul
  rw [if_neg h.ne', decide_eq_false h.le.not_gt, Bool.xor_false]

theorem infMul_neg (s : Bool) {x : K} (h : x < 0) : Num.infMul s x = .inf (!s) := by
  unfold Num.infMul
  rw [if_neg h.ne, decide_eq_true h, Bool.xor_true]

theorem infMul_zero (s : Bool) : Num.infMul s (0 : K) = .nan := if_pos rfl

theorem combine_finOr {A : Format K} {t r : K} (h : A.Pair t r) (ht : 0 < t) (hr : 0 < r) (f : Fuse)
    {s : Bool} {a b : Num K} (ha : a.FinOr A s) (hb : b.FinOr A s) :
    (A.combine f (.fin t) a (.fin r) b).FinOr A s := by
  have hB := A.big_pos
  have m1 := mul_le_mul_of_nonneg_right h.s1 hB.le
  have m2 := mul_le_mul_of_nonneg_right h.r1 hB.le
  rcases ha with rfl | ⟨a, rfl, ha⟩
  · rcases hb with rfl | ⟨b, rfl, hb⟩
    · left
      cases f <;> simp [Format.combine, Num.mul, Num.add, Format.round, infMul_pos s ht, infMul_pos s hr]
    · left
      have q := A.round_fin (x := r * b) (by have := (A.prod_abs h.r0 h.pr hb).2; linarith)
      cases f <;> simp only [Format.combine, Num.mul, q, infMul_pos s ht] <;> rfl
  · rcases hb with rfl | ⟨b, rfl, hb⟩
    · left
      have q := A.round_fin (x := t * a) (by have := (A.prod_abs h.s0 h.ps ha).2; linarith)
      cases f <;> simp only [Format.combine, Num.mul, q, infMul_pos s hr] <;> rfl
    · exact Or.inr ⟨_, A.combine_fin h f ha hb⟩

/-- C104: where control points of a coordinate are infinite with one sign and the others finite, the
curve is that infinity strictly inside of its domain. -/
theorem C104_bezier_infinite_point {A : Format K} (hA : A.Safe) (hu : A.unit < 1)
    (F : ℕ → ℕ → ι → Fuse) (l : List (ι → Num K)) {i : ι} {s : Bool}
    (hl : ∀ x ∈ l, x i = .inf s ∨ ∃ y, x i = .fin y ∧ |y| ≤ A.big) {x : ι → Num K} (hx : x ∈ l)
    (hi : x i = .inf s) {t : K} (ft : A.rnd t = t) (h0 : 0 < t) (h1 : t < 1) :
    ∃ q, bezierEvaluate A F { ctrl := l } (.fin t) = ok q ∧ q i = .inf s := by
  obtain ⟨q, e, hq⟩ := C104_bezier_bad_point A F l hx (i := i) (by rw [hi]; trivial) (.fin t)
  refine ⟨q, e, ?_⟩
  have hc : 0 < A.rnd (1 - t) := by
    have h := A.compl_near ft h1.le
    have := (abs_le.1 h).1
    nlinarith [mul_pos (sub_pos.2 hu) (sub_pos.2 h1)]
  have hp := (hA.pair ft h0.le h1.le).symm
  have key : ∀ r j, (tri (step A F (.fin t)) (fun j => l.getD j 0) r j i).FinOr A s := by
    intro r
    induction r with
    | zero =>
      intro j
      by_cases hj : j < l.length
      · have : l.getD j 0 = l[j] := by simp [hj]
        show Num.FinOr A s (l.getD j 0 i)
        rw [this]
        exact hl _ (List.getElem_mem hj)
      · refine Or.inr ⟨0, ?_, by rw [abs_zero]; exact A.big_pos.le⟩
        show l.getD j 0 i = .fin 0
        simp [not_lt.1 hj]
        rfl
    | succ r ih =>
      intro j
      simp only [tri, step, A.compl_fin h0.le h1.le]
      exact combine_finOr hp h0 hc _ (ih j) (ih (j - 1))
  have e' := bezierEvaluate_eq A F l (List.ne_nil_of_mem hx) false (t := .fin t) (t' := .fin t) rfl
  rw [e'] at e
  have this := (ok.inj e).symm
  rcases key (l.length - 1) (l.length - 1) with h | ⟨y, h, -⟩
  · rw [this, h]
  · rw [this, h] at hq
    exact absurd hq id

/-! ### Infinite parameters -/

/-- C104: the line through two finite points at an infinite parameter: the infinity towards which the
coordinate grows if the two values have different signs, NaN if they have the same sign or one of them is
zero.  The line may grow in the last case too. -/
theorem C104_segment_infinite (A : Format K) (F : ℕ → ℕ → ι → Fuse) (a b : ι → K) (s : Bool) :
    ∃ q, bezierEvaluate A F { ctrl := [fun i => .fin (a i), fun i => .fin (b i)] } (.inf s) = ok q ∧
      ∀ i, (a i < 0 → 0 < b i → q i = .inf s) ∧ (0 < a i → b i < 0 → q i = .inf (!s)) ∧
        (0 ≤ a i * b i → q i = .nan) := by
  refine ⟨_, bezierEvaluate_eq A F _ (by simp) false (t' := .inf s) rfl, fun i => ?_⟩
  have hc : A.compl (.inf s) = .inf (!s) := rfl
  have e : tri (step A F (.inf s)) (fun j => ([fun i => .fin (a i), fun i => .fin (b i)] :
      List (ι → Num K)).getD j 0) 1 1 i = Num.add (Num.infMul s (b i)) (Num.infMul (!s) (a i)) := by
    have hr : ∀ (s : Bool) (x : K), A.round (Num.infMul s x) = Num.infMul s x := by
      intro s x
      unfold Num.infMul
      split_ifs <;> rfl
    have hr' : ∀ (s r : Bool) (x y : K), A.round (Num.add (Num.infMul s x) (Num.infMul r y))
        = Num.add (Num.infMul s x) (Num.infMul r y) := by
      intro s r x y
      unfold Num.infMul
      split_ifs <;> simp only [Num.add] <;> first | rfl | (split_ifs <;> rfl)
    have : tri (step A F (.inf s)) (fun j => ([fun i => .fin (a i), fun i => .fin (b i)] :
        List (ι → Num K)).getD j 0) 1 1 i = A.combine (F 1 1 i) (.inf s) (.fin (b i)) (.inf (!s)) (.fin (a i)) := by
      simp [tri, step, hc]
    rw [this]
    cases F 1 1 i <;> simp only [Format.combine, Num.mul, hr, hr']
  show (_ → _ → tri (step A F (.inf s)) _ 1 1 i = _) ∧ (_ → _ → tri (step A F (.inf s)) _ 1 1 i = _) ∧
    (_ → tri (step A F (.inf s)) _ 1 1 i = _)
  rw [e]
  refine ⟨fun ha hb => ?_, fun ha hb => ?_, fun hab => ?_⟩
  · rw [infMul_pos _ hb, infMul_neg _ ha, Bool.not_not]; simp [Num.add]
  · rw [infMul_neg _ hb, infMul_pos _ ha]; simp [Num.add]
  · rcases lt_trichotomy (b i) 0 with hb | hb | hb
    · rcases lt_trichotomy (a i) 0 with ha | ha | ha
      · rw [infMul_neg _ hb, infMul_neg _ ha]; cases s <;> simp [Num.add]
      · rw [infMul_neg _ hb, ha, infMul_zero]; rfl
      · exact absurd hab (mul_neg_of_pos_of_neg ha hb).not_ge
    · rw [hb, infMul_zero]; cases Num.infMul (!s) (a i) <;> rfl
    · rcases lt_trichotomy (a i) 0 with ha | ha | ha
      · exact absurd hab (mul_neg_of_neg_of_pos ha hb).not_ge
      · rw [infMul_pos _ hb, ha, infMul_zero]; rfl
      · rw [infMul_pos _ hb, infMul_pos _ ha]; cases s <;> simp [Num.add]

/-- C104: the same for infinite control points: the product of two infinities has the sign of the product, so opposite
infinities are extended beyond the second one to the infinity of that sign, and equal infinities give NaN. -/
theorem C104_segment_infinite_points (A : Format K) (F : ℕ → ℕ → ι → Fuse) (a b : ι → Bool) (s : Bool) :
    ∃ q, bezierEvaluate A F { ctrl := [fun i => .inf (a i), fun i => .inf (b i)] } (.inf s) = ok q ∧
      ∀ i, (a i ≠ b i → q i = .inf (xor s (b i))) ∧ (a i = b i → q i = .nan) := by
  refine ⟨_, bezierEvaluate_eq A F _ (by simp) false (t' := .inf s) rfl, fun i => ?_⟩
  have hc : A.compl (.inf s) = .inf (!s) := rfl
  have e : tri (step A F (.inf s)) (fun j => ([fun i => .inf (a i), fun i => .inf (b i)] :
      List (ι → Num K)).getD j 0) 1 1 i = A.combine (F 1 1 i) (.inf s) (.inf (b i)) (.inf (!s)) (.inf (a i)) := by
    simp [tri, step, hc]
  show (_ → tri (step A F (.inf s)) _ 1 1 i = _) ∧ (_ → tri (step A F (.inf s)) _ 1 1 i = _)
  rw [e]
  cases F 1 1 i <;> cases a i <;> cases b i <;> cases s <;>
    simp [Format.combine, Num.mul, Num.add, Format.round]

/-! ### Rational curves -/

/-- A homogeneous control point. -/
def homPoint (A : Format K) (p : ι → Num K) (w : Num K) : Option ι → Num K
  | some i => A.round (Num.mul (p i) w)
  | none => w

theorem homogenize_eq (A : Format K) {P : List (ι → Num K)} {w : List (Num K)} (h : P.length = w.length) :
    homogenize A P w = ok (List.zipWith (homPoint A) P w) := by
  unfold homogenize
  rw [assert_true h, ok_bind, pure_eq]
  congr 2

/-- C104: an infinite or NaN weight makes every coordinate of a rational curve NaN, at every parameter. -/
theorem C104_rational_bad_weight (A : Format K) (F : ℕ → ℕ → Option ι → Fuse) {P : List (ι → Num K)}
    {w : List (Num K)} (h : P.length = w.length) {x : Num K} (hx : x ∈ w) (sx : x.special) (t : Num K) :
    rationalEvaluate A F P w false t = ok fun _ => .nan := by
  obtain ⟨k, hk, rfl⟩ := List.getElem_of_mem hx
  have hkP : k < P.length := by omega
  unfold rationalEvaluate
  rw [homogenize_eq A h, ok_bind]
  set Q := List.zipWith (homPoint A) P w with hQ
  have hkQ : k < Q.length := by simp [hQ, hk, hkP]
  have mem : Q[k] ∈ Q := List.getElem_mem hkQ
  have at_k : Q[k] = homPoint A P[k] w[k] := List.getElem_zipWith
  have sp : ∀ o, (Q[k] o).special := by
    intro o
    rw [at_k]
    cases o with
    | none => exact sx
    | some i => exact A.round_special (Num.special_mul_right _ sx)
  obtain ⟨q, e, -⟩ := C104_bezier_bad_point A F Q mem (sp none) t
  have all : ∀ o, (q o).special := by
    intro o
    obtain ⟨q', e', h'⟩ := C104_bezier_bad_point A F Q mem (sp o) t
    rw [e] at e'
    rw [ok.inj e']
    exact h'
  rw [e, ok_bind, pure_eq]
  congr 1
  funext i
  have h1 := all (some i)
  have h2 := all none
  revert h1 h2
  cases q (some i) <;> cases q none <;> intro h1 h2 <;> first | rfl | exact absurd h1 id | exact absurd h2 id

/-- C104: where the weights, as the control values of a scalar curve, evaluate to zero, no coordinate of
the rational curve is finite. -/
theorem C104_rational_no_weight (A : Format K) (F : ℕ → ℕ → Option ι → Fuse) {P : List (ι → Num K)}
    {w : List (Num K)} (h : P.length = w.length) (hP : P ≠ []) {t : Num K}
    (hz : bezierEvaluate A (fun r j (_ : Unit) => F r j none) { ctrl := w.map fun x _ => x } t
      = ok fun _ => .fin 0) :
    ∃ r, rationalEvaluate A F P w false t = ok r ∧ ∀ i, (r i).special := by
  have hw : w ≠ [] := by rintro rfl; exact hP (List.length_eq_zero_iff.1 h)
  set Q := List.zipWith (homPoint A) P w with hQ
  have hQn : Q ≠ [] := by simp [hQ, List.zipWith_eq_nil_iff, hP, hw]
  have hlen : Q.length = w.length := by simp [hQ, h]
  have e := bezierEvaluate_eq A F Q hQn false (t := t) (t' := t) rfl
  rw [bezierEvaluate_eq A _ _ (by simpa using hw) false (t := t) (t' := t) rfl, List.length_map] at hz
  have key : ∀ r j, tri (step A F t) (fun j => Q.getD j 0) r j none
      = tri (step A (fun r j (_ : Unit) => F r j none) t)
        (fun j => (w.map fun x (_ : Unit) => x).getD j 0) r j () := by
    intro r
    induction r with
    | zero =>
      intro j
      show Q.getD j 0 none = (w.map fun x (_ : Unit) => x).getD j 0 ()
      by_cases hj : j < w.length
      · simp [hQ, hj, h, homPoint]
      · simp [hQ, not_lt.1 hj, h]
    | succ r ih =>
      intro j
      simp only [tri, step, ih]
  have z : tri (step A F t) (fun j => Q.getD j 0) (Q.length - 1) (Q.length - 1) none = .fin 0 := by
    rw [key, hlen, ok.inj hz]
  unfold rationalEvaluate
  rw [homogenize_eq A h, ok_bind, e, ok_bind, pure_eq]
  refine ⟨_, rfl, fun i => ?_⟩
  simp only [z]
  apply A.round_special
  generalize tri (step A F t) _ _ _ (some i) = y
  cases y with
  | fin y =>
    simp only [Num.div, if_true]
    split_ifs <;> trivial
  | inf s => trivial
  | nan => trivial

/-! ### Refinement when the denominator overflows -/

/-- C105: where the denominator of the Newton step overflows and the residual does not, the refinement
stays at its starting parameter, whatever the tolerance and the number of steps. -/
theorem C105_denominator_overflow (A : Format K) (E : EigenOps K ι) (c : CurveFn (Num K) (ι → Num K))
    (x : ι → Num K) {lo hi t : K} (ft : A.rnd t = t) (bt : |t| ≤ A.big) (h1 : lo ≤ t) (h2 : t ≤ hi)
    {d0 d1 d2 : ι → Num K} (e0 : c.ev (.fin t) = ok d0) (e1 : c.d1 (.fin t) = ok d1)
    (e2 : c.d2 (.fin t) = ok d2) {y : K} (hf : E.dot (subPoint A x d0) d1 = .fin y) {s : Bool}
    (hd : E.denom (subPoint A x d0) d2 d1 = .inf s) (tol : Num K) (n : ℕ) :
    newtonCurve A (curveStep A E c x) tol (.fin lo) (.fin hi) n (.fin t) (.fin t) (.fin (-1))
      = ok (.fin t) := by
  have hg : curveStep A E c x (.fin t) = ok (.fin y, .fin 0) := by
    unfold curveStep
    rw [e0, ok_bind, e1, ok_bind, e2, ok_bind, pure_eq]
    simp only [hf, hd, Num.div]
    rw [A.round_float A.zero (by rw [abs_zero]; exact A.big_pos.le)]
  have hs : A.sub (.fin t) (.fin 0) = .fin t := by
    rw [A.sub_fin_fin, sub_zero, A.round_float ft bt]
  have key : ∀ n prevErr, (Num.lt (.fin 0) prevErr && prevErr.lt (Num.abs (.fin y))) = false →
      newtonCurve A (curveStep A E c x) tol (.fin lo) (.fin hi) n (.fin t) (.fin t) prevErr
        = ok (.fin t) := by
    intro n
    induction n with
    | zero => intros; rfl
    | succ n ih =>
      intro prevErr hp
      unfold newtonCurve
      rw [hg, ok_bind]
      simp only [hp, hs]
      split_ifs with k1 k2 k3 k4
      · rfl
      · exact absurd k2 (by simp)
      · rw [le_antisymm (of_decide_eq_true k3) h1]
      · rw [le_antisymm h2 (of_decide_eq_true k4)]
      · apply ih
        have : (Num.abs (.fin y)).lt (Num.abs (.fin y)) = false := by simp [Num.abs, Num.lt]
        rw [this, Bool.and_false]
  refine key n _ ?_
  have : Num.lt (.fin (0 : K)) (.fin (-1)) = false := by simp [Num.lt]
  rw [this, Bool.false_and]

/-- C105: where the residual overflows and the denominator does not, the refinement ends at once, at the bound on the side
of the quotient: the lower bound for a positive quotient, the upper bound for a negative one. -/
theorem C105_residual_overflow (A : Format K) (E : EigenOps K ι) (c : CurveFn (Num K) (ι → Num K))
    (x : ι → Num K) {lo hi t : K} {d0 d1 d2 : ι → Num K} (e0 : c.ev (.fin t) = ok d0) (e1 : c.d1 (.fin t) = ok d1)
    (e2 : c.d2 (.fin t) = ok d2) {s : Bool} (hf : E.dot (subPoint A x d0) d1 = .inf s) {y : K}
    (hd : E.denom (subPoint A x d0) d2 d1 = .fin y) (tol : K) (n : ℕ) :
    newtonCurve A (curveStep A E c x) (.fin tol) (.fin lo) (.fin hi) (n + 1) (.fin t) (.fin t) (.fin (-1))
      = ok (.fin (if (s = true) = (y < 0) then lo else hi)) := by
  have hg : curveStep A E c x (.fin t) = ok (.inf s, .inf (xor s (decide (y < 0)))) := by
    unfold curveStep
    rw [e0, ok_bind, e1, ok_bind, e2, ok_bind, pure_eq]
    simp only [hf, hd, Num.div]
    rfl
  unfold newtonCurve
  rw [hg, ok_bind]
  by_cases hy : y < 0 <;> cases s <;>
    simp [hy, Format.sub, Num.neg, Num.add, Format.round, Num.abs, Num.lt, Num.le]

/-! ### Periods too long to be represented -/

/-- C104: where the period of a periodic B-spline overflows, it counts as infinite: a parameter of the domain whose
distance to the lower end is a floating point number is not changed by the wrap, and the curve is that of the object
without the flag. -/
theorem C104_bspline_wide_period (A : Format K) (F : ℕ → ℕ → ι → Fuse) (c : BSpline K (ι → Num K)) {a b t : K}
    (ha : c.lower = ok a) (hb : c.upper = ok b) (hp : A.sub (.fin b) (.fin a) = .inf false)
    (ft : A.rnd t = t) (bt : |t| ≤ A.big) (fd : A.rnd (t - a) = t - a) (bd : |t - a| ≤ A.big) (h1 : a ≤ t) (h2 : t ≤ b) :
    bsplineEvaluate A F { c with periodic := true } (.fin t) = bsplineEvaluate A F { c with periodic := false } (.fin t) := by
  have hu : unwrap A (.fin a) (.fin b) (.fin t) = ok (.fin t) := by
    unfold unwrap
    have e1 : A.sub (.fin t) (.fin a) = .fin (t - a) := by rw [A.sub_fin_fin, A.round_float fd bd]
    have e2 : A.round (Num.add (Num.fmod (.fin (t - a)) (.inf false)) (.fin a)) = .fin t := by
      show A.round (.fin (t - a + a)) = _
      rw [sub_add_cancel, A.round_float ft bt]
    simp only [hp, e1, e2]
    rw [show Num.lt (.fin t) (.fin a) = false from decide_eq_false h1.not_gt]
    simp [Num.le, h1, h2]
  unfold bsplineEvaluate
  have hv : BSpline.validate { c with periodic := true } = BSpline.validate { c with periodic := false } := rfl
  have hl : locateSpan { c with periodic := true } = locateSpan { c with periodic := false } := rfl
  have hw : bsplineWrap A { c with periodic := true } (.fin t) = ok (.fin t) := by
    unfold bsplineWrap
    rw [if_pos rfl]
    change (c.lower >>= fun a => c.upper >>= fun b => unwrap A (.fin a) (.fin b) (.fin t)) = _
    rw [ha, ok_bind, hb, ok_bind, hu]
  rw [hw, hv, hl]
  rfl

end General

/-! ### Instances of the hypotheses -/

/-- A parabola with an infinite control point. -/
example := C104_bezier_infinite_point double_safe (by decide +kernel) (fun _ _ (_ : Fin 1) => .none)
  [fun _ => .fin 1, fun _ => .inf true, fun _ => .fin 5] (i := 0) (s := true)
  (by simp; decide +kernel) (x := fun _ => .inf true) (by simp) rfl (t := 1 / 4) (by decide +kernel)
  (by norm_num) (by norm_num)

/-- The segment from `(-1, 1, 2)` to `(3, -4, 5)` at infinity. -/
example := C104_segment_infinite double (fun _ _ _ => .none) ![-1, 1, 2] ![3, -4, 5] false

/-- The segment from `-∞` to `∞` at `-∞`. -/
example : ∃ q, bezierEvaluate double (fun _ _ (_ : Fin 1) => .none)
    { ctrl := [fun _ => .inf true, fun _ => .inf false] } (.inf true) = ok q ∧ q 0 = .inf true := by
  obtain ⟨q, e, h⟩ := C104_segment_infinite_points double (fun _ _ (_ : Fin 1) => .none) (fun _ => true)
    (fun _ => false) true
  exact ⟨q, e, (h 0).1 (by decide)⟩

/-- One infinite weight. -/
example := C104_rational_bad_weight double (fun _ _ (_ : Option (Fin 1)) => .none)
  (P := [fun _ => .fin 0, fun _ => .fin 2]) (w := [.fin 1, .inf false]) rfl (x := .inf false) (by simp)
  trivial (.fin 0)

/-- Weights 1 and -1 cancel in the middle. -/
example := C104_rational_no_weight double (fun _ _ (_ : Option (Fin 1)) => .none)
  (P := [fun _ => .fin 1, fun _ => .fin 2]) (w := [.fin 1, .fin (-1)]) rfl (by simp) (t := .fin (1 / 2))
  (by decide +kernel)

/-- A segment of length `2^600` and a query at distance `1` from its first point: the refinement stays
at `1/4`. -/
example : newtonCurve double (curveStep double (planeOps double)
    (bezierFn double (fun _ _ _ => .none) { ctrl := segment (2 ^ 600) }) ![.fin 1, .fin 0]) (.fin 1) (.fin 0) (.fin 1)
    10 (.fin 0) (.fin 0) (.fin (-1)) = ok (.fin 0) :=
  C105_denominator_overflow double _ _ _ (by decide +kernel) (by decide +kernel) le_rfl zero_le_one rfl rfl rfl
    (y := 2 ^ 600) (by decide +kernel) (s := true) (by decide +kernel) _ 10

/-- The same with a residual beyond the range: the query is far in the direction of the segment, so the answer is its
end. -/
example : newtonCurve double (curveStep double (planeOps double)
    (bezierFn double (fun _ _ _ => .none) { ctrl := segment (2 ^ 100) }) ![.fin (2 ^ 1000), .fin 0]) (.fin 1) (.fin 0) (.fin 1)
    10 (.fin 0) (.fin 0) (.fin (-1)) = ok (.fin 1) :=
  C105_residual_overflow double _ _ _ rfl rfl rfl (s := false) (by decide +kernel) (y := -2 ^ 200)
    (by decide +kernel) 1 9

/-- Knots from one end of the range to the other. -/
example := C104_bspline_wide_period double (fun _ _ (_ : Fin 1) => .none)
  { ctrl := [fun _ => .fin 1, fun _ => .fin 2], knots := [-2 ^ 1023, -2 ^ 1023, 2 ^ 1023, 2 ^ 1023], periodic := true, sdeg := none }
  (a := -2 ^ 1023) (b := 2 ^ 1023) (t := 0) (by decide +kernel) (by decide +kernel) (by decide +kernel) (by decide +kernel)
  (by decide +kernel) (by decide +kernel) (by decide +kernel) (by decide +kernel) (by decide +kernel)

end NS.Ieee
