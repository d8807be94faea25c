import Verif.Proof.Inverse
import Verif.Model.Line
import Verif.Spec.Geom
import Mathlib.Algebra.Order.Ring.Rat
import Mathlib.Data.Rat.Floor

/-!
# C34, C35, C36, C41: inverse evaluation and clipping of periodic parameters
-/

set_option linter.unusedSectionVars false
set_option linter.unusedSimpArgs false

namespace NS

open Outcome Geom LawfulGeom

variable {K V : Type} [Field K] [LinearOrder K] [IsStrictOrderedRing K] [FloorRing K]
  [AddCommGroup V] [Module K V] [Geom K V]

/-! ## Newton refinement on curves -/

/-- **C34** (curves, range).  Started inside the range, for any curve functions whatsoever (also
wrong derivatives), any tolerance and any number of iterations, the result is in the range. -/
theorem C34_curve_in_range (c : CurveFn K V) (p : V) (t tol lower upper : K) (iters : ℕ) (r : K)
    (h1 : lower ≤ t) (h2 : t ≤ upper)
    (e : newtonRaphson c p t iters tol lower upper = ok r) : lower ≤ r ∧ r ≤ upper :=
  newtonCurve_mem (h1.trans h2) h1 h2 h1 h2 e

/-- **C34** (curves, totality).  With evaluators that return on the range and a positive tolerance the
refinement returns; in particular no NaN arises. -/
theorem C34_curve_returns (c : CurveFn K V) (p : V) (t tol lower upper : K) (iters : ℕ)
    (e0 e1 e2 : K → V) (h0 : ∀ t, lower ≤ t → t ≤ upper → c.ev t = ok (e0 t))
    (h1 : ∀ t, lower ≤ t → t ≤ upper → c.d1 t = ok (e1 t))
    (h2 : ∀ t, lower ≤ t → t ≤ upper → c.d2 t = ok (e2 t)) (ht : 0 < tol)
    (hl : lower ≤ t) (hu : t ≤ upper) :
    ∃ r, newtonRaphson c p t iters tol lower upper = ok r :=
  newtonCurve_returns ht h0 h1 h2 hl hu

/-- **C34** (curves, residual).  The property asks that the distance to the query does not grow, which
is false (`C34_curve_distance_refuted`).  What holds concerns the residual `(p - C) · C'`: the result
is an end of the range, or its residual is no larger than at the start, or it is one Newton step from
such a point. -/
theorem C34_curve_residual_partial (c : CurveFn K V) (p : V) (t tol lower upper : K) (iters : ℕ)
    (e0 e1 e2 : K → V) (h0 : ∀ t, lower ≤ t → t ≤ upper → c.ev t = ok (e0 t))
    (h1 : ∀ t, lower ≤ t → t ≤ upper → c.d1 t = ok (e1 t))
    (h2 : ∀ t, lower ≤ t → t ≤ upper → c.d2 t = ok (e2 t)) (ht : 0 < tol)
    (hl : lower ≤ t) (hu : t ≤ upper) (r : K)
    (e : newtonRaphson c p t iters tol lower upper = ok r) :
    r = lower ∨ r = upper ∨
    |(dot (p - e0 r) (e1 r) : K)| ≤ |dot (p - e0 t) (e1 t)| ∨
    ∃ s, |(dot (p - e0 s) (e1 s) : K)| ≤ |dot (p - e0 t) (e1 t)| ∧
      (dot (p - e0 s) (e2 s) - dot (e1 s) (e1 s) : K) ≠ 0 ∧
      r = s - dot (p - e0 s) (e1 s) / (dot (p - e0 s) (e2 s) - dot (e1 s) (e1 s)) := by
  rcases newtonCurve_resid ht h0 h1 h2 hl hu (Or.inl ⟨by norm_num, le_rfl⟩) e with
    h | h | h | ⟨s, _, _, a, b, c⟩
  · exact Or.inl h
  · exact Or.inr (Or.inl h)
  · exact Or.inr (Or.inr (Or.inl h))
  · exact Or.inr (Or.inr (Or.inr ⟨s, a, b, c⟩))

/-- Evaluators of a quadratic Bezier curve, as the generic code sees them. -/
def quadFn (c : Bezier V) : CurveFn K V :=
  ⟨c.evaluate2, c.evaluateDerivative2, c.evaluate2ndDerivative2⟩

/-- The curve `1 + t - t²` on the line. -/
def exHump : Bezier ℚ := ⟨[1, 3 / 2, 1], false⟩

/-- The hypotheses of the three theorems above are met by `exHump` on `[0, 1]`. -/
theorem exHump_returns (t : ℚ) :
    (quadFn exHump : CurveFn ℚ ℚ).ev t = ok (1 + t - t ^ 2) ∧
    (quadFn exHump : CurveFn ℚ ℚ).d1 t = ok (1 - 2 * t) ∧
    (quadFn exHump : CurveFn ℚ ℚ).d2 t = ok (-2) := by
  refine ⟨?_, ?_, ?_⟩
  · simp [quadFn, exHump, Bezier.evaluate2, Bezier.wrap, rd, pure_eq]; ring
  · simp [quadFn, exHump, Bezier.evaluateDerivative2, Bezier.wrap, rd, pure_eq]; ring
  · simp [quadFn, exHump, Bezier.evaluate2ndDerivative2, Bezier.wrap, rd, pure_eq]; norm_num

/-- **C34** (curves, distance): false.  For the quadratic Bezier curve `1 + t - t²`, query 0 and start
`2/5`, ten iterations return a parameter where the curve is farther from the query than at the start
(the iteration runs towards the farthest point). -/
theorem C34_curve_distance_refuted :
    ∃ r a b : ℚ, newtonRaphson (quadFn exHump) (0 : ℚ) (2 / 5) 10 (1 / 10 ^ 13) 0 1 = ok r ∧
      exHump.evaluate2 r = ok a ∧ exHump.evaluate2 (2 / 5 : ℚ) = ok b ∧
      (sqNorm (0 - b : ℚ) : ℚ) < sqNorm (0 - a : ℚ) := by
  refine ⟨446087639496208395529953 / 892175278992416791059905,
    994970910556495922370460504043523920916623261281 /
      795976728445196737896368403234819136733298609025,
    31 / 25, ?_, ?_, ?_, ?_⟩ <;> decide +kernel


/-! ## Sampling on curves -/

/-- **C35** (range).  For every curve function that returns on `[lower, upper]`, every positive number
of samples and every recursion level, a returned parameter lies in `[lower, upper]`.  The distances
must be below the largest scalar (with infinite distances the code keeps the initial `min_t = 0`). -/
theorem C35_in_range (big tol : K) (c : CurveFn K V) (p : V) (num level : ℕ) (lower upper : K)
    (e0 : K → V) (hn : 0 < num) (h : lower ≤ upper)
    (h0 : ∀ t, lower ≤ t → t ≤ upper → c.ev t = ok (e0 t))
    (hb : ∀ t, lower ≤ t → t ≤ upper → (sqNorm (p - e0 t) : K) < big) (r : K)
    (e : approxInverse big tol c p num level lower upper = ok r) : lower ≤ r ∧ r ≤ upper := by
  obtain ⟨lo, hi, t', a, b, c', d, e', -⟩ := approxInverse_spec (tol := tol) (level := level)
    hn h h0 hb
  rw [e'] at e
  obtain ⟨x, y⟩ := C34_curve_in_range c p t' tol lo hi 10 r b c' e
  exact ⟨a.trans x, y.trans d⟩

/-- **C35** (totality): it returns when the three evaluators do. -/
theorem C35_returns (big tol : K) (c : CurveFn K V) (p : V) (num level : ℕ) (lower upper : K)
    (e0 e1 e2 : K → V) (hn : 0 < num) (h : lower ≤ upper) (ht : 0 < tol)
    (h0 : ∀ t, lower ≤ t → t ≤ upper → c.ev t = ok (e0 t))
    (h1 : ∀ t, lower ≤ t → t ≤ upper → c.d1 t = ok (e1 t))
    (h2 : ∀ t, lower ≤ t → t ≤ upper → c.d2 t = ok (e2 t))
    (hb : ∀ t, lower ≤ t → t ≤ upper → (sqNorm (p - e0 t) : K) < big) :
    ∃ r, approxInverse big tol c p num level lower upper = ok r := by
  obtain ⟨lo, hi, t', a, b, c', d, e', -⟩ := approxInverse_spec (tol := tol) (level := level)
    hn h h0 hb
  rw [e']
  exact C34_curve_returns c p t' tol lo hi 10 e0 e1 e2
    (fun t x y => h0 t (a.trans x) (y.trans d)) (fun t x y => h1 t (a.trans x) (y.trans d))
    (fun t x y => h2 t (a.trans x) (y.trans d)) ht b c'

/-- **C35** (closeness).  The property asks that the result is at least as close as every first-round
sample; that fails because of the final Newton refinement (`C35_closer_refuted`).  What holds: the
parameter `t'` handed to the refinement is at least as close as every first-round sample, if the number
of samples is even (as in every call, `2 * (degree + 1)`) or no recursion takes place. -/
theorem C35_closer_partial (big tol : K) (c : CurveFn K V) (p : V) (num level : ℕ)
    (lower upper : K) (e0 : K → V) (hn : 0 < num) (he : Even num ∨ level = 0) (h : lower ≤ upper)
    (h0 : ∀ t, lower ≤ t → t ≤ upper → c.ev t = ok (e0 t))
    (hb : ∀ t, lower ≤ t → t ≤ upper → (sqNorm (p - e0 t) : K) < big) :
    ∃ lo hi t', lower ≤ lo ∧ lo ≤ t' ∧ t' ≤ hi ∧ hi ≤ upper ∧
      approxInverse big tol c p num level lower upper = newtonRaphson c p t' 10 tol lo hi ∧
      ∀ i : ℕ, i ≤ num → (sqNorm (p - e0 t') : K) ≤
        sqNorm (p - e0 (lower + (i : K) / (num : K) * (upper - lower))) := by
  obtain ⟨lo, hi, t', a, b, c', d, e', f⟩ := approxInverse_spec (tol := tol) (level := level)
    hn h h0 hb
  exact ⟨lo, hi, t', a, b, c', d, e', f he⟩

example := C34_curve_returns (quadFn exHump) 0 (1 / 3) (1 / 10 ^ 13) 0 1 10 _ _ _
  (fun t _ _ => (exHump_returns t).1) (fun t _ _ => (exHump_returns t).2.1)
  (fun t _ _ => (exHump_returns t).2.2) (by norm_num) (by norm_num) (by norm_num)

private theorem exHump_near (t : ℚ) (h0 : 0 ≤ t) (h1 : t ≤ 1) : (sqNorm (0 - (1 + t - t ^ 2)) : ℚ) < 10 := by
  have : (sqNorm (0 - (1 + t - t ^ 2)) : ℚ) = (1 + t - t ^ 2) * (1 + t - t ^ 2) := by
    simp only [sqNorm, dot]; ring
  rw [this]
  nlinarith [mul_nonneg h0 (sub_nonneg.2 h1), mul_nonneg h0 h0]

example := C35_returns 10 (1 / 10 ^ 13) (quadFn exHump) 0 6 3 0 1 _ _ _ (by norm_num) zero_le_one (by norm_num)
  (fun t _ _ => (exHump_returns t).1) (fun t _ _ => (exHump_returns t).2.1)
  (fun t _ _ => (exHump_returns t).2.2) exHump_near
example := C35_closer_partial 10 (1 / 10 ^ 13) (quadFn exHump) 0 6 3 0 1 _ (by norm_num) (Or.inl (by decide))
  zero_le_one (fun t _ _ => (exHump_returns t).1) exHump_near

/-- The curve `1 + t - 9/10 t²` on the line. -/
def exHump2 : Bezier ℚ := ⟨[1, 3 / 2, 11 / 10], false⟩

/-- **C35** (closeness): false.  With the sample count and recursion level used by `Bezier` (6 and 3),
query 0 and the curve `1 + t - 9/10 t²`, the first sample `t = 0` is at distance 1 and the result is
farther.  Without recursion the result is the other end of the curve, at distance 11/10. -/
theorem C35_closer_refuted :
    ∃ r a b : ℚ, approxInverse (10 ^ 300) (1 / 10 ^ 13) (quadFn exHump2) (0 : ℚ) 6 3 0 1 = ok r ∧
      approxInverse (10 ^ 300) (1 / 10 ^ 13) (quadFn exHump2) (0 : ℚ) 6 0 0 1 = ok (1 : ℚ) ∧
      exHump2.evaluate2 r = ok a ∧ exHump2.evaluate2 (1 : ℚ) = ok b ∧
      exHump2.evaluate2 (0 : ℚ) = ok 1 ∧
      (sqNorm (0 - 1 : ℚ) : ℚ) < sqNorm (0 - a : ℚ) ∧
      (sqNorm (0 - 1 : ℚ) : ℚ) < sqNorm (0 - b : ℚ) := by
  refine ⟨1 / 216, 1 + 1 / 216 - 9 / 10 * (1 / 216) ^ 2, 11 / 10, ?_, ?_, ?_, ?_, ?_, ?_, ?_⟩ <;>
    decide +kernel

/-! ## Lines -/

section LineInverse

variable [LawfulGeom K V]

theorem line_dist (a d p : V) (q : K) (hq : q = sqNorm d) (h : q ≠ 0) (s : K) :
    (sqNorm (p - (a + s • d)) : K) = sqNorm (p - a) - dot (p - a) d * dot (p - a) d / q +
      q * (s - dot (p - a) d / q) * (s - dot (p - a) d / q) := by
  rw [← sub_sub, sqNorm_sub, dot_smul_right, sqNorm_smul, ← hq]
  field_simp
  ring

/-- The clamped value is the nearest point of the interval. -/
theorem nearest_of_clamp {m lo hi t s : K} (h : lo ≤ hi)
    (ht : t = if m < lo then lo else if m > hi then hi else m) (h1 : lo ≤ s) (h2 : s ≤ hi) :
    (lo ≤ t ∧ t ≤ hi) ∧ ((t - m) * (t - m) ≤ (s - m) * (s - m)) ∧
      ((s - m) * (s - m) ≤ (t - m) * (t - m) → s = t) := by
  split at ht
  · subst ht
    exact ⟨⟨le_rfl, h⟩, by nlinarith, fun hh => by nlinarith⟩
  split at ht
  · subst ht
    exact ⟨⟨h, le_rfl⟩, by nlinarith, fun hh => by nlinarith⟩
  · rename_i a b
    subst ht
    refine ⟨⟨not_lt.1 a, not_lt.1 b⟩, by nlinarith [mul_self_nonneg (s - t)], fun hh => ?_⟩
    have : (s - t) * (s - t) = 0 := le_antisymm (by simpa using hh) (mul_self_nonneg _)
    exact sub_eq_zero.1 (mul_self_eq_zero.1 this)

theorem lineApprox_spec (c : Line K V) (p : V) (lower upper : K) (h : lower ≤ upper)
    (hd : c.direction ≠ 0) :
    ∃ t, c.approxInverse p lower upper = ok t ∧ lower ≤ t ∧ t ≤ upper ∧
      ∀ s, lower ≤ s → s ≤ upper →
        (sqNorm (p - c.evaluate t) : K) ≤ sqNorm (p - c.evaluate s) ∧
        ((sqNorm (p - c.evaluate s) : K) ≤ sqNorm (p - c.evaluate t) → s = t) := by
  have hq : (sqNorm c.direction : K) ≠ 0 := fun hh => hd (sqNorm_eq_zero.1 hh)
  have hq0 : (0 : K) < sqNorm c.direction := lt_of_le_of_ne (sqNorm_nonneg _) (Ne.symm hq)
  obtain ⟨t, ht⟩ : ∃ t : K, t = if dot (p - c.location) c.direction / sqNorm c.direction < lower
    then lower else if dot (p - c.location) c.direction / sqNorm c.direction > upper then upper
    else dot (p - c.location) c.direction / sqNorm c.direction := ⟨_, rfl⟩
  refine ⟨t, ?_, (nearest_of_clamp h ht le_rfl h).1.1, (nearest_of_clamp h ht le_rfl h).1.2, ?_⟩
  · unfold Line.approxInverse
    rw [if_neg hq, ht]
    simp only
    split
    · rfl
    split <;> rfl
  · intro s h1 h2
    obtain ⟨-, a, b⟩ := nearest_of_clamp h ht h1 h2
    unfold Line.evaluate
    rw [line_dist _ _ p _ rfl hq, line_dist _ _ p _ rfl hq]
    constructor
    · have := mul_le_mul_of_nonneg_left a hq0.le
      rw [← mul_assoc, ← mul_assoc] at this
      linarith
    · intro hh
      apply b
      have : sqNorm c.direction *
          ((s - dot (p - c.location) c.direction / sqNorm c.direction) *
          (s - dot (p - c.location) c.direction / sqNorm c.direction)) ≤
          sqNorm c.direction *
          ((t - dot (p - c.location) c.direction / sqNorm c.direction) *
          (t - dot (p - c.location) c.direction / sqNorm c.direction)) := by
        rw [← mul_assoc, ← mul_assoc]; linarith
      exact le_of_mul_le_mul_left this hq0

/-- **C36** (`Line`).  On an initialised line `inverse_evaluate` returns the unique parameter of the
domain whose point is closest to the query. -/
theorem C36_line (eps : K) (he : 0 ≤ eps) (c : Line K V) (hc : c.init eps = ok c) (p : V) :
    ∃ t, c.inverseEvaluate p = ok t ∧ c.lower ≤ t ∧ t ≤ c.upper ∧
      ∀ s, c.lower ≤ s → s ≤ c.upper →
        (sqNorm (p - c.evaluate t) : K) ≤ sqNorm (p - c.evaluate s) ∧
        ((sqNorm (p - c.evaluate s) : K) ≤ sqNorm (p - c.evaluate t) → s = t) := by
  unfold Line.init at hc
  obtain ⟨_, h1, hc⟩ := bind_eq_ok.1 hc
  obtain ⟨_, h2, hc⟩ := bind_eq_ok.1 hc
  have h1 : c.upper ≥ c.lower := by
    by_contra h; rw [assert_false h] at h1; cases h1
  have h2 : (sqNorm c.direction : K) > eps := by
    by_contra h; rw [assert_false h] at h2; cases h2
  refine lineApprox_spec c p c.lower c.upper h1 (fun hd => ?_)
  rw [hd, sqNorm_eq_zero.2 rfl] at h2
  exact absurd h2 (not_lt.2 he)

/-- **C36** (`Line`, sub-range): the same over any requested range. -/
theorem C36_line_range (eps : K) (he : 0 ≤ eps) (c : Line K V) (hc : c.init eps = ok c) (p : V)
    (lower upper : K) (h : lower ≤ upper) :
    ∃ t, c.approxInverse p lower upper = ok t ∧ lower ≤ t ∧ t ≤ upper ∧
      ∀ s, lower ≤ s → s ≤ upper →
        (sqNorm (p - c.evaluate t) : K) ≤ sqNorm (p - c.evaluate s) ∧
        ((sqNorm (p - c.evaluate s) : K) ≤ sqNorm (p - c.evaluate t) → s = t) := by
  unfold Line.init at hc
  obtain ⟨_, h1, hc⟩ := bind_eq_ok.1 hc
  obtain ⟨_, h2, hc⟩ := bind_eq_ok.1 hc
  have h2 : (sqNorm c.direction : K) > eps := by
    by_contra h; rw [assert_false h] at h2; cases h2
  refine lineApprox_spec c p lower upper h (fun hd => ?_)
  rw [hd, sqNorm_eq_zero.2 rfl] at h2
  exact absurd h2 (not_lt.2 he)

/-- **C36** (degree-1 `Bezier`).  For distinct end points `inverse_evaluate` returns the unique
parameter of `[0, 1]` whose point is closest to the query. -/
theorem C36_bezier (P0 P1 : V) (per : Bool) (hne : P0 ≠ P1) (p : V) :
    ∃ t : K, (Bezier.mk [P0, P1] per).inverseEvaluate1 p = ok t ∧ 0 ≤ t ∧ t ≤ 1 ∧
      ∀ s : K, 0 ≤ s → s ≤ 1 →
        (sqNorm (p - ((1 - t) • P0 + t • P1)) : K) ≤ sqNorm (p - ((1 - s) • P0 + s • P1)) ∧
        ((sqNorm (p - ((1 - s) • P0 + s • P1)) : K) ≤ sqNorm (p - ((1 - t) • P0 + t • P1)) →
          s = t) := by
  have key : ∀ s : K, (1 - s) • P0 + s • P1 =
      (Line.mk P0 (P1 - P0) 0 1 false : Line K V).evaluate s := by
    intro s; unfold Line.evaluate; simp only; module
  have hd : P1 - P0 ≠ 0 := sub_ne_zero.2 hne.symm
  obtain ⟨t, e, h1, h2, h3⟩ := lineApprox_spec (Line.mk P0 (P1 - P0) 0 1 false : Line K V) p 0 1
    zero_le_one hd
  refine ⟨t, ?_, h1, h2, fun s a b => ?_⟩
  · unfold Line.approxInverse at e
    have hq : (sqNorm (P1 - P0) : K) ≠ 0 := fun hh => hd (sqNorm_eq_zero.1 hh)
    simp only at e
    rw [if_neg hq] at e
    unfold Bezier.inverseEvaluate1
    simp only [rd, List.getElem?_cons_zero, List.getElem?_cons_succ, ok_bind]
    rw [if_neg hq]
    split at e
    · rename_i hx
      rw [← e, min_eq_left (hx.le.trans zero_le_one), max_eq_right hx.le]
    split at e
    · rename_i hx
      rw [← e, min_eq_right hx.le, max_eq_left zero_le_one]
    · rename_i hx hy
      rw [← e, min_eq_left (not_lt.1 hy), max_eq_left (not_lt.1 hx)]
  · rw [key, key]; exact h3 s a b

end LineInverse

/-- **C36** in Euclidean space: the distance itself is minimal. -/
theorem C36_line_euclidean {W : Type} [NormedAddCommGroup W] [InnerProductSpace ℝ W] (eps : ℝ)
    (he : 0 ≤ eps) (c : Line ℝ W) (hc : c.init eps = ok c) (p : W) :
    ∃ t, c.inverseEvaluate p = ok t ∧ c.lower ≤ t ∧ t ≤ c.upper ∧
      ∀ s, c.lower ≤ s → s ≤ c.upper →
        ‖p - (c.location + t • c.direction)‖ ≤ ‖p - (c.location + s • c.direction)‖ := by
  obtain ⟨t, e, h1, h2, h3⟩ := C36_line eps he c hc p
  refine ⟨t, e, h1, h2, fun s a b => ?_⟩
  have := (h3 s a b).1
  unfold sqNorm at this
  rw [← norm_sq, ← norm_sq] at this
  exact le_of_sq_le_sq (by rw [pow_two, pow_two]; exact this) (_root_.norm_nonneg _)

/-- A line meeting the hypotheses, with queries on both sides and inside. -/
def exLine : Line ℚ ℚ := ⟨1, 2, -1, 3, false⟩

theorem exLine_ok : exLine.init (1 / 10 ^ 15) = ok exLine ∧
    exLine.inverseEvaluate 2 = ok (1 / 2) ∧ exLine.inverseEvaluate (-9) = ok (-1) ∧
    exLine.inverseEvaluate 100 = ok 3 := by
  refine ⟨?_, ?_, ?_, ?_⟩ <;> decide +kernel

example := C36_line (1 / 10 ^ 15) (by norm_num) exLine exLine_ok.1 2
example := C36_line_range (1 / 10 ^ 15) (by norm_num) exLine exLine_ok.1 2 0 1 zero_le_one

/-! ## Newton refinement and sampling on patches -/

namespace PatchBase

/-- **C34** (patches, range).  For any patch functions, tolerance, number of iterations and any start
(also outside: it is clamped first) the result lies in the requested box. -/
theorem C34_patch_in_box (big : K) (s : PatchFn K V) (p : V) (u v minU maxU minV maxV tol : K)
    (iters : ℕ) (hu : minU ≤ maxU) (hv : minV ≤ maxV) (r : (K × K) × Bool)
    (e : inverseFrom big s p u v minU maxU minV maxV iters tol = ok r) :
    (minU ≤ r.1.1 ∧ r.1.1 ≤ maxU) ∧ (minV ≤ r.1.2 ∧ r.1.2 ≤ maxV) := by
  unfold inverseFrom at e
  obtain ⟨x, hx, e⟩ := bind_eq_ok.1 e
  obtain ⟨_, _, e⟩ := bind_eq_ok.1 e
  obtain ⟨_, _, e⟩ := bind_eq_ok.1 e
  rw [pure_eq, ok.injEq] at e
  subst e
  exact newtonPatch_mem hu hv ⟨clampTo_mem hu, clampTo_mem hv⟩ ⟨clampTo_mem hu, clampTo_mem hv⟩ hx

/-- **C34** (patches, totality).  When the six evaluators return on the box so does the refinement, and
its two closing asserts hold. -/
theorem C34_patch_returns (big : K) (s : PatchFn K V) (p : V) (u v minU maxU minV maxV tol : K)
    (iters : ℕ) (hu : minU ≤ maxU) (hv : minV ≤ maxV) (hs : Returns s minU maxU minV maxV) :
    ∃ r, inverseFrom big s p u v minU maxU minV maxV iters tol = ok r := by
  obtain ⟨r, e⟩ := newtonPatch_returns (p := p) (tol := tol) (n := iters)
    (u := clampTo minU maxU u) (v := clampTo minV maxV v)
    (prev := (clampTo minU maxU u, clampTo minV maxV v)) (pd := big) hu hv hs
    ⟨clampTo_mem hu, clampTo_mem hv⟩
  have hm := newtonPatch_mem hu hv ⟨clampTo_mem hu, clampTo_mem hv⟩
    ⟨clampTo_mem hu, clampTo_mem hv⟩ e
  refine ⟨r, ?_⟩
  unfold inverseFrom
  simp only
  rw [e, ok_bind, assert_true hm.1, ok_bind, assert_true hm.2, ok_bind]
  rfl

/-- **C34** (patches, distance).  Starting in the box: if the flag is `false` the result is no farther
from the query than the start.  If it is `true` the result is within `tol` of the query, or farther than
the start by less than `tol` at most, or it is an unchecked (clamped) step from a point no farther than
the start, taken in the last permitted iteration. -/
theorem C34_patch_distance (big : K) (s : PatchFn K V) (p : V) (u v minU maxU minV maxV tol : K)
    (iters : ℕ) (e0 : K → K → V) (hi : 0 < iters) (ht : 0 < tol) (h1 : minU ≤ u ∧ u ≤ maxU)
    (h2 : minV ≤ v ∧ v ≤ maxV)
    (h0 : ∀ u v, (minU ≤ u ∧ u ≤ maxU) ∧ (minV ≤ v ∧ v ≤ maxV) → s.ev u v = ok (e0 u v))
    (hb : norm (e0 u v - p) ≤ big) (r : (K × K) × Bool)
    (e : inverseFrom big s p u v minU maxU minV maxV iters tol = ok r) :
    (r.2 = false → norm (e0 r.1.1 r.1.2 - p) ≤ (norm (e0 u v - p) : K)) ∧
    (r.2 = true → norm (e0 r.1.1 r.1.2 - p) < tol ∨
      norm (e0 r.1.1 r.1.2 - p) < (norm (e0 u v - p) : K) + tol ∨
      ∃ x y a b, norm (e0 x y - p) ≤ (norm (e0 u v - p) : K) ∧
        r.1 = (clampStep minU maxU (x + a), clampStep minV maxV (y + b))) := by
  unfold inverseFrom at e
  obtain ⟨x, hx, e⟩ := bind_eq_ok.1 e
  obtain ⟨_, _, e⟩ := bind_eq_ok.1 e
  obtain ⟨_, _, e⟩ := bind_eq_ok.1 e
  rw [pure_eq, ok.injEq] at e
  subst e
  rw [clampTo_of_mem h1.1 h1.2, clampTo_of_mem h2.1 h2.2] at hx
  obtain ⟨a, b⟩ := newtonPatch_dist (D := norm (e0 u v - p)) (h1.1.trans h1.2) (h2.1.trans h2.2) h0
    ⟨h1, h2⟩ (Or.inl ⟨le_rfl, hb⟩) hx
  refine ⟨a, fun h => ?_⟩
  rcases b h hi with h | h | h | ⟨x, y, a, b, h, -, h'⟩
  · exact Or.inl h
  · exact Or.inr (Or.inl h)
  · exact Or.inr (Or.inl (lt_of_le_of_lt h (by linarith)))
  · exact Or.inr (Or.inr ⟨x, y, a, b, h, h'⟩)

/-- **C34** (patches, whole inverse evaluation): returns, inside the box. -/
theorem C34_patch_inverse_in_box (big tol10 tol100 uR vR : K) (s : PatchFn K V) (p : V) (nu nv : ℕ)
    (minU maxU minV maxV : K) (e0 : K → K → V) (hnu : 0 < nu) (hnv : 0 < nv) (hu : minU ≤ maxU)
    (hv : minV ≤ maxV)
    (h0 : ∀ u v, (minU ≤ u ∧ u ≤ maxU) ∧ (minV ≤ v ∧ v ≤ maxV) → s.ev u v = ok (e0 u v))
    (hb : ∀ u v, (minU ≤ u ∧ u ≤ maxU) ∧ (minV ≤ v ∧ v ≤ maxV) → (sqNorm (p - e0 u v) : K) < big)
    (hs : Returns s minU maxU minV maxV) :
    ∃ r, inverseEvaluate big tol10 tol100 uR vR s p nu nv minU maxU minV maxV = ok r ∧
      (minU ≤ r.1.1 ∧ r.1.1 ≤ maxU) ∧ (minV ≤ r.1.2 ∧ r.1.2 ≤ maxV) := by
  obtain ⟨x, ex, hx⟩ := approxInverse_mem (tol := tol10) (uR := uR) (vR := vR) (level := 10) hnu hnv
    hu hv h0 hb
  obtain ⟨r, er⟩ := C34_patch_returns big s p x.1 x.2 minU maxU minV maxV tol100 20 hu hv hs
  refine ⟨r, ?_, C34_patch_in_box big s p x.1 x.2 minU maxU minV maxV tol100 20 hu hv r er⟩
  unfold inverseEvaluate
  rw [ex, ok_bind, er]

/-- **C35** (patches).  With an even number of samples in both directions the sampling of a patch
returns a position in the box that is at least as close to the query as every first-round sample, at
every recursion level. -/
theorem C35_patch_closer [LawfulGeom K V] (big tol uR vR : K) (s : PatchFn K V) (p : V)
    (nu nv level : ℕ) (minU maxU minV maxV : K) (e0 : K → K → V) (hnu : 0 < nu) (hnv : 0 < nv)
    (heu : Even nu) (hev : Even nv) (hu : minU ≤ maxU) (hv : minV ≤ maxV)
    (h0 : ∀ u v, (minU ≤ u ∧ u ≤ maxU) ∧ (minV ≤ v ∧ v ≤ maxV) → s.ev u v = ok (e0 u v))
    (hb : ∀ u v, (minU ≤ u ∧ u ≤ maxU) ∧ (minV ≤ v ∧ v ≤ maxV) →
      (sqNorm (p - e0 u v) : K) < big) :
    ∃ r : K × K, approxInverse big tol uR vR s p nu nv level minU maxU minV maxV = ok r ∧
      ((minU ≤ r.1 ∧ r.1 ≤ maxU) ∧ (minV ≤ r.2 ∧ r.2 ≤ maxV)) ∧
      ∀ i j : ℕ, i ≤ nu → j ≤ nv → (sqNorm (p - e0 r.1 r.2) : K) ≤
        sqNorm (p - e0 (minU + (i : K) / nu * (maxU - minU)) (minV + (j : K) / nv * (maxV - minV))) := by
  obtain ⟨r, e, h1, h2⟩ := approxInverse_dist (tol := tol) (uR := uR) (vR := vR) (level := level)
    sqNorm_sub_comm hnu hnv heu hev hu hv h0 hb
  refine ⟨r, e, h1, fun i j hi hj => ?_⟩
  have := h2 i hi j hj
  rw [samplePos_eq hnu, samplePos_eq hnv] at this
  exact this

/-- A patch on the line, `S(u, v) = u² + v`, with a query that is reached. -/
def exPatchFn : PatchFn ℚ ℚ :=
  ⟨fun u v => ok (u * u + v), fun u _ => ok (2 * u), fun _ _ => ok 1, fun _ _ => ok 2,
    fun _ _ => ok 0, fun _ _ => ok 0⟩

theorem exPatchFn_returns : Returns exPatchFn 0 1 0 1 :=
  fun _ _ _ => ⟨⟨_, rfl⟩, ⟨_, rfl⟩, ⟨_, rfl⟩, ⟨_, rfl⟩, ⟨_, rfl⟩, ⟨_, rfl⟩⟩

theorem exPatchFn_run :
    inverseFrom (10 ^ 300) exPatchFn (1 : ℚ) (3 / 4) (3 / 4) 0 1 0 1 20 (1 / 10 ^ 13) =
      ok ((3 / 4, 7 / 16), true) := by
  decide +kernel

example := C34_patch_in_box (10 ^ 300) exPatchFn 1 (3 / 4) (3 / 4) 0 1 0 1 (1 / 10 ^ 13) 20 zero_le_one zero_le_one
  _ exPatchFn_run
example := C34_patch_returns (10 ^ 300) exPatchFn 1 (3 / 4) (3 / 4) 0 1 0 1 (1 / 10 ^ 13) 20 zero_le_one
  zero_le_one exPatchFn_returns

end PatchBase


/-! ## Clipping of periodic parameters -/

namespace PatchBase

/-- The representative of `t` in `[tMin, tMin + period)`. -/
theorem clip_repr (t tMin period : K) (hp : 0 < period) :
    ∃ t' : K, (if t < tMin then
      (if period = 0 then ub else ok (t + (⌈(tMin - t) / period⌉ : K) * period))
    else do
      let m ← fmod (t - tMin) period
      ok (tMin + m)) = ok t' ∧ tMin ≤ t' ∧ t' < tMin + period ∧ ∃ k : ℤ, t' = t + k * period := by
  by_cases h : t < tMin
  · rw [if_pos h, if_neg hp.ne']
    refine ⟨_, rfl, ?_, ?_, _, rfl⟩
    · have := Int.le_ceil ((tMin - t) / period)
      rw [div_le_iff₀ hp] at this
      linarith
    · have := Int.ceil_lt_add_one ((tMin - t) / period)
      have h2 : (⌈(tMin - t) / period⌉ : K) * period < ((tMin - t) / period + 1) * period :=
        mul_lt_mul_of_pos_right this hp
      rw [add_mul, div_mul_cancel₀ _ hp.ne'] at h2
      linarith
  · rw [if_neg h]
    unfold fmod
    rw [if_neg hp.ne', ok_bind]
    have h0 : 0 ≤ (t - tMin) / period := div_nonneg (sub_nonneg.2 (not_lt.1 h)) hp.le
    refine ⟨_, rfl, ?_, ?_, -trunc ((t - tMin) / period), ?_⟩
    · unfold trunc
      rw [if_pos h0]
      have := Int.floor_le ((t - tMin) / period)
      rw [le_div_iff₀ hp] at this
      linarith
    · unfold trunc
      rw [if_pos h0]
      have := Int.lt_floor_add_one ((t - tMin) / period)
      rw [div_lt_iff₀ hp] at this
      linarith
    · push_cast; ring

/-- **C41**.  With a positive period and `lo ≤ hi` the clipped value is in `[lo, hi]`; if some
`u + k * period` is in `[lo, hi]` the result is congruent to `u`; otherwise it is an end, the one
nearer on the circle: no point of `[lo, hi]` is closer to any representative of `u`. -/
theorem C41_clip (u lo hi period : K) (hp : 0 < period) (h : lo ≤ hi) :
    ∃ r, clipPeriodic u lo hi period = ok r ∧ lo ≤ r ∧ r ≤ hi ∧
      ((∃ k : ℤ, lo ≤ u + k * period ∧ u + k * period ≤ hi) → ∃ k : ℤ, r = u + k * period) ∧
      ((∀ k : ℤ, ¬(lo ≤ u + k * period ∧ u + k * period ≤ hi)) → (r = lo ∨ r = hi) ∧
        ∃ i : ℤ, ∀ x, lo ≤ x → x ≤ hi → ∀ j : ℤ,
          |r - (u + i * period)| ≤ |x - (u + j * period)|) := by
  obtain ⟨t', e, h1, h2, k, hk⟩ := clip_repr u lo period hp
  unfold clipPeriodic
  rw [e, ok_bind, assert_true h1, ok_bind]
  simp only
  by_cases hgt : t' > hi
  · rw [if_pos hgt]
    have hnone : ∀ j : ℤ, ¬(lo ≤ u + j * period ∧ u + j * period ≤ hi) := by
      rintro j ⟨a, b⟩
      -- `u + j * period` and `t'` are both in `[lo, lo + period)`
      have hj : u + j * period = t' + ((j - k : ℤ) : K) * period := by rw [hk]; push_cast; ring
      rcases lt_trichotomy (j - k) 0 with hlt | heq | hgt'
      · have : ((j - k : ℤ) : K) ≤ -1 := by exact_mod_cast Int.le_sub_one_of_lt hlt
        nlinarith
      · rw [heq] at hj; push_cast at hj; linarith
      · have : (1 : K) ≤ ((j - k : ℤ) : K) := by exact_mod_cast hgt'
        nlinarith
    have hfar : ∀ x, lo ≤ x → x ≤ hi → ∀ j : ℤ,
        t' - hi ≤ |x - (u + j * period)| ∨ period - (t' - lo) ≤ |x - (u + j * period)| := by
      intro x hx1 hx2 j
      have hj : u + j * period = t' + ((j - k : ℤ) : K) * period := by rw [hk]; push_cast; ring
      rcases lt_or_ge (j - k) 0 with hlt | hge
      · right
        have : ((j - k : ℤ) : K) ≤ -1 := by exact_mod_cast Int.le_sub_one_of_lt hlt
        refine le_trans ?_ (le_abs_self _)
        nlinarith
      · left
        have : (0 : K) ≤ ((j - k : ℤ) : K) := by exact_mod_cast hge
        refine le_trans ?_ (neg_le_abs _)
        nlinarith
    by_cases hc : period - (t' - lo) < t' - hi
    · rw [if_pos hc, assert_true h, ok_bind]
      refine ⟨lo, rfl, le_rfl, h, fun ⟨j, hj⟩ => absurd hj (hnone j), fun _ => ⟨Or.inl rfl, k - 1, ?_⟩⟩
      intro x hx1 hx2 j
      have : |lo - (u + ((k - 1 : ℤ) : K) * period)| = period - (t' - lo) := by
        have : lo - (u + ((k - 1 : ℤ) : K) * period) = period - (t' - lo) := by
          rw [hk]; push_cast; ring
        rw [this]; exact abs_of_nonneg (by linarith)
      rw [this]
      rcases hfar x hx1 hx2 j with h | h
      · exact hc.le.trans h
      · exact h
    · rw [if_neg hc, assert_true (le_refl hi), ok_bind]
      refine ⟨hi, rfl, h, le_rfl, fun ⟨j, hj⟩ => absurd hj (hnone j), fun _ => ⟨Or.inr rfl, k, ?_⟩⟩
      intro x hx1 hx2 j
      have : |hi - (u + (k : K) * period)| = t' - hi := by
        rw [← hk, abs_sub_comm]; exact abs_of_nonneg (by linarith)
      rw [this]
      rcases hfar x hx1 hx2 j with h | h
      · exact h
      · exact (not_lt.1 hc).trans h
  · rw [if_neg hgt, assert_true (not_lt.1 hgt), ok_bind]
    exact ⟨t', rfl, h1, not_lt.1 hgt, fun _ => ⟨k, hk⟩, fun hn => absurd
      (show lo ≤ u + k * period ∧ u + k * period ≤ hi from hk ▸ ⟨h1, not_lt.1 hgt⟩) (hn k)⟩

/-- The three cases of the theorem on concrete values. -/
theorem exClip : clipPeriodic (29 / 4 : ℚ) 0 2 3 = ok (5 / 4) ∧
    clipPeriodic (-1 / 4 : ℚ) 0 2 3 = ok 0 ∧ clipPeriodic (9 / 4 : ℚ) 0 2 3 = ok 2 := by
  refine ⟨?_, ?_, ?_⟩ <;> decide +kernel

example := C41_clip (29 / 4 : ℚ) 0 2 3 (by norm_num) (by norm_num)

end PatchBase

end NS
