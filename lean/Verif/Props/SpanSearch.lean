import Verif.Proof.SpanSearch
import Verif.Props.Inverse

/-!
# C74: the closest-point search of B-splines samples every span
-/

set_option linter.unusedSectionVars false
set_option linter.unusedSimpArgs false

namespace NS.SpanSearch

open Outcome Geom BSpline Spec

variable {K V W : Type} [Field K] [LinearOrder K] [IsStrictOrderedRing K] [FloorRing K]
  [AddCommGroup V] [Module K V] [Geom K V] [AddCommGroup W] [Module K W]

/-- **C74** (curves that are not periodic).  For a non-empty range of the domain the search ends with
a Newton run, inside the range, whose start is at least as close to the query as every one of the
`2 (degree + 1) + 1` evenly spaced samples of every piece between neighbouring knots of the range, for
every recursion level.  The evaluator is arbitrary (B-spline or NURBS).  Missing: the result itself can
be farther away than the start (see `C35_closer_refuted`), and periodic curves. -/
theorem C74_samples_partial {c : BSpline K W} {d : ℕ} (hc : WellFormed c d)
    (hper : c.periodic = false) (f : CurveFn K V) (p : V) (big tol : K) (e0 : K → V) {fuel : ℕ}
    (hfuel : c.knots.length ≤ fuel) (level : ℕ) {lower upper : K} (hlt : lower < upper)
    (hlo : knot c.knots d ≤ lower) (hup : upper ≤ knot c.knots c.ctrl.length)
    (h0 : ∀ t, lower ≤ t → t ≤ upper → f.ev t = ok (e0 t))
    (hb : ∀ t, lower ≤ t → t ≤ upper → (sqNorm (p - e0 t) : K) < big) :
    ∃ lo hi t', lower ≤ lo ∧ lo < hi ∧ hi ≤ upper ∧ lo ≤ t' ∧ t' ≤ hi ∧
      approxInverse fuel big tol c f p level lower upper = newtonRaphson f p t' 10 tol lo hi ∧
      ∀ t, IsSample c.knots (2 * (d + 1)) lower upper t →
        (sqNorm (p - e0 t') : K) ≤ sqNorm (p - e0 t) :=
  approxInverse_of_round (A := knot c.knots d) (B := knot c.knots c.ctrl.length)
    (fun a b e h g => round_spec hc hper a b e h g hfuel) hlt hlo hup h0 hb

/-- **C74** (knots): in particular the start is at least as close as the ends of the range and every
knot in it. -/
theorem C74_knots_partial {c : BSpline K W} {d : ℕ} (hc : WellFormed c d)
    (hper : c.periodic = false) (f : CurveFn K V) (p : V) (big tol : K) (e0 : K → V) {fuel : ℕ}
    (hfuel : c.knots.length ≤ fuel) (level : ℕ) {lower upper : K} (hlt : lower < upper)
    (hlo : knot c.knots d ≤ lower) (hup : upper ≤ knot c.knots c.ctrl.length)
    (h0 : ∀ t, lower ≤ t → t ≤ upper → f.ev t = ok (e0 t))
    (hb : ∀ t, lower ≤ t → t ≤ upper → (sqNorm (p - e0 t) : K) < big) :
    ∃ lo hi t', lower ≤ lo ∧ lo < hi ∧ hi ≤ upper ∧ lo ≤ t' ∧ t' ≤ hi ∧
      approxInverse fuel big tol c f p level lower upper = newtonRaphson f p t' 10 tol lo hi ∧
      ∀ t, (t = lower ∨ t = upper ∨ t ∈ c.knots) → lower ≤ t → t ≤ upper →
        (sqNorm (p - e0 t') : K) ≤ sqNorm (p - e0 t) := by
  obtain ⟨lo, hi, t', a1, a2, a3, a4, a5, a6, a7⟩ := C74_samples_partial hc hper f p big tol e0 hfuel
    level hlt hlo hup h0 hb
  refine ⟨lo, hi, t', a1, a2, a3, a4, a5, a6, fun t ht h1 h2 => a7 t ?_⟩
  rcases lt_or_eq_of_le h2 with h | h
  · obtain ⟨b, hb⟩ := exists_piece (c := c) h
    refine ⟨t, b, ⟨h1, hb.lt, hb.hi, ?_, hb.right, hb.none⟩, 0, by omega, by simp⟩
    rcases ht with g | g | g
    · exact Or.inl g
    · exact absurd g h.ne
    · exact Or.inr g
  · obtain ⟨a, ha⟩ := exists_last_piece (c := c) hlt
    refine ⟨a, upper, ha, 2 * (d + 1), le_rfl, ?_⟩
    rw [div_self (by positivity), h]; ring

/-- **C74** (range): the result is in the range, periodic or not. -/
theorem C74_in_range {c : BSpline K W} {d : ℕ} (hc : WellFormed c d) (f : CurveFn K V) (p : V)
    (big tol : K) (e0 : K → V) {fuel : ℕ} (hfuel : c.knots.length ≤ fuel) (level : ℕ)
    {lower upper : K} (hlt : lower < upper) (hlo : knot c.knots d ≤ lower)
    (hup : upper ≤ knot c.knots c.ctrl.length)
    (h0 : ∀ t, lower ≤ t → t ≤ upper → f.ev t = ok (e0 t))
    (hb : ∀ t, lower ≤ t → t ≤ upper → (sqNorm (p - e0 t) : K) < big) {r : K}
    (e : approxInverse fuel big tol c f p level lower upper = ok r) : lower ≤ r ∧ r ≤ upper := by
  have hl := hc.len
  have hct := hc.ctrl
  have hf2 : 2 ≤ fuel := by omega
  have key : ∃ lo hi t', lower ≤ lo ∧ lo < hi ∧ hi ≤ upper ∧ lo ≤ t' ∧ t' ≤ hi ∧
      approxInverse fuel big tol c f p level lower upper = newtonRaphson f p t' 10 tol lo hi := by
    cases hper : c.periodic with
    | false =>
      obtain ⟨lo, hi, t', a1, a2, a3, a4, a5, a6, -⟩ := C74_samples_partial hc hper f p big tol e0
        hfuel level hlt hlo hup h0 hb
      exact ⟨lo, hi, t', a1, a2, a3, a4, a5, a6⟩
    | true =>
      obtain ⟨lo, hi, t', a1, a2, a3, a4, a5, a6, -⟩ := approxInverse_of_round (c := c) (tol := tol)
        (level := level) (A := knot c.knots d) (B := knot c.knots c.ctrl.length)
        (fun a b e h g => round_periodic hc hper a b e h g hf2) hlt hlo hup h0 hb
      exact ⟨lo, hi, t', a1, a2, a3, a4, a5, a6⟩
  obtain ⟨lo, hi, t', a1, a2, a3, a4, a5, a6⟩ := key
  rw [a6] at e
  obtain ⟨x, y⟩ := C34_curve_in_range f p t' tol lo hi 10 r a4 a5 e
  exact ⟨a1.trans x, y.trans a3⟩

/-- **C74** (totality): it returns whenever the evaluators do. -/
theorem C74_returns {c : BSpline K W} {d : ℕ} (hc : WellFormed c d) (f : CurveFn K V) (p : V)
    (big tol : K) (htol : 0 < tol) (e0 e1 e2 : K → V) {fuel : ℕ} (hfuel : c.knots.length ≤ fuel)
    (level : ℕ) {lower upper : K} (hlt : lower < upper) (hlo : knot c.knots d ≤ lower)
    (hup : upper ≤ knot c.knots c.ctrl.length)
    (h0 : ∀ t, lower ≤ t → t ≤ upper → f.ev t = ok (e0 t))
    (h1 : ∀ t, lower ≤ t → t ≤ upper → f.d1 t = ok (e1 t))
    (h2 : ∀ t, lower ≤ t → t ≤ upper → f.d2 t = ok (e2 t))
    (hb : ∀ t, lower ≤ t → t ≤ upper → (sqNorm (p - e0 t) : K) < big) :
    ∃ r, approxInverse fuel big tol c f p level lower upper = ok r := by
  have hl := hc.len
  have hct := hc.ctrl
  have hf2 : 2 ≤ fuel := by omega
  have key : ∃ lo hi t', lower ≤ lo ∧ lo < hi ∧ hi ≤ upper ∧ lo ≤ t' ∧ t' ≤ hi ∧
      approxInverse fuel big tol c f p level lower upper = newtonRaphson f p t' 10 tol lo hi := by
    cases hper : c.periodic with
    | false =>
      obtain ⟨lo, hi, t', a1, a2, a3, a4, a5, a6, -⟩ := C74_samples_partial hc hper f p big tol e0
        hfuel level hlt hlo hup h0 hb
      exact ⟨lo, hi, t', a1, a2, a3, a4, a5, a6⟩
    | true =>
      obtain ⟨lo, hi, t', a1, a2, a3, a4, a5, a6, -⟩ := approxInverse_of_round (c := c) (tol := tol)
        (level := level) (A := knot c.knots d) (B := knot c.knots c.ctrl.length)
        (fun a b e h g => round_periodic hc hper a b e h g hf2) hlt hlo hup h0 hb
      exact ⟨lo, hi, t', a1, a2, a3, a4, a5, a6⟩
  obtain ⟨lo, hi, t', a, b, b', c', d', e'⟩ := key
  rw [e']
  exact C34_curve_returns f p t' tol lo hi 10 e0 e1 e2
    (fun t x y => h0 t (a.trans x) (y.trans b')) (fun t x y => h1 t (a.trans x) (y.trans b'))
    (fun t x y => h2 t (a.trans x) (y.trans b')) htol c' d'

/-- **C74** (periodic curves): only the evenly spaced samples of the whole range are taken. -/
theorem C74_periodic_partial {c : BSpline K W} {d : ℕ} (hc : WellFormed c d)
    (hper : c.periodic = true) (f : CurveFn K V) (p : V) (big tol : K) (e0 : K → V) {fuel : ℕ}
    (hfuel : 2 ≤ fuel) (level : ℕ) {lower upper : K} (hlt : lower < upper)
    (hlo : knot c.knots d ≤ lower) (hup : upper ≤ knot c.knots c.ctrl.length)
    (h0 : ∀ t, lower ≤ t → t ≤ upper → f.ev t = ok (e0 t))
    (hb : ∀ t, lower ≤ t → t ≤ upper → (sqNorm (p - e0 t) : K) < big) :
    ∃ lo hi t', lower ≤ lo ∧ lo < hi ∧ hi ≤ upper ∧ lo ≤ t' ∧ t' ≤ hi ∧
      approxInverse fuel big tol c f p level lower upper = newtonRaphson f p t' 10 tol lo hi ∧
      ∀ j : ℕ, j ≤ 2 * (d + 1) → (sqNorm (p - e0 t') : K) ≤
        sqNorm (p - e0 (lower + (j : K) / ((2 * (d + 1) : ℕ) : K) * (upper - lower))) := by
  obtain ⟨lo, hi, t', a1, a2, a3, a4, a5, a6, a7⟩ := approxInverse_of_round (c := c) (tol := tol)
    (level := level) (A := knot c.knots d) (B := knot c.knots c.ctrl.length)
    (fun a b e h g => round_periodic hc hper a b e h g hfuel) hlt hlo hup h0 hb
  exact ⟨lo, hi, t', a1, a2, a3, a4, a5, a6, fun j hj => a7 _ ⟨lower, upper,
    ⟨le_rfl, hlt, le_rfl, Or.inl rfl, Or.inl rfl, by simp⟩, j, hj, rfl⟩⟩

/-- The evaluators of a B-spline. -/
def fnOf (c : BSpline K V) : CurveFn K V :=
  ⟨c.evaluate, c.evaluateDerivative, c.evaluate2ndDerivative⟩

/-- A polygon on the line with a peak at `t = 3`; `per` is the periodic flag. -/
def exPeak (per : Bool) : BSpline ℚ ℚ :=
  ⟨[0, 0, 0, 10, 0, 0, 0, 0, 0], [0, 0, 1, 2, 3, 4, 5, 6, 7, 8, 8], per, some 1⟩

theorem exPeak_wf (per : Bool) : WellFormed (exPeak per) 1 := by
  refine ⟨rfl, Or.inr rfl, by simp [exPeak], ?_, ?_⟩
  · simp only [exPeak]; decide +kernel
  · simp only [exPeak]; decide +kernel

/-- The knots of the polygon with the evaluator `t ↦ 2 t`, query `20 / 3` and range `[1/2, 7/2]`: the
start is at least as close as the knot `3`, and the answer is in the range. -/
example (level : ℕ) : ∃ r : ℚ, approxInverse 11 (10 ^ 300) (1 / 10 ^ 13) (exPeak false)
    ⟨fun t => ok (2 * t), fun _ => ok 2, fun _ => ok 0⟩ (20 / 3 : ℚ) level (1 / 2) (7 / 2) = ok r ∧
      1 / 2 ≤ r ∧ r ≤ 7 / 2 := by
  have hb : ∀ t : ℚ, 1 / 2 ≤ t → t ≤ 7 / 2 → (sqNorm (20 / 3 - 2 * t : ℚ) : ℚ) < 10 ^ 300 := by
    intro t h1 h2
    have : (sqNorm (20 / 3 - 2 * t : ℚ) : ℚ) ≤ 100 := by
      change (20 / 3 - 2 * t) * (20 / 3 - 2 * t) ≤ (100 : ℚ)
      nlinarith
    exact this.trans_lt (by decide +kernel)
  obtain ⟨r, hr⟩ := C74_returns (exPeak_wf false) ⟨fun t => ok (2 * t), fun _ => ok 2, fun _ => ok 0⟩
    (20 / 3 : ℚ) (10 ^ 300) (1 / 10 ^ 13) (by norm_num) (fun t => 2 * t) (fun _ => 2) (fun _ => 0)
    (fuel := 11) (by decide) level (lower := 1 / 2) (upper := 7 / 2) (by norm_num)
    (by decide +kernel) (by decide +kernel) (fun _ _ _ => rfl) (fun _ _ _ => rfl) (fun _ _ _ => rfl) hb
  exact ⟨r, hr, C74_in_range (exPeak_wf false) _ _ _ _ (fun t => 2 * t) (by decide) level (by norm_num)
    (by decide +kernel) (by decide +kernel) (fun _ _ _ => rfl) hb hr⟩

/-- **C74** (periodic curves): false as stated.  The span of the start is replaced by the first span of
the next period before the first sample is taken, so a periodic curve is sampled at only
`2 (degree + 1) + 1` parameters of the whole range.  The query `10` is the point at the knot `3`; the
same curve finds it when it is not periodic, and answers `t = 0`, at distance `10`, when it is. -/
theorem C74_periodic_refuted :
    approxInverse 11 (10 ^ 300) (1 / 10 ^ 13) (exPeak false) (fnOf (exPeak false)) (10 : ℚ) 3 0 8
      = ok (3 : ℚ) ∧
    approxInverse 11 (10 ^ 300) (1 / 10 ^ 13) (exPeak true) (fnOf (exPeak true)) (10 : ℚ) 3 0 8
      = ok (0 : ℚ) ∧
    (exPeak true).evaluate 3 = ok 10 ∧ (exPeak true).evaluate 0 = ok 0 := by
  refine ⟨?_, ?_, ?_, ?_⟩ <;> decide +kernel

/-- **C74** (empty range): false.  For `lower = upper` nothing is sampled and the refinement starts at
the parameter `0`, whatever the range: the answer is then not in the range. -/
theorem C74_empty_range_refuted :
    ∃ c : BSpline ℚ ℚ, WellFormed c 1 ∧ c.periodic = false ∧ knot c.knots 1 ≤ 3 / 2 ∧
      3 / 2 ≤ knot c.knots c.ctrl.length ∧
      approxInverse 4 (10 ^ 300) (1 / 10 ^ 13) c (fnOf c) (-1 : ℚ) 3 (3 / 2) (3 / 2)
        = ok (0 : ℚ) := by
  refine ⟨⟨[0, 1], [1, 1, 2, 2], false, some 1⟩, ⟨rfl, Or.inr rfl, by decide, ?_, ?_⟩, rfl, ?_, ?_, ?_⟩
    <;> decide +kernel

end NS.SpanSearch
