import Verif.Proof.Frame

/-!
# Circles and ellipses (C37, C67)

Frames are exactly orthonormal here; `initialize` checks this up to `10 * epsilon` for circles.
-/

set_option linter.unusedSectionVars false

namespace NS

open Outcome Geom LawfulGeom Real

variable {V : Type} [AddCommGroup V] [Module ℝ V] [Geom ℝ V] [LawfulGeom ℝ V]

namespace Circle

/-- Squared distance of a point of the circle to a query. -/
theorem sqDist (c : Circle V) (h : Ortho2 c.e0 c.e1) (p : V) (t : ℝ) :
    (sqNorm (c.evaluate t - p) : ℝ) = c.radius * c.radius -
      2 * c.radius * (cos t * dot (p - c.center) c.e0 + sin t * dot (p - c.center) c.e1) +
      sqNorm (p - c.center) := by
  have e : c.evaluate t - p =
      (c.radius * cos t) • c.e0 + (c.radius * sin t) • c.e1 - (p - c.center) := by
    unfold evaluate; module
  rw [e, sqDist2 h]
  linear_combination c.radius * c.radius * Real.sin_sq_add_cos_sq t

theorem sqDist_polar (c : Circle V) (h : Ortho2 c.e0 c.e1) (p : V) :
    ∃ ρ, 0 ≤ ρ ∧ ∀ t, (sqNorm (c.evaluate t - p) : ℝ) = c.radius * c.radius -
      2 * c.radius * ρ * cos (t - atan2 (dot c.e1 (p - c.center)) (dot c.e0 (p - c.center))) +
      sqNorm (p - c.center) := by
  obtain ⟨h1, h2⟩ := atan2_polar (dot c.e1 (p - c.center)) (dot c.e0 (p - c.center))
  refine ⟨hypot (dot c.e0 (p - c.center)) (dot c.e1 (p - c.center)), hypot_nonneg _ _, fun t => ?_⟩
  rw [sqDist c h p t, dot_comm (K := ℝ) (p - c.center) c.e0, dot_comm (K := ℝ) (p - c.center) c.e1,
    Real.cos_sub]
  generalize atan2 (dot c.e1 (p - c.center)) (dot c.e0 (p - c.center)) = a at h1 h2 ⊢
  generalize hypot (dot c.e0 (p - c.center)) (dot c.e1 (p - c.center)) = ρ at h1 h2 ⊢
  rw [h1, h2]; ring

/-- C37, first part: the points produced by `evaluate` are exactly the points of the plane of the frame
at distance `|radius|` from the centre. -/
theorem C37_circle_implicit (c : Circle V) (h : Ortho2 c.e0 c.e1) :
    (∀ t, (sqNorm (c.evaluate t - c.center) : ℝ) = c.radius ^ 2 ∧
      ∀ w : V, (dot w c.e0 : ℝ) = 0 → (dot w c.e1 : ℝ) = 0 →
        (dot (c.evaluate t - c.center) w : ℝ) = 0) ∧
    (0 ≤ c.radius → ∀ x y : ℝ, x ^ 2 + y ^ 2 = c.radius ^ 2 →
      ∃ t, c.evaluate t = c.center + x • c.e0 + y • c.e1) := by
  refine ⟨fun t => ⟨?_, ?_⟩, ?_⟩
  · rw [sqDist c h, sub_self, dot_zero_left, dot_zero_left, show (sqNorm (0 : V) : ℝ) = 0 from
      sqNorm_eq_zero.2 rfl]
    ring
  · intro w h0 h1
    rw [show c.evaluate t - c.center = (c.radius * cos t) • c.e0 + (c.radius * sin t) • c.e1 by
      unfold evaluate; module, dot_add, dot_smul, dot_smul, dot_comm (K := ℝ) c.e0, h0,
      dot_comm (K := ℝ) c.e1, h1]
    ring
  · intro hr x y hxy
    obtain ⟨h1, h2⟩ := atan2_polar y x
    have hh : hypot x y = c.radius := by
      unfold hypot
      rw [show x * x + y * y = c.radius ^ 2 by rw [← hxy]; ring, Real.sqrt_sq hr]
    rw [hh] at h1 h2
    refine ⟨atan2 y x, ?_⟩
    unfold evaluate
    generalize atan2 y x = a at h1 h2
    rw [h1, h2]; module

/-- C37, second part: the derivative functions are the derivatives of `evaluate`. -/
theorem C37_circle_derivatives {E : Type} [NormedAddCommGroup E] [NormedSpace ℝ E] (c : Circle E)
    (t : ℝ) : HasDerivAt c.evaluate (c.evaluateDerivative t) t ∧
      HasDerivAt c.evaluateDerivative (c.evaluate2ndDerivative t) t := by
  constructor
  · have := ((((Real.hasDerivAt_cos t).smul_const c.e0).add
      ((Real.hasDerivAt_sin t).smul_const c.e1)).const_smul c.radius).const_add c.center
    refine HasDerivAt.congr_deriv this ?_
    unfold evaluateDerivative; module
  · have := ((((Real.hasDerivAt_sin t).smul_const (-c.e0)).add
      ((Real.hasDerivAt_cos t).smul_const c.e1)).const_smul c.radius)
    refine HasDerivAt.congr_deriv this ?_
    unfold evaluate2ndDerivative; module

/-- C37, third part.  For a range that does not start below `-π`, inverse evaluation returns a parameter
of the range whose point is at least as close to the query as every other point of the range; in
particular it returns a parameter of the query itself when the query lies on the arc.  The iteration
bound is any number of full turns that reaches the range.

Full claim: every range.  Missing: ranges that start below `-π`, where it fails
(`C37_circle_inverse_refuted`). -/
theorem C37_circle_inverse_partial (c : Circle V) (h : Ortho2 c.e0 c.e1) (hr : 0 ≤ c.radius) (p : V)
    (lower upper : ℝ) (hlu : lower ≤ upper) (hl : -π ≤ lower) (fuel : ℕ)
    (hf : lower + π ≤ fuel * (2 * π)) :
    ∃ t, c.approxInverse fuel p lower upper = ok t ∧ lower ≤ t ∧ t ≤ upper ∧
      (∀ s, lower ≤ s → s ≤ upper →
        (sqNorm (c.evaluate t - p) : ℝ) ≤ sqNorm (c.evaluate s - p)) ∧
      ∀ s, lower ≤ s → s ≤ upper → p = c.evaluate s → c.evaluate t = p := by
  suffices hmain : ∃ t, c.approxInverse fuel p lower upper = ok t ∧ lower ≤ t ∧ t ≤ upper ∧
      (∀ s, lower ≤ s → s ≤ upper →
        (sqNorm (c.evaluate t - p) : ℝ) ≤ sqNorm (c.evaluate s - p)) by
    obtain ⟨t, e, h1, h2, h3⟩ := hmain
    refine ⟨t, e, h1, h2, h3, fun s hs1 hs2 hs => ?_⟩
    have := h3 s hs1 hs2
    rw [show c.evaluate s - p = 0 by rw [hs, sub_self], show (sqNorm (0 : V) : ℝ) = 0 from
      sqNorm_eq_zero.2 rfl] at this
    exact sub_eq_zero.1 (sqNorm_eq_zero.1 (le_antisymm this (sqNorm_nonneg (K := ℝ) _)))
  have hpi := Real.pi_pos
  obtain ⟨ρ, hρ, hd⟩ := sqDist_polar c h p
  set a := atan2 (dot c.e1 (p - c.center) : ℝ) (dot c.e0 (p - c.center)) with ha
  have ha1 : -π < a := neg_pi_lt_atan2 _ _
  have ha2 : a ≤ π := atan2_le_pi _ _
  obtain ⟨t, e, ht1, ⟨k, hk⟩, ht3, ht4⟩ := raise_spec lower fuel a (by linarith)
  have hlt : t ≤ lower + 2 * π := by
    rcases lt_or_ge a lower with h' | h'
    · exact (ht3 h').le
    · rw [ht4 h']; linarith
  have hcos : ∀ x, cos (x - t) = cos (x - a) := by
    intro x
    rw [show x - t = (x - a) + ((-k : ℤ) : ℝ) * (2 * π) by rw [hk]; push_cast; ring, cos_add_turns]
  have hle : ∀ s r, cos (s - a) ≤ cos (r - a) →
      (sqNorm (c.evaluate r - p) : ℝ) ≤ sqNorm (c.evaluate s - p) := by
    intro s r hc
    rw [hd s, hd r]
    nlinarith [mul_le_mul_of_nonneg_left hc (mul_nonneg hr hρ)]
  by_cases htu : t > upper
  · -- no point of the range has the direction of the query
    have key : ∀ s, lower ≤ s → s ≤ upper → cos (s - a) ≤ cos (lower - a) ∨ cos (s - a) ≤ cos (upper - a) := by
      intro s hs1 hs2
      have e1 : ∀ x, cos (x - a) = cos (x - t + 2 * π) := fun x => by
        rw [Real.cos_add_two_pi, hcos]
      rw [e1 s, e1 lower, e1 upper]
      exact cos_le_max_ends (by linarith) (by linarith) (by linarith) (by linarith)
    by_cases hc : (sqNorm (c.evaluate lower - p) : ℝ) < sqNorm (c.evaluate upper - p)
    · refine ⟨lower, ?_, le_refl _, hlu, ?_⟩
      · unfold approxInverse
        rw [assert_true hlu, ok_bind]
        simp only
        rw [← ha, e, ok_bind, if_pos htu, if_pos hc]; rfl
      · intro s hs1 hs2
        rcases key s hs1 hs2 with h' | h'
        · exact hle _ _ h'
        · exact le_trans hc.le (hle _ _ h')
    · refine ⟨upper, ?_, hlu, le_refl _, ?_⟩
      · unfold approxInverse
        rw [assert_true hlu, ok_bind]
        simp only
        rw [← ha, e, ok_bind, if_pos htu, if_neg hc]; rfl
      · intro s hs1 hs2
        rcases key s hs1 hs2 with h' | h'
        · exact le_trans (not_lt.1 hc) (hle _ _ h')
        · exact hle _ _ h'
  · refine ⟨t, ?_, ht1, not_lt.1 htu, ?_⟩
    · unfold approxInverse
      rw [assert_true hlu, ok_bind]
      simp only
      rw [← ha, e, ok_bind, if_neg htu]; rfl
    · intro s _ _
      apply hle
      rw [← hcos t, sub_self, Real.cos_zero]
      exact Real.cos_le_one _

/-- Concrete case: the upper half of the unit circle in the complex plane. -/
example : Ortho2 (V := ℂ) 1 Complex.I ∧ (0 : ℝ) ≤ π ∧ -π ≤ (0 : ℝ) ∧
    (0 : ℝ) + π ≤ ((1 : ℕ) : ℝ) * (2 * π) := by
  have := Real.pi_pos
  refine ⟨⟨?_, ?_, ?_⟩, this.le, by linarith, by push_cast; linarith⟩ <;> simp [dot, Inner.inner]

/-- C37 fails for ranges starting below `-π`: on the full circle parametrised by `[-2π, 0]` the inverse
evaluation of the point of parameter `-3π/2` returns an end of the range, a different point, whatever
the number of iterations. -/
theorem C37_circle_inverse_refuted (c : Circle V) (h : Ortho2 c.e0 c.e1) (hr : 0 < c.radius)
    (fuel : ℕ) : -(2 * π) ≤ -(3 * π / 2) ∧ -(3 * π / 2) ≤ 0 ∧
    ∃ t, c.approxInverse fuel (c.evaluate (-(3 * π / 2))) (-(2 * π)) 0 = ok t ∧
      c.evaluate t ≠ c.evaluate (-(3 * π / 2)) := by
  have hpi := Real.pi_pos
  have hc : cos (-(3 * π / 2)) = 0 := by
    rw [show -(3 * π / 2) = π / 2 + ((-1 : ℤ) : ℝ) * (2 * π) by push_cast; ring, cos_add_turns,
      Real.cos_pi_div_two]
  have hs : sin (-(3 * π / 2)) = 1 := by
    rw [show -(3 * π / 2) = π / 2 + ((-1 : ℤ) : ℝ) * (2 * π) by push_cast; ring, sin_add_turns,
      Real.sin_pi_div_two]
  have hp : c.evaluate (-(3 * π / 2)) = c.center + c.radius • c.e1 := by
    unfold evaluate; rw [hc, hs]; module
  refine ⟨by linarith, by linarith, ?_⟩
  have e0 : c.evaluate 0 = c.center + c.radius • c.e0 := by
    unfold evaluate; rw [Real.cos_zero, Real.sin_zero]; module
  have e1 : c.evaluate (-(2 * π)) = c.center + c.radius • c.e0 := by
    unfold evaluate
    rw [show -(2 * π) = 0 + ((-1 : ℤ) : ℝ) * (2 * π) by push_cast; ring, cos_add_turns, sin_add_turns,
      Real.cos_zero, Real.sin_zero]
    module
  have hne : c.center + c.radius • c.e0 ≠ c.center + c.radius • c.e1 := by
    intro he
    have := congrArg (fun x => (dot (x - c.center) c.e1 : ℝ)) he
    simp only [add_sub_cancel_left, dot_smul, h.o01, h.n1] at this
    linarith
  have ha : atan2 (dot c.e1 (c.evaluate (-(3 * π / 2)) - c.center) : ℝ)
      (dot c.e0 (c.evaluate (-(3 * π / 2)) - c.center)) = π / 2 := by
    rw [hp, add_sub_cancel_left, dot_smul_right, dot_smul_right, h.n1, h.o01]
    unfold atan2
    rw [show (⟨c.radius * 0, c.radius * 1⟩ : ℂ) = c.radius * Complex.I by
      apply Complex.ext <;> simp, Complex.arg_real_mul _ hr, Complex.arg_I]
  have hraise : raise (-(2 * π)) fuel (π / 2) = ok (π / 2) := by
    cases fuel <;> rw [raise, if_neg (by linarith)]
  refine ⟨0, ?_, ?_⟩
  · unfold approxInverse
    rw [assert_true (by linarith), ok_bind]
    simp only
    rw [ha, hraise, ok_bind, if_pos (by linarith : π / 2 > 0), hp, e0, e1, if_neg (lt_irrefl _)]
    rfl
  · rw [hp, e0]; exact hne

/-- C37: the flag set by `initialize` is right for exact full turns: the arc then closes up.  A circle
that closes up over less than a tolerance of a full turn is reported periodic, too. -/
theorem C37_circle_periodic (tol : ℝ) (ht : 0 < tol) (c c' : Circle V) (hi : c.init tol = ok c') :
    (c'.periodic = true ↔ ∃ k : ℕ, |c.upper - c.lower - k * (2 * π)| < tol ∧
      ∀ j : ℤ, |c.upper - c.lower - k * (2 * π)| ≤ |c.upper - c.lower - j * (2 * π)|) ∧
    (∀ k : ℤ, c.upper = c.lower + k * (2 * π) →
      c'.periodic = true ∧ c'.evaluate c'.lower = c'.evaluate c'.upper) := by
  unfold init at hi
  obtain ⟨_, -, hi⟩ := bind_eq_ok.1 hi
  obtain ⟨_, -, hi⟩ := bind_eq_ok.1 hi
  obtain ⟨_, -, hi⟩ := bind_eq_ok.1 hi
  obtain ⟨_, hlu, hi⟩ := bind_eq_ok.1 hi
  have hlu : c.lower ≤ c.upper := by
    by_contra hn
    rw [assert_false hn] at hlu; cases hlu
  rw [pure_eq, ok.injEq] at hi
  subst hi
  have hpi := Real.pi_pos
  have h2 := two_pi_pos'
  set w := c.upper - c.lower with hw
  have hw0 : 0 ≤ w / (2 * π) := div_nonneg (by linarith) h2.le
  have hr : rnd (w / (2 * π)) = ⌊w / (2 * π) + 1 / 2⌋ := if_pos hw0
  set n := ⌊w / (2 * π) + 1 / 2⌋ with hn
  have hn0 : 0 ≤ n := Int.floor_nonneg.2 (by linarith)
  have hn1 : (n : ℝ) ≤ w / (2 * π) + 1 / 2 := Int.floor_le _
  have hn2 : w / (2 * π) + 1 / 2 < n + 1 := Int.lt_floor_add_one _
  have hwe : w = (w / (2 * π)) * (2 * π) := by field_simp
  have habs : |w - n * (2 * π)| ≤ π := by
    rw [hwe, ← sub_mul, abs_mul, abs_of_pos h2]
    have : |w / (2 * π) - n| ≤ 1 / 2 := by rw [abs_le]; constructor <;> linarith
    nlinarith
  have hmin : ∀ j : ℤ, |w - n * (2 * π)| ≤ |w - j * (2 * π)| := by
    intro j
    rcases eq_or_ne j n with rfl | hj
    · exact le_refl _
    · refine le_trans habs ?_
      have e : w - j * (2 * π) = (w - n * (2 * π)) + ((n - j : ℤ) : ℝ) * (2 * π) := by push_cast; ring
      have h1 : (1 : ℝ) ≤ |((n - j : ℤ) : ℝ)| := by
        rw [← Int.cast_abs]; exact_mod_cast Int.one_le_abs (by omega)
      have h3 : |((n - j : ℤ) : ℝ) * (2 * π)| = |((n - j : ℤ) : ℝ)| * (2 * π) := by
        rw [abs_mul, abs_of_pos h2]
      have h4 := abs_sub_abs_le_abs_sub (((n - j : ℤ) : ℝ) * (2 * π)) (-(w - n * (2 * π)))
      rw [sub_neg_eq_add, abs_neg, h3, add_comm, ← e] at h4
      nlinarith
  have hflag : windingPeriodic tol c.lower c.upper = decide (|w - n * (2 * π)| < tol) := by
    unfold windingPeriodic
    simp only
    rw [← hw, hr]
    congr 3
    rw [mul_assoc]
  refine ⟨?_, ?_⟩
  · simp only [hflag, decide_eq_true_eq]
    constructor
    · intro h
      refine ⟨n.toNat, ?_, ?_⟩
      · rw [show ((n.toNat : ℕ) : ℝ) = (n : ℝ) by exact_mod_cast congrArg (Int.cast (R := ℝ)) (Int.toNat_of_nonneg hn0)]
        exact h
      · rw [show ((n.toNat : ℕ) : ℝ) = (n : ℝ) by exact_mod_cast congrArg (Int.cast (R := ℝ)) (Int.toNat_of_nonneg hn0)]
        exact hmin
    · rintro ⟨k, h1, -⟩
      exact lt_of_le_of_lt (by simpa using hmin (k : ℤ)) h1
  · intro k hk
    have hwk : w = k * (2 * π) := by rw [hw, hk]; ring
    constructor
    · simp only [hflag, decide_eq_true_eq]
      refine lt_of_le_of_lt (hmin k) ?_
      rw [hwk, sub_self, abs_zero]; exact ht
    · unfold evaluate
      simp only
      rw [hk, cos_add_turns, sin_add_turns]

end Circle

namespace Ellipse

/-- C37, first part, for ellipses: the implicit equation, with the coordinates taken along the rows of
an orthonormal frame; conversely every such point is attained. -/
theorem C37_ellipse_implicit (c : Ellipse V) (h : Ortho2 c.e0 c.e1) (ha : 0 < c.major)
    (hb : 0 < c.minor) :
    (∀ t, ((dot (c.evaluate t - c.center) c.e0 : ℝ) / c.major) ^ 2 +
        ((dot (c.evaluate t - c.center) c.e1 : ℝ) / c.minor) ^ 2 = 1 ∧
      ∀ w : V, (dot w c.e0 : ℝ) = 0 → (dot w c.e1 : ℝ) = 0 →
        (dot (c.evaluate t - c.center) w : ℝ) = 0) ∧
    (∀ x y : ℝ, (x / c.major) ^ 2 + (y / c.minor) ^ 2 = 1 →
      ∃ t, c.evaluate t = c.center + x • c.e0 + y • c.e1) := by
  have e : ∀ t, c.evaluate t - c.center = (c.major * cos t) • c.e0 + (c.minor * sin t) • c.e1 := by
    intro t; unfold evaluate; module
  refine ⟨fun t => ⟨?_, ?_⟩, ?_⟩
  · rw [e, dot_add, dot_add, dot_smul, dot_smul, dot_smul, dot_smul, h.n0, h.n1, h.o01, h.o10]
    rw [show c.major * cos t * 1 + c.minor * sin t * 0 = c.major * cos t by ring,
      show c.major * cos t * 0 + c.minor * sin t * 1 = c.minor * sin t by ring,
      mul_div_cancel_left₀ _ ha.ne', mul_div_cancel_left₀ _ hb.ne']
    linarith [Real.sin_sq_add_cos_sq t]
  · intro w h0 h1
    rw [e, dot_add, dot_smul, dot_smul, dot_comm (K := ℝ) c.e0, h0, dot_comm (K := ℝ) c.e1, h1]
    ring
  · intro x y hxy
    obtain ⟨h1, h2⟩ := atan2_polar (y / c.minor) (x / c.major)
    have hh : hypot (x / c.major) (y / c.minor) = 1 := by
      unfold hypot
      rw [show x / c.major * (x / c.major) + y / c.minor * (y / c.minor) = 1 by rw [← hxy]; ring,
        Real.sqrt_one]
    rw [hh, one_mul] at h1 h2
    refine ⟨atan2 (y / c.minor) (x / c.major), ?_⟩
    unfold evaluate
    rw [← h1, ← h2, smul_smul, smul_smul, mul_div_cancel₀ _ ha.ne', mul_div_cancel₀ _ hb.ne']

/-- C37, second part, for ellipses. -/
theorem C37_ellipse_derivatives {E : Type} [NormedAddCommGroup E] [NormedSpace ℝ E] (c : Ellipse E)
    (t : ℝ) : HasDerivAt c.evaluate (c.evaluateDerivative t) t ∧
      HasDerivAt c.evaluateDerivative (c.evaluate2ndDerivative t) t := by
  constructor
  · have := ((((Real.hasDerivAt_cos t).smul_const c.e0).const_smul c.major).const_add c.center).add
      (((Real.hasDerivAt_sin t).smul_const c.e1).const_smul c.minor)
    refine HasDerivAt.congr_deriv this ?_
    unfold evaluateDerivative; module
  · have := ((Real.hasDerivAt_sin t).smul_const (c.major • (-c.e0))).add
      ((Real.hasDerivAt_cos t).smul_const (c.minor • c.e1))
    refine HasDerivAt.congr_deriv this ?_
    unfold evaluate2ndDerivative; module

/-- A circle of radius 2 and an ellipse in the complex plane. -/
private noncomputable def exCircle : Circle ℂ := ⟨1, 1, Complex.I, 2, 0, 2 * π, false⟩
private noncomputable def exEllipse : Ellipse ℂ := ⟨1, 1, Complex.I, 3, 2, 0, 2 * π, false⟩

private theorem ortho_one_I : Ortho2 (V := ℂ) 1 Complex.I := by
  refine ⟨?_, ?_, ?_⟩ <;> simp [dot, Inner.inner]

example := Circle.C37_circle_implicit exCircle ortho_one_I
example := Circle.C37_circle_derivatives exCircle 1
example : ∃ c', exCircle.init 1 = ok c' ∧ c'.periodic = true ∧
    c'.evaluate c'.lower = c'.evaluate c'.upper := by
  have h := ortho_one_I
  have e : exCircle.init 1 = ok { exCircle with periodic := windingPeriodic 1 exCircle.lower exCircle.upper } := by
    have := Real.pi_pos
    simp [Circle.init, exCircle, sqNorm, dot, Inner.inner, Outcome.assert, this.le]
  exact ⟨_, e, (Circle.C37_circle_periodic 1 one_pos _ _ e).2 1 (by simp [exCircle])⟩
example := C37_ellipse_implicit exEllipse ortho_one_I (by norm_num [exEllipse]) (by norm_num [exEllipse])
example := C37_ellipse_derivatives exEllipse 1

end Ellipse

end NS
