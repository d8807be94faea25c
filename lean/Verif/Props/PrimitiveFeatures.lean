import Verif.Model.PrimitiveFeatures
import Verif.Spec.CurveFeatures
import Verif.Props.TurningAngle
import Verif.Props.Circle
import Verif.Props.LineOffset

/-!
# C106: inflections, singularities and turning angles of lines, circles and ellipses
-/

set_option linter.unusedSectionVars false

namespace NS
namespace PrimitiveFeatures

open Outcome Spec Turning Geom LawfulGeom

theorem lists_nil {P : ℝ → Prop} {lower upper : ℝ} (h : ∀ t, ¬ P t) : Lists P lower upper [] := by
  intro t
  simp [h t]

theorem bend_eq {p d dd : ℝ → ℝ × ℝ} (h1 : ∀ t, HasDerivAt p (d t) t) (h2 : ∀ t, HasDerivAt d (dd t) t) (t : ℝ) :
    bend p t = (d t).1 * (dd t).2 - (d t).2 * (dd t).1 := by
  have e : deriv p = d := funext fun t => (h1 t).deriv
  rw [bend, e, (h2 t).deriv]

theorem no_inflection {p : ℝ → ℝ × ℝ} {k : ℝ} (h : ∀ t, bend p t = k) (t : ℝ) : ¬ Inflection p t := by
  intro hi
  obtain ⟨a, b, -, -, hab⟩ := hi 1 one_pos
  rw [h, h] at hab
  nlinarith [mul_self_nonneg k]

/-- **C106** (inflections): a line, a circle and an ellipse in the plane have no inflection, whatever their
data, and that is what the empty lists say. -/
theorem C106_inflections (a : Line ℝ (ℝ × ℝ)) (b : Circle (ℝ × ℝ)) (c : Ellipse (ℝ × ℝ)) (lower upper : ℝ) :
    (∃ l, Line.computeInflections lower upper = ok l ∧ Lists (Inflection a.evaluate) lower upper l) ∧
    (∃ l, Circle.computeInflections lower upper = ok l ∧ Lists (Inflection b.evaluate) lower upper l) ∧
    (∃ l, Ellipse.computeInflections lower upper = ok l ∧ Lists (Inflection c.evaluate) lower upper l) := by
  refine ⟨⟨[], rfl, lists_nil (no_inflection (k := 0) fun t => ?_)⟩,
    ⟨[], rfl, lists_nil (no_inflection (k := b.radius ^ 2 * (b.e0.1 * b.e1.2 - b.e0.2 * b.e1.1)) fun t => ?_)⟩,
    ⟨[], rfl, lists_nil (no_inflection (k := c.major * c.minor * (c.e0.1 * c.e1.2 - c.e0.2 * c.e1.1))
      fun t => ?_)⟩⟩
  · have hd : ∀ t, HasDerivAt a.evaluate (a.evaluateDerivative t) t := fun t =>
      (((hasDerivAt_id t).smul_const a.direction).const_add a.location).congr_deriv (one_smul _ _)
    rw [bend_eq (d := a.evaluateDerivative) (dd := a.evaluate2ndDerivative) hd
      fun t => hasDerivAt_const t a.direction]
    simp [Line.evaluate2ndDerivative]
  · rw [bend_eq (d := b.evaluateDerivative) (dd := b.evaluate2ndDerivative)
      (fun t => (Circle.C37_circle_derivatives b t).1) fun t => (Circle.C37_circle_derivatives b t).2]
    have := Real.cos_sq_add_sin_sq t
    simp only [Circle.evaluateDerivative, Circle.evaluate2ndDerivative, Prod.smul_fst, Prod.smul_snd,
      Prod.fst_add, Prod.snd_add, Prod.fst_sub, Prod.snd_sub, Prod.fst_neg, Prod.snd_neg, smul_eq_mul]
    linear_combination b.radius ^ 2 * (b.e0.1 * b.e1.2 - b.e0.2 * b.e1.1) * this
  · rw [bend_eq (d := c.evaluateDerivative) (dd := c.evaluate2ndDerivative)
      (fun t => (Ellipse.C37_ellipse_derivatives c t).1) fun t => (Ellipse.C37_ellipse_derivatives c t).2]
    have := Real.cos_sq_add_sin_sq t
    simp only [Ellipse.evaluateDerivative, Ellipse.evaluate2ndDerivative, Prod.smul_fst, Prod.smul_snd,
      Prod.fst_add, Prod.snd_add, Prod.fst_sub, Prod.snd_sub, Prod.fst_neg, Prod.snd_neg, smul_eq_mul]
    linear_combination c.major * c.minor * (c.e0.1 * c.e1.2 - c.e0.2 * c.e1.1) * this

/-- Concrete case: an arc of a circle of radius 2 with a clockwise frame. -/
example : ∃ l, Circle.computeInflections 1 3 = ok l ∧
    Lists (Inflection (Circle.evaluate ⟨((3 : ℝ), (4 : ℝ)), (1, 0), (0, -1), 2, 0, 6, false⟩)) 1 3 l :=
  (C106_inflections ⟨(0, 0), (1, 0), 0, 1, false⟩ ⟨(3, 4), (1, 0), (0, -1), 2, 0, 6, false⟩
    ⟨(0, 0), (1, 0), (0, 1), 2, 1, 0, 6, false⟩ 1 3).2.1

section Singular

variable {E : Type} [NormedAddCommGroup E] [InnerProductSpace ℝ E]

theorem assert_bind_ok {α : Type} {p : Prop} [Decidable p] {f : Outcome α} {a : α} :
    (Outcome.assert p >>= fun _ => f) = ok a ↔ p ∧ f = ok a := by
  by_cases h : p
  · simp [h, ok_bind]
  · simp only [h, false_and, iff_false]
    rintro ⟨⟩

/-- Combinations of the rows of a frame that passed the checks of `initialize` vanish only trivially. -/
theorem frame_combination {e0 e1 : E} {tol x y : ℝ} (a0 : tol ≤ (sqNorm e0 : ℝ))
    (a1 : tol ≤ (sqNorm e1 : ℝ)) (h01 : |(dot e0 e1 : ℝ)| < tol) (h : x • e0 + y • e1 = 0) :
    x = 0 ∧ y = 0 := by
  have key : x ^ 2 * sqNorm e0 + 2 * (x * y) * dot e0 e1 + y ^ 2 * sqNorm e1 = (0 : ℝ) := by
    have : (dot (x • e0 + y • e1) (x • e0 + y • e1) : ℝ) = 0 := by rw [h]; simp [dot]
    simp only [dot_add, dot_add_right, dot_smul, dot_smul_right] at this
    rw [dot_comm e1 e0] at this
    unfold sqNorm
    linear_combination this
  generalize (sqNorm e0 : ℝ) = s0 at *
  generalize (sqNorm e1 : ℝ) = s1 at *
  generalize (dot e0 e1 : ℝ) = w at *
  by_contra hne
  have hpos : 0 < x ^ 2 + y ^ 2 := by
    rcases not_and_or.1 hne with g | g
    · have := sq_pos_of_ne_zero g; nlinarith [sq_nonneg y]
    · have := sq_pos_of_ne_zero g; nlinarith [sq_nonneg x]
  have b1 : x ^ 2 * tol ≤ x ^ 2 * s0 := mul_le_mul_of_nonneg_left (by linarith) (sq_nonneg x)
  have b2 : y ^ 2 * tol ≤ y ^ 2 * s1 := mul_le_mul_of_nonneg_left (by linarith) (sq_nonneg y)
  have b3 : |2 * (x * y) * w| ≤ (x ^ 2 + y ^ 2) * |w| := by
    rw [abs_mul]
    refine mul_le_mul_of_nonneg_right ?_ (abs_nonneg w)
    rw [abs_le]
    constructor <;> nlinarith [sq_nonneg (x + y), sq_nonneg (x - y)]
  have b4 : (x ^ 2 + y ^ 2) * |w| < (x ^ 2 + y ^ 2) * tol := mul_lt_mul_of_pos_left h01 hpos
  have b5 := (abs_le.1 b3).1
  nlinarith

/-- **C106** (singularities): a line, a circle with a radius other than zero and an ellipse whose frame rows are not
negligible that passed `initialize` never stop, and that is what the empty lists say.  Missing: circles of radius
zero and ellipses with a frame row that is zero, which `initialize` accepts (`C106_singularities_refuted`). -/
theorem C106_singularities_partial {eps tol : ℝ} (he : 0 ≤ eps) (ht : tol ≤ 1 / 2) {a a' : Line ℝ E} {b b' : Circle E}
    {c c' : Ellipse E} (ha : a.init eps = ok a') (hb : b.init tol = ok b') (hr : b'.radius ≠ 0)
    (hc : c.init tol = ok c') (hl0 : tol ≤ (sqNorm c.e0 : ℝ)) (hl1 : tol ≤ (sqNorm c.e1 : ℝ)) (lower upper : ℝ) :
    (∃ l, Line.computeSingularities lower upper = ok l ∧ Lists (Singular a'.evaluate) lower upper l) ∧
    (∃ l, Circle.computeSingularities lower upper = ok l ∧ Lists (Singular b'.evaluate) lower upper l) ∧
    (∃ l, Ellipse.computeSingularities lower upper = ok l ∧ Lists (Singular c'.evaluate) lower upper l) := by
  refine ⟨⟨[], rfl, lists_nil fun t hs => ?_⟩, ⟨[], rfl, lists_nil fun t hs => ?_⟩,
    ⟨[], rfl, lists_nil fun t hs => ?_⟩⟩
  · have e := (C36_line_derivatives a' t).1.unique hs
    unfold Line.init at ha
    obtain ⟨-, ha⟩ := assert_bind_ok.1 ha
    obtain ⟨g, ha⟩ := assert_bind_ok.1 ha
    rw [pure_eq, ok.injEq] at ha
    rw [Line.evaluateDerivative, ← ha] at e
    rw [e] at g
    simp [sqNorm, dot] at g
    linarith
  · have e := (Circle.C37_circle_derivatives b' t).1.unique hs
    unfold Circle.init at hb
    obtain ⟨g0, hb⟩ := assert_bind_ok.1 hb
    obtain ⟨g1, hb⟩ := assert_bind_ok.1 hb
    obtain ⟨g2, hb⟩ := assert_bind_ok.1 hb
    obtain ⟨-, hb⟩ := assert_bind_ok.1 hb
    rw [pure_eq, ok.injEq] at hb
    subst hb
    obtain ⟨k1, k2⟩ := frame_combination (x := -(b.radius * Real.sin t)) (y := b.radius * Real.cos t)
      (by have := (abs_lt.1 g0).1; linarith) (by have := (abs_lt.1 g1).1; linarith) g2
      (by rw [← e, Circle.evaluateDerivative]; module)
    have := Real.cos_sq_add_sin_sq t
    have s0 : Real.sin t = 0 := by
      have := mul_eq_zero.1 (neg_eq_zero.1 k1); exact this.resolve_left hr
    have c0 := (mul_eq_zero.1 k2).resolve_left hr
    rw [s0, c0] at this; norm_num at this
  · have e := (Ellipse.C37_ellipse_derivatives c' t).1.unique hs
    unfold Ellipse.init at hc
    obtain ⟨h1, hc⟩ := assert_bind_ok.1 hc
    obtain ⟨h2, hc⟩ := assert_bind_ok.1 hc
    obtain ⟨-, hc⟩ := assert_bind_ok.1 hc
    obtain ⟨g3, hc⟩ := assert_bind_ok.1 hc
    obtain ⟨-, hc⟩ := assert_bind_ok.1 hc
    rw [pure_eq, ok.injEq] at hc
    subst hc
    obtain ⟨k1, k2⟩ := frame_combination (x := -(c.major * Real.sin t)) (y := c.minor * Real.cos t)
      hl0 hl1 g3
      (by rw [← e, Ellipse.evaluateDerivative]; module)
    have := Real.cos_sq_add_sin_sq t
    have s0 : Real.sin t = 0 := by
      have := mul_eq_zero.1 (neg_eq_zero.1 k1); exact this.resolve_left h1.ne'
    have c0 := (mul_eq_zero.1 k2).resolve_left h2.ne'
    rw [s0, c0] at this; norm_num at this

/-- **C106** (singularities): the radius of a new circle is zero and `initialize` accepts it; such a circle stops
at every parameter, and none is listed. -/
theorem C106_singularities_refuted {tol : ℝ} {b b' : Circle E} (hb : b.init tol = ok b') (hr : b.radius = 0)
    {lower upper : ℝ} (h : lower ≤ upper) :
    (∀ t, Singular b'.evaluate t) ∧
      ∃ l, Circle.computeSingularities lower upper = ok l ∧ ¬ Lists (Singular b'.evaluate) lower upper l := by
  have key : ∀ t, Singular b'.evaluate t := by
    intro t
    unfold Circle.init at hb
    obtain ⟨g0, hb⟩ := assert_bind_ok.1 hb
    obtain ⟨g1, hb⟩ := assert_bind_ok.1 hb
    obtain ⟨g2, hb⟩ := assert_bind_ok.1 hb
    obtain ⟨-, hb⟩ := assert_bind_ok.1 hb
    rw [pure_eq, ok.injEq] at hb
    subst hb
    have := (Circle.C37_circle_derivatives { b with periodic := windingPeriodic tol b.lower b.upper } t).1
    refine this.congr_deriv ?_
    simp [Circle.evaluateDerivative, hr]
  refine ⟨key, [], rfl, fun hl => ?_⟩
  exact absurd ((hl lower).2 ⟨le_rfl, h, key lower⟩) (by simp)

/-- **C106** (singularities): `initialize` does not look at the length of the frame rows of an ellipse; with a second
row of zero the ellipse stops at the parameter `0`, which is not listed. -/
theorem C106_ellipse_refuted {tol : ℝ} (ht : 0 < tol) (e0 : E) :
    ∃ c : Ellipse E, c.e0 = e0 ∧ c.init tol = ok c ∧ Singular c.evaluate 0 ∧
      ∃ l, Ellipse.computeSingularities 0 1 = ok l ∧ ¬ Lists (Singular c.evaluate) 0 1 l := by
  have hs : ∀ p, Singular (Ellipse.evaluate ⟨0, e0, (0 : E), 2, 1, 0, 1, p⟩) 0 := by
    intro p
    have := (Ellipse.C37_ellipse_derivatives ⟨0, e0, (0 : E), 2, 1, 0, 1, p⟩ 0).1
    refine this.congr_deriv ?_
    simp [Ellipse.evaluateDerivative]
  refine ⟨⟨0, e0, 0, 2, 1, 0, 1, windingPeriodic tol 0 1⟩, rfl, ?_, hs _, [], rfl, fun hl => ?_⟩
  · simp [Ellipse.init, Outcome.assert, dot, ht, ok_bind, pure_eq]
  · exact absurd ((hl 0).2 ⟨le_rfl, zero_le_one, hs _⟩) (by simp)

end Singular

/-- Concrete case of `C106_singularities_partial` in the complex plane. -/
example : ∃ l, Ellipse.computeSingularities 0 6 = ok l ∧ Lists (Singular (Ellipse.evaluate
    ⟨0, (1 : ℂ), Complex.I, 3, 2, 0, 1, windingPeriodic (1 / 100) 0 1⟩)) 0 6 l := by
  have o : (dot (1 : ℂ) Complex.I : ℝ) = 0 := by simp [dot, Inner.inner]
  have n0 : (sqNorm (1 : ℂ) : ℝ) = 1 := by simp [sqNorm, dot, Inner.inner]
  have n1 : (sqNorm Complex.I : ℝ) = 1 := by simp [sqNorm, dot, Inner.inner]
  refine (C106_singularities_partial (E := ℂ) (eps := 0) (tol := 1 / 100) le_rfl (by norm_num)
    (a := ⟨0, 1, 0, 1, false⟩) (a' := ⟨0, 1, 0, 1, false⟩) (b := ⟨0, 1, Complex.I, 1, 0, 1, false⟩)
    (b' := ⟨0, 1, Complex.I, 1, 0, 1, windingPeriodic (1 / 100) 0 1⟩)
    (c := ⟨0, 1, Complex.I, 3, 2, 0, 1, false⟩) ?_ ?_ one_ne_zero ?_ ?_ ?_ 0 6).2.2
  · simp [Line.init, Outcome.assert, ok_bind, pure_eq, n0]
  · simp [Circle.init, Outcome.assert, ok_bind, pure_eq, n0, n1, o]
  · simp [Ellipse.init, Outcome.assert, ok_bind, pure_eq, o]
    norm_num
  · rw [n0]; norm_num
  · rw [n1]; norm_num

/-! ### Turning angles -/

/-- The tangent of a circle with an orthonormal frame in the plane has an angle that is linear in the parameter. -/
theorem circle_angle {c : Circle (ℝ × ℝ)} (he0 : c.e0.1 ^ 2 + c.e0.2 ^ 2 = 1)
    (he1 : c.e1 = (-c.e0.2, c.e0.1) ∨ c.e1 = (c.e0.2, -c.e0.1)) :
    ∃ s b : ℝ, ∀ t, c.evaluateDerivative t = c.radius • dir (s * t + b) := by
  obtain ⟨r, a, hr', e⟩ := exists_angle c.e0 (by
    intro h; rw [h] at he0; norm_num at he0)
  have hr1 : r = 1 := by
    rw [e] at he0
    have : r ^ 2 * (Real.cos a ^ 2 + Real.sin a ^ 2) = 1 := by
      rw [← he0]; simp only [dir, Prod.smul_fst, Prod.smul_snd, smul_eq_mul]; ring
    rw [Real.cos_sq_add_sin_sq, mul_one] at this
    nlinarith
  rw [hr1, one_smul] at e
  rcases he1 with he1 | he1
  · refine ⟨1, a + Real.pi / 2, fun t => ?_⟩
    rw [Circle.evaluateDerivative, he1, e]
    congr 1
    rw [← add_assoc]
    simp only [dir]
    rw [Real.cos_add_pi_div_two, Real.sin_add_pi_div_two, Real.cos_add, Real.sin_add]
    ext
    · simp; ring
    · simp; ring
  · refine ⟨-1, a - Real.pi / 2, fun t => ?_⟩
    rw [Circle.evaluateDerivative, he1, e]
    congr 1
    rw [← add_sub_assoc]
    simp only [dir]
    rw [Real.cos_sub_pi_div_two, Real.sin_sub_pi_div_two, Real.cos_add, Real.sin_add]
    ext
    · simp
    · simp

/-- **C106** (reduction of the turning angle of a circle): over every range, however many turns, and for frames of
both orientations, the parameter returned is in the range and splits it into two parts over each of which
the tangent turns by half of the whole angle. -/
theorem C106_circle_halves {c : Circle (ℝ × ℝ)} (hr : 0 < c.radius) (he0 : c.e0.1 ^ 2 + c.e0.2 ^ 2 = 1)
    (he1 : c.e1 = (-c.e0.2, c.e0.1) ∨ c.e1 = (c.e0.2, -c.e0.1)) {lower upper : ℝ} (h : lower ≤ upper) :
    ∃ m theta, Circle.reduceTurningAngle 2 lower upper = ok [m] ∧ lower ≤ m ∧ m ≤ upper ∧
      Rotates c.evaluateDerivative lower upper theta ∧
      Rotates c.evaluateDerivative lower m (theta / 2) ∧ Rotates c.evaluateDerivative m upper (theta / 2) := by
  obtain ⟨s, b, e⟩ := circle_angle he0 he1
  have ang : ∀ x y, Angle c.evaluateDerivative x y (fun t => s * t + b) := fun x y =>
    ⟨by fun_prop, fun t _ _ => ⟨c.radius, hr, e t⟩⟩
  refine ⟨(lower + upper) / 2, s * upper - s * lower, ?_, by linarith, by linarith,
    ⟨_, ang _ _, by ring⟩, ⟨_, ang _ _, by ring⟩, ⟨_, ang _ _, by ring⟩⟩
  rw [Circle.reduceTurningAngle, if_neg (by simp), assert_true h]; rfl

/-- Concrete case: two and a half turns of a circle with a clockwise frame. -/
example : ∃ m theta, Circle.reduceTurningAngle 2 0 (5 * Real.pi) = ok [m] ∧ 0 ≤ m ∧ m ≤ 5 * Real.pi ∧
    Rotates (Circle.evaluateDerivative ⟨((0 : ℝ), (0 : ℝ)), (3 / 5, 4 / 5), (4 / 5, -(3 / 5)), 1, 0, 6, false⟩)
      0 (5 * Real.pi) theta ∧
    Rotates (Circle.evaluateDerivative ⟨((0 : ℝ), (0 : ℝ)), (3 / 5, 4 / 5), (4 / 5, -(3 / 5)), 1, 0, 6, false⟩)
      0 m (theta / 2) ∧
    Rotates (Circle.evaluateDerivative ⟨((0 : ℝ), (0 : ℝ)), (3 / 5, 4 / 5), (4 / 5, -(3 / 5)), 1, 0, 6, false⟩)
      m (5 * Real.pi) (theta / 2) :=
  C106_circle_halves (c := ⟨(0, 0), (3 / 5, 4 / 5), (4 / 5, -(3 / 5)), 1, 0, 6, false⟩) (by norm_num) (by norm_num)
    (Or.inr rfl) (by positivity)

/-- **C106** (the tangent at the parameter returned): for every frame, the sum of the tangents at the ends of the
range is a multiple of the tangent at the parameter returned, the condition which the search on Bezier curves
solves for. -/
theorem C106_circle_bisector (c : Circle (ℝ × ℝ)) {lower upper : ℝ} (h : lower ≤ upper) :
    ∃ m, Circle.reduceTurningAngle 2 lower upper = ok [m] ∧
      c.evaluateDerivative lower + c.evaluateDerivative upper
        = (2 * Real.cos ((upper - lower) / 2)) • c.evaluateDerivative m := by
  refine ⟨(lower + upper) / 2, ?_, ?_⟩
  · rw [Circle.reduceTurningAngle, if_neg (by simp), assert_true h]; rfl
  · set m := (lower + upper) / 2 with hm
    set k := (upper - lower) / 2 with hk
    rw [show lower = m - k by rw [hm, hk]; ring, show upper = m + k by rw [hm, hk]; ring]
    simp only [Circle.evaluateDerivative, Real.cos_add, Real.cos_sub, Real.sin_add, Real.sin_sub]
    module

/-- **C75** (ellipses): exact over ranges shorter than half a turn of the parameter whose end tangents are not
negligible, for frames of both orientations.  Missing: longer ranges (`C75_ellipse_refuted`). -/
theorem C75_ellipse_partial {eps : ℝ} {c : Ellipse (ℝ × ℝ)} (h1 : 0 < c.major) (h2 : 0 < c.minor)
    (he0 : c.e0.1 ^ 2 + c.e0.2 ^ 2 = 1) (he1 : c.e1 = (-c.e0.2, c.e0.1) ∨ c.e1 = (c.e0.2, -c.e0.1))
    {t0 t1 : ℝ} (h01 : t0 ≤ t1) (hpi : t1 - t0 < Real.pi)
    (hn0 : eps ≤ Features.norm2 (c.evaluateDerivative t0)) (hn1 : eps ≤ Features.norm2 (c.evaluateDerivative t1)) :
    ∃ theta, c.turningAngle eps t0 t1 = ok theta ∧ Rotates c.evaluateDerivative t0 t1 theta := by
  set m := (t0 + t1) / 2 with hm
  set w : ℝ × ℝ := (-Real.sin m / c.major) • c.e0 + (Real.cos m / c.minor) • c.e1 with hw
  have key : ∀ t, inner2 w (c.evaluateDerivative t) = Real.cos (t - m) := by
    intro t
    have e1 : c.e1.1 ^ 2 + c.e1.2 ^ 2 = 1 := by
      rcases he1 with h | h <;> rw [h] <;> simp only <;> nlinarith
    have e2 : c.e0.1 * c.e1.1 + c.e0.2 * c.e1.2 = 0 := by
      rcases he1 with h | h <;> rw [h] <;> simp only <;> ring
    rw [Real.cos_sub, hw]
    simp only [inner2, Ellipse.evaluateDerivative, Prod.smul_fst, Prod.smul_snd, Prod.fst_add, Prod.snd_add,
      Prod.fst_neg, Prod.snd_neg, smul_eq_mul]
    have a1 := h1.ne'
    have a2 := h2.ne'
    field_simp
    linear_combination (c.major * c.minor * Real.sin m * Real.sin t) * he0
      + (c.major * c.minor * Real.cos m * Real.cos t) * e1
      - (c.minor ^ 2 * Real.sin m * Real.cos t + c.major ^ 2 * Real.cos m * Real.sin t) * e2
  have hpos : ∀ t, t0 ≤ t → t ≤ t1 → 0 < inner2 w (c.evaluateDerivative t) := fun t g1 g2 => by
    rw [key]
    exact Real.cos_pos_of_mem_Ioo ⟨by linarith, by linarith⟩
  have hw0 : w ≠ 0 := by
    intro h
    have := hpos t0 le_rfl h01
    rw [h] at this; simp [inner2] at this
  obtain ⟨r, a, hr, ea⟩ := exists_angle w hw0
  have hpos' : ∀ t, t0 ≤ t → t ≤ t1 → 0 < inner2 (dir a) (c.evaluateDerivative t) := fun t g1 g2 => by
    have := hpos t g1 g2
    rw [ea, show inner2 (r • dir a) (c.evaluateDerivative t) = r * inner2 (dir a) (c.evaluateDerivative t) by
      simp only [inner2, Prod.smul_fst, Prod.smul_snd, smul_eq_mul]; ring] at this
    exact pos_of_mul_pos_right this hr.le
  have hA : Angle c.evaluateDerivative t0 t1 _ := angle_of_half a (by
    apply Continuous.continuousOn
    unfold Ellipse.evaluateDerivative
    fun_prop) hpos'
  obtain ⟨theta, s0, s1, hc, -, -, -, -, -, k0, k1, kx⟩ :=
    C75_curve_partial (eps := eps) (d1 := fun t => ok (c.evaluateDerivative t)) (d := c.evaluateDerivative) h01
      fun _ _ _ => rfl
  rw [k0 hn0, k1 hn1] at kx
  have hrot : Rotates c.evaluateDerivative t0 t1 _ := ⟨_, hA, rfl⟩
  refine ⟨theta, hc, ?_⟩
  rw [kx _ ?_ hrot]
  · exact hrot
  · have g0 := abs_lt.1 (ang_near a (hpos' t0 le_rfl h01))
    have g1 := abs_lt.1 (ang_near a (hpos' t1 h01 le_rfl))
    rw [abs_lt]
    constructor <;> linarith

/-- Concrete case: a quarter of an ellipse. -/
example : ∃ theta, Ellipse.turningAngle (1 / 10) ⟨((1 : ℝ), (0 : ℝ)), (1, 0), (0, 1), 2, 1, 0, 6, false⟩ 0 (Real.pi / 2)
    = ok theta ∧ Rotates (Ellipse.evaluateDerivative ⟨((1 : ℝ), (0 : ℝ)), (1, 0), (0, 1), 2, 1, 0, 6, false⟩)
      0 (Real.pi / 2) theta := by
  refine C75_ellipse_partial (c := ⟨(1, 0), (1, 0), (0, 1), 2, 1, 0, 6, false⟩) (by norm_num) (by norm_num)
    (by norm_num) (Or.inl (by norm_num)) (by positivity) (by linarith [Real.pi_pos]) ?_ ?_ <;>
    apply Real.le_sqrt_of_sq_le <;> simp [Ellipse.evaluateDerivative] <;> norm_num

/-- **C75** (ellipses): over the whole ellipse the tangent makes a full turn and the result is zero. -/
theorem C75_ellipse_refuted {eps : ℝ} (he : eps ≤ 1) :
    ∃ c : Ellipse (ℝ × ℝ), c.turningAngle eps 0 (2 * Real.pi) = ok 0 ∧
      Rotates c.evaluateDerivative 0 (2 * Real.pi) (2 * Real.pi) := by
  refine ⟨⟨(0, 0), (1, 0), (0, 1), 1, 1, 0, 2 * Real.pi, true⟩, ?_, ?_⟩
  · obtain ⟨theta, s0, s1, hc, -⟩ := C75_curve_partial (eps := eps) (t0 := 0) (t1 := 2 * Real.pi)
      (d1 := fun t => ok (Ellipse.evaluateDerivative ⟨((0 : ℝ), (0 : ℝ)), (1, 0), (0, 1), 1, 1, 0, 2 * Real.pi, true⟩ t))
      (d := Ellipse.evaluateDerivative ⟨((0 : ℝ), (0 : ℝ)), (1, 0), (0, 1), 1, 1, 0, 2 * Real.pi, true⟩)
      (by positivity) (fun _ _ _ => rfl)
    have hl : ∀ t, ¬ Features.norm2 (Ellipse.evaluateDerivative
        ⟨((0 : ℝ), (0 : ℝ)), (1, 0), (0, 1), 1, 1, 0, 2 * Real.pi, true⟩ t) < eps := by
      intro t
      rw [not_lt]
      refine he.trans (Real.le_sqrt_of_sq_le ?_)
      simp [Ellipse.evaluateDerivative, ← sq]
    rw [Ellipse.turningAngle, curve]
    simp only [ok_bind, pure_eq, retry, if_neg (hl _)]
    rw [ok.injEq]
    have : Ellipse.evaluateDerivative ⟨((0 : ℝ), (0 : ℝ)), (1, 0), (0, 1), 1, 1, 0, 2 * Real.pi, true⟩ (2 * Real.pi)
      = Ellipse.evaluateDerivative ⟨((0 : ℝ), (0 : ℝ)), (1, 0), (0, 1), 1, 1, 0, 2 * Real.pi, true⟩ 0 := by
      simp [Ellipse.evaluateDerivative]
    rw [this, turn_self]
  · refine ⟨fun t => t + Real.pi / 2, ⟨by fun_prop, fun t _ _ => ⟨1, one_pos, ?_⟩⟩, by ring⟩
    rw [Ellipse.evaluateDerivative, dir, Real.cos_add_pi_div_two, Real.sin_add_pi_div_two]
    ext <;> simp

end PrimitiveFeatures
end NS
