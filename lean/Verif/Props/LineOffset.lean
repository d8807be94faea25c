import Verif.Model.Line
import Verif.Props.Inverse
import Verif.Props.Swept
import Mathlib.Analysis.Calculus.MeanValue

/-!
# C36, C44: lines and the second derivatives of offset patches
-/

set_option linter.unusedSectionVars false
set_option linter.unusedSimpArgs false

namespace NS

open Outcome Geom LawfulGeom

namespace Line

variable {K V : Type} [Field K] [LinearOrder K] [IsStrictOrderedRing K] [FloorRing K]
  [AddCommGroup V] [Module K V] [Geom K V] [LawfulGeom K V]

/-- **C36** (domain).  The parameter found for any query is accepted by `in_domain`, queries past either
end give the end, and a parameter is accepted by `in_domain` exactly when inverse evaluation of its
point gives it back. -/
theorem C36_line_domain (eps : K) (he : 0 ≤ eps) (c : Line K V) (hc : c.init eps = ok c) :
    (∀ p, ∃ t, c.inverseEvaluate p = ok t ∧ c.inDomain t = true) ∧
    (∀ t, c.inDomain t = true ↔ c.inverseEvaluate (c.evaluate t) = ok t) ∧
    (∀ t, c.upper ≤ t → c.inverseEvaluate (c.evaluate t) = ok c.upper) ∧
    (∀ t, t ≤ c.lower → c.inverseEvaluate (c.evaluate t) = ok c.lower) := by
  have hdom : ∀ t, c.inDomain t = true ↔ c.lower ≤ t ∧ t ≤ c.upper := by
    intro t; simp [inDomain]
  have hc' := hc
  unfold init at hc'
  obtain ⟨_, h1, hc'⟩ := bind_eq_ok.1 hc'
  obtain ⟨_, h2, hc'⟩ := bind_eq_ok.1 hc'
  have hle : c.lower ≤ c.upper := by
    by_contra h
    rw [assert_false (by simpa using h)] at h1
    cases h1
  have hsq : (sqNorm c.direction : K) > eps := by
    by_contra h
    rw [assert_false h] at h2
    cases h2
  have hq : (sqNorm c.direction : K) ≠ 0 := (lt_of_le_of_lt he hsq).ne'
  have hinv : ∀ t, c.inverseEvaluate (c.evaluate t) =
      if t < c.lower then ok c.lower else if t > c.upper then ok c.upper else ok t := by
    intro t
    unfold inverseEvaluate approxInverse evaluate
    rw [if_neg hq, add_sub_cancel_left, dot_smul]
    have : t * (dot c.direction c.direction : K) / sqNorm c.direction = t := by
      unfold sqNorm at *
      field_simp
    simp only [this]
  refine ⟨fun p => ?_, fun t => ?_, fun t ht => ?_, fun t ht => ?_⟩
  · obtain ⟨t, e, h1, h2, -⟩ := C36_line eps he c hc p
    exact ⟨t, e, (hdom t).2 ⟨h1, h2⟩⟩
  · rw [hdom, hinv]
    split
    · rename_i h
      rw [ok.injEq]
      exact ⟨fun g => absurd g.1 (not_le.2 h), fun g => absurd g h.ne'⟩
    · split
      · rename_i h
        rw [ok.injEq]
        exact ⟨fun g => absurd g.2 (not_le.2 h), fun g => absurd g h.ne⟩
      · rename_i h1 h2
        exact ⟨fun _ => rfl, fun _ => ⟨not_lt.1 h1, not_lt.1 h2⟩⟩
  · rw [hinv, if_neg (not_lt.2 (hle.trans ht))]
    split
    · rfl
    · rename_i h
      rw [le_antisymm ht (not_lt.1 h)]
  · rw [hinv]
    split
    · rfl
    · rename_i h
      rw [le_antisymm ht (not_lt.1 h), if_neg (not_lt.2 hle)]

end Line

/-- **C36** (derivatives).  The two derivative functions of a line are the derivatives of `evaluate`. -/
theorem C36_line_derivatives {W : Type} [NormedAddCommGroup W] [InnerProductSpace ℝ W] (c : Line ℝ W)
    (t : ℝ) : HasDerivAt c.evaluate (c.evaluateDerivative t) t ∧
      HasDerivAt c.evaluateDerivative (c.evaluate2ndDerivative t) t := by
  refine ⟨?_, hasDerivAt_const _ _⟩
  have := ((hasDerivAt_id t).smul_const c.direction).const_add c.location
  exact this.congr_deriv (one_smul _ _)

namespace Offset

/-- A central difference of a function whose derivative stays within `B` of `d` over the step is within
`B` of `d`. -/
theorem difference_near (delta : ℝ) (hd : 0 < delta) (f : ℝ → Outcome E3) (g g' : ℝ → E3) (d : E3)
    (B t : ℝ) (hf : ∀ x, |x - t| ≤ delta → f x = ok (g x))
    (hg : ∀ x, |x - t| ≤ delta → HasDerivAt g (g' x) x)
    (hB : ∀ x, |x - t| ≤ delta → ‖g' x - d‖ ≤ B) :
    ∃ r, difference delta f t = ok r ∧ ‖r - d‖ ≤ B := by
  unfold difference
  rw [hf _ (by simp [abs_of_pos hd]), ok_bind, hf _ (by simp [abs_of_pos hd]), ok_bind,
    assert_true hd.ne', ok_bind, pure_eq]
  refine ⟨_, rfl, ?_⟩
  have hin : ∀ x ∈ Set.Icc (t - delta) (t + delta), |x - t| ≤ delta := by
    intro x hx
    rw [abs_le]
    constructor <;> linarith [hx.1, hx.2]
  have key := Convex.norm_image_sub_le_of_norm_hasDerivWithin_le (𝕜 := ℝ)
    (f := fun x => g x - x • d) (f' := fun x => g' x - d) (C := B)
    (s := Set.Icc (t - delta) (t + delta)) (x := t - delta) (y := t + delta)
    (fun x hx => by
      have := (hg x (hin x hx)).sub ((hasDerivAt_id x).smul_const d)
      simp only [one_smul] at this
      exact this.hasDerivWithinAt)
    (fun x hx => hB x (hin x hx)) (convex_Icc _ _)
    ⟨le_rfl, by linarith⟩ ⟨by linarith, le_rfl⟩
  have e : (1 / (delta * 2)) • (g (t + delta) - g (t - delta)) - d =
      (1 / (delta * 2)) • ((g (t + delta) - (t + delta) • d) - (g (t - delta) - (t - delta) • d)) := by
    match_scalars <;> field_simp <;> ring
  rw [e, norm_smul]
  have h2 : t + delta - (t - delta) = delta * 2 := by ring
  rw [h2, Real.norm_of_nonneg (by positivity : (0 : ℝ) ≤ delta * 2)] at key
  rw [Real.norm_of_nonneg (by positivity : (0 : ℝ) ≤ 1 / (delta * 2))]
  calc 1 / (delta * 2) * _ ≤ 1 / (delta * 2) * (B * (delta * 2)) :=
        mul_le_mul_of_nonneg_left key (by positivity)
    _ = B := by field_simp

/-- **C44** (second derivatives).  Where the first derivative functions of the offset patch are
differentiable, with true second derivatives `guu`, `gvv` and `guv = ∂/∂v gu` that vary by at most `B`
over a step of `small` times the parameter range, the second derivative functions return and are within
`B` of the true second derivatives.  (The exact values, as for the other patches, are not returned:
the code takes differences.) -/
theorem C44_offset_second_derivatives (small : ℝ) (hs : 0 < small) (s : Offset)
    (hu : s.box.uLower < s.box.uUpper) (hv : s.box.vLower < s.box.vUpper)
    (gu gv guu gvv guv : ℝ → ℝ → E3) (u v B : ℝ)
    (hg : ∀ x y, |x - u| ≤ (s.box.uUpper - s.box.uLower) * small →
      |y - v| ≤ (s.box.vUpper - s.box.vLower) * small → s.evaluateDerivativeU x y = ok (gu x y) ∧
        s.evaluateDerivativeV x y = ok (gv x y) ∧ HasDerivAt (fun x => gu x y) (guu x y) x ∧
        HasDerivAt (fun y => gv x y) (gvv x y) y ∧ HasDerivAt (fun y => gu x y) (guv x y) y ∧
        ‖guu x y - guu u v‖ ≤ B ∧ ‖gvv x y - gvv u v‖ ≤ B ∧ ‖guv x y - guv u v‖ ≤ B) :
    ∃ a b c, (s.fn small).duu u v = ok a ∧ (s.fn small).dvv u v = ok b ∧ (s.fn small).duv u v = ok c ∧
      ‖a - guu u v‖ ≤ B ∧ ‖b - gvv u v‖ ≤ B ∧ ‖c - guv u v‖ ≤ B := by
  have du : 0 < (s.box.uUpper - s.box.uLower) * small := mul_pos (sub_pos.2 hu) hs
  have dv : 0 < (s.box.vUpper - s.box.vLower) * small := mul_pos (sub_pos.2 hv) hs
  have zu : |u - u| ≤ (s.box.uUpper - s.box.uLower) * small := by simpa using du.le
  have zv : |v - v| ≤ (s.box.vUpper - s.box.vLower) * small := by simpa using dv.le
  obtain ⟨a, ea, ha⟩ := difference_near _ du (fun x => s.evaluateDerivativeU x v) (fun x => gu x v)
    (fun x => guu x v) (guu u v) B u (fun x hx => (hg x v hx zv).1)
    (fun x hx => (hg x v hx zv).2.2.1) (fun x hx => (hg x v hx zv).2.2.2.2.2.1)
  obtain ⟨b, eb, hb⟩ := difference_near _ dv (fun y => s.evaluateDerivativeV u y) (fun y => gv u y)
    (fun y => gvv u y) (gvv u v) B v (fun y hy => (hg u y zu hy).2.1)
    (fun y hy => (hg u y zu hy).2.2.2.1) (fun y hy => (hg u y zu hy).2.2.2.2.2.2.1)
  obtain ⟨c, ec, hc⟩ := difference_near _ dv (fun y => s.evaluateDerivativeU u y) (fun y => gu u y)
    (fun y => guv u y) (guv u v) B v (fun y hy => (hg u y zu hy).1)
    (fun y hy => (hg u y zu hy).2.2.2.2.1) (fun y hy => (hg u y zu hy).2.2.2.2.2.2.2)
  exact ⟨a, b, c, ea, eb, ec, ha, hb, hc⟩

end Offset

/-! ### Concrete cases -/

example : exLine.inverseEvaluate (exLine.evaluate 7) = ok 3 :=
  (exLine.C36_line_domain (1 / 10 ^ 15) (by norm_num) exLine_ok.1).2.2.1 7 (by decide +kernel)

namespace Offset

/-- The surface `(u, v, u v + u²)`. -/
noncomputable def exSaddle : PatchFn ℝ E3 :=
  ⟨fun u v => ok (u • stdFrame.e0 + v • stdFrame.e1 + (u * v + u * u) • stdFrame.e2),
    fun u v => ok (stdFrame.e0 + (v + 2 * u) • stdFrame.e2), fun u _ => ok (stdFrame.e1 + u • stdFrame.e2),
    fun _ _ => ok ((2 : ℝ) • stdFrame.e2), fun _ _ => ok 0, fun _ _ => ok stdFrame.e2⟩

/-- Its offset by zero. -/
noncomputable def exSaddleOffset : Offset :=
  ⟨some ⟨exSaddle, fun _ _ _ _ _ => ub, ⟨0, 1, 0, 1, false, false⟩⟩, 0, ⟨0, 1, 0, 1, false, false⟩⟩

theorem exSaddle_regular (p q : ℝ) : (sqNorm (cross (stdFrame.e0 + p • stdFrame.e2)
    (stdFrame.e1 + q • stdFrame.e2)) : ℝ) ≠ 0 := by
  have h := stdFrame_ortho
  rw [sqNorm_cross]
  unfold sqNorm
  simp only [dot_add, dot_add_right, dot_smul, dot_smul_right, h.n0, h.n1, h.n2, h.o01, h.o12, h.o20,
    h.o10, h.o21, h.o02]
  nlinarith [sq_nonneg p, sq_nonneg q]

/-- The differences are exact for this surface: `2`, `0` and `1` times the normal of the base plane. -/
example (u v : ℝ) : (exSaddleOffset.fn (1 / 10 ^ 6)).duu u v = ok ((2 : ℝ) • stdFrame.e2) ∧
    (exSaddleOffset.fn (1 / 10 ^ 6)).dvv u v = ok 0 ∧
    (exSaddleOffset.fn (1 / 10 ^ 6)).duv u v = ok stdFrame.e2 := by
  have hU : ∀ x y, exSaddleOffset.evaluateDerivativeU x y =
      ok (stdFrame.e0 + (y + 2 * x) • stdFrame.e2) := by
    intro x y
    simp only [evaluateDerivativeU, exSaddleOffset, getPart, exSaddle, ok_bind, slope,
      assert_true (exSaddle_regular _ _), pure_eq, zero_smul, add_zero]
  have hV : ∀ x y, exSaddleOffset.evaluateDerivativeV x y =
      ok (stdFrame.e1 + x • stdFrame.e2) := by
    intro x y
    simp only [evaluateDerivativeV, exSaddleOffset, getPart, exSaddle, ok_bind, slope,
      assert_true (exSaddle_regular _ _), pure_eq, zero_smul, add_zero]
  obtain ⟨a, b, c, h1, h2, h3, e1, e2, e3⟩ := C44_offset_second_derivatives (1 / 10 ^ 6)
    (by norm_num) exSaddleOffset (by norm_num [exSaddleOffset]) (by norm_num [exSaddleOffset])
    (fun x y => stdFrame.e0 + (y + 2 * x) • stdFrame.e2) (fun x _ => stdFrame.e1 + x • stdFrame.e2)
    (fun _ _ => (2 : ℝ) • stdFrame.e2) (fun _ _ => 0) (fun _ _ => stdFrame.e2) u v 0
    (fun x y _ _ => ⟨hU x y, hV x y, by
      have := ((((hasDerivAt_id x).const_mul 2).const_add y).smul_const stdFrame.e2).const_add stdFrame.e0
      exact this.congr_deriv (by rw [mul_one]), hasDerivAt_const _ _, by
      have := (((hasDerivAt_id y).add_const (2 * x)).smul_const stdFrame.e2).const_add stdFrame.e0
      exact this.congr_deriv (one_smul _ _), by simp, by simp, by simp⟩)
  rw [norm_le_zero_iff, sub_eq_zero] at e1 e2 e3
  subst e1 e2 e3
  exact ⟨h1, h2, h3⟩

end Offset

end NS
