import Verif.Props.Periodic
import Verif.Props.Swept
import Verif.Model.Line

/-!
# C61: clones, and C68 for swept and offset patches

The other classes clone through their copy constructors, which copy every member.
-/

set_option linter.unusedSectionVars false
set_option linter.unusedSimpArgs false

namespace NS

open Outcome Geom LawfulGeom

section
variable {K V : Type} [Field K] [LinearOrder K] [IsStrictOrderedRing K] [FloorRing K]
  [AddCommGroup V] [Module K V] [Geom K V]

/-- C61 for lines: the clone of an initialised line has the same evaluators and domain.

Full claim: the same periodicity, too.  Missing: that holds exactly for lines that are not periodic
(`C61_line_clone_refuted`). -/
theorem Line.C61_line_clone_partial (eps : K) (c : Line K V) (h : c.init eps = ok c) :
    ∃ c', c.clone eps = ok c' ∧ c'.evaluate = c.evaluate ∧
      c'.evaluateDerivative = c.evaluateDerivative ∧ c'.lower = c.lower ∧ c'.upper = c.upper ∧
      c'.inverseEvaluate = c.inverseEvaluate ∧ c'.periodic = false ∧ (c.periodic = false → c' = c) := by
  refine ⟨⟨c.location, c.direction, c.lower, c.upper, false⟩, ?_, rfl, rfl, rfl, rfl, rfl, rfl, ?_⟩
  · unfold Line.clone
    unfold Line.init at h ⊢
    obtain ⟨_, h1, h⟩ := bind_eq_ok.1 h
    obtain ⟨_, h2, _⟩ := bind_eq_ok.1 h
    simp only
    rw [h1, ok_bind, h2, ok_bind, pure_eq]
  · intro hp
    cases c
    simp only at hp
    rw [hp]

/-- C61 fails for every periodic line: the clone is not periodic. -/
theorem Line.C61_line_clone_refuted (eps : K) (c : Line K V) (h : c.init eps = ok c)
    (hp : c.periodic = true) : ∃ c', c.clone eps = ok c' ∧ c'.periodic ≠ c.periodic := by
  obtain ⟨c', h1, -, -, -, -, -, h2, -⟩ := Line.C61_line_clone_partial eps c h
  exact ⟨c', h1, by rw [h2, hp]; decide⟩

/-- Concrete case: the unit segment of the rational line, marked periodic. -/
example : (⟨0, 1, 0, 1, true⟩ : Line ℚ ℚ).init (1 / 1000) = ok ⟨0, 1, 0, 1, true⟩ := by
  norm_num [Line.init, Outcome.assert, sqNorm, dot, pure_eq, ok_bind]

/-- C61 for extrusions: the clone of an initialised extrusion is the extrusion. -/
theorem Extrusion.C61_extrusion_clone (tol : K) (s s' : Extrusion K V) (h : s.init tol = ok s') :
    s'.clone tol = ok s' := by
  unfold Extrusion.clone
  unfold Extrusion.init at h ⊢
  obtain ⟨c, hc, h⟩ := bind_eq_ok.1 h
  obtain ⟨_, h1, h⟩ := bind_eq_ok.1 h
  obtain ⟨_, h2, h⟩ := bind_eq_ok.1 h
  obtain ⟨_, h3, h⟩ := bind_eq_ok.1 h
  by_cases hp : c.periodic = true
  · rw [if_pos hp] at h
    obtain ⟨p0, e0, h⟩ := bind_eq_ok.1 h
    obtain ⟨p1, e1, h⟩ := bind_eq_ok.1 h
    rw [pure_eq, ok.injEq] at h
    subst h
    simp only [hc, ok_bind, h1, h2, h3, hp, if_true, e0, e1, pure_eq]
  · rw [if_neg hp, pure_eq, ok.injEq] at h
    subst h
    simp only [hc, ok_bind, h1, h2, h3, hp, pure_eq, if_false, Bool.false_eq_true]

/-- C68 for extrusions: the profile direction is reported periodic only if its edges agree up to the
tolerance, the straight direction never. -/
theorem Extrusion.C68_extrusion_periodic (tol : K) (s s' : Extrusion K V) (h : s.init tol = ok s') :
    (s'.box.periodicU = true → ∀ v, ∃ p q, s'.fn.ev s'.box.uUpper v = ok p ∧
      s'.fn.ev s'.box.uLower v = ok q ∧ (sqNorm (p - q) : K) < tol) ∧
    s'.box.periodicV = false := by
  unfold Extrusion.init at h
  obtain ⟨c, hc, h⟩ := bind_eq_ok.1 h
  obtain ⟨_, h1, h⟩ := bind_eq_ok.1 h
  obtain ⟨_, h2, h⟩ := bind_eq_ok.1 h
  obtain ⟨_, h3, h⟩ := bind_eq_ok.1 h
  by_cases hp : c.periodic = true
  · rw [if_pos hp] at h
    obtain ⟨p0, e0, h⟩ := bind_eq_ok.1 h
    obtain ⟨p1, e1, h⟩ := bind_eq_ok.1 h
    rw [pure_eq, ok.injEq] at h
    subst h
    refine ⟨fun hf v => ?_, rfl⟩
    refine ⟨s.location + p1 + v • s.direction, s.location + p0 + v • s.direction,
      by simp only [Extrusion.fn, hc, ok_bind, e1, pure_eq], by simp only [Extrusion.fn, hc, ok_bind, e0, pure_eq], ?_⟩
    simp only [decide_eq_true_eq] at hf
    rw [show s.location + p1 + v • s.direction - (s.location + p0 + v • s.direction) = p1 - p0 by abel]
    exact hf
  · rw [if_neg hp, pure_eq, ok.injEq] at h
    subst h
    exact ⟨fun hf => by simp at hf, rfl⟩

end

/-- Concrete case of the two theorems above. -/
example : (Extrusion.exExtrusion 0).init (1 / 1000) = ok (Extrusion.exExtrusion 0) := by
  simp [Extrusion.init, Extrusion.exExtrusion, Extrusion.exProfile, getPart, ok_bind, pure_eq,
    Outcome.assert, sqNorm, dot, Inner.inner]

section
variable {V : Type} [AddCommGroup V] [Module ℝ V] [Geom ℝ V] [LawfulGeom ℝ V]

/-- C61 for circles: the clone of a circle accepted by `initialize` has the same evaluators and domain, and
it is the circle itself if the flag has not been changed since. -/
theorem Circle.C61_circle_clone (tol : ℝ) (c c' : Circle V) (h : c.init tol = ok c') :
    (∃ d, c.clone tol = ok d ∧ d.evaluate = c.evaluate ∧ d.evaluateDerivative = c.evaluateDerivative ∧
      d.evaluate2ndDerivative = c.evaluate2ndDerivative ∧ d.lower = c.lower ∧ d.upper = c.upper) ∧
    c'.clone tol = ok c' := by
  unfold Circle.clone
  unfold Circle.init at h ⊢
  obtain ⟨_, h1, h⟩ := bind_eq_ok.1 h
  obtain ⟨_, h2, h⟩ := bind_eq_ok.1 h
  obtain ⟨_, h3, h⟩ := bind_eq_ok.1 h
  obtain ⟨_, h4, h⟩ := bind_eq_ok.1 h
  rw [pure_eq, ok.injEq] at h
  subst h
  simp only [h1, h2, h3, h4, ok_bind, pure_eq]
  exact ⟨⟨_, rfl, rfl, rfl, rfl, rfl, rfl⟩, trivial⟩

/-- C61 for ellipses. -/
theorem Ellipse.C61_ellipse_clone (tol : ℝ) (c c' : Ellipse V) (h : c.init tol = ok c') :
    (∃ d, c.clone tol = ok d ∧ d.evaluate = c.evaluate ∧ d.evaluateDerivative = c.evaluateDerivative ∧
      d.evaluate2ndDerivative = c.evaluate2ndDerivative ∧ d.lower = c.lower ∧ d.upper = c.upper) ∧
    c'.clone tol = ok c' := by
  unfold Ellipse.clone
  unfold Ellipse.init at h ⊢
  obtain ⟨_, h1, h⟩ := bind_eq_ok.1 h
  obtain ⟨_, h2, h⟩ := bind_eq_ok.1 h
  obtain ⟨_, h3, h⟩ := bind_eq_ok.1 h
  obtain ⟨_, h4, h⟩ := bind_eq_ok.1 h
  obtain ⟨_, h5, h⟩ := bind_eq_ok.1 h
  rw [pure_eq, ok.injEq] at h
  subst h
  simp only [h1, h2, h3, h4, h5, ok_bind, pure_eq]
  exact ⟨⟨_, rfl, rfl, rfl, rfl, rfl, rfl⟩, trivial⟩

end

/-- C61 for surfaces of revolution: the clone of an initialised one is the surface itself. -/
theorem Revolution.C61_revolution_clone (tol : ℝ) (s s' : Revolution) (h : s.init tol = ok s') :
    s'.clone tol = ok s' := by
  unfold Revolution.clone
  unfold Revolution.init at h ⊢
  obtain ⟨c, hc, h⟩ := bind_eq_ok.1 h
  obtain ⟨_, h1, h⟩ := bind_eq_ok.1 h
  obtain ⟨_, h2, h⟩ := bind_eq_ok.1 h
  obtain ⟨_, h3, h⟩ := bind_eq_ok.1 h
  by_cases hp : c.periodic = true
  · rw [if_pos hp] at h
    obtain ⟨p0, e0, h⟩ := bind_eq_ok.1 h
    obtain ⟨p1, e1, h⟩ := bind_eq_ok.1 h
    rw [pure_eq, ok.injEq] at h
    subst h
    simp only [hc, ok_bind, h1, h2, h3, hp, if_true, e0, e1, pure_eq]
  · rw [if_neg hp, pure_eq, ok.injEq] at h
    subst h
    simp only [hc, ok_bind, h1, h2, h3, hp, pure_eq, if_false, Bool.false_eq_true]

/-- C68 for surfaces of revolution: `u` is reported periodic exactly for ranges within the tolerance of a
whole number of turns, and its edges then agree up to the tolerance times the distance from the axis; `v`
is reported periodic only if its edges agree up to the tolerance. -/
theorem Revolution.C68_revolution_periodic (tol : ℝ) (s s' : Revolution) (h : s.init tol = ok s')
    (ha : (sqNorm s.axis : ℝ) = 1) :
    (s'.box.periodicU = true ↔ ∃ k : ℤ, |s'.box.uUpper - s'.box.uLower - k * (2 * Real.pi)| < tol) ∧
    (s'.box.periodicU = true → ∀ v p q, (s'.fn tol).ev s'.box.uUpper v = ok p →
      (s'.fn tol).ev s'.box.uLower v = ok q →
      (sqNorm (p - q) : ℝ) ≤ sqNorm (p - s.location - (dot (p - s.location) s.axis : ℝ) • s.axis) * tol ^ 2) ∧
    (s'.box.periodicV = true → ∀ u, ∃ p q, (s'.fn tol).ev u s'.box.vUpper = ok p ∧
      (s'.fn tol).ev u s'.box.vLower = ok q ∧ (sqNorm (p - q) : ℝ) < tol) := by
  unfold Revolution.init at h
  obtain ⟨c, hc, h⟩ := bind_eq_ok.1 h
  obtain ⟨_, h1, h⟩ := bind_eq_ok.1 h
  obtain ⟨_, h2, h⟩ := bind_eq_ok.1 h
  have hu : s.box.uLower ≤ s.box.uUpper := by
    by_contra hn; rw [assert_false hn] at h2; cases h2
  obtain ⟨_, h3, h⟩ := bind_eq_ok.1 h
  have hs : s.profile = some c := by
    cases hpr : s.profile with
    | none => rw [hpr] at hc; cases hc
    | some d => rw [hpr, getPart, ok.injEq] at hc; rw [hc]
  have closeU : ∀ lo hi, lo ≤ hi → windingPeriodic tol lo hi = true → ∀ x : E3,
      (sqNorm (rotate hi s.axis x - rotate lo s.axis x) : ℝ) ≤
        sqNorm (x - (dot x s.axis : ℝ) • s.axis) * tol ^ 2 := by
    intro lo hi hlh hf x
    obtain ⟨k, hk⟩ := (windingPeriodic_iff tol lo hi hlh).1 hf
    have hch := chord_le lo hi tol k hk
    have ha' : (dot s.axis s.axis : ℝ) = 1 := ha
    have e : rotate hi s.axis x - rotate lo s.axis x =
        rotate lo s.axis (rotate (hi - lo) s.axis x - x) := by
      rw [rotate_sub, rotate_rotate ha, add_sub_cancel]
    rw [e, sqNorm_rotate ha]
    have e2 : rotate (hi - lo) s.axis x - x =
        (Real.cos (hi - lo) - 1) • (x - (dot s.axis x : ℝ) • s.axis) +
          Real.sin (hi - lo) • cross s.axis x := by
      unfold rotate; module
    have e3 : (sqNorm (x - (dot x s.axis : ℝ) • s.axis) : ℝ) = sqNorm (cross s.axis x) := by
      rw [sqNorm_cross, ha, sqNorm_sub, sqNorm_smul, ha, dot_smul_right, LawfulGeom.dot_comm (K := ℝ) s.axis x]
      ring
    have e4 : (dot (x - (dot s.axis x : ℝ) • s.axis) (cross s.axis x) : ℝ) = 0 := by
      rw [dot_sub_left, dot_smul, dot_cross_left, dot_cross_right]; ring
    rw [e2, sqNorm_add, sqNorm_smul, sqNorm_smul, dot_smul, dot_smul_right, e4,
      LawfulGeom.dot_comm (K := ℝ) s.axis x, e3]
    have h0 := sqNorm_nonneg (K := ℝ) (cross s.axis x)
    have h5 := mul_le_mul_of_nonneg_left hch h0
    refine le_trans (le_of_eq ?_) h5
    linear_combination (sqNorm (cross s.axis x) : ℝ) * Real.sin_sq_add_cos_sq (hi - lo)
  have closeU' : windingPeriodic tol s.box.uLower s.box.uUpper = true → ∀ (s' : Revolution),
      s'.location = s.location → s'.axis = s.axis → s'.profile = s.profile → ∀ v p q,
      (s'.fn tol).ev s.box.uUpper v = ok p → (s'.fn tol).ev s.box.uLower v = ok q →
      (sqNorm (p - q) : ℝ) ≤
        sqNorm (p - s.location - (dot (p - s.location) s.axis : ℝ) • s.axis) * tol ^ 2 := by
    intro hf s' hl hax hpr v p q hp hq
    simp only [Revolution.fn, hpr, hs, getPart, ok_bind, hl, hax] at hp hq
    obtain ⟨x, hx, hp⟩ := bind_eq_ok.1 hp
    rw [hx, ok_bind, pure_eq, ok.injEq] at hq
    rw [pure_eq, ok.injEq] at hp
    subst hp; subst hq
    rw [add_sub_add_left_eq_sub, add_sub_cancel_left, dot_rotate ha]
    refine le_trans (closeU _ _ hu hf (x - s.location)) (le_of_eq ?_)
    rw [sqNorm_sub, sqNorm_sub (K := ℝ) (rotate _ _ _), sqNorm_rotate ha, dot_smul_right, dot_smul_right,
      dot_rotate ha]
  by_cases hp : c.periodic = true
  · rw [if_pos hp] at h
    obtain ⟨p0, e0, h⟩ := bind_eq_ok.1 h
    obtain ⟨p1, e1, h⟩ := bind_eq_ok.1 h
    rw [pure_eq, ok.injEq] at h
    subst h
    refine ⟨windingPeriodic_iff _ _ _ hu, fun hf => closeU' hf _ rfl rfl rfl, fun hf u => ?_⟩
    refine ⟨s.location + rotate u s.axis (p1 - s.location),
      s.location + rotate u s.axis (p0 - s.location),
      by simp only [Revolution.fn, hs, getPart, ok_bind, e1, pure_eq],
      by simp only [Revolution.fn, hs, getPart, ok_bind, e0, pure_eq], ?_⟩
    simp only [decide_eq_true_eq] at hf
    rw [add_sub_add_left_eq_sub, ← rotate_sub, sub_sub_sub_cancel_right, sqNorm_rotate ha]
    exact hf
  · rw [if_neg hp, pure_eq, ok.injEq] at h
    subst h
    exact ⟨windingPeriodic_iff _ _ _ hu, fun hf => closeU' hf _ rfl rfl rfl, fun hf => by simp at hf⟩

/-- C61 and C68 for offset patches whose flags were clear before `initialize`: the clone is the patch
itself, and the flags are those of the base patch when the bounds agree up to the tolerance, else false.

Full claim: every initialised patch.  Missing: patches initialised again after a change of the bounds,
which keep the old flag (`C61_offset_clone_refuted`). -/
theorem Offset.C61_offset_clone_partial (tol : ℝ) (s s' : Offset) (h : s.init tol = ok s')
    (hu : s.box.periodicU = false) (hv : s.box.periodicV = false) :
    s'.clone tol = ok s' ∧ ∃ b, s.base = some b ∧
      (s'.box.periodicU = true ↔ b.box.periodicU = true ∧ |b.box.uLower - s.box.uLower| < tol ∧
        |b.box.uUpper - s.box.uUpper| < tol) ∧
      (s'.box.periodicV = true ↔ b.box.periodicV = true ∧ |b.box.vLower - s.box.vLower| < tol ∧
        |b.box.vUpper - s.box.vUpper| < tol) := by
  unfold Offset.clone
  unfold Offset.init at h ⊢
  obtain ⟨b, hb, h⟩ := bind_eq_ok.1 h
  rw [pure_eq, ok.injEq] at h
  subst h
  refine ⟨?_, b, ?_, ?_, ?_⟩
  · simp only [hb, ok_bind, hu, hv, Bool.false_or, pure_eq]
  · cases hpr : s.base with
    | none => rw [hpr] at hb; cases hb
    | some d => rw [hpr, getPart, ok.injEq] at hb; rw [hb]
  · simp [hu]
  · simp [hv]

/-- C61 and C68 fail for offset patches: `initialize` never clears a flag.  A patch over the full range of
a base periodic in `u` is reported periodic; after halving the range and initialising again it still is,
while its clone is not. -/
theorem Offset.C61_offset_clone_refuted (b : BasePatch) (hb : b.box = ⟨0, 2, 0, 1, true, false⟩) :
    ∃ s1 s2 s3 : Offset, (⟨some b, 1, ⟨0, 2, 0, 1, false, false⟩⟩ : Offset).init (1 / 1000) = ok s1 ∧
      s1.box.periodicU = true ∧
      ({ s1 with box := { s1.box with uUpper := 1 } } : Offset).init (1 / 1000) = ok s2 ∧
      s2.box.periodicU = true ∧ s2.clone (1 / 1000) = ok s3 ∧ s3.box.periodicU = false ∧
      s2.init (1 / 1000) = ok s2 := by
  refine ⟨⟨some b, 1, ⟨0, 2, 0, 1, true, false⟩⟩, ⟨some b, 1, ⟨0, 1, 0, 1, true, false⟩⟩,
    ⟨some b, 1, ⟨0, 1, 0, 1, false, false⟩⟩, ?_, rfl, ?_, rfl, ?_, rfl, ?_⟩
  · simp [Offset.init, getPart, ok_bind, pure_eq, hb]
  · simp [Offset.init, getPart, ok_bind, pure_eq, hb]
  · simp [Offset.init, Offset.clone, getPart, ok_bind, pure_eq, hb]
    norm_num
  · simp [Offset.init, getPart, ok_bind, pure_eq, hb]

end NS
