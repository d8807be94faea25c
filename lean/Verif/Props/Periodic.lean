import Verif.Props.Circle
import Verif.Props.Primitive

/-!
# C68: the periodicity flags set by `initialize` of the analytic patches
-/

set_option linter.unusedSectionVars false
set_option linter.unusedSimpArgs false

namespace NS

open Outcome Geom Real

/-- The flag says that the range is within the tolerance of a whole number of turns. -/
theorem windingPeriodic_iff (tol lo hi : ℝ) (h : lo ≤ hi) :
    windingPeriodic tol lo hi = true ↔ ∃ k : ℤ, |hi - lo - k * (2 * π)| < tol := by
  have hpi := Real.pi_pos
  have h2 := two_pi_pos'
  set w := hi - lo with hw
  have hw0 : 0 ≤ w / (2 * π) := div_nonneg (by linarith) h2.le
  have hr : rnd (w / (2 * π)) = ⌊w / (2 * π) + 1 / 2⌋ := if_pos hw0
  set n := ⌊w / (2 * π) + 1 / 2⌋ with hn
  have hn1 : (n : ℝ) ≤ w / (2 * π) + 1 / 2 := Int.floor_le _
  have hn2 : w / (2 * π) + 1 / 2 < n + 1 := Int.lt_floor_add_one _
  have hwe : w = (w / (2 * π)) * (2 * π) := by field_simp
  have hdef : windingPeriodic tol lo hi = true ↔ |w - n * (2 * π)| < tol := by
    unfold windingPeriodic
    simp only [decide_eq_true_eq]
    rw [← hw, hr, mul_assoc]
  rw [hdef]
  constructor
  · exact fun h => ⟨n, h⟩
  · rintro ⟨j, hj⟩
    refine lt_of_le_of_lt ?_ hj
    rcases eq_or_ne j n with rfl | hj
    · exact le_refl _
    · have e1 : |w - n * (2 * π)| = |w / (2 * π) - n| * (2 * π) := by
        rw [← abs_of_pos h2, ← abs_mul, abs_of_pos h2, sub_mul, ← hwe]
      have e2 : |w - j * (2 * π)| = |w / (2 * π) - j| * (2 * π) := by
        rw [← abs_of_pos h2, ← abs_mul, abs_of_pos h2, sub_mul, ← hwe]
      rw [e1, e2]
      refine mul_le_mul_of_nonneg_right ?_ h2.le
      have h5 : |w / (2 * π) - n| ≤ 1 / 2 := by rw [abs_le]; constructor <;> linarith
      refine le_trans h5 ?_
      rcases lt_or_gt_of_ne hj with h6 | h6
      · have : (j : ℝ) ≤ n - 1 := by exact_mod_cast Int.le_sub_one_of_lt h6
        rw [le_abs]; left; linarith
      · have : (n : ℝ) + 1 ≤ j := by exact_mod_cast h6
        rw [le_abs]; right; linarith

/-- Two angles within `e` of a whole number of turns are on the circle within `e` of each other. -/
theorem chord_le (a b e : ℝ) (k : ℤ) (h : |b - a - k * (2 * π)| < e) : 2 - 2 * cos (b - a) ≤ e ^ 2 := by
  have h1 := Real.one_sub_sq_div_two_le_cos (x := b - a - k * (2 * π))
  have h2 : cos (b - a - k * (2 * π)) = cos (b - a) := by
    rw [sub_eq_add_neg, ← neg_mul, ← Int.cast_neg, cos_add_turns]
  rw [h2] at h1
  have h3 : (b - a - k * (2 * π)) ^ 2 ≤ e ^ 2 := sq_le_sq' (by linarith [(abs_lt.1 h).1]) (abs_lt.1 h).2.le
  linarith

variable {V : Type} [AddCommGroup V] [Module ℝ V] [Geom ℝ V] [LawfulGeom ℝ V]

/-- What the checks of `initialize` leave. -/
theorem checkFrame_ok {tol : ℝ} {f : Frame V} {b : Box ℝ} {x : Unit} (h : checkFrame tol f b = ok x) :
    b.uLower ≤ b.uUpper ∧ b.vLower ≤ b.vUpper := by
  unfold checkFrame at h
  obtain ⟨_, -, h⟩ := bind_eq_ok.1 h
  obtain ⟨_, -, h⟩ := bind_eq_ok.1 h
  obtain ⟨_, -, h⟩ := bind_eq_ok.1 h
  obtain ⟨_, -, h⟩ := bind_eq_ok.1 h
  obtain ⟨_, -, h⟩ := bind_eq_ok.1 h
  obtain ⟨_, -, h⟩ := bind_eq_ok.1 h
  obtain ⟨_, hu, h⟩ := bind_eq_ok.1 h
  constructor
  · by_contra hn; rw [assert_false hn] at hu; cases hu
  · by_contra hn; rw [assert_false hn] at h; cases h

/-- Orthonormal frames with ordered bounds pass the checks of `initialize`. -/
theorem checkFrame_ortho {tol : ℝ} (ht : 0 < tol) {f : Frame V} (h : Ortho3 f) {b : Box ℝ}
    (hu : b.uLower ≤ b.uUpper) (hv : b.vLower ≤ b.vUpper) : checkFrame tol f b = ok () := by
  unfold checkFrame
  rw [show (sqNorm f.e0 : ℝ) = 1 from h.n0, show (sqNorm f.e1 : ℝ) = 1 from h.n1,
    show (sqNorm f.e2 : ℝ) = 1 from h.n2, h.o01, h.o12, h.o20, sub_self, abs_zero]
  simp only [assert_true ht, ok_bind, assert_true hu, assert_true hv]

/-- The two edges of a patch at the ends of its `u`-range agree up to `e v`. -/
def ClosesU (f : ℝ → ℝ → V) (b : Box ℝ) (e : ℝ → ℝ) : Prop :=
  ∀ v, (sqNorm (f b.uUpper v - f b.uLower v) : ℝ) ≤ e v ^ 2

/-- The two edges of a patch at the ends of its `v`-range agree up to `e u`. -/
def ClosesV (f : ℝ → ℝ → V) (b : Box ℝ) (e : ℝ → ℝ) : Prop :=
  ∀ u, (sqNorm (f u b.vUpper - f u b.vLower) : ℝ) ≤ e u ^ 2

/-- Squared distance of two points of a circle about the third axis of the frame. -/
theorem sqChord (f : Frame V) (h : Ortho3 f) (r a b : ℝ) :
    (sqNorm ((r * cos b - r * cos a) • f.e0 + (r * sin b - r * sin a) • f.e1) : ℝ) =
      r ^ 2 * (2 - 2 * cos (b - a)) := by
  have := sqDist3 h (r * cos b - r * cos a) (r * sin b - r * sin a) 0 0
  rw [zero_smul, add_zero, sub_zero, dot_zero_left, dot_zero_left, dot_zero_left,
    show (sqNorm (0 : V) : ℝ) = 0 from sqNorm_eq_zero.2 rfl] at this
  rw [this, Real.cos_sub]
  linear_combination r ^ 2 * Real.sin_sq_add_cos_sq a + r ^ 2 * Real.sin_sq_add_cos_sq b

theorem closes_of_flag {tol lo hi r : ℝ} (h : lo ≤ hi) (f : Frame V) (ho : Ortho3 f)
    (hf : windingPeriodic tol lo hi = true) :
    (sqNorm ((r * cos hi - r * cos lo) • f.e0 + (r * sin hi - r * sin lo) • f.e1) : ℝ) ≤ (r * tol) ^ 2 := by
  obtain ⟨k, hk⟩ := (windingPeriodic_iff tol lo hi h).1 hf
  rw [sqChord f ho, mul_pow]
  exact mul_le_mul_of_nonneg_left (chord_le lo hi tol k hk) (sq_nonneg r)

theorem flag_of_turns {tol lo hi : ℝ} (ht : 0 < tol) (h : lo ≤ hi) (k : ℤ) (hk : hi = lo + k * (2 * π)) :
    windingPeriodic tol lo hi = true := by
  rw [windingPeriodic_iff tol lo hi h]
  refine ⟨k, ?_⟩
  rw [hk, add_sub_cancel_left, sub_self, abs_zero]; exact ht

/-- C68 for cylinders: `initialize` reports the `u`-direction periodic exactly when the range is within
the tolerance of a whole number of turns, the edges then agree up to the tolerance times the radius, and
the straight direction is never reported periodic. -/
theorem Cylinder.C68_cylinder_periodic (tol : ℝ) (s s' : Cylinder V) (h : Ortho3 s.frame)
    (hi : s.init tol = ok s') :
    (s'.box.periodicU = true ↔ ∃ k : ℤ, |s'.box.uUpper - s'.box.uLower - k * (2 * π)| < tol) ∧
    (s'.box.periodicU = true → ClosesU s'.evaluate s'.box fun _ => s'.radius * tol) ∧
    s'.box.periodicV = false := by
  unfold Cylinder.init at hi
  obtain ⟨_, hc, hi⟩ := bind_eq_ok.1 hi
  obtain ⟨hu, -⟩ := checkFrame_ok hc
  rw [pure_eq, ok.injEq] at hi
  subst hi
  refine ⟨windingPeriodic_iff _ _ _ hu, fun hf v => ?_, rfl⟩
  have := closes_of_flag (r := s.radius) hu s.frame h hf
  refine le_trans (le_of_eq ?_) this
  rw [Cylinder.evaluate_eq, Cylinder.evaluate_eq]
  exact congrArg (fun x : V => (sqNorm x : ℝ)) (by module)

/-- C68 for cones. -/
theorem Cone.C68_cone_periodic (tol : ℝ) (s s' : Cone V) (h : Ortho3 s.frame) (hi : s.init tol = ok s') :
    (s'.box.periodicU = true ↔ ∃ k : ℤ, |s'.box.uUpper - s'.box.uLower - k * (2 * π)| < tol) ∧
    (s'.box.periodicU = true →
      ClosesU s'.evaluate s'.box fun v => (s'.radius + v * sin s'.angle) * tol) ∧
    s'.box.periodicV = false := by
  unfold Cone.init at hi
  obtain ⟨_, hc, hi⟩ := bind_eq_ok.1 hi
  obtain ⟨hu, -⟩ := checkFrame_ok hc
  rw [pure_eq, ok.injEq] at hi
  subst hi
  refine ⟨windingPeriodic_iff _ _ _ hu, fun hf v => ?_, rfl⟩
  have := closes_of_flag (r := s.radius + v * sin s.angle) hu s.frame h hf
  refine le_trans (le_of_eq ?_) this
  rw [Cone.evaluate_eq, Cone.evaluate_eq]
  exact congrArg (fun x : V => (sqNorm x : ℝ)) (by module)

/-- C68 for tori: both directions. -/
theorem Torus.C68_torus_periodic (tol : ℝ) (s s' : Torus V) (h : Ortho3 s.frame) (hi : s.init tol = ok s') :
    (s'.box.periodicU = true ↔ ∃ k : ℤ, |s'.box.uUpper - s'.box.uLower - k * (2 * π)| < tol) ∧
    (s'.box.periodicU = true →
      ClosesU s'.evaluate s'.box fun v => (s'.major + s'.minor * cos v) * tol) ∧
    (s'.box.periodicV = true ↔ ∃ k : ℤ, |s'.box.vUpper - s'.box.vLower - k * (2 * π)| < tol) ∧
    (s'.box.periodicV = true → ClosesV s'.evaluate s'.box fun _ => s'.minor * tol) := by
  unfold Torus.init at hi
  obtain ⟨_, hc, hi⟩ := bind_eq_ok.1 hi
  obtain ⟨hu, hv⟩ := checkFrame_ok hc
  rw [pure_eq, ok.injEq] at hi
  subst hi
  refine ⟨windingPeriodic_iff _ _ _ hu, fun hf v => ?_, windingPeriodic_iff _ _ _ hv, fun hf u => ?_⟩
  · have := closes_of_flag (r := s.major + s.minor * cos v) hu s.frame h hf
    refine le_trans (le_of_eq ?_) this
    rw [Torus.evaluate_eq, Torus.evaluate_eq]
    exact congrArg (fun x : V => (sqNorm x : ℝ)) (by module)
  · obtain ⟨k, hk⟩ := (windingPeriodic_iff tol _ _ hv).1 hf
    have h1 := chord_le _ _ _ _ hk
    rw [Torus.evaluate_eq, Torus.evaluate_eq]
    have e : s.location + (((s.major + s.minor * cos s.box.vUpper) * cos u) • s.frame.e0 +
        ((s.major + s.minor * cos s.box.vUpper) * sin u) • s.frame.e1 +
        (s.minor * sin s.box.vUpper) • s.frame.e2) -
        (s.location + (((s.major + s.minor * cos s.box.vLower) * cos u) • s.frame.e0 +
        ((s.major + s.minor * cos s.box.vLower) * sin u) • s.frame.e1 +
        (s.minor * sin s.box.vLower) • s.frame.e2)) =
        (s.minor * (cos s.box.vUpper - cos s.box.vLower) * cos u) • s.frame.e0 +
        (s.minor * (cos s.box.vUpper - cos s.box.vLower) * sin u) • s.frame.e1 +
        (s.minor * (sin s.box.vUpper - sin s.box.vLower)) • s.frame.e2 - 0 := by module
    have h2 := sqDist3 h (s.minor * (cos s.box.vUpper - cos s.box.vLower) * cos u)
      (s.minor * (cos s.box.vUpper - cos s.box.vLower) * sin u)
      (s.minor * (sin s.box.vUpper - sin s.box.vLower)) 0
    rw [dot_zero_left, dot_zero_left, dot_zero_left,
      show (sqNorm (0 : V) : ℝ) = 0 from sqNorm_eq_zero.2 rfl] at h2
    refine le_trans (le_of_eq (congrArg (fun x : V => (sqNorm x : ℝ)) e)) ?_
    refine le_trans (le_of_eq h2) ?_
    have h3 := mul_le_mul_of_nonneg_left h1 (sq_nonneg s.minor)
    rw [Real.cos_sub] at h3
    refine le_trans (le_of_eq ?_) (le_trans h3 (le_of_eq (by ring)))
    linear_combination s.minor ^ 2 * (cos s.box.vUpper - cos s.box.vLower) ^ 2 * Real.sin_sq_add_cos_sq u +
      s.minor ^ 2 * Real.sin_sq_add_cos_sq s.box.vUpper + s.minor ^ 2 * Real.sin_sq_add_cos_sq s.box.vLower

/-- C68 for spheres, `u`-direction.

Full claim: both directions.  Missing: the `v`-direction, where it fails
(`C68_sphere_periodic_refuted`). -/
theorem Sphere.C68_sphere_periodic_partial (tol : ℝ) (s s' : Sphere V) (h : Ortho3 s.frame)
    (hi : s.init tol = ok s') :
    (s'.box.periodicU = true ↔ ∃ k : ℤ, |s'.box.uUpper - s'.box.uLower - k * (2 * π)| < tol) ∧
    (s'.box.periodicU = true → ClosesU s'.evaluate s'.box fun v => s'.radius * cos v * tol) := by
  unfold Sphere.init at hi
  obtain ⟨_, hc, hi⟩ := bind_eq_ok.1 hi
  obtain ⟨hu, -⟩ := checkFrame_ok hc
  rw [pure_eq, ok.injEq] at hi
  subst hi
  refine ⟨windingPeriodic_iff _ _ _ hu, fun hf v => ?_⟩
  have := closes_of_flag (r := s.radius * cos v) hu s.frame h hf
  refine le_trans (le_of_eq ?_) this
  rw [Sphere.evaluate_eq, Sphere.evaluate_eq]
  exact congrArg (fun x : V => (sqNorm x : ℝ)) (by module)

/-- C68 fails for the full sphere: `initialize` reports the `v`-direction periodic although the two edges
of the range are the two poles, at the distance of a diameter.  A whole turn in `v`, where the edges do
agree, is not reported periodic. -/
theorem Sphere.C68_sphere_periodic_refuted (tol : ℝ) (ht : 0 < tol) (ht1 : tol < 1) (s : Sphere V)
    (h : Ortho3 s.frame) (hu : s.box.uLower ≤ s.box.uUpper) :
    (s.box.vLower = -(π / 2) → s.box.vUpper = π / 2 →
      ∃ s', s.init tol = ok s' ∧ s'.box.periodicV = true ∧
        ∀ u, (sqNorm (s'.evaluate u s'.box.vUpper - s'.evaluate u s'.box.vLower) : ℝ) =
          (2 * s.radius) ^ 2) ∧
    (s.box.vLower = 0 → s.box.vUpper = 2 * π →
      ∃ s', s.init tol = ok s' ∧ s'.box.periodicV = false ∧
        ∀ u, s'.evaluate u s'.box.vUpper = s'.evaluate u s'.box.vLower) := by
  have hpi := Real.pi_pos
  constructor
  · intro hl hr
    refine ⟨_, by unfold Sphere.init; rw [checkFrame_ortho ht h hu (by rw [hl, hr]; linarith), ok_bind,
      pure_eq], ?_, ?_⟩
    · simp only [hl, hr]
      rw [neg_add_cancel, sub_self, abs_zero]
      simp [ht]
    · intro u
      simp only [hl, hr]
      rw [Sphere.evaluate_eq, Sphere.evaluate_eq, Real.cos_neg, Real.cos_pi_div_two, Real.sin_neg,
        Real.sin_pi_div_two]
      have h2 := sqDist3 h 0 0 (2 * s.radius) 0
      rw [dot_zero_left, dot_zero_left, dot_zero_left,
        show (sqNorm (0 : V) : ℝ) = 0 from sqNorm_eq_zero.2 rfl] at h2
      refine Eq.trans (congrArg (fun x : V => (sqNorm x : ℝ)) ?_) (h2.trans (by ring))
      simp only
      module
  · intro hl hr
    refine ⟨_, by unfold Sphere.init; rw [checkFrame_ortho ht h hu (by rw [hl, hr]; linarith), ok_bind,
      pure_eq], ?_, ?_⟩
    · simp only [hl, hr]
      rw [Bool.and_eq_false_iff]
      left
      rw [decide_eq_false_iff_not, zero_add, abs_of_pos (by linarith)]
      have := Real.two_le_pi
      linarith
    · intro u
      simp only [hl, hr]
      rw [Sphere.evaluate_eq, Sphere.evaluate_eq, Real.cos_two_pi, Real.sin_two_pi, Real.cos_zero,
        Real.sin_zero]

/-- Concrete case: the full cylinder is initialised and reported periodic. -/
example (V : Type) [AddCommGroup V] [Module ℝ V] [Geom ℝ V] [LawfulGeom ℝ V] (f : Frame V) (h : Ortho3 f) :
    ∃ s', (⟨0, f, 1, ⟨0, 2 * π, 0, 1, false, false⟩⟩ : Cylinder V).init (1 / 1000) = ok s' ∧
      s'.box.periodicU = true := by
  have hpi := Real.pi_pos
  refine ⟨_, by unfold Cylinder.init; rw [checkFrame_ortho (by norm_num) h (by simp; positivity)
    (by simp), ok_bind, pure_eq], ?_⟩
  exact flag_of_turns (by norm_num) (by simp; positivity) 1 (by push_cast; ring)

end NS
