import Verif.Proof.Frame
import Verif.Spec.Surface

/-!
# Plane, cylinder, cone, sphere and torus (C38, C39, C40)
-/

set_option linter.unusedSectionVars false

namespace NS

open Outcome Geom LawfulGeom

/-! ## Plane -/

namespace Plane

section

variable {K V : Type} [Field K] [LinearOrder K] [IsStrictOrderedRing K] [FloorRing K]
  [AddCommGroup V] [Module K V] [Geom K V] [LawfulGeom K V]

/-- Clamping is the best approximation from an interval. -/
theorem clamp_best (lo hi x s : K) (h : lo ≤ hi) (h1 : lo ≤ s) (h2 : s ≤ hi) :
    (max lo (min x hi) - x) ^ 2 ≤ (s - x) ^ 2 := by
  rcases le_total x lo with h' | h'
  · rw [min_eq_left (le_trans h' h), max_eq_left h']
    nlinarith
  · rcases le_total x hi with h'' | h''
    · rw [min_eq_left h'', max_eq_right h', sub_self]
      nlinarith [sq_nonneg (s - x)]
    · rw [min_eq_right h'', max_eq_right h]
      nlinarith

theorem sqDist (s : Plane K V) (h : (dot s.e0 s.e1 : K) = 0) (h0 : (sqNorm s.e0 : K) ≠ 0)
    (h1 : (sqNorm s.e1 : K) ≠ 0) (p : V) (u v : K) :
    (sqNorm (s.evaluate u v - p) : K) =
      sqNorm s.e0 * (u - dot (p - s.location) s.e0 / sqNorm s.e0) ^ 2 +
      sqNorm s.e1 * (v - dot (p - s.location) s.e1 / sqNorm s.e1) ^ 2 +
      (sqNorm (p - s.location) - (dot (p - s.location) s.e0 : K) ^ 2 / sqNorm s.e0 -
        (dot (p - s.location) s.e1 : K) ^ 2 / sqNorm s.e1) := by
  have e : s.evaluate u v - p = u • s.e0 + v • s.e1 - (p - s.location) := by
    unfold evaluate; abel
  rw [e]
  unfold sqNorm at h0 h1 ⊢
  have h' : (dot s.e1 s.e0 : K) = 0 := by rw [dot_comm]; exact h
  set d := p - s.location
  simp only [dot_sub_left, dot_sub_right, dot_add, dot_add_right, dot_smul, dot_smul_right, h, h']
  rw [dot_comm (K := K) s.e0 d, dot_comm (K := K) s.e1 d]
  field_simp
  ring

/-- C38 for orthogonal frames: the returned parameters lie in the box and belong to the point of the
bounded patch closest to the query; on the box, inverse evaluation inverts `evaluate` exactly.

Full claim: every frame accepted by `initialize`.  Missing: frames that are not orthogonal, where it
fails (`C38_plane_refuted`). -/
theorem C38_plane_partial (s : Plane K V) (h : (dot s.e0 s.e1 : K) = 0) (h0 : (sqNorm s.e0 : K) > 0)
    (h1 : (sqNorm s.e1 : K) > 0) (p : V) (minU maxU minV maxV : K) (hu : minU ≤ maxU)
    (hv : minV ≤ maxV) :
    ∃ u v, s.inverseEvaluate p minU maxU minV maxV = ok ((u, v), true) ∧
      minU ≤ u ∧ u ≤ maxU ∧ minV ≤ v ∧ v ≤ maxV ∧
      (∀ u' v', minU ≤ u' → u' ≤ maxU → minV ≤ v' → v' ≤ maxV →
        (sqNorm (s.evaluate u v - p) : K) ≤ sqNorm (s.evaluate u' v' - p)) ∧
      (∀ u' v', minU ≤ u' → u' ≤ maxU → minV ≤ v' → v' ≤ maxV → p = s.evaluate u' v' →
        u = u' ∧ v = v') := by
  refine ⟨max minU (min (dot (p - s.location) s.e0 / sqNorm s.e0) maxU),
    max minV (min (dot (p - s.location) s.e1 / sqNorm s.e1) maxV), ?_, le_max_left _ _,
    max_le hu (min_le_right _ _), le_max_left _ _, max_le hv (min_le_right _ _), ?_, ?_⟩
  · unfold inverseEvaluate
    rw [if_neg (by rintro (h' | h') <;> linarith)]
  · intro u' v' a1 a2 b1 b2
    rw [sqDist s h h0.ne' h1.ne', sqDist s h h0.ne' h1.ne']
    have c1 := mul_le_mul_of_nonneg_left
      (clamp_best minU maxU (dot (p - s.location) s.e0 / sqNorm s.e0) u' hu a1 a2) h0.le
    have c2 := mul_le_mul_of_nonneg_left
      (clamp_best minV maxV (dot (p - s.location) s.e1 / sqNorm s.e1) v' hv b1 b2) h1.le
    linarith
  · intro u' v' a1 a2 b1 b2 hp
    have e : p - s.location = u' • s.e0 + v' • s.e1 := by rw [hp]; unfold evaluate; abel
    have h' : (dot s.e1 s.e0 : K) = 0 := by rw [dot_comm]; exact h
    rw [e, dot_add, dot_add, dot_smul, dot_smul, dot_smul, dot_smul, h, h', mul_zero, mul_zero, add_zero,
      zero_add]
    unfold sqNorm at h0 h1 ⊢
    rw [mul_div_cancel_right₀ _ h0.ne', mul_div_cancel_right₀ _ h1.ne', min_eq_left a2, min_eq_left b2,
      max_eq_right a1, max_eq_right b1]
    exact ⟨rfl, rfl⟩

example := C38_plane_partial (Plane.mk stdFrame.e2 stdFrame.e0 stdFrame.e1 (Box.mk (0 : ℝ) 1 0 1 false false))
  stdFrame_ortho.o01 (by unfold sqNorm; exact stdFrame_ortho.n0.symm ▸ one_pos)
  (by unfold sqNorm; exact stdFrame_ortho.n1.symm ▸ one_pos)
  (stdFrame.e1 + stdFrame.e2) 0 1 (-1) 1 (by norm_num) (by norm_num)

/-- Concrete case: the plane through the first two axes of space. -/
example : (dot stdFrame.e0 stdFrame.e1 : ℝ) = 0 ∧ (sqNorm stdFrame.e0 : ℝ) > 0 ∧
    (sqNorm stdFrame.e1 : ℝ) > 0 := by
  have h := stdFrame_ortho
  refine ⟨h.o01, ?_, ?_⟩
  · unfold sqNorm; rw [h.n0]; exact one_pos
  · unfold sqNorm; rw [h.n1]; exact one_pos

/-- C38 fails for every frame that is not orthogonal, although `initialize` accepts such frames: the
point of parameters `(0, 1)`, searched in any box that contains all the values involved, is given other
parameters, and these evaluate to another point. -/
theorem C38_plane_refuted (s : Plane K V) (tol : K) (ht : 0 ≤ tol) (s' : Plane K V)
    (hi : s.init tol = ok s') (hne : (dot s.e0 s.e1 : K) ≠ 0) :
    ∃ M : K, ∃ u v, s.inverseEvaluate (s.evaluate 0 1) (-M) M (-M) M = ok ((u, v), true) ∧
      -M ≤ (0 : K) ∧ (1 : K) ≤ M ∧ u ≠ 0 ∧ s.evaluate u v ≠ s.evaluate 0 1 := by
  unfold init at hi
  obtain ⟨_, h0, hi⟩ := bind_eq_ok.1 hi
  obtain ⟨_, h1, hi⟩ := bind_eq_ok.1 hi
  have h0 : (sqNorm s.e0 : K) > tol := by
    by_contra hn
    rw [assert_false hn] at h0; cases h0
  have h1 : (sqNorm s.e1 : K) > tol := by
    by_contra hn
    rw [assert_false hn] at h1; cases h1
  have h0' : (sqNorm s.e0 : K) ≠ 0 := (lt_of_le_of_lt ht h0).ne'
  have h1' : (sqNorm s.e1 : K) ≠ 0 := (lt_of_le_of_lt ht h1).ne'
  set w : K := dot s.e1 s.e0 / sqNorm s.e0 with hw
  have hw0 : w ≠ 0 := div_ne_zero (by rw [dot_comm]; exact hne) h0'
  refine ⟨|w| + 1, w, 1, ?_, by linarith [abs_nonneg w], by linarith [abs_nonneg w], hw0, ?_⟩
  · unfold inverseEvaluate
    rw [if_neg (by rintro (h' | h') <;> contradiction)]
    have e : s.evaluate 0 1 - s.location = s.e1 := by unfold evaluate; rw [zero_smul, one_smul]; abel
    simp only
    rw [e, ← hw, show (dot s.e1 s.e1 : K) / sqNorm s.e1 = 1 from div_self h1',
      min_eq_left (by linarith [le_abs_self w]), max_eq_right (by linarith [neg_abs_le w]),
      min_eq_left (by linarith [abs_nonneg w]), max_eq_right (by linarith [abs_nonneg w])]
  · intro he
    unfold evaluate at he
    have : w • s.e0 = 0 := by
      have h2 := add_right_cancel he
      rw [zero_smul] at h2
      exact add_left_cancel h2
    rcases smul_eq_zero.1 this with h2 | h2
    · exact hw0 h2
    · apply h0'
      rw [h2]; exact sqNorm_eq_zero.2 rfl

end

/-- Concrete case: an accepted plane whose frame is not orthogonal. -/
example : ∃ s s' : Plane ℚ ℚ, s.init (1 / 1000) = ok s' ∧ (dot s.e0 s.e1 : ℚ) ≠ 0 :=
  ⟨Plane.mk 0 1 1 (Box.mk 0 1 0 1 false false), Plane.mk 0 1 1 (Box.mk 0 1 0 1 false false),
    by unfold init; norm_num [Outcome.assert, sqNorm, dot], by norm_num [dot]⟩

/-- C39 for planes. -/
theorem C39_plane_partials {E : Type} [NormedAddCommGroup E] [NormedSpace ℝ E] (s : Plane ℝ E) :
    TruePartials s.fn := by
  refine ⟨s.evaluate, fun _ _ => s.e0, fun _ _ => s.e1, fun _ _ => 0, fun _ _ => 0, fun _ _ => 0,
    ⟨fun _ _ => rfl, fun _ _ => rfl, fun _ _ => rfl, fun _ _ => rfl, fun _ _ => rfl, fun _ _ => rfl⟩, ?_⟩
  intro u v
  refine ⟨?_, ?_, hasDerivAt_const _ _, hasDerivAt_const _ _, hasDerivAt_const _ _, hasDerivAt_const _ _⟩
  · have := (((hasDerivAt_id u).smul_const s.e0).const_add s.location).add_const (v • s.e1)
    exact HasDerivAt.congr_deriv this (one_smul _ _)
  · have := ((hasDerivAt_id v).smul_const s.e1).const_add (s.location + u • s.e0)
    exact HasDerivAt.congr_deriv this (one_smul _ _)

example := C39_plane_partials (Plane.mk (0 : ℝ) 1 2 (Box.mk 0 1 0 1 false false))

end Plane

open Real

variable {V : Type} [AddCommGroup V] [Module ℝ V] [Geom ℝ V] [LawfulGeom ℝ V]

/-- The range `[lo, hi]` contains an azimuth of the query: the angle, about the third axis of the frame,
at which the query lies. -/
def HasAzimuth (f : Frame V) (o p : V) (lo hi : ℝ) : Prop :=
  ∃ a ρ, lo ≤ a ∧ a ≤ hi ∧ 0 ≤ ρ ∧ (dot (p - o) f.e0 : ℝ) = ρ * cos a ∧
    (dot (p - o) f.e1 : ℝ) = ρ * sin a

/-- Ranges of a full turn contain an azimuth of every query. -/
theorem hasAzimuth_full (f : Frame V) (o p : V) (lo hi : ℝ) (h : lo + 2 * π ≤ hi) :
    HasAzimuth f o p lo hi := by
  obtain ⟨a, h1, h2, h3, h4⟩ := exists_azimuth (dot (p - o) f.e0) (dot (p - o) f.e1) lo hi h
  exact ⟨a, _, h1, h2, hypot_nonneg _ _, h3, h4⟩

/-- Points at distance at most zero from `p` are `p`. -/
theorem eq_of_closest {q q' p : V} (h : (sqNorm (q - p) : ℝ) ≤ sqNorm (q' - p)) (hq : q' = p) : q = p := by
  rw [hq, sub_self, show (sqNorm (0 : V) : ℝ) = 0 from sqNorm_eq_zero.2 rfl] at h
  exact sub_eq_zero.1 (sqNorm_eq_zero.1 (le_antisymm h (sqNorm_nonneg (K := ℝ) _)))

/-! ## Cylinder -/

namespace Cylinder

theorem evaluate_eq (s : Cylinder V) (u v : ℝ) :
    s.evaluate u v = s.location + ((s.radius * cos u) • s.frame.e0 + (s.radius * sin u) • s.frame.e1 +
      v • s.frame.e2) := by
  unfold evaluate; module

theorem sqDist (s : Cylinder V) (h : Ortho3 s.frame) (p : V) (u v : ℝ) :
    (sqNorm (s.evaluate u v - p) : ℝ) = s.radius ^ 2 + v ^ 2 -
      2 * (s.radius * (cos u * dot (p - s.location) s.frame.e0 + sin u * dot (p - s.location) s.frame.e1) +
        v * dot (p - s.location) s.frame.e2) + sqNorm (p - s.location) := by
  rw [evaluate_eq, add_sub_right_comm, ← neg_sub p, neg_add_eq_sub, sqDist3 h]
  linear_combination s.radius ^ 2 * Real.sin_sq_add_cos_sq u

/-- C39 for cylinders. -/
theorem C39_cylinder_partials {E : Type} [NormedAddCommGroup E] [NormedSpace ℝ E] (s : Cylinder E) :
    TruePartials s.fn := by
  refine ⟨s.evaluate,
    fun u _ => s.radius • (Real.sin u • (-s.frame.e0)) + s.radius • (Real.cos u • s.frame.e1),
    fun _ _ => s.frame.e2,
    fun u _ => s.radius • (Real.cos u • (-s.frame.e0)) - s.radius • (Real.sin u • s.frame.e1),
    fun _ _ => 0, fun _ _ => 0,
    ⟨fun _ _ => rfl, fun _ _ => rfl, fun _ _ => rfl, fun _ _ => rfl, fun _ _ => rfl, fun _ _ => rfl⟩, ?_⟩
  intro u v
  refine ⟨?_, ?_, ?_, hasDerivAt_const _ _, hasDerivAt_const _ _, hasDerivAt_const _ _⟩
  · have := (((((Real.hasDerivAt_cos u).smul_const s.frame.e0).const_smul s.radius).const_add
      s.location).add (((Real.hasDerivAt_sin u).smul_const s.frame.e1).const_smul s.radius)).add_const
      (v • s.frame.e2)
    refine HasDerivAt.congr_deriv this ?_
    module
  · have := ((hasDerivAt_id v).smul_const s.frame.e2).const_add
      (s.location + s.radius • (cos u • s.frame.e0) + s.radius • (sin u • s.frame.e1))
    exact HasDerivAt.congr_deriv this (one_smul _ _)
  · have := (((Real.hasDerivAt_sin u).smul_const (-s.frame.e0)).const_smul s.radius).add
      (((Real.hasDerivAt_cos u).smul_const s.frame.e1).const_smul s.radius)
    refine HasDerivAt.congr_deriv this ?_
    module

/-- C40, implicit equation of the cylinder. -/
theorem C40_cylinder_implicit (s : Cylinder V) (h : Ortho3 s.frame) (u v : ℝ) :
    (dot (s.evaluate u v - s.location) s.frame.e0 : ℝ) ^ 2 +
      (dot (s.evaluate u v - s.location) s.frame.e1 : ℝ) ^ 2 = s.radius ^ 2 ∧
    (dot (s.evaluate u v - s.location) s.frame.e2 : ℝ) = v := by
  rw [evaluate_eq, add_sub_cancel_left, dot_frame0 h, dot_frame1 h, dot_frame2 h]
  exact ⟨by linear_combination s.radius ^ 2 * Real.sin_sq_add_cos_sq u, rfl⟩

/-- C40 for cylinders of non-negative radius, over every box: the returned parameters lie in the box and
belong to a point of the bounded patch closest to the query; hence a point of the patch is given
parameters that evaluate to it.

Full claim: every radius.  Missing: negative radii, where it fails
(`C40_cylinder_negative_radius_refuted`). -/
theorem C40_cylinder_inverse_partial (s : Cylinder V) (h : Ortho3 s.frame) (hr : 0 ≤ s.radius) (p : V)
    (minU maxU minV maxV : ℝ) (hu : minU ≤ maxU) (hv : minV ≤ maxV) :
    ∃ u v, s.inverseEvaluate p minU maxU minV maxV = ok ((u, v), true) ∧
      minU ≤ u ∧ u ≤ maxU ∧ minV ≤ v ∧ v ≤ maxV ∧
      (∀ u' v', minU ≤ u' → u' ≤ maxU → minV ≤ v' → v' ≤ maxV →
        (sqNorm (s.evaluate u v - p) : ℝ) ≤ sqNorm (s.evaluate u' v' - p)) ∧
      (∀ u' v', minU ≤ u' → u' ≤ maxU → minV ≤ v' → v' ≤ maxV → s.evaluate u' v' = p →
        s.evaluate u v = p) := by
  obtain ⟨u, e, b1, b2, -, hbest⟩ := clip_cos
    (atan2 (dot (p - s.location) s.frame.e1) (dot (p - s.location) s.frame.e0)) minU maxU hu
  have key : ∀ u' v', minU ≤ u' → u' ≤ maxU → minV ≤ v' → v' ≤ maxV →
      (sqNorm (s.evaluate u (max minV (min (dot (p - s.location) s.frame.e2) maxV)) - p) : ℝ) ≤
        sqNorm (s.evaluate u' v' - p) := by
    intro u' v' a1 a2 c1 c2
    rw [sqDist s h, sqDist s h]
    have hb := hbest u' a1 a2
    obtain ⟨h1, h2⟩ := atan2_polar (dot (p - s.location) s.frame.e1) (dot (p - s.location) s.frame.e0)
    have hρ := hypot_nonneg (dot (p - s.location) s.frame.e0) (dot (p - s.location) s.frame.e1)
    have hz := Plane.clamp_best minV maxV (dot (p - s.location) s.frame.e2 : ℝ) v' hv c1 c2
    generalize max minV (min (dot (p - s.location) s.frame.e2 : ℝ) maxV) = v at hz ⊢
    generalize atan2 (dot (p - s.location) s.frame.e1) (dot (p - s.location) s.frame.e0) = a at *
    generalize hypot (dot (p - s.location) s.frame.e0) (dot (p - s.location) s.frame.e1) = ρ at *
    rw [h1, h2]
    rw [Real.cos_sub, Real.cos_sub] at hb
    have := mul_le_mul_of_nonneg_left hb (mul_nonneg hr hρ)
    nlinarith
  refine ⟨u, max minV (min (dot (p - s.location) s.frame.e2) maxV), ?_, b1, b2, le_max_left _ _,
    max_le hv (min_le_right _ _), key, ?_⟩
  · unfold inverseEvaluate
    simp only
    rw [e, ok_bind]; rfl
  · intro u' v' a1 a2 c1 c2 hp
    exact eq_of_closest (key u' v' a1 a2 c1 c2) hp

/-- A cylinder of radius 2 about the third axis. -/
private noncomputable def exCylinder : Cylinder (EuclideanSpace ℝ (Fin 3)) :=
  ⟨stdFrame.e0, stdFrame, 2, ⟨0, 2 * π, 0, 1, true, false⟩⟩

example := C39_cylinder_partials exCylinder
example := C40_cylinder_implicit exCylinder stdFrame_ortho (1 / 3) (1 / 4)
example := C40_cylinder_inverse_partial exCylinder stdFrame_ortho (by norm_num [exCylinder])
  (stdFrame.e1 + stdFrame.e2) 0 1 (-1) 1 (by norm_num) (by norm_num)

/-- C40 fails for negative radii, which `set_radius` and `initialize` accept: the point of parameters
`(0, 0)` is given parameters of the opposite point. -/
theorem C40_cylinder_negative_radius_refuted (s : Cylinder V) (h : Ortho3 s.frame) (hr : s.radius < 0) :
    ∃ u v, s.inverseEvaluate (s.evaluate 0 0) 0 (2 * π) 0 1 = ok ((u, v), true) ∧
      s.evaluate u v ≠ s.evaluate 0 0 := by
  have hpi := Real.pi_pos
  have e0 : s.evaluate 0 0 - s.location = s.radius • s.frame.e0 + (0 : ℝ) • s.frame.e1 + (0 : ℝ) • s.frame.e2 := by
    rw [evaluate_eq, add_sub_cancel_left, Real.cos_zero, Real.sin_zero, mul_one, mul_zero]
  have hx : (dot (s.evaluate 0 0 - s.location) s.frame.e0 : ℝ) = s.radius := by rw [e0, dot_frame0 h]
  have hy : (dot (s.evaluate 0 0 - s.location) s.frame.e1 : ℝ) = 0 := by rw [e0, dot_frame1 h]
  have hz : (dot (s.evaluate 0 0 - s.location) s.frame.e2 : ℝ) = 0 := by rw [e0, dot_frame2 h]
  obtain ⟨t, e, b1, b2, hc, hs⟩ := clip_azimuth (x := s.radius) (y := 0) (r := -s.radius) (a := π) 0 (2 * π)
    (by linarith) (by rw [Real.cos_pi]; ring) (by rw [Real.sin_pi]; ring) hpi.le (by linarith)
  refine ⟨t, 0, ?_, ?_⟩
  · unfold inverseEvaluate
    simp only
    rw [hx, hy, hz, e, ok_bind, min_eq_left zero_le_one, max_self]; rfl
  · intro he
    have h1 := congrArg (fun q => (dot (q - s.location) s.frame.e0 : ℝ)) he
    beta_reduce at h1
    rw [hx, evaluate_eq, add_sub_cancel_left, dot_frame0 h] at h1
    have : cos t = -1 := by
      have : s.radius * (cos t + 1) = 0 := by linarith
      have := (mul_eq_zero.1 this).resolve_left hr.ne
      linarith
    rw [this] at h1
    linarith

/-- Concrete case: the unit cylinder in space. -/
example : Ortho3 stdFrame ∧ (0 : ℝ) ≤ 1 := ⟨stdFrame_ortho, zero_le_one⟩

end Cylinder

/-! ## Cone -/

namespace Cone

theorem evaluate_eq (s : Cone V) (u v : ℝ) :
    s.evaluate u v = s.location + (((s.radius + v * sin s.angle) * cos u) • s.frame.e0 +
      ((s.radius + v * sin s.angle) * sin u) • s.frame.e1 + (v * cos s.angle) • s.frame.e2) := by
  unfold evaluate; module

theorem sqDist (s : Cone V) (h : Ortho3 s.frame) (p : V) (u v : ℝ) :
    (sqNorm (s.evaluate u v - p) : ℝ) = (s.radius + v * sin s.angle) ^ 2 + (v * cos s.angle) ^ 2 -
      2 * ((s.radius + v * sin s.angle) *
          (cos u * dot (p - s.location) s.frame.e0 + sin u * dot (p - s.location) s.frame.e1) +
        v * cos s.angle * dot (p - s.location) s.frame.e2) + sqNorm (p - s.location) := by
  rw [evaluate_eq, add_sub_right_comm, ← neg_sub p, neg_add_eq_sub, sqDist3 h]
  linear_combination (s.radius + v * sin s.angle) ^ 2 * Real.sin_sq_add_cos_sq u

/-- C39 for cones. -/
theorem C39_cone_partials {E : Type} [NormedAddCommGroup E] [NormedSpace ℝ E] (s : Cone E) :
    TruePartials s.fn := by
  refine ⟨s.evaluate,
    fun u v => (s.radius + v * Real.sin s.angle) • (Real.sin u • (-s.frame.e0) + Real.cos u • s.frame.e1),
    fun u _ => Real.sin s.angle • (Real.cos u • s.frame.e0 + Real.sin u • s.frame.e1)
      + Real.cos s.angle • s.frame.e2,
    fun u v => (s.radius + v * Real.sin s.angle) • (Real.cos u • (-s.frame.e0) - Real.sin u • s.frame.e1),
    fun _ _ => 0,
    fun u _ => Real.sin s.angle • (Real.sin u • (-s.frame.e0) + Real.cos u • s.frame.e1),
    ⟨fun _ _ => rfl, fun _ _ => rfl, fun _ _ => rfl, fun _ _ => rfl, fun _ _ => rfl, fun _ _ => rfl⟩, ?_⟩
  intro u v
  have hc := (Real.hasDerivAt_cos u).smul_const s.frame.e0
  have hs := (Real.hasDerivAt_sin u).smul_const s.frame.e1
  have hs' := (Real.hasDerivAt_sin u).smul_const (-s.frame.e0)
  have hc' := (Real.hasDerivAt_cos u).smul_const s.frame.e1
  have hl := ((hasDerivAt_id v).mul_const (Real.sin s.angle)).const_add s.radius
  refine ⟨?_, ?_, ?_, hasDerivAt_const _ _, ?_, ?_⟩
  · have := (((hc.add hs).const_smul (s.radius + v * Real.sin s.angle)).const_add s.location).add_const
      (Real.cos s.angle • (v • s.frame.e2))
    refine HasDerivAt.congr_deriv this ?_
    module
  · have := ((hl.smul_const (Real.cos u • s.frame.e0 + Real.sin u • s.frame.e1)).const_add s.location).add
      (((hasDerivAt_id v).smul_const s.frame.e2).const_smul (Real.cos s.angle))
    refine HasDerivAt.congr_deriv this ?_
    module
  · have := (hs'.add hc').const_smul (s.radius + v * Real.sin s.angle)
    refine HasDerivAt.congr_deriv this ?_
    module
  · have := hl.smul_const (Real.sin u • (-s.frame.e0) + Real.cos u • s.frame.e1)
    refine HasDerivAt.congr_deriv this ?_
    module
  · have := ((hc.add hs).const_smul (Real.sin s.angle)).add_const (Real.cos s.angle • s.frame.e2)
    refine HasDerivAt.congr_deriv this ?_
    module

/-- C40, implicit equation of the cone: the distance to the axis is the radius plus the height times the
tangent of the half angle. -/
theorem C40_cone_implicit (s : Cone V) (h : Ortho3 s.frame) (u v : ℝ) :
    ((dot (s.evaluate u v - s.location) s.frame.e0 : ℝ) ^ 2 +
      (dot (s.evaluate u v - s.location) s.frame.e1 : ℝ) ^ 2) * cos s.angle ^ 2 =
      (s.radius * cos s.angle + dot (s.evaluate u v - s.location) s.frame.e2 * sin s.angle) ^ 2 := by
  rw [evaluate_eq, add_sub_cancel_left, dot_frame0 h, dot_frame1 h, dot_frame2 h]
  linear_combination (s.radius + v * sin s.angle) ^ 2 * cos s.angle ^ 2 * Real.sin_sq_add_cos_sq u

theorem inverse_eq (tol6 : ℝ) (ht : 0 < tol6) (s : Cone V) (h : Ortho3 s.frame) (p : V)
    (minU maxU minV maxV u ρ : ℝ)
    (e : PatchBase.clipPeriodic (atan2 (dot (p - s.location) s.frame.e1)
      (dot (p - s.location) s.frame.e0)) minU maxU (2 * π) = ok u) (hρ : 0 ≤ ρ)
    (hx : (dot (p - s.location) s.frame.e0 : ℝ) = ρ * cos u)
    (hy : (dot (p - s.location) s.frame.e1 : ℝ) = ρ * sin u) :
    s.inverseEvaluate tol6 p minU maxU minV maxV = ok ((u, max minV (min
      ((ρ - s.radius) * sin s.angle + dot (p - s.location) s.frame.e2 * cos s.angle) maxV)), true) := by
  unfold inverseEvaluate
  simp only
  set a := atan2 (dot (p - s.location) s.frame.e1 : ℝ) (dot (p - s.location) s.frame.e0) with ha
  have hd : (norm (sin s.angle • (cos a • s.frame.e0 + sin a • s.frame.e1) +
      cos s.angle • s.frame.e2) : ℝ) = 1 := by
    have h1 := norm_sq (K := ℝ) (sin s.angle • (cos a • s.frame.e0 + sin a • s.frame.e1) +
      cos s.angle • s.frame.e2)
    have h2 := LawfulGeom.norm_nonneg (K := ℝ) (sin s.angle • (cos a • s.frame.e0 + sin a • s.frame.e1) +
      cos s.angle • s.frame.e2)
    rw [show (dot (sin s.angle • (cos a • s.frame.e0 + sin a • s.frame.e1) + cos s.angle • s.frame.e2)
      (sin s.angle • (cos a • s.frame.e0 + sin a • s.frame.e1) + cos s.angle • s.frame.e2) : ℝ) = 1 by
      simp only [dot_add, dot_add_right, dot_smul, dot_smul_right, h.n0, h.n1, h.n2, h.o01, h.o10, h.o12,
        h.o21, h.o20, h.o02]
      linear_combination sin s.angle ^ 2 * Real.sin_sq_add_cos_sq a + Real.sin_sq_add_cos_sq s.angle] at h1
    nlinarith
  rw [hd, assert_true (by simpa using ht), ok_bind, e, ok_bind]
  have hv : (dot (p - (s.location + s.radius • (cos a • s.frame.e0 + sin a • s.frame.e1)))
      (sin s.angle • (cos a • s.frame.e0 + sin a • s.frame.e1) + cos s.angle • s.frame.e2) : ℝ) =
      (ρ - s.radius) * sin s.angle + dot (p - s.location) s.frame.e2 * cos s.angle := by
    obtain ⟨h1, h2⟩ := atan2_polar (dot (p - s.location) s.frame.e1 : ℝ) (dot (p - s.location) s.frame.e0)
    rw [← ha] at h1 h2
    have h3 : hypot (dot (p - s.location) s.frame.e0 : ℝ) (dot (p - s.location) s.frame.e1) = ρ := by
      rw [hx, hy, hypot_polar hρ]
    rw [h3] at h1 h2
    rw [show p - (s.location + s.radius • (cos a • s.frame.e0 + sin a • s.frame.e1)) =
      (p - s.location) - s.radius • (cos a • s.frame.e0 + sin a • s.frame.e1) by abel]
    generalize p - s.location = d at h1 h2 ⊢
    simp only [dot_sub_left, dot_add, dot_add_right, dot_smul, dot_smul_right, h.n0, h.n1, h.o01, h.o10,
      h.o12, h.o02]
    rw [h1, h2]
    linear_combination (ρ - s.radius) * sin s.angle * Real.sin_sq_add_cos_sq a
  rw [hv]; rfl

/-- C40 for cones, when the radius `radius + v sin(angle)` of the bounded patch does not become negative
and the `u`-range contains an azimuth of the query (as every full range does): the returned parameters
lie in the box and belong to a point of the bounded patch closest to the query.

Full claim: every box.  Missing: queries outside the angular range, and patches that extend beyond the
apex, where it fails (`C40_cone_apex_refuted`). -/
theorem C40_cone_closest_partial (tol6 : ℝ) (ht : 0 < tol6) (s : Cone V) (h : Ortho3 s.frame) (p : V)
    (minU maxU minV maxV : ℝ) (hv : minV ≤ maxV)
    (hcone : ∀ v, minV ≤ v → v ≤ maxV → 0 ≤ s.radius + v * sin s.angle)
    (ha : HasAzimuth s.frame s.location p minU maxU) :
    ∃ u v, s.inverseEvaluate tol6 p minU maxU minV maxV = ok ((u, v), true) ∧
      minU ≤ u ∧ u ≤ maxU ∧ minV ≤ v ∧ v ≤ maxV ∧
      (∀ u' v', minU ≤ u' → u' ≤ maxU → minV ≤ v' → v' ≤ maxV →
        (sqNorm (s.evaluate u v - p) : ℝ) ≤ sqNorm (s.evaluate u' v' - p)) := by
  obtain ⟨a, ρ, a1, a2, hρ, hx, hy⟩ := ha
  obtain ⟨u, e, b1, b2, hx', hy'⟩ := clip_azimuth minU maxU hρ hx hy a1 a2
  refine ⟨u, _, inverse_eq tol6 ht s h p minU maxU minV maxV u ρ e hρ hx' hy', b1, b2, le_max_left _ _,
    max_le hv (min_le_right _ _), ?_⟩
  intro u' v' _ _ c1 c2
  rw [sqDist s h, sqDist s h]
  have hz := Plane.clamp_best minV maxV
    ((ρ - s.radius) * sin s.angle + dot (p - s.location) s.frame.e2 * cos s.angle) v' hv c1 c2
  generalize max minV (min ((ρ - s.radius) * sin s.angle + dot (p - s.location) s.frame.e2 * cos s.angle)
    maxV) = v at hz ⊢
  have hr := hcone v' c1 c2
  rw [hx', hy']
  have hc : cos u' * (ρ * cos u) + sin u' * (ρ * sin u) ≤ ρ := by
    have := Real.cos_le_one (u' - u)
    rw [Real.cos_sub] at this
    nlinarith
  have h1 := mul_le_mul_of_nonneg_left hc hr
  have e1 : cos u * (ρ * cos u) + sin u * (ρ * sin u) = ρ := by
    linear_combination ρ * Real.sin_sq_add_cos_sq u
  rw [e1]
  have h2 := Real.sin_sq_add_cos_sq s.angle
  generalize sin s.angle = sa at *
  generalize cos s.angle = ca at *
  generalize (dot (p - s.location) s.frame.e2 : ℝ) = z at *
  have q : ∀ w : ℝ, (s.radius + w * sa) ^ 2 + (w * ca) ^ 2 - 2 * ((s.radius + w * sa) * ρ + w * ca * z) =
      (w - ((ρ - s.radius) * sa + z * ca)) ^ 2 + (s.radius ^ 2 - 2 * s.radius * ρ -
        ((ρ - s.radius) * sa + z * ca) ^ 2) := by
    intro w; linear_combination w ^ 2 * h2
  have q1 := q v
  have q2 := q v'
  linarith

/-- C40 for cones: on the part of the cone not beyond the apex, over every box containing `(u, v)`,
inverse evaluation of `evaluate (u, v)` returns parameters in the box that evaluate to the same point. -/
theorem C40_cone_inverse_partial (tol6 : ℝ) (ht : 0 < tol6) (s : Cone V) (h : Ortho3 s.frame)
    (minU maxU minV maxV u v : ℝ) (hu1 : minU ≤ u) (hu2 : u ≤ maxU) (hv1 : minV ≤ v) (hv2 : v ≤ maxV)
    (hcone : 0 ≤ s.radius + v * sin s.angle) :
    ∃ u' v', s.inverseEvaluate tol6 (s.evaluate u v) minU maxU minV maxV = ok ((u', v'), true) ∧
      minU ≤ u' ∧ u' ≤ maxU ∧ minV ≤ v' ∧ v' ≤ maxV ∧ s.evaluate u' v' = s.evaluate u v := by
  have e0 := evaluate_eq s u v
  have hx : (dot (s.evaluate u v - s.location) s.frame.e0 : ℝ) = (s.radius + v * sin s.angle) * cos u := by
    rw [e0, add_sub_cancel_left, dot_frame0 h]
  have hy : (dot (s.evaluate u v - s.location) s.frame.e1 : ℝ) = (s.radius + v * sin s.angle) * sin u := by
    rw [e0, add_sub_cancel_left, dot_frame1 h]
  have hz : (dot (s.evaluate u v - s.location) s.frame.e2 : ℝ) = v * cos s.angle := by
    rw [e0, add_sub_cancel_left, dot_frame2 h]
  obtain ⟨u', e, b1, b2, hx', hy'⟩ := clip_azimuth minU maxU hcone hx hy hu1 hu2
  have hi := inverse_eq tol6 ht s h (s.evaluate u v) minU maxU minV maxV u' _ e hcone hx' hy'
  have hv : (s.radius + v * sin s.angle - s.radius) * sin s.angle +
      dot (s.evaluate u v - s.location) s.frame.e2 * cos s.angle = v := by
    rw [hz]; linear_combination v * Real.sin_sq_add_cos_sq s.angle
  rw [hv, min_eq_left hv2, max_eq_right hv1] at hi
  refine ⟨u', v, hi, b1, b2, hv1, hv2, ?_⟩
  rw [evaluate_eq, evaluate_eq, ← hx', ← hy', hx, hy]

/-- A cone of radius 1 and half angle 3/10. -/
private noncomputable def exCone : Cone (EuclideanSpace ℝ (Fin 3)) :=
  ⟨stdFrame.e0, stdFrame, 1, 3 / 10, ⟨0, 2 * π, 0, 1, true, false⟩⟩

private theorem exCone_half (v : ℝ) (h0 : 0 ≤ v) : 0 ≤ exCone.radius + v * sin exCone.angle := by
  have := Real.sin_nonneg_of_nonneg_of_le_pi (show (0 : ℝ) ≤ 3 / 10 by norm_num)
    (by linarith [Real.two_le_pi])
  simp only [exCone]
  positivity

example := C39_cone_partials exCone
example := C40_cone_implicit exCone stdFrame_ortho (1 / 3) (1 / 4)
example := C40_cone_closest_partial (1 / 10 ^ 6) (by norm_num) exCone stdFrame_ortho
  (stdFrame.e1 + stdFrame.e2) 0 (2 * π) 0 1 zero_le_one (fun v h _ => exCone_half v h)
  (hasAzimuth_full _ _ _ _ _ (by linarith))
example := C40_cone_inverse_partial (1 / 10 ^ 6) (by norm_num) exCone stdFrame_ortho 0 1 0 1 (1 / 3) (1 / 4)
  (by norm_num) (by norm_num) (by norm_num) (by norm_num) (exCone_half _ (by norm_num))

/-- C40 fails beyond the apex, for every cone of half angle `π/4` and radius 0: the point of parameters
`(0, -1)` is given the parameters of the apex, over the full box. -/
theorem C40_cone_apex_refuted (tol6 : ℝ) (ht : 0 < tol6) (s : Cone V) (h : Ortho3 s.frame)
    (hr : s.radius = 0) (ha : s.angle = π / 4) :
    ∃ u v, s.inverseEvaluate tol6 (s.evaluate 0 (-1)) 0 (2 * π) (-1) 1 = ok ((u, v), true) ∧
      s.evaluate u v = s.location ∧ s.evaluate 0 (-1) ≠ s.location := by
  have hpi := Real.pi_pos
  have hq : (0 : ℝ) < √2 / 2 := by positivity
  have hq2 : √2 / 2 * (√2 / 2) = 1 / 2 := by
    have := Real.mul_self_sqrt (show (0 : ℝ) ≤ 2 by norm_num)
    linarith
  have e0 : s.evaluate 0 (-1) - s.location =
      (-(√2 / 2)) • s.frame.e0 + (0 : ℝ) • s.frame.e1 + (-(√2 / 2)) • s.frame.e2 := by
    rw [evaluate_eq, add_sub_cancel_left, hr, ha, Real.cos_zero, Real.sin_zero, Real.sin_pi_div_four,
      Real.cos_pi_div_four]
    module
  have hx : (dot (s.evaluate 0 (-1) - s.location) s.frame.e0 : ℝ) = -(√2 / 2) := by rw [e0, dot_frame0 h]
  have hy : (dot (s.evaluate 0 (-1) - s.location) s.frame.e1 : ℝ) = 0 := by rw [e0, dot_frame1 h]
  have hz : (dot (s.evaluate 0 (-1) - s.location) s.frame.e2 : ℝ) = -(√2 / 2) := by rw [e0, dot_frame2 h]
  obtain ⟨u, e, b1, b2, hx', hy'⟩ := clip_azimuth (x := dot (s.evaluate 0 (-1) - s.location) s.frame.e0)
    (y := dot (s.evaluate 0 (-1) - s.location) s.frame.e1) (r := √2 / 2) (a := π) 0 (2 * π) hq.le
    (by rw [hx, Real.cos_pi]; ring) (by rw [hy, Real.sin_pi]; ring) hpi.le (by linarith)
  have hi := inverse_eq tol6 ht s h (s.evaluate 0 (-1)) 0 (2 * π) (-1) 1 u _ e hq.le hx' hy'
  rw [hz, hr, ha, Real.sin_pi_div_four, Real.cos_pi_div_four, sub_zero] at hi
  rw [show √2 / 2 * (√2 / 2) + -(√2 / 2) * (√2 / 2) = 0 by ring, min_eq_left zero_le_one,
    max_eq_right (by norm_num : (-1 : ℝ) ≤ 0)] at hi
  refine ⟨u, 0, hi, ?_, ?_⟩
  · rw [evaluate_eq, hr]; module
  · intro he
    rw [he, sub_self, dot_zero_left] at hx
    linarith

/-- Concrete case: a cone of half angle 0.3 and radius 1, heights between 0 and 1. -/
example : Ortho3 stdFrame ∧ ∀ v : ℝ, 0 ≤ v → v ≤ 1 → 0 ≤ 1 + v * sin (3 / 10) := by
  refine ⟨stdFrame_ortho, fun v h0 _ => ?_⟩
  have := Real.sin_nonneg_of_nonneg_of_le_pi (show (0 : ℝ) ≤ 3 / 10 by norm_num)
    (by linarith [Real.two_le_pi])
  positivity

end Cone

/-! ## Sphere -/

namespace Sphere

theorem evaluate_eq (s : Sphere V) (u v : ℝ) :
    s.evaluate u v = s.location + ((s.radius * cos v * cos u) • s.frame.e0 +
      (s.radius * cos v * sin u) • s.frame.e1 + (s.radius * sin v) • s.frame.e2) := by
  unfold evaluate; module

theorem sqDist (s : Sphere V) (h : Ortho3 s.frame) (p : V) (u v : ℝ) :
    (sqNorm (s.evaluate u v - p) : ℝ) = s.radius ^ 2 -
      2 * s.radius * (cos v *
          (cos u * dot (p - s.location) s.frame.e0 + sin u * dot (p - s.location) s.frame.e1) +
        sin v * dot (p - s.location) s.frame.e2) + sqNorm (p - s.location) := by
  rw [evaluate_eq, add_sub_right_comm, ← neg_sub p, neg_add_eq_sub, sqDist3 h]
  linear_combination (s.radius * cos v) ^ 2 * Real.sin_sq_add_cos_sq u +
    s.radius ^ 2 * Real.sin_sq_add_cos_sq v

/-- C39 for spheres. -/
theorem C39_sphere_partials {E : Type} [NormedAddCommGroup E] [NormedSpace ℝ E] (s : Sphere E) :
    TruePartials s.fn := by
  refine ⟨s.evaluate,
    fun u v => (s.radius * Real.cos v) • (-Real.sin u • s.frame.e0 + Real.cos u • s.frame.e1),
    fun u v => (-s.radius * Real.sin v) • (Real.cos u • s.frame.e0 + Real.sin u • s.frame.e1)
      + (s.radius * Real.cos v) • s.frame.e2,
    fun u v => (s.radius * Real.cos v) • (-Real.cos u • s.frame.e0 - Real.sin u • s.frame.e1),
    fun u v => (-s.radius * Real.cos v) • (Real.cos u • s.frame.e0 + Real.sin u • s.frame.e1)
      - (s.radius * Real.sin v) • s.frame.e2,
    fun u v => (-s.radius * Real.sin v) • (-Real.sin u • s.frame.e0 + Real.cos u • s.frame.e1),
    ⟨fun _ _ => rfl, fun _ _ => rfl, fun _ _ => rfl, fun _ _ => rfl, fun _ _ => rfl, fun _ _ => rfl⟩, ?_⟩
  intro u v
  have hc := (Real.hasDerivAt_cos u).smul_const s.frame.e0
  have hs := (Real.hasDerivAt_sin u).smul_const s.frame.e1
  have hs' := (Real.hasDerivAt_sin u).neg.smul_const s.frame.e0
  have hc' := (Real.hasDerivAt_cos u).smul_const s.frame.e1
  have vc := (Real.hasDerivAt_cos v).const_mul s.radius
  have vs := (Real.hasDerivAt_sin v).const_mul s.radius
  have vs' := (Real.hasDerivAt_sin v).const_mul (-s.radius)
  refine ⟨?_, ?_, ?_, ?_, ?_, ?_⟩
  · have := (((hc.add hs).const_smul (s.radius * Real.cos v)).const_add s.location).add_const
      ((s.radius * Real.sin v) • s.frame.e2)
    refine HasDerivAt.congr_deriv this ?_
    module
  · have := ((vc.smul_const (Real.cos u • s.frame.e0 + Real.sin u • s.frame.e1)).const_add s.location).add
      (vs.smul_const s.frame.e2)
    refine HasDerivAt.congr_deriv this ?_
    module
  · have := (hs'.add hc').const_smul (s.radius * Real.cos v)
    refine HasDerivAt.congr_deriv this ?_
    module
  · have := (vs'.smul_const (Real.cos u • s.frame.e0 + Real.sin u • s.frame.e1)).add
      (vc.smul_const s.frame.e2)
    refine HasDerivAt.congr_deriv this ?_
    module
  · have := vc.smul_const (-Real.sin u • s.frame.e0 + Real.cos u • s.frame.e1)
    refine HasDerivAt.congr_deriv this ?_
    module
  · have := ((hc.add hs).const_smul (-s.radius * Real.sin v)).add_const
      ((s.radius * Real.cos v) • s.frame.e2)
    refine HasDerivAt.congr_deriv this ?_
    module

/-- C40, implicit equation of the sphere. -/
theorem C40_sphere_implicit (s : Sphere V) (h : Ortho3 s.frame) (u v : ℝ) :
    (sqNorm (s.evaluate u v - s.location) : ℝ) = s.radius ^ 2 := by
  rw [sqDist s h, sub_self, dot_zero_left, dot_zero_left, dot_zero_left,
    show (sqNorm (0 : V) : ℝ) = 0 from sqNorm_eq_zero.2 rfl]
  ring

/-- C40 for spheres of non-negative radius, when the `v`-range stays between the poles and the `u`-range
contains an azimuth of the query (as every full range does): the returned parameters lie in the box and
belong to a point of the bounded patch closest to the query.

Full claim: every box.  Missing: queries outside the angular range, and `v`-ranges beyond a pole, where
it fails (`C40_sphere_pole_refuted`). -/
theorem C40_sphere_closest_partial (s : Sphere V) (h : Ortho3 s.frame) (hr : 0 ≤ s.radius) (p : V)
    (minU maxU minV maxV : ℝ) (hv : minV ≤ maxV) (hcos : ∀ v, minV ≤ v → v ≤ maxV → 0 ≤ cos v)
    (ha : HasAzimuth s.frame s.location p minU maxU) :
    ∃ u v, s.inverseEvaluate p minU maxU minV maxV = ok ((u, v), true) ∧
      minU ≤ u ∧ u ≤ maxU ∧ minV ≤ v ∧ v ≤ maxV ∧
      (∀ u' v', minU ≤ u' → u' ≤ maxU → minV ≤ v' → v' ≤ maxV →
        (sqNorm (s.evaluate u v - p) : ℝ) ≤ sqNorm (s.evaluate u' v' - p)) := by
  obtain ⟨a, ρ, a1, a2, hρ, hx, hy⟩ := ha
  obtain ⟨u, e, b1, b2, hx', hy'⟩ := clip_azimuth minU maxU hρ hx hy a1 a2
  have hh : hypot (dot (p - s.location) s.frame.e0 : ℝ) (dot (p - s.location) s.frame.e1) = ρ := by
    rw [hx', hy', hypot_polar hρ]
  obtain ⟨v, e2, c1, c2, -, hbest⟩ := clip_cos (atan2 (dot (p - s.location) s.frame.e2) ρ) minV maxV hv
  refine ⟨u, v, ?_, b1, b2, c1, c2, ?_⟩
  · unfold inverseEvaluate
    simp only
    rw [e, ok_bind, hh, e2, ok_bind]; rfl
  intro u' v' _ _ d1 d2
  rw [sqDist s h, sqDist s h, hx', hy']
  obtain ⟨p1, p2⟩ := atan2_polar (dot (p - s.location) s.frame.e2 : ℝ) ρ
  have hb := hbest v' d1 d2
  have hσ := hypot_nonneg ρ (dot (p - s.location) s.frame.e2 : ℝ)
  generalize atan2 (dot (p - s.location) s.frame.e2 : ℝ) ρ = ψ at *
  generalize hypot ρ (dot (p - s.location) s.frame.e2 : ℝ) = σ at *
  have hc : cos u' * (ρ * cos u) + sin u' * (ρ * sin u) ≤ ρ := by
    have := Real.cos_le_one (u' - u)
    rw [Real.cos_sub] at this
    nlinarith
  have h1 := mul_le_mul_of_nonneg_left hc (hcos v' d1 d2)
  have e1 : cos u * (ρ * cos u) + sin u * (ρ * sin u) = ρ := by
    linear_combination ρ * Real.sin_sq_add_cos_sq u
  rw [e1]
  have h3 : cos v' * ρ + sin v' * dot (p - s.location) s.frame.e2 ≤
      cos v * ρ + sin v * dot (p - s.location) s.frame.e2 := by
    rw [Real.cos_sub, Real.cos_sub] at hb
    have := mul_le_mul_of_nonneg_left hb hσ
    rw [p2]
    have p1' : ∀ x : ℝ, x * ρ = x * (σ * cos ψ) := fun x => by rw [← p1]
    rw [p1', p1' (cos v)]
    linarith
  have h4 := mul_le_mul_of_nonneg_left (show cos v' * (cos u' * (ρ * cos u) + sin u' * (ρ * sin u)) +
    sin v' * dot (p - s.location) s.frame.e2 ≤ cos v * ρ + sin v * dot (p - s.location) s.frame.e2 by
      linarith) hr
  linarith

/-- C40 for spheres of non-negative radius: between the poles, over every box containing `(u, v)`,
inverse evaluation of `evaluate (u, v)` returns parameters in the box that evaluate to the same point. -/
theorem C40_sphere_inverse_partial (s : Sphere V) (h : Ortho3 s.frame) (hr : 0 ≤ s.radius)
    (minU maxU minV maxV u v : ℝ) (hu1 : minU ≤ u) (hu2 : u ≤ maxU) (hv1 : minV ≤ v) (hv2 : v ≤ maxV)
    (hcos : 0 ≤ cos v) :
    ∃ u' v', s.inverseEvaluate (s.evaluate u v) minU maxU minV maxV = ok ((u', v'), true) ∧
      minU ≤ u' ∧ u' ≤ maxU ∧ minV ≤ v' ∧ v' ≤ maxV ∧ s.evaluate u' v' = s.evaluate u v := by
  have e0 := evaluate_eq s u v
  have hx : (dot (s.evaluate u v - s.location) s.frame.e0 : ℝ) = s.radius * cos v * cos u := by
    rw [e0, add_sub_cancel_left, dot_frame0 h]
  have hy : (dot (s.evaluate u v - s.location) s.frame.e1 : ℝ) = s.radius * cos v * sin u := by
    rw [e0, add_sub_cancel_left, dot_frame1 h]
  have hz : (dot (s.evaluate u v - s.location) s.frame.e2 : ℝ) = s.radius * sin v := by
    rw [e0, add_sub_cancel_left, dot_frame2 h]
  have hρ : 0 ≤ s.radius * cos v := mul_nonneg hr hcos
  obtain ⟨u', e, b1, b2, hx', hy'⟩ := clip_azimuth minU maxU hρ hx hy hu1 hu2
  have hh : hypot (dot (s.evaluate u v - s.location) s.frame.e0 : ℝ)
      (dot (s.evaluate u v - s.location) s.frame.e1) = s.radius * cos v := by
    rw [hx', hy', hypot_polar hρ]
  obtain ⟨v', e2, c1, c2, hx2, hy2⟩ := clip_azimuth minV maxV hr (rfl : s.radius * cos v = _) hz hv1 hv2
  refine ⟨u', v', ?_, b1, b2, c1, c2, ?_⟩
  · unfold inverseEvaluate
    simp only
    rw [e, ok_bind, hh, e2, ok_bind]; rfl
  · rw [evaluate_eq, evaluate_eq, ← hx2, ← hy2, ← hx', ← hy', hx, hy, hz]

/-- A sphere of radius 2. -/
private noncomputable def exSphere : Sphere (EuclideanSpace ℝ (Fin 3)) :=
  ⟨stdFrame.e0, stdFrame, 2, ⟨0, 2 * π, -(π / 2), π / 2, true, false⟩⟩

example := C39_sphere_partials exSphere
example := C40_sphere_implicit exSphere stdFrame_ortho (1 / 3) (1 / 4)
example := C40_sphere_closest_partial exSphere stdFrame_ortho (by norm_num [exSphere])
  (stdFrame.e1 + stdFrame.e2) 0 (2 * π) (-(π / 2)) (π / 2) (by linarith [Real.pi_pos])
  (fun _ h0 h1 => Real.cos_nonneg_of_neg_pi_div_two_le_of_le h0 h1) (hasAzimuth_full _ _ _ _ _ (by linarith))
example := C40_sphere_inverse_partial exSphere stdFrame_ortho (by norm_num [exSphere]) 0 1 0 1 (1 / 3) (1 / 4)
  (by norm_num) (by norm_num) (by norm_num) (by norm_num)
  (Real.cos_nonneg_of_neg_pi_div_two_le_of_le (by linarith [Real.two_le_pi]) (by linarith [Real.two_le_pi]))

/-- C40 fails beyond the poles, for every sphere of positive radius: with the `v`-range `[π/2, π]`, which
`initialize` accepts, the point of parameters `(0, π)` is given the parameters of the pole. -/
theorem C40_sphere_pole_refuted (s : Sphere V) (h : Ortho3 s.frame) (hr : 0 < s.radius) :
    ∃ u, s.inverseEvaluate (s.evaluate 0 π) 0 (2 * π) (π / 2) π = ok ((u, π / 2), true) ∧
      s.evaluate u (π / 2) ≠ s.evaluate 0 π := by
  have hpi := Real.pi_pos
  have e0 : s.evaluate 0 π - s.location =
      (-s.radius) • s.frame.e0 + (0 : ℝ) • s.frame.e1 + (0 : ℝ) • s.frame.e2 := by
    rw [evaluate_eq, add_sub_cancel_left, Real.cos_zero, Real.sin_zero, Real.cos_pi, Real.sin_pi]
    module
  have hx : (dot (s.evaluate 0 π - s.location) s.frame.e0 : ℝ) = -s.radius := by rw [e0, dot_frame0 h]
  have hy : (dot (s.evaluate 0 π - s.location) s.frame.e1 : ℝ) = 0 := by rw [e0, dot_frame1 h]
  have hz : (dot (s.evaluate 0 π - s.location) s.frame.e2 : ℝ) = 0 := by rw [e0, dot_frame2 h]
  obtain ⟨u, e, b1, b2, hx', hy'⟩ := clip_azimuth (x := -s.radius) (y := 0) (r := s.radius) (a := π) 0
    (2 * π) hr.le (by rw [Real.cos_pi]; ring) (by rw [Real.sin_pi]; ring) hpi.le (by linarith)
  refine ⟨u, ?_, ?_⟩
  · unfold inverseEvaluate
    simp only
    rw [hx, hy, hz, e, ok_bind]
    have hh : hypot (-s.radius) 0 = s.radius := by
      unfold hypot
      rw [show -s.radius * -s.radius + 0 * 0 = s.radius * s.radius by ring, Real.sqrt_mul_self hr.le]
    have ha : atan2 0 s.radius = 0 := by
      unfold atan2
      rw [show (⟨s.radius, 0⟩ : ℂ) = (s.radius : ℂ) from rfl, Complex.arg_ofReal_of_nonneg hr.le]
    rw [hh, ha]
    obtain ⟨t, et, t1, t2, -, hbest⟩ := clip_cos 0 (π / 2) π (by linarith)
    have hb := hbest (π / 2) le_rfl (by linarith)
    rw [sub_zero, sub_zero, Real.cos_pi_div_two] at hb
    have : t = π / 2 := by
      by_contra hne
      have hlt : π / 2 < t := lt_of_le_of_ne t1 (Ne.symm hne)
      have := Real.cos_neg_of_pi_div_two_lt_of_lt hlt (by linarith)
      linarith
    rw [et, this, ok_bind]; rfl
  · intro he
    have h1 := congrArg (fun q => (dot (q - s.location) s.frame.e2 : ℝ)) he
    beta_reduce at h1
    rw [hz, evaluate_eq, add_sub_cancel_left, dot_frame2 h, Real.sin_pi_div_two] at h1
    linarith

/-- Concrete case: the usual full sphere. -/
example : Ortho3 stdFrame ∧ (∀ v : ℝ, -(π / 2) ≤ v → v ≤ π / 2 → 0 ≤ cos v) ∧ (0 : ℝ) + 2 * π ≤ 2 * π :=
  ⟨stdFrame_ortho, fun _ h0 h1 => Real.cos_nonneg_of_neg_pi_div_two_le_of_le h0 h1, by linarith⟩

end Sphere

/-! ## Torus -/

namespace Torus

theorem evaluate_eq (s : Torus V) (u v : ℝ) :
    s.evaluate u v = s.location + (((s.major + s.minor * cos v) * cos u) • s.frame.e0 +
      ((s.major + s.minor * cos v) * sin u) • s.frame.e1 + (s.minor * sin v) • s.frame.e2) := by
  unfold evaluate; module

theorem sqDist (s : Torus V) (h : Ortho3 s.frame) (p : V) (u v : ℝ) :
    (sqNorm (s.evaluate u v - p) : ℝ) = s.minor ^ 2 + s.major ^ 2 + 2 * s.major * s.minor * cos v -
      2 * ((s.major + s.minor * cos v) *
          (cos u * dot (p - s.location) s.frame.e0 + sin u * dot (p - s.location) s.frame.e1) +
        s.minor * sin v * dot (p - s.location) s.frame.e2) + sqNorm (p - s.location) := by
  rw [evaluate_eq, add_sub_right_comm, ← neg_sub p, neg_add_eq_sub, sqDist3 h]
  linear_combination (s.major + s.minor * cos v) ^ 2 * Real.sin_sq_add_cos_sq u +
    s.minor ^ 2 * Real.sin_sq_add_cos_sq v

/-- C39 for tori. -/
theorem C39_torus_partials {E : Type} [NormedAddCommGroup E] [NormedSpace ℝ E] (s : Torus E) :
    TruePartials s.fn := by
  refine ⟨s.evaluate,
    fun u v => (s.major + s.minor * Real.cos v) • (-Real.sin u • s.frame.e0 + Real.cos u • s.frame.e1),
    fun u v => (-s.minor * Real.sin v) • (Real.cos u • s.frame.e0 + Real.sin u • s.frame.e1)
      + (s.minor * Real.cos v) • s.frame.e2,
    fun u v => (s.major + s.minor * Real.cos v) • (-Real.cos u • s.frame.e0 - Real.sin u • s.frame.e1),
    fun u v => (-s.minor * Real.cos v) • (Real.cos u • s.frame.e0 + Real.sin u • s.frame.e1)
      - (s.minor * Real.sin v) • s.frame.e2,
    fun u v => (s.minor * Real.sin v) • (Real.sin u • s.frame.e0 - Real.cos u • s.frame.e1),
    ⟨fun _ _ => rfl, fun _ _ => rfl, fun _ _ => rfl, fun _ _ => rfl, fun _ _ => rfl, fun _ _ => rfl⟩, ?_⟩
  intro u v
  have hc := (Real.hasDerivAt_cos u).smul_const s.frame.e0
  have hs := (Real.hasDerivAt_sin u).smul_const s.frame.e1
  have hs' := (Real.hasDerivAt_sin u).neg.smul_const s.frame.e0
  have hc' := (Real.hasDerivAt_cos u).smul_const s.frame.e1
  have vc := (Real.hasDerivAt_cos v).const_mul s.minor
  have vs := (Real.hasDerivAt_sin v).const_mul s.minor
  have vs' := (Real.hasDerivAt_sin v).const_mul (-s.minor)
  have vm := vc.const_add s.major
  refine ⟨?_, ?_, ?_, ?_, ?_, ?_⟩
  · have := (((hc.add hs).const_smul (s.major + s.minor * Real.cos v)).const_add s.location).add_const
      ((s.minor * Real.sin v) • s.frame.e2)
    refine HasDerivAt.congr_deriv this ?_
    module
  · have := ((vm.smul_const (Real.cos u • s.frame.e0 + Real.sin u • s.frame.e1)).const_add s.location).add
      (vs.smul_const s.frame.e2)
    refine HasDerivAt.congr_deriv this ?_
    module
  · have := (hs'.add hc').const_smul (s.major + s.minor * Real.cos v)
    refine HasDerivAt.congr_deriv this ?_
    module
  · have := (vs'.smul_const (Real.cos u • s.frame.e0 + Real.sin u • s.frame.e1)).add
      (vc.smul_const s.frame.e2)
    refine HasDerivAt.congr_deriv this ?_
    module
  · have := vm.smul_const (-Real.sin u • s.frame.e0 + Real.cos u • s.frame.e1)
    refine HasDerivAt.congr_deriv this ?_
    module
  · have := ((hc.add hs).const_smul (-s.minor * Real.sin v)).add_const
      ((s.minor * Real.cos v) • s.frame.e2)
    refine HasDerivAt.congr_deriv this ?_
    module

/-- C40, implicit (quartic) equation of the torus. -/
theorem C40_torus_implicit (s : Torus V) (h : Ortho3 s.frame) (u v : ℝ) :
    ((dot (s.evaluate u v - s.location) s.frame.e0 : ℝ) ^ 2 +
      (dot (s.evaluate u v - s.location) s.frame.e1 : ℝ) ^ 2 +
      (dot (s.evaluate u v - s.location) s.frame.e2 : ℝ) ^ 2 + s.major ^ 2 - s.minor ^ 2) ^ 2 =
    4 * s.major ^ 2 * ((dot (s.evaluate u v - s.location) s.frame.e0 : ℝ) ^ 2 +
      (dot (s.evaluate u v - s.location) s.frame.e1 : ℝ) ^ 2) := by
  rw [evaluate_eq, add_sub_cancel_left, dot_frame0 h, dot_frame1 h, dot_frame2 h]
  have h1 : ((s.major + s.minor * cos v) * cos u) ^ 2 + ((s.major + s.minor * cos v) * sin u) ^ 2 =
      (s.major + s.minor * cos v) ^ 2 := by
    linear_combination (s.major + s.minor * cos v) ^ 2 * Real.sin_sq_add_cos_sq u
  have h2 : (s.minor * sin v) ^ 2 = s.minor ^ 2 - (s.minor * cos v) ^ 2 := by
    linear_combination s.minor ^ 2 * Real.sin_sq_add_cos_sq v
  rw [h1, h2]; ring

/-- C40 for tori with a non-negative minor radius, where the tube does not cross the axis on the box and
the `u`-range contains an azimuth of the query (as every full range does): the returned parameters lie
in the box and belong to a point of the bounded patch closest to the query.

Full claim: every box and radii.  Missing: queries outside the angular range and self-intersecting
tori. -/
theorem C40_torus_closest_partial (s : Torus V) (h : Ortho3 s.frame) (hr : 0 ≤ s.minor) (p : V)
    (minU maxU minV maxV : ℝ) (hv : minV ≤ maxV)
    (hax : ∀ v, minV ≤ v → v ≤ maxV → 0 ≤ s.major + s.minor * cos v)
    (ha : HasAzimuth s.frame s.location p minU maxU) :
    ∃ u v, s.inverseEvaluate p minU maxU minV maxV = ok ((u, v), true) ∧
      minU ≤ u ∧ u ≤ maxU ∧ minV ≤ v ∧ v ≤ maxV ∧
      (∀ u' v', minU ≤ u' → u' ≤ maxU → minV ≤ v' → v' ≤ maxV →
        (sqNorm (s.evaluate u v - p) : ℝ) ≤ sqNorm (s.evaluate u' v' - p)) := by
  obtain ⟨a, ρ, a1, a2, hρ, hx, hy⟩ := ha
  obtain ⟨u, e, b1, b2, hx', hy'⟩ := clip_azimuth minU maxU hρ hx hy a1 a2
  have hh : hypot (dot (p - s.location) s.frame.e0 : ℝ) (dot (p - s.location) s.frame.e1) = ρ := by
    rw [hx', hy', hypot_polar hρ]
  obtain ⟨v, e2, c1, c2, -, hbest⟩ :=
    clip_cos (atan2 (dot (p - s.location) s.frame.e2) (ρ - s.major)) minV maxV hv
  refine ⟨u, v, ?_, b1, b2, c1, c2, ?_⟩
  · unfold inverseEvaluate
    simp only
    rw [e, ok_bind, hh, e2, ok_bind]; rfl
  intro u' v' _ _ d1 d2
  rw [sqDist s h, sqDist s h, hx', hy']
  obtain ⟨p1, p2⟩ := atan2_polar (dot (p - s.location) s.frame.e2 : ℝ) (ρ - s.major)
  have hb := hbest v' d1 d2
  have hσ := hypot_nonneg (ρ - s.major) (dot (p - s.location) s.frame.e2 : ℝ)
  generalize atan2 (dot (p - s.location) s.frame.e2 : ℝ) (ρ - s.major) = ψ at *
  generalize hypot (ρ - s.major) (dot (p - s.location) s.frame.e2 : ℝ) = σ at *
  have hc : cos u' * (ρ * cos u) + sin u' * (ρ * sin u) ≤ ρ := by
    have := Real.cos_le_one (u' - u)
    rw [Real.cos_sub] at this
    nlinarith
  have h1 := mul_le_mul_of_nonneg_left hc (hax v' d1 d2)
  have e1 : cos u * (ρ * cos u) + sin u * (ρ * sin u) = ρ := by
    linear_combination ρ * Real.sin_sq_add_cos_sq u
  rw [e1]
  have h3 : cos v' * (ρ - s.major) + sin v' * dot (p - s.location) s.frame.e2 ≤
      cos v * (ρ - s.major) + sin v * dot (p - s.location) s.frame.e2 := by
    rw [Real.cos_sub, Real.cos_sub] at hb
    have := mul_le_mul_of_nonneg_left hb hσ
    rw [p1, p2]
    linarith
  have h4 := mul_le_mul_of_nonneg_left h3 hr
  linarith

/-- C40 for tori with a non-negative minor radius: where the tube does not cross the axis, over every
box containing `(u, v)`, inverse evaluation of `evaluate (u, v)` returns parameters in the box that
evaluate to the same point. -/
theorem C40_torus_inverse_partial (s : Torus V) (h : Ortho3 s.frame) (hr : 0 ≤ s.minor)
    (minU maxU minV maxV u v : ℝ) (hu1 : minU ≤ u) (hu2 : u ≤ maxU) (hv1 : minV ≤ v) (hv2 : v ≤ maxV)
    (hax : 0 ≤ s.major + s.minor * cos v) :
    ∃ u' v', s.inverseEvaluate (s.evaluate u v) minU maxU minV maxV = ok ((u', v'), true) ∧
      minU ≤ u' ∧ u' ≤ maxU ∧ minV ≤ v' ∧ v' ≤ maxV ∧ s.evaluate u' v' = s.evaluate u v := by
  have e0 := evaluate_eq s u v
  have hx : (dot (s.evaluate u v - s.location) s.frame.e0 : ℝ) = (s.major + s.minor * cos v) * cos u := by
    rw [e0, add_sub_cancel_left, dot_frame0 h]
  have hy : (dot (s.evaluate u v - s.location) s.frame.e1 : ℝ) = (s.major + s.minor * cos v) * sin u := by
    rw [e0, add_sub_cancel_left, dot_frame1 h]
  have hz : (dot (s.evaluate u v - s.location) s.frame.e2 : ℝ) = s.minor * sin v := by
    rw [e0, add_sub_cancel_left, dot_frame2 h]
  obtain ⟨u', e, b1, b2, hx', hy'⟩ := clip_azimuth minU maxU hax hx hy hu1 hu2
  have hh : hypot (dot (s.evaluate u v - s.location) s.frame.e0 : ℝ)
      (dot (s.evaluate u v - s.location) s.frame.e1) - s.major = s.minor * cos v := by
    rw [hx', hy', hypot_polar hax]; ring
  obtain ⟨v', e2, c1, c2, hx2, hy2⟩ := clip_azimuth minV maxV hr (rfl : s.minor * cos v = _) hz hv1 hv2
  refine ⟨u', v', ?_, b1, b2, c1, c2, ?_⟩
  · unfold inverseEvaluate
    simp only
    rw [e, ok_bind, hh, e2, ok_bind]; rfl
  · rw [evaluate_eq, evaluate_eq, ← hx2, ← hy2, ← hx', ← hy', hx, hy, hz]

/-- A ring torus. -/
private noncomputable def exTorus : Torus (EuclideanSpace ℝ (Fin 3)) :=
  ⟨stdFrame.e0, stdFrame, 2, 1, ⟨0, 2 * π, 0, 2 * π, true, true⟩⟩

private theorem exTorus_ring (v : ℝ) : 0 ≤ exTorus.major + exTorus.minor * cos v := by
  have := Real.neg_one_le_cos v
  simp only [exTorus]
  linarith

example := C39_torus_partials exTorus
example := C40_torus_implicit exTorus stdFrame_ortho (1 / 3) (1 / 4)
example := C40_torus_closest_partial exTorus stdFrame_ortho (by norm_num [exTorus])
  (stdFrame.e1 + stdFrame.e2) 0 (2 * π) 0 (2 * π) (by linarith [Real.pi_pos]) (fun v _ _ => exTorus_ring v)
  (hasAzimuth_full _ _ _ _ _ (by linarith))
example := C40_torus_inverse_partial exTorus stdFrame_ortho (by norm_num [exTorus]) 0 1 0 1 (1 / 3) (1 / 4)
  (by norm_num) (by norm_num) (by norm_num) (by norm_num) (exTorus_ring _)

/-- C40 fails for a torus whose tube crosses the axis (major radius 0, minor radius 1): the point of
parameters `(0, 3π/4)`, looked up with `u` restricted to `[0, π/2]`, is given parameters of another
point. -/
theorem C40_torus_crossing_refuted (s : Torus V) (h : Ortho3 s.frame) (hM : s.major = 0)
    (hm : s.minor = 1) :
    ∃ u v, s.inverseEvaluate (s.evaluate 0 π) 0 (π / 2) 0 (2 * π) = ok ((u, v), true) ∧
      s.evaluate u v ≠ s.evaluate 0 π := by
  have hpi := Real.pi_pos
  have e0 : s.evaluate 0 π - s.location =
      (-1 : ℝ) • s.frame.e0 + (0 : ℝ) • s.frame.e1 + (0 : ℝ) • s.frame.e2 := by
    rw [evaluate_eq, add_sub_cancel_left, hM, hm, Real.cos_zero, Real.sin_zero, Real.cos_pi, Real.sin_pi]
    module
  have hx : (dot (s.evaluate 0 π - s.location) s.frame.e0 : ℝ) = -1 := by rw [e0, dot_frame0 h]
  have hy : (dot (s.evaluate 0 π - s.location) s.frame.e1 : ℝ) = 0 := by rw [e0, dot_frame1 h]
  have hz : (dot (s.evaluate 0 π - s.location) s.frame.e2 : ℝ) = 0 := by rw [e0, dot_frame2 h]
  obtain ⟨u, e, b1, b2, -⟩ := clip_cos (atan2 0 (-1)) 0 (π / 2) (by linarith)
  have hh : hypot (-1) 0 - s.major = 1 * cos 0 := by
    unfold hypot
    rw [hM, show (-1 : ℝ) * -1 + 0 * 0 = 1 by norm_num, Real.sqrt_one, Real.cos_zero]; ring
  obtain ⟨v, e2, c1, c2, hx2, hy2⟩ := clip_azimuth (x := 1 * cos 0) (y := 0) (r := 1) (a := 0) 0 (2 * π)
    zero_le_one rfl (by rw [Real.sin_zero, mul_zero]) le_rfl (by linarith)
  refine ⟨u, v, ?_, ?_⟩
  · unfold inverseEvaluate
    simp only
    rw [hx, hy, hz, e, ok_bind, hh, e2, ok_bind]; rfl
  · intro he
    have h1 := congrArg (fun q => (dot (q - s.location) s.frame.e0 : ℝ)) he
    beta_reduce at h1
    rw [hx, evaluate_eq, add_sub_cancel_left, dot_frame0 h, hM, hm] at h1
    rw [Real.cos_zero, one_mul] at hx2
    have : cos v = 1 := by linarith
    rw [this] at h1
    have := Real.cos_nonneg_of_neg_pi_div_two_le_of_le (by linarith) b2
    linarith

/-- Concrete case: the torus of radii 1 and 1/5. -/
example : Ortho3 stdFrame ∧ ∀ v : ℝ, 0 ≤ 1 + 1 / 5 * cos v := by
  refine ⟨stdFrame_ortho, fun v => ?_⟩
  have := Real.neg_one_le_cos v
  linarith

end Torus

end NS
