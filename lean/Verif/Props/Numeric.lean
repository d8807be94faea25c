import Verif.Model.Numeric
import Verif.Model.Bezier
import Verif.Spec.Geom
import Verif.Proof.Romberg
import Mathlib.Algebra.Order.Ring.Rat
import Mathlib.Data.Rat.Floor
import Mathlib.Analysis.InnerProductSpace.Calculus
import Mathlib.Analysis.Calculus.Deriv.Inv
import Mathlib.Tactic.Module

/-!
# C47, C48, C49, C58, C60: arc length, intersection, sampling, curvature, closedness
-/

set_option linter.unusedSectionVars false
set_option linter.unusedSimpArgs false

namespace NS

open Outcome Geom LawfulGeom

variable {K V : Type} [Field K] [LinearOrder K] [IsStrictOrderedRing K] [FloorRing K]
  [AddCommGroup V] [Module K V] [Geom K V]

/-! ## Curvature -/

section Curvature

variable [LawfulGeom K V]

theorem curvature_ok {d1 d2 : K → Outcome V} {t : K} {a b : V} (h1 : d1 t = ok a)
    (h2 : d2 t = ok b) : curvature d1 d2 t = ok (if (sqNorm a : K) = 0 then 0 else
      (1 / sqNorm a : K) • (b - (1 / sqNorm a : K) • (dot a b : K) • a)) := by
  unfold curvature
  rw [h1, ok_bind, h2, ok_bind]; rfl

/-- **C58** (algebra).  With velocity `a ≠ 0` and acceleration `b` the result is orthogonal to the
velocity and its squared length is `(|a|²|b|² - (a·b)²) / |a|⁶`, the square of the curvature. -/
theorem C58_orthogonal_magnitude (d1 d2 : K → Outcome V) (t : K) (a b : V) (h1 : d1 t = ok a)
    (h2 : d2 t = ok b) (ha : a ≠ 0) :
    ∃ k : V, curvature d1 d2 t = ok k ∧ (dot a k : K) = 0 ∧
      (dot k k : K) * dot a a ^ 3 = dot a a * dot b b - dot a b ^ 2 := by
  have hq : (sqNorm a : K) ≠ 0 := fun h => ha (sqNorm_eq_zero.1 h)
  refine ⟨_, curvature_ok h1 h2, ?_, ?_⟩
  · rw [if_neg hq, dot_smul_right, dot_sub_right, dot_smul_right, dot_smul_right]
    unfold sqNorm at *
    field_simp
    ring
  · rw [if_neg hq]
    simp only [dot_smul_right, dot_smul, dot_sub_right, dot_sub_left]
    rw [dot_comm b a]
    unfold sqNorm at *
    field_simp
    ring

/-- **C58** (reparametrisation).  The curve `s ↦ C(α s + β)` has velocity `α C'` and acceleration
`α² C''`; its curvature vector is the same. -/
theorem C58_reparametrise (d1 d2 e1 e2 : K → Outcome V) (α β s : K) (hα : α ≠ 0) (a b : V)
    (h1 : d1 (α * s + β) = ok a) (h2 : d2 (α * s + β) = ok b)
    (g1 : e1 s = ok (α • a)) (g2 : e2 s = ok ((α * α) • b)) :
    ∃ k : V, curvature d1 d2 (α * s + β) = ok k ∧ curvature e1 e2 s = ok k := by
  refine ⟨_, curvature_ok h1 h2, ?_⟩
  rw [curvature_ok g1 g2]
  congr 1
  by_cases hq : (sqNorm a : K) = 0
  · rw [if_pos hq, if_pos (by rw [sqNorm_smul, hq, mul_zero])]
  · have : (sqNorm (α • a) : K) ≠ 0 := by
      rw [sqNorm_smul]; exact mul_ne_zero (mul_ne_zero hα hα) hq
    rw [if_neg hq, if_neg this, sqNorm_smul, dot_smul, dot_smul_right]
    match_scalars
    · field_simp
    · field_simp

/-- **C58** (straight motion).  If the acceleration is parallel to the velocity, or the velocity
vanishes, the result is zero. -/
theorem C58_straight (d1 d2 : K → Outcome V) (t x : K) (a : V) (h1 : d1 t = ok a)
    (h2 : d2 t = ok (x • a)) : curvature d1 d2 t = ok (0 : V) := by
  rw [curvature_ok h1 h2]
  congr 1
  split
  · rfl
  · rename_i hq
    rw [dot_smul_right]
    have : (dot a a : K) = sqNorm a := rfl
    rw [this]
    match_scalars
    field_simp
    ring

end Curvature

/-- **C58** (calculus).  For a curve with velocity `c1` differentiable at `t` with derivative `b` and
`c1 t ≠ 0`, the result is the derivative of the unit tangent with respect to arc length: the unit
tangent has derivative `|c1 t| • k`. -/
theorem C58_unit_tangent {W : Type} [NormedAddCommGroup W] [InnerProductSpace ℝ W] (c1 : ℝ → W)
    (b : W) (t : ℝ) (hd : HasDerivAt c1 b t) (hne : c1 t ≠ 0) (d2 : ℝ → Outcome W)
    (h2 : d2 t = ok b) :
    ∃ k : W, curvature (fun s => ok (c1 s)) d2 t = ok k ∧
      HasDerivAt (fun s => ‖c1 s‖⁻¹ • c1 s) (‖c1 t‖ • k) t := by
  have hq : (sqNorm (c1 t) : ℝ) ≠ 0 := fun h => hne (sqNorm_eq_zero.1 h)
  have hn : ‖c1 t‖ ≠ 0 := norm_ne_zero_iff.2 hne
  refine ⟨_, curvature_ok rfl h2, ?_⟩
  rw [if_neg hq]
  -- derivative of the norm
  have hsq : HasDerivAt (fun s => ‖c1 s‖ ^ 2) (2 * inner ℝ (c1 t) b) t := hd.norm_sq
  have hnorm : HasDerivAt (fun s => ‖c1 s‖) (inner ℝ (c1 t) b / ‖c1 t‖) t := by
    have := hsq.sqrt (by positivity)
    simp only [Real.sqrt_sq (_root_.norm_nonneg _)] at this
    convert this using 1
    field_simp
  have := (hnorm.inv hn).smul hd
  refine HasDerivAt.congr_deriv this ?_
  have hs : (sqNorm (c1 t) : ℝ) = ‖c1 t‖ ^ 2 := real_inner_self_eq_norm_sq (c1 t)
  have hdot : (dot (c1 t) b : ℝ) = inner ℝ (c1 t) b := rfl
  rw [hs, hdot, Pi.inv_apply]
  match_scalars
  · field_simp
  · field_simp

/-- A case with non-zero curvature in the plane `ℂ`: velocity `1`, acceleration `i`. -/
theorem exCurvature : (Complex.I : ℂ) ≠ 0 ∧ (1 : ℂ) ≠ 0 ∧
    curvature (fun _ : ℝ => ok (1 : ℂ)) (fun _ => ok Complex.I) 0 = ok Complex.I := by
  refine ⟨Complex.I_ne_zero, one_ne_zero, ?_⟩
  rw [curvature_ok (K := ℝ) (a := (1 : ℂ)) (b := Complex.I) rfl rfl]
  have h1 : (sqNorm (1 : ℂ) : ℝ) = 1 := by
    have : (sqNorm (1 : ℂ) : ℝ) = ‖(1 : ℂ)‖ ^ 2 := real_inner_self_eq_norm_sq (1 : ℂ)
    rw [this]; simp
  have h2 : (dot (1 : ℂ) Complex.I : ℝ) = 0 := by
    have : (dot (1 : ℂ) Complex.I : ℝ) = inner ℝ (1 : ℂ) Complex.I := rfl
    rw [this]; simp [Complex.inner]
  rw [h1, h2]; simp

/-! ## Closedness -/

/-- **C60**.  With evaluators that return, `is_closed(order)` is true exactly when the values, for
`order ≥ 1` also the first, and for `order ≥ 2` also the second derivatives at both ends of the domain
differ by less than the tolerance.  Orders above 2 behave like 2 (they do not throw). -/
theorem C60_is_closed (nrm : V → K) (ev d1 d2 : K → Outcome V) (tMin tMax tol : K) (order : ℕ)
    (e0 e1 e2 : K → V) (h0 : ∀ t, t = tMin ∨ t = tMax → ev t = ok (e0 t))
    (h1 : 1 ≤ order → ∀ t, t = tMin ∨ t = tMax → d1 t = ok (e1 t))
    (h2 : 2 ≤ order → ∀ t, t = tMin ∨ t = tMax → d2 t = ok (e2 t)) :
    ∃ b, isClosed nrm ev d1 d2 tMin tMax order tol = ok b ∧
      (b = true ↔ nrm (e0 tMin - e0 tMax) < tol ∧
        (1 ≤ order → nrm (e1 tMin - e1 tMax) < tol) ∧
        (2 ≤ order → nrm (e2 tMin - e2 tMax) < tol)) := by
  unfold isClosed
  rw [h0 _ (Or.inl rfl), ok_bind, h0 _ (Or.inr rfl), ok_bind]
  simp only [pure_eq]
  by_cases o1 : order ≥ 1
  · rw [if_pos o1, h1 o1 _ (Or.inl rfl), ok_bind, h1 o1 _ (Or.inr rfl), ok_bind, ok_bind]
    by_cases o2 : order ≥ 2
    · rw [if_pos o2, h2 o2 _ (Or.inl rfl), ok_bind, h2 o2 _ (Or.inr rfl), ok_bind]
      refine ⟨_, rfl, ?_⟩
      simp only [Bool.and_eq_true, decide_eq_true_eq]
      constructor
      · rintro ⟨⟨a, b⟩, c⟩; exact ⟨a, fun _ => b, fun _ => c⟩
      · rintro ⟨a, b, c⟩; exact ⟨⟨a, b o1⟩, c o2⟩
    · rw [if_neg o2]
      refine ⟨_, rfl, ?_⟩
      simp only [Bool.and_eq_true, decide_eq_true_eq]
      constructor
      · rintro ⟨a, b⟩; exact ⟨a, fun _ => b, fun h => absurd h o2⟩
      · rintro ⟨a, b, _⟩; exact ⟨a, b o1⟩
  · rw [if_neg o1, ok_bind, if_neg (by omega)]
    refine ⟨_, rfl, ?_⟩
    simp only [decide_eq_true_eq]
    exact ⟨fun a => ⟨a, fun h => absurd h o1, fun h => absurd h (by omega)⟩, fun h => h.1⟩

/-- A Bezier curve closed to order 0 but not to order 1, and one closed to order 2. -/
theorem exClosed :
    (let c : Bezier ℚ := ⟨[0, 1, 0], false⟩
     isClosed (fun x => |x|) c.evaluate2 c.evaluateDerivative2 c.evaluate2ndDerivative2 (0 : ℚ) 1 0
        (1 / 10 ^ 15) = ok true ∧
     isClosed (fun x => |x|) c.evaluate2 c.evaluateDerivative2 c.evaluate2ndDerivative2 (0 : ℚ) 1 1
        (1 / 10 ^ 15) = ok false) ∧
    (let c : Bezier ℚ := ⟨[2, 2, 2], false⟩
     isClosed (fun x => |x|) c.evaluate2 c.evaluateDerivative2 c.evaluate2ndDerivative2 (0 : ℚ) 1 2
        (1 / 10 ^ 15) = ok true) := by
  decide +kernel

/-! ## Arc length -/

/-- **C47** (level 0).  Without refinement the length is the trapezoidal value; it is exact for speeds
of degree at most one, in particular constant speed.  The property asks this at every level, which is
false: `C47_constant_speed_refuted`. -/
theorem C47_level0_partial (c0 c1 t0 t1 tol : K) :
    romberg (fun t => ok (c0 + c1 * t)) t0 t1 0 tol =
      ok (c0 * (t1 - t0) + c1 * (t1 ^ 2 - t0 ^ 2) / 2) := by
  simp only [romberg, ok_bind, rombergGo, wr, rd]
  simp
  ring

/-- **C47**: false at every level above 0, for every positive constant speed, every interval and every
tolerance: the computed length is strictly smaller than `c * (t1 - t0)`.  (The sum over midpoints stops
one term early.) -/
theorem C47_constant_speed_refuted (c t0 t1 tol : K) (level : ℕ) (hl : 1 ≤ level) (hc : 0 < c)
    (ht : t0 < t1) :
    ∃ r, romberg (fun _ => ok c) t0 t1 level tol = ok r ∧ r < c * (t1 - t0) := by
  obtain ⟨k, h1, h2, e⟩ := romberg_const c t0 t1 tol level hl
  exact ⟨_, e, rv_lt (mul_pos hc (sub_pos.2 ht)) h1 k⟩

/-- **C47** (level 1): the single midpoint is ignored and the result is a third of the trapezoidal
value, for every speed function. -/
theorem C47_level1_refuted (speed : K → Outcome K) (t0 t1 a b tol : K) (h0 : speed t0 = ok a)
    (h1 : speed t1 = ok b) : romberg speed t0 t1 1 tol = ok ((t1 - t0) * (a + b) / 6) := by
  simp only [romberg, h0, h1, ok_bind, rombergGo, rombergFirst, rombergRow, wr, rd, loop, pure_eq]
  simp
  ring

/-- The unit segment of the line, measured with the default arguments, comes out short. -/
theorem exArcLength : ∃ r : ℚ,
    arcLength (fun _ : ℚ => ok (1 : ℚ)) 0 1 10 (1 / 10 ^ 12) = ok r ∧ r < 1 - 1 / 1000 := by
  refine ⟨116896106984210810578654816997 / 117679145077829181419632434375, ?_, ?_⟩ <;>
    decide +kernel

/-! ## Intersections -/

theorem intersectPlaneGo_true {c : CurveFn K V} {nrm : V} {d tol : K} :
    ∀ {n : ℕ} {t pt pe r : K}, intersectPlaneGo c nrm d tol n t pt pe = ok (r, true) →
      ∃ x, c.ev r = ok x ∧ |dot nrm x + d| < tol := by
  intro n
  induction n with
  | zero => intro t pt pe r e; simp [intersectPlaneGo] at e
  | succ n ih =>
    intro t pt pe r e
    unfold intersectPlaneGo at e
    obtain ⟨x, hx, e⟩ := bind_eq_ok.1 e
    simp only at e
    split at e
    · rename_i h
      rw [ok.injEq, Prod.mk.injEq] at e
      obtain ⟨rfl, -⟩ := e
      exact ⟨x, hx, h⟩
    split at e
    · simp at e
    obtain ⟨y, hy, e⟩ := bind_eq_ok.1 e
    split at e
    · simp at e
    · exact ih e

/-- **C48** (curve and plane `n·x + d = 0`).  Whatever the curve functions, the start, the number of
iterations and the tolerance: if convergence is reported, the plane residual at the returned parameter
is below the tolerance. -/
theorem C48_curve_plane (big : K) (c : CurveFn K V) (nrm : V) (d t0 tol : K) (iters : ℕ) (r : K)
    (e : intersectPlane big c nrm d t0 iters tol = ok (r, true)) :
    ∃ x, c.ev r = ok x ∧ |dot nrm x + d| < tol :=
  intersectPlaneGo_true e

/-- **C48** (curve and plane): a start that already is an intersection is returned as such. -/
theorem C48_curve_plane_start (big : K) (c : CurveFn K V) (nrm : V) (d t0 tol : K) (iters : ℕ)
    (hi : 0 < iters) (x : V) (hx : c.ev t0 = ok x) (h : |dot nrm x + d| < tol) :
    intersectPlane big c nrm d t0 iters tol = ok (t0, true) := by
  obtain ⟨n, rfl⟩ : ∃ n, iters = n + 1 := ⟨iters - 1, by omega⟩
  unfold intersectPlane intersectPlaneGo
  rw [hx, ok_bind]
  exact if_pos h

theorem intersectSegGo_true {s : PatchFn K V} {pu pv qu qv : K} {nrm : V} {d tol : K} :
    ∀ {n : ℕ} {uv : K × K} {t pt pe : K} {r : K × K},
      intersectSegGo s pu pv qu qv nrm d tol n uv t pt pe = ok (r, true) →
      (∃ x, s.ev r.1 r.2 = ok x ∧ |dot nrm x + d| < tol) ∧
      ∃ t, r = (pu * (1 - t) + qu * t, pv * (1 - t) + qv * t) := by
  intro n
  induction n with
  | zero => intro uv t pt pe r e; simp [intersectSegGo] at e
  | succ n ih =>
    intro uv t pt pe r e
    unfold intersectSegGo at e
    obtain ⟨x, hx, e⟩ := bind_eq_ok.1 e
    simp only at e
    split at e
    · rename_i h
      rw [ok.injEq, Prod.mk.injEq] at e
      obtain ⟨rfl, -⟩ := e
      exact ⟨⟨x, hx, h⟩, t, rfl⟩
    split at e
    · simp at e
    obtain ⟨y, hy, e⟩ := bind_eq_ok.1 e
    obtain ⟨z, hz, e⟩ := bind_eq_ok.1 e
    split at e
    · simp at e
    · exact ih e

/-- **C48** (parameter segment on a patch and plane), for segments longer than `1e-12` in `u` or `v`:
reported convergence implies a residual below the tolerance, at a point on the line through the two
given parameter points.  For shorter segments see `C48_segment_degenerate_refuted`. -/
theorem C48_segment_partial (big : K) (hyp : K → K → K) (s : PatchFn K V) (pu pv qu qv : K) (nrm : V)
    (d u0 v0 : K) (iters : ℕ) (tol : K) (r : K × K)
    (hl : ¬(|pu - qu| < 1 / 10 ^ 12 ∧ |pv - qv| < 1 / 10 ^ 12))
    (e : intersectSeg big hyp s pu pv qu qv nrm d u0 v0 iters tol = ok (r, true)) :
    (∃ x, s.ev r.1 r.2 = ok x ∧ |dot nrm x + d| < tol) ∧
      ∃ t, r = (pu * (1 - t) + qu * t, pv * (1 - t) + qv * t) := by
  unfold intersectSeg at e
  rw [if_neg hl] at e
  exact intersectSegGo_true e

/-- The patch `S(u, v) = u (u - 1)` on the line. -/
def exQuadPatch : PatchFn ℚ ℚ :=
  ⟨fun u _ => ok (u * (u - 1)), fun u _ => ok (2 * u - 1), fun _ _ => ok 0, fun _ _ => ok 2,
    fun _ _ => ok 0, fun _ _ => ok 0⟩

/-- **C48** (degenerate segment): false.  When the two parameter points coincide, convergence is
reported for every point on the negative side of the plane, at any distance: here residual `-1/4` with
tolerance `1e-9`. -/
theorem C48_segment_degenerate_refuted :
    intersectSeg (10 ^ 300) (fun x y => |x| + |y|) exQuadPatch (1 / 2) 0 (1 / 2) 0 (1 : ℚ) 0 0 0 10
      (1 / 10 ^ 9) = ok (((1 / 2, 0) : ℚ × ℚ), true) ∧
    exQuadPatch.ev (1 / 2) 0 = ok (-1 / 4) ∧ ¬|(dot (1 : ℚ) (-1 / 4 : ℚ) : ℚ) + 0| < 1 / 10 ^ 9 := by
  refine ⟨?_, ?_, ?_⟩ <;> decide +kernel

/-- **C48** (start of the segment search): a start that already is an intersection need not be returned.
The start is reflected to the other end of the segment: with the plane through `S(0,0)` and `S(1,0)`,
the segment from `(0,0)` to `(1,0)` and the start `(0,0)`, the answer is `(1,0)`. -/
theorem C48_segment_start_refuted :
    intersectSeg (10 ^ 300) (fun x y => |x| + |y|) exQuadPatch 0 0 1 0 (1 : ℚ) 0 0 0 10
      (1 / 10 ^ 9) = ok (((1, 0) : ℚ × ℚ), true) ∧ exQuadPatch.ev 0 0 = ok 0 := by
  refine ⟨?_, ?_⟩ <;> decide +kernel

theorem objective_f {c : CurveFn K V} {s : PatchFn K V} {t u v : K} {o : Objective K}
    (e : objective c s t u v = ok o) :
    ∃ a b, c.ev t = ok a ∧ s.ev u v = ok b ∧ o.f = sqNorm (a - b) := by
  unfold objective at e
  obtain ⟨a, ha, e⟩ := bind_eq_ok.1 e
  obtain ⟨b, hb, e⟩ := bind_eq_ok.1 e
  simp only at e
  obtain ⟨_, _, e⟩ := bind_eq_ok.1 e
  obtain ⟨_, _, e⟩ := bind_eq_ok.1 e
  obtain ⟨_, _, e⟩ := bind_eq_ok.1 e
  obtain ⟨_, _, e⟩ := bind_eq_ok.1 e
  obtain ⟨_, _, e⟩ := bind_eq_ok.1 e
  obtain ⟨_, _, e⟩ := bind_eq_ok.1 e
  obtain ⟨_, _, e⟩ := bind_eq_ok.1 e
  rw [pure_eq, ok.injEq] at e
  subst e
  exact ⟨a, b, ha, hb, rfl⟩

theorem intersectPatchGo_true {c : CurveFn K V} {s : PatchFn K V} {tol : K} :
    ∀ {n : ℕ} {x p : K × K × K} {pf : K} {r : K × K × K},
      intersectPatchGo c s tol n x p pf = ok (r, true) →
      ∃ a b, c.ev r.1 = ok a ∧ s.ev r.2.1 r.2.2 = ok b ∧ (sqNorm (a - b) : K) < tol * tol := by
  intro n
  induction n with
  | zero => intro x p pf r e; simp [intersectPatchGo] at e
  | succ n ih =>
    intro x p pf r e
    unfold intersectPatchGo at e
    obtain ⟨o, ho, e⟩ := bind_eq_ok.1 e
    split at e
    · simp at e
    split at e
    · rename_i h
      rw [ok.injEq, Prod.mk.injEq] at e
      obtain ⟨rfl, -⟩ := e
      obtain ⟨a, b, ha, hb, hf⟩ := objective_f ho
      exact ⟨a, b, ha, hb, hf ▸ h⟩
    split at e
    · simp at e
    · exact ih e

/-- **C48** (curve and patch).  Reported convergence implies that the two returned points are closer
than the tolerance. -/
theorem C48_curve_patch [LawfulGeom K V] (big : K) (c : CurveFn K V) (s : PatchFn K V)
    (t0 u0 v0 : K) (iters : ℕ) (tol : K) (ht : 0 ≤ tol) (r : K × K × K)
    (e : intersectPatch big c s t0 u0 v0 iters tol = ok (r, true)) :
    ∃ a b, c.ev r.1 = ok a ∧ s.ev r.2.1 r.2.2 = ok b ∧ norm (a - b) < tol := by
  obtain ⟨a, b, ha, hb, h⟩ := intersectPatchGo_true e
  refine ⟨a, b, ha, hb, ?_⟩
  unfold sqNorm at h
  rw [← norm_sq] at h
  exact lt_of_mul_self_lt_mul_self₀ ht h

/-- The patch `S(u, v) = u² + v²` on the line. -/
def exParaboloid : PatchFn ℚ ℚ :=
  ⟨fun u v => ok (u * u + v * v), fun u _ => ok (2 * u), fun _ v => ok (2 * v), fun _ _ => ok 2,
    fun _ _ => ok 2, fun _ _ => ok 0⟩

/-- Runs that do converge. -/
theorem exIntersect :
    intersectPlane (10 ^ 300) (CurveFn.mk (fun t => ok (t * t)) (fun t => ok (2 * t))
      (fun _ => ok 2) : CurveFn ℚ ℚ) (1 : ℚ) (-4) 3 10 (1 / 10 ^ 2) = ok (195313 / 97656, true) ∧
    intersectPatch (10 ^ 300) (CurveFn.mk (fun t => ok t) (fun _ => ok 1) (fun _ => ok 0) :
      CurveFn ℚ ℚ) exParaboloid (3 / 2) 1 1 10 (1 / 10 ^ 2) = ok ((2, 1, 1), true) := by
  refine ⟨?_, ?_⟩ <;> decide +kernel

/-! ## Sampling -/

/-- **C49** (uniform in the domain).  For `num > 1` and `tMin ≤ tMax`: exactly `num` parameters, the
first is `tMin`, the last `tMax`, all are in `[tMin, tMax]` and they do not decrease. -/
theorem C49_uniform_domain (fuel : ℕ) (len : K → K → Outcome K) (inv : K → Outcome K)
    (ev : K → Outcome V) (num : ℕ) (tMin tMax : K) (hn : 1 < num) (h : tMin ≤ tMax) :
    ∃ l, sample fuel len inv ev num tMin tMax .uniformDomain = ok l ∧ l.length = num ∧
      l[0]? = some tMin ∧ l[num - 1]? = some tMax ∧ (∀ t ∈ l, tMin ≤ t ∧ t ≤ tMax) ∧
      l.Pairwise (· ≤ ·) := by
  unfold sample
  rw [assert_true hn, ok_bind]
  have hq : (0 : K) < ((num - 1 : ℕ) : K) := by
    have : 0 < num - 1 := by omega
    exact_mod_cast this
  refine ⟨_, rfl, ?_, ?_, ?_, ?_, ?_⟩
  · simp [uniformDomain]
  · unfold uniformDomain
    rw [List.getElem?_map, List.getElem?_range (by omega)]
    simp
  · unfold uniformDomain
    rw [List.getElem?_map, List.getElem?_range (by omega)]
    simp only [Option.map_some, Option.some.injEq]
    rw [mul_div_assoc, div_self hq.ne']; ring
  · intro t ht
    unfold uniformDomain at ht
    obtain ⟨i, hi, rfl⟩ := List.mem_map.1 ht
    have hi := List.mem_range.1 hi
    have h1 : (i : K) ≤ ((num - 1 : ℕ) : K) := by
      have : i ≤ num - 1 := by omega
      exact_mod_cast this
    have h0 : (0 : K) ≤ (i : K) := by positivity
    have hd : 0 ≤ tMax - tMin := sub_nonneg.2 h
    constructor
    · have : 0 ≤ (tMax - tMin) * (i : K) / ((num - 1 : ℕ) : K) := by positivity
      linarith
    · have : (tMax - tMin) * (i : K) / ((num - 1 : ℕ) : K) ≤ tMax - tMin := by
        rw [div_le_iff₀ hq]; nlinarith
      linarith
  · unfold uniformDomain
    rw [List.pairwise_map]
    refine List.Pairwise.imp ?_ List.pairwise_lt_range
    intro i j hij
    have : (i : K) ≤ j := by exact_mod_cast hij.le
    have hd : 0 ≤ tMax - tMin := sub_nonneg.2 h
    have := div_le_div_of_nonneg_right (mul_le_mul_of_nonneg_left this hd) hq.le
    linarith

/-- **C49** (uniform in arc length).  A returned list has exactly `num` entries, starts with `tMin` and
ends with `tMax`.  That the others lie between is false: `C49_uniform_range_refuted`. -/
theorem C49_uniform_range_partial (fuel : ℕ) (len : K → K → Outcome K) (inv : K → Outcome K)
    (ev : K → Outcome V) (num : ℕ) (tMin tMax : K) (l : List K)
    (e : sample fuel len inv ev num tMin tMax .uniformRange = ok l) :
    l.length = num ∧ l[0]? = some tMin ∧ l[num - 1]? = some tMax := by
  unfold sample at e
  obtain ⟨_, ha, e⟩ := bind_eq_ok.1 e
  have hn : num > 1 := by
    by_contra h; rw [assert_false h] at ha; cases ha
  simp only [uniformRange] at e
  obtain ⟨L, _, e⟩ := bind_eq_ok.1 e
  obtain ⟨mid, hm, e⟩ := bind_eq_ok.1 e
  rw [pure_eq, ok.injEq] at e
  have hlen : mid.length = num - 2 := by
    refine loop_inv_of_ok (fun n (s : List K) => s.length = n) (num - 2) _ [] rfl ?_ mid hm
    intro i hi s s' hs e
    obtain ⟨t, _, e⟩ := bind_eq_ok.1 e
    rw [pure_eq, ok.injEq] at e
    rw [← e]; simp [hs]
  subst e
  refine ⟨?_, by simp, ?_⟩
  · simp [hlen]; omega
  · rw [List.getElem?_append_right (by simp [hlen]; omega)]
    simp [hlen]
    have : num - 1 - (num - 2 + 1) = 0 := by omega
    rw [this]; rfl

/-- **C49** (uniform in arc length): false.  Lengths are measured from the start of the domain and not
from `tMin`: on the unit segment, three samples between `1/2` and `1` are `1/2, 1/4, 1`. -/
theorem C49_uniform_range_refuted :
    sample 0 (fun a b => arcLength (fun _ : ℚ => ok (1 : ℚ)) a b 10 (1 / 10 ^ 12))
      (inverseArcLength (fun _ : ℚ => ok (1 : ℚ)) 0 1) (fun t => ok t) 3 (1 / 2) 1 .uniformRange =
      ok [1 / 2, 1 / 4, 1] := by
  decide +kernel

theorem adaptiveGo_spec {len : K → K → Outcome K} {ev : K → Outcome V} {tol : K} :
    ∀ {n : ℕ} {t0 t1 : K} {l : List K}, t0 < t1 → adaptiveGo len ev tol n t0 t1 = ok l →
      l[0]? = some t0 ∧ (∀ t ∈ l, t0 ≤ t ∧ t < t1) ∧ l.Pairwise (· < ·) := by
  intro n
  induction n with
  | zero => intro t0 t1 l _ e; cases e
  | succ n ih =>
    intro t0 t1 l h e
    unfold adaptiveGo at e
    obtain ⟨L, _, e⟩ := bind_eq_ok.1 e
    obtain ⟨p0, _, e⟩ := bind_eq_ok.1 e
    obtain ⟨p1, _, e⟩ := bind_eq_ok.1 e
    split at e
    · simp only at e
      obtain ⟨a, ea, e⟩ := bind_eq_ok.1 e
      obtain ⟨b, eb, e⟩ := bind_eq_ok.1 e
      rw [pure_eq, ok.injEq] at e
      subst e
      have h1 : t0 < (t0 + t1) / 2 := by linarith
      have h2 : (t0 + t1) / 2 < t1 := by linarith
      obtain ⟨a1, a2, a3⟩ := ih h1 ea
      obtain ⟨b1, b2, b3⟩ := ih h2 eb
      refine ⟨?_, ?_, ?_⟩
      · cases a with
        | nil => simp at a1
        | cons x a => simpa using a1
      · intro t ht
        rcases List.mem_append.1 ht with h | h
        · exact ⟨(a2 t h).1, (a2 t h).2.trans h2⟩
        · exact ⟨h1.le.trans (b2 t h).1, (b2 t h).2⟩
      · rw [List.pairwise_append]
        exact ⟨a3, b3, fun x hx y hy => lt_of_lt_of_le (a2 x hx).2 (b2 y hy).1⟩
    · rw [ok.injEq] at e
      subst e
      refine ⟨rfl, ?_, List.pairwise_singleton _ _⟩
      intro t ht
      rw [List.mem_singleton.1 ht]
      exact ⟨le_rfl, h⟩

/-- **C49** (adaptive).  Whatever the curve and the length function: a returned list starts with `tMin`,
ends with `tMax`, is strictly increasing and stays in `[tMin, tMax]`. -/
theorem C49_adaptive (fuel : ℕ) (len : K → K → Outcome K) (inv : K → Outcome K)
    (ev : K → Outcome V) (num : ℕ) (tMin tMax : K) (h : tMin < tMax) (l : List K)
    (e : sample fuel len inv ev num tMin tMax .adaptive = ok l) :
    l[0]? = some tMin ∧ l.getLast? = some tMax ∧ (∀ t ∈ l, tMin ≤ t ∧ t ≤ tMax) ∧
      l.Pairwise (· < ·) := by
  unfold sample at e
  obtain ⟨_, _, e⟩ := bind_eq_ok.1 e
  simp only [adaptive] at e
  obtain ⟨L, _, e⟩ := bind_eq_ok.1 e
  obtain ⟨s, hs, e⟩ := bind_eq_ok.1 e
  rw [pure_eq, ok.injEq] at e
  subst e
  obtain ⟨h1, h2, h3⟩ := adaptiveGo_spec h hs
  refine ⟨?_, by simp, ?_, ?_⟩
  · cases s with
    | nil => simp at h1
    | cons x a => simpa using h1
  · intro t ht
    rcases List.mem_append.1 ht with ht | ht
    · exact ⟨(h2 t ht).1, (h2 t ht).2.le⟩
    · rw [List.mem_singleton.1 ht]; exact ⟨h.le, le_rfl⟩
  · rw [List.pairwise_append]
    refine ⟨h3, List.pairwise_singleton _ _, fun x hx y hy => ?_⟩
    rw [List.mem_singleton.1 hy]; exact (h2 x hx).2

theorem adaptiveGo_chain {len : K → K → Outcome K} {ev : K → Outcome V} {tol : K} :
    ∀ {n : ℕ} {t0 t1 : K} {l : List K}, adaptiveGo len ev tol n t0 t1 = ok l →
      (∃ l', l = t0 :: l') ∧ (l ++ [t1]).IsChain (fun a b => ∃ L p q, len a b = ok L ∧ ev a = ok p ∧
        ev b = ok q ∧ L - norm (q - p) ≤ tol) := by
  intro n
  induction n with
  | zero => intro t0 t1 l e; cases e
  | succ n ih =>
    intro t0 t1 l e
    unfold adaptiveGo at e
    obtain ⟨L, eL, e⟩ := bind_eq_ok.1 e
    obtain ⟨p0, e0, e⟩ := bind_eq_ok.1 e
    obtain ⟨p1, e1, e⟩ := bind_eq_ok.1 e
    split at e
    · simp only at e
      obtain ⟨a, ea, e⟩ := bind_eq_ok.1 e
      obtain ⟨b, eb, e⟩ := bind_eq_ok.1 e
      rw [pure_eq, ok.injEq] at e
      subst e
      obtain ⟨⟨a', rfl⟩, ca⟩ := ih ea
      obtain ⟨⟨b', rfl⟩, cb⟩ := ih eb
      refine ⟨⟨_, rfl⟩, ?_⟩
      rw [List.append_assoc, List.cons_append (as := b')]
      rw [List.cons_append] at cb
      exact List.isChain_split.2 ⟨ca, cb⟩
    · rename_i hle
      rw [ok.injEq] at e
      subst e
      refine ⟨⟨_, rfl⟩, ?_⟩
      simp only [List.cons_append, List.nil_append, List.isChain_cons_cons, List.isChain_singleton,
        and_true]
      exact ⟨L, p0, p1, eL, e0, e1, not_lt.1 hle⟩

/-- **C49** (adaptive, tolerance).  Between neighbouring samples the curve is longer than its chord by at
most a tenth of the total length divided by the requested number. -/
theorem C49_adaptive_tolerance (fuel : ℕ) (len : K → K → Outcome K) (inv : K → Outcome K)
    (ev : K → Outcome V) (num : ℕ) (tMin tMax : K) (l : List K)
    (e : sample fuel len inv ev num tMin tMax .adaptive = ok l) :
    ∃ total, len tMin tMax = ok total ∧
      l.IsChain (fun a b => ∃ L p q, len a b = ok L ∧ ev a = ok p ∧ ev b = ok q ∧
        L - norm (q - p) ≤ total / (10 * num)) := by
  unfold sample at e
  obtain ⟨_, _, e⟩ := bind_eq_ok.1 e
  simp only [adaptive] at e
  obtain ⟨L, eL, e⟩ := bind_eq_ok.1 e
  obtain ⟨s, hs, e⟩ := bind_eq_ok.1 e
  rw [pure_eq, ok.injEq] at e
  subst e
  refine ⟨L, eL, ?_⟩
  have := (adaptiveGo_chain hs).2
  rwa [div_div, mul_comm (num : K) 10] at this

theorem adaptiveGo_total {len : K → K → K} {ev : K → V} {tol M : K} (hn : ∀ v : V, 0 ≤ norm (K := K) v)
    (hM : ∀ a b, a ≤ b → len a b ≤ M * (b - a)) :
    ∀ {n : ℕ} {t0 t1 : K}, t0 ≤ t1 → M * (t1 - t0) ≤ 2 ^ n * tol →
      ∃ l, adaptiveGo (fun a b => ok (len a b)) (fun t => ok (ev t)) tol (n + 1) t0 t1 = ok l ∧
        l.length ≤ 2 ^ n := by
  intro n
  induction n with
  | zero =>
    intro t0 t1 h hm
    refine ⟨[t0], ?_, by simp⟩
    unfold adaptiveGo
    simp only [ok_bind]
    rw [if_neg]
    have := hM t0 t1 h
    have := hn (ev t1 - ev t0)
    rw [pow_zero, one_mul] at hm
    linarith
  | succ n ih =>
    intro t0 t1 h hm
    rw [adaptiveGo]
    simp only [ok_bind]
    split
    · have h2 : M * ((t0 + t1) / 2 - t0) ≤ 2 ^ n * tol := by
        rw [pow_succ] at hm; linarith
      have h3 : M * (t1 - (t0 + t1) / 2) ≤ 2 ^ n * tol := by
        rw [pow_succ] at hm; linarith
      obtain ⟨a, ea, la⟩ := ih (t0 := t0) (t1 := (t0 + t1) / 2) (by linarith) h2
      obtain ⟨b, eb, lb⟩ := ih (t0 := (t0 + t1) / 2) (t1 := t1) (by linarith) h3
      refine ⟨a ++ b, ?_, by rw [List.length_append, pow_succ]; omega⟩
      rw [ea, ok_bind, eb, ok_bind, pure_eq]
    · exact ⟨[t0], rfl, Nat.one_le_two_pow⟩

/-- **C49** (adaptive, termination).  If the length of every part is at most `M` times its parameter
range, the recursion ends: `n` levels suffice as soon as `10 num M (tMax - tMin) ≤ 2^n total`, and at most
`2^n + 1` samples are returned. -/
theorem C49_adaptive_terminates (len : K → K → K) (inv : K → Outcome K) (ev : K → V)
    (hn : ∀ v : V, 0 ≤ norm (K := K) v) (num : ℕ) (hnum : 1 < num) {tMin tMax M : K}
    (h : tMin ≤ tMax) (hM : ∀ a b, a ≤ b → len a b ≤ M * (b - a)) (n : ℕ)
    (hb : 10 * num * M * (tMax - tMin) ≤ 2 ^ n * len tMin tMax) :
    ∃ l, sample (n + 1) (fun a b => ok (len a b)) inv (fun t => ok (ev t)) num tMin tMax .adaptive
      = ok l ∧ l.length ≤ 2 ^ n + 1 := by
  have hpos : (0 : K) < num := by exact_mod_cast (by omega : 0 < num)
  obtain ⟨l, hl, hlen⟩ := adaptiveGo_total (ev := ev) (tol := len tMin tMax / num / 10) hn hM (n := n) h
    (by
      rw [div_div, ← mul_div_assoc, le_div_iff₀ (by positivity)]
      linarith)
  refine ⟨l ++ [tMax], ?_, by simp [hlen]⟩
  unfold sample
  rw [assert_true (by omega), ok_bind]
  simp only [adaptive]
  rw [ok_bind, hl, ok_bind, pure_eq]

/-- An adaptive run that subdivides: the length function charges `|b - a|` plus `(b - a)²` and the curve
is the unit segment. -/
theorem exAdaptive :
    sample 10 (fun a b => ok (b - a + (b - a) ^ 2)) (fun _ => ub) (fun t => ok t) 2 (0 : ℚ) 1
      .adaptive = ok ([0, 1 / 4, 1 / 2, 3 / 4, 1] : List ℚ) := by
  decide +kernel

/-- The hypotheses of `C49_adaptive_terminates` for a length of `2 (b - a)`. -/
example : ∃ n, ∀ a b : ℚ, a ≤ b → 2 * (b - a) ≤ 2 * (b - a) ∧
    10 * (3 : ℕ) * 2 * ((1 : ℚ) - 0) ≤ 2 ^ n * (2 * (1 - 0)) :=
  ⟨5, fun _ _ _ => ⟨le_rfl, by norm_num⟩⟩

end NS
