import Verif.Props.Numeric
import Verif.Props.Inverse
import Mathlib.Analysis.Calculus.Deriv.Add

/-!
# C34, C47: single steps of the refinement on patches, lengths of straight segments
-/

set_option linter.unusedSectionVars false
set_option linter.unusedSimpArgs false

namespace NS

open Outcome Geom LawfulGeom

variable {K V : Type} [Field K] [LinearOrder K] [IsStrictOrderedRing K] [FloorRing K]
  [AddCommGroup V] [Module K V] [Geom K V]

/-! ## Arc length -/

/-- **C47** (straight curves, level 0): with only end point samples the length of
`t ↦ o + t • a` over `[t0, t1]` is `|a| (t1 - t0)`. -/
theorem C47_line_level0_partial (d1 : K → Outcome V) (a : V) (h : ∀ t, d1 t = ok a)
    (t0 t1 tol : K) : arcLength d1 t0 t1 0 tol = ok (norm a * (t1 - t0)) := by
  have e : curveSpeed d1 = fun t : K => ok (norm a + 0 * t : K) := by
    funext t; simp [curveSpeed, h]
  unfold arcLength
  rw [e, C47_level0_partial]
  congr 1
  ring

/-- **C47** (flat patches, level 0): on the patch `(u, v) ↦ o + u a + v b` the length of a segment of
the parameter plane is the norm of the difference of its end points. -/
theorem C47_patch_level0_partial (s : PatchFn K V) (o a b : V)
    (h0 : ∀ u v, s.ev u v = ok (o + u • a + v • b)) (h1 : ∀ u v, s.du u v = ok a)
    (h2 : ∀ u v, s.dv u v = ok b) (u0 v0 u1 v1 tol : K) :
    ∃ P Q : V, s.ev u0 v0 = ok P ∧ s.ev u1 v1 = ok Q ∧
      patchArcLength s u0 v0 u1 v1 0 tol = ok (norm (Q - P)) := by
  refine ⟨_, _, h0 _ _, h0 _ _, ?_⟩
  have e : patchSpeed s u0 v0 u1 v1 = fun t : K => ok
      (norm ((o + u1 • a + v1 • b) - (o + u0 • a + v0 • b)) + 0 * t : K) := by
    funext t
    simp only [patchSpeed, h1, h2, ok_bind, pure_eq, zero_mul, add_zero]
    congr 2
    module
  unfold patchArcLength
  rw [e, C47_level0_partial]
  congr 1
  ring

/-- **C47** (integrand).  What is integrated for a segment of the parameter plane of a differentiable
patch is the speed of the curve on the patch over that segment. -/
theorem C47_patch_speed {W : Type} [NormedAddCommGroup W] [InnerProductSpace ℝ W]
    (S : ℝ × ℝ → W) (D : ℝ × ℝ → ℝ × ℝ →L[ℝ] W) (hS : ∀ x, HasFDerivAt S (D x) x)
    (s : PatchFn ℝ W) (h1 : ∀ u v, s.du u v = ok (D (u, v) (1, 0)))
    (h2 : ∀ u v, s.dv u v = ok (D (u, v) (0, 1))) (u0 v0 u1 v1 t : ℝ) :
    ∃ w : W, HasDerivAt (fun t : ℝ => S ((1 - t) * u0 + t * u1, (1 - t) * v0 + t * v1)) w t ∧
      patchSpeed s u0 v0 u1 v1 t = ok ‖w‖ := by
  set q : ℝ → ℝ × ℝ := fun t => ((1 - t) * u0 + t * u1, (1 - t) * v0 + t * v1) with hq
  have hd : ∀ a b : ℝ, HasDerivAt (fun t : ℝ => (1 - t) * a + t * b) (b - a) t := by
    intro a b
    have h : HasDerivAt (fun t : ℝ => t * (b - a) + a) (1 * (b - a)) t :=
      ((hasDerivAt_id' t).mul_const (b - a)).add_const a
    rw [one_mul] at h
    have e : (fun t : ℝ => (1 - t) * a + t * b) = fun t => t * (b - a) + a := by
      funext t; ring
    rw [e]; exact h
  have hqd : HasDerivAt q (u1 - u0, v1 - v0) t := (hd u0 u1).prodMk (hd v0 v1)
  refine ⟨D (q t) (u1 - u0, v1 - v0), (hS (q t)).comp_hasDerivAt t hqd, ?_⟩
  unfold patchSpeed
  simp only [h1, h2, ok_bind, pure_eq]
  have e1 : ((u1 - u0) * t + u0, (v1 - v0) * t + v0) = q t := by
    simp only [hq]; congr 1 <;> ring
  have e2 : ((u1 - u0, v1 - v0) : ℝ × ℝ) = (u1 - u0) • (1, 0) + (v1 - v0) • (0, 1) := by simp
  rw [e1, e2, map_add, map_smul, map_smul]
  rfl

example : arcLength (fun _ : ℚ => ok (-3 : ℚ)) 1 5 0 (1 / 100) = ok (12 : ℚ) := by
  rw [C47_line_level0_partial _ (-3) fun _ => rfl]
  decide +kernel

/-- The flat patch `(u, v) ↦ 1 + 2 u - 3 v` over the line. -/
example : ∃ s : PatchFn ℚ ℚ, s.ev 1 0 = ok 3 ∧ s.ev 0 2 = ok (-5) ∧
    patchArcLength s 1 0 0 2 0 (1 / 100) = ok (8 : ℚ) := by
  refine ⟨⟨fun u v => ok (1 + u • 2 + v • (-3)), fun _ _ => ok 2, fun _ _ => ok (-3),
    fun _ _ => ok 0, fun _ _ => ok 0, fun _ _ => ok 0⟩, by decide +kernel, by decide +kernel, ?_⟩
  obtain ⟨P, Q, h1, h2, h3⟩ := C47_patch_level0_partial
    (⟨fun u v => ok (1 + u • 2 + v • (-3)), fun _ _ => ok 2, fun _ _ => ok (-3),
      fun _ _ => ok 0, fun _ _ => ok 0, fun _ _ => ok 0⟩ : PatchFn ℚ ℚ) 1 2 (-3)
    (fun _ _ => rfl) (fun _ _ => rfl) (fun _ _ => rfl) 1 0 0 2 (1 / 100)
  rw [ok.injEq] at h1 h2
  rw [h3, ← h1, ← h2]
  decide +kernel

/-- The paraboloid `u² + v²` over the real line: along the diagonal the speed at `t = 1` is `4`. -/
example : patchSpeed (⟨fun u v => ok (u * u + v * v), fun u _ => ok (2 * u), fun _ v => ok (2 * v),
    fun _ _ => ok 2, fun _ _ => ok 2, fun _ _ => ok 0⟩ : PatchFn ℝ ℝ) 0 0 1 1 1 = ok 4 := by
  obtain ⟨w, h1, h2⟩ := C47_patch_speed (fun x : ℝ × ℝ => x.1 * x.1 + x.2 * x.2)
    (fun x => (x.1 • ContinuousLinearMap.fst ℝ ℝ ℝ + x.1 • ContinuousLinearMap.fst ℝ ℝ ℝ)
      + (x.2 • ContinuousLinearMap.snd ℝ ℝ ℝ + x.2 • ContinuousLinearMap.snd ℝ ℝ ℝ))
    (fun x => (hasFDerivAt_fst.mul hasFDerivAt_fst).add (hasFDerivAt_snd.mul hasFDerivAt_snd))
    (⟨fun u v => ok (u * u + v * v), fun u _ => ok (2 * u), fun _ v => ok (2 * v),
      fun _ _ => ok 2, fun _ _ => ok 2, fun _ _ => ok 0⟩ : PatchFn ℝ ℝ)
    (fun u v => by simp; ring) (fun u v => by simp; ring) 0 0 1 1 1
  have h3 : HasDerivAt (fun t : ℝ => ((1 - t) * 0 + t * 1) * ((1 - t) * 0 + t * 1)
      + ((1 - t) * 0 + t * 1) * ((1 - t) * 0 + t * 1)) 4 1 := by
    have e : (fun t : ℝ => ((1 - t) * 0 + t * 1) * ((1 - t) * 0 + t * 1)
      + ((1 - t) * 0 + t * 1) * ((1 - t) * 0 + t * 1)) = fun t : ℝ => t * t + t * t := by
      funext t; ring
    rw [e]
    have h : HasDerivAt (fun t : ℝ => t * t) (1 * 1 + 1 * 1) 1 :=
      (hasDerivAt_id' (1 : ℝ)).mul (hasDerivAt_id' (1 : ℝ))
    exact (HasDerivAt.fun_add h h).congr_deriv (by norm_num)
  rw [h2, h1.unique h3]
  norm_num

/-! ## Sampling methods -/

/-- **C49** (unknown methods): a value outside the enumeration is rejected with an exception, and fewer
than two samples trip the assertion whatever the method. -/
theorem C49_rejects (fuel : ℕ) (len : K → K → Outcome K) (inv : K → Outcome K) (ev : K → Outcome V)
    (num : ℕ) (tMin tMax : K) :
    (1 < num → sample fuel len inv ev num tMin tMax .other = Outcome.throw .notImplemented) ∧
    (num ≤ 1 → ∀ m, sample fuel len inv ev num tMin tMax m = ub) := by
  unfold sample
  refine ⟨fun h => ?_, fun h m => ?_⟩
  · rw [assert_true h]; rfl
  · rw [assert_false (by omega)]; rfl

/-! ## Newton steps on patches -/

namespace PatchBase

/-- What one iteration of the refinement sees at `(u, v)`: the residual `r`, the derivatives and that
it is neither accepted nor given up because of the distance. -/
structure StepAt (s : PatchFn K V) (p : V) (tol prevDist u v : K) (r su sv suu svv suv : V) :
    Prop where
  ev : s.ev u v = ok (r + p)
  du : s.du u v = ok su
  dv : s.dv u v = ok sv
  duu : s.duu u v = ok suu
  dvv : s.dvv u v = ok svv
  duv : s.duv u v = ok suv
  far : tol ≤ norm r
  moved : tol ≤ |(norm r : K) - prevDist|
  closer : (norm r : K) ≤ prevDist
  steep : tol ≤ |(dot su r : K)| ∨ tol ≤ |(dot sv r : K)|

variable [LawfulGeom K V]

/-- **C34** (patches, step).  Where the determinant of the Hessian of half the squared distance is
positive, one iteration is the Newton step for that function, clamped to the box. -/
theorem C34_patch_step {s : PatchFn K V} {p : V} {tol minU maxU minV maxV u v prevDist : K}
    {prev : K × K} {r su sv suu svv suv : V} (S : StepAt s p tol prevDist u v r su sv suu svv suv)
    (hdet : (dot su sv + dot r suv : K) ^ 2 < (dot su su + dot r suu) * (dot sv sv + dot r svv)) :
    ∃ δu δv : K, (dot su su + dot r suu) * δu + (dot su sv + dot r suv) * δv = - dot r su ∧
      (dot su sv + dot r suv) * δu + (dot sv sv + dot r svv) * δv = - dot r sv ∧
      newtonPatch s p tol minU maxU minV maxV 1 u v prev prevDist
        = ok ((clampStep minU maxU (u + δu), clampStep minV maxV (v + δv)), true) := by
  have h1 := S.far
  have h2 := S.moved
  have h3 := S.closer
  have hc : (dot sv su : K) = dot su sv := dot_comm _ _
  set a : K := dot su su + dot r suu with ha
  set b : K := dot su sv + dot r suv with hb
  set d : K := dot sv sv + dot r svv with hd
  have hD : 0 < a * d - b * b := by nlinarith
  refine ⟨(d * (-dot r su) - b * (-dot r sv)) / (a * d - b * b),
    (a * (-dot r sv) - b * (-dot r su)) / (a * d - b * b), ?_, ?_, ?_⟩
  · rw [← mul_div_assoc, ← mul_div_assoc, ← add_div, div_eq_iff hD.ne']; ring
  · rw [← mul_div_assoc, ← mul_div_assoc, ← add_div, div_eq_iff hD.ne']; ring
  · unfold newtonPatch
    rw [S.ev, ok_bind]
    simp only [add_sub_cancel_right]
    rw [if_neg (by rintro (h | h) <;> linarith), if_neg (by linarith), S.du, ok_bind, S.dv, ok_bind,
      if_neg (by
        rintro ⟨g1, g2⟩
        rcases S.steep with h | h <;> linarith), S.duu, ok_bind, S.dvv, ok_bind, S.duv, ok_bind]
    unfold sqNorm
    rw [hc, ← ha, ← hb, ← hd, if_neg (by linarith)]
    rfl

/-- **C34** (patches, no step).  Where the determinant is not positive the refinement stops at once
and reports failure, however many iterations are left. -/
theorem C34_patch_indefinite {s : PatchFn K V} {p : V}
    {tol minU maxU minV maxV u v prevDist : K} {prev : K × K} {r su sv suu svv suv : V}
    (S : StepAt s p tol prevDist u v r su sv suu svv suv)
    (hdet : (dot su su + dot r suu) * (dot sv sv + dot r svv) ≤ (dot su sv + dot r suv : K) ^ 2)
    (n : ℕ) : newtonPatch s p tol minU maxU minV maxV (n + 1) u v prev prevDist
      = ok ((u, v), false) := by
  have h1 := S.far
  have h2 := S.moved
  have h3 := S.closer
  have hc : (dot sv su : K) = dot su sv := dot_comm _ _
  unfold newtonPatch
  rw [S.ev, ok_bind]
  simp only [add_sub_cancel_right]
  rw [if_neg (by rintro (h | h) <;> linarith), if_neg (by linarith), S.du, ok_bind, S.dv, ok_bind,
    if_neg (by
      rintro ⟨g1, g2⟩
      rcases S.steep with h | h <;> linarith), S.duu, ok_bind, S.dvv, ok_bind, S.duv, ok_bind]
  unfold sqNorm
  rw [hc, if_pos (by nlinarith)]

/-- The paraboloid `u² + v²` over the line. -/
def exBowl : PatchFn ℚ ℚ :=
  ⟨fun u v => ok (u * u + v * v), fun u _ => ok (2 * u), fun _ v => ok (2 * v), fun _ _ => ok 2,
    fun _ _ => ok 2, fun _ _ => ok 0⟩

theorem exBowl_step : StepAt exBowl (-1) (1 / 100) 100 (1 / 2) (1 / 2) (3 / 2 : ℚ) 1 1 2 2 0 := by
  constructor <;> decide +kernel

theorem exBowl_saddle : StepAt exBowl 1 (1 / 100) 100 (1 / 2) (1 / 2) (-1 / 2 : ℚ) 1 1 2 2 0 := by
  constructor <;> decide +kernel

example : newtonPatch exBowl (-1) (1 / 100) 0 1 0 1 1 (1 / 2) (1 / 2) (0, 0) 100
    = ok ((1 / 5, 1 / 5), true) := by
  obtain ⟨x, y, h1, h2, h3⟩ := C34_patch_step exBowl_step (minU := 0) (maxU := 1) (minV := 0)
    (maxV := 1) (prev := (0, 0)) (by decide +kernel)
  have g1 : (4 : ℚ) * x + 1 * y = -3 / 2 := by
    have : (4 : ℚ) = dot (1 : ℚ) (1 : ℚ) + dot (3 / 2 : ℚ) (2 : ℚ) := by decide +kernel
    rw [this]
    refine Eq.trans ?_ (h1.trans ?_)
    · congr 2; decide +kernel
    · decide +kernel
  have g2 : (1 : ℚ) * x + 4 * y = -3 / 2 := by
    have : (4 : ℚ) = dot (1 : ℚ) (1 : ℚ) + dot (3 / 2 : ℚ) (2 : ℚ) := by decide +kernel
    rw [this]
    refine Eq.trans ?_ (h2.trans ?_)
    · congr 2; decide +kernel
    · decide +kernel
  have ex : x = -3 / 10 := by linarith
  have ey : y = -3 / 10 := by linarith
  rw [h3, ex, ey]
  decide +kernel

example (n : ℕ) : newtonPatch exBowl 1 (1 / 100) 0 1 0 1 (n + 1) (1 / 2) (1 / 2) (0, 0) 100
    = ok ((1 / 2, 1 / 2), false) :=
  C34_patch_indefinite exBowl_saddle (by decide +kernel) n

end PatchBase

end NS
