import Verif.Props.Numeric
import Verif.Proof.Cross
import Mathlib.Analysis.InnerProductSpace.Calculus
import Mathlib.Analysis.Calculus.Deriv.Add

/-!
# C48: the steps of the intersection searches

Soundness of a reported intersection is in `Props/Numeric.lean`.  Here: the iteration is Newton's
method for the right function, and it finds the intersection of straight and flat data.
-/

set_option linter.unusedSectionVars false
set_option linter.unusedSimpArgs false

namespace NS

open Outcome Geom LawfulGeom

variable {K V : Type} [Field K] [LinearOrder K] [IsStrictOrderedRing K] [FloorRing K]
  [AddCommGroup V] [Module K V] [Geom K V]

/-! ## Curve and patch -/

/-- **C48** (curve and patch, step): the step taken solves `H δ = -g`. -/
theorem C48_step_solves (o : Objective K) (δ : K × K × K) (e : newtonStep o = some δ) :
    o.h.1 * δ.1 + o.h.2.1 * δ.2.1 + o.h.2.2.1 * δ.2.2 = -o.g.1 ∧
    o.h.2.1 * δ.1 + o.h.2.2.2.1 * δ.2.1 + o.h.2.2.2.2.1 * δ.2.2 = -o.g.2.1 ∧
    o.h.2.2.1 * δ.1 + o.h.2.2.2.2.1 * δ.2.1 + o.h.2.2.2.2.2 * δ.2.2 = -o.g.2.2 := by
  obtain ⟨fv, ⟨x, y, z⟩, a, b, c, d, e', f⟩ := o
  simp only [newtonStep] at e
  split_ifs at e with h
  simp only [Option.some.injEq] at e
  subst e
  simp only
  set D := a * (d * f - e' * e') + b * (c * e' - b * f) + c * (b * e' - c * d) with hD
  refine ⟨?_, ?_, ?_⟩ <;>
    rw [← mul_div_assoc, ← mul_div_assoc, ← mul_div_assoc, ← add_div, ← add_div, div_eq_iff h, hD] <;>
    ring

/-- **C48** (curve and patch, step): a step is taken exactly where the Hessian is invertible, and it is
the only solution of `H δ = -g`. -/
theorem C48_step_unique (o : Objective K) (δ : K × K × K)
    (h0 : o.h.1 * δ.1 + o.h.2.1 * δ.2.1 + o.h.2.2.1 * δ.2.2 = -o.g.1)
    (h1 : o.h.2.1 * δ.1 + o.h.2.2.2.1 * δ.2.1 + o.h.2.2.2.2.1 * δ.2.2 = -o.g.2.1)
    (h2 : o.h.2.2.1 * δ.1 + o.h.2.2.2.2.1 * δ.2.1 + o.h.2.2.2.2.2 * δ.2.2 = -o.g.2.2)
    (hdet : o.h.1 * (o.h.2.2.2.1 * o.h.2.2.2.2.2 - o.h.2.2.2.2.1 * o.h.2.2.2.2.1)
      - o.h.2.1 * (o.h.2.1 * o.h.2.2.2.2.2 - o.h.2.2.2.2.1 * o.h.2.2.1)
      + o.h.2.2.1 * (o.h.2.1 * o.h.2.2.2.2.1 - o.h.2.2.2.1 * o.h.2.2.1) ≠ 0) :
    newtonStep o = some δ := by
  obtain ⟨fv, ⟨x, y, z⟩, a, b, c, d, e', f⟩ := o
  obtain ⟨p, q, r⟩ := δ
  simp only at h0 h1 h2 hdet
  simp only [newtonStep]
  have hD : a * (d * f - e' * e') + b * (c * e' - b * f) + c * (b * e' - c * d) ≠ 0 := by
    intro h; apply hdet; rw [← h]; ring
  rw [if_neg hD]
  have hx : x = -(a * p + b * q + c * r) := by rw [h0]; ring
  have hy : y = -(b * p + d * q + e' * r) := by rw [h1]; ring
  have hz : z = -(c * p + e' * q + f * r) := by rw [h2]; ring
  subst hx hy hz
  refine congrArg some (Prod.ext ?_ (Prod.ext ?_ ?_)) <;> simp only <;>
    rw [div_eq_iff hD] <;> ring

/-- **C48** (curve and patch, objective).  For a curve and a patch that report their derivatives, the
objective is the squared distance, `g` is half its gradient and `h` is half its matrix of second
derivatives. -/
theorem C48_objective_derivatives {W : Type} [NormedAddCommGroup W] [InnerProductSpace ℝ W]
    (C C1 C2 : ℝ → W) (S Su Sv Suu Svv Suv : ℝ → ℝ → W) (c : CurveFn ℝ W) (s : PatchFn ℝ W)
    (hc : ∀ t, c.ev t = ok (C t) ∧ c.d1 t = ok (C1 t) ∧ c.d2 t = ok (C2 t))
    (hs : ∀ u v, s.ev u v = ok (S u v) ∧ s.du u v = ok (Su u v) ∧ s.dv u v = ok (Sv u v) ∧
      s.duu u v = ok (Suu u v) ∧ s.dvv u v = ok (Svv u v) ∧ s.duv u v = ok (Suv u v))
    (dC : ∀ t, HasDerivAt C (C1 t) t) (dC1 : ∀ t, HasDerivAt C1 (C2 t) t)
    (dSu : ∀ u v, HasDerivAt (fun u => S u v) (Su u v) u)
    (dSv : ∀ u v, HasDerivAt (fun v => S u v) (Sv u v) v)
    (dSuu : ∀ u v, HasDerivAt (fun u => Su u v) (Suu u v) u)
    (dSvv : ∀ u v, HasDerivAt (fun v => Sv u v) (Svv u v) v)
    (dSuv : ∀ u v, HasDerivAt (fun v => Su u v) (Suv u v) v) (t u v : ℝ) :
    ∃ F : ℝ → ℝ → ℝ → Objective ℝ, (∀ t u v, objective c s t u v = ok (F t u v)) ∧
      (∀ t u v, (F t u v).f = ‖C t - S u v‖ ^ 2) ∧
      HasDerivAt (fun t => (F t u v).f) (2 * (F t u v).g.1) t ∧
      HasDerivAt (fun u => (F t u v).f) (2 * (F t u v).g.2.1) u ∧
      HasDerivAt (fun v => (F t u v).f) (2 * (F t u v).g.2.2) v ∧
      HasDerivAt (fun t => (F t u v).g.1) (F t u v).h.1 t ∧
      HasDerivAt (fun u => (F t u v).g.1) (F t u v).h.2.1 u ∧
      HasDerivAt (fun v => (F t u v).g.1) (F t u v).h.2.2.1 v ∧
      HasDerivAt (fun u => (F t u v).g.2.1) (F t u v).h.2.2.2.1 u ∧
      HasDerivAt (fun v => (F t u v).g.2.1) (F t u v).h.2.2.2.2.1 v ∧
      HasDerivAt (fun v => (F t u v).g.2.2) (F t u v).h.2.2.2.2.2 v := by
  let F : ℝ → ℝ → ℝ → Objective ℝ := fun t u v => ⟨inner ℝ (C t - S u v) (C t - S u v),
    (inner ℝ (C1 t) (C t - S u v), -inner ℝ (Su u v) (C t - S u v),
      -inner ℝ (Sv u v) (C t - S u v)),
    (inner ℝ (C2 t) (C t - S u v) + inner ℝ (C1 t) (C1 t), -inner ℝ (C1 t) (Su u v),
      -inner ℝ (C1 t) (Sv u v), inner ℝ (Suu u v) (-(C t - S u v)) + inner ℝ (Su u v) (Su u v),
      inner ℝ (Suv u v) (-(C t - S u v)) + inner ℝ (Su u v) (Sv u v),
      inner ℝ (Svv u v) (-(C t - S u v)) + inner ℝ (Sv u v) (Sv u v))⟩
  have lt : HasDerivAt (fun t => C t - S u v) (C1 t) t := (dC t).sub_const _
  have lu : HasDerivAt (fun u => C t - S u v) (-Su u v) u := HasDerivAt.const_sub _ (dSu u v)
  have lv : HasDerivAt (fun v => C t - S u v) (-Sv u v) v := HasDerivAt.const_sub _ (dSv u v)
  refine ⟨F, ?_, ?_, ?_, ?_, ?_, ?_, ?_, ?_, ?_, ?_, ?_⟩
  · intro t u v
    obtain ⟨h1, h2, h3⟩ := hc t
    obtain ⟨g1, g2, g3, g4, g5, g6⟩ := hs u v
    simp only [objective, h1, h2, h3, g1, g2, g3, g4, g5, g6, ok_bind, pure_eq]
    rfl
  · intro t u v
    exact real_inner_self_eq_norm_sq _
  · exact (lt.inner ℝ lt).congr_deriv (by
      rw [real_inner_comm]; change _ = 2 * inner ℝ (C1 t) (C t - S u v); ring)
  · exact (lu.inner ℝ lu).congr_deriv (by
      rw [inner_neg_left, inner_neg_right, real_inner_comm]
      change _ = 2 * -inner ℝ (Su u v) (C t - S u v); ring)
  · exact (lv.inner ℝ lv).congr_deriv (by
      rw [inner_neg_left, inner_neg_right, real_inner_comm]
      change _ = 2 * -inner ℝ (Sv u v) (C t - S u v); ring)
  · exact ((dC1 t).inner ℝ lt).congr_deriv (by
      change _ = inner ℝ (C2 t) (C t - S u v) + inner ℝ (C1 t) (C1 t); ring)
  · exact ((hasDerivAt_const u (C1 t)).inner ℝ lu).congr_deriv (by
      rw [inner_neg_right, inner_zero_left, add_zero])
  · exact ((hasDerivAt_const v (C1 t)).inner ℝ lv).congr_deriv (by
      rw [inner_neg_right, inner_zero_left, add_zero])
  · exact (HasDerivAt.fun_neg ((dSuu u v).inner ℝ lu)).congr_deriv (by
      change _ = inner ℝ (Suu u v) (-(C t - S u v)) + inner ℝ (Su u v) (Su u v)
      rw [inner_neg_right, inner_neg_right]; ring)
  · exact (HasDerivAt.fun_neg ((dSuv u v).inner ℝ lv)).congr_deriv (by
      change _ = inner ℝ (Suv u v) (-(C t - S u v)) + inner ℝ (Su u v) (Sv u v)
      rw [inner_neg_right, inner_neg_right]; ring)
  · exact (HasDerivAt.fun_neg ((dSvv u v).inner ℝ lv)).congr_deriv (by
      change _ = inner ℝ (Svv u v) (-(C t - S u v)) + inner ℝ (Sv u v) (Sv u v)
      rw [inner_neg_right, inner_neg_right]; ring)

section affine

variable [LawfulGeom K V]

theorem dot_add_right' (x y z : V) : (dot x (y + z) : K) = dot x y + dot x z := by
  rw [dot_comm, dot_add, dot_comm y, dot_comm z]

theorem dot_smul_right' (a : K) (x y : V) : (dot x (a • y) : K) = a * dot x y := by
  rw [dot_comm, dot_smul, dot_comm]

/-- **C48** (curve and patch): a straight curve and a flat patch that meet transversally are found to
meet from every start, in at most two iterations: the answer is the start, if it already is within the
tolerance, and otherwise the exact intersection. -/
theorem C48_curve_patch_flat {big tol : K} (htol : 0 < tol) {c : CurveFn K V} {s : PatchFn K V}
    {o a q b w : V}
    (hc : ∀ t, c.ev t = ok (o + t • a) ∧ c.d1 t = ok a ∧ c.d2 t = ok 0)
    (hs : ∀ u v, s.ev u v = ok (q + u • b + v • w) ∧ s.du u v = ok b ∧ s.dv u v = ok w ∧
      s.duu u v = ok 0 ∧ s.dvv u v = ok 0 ∧ s.duv u v = ok 0)
    (hgram : (dot a a * (dot b b * dot w w - dot b w * dot b w)
      - dot a b * (dot a b * dot w w - dot b w * dot a w)
      + dot a w * (dot a b * dot b w - dot b b * dot a w) : K) ≠ 0)
    {t1 u1 v1 : K} (hmeet : o + t1 • a = q + u1 • b + v1 • w) (t0 u0 v0 : K)
    (hbig : sqNorm ((o + t0 • a) - (q + u0 • b + v0 • w)) ≤ big) (n : ℕ) :
    intersectPatch big c s t0 u0 v0 (n + 2) tol =
      ok (if sqNorm ((o + t0 • a) - (q + u0 • b + v0 • w)) < tol * tol then (t0, u0, v0)
        else (t1, u1, v1), true) := by
  have hl : ∀ t u v : K, (o + t • a) - (q + u • b + v • w)
      = (t - t1) • a + (-(u - u1)) • b + (-(v - v1)) • w := by
    intro t u v
    have : o = q + u1 • b + v1 • w - t1 • a := by rw [← hmeet]; abel
    rw [this]; module
  have hobj : ∀ t u v : K, ∃ ob, objective c s t u v = ok ob ∧
      ob.f = sqNorm ((o + t • a) - (q + u • b + v • w)) ∧
      newtonStep ob = some (t1 - t, u1 - u, v1 - v) := by
    intro t u v
    obtain ⟨h1, h2, h3⟩ := hc t
    obtain ⟨g1, g2, g3, g4, g5, g6⟩ := hs u v
    refine ⟨_, by simp only [objective, h1, h2, h3, g1, g2, g3, g4, g5, g6, ok_bind, pure_eq]; rfl,
      rfl, ?_⟩
    have e1 : (dot b a : K) = dot a b := dot_comm _ _
    have e2 : (dot w a : K) = dot a w := dot_comm _ _
    have e3 : (dot w b : K) = dot b w := dot_comm _ _
    apply C48_step_unique <;>
      simp only [hl, sqNorm, dot_zero_left, dot_add_right', dot_smul_right', zero_add, e1, e2, e3]
    · ring
    · ring
    · ring
    · intro h; apply hgram; rw [← h]; ring
  obtain ⟨ob, e1, e2, e3⟩ := hobj t0 u0 v0
  unfold intersectPatch intersectPatchGo
  rw [e1, ok_bind, if_neg (by rw [e2]; exact not_lt.2 hbig)]
  by_cases hin : sqNorm ((o + t0 • a) - (q + u0 • b + v0 • w)) < tol * tol
  · rw [if_pos (by rw [e2]; exact hin), if_pos hin]
  · rw [if_neg (by rw [e2]; exact hin), if_neg hin, e3]
    simp only [add_sub_cancel]
    obtain ⟨ob', e4, e5, -⟩ := hobj t1 u1 v1
    have hz : ob'.f = 0 := by
      rw [e5, hl]
      simp [sqNorm, dot_zero_left]
    unfold intersectPatchGo
    simp only
    rw [e4, ok_bind, if_neg, if_pos]
    · rw [hz]; exact mul_pos htol htol
    · rw [hz, e2]
      have := not_lt.1 hin
      exact not_lt.2 (le_trans (mul_pos htol htol).le this)

/-! ## Curve and plane -/

theorem planeErr_line (nrm : V) (d : K) (o a : V) (t : K) :
    planeErr nrm d (o + t • a) = planeErr nrm d o + t * dot nrm a := by
  simp only [planeErr, dot_add_right', dot_smul_right']; ring

theorem planeErr_newton (nrm : V) (d : K) (o a : V) (hn : (dot nrm a : K) ≠ 0) (t : K) :
    planeErr nrm d (o + (t - planeErr nrm d (o + t • a) / dot nrm a) • a) = 0 := by
  rw [planeErr_line, planeErr_line]; field_simp; ring

/-- **C48** (curve and plane): a straight curve not parallel to the plane is intersected from every
start in at most two iterations; the answer is the start, if it already is within the tolerance, and
otherwise the exact parameter of intersection. -/
theorem C48_curve_plane_line {big tol : K} (htol : 0 < tol) {c : CurveFn K V} {o a nrm : V} {d : K}
    (hc : ∀ t, c.ev t = ok (o + t • a) ∧ c.d1 t = ok a) (hn : (dot nrm a : K) ≠ 0) (t0 : K)
    (hbig : |dot nrm (o + t0 • a) + d| ≤ big) (n : ℕ) :
    ∃ t1 : K, dot nrm (o + t1 • a) + d = 0 ∧ intersectPlane big c nrm d t0 (n + 2) tol =
      ok (if |dot nrm (o + t0 • a) + d| < tol then t0 else t1, true) := by
  have h0 : planeErr nrm d (o + (t0 - planeErr nrm d (o + t0 • a) / dot nrm a) • a) = 0 := by
    exact planeErr_newton nrm d o a hn t0
  refine ⟨t0 - planeErr nrm d (o + t0 • a) / dot nrm a, h0, ?_⟩
  unfold intersectPlane intersectPlaneGo
  rw [(hc t0).1, ok_bind]
  by_cases hin : |dot nrm (o + t0 • a) + d| < tol
  · rw [if_pos (show |planeErr nrm d (o + t0 • a)| < tol from hin), if_pos hin]
  · rw [if_neg (show ¬|planeErr nrm d (o + t0 • a)| < tol from hin), if_neg hin,
      if_neg (show ¬|planeErr nrm d (o + t0 • a)| > big from not_lt.2 hbig), (hc t0).2, ok_bind]
    simp only
    rw [if_neg hn]
    unfold intersectPlaneGo
    rw [(hc _).1, ok_bind, h0, if_pos (by rw [abs_zero]; exact htol)]

/-- **C48** (segment on a patch and plane): on a flat patch, a parameter segment whose image is not
parallel to the plane is intersected from every start in at most two iterations. -/
theorem C48_segment_flat {big tol : K} (htol : 0 < tol) {hyp : K → K → K} {s : PatchFn K V}
    {q b w nrm : V} {d pu pv qu qv : K}
    (hs : ∀ u v, s.ev u v = ok (q + u • b + v • w) ∧ s.du u v = ok b ∧ s.dv u v = ok w)
    (hl : ¬(|pu - qu| < 1 / 10 ^ 12 ∧ |pv - qv| < 1 / 10 ^ 12))
    (hn : (dot nrm ((qu - pu) • b + (qv - pv) • w) : K) ≠ 0) (u0 v0 : K)
    (hbig : ∀ t : K, t = 1 - hyp (u0 - pu) (v0 - pv) / hyp (pu - qu) (pv - qv) →
      |dot nrm (q + (pu * (1 - t) + qu * t) • b + (pv * (1 - t) + qv * t) • w) + d| ≤ big) (n : ℕ) :
    ∃ t1 : K, dot nrm (q + (pu * (1 - t1) + qu * t1) • b + (pv * (1 - t1) + qv * t1) • w) + d = 0 ∧
      ∃ t : K, (t = t1 ∨
        |dot nrm (q + (pu * (1 - t) + qu * t) • b + (pv * (1 - t) + qv * t) • w) + d| < tol) ∧
      intersectSeg big hyp s pu pv qu qv nrm d u0 v0 (n + 2) tol =
        ok ((pu * (1 - t) + qu * t, pv * (1 - t) + qv * t), true) := by
  set t0 : K := 1 - hyp (u0 - pu) (v0 - pv) / hyp (pu - qu) (pv - qv) with ht0
  have hb := hbig t0 rfl
  have hline : ∀ t : K, q + (pu * (1 - t) + qu * t) • b + (pv * (1 - t) + qv * t) • w
      = (q + pu • b + pv • w) + t • ((qu - pu) • b + (qv - pv) • w) := by
    intro t; module
  have h0 : planeErr nrm d (q + (pu * (1 - (t0 - planeErr nrm d (q + (pu * (1 - t0) + qu * t0) • b
      + (pv * (1 - t0) + qv * t0) • w) / dot nrm ((qu - pu) • b + (qv - pv) • w)))
      + qu * (t0 - planeErr nrm d (q + (pu * (1 - t0) + qu * t0) • b
      + (pv * (1 - t0) + qv * t0) • w) / dot nrm ((qu - pu) • b + (qv - pv) • w))) • b
      + (pv * (1 - (t0 - planeErr nrm d (q + (pu * (1 - t0) + qu * t0) • b
      + (pv * (1 - t0) + qv * t0) • w) / dot nrm ((qu - pu) • b + (qv - pv) • w)))
      + qv * (t0 - planeErr nrm d (q + (pu * (1 - t0) + qu * t0) • b
      + (pv * (1 - t0) + qv * t0) • w) / dot nrm ((qu - pu) • b + (qv - pv) • w))) • w) = 0 := by
    rw [hline t0, hline]
    exact planeErr_newton nrm d _ _ hn t0
  refine ⟨_, h0, ?_⟩
  unfold intersectSeg
  rw [if_neg hl]
  simp only
  rw [← ht0]
  unfold intersectSegGo
  simp only
  rw [(hs _ _).1, ok_bind]
  by_cases hin : |dot nrm (q + (pu * (1 - t0) + qu * t0) • b + (pv * (1 - t0) + qv * t0) • w) + d|
      < tol
  · exact ⟨t0, Or.inr hin, if_pos hin⟩
  · refine ⟨_, Or.inl rfl, ?_⟩
    rw [if_neg (show ¬|planeErr nrm d _| < tol from hin),
      if_neg (show ¬|planeErr nrm d _| > big from not_lt.2 hb), (hs _ _).2.1, ok_bind,
      (hs _ _).2.2, ok_bind, if_neg hn]
    unfold intersectSegGo
    simp only
    rw [(hs _ _).1, ok_bind, h0, if_pos (by rw [abs_zero]; exact htol)]

end affine

/-! ## What is returned without convergence -/

/-- `r` is reached from `x0` by at most `N` steps; unless all `N` steps were taken (`last`), its error is
not larger than at any parameter on the way. -/
def Descends {X : Type} (step : X → X → Prop) (E : X → K → Prop) (last : Prop) (N : ℕ) (x0 r : X) :
    Prop :=
  ∃ k ≤ N, ∃ xs : ℕ → X, xs 0 = x0 ∧ (∀ i < k, step (xs i) (xs (i + 1))) ∧ xs k = r ∧
    ((k = N ∧ last) ∨ ∃ e, E r e ∧ ∀ j ≤ k, ∃ e', E (xs j) e' ∧ e ≤ e')

/-- One Newton step for the plane equation along a curve. -/
def PlaneStep (c : CurveFn K V) (nrm : V) (d t t' : K) : Prop :=
  ∃ x v, c.ev t = ok x ∧ c.d1 t = ok v ∧ (dot nrm v : K) ≠ 0 ∧ t' = t - (dot nrm x + d) / dot nrm v

/-- The distance to the plane, up to the length of the normal. -/
def PlaneDist (c : CurveFn K V) (nrm : V) (d t e : K) : Prop :=
  ∃ x, c.ev t = ok x ∧ e = |dot nrm x + d|

theorem intersectPlaneGo_false {c : CurveFn K V} {nrm : V} {d tol : K} :
    ∀ {n : ℕ} {t prevT prevErr r : K},
      intersectPlaneGo c nrm d tol n t prevT prevErr = ok (r, false) →
      (r = prevT ∧ ∃ e, PlaneDist c nrm d t e) ∨
      ∃ k ≤ n, ∃ xs : ℕ → K, xs 0 = t ∧ (∀ i < k, PlaneStep c nrm d (xs i) (xs (i + 1))) ∧ xs k = r ∧
        (k = n ∨ ∃ e, PlaneDist c nrm d r e ∧ e ≤ prevErr ∧
          ∀ j ≤ k, ∃ e', PlaneDist c nrm d (xs j) e' ∧ e ≤ e') := by
  intro n
  induction n with
  | zero =>
    intro t prevT prevErr r e
    unfold intersectPlaneGo at e
    rw [ok.injEq, Prod.mk.injEq] at e
    exact Or.inr ⟨0, le_rfl, fun _ => t, rfl, by omega, e.1, Or.inl rfl⟩
  | succ n ih =>
    intro t prevT prevErr r e
    unfold intersectPlaneGo at e
    obtain ⟨x, hx, e⟩ := bind_eq_ok.1 e
    dsimp only at e
    have hE : PlaneDist c nrm d t |planeErr nrm d x| := ⟨x, hx, rfl⟩
    split_ifs at e with h1 h2
    · rw [ok.injEq, Prod.mk.injEq] at e
      simp at e
    · rw [ok.injEq, Prod.mk.injEq] at e
      exact Or.inl ⟨e.1.symm, _, hE⟩
    · push Not at h2
      obtain ⟨v, hv, e⟩ := bind_eq_ok.1 e
      have stop : r = t → ∃ k ≤ n + 1, ∃ xs : ℕ → K, xs 0 = t ∧
          (∀ i < k, PlaneStep c nrm d (xs i) (xs (i + 1))) ∧ xs k = r ∧
          (k = n + 1 ∨ ∃ e, PlaneDist c nrm d r e ∧ e ≤ prevErr ∧
            ∀ j ≤ k, ∃ e', PlaneDist c nrm d (xs j) e' ∧ e ≤ e') := fun hr =>
        ⟨0, by omega, fun _ => t, rfl, by omega, hr.symm, Or.inr ⟨_, hr ▸ hE, h2,
          fun j _ => ⟨_, hE, le_rfl⟩⟩⟩
      split_ifs at e with h3
      · rw [ok.injEq, Prod.mk.injEq] at e
        exact Or.inr (stop e.1.symm)
      · rcases ih e with ⟨h, -⟩ | ⟨k, hk, xs, g1, g2, g3, g4⟩
        · exact Or.inr (stop h)
        · refine Or.inr ⟨k + 1, by omega, fun i => if i = 0 then t else xs (i - 1), by simp, ?_,
            by simpa using g3, ?_⟩
          · intro i hi
            rcases Nat.eq_zero_or_pos i with rfl | h
            · exact ⟨x, v, hx, hv, h3, by simpa [planeErr] using g1⟩
            · have := g2 (i - 1) (by omega)
              rw [Nat.sub_add_cancel h] at this
              simpa [h.ne'] using this
          · rcases g4 with g4 | ⟨e, q1, q2, q3⟩
            · exact Or.inl (by omega)
            · refine Or.inr ⟨e, q1, q2.trans h2, fun j hj => ?_⟩
              rcases Nat.eq_zero_or_pos j with rfl | h
              · exact ⟨_, by simpa using hE, q2⟩
              · simpa [h.ne'] using q3 (j - 1) (by omega)

/-- **C48** (curve and plane, no convergence): what is returned is a Newton iterate of the start, and
unless the iterations are used up it is at least as close to the plane as every iterate on the way,
the start included. -/
theorem C48_curve_plane_descends (big : K) (c : CurveFn K V) (nrm : V) (d t0 tol : K) (iters : ℕ)
    (r : K) (e : intersectPlane big c nrm d t0 iters tol = ok (r, false)) :
    Descends (PlaneStep c nrm d) (PlaneDist c nrm d) True iters t0 r := by
  unfold intersectPlane at e
  rcases intersectPlaneGo_false e with ⟨h, q, hq⟩ | ⟨k, hk, xs, g1, g2, g3, g4⟩
  · exact ⟨0, by omega, fun _ => t0, rfl, by omega, h.symm, Or.inr ⟨q, h ▸ hq,
      fun j _ => ⟨q, hq, le_rfl⟩⟩⟩
  · exact ⟨k, hk, xs, g1, g2, g3, g4.imp (fun h => ⟨h, trivial⟩) fun ⟨e, q1, _, q3⟩ => ⟨e, q1, q3⟩⟩

/-- **C48** (curve and plane): the last iterate can be farther away than the start. -/
theorem C48_curve_plane_farther_refuted :
    intersectPlane (10 ^ 300) (CurveFn.mk (fun t => ok (t * t + t / 100)) (fun t => ok (2 * t + 1 / 100))
      (fun _ => ok 2) : CurveFn ℚ ℚ) (1 : ℚ) (-1) 0 1 (1 / 10 ^ 2) = ok (100, false) ∧
    |(dot (1 : ℚ) (0 * 0 + 0 / 100 : ℚ) : ℚ) + -1| = 1 ∧
    |(dot (1 : ℚ) (100 * 100 + 100 / 100 : ℚ) : ℚ) + -1| = 10000 := by
  refine ⟨?_, ?_, ?_⟩ <;> decide +kernel

/-- One Newton step for the squared distance of a curve and a patch. -/
def PatchStep (c : CurveFn K V) (s : PatchFn K V) (x x' : K × K × K) : Prop :=
  ∃ o δ, objective c s x.1 x.2.1 x.2.2 = ok o ∧ newtonStep o = some δ ∧
    x' = (x.1 + δ.1, x.2.1 + δ.2.1, x.2.2 + δ.2.2)

/-- The squared distance of the two points. -/
def PatchDist (c : CurveFn K V) (s : PatchFn K V) (x : K × K × K) (e : K) : Prop :=
  ∃ a b, c.ev x.1 = ok a ∧ s.ev x.2.1 x.2.2 = ok b ∧ e = sqNorm (a - b)

theorem intersectPatchGo_false {c : CurveFn K V} {s : PatchFn K V} {tol : K} :
    ∀ {n : ℕ} {x prev : K × K × K} {prevF : K} {r : K × K × K},
      intersectPatchGo c s tol n x prev prevF = ok (r, false) →
      (r = prev ∧ ∃ e, PatchDist c s x e) ∨
      ∃ k ≤ n, ∃ xs : ℕ → K × K × K, xs 0 = x ∧ (∀ i < k, PatchStep c s (xs i) (xs (i + 1))) ∧
        xs k = r ∧ (k = n ∨ ∃ e, PatchDist c s r e ∧ e ≤ prevF ∧
          ∀ j ≤ k, ∃ e', PatchDist c s (xs j) e' ∧ e ≤ e') := by
  intro n
  induction n with
  | zero =>
    intro x prev prevF r e
    unfold intersectPatchGo at e
    rw [ok.injEq, Prod.mk.injEq] at e
    exact Or.inr ⟨0, le_rfl, fun _ => x, rfl, by omega, e.1, Or.inl rfl⟩
  | succ n ih =>
    intro x prev prevF r e
    unfold intersectPatchGo at e
    obtain ⟨o, ho, e⟩ := bind_eq_ok.1 e
    obtain ⟨a, b, ha, hb, hf⟩ := objective_f ho
    have hE : PatchDist c s x o.f := ⟨a, b, ha, hb, hf⟩
    split_ifs at e with h1 h2
    · rw [ok.injEq, Prod.mk.injEq] at e
      exact Or.inl ⟨e.1.symm, _, hE⟩
    · rw [ok.injEq, Prod.mk.injEq] at e
      simp at e
    · push Not at h1
      have stop : r = x → ∃ k ≤ n + 1, ∃ xs : ℕ → K × K × K, xs 0 = x ∧
          (∀ i < k, PatchStep c s (xs i) (xs (i + 1))) ∧ xs k = r ∧
          (k = n + 1 ∨ ∃ e, PatchDist c s r e ∧ e ≤ prevF ∧
            ∀ j ≤ k, ∃ e', PatchDist c s (xs j) e' ∧ e ≤ e') := fun hr =>
        ⟨0, by omega, fun _ => x, rfl, by omega, hr.symm, Or.inr ⟨_, hr ▸ hE, h1,
          fun j _ => ⟨_, hE, le_rfl⟩⟩⟩
      cases hs : newtonStep o with
      | none =>
        rw [hs] at e
        simp only at e
        rw [ok.injEq, Prod.mk.injEq] at e
        exact Or.inr (stop e.1.symm)
      | some δ =>
        rw [hs] at e
        simp only at e
        rcases ih e with ⟨h, -⟩ | ⟨k, hk, xs, g1, g2, g3, g4⟩
        · exact Or.inr (stop h)
        · refine Or.inr ⟨k + 1, by omega, fun i => if i = 0 then x else xs (i - 1), by simp, ?_,
            by simpa using g3, ?_⟩
          · intro i hi
            rcases Nat.eq_zero_or_pos i with rfl | h
            · exact ⟨o, δ, by simpa using ho, hs, by simpa using g1⟩
            · have := g2 (i - 1) (by omega)
              rw [Nat.sub_add_cancel h] at this
              simpa [h.ne'] using this
          · rcases g4 with g4 | ⟨e, q1, q2, q3⟩
            · exact Or.inl (by omega)
            · refine Or.inr ⟨e, q1, q2.trans h1, fun j hj => ?_⟩
              rcases Nat.eq_zero_or_pos j with rfl | h
              · exact ⟨_, by simpa using hE, q2⟩
              · simpa [h.ne'] using q3 (j - 1) (by omega)

/-- **C48** (curve and patch, no convergence): what is returned is a Newton iterate of the start, and
unless the iterations are used up its two points are at least as close as at every iterate on the
way. -/
theorem C48_curve_patch_descends (big : K) (c : CurveFn K V) (s : PatchFn K V) (t0 u0 v0 tol : K)
    (iters : ℕ) (r : K × K × K) (e : intersectPatch big c s t0 u0 v0 iters tol = ok (r, false)) :
    Descends (PatchStep c s) (PatchDist c s) True iters (t0, u0, v0) r := by
  unfold intersectPatch at e
  rcases intersectPatchGo_false e with ⟨h, q, hq⟩ | ⟨k, hk, xs, g1, g2, g3, g4⟩
  · exact ⟨0, by omega, fun _ => (t0, u0, v0), rfl, by omega, h.symm, Or.inr ⟨q, h ▸ hq,
      fun j _ => ⟨q, hq, le_rfl⟩⟩⟩
  · exact ⟨k, hk, xs, g1, g2, g3, g4.imp (fun h => ⟨h, trivial⟩) fun ⟨e, q1, _, q3⟩ => ⟨e, q1, q3⟩⟩

/-- One Newton step for the plane equation along a parameter segment of a patch. -/
def SegStep (s : PatchFn K V) (pu pv qu qv : K) (nrm : V) (d t t' : K) : Prop :=
  ∃ x a b, s.ev (pu * (1 - t) + qu * t) (pv * (1 - t) + qv * t) = ok x ∧
    s.du (pu * (1 - t) + qu * t) (pv * (1 - t) + qv * t) = ok a ∧
    s.dv (pu * (1 - t) + qu * t) (pv * (1 - t) + qv * t) = ok b ∧
    (dot nrm ((qu - pu) • a + (qv - pv) • b) : K) ≠ 0 ∧
    t' = t - (dot nrm x + d) / dot nrm ((qu - pu) • a + (qv - pv) • b)

/-- The distance of a point of the segment to the plane, up to the length of the normal. -/
def SegDist (s : PatchFn K V) (pu pv qu qv : K) (nrm : V) (d t e : K) : Prop :=
  ∃ x, s.ev (pu * (1 - t) + qu * t) (pv * (1 - t) + qv * t) = ok x ∧ e = |dot nrm x + d|

theorem intersectSegGo_false {s : PatchFn K V} {pu pv qu qv : K} {nrm : V} {d tol : K} :
    ∀ {n : ℕ} {uv : K × K} {t prevT prevErr : K} {r : K × K},
      intersectSegGo s pu pv qu qv nrm d tol n uv t prevT prevErr = ok (r, false) →
      (n = 0 ∧ r = uv) ∨
      (r = (pu * (1 - prevT) + qu * prevT, pv * (1 - prevT) + qv * prevT) ∧
        ∃ e, SegDist s pu pv qu qv nrm d t e) ∨
      ∃ k < n, ∃ xs : ℕ → K, xs 0 = t ∧ (∀ i < k, SegStep s pu pv qu qv nrm d (xs i) (xs (i + 1))) ∧
        r = (pu * (1 - xs k) + qu * xs k, pv * (1 - xs k) + qv * xs k) ∧
        ∃ e, SegDist s pu pv qu qv nrm d (xs k) e ∧ e ≤ prevErr ∧
          ∀ j ≤ k, ∃ e', SegDist s pu pv qu qv nrm d (xs j) e' ∧ e ≤ e' := by
  intro n
  induction n with
  | zero =>
    intro uv t prevT prevErr r e
    unfold intersectSegGo at e
    rw [ok.injEq, Prod.mk.injEq] at e
    exact Or.inl ⟨rfl, e.1.symm⟩
  | succ n ih =>
    intro uv t prevT prevErr r e
    unfold intersectSegGo at e
    dsimp only at e
    obtain ⟨x, hx, e⟩ := bind_eq_ok.1 e
    have hE : SegDist s pu pv qu qv nrm d t |planeErr nrm d x| := ⟨x, hx, rfl⟩
    split_ifs at e with h1 h2
    · rw [ok.injEq, Prod.mk.injEq] at e
      simp at e
    · rw [ok.injEq, Prod.mk.injEq] at e
      exact Or.inr (Or.inl ⟨e.1.symm, _, hE⟩)
    · push Not at h2
      obtain ⟨a, ha, e⟩ := bind_eq_ok.1 e
      obtain ⟨b, hb, e⟩ := bind_eq_ok.1 e
      have stop : r = (pu * (1 - t) + qu * t, pv * (1 - t) + qv * t) →
          ∃ k < n + 1, ∃ xs : ℕ → K, xs 0 = t ∧
          (∀ i < k, SegStep s pu pv qu qv nrm d (xs i) (xs (i + 1))) ∧
          r = (pu * (1 - xs k) + qu * xs k, pv * (1 - xs k) + qv * xs k) ∧
          ∃ e, SegDist s pu pv qu qv nrm d (xs k) e ∧ e ≤ prevErr ∧
            ∀ j ≤ k, ∃ e', SegDist s pu pv qu qv nrm d (xs j) e' ∧ e ≤ e' := fun hr =>
        ⟨0, by omega, fun _ => t, rfl, by omega, hr, _, hE, h2, fun j _ => ⟨_, hE, le_rfl⟩⟩
      split_ifs at e with h3
      · rw [ok.injEq, Prod.mk.injEq] at e
        exact Or.inr (Or.inr (stop e.1.symm))
      · rcases ih e with ⟨-, h⟩ | ⟨h, -⟩ | ⟨k, hk, xs, g1, g2, g3, e', q1, q2, q3⟩
        · exact Or.inr (Or.inr (stop h))
        · exact Or.inr (Or.inr (stop h))
        · refine Or.inr (Or.inr ⟨k + 1, by omega, fun i => if i = 0 then t else xs (i - 1), by simp,
            ?_, by simpa using g3, e', by simpa using q1, q2.trans h2, fun j hj => ?_⟩)
          · intro i hi
            rcases Nat.eq_zero_or_pos i with rfl | h
            · exact ⟨x, a, b, by simpa using hx, by simpa using ha, by simpa using hb, h3,
                by simpa [planeErr] using g1⟩
            · have := g2 (i - 1) (by omega)
              rw [Nat.sub_add_cancel h] at this
              simpa [h.ne'] using this
          · rcases Nat.eq_zero_or_pos j with rfl | h
            · exact ⟨_, by simpa using hE, q2⟩
            · simpa [h.ne'] using q3 (j - 1) (by omega)

/-- **C48** (segment on a patch and plane, no convergence): what is returned is a point of the line
through the two parameter points, and at least as close to the plane as every iterate on the way. -/
theorem C48_segment_descends (big : K) (hyp : K → K → K) (s : PatchFn K V) (pu pv qu qv : K) (nrm : V)
    (d u0 v0 : K) (iters : ℕ) (tol : K) (r : K × K) (hi : 0 < iters)
    (hl : ¬(|pu - qu| < 1 / 10 ^ 12 ∧ |pv - qv| < 1 / 10 ^ 12))
    (e : intersectSeg big hyp s pu pv qu qv nrm d u0 v0 iters tol = ok (r, false)) :
    ∃ t, r = (pu * (1 - t) + qu * t, pv * (1 - t) + qv * t) ∧
      Descends (SegStep s pu pv qu qv nrm d) (SegDist s pu pv qu qv nrm d) False iters
        (1 - hyp (u0 - pu) (v0 - pv) / hyp (pu - qu) (pv - qv)) t := by
  unfold intersectSeg at e
  rw [if_neg hl] at e
  rcases intersectSegGo_false e with ⟨h, -⟩ | ⟨h, q, hq⟩ | ⟨k, hk, xs, g1, g2, g3, e', q1, q2, q3⟩
  · omega
  · exact ⟨_, h, 0, by omega, fun _ => _, rfl, by omega, rfl, Or.inr ⟨q, hq,
      fun j _ => ⟨q, hq, le_rfl⟩⟩⟩
  · exact ⟨_, g3, k, by omega, xs, g1, g2, rfl, Or.inr ⟨e', q1, q3⟩⟩

/-- **C48**: a search that may take no step returns its start and reports that nothing was found, whether or
not the start is an intersection; a segment of negligible length is the exception. -/
theorem C48_no_steps (big : K) (hyp : K → K → K) (c : CurveFn K V) (s : PatchFn K V) (pu pv qu qv : K)
    (nrm : V) (d t0 u0 v0 tol : K) :
    intersectPlane big c nrm d t0 0 tol = ok (t0, false) ∧
    intersectPatch big c s t0 u0 v0 0 tol = ok ((t0, u0, v0), false) ∧
    (¬(|pu - qu| < 1 / 10 ^ 12 ∧ |pv - qv| < 1 / 10 ^ 12) →
      intersectSeg big hyp s pu pv qu qv nrm d u0 v0 0 tol = ok ((u0, v0), false)) := by
  refine ⟨rfl, rfl, fun h => ?_⟩
  unfold intersectSeg
  rw [if_neg h]
  rfl

/-! ## Cases -/

/-- A segment search that gives up on `u² + 1`. -/
example : ∃ t : ℚ, ((1 / 2, 0) : ℚ × ℚ) = (0 * (1 - t) + 1 * t, 0 * (1 - t) + 0 * t) ∧ Descends
    (SegStep (⟨fun u _ => ok (u * u + 1), fun u _ => ok (2 * u), fun _ _ => ok 0, fun _ _ => ok 2,
      fun _ _ => ok 0, fun _ _ => ok 0⟩ : PatchFn ℚ ℚ) 0 0 1 0 (1 : ℚ) 0)
    (SegDist (⟨fun u _ => ok (u * u + 1), fun u _ => ok (2 * u), fun _ _ => ok 0, fun _ _ => ok 2,
      fun _ _ => ok 0, fun _ _ => ok 0⟩ : PatchFn ℚ ℚ) 0 0 1 0 (1 : ℚ) 0) False 10
    (1 - (fun x y => |x| + |y|) (1 / 2 - 0) (0 - 0) / (fun x y => |x| + |y|) (0 - 1) (0 - 0)) t :=
  C48_segment_descends (10 ^ 300) (fun x y => |x| + |y|) _ 0 0 1 0 1 0 (1 / 2) 0 10 (1 / 100)
    (1 / 2, 0) (by norm_num) (by decide +kernel) (by decide +kernel)

/-- A search that gives up: `t² + 1` has no zero, and from `1/2` the next iterate is farther away. -/
example : Descends (PlaneStep (CurveFn.mk (fun t => ok (t * t + 1)) (fun t => ok (2 * t))
      (fun _ => ok 2) : CurveFn ℚ ℚ) (1 : ℚ) 0)
    (PlaneDist (CurveFn.mk (fun t => ok (t * t + 1)) (fun t => ok (2 * t))
      (fun _ => ok 2) : CurveFn ℚ ℚ) (1 : ℚ) 0) True 10 (1 / 2) (1 / 2) :=
  C48_curve_plane_descends (10 ^ 300) _ _ _ _ (1 / 100) _ _ (by decide +kernel)

/-- Two lines of the plane as a curve and a (degenerate) flat patch over the line. -/
example : intersectPlane (10 ^ 300) (CurveFn.mk (fun t => ok (1 + t * 2)) (fun _ => ok 2)
    (fun _ => ok 0) : CurveFn ℚ ℚ) (1 : ℚ) (-4) 3 2 (1 / 10 ^ 2) = ok (3 / 2, true) := by
  obtain ⟨t1, h1, h2⟩ := C48_curve_plane_line (big := (10 ^ 300 : ℚ)) (tol := 1 / 10 ^ 2)
    (by norm_num) (c := CurveFn.mk (fun t => ok (1 + t * 2)) (fun _ => ok 2) (fun _ => ok 0))
    (o := (1 : ℚ)) (a := 2) (nrm := 1) (d := -4) (fun t => ⟨rfl, rfl⟩) (by decide +kernel) 3
    (by decide +kernel) 0
  have : t1 = 3 / 2 := by
    have h : (1 : ℚ) * (1 + t1 * 2) + -4 = 0 := h1
    linarith
  rw [h2, this]
  decide +kernel

/-- The `z` axis and the plane `z = u + v - 1` over the unit square meet at `z = -1`. -/
example : ∃ (c : CurveFn ℝ (EuclideanSpace ℝ (Fin 3))) (s : PatchFn ℝ (EuclideanSpace ℝ (Fin 3))),
    c.ev 2 = ok !₂[0, 0, 2] ∧ s.ev 1 1 = ok !₂[1, 1, 1] ∧
      intersectPatch 100 c s 2 1 1 2 (1 / 10) = ok ((-1, 0, 0), true) := by
  let o : EuclideanSpace ℝ (Fin 3) := !₂[0, 0, 0]
  let a : EuclideanSpace ℝ (Fin 3) := !₂[0, 0, 1]
  let q : EuclideanSpace ℝ (Fin 3) := !₂[0, 0, -1]
  let b : EuclideanSpace ℝ (Fin 3) := !₂[1, 0, 1]
  let w : EuclideanSpace ℝ (Fin 3) := !₂[0, 1, 1]
  refine ⟨⟨fun t => ok (o + t • a), fun _ => ok a, fun _ => ok 0⟩,
    ⟨fun u v => ok (q + u • b + v • w), fun _ _ => ok b, fun _ _ => ok w, fun _ _ => ok 0,
      fun _ _ => ok 0, fun _ _ => ok 0⟩, ?_, ?_, ?_⟩
  · refine congrArg ok ?_
    ext i; fin_cases i <;> simp [o, a]
  · refine congrArg ok ?_
    ext i; fin_cases i <;> simp [q, b, w]
  · have hd : ((o + (2 : ℝ) • a) - (q + (1 : ℝ) • b + (1 : ℝ) • w)) = !₂[-1, -1, 1] := by
      ext i; fin_cases i <;> simp [o, a, q, b, w]; norm_num
    have hsq : (sqNorm (!₂[-1, -1, 1] : EuclideanSpace ℝ (Fin 3)) : ℝ) = 3 := by
      unfold sqNorm
      rw [dot_e3]
      simp; norm_num
    have h := C48_curve_patch_flat (big := (100 : ℝ)) (tol := 1 / 10) (by norm_num)
      (c := ⟨fun t => ok (o + t • a), fun _ => ok a, fun _ => ok 0⟩)
      (s := ⟨fun u v => ok (q + u • b + v • w), fun _ _ => ok b, fun _ _ => ok w, fun _ _ => ok 0,
        fun _ _ => ok 0, fun _ _ => ok 0⟩) (o := o) (a := a) (q := q) (b := b) (w := w)
      (fun t => ⟨rfl, rfl, rfl⟩) (fun u v => ⟨rfl, rfl, rfl, rfl, rfl, rfl⟩)
      (by
        rw [dot_e3, dot_e3, dot_e3, dot_e3, dot_e3, dot_e3]
        simp [o, a, q, b, w]; norm_num)
      (t1 := -1) (u1 := 0) (v1 := 0)
      (by ext i; fin_cases i <;> simp [o, a, q, b, w]) 2 1 1
      (by rw [hd, hsq]; norm_num) 0
    rw [h, hd, hsq, if_neg (by norm_num)]

end NS
