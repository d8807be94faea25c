import Verif.Props.ControlSearchAffine
import Verif.Proof.BezierEval

/-!
# C76: where the searches guided by control points fail
-/

set_option linter.unusedSectionVars false
set_option linter.unusedSimpArgs false

namespace NS.Props

open Outcome Spec ControlSearch BezierPatch

/-- The outcome is a value with the property. -/
def holds {α : Type} (x : Outcome α) (P : α → Bool) : Bool :=
  match x with
  | ok a => P a
  | _ => false

theorem of_holds {α : Type} {x : Outcome α} {P : α → Bool} (h : holds x P = true) :
    ∃ a, x = ok a ∧ P a = true := by
  cases x with
  | ok a => exact ⟨a, rfl, h⟩
  | throw e => cases h
  | ub => cases h

section generic

variable {K α : Type} [Field K] [LinearOrder K] [IsStrictOrderedRing K] [FloorRing K]

/-- The first `k` rounds: what is searched next, its box, and the range of the parameters of `s`
that the parameters of what is searched next are taken for. -/
def firstRounds (o : Ops K α) : ℕ → α → Box K → Outcome (α × Box K × Box K)
  | 0, s, b => ok (s, b, unitBox)
  | k + 1, s, b => do
    let f ← fallback o 3 s
    match f with
    | some _ => ub
    | none => do
      let t ← trim o s b
      let r ← o.subpatch s t
      let c ← o.closest r
      let d ← neighbours o s r c.1 c.2
      let x ← firstRounds o k r (nextBox unitBox d)
      pure (x.1, x.2.1, ⟨(t.maxU - t.minU) * x.2.2.minU + t.minU,
        (t.maxU - t.minU) * x.2.2.maxU + t.minU, (t.maxV - t.minV) * x.2.2.minV + t.minV,
        (t.maxV - t.minV) * x.2.2.maxV + t.minV⟩)

theorem unitSearch_rounds {o : Ops K α} : ∀ (k level : ℕ) {s : α} {b : Box K}
    {x : α × Box K × Box K} {r : K × K}, firstRounds o k s b = ok x →
    unitSearch o (level + k) s b = ok r →
    ∃ y, unitSearch o level x.1 x.2.1 = ok y ∧ r = remap x.2.2 y := by
  intro k
  induction k with
  | zero =>
    intro level s b x r hx hr
    rw [firstRounds, ok.injEq] at hx
    subst hx
    refine ⟨r, hr, ?_⟩
    simp [remap, unitBox]
  | succ k ih =>
    intro level s b x r hx hr
    rw [firstRounds, bind_eq_ok] at hx
    obtain ⟨f, hf, hx⟩ := hx
    cases f with
    | some _ => simp at hx
    | none =>
      simp only [bind_eq_ok, pure_eq, ok.injEq] at hx
      obtain ⟨t, h1, q, h2, c, h3, d, h4, z, h5, rfl⟩ := hx
      rw [← add_assoc, unitSearch, hf, ok_bind] at hr
      simp only at hr
      rw [h1, ok_bind, h2, ok_bind, h3, ok_bind, h4, ok_bind] at hr
      simp only [bind_eq_ok, pure_eq, ok.injEq] at hr
      obtain ⟨y, hy, rfl⟩ := hr
      obtain ⟨w, hw, rfl⟩ := ih level h5 hy
      refine ⟨w, hw, ?_⟩
      simp only [remap]
      ext <;> simp only <;> ring

end generic

/-! ### Bézier patches -/

/-- The value is the first parameter: degree 4 with equally spaced control points. -/
def quartic : BezierPatch ℚ :=
  ⟨[0, 0, 0, 0, 0, 1 / 4, 1 / 4, 1 / 4, 1 / 4, 1 / 4, 1 / 2, 1 / 2, 1 / 2, 1 / 2, 1 / 2,
    3 / 4, 3 / 4, 3 / 4, 3 / 4, 3 / 4, 1, 1, 1, 1, 1], 4, 4, false, false, 4, 4⟩

theorem quartic_evaluate (u v : ℚ) : quartic.evaluate u v = ok u := by
  have h : quartic.init = ok () := by decide +kernel
  have := affine_evaluate (wf_of_init h) rfl rfl (m := 4) (n := 4) (by omega) (by omega) (o := 0)
    (e₁ := 1) (e₂ := 0) (by
      intro i hi j hj
      interval_cases i <;> interval_cases j <;> decide +kernel) u v
  simpa using this

/-- C76 fails for degree 4: `subpatch` of a range inside the domain covers more than the range
(`C30_subpatch_refuted`), the search takes it for the range, and the guess stays away from the query
at every level although the patch is as regular as can be and passes through the query. -/
theorem C76_interior_refuted :
    ∃ p : BezierPatch ℚ, p.init = ok () ∧ Static p ∧ p.degU = 4 ∧ p.degV = 4 ∧
      (∀ u v, p.evaluate u v = ok u) ∧
      ∀ level, ∃ r, p.approxInverse (0 : ℚ) 1000 0 (3 / 5) 5 5 (level + 6) ⟨0, 1, 0, 1⟩ = ok r ∧
        r.1 ≤ 3 / 5 - 1 / 20 := by
  refine ⟨quartic, by decide +kernel, ⟨rfl, rfl⟩, rfl, rfl, quartic_evaluate, fun level => ?_⟩
  obtain ⟨r, hr, -⟩ := C76_bezier_total (eps := (0 : ℚ)) (big := 1000) (tol := 0) le_rfl (p := quartic)
    (by decide +kernel) ⟨rfl, rfl⟩ rfl rfl (by decide) (by decide) (3 / 5) 5 5 (level + 6)
    (b := ⟨0, 1, 0, 1⟩) (by norm_num) (by norm_num) (by norm_num)
  refine ⟨r, hr, ?_⟩
  have F : ∃ x, firstRounds (BezierPatch.ops (0 : ℚ) 1000 0 (3 / 5 : ℚ) 5 5) 6 quartic ⟨0, 1, 0, 1⟩
      = ok x ∧ x.2.1.minU ≤ x.2.1.maxU ∧ x.2.1.minV ≤ x.2.1.maxV ∧ x.2.2.minU ≤ x.2.2.maxU ∧
        (x.2.2.maxU - x.2.2.minU) * x.2.1.maxU + x.2.2.minU ≤ 3 / 5 - 1 / 20 := by
    obtain ⟨x, hx, hP⟩ := of_holds (x := firstRounds (BezierPatch.ops (0 : ℚ) 1000 0 (3 / 5 : ℚ) 5 5)
      6 quartic ⟨0, 1, 0, 1⟩) (P := fun x => decide (x.2.1.minU ≤ x.2.1.maxU ∧
        x.2.1.minV ≤ x.2.1.maxV ∧ x.2.2.minU ≤ x.2.2.maxU ∧
        (x.2.2.maxU - x.2.2.minU) * x.2.1.maxU + x.2.2.minU ≤ 3 / 5 - 1 / 20)) (by decide +kernel)
    exact ⟨x, hx, of_decide_eq_true hP⟩
  obtain ⟨x, hx, o1, o2, o3, hb⟩ := F
  obtain ⟨y, hy, rfl⟩ := unitSearch_rounds 6 level hx hr
  have := (C76_bezier_in_box (p := x.1) ⟨o1, o2⟩ hy).1.2
  refine le_trans ?_ hb
  simp only [remap]
  have h0 : 0 ≤ x.2.2.maxU - x.2.2.minU := sub_nonneg.2 o3
  nlinarith [mul_le_mul_of_nonneg_left this h0]

/-- Two control points are at 1, an inner one and the one of the last corner. -/
def twoPeaks : BezierPatch ℚ :=
  ⟨[0, 0, 0, 0, 0, 1, 0, 0, 0, 0, 0, 0, 0, 0, 0, 1], 3, 3, false, false, 3, 3⟩

theorem twoPeaks_evaluate (u v : ℚ) : twoPeaks.evaluate u v
    = ok (3 * (1 - u) ^ 2 * u * (3 * (1 - v) ^ 2 * v) + u ^ 3 * v ^ 3) := by
  have h : twoPeaks.init = ok () := by decide +kernel
  have hw : twoPeaks.WellFormed 3 3 := wf_of_init h
  have hf : flat twoPeaks = twoPeaks := rfl
  rw [← hf, flat_evaluate hw, part_zero, umb_lin_pow]
  congr 1
  have hp : ∀ i ≤ 3, ∀ j ≤ 3, twoPeaks.pts 3 i j
      = if (i = 1 ∧ j = 1) ∨ (i = 3 ∧ j = 3) then 1 else 0 := by
    intro i hi j hj
    interval_cases i <;> interval_cases j <;> decide +kernel
  simp only [umb_lin_pow]
  simp only [Finset.sum_range_succ, Finset.sum_range_zero, smul_eq_mul, Spec.bernstein]
  simp only [hp 0 (by omega) 0 (by omega), hp 0 (by omega) 1 (by omega), hp 0 (by omega) 2 (by omega),
    hp 0 (by omega) 3 (by omega), hp 1 (by omega) 0 (by omega), hp 1 (by omega) 1 (by omega),
    hp 1 (by omega) 2 (by omega), hp 1 (by omega) 3 (by omega), hp 2 (by omega) 0 (by omega),
    hp 2 (by omega) 1 (by omega), hp 2 (by omega) 2 (by omega), hp 2 (by omega) 3 (by omega),
    hp 3 (by omega) 0 (by omega), hp 3 (by omega) 1 (by omega), hp 3 (by omega) 2 (by omega),
    hp 3 (by omega) 3 (by omega)]
  norm_num [Nat.choose]
  ring

/-- C76 fails for control nets that are far from the patch: the control point closest to the query
is inside, the patch meets the query at a corner only, and the search never looks at the corner.
At every level from 1 the value at the guess is less than half the query. -/
theorem C76_corner_refuted :
    ∃ p : BezierPatch ℚ, p.init = ok () ∧ Static p ∧ p.degU = 3 ∧ p.degV = 3 ∧
      p.evaluate (1 : ℚ) 1 = ok 1 ∧
      ∀ level, ∃ r y, p.approxInverse (0 : ℚ) 1000 0 1 5 5 (level + 1) ⟨0, 1, 0, 1⟩ = ok r ∧
        p.evaluate r.1 r.2 = ok y ∧ y < 1 / 2 := by
  refine ⟨twoPeaks, by decide +kernel, ⟨rfl, rfl⟩, rfl, rfl, by decide +kernel, fun level => ?_⟩
  obtain ⟨r, hr, -⟩ := C76_bezier_total (eps := (0 : ℚ)) (big := 1000) (tol := 0) le_rfl
    (p := twoPeaks)
    (by decide +kernel) ⟨rfl, rfl⟩ rfl rfl (by decide) (by decide) 1 5 5 (level + 1)
    (b := ⟨0, 1, 0, 1⟩) (by norm_num) (by norm_num) (by norm_num)
  refine ⟨r, _, hr, twoPeaks_evaluate _ _, ?_⟩
  have F : ∃ x, firstRounds (BezierPatch.ops (0 : ℚ) 1000 0 (1 : ℚ) 5 5) 1 twoPeaks ⟨0, 1, 0, 1⟩
      = ok x ∧ x.2.1 = ⟨0, 2 / 3, 0, 2 / 3⟩ ∧ x.2.2 = unitBox := by
    obtain ⟨x, hx, hP⟩ := of_holds (x := firstRounds (BezierPatch.ops (0 : ℚ) 1000 0 (1 : ℚ) 5 5) 1
      twoPeaks ⟨0, 1, 0, 1⟩) (P := fun x => decide (x.2.1 = ⟨0, 2 / 3, 0, 2 / 3⟩ ∧
        x.2.2 = unitBox)) (by decide +kernel)
    exact ⟨x, hx, of_decide_eq_true hP⟩
  obtain ⟨x, hx, hb, ht⟩ := F
  obtain ⟨y, hy, rfl⟩ := unitSearch_rounds 1 level hx hr
  rw [hb] at hy
  obtain ⟨⟨u0, u1⟩, v0, v1⟩ := C76_bezier_in_box (p := x.1) (by norm_num) hy
  simp only at u0 u1 v0 v1
  rw [ht]
  simp only [remap, unitBox, sub_zero, one_mul, add_zero]
  have key : ∀ t : ℚ, 0 ≤ t → t ≤ 2 / 3 → 0 ≤ 3 * (1 - t) ^ 2 * t ∧ 3 * (1 - t) ^ 2 * t ≤ 4 / 9 ∧
      0 ≤ t ^ 3 ∧ t ^ 3 ≤ 8 / 27 := by
    intro t h0 h1
    refine ⟨by positivity, ?_, by positivity, ?_⟩
    · nlinarith [mul_nonneg (sq_nonneg (t - 1 / 3)) (by linarith : (0 : ℚ) ≤ 4 / 3 - t)]
    · have : t ^ 2 ≤ 4 / 9 := by nlinarith
      nlinarith
  obtain ⟨a0, a1, a2, a3⟩ := key _ u0 u1
  obtain ⟨b0, b1, b2, b3⟩ := key _ v0 v1
  have m1 := mul_le_mul a1 b1 b0 (by norm_num)
  have m2 := mul_le_mul a3 b3 b2 (by norm_num)
  norm_num at m1 m2
  linarith

/-- A regular bicubic patch with dynamic degrees. -/
def cubicDynamic : BezierPatch ℚ :=
  ⟨[0, 0, 0, 0, 1 / 3, 1 / 3, 1 / 3, 1 / 3, 2 / 3, 2 / 3, 2 / 3, 2 / 3, 1, 1, 1, 1], 3, 3, false,
    false, -1, -1⟩

/-- C76 fails for dynamic degrees: the pieces of `subpatch` have no degree
(`C30_dynamic_refuted`), and the search divides by it or reads control points with it. -/
theorem C76_dynamic_refuted :
    ∃ p : BezierPatch ℚ, p.init = ok () ∧ p.degU = 3 ∧ p.degV = 3 ∧ p.sU = -1 ∧ p.sV = -1 ∧
      p.approxInverse (0 : ℚ) 1000 0 (3 / 5) 5 5 0 ⟨0, 1, 0, 1⟩ = ok (2 / 3, 0) ∧
      ∀ level, p.approxInverse (0 : ℚ) 1000 0 (3 / 5) 5 5 (level + 1) ⟨0, 1, 0, 1⟩ = ub := by
  refine ⟨cubicDynamic, by decide +kernel, rfl, rfl, rfl, rfl, by decide +kernel, fun level => ?_⟩
  have sub : (do
      let t ← trim (BezierPatch.ops (0 : ℚ) 1000 0 (3 / 5 : ℚ) 5 5) cubicDynamic ⟨1 / 3, 1, 0, 1 / 3⟩
      let r ← (BezierPatch.ops (0 : ℚ) 1000 0 (3 / 5 : ℚ) 5 5).subpatch cubicDynamic t
      (BezierPatch.ops (0 : ℚ) 1000 0 (3 / 5 : ℚ) 5 5).closest r) = ub := by decide +kernel
  have inner : ∀ l, unitSearch (BezierPatch.ops (0 : ℚ) 1000 0 (3 / 5 : ℚ) 5 5) l cubicDynamic
      ⟨1 / 3, 1, 0, 1 / 3⟩ = ub := by
    have hf : fallback (BezierPatch.ops (0 : ℚ) 1000 0 (3 / 5 : ℚ) 5 5) 3 cubicDynamic = ok none := by
      decide +kernel
    have split : ∀ {β : Type} (g : BezierPatch ℚ → Box ℚ → ℕ × ℕ → Outcome β), (do
      let t ← trim (BezierPatch.ops (0 : ℚ) 1000 0 (3 / 5 : ℚ) 5 5) cubicDynamic ⟨1 / 3, 1, 0, 1 / 3⟩
      let r ← (BezierPatch.ops (0 : ℚ) 1000 0 (3 / 5 : ℚ) 5 5).subpatch cubicDynamic t
      let c ← (BezierPatch.ops (0 : ℚ) 1000 0 (3 / 5 : ℚ) 5 5).closest r
      g r t c) = ub := by
      intro β g
      cases e1 : trim (BezierPatch.ops (0 : ℚ) 1000 0 (3 / 5 : ℚ) 5 5) cubicDynamic
          ⟨1 / 3, 1, 0, 1 / 3⟩ with
      | ub => rfl
      | throw e => rw [e1] at sub; cases sub
      | ok t =>
        rw [e1, ok_bind] at sub
        rw [ok_bind]
        cases e2 : (BezierPatch.ops (0 : ℚ) 1000 0 (3 / 5 : ℚ) 5 5).subpatch cubicDynamic t with
        | ub => rfl
        | throw e => rw [e2] at sub; cases sub
        | ok r =>
          rw [e2, ok_bind] at sub
          rw [ok_bind, sub]
          rfl
    intro l
    cases l with
    | zero =>
      rw [unitSearch, hf, ok_bind]
      exact split _
    | succ l =>
      rw [unitSearch, hf, ok_bind]
      exact split _
  have F : ∃ x, firstRounds (BezierPatch.ops (0 : ℚ) 1000 0 (3 / 5 : ℚ) 5 5) 1 cubicDynamic
      ⟨0, 1, 0, 1⟩ = ok x ∧ x.1 = cubicDynamic ∧ x.2.1 = ⟨1 / 3, 1, 0, 1 / 3⟩ := by
    obtain ⟨x, hx, hP⟩ := of_holds (x := firstRounds (BezierPatch.ops (0 : ℚ) 1000 0 (3 / 5 : ℚ) 5 5)
      1 cubicDynamic ⟨0, 1, 0, 1⟩) (P := fun x => decide (x.1 = cubicDynamic ∧
        x.2.1 = ⟨1 / 3, 1, 0, 1 / 3⟩)) (by decide +kernel)
    exact ⟨x, hx, of_decide_eq_true hP⟩
  obtain ⟨x, hx, hp, hb⟩ := F
  rw [firstRounds, bind_eq_ok] at hx
  obtain ⟨f, hf, hx⟩ := hx
  cases f with
  | some _ => simp at hx
  | none =>
    simp only [bind_eq_ok, pure_eq, ok.injEq] at hx
    obtain ⟨t, h1, q, h2, c, h3, d, h4, z, h5, rfl⟩ := hx
    rw [firstRounds, ok.injEq] at h5
    subst h5
    simp only at hp hb
    unfold BezierPatch.approxInverse
    rw [unitSearch, hf, ok_bind]
    simp only
    rw [h1, ok_bind, h2, ok_bind, h3, ok_bind, h4, ok_bind, hp]
    unfold nextBox at hb
    rw [hb, inner]
    rfl

/-! ### B-spline patches -/

/-- Uniform knots: the domain is `[3, 4]²` and the first and last control points belong to
parameters outside it. -/
def uniformPatch : BSplinePatch ℚ ℚ :=
  ⟨[0, 0, 0, 0, 3, 3, 3, 3, 0, 0, 0, 0, 2, 2, 2, 2], [0, 1, 2, 3, 4, 5, 6, 7],
    [0, 1, 2, 3, 4, 5, 6, 7], 3, 3, false, false, 3, 3, [], []⟩

/-- The patch after `initialize`. -/
def uniformReady : BSplinePatch ℚ ℚ :=
  match uniformPatch.init with
  | ok p => p
  | _ => uniformPatch

/-- C76 fails for knots without full multiplicity at the ends: if the closest control point is the
last one the box of the next round is a single parameter.  The patch passes through the query at
`(3, 3)`, but the search ends at `(4, 3)`, where the value is 5/6, and the Newton steps do not leave
that point either. -/
theorem C76_uniform_refuted :
    ∃ p : BSplinePatch ℚ ℚ, p.Valid 4 4 3 3 ∧ p.init = ok p ∧
      p.evaluate 3 3 = ok 2 ∧ p.evaluate 4 3 = ok (5 / 6) ∧
      (∀ level, ∃ r, p.approxInverse 0 1000 0 0 2 5 5 (level + 1) ⟨3, 4, 3, 4⟩ = ok r ∧
        r.1 = 4) ∧
      p.inverseEvaluate 0 1000 0 0 0 2 ⟨3, 4, 3, 4⟩ = ok ((4, 3), false) := by
  have hv : uniformReady.Valid 4 4 3 3 := by
    refine ⟨⟨by decide +kernel, by decide +kernel, Or.inr (by decide +kernel), by decide,
      by decide +kernel, by decide +kernel⟩, ⟨by decide +kernel, by decide +kernel,
      Or.inr (by decide +kernel), by decide, by decide +kernel, by decide +kernel⟩,
      by decide +kernel⟩
  have hi : uniformReady.init = ok uniformReady := by decide +kernel
  refine ⟨uniformReady, hv, hi, by decide +kernel, by decide +kernel, fun level => ?_,
    by decide +kernel⟩
  obtain ⟨r, hr, -⟩ := C76_bspline_total (eps := (0 : ℚ)) (big := 1000) (tol := 0) le_rfl (bad := 0)
    hv hi (by decide +kernel) (by decide +kernel) (by omega) (by omega) 2 5 5 (level + 1)
    (b := ⟨3, 4, 3, 4⟩) (by norm_num) (by decide +kernel) (by decide +kernel)
  refine ⟨r, hr, ?_⟩
  obtain ⟨⟨t, q, c, d⟩, hx, hP⟩ := of_holds (x := do
      let t ← trim (BSplinePatch.ops (0 : ℚ) 1000 0 0 (2 : ℚ) 5 5) uniformReady ⟨3, 4, 3, 4⟩
      let q ← (BSplinePatch.ops (0 : ℚ) 1000 0 0 (2 : ℚ) 5 5).subpatch uniformReady t
      let c ← (BSplinePatch.ops (0 : ℚ) 1000 0 0 (2 : ℚ) 5 5).closest q
      let d ← neighbours (BSplinePatch.ops (0 : ℚ) 1000 0 0 (2 : ℚ) 5 5) uniformReady q c.1 c.2
      pure (t, q, c, d)) (P := fun x => decide (x.2.1 = uniformReady ∧
        nextBox x.1 x.2.2.2 = ⟨4, 4, 3, 3⟩)) (by decide +kernel)
  have hf : fallback (BSplinePatch.ops (0 : ℚ) 1000 0 0 (2 : ℚ) 5 5) (id (level + 1)) uniformReady
      = ok none := fallback_of (by decide +kernel) hv.degreeU hv.degreeV hv.numU hv.numV (by omega)
        (by omega) (by omega) (by omega)
  simp only [bind_eq_ok, pure_eq, ok.injEq, Prod.mk.injEq] at hx
  obtain ⟨t', h1, q', h2, c', h3, d', h4, rfl, rfl, rfl, rfl⟩ := hx
  obtain ⟨hq, hb⟩ := of_decide_eq_true hP
  simp only at hq hb
  unfold BSplinePatch.approxInverse at hr
  rw [knotSearch, hf, ok_bind] at hr
  simp only at hr
  rw [h1, ok_bind, h2, ok_bind, h3, ok_bind, h4, ok_bind, hq] at hr
  unfold nextBox at hb
  rw [hb] at hr
  have := C76_bspline_in_box (level := level) le_rfl hv hi (by norm_num) hr
  exact le_antisymm this.1.2 this.1.1

end NS.Props
