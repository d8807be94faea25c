import Verif.Proof.FlatInverse
import Verif.Proof.BezierPatch
import Verif.Proof.BezierEval
import Verif.Model.BezierSearch
import Verif.Model.ControlSearch
import Verif.Props.NearOptimal

/-!
# C103: straight curves and flat patches are inverted exactly
-/

set_option linter.unusedSectionVars false

namespace NS.Props

open Outcome Geom LawfulGeom Spec Finset Polynomial FlatInverse NearOptimal BSpline

variable {K V : Type} [Field K] [LinearOrder K] [IsStrictOrderedRing K] [FloorRing K]
  [AddCommGroup V] [Module K V] [Geom K V] [LawfulGeom K V]

/-- C103 for any curve that runs through the range with constant velocity `A`: the search returns, for
every number of samples and every level, the closest point of the range or a point whose distance is
optimal up to `tol` over the speed. -/
theorem C103_curve {big tol : K} {c : CurveFn K V} {p O A : V} {num level : ℕ} (hn : 0 < num)
    (htol : 0 < tol) (hA : A ≠ 0) {lower upper : K} (h : lower ≤ upper)
    (h0 : ∀ t, lower ≤ t → t ≤ upper → c.ev t = ok (O + t • A))
    (h1 : ∀ t, lower ≤ t → t ≤ upper → c.d1 t = ok A)
    (h2 : ∀ t, lower ≤ t → t ≤ upper → c.d2 t = ok 0)
    (hb : ∀ t, lower ≤ t → t ≤ upper →
      (dot (p - (O + t • A)) (p - (O + t • A)) : K) < big) :
    ∃ r : K, approxInverse big tol c p num level lower upper = ok r ∧ lower ≤ r ∧ r ≤ upper ∧
      ((∀ t : K, lower ≤ t → t ≤ upper →
        (norm (p - (O + r • A)) : K) ≤ norm (p - (O + t • A))) ∨
       (∀ t : K, (norm (p - (O + r • A)) * norm A : K) < norm (p - (O + t • A)) * norm A + tol)) := by
  have hAA : (0 : K) < dot A A := dot_self A hA
  have hs := norm_seminorm (K := K) (V := V)
  obtain ⟨x, hx⟩ : ∃ x : K, (dot (p - O) A : K) = x * dot A A :=
    ⟨dot (p - O) A / dot A A, by field_simp⟩
  obtain ⟨r, er, r1, r2, hr⟩ := approxInverse_line hn htol hAA hx (level := level) h h0 h1 h2 hb
  refine ⟨r, er, r1, r2, hr.imp (fun hr t t1 t2 => ?_) (fun hr t => ?_)⟩
  · apply norm_le_of_sq
    rw [dist_line hx r, dist_line hx t]
    have : |r - x| ≤ |t - x| := by
      rcases le_total x lower with q | q
      · rw [min_eq_right (q.trans h), max_eq_left q] at hr
        rw [hr, abs_of_nonneg (by linarith), abs_of_nonneg (by linarith)]; linarith
      rcases le_total upper x with q' | q'
      · rw [min_eq_left q', max_eq_right h] at hr
        rw [hr, abs_of_nonpos (by linarith), abs_of_nonpos (by linarith)]; linarith
      · rw [min_eq_right q', max_eq_right q] at hr
        rw [hr, sub_self, abs_zero]; exact abs_nonneg _
    have := mul_self_le_mul_self (abs_nonneg _) this
    rw [abs_mul_abs_self, abs_mul_abs_self] at this
    have := mul_le_mul_of_nonneg_right this hAA.le
    linarith
  · have e1 : (norm (p - (O + x • A)) : K) ≤ norm (p - (O + t • A)) := by
      apply norm_le_of_sq
      rw [dist_line hx t]
      have := mul_nonneg (mul_self_nonneg (t - x)) hAA.le
      linarith
    have e2 : (norm (p - (O + r • A)) : K) ≤ norm (p - (O + x • A)) + |x - r| * norm A := by
      have := hs.tri (p - (O + x • A)) ((x - r) • A)
      rw [hs.smul] at this
      rwa [show p - (O + x • A) + (x - r) • A = p - (O + r • A) by rw [sub_smul]; abel] at this
    have hNA := LawfulGeom.norm_nonneg (K := K) A
    have e3 : |x - r| * (norm A * norm A) < tol := by rw [norm_sq]; exact hr
    nlinarith

/-! ### Affine control points -/

/-- Umbral evaluation of an affine sequence. -/
theorem umb_arith (O D : V) (f : K[X]) :
    umb (fun i : ℕ => O + (i : K) • D) f = f.eval 1 • O + (derivative f).eval 1 • D := by
  induction f using Polynomial.induction_on' with
  | add f g hf hg => rw [map_add, hf, hg, derivative_add, eval_add, eval_add, add_smul, add_smul]; abel
  | monomial k a =>
    rw [umb_monomial, derivative_monomial, eval_monomial, eval_monomial, smul_add, smul_smul]
    simp

theorem eval_lin (t : K) (n : ℕ) : (lin t ^ n).eval 1 = 1 := by
  rw [eval_pow]; simp [lin]

theorem deriv_lin (t : K) (n : ℕ) : (derivative (lin t ^ n)).eval 1 = n * t := by
  rw [derivative_pow, eval_mul, eval_mul, eval_pow]; simp [lin]

theorem eval_factor (t : K) (n b : ℕ) :
    (lin t ^ n * (X - 1) ^ b).eval 1 = if b = 0 then 1 else 0 := by
  rw [eval_mul, eval_lin, one_mul, eval_pow]
  by_cases hb : b = 0 <;> simp [hb]

theorem deriv_factor (t : K) (n b : ℕ) : (derivative (lin t ^ n * (X - 1) ^ b)).eval 1
    = if b = 0 then n * t else if b = 1 then 1 else 0 := by
  rcases b with _ | _ | b
  · simp [deriv_lin]
  · rw [derivative_mul, eval_add, eval_mul, eval_mul, eval_lin]; simp
  · rw [derivative_mul, eval_add, eval_mul, eval_mul, eval_lin]; simp [derivative_pow]

/-- C103 for Bézier curves of degree `n ≥ 1` whose control points are equally spaced on a line. -/
theorem C103_bezier {big tol : K} {c : Bezier V} {n level : ℕ} (hlen : c.ctrl.length = n + 1)
    (hn : 1 ≤ n) (hper : c.periodic = false) {O D : V} (hD : D ≠ 0)
    (hc : ∀ i ≤ n, c.ctrl.getD i 0 = O + (i : K) • D) (htol : 0 < tol) {p : V} {lower upper : K}
    (h : lower ≤ upper)
    (hb : ∀ t, lower ≤ t → t ≤ upper →
      (dot (p - (O + (t * n) • D)) (p - (O + (t * n) • D)) : K) < big) :
    ∃ r : K, c.approxInverse big tol p lower upper level = ok r ∧ lower ≤ r ∧ r ≤ upper ∧
      ((∀ t : K, lower ≤ t → t ≤ upper →
        (norm (p - bezierPoint c.ctrl r) : K) ≤ norm (p - bezierPoint c.ctrl t)) ∨
       (∀ t : K, (norm (p - bezierPoint c.ctrl r) * (n * norm D) : K)
        < norm (p - bezierPoint c.ctrl t) * (n * norm D) + tol)) := by
  have hs := norm_seminorm (K := K) (V := V)
  have hn' : (n : K) ≠ 0 := by exact_mod_cast (by omega : n ≠ 0)
  have hctrl : c.ctrl = arr (n + 1) (fun i : ℕ => O + (i : K) • D) := by
    rw [eq_arr c.ctrl 0, hlen]
    exact arr_congr fun i hi => hc i (by omega)
  have hcc : c = { ctrl := arr (n + 1) (fun i : ℕ => O + (i : K) • D), periodic := false } := by
    rw [← hctrl, ← hper]
  have hpt : ∀ t : K, bezierPoint c.ctrl t = O + t • ((n : K) • D) := by
    intro t
    rw [hctrl, Bezier.arr_bezierPoint, umb_arith, eval_lin, deriv_lin, one_smul, smul_smul, mul_comm]
  have hne : c.ctrl ≠ [] := by intro h; rw [h] at hlen; simp at hlen
  have h0 : ∀ t : K, (c.fn : CurveFn K V).ev t = ok (O + t • ((n : K) • D)) := by
    intro t
    rw [← hpt t]
    show c.evaluate t = _
    rw [Bezier.evaluate_wrap, hper]
    exact Bezier.evaluate_eq _ hne t
  have h1 : ∀ t : K, (c.fn : CurveFn K V).d1 t = ok ((n : K) • D) := by
    intro t
    show c.evaluateDerivative t = _
    rw [Bezier.evaluateDerivative_wrap, hper, hctrl]
    show Bezier.evaluateDerivative ({ ctrl := arr (n + 1) _ } : Bezier V) t = _
    rw [evaluateDerivative_umb, umb_arith]
    have e1 := eval_factor t (n - 1) 1
    have e2 := deriv_factor t (n - 1) 1
    rw [pow_one] at e1 e2
    rw [e1, e2]
    simp
  have h2 : ∀ t : K, (c.fn : CurveFn K V).d2 t = ok 0 := by
    intro t
    show c.evaluate2ndDerivative t = _
    rw [Bezier.evaluate2ndDerivative_wrap, hper, hctrl]
    show Bezier.evaluate2ndDerivative ({ ctrl := arr (n + 1) _ } : Bezier V) t = _
    rw [evaluate2ndDerivative_umb, umb_arith, eval_factor, deriv_factor]
    simp
  have hnum : (2 * (c.degree + 1)).toNat = 2 * (n + 1) := by
    unfold Bezier.degree; rw [hlen]; push_cast; omega
  obtain ⟨r, er, r1, r2, hr⟩ := C103_curve (big := big) (c := c.fn) (p := p) (num := 2 * (n + 1))
    (level := level) (by omega) htol (smul_ne_zero hn' hD) h (fun t _ _ => h0 t) (fun t _ _ => h1 t)
    (fun t _ _ => h2 t) (fun t a b => by rw [smul_smul]; exact hb t a b)
  refine ⟨r, by unfold Bezier.approxInverse; rw [hnum]; exact er, r1, r2, ?_⟩
  simp only [hpt]
  rwa [hs.smul, abs_of_nonneg (Nat.cast_nonneg n)] at hr

/-! ### Flat patches -/

/-- C103 for patches, in part: queries whose foot point is outside the box are missing (see
`C103_outside_refuted`).  For any flat patch with independent directions `A`, `B` and any query whose foot point
`(x, y)` is in the box: `inverse_evaluate` with an initial guess reports convergence, and the result is
the foot point itself, or the clamped guess when this is within the tolerance already. -/
theorem C103_patch_partial {big tol : K} {s : PatchFn K V} {p O A B : V} {minU maxU minV maxV u v x y : K}
    {iters : ℕ} (hi : 2 ≤ iters) (htol : 0 < tol)
    (hG : (dot A B : K) * dot A B < dot A A * dot B B)
    (hx : minU ≤ x ∧ x ≤ maxU) (hy : minV ≤ y ∧ y ≤ maxV)
    (h0 : ∀ u v, (minU ≤ u ∧ u ≤ maxU) ∧ (minV ≤ v ∧ v ≤ maxV) → s.ev u v = ok (O + u • A + v • B))
    (h1 : ∀ u v, (minU ≤ u ∧ u ≤ maxU) ∧ (minV ≤ v ∧ v ≤ maxV) →
      s.du u v = ok A ∧ s.dv u v = ok B ∧ s.duu u v = ok 0 ∧ s.dvv u v = ok 0 ∧ s.duv u v = ok 0)
    (hA : (dot (p - (O + x • A + y • B)) A : K) = 0)
    (hB : (dot (p - (O + x • A + y • B)) B : K) = 0)
    (hbig : ∀ u v, (minU ≤ u ∧ u ≤ maxU) ∧ (minV ≤ v ∧ v ≤ maxV) →
      (norm (O + u • A + v • B - p) : K) + tol ≤ big) :
    ∃ r, PatchBase.inverseFrom big s p u v minU maxU minV maxV iters tol = ok (r, true) ∧
      (r = (x, y) ∨ (norm (O + r.1 • A + r.2 • B - p) : K) < tol ∨
        (|(dot A (O + r.1 • A + r.2 • B - p) : K)| < tol ∧
          |(dot B (O + r.1 • A + r.2 • B - p) : K)| < tol)) := by
  have c1 := PatchBase.clampTo_mem (x := u) (hx.1.trans hx.2)
  have c2 := PatchBase.clampTo_mem (x := v) (hy.1.trans hy.2)
  obtain ⟨r, er, hr⟩ := PatchBase.newton_plane (prev := (PatchBase.clampTo minU maxU u,
    PatchBase.clampTo minV maxV v)) hi htol hG c1 c2 hx hy h0 h1 hA hB (hbig _ _ ⟨c1, c2⟩)
  have hmem : (r.1 ≥ minU ∧ r.1 ≤ maxU) ∧ (r.2 ≥ minV ∧ r.2 ≤ maxV) := by
    rcases hr with rfl | ⟨rfl, -⟩
    · exact ⟨hx, hy⟩
    · exact ⟨c1, c2⟩
  refine ⟨r, ?_, ?_⟩
  · unfold PatchBase.inverseFrom
    simp only []
    rw [er, ok_bind, assert_true hmem.1, ok_bind, assert_true hmem.2, ok_bind]
    rfl
  · rcases hr with rfl | ⟨rfl, hr⟩
    · exact Or.inl rfl
    · exact Or.inr hr

/-- The partial derivatives of a Bézier patch with an affine net. -/
theorem part_affine {q : BezierPatch V} {m n : ℕ} {O A B : V}
    (hc : ∀ i ≤ m, ∀ j ≤ n, gridPoint q.grid (n + 1) i j = O + (i : K) • A + (j : K) • B)
    (a b : ℕ) (u v : K) :
    BezierPatch.part m n (q.pts n) a b u v
      = ((m.descFactorial a : ℕ) : K) • ((n.descFactorial b : ℕ) : K) •
        ((if a = 0 then (1 : K) else 0) • ((if b = 0 then (1 : K) else 0) • O
            + (if b = 0 then ((n - b : ℕ) : K) * v else if b = 1 then 1 else 0) • B)
          + (if a = 0 then ((m - a : ℕ) : K) * u else if a = 1 then 1 else 0) •
            ((if b = 0 then (1 : K) else 0) • A)) := by
  have : BezierPatch.part m n (q.pts n) a b u v = BezierPatch.part m n
      (fun i j : ℕ => O + (i : K) • A + (j : K) • B) a b u v :=
    BezierPatch.part_congr (fun i hi j hj => hc i (by omega) j (by omega)) a b u v
  rw [this]
  unfold BezierPatch.part
  congr 2
  have e : ∀ i : ℕ, umb (fun j : ℕ => O + (i : K) • A + (j : K) • B) (lin v ^ (n - b) * (X - 1) ^ b)
      = ((if b = 0 then (1 : K) else 0) • O
          + (if b = 0 then ((n - b : ℕ) : K) * v else if b = 1 then 1 else 0) • B)
        + (i : K) • ((if b = 0 then (1 : K) else 0) • A) := by
    intro i
    rw [umb_arith, eval_factor, deriv_factor, smul_add, smul_comm]
    abel
  simp only [e]
  rw [umb_arith, eval_factor, deriv_factor]

/-- The evaluators of a Bézier patch with an affine net. -/
theorem flat_fn {q : BezierPatch V} {m n : ℕ} (hq : q.WellFormed m n) (hpu : q.perU = false)
    (hpv : q.perV = false) {O A B : V}
    (hc : ∀ i ≤ m, ∀ j ≤ n, gridPoint q.grid (n + 1) i j = O + (i : K) • A + (j : K) • B) (u v : K) :
    bezierSurface m n q.grid u v = O + u • ((m : K) • A) + v • ((n : K) • B) ∧
    (q.fn : PatchFn K V).ev u v = ok (O + u • ((m : K) • A) + v • ((n : K) • B)) ∧
    (q.fn : PatchFn K V).du u v = ok ((m : K) • A) ∧
    (q.fn : PatchFn K V).dv u v = ok ((n : K) • B) ∧ (q.fn : PatchFn K V).duu u v = ok 0 ∧
    (q.fn : PatchFn K V).dvv u v = ok 0 ∧ (q.fn : PatchFn K V).duv u v = ok 0 := by
  have hpt : bezierSurface m n q.grid u v = O + u • ((m : K) • A) + v • ((n : K) • B) := by
    rw [← BezierPatch.part_eq_surface, part_affine hc]
    simp [smul_smul, mul_comm]
    abel
  have wu : Bezier.wrap q.perU u = ok u := by rw [hpu]; rfl
  have wv : Bezier.wrap q.perV v = ok v := by rw [hpv]; rfl
  refine ⟨hpt, ?_, (hq.derivU wu wv).trans ?_, (hq.derivV wu wv).trans ?_,
    (hq.derivUU wu wv).trans ?_, (hq.derivVV wu wv).trans ?_, (hq.derivUV wu wv).trans ?_⟩
  · rw [← hpt, ← BezierPatch.part_eq_surface]
    exact hq.evaluate wu wv
  all_goals rw [part_affine hc]; simp

/-- C103 for Bézier patches, in part (foot point in the box), of any degrees `m, n ≥ 1` whose control net is an affine image of the
regular grid: whatever guess the search finds, `inverse_evaluate` reports convergence and returns the
foot point of the query, or a guess that is within the tolerance already. -/
theorem C103_bezier_patch_partial {eps big tol10 tol100 : K} {q : BezierPatch V} {m n : ℕ}
    (hq : q.WellFormed m n) (hm : 1 ≤ m) (hn : 1 ≤ n) (hpu : q.perU = false) (hpv : q.perV = false)
    {O A B : V} (hc : ∀ i ≤ m, ∀ j ≤ n, gridPoint q.grid (n + 1) i j = O + (i : K) • A + (j : K) • B)
    (hG : (dot A B : K) * dot A B < dot A A * dot B B) (htol : 0 < tol100) {p : V}
    {b : ControlSearch.Box K} {x y : K} (hx : b.minU ≤ x ∧ x ≤ b.maxU) (hy : b.minV ≤ y ∧ y ≤ b.maxV)
    (hA : (dot (p - bezierSurface m n q.grid x y) A : K) = 0)
    (hB : (dot (p - bezierSurface m n q.grid x y) B : K) = 0)
    (hbig : ∀ u v, (b.minU ≤ u ∧ u ≤ b.maxU) ∧ (b.minV ≤ v ∧ v ≤ b.maxV) →
      (norm (bezierSurface m n q.grid u v - p) : K) + tol100 ≤ big) {r : (K × K) × Bool}
    (hr : q.inverseEvaluate eps big tol10 tol100 p b = ok r) :
    r.2 = true ∧ (r.1 = (x, y) ∨ (norm (bezierSurface m n q.grid r.1.1 r.1.2 - p) : K) < tol100 ∨
      (m * |(dot A (bezierSurface m n q.grid r.1.1 r.1.2 - p) : K)| < tol100 ∧
        n * |(dot B (bezierSurface m n q.grid r.1.1 r.1.2 - p) : K)| < tol100)) := by
  have hm' : (0 : K) < m := by exact_mod_cast hm
  have hn' : (0 : K) < n := by exact_mod_cast hn
  have hpt : ∀ u v : K, bezierSurface m n q.grid u v
      = O + u • ((m : K) • A) + v • ((n : K) • B) := fun u v => (flat_fn hq hpu hpv hc u v).1
  unfold BezierPatch.inverseEvaluate at hr
  rw [hq.numU, ok_bind, hq.numV, ok_bind] at hr
  obtain ⟨g, -, hr⟩ := bind_eq_ok.1 hr
  have hsm : ∀ (a : K) (z w : V), (dot z (a • w) : K) = a * dot z w := fun a z w => dot_smul_right a z w
  have hG' : (dot ((m : K) • A) ((n : K) • B) : K) * dot ((m : K) • A) ((n : K) • B)
      < dot ((m : K) • A) ((m : K) • A) * dot ((n : K) • B) ((n : K) • B) := by
    simp only [dot_smul, hsm]
    have := mul_lt_mul_of_pos_left hG (mul_pos (mul_pos hm' hm') (mul_pos hn' hn'))
    nlinarith
  rw [hpt x y] at hA hB
  obtain ⟨r', er, hr'⟩ := C103_patch_partial (s := q.fn) (p := p) (u := g.1) (v := g.2) (iters := 20)
    (big := big) (by omega) htol hG' hx hy (fun u v _ => (flat_fn hq hpu hpv hc u v).2.1)
    (fun u v _ => (flat_fn hq hpu hpv hc u v).2.2)
    (by rw [hsm, hA, mul_zero]) (by rw [hsm, hB, mul_zero])
    (fun u v h => by rw [← hpt u v]; exact hbig u v h)
  rw [er, ok.injEq] at hr
  subst hr
  refine ⟨rfl, hr'.imp id (Or.imp (fun h => ?_) (fun h => ?_))⟩
  · rw [hpt]; exact h
  · rw [hpt]
    rw [dot_smul, dot_smul, abs_mul, abs_mul, abs_of_pos hm', abs_of_pos hn'] at h
    exact h

/-! ### Examples and a limit -/

/-- A cubic with equally spaced control points on the line. -/
def exEven : Bezier ℚ := { ctrl := [1, 3, 5, 7] }

/-- The query 20 is beyond the end of the range `[0, 1/2]`: the search answers `1/2`. -/
example : exEven.approxInverse (1000 : ℚ) (1 / 1000) 20 0 (1 / 2) 3 = ok (1 / 2) := by decide +kernel

example : ∃ r : ℚ, exEven.approxInverse (1000 : ℚ) (1 / 1000) 20 0 (1 / 2) 3 = ok r ∧ 0 ≤ r ∧ r ≤ 1 / 2 ∧
    ((∀ t : ℚ, 0 ≤ t → t ≤ 1 / 2 → (Geom.norm ((20 : ℚ) - bezierPoint exEven.ctrl r) : ℚ)
        ≤ Geom.norm ((20 : ℚ) - bezierPoint exEven.ctrl t)) ∨
      (∀ t : ℚ, (Geom.norm ((20 : ℚ) - bezierPoint exEven.ctrl r) * ((3 : ℕ) * Geom.norm (2 : ℚ)) : ℚ)
        < Geom.norm ((20 : ℚ) - bezierPoint exEven.ctrl t) * ((3 : ℕ) * Geom.norm (2 : ℚ)) + 1 / 1000)) := by
  refine C103_bezier (K := ℚ) (c := exEven) (n := 3) (O := 1) (D := 2) rfl (by omega) rfl (by norm_num)
    (fun i hi => ?_) (by norm_num) (by norm_num) (fun t h1 h2 => ?_)
  · interval_cases i <;> decide +kernel
  · show ((20 : ℚ) - (1 + t * (3 : ℕ) * 2)) * (20 - (1 + t * (3 : ℕ) * 2)) < 1000
    push_cast
    nlinarith

/-- The parallelogram with the sides `1` and `1 + i`. -/
def exOblique : BezierPatch ℂ :=
  { grid := [0, 1 + Complex.I, 1, 2 + Complex.I], degU := 1, degV := 1 }

theorem exOblique_wf : exOblique.WellFormed 1 1 := ⟨rfl, rfl, rfl⟩

theorem exOblique_net : ∀ i ≤ 1, ∀ j ≤ 1, gridPoint exOblique.grid (1 + 1) i j
    = (0 : ℂ) + (i : ℝ) • (1 : ℂ) + (j : ℝ) • (1 + Complex.I) := by
  intro i hi j hj
  interval_cases i <;> interval_cases j <;> simp [gridPoint, exOblique]
  ring

/-- The query `1 + i / 2`, the centre of the parallelogram, is found from any guess. -/
example (u v : ℝ) : ∃ r, PatchBase.inverseFrom (100 : ℝ) exOblique.fn (1 + Complex.I / 2) u v 0 1 0 1 20
    (1 / 100) = ok (r, true) ∧ (r = (1 / 2, 1 / 2) ∨
      (Geom.norm ((0 : ℂ) + r.1 • (1 : ℂ) + r.2 • (1 + Complex.I) - (1 + Complex.I / 2)) : ℝ) < 1 / 100 ∨
      (|(dot (1 : ℂ) ((0 : ℂ) + r.1 • (1 : ℂ) + r.2 • (1 + Complex.I) - (1 + Complex.I / 2)) : ℝ)| < 1 / 100 ∧
       |(dot (1 + Complex.I) ((0 : ℂ) + r.1 • (1 : ℂ) + r.2 • (1 + Complex.I) - (1 + Complex.I / 2)) : ℝ)|
         < 1 / 100)) := by
  have hf := fun u v : ℝ => flat_fn (K := ℝ) exOblique_wf rfl rfl exOblique_net u v
  simp only [Nat.cast_one, one_smul] at hf
  have e : (1 + Complex.I / 2) - ((0 : ℂ) + (1 / 2 : ℝ) • (1 : ℂ) + (1 / 2 : ℝ) • (1 + Complex.I)) = 0 := by
    simp; ring
  refine C103_patch_partial (by omega) (by norm_num) ?_ (by norm_num) (by norm_num)
    (fun u v _ => (hf u v).2.1) (fun u v _ => (hf u v).2.2) ?_ ?_ (fun u v h => ?_)
  · show (inner ℝ (1 : ℂ) (1 + Complex.I) : ℝ) * inner ℝ (1 : ℂ) (1 + Complex.I)
      < inner ℝ (1 : ℂ) 1 * inner ℝ (1 + Complex.I) (1 + Complex.I)
    simp only [Complex.inner]
    norm_num
  · rw [e]; exact inner_zero_left _
  · rw [e]; exact inner_zero_left _
  · obtain ⟨⟨h1, h2⟩, h3, h4⟩ := h
    have : ‖(0 : ℂ) + u • (1 : ℂ) + v • (1 + Complex.I) - (1 + Complex.I / 2)‖ ≤ 10 := by
      refine (Complex.norm_le_abs_re_add_abs_im _).trans ?_
      have a1 : |((0 : ℂ) + u • (1 : ℂ) + v • (1 + Complex.I) - (1 + Complex.I / 2)).re| ≤ 5 := by
        rw [abs_le]; simp; constructor <;> linarith
      have a2 : |((0 : ℂ) + u • (1 : ℂ) + v • (1 + Complex.I) - (1 + Complex.I / 2)).im| ≤ 5 := by
        rw [abs_le]; simp; constructor <;> linarith
      linarith
    show ‖(0 : ℂ) + u • (1 : ℂ) + v • (1 + Complex.I) - (1 + Complex.I / 2)‖ + 1 / 100 ≤ (100 : ℝ)
    linarith

/-- C103 when the foot point is outside the box: false.  The coordinates are clamped one by one, which
on an oblique patch does not lead to the closest point of the box.  For the query `-1 + i` and the guess
`(1, 1)` the result `(0, 1)` is at distance 2 and reported as converged; `(0, 0)` is closer. -/
theorem C103_outside_refuted :
    PatchBase.inverseFrom (100 : ℝ) exOblique.fn (-1 + Complex.I) 1 1 0 1 0 1 20 (1 / 100)
      = ok ((0, 1), true) ∧
    ‖bezierSurface 1 1 exOblique.grid (0 : ℝ) 1 - (-1 + Complex.I)‖ = 2 ∧
    ‖bezierSurface 1 1 exOblique.grid (0 : ℝ) 0 - (-1 + Complex.I)‖ < 2 := by
  have hf := fun u v : ℝ => flat_fn (K := ℝ) exOblique_wf rfl rfl exOblique_net u v
  simp only [Nat.cast_one, one_smul] at hf
  have r1 : (0 : ℂ) + (1 : ℝ) • (1 : ℂ) + (1 : ℝ) • (1 + Complex.I) - (-1 + Complex.I) = 3 := by
    simp; ring
  have r2 : (0 : ℂ) + (0 : ℝ) • (1 : ℂ) + (1 : ℝ) • (1 + Complex.I) - (-1 + Complex.I) = 2 := by
    simp; ring
  have n3 : (Geom.norm (3 : ℂ) : ℝ) = 3 := by show ‖(3 : ℂ)‖ = 3; simp
  have n2 : (Geom.norm (2 : ℂ) : ℝ) = 2 := by show ‖(2 : ℂ)‖ = 2; simp
  have dA : ∀ z : ℂ, (dot (1 : ℂ) z : ℝ) = z.re := by
    intro z; show inner ℝ (1 : ℂ) z = _; simp only [Complex.inner]; simp
  have dA' : ∀ z : ℂ, (dot z (1 : ℂ) : ℝ) = z.re := by
    intro z; show inner ℝ z (1 : ℂ) = _; simp only [Complex.inner]; simp
  have dB : ∀ z : ℂ, (dot (1 + Complex.I) z : ℝ) = z.re + z.im := by
    intro z; show inner ℝ (1 + Complex.I) z = _; simp only [Complex.inner]; simp
  have dB' : ∀ z : ℂ, (dot z (1 + Complex.I) : ℝ) = z.re + z.im := by
    intro z; show inner ℝ z (1 + Complex.I) = _; simp only [Complex.inner]; simp
  have d0 : ∀ z : ℂ, (dot z (0 : ℂ) : ℝ) = 0 := fun z => inner_zero_right z
  obtain ⟨-, e1, e2, e3, e4, e5, e6⟩ := hf 1 1
  obtain ⟨f0, f1, f2, f3, f4, f5, f6⟩ := hf 0 1
  have c1 : ∀ x : ℝ, x ≤ 0 → PatchBase.clampStep 0 1 x = 0 := by
    intro x hx
    unfold PatchBase.clampStep
    rcases eq_or_lt_of_le hx with h | h
    · rw [h]; norm_num
    · rw [if_pos h]; norm_num
  have c2 : PatchBase.clampStep 0 1 (1 : ℝ) = 1 := by unfold PatchBase.clampStep; norm_num
  refine ⟨?_, ?_, ?_⟩
  · have k0 : PatchBase.clampTo 0 1 (1 : ℝ) = 1 := by unfold PatchBase.clampTo; norm_num
    have run : PatchBase.newtonPatch exOblique.fn (-1 + Complex.I) (1 / 100 : ℝ) 0 1 0 1 20 1 1 (1, 1) 100
        = ok ((0, 1), true) := by
      rw [PatchBase.newtonPatch, e1, ok_bind]
      simp only [r1, n3]
      rw [if_neg (by norm_num), if_neg (by norm_num), e2, ok_bind, e3, ok_bind, if_neg (by
        rw [dA]; norm_num), e4, ok_bind, e5, ok_bind, e6, ok_bind]
      simp only [sqNorm, dA, dB, dA', dB', d0]
      norm_num
      rw [c1 _ (by norm_num), c2, PatchBase.newtonPatch, f1, ok_bind]
      simp only [r2, n2]
      rw [if_neg (by norm_num), if_neg (by norm_num), f2, ok_bind, f3, ok_bind, if_neg (by
        rw [dA]; norm_num), f4, ok_bind, f5, ok_bind, f6, ok_bind]
      simp only [sqNorm, dA, dB, dA', dB', d0]
      norm_num
      rw [c1 _ (by norm_num), c2, PatchBase.newtonPatch, f1, ok_bind]
      simp only [r2, n2]
      rw [if_pos (by norm_num)]
    unfold PatchBase.inverseFrom
    simp only [k0]
    rw [run, ok_bind, assert_true (by norm_num), ok_bind, assert_true (by norm_num), ok_bind]
    rfl
  · rw [f0, r2]; exact n2
  · rw [(hf 0 0).1]
    have : (0 : ℂ) + (0 : ℝ) • (1 : ℂ) + (0 : ℝ) • (1 + Complex.I) - (-1 + Complex.I) = 1 - Complex.I := by
      simp; ring
    rw [this]
    have h2 : ‖(1 : ℂ) - Complex.I‖ ^ 2 = 2 := by
      rw [← Complex.normSq_eq_norm_sq, Complex.normSq_apply]; norm_num
    nlinarith [_root_.norm_nonneg ((1 : ℂ) - Complex.I)]

end NS.Props
