import Mathlib.Analysis.Convex.Combination
import Mathlib.Analysis.Calculus.Deriv.Shift
import Mathlib.LinearAlgebra.AffineSpace.AffineMap
import Mathlib.Tactic.NormNum
import Mathlib.Tactic.Linarith
import Verif.Proof.BezierEval
import Verif.Proof.UmbralDeriv

/-!
# Properties C01-C11: Bézier curves
-/

set_option linter.unusedSectionVars false
set_option linter.unusedSimpArgs false

namespace NS.Props

open Outcome Polynomial Finset NS.Bezier

section General

variable {K V W : Type} [Field K] [LinearOrder K] [IsStrictOrderedRing K] [FloorRing K]
  [AddCommGroup V] [Module K V] [AddCommGroup W] [Module K W]

/-! ### C01 -/

/-- C01: evaluation of a non-periodic Bézier curve is the Bernstein sum, for every degree and
every parameter, without exception or out-of-range access. -/
theorem C01_evaluate_eq_bernstein (c : Bezier V) (hc : c.ctrl ≠ []) (hp : c.periodic = false)
    (t : K) : evaluate c t = ok (Spec.bezierPoint c.ctrl t) := by
  rw [evaluate_wrap, hp]
  exact evaluate_eq c.ctrl hc t

/-- A cubic in the plane, for the concrete cases. -/
private def exCubic : Bezier (ℚ × ℚ) := { ctrl := [(0, 0), (1, 2), (3, 2), (4, 0)] }

example := C01_evaluate_eq_bernstein exCubic (by decide) rfl (1 / 3 : ℚ)
example : evaluate exCubic (1 / 3 : ℚ) = ok (34 / 27, 4 / 3) := by decide +kernel

/-- C01: without control points no point is returned. -/
theorem C01_evaluate_empty (per : Bool) (t : K) :
    evaluate ({ ctrl := [], periodic := per } : Bezier V) t = ub := by
  obtain ⟨t', h⟩ := wrap_ok (K := K) per t
  simp [evaluate, h, deBoor, Bezier.degree, rdI]

example : evaluate ({ ctrl := [] } : Bezier ℚ) (1 / 3 : ℚ) = ub := C01_evaluate_empty false _

/-- The specification agrees with Mathlib's Bernstein polynomials. -/
theorem C01_spec_is_mathlib_bernstein (P : List V) (t : K) :
    Spec.bezierPoint P t
      = ∑ i ∈ range P.length, (bernsteinPolynomial K (P.length - 1) i).eval t • P.getD i 0 := by
  unfold Spec.bezierPoint
  exact sum_congr rfl (fun i _ => by rw [bernstein_eq_eval])

example : ({ ctrl := [1, 5, 2] } : Bezier ℚ).ctrl ≠ [] := by simp

/-! ### C02 -/

theorem C02_degree0 (p0 : V) (per : Bool) (t : K) :
    let c : Bezier V := { ctrl := [p0], periodic := per }
    evaluate0 c t = evaluate c t ∧ evaluateDerivative0 c t = evaluateDerivative c t ∧
      evaluate2ndDerivative0 c t = evaluate2ndDerivative c t := by
  obtain ⟨t', h⟩ := wrap_ok (K := K) per t
  have e : [p0] = arr 1 (fun _ => p0) := rfl
  refine ⟨?_, ?_, ?_⟩
  · rw [evaluate_wrap]
    simp only [h, ok_bind]
    rw [evaluate_eq _ (by simp)]
    simp [evaluate0, rd, Spec.bezierPoint, Spec.bernstein]
  · rw [evaluateDerivative_wrap]
    simp only [h, ok_bind, e, evaluateDerivative_arr1]
    rfl
  · rw [evaluate2ndDerivative_wrap]
    simp only [h, ok_bind, e, evaluate2ndDerivative_arr1]
    rfl

example := C02_degree0 ((1, 2) : ℚ × ℚ) true (5 / 2 : ℚ)

/-- Degree 1, non-periodic.  The full statement (any flag) is refuted below: the degree-1 class
ignores the periodic flag (Bezier.h:502-505). -/
theorem C02_degree1_partial (p0 p1 : V) (t : K) :
    let c : Bezier V := { ctrl := [p0, p1] }
    evaluate1 c t = evaluate c t ∧ evaluateDerivative1 c t = evaluateDerivative c t ∧
      evaluate2ndDerivative1 c t = evaluate2ndDerivative c t := by
  have e : [p0, p1] = arr 2 (fun i => [p0, p1].getD i 0) := rfl
  refine ⟨?_, ?_, ?_⟩
  · rw [evaluate_eq _ (by simp)]
    simp [evaluate1, rd, Spec.bezierPoint, Spec.bernstein, sum_range_succ]
  · rw [e, evaluateDerivative_arr]
    simp [evaluateDerivative1, rd, mul_sub, umb_one, umb_X_pow]
    rw [← pow_one (X : K[X]), umb_X_pow]
    simp
  · rw [e, evaluate2ndDerivative_arr2]
    rfl

example := C02_degree1_partial ((1, 2) : ℚ × ℚ) (3, -1) (1 / 4 : ℚ)

/-- Degree 1 with the periodic flag: derivatives agree for both settings of the flag. -/
theorem C02_degree1_derivatives (p0 p1 : V) (per : Bool) (t : K) :
    let c : Bezier V := { ctrl := [p0, p1], periodic := per }
    evaluateDerivative1 c t = evaluateDerivative c t ∧
      evaluate2ndDerivative1 c t = evaluate2ndDerivative c t := by
  obtain ⟨t', h⟩ := wrap_ok (K := K) per t
  have := C02_degree1_partial p0 p1 t'
  simp only at this ⊢
  rw [evaluateDerivative_wrap, evaluate2ndDerivative_wrap]
  simp only [h, ok_bind]
  exact ⟨this.2.1 ▸ rfl, this.2.2 ▸ rfl⟩

example := C02_degree1_derivatives ((1, 2) : ℚ × ℚ) (3, -1) true (5 / 2 : ℚ)

theorem C02_degree2 (p0 p1 p2 : V) (per : Bool) (t : K) :
    let c : Bezier V := { ctrl := [p0, p1, p2], periodic := per }
    evaluate2 c t = evaluate c t ∧ evaluateDerivative2 c t = evaluateDerivative c t ∧
      evaluate2ndDerivative2 c t = evaluate2ndDerivative c t := by
  obtain ⟨t', h⟩ := wrap_ok (K := K) per t
  have e : [p0, p1, p2] = arr 3 (fun i => [p0, p1, p2].getD i 0) := rfl
  have hX : ∀ P : ℕ → V, umb P (X : K[X]) = P 1 := fun P => by
    simpa using umb_X_pow (K := K) P 1
  refine ⟨?_, ?_, ?_⟩
  · rw [evaluate_wrap]
    simp only [evaluate2, h, ok_bind]
    rw [evaluate_eq _ (by simp)]
    simp [rd, Spec.bezierPoint, Spec.bernstein, sum_range_succ]
    module
  · rw [evaluateDerivative_wrap]
    simp only [evaluateDerivative2, h, ok_bind]
    rw [e, evaluateDerivative_arr]
    rw [pow_one, umb_lin_mul]
    simp [rd, arr, mul_sub, umb_one, ← sq, umb_X_pow, hX]
    module
  · rw [evaluate2ndDerivative_wrap]
    simp only [evaluate2ndDerivative2, h, ok_bind]
    rw [e, evaluate2ndDerivative_arr]
    rw [show lin t' ^ 0 * (X - 1) ^ 2 = (X ^ 2 - X - X + 1 : K[X]) by ring]
    simp [rd, arr, umb_one, umb_X_pow, hX]
    module

example := C02_degree2 ((1, 2) : ℚ × ℚ) (3, -1) (0, 5) true (5 / 2 : ℚ)

theorem C02_degree3 (p0 p1 p2 p3 : V) (per : Bool) (t : K) :
    let c : Bezier V := { ctrl := [p0, p1, p2, p3], periodic := per }
    evaluate3 c t = evaluate c t ∧ evaluateDerivative3 c t = evaluateDerivative c t ∧
      evaluate2ndDerivative3 c t = evaluate2ndDerivative c t := by
  obtain ⟨t', h⟩ := wrap_ok (K := K) per t
  have e : [p0, p1, p2, p3] = arr 4 (fun i => [p0, p1, p2, p3].getD i 0) := rfl
  have hX : ∀ P : ℕ → V, umb P (X : K[X]) = P 1 := fun P => by
    simpa using umb_X_pow (K := K) P 1
  refine ⟨?_, ?_, ?_⟩
  · rw [evaluate_wrap]
    simp only [evaluate3, h, ok_bind]
    rw [evaluate_eq _ (by simp)]
    simp [rd, Spec.bezierPoint, Spec.bernstein, sum_range_succ, Nat.choose]
    module
  · rw [evaluateDerivative_wrap]
    simp only [evaluateDerivative3, h, ok_bind]
    rw [e, evaluateDerivative_arr]
    rw [pow_two, mul_assoc, umb_lin_mul, umb_lin_mul, show X * (lin t' * (X - 1)) =
      lin t' * (X * (X - 1)) by ring, umb_lin_mul,
      show (X * (X * (X - 1)) : K[X]) = X ^ 3 - X ^ 2 by ring,
      show (X * (X - 1) : K[X]) = X ^ 2 - X by ring]
    simp [rd, arr, umb_one, umb_X_pow, hX]
    module
  · rw [evaluate2ndDerivative_wrap]
    simp only [evaluate2ndDerivative3, h, ok_bind]
    rw [e, evaluate2ndDerivative_arr]
    rw [pow_one, umb_lin_mul, show (X * (X - 1) ^ 2 : K[X]) = X ^ 3 - X ^ 2 - X ^ 2 + X by ring,
      show ((X - 1) ^ 2 : K[X]) = X ^ 2 - X - X + 1 by ring]
    simp [rd, arr, umb_one, umb_X_pow, hX]
    module

example := C02_degree3 ((1, 2) : ℚ × ℚ) (3, -1) (0, 5) (1, 1) true (-1 / 3 : ℚ)

/-- C02 is false of the code for the degree-1 class with the periodic flag set: at `t = 3/2` the
generic class returns the point at `1/2`, the degree-1 class extrapolates. -/
theorem C02_degree1_periodic_refuted :
    ∃ (p0 p1 : ℚ) (t : ℚ), let c : Bezier ℚ := { ctrl := [p0, p1], periodic := true }
      evaluate1 c t ≠ evaluate c t := by
  refine ⟨0, 1, 3 / 2, ?_⟩
  simp only
  rw [evaluate_wrap]
  have : wrap true (3 / 2 : ℚ) = ok (1 / 2) := by
    unfold wrap
    have h := unwrapParameter_add_period (0 : ℚ) 1 (1 / 2) zero_lt_one 1
    rw [unwrapParameter_of_mem (0 : ℚ) 1 (1 / 2) (by norm_num) (by norm_num)] at h
    simp only [if_true]
    rw [← h]
    norm_num
  rw [this, ok_bind, evaluate_eq _ (by simp)]
  simp [evaluate1, rd, Spec.bezierPoint, Spec.bernstein, sum_range_succ]
  norm_num

/-! ### C03 -/

theorem C03_start (c : Bezier V) (hc : c.ctrl ≠ []) :
    evaluate c (0 : K) = rd c.ctrl 0 := by
  have h0 : wrap c.periodic (0 : K) = ok 0 := by
    cases h : c.periodic with
    | false => rfl
    | true => exact unwrapParameter_of_mem 0 1 0 le_rfl zero_lt_one
  rw [evaluate_wrap, h0, ok_bind]
  obtain ⟨n, P, e⟩ := exists_arr c.ctrl hc
  rw [e, evaluate_arr, lin_zero, one_pow, umb_one, rd_arr (by omega)]

example : evaluate exCubic (0 : ℚ) = ok (0, 0) := C03_start exCubic (by decide)

theorem C03_end (c : Bezier V) (hc : c.ctrl ≠ []) (hp : c.periodic = false) :
    evaluate c (1 : K) = rd c.ctrl (c.ctrl.length - 1) := by
  rw [evaluate_wrap, hp]
  obtain ⟨n, P, e⟩ := exists_arr c.ctrl hc
  simp only [wrap, Bool.false_eq_true, if_false, ok_bind]
  rw [e, evaluate_arr, lin_one, umb_X_pow, rd_arr (by simp)]
  simp

example : evaluate exCubic (1 : ℚ) = ok (4, 0) := C03_end exCubic (by decide) rfl

theorem bernstein_nonneg (n i : ℕ) (t : K) (h0 : 0 ≤ t) (h1 : t ≤ 1) :
    0 ≤ Spec.bernstein n i t := by
  unfold Spec.bernstein
  have : 0 ≤ 1 - t := by linarith
  positivity

/-- C03: on the domain the value lies in the convex hull of the control points. -/
theorem C03_convex_hull (c : Bezier V) (hc : c.ctrl ≠ []) (t : K) (h0 : 0 ≤ t) (h1 : t ≤ 1) :
    ∃ p, evaluate c t = ok p ∧ p ∈ convexHull K {x | x ∈ c.ctrl} := by
  obtain ⟨t', ht, h0', h1'⟩ : ∃ t', wrap c.periodic t = ok t' ∧ 0 ≤ t' ∧ t' ≤ 1 := by
    cases h : c.periodic with
    | false => exact ⟨t, rfl, h0, h1⟩
    | true =>
      obtain ⟨t', a, b, d, _⟩ := unwrapParameter_spec (0 : K) 1 t zero_lt_one
      exact ⟨t', a, b, d.le⟩
  refine ⟨_, by rw [evaluate_wrap, ht, ok_bind, evaluate_eq _ hc], ?_⟩
  obtain ⟨n, P, e⟩ := exists_arr c.ctrl hc
  rw [e, arr_bezierPoint, umb_lin_pow]
  apply (convex_convexHull K _).sum_mem
  · intro i _; exact bernstein_nonneg n i t' h0' h1'
  · exact bernstein_sum n t'
  · intro i hi
    apply subset_convexHull
    simp only [Set.mem_ofPred_eq, arr, List.mem_map, List.mem_range]
    exact ⟨i, by simpa using hi, rfl⟩

example := C03_convex_hull exCubic (by decide) (1 / 3 : ℚ) (by norm_num) (by norm_num)

/-- C03: every closed half-space `{x | l x ≤ a}` containing the control points contains the
curve. -/
theorem C03_half_space (c : Bezier V) (hc : c.ctrl ≠ []) (l : V →ₗ[K] K) (a : K)
    (hl : ∀ x ∈ c.ctrl, l x ≤ a) (t : K) (h0 : 0 ≤ t) (h1 : t ≤ 1) :
    ∃ p, evaluate c t = ok p ∧ l p ≤ a := by
  obtain ⟨p, hp, hm⟩ := C03_convex_hull c hc t h0 h1
  refine ⟨p, hp, ?_⟩
  have hconv : Convex K {x | l x ≤ a} := convex_halfSpace_le l.isLinear a
  exact convexHull_min (fun x hx => hl x hx) hconv hm

example := C03_half_space exCubic (by decide) (LinearMap.snd ℚ ℚ ℚ) 2
  (by simp [exCubic]) (1 / 3) (by norm_num) (by norm_num)

/-! ### C04 (Bézier part) -/

theorem bezierPoint_affine (f : V →ᵃ[K] W) (l : List V) (hl : l ≠ []) (t : K) :
    Spec.bezierPoint (l.map f) t = f (Spec.bezierPoint l t) := by
  obtain ⟨n, P, e⟩ := exists_arr l hl
  have e2 : (arr (n + 1) P).map f = arr (n + 1) (fun i => f (P i)) := by
    simp [arr, Function.comp_def]
  rw [e, e2, arr_bezierPoint, arr_bezierPoint, umb_lin_pow, umb_lin_pow, f.decomp]
  simp only [Pi.add_apply, map_sum, map_smul, smul_add, sum_add_distrib]
  rw [← sum_smul, bernstein_sum, one_smul]

/-- C04: evaluation commutes with affine maps (also for periodic curves). -/
theorem C04_bezier_affine (f : V →ᵃ[K] W) (c : Bezier V) (hc : c.ctrl ≠ []) (t : K) :
    evaluate ({ ctrl := c.ctrl.map f, periodic := c.periodic } : Bezier W) t
      = f <$> evaluate c t := by
  obtain ⟨t', ht⟩ := wrap_ok c.periodic t
  rw [evaluate_wrap, evaluate_wrap c]
  simp only [ht, ok_bind]
  rw [evaluate_eq _ (by simpa using hc), evaluate_eq _ hc, map_ok, bezierPoint_affine f _ hc]

example := C04_bezier_affine (AffineMap.lineMap (k := ℚ) (3 : ℚ) 7) { ctrl := [1, 5, 2] } (by decide) (1 / 3)

/-! ### C06 -/

/-- C06: the hodograph of a non-periodic curve evaluates to the derivative everywhere. -/
theorem C06_hodograph (nrm : V → K) (eps : K) (c : Bezier V) (hc : c.ctrl ≠ [])
    (hp : c.periodic = false) :
    ∃ h, hodograph nrm eps c = ok h ∧ h.periodic = false ∧
      h.ctrl.length = max 1 (c.ctrl.length - 1) ∧
      (c.ctrl.length = 1 → h.ctrl = [0]) ∧
      ∀ t : K, evaluate h t = evaluateDerivative c t := by
  obtain ⟨n, P, e⟩ := exists_arr c.ctrl hc
  have ec : c = { ctrl := arr (n + 1) P, periodic := false } := by
    cases c; simp_all
  subst ec
  rcases n with _ | n
  · refine ⟨{ ctrl := [0] }, by simp [hodograph], rfl, by simp, by simp, ?_⟩
    intro t
    rw [evaluateDerivative_arr1, evaluate_eq _ (by simp)]
    simp [Spec.bezierPoint]
  · refine ⟨{ ctrl := arr (n + 1) (fun i => ((n + 1 : ℕ) : K) • (P (i + 1) - P i)) }, ?_, rfl,
      by simp, by simp, ?_⟩
    · unfold hodograph
      simp only [arr_length, Nat.add_sub_cancel]
      rw [if_neg (by omega), if_neg (by omega)]
      rw [hodograph_ctrl (n + 1) P (fun _ => ((n + 1 : ℕ) : K))]
      simp
    · intro t
      rw [evaluate_arr, evaluateDerivative_arr]
      congr 1
      rw [mul_sub, mul_one, map_sub, mul_comm _ X, umb_shift]
      rw [umb_lin_pow, umb_lin_pow, umb_lin_pow, ← sum_sub_distrib, smul_sum]
      apply sum_congr rfl
      intro i _
      rw [smul_comm, ← smul_sub]
      push_cast
      rfl

example := C06_hodograph (fun v : ℚ × ℚ => |v.1| + |v.2|) 0 exCubic (by decide) rfl

/-- C06: applying the hodograph twice gives the second derivative. -/
theorem C06_hodograph_twice (nrm : V → K) (eps : K) (c : Bezier V) (hc : c.ctrl ≠ [])
    (hp : c.periodic = false) :
    ∃ h h2, hodograph nrm eps c = ok h ∧ hodograph nrm eps h = ok h2 ∧
      ∀ t : K, evaluate h2 t = evaluate2ndDerivative c t := by
  obtain ⟨n, P, e⟩ := exists_arr c.ctrl hc
  have ec : c = { ctrl := arr (n + 1) P, periodic := false } := by
    cases c; simp_all
  subst ec
  rcases n with _ | _ | n
  · refine ⟨{ ctrl := [0] }, { ctrl := [0] }, by simp [hodograph], by simp [hodograph], ?_⟩
    intro t
    rw [evaluate2ndDerivative_arr1, evaluate_eq _ (by simp)]
    simp [Spec.bezierPoint]
  · refine ⟨{ ctrl := arr 1 (fun i => ((1 : ℕ) : K) • (P (i + 1) - P i)) }, { ctrl := [0] }, ?_,
      by simp [hodograph], ?_⟩
    · unfold hodograph
      simp only [arr_length, Nat.add_sub_cancel]
      rw [if_neg (by omega), if_neg (by omega)]
      rw [hodograph_ctrl 1 P (fun _ => ((0 + 1 : ℕ) : K))]
      simp
    · intro t
      rw [evaluate2ndDerivative_arr2, evaluate_eq _ (by simp)]
      simp [Spec.bezierPoint]
  · refine ⟨{ ctrl := arr (n + 2) (fun i => ((n + 2 : ℕ) : K) • (P (i + 1) - P i)) },
      { ctrl := arr (n + 1) (fun i => ((n + 1 : ℕ) : K) • (((n + 2 : ℕ) : K) • (P (i + 2) - P (i + 1))
        - ((n + 2 : ℕ) : K) • (P (i + 1) - P i))) }, ?_, ?_, ?_⟩
    · unfold hodograph
      simp only [arr_length, Nat.add_sub_cancel]
      rw [if_neg (by omega), if_neg (by omega)]
      rw [hodograph_ctrl (n + 2) P (fun _ => ((n + 1 + 1 : ℕ) : K))]
      rfl
    · unfold hodograph
      simp only [arr_length]
      rw [if_neg (by omega), if_neg (by omega), show n + 2 - 1 = n + 1 by omega]
      rw [hodograph_ctrl (n + 1) (fun i => ((n + 2 : ℕ) : K) • (P (i + 1) - P i))
        (fun _ => ((n + 1 : ℕ) : K))]
      rfl
    · intro t
      rw [evaluate_arr, evaluate2ndDerivative_arr]
      congr 1
      have e : lin t ^ n * (X - 1) ^ 2 = X * (X * lin t ^ n) - X * lin t ^ n - X * lin t ^ n
          + lin t ^ n := by ring
      rw [e, map_add, map_sub, map_sub, umb_shift, umb_shift, umb_shift]
      simp only [umb_lin_pow]
      rw [← sum_sub_distrib, ← sum_sub_distrib, ← sum_add_distrib, smul_sum]
      apply sum_congr rfl
      intro i _
      push_cast
      have : P (i + 1 + 1) = P (i + 2) := rfl
      rw [this]
      module

example := C06_hodograph_twice (fun v : ℚ × ℚ => |v.1| + |v.2|) 0 exCubic (by decide) rfl

/-- C06 for periodic curves: on the half-open domain the hodograph always evaluates to the
derivative; if the curve is closed to first order (so that the hodograph is periodic as well) this
extends to every parameter. -/
theorem C06_hodograph_periodic (nrm : V → K) (eps : K) (c : Bezier V) (hc : c.ctrl ≠ []) :
    ∃ h, hodograph nrm eps c = ok h ∧
      (∀ t : K, 0 ≤ t → t < 1 → evaluate h t = evaluateDerivative c t) ∧
      (h.periodic = c.periodic ∨ c.ctrl.length = 1 →
        ∀ t : K, evaluate h t = evaluateDerivative c t) := by
  obtain ⟨h0, e0, p0, _, _, k0⟩ := C06_hodograph nrm eps { ctrl := c.ctrl } hc rfl
  by_cases h1 : c.ctrl.length = 1
  · refine ⟨{ ctrl := [0] }, by simp [hodograph, h1], ?_⟩
    have key : ∀ t : K, evaluate ({ ctrl := [0] } : Bezier V) t = evaluateDerivative c t := by
      intro t
      obtain ⟨t', ht⟩ := wrap_ok c.periodic t
      rw [evaluateDerivative_wrap, ht, ok_bind]
      obtain ⟨n, P, e⟩ := exists_arr c.ctrl hc
      have : n = 0 := by rw [e] at h1; simpa using h1
      subst this
      rw [e, evaluateDerivative_arr1, evaluate_eq _ (by simp)]
      simp [Spec.bezierPoint]
    exact ⟨fun t _ _ => key t, fun _ => key⟩
  · have hn0 : c.ctrl.length ≠ 0 := by simpa using hc
    have hctrl : ∃ q, loop (c.ctrl.length - 1) (fun i q => do
      let a ← rd c.ctrl (i + 1)
      let b ← rd c.ctrl i
      wr q i (((c.ctrl.length - 1 : ℕ) : K) • (a - b)))
        (List.replicate (c.ctrl.length - 1) (0 : V)) = ok q ∧ h0 = { ctrl := q } := by
      simp only [hodograph, hn0, h1, if_false, bind_eq_ok] at e0
      obtain ⟨q, hq, hh⟩ := e0
      refine ⟨q, hq, ?_⟩
      simpa using hh.symm
    obtain ⟨q, hq, hh0⟩ := hctrl
    subst hh0
    obtain ⟨per, hper⟩ : ∃ r, (if c.periodic = true then
        isClosed nrm (evaluate c) (evaluateDerivative c) (evaluate2ndDerivative c) 0 1 1 eps
      else ok false) = ok r := by
      split
      · exact isClosed_ok nrm eps _ _ _ _ _ _ (fun t => evaluate_ok c hc t)
          (fun t => evaluateDerivative_ok c hc t) (fun t => evaluate2ndDerivative_ok c hc t)
      · exact ⟨_, rfl⟩
    refine ⟨{ ctrl := q, periodic := per }, ?_, ?_, ?_⟩
    · unfold hodograph
      simp only [hn0, h1, if_false, hq, ok_bind, pure_eq]
      cases hcp : c.periodic with
      | true => rw [hcp, if_pos rfl] at hper; simp [hper]
      | false => rw [hcp] at hper; simp at hper; simp [← hper]
    · intro t ht0 ht1
      have w : ∀ b, wrap b t = ok t := by
        intro b; cases b
        · rfl
        · exact unwrapParameter_of_mem 0 1 t ht0 ht1
      rw [evaluate_wrap, evaluateDerivative_wrap]
      simp only [w, ok_bind]
      exact k0 t
    · rintro (hpp | hpp)
      · intro t
        obtain ⟨t', ht⟩ := wrap_ok c.periodic t
        simp only at hpp
        rw [evaluate_wrap, evaluateDerivative_wrap]
        simp only [hpp, ht, ok_bind]
        exact k0 t'
      · exact absurd hpp h1

example := C06_hodograph_periodic (fun v : ℚ × ℚ => |v.1| + |v.2|) 0
  { exCubic with periodic := true } (by decide)

/-! ### C07 -/

/-- C07: strictly inside the domain `split` returns two curves of the same degree, the
restrictions to `[0,t]` and `[t,1]`. -/
theorem C07_split (c : Bezier V) (hc : c.ctrl ≠ []) (hp : c.periodic = false) (t : K)
    (h0 : 0 < t) (h1 : t < 1) :
    ∃ A B, split c t = ok [A, B] ∧ A.ctrl.length = c.ctrl.length ∧
      B.ctrl.length = c.ctrl.length ∧
      (∀ s, evaluate A s = evaluate c (t * s)) ∧
      (∀ s, evaluate B s = evaluate c (t + (1 - t) * s)) := by
  obtain ⟨n, P, e⟩ := exists_arr c.ctrl hc
  have ec : c = { ctrl := arr (n + 1) P, periodic := false } := by
    cases c; simp_all
  subst ec
  refine ⟨_, _, split_arr (n + 1) P false t h0 h1, by simp, by simp, ?_, ?_⟩
  · intro s
    rw [evaluate_arr, evaluate_arr]
    congr 1
    rw [umb_lin_pow]
    have := umb_compose P 1 (lin t) n s
    simp only [one_pow, one_mul] at this
    rw [this, ← lin_zero, lin_affine]
    congr 3
    ring
  · intro s
    rw [evaluate_arr, evaluate_arr]
    congr 1
    rw [umb_lin_pow]
    simp only [Nat.add_sub_cancel]
    have := umb_compose P (lin t) X n s
    rw [this, ← lin_one, lin_affine]
    congr 3
    ring

example := C07_split exCubic (by decide) rfl (1 / 3 : ℚ) (by norm_num) (by norm_num)
example : split exCubic (1 / 2 : ℚ) = ok [{ ctrl := [(0, 0), (1 / 2, 1), (5 / 4, 3 / 2), (2, 3 / 2)] },
    { ctrl := [(2, 3 / 2), (11 / 4, 3 / 2), (7 / 2, 1), (4, 0)] }] := by decide +kernel

/-- C07 for any flag: the pieces reproduce the curve for `s` in the half-open domain. -/
theorem C07_split_periodic (c : Bezier V) (hc : c.ctrl ≠ []) (t : K)
    (h0 : 0 < t) (h1 : t < 1) :
    ∃ A B, split c t = ok [A, B] ∧
      (∀ s, 0 ≤ s → s ≤ 1 → evaluate A s = evaluate c (t * s)) ∧
      (∀ s, 0 ≤ s → s < 1 → evaluate B s = evaluate c (t + (1 - t) * s)) := by
  obtain ⟨A, B, e, _, _, hA, hB⟩ := C07_split { ctrl := c.ctrl } hc rfl t h0 h1
  have e' : split c t = ok [A, B] := by
    rw [← e]
    unfold split
    have : isSplitPointValid 0 1 t = true := by simp [isSplitPointValid, h0, h1]
    rw [if_pos this, if_pos this]
  refine ⟨A, B, e', ?_, ?_⟩
  · intro s hs0 hs1
    have w : ∀ b, wrap b (t * s) = ok (t * s) := by
      intro b; cases b
      · rfl
      · exact unwrapParameter_of_mem 0 1 _ (by positivity) (by nlinarith)
    rw [hA, evaluate_wrap c, w, ok_bind]
  · intro s hs0 hs1
    have w : ∀ b, wrap b (t + (1 - t) * s) = ok (t + (1 - t) * s) := by
      intro b; cases b
      · rfl
      · have : 0 ≤ (1 - t) * s := mul_nonneg (by linarith) hs0
        exact unwrapParameter_of_mem 0 1 _ (by linarith) (by nlinarith)
    rw [hB, evaluate_wrap c, w, ok_bind]

example := C07_split_periodic { exCubic with periodic := true } (by decide) (1 / 3 : ℚ) (by norm_num)
  (by norm_num)

/-- C07: outside the open domain the member function returns the curve itself. -/
theorem C07_split_outside (c : Bezier V) (t : K) (h : t ≤ 0 ∨ 1 ≤ t) : split c t = ok [c] :=
  split_invalid c t h

example : split exCubic (3 / 2 : ℚ) = ok [exCubic] := C07_split_outside _ _ (by norm_num)

/-! ### C08 -/

/-- C08 where it holds: decision table of the free `split` for parameters at distance more than
`eps` outside the domain, at the ends, or strictly inside.  The window `-eps ≤ t < 0` and
`1 < t ≤ 1 + eps` is excluded (see `C08_window_refuted`). -/
theorem C08_freeSplit_partial (eps : K) (heps : 0 ≤ eps) (c : Bezier V) (hc : c.ctrl ≠ [])
    (t : K) :
    ((t < -eps ∨ 1 + eps < t) → freeSplit eps c t = Outcome.throw Err.invalidSetting) ∧
    ((t = 0 ∨ t = 1) → freeSplit eps c t = ok [c]) ∧
    ((0 < t ∧ t < 1) → ∃ A B, freeSplit eps c t = ok [A, B] ∧ split c t = ok [A, B]) := by
  refine ⟨?_, ?_, ?_⟩
  · intro h
    have : ¬ (inDomain eps t = true) := by
      rcases h with h | h
      · have : ¬ (0 - eps ≤ t) := by push Not; linarith
        simp [inDomain]; intro h'; linarith
      · simp [inDomain]; intro _; exact h
    rw [freeSplit, throwIf_true this]; rfl
  · intro h
    have hd : inDomain eps t = true := by
      rcases h with h | h <;> subst h <;> simp [inDomain] <;> (try constructor) <;> linarith
    rw [freeSplit, throwIf_false (by simpa using hd), ok_bind]
    rcases h with h | h
    · rw [if_pos h]
    · have : ¬ t = 0 := by rw [h]; exact one_ne_zero
      rw [if_neg this, if_pos h]
  · rintro ⟨h0, h1⟩
    have hd : inDomain eps t = true := by
      simp [inDomain]; constructor <;> linarith
    obtain ⟨A, B, e, _⟩ := C07_split_periodic c hc t h0 h1
    refine ⟨A, B, ?_, e⟩
    rw [freeSplit, throwIf_false (by simpa using hd), ok_bind, if_neg h0.ne', if_neg h1.ne, e]
    simp [rd]

example := C08_freeSplit_partial (1 / 1000) (by norm_num) exCubic (by decide) (1 / 3 : ℚ)

/-- C08 is false of the code inside the epsilon window: for every positive epsilon and every
curve, a parameter just outside the domain is accepted and then `r[1]` of a one-element vector is
read (split.h:19-29). -/
theorem C08_window_refuted (eps : K) (heps : 0 < eps) (c : Bezier V) (t : K)
    (h : (-eps ≤ t ∧ t < 0) ∨ (1 < t ∧ t ≤ 1 + eps)) : freeSplit eps c t = ub := by
  have hd : inDomain eps t = true := by
    rcases h with ⟨a, b⟩ | ⟨a, b⟩ <;> simp [inDomain] <;> constructor <;> linarith
  have h0 : t ≠ 0 := by rcases h with ⟨a, b⟩ | ⟨a, b⟩ <;> intro h <;> linarith
  have h1 : t ≠ 1 := by rcases h with ⟨a, b⟩ | ⟨a, b⟩ <;> intro h <;> linarith
  rw [freeSplit, throwIf_false (by simpa using hd), ok_bind, if_neg h0, if_neg h1,
    split_invalid c t (by rcases h with ⟨a, b⟩ | ⟨a, b⟩; · exact Or.inl b.le
                          · exact Or.inr a.le)]
  simp [rd]

example : ((-(1 / 100) : ℚ) ≤ -(1 / 200) ∧ -(1 / 200 : ℚ) < 0) := by norm_num

/-! ### C09 -/

/-- C09, generic class: the subcurve is the affine restriction. -/
theorem C09_subcurve (c : Bezier V) (hc : c.ctrl ≠ []) (hp : c.periodic = false) (t0 t1 : K)
    (h01 : t0 ≤ t1) (h0 : 0 ≤ t0) (h1 : t1 ≤ 1) :
    ∃ S, subcurve c t0 t1 = ok S ∧ S.ctrl.length = c.ctrl.length ∧
      ∀ s, evaluate S s = evaluate c (t0 + (t1 - t0) * s) := by
  obtain ⟨n, P, e⟩ := exists_arr c.ctrl hc
  have ec : c = { ctrl := arr (n + 1) P, periodic := false } := by
    cases c; simp_all
  subst ec
  refine ⟨_, subcurve_arr n P t0 t1 false h01 h0 h1, by simp, ?_⟩
  intro s
  rw [evaluate_arr, evaluate_arr]
  congr 1
  rw [umb_lin_pow, umb_compose P (lin t0) (lin t1) n s, lin_affine]
  congr 3
  ring

example := C09_subcurve exCubic (by decide) rfl (1 / 4 : ℚ) (2 / 3) (by norm_num) (by norm_num) (by norm_num)

/-- C09: invalid ranges throw. -/
theorem C09_subcurve_throws (c : Bezier V) (t0 t1 : K) (h : t1 < t0 ∨ t0 < 0 ∨ 1 < t1) :
    subcurve c t0 t1 = Outcome.throw Err.invalidSetting := by
  unfold subcurve
  by_cases g : t0 > t1
  · rw [throwIf_true g]; rfl
  · rw [throwIf_false g, ok_bind, throwIf_true]
    · rfl
    · rcases h with h | h | h
      · exact absurd h g
      · exact Or.inl h
      · exact Or.inr (Or.inr (Or.inr h))

example : subcurve exCubic (2 / 3 : ℚ) (1 / 4) = Outcome.throw Err.invalidSetting :=
  C09_subcurve_throws _ _ _ (by norm_num)

/-- `_split` agrees with `split` strictly inside the domain (Bezier.h:253-262). -/
theorem C07_split_alternative_eq (c : Bezier V) (hc : c.ctrl ≠ []) (t : K) (h0 : 0 < t) (h1 : t < 1) :
    split' c t = split c t := by
  obtain ⟨n, P, e⟩ := exists_arr c.ctrl hc
  have ec : c = { ctrl := arr (n + 1) P, periodic := c.periodic } := by
    cases c; simp_all
  rw [ec, split_arr _ _ _ _ h0 h1]
  unfold split'
  rw [assert_true h0.le, ok_bind, assert_true h1.le, ok_bind,
    subcurve_arr n P 0 t _ h0.le le_rfl h1.le, ok_bind,
    subcurve_arr n P t 1 _ h1.le h0.le le_rfl, ok_bind]
  simp [lin_zero, lin_one]

example := C07_split_alternative_eq exCubic (by decide) (1 / 3 : ℚ) (by norm_num) (by norm_num)

/-- C09 for the cubic class, where it holds: one of the ends is an end of the domain. -/
theorem C09_subcurve3_partial (c : Bezier V) (hc : c.ctrl.length = 4) (hp : c.periodic = false)
    (t0 t1 : K) (h : (t0 = 0 ∧ 0 < t1 ∧ t1 ≤ 1) ∨ (0 ≤ t0 ∧ t0 < 1 ∧ t1 = 1)) :
    ∃ S, subcurve3 c t0 t1 = ok S ∧ S.ctrl.length = 4 ∧
      ∀ s, evaluate3 S s = evaluate3 c (t0 + (t1 - t0) * s) := by
  have hne : c.ctrl ≠ [] := by intro h'; simp [h'] at hc
  have ev3 : ∀ (d : Bezier V) (s : K), d.ctrl.length = 4 → evaluate3 d s = evaluate d s := by
    intro d s hd
    obtain ⟨l, per⟩ := d
    match l, hd with
    | [a, b, e, f], _ => exact (C02_degree3 a b e f per s).1
  have hle : ¬ t0 > t1 := by rcases h with ⟨a, b, d⟩ | ⟨a, b, d⟩ <;> linarith
  unfold subcurve3
  rw [throwIf_false hle, ok_bind]
  rcases eq_or_ne t0 0 with e0 | e0
  · rcases eq_or_ne t1 1 with e1 | e1
    · rw [if_pos ⟨e0, e1⟩]
      refine ⟨c, rfl, hc, ?_⟩
      intro s; rw [e0, e1]; congr 1; ring
    · rw [if_neg (fun hh => e1 hh.2), if_pos e0]
      have hb : 0 < t1 ∧ t1 < 1 := by
        rcases h with ⟨a, b, d⟩ | ⟨a, b, d⟩
        · exact ⟨b, lt_of_le_of_ne d e1⟩
        · exact absurd d e1
      obtain ⟨A, B, e, lA, lB, hA, hB⟩ := C07_split c hne hp t1 hb.1 hb.2
      refine ⟨A, by rw [e]; rfl, lA.trans hc, ?_⟩
      intro s
      rw [ev3 A s (lA.trans hc), ev3 c _ hc, hA, e0]
      congr 1; ring
  · have e1 : t1 = 1 := by rcases h with ⟨a, b, d⟩ | ⟨a, b, d⟩ <;> [exact absurd a e0; exact d]
    rw [if_neg (fun hh => e0 hh.1), if_neg e0, if_pos e1]
    have hb : 0 < t0 ∧ t0 < 1 := by
      rcases h with ⟨a, b, d⟩ | ⟨a, b, d⟩
      · exact absurd a e0
      · exact ⟨lt_of_le_of_ne a (Ne.symm e0), b⟩
    obtain ⟨A, B, e, lA, lB, hA, hB⟩ := C07_split c hne hp t0 hb.1 hb.2
    refine ⟨B, by rw [e]; rfl, lB.trans hc, ?_⟩
    intro s
    rw [ev3 B s (lB.trans hc), ev3 c _ hc, hB, e1]

example := C09_subcurve3_partial exCubic rfl rfl (1 / 3 : ℚ) 1 (by norm_num)

/-- What the cubic `subcurve` really returns for `0 < t0 ≤ t1 < 1`: the restriction to
`[t0, t0 + (1 - t0) t1]`, because the second split value is not remapped (Bezier.h:1017). -/
theorem C09_subcurve3_actual (c : Bezier V) (hc : c.ctrl.length = 4) (hp : c.periodic = false)
    (t0 t1 : K) (h0 : 0 < t0) (h01 : t0 ≤ t1) (h1 : t1 < 1) :
    ∃ S, subcurve3 c t0 t1 = ok S ∧ S.ctrl.length = 4 ∧
      ∀ s, evaluate S s = evaluate c (t0 + (1 - t0) * (t1 * s)) := by
  have hne : c.ctrl ≠ [] := by intro h'; simp [h'] at hc
  unfold subcurve3
  rw [throwIf_false (not_lt.mpr h01), ok_bind, if_neg (fun hh => h0.ne' hh.1), if_neg h0.ne',
    if_neg h1.ne]
  obtain ⟨A, B, e, lA, lB, hA, hB⟩ := C07_split c hne hp t0 h0 (by linarith)
  have hBp : B.periodic = false := by
    obtain ⟨n, P, e'⟩ := exists_arr c.ctrl hne
    have ec : c = { ctrl := arr (n + 1) P, periodic := false } := by cases c; simp_all
    rw [ec, split_arr _ _ _ _ h0 (by linarith)] at e
    simp at e
    rw [← e.2]
  have hBne : B.ctrl ≠ [] := by intro h'; rw [h'] at lB; simp [hc] at lB
  obtain ⟨A', B', e', lA', lB', hA', hB'⟩ := C07_split B hBne hBp t1 (by linarith) h1
  refine ⟨A', ?_, by omega, ?_⟩
  · rw [e, ok_bind]
    simp only [rd, List.getElem?_cons_succ, List.getElem?_cons_zero, ok_bind]
    rw [e']
    rfl
  · intro s
    rw [hA', hB]

example := C09_subcurve3_actual exCubic rfl rfl (1 / 4 : ℚ) (2 / 3) (by norm_num) (by norm_num) (by norm_num)

/-- C09 is false of the cubic class: control points `0,1,2,3` (the curve `3t`), range
`[1/4, 1/2]`. -/
theorem C09_subcurve3_refuted :
    ∃ (c : Bezier ℚ) (t0 t1 : ℚ), c.ctrl.length = 4 ∧ 0 ≤ t0 ∧ t0 ≤ t1 ∧ t1 ≤ 1 ∧
      ∃ S, subcurve3 c t0 t1 = ok S ∧ evaluate3 S (1 : ℚ) ≠ evaluate3 c t1 := by
  refine ⟨{ ctrl := [0, 1, 2, 3] }, 1 / 4, 1 / 2, rfl, by norm_num, by norm_num, by norm_num, ?_⟩
  obtain ⟨S, e, l, h⟩ := C09_subcurve3_actual ({ ctrl := [0, 1, 2, 3] } : Bezier ℚ) rfl rfl
    (1 / 4 : ℚ) (1 / 2) (by norm_num) (by norm_num) (by norm_num)
  refine ⟨S, e, ?_⟩
  have h1 := h 1
  obtain ⟨l', per⟩ := S
  match l', l with
  | [a, b, e, f], _ =>
    rw [(C02_degree3 a b e f per (1 : ℚ)).1, h1, (C02_degree3 (0 : ℚ) 1 2 3 false (1 / 2)).1]
    rw [evaluate_eq _ (by simp), evaluate_eq _ (by simp)]
    simp [Spec.bezierPoint, Spec.bernstein, sum_range_succ, Nat.choose]
    norm_num

/-- C09, cubic class: `subcurve(1, 1)` reads past the end of the result of `split`. -/
theorem C09_subcurve3_ub (c : Bezier V) : subcurve3 c (1 : K) 1 = ub := by
  unfold subcurve3
  rw [throwIf_false (lt_irrefl _), ok_bind, if_neg (by simp), if_neg one_ne_zero, if_pos rfl,
    split_invalid c 1 (Or.inr le_rfl)]
  simp [rd]

/-! ### C10 (Bézier part) -/

/-- C10: degree elevation raises the degree by one and preserves every value (any flag). -/
theorem C10_elevate (c : Bezier V) (hc : c.ctrl ≠ []) :
    ∃ c', elevateDegree K c = ok c' ∧ c'.ctrl.length = c.ctrl.length + 1 ∧
      c'.periodic = c.periodic ∧ ∀ t : K, evaluate c' t = evaluate c t := by
  obtain ⟨n, P, e⟩ := exists_arr c.ctrl hc
  have ec : c = { ctrl := arr (n + 1) P, periodic := c.periodic } := by
    cases c; simp_all
  rw [ec]
  refine ⟨_, elevateDegree_arr n P c.periodic, by simp, rfl, ?_⟩
  intro t
  obtain ⟨t', ht⟩ := wrap_ok c.periodic t
  rw [evaluate_wrap, evaluate_wrap ({ ctrl := arr (n + 1) P, periodic := c.periodic } : Bezier V)]
  simp only [ht, ok_bind]
  rw [evaluate_arr, evaluate_arr, umb_lin_pow, umb_lin_pow, elevate_sum]

example := C10_elevate (K := ℚ) exCubic (by decide)

theorem C10_elevate_empty (per : Bool) :
    elevateDegree K ({ ctrl := [], periodic := per } : Bezier V) = ub := by
  simp [elevateDegree, rd]

/-- C10: the fixed-degree versions compute the same control points as the generic one. -/
theorem C10_elevate_fixed (p0 p1 p2 p3 : V) (per : Bool) :
    elevateDegree0 ({ ctrl := [p0], periodic := per } : Bezier V)
      = elevateDegree K { ctrl := [p0], periodic := per } ∧
    elevateDegree1 K ({ ctrl := [p0, p1], periodic := per } : Bezier V)
      = elevateDegree K { ctrl := [p0, p1], periodic := per } ∧
    elevateDegree2 K ({ ctrl := [p0, p1, p2], periodic := per } : Bezier V)
      = elevateDegree K { ctrl := [p0, p1, p2], periodic := per } ∧
    elevateDegree3 K ({ ctrl := [p0, p1, p2, p3], periodic := per } : Bezier V)
      = elevateDegree K { ctrl := [p0, p1, p2, p3], periodic := per } := by
  have e1 : [p0] = arr 1 (fun i => [p0].getD i 0) := rfl
  have e2 : [p0, p1] = arr 2 (fun i => [p0, p1].getD i 0) := rfl
  have e3 : [p0, p1, p2] = arr 3 (fun i => [p0, p1, p2].getD i 0) := rfl
  have e4 : [p0, p1, p2, p3] = arr 4 (fun i => [p0, p1, p2, p3].getD i 0) := rfl
  refine ⟨?_, ?_, ?_, ?_⟩
  · conv_rhs => rw [e1]
    rw [elevateDegree_arr]
    simp [elevateDegree0, rd, arr, List.range_succ]
  · conv_rhs => rw [e2]
    rw [elevateDegree_arr]
    simp [elevateDegree1, rd, arr, List.range_succ]
    rw [show (1 + 1 : K) = 2 by norm_num]
    rw [show (1 - 2⁻¹ : K) = 2⁻¹ by norm_num]
    module
  · conv_rhs => rw [e3]
    rw [elevateDegree_arr]
    simp [elevateDegree2, rd, arr, List.range_succ]
    rw [show (2 + 1 : K) = 3 by norm_num]
    refine ⟨?_, ?_⟩
    · rw [show (1 - 3⁻¹ : K) = 2 / 3 by norm_num]; module
    · rw [show (1 - 2 / 3 : K) = 3⁻¹ by norm_num]; module
  · conv_rhs => rw [e4]
    rw [elevateDegree_arr]
    simp [elevateDegree3, rd, arr, List.range_succ]
    rw [show (3 + 1 : K) = 4 by norm_num]
    refine ⟨?_, ?_, ?_⟩
    · rw [show (1 - 4⁻¹ : K) = 3 / 4 by norm_num]; module
    · rw [show (1 - 2 / 4 : K) = 2⁻¹ by norm_num, show (2 / 4 : K) = 2⁻¹ by norm_num]; module
    · rw [show (1 - 3 / 4 : K) = 4⁻¹ by norm_num]; module

example := C10_elevate_fixed (K := ℚ) ((1, 2) : ℚ × ℚ) (3, -1) (0, 5) (1, 1) true

/-! ### C11 -/

/-- C11: `unwrap_parameter` always succeeds, lands in the half-open domain and only adds a
multiple of the period. -/
theorem C11_unwrap (tMin tMax t : K) (h : tMin < tMax) :
    ∃ t' : K, unwrapParameter tMin tMax t = ok t' ∧ tMin ≤ t' ∧ t' < tMax ∧
      ∃ z : ℤ, t' = t + z * (tMax - tMin) :=
  unwrapParameter_spec tMin tMax t h

example := C11_unwrap (-1 : ℚ) 2 (17 / 2) (by norm_num)

/-- C11: evaluation of a periodic Bézier curve. -/
theorem C11_bezier (c : Bezier V) (hc : c.ctrl ≠ []) (hp : c.periodic = true) (t : K) :
    ∃ t' : K, 0 ≤ t' ∧ t' < 1 ∧ (∃ z : ℤ, t' = t + z) ∧
      evaluate c t = ok (Spec.bezierPoint c.ctrl t') := by
  obtain ⟨t', h, a, b, z, hz⟩ := unwrapParameter_spec (0 : K) 1 t zero_lt_one
  refine ⟨t', a, b, ⟨z, by rw [hz]; ring⟩, ?_⟩
  have : wrap true t = ok t' := h
  rw [evaluate_wrap, hp, this, ok_bind, evaluate_eq _ hc]

example := C11_bezier { exCubic with periodic := true } (by decide) rfl (-17 / 3 : ℚ)

/-- C11: all three evaluators of a periodic curve have period 1. -/
theorem C11_bezier_periodic (c : Bezier V) (hp : c.periodic = true) (t : K) (z : ℤ) :
    evaluate c (t + z) = evaluate c t ∧
    evaluateDerivative c (t + z) = evaluateDerivative c t ∧
    evaluate2ndDerivative c (t + z) = evaluate2ndDerivative c t := by
  have w : wrap true (t + z) = wrap true t := by
    have := unwrapParameter_add_period (0 : K) 1 t zero_lt_one z
    simpa [wrap] using this
  refine ⟨?_, ?_, ?_⟩
  · rw [evaluate_wrap, evaluate_wrap c t, hp, w]
  · rw [evaluateDerivative_wrap, evaluateDerivative_wrap c t, hp, w]
  · rw [evaluate2ndDerivative_wrap, evaluate2ndDerivative_wrap c t, hp, w]

example := C11_bezier_periodic { exCubic with periodic := true } rfl (1 / 3 : ℚ) (-4)

end General

/-! ### C05 -/

section Deriv

variable {V : Type} [NormedAddCommGroup V] [NormedSpace ℝ V]

/-- C05: the derivative functions are the true derivatives, for every degree and parameter. -/
theorem C05_derivative (c : Bezier V) (hc : c.ctrl ≠ []) (hp : c.periodic = false) :
    ∃ f f' f'' : ℝ → V, (∀ t, evaluate c t = ok (f t)) ∧
      (∀ t, evaluateDerivative c t = ok (f' t)) ∧
      (∀ t, evaluate2ndDerivative c t = ok (f'' t)) ∧
      (∀ t, HasDerivAt f (f' t) t) ∧ (∀ t, HasDerivAt f' (f'' t) t) := by
  obtain ⟨n, P, e⟩ := exists_arr c.ctrl hc
  have ec : c = { ctrl := arr (n + 1) P, periodic := false } := by
    cases c; simp_all
  subst ec
  have D : ∀ (q : ℝ[X]) (m : ℕ) (t : ℝ), HasDerivAt (fun t : ℝ => umb P (lin t ^ (m + 1) * q))
      ((m + 1 : ℝ) • umb P (lin t ^ m * (X - 1) * q)) t := by
    intro q m t
    have := hasDerivAt_umb P q (m + 1) t
    simpa using this
  rcases n with _ | _ | n
  · refine ⟨fun _ => P 0, fun _ => 0, fun _ => 0, ?_, evaluateDerivative_arr1 P,
      evaluate2ndDerivative_arr1 P, fun t => hasDerivAt_const t _, fun t => hasDerivAt_const t _⟩
    intro t
    rw [evaluate_arr]
    simp [umb_one]
  · refine ⟨fun t => umb P (lin t ^ 1), fun t => ((0 : ℕ) + 1 : ℝ) • umb P (lin t ^ 0 * (X - 1)),
      fun _ => 0, fun t => evaluate_arr 1 P t, ?_, evaluate2ndDerivative_arr2 P, ?_, ?_⟩
    · intro t
      rw [evaluateDerivative_arr 0 P t]
    · intro t
      simpa using D 1 0 t
    · intro t
      simp only [pow_zero]
      exact hasDerivAt_const t _
  · refine ⟨fun t => umb P (lin t ^ (n + 2)),
      fun t => ((n + 1 : ℕ) + 1 : ℝ) • umb P (lin t ^ (n + 1) * (X - 1)),
      fun t => ((n + 2 : ℝ) * (n + 1 : ℝ)) • umb P (lin t ^ n * (X - 1) ^ 2),
      fun t => evaluate_arr (n + 2) P t, ?_, fun t => evaluate2ndDerivative_arr n P t, ?_, ?_⟩
    · intro t
      rw [evaluateDerivative_arr (n + 1) P t]
    · intro t
      simpa using D 1 (n + 1) t
    · intro t
      have := (D (X - 1) n t).const_smul ((n + 1 : ℕ) + 1 : ℝ)
      have e : (((n + 1 : ℕ) : ℝ) + 1) • ((n + 1 : ℝ) • umb P (lin t ^ n * (X - 1) * (X - 1)))
          = ((n + 2 : ℝ) * (n + 1 : ℝ)) • umb P (lin t ^ n * (X - 1) ^ 2) := by
        rw [smul_smul]
        congr 1
        · push_cast; ring
        · congr 1; ring
      rw [e] at this
      exact this

example := C05_derivative ({ ctrl := [1, 5, 2] } : Bezier ℝ) (by simp) rfl

/-- C05: a periodic curve is differentiable with the returned derivative at every parameter that
is not an integer (the seam). -/
theorem C05_derivative_periodic (c : Bezier V) (hc : c.ctrl ≠ []) (hp : c.periodic = true) :
    ∃ f f' : ℝ → V, (∀ t, evaluate c t = ok (f t)) ∧ (∀ t, evaluateDerivative c t = ok (f' t)) ∧
      ∀ t : ℝ, (∀ z : ℤ, t ≠ (z : ℝ)) → HasDerivAt f (f' t) t := by
  obtain ⟨g, g', g'', hg, hg', _, hd, _⟩ := C05_derivative { ctrl := c.ctrl } hc rfl
  have w : ∀ t : ℝ, wrap c.periodic t = ok (t - ⌊t⌋) := by
    intro t
    rw [hp]
    have := unwrapParameter_eq (0 : ℝ) 1 t zero_lt_one
    simpa [wrap] using this
  refine ⟨fun t => g (t - ⌊t⌋), fun t => g' (t - ⌊t⌋), ?_, ?_, ?_⟩
  · intro t; rw [evaluate_wrap, w, ok_bind, hg]
  · intro t; rw [evaluateDerivative_wrap, w, ok_bind, hg']
  · intro t ht
    have hlt : (⌊t⌋ : ℝ) < t := lt_of_le_of_ne (Int.floor_le t) (fun h => ht ⌊t⌋ h.symm)
    have hgt : t < ⌊t⌋ + 1 := Int.lt_floor_add_one t
    have key : HasDerivAt (fun s : ℝ => g (s - ⌊t⌋)) (g' (t - ⌊t⌋)) t := by
      exact (hd (t - ⌊t⌋)).comp_sub_const t (⌊t⌋ : ℝ)
    apply key.congr_of_eventuallyEq
    have : Set.Ioo (⌊t⌋ : ℝ) (⌊t⌋ + 1) ∈ nhds t := Ioo_mem_nhds hlt hgt
    filter_upwards [this] with s hs
    have : ⌊s⌋ = ⌊t⌋ := by
      rw [Int.floor_eq_iff]
      exact ⟨hs.1.le, hs.2⟩
    rw [this]

end Deriv

/-! ### Non-vacuity -/

/-- A concrete cubic curve meeting the hypotheses of the theorems above. -/
example : ∃ c : Bezier ℚ, c.ctrl ≠ [] ∧ c.periodic = false ∧ c.ctrl.length = 4 ∧
    evaluate c (1 / 2 : ℚ) = ok (17 / 8) := by
  refine ⟨{ ctrl := [1, 2, 3, 1] }, by simp, rfl, rfl, ?_⟩
  rw [evaluate_eq _ (by simp)]
  simp [Spec.bezierPoint, Spec.bernstein, sum_range_succ, Nat.choose]
  norm_num

end NS.Props
