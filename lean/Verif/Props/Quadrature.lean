import Verif.Model.Quadrature
import Mathlib.Analysis.SpecialFunctions.Integrals.Basic
import Mathlib.Algebra.Polynomial.Eval.Degree

/-!
# C45: Gauss quadrature
-/

set_option linter.unusedSectionVars false
set_option linter.unusedSimpArgs false

namespace NS
namespace Quadrature

open Outcome Polynomial

/-! ## Polynomials on an interval in the coordinate of the reference interval -/

/-- A polynomial of degree below ten on `[t0, t1]` in the coordinate `x` of `[-1, 1]`, with its
integral. -/
theorem local_form (P : ℝ[X]) (t0 t1 : ℝ) {n : ℕ} (hn : P.natDegree < n) :
    ∃ c : ℕ → ℝ, (∀ i, n ≤ i → c i = 0) ∧
      (∀ x, P.eval (t0 + (t1 - t0) / 2 * (x + 1)) = ∑ i ∈ Finset.range n, c i * x ^ i) ∧
      ∫ x in t0..t1, P.eval x =
        (t1 - t0) / 2 * ∑ i ∈ Finset.range n, c i * ((1 - (-1) ^ (i + 1)) / (i + 1)) := by
  obtain ⟨L, hL⟩ : ∃ L : ℝ[X], L = C ((t1 - t0) / 2) * X + C (t0 + (t1 - t0) / 2) := ⟨_, rfl⟩
  have hLe : ∀ x, L.eval x = (t1 - t0) / 2 * x + (t0 + (t1 - t0) / 2) := by
    intro x; rw [hL]; simp
  have hd : (P.comp L).natDegree < n := by
    have h1 : L.natDegree ≤ 1 := by rw [hL]; exact natDegree_linear_le
    exact lt_of_le_of_lt (natDegree_comp_le.trans (by nlinarith)) hn
  have hx : ∀ x, P.eval ((t1 - t0) / 2 * x + (t0 + (t1 - t0) / 2)) =
      ∑ i ∈ Finset.range n, (P.comp L).coeff i * x ^ i := by
    intro x
    rw [← eval_eq_sum_range' hd, eval_comp, hLe]
  refine ⟨(P.comp L).coeff, fun i hi => coeff_eq_zero_of_natDegree_lt (lt_of_lt_of_le hd hi), ?_, ?_⟩
  · intro x
    rw [← hx]
    congr 1; ring
  · have h1 := intervalIntegral.mul_integral_comp_mul_add (f := fun y => P.eval y) (a := -1) (b := 1)
      ((t1 - t0) / 2) (t0 + (t1 - t0) / 2)
    rw [show (t1 - t0) / 2 * -1 + (t0 + (t1 - t0) / 2) = t0 by ring,
      show (t1 - t0) / 2 * 1 + (t0 + (t1 - t0) / 2) = t1 by ring] at h1
    rw [← h1]
    congr 1
    simp only [hx]
    rw [intervalIntegral.integral_finsetSum]
    · refine Finset.sum_congr rfl fun i _ => ?_
      rw [intervalIntegral.integral_const_mul, integral_pow]
      simp
    · intro i _
      exact ((continuous_const.mul (continuous_pow i)).intervalIntegrable _ _)

/-- C45: with two points, polynomials of degree at most three are integrated exactly. -/
theorem C45_gauss2 (P : ℝ[X]) (h : P.natDegree ≤ 3) (t0 t1 : ℝ) :
    integrate 2 (fun x => ok (P.eval x)) t0 t1 = ok (∫ x in t0..t1, P.eval x) := by
  obtain ⟨c, -, hx, hi⟩ := local_form P t0 t1 (n := 4) (by omega)
  have h3 : (1 / √3 : ℝ) ^ 2 = 1 / 3 := by
    rw [div_pow, Real.sq_sqrt (by norm_num)]; norm_num
  rw [hi, integrate, if_pos rfl]
  simp only [integrate2, ok_bind, pure_eq, neg_div]
  rw [ok.injEq, hx, hx]
  generalize (1 / √3 : ℝ) = r at h3 ⊢
  simp only [Finset.sum_range_succ, Finset.sum_range_zero]
  push_cast
  linear_combination (t1 - t0) * c 2 * h3

/-- C45: with three points, degree at most five. -/
theorem C45_gauss3 (P : ℝ[X]) (h : P.natDegree ≤ 5) (t0 t1 : ℝ) :
    integrate 3 (fun x => ok (P.eval x)) t0 t1 = ok (∫ x in t0..t1, P.eval x) := by
  obtain ⟨c, -, hx, hi⟩ := local_form P t0 t1 (n := 6) (by omega)
  have h3 : (√(3 / 5) : ℝ) ^ 2 = 3 / 5 := Real.sq_sqrt (by norm_num)
  rw [hi, integrate, if_neg (by decide), if_pos rfl]
  simp only [integrate3, ok_bind, pure_eq]
  rw [ok.injEq, hx, hx, show 1 / 2 * (t0 + t1) = t0 + (t1 - t0) / 2 * (0 + 1) by ring, hx]
  generalize (√(3 / 5) : ℝ) = r at h3 ⊢
  simp only [Finset.sum_range_succ, Finset.sum_range_zero]
  push_cast
  linear_combination (t1 - t0) * (5 / 9) * (c 2 + c 4 * (r ^ 2 + 3 / 5)) * h3

/-- C45: with four points, degree at most seven. -/
theorem C45_gauss4 (P : ℝ[X]) (h : P.natDegree ≤ 7) (t0 t1 : ℝ) :
    integrate 4 (fun x => ok (P.eval x)) t0 t1 = ok (∫ x in t0..t1, P.eval x) := by
  obtain ⟨c, -, hx, hi⟩ := local_form P t0 t1 (n := 8) (by omega)
  have e30 : (√30 : ℝ) = 5 * √(6 / 5) := by
    rw [show (30 : ℝ) = 5 ^ 2 * (6 / 5) by norm_num, Real.sqrt_mul (by norm_num),
      Real.sqrt_sq (by norm_num)]
  have hs : (√(6 / 5) : ℝ) ^ 2 = 6 / 5 := Real.sq_sqrt (by norm_num)
  have hs1 : (√(6 / 5) : ℝ) ≤ 3 / 2 := by
    rw [Real.sqrt_le_left (by norm_num)]; norm_num
  have hs0 : (0 : ℝ) ≤ √(6 / 5) := Real.sqrt_nonneg _
  rw [hi, integrate, if_neg (by decide), if_neg (by decide), if_pos rfl]
  simp only [integrate4, ok_bind, pure_eq]
  rw [ok.injEq, hx, hx, hx, hx, e30]
  have h0 : (√(3 / 7 - 2 / 7 * √(6 / 5)) : ℝ) ^ 2 = 3 / 7 - 2 / 7 * √(6 / 5) :=
    Real.sq_sqrt (by linarith)
  have h1 : (√(3 / 7 + 2 / 7 * √(6 / 5)) : ℝ) ^ 2 = 3 / 7 + 2 / 7 * √(6 / 5) :=
    Real.sq_sqrt (by linarith)
  generalize (√(3 / 7 - 2 / 7 * √(6 / 5)) : ℝ) = r0 at h0 ⊢
  generalize (√(3 / 7 + 2 / 7 * √(6 / 5)) : ℝ) = r1 at h1 ⊢
  generalize (√(6 / 5) : ℝ) = s at h0 h1 hs ⊢
  have p0 : ∀ n, r0 ^ (2 * n) = (3 / 7 - 2 / 7 * s) ^ n := fun n => by rw [pow_mul, h0]
  have p1 : ∀ n, r1 ^ (2 * n) = (3 / 7 + 2 / 7 * s) ^ n := fun n => by rw [pow_mul, h1]
  have a2 := p0 2; have a3 := p0 3; have b2 := p1 2; have b3 := p1 3
  norm_num at a2 a3 b2 b3
  simp only [Finset.sum_range_succ, Finset.sum_range_zero]
  push_cast
  have g2 : (18 + 5 * s) * (3 / 7 - 2 / 7 * s) + (18 - 5 * s) * (3 / 7 + 2 / 7 * s) = 12 := by
    linear_combination (-(20 / 7)) * hs
  have g4 : (18 + 5 * s) * (3 / 7 - 2 / 7 * s) ^ 2 + (18 - 5 * s) * (3 / 7 + 2 / 7 * s) ^ 2 = 36 / 5 := by
    linear_combination (24 / 49) * hs
  have g6 : (18 + 5 * s) * (3 / 7 - 2 / 7 * s) ^ 3 + (18 - 5 * s) * (3 / 7 + 2 / 7 * s) ^ 3 = 36 / 7 := by
    linear_combination (-(80 / 343) * s ^ 2 + 756 / 343 - 80 / 343 * (6 / 5)) * hs
  linear_combination (t1 - t0) / 36 * (c 2 * ((18 + 5 * s) * h0 + (18 - 5 * s) * h1 + g2) +
    c 4 * ((18 + 5 * s) * a2 + (18 - 5 * s) * b2 + g4) +
    c 6 * ((18 + 5 * s) * a3 + (18 - 5 * s) * b3 + g6))

/-- C45: with five points, degree at most nine. -/
theorem C45_gauss5 (P : ℝ[X]) (h : P.natDegree ≤ 9) (t0 t1 : ℝ) :
    integrate 5 (fun x => ok (P.eval x)) t0 t1 = ok (∫ x in t0..t1, P.eval x) := by
  obtain ⟨c, -, hx, hi⟩ := local_form P t0 t1 (n := 10) (by omega)
  have e70 : (√70 : ℝ) = 7 * √(10 / 7) := by
    rw [show (70 : ℝ) = 7 ^ 2 * (10 / 7) by norm_num, Real.sqrt_mul (by norm_num),
      Real.sqrt_sq (by norm_num)]
  have hs : (√(10 / 7) : ℝ) ^ 2 = 10 / 7 := Real.sq_sqrt (by norm_num)
  have hs1 : (√(10 / 7) : ℝ) ≤ 2 := by
    rw [Real.sqrt_le_left (by norm_num)]; norm_num
  have hs0 : (0 : ℝ) ≤ √(10 / 7) := Real.sqrt_nonneg _
  rw [hi, integrate, if_neg (by decide), if_neg (by decide), if_neg (by decide), if_pos rfl]
  simp only [integrate5, ok_bind, pure_eq]
  rw [ok.injEq, hx, hx, hx, hx, show 1 / 2 * (t0 + t1) = t0 + (t1 - t0) / 2 * (0 + 1) by ring, hx, e70]
  have h0 : (√(5 - 2 * √(10 / 7)) / 3 : ℝ) ^ 2 = (5 - 2 * √(10 / 7)) / 9 := by
    rw [div_pow, Real.sq_sqrt (by linarith)]; norm_num
  have h1 : (√(5 + 2 * √(10 / 7)) / 3 : ℝ) ^ 2 = (5 + 2 * √(10 / 7)) / 9 := by
    rw [div_pow, Real.sq_sqrt (by linarith)]; norm_num
  generalize (√(5 - 2 * √(10 / 7)) / 3 : ℝ) = r0 at h0 ⊢
  generalize (√(5 + 2 * √(10 / 7)) / 3 : ℝ) = r1 at h1 ⊢
  generalize (√(10 / 7) : ℝ) = s at h0 h1 hs ⊢
  have p0 : ∀ n, r0 ^ (2 * n) = ((5 - 2 * s) / 9) ^ n := fun n => by rw [pow_mul, h0]
  have p1 : ∀ n, r1 ^ (2 * n) = ((5 + 2 * s) / 9) ^ n := fun n => by rw [pow_mul, h1]
  have a2 := p0 2; have a3 := p0 3; have b2 := p1 2; have b3 := p1 3
  have a4 := p0 4; have b4 := p1 4
  norm_num at a2 a3 b2 b3 a4 b4
  simp only [Finset.sum_range_succ, Finset.sum_range_zero]
  push_cast
  have s4 : s ^ 4 = 100 / 49 := by rw [show s ^ 4 = (s ^ 2) ^ 2 by ring, hs]; norm_num
  have g2 : (322 + 91 * s) * ((5 - 2 * s) / 9) + (322 - 91 * s) * ((5 + 2 * s) / 9) = 300 := by
    linear_combination (-(364 / 9)) * hs
  have g4 : (322 + 91 * s) * ((5 - 2 * s) / 9) ^ 2 + (322 - 91 * s) * ((5 + 2 * s) / 9) ^ 2 = 180 := by
    linear_combination (-(1064 / 81)) * hs
  have g6 : (322 + 91 * s) * ((5 - 2 * s) / 9) ^ 3 + (322 - 91 * s) * ((5 + 2 * s) / 9) ^ 3 = 900 / 7 := by
    nlinarith [hs, s4]
  have g8 : (322 + 91 * s) * ((5 - 2 * s) / 9) ^ 4 + (322 - 91 * s) * ((5 + 2 * s) / 9) ^ 4 = 100 := by
    have s6 : s ^ 6 = 1000 / 343 := by rw [show s ^ 6 = (s ^ 2) ^ 3 by ring, hs]; norm_num
    nlinarith [hs, s4]
  linear_combination (t1 - t0) / 900 * (c 2 * ((322 + 91 * s) * h0 + (322 - 91 * s) * h1 + g2) +
    c 4 * ((322 + 91 * s) * a2 + (322 - 91 * s) * b2 + g4) +
    c 6 * ((322 + 91 * s) * a3 + (322 - 91 * s) * b3 + g6) +
    c 8 * ((322 + 91 * s) * a4 + (322 - 91 * s) * b4 + g8))

/-- C45: any other number of points is rejected. -/
theorem C45_other (N : ℕ) (h : N < 2 ∨ 5 < N) (f : ℝ → Outcome ℝ) (t0 t1 : ℝ) :
    integrate N f t0 t1 = Outcome.throw .notImplemented := by
  rw [integrate, if_neg (by omega), if_neg (by omega), if_neg (by omega), if_neg (by omega)]

/-- C45: the integrand is only evaluated strictly inside the interval, so an integrand defined there can
be integrated. -/
theorem C45_inside (N : ℕ) (hN : 2 ≤ N ∧ N ≤ 5) (f : ℝ → Outcome ℝ) (t0 t1 : ℝ) (ht : t0 < t1)
    (hf : ∀ x, t0 < x → x < t1 → ∃ y, f x = ok y) : ∃ y, integrate N f t0 t1 = ok y := by
  have key : ∀ r : ℝ, -1 < r → r < 1 → ∃ y, f (t0 + (t1 - t0) / 2 * (r + 1)) = ok y := by
    intro r h1 h2
    refine hf _ ?_ ?_ <;> nlinarith
  have lt1 : ∀ x : ℝ, 0 ≤ x → x ^ 2 < 1 → -1 < x ∧ x < 1 ∧ -1 < -x ∧ -x < 1 := by
    intro x h0 h1
    have : x < 1 := by nlinarith
    exact ⟨by linarith, this, by linarith, by linarith⟩
  have mid : ∃ y, f (1 / 2 * (t0 + t1)) = ok y := hf _ (by linarith) (by linarith)
  obtain rfl | rfl | rfl | rfl : N = 2 ∨ N = 3 ∨ N = 4 ∨ N = 5 := by omega
  · rw [integrate, if_pos rfl]
    have h3 : (1 / √3 : ℝ) ^ 2 = 1 / 3 := by
      rw [div_pow, Real.sq_sqrt (by norm_num)]; norm_num
    obtain ⟨a, b, c, d⟩ := lt1 (1 / √3) (by positivity) (by rw [h3]; norm_num)
    obtain ⟨y0, e0⟩ := key _ c d
    obtain ⟨y1, e1⟩ := key _ a b
    simp only [integrate2, neg_div, e0, e1, ok_bind, pure_eq]
    exact ⟨_, rfl⟩
  · rw [integrate, if_neg (by decide), if_pos rfl]
    obtain ⟨a, b, c, d⟩ := lt1 (√(3 / 5)) (by positivity) (by rw [Real.sq_sqrt] <;> norm_num)
    obtain ⟨y, e⟩ := mid
    obtain ⟨y0, e0⟩ := key _ c d
    obtain ⟨y1, e1⟩ := key _ a b
    simp only [integrate3, e, e0, e1, ok_bind, pure_eq]
    exact ⟨_, rfl⟩
  · rw [integrate, if_neg (by decide), if_neg (by decide), if_pos rfl]
    have hs1 : (√(6 / 5) : ℝ) ≤ 3 / 2 := by
      rw [Real.sqrt_le_left (by norm_num)]; norm_num
    have hs0 : (0 : ℝ) ≤ √(6 / 5) := Real.sqrt_nonneg _
    obtain ⟨a, b, c, d⟩ := lt1 (√(3 / 7 - 2 / 7 * √(6 / 5))) (Real.sqrt_nonneg _)
      (by rw [Real.sq_sqrt] <;> linarith)
    obtain ⟨a', b', c', d'⟩ := lt1 (√(3 / 7 + 2 / 7 * √(6 / 5))) (Real.sqrt_nonneg _)
      (by rw [Real.sq_sqrt] <;> linarith)
    obtain ⟨y0, e0⟩ := key _ c d
    obtain ⟨y1, e1⟩ := key _ a b
    obtain ⟨y2, e2⟩ := key _ c' d'
    obtain ⟨y3, e3⟩ := key _ a' b'
    simp only [integrate4, e0, e1, e2, e3, ok_bind, pure_eq]
    exact ⟨_, rfl⟩
  · rw [integrate, if_neg (by decide), if_neg (by decide), if_neg (by decide), if_pos rfl]
    have hs1 : (√(10 / 7) : ℝ) < 3 / 2 := by
      rw [Real.sqrt_lt' (by norm_num)]; norm_num
    have hs0 : (0 : ℝ) ≤ √(10 / 7) := Real.sqrt_nonneg _
    have q : ∀ x : ℝ, 0 ≤ x → x < 9 → (√x / 3) ^ 2 < 1 := by
      intro x h0 h1
      rw [div_pow, Real.sq_sqrt h0]; linarith
    obtain ⟨a, b, c, d⟩ := lt1 (√(5 - 2 * √(10 / 7)) / 3) (by positivity)
      (q _ (by linarith) (by linarith))
    obtain ⟨a', b', c', d'⟩ := lt1 (√(5 + 2 * √(10 / 7)) / 3) (by positivity)
      (q _ (by linarith) (by linarith))
    obtain ⟨y, e⟩ := mid
    obtain ⟨y0, e0⟩ := key _ c d
    obtain ⟨y1, e1⟩ := key _ a b
    obtain ⟨y2, e2⟩ := key _ c' d'
    obtain ⟨y3, e3⟩ := key _ a' b'
    simp only [integrate5, e, e0, e1, e2, e3, ok_bind, pure_eq]
    exact ⟨_, rfl⟩

/-- Concrete case: `x ^ 9` on `[-2, 5]` with five points. -/
example : integrate 5 (fun x => ok ((X ^ 9 : ℝ[X]).eval x)) (-2) 5 = ok ((5 ^ 10 - 2 ^ 10) / 10) := by
  rw [C45_gauss5 _ (by simp)]
  simp only [eval_pow, eval_X]
  rw [integral_pow]
  norm_num

end Quadrature
end NS
