import Mathlib.Algebra.Polynomial.Basic
import Mathlib.RingTheory.Polynomial.Bernstein
import Mathlib.Tactic.LinearCombination
import Mathlib.Tactic.FieldSimp
import Mathlib.Tactic.Module
import Verif.Spec.Bernstein

/-!
# Umbral calculus

`umb P` sends the polynomial `Σ a_i X^i` to `Σ a_i P_i`.  Blossoms of Bézier curves become
products of the commuting linear polynomials `(1 - t) + t X`.
-/

namespace NS

open Polynomial Finset

variable {K V W : Type} [Field K] [AddCommGroup V] [Module K V] [AddCommGroup W] [Module K W]

/-- Evaluation of a polynomial on a sequence of points. -/
noncomputable def umb (P : ℕ → V) : K[X] →ₗ[K] V :=
  Polynomial.lsum (fun i => LinearMap.toSpanSingleton K V (P i))

theorem umb_monomial (P : ℕ → V) (i : ℕ) (a : K) : umb P (monomial i a) = a • P i := by
  simp [umb, Polynomial.lsum_apply, Polynomial.sum_monomial_index]

theorem umb_C_mul_X_pow (P : ℕ → V) (i : ℕ) (a : K) : umb P (C a * X ^ i) = a • P i := by
  rw [C_mul_X_pow_eq_monomial, umb_monomial]

theorem umb_X_pow (P : ℕ → V) (i : ℕ) : umb P ((X : K[X]) ^ i) = P i := by
  have := umb_C_mul_X_pow (K := K) P i 1
  simpa using this

theorem umb_one (P : ℕ → V) : umb P (1 : K[X]) = P 0 := by
  simpa using umb_X_pow (K := K) P 0

theorem umb_C_mul (P : ℕ → V) (a : K) (p : K[X]) : umb P (C a * p) = a • umb P p := by
  rw [← smul_eq_C_mul, map_smul]

/-- The linear factor `(1 - t) + t X`. -/
noncomputable def lin (t : K) : K[X] := C (1 - t) + C t * X

theorem umb_lin_mul (P : ℕ → V) (t : K) (p : K[X]) :
    umb P (lin t * p) = (1 - t) • umb P p + t • umb P (X * p) := by
  rw [lin, add_mul, map_add, umb_C_mul, mul_assoc, umb_C_mul]

theorem lin_pow (t : K) (n : ℕ) :
    lin t ^ n = ∑ i ∈ range (n + 1), C (Spec.bernstein n i t) * X ^ i := by
  rw [lin, add_comm, add_pow]
  apply sum_congr rfl
  intro i _
  simp only [Spec.bernstein, map_mul, map_pow, map_natCast, mul_pow]
  ring

theorem umb_lin_pow (P : ℕ → V) (t : K) (n : ℕ) :
    umb P (lin t ^ n) = ∑ i ∈ range (n + 1), Spec.bernstein n i t • P i := by
  rw [lin_pow, map_sum]
  exact sum_congr rfl (fun i _ => umb_C_mul_X_pow P i _)

/-- Composition of Bézier forms: replacing `P_i` by `umb P (a^(n-i) b^i)` evaluates to
`((1-s) a + s b)^n`. -/
theorem umb_compose (P : ℕ → V) (a b : K[X]) (n : ℕ) (s : K) :
    ∑ i ∈ range (n + 1), Spec.bernstein n i s • umb P (a ^ (n - i) * b ^ i)
      = umb P ((C (1 - s) * a + C s * b) ^ n) := by
  rw [add_comm (C (1 - s) * a), add_pow, map_sum]
  apply sum_congr rfl
  intro i _
  rw [← umb_C_mul]
  congr 1
  simp only [Spec.bernstein, map_mul, map_pow, map_natCast, mul_pow]
  ring

theorem lin_affine (s a b : K) :
    C (1 - s) * lin a + C s * lin b = lin ((1 - s) * a + s * b) := by
  simp only [lin, map_add, map_sub, map_mul, map_one]
  ring

theorem lin_zero : lin (0 : K) = 1 := by simp [lin]

theorem lin_one : lin (1 : K) = X := by simp [lin]

theorem umb_map (f : V →ₗ[K] W) (P : ℕ → V) (p : K[X]) : f (umb P p) = umb (fun i => f (P i)) p := by
  induction p using Polynomial.induction_on' with
  | add p q hp hq => simp [hp, hq]
  | monomial i a => simp [umb_monomial]

theorem bernstein_eq_eval (n i : ℕ) (t : K) :
    Spec.bernstein n i t = (bernsteinPolynomial K n i).eval t := by
  simp [Spec.bernstein, bernsteinPolynomial]

theorem bernstein_sum (n : ℕ) (t : K) : ∑ i ∈ range (n + 1), Spec.bernstein n i t = 1 := by
  have h := bernsteinPolynomial.sum K n
  have := congrArg (Polynomial.eval t) h
  rw [Polynomial.eval_finsetSum, Polynomial.eval_one] at this
  rw [← this]
  exact sum_congr rfl (fun i _ => bernstein_eq_eval n i t)

theorem umb_congr (P Q : ℕ → V) (p : K[X]) (n : ℕ) (hp : p.natDegree ≤ n)
    (h : ∀ i ≤ n, P i = Q i) : umb P p = umb Q p := by
  simp only [umb, Polynomial.lsum_apply, Polynomial.sum]
  apply sum_congr rfl
  intro i hi
  have : i ≤ n := le_trans (le_natDegree_of_mem_supp i hi) hp
  simp [h i this]

theorem umb_shift (P : ℕ → V) (p : K[X]) : umb P (X * p) = umb (fun i => P (i + 1)) p := by
  induction p using Polynomial.induction_on' with
  | add p q hp hq => simp [mul_add, hp, hq]
  | monomial i a => rw [X_mul_monomial, umb_monomial, umb_monomial]

end NS
