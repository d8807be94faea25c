import Mathlib.Tactic.Ring
import Verif.Proof.Umbral

/-!
# Power basis of Bernstein forms

Coefficient lists in `t`, lowest power first.
-/

namespace NS
namespace Features

open Polynomial Finset

section Lists

variable {K : Type} [CommRing K]

/-- Value of a coefficient list. -/
def evalP : List K → K → K
  | [], _ => 0
  | a :: p, t => a + t * evalP p t

def addP : List K → List K → List K
  | [], q => q
  | p, [] => p
  | a :: p, b :: q => (a + b) :: addP p q

def smulP (a : K) : List K → List K
  | [] => []
  | b :: q => (a * b) :: smulP a q

def mulP : List K → List K → List K
  | [], _ => []
  | a :: p, q => addP (smulP a q) (0 :: mulP p q)

@[simp] theorem evalP_nil (t : K) : evalP [] t = 0 := rfl
@[simp] theorem evalP_cons (a : K) (p : List K) (t : K) : evalP (a :: p) t = a + t * evalP p t := rfl

theorem evalP_addP : ∀ (p q : List K) (t : K), evalP (addP p q) t = evalP p t + evalP q t
  | [], q, t => by simp [addP]
  | a :: p, [], t => by simp [addP]
  | a :: p, b :: q, t => by
    rw [addP, evalP_cons, evalP_addP p q t, evalP_cons, evalP_cons]; ring

theorem evalP_smulP (a : K) : ∀ (p : List K) (t : K), evalP (smulP a p) t = a * evalP p t
  | [], t => by simp [smulP]
  | b :: p, t => by rw [smulP, evalP_cons, evalP_smulP a p t, evalP_cons]; ring

theorem evalP_mulP : ∀ (p q : List K) (t : K), evalP (mulP p q) t = evalP p t * evalP q t
  | [], q, t => by simp [mulP]
  | a :: p, q, t => by
    rw [mulP, evalP_addP, evalP_smulP, evalP_cons, evalP_mulP p q t, evalP_cons]; ring

theorem evalP_append_zero : ∀ (p : List K) (n : ℕ) (t : K),
    evalP (p ++ List.replicate n 0) t = evalP p t
  | [], 0, t => rfl
  | [], n + 1, t => by
    have := evalP_append_zero [] n t
    simp only [List.nil_append] at this
    rw [List.nil_append, List.replicate_succ, evalP_cons, this]
    simp
  | a :: p, n, t => by
    rw [List.cons_append, evalP_cons, evalP_append_zero p n t, evalP_cons]

theorem evalP_map_range (f : ℕ → K) (n : ℕ) (t : K) :
    evalP ((List.range n).map f) t = ∑ i ∈ range n, f i * t ^ i := by
  have : ∀ (n : ℕ) (f : ℕ → K), evalP ((List.range n).map f) t = ∑ i ∈ range n, f i * t ^ i := by
    intro n
    induction n with
    | zero => intro f; simp
    | succ n ih =>
      intro f
      rw [List.range_succ_eq_map, List.map_cons, evalP_cons, List.map_map, ih,
        Finset.sum_range_succ', Finset.mul_sum]
      simp only [Function.comp_apply, pow_zero, mul_one]
      rw [add_comm]
      congr 1
      refine Finset.sum_congr rfl fun i _ => ?_
      rw [pow_succ]; ring
  exact this n f

/-- The forward differences of a sequence at `0`. -/
def fwd (x : ℕ → K) (i : ℕ) : K :=
  ∑ j ∈ range (i + 1), (-1) ^ (i - j) * (i.choose j : K) * x j

/-- `a Σ_i C(n, i) Δ^(i + k) x t^i`. -/
def hodo (a n k : ℕ) (x : ℕ → K) : List K :=
  (List.range (n + 1)).map fun i => ((a * n.choose i : ℕ) : K) * fwd x (i + k)

end Lists

variable {K : Type} [Field K]

theorem umb_sub_one_pow (x : ℕ → K) (i : ℕ) : umb x ((X - 1 : K[X]) ^ i) = fwd x i := by
  have : (X - 1 : K[X]) ^ i
      = ∑ j ∈ range (i + 1), C ((-1) ^ (i - j) * (i.choose j : K)) * X ^ j := by
    rw [sub_eq_add_neg, add_pow]
    refine Finset.sum_congr rfl fun j _ => ?_
    simp only [map_mul, map_pow, map_neg, map_one, map_natCast]
    ring
  rw [this, map_sum, fwd]
  refine Finset.sum_congr rfl fun j _ => ?_
  rw [umb_C_mul_X_pow, smul_eq_mul]

theorem evalP_hodo (a n k : ℕ) (x : ℕ → K) (t : K) :
    evalP (hodo a n k x) t = (a : K) * umb x (lin t ^ n * (X - 1) ^ k) := by
  have : lin t ^ n * (X - 1 : K[X]) ^ k
      = ∑ i ∈ range (n + 1), C ((n.choose i : K) * t ^ i) * (X - 1) ^ (i + k) := by
    have h1 : lin t = C t * (X - 1) + 1 := by
      simp only [lin, map_sub, map_one]; ring
    rw [h1, add_pow, Finset.sum_mul]
    refine Finset.sum_congr rfl fun j _ => ?_
    simp only [map_mul, map_pow, map_natCast, one_pow, mul_pow]
    ring
  rw [this, map_sum, hodo, evalP_map_range, Finset.mul_sum]
  refine Finset.sum_congr rfl fun i _ => ?_
  rw [umb_C_mul, umb_sub_one_pow, smul_eq_mul]
  push_cast
  ring

end Features
end NS
