import Verif.Proof.Smooth

/-!
# Affine substitutions in blossoms

If `Q` are the Bézier points of a polynomial of degree `p`, the points `moved a b Q p` below are
those of the polynomial after the substitution that takes `0` and `1` to `a` and `b`.
-/

set_option linter.unusedSectionVars false

namespace NS

open Polynomial Finset

variable {K V : Type} [Field K] [LinearOrder K] [IsStrictOrderedRing K] [FloorRing K]
  [AddCommGroup V] [Module K V]

/-- The points obtained from the factors `g`, `a` and `b`. -/
noncomputable def trans (Q : ℕ → V) (a b : K[X]) (n : ℕ) (g : K[X]) (i : ℕ) : V :=
  umb Q (g * (a ^ (n - i) * b ^ i))

theorem umb_fun_add (P R : ℕ → V) (f : K[X]) :
    umb (fun i => P i + R i) f = umb P f + umb R f := by
  induction f using Polynomial.induction_on' with
  | add f g hf hg => simp only [map_add, hf, hg]; abel
  | monomial i c => simp only [umb_monomial, smul_add]

theorem umb_fun_smul (c : K) (P : ℕ → V) (f : K[X]) :
    umb (fun i => c • P i) f = c • umb P f := by
  induction f using Polynomial.induction_on' with
  | add f g hf hg => simp only [map_add, hf, hg, smul_add]
  | monomial i d => simp only [umb_monomial, smul_smul, mul_comm]

theorem trans_comb (Q : ℕ → V) (a b : K[X]) (n : ℕ) (g h f : K[X]) (c d : K) :
    umb (trans Q a b n (C c * g + C d * h)) f
      = c • umb (trans Q a b n g) f + d • umb (trans Q a b n h) f := by
  rw [← umb_fun_smul, ← umb_fun_smul, ← umb_fun_add]
  congr 2
  funext i
  simp only [trans, add_mul, map_add, mul_assoc, umb_C_mul]

theorem trans_X (Q : ℕ → V) (a b : K[X]) (n : ℕ) (g f : K[X]) :
    umb (trans Q a b (n + 1) g) (X * f) = umb (trans Q a b n (g * b)) f := by
  rw [umb_shift]
  congr 2
  funext i
  simp only [trans]
  rw [Nat.add_sub_add_right, pow_succ]
  congr 1
  ring

theorem trans_one (Q : ℕ → V) (a b : K[X]) (n : ℕ) (g f : K[X]) (hf : f.natDegree ≤ n) :
    umb (trans Q a b (n + 1) g) f = umb (trans Q a b n (g * a)) f := by
  refine umb_congr _ _ _ n hf fun i hi => ?_
  simp only [trans]
  rw [Nat.sub_add_comm hi, pow_succ]
  congr 1
  ring

theorem trans_lin (Q : ℕ → V) (a b : K[X]) (n : ℕ) (g f : K[X]) (s : K) (hf : f.natDegree ≤ n) :
    umb (trans Q a b (n + 1) g) (lin s * f)
      = umb (trans Q a b n (g * (C (1 - s) * a + C s * b))) f := by
  rw [umb_lin_mul, trans_X, trans_one _ _ _ _ _ _ hf, ← trans_comb]
  have e : C (1 - s) * (g * a) + C s * (g * b) = g * (C (1 - s) * a + C s * b) := by ring
  rw [e]

theorem trans_diff (Q : ℕ → V) (a b : K[X]) (n : ℕ) (g f : K[X]) (hf : f.natDegree ≤ n) :
    umb (trans Q a b (n + 1) g) ((X - 1) * f) = umb (trans Q a b n (g * (b - a))) f := by
  rw [sub_mul, one_mul, map_sub, trans_X, trans_one _ _ _ _ _ _ hf]
  have := trans_comb Q a b n (g * b) (g * a) f 1 (-1)
  rw [one_smul, neg_one_smul, ← sub_eq_add_neg] at this
  have e : C (1 : K) * (g * b) + C (-1) * (g * a) = g * (b - a) := by
    simp only [map_one, map_neg]
    ring
  rw [← this, e]

theorem trans_prod (Q : ℕ → V) (a b : K[X]) (s : ℕ → K) : ∀ n j (g : K[X]),
    umb (trans Q a b n g) (lprod s j n)
      = umb Q (g * ∏ i ∈ range n, (C (1 - s (j + i)) * a + C (s (j + i)) * b))
  | 0, j, g => by
    have : (1 : K[X]) = X ^ 0 := by simp
    rw [lprod_zero, this, umb_X_pow]
    simp [trans]
  | n + 1, j, g => by
    have e : ∏ i ∈ range n, (C (1 - s (j + 1 + i)) * a + C (s (j + 1 + i)) * b)
        = ∏ i ∈ range n, (C (1 - s (j + (i + 1))) * a + C (s (j + (i + 1))) * b) :=
      prod_congr rfl fun i _ => by rw [show j + 1 + i = j + (i + 1) by omega]
    rw [lprod_succ', trans_lin _ _ _ _ _ _ _ (natDegree_lprod _ _ _), trans_prod Q a b s n (j + 1),
      e, prod_range_succ', add_zero]
    refine congrArg (umb Q) ?_
    ring

/-- The Bézier points after the substitution `t ↦ x + y t`. -/
noncomputable def moved (Q : ℕ → V) (p : ℕ) (x y : K) : ℕ → V :=
  trans Q (lin x) (lin (x + y)) p 1

theorem moved_factor (x y s : K) :
    C (1 - s) * lin x + C s * lin (x + y) = lin (x + y * s) := by
  rw [lin_affine]
  congr 1
  ring

/-- Blossom values after the substitution. -/
theorem moved_prod (Q : ℕ → V) (p : ℕ) (x y : K) (s : ℕ → K) (j : ℕ) :
    umb (moved Q p x y) (lprod s j p) = umb Q (lprod (fun i => x + y * s i) j p) := by
  rw [moved, trans_prod, one_mul]
  congr 1
  refine prod_congr rfl fun i _ => moved_factor x y _

theorem lin_pow_eq (t : K) (n : ℕ) : lin t ^ n = lprod (fun _ => t) 0 n :=
  (lprod_const fun _ _ => rfl).symm

theorem moved_value (Q : ℕ → V) (p : ℕ) (x y t : K) :
    umb (moved Q p x y) (lin t ^ p) = umb Q (lin (x + y * t) ^ p) := by
  rw [lin_pow_eq, moved_prod, lin_pow_eq]

theorem lin_diff (x y : K) : lin (x + y) - lin x = C y * (X - 1) := by
  rw [BSpline.lin_sub]
  congr 2
  ring

theorem moved_deriv (Q : ℕ → V) (p : ℕ) (x y t : K) :
    umb (BSpline.diffQ (K := K) p (moved Q p x y)) (lin t ^ (p - 1))
      = y • umb (BSpline.diffQ (K := K) p Q) (lin (x + y * t) ^ (p - 1)) := by
  rw [BSpline.umb_diffQ, BSpline.umb_diffQ]
  rcases p with _ | n
  · simp
  · rw [Nat.add_sub_cancel, lin_pow_eq, moved, trans_diff _ _ _ _ _ _ (natDegree_lprod _ _ _),
      trans_prod, one_mul, lin_diff, smul_comm y, ← umb_C_mul _ y, mul_assoc,
      prod_congr rfl (g := fun i => lin (x + y * t)) fun i _ => moved_factor x y _, prod_const,
      card_range]

theorem moved_deriv2 (Q : ℕ → V) (p : ℕ) (x y t : K) :
    umb (BSpline.diffQ (K := K) (p - 1) (BSpline.diffQ (K := K) p (moved Q p x y)))
        (lin t ^ (p - 2))
      = (y * y) • umb (BSpline.diffQ (K := K) (p - 1) (BSpline.diffQ (K := K) p Q))
          (lin (x + y * t) ^ (p - 2)) := by
  rw [BSpline.umb_diffQ, BSpline.umb_diffQ, BSpline.umb_diffQ, BSpline.umb_diffQ]
  rcases p with _ | _ | n
  · simp
  · simp
  · have hd : ((X - 1) * lprod (fun _ => t) 0 n : K[X]).natDegree ≤ n + 1 := by
      refine natDegree_mul_le.trans ?_
      have h1 := natDegree_lprod (fun _ => t) 0 n
      have h2 : (X - 1 : K[X]).natDegree ≤ 1 := natDegree_X_sub_C_le 1
      omega
    rw [show n + 1 + 1 - 2 = n by omega, lin_pow_eq, moved, trans_diff _ _ _ _ _ _ hd,
      trans_diff _ _ _ _ _ _ (natDegree_lprod _ _ _), trans_prod, one_mul, lin_diff,
      smul_comm (y * y), smul_comm (y * y), ← umb_C_mul _ (y * y),
      prod_congr rfl (g := fun i => lin (x + y * t)) fun i _ => moved_factor x y _, prod_const,
      card_range]
    refine congrArg _ (congrArg _ (congrArg _ ?_))
    rw [map_mul]
    ring

/-- Reversing a product. -/
theorem lprod_reflect (v w : ℕ → K) {j j' m : ℕ} (h : ∀ i < m, v (j + i) = w (j' + (m - 1 - i))) :
    lprod v j m = lprod w j' m := by
  unfold lprod
  rw [← prod_range_reflect]
  refine prod_congr rfl fun i hi => ?_
  have hi' : i < m := by simpa using hi
  rw [h _ (by omega)]
  congr 2
  omega

end NS
