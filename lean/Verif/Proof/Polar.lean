import Mathlib.LinearAlgebra.FiniteDimensional.Basic
import Mathlib.LinearAlgebra.FiniteDimensional.Lemmas
import Mathlib.Tactic.ComputeDegree
import Mathlib.Tactic.FieldSimp
import Mathlib.Tactic.Module
import Mathlib.Tactic.Linarith
import Verif.Proof.Umbral

/-!
# Polar forms and the de Boor scheme

Control points of a spline on one knot span are values of a linear functional on products of the
linear factors `lin u`.
-/

set_option linter.unusedSectionVars false

namespace NS

open Polynomial Finset

variable {K V W : Type} [Field K] [LinearOrder K] [IsStrictOrderedRing K]
  [AddCommGroup V] [Module K V] [AddCommGroup W] [Module K W]

/-- `∏_{i<m} lin v_{j+i}`. -/
noncomputable def lprod (v : ℕ → K) (j m : ℕ) : K[X] := ∏ i ∈ range m, lin (v (j + i))

theorem lprod_zero (v : ℕ → K) (j : ℕ) : lprod v j 0 = 1 := by simp [lprod]

theorem lprod_succ (v : ℕ → K) (j m : ℕ) : lprod v j (m + 1) = lprod v j m * lin (v (j + m)) := by
  simp [lprod, prod_range_succ]

theorem lprod_succ' (v : ℕ → K) (j m : ℕ) :
    lprod v j (m + 1) = lin (v j) * lprod v (j + 1) m := by
  simp only [lprod]
  rw [prod_range_succ', mul_comm]
  simp only [add_zero]
  congr 1
  apply prod_congr rfl
  intro i _
  congr 2
  omega

theorem lprod_add (v : ℕ → K) (j m n : ℕ) :
    lprod v j (m + n) = lprod v j m * lprod v (j + m) n := by
  simp only [lprod]
  rw [prod_range_add]
  congr 1
  apply prod_congr rfl
  intro i _
  congr 2
  omega

theorem lprod_split (v : ℕ → K) {j m a b j' : ℕ} (hm : m = a + b) (hj : j' = j + a) :
    lprod v j m = lprod v j a * lprod v j' b := by
  subst hm hj
  exact lprod_add v j a b

theorem lprod_congr {v w : ℕ → K} {j j' m : ℕ} (h : ∀ i < m, v (j + i) = w (j' + i)) :
    lprod v j m = lprod w j' m := by
  apply prod_congr rfl
  intro i hi
  rw [h i (by simpa using hi)]

theorem lprod_const {v : ℕ → K} {j m : ℕ} {t : K} (h : ∀ i < m, v (j + i) = t) :
    lprod v j m = lin t ^ m := by
  unfold lprod
  rw [prod_congr rfl (g := fun _ => lin t) (fun i hi => by rw [h i (by simpa using hi)])]
  simp

theorem lin_combine {a b t : K} (h : b - a ≠ 0) :
    C (1 - (t - a) / (b - a)) * lin a + C ((t - a) / (b - a)) * lin b = lin t := by
  rw [lin_affine]
  congr 1
  field_simp
  ring

/-- The triangular scheme: `dB r j` is entry `j` after `r` rounds. -/
def dB (p : ℕ) (v ts : ℕ → K) (c : ℕ → V) : ℕ → ℕ → V
  | 0, j => c j
  | r + 1, j =>
    (1 - (ts r - v j) / (v (p + j - r) - v j)) • dB p v ts c r (j - 1)
      + ((ts r - v j) / (v (p + j - r) - v j)) • dB p v ts c r j

/-- If the start values are values of a linear functional on products of consecutive knots, every
entry of the scheme is the value with some knots replaced by the new arguments. -/
theorem dB_eq (p : ℕ) (v ts : ℕ → K) (c : ℕ → V) (L : K[X] →ₗ[K] V)
    (hv : ∀ i j, 1 ≤ i → i ≤ j → j ≤ 2 * p → v i ≤ v j) (hp : v p < v (p + 1))
    (hc : ∀ j ≤ p, c j = L (lprod v (j + 1) p)) :
    ∀ r ≤ p, ∀ j, r ≤ j → j ≤ p → dB p v ts c r j = L (lprod ts 0 r * lprod v (j + 1) (p - r)) := by
  intro r
  induction r with
  | zero =>
    intro _ j _ hj
    simp [dB, lprod_zero, hc j hj]
  | succ r ih =>
    intro hr j hj hjp
    have hb : v (p + j - r) - v j ≠ 0 := by
      have h1 : v j ≤ v p := hv _ _ (by omega) hjp (by omega)
      have h2 : v (p + 1) ≤ v (p + j - r) := hv _ _ (by omega) (by omega) (by omega)
      have : 0 < v (p + j - r) - v j := by linarith
      exact this.ne'
    rw [dB, ih (by omega) (j - 1) (by omega) (by omega), ih (by omega) j (by omega) hjp]
    have e1 : p - r = (p - (r + 1)) + 1 := by omega
    have e2 : j - 1 + 1 = j := by omega
    have e3 : j + 1 + (p - (r + 1)) = p + j - r := by omega
    rw [e1, e2, lprod_succ' v j, lprod_succ v (j + 1), e3, lprod_succ, zero_add]
    rw [← map_smul, ← map_smul, ← map_add, smul_eq_C_mul, smul_eq_C_mul]
    congr 1
    rw [← lin_combine (a := v j) (b := v (p + j - r)) (t := ts r) hb]
    ring

/-- The final value of the scheme. -/
theorem dB_final (p : ℕ) (v ts : ℕ → K) (c : ℕ → V) (L : K[X] →ₗ[K] V)
    (hv : ∀ i j, 1 ≤ i → i ≤ j → j ≤ 2 * p → v i ≤ v j) (hp : v p < v (p + 1))
    (hc : ∀ j ≤ p, c j = L (lprod v (j + 1) p)) :
    dB p v ts c p p = L (lprod ts 0 p) := by
  rw [dB_eq p v ts c L hv hp hc p le_rfl p le_rfl le_rfl]
  simp [lprod_zero]

theorem natDegree_lin (t : K) : (lin t).natDegree ≤ 1 := by
  unfold lin
  compute_degree

theorem natDegree_lprod (v : ℕ → K) (j m : ℕ) : (lprod v j m).natDegree ≤ m := by
  induction m with
  | zero => simp [lprod_zero]
  | succ m ih =>
    rw [lprod_succ]
    refine le_trans natDegree_mul_le ?_
    have := natDegree_lin (v (j + m))
    omega

theorem dB_zero (p : ℕ) (v ts : ℕ → K) : ∀ r j, dB p v ts (fun _ => (0 : V)) r j = 0 := by
  intro r
  induction r with
  | zero => intro j; rfl
  | succ r ih => intro j; simp [dB, ih]

theorem dB_congr (p : ℕ) (v ts : ℕ → K) (c d : ℕ → V) :
    ∀ r j, r ≤ j → (∀ i, j - r ≤ i → i ≤ j → c i = d i) → dB p v ts c r j = dB p v ts d r j := by
  intro r
  induction r with
  | zero => intro j _ h; exact h j (by omega) le_rfl
  | succ r ih =>
    intro j hj h
    rw [dB, dB, ih (j - 1) (by omega) (fun i h1 h2 => h i (by omega) (by omega)),
      ih j (by omega) (fun i h1 h2 => h i (by omega) (by omega))]

/-- A functional vanishing on the control-point products vanishes on every product of `p` linear
factors. -/
theorem functional_ext (p : ℕ) (v : ℕ → K) (L L' : K[X] →ₗ[K] V)
    (hv : ∀ i j, 1 ≤ i → i ≤ j → j ≤ 2 * p → v i ≤ v j) (hp : v p < v (p + 1))
    (h : ∀ j ≤ p, L (lprod v (j + 1) p) = L' (lprod v (j + 1) p)) (ts : ℕ → K) :
    L (lprod ts 0 p) = L' (lprod ts 0 p) := by
  rw [← dB_final p v ts (fun j => L (lprod v (j + 1) p)) L hv hp (fun _ _ => rfl)]
  rw [← dB_final p v ts (fun j => L' (lprod v (j + 1) p)) L' hv hp (fun _ _ => rfl)]
  exact dB_congr _ _ _ _ _ _ _ le_rfl (fun i _ hi => h i hi)

/-- Zeros followed by ones. -/
theorem lprod_steps (p m : ℕ) (hm : m ≤ p) :
    lprod (fun i => if i < p - m then (0 : K) else 1) 0 p = X ^ m := by
  have e : p = (p - m) + m := by omega
  conv_lhs => rw [e]
  rw [lprod_add, lprod_const (t := (0 : K)), lprod_const (t := (1 : K)), lin_zero, lin_one,
    one_pow, one_mul]
  · intro i _; simp
  · intro i hi; simp; omega

/-- Scalar sequence supported on `0..p`. -/
def ext {p : ℕ} (q : Fin (p + 1) → K) (i : ℕ) : K := if h : i < p + 1 then q ⟨i, h⟩ else 0

/-- The map from Bézier coefficients to control points of a span. -/
noncomputable def toCtrl (p : ℕ) (v : ℕ → K) : (Fin (p + 1) → K) →ₗ[K] (Fin (p + 1) → K) where
  toFun q j := umb (K := K) (ext q) (lprod v (j + 1) p)
  map_add' a b := by
    funext j
    simp only [Pi.add_apply]
    have : (ext (a + b) : ℕ → K) = fun i => ext a i + ext b i := by
      funext i; simp only [ext]; split <;> simp
    rw [this]
    simp only [umb, Polynomial.lsum_apply, Polynomial.sum]
    rw [← sum_add_distrib]
    apply sum_congr rfl
    intro i _
    simp [mul_add]
  map_smul' a b := by
    funext j
    simp only [Pi.smul_apply, RingHom.id_apply]
    have : (ext (a • b) : ℕ → K) = fun i => a * ext b i := by
      funext i; simp only [ext]; split <;> simp
    rw [this]
    simp only [umb, Polynomial.lsum_apply, Polynomial.sum, smul_sum]
    apply sum_congr rfl
    intro i _
    simp
    ring

theorem toCtrl_injective (p : ℕ) (v : ℕ → K)
    (hv : ∀ i j, 1 ≤ i → i ≤ j → j ≤ 2 * p → v i ≤ v j) (hp : v p < v (p + 1)) :
    Function.Injective (toCtrl p v) := by
  rw [← LinearMap.ker_eq_bot, LinearMap.ker_eq_bot']
  intro q hq
  funext m
  have h0 : ∀ j ≤ p, (umb (K := K) (ext q)) (lprod v (j + 1) p)
      = (0 : K[X] →ₗ[K] K) (lprod v (j + 1) p) := by
    intro j hj
    have := congrFun hq ⟨j, by omega⟩
    simpa [toCtrl] using this
  have := functional_ext p v (umb (K := K) (ext q)) 0 hv hp h0
    (fun i => if i < p - m.val then (0 : K) else 1)
  rw [lprod_steps p m.val (by omega), umb_X_pow] at this
  simp only [ext, m.isLt, dif_pos] at this
  simpa using this

/-- Superposition of scalar sequences. -/
theorem umb_sum (n : ℕ) (q : ℕ → ℕ → K) (c : ℕ → V) (f : K[X]) :
    umb (fun i => ∑ j ∈ range n, q j i • c j) f = ∑ j ∈ range n, umb (K := K) (q j) f • c j := by
  induction f using Polynomial.induction_on' with
  | add f g hf hg => simp [hf, hg, add_smul, sum_add_distrib]
  | monomial i a =>
    simp only [umb_monomial, smul_sum, smul_smul]
    rfl

/-- On a non-empty span every tuple of control points comes from a polynomial (in Bézier form over
the whole real line). -/
theorem exists_bezier (p : ℕ) (v : ℕ → K) (c : ℕ → V)
    (hv : ∀ i j, 1 ≤ i → i ≤ j → j ≤ 2 * p → v i ≤ v j) (hp : v p < v (p + 1)) :
    ∃ Q : ℕ → V, ∀ j ≤ p, c j = umb Q (lprod v (j + 1) p) := by
  have hsurj : Function.Surjective (toCtrl p v) :=
    LinearMap.injective_iff_surjective.mp (toCtrl_injective p v hv hp)
  choose q hq using fun j : Fin (p + 1) => hsurj (Pi.single j 1)
  refine ⟨fun i => ∑ j ∈ range (p + 1),
    (if h : j < p + 1 then ext (q ⟨j, h⟩) i else 0) • c j, ?_⟩
  intro j hj
  rw [umb_sum (p + 1) (fun j i => if h : j < p + 1 then ext (q ⟨j, h⟩) i else 0) c]
  rw [sum_eq_single j]
  · have h1 : j < p + 1 := by omega
    simp only [h1, dif_pos]
    have := congrFun (hq ⟨j, h1⟩) ⟨j, h1⟩
    simp [toCtrl] at this
    rw [this, one_smul]
  · intro i hi hij
    have h1 : i < p + 1 := by simpa using hi
    have h2 : j < p + 1 := by omega
    simp only [h1, dif_pos]
    have := congrFun (hq ⟨i, h1⟩) ⟨j, h2⟩
    have hne : (⟨j, h2⟩ : Fin (p + 1)) ≠ ⟨i, h1⟩ := by
      intro h; exact hij (by simpa using h.symm)
    simp only [toCtrl, LinearMap.coe_mk, AddHom.coe_mk, Pi.single_apply, hne, if_false] at this
    rw [this, zero_smul]
  · intro h; exact absurd (by simp; omega) h

end NS
