import Verif.Proof.BezierPatch
import Verif.Proof.PolygonLength

/-!
# Distance of a Bézier curve from its control polygon
-/

set_option linter.unusedSectionVars false

namespace NS.Refine

open Outcome Spec Finset Polynomial BSpline

variable {K V : Type} [Field K] [LinearOrder K] [IsStrictOrderedRing K] [FloorRing K]
  [AddCommGroup V] [Module K V]

/-- The second difference of a sequence of points. -/
def d2 (P : ℕ → V) (i : ℕ) : V := P (i + 2) - P (i + 1) - (P (i + 1) - P i)

theorem sum_le {nrm : V → K} (hn : IsSeminorm nrm) (n : ℕ) (w : ℕ → K) (v : ℕ → V) (b : ℕ → K)
    (hw : ∀ i < n, 0 ≤ w i) (hb : ∀ i < n, nrm (v i) ≤ b i) :
    nrm (∑ i ∈ range n, w i • v i) ≤ ∑ i ∈ range n, w i * b i := by
  induction n with
  | zero => simp [nrm_zero hn]
  | succ n ih =>
    rw [sum_range_succ, sum_range_succ]
    refine (hn.tri _ _).trans (add_le_add
      (ih (fun i hi => hw i (by omega)) fun i hi => hb i (by omega)) ?_)
    rw [hn.smul, abs_of_nonneg (hw n (by omega))]
    exact mul_le_mul_of_nonneg_left (hb n (by omega)) (hw n (by omega))

/-! ### Deviation of the control points from the line through an edge -/

theorem edge_dev {nrm : V → K} (hn : IsSeminorm nrm) {P : ℕ → V} {D : K} {j m : ℕ}
    (h : ∀ i, j ≤ i → i < j + m → nrm (d2 P i) ≤ D) :
    nrm (P (j + m + 1) - P (j + m) - (P (j + 1) - P j)) ≤ m * D := by
  induction m with
  | zero => simp [nrm_zero hn]
  | succ m ih =>
    have e : P (j + (m + 1) + 1) - P (j + (m + 1)) - (P (j + 1) - P j)
        = (P (j + m + 1) - P (j + m) - (P (j + 1) - P j)) + d2 P (j + m) := by
      unfold d2
      rw [show j + (m + 1) + 1 = j + m + 2 by omega, show j + (m + 1) = j + m + 1 by omega]
      abel
    rw [e]
    refine (hn.tri _ _).trans ((add_le_add (ih fun i h1 h2 => h i h1 (by omega))
      (h (j + m) (by omega) (by omega))).trans (le_of_eq ?_))
    push_cast
    ring

theorem dev_fwd {nrm : V → K} (hn : IsSeminorm nrm) {P : ℕ → V} {D : K} {j m : ℕ}
    (h : ∀ i, j ≤ i → i + 1 < j + m → nrm (d2 P i) ≤ D) :
    nrm (P (j + m) - (P j + (m : K) • (P (j + 1) - P j))) ≤ D * ((m : K) * (m - 1) / 2) := by
  induction m with
  | zero => simp [nrm_zero hn]
  | succ m ih =>
    have e : P (j + (m + 1)) - (P j + ((m + 1 : ℕ) : K) • (P (j + 1) - P j))
        = (P (j + m) - (P j + (m : K) • (P (j + 1) - P j)))
          + (P (j + m + 1) - P (j + m) - (P (j + 1) - P j)) := by
      rw [show j + (m + 1) = j + m + 1 by omega]
      push_cast
      module
    rw [e]
    refine (hn.tri _ _).trans ((add_le_add (ih fun i h1 h2 => h i h1 (by omega))
      (edge_dev hn fun i h1 h2 => h i h1 (by omega))).trans (le_of_eq ?_))
    push_cast
    ring

theorem dev_bwd {nrm : V → K} (hn : IsSeminorm nrm) {P : ℕ → V} {D : K} {j m : ℕ}
    (h : ∀ i, j ≤ i → i < j + m → nrm (d2 P i) ≤ D) :
    nrm (P j - (P (j + m) + (-(m : K)) • (P (j + m + 1) - P (j + m))))
      ≤ D * ((m : K) * (m + 1) / 2) := by
  induction m with
  | zero => simp [nrm_zero hn]
  | succ m ih =>
    have e : P j - (P (j + (m + 1)) + (-((m + 1 : ℕ) : K)) • (P (j + (m + 1) + 1) - P (j + (m + 1))))
        = (P j - (P (j + m) + (-(m : K)) • (P (j + m + 1) - P (j + m))))
          + ((m + 1 : ℕ) : K) • d2 P (j + m) := by
      unfold d2
      rw [show j + (m + 1) + 1 = j + m + 2 by omega, show j + (m + 1) = j + m + 1 by omega]
      push_cast
      module
    rw [e]
    have h1 : (0 : K) ≤ ((m + 1 : ℕ) : K) := Nat.cast_nonneg _
    refine (hn.tri _ _).trans ?_
    rw [hn.smul, abs_of_nonneg h1]
    refine (add_le_add (ih fun i h1 h2 => h i h1 (by omega))
      (mul_le_mul_of_nonneg_left (h (j + m) (by omega) (by omega)) h1)).trans (le_of_eq ?_)
    push_cast
    ring

theorem dev {nrm : V → K} (hn : IsSeminorm nrm) {P : ℕ → V} {D : K} {n j : ℕ} (hj : j < n)
    (h : ∀ i, i + 2 ≤ n → nrm (d2 P i) ≤ D) {i : ℕ} (hi : i ≤ n) :
    nrm (P i - (P j + ((i : K) - j) • (P (j + 1) - P j)))
      ≤ D * (((i : K) - j) * ((i : K) - j - 1) / 2) := by
  rcases le_total j i with hji | hij
  · obtain ⟨m, rfl⟩ := Nat.exists_eq_add_of_le hji
    have := dev_fwd hn (P := P) (D := D) (j := j) (m := m) fun k h1 h2 => h k (by omega)
    rw [show ((j + m : ℕ) : K) - j = m by push_cast; ring]
    exact this
  · obtain ⟨m, rfl⟩ := Nat.exists_eq_add_of_le hij
    have := dev_bwd hn (P := P) (D := D) (j := i) (m := m) fun k h1 h2 => h k (by omega)
    rw [show (i : K) - ((i + m : ℕ) : K) = -m by push_cast; ring]
    refine this.trans (le_of_eq ?_)
    ring

/-! ### Moments of the Bernstein polynomials -/

theorem bernstein_mean (n : ℕ) (t : K) :
    ∑ i ∈ range (n + 1), Spec.bernstein n i t * i = n * t := by
  have h := congrArg (Polynomial.eval t) (bernsteinPolynomial.sum_smul K n)
  rw [Polynomial.eval_finsetSum] at h
  simp only [nsmul_eq_mul, Polynomial.eval_mul, Polynomial.eval_natCast, Polynomial.eval_X] at h
  rw [← h]
  exact sum_congr rfl fun i _ => by rw [bernstein_eq_eval, mul_comm]

theorem bernstein_variance (n : ℕ) (t : K) :
    ∑ i ∈ range (n + 1), Spec.bernstein n i t * (n * t - i) ^ 2 = n * t * (1 - t) := by
  have h := congrArg (Polynomial.eval t) (bernsteinPolynomial.variance K n)
  rw [Polynomial.eval_finsetSum] at h
  simp at h
  rw [← h]
  exact sum_congr rfl fun i _ => by rw [bernstein_eq_eval, mul_comm]

theorem bern_nonneg (n i : ℕ) {t : K} (h0 : 0 ≤ t) (h1 : t ≤ 1) : 0 ≤ Spec.bernstein n i t := by
  unfold Spec.bernstein
  have : 0 ≤ 1 - t := by linarith
  positivity

/-- The point of the curve at `(j + s) / n` is within `n / 8` times the largest second difference
of the point of the control polygon. -/
theorem polygon_dist {nrm : V → K} (hn : IsSeminorm nrm) {P : ℕ → V} {D : K} (hD : 0 ≤ D)
    {n j : ℕ} (hj : j < n) (h : ∀ i, i + 2 ≤ n → nrm (d2 P i) ≤ D) {t : K}
    (h0 : (j : K) ≤ n * t) (h1 : n * t ≤ j + 1) :
    nrm (umb P (lin t ^ n) - (P j + (n * t - j) • (P (j + 1) - P j))) ≤ n / 8 * D := by
  have hn0 : (0 : K) < n := by exact_mod_cast (by omega : 0 < n)
  have hjn : (j : K) + 1 ≤ n := by exact_mod_cast hj
  have hj0 : (0 : K) ≤ j := Nat.cast_nonneg _
  have ht0 : 0 ≤ t := by
    by_contra hc
    have : (n : K) * t < 0 := mul_neg_of_pos_of_neg hn0 (not_le.1 hc)
    linarith
  have ht1 : t ≤ 1 := by
    by_contra hc
    have := mul_lt_mul_of_pos_left (not_le.1 hc) hn0
    linarith
  have e : umb P (lin t ^ n) - (P j + (n * t - j) • (P (j + 1) - P j))
      = ∑ i ∈ range (n + 1), Spec.bernstein n i t •
        (P i - (P j + ((i : K) - j) • (P (j + 1) - P j))) := by
    rw [umb_lin_pow]
    have s1 : ∑ i ∈ range (n + 1), Spec.bernstein n i t • (P i - (P j + ((i : K) - j) • (P (j + 1) - P j)))
        = ∑ i ∈ range (n + 1), (Spec.bernstein n i t • P i - (Spec.bernstein n i t • P j
          + (Spec.bernstein n i t * i - j * Spec.bernstein n i t) • (P (j + 1) - P j))) := by
      refine sum_congr rfl fun i _ => ?_
      module
    rw [s1, sum_sub_distrib, sum_add_distrib, ← sum_smul, ← sum_smul, sum_sub_distrib, ← mul_sum,
      bernstein_mean, bernstein_sum, one_smul, mul_one]
  rw [e]
  refine (sum_le hn (n + 1) _ _ (fun i => D * (((i : K) - j) * ((i : K) - j - 1) / 2))
    (fun i _ => bern_nonneg n i ht0 ht1) fun i hi => dev hn hj h (by omega)).trans ?_
  have s2 : ∑ i ∈ range (n + 1), Spec.bernstein n i t * (D * (((i : K) - j) * ((i : K) - j - 1) / 2))
      = D / 2 * (n * t * (1 - t) + (n * t - j) * (n * t - j - 1)) := by
    have : ∀ i ∈ range (n + 1),
        Spec.bernstein n i t * (D * (((i : K) - j) * ((i : K) - j - 1) / 2))
        = D / 2 * (Spec.bernstein n i t * (n * t - i) ^ 2
          + (2 * (n * t - j) - 1) * (Spec.bernstein n i t * i)
          + ((n * t - j) * (n * t - j - 1) - (2 * (n * t - j) - 1) * (n * t))
            * Spec.bernstein n i t) := fun i _ => by ring
    rw [sum_congr rfl this, ← mul_sum, sum_add_distrib, sum_add_distrib, ← mul_sum, ← mul_sum,
      bernstein_mean, bernstein_variance, bernstein_sum]
    ring
  rw [s2]
  have q1 : (n * t - j) * (n * t - j - 1) ≤ 0 :=
    mul_nonpos_of_nonneg_of_nonpos (by linarith) (by linarith)
  have q2 : n * t * (1 - t) ≤ n / 4 := by
    have : 0 ≤ (n : K) * (t - 1 / 2) ^ 2 := mul_nonneg hn0.le (sq_nonneg _)
    linarith
  have : D / 2 * (n * t * (1 - t) + (n * t - j) * (n * t - j - 1)) ≤ D / 2 * (n / 4) :=
    mul_le_mul_of_nonneg_left (by linarith) (by linarith)
  refine this.trans (le_of_eq ?_)
  ring

/-! ### Second differences of parts of a curve -/

theorem blossom_le {nrm : V → K} (hn : IsSeminorm nrm) {a b : K} (ha0 : 0 ≤ a) (ha1 : a ≤ 1)
    (hb0 : 0 ≤ b) (hb1 : b ≤ 1) {D : K} (k m : ℕ) {P : ℕ → V}
    (h : ∀ i ≤ k + m, nrm (P i) ≤ D) : nrm (umb P (lin a ^ k * lin b ^ m)) ≤ D := by
  have step : ∀ {t : K}, 0 ≤ t → t ≤ 1 → ∀ {x y : V}, nrm x ≤ D → nrm y ≤ D →
      nrm ((1 - t) • x + t • y) ≤ D := by
    intro t h0 h1 x y hx hy
    refine (hn.tri _ _).trans ?_
    rw [hn.smul, hn.smul, abs_of_nonneg (sub_nonneg.2 h1), abs_of_nonneg h0]
    have := mul_le_mul_of_nonneg_left hx (sub_nonneg.2 h1)
    have := mul_le_mul_of_nonneg_left hy h0
    linarith
  induction k generalizing P with
  | zero =>
    induction m generalizing P with
    | zero => simpa [umb_one] using h 0 le_rfl
    | succ m ih =>
      rw [pow_zero, one_mul, pow_succ', umb_lin_mul, umb_shift]
      refine step hb0 hb1 ?_ ?_
      · simpa using ih fun i hi => h i (by omega)
      · simpa using ih (P := fun i => P (i + 1)) fun i hi => h (i + 1) (by omega)
  | succ k ih =>
    rw [pow_succ', mul_assoc, umb_lin_mul, umb_shift]
    exact step ha0 ha1 (ih fun i hi => h i (by omega)) (ih fun i hi => h (i + 1) (by omega))

theorem umb_d2 (P : ℕ → V) (f : K[X]) : umb P ((X - 1) ^ 2 * f) = umb (d2 P) f := by
  have : d2 P = fun i => (fun i => P (i + 1) - P i) (i + 1) - (fun i => P (i + 1) - P i) i := rfl
  rw [this]
  induction f using Polynomial.induction_on' with
  | add p q hp hq => rw [mul_add, map_add, map_add, hp, hq]
  | monomial i a =>
    rw [umb_monomial, ← C_mul_X_pow_eq_monomial]
    have : (X - 1 : K[X]) ^ 2 * (C a * X ^ i)
        = C a * X ^ (i + 2) - C (2 * a) * X ^ (i + 1) + C a * X ^ i := by
      rw [C_mul, show (C 2 : K[X]) = 2 from rfl]
      ring
    rw [this, map_add, map_sub, umb_C_mul_X_pow, umb_C_mul_X_pow, umb_C_mul_X_pow]
    simp only []
    module

theorem d2_sub (n : ℕ) (P : ℕ → V) (a b : K) {i : ℕ} (hi : i + 2 ≤ n) :
    d2 (fun i => umb P (lin a ^ (n - i) * lin b ^ i)) i
      = (b - a) ^ 2 • umb (d2 P) (lin a ^ (n - i - 2) * lin b ^ i) := by
  rw [← umb_C_mul, ← umb_d2]
  simp only [d2]
  rw [← map_sub, ← map_sub, ← map_sub]
  obtain ⟨m, rfl⟩ := Nat.exists_eq_add_of_le hi
  rw [show i + 2 + m - (i + 2) = m by omega, show i + 2 + m - (i + 1) = m + 1 by omega,
    show i + 2 + m - i = m + 2 by omega, show m + 2 - 2 = m by omega]
  have : lin b - lin a = C (b - a) * (X - 1 : K[X]) := by
    simp only [lin, map_sub, map_one]
    ring
  congr 1
  calc _ = (lin b - lin a) ^ 2 * (lin a ^ m * lin b ^ i) := by ring
    _ = _ := by rw [this, map_pow]; ring

theorem d2_sub_le {nrm : V → K} (hn : IsSeminorm nrm) {a b : K} (ha0 : 0 ≤ a) (ha1 : a ≤ 1)
    (hb0 : 0 ≤ b) (hb1 : b ≤ 1) {D : K} {n : ℕ} {P : ℕ → V}
    (h : ∀ i, i + 2 ≤ n → nrm (d2 P i) ≤ D) {i : ℕ} (hi : i + 2 ≤ n) :
    nrm (d2 (fun i => umb P (lin a ^ (n - i) * lin b ^ i)) i) ≤ (b - a) ^ 2 * D := by
  rw [d2_sub n P a b hi, hn.smul, abs_of_nonneg (sq_nonneg _)]
  exact mul_le_mul_of_nonneg_left
    (blossom_le hn ha0 ha1 hb0 hb1 _ _ fun k hk => h k (by omega)) (sq_nonneg _)

/-! ### Second differences after degree elevation -/

/-- The control points of the elevated curve. -/
def elev (n : ℕ) (P : ℕ → V) (i : ℕ) : V :=
  if i = 0 then P 0 else if i = n + 1 then P n else
    (1 - (i : K) / (n + 1)) • P i + ((i : K) / (n + 1)) • P (i - 1)

theorem elev_eq (n : ℕ) (P : ℕ → V) {i : ℕ} (hi : i ≤ n + 1) :
    elev (K := K) n P i = (1 - (i : K) / (n + 1)) • P i + ((i : K) / (n + 1)) • P (i - 1) := by
  unfold elev
  have hne : (n : K) + 1 ≠ 0 := by positivity
  by_cases h0 : i = 0
  · subst h0; simp
  · rw [if_neg h0]
    by_cases h1 : i = n + 1
    · subst h1
      rw [if_pos rfl]
      push_cast
      rw [div_self hne, sub_self, zero_smul, zero_add, one_smul]
    · rw [if_neg h1]

theorem d2_elev_le {nrm : V → K} (hn : IsSeminorm nrm) {D : K} {n : ℕ} {P : ℕ → V}
    (h : ∀ i, i + 2 ≤ n → nrm (d2 P i) ≤ D) {i : ℕ} (hi : i + 2 ≤ n + 1) :
    nrm (d2 (elev (K := K) n P) i) ≤ ((n : K) - 1) / (n + 1) * D := by
  have hne : (0 : K) < (n : K) + 1 := by positivity
  have e : d2 (elev (K := K) n P) i
      = (((n : K) - 1 - i) / (n + 1)) • d2 P i + ((i : K) / (n + 1)) • d2 P (i - 1) := by
    have hne' := hne.ne'
    unfold d2
    rw [elev_eq n P (by omega), elev_eq n P (by omega), elev_eq n P (by omega)]
    rw [show i + 2 - 1 = i + 1 by omega, show i + 1 - 1 = i by omega]
    rcases Nat.eq_zero_or_pos i with rfl | hpos
    · push_cast
      simp only [zero_div, zero_smul, add_zero, sub_zero, one_smul]
      match_scalars <;> field_simp <;> ring
    · rw [show i - 1 + 2 = i + 1 by omega, show i - 1 + 1 = i by omega]
      push_cast
      match_scalars <;> field_simp <;> ring
  have hi' : (i : K) ≤ (n : K) - 1 := by
    have : ((i + 2 : ℕ) : K) ≤ ((n + 1 : ℕ) : K) := by exact_mod_cast hi
    push_cast at this
    linarith
  have c1 : 0 ≤ ((n : K) - 1 - i) / (n + 1) := div_nonneg (by linarith) hne.le
  have c2 : 0 ≤ (i : K) / (n + 1) := div_nonneg (Nat.cast_nonneg _) hne.le
  have b1 : nrm ((((n : K) - 1 - i) / (n + 1)) • d2 P i) ≤ (((n : K) - 1 - i) / (n + 1)) * D := by
    rw [hn.smul, abs_of_nonneg c1]
    rcases Nat.lt_or_ge (i + 1) n with hlt | hge
    · exact mul_le_mul_of_nonneg_left (h i (by omega)) c1
    · have : (n : K) - 1 - i = 0 := by
        have e : n = i + 1 := by omega
        rw [e]; push_cast; ring
      rw [this]; simp
  have b2 : nrm (((i : K) / (n + 1)) • d2 P (i - 1)) ≤ ((i : K) / (n + 1)) * D := by
    rw [hn.smul, abs_of_nonneg c2]
    rcases Nat.eq_zero_or_pos i with rfl | hpos
    · simp
    · exact mul_le_mul_of_nonneg_left (h (i - 1) (by omega)) c2
  rw [e]
  refine (hn.tri _ _).trans ((add_le_add b1 b2).trans (le_of_eq ?_))
  field_simp
  ring

end NS.Refine
