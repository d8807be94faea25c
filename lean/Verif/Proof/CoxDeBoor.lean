import Verif.Proof.BSplineEval

/-!
# Cox-de Boor basis: support, partition of unity, positivity and the triangular scheme
-/

set_option linter.unusedSectionVars false
set_option linter.unusedSimpArgs false

namespace NS.Spec

open Finset

variable {K V : Type} [Field K] [LinearOrder K] [IsStrictOrderedRing K]
  [AddCommGroup V] [Module K V]

/-- Knots `0 .. M-1` are sorted. -/
def MonoTo (u : ℕ → K) (M : ℕ) : Prop := ∀ i j, i ≤ j → j < M → u i ≤ u j

theorem InSpan.lt {u : ℕ → K} {tmax t : K} {k : ℕ} (h : InSpan u tmax k t) :
    u k < u (k + 1) := by
  unfold InSpan at h
  split at h
  · exact h.1
  · exact lt_of_le_of_lt h.1 h.2

theorem InSpan.bounds {u : ℕ → K} {tmax t : K} {k : ℕ} (h : InSpan u tmax k t) :
    u k ≤ t ∧ t ≤ u (k + 1) := by
  unfold InSpan at h
  split at h
  · rename_i e
    rw [e, ← h.2]
    exact ⟨h.1.le, le_rfl⟩
  · exact ⟨h.1, h.2.le⟩

theorem InSpan.unique {u : ℕ → K} {M : ℕ} (hu : MonoTo u M) {tmax t : K} {k i : ℕ}
    (hk : InSpan u tmax k t) (hi : InSpan u tmax i t) (hkM : k + 1 < M) (hiM : i + 1 < M) :
    i = k := by
  have key : ∀ a b, InSpan u tmax a t → InSpan u tmax b t → a + 1 < M → b + 1 < M → ¬ a < b := by
    intro a b ha hb _ hbM hab
    have m := hu (a + 1) b (by omega) (by omega)
    unfold InSpan at ha hb
    split at ha
    · rename_i e
      rw [if_pos e] at hb
      have := hb.1
      rw [hb.2] at this
      rw [ha.2] at m
      exact absurd this (not_lt.mpr m)
    · rename_i e
      rw [if_neg e] at hb
      exact absurd (lt_of_lt_of_le ha.2 m) (not_lt.mpr hb.1)
  rcases Nat.lt_trichotomy i k with h | h | h
  · exact absurd h (key i k hi hk hiM hkM)
  · exact h
  · exact absurd h (key k i hk hi hkM hiM)

theorem basis_support {u : ℕ → K} {M : ℕ} (hu : MonoTo u M) {tmax t : K} {k : ℕ}
    (hk : InSpan u tmax k t) (hkM : k + 1 < M) :
    ∀ q i, i + q + 1 < M → ¬ (i ≤ k ∧ k ≤ i + q) → basis u tmax q i t = 0 := by
  intro q
  induction q with
  | zero =>
    intro i hi h
    rw [basis, if_neg]
    intro h2
    have := hk.unique hu h2 hkM (by omega)
    omega
  | succ q ih =>
    intro i hi h
    rw [basis, ih i (by omega) (by omega), ih (i + 1) (by omega) (by omega)]
    simp

theorem basis_nonneg {u : ℕ → K} {M : ℕ} (hu : MonoTo u M) {tmax t : K} {k : ℕ}
    (hk : InSpan u tmax k t) (hkM : k + 1 < M) :
    ∀ q i, i + q + 1 < M → 0 ≤ basis u tmax q i t := by
  intro q
  induction q with
  | zero => intro i _; rw [basis]; split <;> simp
  | succ q ih =>
    intro i hi
    by_cases h : i ≤ k ∧ k ≤ i + (q + 1)
    · rw [basis]
      have b := hk.bounds
      have n1 := ih i (by omega)
      have n2 := ih (i + 1) (by omega)
      have m1 := hu i (i + q + 1) (by omega) (by omega)
      have m2 := hu (i + 1) (i + q + 2) (by omega) (by omega)
      have m3 := hu i k h.1 (by omega)
      have m4 := hu (k + 1) (i + q + 2) (by omega) (by omega)
      apply add_nonneg
      · exact mul_nonneg (div_nonneg (by linarith) (by linarith)) n1
      · exact mul_nonneg (div_nonneg (by linarith) (by linarith)) n2
    · rw [basis_support hu hk hkM _ _ (by omega) h]

/-- One round of the triangular scheme on a span. -/
theorem cox_step {u : ℕ → K} {M : ℕ} (hu : MonoTo u M) {tmax t : K} {k q : ℕ}
    (hk : InSpan u tmax k t) (hq : q + 1 ≤ k) (hM : k + q + 2 < M) (D : ℕ → V) :
    ∑ j ∈ range (q + 2), basis u tmax (q + 1) (k - (q + 1) + j) t • D j
      = ∑ j ∈ range (q + 1), basis u tmax q (k - q + j) t •
        ((1 - (t - u (k - q + j)) / (u (k + 1 + j) - u (k - q + j))) • D j
          + ((t - u (k - q + j)) / (u (k + 1 + j) - u (k - q + j))) • D (j + 1)) := by
  have hlt := hk.lt
  simp only [basis, add_smul, sum_add_distrib]
  rw [sum_range_succ', sum_range_succ (n := q + 1)]
  rw [basis_support hu hk (by omega) q (k - (q + 1) + 0) (by omega) (by omega),
    basis_support hu hk (by omega) q (k - (q + 1) + (q + 1) + 1) (by omega) (by omega)]
  simp only [mul_zero, zero_smul, add_zero]
  rw [← sum_add_distrib]
  apply sum_congr rfl
  intro j hj
  have hj' : j < q + 1 := by simpa using hj
  have e1 : k - (q + 1) + (j + 1) = k - q + j := by omega
  have e2 : k - (q + 1) + (j + 1) + q + 1 = k + 1 + j := by omega
  have e3 : k - (q + 1) + j + 1 = k - q + j := by omega
  have e4 : k - (q + 1) + j + q + 2 = k + 1 + j := by omega
  rw [e1, e3, e4, show k - q + j + q + 1 = k + 1 + j by omega]
  have m1 := hu (k - q + j) k (by omega) (by omega)
  have m2 := hu (k + 1) (k + 1 + j) (by omega) (by omega)
  have hne : u (k + 1 + j) - u (k - q + j) ≠ 0 := by
    have : 0 < u (k + 1 + j) - u (k - q + j) := by linarith
    exact this.ne'
  have e5 : 1 - (t - u (k - q + j)) / (u (k + 1 + j) - u (k - q + j))
      = (u (k + 1 + j) - t) / (u (k + 1 + j) - u (k - q + j)) := by
    field_simp
    ring
  rw [e5, smul_add, smul_smul, smul_smul, mul_comm (basis _ _ _ _ _), mul_comm (basis _ _ _ _ _),
    add_comm]

theorem sum_basis_dB {u : ℕ → K} {M : ℕ} (hu : MonoTo u M) {tmax t : K} {k p : ℕ}
    (hk : InSpan u tmax k t) (hp : p ≤ k) (hM : k + p + 1 < M) (P : ℕ → V) :
    ∀ m ≤ p, ∑ j ∈ range (m + 1), basis u tmax m (k - m + j) t •
        dB p (fun j => u (k - p + j)) (fun _ => t) P (p - m) (p - m + j)
      = dB p (fun j => u (k - p + j)) (fun _ => t) P p p := by
  intro m
  induction m with
  | zero => intro _; simp [basis, hk]
  | succ m ih =>
    intro hm
    rw [cox_step hu hk (by omega) (by omega), ← ih (by omega)]
    apply sum_congr rfl
    intro j hj
    have hj' : j < m + 1 := by simpa using hj
    congr 1
    rw [show p - m = p - (m + 1) + 1 by omega, dB,
      show k - p + (p - (m + 1) + 1 + j) = k - m + j by omega,
      show k - p + (p + (p - (m + 1) + 1 + j) - (p - (m + 1))) = k + 1 + j by omega,
      show p - (m + 1) + 1 + j - 1 = p - (m + 1) + j by omega,
      show p - (m + 1) + 1 + j = p - (m + 1) + (j + 1) by omega]

/-- A sum against the basis only involves the control points of the span. -/
theorem sum_basis_support {u : ℕ → K} {M : ℕ} (hu : MonoTo u M) {tmax t : K} {k p n : ℕ}
    (hk : InSpan u tmax k t) (hp : p ≤ k) (hkn : k < n) (hM : n + p < M) (P : ℕ → V) :
    ∑ i ∈ range n, basis u tmax p i t • P i
      = ∑ j ∈ range (p + 1), basis u tmax p (k - p + j) t • P (k - p + j) := by
  obtain ⟨m, rfl⟩ : ∃ m, n = (k - p) + ((p + 1) + m) := ⟨n - k - 1, by omega⟩
  rw [sum_range_add, sum_range_add]
  rw [sum_eq_zero (s := range (k - p)), sum_eq_zero (s := range m)]
  · simp
  · intro i hi
    have : i < m := by simpa using hi
    rw [basis_support hu hk (by omega) _ _ (by omega) (by omega), zero_smul]
  · intro i hi
    have : i < k - p := by simpa using hi
    rw [basis_support hu hk (by omega) _ _ (by omega) (by omega), zero_smul]

theorem sum_basis_one {u : ℕ → K} {M : ℕ} (hu : MonoTo u M) {tmax t : K} {k p : ℕ}
    (hk : InSpan u tmax k t) (hp : p ≤ k) (hM : k + p + 1 < M) :
    ∑ j ∈ range (p + 1), basis u tmax p (k - p + j) t = 1 := by
  have h := sum_basis_dB hu hk hp hM (fun _ => (1 : K)) p le_rfl
  have one : ∀ r j, dB p (fun j => u (k - p + j)) (fun _ => t) (fun _ => (1 : K)) r j = 1 := by
    intro r
    induction r with
    | zero => intro j; rfl
    | succ r ih => intro j; simp [dB, ih]
  simpa [one] using h

end NS.Spec

namespace NS.BSpline

open Outcome Spec Polynomial Finset

variable {K V : Type} [Field K] [LinearOrder K] [IsStrictOrderedRing K] [FloorRing K]
  [AddCommGroup V] [Module K V]

theorem monoTo_knot {u : List K} (hs : u.Pairwise (· ≤ ·)) : MonoTo (knot u) u.length :=
  fun _ _ hij hj => knot_mono hs hij hj

/-- On a span the specified point is the value of the span's polynomial. -/
theorem bsplinePoint_eq {u : List K} (hs : u.Pairwise (· ≤ ·)) {p k : ℕ} {ctrl : List V}
    (hlen : u.length = ctrl.length + p + 1) {t : K}
    (hk : InSpan (knot u) (knot u ctrl.length) k t) (hp : p ≤ k) (hkn : k < ctrl.length)
    {Q : ℕ → V} (hQ : Repr (knot u) (fun i => ctrl.getD i 0) p k Q) :
    bsplinePoint p u ctrl t = umb Q (lin t ^ p) := by
  unfold bsplinePoint
  have hlt := hk.lt
  rw [sum_basis_support (monoTo_knot hs) hk hp hkn (by omega)]
  have := sum_basis_dB (V := V) (monoTo_knot hs) hk hp (by omega)
    (fun j => ctrl.getD (k - p + j) 0) p le_rfl
  simp only [Nat.sub_self, zero_add, dB] at this
  rw [this, ← dB_repr hs hp (by omega) hk.lt hQ t]
  rfl

end NS.BSpline
