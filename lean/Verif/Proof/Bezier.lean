import Mathlib.Tactic.ComputeDegree
import Verif.Model.Bezier
import Verif.Proof.Umbral

/-!
# Loop analysis for `Bezier`
-/

set_option linter.unusedSectionVars false
set_option linter.unusedSimpArgs false

namespace NS.Bezier

open Outcome Polynomial Finset

variable {K V : Type} [Field K] [LinearOrder K] [IsStrictOrderedRing K] [FloorRing K]
  [AddCommGroup V] [Module K V]

/-- Value of row `j` after `r` rounds of the triangular scheme. -/
def dcv (ts : ℕ → K) (P : ℕ → V) : ℕ → ℕ → V
  | 0, j => P j
  | r + 1, j => ts r • dcv ts P r j + (1 - ts r) • dcv ts P r (j - 1)

theorem blossom_arr (m : ℕ) (ts : ℕ → K) (n d : ℕ) (P : ℕ → V) (hd : d < n) (hm : d ≤ m) :
    blossom (arr m ts) d (arr n P) =
      ok (arr n (fun j => if j ≤ d then dcv ts P j j else P j)) := by
  unfold blossom
  have key := forUp_eq
    (S := fun r => arr n (fun j => if j ≤ d then dcv ts P (min (r - 1) j) j else P j))
    1 (d + 1) (by omega)
    (fun recStep c => forDown d recStep (fun j c => do
      let t ← rd (arr m ts) (recStep - 1)
      let a ← rd c j
      let b ← rd c (j - 1)
      wr c j (t • a + (1 - t) • b)) c) ?_
  · have h0 : arr n P = arr n (fun j => if j ≤ d then dcv ts P (min (1 - 1) j) j else P j) := by
      apply arr_congr; intro i _; simp [dcv]
    rw [h0, key]
    congr 1
    apply arr_congr
    intro i _
    by_cases h : i ≤ d <;> simp [h]
  · intro r hr1 hr2
    obtain ⟨q, rfl⟩ : ∃ q, r = q + 1 := ⟨r - 1, by omega⟩
    have key2 := forDown_eq
      (S := fun k => arr n (fun j => if j ≤ d then
          (if d - k < j then dcv ts P (min (q + 1) j) j else dcv ts P (min q j) j) else P j))
      d (q + 1)
      (fun j c => do
        let t ← rd (arr m ts) (q + 1 - 1)
        let a ← rd c j
        let b ← rd c (j - 1)
        wr c j (t • a + (1 - t) • b)) ?_
    · have h0 : arr n (fun j => if j ≤ d then dcv ts P (min (q + 1 - 1) j) j else P j)
          = arr n (fun j => if j ≤ d then
          (if d - 0 < j then dcv ts P (min (q + 1) j) j else dcv ts P (min q j) j) else P j) := by
        apply arr_congr; intro i _
        by_cases h : i ≤ d
        · have : ¬ d < i := by omega
          simp [h, this]
        · simp [h]
      rw [h0, key2]
      congr 1
      apply arr_congr
      intro i _
      by_cases h : i ≤ d
      · by_cases h2 : d - (d + 1 - (q + 1)) < i
        · simp only [h, h2, if_true, Nat.add_sub_cancel]
        · have e1 : min q i = i := by omega
          have e2 : min (q + 1) i = i := by omega
          simp only [h, h2, if_true, if_false, Nat.add_sub_cancel, e1, e2]
      · simp [h]
    · intro k hk
      have h1 : d - k < n := by omega
      have h2 : d - k - 1 < n := by omega
      have h3 : q < m := by omega
      rw [Nat.add_sub_cancel, rd_arr h3, ok_bind, rd_arr h1, ok_bind, rd_arr h2, ok_bind]
      apply wr_arr _ h1
      intro j hj
      have a1 : d - k ≤ d := by omega
      have a2 : d - k - 1 ≤ d := by omega
      have a3 : ¬ (d - k < d - k - 1) := by omega
      simp only [a1, a2, a3, lt_irrefl, if_true, if_false]
      by_cases hjd : j ≤ d
      · by_cases hj2 : j = d - k
        · subst hj2
          have e1 : min (q + 1) (d - k) = q + 1 := by omega
          have e2 : min q (d - k) = q := by omega
          have e3 : min q (d - k - 1) = q := by omega
          have e4 : d - (k + 1) < d - k := by omega
          simp only [a1, e1, e2, e3, e4, if_true]
          rfl
        · by_cases hj3 : d - k < j
          · have e4 : d - (k + 1) < j := by omega
            simp [hjd, hj2, hj3, e4]
          · have e4 : ¬ d - (k + 1) < j := by omega
            simp [hjd, hj2, hj3, e4]
      · have : j ≠ d - k := by omega
        simp [hjd, this]

theorem dcv_eq_umb (ts : ℕ → K) (P : ℕ → V) (r j : ℕ) (h : r ≤ j) :
    dcv ts P r j = umb P ((∏ i ∈ range r, lin (ts i)) * X ^ (j - r)) := by
  induction r generalizing j with
  | zero => simp [dcv, umb_X_pow]
  | succ r ih =>
    rw [dcv, ih j (by omega), ih (j - 1) (by omega), prod_range_succ,
      mul_comm (∏ i ∈ range r, lin (ts i)) (lin (ts r)), mul_assoc, umb_lin_mul, add_comm]
    congr 2
    · congr 2
      congr 1
      omega
    · rw [mul_left_comm, ← pow_succ']
      congr 2
      congr 1
      omega

theorem dcv_diag (ts : ℕ → K) (P : ℕ → V) (d : ℕ) :
    dcv ts P d d = umb P (∏ i ∈ range d, lin (ts i)) := by
  rw [dcv_eq_umb _ _ _ _ le_rfl]; simp

theorem replicate_eq_arr {α : Type} (n : ℕ) (a : α) : List.replicate n a = arr n (fun _ => a) := by
  apply List.ext_getElem <;> simp

/-- `deBoor` on at least `d+1` rows computes the blossom with equal arguments. -/
theorem deBoor_eq (b : ℕ) (t : K) (d n : ℕ) (P : ℕ → V) (hd : d < n) (hb : d ≤ b) :
    deBoor b t (d : ℤ) (arr n P) = ok (umb P (lin t ^ d)) := by
  unfold deBoor
  by_cases h : (d : ℤ) > 0
  · simp only [h, if_true, Int.toNat_natCast]
    rw [replicate_eq_arr, blossom_arr b (fun _ => t) n d P hd hb]
    simp only [ok_bind, rdI_natCast]
    rw [rd_arr hd]
    simp [dcv_diag]
  · have h0 : d = 0 := by omega
    subst h0
    simp only [h, if_false, ok_bind, rdI_natCast]
    rw [rd_arr hd]
    simp [umb_one]

/-- Evaluation in umbral form. -/
theorem evaluate_arr (n : ℕ) (P : ℕ → V) (t : K) :
    evaluate ({ ctrl := arr (n + 1) P } : Bezier V) t = ok (umb P (lin t ^ n)) := by
  have hd : ({ ctrl := arr (n + 1) P } : Bezier V).degree = (n : ℤ) := by simp [degree]
  simp only [evaluate, wrap, hd, Bool.false_eq_true, if_false, ok_bind, Int.toNat_natCast]
  exact deBoor_eq n t n (n + 1) P (by omega) le_rfl

theorem derivativeCoefficients_arr (n d : ℕ) (P : ℕ → V) (hd : d < n) :
    derivativeCoefficients K d (arr n P) =
      ok (arr n (fun j => if j < d then (d : K) • (P (j + 1) - P j) else P j)) := by
  unfold derivativeCoefficients
  have key := loop_eq
    (S := fun i => arr n (fun j => if j < i then (d : K) • (P (j + 1) - P j) else P j)) d
    (fun i c => do
      let a ← rd c (i + 1)
      let b ← rd c i
      wr c i ((d : K) • (a - b))) ?_
  · rw [← key]
    congr 1
  · intro i hi
    rw [rd_arr (by omega : i + 1 < n), ok_bind, rd_arr (by omega : i < n), ok_bind]
    apply wr_arr _ (by omega)
    intro j _
    have h1 : ¬ i + 1 < i := by omega
    simp only [h1, lt_irrefl, if_false]
    by_cases hj : j = i
    · subst hj; simp
    · by_cases hj2 : j < i
      · simp [hj, hj2, Nat.lt_succ_of_lt hj2]
      · have : ¬ j < i + 1 := by omega
        simp [hj, hj2, this]

theorem natDegree_lin_pow (t : K) (n : ℕ) : (lin t ^ n).natDegree ≤ n := by
  refine natDegree_pow_le.trans ?_
  have : (lin t).natDegree ≤ 1 := by unfold lin; compute_degree
  calc n * _ ≤ n * 1 := Nat.mul_le_mul_left _ this
    _ = n := by simp

theorem evaluateDerivative_arr (n : ℕ) (P : ℕ → V) (t : K) :
    evaluateDerivative ({ ctrl := arr (n + 2) P } : Bezier V) t
      = ok ((n + 1 : K) • umb P (lin t ^ n * (X - 1))) := by
  have hd : ({ ctrl := arr (n + 2) P } : Bezier V).degree = ((n + 1 : ℕ) : ℤ) := by
    simp [degree]; omega
  have h1 : ¬ (((n + 1 : ℕ) : ℤ) = 0) := by omega
  have h2 : ((n + 1 : ℕ) : ℤ) ≥ 0 := by omega
  have h3 : ((n + 1 : ℕ) : ℤ) - 1 = (n : ℤ) := by omega
  simp only [evaluateDerivative, wrap, hd, Bool.false_eq_true, if_false, ok_bind,
    Int.toNat_natCast, assert_true h2, h1, h3]
  rw [derivativeCoefficients_arr (n + 2) (n + 1) P (by omega), ok_bind,
    deBoor_eq _ t n (n + 2) _ (by omega) (by omega)]
  congr 1
  rw [umb_congr _ (fun j => ((n + 1 : ℕ) : K) • (P (j + 1) - P j)) (lin t ^ n) n
    (natDegree_lin_pow t n) (fun i hi => by simp [Nat.lt_succ_of_le hi])]
  rw [mul_sub, mul_one, map_sub, mul_comm, umb_shift]
  rw [umb_lin_pow, umb_lin_pow, umb_lin_pow, ← sum_sub_distrib, smul_sum]
  apply sum_congr rfl
  intro i _
  rw [smul_comm, ← smul_sub]
  push_cast
  rfl

theorem evaluate2ndDerivative_arr (n : ℕ) (P : ℕ → V) (t : K) :
    evaluate2ndDerivative ({ ctrl := arr (n + 3) P } : Bezier V) t
      = ok (((n + 2 : K) * (n + 1 : K)) • umb P (lin t ^ n * (X - 1) ^ 2)) := by
  have hd : ({ ctrl := arr (n + 3) P } : Bezier V).degree = ((n + 2 : ℕ) : ℤ) := by
    simp [degree]; omega
  have h1 : ¬ (((n + 2 : ℕ) : ℤ) ≤ 1) := by omega
  have h2 : ((n + 2 : ℕ) : ℤ) ≥ 0 := by omega
  have h3 : ((n + 2 : ℕ) : ℤ) - 1 = ((n + 1 : ℕ) : ℤ) := by omega
  have h4 : ((n + 2 : ℕ) : ℤ) - 2 = (n : ℤ) := by omega
  simp only [evaluate2ndDerivative, wrap, hd, Bool.false_eq_true, if_false, ok_bind,
    Int.toNat_natCast, assert_true h2, h1, h3, h4]
  rw [derivativeCoefficients_arr (n + 3) (n + 2) P (by omega), ok_bind,
    derivativeCoefficients_arr (n + 3) (n + 1) _ (by omega), ok_bind,
    deBoor_eq _ t n (n + 3) _ (by omega) (by omega)]
  congr 1
  rw [umb_congr _ (fun j => (((n + 2 : ℕ) : K) * ((n + 1 : ℕ) : K)) •
    (P (j + 2) - P (j + 1) - (P (j + 1) - P j))) (lin t ^ n) n (natDegree_lin_pow t n)
    (fun i hi => by
      have a1 : i < n + 1 := by omega
      have a2 : i < n + 2 := by omega
      have a3 : i + 1 < n + 2 := by omega
      simp only [a1, a2, a3, if_true]
      module)]
  have e : lin t ^ n * (X - 1) ^ 2 = X * (X * lin t ^ n) - X * lin t ^ n - X * lin t ^ n
      + lin t ^ n := by ring
  rw [e, map_add, map_sub, map_sub, umb_shift, umb_shift, umb_shift]
  simp only [umb_lin_pow]
  rw [← sum_sub_distrib, ← sum_sub_distrib, ← sum_add_distrib, smul_sum]
  apply sum_congr rfl
  intro i _
  push_cast
  have : P (i + 1 + 1) = P (i + 2) := rfl
  rw [this]
  module

/-- `arr`-form of a control list. -/
theorem arr_bezierPoint (n : ℕ) (P : ℕ → V) (t : K) :
    Spec.bezierPoint (arr (n + 1) P) t = umb P (lin t ^ n) := by
  unfold Spec.bezierPoint
  rw [umb_lin_pow]
  simp only [arr_length, Nat.add_sub_cancel]
  apply sum_congr rfl
  intro i hi
  rw [arr_getD _ _ _ _ (by simpa using hi)]

/-! ### Splitting -/

/-- Row `j` of the working copy of `split` after `i` rounds. -/
def dcs (t : K) (P : ℕ → V) : ℕ → ℕ → V
  | 0, j => P j
  | i + 1, j => (1 - t) • dcs t P i j + t • dcs t P i (j + 1)

theorem dcs_eq_umb (t : K) (P : ℕ → V) (i j : ℕ) : dcs t P i j = umb P (lin t ^ i * X ^ j) := by
  induction i generalizing j with
  | zero => simp [dcs, umb_X_pow]
  | succ i ih =>
    rw [dcs, ih, ih, pow_succ' (lin t), mul_assoc, umb_lin_mul]
    congr 3
    ring

theorem splitLoop_arr (t : K) (n : ℕ) (P : ℕ → V) :
    ∃ w, splitLoop t (arr n P) = ok (w, arr n (fun i => umb P (lin t ^ i)),
      arr n (fun i => umb P (lin t ^ (n - 1 - i) * X ^ i))) := by
  refine ⟨arr n (fun j => dcs t P (min n (n - 1 - j)) j), ?_⟩
  unfold splitLoop
  simp only [arr_length]
  have key := loop_eq
    (S := fun i => (arr n (fun j => dcs t P (min i (n - 1 - j)) j),
      arr n (fun j => if j < i then dcs t P j 0 else 0),
      arr n (fun j => if n - 1 - j < i then dcs t P (n - 1 - j) j else 0))) n
    (fun i s => do
      let (c, c1, c2) := s
      let a ← rd c 0
      let c1 ← wr c1 i a
      let b ← rd c (n - 1 - i)
      let c2 ← wr c2 (n - 1 - i) b
      let c ← loop (n - 1 - i) (fun j c => do
        let a ← rd c j
        let b ← rd c (j + 1)
        wr c j ((1 - t) • a + t • b)) c
      pure (c, c1, c2)) ?_
  · have h0 : (arr n P, List.replicate n (0 : V), List.replicate n (0 : V)) =
      (arr n (fun j => dcs t P (min 0 (n - 1 - j)) j),
      arr n (fun j => if j < 0 then dcs t P j 0 else 0),
      arr n (fun j => if n - 1 - j < 0 then dcs t P (n - 1 - j) j else 0)) := by
      rw [replicate_eq_arr]
      simp [dcs]
    rw [h0, key]
    congr 2
    congr 1
    · apply arr_congr; intro j hj; simp [hj, dcs_eq_umb]
    · apply arr_congr; intro j hj
      have : n - 1 - j < n := by omega
      simp [this, dcs_eq_umb]
  · intro i hi
    have hn : 0 < n := by omega
    have inner := loop_eq
      (S := fun k => arr n (fun j => if j < k then dcs t P (i + 1) j
        else dcs t P (min i (n - 1 - j)) j)) (n - 1 - i)
      (fun j c => do
        let a ← rd c j
        let b ← rd c (j + 1)
        wr c j ((1 - t) • a + t • b)) ?_
    · have h0 : arr n (fun j => dcs t P (min i (n - 1 - j)) j) =
        arr n (fun j => if j < 0 then dcs t P (i + 1) j
        else dcs t P (min i (n - 1 - j)) j) := by simp
      simp only
      rw [rd_arr hn, ok_bind]
      rw [wr_arr (fun j => if j < i + 1 then dcs t P j 0 else 0) hi, ok_bind]
      · rw [rd_arr (by omega : n - 1 - i < n), ok_bind]
        rw [wr_arr (fun j => if n - 1 - j < i + 1 then dcs t P (n - 1 - j) j else 0)
          (by omega : n - 1 - i < n), ok_bind]
        · rw [h0, inner, ok_bind, pure_eq]
          congr 2
          apply arr_congr
          intro j hj
          by_cases h : j < n - 1 - i
          · have : min (i + 1) (n - 1 - j) = i + 1 := by omega
            simp [h, this]
          · have : min (i + 1) (n - 1 - j) = min i (n - 1 - j) := by omega
            simp [h, this]
        · intro j hj
          by_cases h : j = n - 1 - i
          · subst h
            have e1 : n - 1 - (n - 1 - i) = i := by omega
            simp [e1]
          · by_cases h2 : n - 1 - j < i
            · simp [h, h2, Nat.lt_succ_of_lt h2]
            · have : ¬ (n - 1 - j < i + 1) := by omega
              simp [h, h2, this]
      · intro j hj
        by_cases h : j = i
        · subst h
          have : min j (n - 1) = j := by omega
          simp [this]
        · by_cases h2 : j < i
          · simp [h, h2, Nat.lt_succ_of_lt h2]
          · have : ¬ (j < i + 1) := by omega
            simp [h, h2, this]
    · intro k hk
      rw [rd_arr (by omega : k < n), ok_bind, rd_arr (by omega : k + 1 < n), ok_bind]
      apply wr_arr _ (by omega)
      intro j hj
      have a1 : ¬ (k + 1 < k) := by omega
      have e1 : min i (n - 1 - k) = i := by omega
      have e2 : min i (n - 1 - (k + 1)) = i := by omega
      simp only [a1, lt_irrefl, if_false, e1, e2]
      by_cases h : j = k
      · subst h; simp [dcs]
      · by_cases h2 : j < k
        · simp [h, h2, Nat.lt_succ_of_lt h2]
        · have : ¬ (j < k + 1) := by omega
          simp [h, h2, this]

/-! ### Subcurve -/

theorem subcurve_arr (n : ℕ) (P : ℕ → V) (t0 t1 : K) (per : Bool)
    (h01 : t0 ≤ t1) (h0 : 0 ≤ t0) (h1 : t1 ≤ 1) :
    subcurve ({ ctrl := arr (n + 1) P, periodic := per } : Bezier V) t0 t1
      = ok { ctrl := arr (n + 1) (fun i => umb P (lin t0 ^ (n - i) * lin t1 ^ i)) } := by
  unfold subcurve
  have g1 : ¬ (t0 > t1) := not_lt.mpr h01
  have g2 : ¬ (t0 < 0 ∨ t0 > 1 ∨ t1 < 0 ∨ t1 > 1) := by
    push Not
    exact ⟨h0, h01.trans h1, h0.trans h01, h1⟩
  rw [throwIf_false g1, ok_bind, throwIf_false g2, ok_bind]
  simp only [arr_length, Nat.add_sub_cancel]
  have key := loop_eq
    (S := fun k => arr (n + 1) (fun i => if n - i < k then umb P (lin t0 ^ (n - i) * lin t1 ^ i)
      else 0)) (n + 1)
    (fun i q => do
      let cp ← blossom (arr n (fun j => if j < i then t0 else t1)) n (arr (n + 1) P)
      let p ← rd cp n
      wr q (n - i) p) ?_
  · have e : List.replicate (n + 1) (0 : V) = arr (n + 1) (fun i => if n - i < 0 then
      umb P (lin t0 ^ (n - i) * lin t1 ^ i) else 0) := by rw [replicate_eq_arr]; simp
    rw [e, key, ok_bind, pure_eq]
    congr 2
    apply arr_congr
    intro j hj
    have : n - j < n + 1 := by omega
    simp [this]
  · intro i hi
    rw [blossom_arr n _ (n + 1) n P (by omega) le_rfl, ok_bind, rd_arr (by omega), ok_bind]
    apply wr_arr _ (by omega)
    intro j hj
    by_cases h : j = n - i
    · subst h
      have e1 : n - (n - i) = i := by omega
      simp only [e1, le_refl, if_true, dcv_diag, Nat.lt_succ_self]
      congr 1
      rw [show (fun x => lin (if x < i then t0 else t1)) =
        fun x => if x < i then lin t0 else lin t1 by funext x; split <;> rfl]
      rw [prod_ite, prod_const, prod_const]
      have c1 : #{x ∈ range n | x < i} = i := by
        have : {x ∈ range n | x < i} = range i := by
          ext x; simp; omega
        rw [this, card_range]
      have c2 : #{x ∈ range n | ¬ x < i} = n - i := by
        have h := card_filter_add_card_filter_not (s := range n) (fun x => x < i)
        rw [c1, card_range] at h
        omega
      rw [c1, c2]
    · by_cases h2 : n - j < i
      · simp [h, h2, Nat.lt_succ_of_lt h2]
      · have : ¬ (n - j < i + 1) := by omega
        simp [h, h2, this]

/-! ### Degree elevation -/

theorem elevateDegree_arr (n : ℕ) (P : ℕ → V) (per : Bool) :
    elevateDegree K ({ ctrl := arr (n + 1) P, periodic := per } : Bezier V)
      = ok { ctrl := arr (n + 2) (fun i => if i = 0 then P 0 else if i = n + 1 then P n else
              (1 - (i : K) / (n + 1)) • P i + ((i : K) / (n + 1)) • P (i - 1)),
             periodic := per } := by
  unfold elevateDegree
  simp only [arr_length]
  rw [rd_arr (by omega), ok_bind, replicate_eq_arr,
    wr_arr (fun j => if j = 0 then P 0 else 0) (by omega) (by intro j _; rfl), ok_bind]
  have key := forUp_eq (S := fun k => arr (n + 1 + 1) (fun i => if i = 0 then P 0 else if i < k then
      (1 - (i : K) / (n + 1)) • P i + ((i : K) / (n + 1)) • P (i - 1) else 0)) 1 (n + 1)
      (by omega)
      (fun i q => do
        let a ← rd (arr (n + 1) P) i
        let b ← rd (arr (n + 1) P) (i - 1)
        wr q i ((1 - (i : K) / ((n + 1 : ℕ) : K)) • a + ((i : K) / ((n + 1 : ℕ) : K)) • b)) ?_
  · have e : arr (n + 1 + 1) (fun j => if j = 0 then P 0 else 0) =
      arr (n + 1 + 1) (fun i => if i = 0 then P 0 else if i < 1 then
      (1 - (i : K) / (n + 1)) • P i + ((i : K) / (n + 1)) • P (i - 1) else 0) := by
      apply arr_congr
      intro i _
      by_cases h : i = 0
      · simp [h]
      · have : ¬ i < 1 := by omega
        simp [h]
    rw [e, key, ok_bind]
    have e2 : ((n + 1 : ℕ) : ℤ) - 1 = (n : ℤ) := by omega
    rw [e2, rdI_natCast, rd_arr (by omega), ok_bind]
    rw [wr_arr (fun i => if i = 0 then P 0 else if i = n + 1 then P n else
              (1 - (i : K) / (n + 1)) • P i + ((i : K) / (n + 1)) • P (i - 1)) (by omega), ok_bind]
    · rfl
    · intro j hj
      by_cases h : j = 0
      · subst h; simp
      · by_cases h2 : j = n + 1
        · simp [h2]
        · have : j < n + 1 := by omega
          simp [h, h2, this]
  · intro i hi1 hi2
    rw [rd_arr (by omega), ok_bind, rd_arr (by omega), ok_bind]
    apply wr_arr _ (by omega)
    intro j hj
    by_cases h : j = i
    · subst h
      have : j ≠ 0 := by omega
      simp [this]
    · by_cases h0 : j = 0
      · subst h0; simp [h]
      · by_cases h2 : j < i
        · simp [h, h0, h2, Nat.lt_succ_of_lt h2]
        · have : ¬ (j < i + 1) := by omega
          simp [h, h0, h2, this]

theorem bernstein_elevate (n i : ℕ) (hi : i ≤ n) (t : K) :
    Spec.bernstein n i t = (1 - (i : K) / (n + 1)) * Spec.bernstein (n + 1) i t
      + (((i + 1 : ℕ) : K) / (n + 1)) * Spec.bernstein (n + 1) (i + 1) t := by
  have hn : (n + 1 : K) ≠ 0 := by positivity
  have h1 : ((n + 1).choose (i + 1) : K) * (i + 1) = (n + 1) * (n.choose i) := by
    have := Nat.add_one_mul_choose_eq n i
    exact_mod_cast this.symm
  have h2 : ((n + 1).choose i : K) * (n + 1 - i) = (n + 1) * (n.choose i) := by
    have := Nat.choose_mul_succ_eq n i
    have h3 : ((n + 1).choose i * (n + 1 - i) : ℕ) = (n.choose i * (n + 1) : ℕ) := by omega
    have h4 : (((n + 1 - i : ℕ)) : K) = (n + 1 - i : K) := by
      rw [Nat.cast_sub (by omega)]; push_cast; ring
    rw [← h4]
    have := congrArg (Nat.cast (R := K)) h3
    push_cast at this
    rw [this]; ring
  unfold Spec.bernstein
  have e : n + 1 - i = (n - i) + 1 := by omega
  have e2 : n + 1 - (i + 1) = n - i := by omega
  rw [e, e2]
  field_simp
  push_cast
  rw [pow_succ, pow_succ]
  linear_combination (-(t ^ i * (1 - t) ^ (n - i) * (1 - t))) * h2
    + (-(t ^ i * t * (1 - t) ^ (n - i))) * h1

theorem elevate_sum (n : ℕ) (P : ℕ → V) (t : K) :
    ∑ i ∈ range (n + 2), Spec.bernstein (n + 1) i t • (if i = 0 then P 0 else
        if i = n + 1 then P n else
        (1 - (i : K) / (n + 1)) • P i + ((i : K) / (n + 1)) • P (i - 1))
      = ∑ i ∈ range (n + 1), Spec.bernstein n i t • P i := by
  have hn : (n + 1 : K) ≠ 0 := by positivity
  have step : ∀ i ∈ range (n + 2), Spec.bernstein (n + 1) i t • (if i = 0 then P 0 else
        if i = n + 1 then P n else
        (1 - (i : K) / (n + 1)) • P i + ((i : K) / (n + 1)) • P (i - 1))
      = ((1 - (i : K) / (n + 1)) * Spec.bernstein (n + 1) i t) • P i
        + (((i : K) / (n + 1)) * Spec.bernstein (n + 1) i t) • P (i - 1) := by
    intro i _
    by_cases h0 : i = 0
    · subst h0; simp
    · by_cases h1 : i = n + 1
      · subst h1
        simp only [h0, if_true, if_false]
        push_cast
        rw [div_self hn]
        simp
      · simp only [h0, h1, if_false]
        module
  rw [sum_congr rfl step, sum_add_distrib, sum_range_succ,
    sum_range_succ' (fun i => (((i : K) / (n + 1)) * Spec.bernstein (n + 1) i t) • P (i - 1))]
  push_cast
  rw [div_self hn]
  simp only [sub_self, zero_mul, zero_smul, add_zero, zero_div]
  rw [← sum_add_distrib]
  apply sum_congr rfl
  intro i hi
  have hi' : i ≤ n := by simp at hi; omega
  rw [bernstein_elevate n i hi' t]
  push_cast
  module

end NS.Bezier
