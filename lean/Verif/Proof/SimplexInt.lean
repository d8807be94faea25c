import Mathlib.Data.Nat.Choose.Central
import Verif.Proof.Simplex
import Verif.Model.SimplexInt

/-! # Bezier simplex with machine integers: agreement with the model over `ℕ` -/

set_option linter.unusedSectionVars false
set_option linter.unusedSimpArgs false

namespace NS
namespace Simplex

open Outcome

/-- The products that `choose` forms on the way fit 64 bits, the sizes fit 8 bits. -/
structure Fits (s d : ℕ) : Prop where
  small : s + d ≤ 255
  degree : d < 255
  product : min s d * (s + d).choose d < 2 ^ 64

theorem choose_mono' {s s' d d' : ℕ} (hs : s' ≤ s) (hd : d' ≤ d) :
    (s' + d').choose d' ≤ (s + d).choose d := by
  calc (s' + d').choose d' ≤ (s + d').choose d' := Nat.choose_le_choose _ (by omega)
    _ = (s + d').choose s := by rw [Nat.choose_symm_add]
    _ ≤ (s + d).choose s := Nat.choose_le_choose _ (by omega)
    _ = (s + d).choose d := by rw [Nat.choose_symm_add]

theorem Fits.mono {s s' d d' : ℕ} (h : Fits s d) (hs : s' ≤ s) (hd : d' ≤ d) : Fits s' d' :=
  ⟨by have := h.small; omega, by have := h.degree; omega, lt_of_le_of_lt
    (Nat.mul_le_mul (by omega) (choose_mono' hs hd)) h.product⟩

theorem Fits.symm {s d : ℕ} (h : Fits s d) : min d s * (d + s).choose s < 2 ^ 64 := by
  have := h.product
  rwa [min_comm, add_comm d s, Nat.choose_symm_add]

theorem Fits.choose_lt {s d : ℕ} (h : Fits s d) : (s + d).choose d < 2 ^ 64 := by
  rcases Nat.eq_zero_or_pos (min s d) with h0 | h0
  · rcases Nat.eq_zero_or_pos d with rfl | hd
    · simp
    · have : s = 0 := by omega
      subst this
      simp
  · exact lt_of_le_of_lt (Nat.le_mul_of_pos_left _ h0) h.product

theorem chooseM_loop (r m : ℕ) (h : m * (r + m).choose m < 2 ^ 64) :
    (List.range m).foldl (fun accum x => u64 (accum * (r + (x + 1))) / (x + 1)) 1
      = (r + m).choose m := by
  have key : ∀ k ≤ m, (List.range k).foldl
      (fun accum x => u64 (accum * (r + (x + 1))) / (x + 1)) 1 = (r + k).choose k := by
    intro k
    induction k with
    | zero => simp
    | succ k ih =>
      intro hk
      rw [List.range_succ, List.foldl_append, ih (by omega)]
      simp only [List.foldl_cons, List.foldl_nil]
      have h1 := Nat.add_one_mul_choose_eq (r + k) k
      have h2 : (r + k).choose k * (r + (k + 1)) = (r + (k + 1)).choose (k + 1) * (k + 1) := by
        rw [← add_assoc, mul_comm, h1]
      have h3 : (r + (k + 1)).choose (k + 1) * (k + 1) < 2 ^ 64 := by
        refine lt_of_le_of_lt ?_ h
        rw [mul_comm]
        exact Nat.mul_le_mul hk (choose_mono' le_rfl hk)
      rw [h2, u64, Nat.mod_eq_of_lt h3]
      exact Nat.mul_div_cancel _ (by omega)
  exact key m le_rfl

theorem u8_eq {x : ℕ} (h : x ≤ 255) : u8 x = x := Nat.mod_eq_of_lt (by omega)

theorem u64_eq {x : ℕ} (h : x < 2 ^ 64) : u64 x = x := Nat.mod_eq_of_lt h

theorem chooseM_eq {s d : ℕ} (hs : s + d ≤ 255) (h : min s d * (s + d).choose d < 2 ^ 64) :
    chooseM (s + d) d = (s + d).choose d := by
  unfold chooseM
  rw [u8_eq hs, u8_eq (by omega : d ≤ 255)]
  simp only [Nat.add_sub_cancel]
  split_ifs with h'
  · rw [show s + d - s = d by omega]
    rw [min_eq_right (by omega)] at h
    exact chooseM_loop s d h
  · rw [Nat.add_sub_cancel, chooseM_loop d s, add_comm d s, Nat.choose_symm_add]
    rw [min_eq_left (by omega)] at h
    rwa [add_comm d s, Nat.choose_symm_add]

theorem numControlPointsM_eq {s d : ℕ} (h : Fits s d) :
    numControlPointsM s d = numControlPoints s d := by
  rw [numControlPoints_eq, numControlPointsM, chooseM_eq (by have := h.small; omega) h.symm,
    add_comm d s, Nat.choose_symm_add]

theorem factorial_lt {N : ℕ} (h : N ≤ 12) : N.factorial < 2 ^ 31 :=
  lt_of_le_of_lt (Nat.factorial_le h) (by decide)

theorem factorialsM_eq {N : ℕ} (hN : N ≤ 12) : factorialsM N = factorials N := by
  rw [factorials_eq]
  unfold factorialsM
  have h0 : wr (List.replicate (N + 1) 0) 0 1
      = ok (arr (N + 1) (fun j => if j < 1 then j.factorial else 0)) := by
    rw [wr_of_lt _ (by simp)]
    congr 1
    apply eq_arr_of
    · simp
    · intro i hi
      rw [List.getElem_set]
      rcases i with _ | i <;> simp
  simp only [h0, ok_bind]
  have := forUp_eq (fun k => arr (N + 1) (fun j => if j < k then j.factorial else 0)) 1 (N + 1)
    (by omega) (fun i result => do
      let x ← rd result (i - 1)
      Outcome.assert (x * i < 2 ^ 31)
      wr result i (x * i)) (fun i h1 h2 => by
      have hf : (i - 1).factorial * i = i.factorial := by
        obtain ⟨k, rfl⟩ : ∃ k, i = k + 1 := ⟨i - 1, by omega⟩
        simp [Nat.factorial_succ, mul_comm]
      rw [rd_arr (by omega), ok_bind, if_pos (by omega), hf,
        assert_true (factorial_lt (by omega)), ok_bind]
      apply wr_arr _ h2
      intro j hj
      by_cases h : j = i
      · subst h
        simp
      · have : j < i + 1 ↔ j < i := by omega
        simp [h, this])
  refine this.trans ?_
  congr 1
  exact arr_congr (fun i hi => by simp [hi])

theorem loop_ub {σ : Type} (n m : ℕ) (f : ℕ → σ → Outcome σ) (s : σ) (h : n ≤ m)
    (hn : loop n f s = ub) : loop m f s = ub := by
  induction m, h using Nat.le_induction with
  | base => exact hn
  | succ m _ ih => rw [loop_succ, ih]; rfl

theorem factorialsM_ub {N : ℕ} (hN : 13 ≤ N) : factorialsM N = ub := by
  unfold factorialsM
  have h0 : wr (List.replicate (N + 1) 0) 0 1
      = ok (arr (N + 1) (fun j => if j < 1 then j.factorial else 0)) := by
    rw [wr_of_lt _ (by simp)]
    congr 1
    apply eq_arr_of
    · simp
    · intro i hi
      rw [List.getElem_set]
      rcases i with _ | i <;> simp
  simp only [h0, ok_bind]
  rw [forUp]
  refine loop_ub 13 _ _ _ (by omega) ?_
  have := loop_eq (fun k => arr (N + 1) (fun j => if j < 1 + k then j.factorial else 0)) 12
    (fun k result => do
      let x ← rd result (1 + k - 1)
      Outcome.assert (x * (1 + k) < 2 ^ 31)
      wr result (1 + k) (x * (1 + k))) (fun i h2 => by
      have hf : i.factorial * (1 + i) = (1 + i).factorial := by
        rw [add_comm 1 i, Nat.factorial_succ, mul_comm]
      rw [rd_arr (by omega), ok_bind, if_pos (by omega), Nat.add_sub_cancel_left, hf,
        assert_true (factorial_lt (by omega)), ok_bind]
      apply wr_arr _ (by omega)
      intro j hj
      by_cases h : j = 1 + i
      · subst h
        simp
      · have : j < 1 + (i + 1) ↔ j < 1 + i := by omega
        simp [h, this])
  rw [loop_succ]
  simp only [add_zero] at this
  rw [this, ok_bind, rd_arr (by omega), ok_bind, if_pos (by omega), assert_false (by decide)]
  rfl

theorem generateMultiIndicesM_eq {s d : ℕ} (hf : Fits s d) (g : List (List ℕ))
    (hg : g.length = (s + d).choose d) :
    generateMultiIndicesM s d g = ok (rows s d) := by
  induction s generalizing d g with
  | zero =>
    unfold generateMultiIndicesM
    rw [assert_true (by rw [hg, chooseM_eq hf.small hf.product]), ok_bind]
    simp only [zero_add, Nat.choose_self] at hg
    obtain ⟨x, rfl⟩ := List.length_eq_one_iff.1 hg
    rfl
  | succ s ih =>
    unfold generateMultiIndicesM
    rw [assert_true (by rw [hg, chooseM_eq hf.small hf.product]), ok_bind,
      assert_true hf.degree, ok_bind]
    have hP : ∀ k, ((List.range k).flatMap fun k => (rows s k).map fun l => (d - k) :: l).length
        = ((List.range k).map fun k => (s + k).choose k).sum := by
      intro k
      rw [List.length_flatMap]
      simp only [List.length_map, rows_length]
    set P : ℕ → List (List ℕ) :=
      fun k => (List.range k).flatMap fun k => (rows s k).map fun l => (d - k) :: l with hPdef
    have hPs : ∀ k, P (k + 1) = P k ++ (rows s k).map fun l => (d - k) :: l := by
      intro k
      simp [hPdef, List.range_succ]
    have hmono : ∀ j k, j ≤ k → (P j).length ≤ (P k).length := by
      intro j k h
      induction k, h using Nat.le_induction with
      | base => exact le_rfl
      | succ k _ ih => rw [hPs, List.length_append]; omega
    have hfull : (P (d + 1)).length = g.length := by
      rw [hP, hg]; exact hockey s d
    have hsm := hf.small
    have hlt : g.length < 2 ^ 64 := hg ▸ hf.choose_lt
    have := loop_eq (fun k => ((P k).length, P k ++ g.drop (P k).length)) (d + 1)
      (fun d' (st : ℕ × List (List ℕ)) => do
        let (count, g) := st
        let m := chooseM (u8 (s + 1 + d' - 1)) d'
        let block ← seg g count m
        let layer ← generateMultiIndicesM s d' (block.map List.tail)
        let g ← wrSeg g count (layer.map fun row => u8 (d - d') :: row)
        pure (u64 (count + layer.length), g)) (fun i hi => by
        have hfi : Fits s i := hf.mono (by omega) (by omega)
        have hm : chooseM (u8 (s + 1 + i - 1)) i = (s + i).choose i := by
          rw [u8_eq (by omega), show s + 1 + i - 1 = s + i by omega,
            chooseM_eq hfi.small hfi.product]
        have hlen : (P (i + 1)).length = (P i).length + (s + i).choose i := by
          rw [hPs]; simp [rows_length]
        have h3 := hmono (i + 1) (d + 1) (by omega)
        have hle := hmono i (d + 1) (by omega)
        simp only
        rw [hm, seg, if_pos (by simp; omega), ok_bind,
          ih hfi _ (by simp; omega), ok_bind, wrSeg, if_pos (by simp [rows_length]; omega), ok_bind]
        simp only [pure_eq, hlen, rows_length, List.length_map]
        rw [u64_eq (by omega), u8_eq (by omega : d - i ≤ 255)]
        congr 2
        rw [hPs]
        simp [List.take_append, List.drop_append])
    have h0 : P 0 = [] := rfl
    simp only [h0, List.length_nil, List.nil_append, List.drop_zero] at this
    rw [this, ok_bind]
    simp only [hfull, List.drop_length, List.append_nil]
    rfl

theorem multiIndicesM_eq {s d : ℕ} (h : Fits s d) : multiIndicesM s d = multiIndices s d := by
  rw [multiIndices_eq]
  exact generateMultiIndicesM_eq h _
    (by rw [List.length_replicate, numControlPointsM_eq h, numControlPoints_eq])

variable {K : Type} [Field K] {V : Type} [AddCommGroup V] [Module K V]

theorem evaluateBernsteinM_eq (s : ℕ) {d : ℕ} (hd : d ≤ 12) (idx : List ℕ) (b : List K) :
    evaluateBernsteinM s d idx b = evaluateBernstein s d idx b := by
  unfold evaluateBernsteinM evaluateBernstein
  rw [factorialsM_eq hd]

theorem evaluateBernsteinDerivativeM_eq (s : ℕ) {d : ℕ} (hd : d ≤ 12) (idx : List ℕ) (b : List K)
    (axis : ℕ) :
    evaluateBernsteinDerivativeM s d idx b axis = evaluateBernsteinDerivative s d idx b axis := by
  unfold evaluateBernsteinDerivativeM evaluateBernsteinDerivative
  simp only [evaluateBernsteinM_eq s hd]

theorem elevateDegreeM_eq {s d : ℕ} (h : Fits s (d + 1)) (P : List V) :
    elevateDegreeM K s d P = elevateDegree K s d P := by
  have h' : Fits s d := h.mono le_rfl (by omega)
  unfold elevateDegreeM elevateDegree
  rw [multiIndicesM_eq h, multiIndicesM_eq h', numControlPointsM_eq h, numControlPointsM_eq h',
    multiIndices_eq, multiIndices_eq]
  simp only [ok_bind]
  congr 1
  funext i
  congr 1
  funext e
  congr 1
  apply loop_congr
  intro j hj o
  have hj' : j < (rows s d).length := by rwa [rows_length, ← numControlPoints_eq]
  rw [rd_of_lt hj', ok_bind, ok_bind]
  have hmem := mem_rows.1 (List.getElem_mem hj')
  apply loop_congr
  intro k hk o
  have hk' : k < ((rows s d)[j]).length := by omega
  rw [rd_of_lt hk', ok_bind, ok_bind]
  have hle : ((rows s d)[j])[k] ≤ ((rows s d)[j]).sum :=
    List.single_le_sum (by simp) _ (List.getElem_mem _)
  have := h.degree
  rw [u8_eq (by omega)]

end Simplex
end NS
