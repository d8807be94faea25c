import Mathlib.Data.Nat.Choose.Sum
import Mathlib.Algebra.CharZero.Defs
import Mathlib.Tactic.Linarith
import Mathlib.Tactic.FieldSimp
import Mathlib.Tactic.Ring
import Verif.Model.Simplex
import Verif.Spec.Simplex

/-! # Bezier simplex: execution of the model -/

set_option linter.unusedSectionVars false
set_option linter.unusedSimpArgs false

namespace NS
namespace Simplex

open Outcome Spec

theorem choose_loop (r k : ℕ) :
    (List.range k).foldl (fun accum x => accum * (r + (x + 1)) / (x + 1)) 1 = (r + k).choose k := by
  induction k with
  | zero => simp
  | succ k ih =>
    rw [List.range_succ, List.foldl_append, ih]
    simp only [List.foldl_cons, List.foldl_nil]
    apply Nat.div_eq_of_eq_mul_left (by omega)
    have := Nat.add_one_mul_choose_eq (r + k) k
    rw [← add_assoc, mul_comm, this]

theorem choose_eq {n r : ℕ} (h : r ≤ n) : choose n r = n.choose r := by
  unfold choose
  simp only
  split
  · rename_i h1
    rw [choose_loop]
    rw [show n - r + (n - (n - r)) = n by omega, show n - (n - r) = r by omega]
  · rw [choose_loop, show r + (n - r) = n by omega, Nat.choose_symm h]

theorem numControlPoints_eq (s d : ℕ) : numControlPoints s d = (s + d).choose d := by
  unfold numControlPoints
  rw [choose_eq (by omega), add_comm d s, Nat.choose_symm_add]

theorem factorials_eq (N : ℕ) : factorials N = ok (arr (N + 1) Nat.factorial) := by
  unfold factorials
  have h0 : wr (List.replicate (N + 1) 0) 0 1
      = ok (arr (N + 1) (fun j => if j < 1 then j.factorial else 0)) := by
    rw [wr_of_lt _ (by simp)]
    congr 1
    apply eq_arr_of
    · simp
    · intro i hi
      rw [List.getElem_set]
      rcases i with _ | i <;> simp
  simp only [h0, ok_bind]
  have := forUp_eq (fun k => arr (N + 1) (fun j => if j < k then j.factorial else 0)) 1 (N + 1)
    (by omega) (fun i result => do
      let x ← rd result (i - 1)
      wr result i (x * i)) (fun i h1 h2 => by
      rw [rd_arr (by omega), ok_bind]
      apply wr_arr _ h2
      intro j hj
      by_cases h : j = i
      · subst h
        obtain ⟨k, rfl⟩ : ∃ k, j = k + 1 := ⟨j - 1, by omega⟩
        simp [Nat.factorial_succ, mul_comm]
      · have : j < i + 1 ↔ j < i := by omega
        simp [h, this])
  refine this.trans ?_
  congr 1
  exact arr_congr (fun i hi => by simp [hi])

/-! ### The list of multi-indices -/

/-- The rows in the order in which they are generated. -/
def rows : ℕ → ℕ → List (List ℕ)
  | 0, d => [[d]]
  | s + 1, d => (List.range (d + 1)).flatMap fun k => (rows s k).map fun l => (d - k) :: l

theorem hockey (s d : ℕ) :
    ((List.range (d + 1)).map fun k => (s + k).choose k).sum = (s + 1 + d).choose d := by
  induction d with
  | zero => simp
  | succ d ih =>
    rw [List.range_succ, List.map_append, List.sum_append, ih]
    simp only [List.map_cons, List.map_nil, List.sum_cons, List.sum_nil, add_zero]
    rw [show s + 1 + (d + 1) = (s + 1 + d) + 1 by omega, Nat.choose_succ_succ]
    rw [show s + (d + 1) = s + 1 + d by omega]

theorem rows_length (s d : ℕ) : (rows s d).length = (s + d).choose d := by
  induction s generalizing d with
  | zero => simp [rows]
  | succ s ih =>
    rw [rows, List.length_flatMap]
    simp only [List.length_map, ih]
    exact hockey s d

theorem mem_rows {s d : ℕ} {l : List ℕ} : l ∈ rows s d ↔ l.length = s + 1 ∧ l.sum = d := by
  induction s generalizing d l with
  | zero =>
    rw [rows, List.mem_singleton]
    constructor
    · rintro rfl; simp
    · rintro ⟨h1, h2⟩
      obtain ⟨a, rfl⟩ := List.length_eq_one_iff.1 (by simpa using h1)
      simpa using h2
  | succ s ih =>
    rw [rows, List.mem_flatMap]
    constructor
    · rintro ⟨k, hk, hl⟩
      obtain ⟨l', h1, rfl⟩ := List.mem_map.1 hl
      obtain ⟨h2, h3⟩ := ih.1 h1
      have : k < d + 1 := by simpa using hk
      exact ⟨by simp [h2], by simp [h3]; omega⟩
    · rintro ⟨h1, h2⟩
      rcases l with _ | ⟨a, l⟩
      · simp at h1
      · have h2' : a + l.sum = d := by simpa using h2
        refine ⟨l.sum, by simp; omega, List.mem_map.2 ⟨l, ih.2 ⟨by simpa using h1, rfl⟩, ?_⟩⟩
        rw [show d - l.sum = a by omega]

theorem rows_sorted (s d : ℕ) : (rows s d).Pairwise (fun a b => b < a) := by
  induction s generalizing d with
  | zero => simp [rows]
  | succ s ih =>
    rw [rows, List.pairwise_flatMap]
    refine ⟨fun k hk => ?_, ?_⟩
    · rw [List.pairwise_map]
      refine (ih k).imp ?_
      intro a b h
      exact List.Lex.cons h
    · have : (List.range (d + 1)).Pairwise (fun a b => a < b ∧ b < d + 1) := by
        have h1 := @List.pairwise_lt_range (d + 1)
        rw [List.pairwise_iff_getElem] at h1 ⊢
        intro i j hi hj hij
        refine ⟨h1 i j hi hj hij, ?_⟩
        simp at hj ⊢; omega
      refine this.imp ?_
      rintro a b ⟨hab, hb⟩ x hx y hy
      obtain ⟨x', _, rfl⟩ := List.mem_map.1 hx
      obtain ⟨y', _, rfl⟩ := List.mem_map.1 hy
      exact List.Lex.rel (by omega)

theorem rows_nodup (s d : ℕ) : (rows s d).Nodup := by
  refine (rows_sorted s d).imp ?_
  intro a b h e
  subst e
  exact lt_irrefl _ h

theorem generateMultiIndices_eq (s d : ℕ) (g : List (List ℕ)) (hg : g.length = (s + d).choose d) :
    generateMultiIndices s d g = ok (rows s d) := by
  induction s generalizing d g with
  | zero =>
    unfold generateMultiIndices
    rw [assert_true (by rw [hg, choose_eq (by omega)]), ok_bind]
    simp only [zero_add, Nat.choose_self] at hg
    obtain ⟨x, rfl⟩ := List.length_eq_one_iff.1 hg
    rfl
  | succ s ih =>
    unfold generateMultiIndices
    rw [assert_true (by rw [hg, choose_eq (by omega)]), ok_bind]
    have hP : ∀ k, ((List.range k).flatMap fun k => (rows s k).map fun l => (d - k) :: l).length
        = ((List.range k).map fun k => (s + k).choose k).sum := by
      intro k
      rw [List.length_flatMap]
      simp only [List.length_map, rows_length]
    set P : ℕ → List (List ℕ) :=
      fun k => (List.range k).flatMap fun k => (rows s k).map fun l => (d - k) :: l with hPdef
    have hPs : ∀ k, P (k + 1) = P k ++ (rows s k).map fun l => (d - k) :: l := by
      intro k
      simp [hPdef, List.range_succ]
    have hmono : ∀ j k, j ≤ k → (P j).length ≤ (P k).length := by
      intro j k h
      induction k, h using Nat.le_induction with
      | base => exact le_rfl
      | succ k _ ih => rw [hPs, List.length_append]; omega
    have hfull : (P (d + 1)).length = g.length := by
      rw [hP, hg]; exact hockey s d
    have := loop_eq (fun k => ((P k).length, P k ++ g.drop (P k).length)) (d + 1)
      (fun d' (st : ℕ × List (List ℕ)) => do
        let (count, g) := st
        let m := choose (s + 1 + d' - 1) d'
        let block ← seg g count m
        let layer ← generateMultiIndices s d' (block.map List.tail)
        let g ← wrSeg g count (layer.map fun row => (d - d') :: row)
        pure (count + layer.length, g)) (fun i hi => by
        have hm : choose (s + 1 + i - 1) i = (s + i).choose i := by
          rw [choose_eq (by omega)]; congr 1; omega
        have hlen : (P (i + 1)).length = (P i).length + (s + i).choose i := by
          rw [hPs]; simp [rows_length]
        have h3 := hmono (i + 1) (d + 1) (by omega)
        have hle := hmono i (d + 1) (by omega)
        simp only
        rw [hm, seg, if_pos (by simp; omega), ok_bind,
          ih i _ (by simp; omega), ok_bind, wrSeg, if_pos (by simp [rows_length]; omega), ok_bind]
        simp only [pure_eq, hlen, rows_length, List.length_map]
        congr 2
        rw [hPs]
        simp [List.take_append, List.drop_append])
    have h0 : P 0 = [] := rfl
    simp only [h0, List.length_nil, List.nil_append, List.drop_zero] at this
    rw [this, ok_bind]
    simp only [hfull, List.drop_length, List.append_nil]
    rfl

theorem multiIndices_eq (s d : ℕ) : multiIndices s d = ok (rows s d) :=
  generateMultiIndices_eq s d _ (by rw [List.length_replicate, numControlPoints_eq])

/-! ### Sums over the rows -/

variable {K : Type} [Field K] {V : Type} [AddCommGroup V] [Module K V]

/-- A row as a function. -/
def fn (s : ℕ) (l : List ℕ) : Fin (s + 1) → ℕ := fun j => l.getD j 0

theorem fn_ofFn (s : ℕ) (α : Fin (s + 1) → ℕ) : fn s (List.ofFn α) = α := by
  funext j
  have := j.2
  have h : (j : ℕ) ≤ s := by omega
  simp [fn, List.getD, -List.ofFn_succ, h]

theorem ofFn_fn {s : ℕ} {l : List ℕ} (h : l.length = s + 1) : List.ofFn (fn s l) = l := by
  apply List.ext_getElem
  · simp [h]
  · intro i h1 h2
    simp [fn, h2, -List.ofFn_succ]

theorem sum_fn {s : ℕ} {l : List ℕ} (h : l.length = s + 1) : ∑ j, fn s l j = l.sum := by
  conv_rhs => rw [← ofFn_fn h]
  rw [List.sum_ofFn]

theorem sum_rows {A : Type} [AddCommMonoid A] (s d : ℕ) (f : (Fin (s + 1) → ℕ) → A) :
    ((rows s d).map fun l => f (fn s l)).sum
      = ∑ α ∈ Finset.piAntidiag (Finset.univ : Finset (Fin (s + 1))) d, f α := by
  rw [← List.sum_toFinset _ (rows_nodup s d)]
  refine Finset.sum_nbij' (fn s) List.ofFn ?_ ?_ ?_ ?_ ?_
  · intro l hl
    obtain ⟨h1, h2⟩ := mem_rows.1 (List.mem_toFinset.1 hl)
    rw [Finset.mem_piAntidiag]
    exact ⟨by rw [sum_fn h1, h2], by simp⟩
  · intro α hα
    rw [Finset.mem_piAntidiag] at hα
    rw [List.mem_toFinset, mem_rows]
    exact ⟨by simp, by rw [List.sum_ofFn, hα.1]⟩
  · intro l hl
    exact ofFn_fn (mem_rows.1 (List.mem_toFinset.1 hl)).1
  · intro α _
    exact fn_ofFn s α
  · intro l _
    rfl

/-- An accumulation loop. -/
theorem loop_sum {A : Type} [AddCommMonoid A] (n : ℕ) (f : ℕ → A) (body : ℕ → A → Outcome A) (a : A)
    (h : ∀ i < n, ∀ x, body i x = ok (x + f i)) :
    loop n body a = ok (a + ((List.range n).map f).sum) := by
  induction n with
  | zero => simp
  | succ n ih =>
    rw [loop_succ, ih (fun i hi => h i (by omega)), ok_bind, h n (by omega), List.range_succ]
    simp [add_assoc]

theorem loop_prod (n : ℕ) (f : ℕ → K) (body : ℕ → K → Outcome K) (a : K)
    (h : ∀ i < n, ∀ x, body i x = ok (x * f i)) :
    loop n body a = ok (a * ∏ i ∈ Finset.range n, f i) := by
  induction n with
  | zero => simp
  | succ n ih =>
    rw [loop_succ, ih (fun i hi => h i (by omega)), ok_bind, h n (by omega),
      Finset.prod_range_succ, mul_assoc]

theorem range_map_getD {A B : Type} (l : List A) (x : A) (f : A → B) :
    ((List.range l.length).map fun i => f (l.getD i x)) = l.map f := by
  apply List.ext_getElem
  · simp
  · intro i h1 h2
    have : i < l.length := by simpa using h2
    simp [this]

/-- The basis value in terms of the factorial of a degree `d` that may exceed the sum. -/
def bval (s d : ℕ) (α : Fin (s + 1) → ℕ) (b : Fin (s + 1) → K) : K :=
  (d.factorial : K) * ∏ j, (b j ^ α j / ((α j).factorial : K))

theorem evaluateBernstein_eq (s d : ℕ) {idx : List ℕ} {b : List K} (hi : idx.length = s + 1)
    (hs : idx.sum ≤ d) (hb : b.length = s + 1) :
    evaluateBernstein s d idx b = ok (bval s d (fn s idx) (coords (s + 1) b)) := by
  unfold evaluateBernstein
  rw [factorials_eq, ok_bind, rd_arr (by omega), ok_bind]
  rw [loop_prod (s + 1)
    (fun j => b.getD j 0 ^ (idx.getD j 0) / ((idx.getD j 0).factorial : K)) _ _ (fun j hj x => ?_)]
  · rw [bval, Finset.prod_range]
    rfl
  · rw [rd_of_lt (by omega), ok_bind]
    have : idx[j] ≤ idx.sum := List.single_le_sum (by simp) _ (List.getElem_mem _)
    rw [rd_arr (by omega), ok_bind, rd_of_lt (by omega), ok_bind]
    have h1 : idx.getD j 0 = idx[j] := by simp [List.getD, hi, hj]
    have h2 : b.getD j 0 = b[j] := by simp [List.getD, hb, hj]
    rw [h1, h2, pure_eq]
    congr 1
    ring

theorem bval_eq [CharZero K] {s d : ℕ} {α : Fin (s + 1) → ℕ} (h : ∑ j, α j = d)
    (b : Fin (s + 1) → K) : bval s d α b = simplexBasis α b := by
  unfold bval simplexBasis
  have h1 := Nat.multinomial_spec Finset.univ α
  rw [h] at h1
  have h2 : (∏ j, ((α j).factorial : K)) ≠ 0 :=
    Finset.prod_ne_zero_iff.2 (fun j _ => Nat.cast_ne_zero.2 (Nat.factorial_ne_zero _))
  rw [Finset.prod_div_distrib, ← h1]
  push_cast
  field_simp

theorem evaluate_eq [CharZero K] (s d : ℕ) (F : (Fin (s + 1) → ℕ) → V) {b : List K}
    (hb : b.length = s + 1) :
    evaluate s d ((rows s d).map fun l => F (fn s l)) b
      = ok (simplexForm d F (coords (s + 1) b)) := by
  unfold evaluate
  rw [throwIf_false (by simp [rows_length, numControlPoints_eq]), ok_bind, multiIndices_eq, ok_bind]
  rw [loop_sum _ (fun i => simplexBasis (fn s ((rows s d).getD i [])) (coords (s + 1) b) •
    F (fn s ((rows s d).getD i []))) _ _ (fun i hi x => ?_)]
  · rw [zero_add, numControlPoints_eq, ← rows_length]
    rw [range_map_getD (rows s d) []
      (fun l => simplexBasis (fn s l) (coords (s + 1) b) • F (fn s l))]
    rw [sum_rows s d (fun α => simplexBasis α (coords (s + 1) b) • F α)]
    rfl
  · have hi' : i < (rows s d).length := by rwa [rows_length, ← numControlPoints_eq]
    obtain ⟨h1, h2⟩ := mem_rows.1 (List.getElem_mem hi')
    rw [rd_of_lt hi', ok_bind, evaluateBernstein_eq s d h1 h2.le hb, ok_bind,
      rd_of_lt (by simpa using hi'), ok_bind, pure_eq]
    rw [bval_eq (by rw [sum_fn h1, h2])]
    simp [List.getD, hi']

/-- Every list of ordinates of the right length comes from a function of the multi-index. -/
theorem exists_fun (s d : ℕ) (P : List V) (h : P.length = numControlPoints s d) :
    ∃ F : (Fin (s + 1) → ℕ) → V, P = (rows s d).map fun l => F (fn s l) := by
  have hl : (rows s d).length = P.length := by rw [h, rows_length, numControlPoints_eq]
  refine ⟨fun α => P.getD ((rows s d).idxOf (List.ofFn α)) 0, ?_⟩
  apply List.ext_getElem
  · simp [hl]
  · intro i h1 h2
    have hi : i < (rows s d).length := by omega
    rw [List.getElem_map]
    simp only
    rw [ofFn_fn (mem_rows.1 (List.getElem_mem hi)).1,
      (rows_nodup s d).idxOf_getElem]
    simp [h1]

end Simplex
end NS
