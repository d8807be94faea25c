import Mathlib.Analysis.Calculus.Deriv.Add
import Mathlib.Analysis.Calculus.Deriv.Mul
import Mathlib.Analysis.Calculus.Deriv.Pow
import Mathlib.LinearAlgebra.Matrix.NonsingularInverse
import Mathlib.Tactic.Module
import Mathlib.Algebra.BigOperators.Field
import Verif.Proof.Simplex

/-! # Bezier simplex: algebra of the Bernstein form, elevation, fitting, derivatives -/

set_option linter.unusedSectionVars false
set_option linter.unusedSimpArgs false

namespace NS
namespace Simplex

open Outcome Spec Finset

variable {K : Type} [Field K] [CharZero K] {V : Type} [AddCommGroup V] [Module K V]

/-- One more in component `k`. -/
def up {n : ℕ} (α : Fin n → ℕ) (k : Fin n) : Fin n → ℕ := Function.update α k (α k + 1)

theorem sum_up {n : ℕ} (α : Fin n → ℕ) (k : Fin n) : ∑ j, up α k j = ∑ j, α j + 1 := by
  unfold up
  rw [Finset.sum_update_of_mem (mem_univ k), ← Finset.add_sum_erase univ α (mem_univ k),
    Finset.sdiff_singleton_eq_erase]
  omega

theorem up_mem {n d : ℕ} {α : Fin n → ℕ} (k : Fin n) (h : α ∈ piAntidiag (univ : Finset (Fin n)) d) :
    up α k ∈ piAntidiag (univ : Finset (Fin n)) (d + 1) := by
  rw [mem_piAntidiag] at h ⊢
  exact ⟨by rw [sum_up, h.1], by simp⟩

theorem bval_up (s d : ℕ) (α : Fin (s + 1) → ℕ) (k : Fin (s + 1)) (b : Fin (s + 1) → K) :
    bval s (d + 1) (up α k) b * ((up α k k : ℕ) : K) = (d + 1 : ℕ) * (b k * bval s d α b) := by
  unfold bval
  rw [← Finset.mul_prod_erase univ _ (mem_univ k),
    ← Finset.mul_prod_erase univ (fun j => b j ^ α j / ((α j).factorial : K)) (mem_univ k)]
  have h : ∏ x ∈ univ.erase k, b x ^ up α k x / ((up α k x).factorial : K)
      = ∏ x ∈ univ.erase k, b x ^ α x / ((α x).factorial : K) := by
    refine Finset.prod_congr rfl fun x hx => ?_
    rw [up, Function.update_of_ne (Finset.ne_of_mem_erase hx)]
  rw [h]
  simp only [up, Function.update_self, Nat.factorial_succ]
  have h1 : (((α k).factorial : ℕ) : K) ≠ 0 := Nat.cast_ne_zero.2 (Nat.factorial_ne_zero _)
  have h2 : ((α k : ℕ) : K) + 1 ≠ 0 := by exact_mod_cast Nat.succ_ne_zero (α k)
  push_cast
  field_simp
  ring

theorem sum_list_range {A : Type} [AddCommMonoid A] (n : ℕ) (f : ℕ → A) :
    ((List.range n).map f).sum = ∑ i : Fin n, f i := by
  rw [← Finset.sum_range]
  induction n with
  | zero => simp
  | succ n ih => rw [List.range_succ, Finset.sum_range_succ, List.map_append, List.sum_append, ih]; simp

/-- Coefficients of the product of a form of degree `d` with the linear form `∑ c_j x_j`. -/
def mulForm (s d : ℕ) (c : Fin (s + 1) → K) (F : (Fin (s + 1) → ℕ) → V) (α : Fin (s + 1) → ℕ) : V :=
  (((d + 1 : ℕ) : K))⁻¹ • ∑ β ∈ piAntidiag (univ : Finset (Fin (s + 1))) d, ∑ k,
    if up β k = α then (c k * (α k : K)) • F β else 0

theorem simplexForm_mulForm (s d : ℕ) (c : Fin (s + 1) → K) (F : (Fin (s + 1) → ℕ) → V)
    (b : Fin (s + 1) → K) :
    simplexForm (d + 1) (mulForm s d c F) b = (∑ k, c k * b k) • simplexForm d F b := by
  unfold simplexForm mulForm
  have hd : (((d + 1 : ℕ) : K)) ≠ 0 := Nat.cast_ne_zero.2 (Nat.succ_ne_zero d)
  calc _ = ∑ α ∈ piAntidiag (univ : Finset (Fin (s + 1))) (d + 1),
        ∑ β ∈ piAntidiag (univ : Finset (Fin (s + 1))) d, ∑ k,
          if up β k = α then
            (simplexBasis α b * ((((d + 1 : ℕ) : K))⁻¹ * (c k * (α k : K)))) • F β else 0 := by
        refine Finset.sum_congr rfl fun α _ => ?_
        rw [Finset.smul_sum, Finset.smul_sum]
        refine Finset.sum_congr rfl fun β _ => ?_
        rw [Finset.smul_sum, Finset.smul_sum]
        refine Finset.sum_congr rfl fun k _ => ?_
        split
        · rw [smul_smul, smul_smul, mul_assoc]
        · simp
    _ = ∑ β ∈ piAntidiag (univ : Finset (Fin (s + 1))) d, ∑ k,
        ∑ α ∈ piAntidiag (univ : Finset (Fin (s + 1))) (d + 1),
          if up β k = α then
            (simplexBasis α b * ((((d + 1 : ℕ) : K))⁻¹ * (c k * (α k : K)))) • F β else 0 := by
        rw [Finset.sum_comm]
        refine Finset.sum_congr rfl fun β _ => ?_
        rw [Finset.sum_comm]
    _ = ∑ β ∈ piAntidiag (univ : Finset (Fin (s + 1))) d, ∑ k,
          (c k * b k * simplexBasis β b) • F β := by
        refine Finset.sum_congr rfl fun β hβ => Finset.sum_congr rfl fun k _ => ?_
        rw [Finset.sum_ite_eq, if_pos (up_mem k hβ)]
        congr 1
        have h1 := (mem_piAntidiag.1 hβ).1
        have h1' : ∑ j, up β k j = d + 1 := by rw [sum_up, h1]
        rw [← bval_eq h1', ← bval_eq h1]
        have h2 := bval_up s d β k b
        rw [show bval s (d + 1) (up β k) b * ((((d + 1 : ℕ) : K))⁻¹ * (c k * ((up β k k : ℕ) : K)))
          = (((d + 1 : ℕ) : K))⁻¹ * c k * (bval s (d + 1) (up β k) b * ((up β k k : ℕ) : K)) by ring,
          h2]
        field_simp
    _ = _ := by
        rw [Finset.smul_sum]
        refine Finset.sum_congr rfl fun β _ => ?_
        rw [← Finset.sum_smul, smul_smul, Finset.sum_mul]

/-! ### Elevation -/

theorem fn_set {s : ℕ} {l : List ℕ} (h : l.length = s + 1) (k : Fin (s + 1)) (v : ℕ) :
    fn s (l.set k v) = Function.update (fn s l) k v := by
  funext j
  unfold fn Function.update
  have hj : (j : ℕ) < l.length := by omega
  by_cases e : j = k
  · subst e
    simp [List.getD, hj]
  · have : ¬ (k : ℕ) = j := fun h => e (Fin.ext h.symm)
    simp [List.getD, hj, e, this]

theorem fn_inj {s : ℕ} {l m : List ℕ} (hl : l.length = s + 1) (hm : m.length = s + 1) :
    fn s l = fn s m ↔ l = m := by
  constructor
  · intro h
    rw [← ofFn_fn hl, h, ofFn_fn hm]
  · rintro rfl; rfl

theorem elevateDegree_eq (s d : ℕ) (F : (Fin (s + 1) → ℕ) → V) :
    elevateDegree K s d ((rows s d).map fun l => F (fn s l))
      = ok ((rows s (d + 1)).map fun l => mulForm s d (fun _ => (1 : K)) F (fn s l)) := by
  unfold elevateDegree
  rw [multiIndices_eq, ok_bind, multiIndices_eq, ok_bind]
  rw [tab_eq (g := fun i => mulForm s d (fun _ => (1 : K)) F (fn s ((rows s (d + 1)).getD i [])))]
  · congr 1
    rw [numControlPoints_eq, ← rows_length]
    exact range_map_getD (rows s (d + 1)) [] (fun l => mulForm s d (fun _ => (1 : K)) F (fn s l))
  · intro i hi
    have hi' : i < (rows s (d + 1)).length := by rwa [rows_length, ← numControlPoints_eq]
    have he : (rows s (d + 1)).getD i [] = (rows s (d + 1))[i] := by simp [List.getD, hi']
    rw [rd_of_lt hi', ok_bind, he]
    obtain ⟨e1, e2⟩ := mem_rows.1 (List.getElem_mem hi')
    set e := (rows s (d + 1))[i] with hedef
    rw [loop_sum _ (fun j => ∑ k, if up (fn s ((rows s d).getD j [])) k = fn s e then
      ((1 : K) * (fn s e k : K)) • F (fn s ((rows s d).getD j [])) else 0) _ _ (fun j hj x => ?_)]
    · rw [ok_bind, pure_eq, zero_add, numControlPoints_eq, ← rows_length]
      rw [range_map_getD (rows s d) [] (fun l => ∑ k, if up (fn s l) k = fn s e then
        ((1 : K) * (fn s e k : K)) • F (fn s l) else 0)]
      rw [sum_rows s d (fun β => ∑ k, if up β k = fn s e then
        ((1 : K) * (fn s e k : K)) • F β else 0)]
      rfl
    · have hj' : j < (rows s d).length := by rwa [rows_length, ← numControlPoints_eq]
      have hr : (rows s d).getD j [] = (rows s d)[j] := by simp [List.getD, hj']
      obtain ⟨r1, r2⟩ := mem_rows.1 (List.getElem_mem hj')
      rw [rd_of_lt hj', ok_bind, hr]
      set r := (rows s d)[j] with hrdef
      rw [loop_sum (s + 1) (fun k => if r.set k (r.getD k 0 + 1) = e then
        ((e.getD k 0 : ℕ) : K) • F (fn s r) else 0) _ _ (fun k hk y => ?_)]
      · congr 2
        rw [sum_list_range]
        refine Finset.sum_congr rfl fun k _ => ?_
        have h1 : (r.set k (r.getD k 0 + 1) = e) ↔ up (fn s r) k = fn s e := by
          rw [← fn_inj (by simpa using r1) e1, fn_set r1]
          rfl
        by_cases h2 : up (fn s r) k = fn s e
        · rw [if_pos (h1.2 h2), if_pos h2, one_mul]
          rfl
        · rw [if_neg (fun h => h2 (h1.1 h)), if_neg h2]
      · rw [rd_of_lt (by omega), ok_bind, wr_of_lt _ (by omega), ok_bind]
        have h1 : r.getD k 0 = r[k] := by simp [List.getD, r1, hk]
        rw [h1]
        split
        · rw [rd_of_lt (by simpa using hj'), ok_bind, rd_of_lt (by omega), ok_bind, pure_eq]
          have h2 : e.getD k 0 = e[k] := by simp [List.getD, e1, hk]
          rw [h2]
          simp [hrdef]
        · simp

/-! ### The basis at lattice points: Lagrange functions and invertibility -/

theorem exists_form (s : ℕ) (L : List (Fin (s + 1) → K)) :
    ∃ F : (Fin (s + 1) → ℕ) → K, ∀ x : Fin (s + 1) → K,
      (L.map fun c => ∑ j, c j * x j).prod = simplexForm L.length F x := by
  induction L with
  | nil =>
    refine ⟨fun _ => 1, fun x => ?_⟩
    simp [simplexForm, simplexBasis, Nat.multinomial]
  | cons c L ih =>
    obtain ⟨F, hF⟩ := ih
    refine ⟨mulForm s L.length c F, fun x => ?_⟩
    rw [List.length_cons, simplexForm_mulForm, List.map_cons, List.prod_cons, hF, smul_eq_mul]

theorem prod_list_range (n : ℕ) (f : ℕ → K) :
    ((List.range n).map f).prod = ∏ i ∈ range n, f i := by
  induction n with
  | zero => simp
  | succ n ih => rw [List.range_succ, Finset.prod_range_succ, List.map_append, List.prod_append, ih]; simp

/-- Linear forms whose product is the Lagrange function of the lattice point `α`. -/
def lagForms (s d : ℕ) (α : Fin (s + 1) → ℕ) : List (Fin (s + 1) → K) :=
  (List.finRange (s + 1)).flatMap fun j => (List.range (α j)).map fun k : ℕ => fun i =>
    ((if i = j then (d : K) else 0) - (k : K)) / ((α j : K) - (k : K))

theorem lagForms_length (s d : ℕ) (α : Fin (s + 1) → ℕ) :
    (lagForms (K := K) s d α).length = ∑ j, α j := by
  unfold lagForms
  rw [List.length_flatMap]
  simp only [List.length_map, List.length_range]
  rw [← List.ofFn_eq_map, List.sum_ofFn]

/-- The lattice point `β / d`. -/
def lattice (s d : ℕ) (β : Fin (s + 1) → ℕ) : Fin (s + 1) → K := fun j => (β j : K) / (d : K)

theorem lagForms_prod (s : ℕ) {d : ℕ} (hd : d ≠ 0) {α β : Fin (s + 1) → ℕ} (hβ : ∑ j, β j = d) :
    ((lagForms (K := K) s d α).map fun c => ∑ i, c i * lattice s d β i).prod
      = ∏ j, ∏ k ∈ range (α j), (((β j : K) - (k : K)) / ((α j : K) - (k : K))) := by
  have hd' : (d : K) ≠ 0 := Nat.cast_ne_zero.2 hd
  have hsum : ∑ i, lattice (K := K) s d β i = 1 := by
    unfold lattice
    rw [← Finset.sum_div, ← Nat.cast_sum, hβ, div_self hd']
  unfold lagForms
  rw [List.map_flatMap, List.flatMap_def, List.prod_flatten, List.map_map, ← List.ofFn_eq_map,
    List.prod_ofFn]
  refine Finset.prod_congr rfl fun j _ => ?_
  simp only [Function.comp_apply, List.map_map]
  rw [← prod_list_range]
  congr 1
  refine List.map_congr_left fun k _ => ?_
  simp only [Function.comp_apply]
  calc _ = ∑ i, ((if i = j then (d : K) * lattice s d β i else 0) - (k : K) * lattice s d β i) /
        ((α j : K) - (k : K)) := by
        refine Finset.sum_congr rfl fun i _ => ?_
        split <;> ring
    _ = _ := by
        rw [← Finset.sum_div, Finset.sum_sub_distrib, ← Finset.mul_sum, hsum,
          Finset.sum_ite_eq', if_pos (mem_univ j), mul_one]
        unfold lattice
        rw [mul_div_cancel₀ _ hd']

theorem lagForms_self (α : ℕ) : ∏ k ∈ range α, (((α : K) - (k : K)) / ((α : K) - (k : K))) = 1 := by
  refine Finset.prod_eq_one fun k hk => div_self ?_
  rw [sub_ne_zero]
  have := mem_range.1 hk
  exact_mod_cast (by omega : α ≠ k)

theorem lag_delta (s : ℕ) {d : ℕ} (hd : d ≠ 0) {α : Fin (s + 1) → ℕ} (hα : ∑ j, α j = d) :
    ∃ F : (Fin (s + 1) → ℕ) → K, ∀ β : Fin (s + 1) → ℕ, ∑ j, β j = d →
      simplexForm d F (lattice (K := K) s d β) = if β = α then (1 : K) else 0 := by
  obtain ⟨F, hF⟩ := exists_form s (lagForms (K := K) s d α)
  rw [lagForms_length, hα] at hF
  refine ⟨F, fun β hβ => ?_⟩
  rw [← hF, lagForms_prod s hd hβ]
  split
  · rename_i h
    subst h
    exact Finset.prod_eq_one fun j _ => lagForms_self (β j)
  · rename_i h
    obtain ⟨j, hj⟩ : ∃ j, β j < α j := by
      by_contra hc
      push Not at hc
      refine h (funext fun j => ?_)
      have := (Finset.sum_eq_sum_iff_of_le (fun i (_ : i ∈ univ) => hc i)).1 (by rw [hα, hβ])
      exact (this j (mem_univ j)).symm
    refine Finset.prod_eq_zero (mem_univ j) (Finset.prod_eq_zero (mem_range.2 hj) ?_)
    simp

/-! ### The coefficient matrix and fitting -/

theorem row_lt {s d : ℕ} (i : Fin (numControlPoints s d)) : (i : ℕ) < (rows s d).length := by
  have := i.2
  rwa [rows_length, ← numControlPoints_eq]

/-- The multi-index of row `i`. -/
def idx (s d : ℕ) (i : Fin (numControlPoints s d)) : Fin (s + 1) → ℕ :=
  fn s ((rows s d)[(i : ℕ)]'(row_lt i))

theorem idx_sum (s d : ℕ) (i : Fin (numControlPoints s d)) : ∑ j, idx s d i j = d := by
  obtain ⟨h1, h2⟩ := mem_rows.1 (List.getElem_mem (row_lt i))
  rw [idx, sum_fn h1, h2]

theorem idx_inj {s d : ℕ} {i j : Fin (numControlPoints s d)} : idx s d i = idx s d j ↔ i = j := by
  constructor
  · intro h
    obtain ⟨h1, _⟩ := mem_rows.1 (List.getElem_mem (row_lt i))
    obtain ⟨h2, _⟩ := mem_rows.1 (List.getElem_mem (row_lt j))
    have := (fn_inj h1 h2).1 h
    exact Fin.ext ((rows_nodup s d).getElem_inj_iff.1 this)
  · rintro rfl; rfl

theorem sum_idx {A : Type} [AddCommMonoid A] (s d : ℕ) (f : (Fin (s + 1) → ℕ) → A) :
    ∑ i, f (idx s d i) = ∑ α ∈ piAntidiag (univ : Finset (Fin (s + 1))) d, f α := by
  rw [← sum_rows s d f, ← range_map_getD (rows s d) [] (fun l => f (fn s l)), rows_length,
    ← numControlPoints_eq, sum_list_range]
  refine Finset.sum_congr rfl fun i _ => ?_
  rw [idx]
  have := row_lt i
  simp [List.getD, this]

/-- Evaluation by rows. -/
theorem evaluate_idx (s d : ℕ) {P : List V} (hP : P.length = numControlPoints s d) {b : List K}
    (hb : b.length = s + 1) :
    evaluate s d P b
      = ok (∑ i : Fin (numControlPoints s d),
          simplexBasis (idx s d i) (coords (s + 1) b) • P.getD i 0) := by
  obtain ⟨F, rfl⟩ := exists_fun s d P hP
  rw [evaluate_eq s d F hb]
  congr 1
  rw [simplexForm, ← sum_idx s d (fun α => simplexBasis α (coords (s + 1) b) • F α)]
  refine Finset.sum_congr rfl fun i _ => ?_
  have := row_lt i
  simp [List.getD, this, idx]

theorem coords_row {s d : ℕ} {l : List ℕ} (h : l.length = s + 1) :
    coords (s + 1) (l.map fun a : ℕ => (a : K) / (d : K)) = lattice s d (fn s l) := by
  funext j
  have hj : (j : ℕ) < l.length := by omega
  simp [coords, lattice, fn, List.getD, hj]

/-- The matrix of basis values at lattice points. -/
def coeffMatrix (K : Type) [Field K] (s d : ℕ) :
    Matrix (Fin (numControlPoints s d)) (Fin (numControlPoints s d)) K :=
  Matrix.of fun i j => simplexBasis (idx s d j) (lattice s d (idx s d i))

theorem computeCoeffMatrix_eq (s : ℕ) {d : ℕ} (hd : d ≠ 0) :
    ∃ M, computeCoeffMatrix K s d = ok M ∧ toMatrix (numControlPoints s d) M = coeffMatrix K s d := by
  unfold computeCoeffMatrix
  rw [multiIndices_eq, ok_bind, assert_true hd, ok_bind]
  refine ⟨_, tab_eq (g := fun i => arr (numControlPoints s d) (fun j =>
    simplexBasis (fn s ((rows s d).getD j [])) (lattice s d (fn s ((rows s d).getD i [])))))
      (fun i hi => ?_), ?_⟩
  · have hi' := row_lt ⟨i, hi⟩
    simp only at hi'
    obtain ⟨h1, _⟩ := mem_rows.1 (List.getElem_mem hi')
    rw [rd_of_lt hi', ok_bind]
    refine tab_eq (fun j hj => ?_)
    have hj' := row_lt ⟨j, hj⟩
    simp only at hj'
    obtain ⟨h2, h3⟩ := mem_rows.1 (List.getElem_mem hj')
    rw [rd_of_lt hj', ok_bind, evaluateBernstein_eq s d h2 h3.le (by simpa using h1),
      bval_eq (by rw [sum_fn h2, h3]), coords_row h1]
    simp [List.getD, hi', hj']
  · ext i j
    have hi := row_lt i
    have hj := row_lt j
    simp only [toMatrix, coeffMatrix, Matrix.of_apply]
    rw [arr_getD _ _ _ _ i.2, arr_getD _ _ _ _ j.2]
    simp [List.getD, hi, hj, idx]

theorem coeffMatrix_isUnit (s : ℕ) {d : ℕ} (hd : d ≠ 0) : IsUnit (coeffMatrix K s d).det := by
  have h := fun k : Fin (numControlPoints s d) => lag_delta (K := K) s hd (idx_sum s d k)
  choose F hF using h
  have h1 : coeffMatrix K s d * Matrix.of (fun j k => F k (idx s d j)) = 1 := by
    ext i k
    rw [Matrix.mul_apply, Matrix.one_apply]
    have h2 := hF k (idx s d i) (idx_sum s d i)
    rw [simplexForm, ← sum_idx s d (fun α => simplexBasis α (lattice s d (idx s d i)) • F k α)] at h2
    simp only [idx_inj] at h2
    rw [← h2]
    rfl
  exact (Matrix.isUnit_iff_isUnit_det _).1 (IsUnit.of_mul_eq_one _ h1)

open Classical in
theorem fit_eq (s : ℕ) {d : ℕ} (hd : d ≠ 0) {S : List V}
    (hS : S.length = numControlPoints s d) :
    fit K s d S = ok (List.ofFn fun i => ∑ j, (coeffMatrix K s d)⁻¹ i j • S.getD j 0) := by
  obtain ⟨M, h1, h2⟩ := computeCoeffMatrix_eq (K := K) s hd
  unfold fit
  rw [assert_true hS, ok_bind, h1, ok_bind]
  have h3 : IsUnit (toMatrix (numControlPoints s d) M).det := by
    rw [h2]; exact coeffMatrix_isUnit s hd
  simp only
  rw [assert_true h3, ok_bind, h2]
  rfl

theorem smul_matrix {n : ℕ} (A B : Matrix (Fin n) (Fin n) K) (h : A * B = 1) (S : Fin n → V)
    (i : Fin n) : ∑ j, A i j • ∑ k, B j k • S k = S i := by
  calc _ = ∑ k, (A * B) i k • S k := by
        simp only [Finset.smul_sum, Matrix.mul_apply, Finset.sum_smul, smul_smul]
        rw [Finset.sum_comm]
    _ = _ := by
        rw [h]
        simp [Matrix.one_apply]

theorem getD_ofFn {A : Type} {n : ℕ} (f : Fin n → A) (i : Fin n) (x : A) :
    (List.ofFn f).getD i x = f i := by
  simp [List.getD]

/-- Interpolation: fitted ordinates evaluate to the samples at the lattice points. -/
theorem fit_interpolates (s : ℕ) {d : ℕ} (hd : d ≠ 0) {S P : List V}
    (h : fit K s d S = ok P) (i : Fin (numControlPoints s d)) {b : List K}
    (hb : b.length = s + 1) (hc : coords (s + 1) b = lattice s d (idx s d i)) :
    evaluate s d P b = ok (S.getD i 0) := by
  have hS : S.length = numControlPoints s d := by
    by_contra hc
    unfold fit at h
    rw [assert_false hc, ub_bind] at h
    cases h
  rw [fit_eq s hd hS, ok.injEq] at h
  subst h
  rw [evaluate_idx s d (by simp) hb, hc]
  congr 1
  simp only [getD_ofFn]
  exact smul_matrix (coeffMatrix K s d) _
    (Matrix.mul_nonsing_inv _ (coeffMatrix_isUnit s hd)) (fun j => S.getD j 0) i

/-- Reproduction: fitting the values of a simplex at the lattice points gives its ordinates. -/
theorem fit_reproduces (s : ℕ) {d : ℕ} (hd : d ≠ 0) {S P : List V}
    (hP : P.length = numControlPoints s d) (hS : S.length = numControlPoints s d)
    (h : ∀ i : Fin (numControlPoints s d), ∀ b : List K, b.length = s + 1 →
      coords (s + 1) b = lattice s d (idx s d i) → evaluate s d P b = ok (S.getD i 0)) :
    fit K s d S = ok P := by
  rw [fit_eq s hd hS, ok.injEq]
  have h1 : ∀ i : Fin (numControlPoints s d), S.getD i 0 = ∑ j, coeffMatrix K s d i j • P.getD j 0 := by
    intro i
    obtain ⟨h1, _⟩ := mem_rows.1 (List.getElem_mem (row_lt i))
    have h2 := h i (((rows s d)[(i : ℕ)]'(row_lt i)).map fun a : ℕ => (a : K) / (d : K))
      (by simpa using h1) (coords_row h1)
    rw [evaluate_idx s d hP (by simpa using h1), ok.injEq, coords_row h1] at h2
    exact h2.symm
  have h2 := smul_matrix (coeffMatrix K s d)⁻¹ (coeffMatrix K s d)
    (Matrix.nonsing_inv_mul _ (coeffMatrix_isUnit s hd)) (fun j => P.getD j 0)
  apply List.ext_getElem
  · simp [hP]
  · intro i hi1 hi2
    have hi : i < numControlPoints s d := by omega
    simp only [h1, List.getElem_ofFn]
    rw [h2 ⟨i, hi⟩]
    simp [List.getD, hi2]

/-! ### Derivatives -/

theorem evaluateBernsteinDerivative_eq (s d : ℕ) {l : List ℕ} {b : List K} (hl : l.length = s + 1)
    (hs : l.sum = d) (hb : b.length = s + 1) (j : Fin (s + 1)) :
    evaluateBernsteinDerivative s d l b j
      = ok (if fn s l j = 0 then 0 else
          bval s d (Function.update (fn s l) j (fn s l j - 1)) (coords (s + 1) b)) := by
  unfold evaluateBernsteinDerivative
  have hj : (j : ℕ) < l.length := by omega
  have h1 : fn s l j = l[(j : ℕ)] := by simp [fn, List.getD, hj]
  rw [rd_of_lt hj, ok_bind, h1]
  split
  · rfl
  · rename_i h2
    rw [wr_of_lt _ hj, ok_bind, evaluateBernstein_eq s d (by simpa using hl) ?_ hb, fn_set hl]
    rw [← sum_fn (by simpa using hl), fn_set hl, Finset.sum_update_of_mem (mem_univ j)]
    have h3 : ∑ j, fn s l j = d := by rw [sum_fn hl, hs]
    rw [← Finset.add_sum_erase univ _ (mem_univ j), h1] at h3
    rw [Finset.sdiff_singleton_eq_erase]
    omega

theorem evaluateDirectionalDerivative_eq (s d : ℕ) {P : List V}
    (hP : P.length = numControlPoints s d) {b dir : List K} (hb : b.length = s + 1)
    (hdir : dir.length = s + 1) :
    evaluateDirectionalDerivative s d P b dir
      = ok (∑ i : Fin (numControlPoints s d),
          (∑ j, (if idx s d i j = 0 then 0 else
            bval s d (Function.update (idx s d i) j (idx s d i j - 1)) (coords (s + 1) b)) *
              coords (s + 1) dir j) • P.getD i 0) := by
  unfold evaluateDirectionalDerivative
  rw [throwIf_false (by simpa using hP), ok_bind, multiIndices_eq, ok_bind]
  rw [loop_sum _ (fun i => (∑ j, (if fn s ((rows s d).getD i []) j = 0 then 0 else
            bval s d (Function.update (fn s ((rows s d).getD i [])) j
              (fn s ((rows s d).getD i []) j - 1)) (coords (s + 1) b)) *
              coords (s + 1) dir j) • P.getD i 0) _ _ (fun i hi x => ?_)]
  · rw [zero_add, sum_list_range]
    congr 1
    refine Finset.sum_congr rfl fun i _ => ?_
    have h1 := row_lt i
    have h2 : (rows s d).getD i [] = (rows s d)[(i : ℕ)] := by simp [List.getD, h1]
    rw [h2]
    rfl
  · have hi' := row_lt ⟨i, hi⟩
    simp only at hi'
    obtain ⟨h1, h2⟩ := mem_rows.1 (List.getElem_mem hi')
    have hr : (rows s d).getD i [] = (rows s d)[i] := by simp [List.getD, hi']
    rw [rd_of_lt hi', ok_bind, hr]
    set r := (rows s d)[i] with hrdef
    rw [loop_sum (s + 1) (fun j => if h : j < s + 1 then (if fn s r ⟨j, h⟩ = 0 then 0 else
            bval s d (Function.update (fn s r) ⟨j, h⟩ (fn s r ⟨j, h⟩ - 1)) (coords (s + 1) b)) *
              coords (s + 1) dir ⟨j, h⟩ else 0) _ _ (fun j hj y => ?_)]
    · rw [ok_bind, rd_of_lt (by omega), ok_bind, zero_add, sum_list_range, pure_eq]
      congr 2
      have h3 : P.getD i 0 = P[i] := by simp [List.getD, hP, hi]
      rw [h3]
      congr 1
      refine Finset.sum_congr rfl fun j _ => ?_
      rw [dif_pos j.2]
    · have := evaluateBernsteinDerivative_eq s d h1 h2 hb ⟨j, hj⟩
      simp only at this
      rw [this, ok_bind, rd_of_lt (by omega), ok_bind, dif_pos hj, pure_eq]
      congr 3
      simp [coords, List.getD, hdir, hj]

section Calculus

variable {W : Type} [NormedAddCommGroup W] [NormedSpace ℝ W]

theorem hasDerivAt_bval (s d : ℕ) (α : Fin (s + 1) → ℕ) (b dir : Fin (s + 1) → ℝ) (x : ℝ) :
    HasDerivAt (fun x => bval s d α (fun j => b j + x * dir j))
      (∑ j, (if α j = 0 then 0 else
        bval s d (Function.update α j (α j - 1)) (fun j => b j + x * dir j)) * dir j) x := by
  unfold bval
  have h : ∀ j ∈ (univ : Finset (Fin (s + 1))), HasDerivAt
      (fun x => (b j + x * dir j) ^ α j / ((α j).factorial : ℝ))
      ((α j : ℝ) * (b j + x * dir j) ^ (α j - 1) * dir j / ((α j).factorial : ℝ)) x := by
    intro j _
    have h1 : HasDerivAt (fun x => b j + x * dir j) (dir j) x := by
      simpa using ((hasDerivAt_id x).mul_const (dir j)).const_add (b j)
    exact (h1.pow (α j)).div_const _
  have h2 := (HasDerivAt.fun_finsetProd h).const_mul (d.factorial : ℝ)
  refine HasDerivAt.congr_deriv h2 ?_
  rw [Finset.mul_sum]
  refine Finset.sum_congr rfl fun j _ => ?_
  split
  · rename_i h3
    simp [h3]
  · rename_i h3
    rw [← Finset.mul_prod_erase univ (fun i => (b i + x * dir i) ^ Function.update α j (α j - 1) i /
      ((Function.update α j (α j - 1) i).factorial : ℝ)) (mem_univ j)]
    have h4 : ∏ i ∈ univ.erase j, (b i + x * dir i) ^ Function.update α j (α j - 1) i /
        ((Function.update α j (α j - 1) i).factorial : ℝ)
        = ∏ i ∈ univ.erase j, (b i + x * dir i) ^ α i / ((α i).factorial : ℝ) := by
      refine Finset.prod_congr rfl fun i hi => ?_
      rw [Function.update_of_ne (Finset.ne_of_mem_erase hi)]
    rw [h4, Function.update_self]
    obtain ⟨a, ha⟩ : ∃ a, α j = a + 1 := ⟨α j - 1, by omega⟩
    rw [ha, Nat.factorial_succ, Nat.add_sub_cancel]
    have h5 : ((a.factorial : ℕ) : ℝ) ≠ 0 := Nat.cast_ne_zero.2 (Nat.factorial_ne_zero _)
    have h6 : (a : ℝ) + 1 ≠ 0 := by positivity
    rw [smul_eq_mul]
    push_cast
    field_simp

end Calculus

end Simplex
end NS
