import Verif.Model.Roots
import Verif.Spec.Roots
import Mathlib.Tactic.FieldSimp
import Mathlib.Algebra.BigOperators.Field
import Mathlib.LinearAlgebra.Matrix.Charpoly.Coeff
import Mathlib.Tactic.LinearCombination

/-!
# C46: real roots of polynomials
-/

set_option linter.unusedSectionVars false
set_option linter.unusedSimpArgs false

namespace NS
namespace Roots

open Outcome

/-! ## Companion matrices -/

theorem companion_eigen (n : ℕ) (hn : 0 < n) (c : ℕ → ℝ) (hc : c n ≠ 0) (l : ℂ) :
    (∃ v : Fin n → ℂ, v ≠ 0 ∧
      (Matrix.of fun i j : Fin n => ((companion n c i j : ℝ) : ℂ)).mulVec v = l • v) ↔
    polyVal (fun i => (c i : ℂ)) n l = 0 := by
  obtain ⟨m, rfl⟩ : ∃ m, n = m + 1 := ⟨n - 1, by omega⟩
  have hc' : (c (m + 1) : ℂ) ≠ 0 := by exact_mod_cast hc
  obtain ⟨M, hM⟩ : ∃ M : Matrix (Fin (m + 1)) (Fin (m + 1)) ℂ,
    M = Matrix.of fun i j : Fin (m + 1) => ((companion (m + 1) c i j : ℝ) : ℂ) := ⟨_, rfl⟩
  rw [← hM]
  have swap : (∃ v : Fin (m + 1) → ℂ, v ≠ 0 ∧ M.mulVec v = l • v) ↔
      ∃ v : Fin (m + 1) → ℂ, v ≠ 0 ∧ Matrix.vecMul v M = l • v := by
    have h1 := Matrix.exists_mulVec_eq_zero_iff (M := M - l • (1 : Matrix _ _ ℂ))
    have h2 := Matrix.exists_vecMul_eq_zero_iff (M := M - l • (1 : Matrix _ _ ℂ))
    simp only [Matrix.sub_mulVec, Matrix.vecMul_sub, Matrix.smul_mulVec, Matrix.vecMul_smul,
      Matrix.one_mulVec, Matrix.vecMul_one, sub_eq_zero] at h1 h2
    rw [h1, h2]
  rw [swap]
  have col : ∀ (v : Fin (m + 1) → ℂ) (j : Fin (m + 1)), Matrix.vecMul v M j =
      if h : (j : ℕ) + 1 = m + 1 then -(∑ i : Fin (m + 1), v i * c i) / c (m + 1)
      else v ⟨j + 1, by omega⟩ := by
    intro v j
    rw [Matrix.vecMul, dotProduct]
    by_cases h : (j : ℕ) + 1 = m + 1
    · rw [dif_pos h, neg_div, Finset.sum_div, ← Finset.sum_neg_distrib]
      refine Finset.sum_congr rfl fun i _ => ?_
      rw [hM, Matrix.of_apply, companion, if_pos h]
      push_cast; ring
    · rw [dif_neg h, Finset.sum_eq_single ⟨(j : ℕ) + 1, by omega⟩]
      · rw [hM, Matrix.of_apply, companion, if_neg h, if_pos rfl]; simp
      · intro i _ hi
        rw [hM, Matrix.of_apply, companion, if_neg h, if_neg]
        · simp
        · intro he; exact hi (Fin.ext he)
      · intro h'; exact absurd (Finset.mem_univ _) h'
  have sum_eq : polyVal (fun i => (c i : ℂ)) (m + 1) l =
      (∑ i : Fin (m + 1), l ^ (i : ℕ) * c i) + c (m + 1) * l ^ (m + 1) := by
    rw [polyVal, Finset.sum_range_succ]
    congr 1
    rw [← Fin.sum_univ_eq_sum_range (fun i => (c i : ℂ) * l ^ i)]
    exact Finset.sum_congr rfl fun i _ => mul_comm _ _
  constructor
  · rintro ⟨v, hv, he⟩
    have he' : ∀ j, Matrix.vecMul v M j = l * v j := fun j => by rw [he]; rfl
    have pow : ∀ k (hk : k < m + 1), v ⟨k, hk⟩ = l ^ k * v 0 := by
      intro k
      induction k with
      | zero => intro hk; simp
      | succ k ih =>
        intro hk
        have h := he' ⟨k, by omega⟩
        rw [col, dif_neg (by simp only; omega)] at h
        rw [show (⟨k + 1, hk⟩ : Fin (m + 1)) = ⟨(⟨k, by omega⟩ : Fin (m + 1)) + 1, hk⟩ from rfl, h, ih]
        ring
    have v0 : v 0 ≠ 0 := by
      intro h0
      apply hv
      funext ⟨k, hk⟩
      rw [pow k hk, h0]; simp
    have h := he' ⟨m, by omega⟩
    rw [col, dif_pos rfl, pow m (by omega)] at h
    have hs : (∑ i : Fin (m + 1), v i * c i) = v 0 * ∑ i : Fin (m + 1), l ^ (i : ℕ) * c i := by
      rw [Finset.mul_sum]
      refine Finset.sum_congr rfl fun i _ => ?_
      rw [show v i = l ^ (i : ℕ) * v 0 from pow i i.2]; ring
    rw [hs, div_eq_iff hc'] at h
    rw [sum_eq]
    apply mul_left_cancel₀ v0
    linear_combination -h
  · intro hp
    refine ⟨fun i => l ^ (i : ℕ), ?_, ?_⟩
    · intro h
      have := congrFun h 0
      simp at this
    · funext j
      rw [col]
      show _ = l * l ^ (j : ℕ)
      by_cases h : (j : ℕ) + 1 = m + 1
      · rw [dif_pos h, div_eq_iff hc', ← pow_succ', h]
        rw [sum_eq] at hp
        linear_combination -hp
      · rw [dif_neg h]
        show l ^ ((j : ℕ) + 1) = _
        rw [pow_succ']

/-- Exact solvers exist: take the roots of the characteristic polynomial. -/
theorem exactEig_exists : ∃ eig, ExactEig eig := by
  classical
  refine ⟨fun n M => (Matrix.charpoly (Matrix.of fun i j : Fin n => ((M i j : ℝ) : ℂ))).roots.toList, ?_⟩
  intro n M l
  rw [Multiset.mem_toList, Polynomial.mem_roots (Matrix.charpoly_monic _).ne_zero, Polynomial.IsRoot.def,
    Matrix.eval_charpoly]
  generalize (Matrix.of fun i j : Fin n => ((M i j : ℝ) : ℂ)) = A
  rw [← Matrix.exists_mulVec_eq_zero_iff]
  simp only [Matrix.sub_mulVec, sub_eq_zero, Matrix.scalar_apply, ← Matrix.smul_one_eq_diagonal,
    Matrix.smul_mulVec, Matrix.one_mulVec]
  exact ⟨fun ⟨v, h1, h2⟩ => ⟨v, h1, h2.symm⟩, fun ⟨v, h1, h2⟩ => ⟨v, h1, h2.symm⟩⟩

/-! ## Appending -/

theorem push_eq (t0 t1 : ℝ) (roots : List ℝ) (r : ℝ) :
    push t0 t1 roots r = roots ++ (if r ≥ t0 ∧ r ≤ t1 then [r] else []) := by
  unfold push; split <;> simp

theorem mem_window {t0 t1 r x : ℝ} :
    x ∈ (if r ≥ t0 ∧ r ≤ t1 then [r] else []) ↔ x = r ∧ t0 ≤ x ∧ x ≤ t1 := by
  split
  · rename_i h
    rw [List.mem_singleton]
    exact ⟨fun e => ⟨e, e ▸ h⟩, fun e => e.1⟩
  · rename_i h
    simp only [List.not_mem_nil, false_iff]
    rintro ⟨rfl, e⟩
    exact h e

theorem select_eq (t0 t1 eps : ℝ) (vals : List ℂ) (roots : List ℝ) :
    ∃ new, select t0 t1 eps vals roots = roots ++ new ∧
      ∀ x, x ∈ new ↔ t0 ≤ x ∧ x ≤ t1 ∧ ∃ l ∈ vals, l.re = x ∧ |‖l‖ - (|l.re|)| ≤ eps := by
  induction vals generalizing roots with
  | nil => exact ⟨[], by simp [select], by simp⟩
  | cons l vals ih =>
    rw [select, List.foldl_cons]
    obtain ⟨new, h1, h2⟩ := ih (if eps < |‖l‖ - (|l.re|)| then roots else push t0 t1 roots l.re)
    rw [select] at h1
    rw [h1]
    by_cases he : eps < |‖l‖ - (|l.re|)|
    · rw [if_pos he]
      refine ⟨new, rfl, fun x => ?_⟩
      rw [h2]
      constructor
      · rintro ⟨a, b, l', h3, h4⟩
        exact ⟨a, b, l', List.mem_cons_of_mem _ h3, h4⟩
      · rintro ⟨a, b, l', h3, h4, h5⟩
        rcases List.mem_cons.1 h3 with rfl | h3
        · exact absurd he (not_lt.2 h5)
        · exact ⟨a, b, l', h3, h4, h5⟩
    · rw [if_neg he, push_eq, List.append_assoc]
      refine ⟨_, rfl, fun x => ?_⟩
      rw [List.mem_append, mem_window, h2]
      constructor
      · rintro (⟨rfl, a, b⟩ | ⟨a, b, l', h3, h4⟩)
        · exact ⟨a, b, l, List.mem_cons_self, rfl, not_lt.1 he⟩
        · exact ⟨a, b, l', List.mem_cons_of_mem _ h3, h4⟩
      · rintro ⟨a, b, l', h3, h4, h5⟩
        rcases List.mem_cons.1 h3 with rfl | h3
        · exact Or.inl ⟨h4.symm, a, b⟩
        · exact Or.inr ⟨a, b, l', h3, h4, h5⟩

/-! ## Dropping small leading coefficients -/

variable {eig : ℕ → (ℕ → ℕ → ℝ) → List ℂ} {coeffs roots : List ℝ} {t0 t1 eps : ℝ}

theorem rd_getD {i : ℕ} (h : i < coeffs.length) : rd coeffs i = ok (coeffs.getD i 0) := by
  rw [rd_of_lt h]; simp [List.getD, h]

theorem find_drop (d : ℕ) (hl : d + 1 < coeffs.length) (ht : t0 < t1)
    (hs : |coeffs.getD (d + 1) 0| < eps) :
    find eig (d + 1) coeffs roots t0 t1 eps = find eig d coeffs roots t0 t1 eps := by
  match d with
  | 0 =>
    show find1 coeffs roots t0 t1 eps = find0 coeffs roots eps
    rw [find1, assert_true hl, ok_bind, rd_getD hl, ok_bind, if_pos hs]
  | 1 =>
    show find2 coeffs roots t0 t1 eps = find1 coeffs roots t0 t1 eps
    rw [find2, assert_true hl, ok_bind, rd_getD hl, ok_bind, if_pos hs]
  | d + 2 =>
    rw [find, assert_true hl, ok_bind, assert_true ht, ok_bind, rd_getD hl, ok_bind, if_pos hs]

theorem find_degree {d e : ℕ} (hl : d < coeffs.length) (ht : t0 < t1)
    (h : DegreeUpTo eps (fun i => coeffs.getD i 0) d e) :
    find eig d coeffs roots t0 t1 eps = find eig e coeffs roots t0 t1 eps := by
  induction d with
  | zero => rw [show e = 0 from by have := h.le; omega]
  | succ d ih =>
    rcases Nat.lt_or_ge e (d + 1) with he | he
    · rw [find_drop d hl ht (h.small _ he le_rfl)]
      exact ih (by omega) ⟨by omega, h.lead, fun i h1 h2 => h.small i h1 (by omega)⟩
    · rw [show e = d + 1 from by have := h.le; omega]

theorem find_none {d : ℕ} (hl : d < coeffs.length) (ht : t0 < t1)
    (h : ∀ i ≤ d, |coeffs.getD i 0| < eps) :
    find eig d coeffs roots t0 t1 eps = Outcome.throw .infiniteRoot := by
  induction d with
  | zero =>
    rw [find, find0, assert_true hl, ok_bind, rd_getD hl, ok_bind, throwIf_true (h 0 le_rfl)]
    rfl
  | succ d ih =>
    rw [find_drop d hl ht (h _ le_rfl)]
    exact ih (by omega) fun i hi => h i (by omega)

theorem degree_cases (eps : ℝ) (c : ℕ → ℝ) (d : ℕ) :
    (∀ i ≤ d, |c i| < eps) ∨ ∃ e, DegreeUpTo eps c d e := by
  induction d with
  | zero =>
    by_cases h : |c 0| < eps
    · left; intro i hi; obtain rfl : i = 0 := by omega
      exact h
    · right; exact ⟨0, le_rfl, not_lt.1 h, fun i h1 h2 => by omega⟩
  | succ d ih =>
    by_cases h : |c (d + 1)| < eps
    · rcases ih with ih | ⟨e, he⟩
      · left; intro i hi
        rcases Nat.lt_or_ge i (d + 1) with h' | h'
        · exact ih i (by omega)
        · obtain rfl : i = d + 1 := by omega
          exact h
      · right
        refine ⟨e, by have := he.le; omega, he.lead, fun i h1 h2 => ?_⟩
        rcases Nat.lt_or_ge i (d + 1) with h' | h'
        · exact he.small i h1 (by omega)
        · obtain rfl : i = d + 1 := by omega
          exact h
    · right; exact ⟨d + 1, le_rfl, not_lt.1 h, fun i h1 h2 => by omega⟩

/-! ## The theorems -/

/-- C46, range: on every call that returns, the roots found are appended, and all lie in `[t0, t1]`. -/
theorem C46_in_interval (d : ℕ) (out : List ℝ) (h : find eig d coeffs roots t0 t1 eps = ok out) :
    ∃ new, out = roots ++ new ∧ ∀ x ∈ new, t0 ≤ x ∧ x ≤ t1 := by
  have p : ∀ (l new : List ℝ) r, l = roots ++ new → (∀ x ∈ new, t0 ≤ x ∧ x ≤ t1) →
      ∃ new', push t0 t1 l r = roots ++ new' ∧ ∀ x ∈ new', t0 ≤ x ∧ x ≤ t1 := by
    intro l new r h1 h2
    rw [push_eq, h1, List.append_assoc]
    refine ⟨_, rfl, fun x hx => ?_⟩
    rcases List.mem_append.1 hx with hx | hx
    · exact h2 x hx
    · exact (mem_window.1 hx).2
  have base : ∃ new, roots = roots ++ new ∧ ∀ x ∈ new, t0 ≤ x ∧ x ≤ t1 := ⟨[], by simp, by simp⟩
  have z : ∀ out, find0 coeffs roots eps = ok out → out = roots := by
    intro out h
    unfold find0 at h
    obtain ⟨_, _, h⟩ := bind_eq_ok.1 h
    obtain ⟨_, _, h⟩ := bind_eq_ok.1 h
    obtain ⟨_, _, h⟩ := bind_eq_ok.1 h
    rw [pure_eq, ok.injEq] at h
    exact h.symm
  have one : ∀ out, find1 coeffs roots t0 t1 eps = ok out →
      ∃ new, out = roots ++ new ∧ ∀ x ∈ new, t0 ≤ x ∧ x ≤ t1 := by
    intro out h
    unfold find1 at h
    obtain ⟨_, _, h⟩ := bind_eq_ok.1 h
    obtain ⟨a, _, h⟩ := bind_eq_ok.1 h
    split at h
    · rw [z out h]; exact base
    · obtain ⟨b, _, h⟩ := bind_eq_ok.1 h
      split at h <;> rw [pure_eq, ok.injEq] at h <;> subst h
      · exact base
      · exact p _ [] _ (by simp) (by simp)
  have two : ∀ out, find2 coeffs roots t0 t1 eps = ok out →
      ∃ new, out = roots ++ new ∧ ∀ x ∈ new, t0 ≤ x ∧ x ≤ t1 := by
    intro out h
    unfold find2 at h
    obtain ⟨_, _, h⟩ := bind_eq_ok.1 h
    obtain ⟨a, _, h⟩ := bind_eq_ok.1 h
    split at h
    · exact one out h
    · obtain ⟨b, _, h⟩ := bind_eq_ok.1 h
      obtain ⟨c, _, h⟩ := bind_eq_ok.1 h
      simp only at h
      split at h
      · rw [pure_eq, ok.injEq] at h; subst h; exact base
      split at h
      · rw [pure_eq, ok.injEq] at h; subst h; exact base
      split at h <;> rw [pure_eq, ok.injEq] at h <;> subst h
      · exact p _ [] _ (by simp) (by simp)
      · obtain ⟨n1, h1, h2⟩ := p roots [] ((-b - √(b * b - 4 * a * c)) / (2 * a)) (by simp) (by simp)
        exact p _ n1 _ h1 h2
  match d with
  | 0 => rw [z out h]; exact base
  | 1 => exact one out h
  | 2 => exact two out h
  | n + 3 =>
    have gen : ∀ m out, find eig (m + 2) coeffs roots t0 t1 eps = ok out →
        ∃ new, out = roots ++ new ∧ ∀ x ∈ new, t0 ≤ x ∧ x ≤ t1 := by
      intro m
      induction m with
      | zero => exact two
      | succ m ih =>
        intro out h
        rw [show m + 1 + 2 = m + 3 from rfl, find] at h
        obtain ⟨_, _, h⟩ := bind_eq_ok.1 h
        obtain ⟨_, _, h⟩ := bind_eq_ok.1 h
        obtain ⟨a, _, h⟩ := bind_eq_ok.1 h
        split at h
        · exact ih out h
        split at h
        · cases h
        · rw [pure_eq, ok.injEq] at h
          obtain ⟨new, h1, h2⟩ := select_eq t0 t1 eps
            (eig (m + 3) (companion (m + 3) fun i => coeffs.getD i 0)) roots
          exact ⟨new, by rw [← h, h1], fun x hx => ⟨((h2 x).1 hx).1, ((h2 x).1 hx).2.1⟩⟩
    exact gen (n + 1) out h

/-- C46, exceptions: `infinite_root_error` is thrown exactly when all coefficients are below the
tolerance. -/
theorem C46_infinite_root (d : ℕ) (hl : d < coeffs.length) (ht : t0 < t1) :
    find eig d coeffs roots t0 t1 eps = Outcome.throw .infiniteRoot ↔
      ∀ i ≤ d, |coeffs.getD i 0| < eps := by
  refine ⟨fun h => ?_, find_none hl ht⟩
  rcases degree_cases eps (fun i => coeffs.getD i 0) d with h' | ⟨e, he⟩
  · exact h'
  · exfalso
    rw [find_degree hl ht he] at h
    have hel : e < coeffs.length := lt_of_le_of_lt he.le hl
    have hnl := not_lt.2 he.lead
    beta_reduce at hnl
    match e with
    | 0 =>
      rw [find, find0, assert_true hel, ok_bind, rd_getD hel, ok_bind, throwIf_false hnl] at h
      cases h
    | 1 =>
      rw [find, find1, assert_true hel, ok_bind, rd_getD hel, ok_bind, if_neg hnl,
        rd_getD (by omega), ok_bind] at h
      split at h <;> cases h
    | 2 =>
      rw [find, find2, assert_true hel, ok_bind, rd_getD hel, ok_bind, if_neg hnl,
        rd_getD (by omega), ok_bind, rd_getD (by omega), ok_bind] at h
      simp only at h
      split at h
      · cases h
      split at h
      · cases h
      split at h <;> cases h
    | n + 3 =>
      rw [find, assert_true hel, ok_bind, assert_true ht, ok_bind, rd_getD hel, ok_bind, if_neg hnl] at h
      split at h <;> cases h

/-- C46, degrees up to two, outside the band of nearly equal roots: the values appended are exactly the
roots in `[t0, t1]` of the polynomial left after dropping leading coefficients below the tolerance,
without repetition if the tolerance is positive. -/
theorem C46_exact (d e : ℕ) (hl : d < coeffs.length) (ht : t0 < t1)
    (he : DegreeUpTo eps (fun i => coeffs.getD i 0) d e) (he2 : e ≤ 2) (hc : coeffs.getD e 0 ≠ 0)
    (hband : e = 2 → coeffs.getD 1 0 ^ 2 - 4 * coeffs.getD 2 0 * coeffs.getD 0 0 ≤ 0 ∨
      eps ≤ coeffs.getD 1 0 ^ 2 - 4 * coeffs.getD 2 0 * coeffs.getD 0 0) :
    ∃ new, find eig d coeffs roots t0 t1 eps = ok (roots ++ new) ∧
      (∀ x, x ∈ new ↔ t0 ≤ x ∧ x ≤ t1 ∧ polyVal (fun i => coeffs.getD i 0) e x = 0) ∧
      (0 < eps → new.Nodup) := by
  rw [find_degree hl ht he]
  have hel : e < coeffs.length := lt_of_le_of_lt he.le hl
  have hnl := not_lt.2 he.lead
  beta_reduce at hnl
  match e with
  | 0 =>
    rw [find, find0, assert_true hel, ok_bind, rd_getD hel, ok_bind, throwIf_false hnl, ok_bind, pure_eq]
    refine ⟨[], by simp, fun x => ?_, fun _ => List.nodup_nil⟩
    simp only [polyVal, Finset.sum_range_succ, Finset.sum_range_zero, List.not_mem_nil, false_iff]
    rintro ⟨-, -, h⟩
    apply hc
    linear_combination h
  | 1 =>
    rw [find, find1, assert_true hel, ok_bind, rd_getD hel, ok_bind, if_neg hnl,
      rd_getD (by omega), ok_bind, if_neg hc, push_eq, pure_eq]
    refine ⟨_, rfl, fun x => ?_, fun _ => by split <;> simp⟩
    rw [mem_window]
    simp only [polyVal, Finset.sum_range_succ, Finset.sum_range_zero]
    generalize coeffs.getD 1 0 = a at hc ⊢
    constructor
    · rintro ⟨h, h1, h2⟩
      exact ⟨h1, h2, by rw [h]; field_simp; ring⟩
    · rintro ⟨h1, h2, h⟩
      refine ⟨?_, h1, h2⟩
      rw [eq_div_iff hc]
      linear_combination h
  | 2 =>
    rw [find, find2, assert_true hel, ok_bind, rd_getD hel, ok_bind, if_neg hnl,
      rd_getD (by omega), ok_bind, rd_getD (by omega), ok_bind]
    replace hband := hband rfl
    obtain ⟨a, ha⟩ : ∃ a, a = coeffs.getD 2 0 := ⟨_, rfl⟩
    obtain ⟨b, hb⟩ : ∃ b, b = coeffs.getD 1 0 := ⟨_, rfl⟩
    obtain ⟨c, hcc⟩ : ∃ c, c = coeffs.getD 0 0 := ⟨_, rfl⟩
    have hp : ∀ x, polyVal (fun i => coeffs.getD i 0) 2 x = a * x ^ 2 + b * x + c := by
      intro x
      simp only [polyVal, Finset.sum_range_succ, Finset.sum_range_zero, ← ha, ← hb, ← hcc]; ring
    simp only [hp]
    simp only [← ha, ← hb, ← hcc] at hc hband ⊢
    rw [← pow_two]
    -- completing the square
    have sq : ∀ x, a * x ^ 2 + b * x + c = 0 ↔ (2 * a * x + b) ^ 2 = b ^ 2 - 4 * a * c := by
      intro x
      constructor
      · intro h; linear_combination 4 * a * h
      · intro h
        have h4 : (4 * a) ≠ 0 := mul_ne_zero (by norm_num) hc
        apply mul_left_cancel₀ h4
        linear_combination h
    by_cases hd : b ^ 2 - 4 * a * c < 0
    · rw [if_pos hd]
      refine ⟨[], by simp, fun x => ?_, fun _ => List.nodup_nil⟩
      simp only [List.not_mem_nil, false_iff]
      rintro ⟨-, -, h⟩
      have := (sq x).1 h
      nlinarith [sq_nonneg (2 * a * x + b)]
    rw [if_neg hd, if_neg hc]
    by_cases hz : |b ^ 2 - 4 * a * c| < eps
    · rw [if_pos hz, push_eq, pure_eq]
      have h0 : b ^ 2 - 4 * a * c = 0 := by
        rcases hband with h | h
        · exact le_antisymm h (not_lt.1 hd)
        · exact absurd (lt_of_le_of_lt (le_abs_self _) hz) (not_lt.2 h)
      refine ⟨_, rfl, fun x => ?_, fun _ => by split <;> simp⟩
      rw [mem_window, sq, h0]
      constructor
      · rintro ⟨h, h1, h2⟩
        exact ⟨h1, h2, by rw [h]; field_simp; ring⟩
      · rintro ⟨h1, h2, h⟩
        refine ⟨?_, h1, h2⟩
        rw [eq_div_iff (mul_ne_zero two_ne_zero hc)]
        linear_combination pow_eq_zero_iff two_ne_zero |>.1 h
    · rw [if_neg hz, push_eq, push_eq, List.append_assoc, pure_eq]
      have hs := Real.sq_sqrt (not_lt.1 hd)
      generalize √(b ^ 2 - 4 * a * c) = s at hs ⊢
      refine ⟨_, rfl, fun x => ?_, fun hpos => ?_⟩
      · rw [List.mem_append, mem_window, mem_window, sq, ← hs]
        have h2a : 2 * a ≠ 0 := mul_ne_zero two_ne_zero hc
        constructor
        · rintro (⟨h, h1, h2⟩ | ⟨h, h1, h2⟩)
          · refine ⟨h1, h2, ?_⟩
            rw [eq_div_iff h2a] at h
            rw [show 2 * a * x + b = -s by linear_combination h]; ring
          · refine ⟨h1, h2, ?_⟩
            rw [eq_div_iff h2a] at h
            rw [show 2 * a * x + b = s by linear_combination h]
        · rintro ⟨h1, h2, h⟩
          rcases sq_eq_sq_iff_eq_or_eq_neg.1 h with h | h
          · right; refine ⟨?_, h1, h2⟩
            rw [eq_div_iff h2a]; linear_combination h
          · left; refine ⟨?_, h1, h2⟩
            rw [eq_div_iff h2a]; linear_combination h
      · have hs0 : s ≠ 0 := by
          intro h
          rw [h] at hs
          apply hz
          rw [← hs]; simpa using hpos
        have hne : (-b - s) / (2 * a) ≠ (-b + s) / (2 * a) := by
          intro h
          rw [div_left_inj' (mul_ne_zero two_ne_zero hc)] at h
          apply hs0
          linarith
        split <;> split <;> simp [hne]

/-- C46 inside the band: a quadratic with a non-negative discriminant below the tolerance yields the single
value half way between its roots, at which the quadratic is below `eps / (4 |a|)` in absolute value. -/
theorem C46_band (d : ℕ) (hl : d < coeffs.length) (ht : t0 < t1)
    (he : DegreeUpTo eps (fun i => coeffs.getD i 0) d 2) (hc : coeffs.getD 2 0 ≠ 0)
    (h0 : 0 ≤ coeffs.getD 1 0 ^ 2 - 4 * coeffs.getD 2 0 * coeffs.getD 0 0)
    (h1 : coeffs.getD 1 0 ^ 2 - 4 * coeffs.getD 2 0 * coeffs.getD 0 0 < eps) :
    ∃ new, find eig d coeffs roots t0 t1 eps = ok (roots ++ new) ∧
      (∀ x, x ∈ new ↔ t0 ≤ x ∧ x ≤ t1 ∧ ∃ y, 2 * |coeffs.getD 2 0 * y| < √eps ∧
        ∀ z, polyVal (fun i => coeffs.getD i 0) 2 z = 0 ↔ z = x - y ∨ z = x + y) ∧
      ∀ x ∈ new, |polyVal (fun i => coeffs.getD i 0) 2 x| < eps / (4 * |coeffs.getD 2 0|) := by
  rw [find_degree hl ht he]
  have hel : 2 < coeffs.length := lt_of_le_of_lt he.le hl
  have hnl := not_lt.2 he.lead
  beta_reduce at hnl
  rw [find, find2, assert_true hel, ok_bind, rd_getD hel, ok_bind, if_neg hnl,
    rd_getD (by omega), ok_bind, rd_getD (by omega), ok_bind]
  obtain ⟨a, ha⟩ : ∃ a, a = coeffs.getD 2 0 := ⟨_, rfl⟩
  obtain ⟨b, hb⟩ : ∃ b, b = coeffs.getD 1 0 := ⟨_, rfl⟩
  obtain ⟨c, hcc⟩ : ∃ c, c = coeffs.getD 0 0 := ⟨_, rfl⟩
  have hp : ∀ x, polyVal (fun i => coeffs.getD i 0) 2 x = a * x ^ 2 + b * x + c := by
    intro x
    simp only [polyVal, Finset.sum_range_succ, Finset.sum_range_zero, ← ha, ← hb, ← hcc]; ring
  simp only [hp]
  simp only [← ha, ← hb, ← hcc] at hc h0 h1 ⊢
  rw [← pow_two, if_neg (not_lt.2 h0), if_neg hc, if_pos (by rwa [abs_of_nonneg h0]), push_eq, pure_eq]
  have hs := Real.sq_sqrt h0
  have hs0 := Real.sqrt_nonneg (b ^ 2 - 4 * a * c)
  have hs1 : √(b ^ 2 - 4 * a * c) < √eps := Real.sqrt_lt_sqrt h0 h1
  generalize √(b ^ 2 - 4 * a * c) = s at hs hs0 hs1
  have fac : ∀ s, s ^ 2 = b ^ 2 - 4 * a * c → ∀ z, a * z ^ 2 + b * z + c =
      a * (z - (-b / (2 * a) - s / (2 * a))) * (z - (-b / (2 * a) + s / (2 * a))) := by
    intro s hs z
    field_simp
    linear_combination hs
  refine ⟨_, rfl, fun x => ?_, fun x hx => ?_⟩
  · rw [mem_window]
    constructor
    · rintro ⟨h, h2, h3⟩
      refine ⟨h2, h3, s / (2 * a), ?_, fun z => ?_⟩
      · rw [show a * (s / (2 * a)) = s / 2 by field_simp, abs_of_nonneg (by linarith)]
        linarith
      · rw [fac s hs z, ← h]
        constructor
        · intro hz
          rcases mul_eq_zero.1 hz with hz | hz
          · rcases mul_eq_zero.1 hz with hz | hz
            · exact absurd hz hc
            · left; linarith
          · right; linarith
        · rintro (rfl | rfl) <;> ring
    · rintro ⟨h2, h3, y, -, hz⟩
      refine ⟨?_, h2, h3⟩
      have z1 := (hz ((-b / (2 * a)) - s / (2 * a))).1 (by rw [fac s hs]; ring)
      have z2 := (hz ((-b / (2 * a)) + s / (2 * a))).1 (by rw [fac s hs]; ring)
      have y1 := (hz (x - y)).2 (Or.inl rfl)
      have y2 := (hz (x + y)).2 (Or.inr rfl)
      by_cases hy0 : y = 0
      · subst hy0
        simp only [sub_zero, add_zero, or_self] at z1 z2
        linarith
      · have : y * (2 * a * x + b) = 0 := by linear_combination (y2 - y1) / 2
        rw [eq_div_iff (mul_ne_zero two_ne_zero hc)]
        linear_combination (mul_eq_zero.1 this).resolve_left hy0
  · obtain ⟨rfl, -, -⟩ := mem_window.1 hx
    have e : a * (-b / (2 * a)) ^ 2 + b * (-b / (2 * a)) + c = -(b ^ 2 - 4 * a * c) / (4 * a) := by
      field_simp; ring
    rw [e, abs_div, abs_neg, abs_of_nonneg h0, abs_mul, abs_of_pos (by norm_num : (0 : ℝ) < 4)]
    exact div_lt_div_of_pos_right h1 (by positivity)

/-- C46 in degree three and above, given an exact eigenvalue solver: every real root in `[t0, t1]` is
appended, and every value appended is the real part of a complex root whose modulus is within the
tolerance of it.  With tolerance zero the values appended are exactly the real roots in `[t0, t1]`. -/
theorem C46_eigen (hE : ExactEig eig) (d e : ℕ) (hl : d < coeffs.length) (ht : t0 < t1)
    (he : DegreeUpTo eps (fun i => coeffs.getD i 0) d e) (he3 : 3 ≤ e) (hc : coeffs.getD e 0 ≠ 0)
    (heps : 0 ≤ eps) :
    ∃ new, find eig d coeffs roots t0 t1 eps = ok (roots ++ new) ∧
      (∀ x, t0 ≤ x → x ≤ t1 → polyVal (fun i => coeffs.getD i 0) e x = 0 → x ∈ new) ∧
      (∀ x ∈ new, t0 ≤ x ∧ x ≤ t1 ∧ ∃ z : ℂ, polyVal (fun i => (coeffs.getD i 0 : ℂ)) e z = 0 ∧
        z.re = x ∧ ‖z‖ - |x| ≤ eps) ∧
      (eps = 0 → ∀ x ∈ new, polyVal (fun i => coeffs.getD i 0) e x = 0) := by
  rw [find_degree hl ht he]
  have hel : e < coeffs.length := lt_of_le_of_lt he.le hl
  have hnl := not_lt.2 he.lead
  beta_reduce at hnl
  obtain ⟨n, rfl⟩ : ∃ n, e = n + 3 := ⟨e - 3, by omega⟩
  rw [find, assert_true hel, ok_bind, assert_true ht, ok_bind, rd_getD hel, ok_bind, if_neg hnl, if_neg hc]
  obtain ⟨new, h1, h2⟩ := select_eq t0 t1 eps
    (eig (n + 3) (companion (n + 3) fun i => coeffs.getD i 0)) roots
  simp only [h1, pure_eq]
  have cast : ∀ x : ℝ, polyVal (fun i => (coeffs.getD i 0 : ℂ)) (n + 3) (x : ℂ) =
      (polyVal (fun i => coeffs.getD i 0) (n + 3) x : ℝ) := by
    intro x; simp only [polyVal]; push_cast; rfl
  have hroot : ∀ l, l ∈ eig (n + 3) (companion (n + 3) fun i => coeffs.getD i 0) ↔
      polyVal (fun i => (coeffs.getD i 0 : ℂ)) (n + 3) l = 0 := by
    intro l
    rw [hE]
    exact companion_eigen (n + 3) (by omega) (fun i => coeffs.getD i 0) hc l
  refine ⟨new, rfl, fun x a b hx => ?_, fun x hx => ?_, fun h0 x hx => ?_⟩
  · refine (h2 x).2 ⟨a, b, (x : ℂ), (hroot _).2 ?_, Complex.ofReal_re x, ?_⟩
    · rw [cast, hx]; simp
    · rw [Complex.norm_real, Complex.ofReal_re, Real.norm_eq_abs, sub_self, abs_zero]; exact heps
  · obtain ⟨a, b, l, h3, h4, h5⟩ := (h2 x).1 hx
    refine ⟨a, b, l, (hroot l).1 h3, h4, ?_⟩
    rw [← h4]
    exact (le_abs_self _).trans h5
  · obtain ⟨a, b, l, h3, h4, h5⟩ := (h2 x).1 hx
    have h6 : ‖l‖ = |l.re| := by
      rw [h0] at h5
      exact sub_eq_zero.1 (abs_nonpos_iff.1 h5)
    have him : l.im = 0 := by
      have h7 := Complex.sq_norm l
      rw [h6, sq_abs, Complex.normSq_apply] at h7
      nlinarith
    have hl : l = (x : ℂ) := Complex.ext (by simpa using h4) (by simpa using him)
    have := (hroot l).1 h3
    rw [hl, cast] at this
    exact_mod_cast this

/-- C46 fails for tolerance zero and a vanishing leading coefficient: the root of `x - 1`, given with
coefficients `-1, 1, 0` to the finder of degree two, is not found, nor is that of zero (every number)
reported as infinitely many. -/
theorem C46_zero_tolerance_refuted :
    find eig 2 [-1, 1, 0] [] 0 2 0 = ok [] ∧ polyVal (fun i => [-1, 1, 0].getD i 0) 2 (1 : ℝ) = 0 ∧
    find eig 0 [0] [] 0 2 0 = ok [] := by
  refine ⟨?_, ?_, ?_⟩
  · norm_num [find, find2, rd, Outcome.assert, ok_bind, pure_eq]
  · norm_num [polyVal, Finset.sum_range_succ]
  · norm_num [find, find0, rd, Outcome.assert, ok_bind, pure_eq, throwIf]

/-- Concrete case of `C46_exact`: `x ^ 2 - 3 x + 2` with a negligible cubic coefficient; the finder of
degree three returns the roots `1` and `2` in `[0, 5]`. -/
example : DegreeUpTo (1 / 100) (fun i => [2, -3, 1, 1 / 1000].getD i 0) 3 2 ∧
    (1 / 100 : ℝ) ≤ (-3) ^ 2 - 4 * 1 * 2 ∧
    polyVal (fun i => [2, -3, 1, 1 / 1000].getD i 0) 2 (1 : ℝ) = 0 ∧
    polyVal (fun i => [2, -3, 1, 1 / 1000].getD i 0) 2 (2 : ℝ) = 0 := by
  refine ⟨⟨by norm_num, by norm_num, ?_⟩, by norm_num, ?_, ?_⟩
  · intro i h1 h2
    obtain rfl : i = 3 := by omega
    norm_num [abs_lt]
  · norm_num [polyVal, Finset.sum_range_succ]
  · norm_num [polyVal, Finset.sum_range_succ]

/-- Concrete case of `C46_eigen`: `x ^ 3 - x`, whose roots in `[-1/2, 2]` are `0` and `1`. -/
example : ∃ eig, ExactEig eig ∧ DegreeUpTo (1 / 100) (fun i => [0, -1, 0, 1].getD i 0) 3 3 ∧
    polyVal (fun i => [0, -1, 0, 1].getD i 0) 3 (1 : ℝ) = 0 := by
  obtain ⟨eig, h⟩ := exactEig_exists
  refine ⟨eig, h, ⟨le_rfl, by norm_num, fun i h1 h2 => by omega⟩, ?_⟩
  norm_num [polyVal, Finset.sum_range_succ]

end Roots
end NS
