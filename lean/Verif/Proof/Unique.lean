import Mathlib.Algebra.Polynomial.Roots
import Mathlib.LinearAlgebra.Dual.Lemmas
import Mathlib.Order.Interval.Set.Infinite
import Verif.Proof.BSplineCurve
import Verif.Proof.BezierEval

/-!
# Bezier coefficients are determined by the values
-/

namespace NS

open Polynomial Finset Spec

variable {K V : Type} [Field K] [LinearOrder K] [IsStrictOrderedRing K] [FloorRing K]
  [AddCommGroup V] [Module K V]

/-- A Bernstein form with infinitely many zeros has zero coefficients. -/
theorem bernstein_zero {n : ℕ} {r : ℕ → K} {S : Set K} (hS : S.Infinite)
    (h : ∀ t ∈ S, ∑ i ∈ range (n + 1), bernstein n i t * r i = 0) : ∀ i ≤ n, r i = 0 := by
  have hinj : Set.InjOn (fun t : K => t / (1 - t)) (S \ {1}) := by
    intro a ha b hb hab
    have h1 : 1 - a ≠ 0 := fun h => ha.2 (by simpa using (sub_eq_zero.1 h).symm)
    have h2 : 1 - b ≠ 0 := fun h => hb.2 (by simpa using (sub_eq_zero.1 h).symm)
    have h3 : a / (1 - a) = b / (1 - b) := hab
    rw [div_eq_div_iff h1 h2] at h3
    linarith
  have hinf : ((fun t : K => t / (1 - t)) '' (S \ {1})).Infinite :=
    (Set.infinite_image_iff hinj).2 (hS.sdiff (Set.finite_singleton 1))
  have hq : (∑ i ∈ range (n + 1), monomial i ((n.choose i : K) * r i)) = 0 := by
    refine Polynomial.eq_zero_of_infinite_isRoot _ (hinf.mono ?_)
    rintro _ ⟨t, ht, rfl⟩
    have h1 : 1 - t ≠ 0 := fun h => ht.2 (by simpa using (sub_eq_zero.1 h).symm)
    have h2 := h t ht.1
    simp only [Set.mem_ofPred_eq, IsRoot.def, eval_finsetSum, eval_monomial]
    rw [← mul_right_inj' (pow_ne_zero n h1), mul_zero, mul_sum, ← h2]
    refine sum_congr rfl fun i hi => ?_
    have hi' : i ≤ n := by simpa [Nat.lt_succ_iff] using hi
    rw [bernstein, div_pow]
    obtain ⟨m, rfl⟩ : ∃ m, n = m + i := ⟨n - i, by omega⟩
    rw [Nat.add_sub_cancel, pow_add]
    field_simp
  intro i hi
  have h1 := congrArg (fun q => Polynomial.coeff q i) hq
  simp only [finsetSum_coeff, coeff_monomial, coeff_zero] at h1
  rw [sum_ite_eq' , if_pos (by simpa [Nat.lt_succ_iff] using hi)] at h1
  have h2 : (n.choose i : K) ≠ 0 := by exact_mod_cast (Nat.choose_pos hi).ne'
  exact (mul_eq_zero.1 h1).resolve_left h2

/-- Two Bernstein forms that agree at infinitely many parameters have the same coefficients. -/
theorem umb_unique {n : ℕ} {P Q : ℕ → V} {S : Set K} (hS : S.Infinite)
    (h : ∀ t ∈ S, umb P (lin t ^ n) = umb Q (lin t ^ n)) : ∀ i ≤ n, P i = Q i := by
  intro i hi
  rw [← sub_eq_zero, ← Module.forall_dual_apply_eq_zero_iff K]
  intro f
  refine bernstein_zero (r := fun i => f (P i - Q i)) hS (fun t ht => ?_) i hi
  have h1 := h t ht
  rw [umb_lin_pow, umb_lin_pow, ← sub_eq_zero, ← sum_sub_distrib] at h1
  have h2 := congrArg f h1
  rw [map_sum, map_zero] at h2
  rw [← h2]
  refine sum_congr rfl fun j _ => ?_
  rw [← smul_sub, map_smul, smul_eq_mul]

/-- Two lists of the same length with the same Bézier points are equal. -/
theorem bezierPoint_unique {A B : List V} (hl : A.length = B.length) {S : Set K} (hS : S.Infinite)
    (h : ∀ t ∈ S, bezierPoint A t = bezierPoint B t) : A = B := by
  by_cases hA : A = []
  · subst hA
    simpa using hl.symm
  have h0 : A.length ≠ 0 := by simpa using hA
  have eA := eq_arr A (0 : V)
  have eB := eq_arr B (0 : V)
  rw [← hl] at eB
  obtain ⟨n, hn⟩ : ∃ n, A.length = n + 1 := ⟨A.length - 1, by omega⟩
  rw [hn] at eA eB
  have hu := umb_unique (n := n) (P := fun i => A.getD i 0) (Q := fun i => B.getD i 0) hS
    (fun t ht => by
      have := h t ht
      rw [eA, eB, Bezier.arr_bezierPoint, Bezier.arr_bezierPoint] at this
      exact this)
  rw [eA, eB]
  unfold arr
  exact List.map_congr_left fun i hi => hu i (by have := List.mem_range.1 hi; omega)

/-- Two splines over the same knots that agree at infinitely many parameters of a span have the
same control points of that span. -/
theorem bsplinePoint_unique {u : List K} (hs : u.Pairwise (· ≤ ·)) {p k : ℕ} {A B : List V}
    (hlen : u.length = A.length + p + 1) (hAB : A.length = B.length) (hp : p ≤ k)
    (hk : k < A.length) {S : Set K} (hS : S.Infinite)
    (hin : ∀ t ∈ S, InSpan (knot u) (knot u A.length) k t)
    (h : ∀ t ∈ S, bsplinePoint p u A t = bsplinePoint p u B t) :
    ∀ i, k - p ≤ i → i ≤ k → A.getD i 0 = B.getD i 0 := by
  obtain ⟨t0, ht0⟩ := hS.nonempty
  have hlt := (hin t0 ht0).lt
  obtain ⟨Q, hQ⟩ := BSpline.exists_repr hs (fun i => A.getD i 0) hp (by omega) hlt
  obtain ⟨R, hR⟩ := BSpline.exists_repr hs (fun i => B.getD i 0) hp (by omega) hlt
  have hu := umb_unique (n := p) (P := Q) (Q := R) hS fun t ht => by
    have h1 := BSpline.bsplinePoint_eq hs hlen (hin t ht) hp hk hQ
    have h2 := BSpline.bsplinePoint_eq hs (by omega) (hAB ▸ hin t ht) hp (by omega) hR
    rw [← h1, ← h2, h t ht]
  intro i h1 h2
  have e1 := hQ i h1 h2
  have e2 := hR i h1 h2
  simp only at e1 e2
  rw [e1, e2]
  exact umb_congr _ _ _ p (natDegree_lprod _ _ _) hu

end NS
