import Verif.Spec.Seminorm
import Mathlib.Algebra.Module.BigOperators
import Mathlib.Algebra.Order.BigOperators.Ring.Finset
import Mathlib.Tactic.Module
import Mathlib.Tactic.FieldSimp
import Mathlib.Tactic.Linarith

/-!
# Perturbation of weighted means
-/

set_option linter.unusedSectionVars false

namespace NS.Stability

open Spec Finset

variable {K V ι : Type} [Field K] [LinearOrder K] [IsStrictOrderedRing K] [AddCommGroup V] [Module K V]
  {nrm : V → K}

theorem nrm_zero (hn : IsSeminorm nrm) : nrm 0 = 0 := by
  have := hn.smul 0 0
  simpa using this

theorem nrm_nonneg (hn : IsSeminorm nrm) (v : V) : 0 ≤ nrm v := by
  have h1 := hn.tri v (-v)
  have h2 := hn.smul (-1) v
  rw [neg_one_smul, abs_neg, abs_one, one_mul] at h2
  rw [add_neg_cancel, nrm_zero hn, h2] at h1
  linarith

theorem nrm_sum (hn : IsSeminorm nrm) (s : Finset ι) (f : ι → V) : nrm (∑ i ∈ s, f i) ≤ ∑ i ∈ s, nrm (f i) := by
  classical
  induction s using Finset.induction_on with
  | empty => simp [nrm_zero hn]
  | insert a s ha ih =>
    rw [sum_insert ha, sum_insert ha]
    exact (hn.tri _ _).trans (by linarith)

theorem nrm_sum_smul (hn : IsSeminorm nrm) {s : Finset ι} {b : ι → K} {f : ι → V} {D : K} (hb : ∀ i ∈ s, 0 ≤ b i)
    (hf : ∀ i ∈ s, nrm (f i) ≤ D) : nrm (∑ i ∈ s, b i • f i) ≤ (∑ i ∈ s, b i) * D := by
  refine (nrm_sum hn s _).trans ?_
  rw [sum_mul]
  refine sum_le_sum fun i hi => ?_
  rw [hn.smul, abs_of_nonneg (hb i hi)]
  exact mul_le_mul_of_nonneg_left (hf i hi) (hb i hi)

/-- Means with the same weights. -/
theorem mean_points (hn : IsSeminorm nrm) {s : Finset ι} {b : ι → K} {P Q : ι → V} {e : K} (hb : ∀ i ∈ s, 0 ≤ b i)
    (hs : ∑ i ∈ s, b i = 1) (h : ∀ i ∈ s, nrm (P i - Q i) ≤ e) :
    nrm (∑ i ∈ s, b i • P i - ∑ i ∈ s, b i • Q i) ≤ e := by
  rw [← sum_sub_distrib]
  simp only [← smul_sub]
  have := nrm_sum_smul hn hb h
  rwa [hs, one_mul] at this

/-- The total of positive weights against a partition of unity. -/
theorem total_pos {s : Finset ι} {b w : ι → K} (hb : ∀ i ∈ s, 0 ≤ b i) (hs : ∑ i ∈ s, b i = 1)
    (hw : ∀ i ∈ s, 0 < w i) : 0 < ∑ i ∈ s, b i * w i := by
  have h0 : ∀ i ∈ s, 0 ≤ b i * w i := fun i hi => mul_nonneg (hb i hi) (hw i hi).le
  refine lt_of_le_of_ne (sum_nonneg h0) fun h => ?_
  have h1 := (sum_eq_zero_iff_of_nonneg h0).1 h.symm
  have : ∑ i ∈ s, b i = 0 := sum_eq_zero fun i hi =>
    (mul_eq_zero.1 (h1 i hi)).resolve_right (hw i hi).ne'
  rw [hs] at this
  exact one_ne_zero this

/-- Weighted means whose points and weights differ. -/
theorem mean_weights (hn : IsSeminorm nrm) {s : Finset ι} {b w w' : ι → K} {P Q : ι → V} {e d D : K}
    (hb : ∀ i ∈ s, 0 ≤ b i) (hs : ∑ i ∈ s, b i = 1) (hw : ∀ i ∈ s, 0 < w i) (hd0 : 0 ≤ d) (hd : d < 1)
    (hww : ∀ i ∈ s, |w' i - w i| ≤ d * w i) (h : ∀ i ∈ s, nrm (P i - Q i) ≤ e)
    (hD : ∀ i ∈ s, ∀ j ∈ s, nrm (P i - P j) ≤ D) :
    0 < ∑ i ∈ s, b i * w' i ∧
    nrm ((∑ i ∈ s, b i * w i)⁻¹ • (∑ i ∈ s, (b i * w i) • P i)
      - (∑ i ∈ s, b i * w' i)⁻¹ • ∑ i ∈ s, (b i * w' i) • Q i) ≤ e + d / (1 - d) * D := by
  have hw' : ∀ i ∈ s, (1 - d) * w i ≤ w' i := fun i hi => by
    have := (abs_le.1 (hww i hi)).1; linarith
  have hpos' : ∀ i ∈ s, 0 < w' i := fun i hi =>
    lt_of_lt_of_le (mul_pos (by linarith) (hw i hi)) (hw' i hi)
  have W := total_pos hb hs hw
  have W' := total_pos hb hs hpos'
  refine ⟨W', ?_⟩
  have hle : (1 - d) * ∑ i ∈ s, b i * w i ≤ ∑ i ∈ s, b i * w' i := by
    rw [mul_sum]
    refine sum_le_sum fun i hi => ?_
    have := mul_le_mul_of_nonneg_left (hw' i hi) (hb i hi)
    linarith
  set T := ∑ i ∈ s, b i * w i with hT
  set T' := ∑ i ∈ s, b i * w' i with hT'
  set x := T⁻¹ • (∑ i ∈ s, (b i * w i) • P i) with hx
  set y := T'⁻¹ • (∑ i ∈ s, (b i * w' i) • P i) with hy
  obtain ⟨i0, hi0⟩ : s.Nonempty := by
    by_contra hne
    rw [not_nonempty_iff_eq_empty] at hne
    rw [hne] at hs; simp at hs
  have hD0 : 0 ≤ D := (nrm_nonneg hn _).trans (hD i0 hi0 i0 hi0)
  -- the points of the first object are within `D` of the mean
  have hPx : ∀ i ∈ s, nrm (P i - x) ≤ D := by
    intro i hi
    have e1 : P i - x = T⁻¹ • ∑ j ∈ s, (b j * w j) • (P i - P j) := by
      simp only [smul_sub, sum_sub_distrib, ← Finset.sum_smul]
      rw [← hT, smul_smul, inv_mul_cancel₀ W.ne', one_smul]
    rw [e1, hn.smul, abs_of_pos (inv_pos.2 W)]
    have := nrm_sum_smul hn (b := fun j => b j * w j) (f := fun j => P i - P j)
      (fun j hj => mul_nonneg (hb j hj) (hw j hj).le) fun j hj => hD i hi j hj
    rw [← hT] at this
    calc T⁻¹ * _ ≤ T⁻¹ * (T * D) := mul_le_mul_of_nonneg_left this (inv_pos.2 W).le
      _ = D := by rw [← mul_assoc, inv_mul_cancel₀ W.ne', one_mul]
  -- the weights
  have hxy : nrm (x - y) ≤ d / (1 - d) * D := by
    have z : ∑ i ∈ s, (b i * w i) • (P i - x) = 0 := by
      simp only [smul_sub, sum_sub_distrib, ← Finset.sum_smul]
      rw [← hT, hx, smul_smul, mul_inv_cancel₀ W.ne', one_smul, sub_self]
    have e1 : x - y = T'⁻¹ • ∑ i ∈ s, b i • ((w i - w' i) • (P i - x)) := by
      have : ∑ i ∈ s, b i • ((w i - w' i) • (P i - x))
          = ∑ i ∈ s, (b i * w i) • (P i - x) - ∑ i ∈ s, (b i * w' i) • (P i - x) := by
        rw [← sum_sub_distrib]
        exact sum_congr rfl fun i _ => by module
      rw [this, z, zero_sub]
      simp only [smul_sub, sum_sub_distrib, ← Finset.sum_smul]
      rw [← hT', neg_sub, smul_sub, smul_smul, inv_mul_cancel₀ W'.ne', one_smul]
    have h2 : nrm (∑ i ∈ s, b i • ((w i - w' i) • (P i - x))) ≤ d * T * D := by
      refine (nrm_sum hn s _).trans ?_
      rw [hT, mul_sum, sum_mul]
      refine sum_le_sum fun i hi => ?_
      rw [hn.smul, hn.smul, abs_of_nonneg (hb i hi), abs_sub_comm]
      have g1 : |w' i - w i| * nrm (P i - x) ≤ d * w i * D :=
        mul_le_mul (hww i hi) (hPx i hi) (nrm_nonneg hn _) (mul_nonneg hd0 (hw i hi).le)
      have := mul_le_mul_of_nonneg_left g1 (hb i hi)
      calc b i * (|w' i - w i| * nrm (P i - x)) ≤ b i * (d * w i * D) := this
        _ = d * (b i * w i) * D := by ring
    rw [e1, hn.smul, abs_of_pos (inv_pos.2 W')]
    have h1d : 0 < 1 - d := by linarith
    calc T'⁻¹ * _ ≤ T'⁻¹ * (d * T * D) := mul_le_mul_of_nonneg_left h2 (inv_pos.2 W').le
      _ ≤ d / (1 - d) * D := by
        rw [inv_mul_eq_div, div_le_iff₀ W', div_mul_eq_mul_div, div_mul_eq_mul_div, le_div_iff₀ h1d]
        have := mul_le_mul_of_nonneg_left hle (mul_nonneg hd0 hD0)
        nlinarith
  -- the points
  have hyz : nrm (y - T'⁻¹ • ∑ i ∈ s, (b i * w' i) • Q i) ≤ e := by
    rw [hy, ← smul_sub, ← sum_sub_distrib]
    simp only [← smul_sub]
    rw [hn.smul, abs_of_pos (inv_pos.2 W')]
    have := nrm_sum_smul hn (b := fun j => b j * w' j) (f := fun j => P j - Q j)
      (fun j hj => mul_nonneg (hb j hj) (hpos' j hj).le) h
    rw [← hT'] at this
    calc T'⁻¹ * _ ≤ T'⁻¹ * (T' * e) := mul_le_mul_of_nonneg_left this (inv_pos.2 W').le
      _ = e := by rw [← mul_assoc, inv_mul_cancel₀ W'.ne', one_mul]
  have := hn.tri (x - y) (y - T'⁻¹ • ∑ i ∈ s, (b i * w' i) • Q i)
  rw [sub_add_sub_cancel] at this
  linarith

end NS.Stability
