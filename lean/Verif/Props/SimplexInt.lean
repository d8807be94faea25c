import Verif.Props.Simplex
import Verif.Proof.SimplexInt

/-! # C89: machine integers of Bezier simplices -/

set_option linter.unusedSectionVars false

namespace NS
namespace Props

open Outcome Spec Simplex Finset

variable {K : Type} [Field K] [CharZero K] {V : Type} [AddCommGroup V] [Module K V]

/-- C89: with 8-bit arguments and 64-bit products `choose` is the binomial coefficient as long as
the binomial times the smaller lower index fits 64 bits. -/
theorem C89_choose_partial {n r : ℕ} (hr : r ≤ n) (hn : n ≤ 255)
    (h : min r (n - r) * n.choose r < 2 ^ 64) : chooseM n r = n.choose r := by
  obtain ⟨s, rfl⟩ : ∃ s, n = s + r := ⟨n - r, by omega⟩
  exact chooseM_eq hn (by rwa [min_comm, Nat.add_sub_cancel] at h)

/-- The products for `n ≤ 62` fit. -/
theorem product_62 {s d : ℕ} (h : s + d ≤ 62) : min s d * (s + d).choose d < 2 ^ 64 := by
  have hc : (61 : ℕ).choose (61 / 2) = 232714176627630544 := by
    rw [Nat.choose_eq_descFactorial_div_factorial]
    decide +kernel
  have main : ∀ m n : ℕ, n ≤ 62 → m * n.choose m < 2 ^ 64 := by
    intro m n hn
    rcases m with _ | m
    · simp
    rcases n with _ | n
    · simp
    have h1 : (m + 1) * (n + 1).choose (m + 1) = (n + 1) * n.choose m := by
      rw [Nat.add_one_mul_choose_eq, mul_comm]
    have h2 : n.choose m ≤ (61 : ℕ).choose (61 / 2) :=
      le_trans (Nat.choose_le_choose _ (by omega)) (Nat.choose_le_middle _ _)
    rw [h1]
    calc (n + 1) * n.choose m ≤ 62 * (61 : ℕ).choose (61 / 2) := Nat.mul_le_mul hn h2
      _ < 2 ^ 64 := by rw [hc]; norm_num
  rcases le_total s d with hsd | hsd
  · rw [min_eq_left hsd, ← Nat.choose_symm_add]
    exact main s _ h
  · rw [min_eq_right hsd]
    exact main d _ h

/-- C89: `choose` is exact for every `n` up to 62. -/
theorem C89_choose_62 {n r : ℕ} (hr : r ≤ n) (hn : n ≤ 62) : chooseM n r = n.choose r := by
  obtain ⟨s, rfl⟩ : ∃ s, n = s + r := ⟨n - r, by omega⟩
  exact chooseM_eq (by omega) (product_62 hn)

example : chooseM 62 31 = 465428353255261088 := by decide +kernel

/-- C89: 62 is the limit: `choose(63, 31)`, a number that fits 64 bits, comes out wrong because
an intermediate product does not. -/
theorem C89_choose_refuted :
    (63 : ℕ).choose 31 < 2 ^ 64 ∧ chooseM 63 31 ≠ (63 : ℕ).choose 31 := by
  have h : (63 : ℕ).choose 31 = 916312070471295267 := by
    rw [Nat.choose_eq_descFactorial_div_factorial]
    decide +kernel
  rw [h]
  exact ⟨by norm_num, by decide +kernel⟩

/-- C89: the sizes for which the machine arithmetic is exact include all dimensions and degrees
with sum at most 62. -/
theorem C89_sizes {s d : ℕ} (h : s + d ≤ 62) : Fits s d :=
  ⟨by omega, by omega, product_62 h⟩

/-- C89: they also include every dimension up to 100 for degrees up to 8. -/
theorem C89_low_degree {s d : ℕ} (hs : s ≤ 100) (hd : d ≤ 8) : Fits s d := by
  refine Fits.mono (s := 100) (d := 8) ⟨by omega, by omega, ?_⟩ hs hd
  have h : (100 + 8 : ℕ).choose 8 = 352025629371 := by
    rw [Nat.choose_eq_descFactorial_div_factorial]
    decide +kernel
  rw [h]
  norm_num

/-- C89: for these sizes the number of control points and the enumeration of multi-indices are
those of unbounded integers: every tuple of length `s + 1` and sum `d` once, in descending
lexicographic order, whatever the matrix contained. -/
theorem C89_multi_indices {s d : ℕ} (h : Fits s d) (g : List (List ℕ))
    (hg : g.length = numControlPointsM s d) :
    numControlPointsM s d = (s + d).choose d ∧
    ∃ out, generateMultiIndicesM s d g = ok out ∧
      (∀ l : List ℕ, l ∈ out ↔ l.length = s + 1 ∧ l.sum = d) ∧
      out.Pairwise (fun a b => b < a) ∧ out.Nodup ∧ out.length = g.length := by
  have hn := numControlPointsM_eq h
  have hn' := hn.trans (numControlPoints_eq s d)
  refine ⟨hn', rows s d, generateMultiIndicesM_eq h g (hg.trans hn'), fun _ => mem_rows,
    rows_sorted s d, rows_nodup s d, by rw [Simplex.rows_length, hg, hn']⟩

example : generateMultiIndicesM 2 2 (List.replicate 6 [9, 9, 9])
    = ok [[2, 0, 0], [1, 1, 0], [1, 0, 1], [0, 2, 0], [0, 1, 1], [0, 0, 2]] := by decide +kernel

/-- C89: the control points are those of unbounded integers; they are barycentric. -/
theorem C89_control_points {s d : ℕ} (h : Fits s d) (hd : d ≠ 0) :
    getControlPointsM K s d = getControlPoints K s d ∧
    ∃ out, getControlPointsM K s d = ok out ∧ out.length = numControlPointsM s d ∧
      ∀ b ∈ out, b.length = s + 1 ∧ b.sum = 1 := by
  have e : getControlPointsM K s d = getControlPoints K s d := by
    unfold getControlPointsM getControlPoints
    rw [numControlPointsM_eq h, multiIndicesM_eq h]
  obtain ⟨out, idx, h1, h2, h3, h4⟩ := C53_control_points (K := K) s hd
  refine ⟨e, out, e.trans h1, ?_, h4⟩
  obtain ⟨idx', h5, h6⟩ := (C53_count s d).2
  rw [h2, ok.injEq] at h5
  rw [h3, List.length_map, h5, h6, numControlPointsM_eq h]

example : getControlPointsM ℚ 1 2 = ok [[1, 0], [1 / 2, 1 / 2], [0, 1]] := by decide +kernel

/-- C89: a simplex of positive dimension and degree 255 has no control net: the loop
over the degrees of the layers does not end. -/
theorem C89_degree_255_refuted (s : ℕ) (g : List (List ℕ)) :
    generateMultiIndicesM (s + 1) 255 g = ub := by
  unfold generateMultiIndicesM
  by_cases h : g.length = chooseM (s + 1 + 255) 255
  · rw [assert_true h, ok_bind, assert_false (by omega)]
    rfl
  · rw [assert_false h]
    rfl

/-- C89: the factorials have a value exactly up to the degree 12. -/
theorem C89_factorials (N : ℕ) :
    (N ≤ 12 → factorialsM N = ok (arr (N + 1) Nat.factorial)) ∧
    (13 ≤ N → factorialsM N = ub) :=
  ⟨fun h => (factorialsM_eq h).trans (factorials_eq N), factorialsM_ub⟩

example : factorialsM 12 = ok [1, 1, 2, 6, 24, 120, 720, 5040, 40320, 362880, 3628800, 39916800,
    479001600] := by decide +kernel

/-- C89: for degrees up to 12, evaluation and directional derivatives with machine integers are
those with unbounded integers, at every point. -/
theorem C89_evaluate_partial {s d : ℕ} (h : Fits s d) (hd : d ≤ 12) (P : List V) (b dir : List K) :
    evaluateM s d P b = evaluate s d P b ∧
    evaluateDirectionalDerivativeM s d P b dir = evaluateDirectionalDerivative s d P b dir := by
  constructor
  · unfold evaluateM evaluate
    rw [numControlPointsM_eq h, multiIndicesM_eq h]
    simp only [evaluateBernsteinM_eq s hd]
  · unfold evaluateDirectionalDerivativeM evaluateDirectionalDerivative
    rw [numControlPointsM_eq h, multiIndicesM_eq h]
    simp only [evaluateBernsteinDerivativeM_eq s hd]

/-- C89: hence `evaluate` with machine integers is the multinomial Bernstein form. -/
theorem C89_evaluate_form {s d : ℕ} (h : Fits s d) (hd : d ≤ 12) (F : (Fin (s + 1) → ℕ) → V)
    {idx : List (List ℕ)} (hidx : multiIndicesM s d = ok idx) {b : List K}
    (hb : b.length = s + 1) :
    evaluateM s d (idx.map fun l => F (fun j => l.getD j 0)) b
      = ok (simplexForm d F (coords (s + 1) b)) := by
  rw [multiIndicesM_eq h] at hidx
  rw [(C89_evaluate_partial h hd _ b []).1]
  exact C54_evaluate s d F hidx hb

example : evaluateM 2 2 [(1 : ℚ), 2, 3, 4, 5, 6] ([1 / 2, 1 / 4, 1 / 4] : List ℚ)
    = ok (11 / 4) := by
  decide +kernel
example : Fits 2 2 := C89_sizes (by omega)

/-- C89: from the degree 13 on no simplex with the right number of ordinates can be evaluated. -/
theorem C89_high_degree_refuted {s d : ℕ} (h : Fits s d) (hd : 13 ≤ d) (P : List V)
    (hP : P.length = numControlPointsM s d) (b : List K) : evaluateM s d P b = ub := by
  unfold evaluateM
  have hn := (numControlPointsM_eq h).trans (numControlPoints_eq s d)
  rw [multiIndicesM_eq h, multiIndices_eq, hP]
  simp only [ne_eq, not_true_eq_false]
  have hpos : 0 < numControlPointsM s d := by
    rw [hn]; exact Nat.choose_pos (by omega)
  have hub : ∀ row, evaluateBernsteinM s d row b = ub := by
    intro row
    unfold evaluateBernsteinM
    rw [factorialsM_ub hd]
    rfl
  have h1 : loop 1 (fun i (result : V) => do
      let row ← rd (rows s d) i
      let coeff ← evaluateBernsteinM s d row b
      let o ← rd P i
      pure (result + coeff • o)) 0 = ub := by
    rw [loop_succ, loop_zero, ok_bind, rd_of_lt (by rw [Simplex.rows_length, ← hn]; exact hpos),
      ok_bind, hub]
    rfl
  have h2 := loop_ub 1 _ _ _ hpos h1
  exact h2

/-- C89: a straight line written as a simplex of degree 13 is such a case; one of degree 12 is
evaluated. -/
theorem C89_line_refuted :
    evaluateM 1 13 (List.replicate 14 (1 : ℚ)) [(1 / 2 : ℚ), 1 / 2] = ub ∧
    evaluateM 1 12 (List.replicate 13 (1 : ℚ)) [(1 / 2 : ℚ), 1 / 2] = ok 1 := by
  constructor <;> decide +kernel

/-- C89: degree elevation with machine integers is that with unbounded integers, also beyond the
degree 12. -/
theorem C89_elevate_partial {s d : ℕ} (h : Fits s (d + 1)) (P : List V) :
    elevateDegreeM K s d P = elevateDegree K s d P :=
  elevateDegreeM_eq h P

/-- C89: hence, for a degree below 12, the elevated simplex takes the same values. -/
theorem C89_elevate_same {s d : ℕ} (h : Fits s (d + 1)) (hd : d + 1 ≤ 12) {P : List V}
    (hP : P.length = numControlPointsM s d) :
    ∃ E, elevateDegreeM K s d P = ok E ∧ E.length = numControlPointsM s (d + 1) ∧
      ∀ b : List K, b.length = s + 1 → b.sum = 1 → evaluateM s (d + 1) E b = evaluateM s d P b := by
  have h' : Fits s d := h.mono le_rfl (by omega)
  rw [numControlPointsM_eq h'] at hP
  obtain ⟨E, h1, h2, h3⟩ := C55_elevate (K := K) s d hP
  refine ⟨E, (elevateDegreeM_eq h P).trans h1, by rw [h2, numControlPointsM_eq h],
    fun b hb hs => ?_⟩
  rw [(C89_evaluate_partial h hd E b []).1, (C89_evaluate_partial h' (by omega) P b []).1]
  exact h3 b hb hs

example : elevateDegreeM ℚ 1 2 [(0 : ℚ), 3, 6] = ok [0, 2, 4, 6] := by decide +kernel

/-- C89: elevating a simplex of degree 12 gives one that cannot be evaluated. -/
theorem C89_elevate_refuted {s : ℕ} (h : Fits s 13) {P : List V}
    (hP : P.length = numControlPointsM s 12) :
    ∃ E, elevateDegreeM K s 12 P = ok E ∧ ∀ b : List K, evaluateM s 13 E b = ub := by
  have h' : Fits s 12 := h.mono le_rfl (by omega)
  rw [numControlPointsM_eq h'] at hP
  obtain ⟨E, h1, h2, _⟩ := C55_elevate (K := K) s 12 hP
  exact ⟨E, (elevateDegreeM_eq h P).trans h1, fun b => C89_high_degree_refuted h le_rfl E
    (by rw [h2, numControlPointsM_eq h]) b⟩

end Props
end NS
