import Verif.Proof.SimplexForm

/-! # C53-C55: Bezier simplices -/

set_option linter.unusedSectionVars false

namespace NS
namespace Props

open Outcome Spec Simplex Finset

variable {K : Type} [Field K] [CharZero K] {V : Type} [AddCommGroup V] [Module K V]

/-! ### C53: the multi-index enumeration -/

/-- C53: `choose` is the binomial coefficient. -/
theorem C53_choose {n r : ℕ} (h : r ≤ n) : choose n r = n.choose r := choose_eq h

example : choose 7 3 = 35 := by decide

/-- C53: filling a matrix with the right number of rows (whatever its content) enumerates exactly
the tuples of length `s + 1` and sum `d`, in strictly descending lexicographic order (hence each
once). -/
theorem C53_multi_indices (s d : ℕ) (g : List (List ℕ)) (hg : g.length = (s + d).choose d) :
    ∃ out, generateMultiIndices s d g = ok out ∧
      (∀ l : List ℕ, l ∈ out ↔ l.length = s + 1 ∧ l.sum = d) ∧
      out.Pairwise (fun a b => b < a) ∧ out.Nodup ∧ out.length = g.length :=
  ⟨rows s d, generateMultiIndices_eq s d g hg, fun _ => mem_rows, rows_sorted s d, rows_nodup s d,
    by rw [Simplex.rows_length, hg]⟩

example : generateMultiIndices 2 2 (List.replicate 6 [9, 9, 9])
    = ok [[2, 0, 0], [1, 1, 0], [1, 0, 1], [0, 2, 0], [0, 1, 1], [0, 0, 2]] := by decide +kernel

/-- C53: a matrix of any other number of rows fails the `assert`. -/
theorem C53_size (s d : ℕ) (g : List (List ℕ)) (hg : g.length ≠ (s + d).choose d) :
    generateMultiIndices s d g = ub := by
  rcases s with _ | s
  · rw [generateMultiIndices, choose_eq (by omega), assert_false hg, ub_bind]
  · rw [generateMultiIndices, choose_eq (by omega), assert_false hg, ub_bind]

example : generateMultiIndices 1 2 [[0, 0]] = ub := by decide +kernel

/-- C53: the static number of control points is the number of such tuples. -/
theorem C53_count (s d : ℕ) :
    numControlPoints s d = (s + d).choose d ∧
      ∃ out, multiIndices s d = ok out ∧ out.length = numControlPoints s d :=
  ⟨numControlPoints_eq s d, rows s d, multiIndices_eq s d, by
    rw [Simplex.rows_length, numControlPoints_eq]⟩

example : numControlPoints 3 4 = 35 := by decide

/-- C53: the control points of a simplex of positive degree are the multi-indices divided by the
degree; their coordinates sum to one. -/
theorem C53_control_points (s : ℕ) {d : ℕ} (hd : d ≠ 0) :
    ∃ out idx, getControlPoints K s d = ok out ∧ multiIndices s d = ok idx ∧
      out = idx.map (fun l => l.map fun a : ℕ => (a : K) / (d : K)) ∧
      ∀ b ∈ out, b.length = s + 1 ∧ b.sum = 1 := by
  refine ⟨_, rows s d, ?_, multiIndices_eq s d, rfl, ?_⟩
  · rw [getControlPoints, if_neg hd, multiIndices_eq, ok_bind, pure_eq]
  · intro b hb
    obtain ⟨l, hl, rfl⟩ := List.mem_map.1 hb
    obtain ⟨h1, h2⟩ := mem_rows.1 hl
    refine ⟨by simpa using h1, ?_⟩
    have hd' : (d : K) ≠ 0 := Nat.cast_ne_zero.2 hd
    have : ∀ l : List ℕ, (l.map fun a : ℕ => (a : K) / (d : K)).sum = (l.sum : K) / d := by
      intro l
      induction l with
      | nil => simp
      | cons a l ih => simp [ih, add_div]
    rw [this, h2, div_self hd']

example : getControlPoints ℚ 1 2 = ok [[1, 0], [1 / 2, 1 / 2], [0, 1]] := by decide +kernel

/-- C53: the control point of a simplex of degree 0 is not barycentric: its coordinates are all
zero. -/
theorem C53_degree_zero_refuted :
    ∃ b, getControlPoints ℚ 1 0 = ok [b] ∧ b.sum ≠ 1 :=
  ⟨[0, 0], by decide +kernel, by decide +kernel⟩

/-! ### C54: evaluation and directional derivatives -/

/-- C54: `evaluate` is the multinomial Bernstein form, for ordinates given by a function of the
multi-index. -/
theorem C54_evaluate (s d : ℕ) (F : (Fin (s + 1) → ℕ) → V) {idx : List (List ℕ)}
    (hidx : multiIndices s d = ok idx) {b : List K} (hb : b.length = s + 1) :
    evaluate s d (idx.map fun l => F (fun j => l.getD j 0)) b
      = ok (simplexForm d F (coords (s + 1) b)) := by
  rw [multiIndices_eq, ok.injEq] at hidx
  subst hidx
  exact evaluate_eq s d F hb

/-- C54: every ordinate list of the right size arises this way; any other size throws. -/
theorem C54_total (s d : ℕ) (P : List V) (b : List K) :
    (P.length = numControlPoints s d →
      ∃ F : (Fin (s + 1) → ℕ) → V, ∃ idx, multiIndices s d = ok idx ∧
        P = idx.map fun l => F (fun j => l.getD j 0)) ∧
    (P.length ≠ numControlPoints s d → evaluate s d P b = Outcome.throw .runtimeError) := by
  refine ⟨fun h => ?_, fun h => ?_⟩
  · obtain ⟨F, hF⟩ := exists_fun s d P h
    exact ⟨F, rows s d, multiIndices_eq s d, hF⟩
  · rw [evaluate, throwIf_true h, throw_bind]

example : evaluate 2 2 [(1 : ℚ), 2, 3, 4, 5, 6] ([1 / 2, 1 / 4, 1 / 4] : List ℚ) = ok (11 / 4) := by
  decide +kernel
example : evaluate 2 2 [(1 : ℚ), 2, 3] ([1 / 2, 1 / 4, 1 / 4] : List ℚ) = Outcome.throw .runtimeError := by
  decide +kernel

/-- C54: the Bernstein values of degree `d` sum to the `d`-th power of the coordinate sum. -/
theorem C54_partition_of_unity (s d : ℕ) {b : List K} (hb : b.length = s + 1) :
    evaluate s d (List.replicate (numControlPoints s d) (1 : K)) b = ok (b.sum ^ d) := by
  have h := evaluate_eq s d (fun _ => (1 : K)) hb
  have h1 : List.replicate (numControlPoints s d) (1 : K)
      = (rows s d).map fun _ => (1 : K) := by
    rw [List.map_const', Simplex.rows_length, numControlPoints_eq]
  rw [h1, h]
  congr 1
  have h2 := Finset.sum_pow_eq_sum_piAntidiag (univ : Finset (Fin (s + 1))) (coords (s + 1) b) d
  have h3 : ∑ j, coords (s + 1) b j = b.sum := by
    rw [← List.sum_ofFn]
    congr 1
    apply List.ext_getElem
    · simp [hb]
    · intro i h1 h2
      simp [coords, h2, -List.ofFn_succ]
  rw [← h3, h2]
  simp only [simplexForm, simplexBasis, smul_eq_mul, mul_one]

/-- C54: at coordinates summing to one the constant simplex is constant. -/
theorem C54_constant (s d : ℕ) {b : List K} (hb : b.length = s + 1) (h1 : b.sum = 1) (p : V) :
    evaluate s d (List.replicate (numControlPoints s d) p) b = ok p := by
  have h := C54_partition_of_unity s d hb
  rw [h1, one_pow, evaluate_idx s d (by simp) hb, ok.injEq] at h
  rw [evaluate_idx s d (by simp) hb]
  congr 1
  calc _ = (∑ i : Fin (numControlPoints s d), simplexBasis (Simplex.idx s d i) (coords (s + 1) b) •
        (List.replicate (numControlPoints s d) (1 : K)).getD i 0) • p := by
        rw [Finset.sum_smul]
        refine Finset.sum_congr rfl fun i _ => ?_
        have := i.2
        simp [List.getD]
    _ = p := by rw [h, one_smul]

example : ([1 / 2, 1 / 4, 1 / 4] : List ℚ).sum = 1 := by decide +kernel

/-- C54: at the vertex `j` the value is the ordinate whose multi-index is concentrated at `j`. -/
theorem C54_vertex (s d : ℕ) {P : List V} (hP : P.length = numControlPoints s d)
    {idx : List (List ℕ)} (hidx : multiIndices s d = ok idx) (j : Fin (s + 1)) (i : ℕ)
    (hi : idx[i]? = some (List.ofFn fun k : Fin (s + 1) => if k = j then d else 0)) :
    evaluate s d P (List.ofFn fun k : Fin (s + 1) => if k = j then (1 : K) else 0)
      = rd P i := by
  rw [multiIndices_eq, ok.injEq] at hidx
  subst hidx
  obtain ⟨hlt, he⟩ := List.getElem?_eq_some_iff.1 hi
  have hi' : i < numControlPoints s d := by rwa [numControlPoints_eq, ← Simplex.rows_length]
  rw [evaluate_idx s d hP (by simp), rd_of_lt (by omega)]
  congr 1
  have hc : coords (s + 1) (List.ofFn fun k : Fin (s + 1) => if k = j then (1 : K) else 0)
      = fun k => if k = j then (1 : K) else 0 := by
    funext k
    rw [coords, getD_ofFn]
  have hid : Simplex.idx s d ⟨i, hi'⟩ = fun k => if k = j then d else 0 := by
    unfold Simplex.idx
    simp only [he]
    exact fn_ofFn s _
  rw [hc, Finset.sum_eq_single (⟨i, hi'⟩ : Fin (numControlPoints s d))]
  · have h1 : simplexBasis (fun k => if k = j then d else 0)
        (fun k : Fin (s + 1) => if k = j then (1 : K) else 0) = 1 := by
      rw [← bval_eq (d := d) (by simp)]
      unfold bval
      rw [Finset.prod_eq_single j]
      · simp
        exact mul_inv_cancel₀ (Nat.cast_ne_zero.2 (Nat.factorial_ne_zero d))
      · intro k _ hk
        simp [hk]
      · simp
    rw [hid, h1, one_smul]
    simp [List.getD, hP, hi']
  · intro k _ hk
    have h2 : ∃ l, l ≠ j ∧ Simplex.idx s d k l ≠ 0 := by
      by_contra hcon
      push Not at hcon
      apply hk
      rw [← idx_inj, hid]
      funext l
      by_cases hl : l = j
      · subst hl
        have h3 := idx_sum s d k
        rw [Finset.sum_eq_single l (fun m _ hm => hcon m hm) (by simp)] at h3
        simp [h3]
      · simp [hl, hcon l hl]
    obtain ⟨l, hl, hl0⟩ := h2
    unfold simplexBasis
    rw [Finset.prod_eq_zero (mem_univ l) (by simp [hl, hl0])]
    simp
  · simp

example : evaluate 2 2 [(1 : ℚ), 2, 3, 4, 5, 6] ([0, 1, 0] : List ℚ) = ok 4 := by decide +kernel

/-- C54: `evaluate_directional_derivative` is the derivative of `evaluate` along the direction:
for every point and direction there is a curve of values `x ↦ evaluate (b + x dir)` whose
derivative at `x = 0` it is. -/
theorem C54_directional_derivative {W : Type} [NormedAddCommGroup W] [NormedSpace ℝ W] (s d : ℕ)
    {P : List W} (hP : P.length = numControlPoints s d) {b dir : List ℝ} (hb : b.length = s + 1)
    (hdir : dir.length = s + 1) :
    ∃ (f : ℝ → W) (f' : W),
      (∀ x, evaluate s d P (List.zipWith (fun p q => p + x * q) b dir) = ok (f x)) ∧
      evaluateDirectionalDerivative s d P b dir = ok f' ∧ HasDerivAt f f' 0 := by
  have hc : ∀ x : ℝ, coords (s + 1) (List.zipWith (fun p q => p + x * q) b dir)
      = fun j => coords (s + 1) b j + x * coords (s + 1) dir j := by
    intro x
    funext j
    have := j.2
    simp only [coords, List.getD]
    rw [List.getElem?_zipWith, List.getElem?_eq_getElem (by omega),
      List.getElem?_eq_getElem (by omega)]
    rfl
  refine ⟨_, _, fun x => evaluate_idx s d hP (by simp [hb, hdir]),
    evaluateDirectionalDerivative_eq s d hP hb hdir, ?_⟩
  simp only [hc]
  refine HasDerivAt.fun_sum fun i _ => HasDerivAt.smul_const ?_ _
  have h := hasDerivAt_bval s d (Simplex.idx s d i) (coords (s + 1) b) (coords (s + 1) dir) 0
  have h1 : (fun x => simplexBasis (Simplex.idx s d i)
      (fun j => coords (s + 1) b j + x * coords (s + 1) dir j))
      = fun x => bval s d (Simplex.idx s d i)
        (fun j => coords (s + 1) b j + x * coords (s + 1) dir j) := by
    funext x
    rw [bval_eq (idx_sum s d i)]
  rw [h1]
  simpa using h

example : evaluateDirectionalDerivative 2 2 [(1 : ℚ), 2, 3, 4, 5, 6] ([1 / 2, 1 / 4, 1 / 4] : List ℚ)
    [1, -1, 0]
    = ok (-3) := by decide +kernel

/-! ### C55: elevation and fitting -/

/-- C55: degree elevation multiplies the form by the sum of the coordinates. -/
theorem C55_elevate_homogeneous (s d : ℕ) {P : List V} (hP : P.length = numControlPoints s d)
    {b : List K} (hb : b.length = s + 1) :
    ∃ E v, elevateDegree K s d P = ok E ∧ E.length = numControlPoints s (d + 1) ∧
      evaluate s d P b = ok v ∧ evaluate s (d + 1) E b = ok (b.sum • v) := by
  obtain ⟨F, rfl⟩ := exists_fun s d P hP
  refine ⟨_, _, elevateDegree_eq s d F, by simp [Simplex.rows_length, numControlPoints_eq],
    evaluate_eq s d F hb, ?_⟩
  rw [evaluate_eq s (d + 1) _ hb, simplexForm_mulForm]
  congr 2
  simp only [one_mul]
  rw [← List.sum_ofFn]
  congr 1
  apply List.ext_getElem
  · simp [hb]
  · intro i h1 h2
    simp [coords, h2, -List.ofFn_succ]

/-- C55: degree elevation preserves the value at every point whose coordinates sum to one. -/
theorem C55_elevate (s d : ℕ) {P : List V} (hP : P.length = numControlPoints s d) :
    ∃ E, elevateDegree K s d P = ok E ∧ E.length = numControlPoints s (d + 1) ∧
      ∀ b : List K, b.length = s + 1 → b.sum = 1 → evaluate s (d + 1) E b = evaluate s d P b := by
  obtain ⟨F, rfl⟩ := exists_fun s d P hP
  refine ⟨_, elevateDegree_eq s d F, by simp [Simplex.rows_length, numControlPoints_eq],
    fun b hb h1 => ?_⟩
  obtain ⟨E, v, h2, _, h3, h4⟩ := C55_elevate_homogeneous s d hP hb
  rw [elevateDegree_eq s d F, ok.injEq] at h2
  rw [h2, h4, h3, h1, one_smul]

example : elevateDegree ℚ 1 2 [(0 : ℚ), 3, 6] = ok [0, 2, 4, 6] := by decide +kernel

/-- C55: for every positive degree the collocation matrix is invertible, `fit` returns, and the
fitted simplex takes the given samples at the control points. -/
theorem C55_fit_partial (s : ℕ) {d : ℕ} (hd : d ≠ 0) {S : List V}
    (hS : S.length = numControlPoints s d) :
    ∃ P ctrl, fit K s d S = ok P ∧ P.length = numControlPoints s d ∧
      getControlPoints K s d = ok ctrl ∧ ctrl.length = numControlPoints s d ∧
      ∀ i < numControlPoints s d, ∃ c, rd ctrl i = ok c ∧ evaluate s d P c = rd S i := by
  refine ⟨_, (rows s d).map fun l => l.map fun a : ℕ => (a : K) / (d : K), fit_eq s hd hS, by simp,
    ?_, ?_, ?_⟩
  · rw [getControlPoints, if_neg hd, multiIndices_eq, ok_bind, pure_eq]
  · simp [Simplex.rows_length, numControlPoints_eq]
  · intro i hi
    have hi' := row_lt ⟨i, hi⟩
    simp only at hi'
    obtain ⟨h1, _⟩ := mem_rows.1 (List.getElem_mem hi')
    refine ⟨_, rd_of_lt (by simpa using hi'), ?_⟩
    rw [List.getElem_map, fit_interpolates s hd (fit_eq s hd hS) ⟨i, hi⟩ (by simpa using h1)
      (coords_row h1), rd_of_lt (by omega)]
    simp [List.getD, hS, hi]

/-- C55: fitting the values that a simplex takes at its control points returns its ordinates. -/
theorem C55_fit_reproduces (s : ℕ) {d : ℕ} (hd : d ≠ 0) {P S : List V}
    (hP : P.length = numControlPoints s d) (hS : S.length = numControlPoints s d)
    {ctrl : List (List K)} (hc : getControlPoints K s d = ok ctrl)
    (h : ∀ i < numControlPoints s d, ∀ c, rd ctrl i = ok c → evaluate s d P c = rd S i) :
    fit K s d S = ok P := by
  rw [getControlPoints, if_neg hd, multiIndices_eq, ok_bind, pure_eq, ok.injEq] at hc
  subst hc
  refine fit_reproduces s hd hP hS (fun i b hb hcb => ?_)
  have hi' := row_lt i
  obtain ⟨h1, _⟩ := mem_rows.1 (List.getElem_mem hi')
  have h2 := h i i.2 _ (rd_of_lt (by simpa using hi'))
  rw [List.getElem_map, rd_of_lt (by have := i.2; omega)] at h2
  have h3 : evaluate s d P b
      = evaluate s d P (((rows s d)[(i : ℕ)]).map fun a : ℕ => (a : K) / (d : K)) := by
    rw [evaluate_idx s d hP hb, evaluate_idx s d hP (by simpa using h1), hcb, coords_row h1]
    rfl
  rw [h3, h2]
  have := i.2
  simp [List.getD, hS]

example : numControlPoints 2 3 = 10 ∧ (3 : ℕ) ≠ 0 := by decide

/-- C55: a simplex of degree 0 cannot be fitted: the collocation matrix divides `0` by `0`. -/
theorem C55_fit_degree_zero_refuted (s : ℕ) (S : List V) : fit K s 0 S = ub := by
  unfold fit
  by_cases h : S.length = numControlPoints s 0
  · rw [assert_true h, ok_bind, computeCoeffMatrix, multiIndices_eq, ok_bind,
      assert_false (by simp), ub_bind, ub_bind]
  · rw [assert_false h, ub_bind]

end Props
end NS
