import Verif.Proof.Bezier
import Verif.Proof.Curve

/-! # Closed forms of the public functions of `Bezier` -/

set_option linter.unusedSectionVars false

namespace NS.Bezier

open Outcome Polynomial Finset

variable {K V : Type} [Field K] [LinearOrder K] [IsStrictOrderedRing K] [FloorRing K]
  [AddCommGroup V] [Module K V]

theorem exists_arr (l : List V) (h : l ≠ []) :
    ∃ n P, l = arr (n + 1) P := by
  refine ⟨l.length - 1, fun i => l.getD i 0, ?_⟩
  have : l.length ≠ 0 := by simpa using h
  have e := eq_arr l (0 : V)
  rw [show l.length - 1 + 1 = l.length by omega]
  exact e

/-- Evaluators see the curve only through its control points and the wrapped parameter. -/
theorem evaluate_wrap (c : Bezier V) (t : K) :
    evaluate c t = (wrap c.periodic t >>= evaluate ({ ctrl := c.ctrl } : Bezier V)) := rfl

theorem evaluateDerivative_wrap (c : Bezier V) (t : K) :
    evaluateDerivative c t
      = (wrap c.periodic t >>= evaluateDerivative ({ ctrl := c.ctrl } : Bezier V)) := rfl

theorem evaluate2ndDerivative_wrap (c : Bezier V) (t : K) :
    evaluate2ndDerivative c t
      = (wrap c.periodic t >>= evaluate2ndDerivative ({ ctrl := c.ctrl } : Bezier V)) := rfl

theorem wrap_ok (per : Bool) (t : K) : ∃ t', wrap per t = ok t' := by
  cases per with
  | false => exact ⟨t, rfl⟩
  | true =>
    obtain ⟨t', h, _⟩ := unwrapParameter_spec (0 : K) 1 t zero_lt_one
    exact ⟨t', h⟩

theorem evaluate_eq (l : List V) (h : l ≠ []) (t : K) :
    evaluate ({ ctrl := l } : Bezier V) t = ok (Spec.bezierPoint l t) := by
  obtain ⟨n, P, rfl⟩ := exists_arr l h
  rw [evaluate_arr, arr_bezierPoint]

theorem evaluateDerivative_arr1 (P : ℕ → V) (t : K) :
    evaluateDerivative ({ ctrl := arr 1 P } : Bezier V) t = ok 0 := by
  simp [evaluateDerivative, wrap, degree]

theorem evaluate2ndDerivative_arr1 (P : ℕ → V) (t : K) :
    evaluate2ndDerivative ({ ctrl := arr 1 P } : Bezier V) t = ok 0 := by
  simp [evaluate2ndDerivative, wrap, degree]

theorem evaluate2ndDerivative_arr2 (P : ℕ → V) (t : K) :
    evaluate2ndDerivative ({ ctrl := arr 2 P } : Bezier V) t = ok 0 := by
  simp [evaluate2ndDerivative, wrap, degree]

theorem split_arr (n : ℕ) (P : ℕ → V) (per : Bool) (t : K) (h0 : 0 < t) (h1 : t < 1) :
    split ({ ctrl := arr n P, periodic := per } : Bezier V) t
      = ok [{ ctrl := arr n (fun i => umb P (lin t ^ i)) },
            { ctrl := arr n (fun i => umb P (lin t ^ (n - 1 - i) * X ^ i)) }] := by
  unfold split
  have : isSplitPointValid 0 1 t = true := by
    simp [isSplitPointValid, h0, h1]
  rw [if_pos this]
  obtain ⟨w, hw⟩ := splitLoop_arr t n P
  simp only [hw, ok_bind]
  rfl

theorem split_invalid (c : Bezier V) (t : K) (h : t ≤ 0 ∨ 1 ≤ t) :
    split c t = ok [c] := by
  unfold split
  have : isSplitPointValid 0 1 t = false := by
    rcases h with h | h <;> simp [isSplitPointValid, h]
  simp [this]

theorem hodograph_ctrl (n : ℕ) (P : ℕ → V) (f : ℕ → K) :
    loop n (fun i q => do
      let a ← rd (arr (n + 1) P) (i + 1)
      let b ← rd (arr (n + 1) P) i
      wr q i (f i • (a - b))) (List.replicate n (0 : V))
    = ok (arr n (fun i => f i • (P (i + 1) - P i))) := by
  have key := loop_eq (S := fun k => arr n (fun i => if i < k then f i • (P (i + 1) - P i) else 0))
    n (fun i q => do
      let a ← rd (arr (n + 1) P) (i + 1)
      let b ← rd (arr (n + 1) P) i
      wr q i (f i • (a - b))) ?_
  · have e : List.replicate n (0 : V) = arr n (fun i => if i < 0 then f i • (P (i + 1) - P i)
      else 0) := by rw [replicate_eq_arr]; simp
    rw [e, key]
    congr 1
    exact arr_congr (fun i hi => by simp [hi])
  · intro i hi
    rw [rd_arr (by omega), ok_bind, rd_arr (by omega), ok_bind]
    apply wr_arr _ hi
    intro j hj
    by_cases h : j = i
    · subst h; simp
    · by_cases h2 : j < i
      · simp [h, h2, Nat.lt_succ_of_lt h2]
      · have : ¬ (j < i + 1) := by omega
        simp [h, h2, this]

theorem isClosed_ok (nrm : V → K) (eps : K) (ev d1 d2 : K → Outcome V)
    (a b : K) (order : ℕ) (h0 : ∀ t, ∃ p, ev t = ok p) (h1 : ∀ t, ∃ p, d1 t = ok p)
    (h2 : ∀ t, ∃ p, d2 t = ok p) : ∃ r, isClosed nrm ev d1 d2 a b order eps = ok r := by
  obtain ⟨p0, e0⟩ := h0 a
  obtain ⟨p1, e1⟩ := h0 b
  obtain ⟨p2, e2⟩ := h1 a
  obtain ⟨p3, e3⟩ := h1 b
  obtain ⟨p4, e4⟩ := h2 a
  obtain ⟨p5, e5⟩ := h2 b
  unfold isClosed
  simp only [e0, e1, e2, e3, e4, e5, ok_bind, pure_eq]
  split_ifs <;> simp

theorem evaluateDerivative_ok (c : Bezier V) (h : c.ctrl ≠ []) (t : K) :
    ∃ p, evaluateDerivative c t = ok p := by
  obtain ⟨t', ht⟩ := wrap_ok c.periodic t
  rw [evaluateDerivative_wrap, ht, ok_bind]
  obtain ⟨n, P, e⟩ := exists_arr c.ctrl h
  rw [e]
  rcases n with _ | n
  · exact ⟨_, evaluateDerivative_arr1 P t'⟩
  · exact ⟨_, evaluateDerivative_arr n P t'⟩

theorem evaluate2ndDerivative_ok (c : Bezier V) (h : c.ctrl ≠ []) (t : K) :
    ∃ p, evaluate2ndDerivative c t = ok p := by
  obtain ⟨t', ht⟩ := wrap_ok c.periodic t
  rw [evaluate2ndDerivative_wrap, ht, ok_bind]
  obtain ⟨n, P, e⟩ := exists_arr c.ctrl h
  rw [e]
  rcases n with _ | _ | n
  · exact ⟨_, evaluate2ndDerivative_arr1 P t'⟩
  · exact ⟨_, evaluate2ndDerivative_arr2 P t'⟩
  · exact ⟨_, evaluate2ndDerivative_arr n P t'⟩

theorem evaluate_ok (c : Bezier V) (h : c.ctrl ≠ []) (t : K) : ∃ p, evaluate c t = ok p := by
  obtain ⟨t', ht⟩ := wrap_ok c.periodic t
  rw [evaluate_wrap, ht, ok_bind]
  exact ⟨_, evaluate_eq _ h t'⟩

end NS.Bezier
