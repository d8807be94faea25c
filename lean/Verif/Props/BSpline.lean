import Mathlib.Analysis.Convex.Combination
import Mathlib.LinearAlgebra.AffineSpace.AffineMap
import Mathlib.Algebra.Order.Ring.Rat
import Mathlib.Data.Rat.Floor
import Mathlib.Tactic.IntervalCases
import Mathlib.Tactic.NormNum
import Mathlib.Tactic.Linarith
import Verif.Proof.HodographBSpline
import Verif.Proof.SplitBSpline
import Verif.Proof.ToBezier
import Verif.Proof.BSplineStart
import Verif.Proof.UmbralDeriv
import Verif.Proof.BezierEval

/-!
# Properties C12-C17, C19-C21: B-spline curves

Hypotheses (Spec/BSplineValid.lean): `WellFormed c p` is a B-spline of degree `p` with sorted
knots and a domain that is not a point; `FirstSpan` says that its first knot span is not empty;
`Wide` that non-empty spans are longer than `1e-16`.
-/

set_option linter.unusedSectionVars false
set_option linter.unusedSimpArgs false

namespace NS.Props

open Outcome Polynomial Finset NS.BSpline NS.Spec

/-- A quadratic spline with a double interior knot, used to show that hypotheses can be met. -/
def exSpline : BSpline ℚ ℚ :=
  { ctrl := [0, 1, 3, 2, 5], knots := [0, 0, 0, 1 / 2, 1 / 2, 1, 1, 1] }

theorem exSpline_wf : WellFormed exSpline 2 :=
  ⟨by decide, Or.inl rfl, by decide, by decide +kernel, by decide +kernel⟩

theorem exSpline_first : FirstSpan exSpline 2 := by unfold FirstSpan; decide +kernel

theorem exSpline_wide : Wide exSpline 2 := by
  intro i h1 h2
  have h2' : i < 5 := h2
  interval_cases i <;> decide +kernel

section General

variable {K V W : Type} [Field K] [LinearOrder K] [IsStrictOrderedRing K] [FloorRing K]
  [AddCommGroup V] [Module K V] [AddCommGroup W] [Module K W]

/-! ### C12 -/

/-- C12: the span lookup terminates with an index `k` in `[p, n-1]` of a non-empty span which
brackets `t` inside the domain and is the first/last span below/above it.  The first span must
not be empty (or `t` above the lower bound), see `C12_degenerate_start_refuted`. -/
theorem C12_locate_partial {c : BSpline K V} {p : ℕ} (hc : WellFormed c p) (t : K)
    (hf : FirstSpan c p ∨ knot c.knots p < t) :
    ∃ k : ℕ, c.locateSpan t = ok (k : ℤ) ∧ p ≤ k ∧ k ≤ c.ctrl.length - 1 ∧
      knot c.knots k < knot c.knots (k + 1) ∧
      (knot c.knots p ≤ t → t < knot c.knots c.ctrl.length →
        knot c.knots k ≤ t ∧ t < knot c.knots (k + 1)) ∧
      (t ≤ knot c.knots p → k = p) ∧
      (knot c.knots c.ctrl.length ≤ t → knot c.knots (k + 1) = knot c.knots c.ctrl.length) := by
  obtain ⟨k, a, b, e, f⟩ := locateSpan_spec hc t hf
  exact ⟨k, a, b, by omega, f⟩

example := C12_locate_partial exSpline_wf (1 / 2) (Or.inl exSpline_first)
example : exSpline.locateSpan (1 / 2) = ok 4 := by decide +kernel

/-- C12: whatever the multiplicities, the lookup returns an index in `[p, n-1]` (no out-of-range
access, no endless loop). -/
theorem C12_locate_in_range {c : BSpline K V} {p : ℕ} (hc : WellFormed c p) (t : K) :
    ∃ k : ℕ, c.locateSpan t = ok (k : ℤ) ∧ p ≤ k ∧ k ≤ c.ctrl.length - 1 := by
  by_cases h : knot c.knots p < t
  · obtain ⟨k, a, b, e, -⟩ := locateSpan_spec hc t (Or.inr h)
    exact ⟨k, a, b, by omega⟩
  · have hl := hc.len
    have hcl := hc.ctrl
    refine ⟨p, ?_, le_rfl, by omega⟩
    unfold locateSpan
    simp only [degree_eq hc, Int.toNat_natCast]
    rw [assert_true (by omega), ok_bind, rd_knot (by omega), ok_bind, if_pos (not_lt.mp h)]

/-- C12 fails at the lower bound if the first span is empty: the span `[u_1, u_2] = [0, 0]` is
returned. -/
theorem C12_degenerate_start_refuted :
    let c : BSpline ℚ ℚ := { ctrl := [5, 7, 9], knots := [0, 0, 0, 1, 1] }
    WellFormed c 1 ∧ c.locateSpan 0 = ok 1 ∧ knot c.knots 1 = knot c.knots 2 := by
  exact ⟨⟨by decide, Or.inl rfl, by decide, by decide +kernel, by decide +kernel⟩,
    by decide +kernel, by decide +kernel⟩

example : ∃ k : ℕ, exSpline.locateSpan (3 / 4) = ok (k : ℤ) ∧ 2 ≤ k ∧ k ≤ 4 :=
  C12_locate_in_range exSpline_wf _

/-! ### C13 -/

/-- C13: evaluation is the Cox-de Boor sum on the whole domain. -/
theorem C13_evaluate_partial {c : BSpline K V} {p : ℕ} (hc : WellFormed c p) (hw : Wide c p)
    (hper : c.periodic = false) (t : K) (hf : FirstSpan c p ∨ knot c.knots p < t)
    (h1 : knot c.knots p ≤ t) (h2 : t ≤ knot c.knots c.ctrl.length) :
    c.evaluate t = ok (bsplinePoint p c.knots c.ctrl t) :=
  evaluate_eq hc hw (wrap_nonperiodic hper t) hf h1 h2

example := C13_evaluate_partial exSpline_wf exSpline_wide rfl (1 / 3) (Or.inl exSpline_first)
  (by decide +kernel) (by decide +kernel)

/-- C13: the same for a periodic curve on the half-open domain. -/
theorem C13_evaluate_periodic_partial {c : BSpline K V} {p : ℕ} (hc : WellFormed c p)
    (hw : Wide c p) (t : K) (hf : FirstSpan c p ∨ knot c.knots p < t)
    (h1 : knot c.knots p ≤ t) (h2 : t < knot c.knots c.ctrl.length) :
    c.evaluate t = ok (bsplinePoint p c.knots c.ctrl t) :=
  evaluate_eq hc hw (wrap_of_mem hc h1 (Or.inl h2)) hf h1 h2.le

example := C13_evaluate_periodic_partial (c := { exSpline with periodic := true })
  ⟨exSpline_wf.len, exSpline_wf.sdeg, exSpline_wf.ctrl, exSpline_wf.sorted, exSpline_wf.dom⟩
  exSpline_wide (1 / 3) (Or.inl exSpline_first) (by decide +kernel) (by decide +kernel)

/-- C13: an empty first span does no harm at the lower bound as long as its multiplicity is at
most the degree. -/
theorem C13_evaluate_start_partial {c : BSpline K V} {p : ℕ} (hc : WellFormed c p)
    (hw : WideLow c p) (hcount : c.knots.count (knot c.knots p) ≤ p)
    (hfirst : ¬ FirstSpan c p) :
    c.evaluate (knot c.knots p) = ok (bsplinePoint p c.knots c.ctrl (knot c.knots p)) :=
  evaluate_start hc hw hcount (wrap_of_mem hc le_rfl (Or.inl hc.dom)) hfirst

example := C13_evaluate_start_partial
  (c := ({ ctrl := [4, 1, 3, 2], knots := [-2, -1, 0, 0, 1, 2, 3] } : BSpline ℚ ℚ)) (p := 2)
  ⟨by decide, Or.inl rfl, by decide, by decide +kernel, by decide +kernel⟩
  (by intro i h; interval_cases i <;> decide +kernel) (by decide +kernel)
  (by unfold FirstSpan; decide +kernel)

/-- C13 fails at the lower bound if its knot has more than `p + 1` copies reaching into the
domain: 5 is returned, the sum is 7. -/
theorem C13_degenerate_start_refuted :
    let c : BSpline ℚ ℚ := { ctrl := [5, 7, 9], knots := [0, 0, 0, 1, 1] }
    WellFormed c 1 ∧ Wide c 1 ∧ c.evaluate 0 = ok 5 ∧ bsplinePoint 1 c.knots c.ctrl 0 = 7 := by
  refine ⟨⟨by decide, Or.inl rfl, by decide, by decide +kernel, by decide +kernel⟩, ?_,
    by decide +kernel, by decide +kernel⟩
  intro i h1 h2
  have h2' : i < 3 := h2
  interval_cases i <;> decide +kernel

/-- C13 fails for spans not longer than `1e-16`: on the domain `[0, 1e-17]` the line from 0 to 1
evaluates to 0 at its end. -/
theorem C13_narrow_span_refuted :
    let c : BSpline ℚ ℚ := { ctrl := [0, 1], knots := [0, 0, 1 / 10 ^ 17, 1 / 10 ^ 17] }
    WellFormed c 1 ∧ FirstSpan c 1 ∧ c.evaluate (1 / 10 ^ 17) = ok 0 ∧
      bsplinePoint 1 c.knots c.ctrl (1 / 10 ^ 17) = 1 := by
  refine ⟨⟨by decide, Or.inl rfl, by decide, by decide +kernel, by decide +kernel⟩, ?_,
    by decide +kernel, by decide +kernel⟩
  unfold FirstSpan; decide +kernel

example : exSpline.evaluate 1 = ok (bsplinePoint 2 exSpline.knots exSpline.ctrl 1) :=
  C13_evaluate_partial exSpline_wf exSpline_wide rfl 1 (Or.inl exSpline_first)
    (by decide +kernel) (by decide +kernel)

/-! ### C14 -/

/-- C14: on the span `[u_k, u_{k+1})` only control points `k-p .. k` matter. -/
theorem C14_local_control {c c' : BSpline K V} {p k : ℕ} (hc : WellFormed c p) (hw : Wide c p)
    (hk1 : p ≤ k) (hk2 : k < c.ctrl.length)
    (hkn : c'.knots = c.knots) (hsd : c'.sdeg = c.sdeg)
    (hlen : c'.ctrl.length = c.ctrl.length)
    (hsame : ∀ i, k - p ≤ i → i ≤ k → c'.ctrl.getD i 0 = c.ctrl.getD i 0)
    (t : K) (h1 : knot c.knots k ≤ t) (h2 : t < knot c.knots (k + 1))
    (hf : FirstSpan c p ∨ knot c.knots p < t) :
    c'.evaluate t = c.evaluate t := by
  have hl := hc.len
  have hc' : WellFormed c' p :=
    ⟨by rw [hkn, hlen]; exact hl, by rw [hsd]; exact hc.sdeg, by rw [hlen]; exact hc.ctrl,
      by rw [hkn]; exact hc.sorted, by rw [hkn, hlen]; exact hc.dom⟩
  have hw' : Wide c' p := by
    intro i a b
    rw [hkn]
    exact hw i a (by rw [← hlen]; exact b)
  have hlo : knot c.knots p ≤ t := (knot_mono hc.sorted hk1 (by omega)).trans h1
  have hhi : t < knot c.knots c.ctrl.length :=
    h2.trans_le (knot_mono hc.sorted (by omega) (by omega))
  rw [evaluate_eq hc hw (wrap_of_mem hc hlo (Or.inl hhi)) hf hlo hhi.le,
    evaluate_eq hc' hw' (t' := t) (wrap_of_mem hc' (by rw [hkn]; exact hlo)
      (Or.inl (by rw [hkn, hlen]; exact hhi))) (by
        rw [hkn]; unfold FirstSpan at hf ⊢; rw [hkn]; exact hf) (by rw [hkn]; exact hlo)
      (by rw [hkn, hlen]; exact hhi.le)]
  have hin : InSpan (knot c.knots) (knot c.knots c.ctrl.length) k t := by
    unfold InSpan; rw [if_neg hhi.ne]; exact ⟨h1, h2⟩
  unfold bsplinePoint
  rw [hkn, hlen, sum_basis_support (monoTo_knot hc.sorted) hin hk1 hk2 (by omega),
    sum_basis_support (monoTo_knot hc.sorted) hin hk1 hk2 (by omega)]
  congr 1
  apply sum_congr rfl
  intro j hj
  rw [hsame _ (by omega) (by simp at hj; omega)]

example := C14_local_control (c := exSpline)
  (c' := ({ exSpline with ctrl := [0, 1, 3, 7, 9] } : BSpline ℚ ℚ)) (k := 2) exSpline_wf
  exSpline_wide le_rfl (by decide) rfl rfl rfl
  (by intro i _ h; interval_cases i <;> rfl) (1 / 4) (by decide +kernel) (by decide +kernel)
  (Or.inl exSpline_first)

/-- C14: basis values are non-negative, vanish outside `k-p .. k` and sum to one. -/
theorem C14_basis {u : List K} (hs : u.Pairwise (· ≤ ·)) {p n k : ℕ}
    (hlen : u.length = n + p + 1) (hpk : p ≤ k) (hkn : k < n) {t : K}
    (hin : InSpan (knot u) (knot u n) k t) :
    (∀ i < n, 0 ≤ basis (knot u) (knot u n) p i t) ∧
    (∀ i < n, ¬ (k - p ≤ i ∧ i ≤ k) → basis (knot u) (knot u n) p i t = 0) ∧
    ∑ i ∈ range n, basis (knot u) (knot u n) p i t = 1 := by
  have hm := monoTo_knot hs
  refine ⟨fun i hi => basis_nonneg hm hin (by omega) p i (by omega),
    fun i hi h => basis_support hm hin (by omega) p i (by omega) (by omega), ?_⟩
  have := sum_basis_support (V := K) hm hin hpk hkn (by omega) (fun _ => 1)
  simp only [smul_eq_mul, mul_one] at this
  rw [this]
  exact sum_basis_one hm hin hpk (by omega)

example := C14_basis exSpline_wf.sorted (p := 2) (n := 5) (k := 4) rfl (by norm_num) (by norm_num)
  (t := (1 / 2 : ℚ)) (by decide +kernel)

/-- C14: the evaluated point is a convex combination of control points `k-p .. k`. -/
theorem C14_convex_hull {c : BSpline K V} {p : ℕ} (hc : WellFormed c p) (hw : Wide c p)
    (hper : c.periodic = false) (t : K) (hf : FirstSpan c p ∨ knot c.knots p < t)
    (h1 : knot c.knots p ≤ t) (h2 : t ≤ knot c.knots c.ctrl.length) :
    ∃ k x, p ≤ k ∧ k < c.ctrl.length ∧ knot c.knots k ≤ t ∧ t ≤ knot c.knots (k + 1) ∧
      c.evaluate t = ok x ∧
      x ∈ convexHull K {P | ∃ i, k - p ≤ i ∧ i ≤ k ∧ P = c.ctrl.getD i 0} := by
  have hl := hc.len
  obtain ⟨k, Q, hk, hin⟩ := exists_atSpan hc t hf h1 h2
  refine ⟨k, _, hk.le, hk.lt, hin.bounds.1, hin.bounds.2,
    evaluate_eq hc hw (wrap_nonperiodic hper t) hf h1 h2, ?_⟩
  have hkle := hk.le
  have hklt := hk.lt
  obtain ⟨b1, b2, b3⟩ := C14_basis hc.sorted hl hkle hklt hin
  unfold bsplinePoint
  rw [sum_basis_support (monoTo_knot hc.sorted) hin hkle hklt (by omega)]
  apply Convex.sum_mem (convex_convexHull K _)
  · intro j hj
    simp at hj
    exact b1 _ (by omega)
  · exact sum_basis_one (monoTo_knot hc.sorted) hin hkle (by omega)
  · intro j hj
    simp at hj
    exact subset_convexHull K _ ⟨k - p + j, by omega, by omega, rfl⟩

example : InSpan (knot exSpline.knots) (knot exSpline.knots 5) 2 (1 / 4) := by
  decide +kernel

/-! ### C11 -/

/-- C11: a periodic B-spline evaluates at the folded parameter. -/
theorem C11_bspline {c : BSpline K V} {p : ℕ} (hc : WellFormed c p) (hw : Wide c p)
    (hf : FirstSpan c p) (hper : c.periodic = true) (t : K) :
    ∃ t' : K, knot c.knots p ≤ t' ∧ t' < knot c.knots c.ctrl.length ∧
      (∃ z : ℤ, t' = t + z * (knot c.knots c.ctrl.length - knot c.knots p)) ∧
      c.evaluate t = ok (bsplinePoint p c.knots c.ctrl t') := by
  obtain ⟨t', h, a, b, z⟩ := unwrapParameter_spec (knot c.knots p) (knot c.knots c.ctrl.length) t
    hc.dom
  refine ⟨t', a, b, z, evaluate_eq hc hw ?_ (Or.inl hf) a b.le⟩
  rw [wrap_periodic hc hper, h]

example := C11_bspline (c := { exSpline with periodic := true })
  ⟨exSpline_wf.len, exSpline_wf.sdeg, exSpline_wf.ctrl, exSpline_wf.sorted, exSpline_wf.dom⟩
  exSpline_wide exSpline_first rfl (-17 / 5)

/-- C11: the three evaluators of a periodic B-spline have the length of the domain as period. -/
theorem C11_bspline_periodic {c : BSpline K V} {p : ℕ} (hc : WellFormed c p)
    (hper : c.periodic = true) (t : K) (z : ℤ) :
    let T := knot c.knots c.ctrl.length - knot c.knots p
    c.evaluate (t + z * T) = c.evaluate t ∧
    c.evaluateDerivative (t + z * T) = c.evaluateDerivative t ∧
    c.evaluate2ndDerivative (t + z * T) = c.evaluate2ndDerivative t := by
  have w : c.wrap (t + z * (knot c.knots c.ctrl.length - knot c.knots p)) = c.wrap t := by
    rw [wrap_periodic hc hper, wrap_periodic hc hper]
    exact unwrapParameter_add_period _ _ t hc.dom z
  refine ⟨?_, ?_, ?_⟩
  · unfold evaluate; rw [w]
  · unfold evaluateDerivative; rw [w]
  · unfold evaluate2ndDerivative; rw [w]

example := C11_bspline_periodic (c := { exSpline with periodic := true })
  ⟨exSpline_wf.len, exSpline_wf.sdeg, exSpline_wf.ctrl, exSpline_wf.sorted, exSpline_wf.dom⟩
  rfl (1 / 3) (-2)

/-! ### C16 -/

/-- C16: hodograph of a non-periodic curve of positive degree. -/
theorem C16_hodograph (nrm : V → K) (eps : K) {c : BSpline K V} {p : ℕ}
    (hc : WellFormed c (p + 1)) (hw : Wide c (p + 1)) (hper : c.periodic = false) :
    ∃ h, c.hodograph nrm eps = ok h ∧ WellFormed h p ∧
      knot h.knots p = knot c.knots (p + 1) ∧
      knot h.knots h.ctrl.length = knot c.knots c.ctrl.length ∧
      ∀ t, knot c.knots (p + 1) ≤ t → t ≤ knot c.knots c.ctrl.length →
        (FirstSpan c (p + 1) ∨ knot c.knots (p + 1) < t) →
        h.evaluate t = c.evaluateDerivative t := by
  have hp : c.hodographPeriodic nrm eps = ok false := by
    unfold hodographPeriodic; rw [hper]; rfl
  have H := hodograph_isHodograph hc false
  refine ⟨_, hodograph_succ hc nrm eps hp, H.wf, H.lower, H.upper, ?_⟩
  intro t h1 h2 hf
  exact H.evaluate hc hw (wrap_nonperiodic hper t) (wrap_nonperiodic rfl t) hf h1 h2

/-- C16: hodograph of a periodic curve of positive degree.  The closedness test that decides
about the flag folds both ends to the same parameter, hence always succeeds (`nrm` is the
Euclidean norm, `eps` the positive default tolerance). -/
theorem C16_hodograph_periodic {nrm : V → K} (hnrm : nrm 0 = 0) {eps : K} (heps : 0 < eps)
    {c : BSpline K V} {p : ℕ} (hc : WellFormed c (p + 1)) (hw : Wide c (p + 1))
    (hf : FirstSpan c (p + 1)) (hper : c.periodic = true) :
    ∃ h, c.hodograph nrm eps = ok h ∧ WellFormed h p ∧ h.periodic = true ∧
      knot h.knots p = knot c.knots (p + 1) ∧
      knot h.knots h.ctrl.length = knot c.knots c.ctrl.length ∧
      ∀ t, h.evaluate t = c.evaluateDerivative t := by
  have hw1 : ∀ t, ∃ t', c.wrap t = ok t' ∧ knot c.knots (p + 1) ≤ t' ∧
      t' < knot c.knots c.ctrl.length := by
    intro t
    obtain ⟨t', h, a, b, z⟩ := unwrapParameter_spec (knot c.knots (p + 1))
      (knot c.knots c.ctrl.length) t hc.dom
    exact ⟨t', by rw [wrap_periodic hc hper, h], a, b⟩
  have hends := C11_bspline_periodic hc hper (knot c.knots (p + 1)) 1
  have he : knot c.knots (p + 1) + ((1 : ℤ) : K) *
      (knot c.knots c.ctrl.length - knot c.knots (p + 1)) = knot c.knots c.ctrl.length := by
    push_cast; ring
  simp only [he] at hends
  obtain ⟨e1, e2, -⟩ := hends
  have hp : c.hodographPeriodic nrm eps = ok true := by
    obtain ⟨t', a, b, d⟩ := hw1 (knot c.knots (p + 1))
    obtain ⟨k, Q, hk, -⟩ := exists_atSpan hc t' (Or.inl hf) b d.le
    unfold hodographPeriodic
    rw [if_pos hper, lower_eq hc, ok_bind, upper_eq hc, ok_bind]
    unfold isClosed
    simp [e1, e2, evaluate_of_span hc hw a hk, evaluateDerivative_of_span hc hw a hk, hnrm, heps]
  have H := hodograph_isHodograph hc true
  refine ⟨_, hodograph_succ hc nrm eps hp, H.wf, rfl, H.lower, H.upper, ?_⟩
  intro t
  obtain ⟨t', a, b, d⟩ := hw1 t
  refine H.evaluate hc hw a ?_ (Or.inl hf) b d.le
  rw [wrap_periodic H.wf rfl, H.lower, H.upper, ← wrap_periodic hc hper, a]

example := C16_hodograph_periodic (nrm := fun x : ℚ => |x|) abs_zero (eps := 1 / 1000) (by norm_num)
  (c := { exSpline with periodic := true })
  ⟨exSpline_wf.len, exSpline_wf.sdeg, exSpline_wf.ctrl, exSpline_wf.sorted, exSpline_wf.dom⟩
  exSpline_wide exSpline_first rfl

/-- C16: hodograph of a spline of degree 0. -/
theorem C16_hodograph_degree0 (nrm : V → K) (eps : K) {c : BSpline K V}
    (hc : WellFormed c 0) (hs : c.sdeg = none ∨ c.sdeg = some 0) (t : K) :
    ∃ h, c.hodograph nrm eps = ok h ∧ WellFormed h 0 ∧ h.knots = c.knots ∧
      (∀ P ∈ h.ctrl, P = 0) ∧ (c.periodic = false → c.evaluateDerivative t = ok 0) := by
  refine ⟨_, hodograph_zero hc nrm eps, ⟨?_, ?_, ?_, hc.sorted, ?_⟩, rfl, ?_, ?_⟩
  · simpa using hc.len
  · rcases hs with h | h
    · left; simp [h]
    · right; simp [h]
  · simpa using hc.ctrl
  · simpa using hc.dom
  · intro P hP; exact List.eq_of_mem_replicate hP
  · intro hper
    obtain ⟨k, hk, -⟩ := C12_locate_in_range hc t
    unfold evaluateDerivative
    rw [validate_ok hc, ok_bind, wrap_nonperiodic hper, ok_bind, hk, ok_bind, degree_eq hc,
      assert_true (by simp), ok_bind]
    rfl

example : ∃ h, exSpline.hodograph (fun x => |x|) 0 = ok h ∧ WellFormed h 1 := by
  obtain ⟨h, a, b, -⟩ := C16_hodograph (fun x => |x|) 0 exSpline_wf exSpline_wide rfl
  exact ⟨h, a, b⟩

/-! ### C17 -/

/-- The observable effect of inserting knots: the knots of `c'` are those of `c` plus the list
`added`, sorted; degree, domain and flags are kept; one control point is added per knot; the
curve is the same on the domain. -/
structure SameCurve (c c' : BSpline K V) (p : ℕ) (added : List K) : Prop where
  wf : WellFormed c' p
  ctrl : c'.ctrl.length = c.ctrl.length + added.length
  knots : c'.knots.Perm (added ++ c.knots)
  lower : knot c'.knots p = knot c.knots p
  upper : knot c'.knots c'.ctrl.length = knot c.knots c.ctrl.length
  periodic : c'.periodic = c.periodic
  sdeg : c'.sdeg = c.sdeg
  point : ∀ x, knot c.knots p ≤ x → x ≤ knot c.knots c.ctrl.length →
    bsplinePoint p c'.knots c'.ctrl x = bsplinePoint p c.knots c.ctrl x

/-- C17: a single call of `insert_knot`.  At the lower bound the first span must not be empty. -/
theorem C17_insert_knot_partial {eps : K} (heps : 0 ≤ eps) {c : BSpline K V} {p : ℕ}
    (hc : WellFormed c p) {t : K} (hf : FirstSpan c p ∨ knot c.knots p < t)
    (h1 : knot c.knots p ≤ t) (h2 : t ≤ knot c.knots c.ctrl.length) {m : ℕ} (hm : 1 ≤ m)
    (hmul : m + (if t = knot c.knots c.ctrl.length then 0 else c.knots.count t) ≤ p) :
    ∃ c', c.insertKnot eps t m = ok c' ∧ SameCurve c c' p (List.replicate m t) := by
  obtain ⟨c', e, H⟩ := (insertKnot_inserted heps hc hf h1 h2 hm).2 hmul
  exact ⟨c', e, H.wf, by simpa using H.ctrl, H.perm, H.lower, H.upper, H.periodic, H.sdeg,
    H.point⟩

/-- C17: exceeding the multiplicity bound trips the assertion of the code. -/
theorem C17_bound {eps : K} (heps : 0 ≤ eps) {c : BSpline K V} {p : ℕ}
    (hc : WellFormed c p) {t : K} (hf : FirstSpan c p ∨ knot c.knots p < t)
    (h1 : knot c.knots p ≤ t) (h2 : t ≤ knot c.knots c.ctrl.length) {m : ℕ} (hm : 1 ≤ m)
    (hmul : p < m + (if t = knot c.knots c.ctrl.length then 0 else c.knots.count t)) :
    c.insertKnot eps t m = ub :=
  (insertKnot_inserted heps hc hf h1 h2 hm).1 hmul

example := C17_bound le_rfl exSpline_wf (t := 1 / 2) (Or.inl exSpline_first) (by decide +kernel)
  (by decide +kernel) (m := 1) le_rfl (by decide +kernel)

theorem SameCurve.refl {c : BSpline K V} {p : ℕ} (hc : WellFormed c p) : SameCurve c c p [] :=
  ⟨hc, rfl, List.Perm.refl _, rfl, rfl, rfl, rfl, fun _ _ _ => rfl⟩

theorem SameCurve.trans {a b c : BSpline K V} {p : ℕ} {l m : List K} (h : SameCurve a b p l)
    (g : SameCurve b c p m) : SameCurve a c p (m ++ l) := by
  refine ⟨g.wf, by rw [g.ctrl, h.ctrl, List.length_append]; omega, ?_, g.lower.trans h.lower,
    g.upper.trans h.upper, g.periodic.trans h.periodic, g.sdeg.trans h.sdeg, ?_⟩
  · rw [List.append_assoc]
    exact g.knots.trans (List.Perm.append_left m h.knots)
  · intro x h1 h2
    rw [g.point x (by rw [h.lower]; exact h1) (by rw [h.upper]; exact h2), h.point x h1 h2]

/-- C17: any sequence of insertions strictly above the lower bound, each respecting the
multiplicity bound at the time it is made (otherwise the run ends with a failed assertion),
leaves the curve unchanged. -/
theorem C17_sequence_partial {eps : K} (heps : 0 ≤ eps) {p : ℕ} (ops : List (K × ℕ)) :
    ∀ {c : BSpline K V}, WellFormed c p →
      (∀ op ∈ ops, knot c.knots p < op.1 ∧ op.1 ≤ knot c.knots c.ctrl.length ∧ 1 ≤ op.2) →
      ops.foldlM (fun c op => c.insertKnot eps op.1 op.2) c = ub ∨
      ∃ c' added, ops.foldlM (fun c op => c.insertKnot eps op.1 op.2) c = ok c' ∧
        added.Perm (ops.flatMap (fun op => List.replicate op.2 op.1)) ∧
        SameCurve c c' p added := by
  induction ops with
  | nil =>
    intro c hc _
    exact Or.inr ⟨c, [], rfl, by simp, SameCurve.refl hc⟩
  | cons op ops ih =>
    intro c hc hops
    obtain ⟨a1, a2, a3⟩ := hops op (by simp)
    rw [List.foldlM_cons]
    rcases le_or_gt (op.2 + (if op.1 = knot c.knots c.ctrl.length then 0
      else c.knots.count op.1)) p with h | h
    · obtain ⟨c1, e, S⟩ := C17_insert_knot_partial heps hc (Or.inr a1) a1.le a2 a3 h
      rw [e, ok_bind]
      rcases ih S.wf (fun op' h' => by
        rw [S.lower, S.upper]
        exact hops op' (by simp [h'])) with h' | ⟨c', added, e', hp, S'⟩
      · exact Or.inl h'
      · refine Or.inr ⟨c', _, e', ?_, S.trans S'⟩
        rw [List.flatMap_cons]
        exact (List.perm_append_comm).trans (List.Perm.append_left _ hp)
    · rw [C17_bound heps hc (Or.inr a1) a1.le a2 a3 h]
      exact Or.inl rfl

example := C17_sequence_partial (eps := 0) le_rfl [(1 / 4, 1), (3 / 4, 2), (1 / 4, 1)] exSpline_wf
  (by decide +kernel)

/-- C17: consequence for `evaluate`, as long as no span becomes shorter than `1e-16`. -/
theorem C17_evaluate {c c' : BSpline K V} {p : ℕ} {added : List K} (hc : WellFormed c p)
    (S : SameCurve c c' p added) (hw : Wide c p) (hw' : Wide c' p) {x : K}
    (hf : FirstSpan c p ∨ knot c.knots p < x) (hf' : FirstSpan c' p ∨ knot c.knots p < x)
    (h1 : knot c.knots p ≤ x)
    (h2 : x < knot c.knots c.ctrl.length ∨
      (c.periodic = false ∧ x ≤ knot c.knots c.ctrl.length)) :
    c'.evaluate x = c.evaluate x := by
  have h2' : x ≤ knot c.knots c.ctrl.length := by
    rcases h2 with h | h
    · exact h.le
    · exact h.2
  rw [evaluate_eq hc hw (wrap_of_mem hc h1 h2) hf h1 h2',
    evaluate_eq S.wf hw' (t' := x) (wrap_of_mem S.wf (by rw [S.lower]; exact h1)
      (by rw [S.upper, S.periodic]; exact h2)) (by rw [S.lower]; exact hf')
      (by rw [S.lower]; exact h1) (by rw [S.upper]; exact h2'), S.point x h1 h2']

example : ∃ c', exSpline.insertKnot 0 (1 / 4) 1 = ok c' ∧ c'.evaluate (1 / 3) = exSpline.evaluate (1 / 3) := by
  obtain ⟨c', e, S⟩ := C17_insert_knot_partial (eps := 0) le_rfl exSpline_wf (t := 1 / 4)
    (Or.inl exSpline_first) (by decide +kernel) (by decide +kernel) (m := 1) le_rfl (by decide +kernel)
  have e' : c' = { ctrl := [0, 1 / 2, 2, 3, 2, 5], knots := [0, 0, 0, 1 / 4, 1 / 2, 1 / 2, 1, 1, 1] } :=
    Outcome.ok.inj (e.symm.trans (by decide +kernel))
  refine ⟨c', e, C17_evaluate exSpline_wf S exSpline_wide ?_ (Or.inl exSpline_first) ?_
    (by decide +kernel) (Or.inr ⟨rfl, by decide +kernel⟩)⟩
  · subst e'; intro i h1 h2; have h3 : i < 6 := h2; interval_cases i <;> decide +kernel
  · subst e'; exact Or.inl (by unfold FirstSpan; decide +kernel)

/-- C17 fails for repeated insertion at the lower bound: after inserting 3 once into a cubic with
domain `[3, 4]`, the second insertion of 3 changes the curve. -/
theorem C17_lower_bound_refuted :
    let c : BSpline ℚ ℚ := { ctrl := [5, 7, 9, 20], knots := [0, 1, 2, 3, 4, 5, 6, 7] }
    WellFormed c 3 ∧ FirstSpan c 3 ∧ c.evaluate (7 / 2) = ok (131 / 16) ∧
      (c.insertKnot 0 3 1 >>= fun c => c.evaluate (7 / 2)) = ok (131 / 16) ∧
      ((c.insertKnot 0 3 1 >>= fun c => c.insertKnot 0 3 1) >>= fun c => c.evaluate (7 / 2))
        = ok (389 / 48) := by
  refine ⟨⟨by decide, Or.inl rfl, by decide, by decide +kernel, by decide +kernel⟩, ?_,
    by decide +kernel, by decide +kernel, by decide +kernel⟩
  unfold FirstSpan; decide +kernel

/-- C17 fails just outside the domain: the assertion accepts `t = -eps`, the knots get unsorted. -/
theorem C17_outside_refuted :
    let c : BSpline ℚ ℚ := { ctrl := [5, 7], knots := [0, 0, 1, 1] }
    ∃ c', c.insertKnot (1 / 100) (-1 / 100) 1 = ok c' ∧ ¬ c'.knots.Pairwise (· ≤ ·) :=
  ⟨{ ctrl := [5, 249 / 50, 7], knots := [0, 0, -1 / 100, 1, 1] }, by decide +kernel,
    by decide +kernel⟩

example : ∃ c', exSpline.insertKnot 0 (1 / 4) 2 = ok c' ∧
    SameCurve exSpline c' 2 [1 / 4, 1 / 4] :=
  C17_insert_knot_partial le_rfl exSpline_wf (Or.inl exSpline_first) (by decide +kernel)
    (by decide +kernel) (by norm_num) (by decide +kernel)

/-! ### C19 -/

/-- C19: a split strictly inside the domain of a spline of positive degree.  The left piece is
right at `t` itself if `t` has multiplicity at most `p` (otherwise the curve jumps there). -/
theorem C19_split_partial {eps : K} (heps : 0 ≤ eps) {c : BSpline K V} {p : ℕ}
    (hc : WellFormed c p) (hp : 1 ≤ p) {t : K} (h1 : knot c.knots p < t)
    (h2 : t < knot c.knots c.ctrl.length) :
    ∃ a b, c.split eps t = ok [a, b] ∧
      WellFormed a p ∧ WellFormed b p ∧ a.periodic = false ∧ b.periodic = false ∧
      knot a.knots p = knot c.knots p ∧ knot a.knots a.ctrl.length = t ∧
      knot b.knots p = t ∧ knot b.knots b.ctrl.length = knot c.knots c.ctrl.length ∧
      (∀ x, knot c.knots p ≤ x → x ≤ t → (x < t ∨ c.knots.count t ≤ p) →
        bsplinePoint p a.knots a.ctrl x = bsplinePoint p c.knots c.ctrl x) ∧
      (∀ x, t ≤ x → x ≤ knot c.knots c.ctrl.length →
        bsplinePoint p b.knots b.ctrl x = bsplinePoint p c.knots c.ctrl x) := by
  obtain ⟨a, b, e, L, R⟩ := split_spec heps hc hp h1 h2
  refine ⟨a, b, e, L.wf, R.wf, L.periodic, R.periodic, L.lower, L.upper, R.lower, R.upper, ?_,
    R.point⟩
  intro x hx1 hx2 h
  rcases hx2.lt_or_eq with h' | h'
  · exact L.point x hx1 h'
  · subst h'
    rcases h with h | h
    · exact absurd h (lt_irrefl _)
    · exact L.last h

example := C19_split_partial (eps := 0) le_rfl exSpline_wf (by norm_num) (t := 1 / 3) (by decide +kernel)
  (by decide +kernel)

/-- C19: consequence for `evaluate`, if no span of the pieces is shorter than `1e-16`. -/
theorem C19_split_evaluate_partial {eps : K} (heps : 0 ≤ eps) {c : BSpline K V} {p : ℕ}
    (hc : WellFormed c p) (hw : Wide c p) (hp : 1 ≤ p) {t : K} (h1 : knot c.knots p < t)
    (h2 : t < knot c.knots c.ctrl.length) {a b : BSpline K V}
    (hsplit : c.split eps t = ok [a, b]) (ha : Wide a p) (hb : Wide b p) :
    (∀ x, knot c.knots p < x → x ≤ t → (x < t ∨ c.knots.count t ≤ p) →
      a.evaluate x = c.evaluate x) ∧
    (∀ x, t ≤ x → x < knot c.knots c.ctrl.length → b.evaluate x = c.evaluate x) ∧
    (c.periodic = false → b.evaluate (knot c.knots c.ctrl.length)
      = c.evaluate (knot c.knots c.ctrl.length)) := by
  obtain ⟨a', b', e, L, R⟩ := split_spec heps hc hp h1 h2
  rw [hsplit] at e
  simp only [ok.injEq, List.cons.injEq, and_true] at e
  obtain ⟨rfl, rfl⟩ := e
  refine ⟨?_, ?_, ?_⟩
  · intro x hx1 hx2 h
    have hx3 := lt_of_le_of_lt hx2 h2
    rw [evaluate_eq hc hw (wrap_of_mem hc hx1.le (Or.inl hx3)) (Or.inr hx1) hx1.le hx3.le,
      evaluate_eq L.wf ha (wrap_nonperiodic L.periodic x) (Or.inr (by rw [L.lower]; exact hx1))
        (by rw [L.lower]; exact hx1.le) (by rw [L.upper]; exact hx2)]
    rcases hx2.lt_or_eq with h' | h'
    · rw [L.point x hx1.le h']
    · subst h'
      rcases h with h | h
      · exact absurd h (lt_irrefl _)
      · rw [L.last h]
  · intro x hx1 hx2
    have hx3 := lt_of_lt_of_le h1 hx1
    rw [evaluate_eq hc hw (wrap_of_mem hc hx3.le (Or.inl hx2)) (Or.inr hx3) hx3.le hx2.le,
      evaluate_eq R.wf hb (wrap_nonperiodic R.periodic x) (Or.inl R.first)
        (by rw [R.lower]; exact hx1) (by rw [R.upper]; exact hx2.le), R.point x hx1 hx2.le]
  · intro hper
    rw [evaluate_eq hc hw (wrap_nonperiodic hper _) (Or.inr hc.dom) hc.dom.le le_rfl,
      evaluate_eq R.wf hb (wrap_nonperiodic R.periodic _) (Or.inl R.first)
        (by rw [R.lower]; exact h2.le) (by rw [R.upper]), R.point _ h2.le le_rfl]

example := C19_split_evaluate_partial (eps := 0) le_rfl exSpline_wf exSpline_wide (by norm_num) (t := 1 / 2)
  (by decide +kernel) (by decide +kernel) (a := { ctrl := [0, 1, 3], knots := [0, 0, 0, 1 / 2, 1 / 2, 1 / 2] })
  (b := { ctrl := [3, 2, 5], knots := [1 / 2, 1 / 2, 1 / 2, 1, 1, 1] }) (by decide +kernel)
  (by intro i h1 h2; have h3 : i < 3 := h2; interval_cases i; decide +kernel)
  (by intro i h1 h2; have h3 : i < 3 := h2; interval_cases i; decide +kernel)

/-- C19: at an end of the domain the curve itself is returned, outside (beyond `eps`) the call
throws. -/
theorem C19_split_ends {eps : K} (heps : 0 ≤ eps) {c : BSpline K V} {p : ℕ}
    (hc : WellFormed c p) (t : K) :
    ((t = knot c.knots p ∨ t = knot c.knots c.ctrl.length) → c.split eps t = ok [c]) ∧
    ((t < knot c.knots p - eps ∨ knot c.knots c.ctrl.length + eps < t) →
      c.split eps t = Outcome.throw Err.invalidSetting) := by
  have hd := hc.dom
  refine ⟨?_, ?_⟩
  · intro h
    unfold BSpline.split
    rw [inDomain_eq hc, ok_bind, throwIf_false, ok_bind, lower_eq hc, ok_bind, upper_eq hc, ok_bind]
    · rcases h with h | h
      · rw [if_pos h]
      · have : ¬ t = knot c.knots p := by rw [h]; exact hd.ne'
        rw [if_neg this, if_pos h]
    · rcases h with h | h <;> subst h <;> simp <;> constructor <;> linarith
  · intro h
    unfold BSpline.split
    rw [inDomain_eq hc, ok_bind, throwIf_true]
    · rfl
    · rcases h with h | h
      · have : ¬ (knot c.knots p - eps ≤ t) := not_le.mpr h
        simp [this]
      · have : ¬ (t ≤ knot c.knots c.ctrl.length + eps) := not_le.mpr h
        simp [this]

example : exSpline.split (1 / 1000) 1 = ok [exSpline] :=
  (C19_split_ends (by norm_num) exSpline_wf 1).1 (Or.inr (by decide +kernel))
example : exSpline.split (1 / 1000) 2 = Outcome.throw Err.invalidSetting :=
  (C19_split_ends (by norm_num) exSpline_wf 2).2 (Or.inr (by decide +kernel))

/-- C19 fails for degree 0: splitting at `3/2` yields pieces covering `[0, 1]` and `[2, 3]` only,
the value on `[1, 2]` is lost. -/
theorem C19_degree0_refuted :
    let c : BSpline ℚ ℚ := { ctrl := [0, 1, 2], knots := [0, 1, 2, 3] }
    WellFormed c 0 ∧ ∃ a b, c.split 0 (3 / 2) = ok [a, b] ∧
      a.upper = ok 1 ∧ b.lower = ok 2 := by
  refine ⟨⟨by decide, Or.inl rfl, by decide, by decide +kernel, by decide +kernel⟩,
    { ctrl := [0, 1], knots := [0, 1, 1] }, { ctrl := [1, 2], knots := [2, 2, 3] },
    by decide +kernel, by decide +kernel, by decide +kernel⟩

example : knot exSpline.knots 2 < 3 / 4 ∧ (3 / 4 : ℚ) < knot exSpline.knots 5 := by
  decide +kernel

/-! ### C20 -/

theorem pieces_index {tMax : K} {G : K → K → Bezier V → Prop} :
    ∀ (ss : List (Bezier V)) (bs : List K) (cur : K), Pieces tMax G cur ss bs →
      bs.length = ss.length ∧ (cur :: bs).Pairwise (· < ·) ∧ (cur :: bs).getLast? = some tMax ∧
      (∀ y ∈ cur :: bs, y ≤ tMax) ∧
      ∀ i s, ss[i]? = some s → ∃ a b, (cur :: bs)[i]? = some a ∧ (cur :: bs)[i + 1]? = some b ∧
        G a b s
  | [], [], cur, H => by
    have H' : cur = tMax := H
    subst H'
    simp
  | [], _ :: _, _, H => H.elim
  | _ :: _, [], _, H => H.elim
  | s0 :: ss, b :: bs, cur, ⟨h1, h2, h3⟩ => by
    obtain ⟨g1, g2, g3, g4, g5⟩ := pieces_index ss bs b h3
    refine ⟨by simp [g1], ?_, ?_, ?_, ?_⟩
    · rw [List.pairwise_cons]
      refine ⟨?_, g2⟩
      intro y hy
      rcases List.mem_cons.mp hy with h | h
      · rw [h]; exact h1
      · exact h1.trans ((List.pairwise_cons.mp g2).1 y h)
    · rw [List.getLast?_cons_cons]; exact g3
    · intro y hy
      rcases List.mem_cons.mp hy with h | h
      · rw [h]; exact h1.le.trans (g4 b (by simp))
      · exact g4 y h
    · intro i s hs
      rcases i with _ | i
      · simp only [List.getElem?_cons_zero, Option.some.injEq] at hs
        subst hs
        exact ⟨cur, b, by simp, by simp, h2⟩
      · simpa using g5 i s (by simpa using hs)

theorem pieces_mem {c : BSpline K V} {p : ℕ} {tMax : K} :
    ∀ (ss : List (Bezier V)) (bs : List K) (cur : K), cur ∈ c.knots →
      Pieces tMax (PieceOf c p) cur ss bs →
      ∀ y, y ∈ cur :: bs ↔ y ∈ c.knots ∧ cur ≤ y ∧ y ≤ tMax
  | [], [], cur, hcur, H, y => by
    have H' : cur = tMax := H
    subst H'
    simp only [List.mem_cons, List.not_mem_nil, or_false]
    exact ⟨fun h => by rw [h]; exact ⟨hcur, le_rfl, le_rfl⟩, fun h => le_antisymm h.2.2 h.2.1⟩
  | [], _ :: _, _, _, H, _ => H.elim
  | _ :: _, [], _, _, H, _ => H.elim
  | s0 :: ss, b :: bs, cur, hcur, ⟨h1, h2, h3⟩, y => by
    have ih := pieces_mem ss bs b h2.bmem h3
    have hb := ((ih b).mp (by simp)).2.2
    rw [List.mem_cons, ih y]
    constructor
    · rintro (h | ⟨a1, a2, a3⟩)
      · rw [h]; exact ⟨hcur, le_rfl, h1.le.trans hb⟩
      · exact ⟨a1, h1.le.trans a2, a3⟩
    · rintro ⟨a1, a2, a3⟩
      rcases a2.lt_or_eq with h | h
      · right
        refine ⟨a1, ?_, a3⟩
        by_contra hlt
        exact h2.gap y a1 ⟨h, not_le.mp hlt⟩
      · exact Or.inl h.symm

/-- C20: `convert_to_Bezier` returns the increasing list of the distinct knots of the domain and
one Bézier curve per pair of consecutive bounds that reproduces the spline there.  At the right
end of an inner piece the spline must be continuous (multiplicity at most `p`).  If the first span
of the domain is empty, its knot must already have multiplicity `p`. -/
theorem C20_toBezier_partial {eps : K} (heps : 0 ≤ eps) {c : BSpline K V} {p : ℕ}
    (hc : WellFormed c p) (hf : FirstSpan c p ∨ p ≤ c.knots.count (knot c.knots p)) :
    ∃ segs bounds, c.toBezier eps = ok (segs, bounds) ∧
      bounds.length = segs.length + 1 ∧ bounds.Pairwise (· < ·) ∧
      bounds.head? = some (knot c.knots p) ∧
      bounds.getLast? = some (knot c.knots c.ctrl.length) ∧
      (∀ y, y ∈ bounds ↔ y ∈ c.knots ∧ knot c.knots p ≤ y ∧ y ≤ knot c.knots c.ctrl.length) ∧
      ∀ i s, segs[i]? = some s → ∃ a b, bounds[i]? = some a ∧ bounds[i + 1]? = some b ∧
        s.ctrl.length = p + 1 ∧
        ∀ x : K, 0 ≤ x → x ≤ 1 →
          (x < 1 ∨ b = knot c.knots c.ctrl.length ∨ c.knots.count b ≤ p) →
          Bezier.evaluate s x = ok (bsplinePoint p c.knots c.ctrl ((1 - x) * a + x * b)) := by
  have hl := hc.len
  have hcl := hc.ctrl
  obtain ⟨segs, bs, e, P⟩ := toBezier_spec heps hc hf
  obtain ⟨g1, g2, g3, g4, g5⟩ := pieces_index segs bs _ P
  refine ⟨segs, _, e, by simp [g1], g2, rfl, g3,
    pieces_mem segs bs _ ((mem_knots_iff _ _).mpr ⟨p, by omega, rfl⟩) P, ?_⟩
  intro i s hs
  obtain ⟨a, b, h1, h2, h3⟩ := g5 i s hs
  exact ⟨a, b, h1, h2, h3.len, h3.value⟩

/-- C20: consequence for `evaluate` of the spline. -/
theorem C20_toBezier_evaluate_partial {eps : K} (heps : 0 ≤ eps) {c : BSpline K V} {p : ℕ}
    (hc : WellFormed c p) (hw : Wide c p) (hf : FirstSpan c p) :
    ∃ segs bounds, c.toBezier eps = ok (segs, bounds) ∧
      ∀ i s, segs[i]? = some s → ∃ a b, bounds[i]? = some a ∧ bounds[i + 1]? = some b ∧
        ∀ x : K, 0 ≤ x → x < 1 →
          Bezier.evaluate s x = c.evaluate ((1 - x) * a + x * b) := by
  obtain ⟨segs, bounds, e, -, h2, -, -, hm, H⟩ := C20_toBezier_partial heps hc (Or.inl hf)
  refine ⟨segs, bounds, e, ?_⟩
  intro i s hs
  obtain ⟨a, b, ha, hb, -, hv⟩ := H i s hs
  refine ⟨a, b, ha, hb, ?_⟩
  intro x h0 h1
  have hab : a < b := by
    obtain ⟨hi, rfl⟩ := List.getElem?_eq_some_iff.mp ha
    obtain ⟨hj, rfl⟩ := List.getElem?_eq_some_iff.mp hb
    exact List.pairwise_iff_getElem.mp h2 _ _ hi hj (by omega)
  have ha' := ((hm a).mp (List.mem_of_getElem? ha)).2
  have hb' := ((hm b).mp (List.mem_of_getElem? hb)).2
  have hlo : knot c.knots p ≤ (1 - x) * a + x * b := by
    nlinarith [mul_nonneg h0 (sub_nonneg.mpr hab.le)]
  have hhi : (1 - x) * a + x * b < knot c.knots c.ctrl.length := by
    nlinarith [mul_pos (sub_pos.mpr h1) (sub_pos.mpr hab)]
  rw [hv x h0 h1.le (Or.inl h1), evaluate_eq hc hw (wrap_of_mem hc hlo (Or.inl hhi)) (Or.inl hf)
    hlo hhi.le]

example := C20_toBezier_evaluate_partial (eps := 0) le_rfl exSpline_wf exSpline_wide exSpline_first

/-- C20 fails if the first span is empty and its knot has multiplicity below the degree: the
cubic with domain `[3, 4]` and knot `3` doubled. -/
theorem C20_degenerate_start_refuted :
    let c : BSpline ℚ ℚ :=
      { ctrl := [5, 19 / 3, 23 / 3, 9, 20], knots := [0, 1, 2, 3, 3, 4, 5, 6, 7] }
    WellFormed c 3 ∧ c.evaluate (7 / 2) = ok (131 / 16) ∧
      ∃ s, c.toBezier 0 = ok ([s], [3, 4]) ∧ Bezier.evaluate s (1 / 2 : ℚ) = ok (389 / 48) := by
  refine ⟨⟨by decide, Or.inl rfl, by decide, by decide +kernel, by decide +kernel⟩,
    by decide +kernel, ?_⟩
  exact ⟨{ ctrl := [19 / 3, 23 / 3, 25 / 3, 21 / 2] }, by decide +kernel, by decide +kernel⟩

example : ∃ segs bounds, exSpline.toBezier 0 = ok (segs, bounds) ∧ bounds.Pairwise (· < ·) := by
  obtain ⟨segs, bounds, e, -, h, -⟩ := C20_toBezier_partial le_rfl exSpline_wf
    (Or.inl exSpline_first)
  exact ⟨segs, bounds, e, h⟩

/-! ### C21 -/

/-- C21: a Bézier curve as a B-spline: same degree, domain `[0, 1]`, same value at every
parameter (also outside the domain). -/
theorem C21_ofBezier (c : Bezier V) {p : ℕ} (hp : c.ctrl.length = p + 1) :
    WellFormed (ofBezier K c) p ∧ (ofBezier K c).degree = p ∧
      (ofBezier K c).lower = ok 0 ∧ (ofBezier K c).upper = ok 1 ∧
      ∀ t : K, (ofBezier K c).evaluate t = Bezier.evaluate { ctrl := c.ctrl } t := by
  have hwf := ofBezier_wf (K := K) c hp
  refine ⟨hwf, degree_eq hwf, ?_, ?_, ?_⟩
  · rw [lower_eq hwf, ofBezier_knot c hp p (by omega), if_pos le_rfl]
  · rw [upper_eq hwf, show (ofBezier K c).ctrl.length = p + 1 from hp,
      ofBezier_knot c hp _ (by omega), if_neg (by omega)]
  · intro t
    have hne : c.ctrl ≠ [] := by intro h; rw [h] at hp; simp at hp
    rw [ofBezier_evaluate c hp, Bezier.evaluate_eq _ hne]
    congr 1
    have e : c.ctrl = arr (p + 1) (fun i => c.ctrl.getD i 0) := by
      rw [← hp]; exact eq_arr c.ctrl 0
    conv_rhs => rw [e]
    rw [Bezier.arr_bezierPoint]

example := C21_ofBezier (K := ℚ) { ctrl := [(1 : ℚ), 5, 2] } (p := 2) rfl

/-- C21 does not extend to periodic curves: the flag is not copied, so that outside `[0, 1]` the
converted curve extrapolates. -/
theorem C21_periodic_lost (c : Bezier V) : (ofBezier K c).periodic = false := rfl

example : (ofBezier ℚ ({ ctrl := [(1 : ℚ), 5, 1], periodic := true } : Bezier ℚ)).periodic = false :=
  C21_periodic_lost _

end General

/-! ### C15 -/

section Deriv

variable {V : Type} [NormedAddCommGroup V] [NormedSpace ℝ V]

theorem hasDerivAt_span (p : ℕ) (Q : ℕ → V) (t : ℝ) :
    HasDerivAt (fun s : ℝ => umb Q (lin s ^ p)) (umb (diffQ (K := ℝ) p Q) (lin t ^ (p - 1))) t := by
  have := hasDerivAt_umb Q 1 p t
  simp only [mul_one] at this
  rw [umb_diffQ, mul_comm]
  exact this

theorem span_nhds {c : BSpline ℝ V} {p k : ℕ} {t : ℝ} (hc : WellFormed c p)
    (hw : Wide c p) (hper : c.periodic = false) {Q : ℕ → V} (hk : AtSpan c p t k Q)
    (hf : FirstSpan c p ∨ knot c.knots p < t) (s : ℝ)
    (hs : InSpan (knot c.knots) (knot c.knots c.ctrl.length) k s) (hsf : t ≤ s ∨ knot c.knots p < s) :
    c.evaluate s = ok (umb Q (lin s ^ p)) ∧
    c.evaluateDerivative s = ok (umb (diffQ (K := ℝ) p Q) (lin s ^ (p - 1))) ∧
    c.evaluate2ndDerivative s
      = ok (umb (diffQ (K := ℝ) (p - 1) (diffQ (K := ℝ) p Q)) (lin s ^ (p - 2))) := by
  have hf' : FirstSpan c p ∨ knot c.knots p < s := by
    rcases hsf with h | h
    · exact hf.imp id (fun h' => h'.trans_le h)
    · exact Or.inr h
  have A := atSpan_of_inSpan hc hf' hk.le hk.lt hs hk.repr
  exact ⟨evaluate_of_span hc hw (wrap_nonperiodic hper s) A,
    evaluateDerivative_of_span hc hw (wrap_nonperiodic hper s) A,
    evaluate2ndDerivative_of_span hc hw (wrap_nonperiodic hper s) A⟩

/-- C15: `f`, `f'`, `f''` are the values of the three evaluators on the domain.  Below the upper
bound they are related by right derivatives, at the upper bound by left derivatives, and by
two-sided derivatives at parameters inside the domain that are not knots. -/
theorem C15_derivative_partial {c : BSpline ℝ V} {p : ℕ} (hc : WellFormed c p) (hw : Wide c p)
    (hper : c.periodic = false) (f f' f'' : ℝ → V)
    (hf : ∀ s, knot c.knots p ≤ s → s ≤ knot c.knots c.ctrl.length → c.evaluate s = ok (f s))
    (hf' : ∀ s, knot c.knots p ≤ s → s ≤ knot c.knots c.ctrl.length →
      c.evaluateDerivative s = ok (f' s))
    (hf'' : ∀ s, knot c.knots p ≤ s → s ≤ knot c.knots c.ctrl.length →
      c.evaluate2ndDerivative s = ok (f'' s))
    (t : ℝ) (h1 : knot c.knots p ≤ t) (h2 : t ≤ knot c.knots c.ctrl.length)
    (hfst : FirstSpan c p ∨ knot c.knots p < t) :
    (t < knot c.knots c.ctrl.length →
      HasDerivWithinAt f (f' t) (Set.Ici t) t ∧ HasDerivWithinAt f' (f'' t) (Set.Ici t) t) ∧
    (t = knot c.knots c.ctrl.length →
      HasDerivWithinAt f (f' t) (Set.Iic t) t ∧ HasDerivWithinAt f' (f'' t) (Set.Iic t) t) ∧
    (knot c.knots p < t → t ∉ c.knots → HasDerivAt f (f' t) t ∧ HasDerivAt f' (f'' t) t) := by
  have hl := hc.len
  obtain ⟨k, Q, hk, hin⟩ := exists_atSpan hc t hfst h1 h2
  have hkle := hk.le
  have hklt := hk.lt
  have hkt := hin.bounds
  have key := span_nhds hc hw hper hk hfst
  have klo : knot c.knots p ≤ knot c.knots k := knot_mono hc.sorted hk.le (by omega)
  have khi : knot c.knots (k + 1) ≤ knot c.knots c.ctrl.length :=
    knot_mono hc.sorted (by omega) (by omega)
  -- values on the span
  have val : ∀ s, InSpan (knot c.knots) (knot c.knots c.ctrl.length) k s →
      (t ≤ s ∨ knot c.knots p < s) → f s = umb Q (lin s ^ p) ∧
      f' s = umb (diffQ (K := ℝ) p Q) (lin s ^ (p - 1)) ∧
      f'' s = umb (diffQ (K := ℝ) (p - 1) (diffQ (K := ℝ) p Q)) (lin s ^ (p - 2)) := by
    intro s hs hss
    obtain ⟨a, b, d⟩ := key s hs hss
    have b1 := hs.bounds
    have c1 := klo.trans b1.1
    have c2 := b1.2.trans khi
    rw [hf s c1 c2] at a
    rw [hf' s c1 c2] at b
    rw [hf'' s c1 c2] at d
    exact ⟨ok.inj a, ok.inj b, ok.inj d⟩
  have D1 : HasDerivAt (fun s : ℝ => umb Q (lin s ^ p)) (f' t) t := by
    rw [(val t hin (Or.inl le_rfl)).2.1]; exact hasDerivAt_span p Q t
  have D2 : HasDerivAt (fun s : ℝ => umb (diffQ (K := ℝ) p Q) (lin s ^ (p - 1))) (f'' t) t := by
    rw [(val t hin (Or.inl le_rfl)).2.2]
    have := hasDerivAt_span (p - 1) (diffQ (K := ℝ) p Q) t
    rwa [show p - 1 - 1 = p - 2 by omega] at this
  refine ⟨?_, ?_, ?_⟩
  · intro hlt
    have hin' : knot c.knots k ≤ t ∧ t < knot c.knots (k + 1) := by
      unfold InSpan at hin; rwa [if_neg hlt.ne] at hin
    have hmem : Set.Ico t (knot c.knots (k + 1)) ∈ nhdsWithin t (Set.Ici t) :=
      Ico_mem_nhdsGE hin'.2
    have hs : ∀ s ∈ Set.Ico t (knot c.knots (k + 1)),
        InSpan (knot c.knots) (knot c.knots c.ctrl.length) k s := by
      intro s hs
      unfold InSpan
      rw [if_neg (hs.2.trans_le khi).ne]
      exact ⟨hin'.1.trans hs.1, hs.2⟩
    refine ⟨D1.hasDerivWithinAt.congr_of_eventuallyEq ?_ (val t hin (Or.inl le_rfl)).1,
      D2.hasDerivWithinAt.congr_of_eventuallyEq ?_ (val t hin (Or.inl le_rfl)).2.1⟩
    · filter_upwards [hmem] with s h
      exact (val s (hs s h) (Or.inl h.1)).1
    · filter_upwards [hmem] with s h
      exact (val s (hs s h) (Or.inl h.1)).2.1
  · intro heq
    have hin' : knot c.knots k < knot c.knots (k + 1) ∧
        knot c.knots (k + 1) = knot c.knots c.ctrl.length := by
      unfold InSpan at hin; rwa [if_pos heq] at hin
    have hkt' : knot c.knots k < t := by rw [heq, ← hin'.2]; exact hin'.1
    have hmem : Set.Ioc (knot c.knots k) t ∈ nhdsWithin t (Set.Iic t) := Ioc_mem_nhdsLE hkt'
    have hs : ∀ s ∈ Set.Ioc (knot c.knots k) t,
        InSpan (knot c.knots) (knot c.knots c.ctrl.length) k s := by
      intro s hs
      unfold InSpan
      split
      · exact hin'
      · rename_i hne
        refine ⟨hs.1.le, ?_⟩
        rw [hin'.2]
        exact lt_of_le_of_ne (hs.2.trans heq.le) hne
    refine ⟨D1.hasDerivWithinAt.congr_of_eventuallyEq ?_ (val t hin (Or.inl le_rfl)).1,
      D2.hasDerivWithinAt.congr_of_eventuallyEq ?_ (val t hin (Or.inl le_rfl)).2.1⟩
    · filter_upwards [hmem] with s h
      exact (val s (hs s h) (Or.inr (klo.trans_lt h.1))).1
    · filter_upwards [hmem] with s h
      exact (val s (hs s h) (Or.inr (klo.trans_lt h.1))).2.1
  · intro hlt hnot
    have hmemk : ∀ i, i < c.knots.length → knot c.knots i ≠ t := by
      intro i hi h
      apply hnot
      rw [← h]
      unfold knot
      rw [List.getD_eq_getElem?_getD, List.getElem?_eq_getElem hi, Option.getD_some]
      exact List.getElem_mem hi
    have g1 : knot c.knots k < t := lt_of_le_of_ne hkt.1 (hmemk _ (by omega))
    have g2 : t < knot c.knots (k + 1) := lt_of_le_of_ne hkt.2 (hmemk _ (by omega)).symm
    have hmem : Set.Ioo (knot c.knots k) (knot c.knots (k + 1)) ∈ nhds t := Ioo_mem_nhds g1 g2
    have hs : ∀ s ∈ Set.Ioo (knot c.knots k) (knot c.knots (k + 1)),
        InSpan (knot c.knots) (knot c.knots c.ctrl.length) k s := by
      intro s hs
      unfold InSpan
      rw [if_neg (hs.2.trans_le khi).ne]
      exact ⟨hs.1.le, hs.2⟩
    refine ⟨D1.congr_of_eventuallyEq ?_, D2.congr_of_eventuallyEq ?_⟩
    · filter_upwards [hmem] with s h
      exact (val s (hs s h) (Or.inr (klo.trans_lt h.1))).1
    · filter_upwards [hmem] with s h
      exact (val s (hs s h) (Or.inr (klo.trans_lt h.1))).2.1

/-- The evaluators do return on the whole domain, so that `f`, `f'`, `f''` of
`C15_derivative_partial` exist. -/
theorem C15_evaluators_return {c : BSpline ℝ V} {p : ℕ} (hc : WellFormed c p) (hw : Wide c p)
    (hper : c.periodic = false) (hfst : FirstSpan c p) :
    ∃ f f' f'' : ℝ → V,
      ∀ s, knot c.knots p ≤ s → s ≤ knot c.knots c.ctrl.length → c.evaluate s = ok (f s) ∧
        c.evaluateDerivative s = ok (f' s) ∧ c.evaluate2ndDerivative s = ok (f'' s) := by
  have H : ∀ s, ∃ a b d, knot c.knots p ≤ s → s ≤ knot c.knots c.ctrl.length →
      c.evaluate s = ok a ∧ c.evaluateDerivative s = ok b ∧ c.evaluate2ndDerivative s = ok d := by
    intro s
    by_cases h : knot c.knots p ≤ s ∧ s ≤ knot c.knots c.ctrl.length
    · obtain ⟨k, Q, hk, hin⟩ := exists_atSpan hc s (Or.inl hfst) h.1 h.2
      obtain ⟨a, b, d⟩ := span_nhds hc hw hper hk (Or.inl hfst) s hin (Or.inl le_rfl)
      exact ⟨_, _, _, fun _ _ => ⟨a, b, d⟩⟩
    · exact ⟨0, 0, 0, fun h1 h2 => absurd ⟨h1, h2⟩ h⟩
  choose f f' f'' hf using H
  exact ⟨f, f', f'', hf⟩

/-- `exSpline` over the real numbers. -/
noncomputable def exSplineR : BSpline ℝ ℝ :=
  { ctrl := [0, 1, 3, 2, 5], knots := [0, 0, 0, 1 / 2, 1 / 2, 1, 1, 1] }

theorem exSplineR_wf : WellFormed exSplineR 2 :=
  ⟨rfl, Or.inl rfl, by simp [exSplineR], by simp [exSplineR]; norm_num, by simp [exSplineR, knot]⟩

theorem exSplineR_first : FirstSpan exSplineR 2 := by simp [FirstSpan, exSplineR, knot]

theorem exSplineR_wide : Wide exSplineR 2 := by
  intro i h1 h2
  have h2' : i < 5 := h2
  interval_cases i <;> simp [exSplineR, knot] <;> norm_num

example := C15_evaluators_return exSplineR_wf exSplineR_wide rfl exSplineR_first

example : ∃ f f' f'' : ℝ → ℝ, HasDerivAt f (f' (1 / 3)) (1 / 3) ∧ HasDerivAt f' (f'' (1 / 3)) (1 / 3) := by
  obtain ⟨f, f', f'', h⟩ := C15_evaluators_return exSplineR_wf exSplineR_wide rfl exSplineR_first
  exact ⟨f, f', f'', (C15_derivative_partial exSplineR_wf exSplineR_wide rfl f f' f''
    (fun s a b => (h s a b).1) (fun s a b => (h s a b).2.1) (fun s a b => (h s a b).2.2) (1 / 3)
    (by simp [exSplineR, knot]) (by simp [exSplineR, knot]; norm_num) (Or.inl exSplineR_first)).2.2
    (by simp [exSplineR, knot]) (by simp [exSplineR])⟩

end Deriv

end NS.Props
