import Verif.Props.BSplinePatch

/-!
# C17, C19, C65: parameters just outside the domain

`in_domain` accepts parameters up to the machine epsilon outside the domain.  The editing functions
then go on with such a parameter.
-/

set_option linter.unusedSectionVars false

namespace NS.Props

open Outcome Spec BSpline

section General

variable {K V : Type} [Field K] [LinearOrder K] [IsStrictOrderedRing K] [FloorRing K]
  [AddCommGroup V] [Module K V]

theorem seg_getD {α : Type} {l : List α} {a n : ℕ} (d : α) (h : a + n ≤ l.length) :
    seg l a n = ok (arr n fun i => l.getD (a + i) d) := by
  conv_lhs => rw [eq_arr l d]
  exact seg_arr h

/-- What `insert_knot` leaves when it goes on with a parameter of the window. -/
theorem insertKnot_window {eps : K} {c : BSpline K V} {p : ℕ} (hc : WellFormed c p) {t : K}
    (h1 : knot c.knots p - eps ≤ t) (h2 : t ≤ knot c.knots c.ctrl.length + eps) {k : ℕ}
    (hloc : c.locateSpan t = ok (k : ℤ)) (hpk : p ≤ k) (hkn : k < c.ctrl.length)
    (hlt : knot c.knots k < knot c.knots (k + 1)) (hne : t ≠ knot c.knots k) {r : ℕ} (hr : 1 ≤ r)
    (hrp : r ≤ p) :
    ∃ g, c.insertKnot eps t r = ok { c with
        ctrl := arr (c.ctrl.length + r) g
        knots := arr (c.knots.length + r) (insU (knot c.knots) t k r) } := by
  have hl := hc.len
  have hdom : c.inDomain eps t = ok true := by
    rw [inDomain_eq hc]
    congr 1
    simp only [Bool.and_eq_true, decide_eq_true_eq]
    exact ⟨h1, h2⟩
  obtain ⟨g, e, -⟩ := insertedCtrl_eq c.knots c.ctrl t p k r 0 hpk hrp hc.sorted (by omega) hkn hlt
  refine ⟨g, ?_⟩
  unfold insertKnot
  rw [assert_true hr, ok_bind, hdom, ok_bind, assert_true rfl, ok_bind, validate_ok hc, ok_bind,
    hloc, ok_bind, degree_eq hc, multAt_eq c hc.sorted t k (by omega), if_neg hne, ok_bind,
    assert_true (by simp [hpk]), ok_bind]
  simp only [Int.toNat_natCast]
  rw [assert_true (by omega), ok_bind, insertedKnots_eq _ _ _ _ (by omega), ok_bind, e, ok_bind]
  rfl

/-- C17 is false at every parameter of the window: for every B-spline, every positive tolerance and
every allowed multiplicity, inserting a knot above the domain, or below it when the first span is not
empty, succeeds and leaves knots that are not sorted. -/
theorem C17_window_refuted {eps : K} (heps : 0 ≤ eps) {c : BSpline K V} {p : ℕ} (hc : WellFormed c p)
    {t : K}
    (ht : (knot c.knots c.ctrl.length < t ∧ t ≤ knot c.knots c.ctrl.length + eps) ∨
      (FirstSpan c p ∧ knot c.knots p - eps ≤ t ∧ t < knot c.knots p))
    {m : ℕ} (hm : 1 ≤ m) (hp : m ≤ p) :
    ∃ c', c.insertKnot eps t m = ok c' ∧ ¬ c'.knots.Pairwise (· ≤ ·) := by
  have hl := hc.len
  have hd := hc.dom
  have hf : FirstSpan c p ∨ knot c.knots p < t := by
    rcases ht with ⟨h, -⟩ | ⟨h, -⟩
    · exact Or.inr (hd.trans h)
    · exact Or.inl h
  obtain ⟨k, e, b1, b2, b3, -, b5, b6⟩ := locateSpan_spec hc t hf
  have hne : t ≠ knot c.knots k := by
    intro e
    rcases ht with ⟨h, -⟩ | ⟨-, -, h⟩
    · have := b6 h.le
      rw [e] at h
      linarith
    · rw [b5 h.le] at e
      exact h.ne e
  obtain ⟨g, e'⟩ := insertKnot_window hc (eps := eps)
    (by rcases ht with ⟨h, -⟩ | ⟨-, h, -⟩ <;> linarith)
    (by rcases ht with ⟨-, h⟩ | ⟨-, -, h⟩ <;> linarith) e b1 b2 b3 hne hm hp
  refine ⟨_, e', fun hs => ?_⟩
  have key : ∀ i j, i ≤ j → j < c.knots.length + m →
      insU (knot c.knots) t k m i ≤ insU (knot c.knots) t k m j := by
    intro i j hij hj
    have := knot_mono hs hij (by simpa using hj)
    simp only [knot] at this
    rwa [arr_getD _ _ _ _ (by omega), arr_getD _ _ _ _ (by omega)] at this
  rcases ht with ⟨h, -⟩ | ⟨-, -, h⟩
  · have := key (k + m) (k + m + 1) (by omega) (by omega)
    rw [insU, if_neg (by omega), if_pos le_rfl, insU, if_neg (by omega), if_neg (by omega),
      show k + m + 1 - m = k + 1 by omega, b6 h.le] at this
    linarith
  · have := key k (k + 1) (by omega) (by omega)
    rw [insU, if_pos le_rfl, insU, if_neg (by omega), if_pos (by omega), b5 h.le] at this
    linarith

/-- C19 is false in the window: for every B-spline of positive degree and every positive tolerance,
splitting at a parameter just above the domain succeeds; the left part reaches beyond the domain, and
the domain of the right part ends before it begins. -/
theorem C19_window_refuted {eps : K} {c : BSpline K V} {p : ℕ} (hc : WellFormed c p)
    (hp : 1 ≤ p) {t : K} (h1 : knot c.knots c.ctrl.length < t)
    (h2 : t ≤ knot c.knots c.ctrl.length + eps) :
    ∃ a b, c.split eps t = ok [a, b] ∧ a.upper = ok t ∧ b.lower = ok t ∧
      b.upper = ok (knot c.knots c.ctrl.length) := by
  have hl := hc.len
  have hd := hc.dom
  obtain ⟨k, e, b1, b2, b3, -, -, b6⟩ := locateSpan_spec hc t (Or.inr (hd.trans h1))
  have b6 := b6 h1.le
  have hne : t ≠ knot c.knots k := by
    intro e
    rw [e] at h1
    linarith
  obtain ⟨g, e'⟩ := insertKnot_window hc (eps := eps) (by linarith) h2 e b1 b2 b3 hne hp le_rfl
  set c1 : BSpline K V := { c with
        ctrl := arr (c.ctrl.length + p) g
        knots := arr (c.knots.length + p) (insU (knot c.knots) t k p) } with hc1
  have l1 : c1.knots.length = c.knots.length + p := by simp [hc1]
  have l2 : c1.ctrl.length = c.ctrl.length + p := by simp [hc1]
  have kn : ∀ i, i < c.knots.length + p → knot c1.knots i = insU (knot c.knots) t k p i := by
    intro i hi
    rw [knot, hc1]
    exact arr_getD _ _ _ _ hi
  have hdeg : c1.degree = p := by
    rw [degree, l1, l2]; push_cast; omega
  have hhi : ∀ i, k < i → i ≤ c.ctrl.length → knot c.knots i = knot c.knots c.ctrl.length := by
    intro i i1 i2
    refine le_antisymm (knot_mono hc.sorted i2 (by omega)) ?_
    rw [← b6]
    exact knot_mono hc.sorted i1 (by omega)
  have v1 : ∀ i, k < i → i ≤ k + p → knot c1.knots i = t := by
    intro i i1 i2
    rw [kn _ (by omega), insU, if_neg (by omega), if_pos i2]
  have v2 : ∀ i, k + p < i → i ≤ c.ctrl.length + p →
      knot c1.knots i = knot c.knots c.ctrl.length := by
    intro i i1 i2
    rw [kn _ (by omega), insU, if_neg (by omega), if_neg (by omega), hhi _ (by omega) (by omega)]
  -- the span located in the refined curve
  have hloc : c1.locateSpan t = ok ((k + p : ℕ) : ℤ) := by
    have w0 : knot c1.knots p = knot c.knots p := by rw [kn p (by omega), insU, if_pos b1]
    unfold locateSpan
    rw [assert_true (by omega), ok_bind]
    simp only [hdeg, Int.toNat_natCast]
    rw [show c1.knots.length - p - 1 = c.ctrl.length + p by omega, rd_knot (by omega), ok_bind, w0,
      if_neg (not_le.2 (hd.trans h1)), rd_knot (by omega), ok_bind, v2 _ (by omega) le_rfl, if_pos h1.le]
    obtain ⟨j, a, b, d, f⟩ := bypassBefore_spec c1.knots (c.ctrl.length + p) (by omega)
    have j1 : k + p < j := by
      by_contra h
      have := d (k + p) (by omega) (by omega)
      rw [v1 _ (by omega) le_rfl, v2 _ (by omega) le_rfl] at this
      exact h1.ne' this
    have j2 : j = k + p + 1 := by
      by_contra h
      rcases f with f | f
      · omega
      · exact f (by rw [v2 _ (by omega) (by omega), v2 _ (by omega) b])
    rw [a, ok_bind, j2]
    congr 1
    push_cast
    omega
  set P : ℕ → V := fun i => c1.ctrl.getD i 0 with hP
  have e1 : seg c1.ctrl 0 (k + 1) = ok (arr (k + 1) (fun i => P (0 + i))) :=
    seg_getD 0 (by omega)
  have e2 : seg c1.ctrl k (c1.ctrl.length - k)
      = ok (arr (c1.ctrl.length - k) (fun i => P (k + i))) := seg_getD 0 (by omega)
  have e3 : seg c1.knots 0 (k + p + 1) = ok (arr (k + p + 1) (fun i => knot c1.knots (0 + i))) :=
    seg_getD 0 (by omega)
  have e4 : seg c1.knots (k + 1) (c1.knots.length - 1 - (k + p) + p)
      = ok (arr (c1.knots.length - 1 - (k + p) + p) (fun i => knot c1.knots (k + 1 + i))) :=
    seg_getD 0 (by omega)
  have eq : c1.splitPieces t p = ok [
      { ctrl := arr (k + 1) (fun i => P (0 + i)),
        knots := arr (k + p + 1) (fun i => knot c1.knots (0 + i)) ++ [knot c1.knots (0 + (k + p))],
        sdeg := c1.sdeg },
      { ctrl := arr (c1.ctrl.length - k) (fun i => P (k + i)),
        knots := knot c1.knots (k + 1 + 0) ::
          arr (c1.knots.length - 1 - (k + p) + p) (fun i => knot c1.knots (k + 1 + i)),
        sdeg := c1.sdeg }] := by
    unfold splitPieces
    simp only []
    rw [hloc, ok_bind, assert_true (by push_cast; omega), ok_bind]
    simp only [Int.toNat_natCast, Nat.add_sub_cancel]
    rw [e1, ok_bind, e2, ok_bind, e3, ok_bind, rd_arr (by omega), ok_bind, e4, ok_bind,
      rd_arr (by omega), ok_bind]
    rfl
  have es : c.split eps t = c1.splitPieces t p := by
    rw [split, inDomain_eq hc, ok_bind, throwIf_false, ok_bind, lower_eq hc, ok_bind, upper_eq hc,
      ok_bind, if_neg (hd.trans h1).ne', if_neg h1.ne']
    · simp only [degree_eq hc, Int.toNat_natCast]
      rw [e, ok_bind, multAt_eq c hc.sorted t k (by omega), if_neg hne, ok_bind, raise,
        if_pos (by omega), Nat.sub_zero, e', ok_bind]
    · simp only [Bool.and_eq_true, decide_eq_true_eq, not_not]
      exact ⟨by linarith, h2⟩
  refine ⟨_, _, es.trans eq, ?_, ?_, ?_⟩
  · rw [upper, degree]
    simp only [List.length_append, arr_length, List.length_singleton]
    rw [show ((k + p + 1 + 1 : ℕ) : ℤ) - (((k + p + 1 + 1 : ℕ) : ℤ) - ((k + 1 : ℕ) : ℤ) - 1) - 1
      = ((k + 1 : ℕ) : ℤ) by push_cast; omega, rdI_natCast, rd_of_lt (by simp),
      List.getElem_append_left (by simp; omega), arr_getElem, v1 _ (by omega) (by omega)]
  · rw [lower, degree]
    simp only [List.length_cons, arr_length, l1, l2]
    rw [show ((c.knots.length + p - 1 - (k + p) + p + 1 : ℕ) : ℤ) - ((c.ctrl.length + p - k : ℕ) : ℤ) - 1
      = ((p - 1 + 1 : ℕ) : ℤ) by omega, rdI_natCast, rd_of_lt (by simp; omega),
      List.getElem_cons_succ, arr_getElem, v1 _ (by omega) (by omega)]
  · rw [upper, degree]
    simp only [List.length_cons, arr_length, l1, l2]
    rw [show ((c.knots.length + p - 1 - (k + p) + p + 1 : ℕ) : ℤ)
        - (((c.knots.length + p - 1 - (k + p) + p + 1 : ℕ) : ℤ) - ((c.ctrl.length + p - k : ℕ) : ℤ) - 1) - 1
      = ((c.ctrl.length + p - k - 1 + 1 : ℕ) : ℤ) by omega, rdI_natCast, rd_of_lt (by simp; omega),
      List.getElem_cons_succ, arr_getElem, v2 _ (by omega) (by omega)]

/-! ### Patches -/

variable {p : BSplinePatch K V} {m n du dv : ℕ}

/-- C65: splits in `v` at a boundary parameter return the patch itself. -/
theorem C65_split_v_ends {eps : K} (heps : 0 ≤ eps) (h : p.Valid m n du dv) {t : K}
    (ht : t = knot p.knotsV dv ∨ t = knot p.knotsV n) : p.splitV eps t = ok [p] := by
  have hd := h.v.dom
  unfold BSplinePatch.splitV
  rw [h.lowerV, ok_bind, h.upperV, ok_bind, throwIf_false, ok_bind, if_pos]
  · rfl
  · rcases ht with rfl | rfl <;> simp [BSplinePatch.isEndpoint]
  · rw [not_not]
    rcases ht with rfl | rfl
    · exact inDomain_mem heps le_rfl hd.le
    · exact inDomain_mem heps hd.le le_rfl

theorem inDomain_out {eps lo hi t : K} (ht : t < lo - eps ∨ hi + eps < t) :
    ¬ BSplinePatch.inDomain eps lo hi t = true := by
  simp only [BSplinePatch.inDomain, Bool.and_eq_true, decide_eq_true_eq, not_and_or, not_le]
  exact ht

/-- C65: `split_v` outside the domain (beyond the tolerance) throws; so do `split` and `subpatch` when one
of their parameters is outside. -/
theorem C65_out_of_domain_all {eps : K} (h : p.Valid m n du dv) :
    (∀ t : K, t < knot p.knotsV dv - eps ∨ knot p.knotsV n + eps < t →
      p.splitV eps t = Outcome.throw .invalidSetting) ∧
    (∀ s t : K, (s < knot p.knotsU du - eps ∨ knot p.knotsU m + eps < s) ∨
        (t < knot p.knotsV dv - eps ∨ knot p.knotsV n + eps < t) →
      p.split eps s t = Outcome.throw .invalidSetting) ∧
    (∀ s s' t t' : K, (s > s' ∨ t > t' ∨
        (s < knot p.knotsU du - eps ∨ knot p.knotsU m + eps < s) ∨
        (s' < knot p.knotsU du - eps ∨ knot p.knotsU m + eps < s') ∨
        (t < knot p.knotsV dv - eps ∨ knot p.knotsV n + eps < t) ∨
        (t' < knot p.knotsV dv - eps ∨ knot p.knotsV n + eps < t')) →
      p.subpatch eps s s' t t' = Outcome.throw .invalidSetting) := by
  refine ⟨fun t ht => ?_, fun s t ht => ?_, fun s s' t t' ht => ?_⟩
  · unfold BSplinePatch.splitV
    rw [h.lowerV, ok_bind, h.upperV, ok_bind, throwIf_true (inDomain_out ht)]
    rfl
  · unfold BSplinePatch.split
    rw [h.lowerU, ok_bind, h.upperU, ok_bind, h.lowerV, ok_bind, h.upperV, ok_bind, throwIf_true]
    · rfl
    · rw [Bool.and_eq_true, not_and_or]
      exact ht.imp inDomain_out inDomain_out
  · unfold BSplinePatch.subpatch
    rw [h.lowerU, ok_bind, h.upperU, ok_bind, h.lowerV, ok_bind, h.upperV, ok_bind]
    by_cases a1 : s > s'
    · rw [throwIf_true a1]; rfl
    rw [throwIf_false a1, ok_bind]
    by_cases a2 : ¬ BSplinePatch.inDomain eps (knot p.knotsU du) (knot p.knotsU m) s = true ∨
        ¬ BSplinePatch.inDomain eps (knot p.knotsU du) (knot p.knotsU m) s' = true
    · rw [throwIf_true a2]; rfl
    rw [throwIf_false a2, ok_bind]
    by_cases a3 : t > t'
    · rw [throwIf_true a3]; rfl
    rw [throwIf_false a3, ok_bind, throwIf_true]
    · rfl
    · rcases ht with ht | ht | ht | ht | ht | ht
      · exact absurd ht a1
      · exact absurd ht a3
      · exact absurd (Or.inl (inDomain_out ht)) a2
      · exact absurd (Or.inr (inDomain_out ht)) a2
      · exact Or.inl (inDomain_out ht)
      · exact Or.inr (inDomain_out ht)

end General

/-- C65 is false for parameters within the tolerance outside the domain: the double after 1 is accepted
by the splits of a patch over `[0, 1] × [0, 1]` and by `subpatch`, and the domain of the second part ends
before it begins. -/
theorem C65_window_refuted :
    (exBP.splitU (1 / 2 ^ 52) (1 + 1 / 2 ^ 52) >>= fun l => rd l 1 >>= fun b => do
      let x ← b.lowerU
      let y ← b.upperU
      pure (x, y)) = ok ((1 + 1 / 2 ^ 52 : ℚ), 1) ∧
    (exBP.splitV (1 / 2 ^ 52) (1 + 1 / 2 ^ 52) >>= fun l => rd l 1 >>= fun b => do
      let x ← b.lowerV
      let y ← b.upperV
      pure (x, y)) = ok ((1 + 1 / 2 ^ 52 : ℚ), 1) ∧
    (exBP.subpatch (1 / 2 ^ 52) 0 1 0 (1 + 1 / 2 ^ 52) >>= fun q => q.upperV)
      = ok (1 + 1 / 2 ^ 52 : ℚ) := by
  refine ⟨?_, ?_, ?_⟩ <;> decide +kernel

example : ∃ c', exSpline.insertKnot (1 / 2 ^ 52) (1 + 1 / 2 ^ 52) 1 = ok c' ∧
    ¬ c'.knots.Pairwise (· ≤ ·) :=
  C17_window_refuted (by norm_num) exSpline_wf (Or.inl (by constructor <;> decide +kernel)) le_rfl
    (by norm_num)

example : ∃ a b, exSpline.split (1 / 2 ^ 52) (1 + 1 / 2 ^ 52) = ok [a, b] ∧
    a.upper = ok (1 + 1 / 2 ^ 52) ∧ b.lower = ok (1 + 1 / 2 ^ 52) ∧ b.upper = ok 1 :=
  C19_window_refuted exSpline_wf (by norm_num) (by decide +kernel) (by decide +kernel)

example : exBP.split (1 / 100 : ℚ) (1 / 2) 2 = Outcome.throw .invalidSetting :=
  (C65_out_of_domain_all exBP_valid).2.1 _ _ (Or.inr (Or.inr (by decide +kernel)))

end NS.Props
