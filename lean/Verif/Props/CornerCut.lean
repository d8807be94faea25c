import Mathlib.Data.List.GetD
import Verif.Proof.CornerCut
import Verif.Props.Length
import Verif.Props.RationalOps

/-!
# C101: refining a curve cuts corners of its control polygon
-/

set_option linter.unusedSectionVars false

namespace NS.Props

open Outcome Spec Finset BSpline

section General

variable {K V : Type} [Field K] [LinearOrder K] [IsStrictOrderedRing K] [FloorRing K]
  [AddCommGroup V] [Module K V]

/-- The length of a polygon. -/
def pathLength (nrm : V → K) (P : List V) : K :=
  ∑ i ∈ range (P.length - 1), nrm (P.getD (i + 1) 0 - P.getD i 0)

/-- The polygon `Q` is no wilder than `P`: it is no longer in any seminorm, crosses no hyperplane
more often (in the sense of strict changes of sides, starting on either side), and each of its edges
lies in every convex cone that contains the edges of `P`. -/
structure Tamer (K : Type) {V : Type} [Field K] [LinearOrder K] [AddCommGroup V] [Module K V]
    (P Q : List V) : Prop where
  length : ∀ nrm : V → K, IsSeminorm nrm → pathLength nrm Q ≤ pathLength nrm P
  sides : ∀ (f : V →ₗ[K] K) (a : K) (n : ℕ) (σ : K),
    Changes (· < Q.length) (fun i => f (Q.getD i 0) + a) n σ →
      Changes (· < P.length) (fun i => f (P.getD i 0) + a) n σ
  cone : ∀ C : V → Prop, IsCone K C →
    (∀ i, i + 1 < P.length → C (P.getD (i + 1) 0 - P.getD i 0)) →
      ∀ i, i + 1 < Q.length → C (Q.getD (i + 1) 0 - Q.getD i 0)

theorem tamer_of_cuts {P Q : List V}
    (h : Cuts K P.length (fun i => P.getD i 0) Q.length (fun i => Q.getD i 0)) : Tamer K P Q :=
  ⟨fun _ hn => h.length hn, fun f a _ _ hc => (h.affine f a).changes hc, fun _ hC hb => h.cone hC hb⟩

/-! ### Knot insertion -/

/-- C101: a successful knot insertion. -/
theorem C101_insert_knot {eps : K} (heps : 0 ≤ eps) {c c' : BSpline K V} {p : ℕ}
    (hc : WellFormed c p) {t : K} (hf : FirstSpan c p ∨ knot c.knots p < t)
    (h1 : knot c.knots p ≤ t) (h2 : t ≤ knot c.knots c.ctrl.length) {m : ℕ} (hm : 1 ≤ m)
    (e : c.insertKnot eps t m = ok c') : Tamer K c.ctrl c'.ctrl :=
  tamer_of_cuts (insertKnot_finer heps hc hf h1 h2 hm e).1.cuts

/-- C101: any successful sequence of knot insertions above the lower end of the domain. -/
theorem C101_insert_sequence {eps : K} (heps : 0 ≤ eps) {c c' : BSpline K V} {p : ℕ}
    (hc : WellFormed c p) {ops : List (K × ℕ)}
    (hops : ∀ op ∈ ops, knot c.knots p < op.1 ∧ op.1 ≤ knot c.knots c.ctrl.length ∧ 1 ≤ op.2)
    (e : ops.foldlM (fun c op => c.insertKnot eps op.1 op.2) c = ok c') :
    Tamer K c.ctrl c'.ctrl :=
  tamer_of_cuts (insertAll_finer heps ops hc hops e).cuts

/-- C101: a knot insertion into a NURBS curve with positive weights. -/
theorem C101_nurbs_insert_knot {eps : K} (heps : 0 ≤ eps) {c c' : NURBS K V} (hc : c.init = ok c)
    {p : ℕ} (hwf : WellFormed c.base p) (hpos : ∀ x ∈ c.weights, 0 < x) {t : K}
    (hf : FirstSpan c.base p ∨ knot c.base.knots p < t) (h1 : knot c.base.knots p ≤ t)
    (h2 : t ≤ knot c.base.knots c.base.ctrl.length) {m : ℕ} (hm : 1 ≤ m)
    (e : c.insertKnot eps t m = ok c') : Tamer K c.base.ctrl c'.base.ctrl := by
  obtain ⟨S, -, -⟩ := (NURBS.init_iff _ _).1 hc
  have hwh := S.wf.2 hwf
  unfold NURBS.insertKnot at e
  rw [S.validate, NURBS.wf_validate hwf, ok_bind] at e
  obtain ⟨h, eh, e⟩ := bind_eq_ok.1 e
  obtain ⟨F, I⟩ := insertKnot_finer heps hwh (by rw [S.first, S.knots]; exact hf)
    (by rw [S.knots]; exact h1) (by rw [S.knots, S.homLen]; exact h2) hm eh
  have hp0 : ∀ q ∈ c.hom.ctrl, 0 < q.2 := by rw [S.ctrl]; exact hom_pos S.len hpos
  have hp : ∀ q ∈ h.ctrl, 0 < q.2 := hull_pos I.hull hp0
  obtain ⟨c2, e2, S2, b1, b2, b3, b4, b5, b6⟩ := nurbs_of_hom I.wf hp
  rw [e] at e2
  obtain rfl := ok.inj e2
  have hpr : ∀ {d : NURBS K V}, NURBS.Sync d → (∀ x ∈ d.weights, 0 < x) → ∀ i < d.base.ctrl.length,
      d.base.ctrl.getD i 0 = (d.hom.ctrl.getD i 0).2⁻¹ • (d.hom.ctrl.getD i 0).1 := by
    intro d Sd hd i hi
    have hw : 0 < d.weights.getD i 0 := by
      have : i < d.weights.length := by rw [← Sd.len]; exact hi
      rw [List.getD_eq_getElem _ _ this]
      exact hd _ (List.getElem_mem _)
    rw [Sd.ctrl, homog_getD i Sd.len]
    simp only
    rw [smul_smul, inv_mul_cancel₀ hw.ne', one_smul]
  have hq := (F.cuts.project fun i hi => by
    rw [List.getD_eq_getElem _ _ hi]
    exact hp0 _ (List.getElem_mem _)).1
  apply tamer_of_cuts
  rw [S.homLen, ← b1, S2.homLen] at hq
  refine (Cuts.trans (.same _ fun i hi => ?_) hq).congr_right fun i hi => ?_
  · exact (hpr S hpos i hi).symm
  · exact hpr S2 b2 i hi

/-! ### Bézier curves -/

/-- C101: degree elevation. -/
theorem C101_elevate {c : Bezier V} (hc : c.ctrl ≠ []) :
    ∃ c', Bezier.elevateDegree K c = ok c' ∧ Tamer K c.ctrl c'.ctrl := by
  obtain ⟨P, per⟩ := c
  obtain ⟨n, hn⟩ : ∃ n, P.length = n + 1 := ⟨P.length - 1, by
    have := List.length_pos_of_ne_nil hc
    simp only at this
    omega⟩
  have eP : P = arr (n + 1) (fun i => P.getD i 0) := by
    conv_lhs => rw [eq_arr P 0]
    rw [hn]
  refine ⟨_, by rw [eP]; exact Bezier.elevateDegree_arr n _ per, ?_⟩
  apply tamer_of_cuts
  simp only [hn, arr_length]
  refine (Cuts.step (n + 1) _ _ (.same _ fun _ _ => rfl)
    (elevate_cut (K := K) (fun i => P.getD i 0) n)).congr_right fun i hi => ?_
  exact arr_getD _ _ _ _ hi

theorem pathLength_append (nrm : V → K) {A B : List V} {m : ℕ} (hA : A.length = m + 1)
    (hAB : A.getD m 0 = B.getD 0 0) :
    pathLength nrm (A ++ B.tail) = pathLength nrm A + pathLength nrm B := by
  unfold pathLength
  rw [hA, Nat.add_sub_cancel, List.length_append, List.length_tail, hA,
    show m + 1 + (B.length - 1) - 1 = m + (B.length - 1) by omega, sum_range_add]
  congr 1
  · refine sum_congr rfl fun i hi => ?_
    have hi' : i < m := by simpa using hi
    rw [List.getD_append _ _ _ _ (by omega), List.getD_append _ _ _ _ (by omega)]
  · refine sum_congr rfl fun i hi => ?_
    have e : ∀ j, (A ++ B.tail).getD (m + j) 0 = B.getD j 0 := by
      intro j
      rcases j with _ | j
      · rw [add_zero, List.getD_append _ _ _ _ (by omega), hAB]
      · rw [List.getD_append_right _ _ _ _ (by omega), hA,
          show m + (j + 1) - (m + 1) = j by omega]
        simp [List.getD_eq_getElem?_getD, List.getElem?_tail]
    rw [add_assoc, e, e]

/-- C101: the two control polygons `split` returns, one after the other, and hence the sum of their
lengths. -/
theorem C101_bezier_split {c a b : Bezier V} {t : K} (hc : c.ctrl ≠ []) (h0 : 0 < t) (h1 : t < 1)
    (e : Bezier.split c t = ok [a, b]) :
    Tamer K c.ctrl (a.ctrl ++ b.ctrl.tail) ∧
      ∀ nrm : V → K, IsSeminorm nrm →
        pathLength nrm a.ctrl + pathLength nrm b.ctrl ≤ pathLength nrm c.ctrl := by
  obtain ⟨P, per⟩ := c
  obtain ⟨n, hn⟩ : ∃ n, P.length = n + 1 := ⟨P.length - 1, by
    have := List.length_pos_of_ne_nil hc
    simp only at this
    omega⟩
  have eP : P = arr (n + 1) (fun i => P.getD i 0) := by
    conv_lhs => rw [eq_arr P 0]
    rw [hn]
  rw [eP, Bezier.split_arr _ _ _ _ h0 h1] at e
  have e' := ok.inj e
  simp only [List.cons.injEq, and_true] at e'
  obtain ⟨rfl, rfl⟩ := e'
  set Q : ℕ → V := fun i => P.getD i 0 with hQ
  have hT : Tamer K P (arr (n + 1) (fun i => umb Q (lin t ^ i)) ++
      (arr (n + 1) (fun i => umb Q (lin t ^ (n + 1 - 1 - i) * Polynomial.X ^ i))).tail) := by
    apply tamer_of_cuts
    have hl : (arr (n + 1) (fun i => umb Q (lin t ^ i)) ++
      (arr (n + 1) (fun i => umb Q (lin t ^ (n + 1 - 1 - i) * Polynomial.X ^ i))).tail).length
        = n + 1 + n := by simp
    rw [hl, hn]
    refine (casteljau_cuts Q h0.le h1.le n).congr_right fun i hi => ?_
    unfold casteljau
    by_cases h : i < n + 1
    · rw [List.getD_append _ _ _ _ (by simpa using h), arr_getD _ _ _ _ h,
        show min i (min n (n + n - i)) = i by omega, show i - n = 0 by omega, pow_zero, mul_one]
    · rw [List.getD_append_right _ _ _ _ (by simp; omega), arr_length,
        List.getD_eq_getElem?_getD, List.getElem?_tail, ← List.getD_eq_getElem?_getD,
        arr_getD _ _ _ _ (by omega)]
      congr 3 <;> omega
  refine ⟨hT, fun nrm hnrm => ?_⟩
  have := hT.length nrm hnrm
  rw [pathLength_append (m := n) nrm (by simp) (by
    rw [arr_getD _ _ _ _ (by omega), arr_getD _ _ _ _ (by omega)]
    simp)] at this
  exact this

/-! ### Splitting B-splines -/

/-- C101: the same for the two pieces of a B-spline curve. -/
theorem C101_bspline_split {eps : K} (heps : 0 ≤ eps) {c a b : BSpline K V} {p : ℕ}
    (hc : WellFormed c p) {t : K} (h1 : knot c.knots p < t) (h2 : t < knot c.knots c.ctrl.length)
    (e : c.split eps t = ok [a, b]) :
    Tamer K c.ctrl (a.ctrl ++ b.ctrl.tail) ∧
      ∀ nrm : V → K, IsSeminorm nrm →
        pathLength nrm a.ctrl + pathLength nrm b.ctrl ≤ pathLength nrm c.ctrl := by
  unfold BSpline.split at e
  obtain ⟨dom, -, e⟩ := bind_eq_ok.1 e
  obtain ⟨⟨⟩, -, e⟩ := bind_eq_ok.1 e
  obtain ⟨lo, elo, e⟩ := bind_eq_ok.1 e
  obtain ⟨hi, ehi, e⟩ := bind_eq_ok.1 e
  rw [lower_eq hc] at elo
  rw [upper_eq hc] at ehi
  obtain rfl := ok.inj elo
  obtain rfl := ok.inj ehi
  rw [if_neg h1.ne', if_neg h2.ne] at e
  simp only [degree_eq hc, Int.toNat_natCast] at e
  obtain ⟨k, -, e⟩ := bind_eq_ok.1 e
  obtain ⟨s, -, e⟩ := bind_eq_ok.1 e
  obtain ⟨d, ed, e⟩ := bind_eq_ok.1 e
  have hF : Tamer K c.ctrl d.ctrl := by
    unfold raise at ed
    split_ifs at ed with h
    · exact C101_insert_knot heps hc (Or.inr h1) h1.le h2.le (by omega) ed
    · obtain rfl := ok.inj ed
      exact tamer_of_cuts (.same _ fun _ _ => rfl)
  obtain ⟨a', b', m, eL, hm, ha, hb⟩ := splitPieces_ctrl e
  simp only [List.cons.injEq, and_true] at eL
  obtain ⟨rfl, rfl⟩ := eL
  have eab : a.ctrl ++ b.ctrl.tail = d.ctrl := by
    rw [ha, hb, List.tail_drop, List.take_append_drop]
  refine ⟨by rw [eab]; exact hF, fun nrm hn => ?_⟩
  rw [← pathLength_append (m := m) nrm (by rw [ha, List.length_take]; omega) (by
    rw [ha, hb]
    simp [List.getD_eq_getElem?_getD, List.getElem?_drop]), eab]
  exact hF.length nrm hn

theorem Tamer.trans {P Q R : List V} (h : Tamer K P Q) (g : Tamer K Q R) : Tamer K P R :=
  ⟨fun nrm hn => (g.length nrm hn).trans (h.length nrm hn),
    fun f a n σ hc => h.sides f a n σ (g.sides f a n σ hc),
    fun C hC hb => g.cone C hC (h.cone C hC hb)⟩

/-- A part of a polygon. -/
theorem tamer_part {P Q : List V} {m : ℕ} (hl : m + Q.length ≤ P.length)
    (h : ∀ i < Q.length, Q.getD i 0 = P.getD (m + i) 0) : Tamer K P Q := by
  refine ⟨fun nrm hn => ?_, fun f a n σ hc => ?_, fun C hC hb i hi => ?_⟩
  · unfold pathLength
    rcases Nat.eq_zero_or_pos Q.length with h0 | h0
    · rw [h0]
      simpa using sum_nonneg fun i _ => nrm_nonneg hn _
    · rw [show P.length - 1 = m + (Q.length - 1 + (P.length - m - Q.length)) by omega, sum_range_add,
        sum_range_add]
      have h1 := sum_nonneg (s := range m) fun i _ => nrm_nonneg hn (P.getD (i + 1) 0 - P.getD i 0)
      have h2 := sum_nonneg (s := range (P.length - m - Q.length)) fun i _ =>
        nrm_nonneg hn (P.getD (m + (Q.length - 1 + i) + 1) 0 - P.getD (m + (Q.length - 1 + i)) 0)
      have h3 : ∑ i ∈ range (Q.length - 1), nrm (Q.getD (i + 1) 0 - Q.getD i 0)
          = ∑ i ∈ range (Q.length - 1), nrm (P.getD (m + i + 1) 0 - P.getD (m + i) 0) :=
        sum_congr rfl fun i hi => by
          have hi' : i < Q.length - 1 := by simpa using hi
          rw [h _ (by omega), h _ (by omega), add_assoc]
      rw [h3]
      linarith
  · obtain ⟨x, x1, x2, x3⟩ := hc
    refine ⟨fun j => m + x j, fun j hj => Nat.add_lt_add_left (x1 j hj) m,
      fun j hj => lt_of_lt_of_le (Nat.add_lt_add_left (x2 j hj) m) hl, fun j hj => ?_⟩
    have := x3 j hj
    simp only at this ⊢
    rwa [h _ (x2 j hj)] at this
  · rw [h _ hi, h _ (by omega), ← add_assoc]
    exact hb _ (by omega)

/-- C101: each piece of a split B-spline by itself. -/
theorem C101_bspline_pieces {eps : K} (heps : 0 ≤ eps) {c a b : BSpline K V} {p : ℕ}
    (hc : WellFormed c p) {t : K} (h1 : knot c.knots p < t) (h2 : t < knot c.knots c.ctrl.length)
    (e : c.split eps t = ok [a, b]) : Tamer K c.ctrl a.ctrl ∧ Tamer K c.ctrl b.ctrl := by
  have hT := (C101_bspline_split heps hc h1 h2 e).1
  unfold BSpline.split at e
  obtain ⟨dom, -, e⟩ := bind_eq_ok.1 e
  obtain ⟨⟨⟩, -, e⟩ := bind_eq_ok.1 e
  obtain ⟨lo, elo, e⟩ := bind_eq_ok.1 e
  obtain ⟨hi, ehi, e⟩ := bind_eq_ok.1 e
  rw [lower_eq hc] at elo
  rw [upper_eq hc] at ehi
  obtain rfl := ok.inj elo
  obtain rfl := ok.inj ehi
  rw [if_neg h1.ne', if_neg h2.ne] at e
  obtain ⟨k, -, e⟩ := bind_eq_ok.1 e
  obtain ⟨s, -, e⟩ := bind_eq_ok.1 e
  obtain ⟨d, ed, e⟩ := bind_eq_ok.1 e
  obtain ⟨a', b', m, eL, hm, ha, hb⟩ := splitPieces_ctrl e
  simp only [List.cons.injEq, and_true] at eL
  obtain ⟨rfl, rfl⟩ := eL
  have eab : a.ctrl ++ b.ctrl.tail = d.ctrl := by
    rw [ha, hb, List.tail_drop, List.take_append_drop]
  rw [eab] at hT
  refine ⟨hT.trans (tamer_part (m := 0) (by rw [ha, List.length_take]; omega) fun i hi => ?_),
    hT.trans (tamer_part (m := m) (by rw [hb, List.length_drop]; omega) fun i hi => ?_)⟩
  · have hi' : i < m + 1 := by
      rw [ha, List.length_take] at hi
      omega
    rw [ha, zero_add]
    simp [List.getD_eq_getElem?_getD, hi']
  · rw [hb]
    simp [List.getD_eq_getElem?_getD, List.getElem?_drop]

/-- C101: the control polygons of the Bézier pieces of a B-spline curve: each by itself, and the sum
of their lengths. -/
theorem C101_to_bezier {eps : K} (heps : 0 ≤ eps) {c : BSpline K V} {p : ℕ}
    (hc : WellFormed c p) (hf : FirstSpan c p ∨ p ≤ c.knots.count (knot c.knots p)) :
    ∃ segs bounds, c.toBezier eps = ok (segs, bounds) ∧
      (∀ s ∈ segs, s.ctrl.length = p + 1 ∧ Tamer K c.ctrl s.ctrl) ∧
      ∀ nrm : V → K, IsSeminorm nrm →
        (segs.map fun s => pathLength nrm s.ctrl).sum ≤ pathLength nrm c.ctrl := by
  obtain ⟨d, ks, bs, F, e, S, hmul⟩ := toBezier_cuts heps hc hf
  have hT : Tamer K c.ctrl d.ctrl := tamer_of_cuts F.cuts
  have hcl := F.wf.ctrl
  refine ⟨_, _, e, fun s hs => ?_, fun nrm hn => ?_⟩
  · obtain ⟨k, hk, rfl⟩ := List.mem_map.1 hs
    have hks : ∀ (ks : List ℕ) (bs : List K) (cur : K), Spans d.knots d.ctrl.length p cur ks bs →
        ∀ k ∈ ks, p ≤ k ∧ k < d.ctrl.length := by
      intro ks
      induction ks with
      | nil => intro _ _ _ k hk; simp at hk
      | cons k' ks ih =>
        intro bs cur H k hk
        cases bs with
        | nil => exact H.elim
        | cons b bs =>
          obtain ⟨h1, h2, -, -, -, h6⟩ := H
          rcases List.mem_cons.1 hk with rfl | hk
          · exact ⟨h1, h2⟩
          · exact ih bs b h6 k hk
    obtain ⟨k1, k2⟩ := hks ks bs _ S k hk
    refine ⟨by simp [pieceAt], hT.trans (tamer_part (m := k - p) (by simp [pieceAt]; omega)
      fun i hi => ?_)⟩
    have hi' : i < p + 1 := by simpa [pieceAt] using hi
    simp only [pieceAt]
    rw [arr_getD _ _ _ _ hi']
  · refine le_trans ?_ (hT.length nrm hn)
    rw [List.map_map]
    have h := spans_length F.wf (fun i => nrm (d.ctrl.getD (i + 1) 0 - d.ctrl.getD i 0))
      (fun i => nrm_nonneg hn _) (by rw [F.lower, F.upper]; exact hmul) ks bs _ 0
      (by rw [F.lower]) S (fun _ _ => Nat.zero_le _) (by omega)
    simp only [Nat.sub_zero, zero_add] at h
    refine le_trans (le_of_eq ?_) h
    congr 1
    refine List.map_congr_left fun k _ => ?_
    simp only [Function.comp, pathLength, pieceAt, arr_length, Nat.add_sub_cancel]
    refine sum_congr rfl fun i hi => ?_
    have hi' : i < p := by simpa using hi
    rw [arr_getD _ _ _ _ (by omega), arr_getD _ _ _ _ (by omega), add_assoc]

/-! ### Convergence -/

/-- C101: after any insertions, the control points that belong to a span are close to the points of
the curve on that span: the distance is at most the degree times the largest difference `h` of
neighbouring knots nearby times the slope `B` of the original control polygon. -/
theorem C101_refinement {nrm : V → K} (hn : IsSeminorm nrm) {eps : K} (heps : 0 ≤ eps)
    {c c' : BSpline K V} {p : ℕ} (hc : WellFormed c p) (hw : Wide c p) (hp : p ≠ 0) {f : K → V}
    {D : K → Prop}
    (hD : ∀ t, D t → knot c.knots p ≤ t ∧ t ≤ knot c.knots c.ctrl.length ∧
      (FirstSpan c p ∨ knot c.knots p < t) ∧
      (t < knot c.knots c.ctrl.length ∨ c.periodic = false))
    (hf : ∀ t, D t → c.evaluate t = ok (f t)) {B : K} (hB0 : 0 ≤ B)
    (hB : ∀ i, i + 1 < c.ctrl.length → nrm (c.ctrl.getD (i + 1) 0 - c.ctrl.getD i 0)
      ≤ B * ((∑ r ∈ range p, knot c.knots (i + 1 + 1 + r)) / p
        - (∑ r ∈ range p, knot c.knots (i + 1 + r)) / p))
    {ops : List (K × ℕ)}
    (hops : ∀ op ∈ ops, knot c.knots p < op.1 ∧ op.1 ≤ knot c.knots c.ctrl.length ∧ 1 ≤ op.2)
    (e : ops.foldlM (fun c op => c.insertKnot eps op.1 op.2) c = ok c') {t : K} (ht : D t) {k : ℕ}
    (hpk : p ≤ k) (hk : k < c'.ctrl.length)
    (hin : InSpan (knot c'.knots) (knot c'.knots c'.ctrl.length) k t) {h : K} (h0 : 0 ≤ h)
    (hgap : ∀ l, k - p < l → l < k + p → knot c'.knots (l + 1) - knot c'.knots l ≤ h) :
    ∀ i, k - p ≤ i → i ≤ k → nrm (c'.ctrl.getD i 0 - f t) ≤ B * (p * h) := by
  intro i hi1 hi2
  have F := insertAll_finer heps ops hc hops e
  have hl := F.wf.len
  have hlt := hin.lt
  obtain ⟨a1, a2, -, -⟩ := hD t ht
  rw [bspline_value hc hw hD hf ht, ← F.point t a1 a2, bsplinePoint,
    sum_basis_support (monoTo_knot F.wf.sorted) hin hpk hk (by omega)]
  have hslope := @refined_slope K V _ _ _ _ _ _ nrm hn eps heps p hp ops c c' hc hops e B hB k hpk hk hlt
  have hab : ∀ x y, k - p ≤ x → x ≤ y → y ≤ k →
      nrm (c'.ctrl.getD y 0 - c'.ctrl.getD x 0) ≤ B * (p * h) := by
    intro x y hx hxy hy
    refine (hslope hx hxy hy).trans (mul_le_mul_of_nonneg_left ?_ hB0)
    have := abscissa_mono F.wf.sorted (p := p) hy (by omega)
    have := abscissa_gap (u := c'.knots) hp (hxy.trans hy) (by omega) h0 (i := x) (k := k)
      (fun l l1 l2 => hgap l (by omega) l2)
    linarith
  refine nrm_combo hn (fun j hj => basis_nonneg (monoTo_knot F.wf.sorted) hin (by omega) p _ (by omega))
    (sum_basis_one (monoTo_knot F.wf.sorted) hin hpk (by omega)) fun j hj => ?_
  rcases le_total (k - p + j) i with hji | hji
  · exact hab _ _ (by omega) hji hi2
  · rw [nrm_sub_comm hn]
    exact hab _ _ hi1 hji (by omega)

/-- Inserting distinct new knots always succeeds. -/
theorem insertAll_new {eps : K} (heps : 0 ≤ eps) {p : ℕ} (hp : p ≠ 0) (L : List K) :
    ∀ {c : BSpline K V}, WellFormed c p → L.Nodup →
      (∀ t ∈ L, knot c.knots p < t ∧ t < knot c.knots c.ctrl.length ∧ t ∉ c.knots) →
      ∃ c', (L.map fun t => (t, 1)).foldlM (fun c op => c.insertKnot eps op.1 op.2) c = ok c' ∧
        c'.knots.Perm (L ++ c.knots) := by
  induction L with
  | nil => intro c hc _ _; exact ⟨c, rfl, List.Perm.refl _⟩
  | cons t L ih =>
    intro c hc hnd hL
    obtain ⟨b1, b2, b3⟩ := hL t (by simp)
    have hcount : c.knots.count t = 0 := List.count_eq_zero.2 b3
    obtain ⟨c1, e1, I⟩ := (insertKnot_inserted heps hc (Or.inr b1) b1.le b2.le (r := 1) le_rfl).2 (by
      rw [if_neg b2.ne, hcount]; omega)
    have hmem : ∀ x, x ∈ c1.knots ↔ x = t ∨ x ∈ c.knots := by
      intro x
      rw [I.perm.mem_iff]
      simp
    obtain ⟨c', e', hP⟩ := ih I.wf (List.nodup_cons.1 hnd).2 (fun x hx => by
      obtain ⟨d1, d2, d3⟩ := hL x (by simp [hx])
      refine ⟨by rw [I.lower]; exact d1, by rw [I.upper]; exact d2, fun hm => ?_⟩
      rcases (hmem x).1 hm with rfl | hm
      · exact (List.nodup_cons.1 hnd).1 hx
      · exact d3 hm)
    refine ⟨c', ?_, ?_⟩
    · rw [List.map_cons, List.foldlM_cons]
      simp only
      rw [e1, ok_bind, e']
    · refine hP.trans ((List.Perm.append_left L I.perm).trans ?_)
      simp only [List.replicate_one, List.cons_append, List.nil_append]
      exact List.perm_middle

/-- The refined knots: `M - 1` equidistant knots between the ends. -/
def gridKnots (lo hi : K) (M : ℕ) (u : List K) : List K :=
  ((List.range M).map fun j : ℕ => lo + (j : K) * ((hi - lo) / M)).filter
    fun x => decide (lo < x ∧ x ∉ u)

/-- C101: for a clamped curve every tolerance is reached by inserting enough equidistant knots. -/
theorem C101_refinement_converges {nrm : V → K} (hn : IsSeminorm nrm) {eps : K} (heps : 0 ≤ eps)
    {c : BSpline K V} {p : ℕ} (hc : WellFormed c p) (hw : Wide c p) (hp : p ≠ 0)
    (hlo : knot c.knots 0 = knot c.knots p)
    (hhi : knot c.knots (c.ctrl.length + p) = knot c.knots c.ctrl.length) {f : K → V}
    {D : K → Prop}
    (hD : ∀ t, D t → knot c.knots p ≤ t ∧ t ≤ knot c.knots c.ctrl.length ∧
      (FirstSpan c p ∨ knot c.knots p < t) ∧
      (t < knot c.knots c.ctrl.length ∨ c.periodic = false))
    (hf : ∀ t, D t → c.evaluate t = ok (f t)) {B : K} (hB0 : 0 ≤ B)
    (hB : ∀ i, i + 1 < c.ctrl.length → nrm (c.ctrl.getD (i + 1) 0 - c.ctrl.getD i 0)
      ≤ B * ((∑ r ∈ range p, knot c.knots (i + 1 + 1 + r)) / p
        - (∑ r ∈ range p, knot c.knots (i + 1 + r)) / p)) {tol : K} (htol : 0 < tol) :
    ∃ M, ∀ m, M ≤ m → ∃ c', ((gridKnots (knot c.knots p) (knot c.knots c.ctrl.length) m c.knots).map
        fun t => (t, 1)).foldlM (fun c op => c.insertKnot eps op.1 op.2) c = ok c' ∧
      ∀ t, D t → ∃ k, p ≤ k ∧ k < c'.ctrl.length ∧
        knot c'.knots k ≤ t ∧ t ≤ knot c'.knots (k + 1) ∧
        ∀ i, k - p ≤ i → i ≤ k → nrm (c'.ctrl.getD i 0 - f t) ≤ tol := by
  set lo := knot c.knots p with hlo'
  set hi := knot c.knots c.ctrl.length with hhi'
  have hdom : lo < hi := hc.dom
  have hl := hc.len
  have hcl := hc.ctrl
  have hpK : (0 : K) < p := by exact_mod_cast Nat.pos_of_ne_zero hp
  obtain ⟨M, hM⟩ := exists_nat_gt (B * p * (hi - lo) / tol)
  refine ⟨M + 1, fun m hm => ?_⟩
  have hm0 : (0 : K) < m := by
    have : 0 < m := by omega
    exact_mod_cast this
  set H := (hi - lo) / m with hH
  have hH0 : 0 < H := div_pos (by linarith) hm0
  have hBH : B * (p * H) ≤ tol := by
    have h1 : B * p * (hi - lo) / tol < m := hM.trans_le (by exact_mod_cast (by omega : M ≤ m))
    rw [div_lt_iff₀ htol] at h1
    have h2 : B * (p * H) = B * p * (hi - lo) / m := by rw [hH]; ring
    rw [h2, div_le_iff₀ hm0]
    linarith
  set L := gridKnots lo hi m c.knots with hL
  have hmemL : ∀ x, x ∈ L ↔ (∃ j < m, lo + (j : K) * H = x) ∧ lo < x ∧ x ∉ c.knots := by
    intro x
    rw [hL, gridKnots, List.mem_filter]
    simp [hH]
  have hnd : L.Nodup := by
    rw [hL, gridKnots]
    refine List.Nodup.filter _ (List.Nodup.map ?_ List.nodup_range)
    intro a b hab
    have h1 : (a : K) * H = b * H := by
      simp only at hab
      linarith
    exact_mod_cast mul_right_cancel₀ hH0.ne' h1
  have hLin : ∀ t ∈ L, lo < t ∧ t < hi ∧ t ∉ c.knots := by
    intro t ht
    obtain ⟨⟨j, hj, rfl⟩, h1, h2⟩ := (hmemL t).1 ht
    refine ⟨h1, ?_, h2⟩
    have h3 : (j : K) * H < m * H := mul_lt_mul_of_pos_right (by exact_mod_cast hj) hH0
    have h4 : (m : K) * H = hi - lo := by rw [hH]; field_simp
    linarith
  obtain ⟨c', e, hP⟩ := insertAll_new heps hp L hc hnd hLin
  refine ⟨c', e, fun t ht => ?_⟩
  have hops : ∀ op ∈ L.map (fun t => (t, 1)), lo < op.1 ∧ op.1 ≤ hi ∧ 1 ≤ op.2 := by
    intro op ho
    obtain ⟨x, hx, rfl⟩ := List.mem_map.1 ho
    exact ⟨(hLin x hx).1, (hLin x hx).2.1.le, le_rfl⟩
  have F := insertAll_finer heps _ hc hops e
  have hl' := F.wf.len
  have hcl' := F.wf.ctrl
  obtain ⟨a1, a2, -, -⟩ := hD t ht
  obtain ⟨k, k1, k2, k3⟩ := exists_inSpan (u := knot c'.knots) (p := p) (n := c'.ctrl.length)
    F.wf.dom (by omega) (t := t) (by rw [F.lower]; exact a1) (by rw [F.upper]; exact a2)
    (fun i j hij hj => knot_mono F.wf.sorted hij (by omega))
  refine ⟨k, k1, k2, k3.bounds.1, k3.bounds.2, fun i hi1 hi2 => ?_⟩
  have hrange : ∀ x ∈ c'.knots, lo ≤ x ∧ x ≤ hi := by
    intro x hx
    rw [hP.mem_iff, List.mem_append] at hx
    rcases hx with hx | hx
    · exact ⟨(hLin x hx).1.le, (hLin x hx).2.1.le⟩
    · obtain ⟨j, hj, rfl⟩ := (mem_knots_iff _ _).1 hx
      refine ⟨?_, ?_⟩
      · rw [← hlo]; exact knot_mono hc.sorted (by omega) (by omega)
      · rw [← hhi]; exact knot_mono hc.sorted (by omega) (by omega)
  refine (C101_refinement hn heps hc hw hp hD hf hB0 hB hops e ht k1 k2 k3 hH0.le
    (fun l l1 l2 => ?_) i hi1 hi2).trans hBH
  by_contra hgap
  push Not at hgap
  have r1 := (hrange _ ((mem_knots_iff c'.knots (knot c'.knots l)).2 ⟨l, by omega, rfl⟩)).1
  have r2 := (hrange _ ((mem_knots_iff c'.knots (knot c'.knots (l + 1))).2 ⟨l + 1, by omega, rfl⟩)).2
  set q := ⌊(knot c'.knots l - lo) / H⌋₊ with hq
  have q1 : (q : K) ≤ (knot c'.knots l - lo) / H :=
    Nat.floor_le (div_nonneg (by linarith) hH0.le)
  have q2 : (knot c'.knots l - lo) / H < q + 1 := Nat.lt_floor_add_one _
  rw [le_div_iff₀ hH0] at q1
  rw [div_lt_iff₀ hH0] at q2
  set x := lo + ((q + 1 : ℕ) : K) * H with hx
  have hx' : x = lo + (q + 1) * H := by rw [hx]; push_cast; ring
  have x1 : knot c'.knots l < x := by rw [hx']; linarith
  have x2 : x < knot c'.knots (l + 1) := by rw [hx']; linarith
  have hxm : x ∈ c'.knots := by
    rw [hP.mem_iff, List.mem_append]
    by_cases hxu : x ∈ c.knots
    · exact Or.inr hxu
    · left
      refine (hmemL x).2 ⟨⟨q + 1, ?_, rfl⟩, r1.trans_lt x1, hxu⟩
      by_contra hqm
      have h4 : (m : K) * H = hi - lo := by rw [hH]; field_simp
      have h5 : (m : K) * H ≤ ((q + 1 : ℕ) : K) * H :=
        mul_le_mul_of_nonneg_right (by exact_mod_cast (by omega : m ≤ q + 1)) hH0.le
      have h6 : hi ≤ x := by rw [hx]; linarith
      linarith
  obtain ⟨j, hj, hjx⟩ := (mem_knots_iff _ _).1 hxm
  rcases Nat.lt_or_ge l j with hlj | hlj
  · have := knot_mono F.wf.sorted (i := l + 1) (j := j) (by omega) (by omega)
    rw [hjx] at this
    exact absurd x2 (not_lt.2 this)
  · have := knot_mono F.wf.sorted (i := j) (j := l) hlj (by omega)
    rw [hjx] at this
    exact absurd x1 (not_lt.2 this)

end General

/-! ### The hypotheses are satisfiable -/

/-- A quadratic spline with an inner knot. -/
def exCut : BSpline ℚ ℚ := { ctrl := [0, 4, 1, 3], knots := [0, 0, 0, 1 / 2, 1, 1, 1] }

theorem exCut_wf : WellFormed exCut 2 :=
  ⟨by decide, Or.inl rfl, by decide, by decide +kernel, by decide +kernel⟩

theorem exCut_wide : Wide exCut 2 := by
  intro i h1 h2
  have h2' : i < 4 := h2
  interval_cases i <;> decide +kernel

theorem exCut_first : FirstSpan exCut 2 := by unfold FirstSpan; decide +kernel

/-- An insertion that strictly shortens the polygon. -/
example : ∃ c', exCut.insertKnot 0 (1 / 4) 1 = ok c' ∧ c'.ctrl = [0, 2, 13 / 4, 1, 3] ∧
    pathLength (fun x : ℚ => |x|) c'.ctrl = 15 / 2 ∧ pathLength (fun x : ℚ => |x|) exCut.ctrl = 9 :=
  ⟨{ ctrl := [0, 2, 13 / 4, 1, 3], knots := [0, 0, 0, 1 / 4, 1 / 2, 1, 1, 1] },
    by decide +kernel, rfl, by decide +kernel, by decide +kernel⟩

example : Tamer ℚ exCut.ctrl [0, 2, 13 / 4, 1, 3] :=
  C101_insert_knot (c := exCut) (eps := 0) (t := 1 / 4) (m := 1) le_rfl exCut_wf (Or.inl exCut_first)
    (by decide +kernel) (by decide +kernel) le_rfl
    (c' := { ctrl := [0, 2, 13 / 4, 1, 3], knots := [0, 0, 0, 1 / 4, 1 / 2, 1, 1, 1] })
    (by decide +kernel)

/-- The polygon changes sides of the point `2` three times; no refinement does so more often. -/
example : Changes (· < exCut.ctrl.length) (fun i => (LinearMap.id : ℚ →ₗ[ℚ] ℚ) (exCut.ctrl.getD i 0) + -2)
    3 (-1) :=
  ⟨id, fun j _ => Nat.lt_succ_self j, fun j hj => Nat.lt_succ_of_le hj, fun j hj => by
    interval_cases j <;> decide +kernel⟩

/-- Both pieces, and the Bézier pieces. -/
example : ∃ a b, exCut.split 0 (1 / 4) = ok [a, b] ∧ a.ctrl = [0, 2, 21 / 8] ∧
    b.ctrl = [21 / 8, 13 / 4, 1, 3] := by
  refine ⟨{ ctrl := [0, 2, 21 / 8], knots := [0, 0, 0, 1 / 4, 1 / 4, 1 / 4] },
    { ctrl := [21 / 8, 13 / 4, 1, 3], knots := [1 / 4, 1 / 4, 1 / 4, 1 / 2, 1, 1, 1] },
    by decide +kernel, rfl, rfl⟩

example : exCut.toBezier 0 = ok ([{ ctrl := [0, 4, 5 / 2] }, { ctrl := [5 / 2, 1, 3] }],
    [0, 1 / 2, 1]) := by decide +kernel

/-- The tolerance is reached for this curve. -/
example (f : ℚ → ℚ) (hf : ∀ t, 0 ≤ t ∧ t ≤ 1 → exCut.evaluate t = ok (f t)) :
    ∃ M, ∀ m, M ≤ m → ∃ c', ((gridKnots 0 1 m exCut.knots).map fun t => (t, 1)).foldlM
        (fun c op => c.insertKnot 0 op.1 op.2) exCut = ok c' ∧
      ∀ t, (0 ≤ t ∧ t ≤ 1) → ∃ k, 2 ≤ k ∧ k < c'.ctrl.length ∧
        knot c'.knots k ≤ t ∧ t ≤ knot c'.knots (k + 1) ∧
        ∀ i, k - 2 ≤ i → i ≤ k → |c'.ctrl.getD i 0 - f t| ≤ 1 / 1000 := by
  refine C101_refinement_converges (p := 2) (B := 16) (D := fun t => 0 ≤ t ∧ t ≤ 1) abs_isSeminorm
    le_rfl exCut_wf exCut_wide two_ne_zero (by decide +kernel) (by decide +kernel)
    (fun t ht => ⟨ht.1, ht.2, Or.inl exCut_first, Or.inr rfl⟩) hf (by norm_num) ?_ (by norm_num)
  intro i hi
  have hi' : i + 1 < 4 := hi
  have hi3 : i < 3 := by omega
  interval_cases i <;> decide +kernel

example : gridKnots 0 1 4 exCut.knots = [1 / 4, 3 / 4] := by decide +kernel

example : ∃ c', Bezier.elevateDegree ℚ ({ ctrl := [0, 3, 0] } : Bezier ℚ) = ok c' ∧
    c'.ctrl = [0, 2, 2, 0] := ⟨{ ctrl := [0, 2, 2, 0] }, by decide +kernel, rfl⟩

example : Bezier.split ({ ctrl := [0, 4, 0] } : Bezier ℚ) (1 / 2 : ℚ)
    = ok [{ ctrl := [0, 2, 2] }, { ctrl := [2, 2, 0] }] := by decide +kernel

/-- A rational segment with positive weights, and one with weights of both signs. -/
def exSeg (w : ℚ) : NURBS ℚ ℚ :=
  { base := { ctrl := [0, 1], knots := [0, 0, 1, 1] }, weights := [1, w]
    hom := { ctrl := [(0, 1), (w, w)], knots := [0, 0, 1, 1] } }

example : ∃ c', (exSeg 3).init = ok (exSeg 3) ∧ (exSeg 3).insertKnot 0 (1 / 2) 1 = ok c' ∧
    c'.base.ctrl = [0, 3 / 4, 1] :=
  ⟨{ base := { ctrl := [0, 3 / 4, 1], knots := [0, 0, 1 / 2, 1, 1] }, weights := [1, 2, 3]
     hom := { ctrl := [(0, 1), (3 / 2, 2), (3, 3)], knots := [0, 0, 1 / 2, 1, 1] } },
    by decide +kernel, by decide +kernel, rfl⟩

/-- C101: with weights of both signs an insertion can lengthen the control polygon. -/
theorem C101_signed_weights_refuted : ∃ c' : NURBS ℚ ℚ, (exSeg (-1 / 2)).init = ok (exSeg (-1 / 2)) ∧
    (exSeg (-1 / 2)).insertKnot 0 (1 / 2) 1 = ok c' ∧ c'.base.ctrl = [0, -1, 1] ∧
    pathLength (fun x : ℚ => |x|) (exSeg (-1 / 2)).base.ctrl = 1 ∧
    pathLength (fun x : ℚ => |x|) c'.base.ctrl = 3 :=
  ⟨{ base := { ctrl := [0, -1, 1], knots := [0, 0, 1 / 2, 1, 1] }, weights := [1, 1 / 4, -1 / 2]
     hom := { ctrl := [(0, 1), (-1 / 4, 1 / 4), (-1 / 2, -1 / 2)], knots := [0, 0, 1 / 2, 1, 1] } },
    by decide +kernel, by decide +kernel, rfl, by decide +kernel, by decide +kernel⟩

end NS.Props
