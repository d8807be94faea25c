import Verif.Props.Combine
import Mathlib.Tactic.IntervalCases

/-!
# Properties: degree elevation of B-splines and NURBS (C73)
-/

set_option linter.unusedSectionVars false
set_option linter.unusedSimpArgs false

namespace NS.Props

open Outcome Spec BSpline Finset

variable {K V : Type} [Field K] [LinearOrder K] [IsStrictOrderedRing K] [FloorRing K]
  [AddCommGroup V] [Module K V]

theorem elevateAll_spec : ∀ (bs : List (Bezier V)), (∀ b ∈ bs, b.ctrl ≠ []) →
    ∃ es, elevateAll (K := K) bs = ok es ∧
      List.Forall₂ (fun b e => e.ctrl.length = b.ctrl.length + 1 ∧ e.periodic = b.periodic ∧
        ∀ t : K, Bezier.evaluate e t = Bezier.evaluate b t) bs es := by
  intro bs
  induction bs with
  | nil => intro _; exact ⟨[], rfl, .nil⟩
  | cons b bs ih =>
    intro h
    obtain ⟨e, h1, h2, h3, h4⟩ := C10_elevate (K := K) b (h b (by simp))
    obtain ⟨es, h5, h6⟩ := ih (fun x hx => h x (by simp [hx]))
    exact ⟨e :: es, by simp [elevateAll, h1, h5], .cons ⟨h2, h3, h4⟩ h6⟩

/-- Distinct knots of the domain are further apart than `1e-16`. -/
theorem wide_gap {c : BSpline K V} {p : ℕ} (hc : WellFormed c p) (hw : Wide c p) {a b : K}
    (ha : a ∈ c.knots) (hb : b ∈ c.knots) (h1 : knot c.knots p ≤ a)
    (h2 : b ≤ knot c.knots c.ctrl.length) (hab : a < b) : 1 / 10 ^ 16 < b - a := by
  have hl := hc.len
  obtain ⟨j, hj, rfl⟩ := (mem_knots_iff _ _).1 hb
  obtain ⟨i, hi, rfl⟩ := (mem_knots_iff _ _).1 ha
  have hex : ∃ m, knot c.knots i < knot c.knots (p + m) ∧ p + m ≤ j := by
    have : p ≤ j := by
      by_contra h
      have := knot_mono hc.sorted (show j ≤ p by omega) (by omega)
      exact absurd (lt_of_lt_of_le hab this) (not_lt.2 h1)
    exact ⟨j - p, by rw [show p + (j - p) = j by omega]; exact hab, by omega⟩
  classical
  obtain ⟨g1, g2⟩ := Nat.find_spec hex
  set m := Nat.find hex
  have hm : m ≠ 0 := by
    intro h; rw [h, add_zero] at g1
    exact absurd g1 (not_lt.2 h1)
  have g3 := Nat.find_min hex (show m - 1 < m by omega)
  have g4 : knot c.knots (p + (m - 1)) ≤ knot c.knots i := by
    by_contra h
    exact g3 ⟨not_le.1 h, by omega⟩
  have g5 := knot_mono hc.sorted g2 hj
  have g6 : knot c.knots i ≤ knot c.knots (p + (m - 1)) := by
    apply knot_mono hc.sorted _ (by omega)
    by_contra h
    have := knot_mono hc.sorted (show p + m ≤ i by omega) hi
    linarith
  have hlt : p + (m - 1) < c.ctrl.length := by
    by_contra h
    have := knot_mono hc.sorted (show c.ctrl.length ≤ p + (m - 1) by omega) (by omega)
    linarith
  have e : p + (m - 1) + 1 = p + m := by omega
  have := hw (p + (m - 1)) (by omega) hlt (by rw [e]; linarith)
  rw [e] at this
  linarith

/-- C73: `elevate_degree` of a spline whose inner knots have multiplicity at most the degree
succeeds; the result has one degree more, the same domain and periodic flag, and on the domain it
is within `r eps` of the spline, where `r` counts the knots that were left out. -/
theorem C73_elevate_partial {nrm : V → K} (hn : IsSeminorm nrm) (extent : List V → K) {eps : K}
    (heps : 0 < eps) {c : BSpline K V} {p : ℕ} (hp : 1 ≤ p) (hc : WellFormed c p) (hw : Wide c p)
    (hf : FirstSpan c p)
    (hmult : ∀ y ∈ c.knots, y < knot c.knots c.ctrl.length → knot c.knots p < y →
      c.knots.count y ≤ p) :
    ∃ (c' : BSpline K V) (r : ℕ), c.elevateDegree nrm extent eps = ok c' ∧ WellFormed c' (p + 1) ∧
      c'.periodic = c.periodic ∧ knot c'.knots (p + 1) = knot c.knots p ∧
      knot c'.knots c'.ctrl.length = knot c.knots c.ctrl.length ∧
      (∀ y ∈ c'.knots, y ∈ c.knots) ∧
      ∀ x : K, knot c.knots p ≤ x → (x < knot c.knots c.ctrl.length ∨
          (c.periodic = false ∧ x ≤ knot c.knots c.ctrl.length)) →
        ∃ Q Q', c.evaluate x = ok Q ∧ c'.evaluate x = ok Q' ∧ nrm (Q' - Q) ≤ (r : K) * eps := by
  have hl := hc.len
  have hcl := hc.ctrl
  have hz : nrm 0 = 0 := by simpa using hn.smul 0 0
  obtain ⟨segs, bds, e, Ps⟩ := toBezier_spec heps.le hc (Or.inl hf)
  obtain ⟨g1, g2, g3, g4, g5⟩ := pieces_index segs bds _ Ps
  have gm := pieces_mem segs bds _ ((mem_knots_iff _ _).mpr ⟨p, by omega, rfl⟩) Ps
  set bounds := knot c.knots p :: bds with hbounds
  have hbl : bounds.length = segs.length + 1 := by simp [hbounds, g1]
  have hseg : ∀ i (h : i < segs.length), ∃ (h1 : i < bounds.length) (h2 : i + 1 < bounds.length),
      PieceOf c p bounds[i] bounds[i + 1] segs[i] := fun i h => by
    obtain ⟨a, b, h1, h2, h3⟩ := g5 i segs[i] (by simp)
    obtain ⟨k1, rfl⟩ := List.getElem?_eq_some_iff.mp h1
    obtain ⟨k2, rfl⟩ := List.getElem?_eq_some_iff.mp h2
    exact ⟨k1, k2, h3⟩
  have hne : segs ≠ [] := by
    intro h
    have h0 : bds.length = 0 := by rw [g1, h]; rfl
    have : bds = [] := List.length_eq_zero_iff.1 h0
    rw [hbounds, this] at g3
    simp only [List.getLast?_singleton, Option.some.injEq] at g3
    exact absurd g3 hc.dom.ne
  have hctrl : ∀ b ∈ segs, b.ctrl ≠ [] := fun b hb => by
    obtain ⟨i, hi, rfl⟩ := List.mem_iff_getElem.1 hb
    obtain ⟨_, _, h⟩ := hseg i hi
    intro h0
    have := h.len
    rw [h0] at this
    simp at this
  obtain ⟨es, he, hF⟩ := elevateAll_spec (K := K) segs hctrl
  have hel : es.length = segs.length := hF.length_eq.symm
  have hei : ∀ i (h : i < segs.length) (h' : i < es.length), es[i].ctrl.length = p + 2 ∧
      es[i].periodic = false ∧ ∀ t : K, Bezier.evaluate es[i] t = Bezier.evaluate segs[i] t :=
    fun i h h' => by
      obtain ⟨k1, k2, k3⟩ := (List.forall₂_iff_get.1 hF).2 i h h'
      obtain ⟨_, _, hP⟩ := hseg i h
      simp only [List.get_eq_getElem] at k1 k2 k3
      rw [hP.len] at k1
      rw [hP.periodic] at k2
      exact ⟨k1, k2, k3⟩
  have hval : ∀ i (h : i < segs.length) (h' : i < es.length) (h1 : i < bounds.length)
      (h2 : i + 1 < bounds.length) (s : K), 0 ≤ s → s ≤ 1 →
      bezierPoint es[i].ctrl s
        = bsplinePoint p c.knots c.ctrl ((1 - s) * bounds[i] + s * bounds[i + 1]) :=
    fun i h h' h1 h2 s hs0 hs1 => by
      obtain ⟨k1, k2, k3⟩ := hei i h h'
      obtain ⟨_, _, hP⟩ := hseg i h
      have hb := (gm bounds[i + 1]).1 (List.getElem_mem _)
      have hlt : bounds[i] < bounds[i + 1] := List.pairwise_iff_getElem.mp g2 _ _ h1 h2 (by omega)
      have ha := (gm bounds[i]).1 (List.getElem_mem _)
      have hv := hP.value s hs0 hs1 (by
        rcases eq_or_lt_of_le hb.2.2 with q | q
        · exact Or.inr (Or.inl q)
        · exact Or.inr (Or.inr (hmult _ hb.1 q (lt_of_le_of_lt ha.2.1 hlt))))
      rw [← k3 s] at hv
      have hE : es[i] = { ctrl := es[i].ctrl, periodic := false } := by
        rw [← k2]
      rw [hE, Bezier.evaluate_eq _ (by intro h0; rw [h0] at k1; simp at k1), ok.injEq] at hv
      exact hv
  have hends : ∀ (l : List V) (m : ℕ), l.length = m + 1 →
      bezierPoint l (0 : K) = l.getD 0 0 ∧ bezierPoint l (1 : K) = l.getD m 0 := by
    intro l m hlm
    have h1 : l = arr (m + 1) (fun i => l.getD i 0) := by
      rw [← hlm]; exact eq_arr l 0
    constructor
    · conv_lhs => rw [h1]
      rw [Bezier.arr_bezierPoint, lin_zero, one_pow, umb_one]
    · conv_lhs => rw [h1]
      rw [Bezier.arr_bezierPoint, lin_one, umb_X_pow]
  have hjoint : ∀ i (h : i + 1 < es.length),
      nrm (es[i + 1].ctrl.getD 0 0 - es[i].ctrl.getD (p + 1) 0) ≤ 0 := fun i h => by
    have q1 := hei i (by omega) (by omega)
    have q2 := hei (i + 1) (by omega) h
    rw [← (hends _ (p + 1) q2.1).1, ← (hends _ (p + 1) q1.1).2,
      hval i (by omega) (by omega) (by omega) (by omega) 1 zero_le_one le_rfl,
      hval (i + 1) (by omega) h (by omega) (by omega) 0 le_rfl zero_le_one]
    simp [hz]
  have hchain : Chain nrm eps (p + 1) es := by
    constructor
    · intro b hb
      obtain ⟨i, hi, rfl⟩ := List.mem_iff_getElem.1 hb
      exact (hei i (by omega) hi).1
    · intro i h
      exact lt_of_le_of_lt (hjoint i h) heps
  have hsd : (c.sdeg.map (· + 1)) = none ∨ (c.sdeg.map (· + 1)) = some (p + 1) := by
    rcases hc.sdeg with h | h <;> simp [h]
  obtain ⟨n, r, e2, a1, a2, a3, a4, a5, a6, a7, a8, a9, a10⟩ := C22_combine_partial hn extent
    heps.le (d := p + 1) (by omega) hsd (bs := es)
    (by intro h0; rw [h0] at hel; exact hne (List.length_eq_zero_iff.1 hel.symm)) hchain le_rfl
    hjoint (bounds := bounds) (by rw [hbl, hel]) (by
      rw [List.pairwise_iff_getElem]
      intro i j hi hj hij
      have h1 := (gm bounds[i]).1 (List.getElem_mem _)
      have h2 := (gm bounds[j]).1 (List.getElem_mem _)
      exact wide_gap hc hw h1.1 h2.1 h1.2.1 h2.2.2 (List.pairwise_iff_getElem.mp g2 _ _ hi hj hij))
  have hb0 : bounds.getD 0 0 = knot c.knots p := rfl
  have hbn : bounds.getD es.length 0 = knot c.knots c.ctrl.length := by
    rw [List.getLast?_eq_getElem?, hbl, Nat.add_sub_cancel] at g3
    simp [List.getD, hel, g3]
  refine ⟨{ n with periodic := c.periodic }, r, ?_, ⟨a1.len, a1.sdeg, a1.ctrl, a1.sorted, a1.dom⟩,
    rfl, by rw [← hb0]; exact a5, by rw [← hbn]; exact a6,
    fun y hy => ((gm y).1 (a7 y hy)).1, ?_⟩
  · unfold BSpline.elevateDegree
    rw [throwIf_false (by rw [degree_eq hc]; omega), ok_bind, e, ok_bind]
    simp only []
    rw [he, ok_bind, e2, ok_bind]
    rfl
  · intro x hx1 hx2
    have hx3 : x ≤ knot c.knots c.ctrl.length := by
      rcases hx2 with h | h
      · exact h.le
      · exact h.2
    obtain ⟨i, hi, hi1, hi2⟩ : ∃ i, i < segs.length ∧ bounds.getD i 0 ≤ x ∧
        x ≤ bounds.getD (i + 1) 0 := by
      have hex : ∃ m, x ≤ bounds.getD (m + 1) 0 ∧ m < segs.length := by
        have := List.length_pos_iff.2 hne
        exact ⟨segs.length - 1, by
          rw [show segs.length - 1 + 1 = es.length by omega, hbn]; exact hx3, by omega⟩
      classical
      obtain ⟨k1, k2⟩ := Nat.find_spec hex
      refine ⟨Nat.find hex, k2, ?_, k1⟩
      by_cases h0 : Nat.find hex = 0
      · rw [h0, hb0]; exact hx1
      · have := Nat.find_min hex (show Nat.find hex - 1 < Nat.find hex by omega)
        rw [show Nat.find hex - 1 + 1 = Nat.find hex by omega] at this
        by_contra h
        exact this ⟨(not_le.1 h).le, by omega⟩
    obtain ⟨Q, b1, b2⟩ := a10 i (by omega) x hi1 hi2
    rw [add_zero] at b2
    set a := bounds.getD i 0 with hadef
    set b := bounds.getD (i + 1) 0 with hbdef
    have eA : a = bounds[i] := by simp [hadef, List.getD, show i < bounds.length by omega]
    have eB : b = bounds[i + 1] := by simp [hbdef, List.getD, show i + 1 < bounds.length by omega]
    have hlt : a < b := by
      rw [eA, eB]; exact List.pairwise_iff_getElem.mp g2 _ _ (by omega) (by omega) (by omega)
    have h4 : 0 < b - a := by linarith
    set s := (x - a) / (b - a) with hsdef
    have hs0 : 0 ≤ s := div_nonneg (by linarith) h4.le
    have hs1 : s ≤ 1 := by rw [hsdef, div_le_one h4]; linarith
    have hx : (1 - s) * a + s * b = x := by
      have : s * (b - a) = x - a := div_mul_cancel₀ _ h4.ne'
      linarith
    rw [hval i hi (by omega) (by omega) (by omega) s hs0 hs1, ← eA, ← eB, hx] at b2
    refine ⟨_, Q, evaluate_eq hc hw (wrap_of_mem hc hx1 hx2) (Or.inl hf) hx1 hx3, ?_, b2⟩
    have hQ := C13_evaluate_partial a1 a9 a3 x (Or.inl a8) (by rw [a5, hb0]; exact hx1)
      (by rw [a6, hbn]; exact hx3)
    rw [hQ, ok.injEq] at b1
    rw [← b1]
    have hwf' : WellFormed ({ n with periodic := c.periodic } : BSpline K V) (p + 1) :=
      ⟨a1.len, a1.sdeg, a1.ctrl, a1.sorted, a1.dom⟩
    refine evaluate_eq hwf' a9 (wrap_of_mem hwf' (by rw [← hb0, ← a5] at hx1; exact hx1) ?_)
      (Or.inl a8) (by rw [← hb0, ← a5] at hx1; exact hx1) (by rw [← hbn, ← a6] at hx3; exact hx3)
    rw [← hbn, ← a6] at hx2
    exact hx2

/-- C73: a spline of degree 0 is refused. -/
theorem C73_degree_zero (nrm : V → K) (extent : List V → K) (eps : K) {c : BSpline K V}
    (hc : WellFormed c 0) : c.elevateDegree nrm extent eps = Outcome.throw .invalidSetting := by
  unfold BSpline.elevateDegree
  rw [throwIf_true (by rw [degree_eq hc]; rfl)]
  rfl

/-- C73 for NURBS: if the elevation returns (no homogeneous weight of the result is 0), the
homogeneous points whose quotients `evaluate` returns before and after differ by at most `r eps`. -/
theorem C73_nurbs_partial {nrm : V × K → K} (hn : IsSeminorm nrm) (extent : List (V × K) → K)
    {eps : K} (heps : 0 < eps) {c : NURBS K V} (hc : c.init = ok c) {p : ℕ} (hp : 1 ≤ p)
    (hwf : WellFormed c.base p) (hw : Wide c.base p) (hf : FirstSpan c.base p)
    (hmult : ∀ y ∈ c.base.knots, y < knot c.base.knots c.base.ctrl.length →
      knot c.base.knots p < y → c.base.knots.count y ≤ p)
    {c' : NURBS K V} (h : c.elevateDegree nrm extent eps = ok c') :
    WellFormed c'.base (p + 1) ∧ c'.base.periodic = c.base.periodic ∧
      knot c'.base.knots (p + 1) = knot c.base.knots p ∧
      knot c'.base.knots c'.base.ctrl.length = knot c.base.knots c.base.ctrl.length ∧
      ∃ r : ℕ, ∀ x : K, knot c.base.knots p ≤ x →
        (x < knot c.base.knots c.base.ctrl.length ∨
          (c.base.periodic = false ∧ x ≤ knot c.base.knots c.base.ctrl.length)) →
        ∃ Q Q' : V × K, c.evaluate x = quot0 Q ∧ c'.evaluate x = quot0 Q' ∧
          nrm (Q' - Q) ≤ (r : K) * eps := by
  obtain ⟨S, -, -⟩ := (NURBS.init_iff _ _).1 hc
  have hl : c.hom.ctrl.length = c.base.ctrl.length := S.homLen
  have hval : c.validate = ok () := by rw [S.validate, NURBS.wf_validate hwf]
  obtain ⟨g, r, e, a1, a2, a3, a4, -, a5⟩ := C73_elevate_partial hn extent heps hp (S.wf.2 hwf)
    (by intro i h1 h2; rw [S.knots]; exact hw i h1 (by rw [← hl]; exact h2))
    (by unfold FirstSpan; rw [S.knots]; exact hf)
    (by rw [S.knots, hl]; exact hmult)
  rw [S.knots] at a3 a4
  rw [hl] at a4
  rw [S.per] at a2
  rw [S.knots, hl, S.per] at a5
  unfold NURBS.elevateDegree at h
  rw [hval, ok_bind, e, ok_bind] at h
  simp only [bind_eq_ok] at h
  obtain ⟨k, h1, ⟨⟩, -, h2⟩ := h
  rw [pure_eq, ok.injEq] at h2
  subst h2
  unfold NURBS.ofHomogeneous at h1
  simp only [bind_eq_ok] at h1
  obtain ⟨P, h3, ⟨⟩, h4, h5⟩ := h1
  rw [pure_eq, ok.injEq] at h5
  have hPl : P.length = g.ctrl.length := by
    by_cases hz : ∀ q ∈ g.ctrl, q.2 ≠ 0
    · rw [dehomogenize_eq hz, ok.injEq] at h3
      rw [← h3, List.length_map]
    · push Not at hz
      rw [dehomogenize_ub hz] at h3
      cases h3
  rw [h5] at h4
  have k1 : k.base.knots = g.knots := by rw [← h5]
  have k2 : k.base.ctrl.length = g.ctrl.length := by rw [← h5]; exact hPl
  have k3 : k.base.periodic = g.periodic := by rw [← h5]
  have k4 : k.base.sdeg = g.sdeg := by rw [← h5]
  have k5 : k.hom = g := by rw [← h5]
  refine ⟨⟨by rw [k1, k2]; exact a1.len, by rw [k4]; exact a1.sdeg, by rw [k2]; exact a1.ctrl,
    by rw [k1]; exact a1.sorted, by rw [k1, k2]; exact a1.dom⟩, by rw [k3, a2],
    by rw [k1]; exact a3, by rw [k1, k2]; exact a4, r, ?_⟩
  intro x hx1 hx2
  obtain ⟨Q, Q', b1, b2, b3⟩ := a5 x hx1 hx2
  refine ⟨Q, Q', ?_, ?_, b3⟩
  · unfold NURBS.evaluate
    rw [hval, ok_bind, b1, ok_bind]
  · unfold NURBS.evaluate
    rw [h4, ok_bind, k5, b2, ok_bind]

/-- C73 fails for discontinuous splines: an inner knot of multiplicity degree + 1 ends in a failed
assertion. -/
theorem C73_discontinuous_refuted :
    let c : BSpline ℚ ℚ := { ctrl := [0, 1, 5, 6], knots := [0, 0, 1, 1, 2, 2] }
    WellFormed c 1 ∧ c.evaluate 1 = ok 5 ∧ c.evaluate (1 / 2) = ok (1 / 2) ∧
      c.elevateDegree (fun x => |x|) (fun _ => 0) (1 / 2 ^ 52) = ub :=
  ⟨⟨by decide, Or.inl rfl, by decide, by decide +kernel, by decide +kernel⟩, by decide +kernel,
    by decide +kernel, by decide +kernel⟩

/-- C73 does not hold as an equality: a corner less sharp than `eps` is straightened. -/
theorem C73_exact_refuted :
    let c : BSpline ℚ ℚ := { ctrl := [0, 1, 2 + 1 / 2 ^ 54], knots := [0, 0, 1, 2, 2] }
    ∃ c', WellFormed c 1 ∧ c.elevateDegree (fun x => |x|) (fun _ => 0) (1 / 2 ^ 52) = ok c' ∧
      c.evaluate 1 = ok 1 ∧ c'.evaluate 1 ≠ ok 1 := by
  refine ⟨{ ctrl := [0, 1, 2 + 1 / 2 ^ 54], knots := [0, 0, 0, 2, 2, 2] },
    ⟨by decide, Or.inl rfl, by decide, by decide +kernel, by decide +kernel⟩, ?_, ?_, ?_⟩ <;>
  decide +kernel

/-- Two parabolas that meet in a corner. -/
def exPieces : List (Bezier ℚ) := [{ ctrl := [0, 1, 3] }, { ctrl := [3, 2, 5] }]

theorem exPieces_chain : Chain (fun x : ℚ => |x|) (1 / 2 ^ 52) 2 exPieces :=
  ⟨by decide, by
    intro i h
    have : i = 0 := by simp [exPieces] at h; omega
    subst this
    simp [exPieces]⟩

example : ∃ (c : BSpline ℚ ℚ) (r : ℕ), ofBeziers (fun x => |x|) (fun _ => 0) (1 / 2 ^ 52) none
    exPieces = ok c ∧ c.ctrl.length + r = 5 := by
  obtain ⟨c, r, e, -, h, -⟩ := C22_uniform_partial abs_seminorm (fun _ => 0) (by norm_num)
    (d := 2) (by norm_num) (Or.inl rfl) (by decide) exPieces_chain (δ := 1) (by norm_num) (by
      intro i h
      have : i = 0 := by simp [exPieces] at h; omega
      subst this
      simp [exPieces])
  exact ⟨c, r, e, h⟩

example : combineBeziers (fun x => |x|) (fun _ => 0) (1 / 2 ^ 52) none exPieces [(0 : ℚ), 1 / 2, 1]
    = ok exSpline := by decide +kernel

example : ∃ (c' : BSpline ℚ ℚ) (r : ℕ), exSpline.elevateDegree (fun x => |x|) (fun _ => 0)
    (1 / 2 ^ 52) = ok c' ∧ WellFormed c' 3 ∧
      ∃ Q, c'.evaluate (1 / 4) = ok Q ∧ |Q - 5 / 4| ≤ (r : ℚ) * (1 / 2 ^ 52) := by
  obtain ⟨c', r, e, h, -, -, -, -, hv⟩ := C73_elevate_partial abs_seminorm (fun _ => 0)
    (eps := 1 / 2 ^ 52) (by norm_num) (by norm_num) exSpline_wf exSpline_wide exSpline_first
    (by decide +kernel)
  obtain ⟨Q, Q', h1, h2, h3⟩ := hv (1 / 4) (by decide +kernel) (Or.inl (by decide +kernel))
  have : exSpline.evaluate (1 / 4) = ok (5 / 4) := by decide +kernel
  rw [this, ok.injEq] at h1
  exact ⟨c', r, e, h, Q', h2, by rw [h1]; exact h3⟩

end NS.Props
