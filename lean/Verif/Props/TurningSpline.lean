import Verif.Props.TurningAngle
import Verif.Props.FeaturePieces

/-!
# C75: turning angles of B-splines
-/

namespace NS
namespace Turning

open Outcome Finset Polynomial Spec BSpline

/-- A range without length. -/
theorem bezier_point (m : ℕ) (P : ℕ → ℝ × ℝ) (per : Bool) {t : ℝ} (h0 : 0 ≤ t) (h1 : t ≤ 1) :
    bezier { ctrl := arr (m + 2) P, periodic := per } t t = ok 0 := by
  rw [bezier_arr m P per h0 le_rfl h1]
  congr 1
  refine sum_eq_zero fun j hj => ?_
  rw [sub_edge m P t t j (by simp at hj; omega), sub_self, zero_smul]
  simp [turn, Complex.arg]

theorem tangent_hasDeriv (m : ℕ) (P : ℕ → ℝ × ℝ) (t : ℝ) :
    HasDerivAt (fun s : ℝ => umb P (lin s ^ (m + 1))) (tangent m P t) t := by
  have := Props.hasDerivAt_span (m + 1) P t
  rw [umb_diffQ, mul_comm, umb_diff] at this
  simpa [tangent] using this

/-- Inside a piece the tangents of piece and spline have the same direction. -/
theorem piece_tangent {c : BSpline ℝ (ℝ × ℝ)} {m : ℕ} (hc : WellFormed c (m + 1)) (hw : Wide c (m + 1))
    (hper : c.periodic = false) (hf : FirstSpan c (m + 1)) {d : ℝ → ℝ × ℝ}
    (hd : ∀ t, knot c.knots (m + 1) ≤ t → t ≤ knot c.knots c.ctrl.length → c.evaluateDerivative t = ok (d t))
    {a b : ℝ} (ha : knot c.knots (m + 1) ≤ a) (hb : b ≤ knot c.knots c.ctrl.length) (hab : a < b)
    (hgap : ∀ y ∈ c.knots, ¬ (a < y ∧ y < b)) {P : ℕ → ℝ × ℝ}
    (hval : ∀ x : ℝ, 0 < x → x < 1 → umb P (lin x ^ (m + 1))
      = bsplinePoint (m + 1) c.knots c.ctrl ((1 - x) * a + x * b))
    {x : ℝ} (h0 : 0 < x) (h1 : x < 1) : tangent m P x = (b - a) • d (a + x * (b - a)) := by
  have hpos : 0 < b - a := by linarith
  have t1 : a < a + x * (b - a) := by nlinarith
  have t2 : a + x * (b - a) < b := by nlinarith
  have h2nd : ∀ s, ∃ v, knot c.knots (m + 1) ≤ s → s ≤ knot c.knots c.ctrl.length →
      c.evaluate2ndDerivative s = ok v := by
    intro s
    by_cases g : knot c.knots (m + 1) ≤ s ∧ s ≤ knot c.knots c.ctrl.length
    · obtain ⟨k, Q, hk, -⟩ := exists_atSpan hc s (Or.inl hf) g.1 g.2
      exact ⟨_, fun _ _ => evaluate2ndDerivative_of_span hc hw (wrap_nonperiodic hper s) hk⟩
    · exact ⟨0, fun g1 g2 => absurd ⟨g1, g2⟩ g⟩
  choose f'' hf'' using h2nd
  have D := ((Props.C15_derivative_partial hc hw hper (bsplinePoint (m + 1) c.knots c.ctrl) d f''
    (fun s g1 g2 => Props.C13_evaluate_partial hc hw hper s (Or.inl hf) g1 g2) hd hf''
    (a + x * (b - a)) (by linarith) (by linarith) (Or.inl hf)).2.2 (by linarith)
    (fun hm => hgap _ hm ⟨t1, t2⟩)).1
  have hin : HasDerivAt (fun s : ℝ => a + s * (b - a)) (b - a) x := by
    simpa using ((hasDerivAt_id x).mul_const (b - a)).const_add a
  have C := HasDerivAt.scomp x D hin
  have E := tangent_hasDeriv m P x
  refine E.unique (C.congr_of_eventuallyEq ?_)
  have hm : Set.Ioo (0 : ℝ) 1 ∈ nhds x := Ioo_mem_nhds h0 h1
  filter_upwards [hm] with s hs
  show umb P (lin s ^ (m + 1)) = bsplinePoint (m + 1) c.knots c.ctrl (a + s * (b - a))
  rw [hval s hs.1 hs.2]; congr 1; ring

/-- The pieces by index. -/
theorem piece_data {eps : ℝ} (heps : 0 ≤ eps) {c : BSpline ℝ (ℝ × ℝ)} {m : ℕ} (hc : WellFormed c (m + 1))
    (hw : Wide c (m + 1)) (hper : c.periodic = false) (hf : FirstSpan c (m + 1)) {d : ℝ → ℝ × ℝ}
    (hd : ∀ t, knot c.knots (m + 1) ≤ t → t ≤ knot c.knots c.ctrl.length → c.evaluateDerivative t = ok (d t))
    {segs bounds} (e : c.toBezier eps = ok (segs, bounds)) {i s a b} (hs : segs[i]? = some s)
    (ea : bounds[i]? = some a) (eb : bounds[i + 1]? = some b) :
    a < b ∧ knot c.knots (m + 1) ≤ a ∧ b ≤ knot c.knots c.ctrl.length ∧
      ∃ P, s = { ctrl := arr (m + 2) P } ∧
        ∀ x, 0 < x → x < 1 → tangent m P x = (b - a) • d (a + x * (b - a)) := by
  obtain ⟨segs', bs, e', PP⟩ := toBezier_spec heps hc (Or.inl hf)
  rw [e, ok.injEq, Prod.mk.injEq] at e'
  obtain ⟨rfl, rfl⟩ := e'
  obtain ⟨g1, g2, g3, -, g5⟩ := Props.pieces_index segs bs _ PP
  have hmem := Props.pieces_mem segs bs _ ((mem_knots_iff _ _).mpr ⟨m + 1, by have := hc.len; omega, rfl⟩) PP
  obtain ⟨a', b', ea', eb', PO⟩ := g5 i _ hs
  rw [ea] at ea'; rw [eb] at eb'
  cases ea'; cases eb'
  have ma := (hmem a).1 (List.mem_of_getElem? ea)
  have mb := (hmem b).1 (List.mem_of_getElem? eb)
  have hab : a < b := by
    have l1 := (List.getElem?_eq_some_iff.1 ea)
    have l2 := (List.getElem?_eq_some_iff.1 eb)
    have := List.pairwise_iff_getElem.1 g2 i (i + 1) l1.1 l2.1 (by omega)
    rwa [l1.2, l2.2] at this
  obtain ⟨n, P, eP⟩ := Bezier.exists_arr s.ctrl (by
    intro h; have := PO.len; rw [h] at this; simp at this)
  have hn : n = m + 1 := by
    have := PO.len; rw [eP] at this; simp at this; omega
  subst hn
  have eseg : s = { ctrl := arr (m + 2) P } := by
    have := PO.periodic
    cases hh : s; simp_all
  refine ⟨hab, ma.2.1, mb.2.2, P, eseg, fun x x0 x3 => ?_⟩
  refine piece_tangent hc hw hper hf hd ma.2.1 mb.2.2 hab PO.gap (P := P) ?_ x0 x3
  intro y y0 y1
  have := PO.value y y0.le y1.le (Or.inl y1)
  rw [eseg, Bezier.evaluate_arr, ok.injEq] at this
  exact this

/-- `x` moved into `[t0, t1]`. -/
noncomputable def clamp (t0 t1 x : ℝ) : ℝ := min (max x t0) t1

set_option maxHeartbeats 1000000 in
/-- The loop over the pieces adds up the rotations. -/
theorem pieces_rotates {f : Bezier (ℝ × ℝ) → ℝ → ℝ → Outcome ℝ} {eps : ℝ} (heps : 0 ≤ eps)
    {c : BSpline ℝ (ℝ × ℝ)} {m : ℕ} (hc : WellFormed c (m + 1)) (hw : Wide c (m + 1))
    (hper : c.periodic = false) (hf : FirstSpan c (m + 1)) {d : ℝ → ℝ × ℝ}
    (hd : ∀ t, knot c.knots (m + 1) ≤ t → t ≤ knot c.knots c.ctrl.length → c.evaluateDerivative t = ok (d t))
    {t0 t1 : ℝ} (h0 : knot c.knots (m + 1) ≤ t0) (h01 : t0 < t1) (h1 : t1 ≤ knot c.knots c.ctrl.length)
    {phi : ℝ → ℝ} (hphi : Angle d t0 t1 phi)
    (hpoint : ∀ P x, 0 ≤ x → x ≤ 1 → f { ctrl := arr (m + 2) P } x x = ok 0)
    (hpiece : ∀ segs bounds, c.toBezier eps = ok (segs, bounds) → ∀ i s a b P, segs[i]? = some s →
      bounds[i]? = some a → bounds[i + 1]? = some b → max a t0 < min b t1 → a < b →
      s = { ctrl := arr (m + 2) P } →
      (∀ x, 0 < x → x < 1 → tangent m P x = (b - a) • d (a + x * (b - a))) →
      ∀ lo hi, lo = max ((t0 - a) / (b - a)) 0 → hi = min ((t1 - a) / (b - a)) 1 → 0 ≤ lo → lo < hi → hi ≤ 1 →
      ∃ theta, f s lo hi = ok theta ∧ Rotates (tangent m P) lo hi theta) :
    ∃ segs bounds, c.toBezier eps = ok (segs, bounds) ∧ pieces f t0 t1 segs bounds = ok (phi t1 - phi t0) := by
  obtain ⟨segs, bs, e, PP⟩ := toBezier_spec heps hc (Or.inl hf)
  obtain ⟨g1, g2, g3, -, g5⟩ := Props.pieces_index segs bs _ PP
  have hmem := Props.pieces_mem segs bs _ ((mem_knots_iff _ _).mpr ⟨m + 1, by have := hc.len; omega, rfl⟩) PP
  set bounds := knot c.knots (m + 1) :: bs with hbounds
  have hlen : bounds.length = segs.length + 1 := by simp [hbounds, g1]
  refine ⟨segs, bounds, e, ?_⟩
  have hb0 : bounds.getD 0 0 = knot c.knots (m + 1) := by simp [hbounds]
  have hbl : bounds.getD segs.length 0 = knot c.knots c.ctrl.length := by
    have : bounds.getLast? = some (bounds.getD segs.length 0) := by
      rw [List.getLast?_eq_getElem?, hlen, Nat.add_sub_cancel, List.getD_eq_getElem?_getD,
        List.getElem?_eq_getElem (by omega)]
      simp
    rw [g3, Option.some.injEq] at this
    exact this.symm
  have key := loop_eq (fun i => phi (clamp t0 t1 (bounds.getD i 0)) - phi t0) segs.length
    (fun i theta => do
      let tMin ← rd bounds i
      let tMax ← rd bounds (i + 1)
      if tMax < t0 ∨ tMin > t1 then ok theta
      else do
        Outcome.assert (tMax - tMin ≠ 0)
        let lower := max ((t0 - tMin) / (tMax - tMin)) 0
        let upper := min ((t1 - tMin) / (tMax - tMin)) 1
        let s ← rd segs i
        let a ← f s lower upper
        pure (theta + a)) (by
    intro i hi
    have hs : segs[i]? = some segs[i] := List.getElem?_eq_getElem hi
    obtain ⟨a, b, ea, eb, -⟩ := g5 i _ hs
    have da : bounds.getD i 0 = a := by rw [List.getD_eq_getElem?_getD, ea]; rfl
    have db : bounds.getD (i + 1) 0 = b := by rw [List.getD_eq_getElem?_getD, eb]; rfl
    obtain ⟨hab, -, -, P, eseg, htan⟩ := piece_data heps hc hw hper hf hd e hs ea eb
    have ra : rd bounds i = ok a := rd_eq_ok.2 ea
    have rb : rd bounds (i + 1) = ok b := rd_eq_ok.2 eb
    have rs : rd segs i = ok segs[i] := rd_eq_ok.2 hs
    dsimp only
    rw [da, db, ra, ok_bind, rb, ok_bind]
    have hpos : 0 < b - a := by linarith
    by_cases hskip : b < t0 ∨ a > t1
    · rw [if_pos hskip]
      have : clamp t0 t1 a = clamp t0 t1 b := by
        unfold clamp
        rcases hskip with h | h
        · rw [max_eq_right (by linarith), max_eq_right h.le]
        · rw [min_eq_right (le_max_of_le_left h.le), min_eq_right (le_max_of_le_left (by linarith))]
      rw [this]
    · rw [if_neg hskip, assert_true hpos.ne', ok_bind, rs, ok_bind]
      push Not at hskip
      obtain ⟨k1, k2⟩ := hskip
      set lo := max ((t0 - a) / (b - a)) 0 with hlo
      set hi' := min ((t1 - a) / (b - a)) 1 with hhi
      have elo : a + lo * (b - a) = max t0 a := by
        rw [hlo, max_mul_of_nonneg _ _ hpos.le, div_mul_cancel₀ _ hpos.ne', zero_mul, ← max_add_add_left]
        congr 1 <;> ring
      have ehi : a + hi' * (b - a) = min t1 b := by
        rw [hhi, min_mul_of_nonneg _ _ hpos.le, div_mul_cancel₀ _ hpos.ne', one_mul, ← min_add_add_left]
        congr 1 <;> ring
      have clo : clamp t0 t1 a = max t0 a := by
        unfold clamp; rw [max_comm, min_eq_left (max_le h01.le k2)]
      have chi : clamp t0 t1 b = min t1 b := by
        unfold clamp; rw [max_eq_left k1, min_comm]
      have lo0 : 0 ≤ lo := le_max_right _ _
      have hi1 : hi' ≤ 1 := min_le_right _ _
      have hle : lo ≤ hi' := by
        have : max t0 a ≤ min t1 b := max_le (le_min h01.le k1) (le_min k2 hab.le)
        rw [← elo, ← ehi] at this
        nlinarith
      rcases eq_or_lt_of_le hle with heq | hlt
      · rw [heq, eseg, hpoint P _ (heq ▸ lo0) hi1, ok_bind, pure_eq, clo, chi, ← elo, ← ehi, heq,
          add_zero]
      · have hmm : max a t0 < min b t1 := by
          rw [max_comm, min_comm, ← elo, ← ehi]; nlinarith
        obtain ⟨theta, j1, psi, jp, j2⟩ := hpiece segs bounds e i _ a b P hs ea eb hmm hab eseg htan lo hi' hlo hhi lo0 hlt hi1
        have hcomp : ContinuousOn (fun x => phi (a + x * (b - a))) (Set.Icc lo hi') := by
          refine hphi.cont.comp (by fun_prop) ?_
          intro x hx
          constructor
          · have : a + lo * (b - a) ≤ a + x * (b - a) := by nlinarith [hx.1]
            rw [elo] at this
            exact (le_max_left _ _).trans this
          · have : a + x * (b - a) ≤ a + hi' * (b - a) := by nlinarith [hx.2]
            rw [ehi] at this
            exact this.trans (min_le_left _ _)
        have hconst := diff_const_open hlt jp.cont hcomp (by
          intro x x1 x2
          have x0 : 0 < x := lo0.trans_lt x1
          have x3 : x < 1 := x2.trans_le hi1
          obtain ⟨r, hr, er⟩ := jp.eq x x1.le x2.le
          have i1 : t0 ≤ a + x * (b - a) := by
            have : a + lo * (b - a) ≤ a + x * (b - a) := by nlinarith
            rw [elo] at this
            exact (le_max_left _ _).trans this
          have i2 : a + x * (b - a) ≤ t1 := by
            have : a + x * (b - a) ≤ a + hi' * (b - a) := by nlinarith
            rw [ehi] at this
            exact this.trans (min_le_left _ _)
          obtain ⟨r', hr', er'⟩ := hphi.eq _ i1 i2
          refine ⟨r, (b - a) * r', hr, mul_pos hpos hr', ?_⟩
          rw [← er, htan x x0 x3, er', smul_smul])
        rw [j1, ok_bind, pure_eq, clo, chi, ← elo, ← ehi]
        congr 1
        rw [← j2]
        linarith)
  rw [hb0, hbl] at key
  have c0 : clamp t0 t1 (knot c.knots (m + 1)) = t0 := by
    unfold clamp; rw [max_eq_right h0, min_eq_left h01.le]
  have c1 : clamp t0 t1 (knot c.knots c.ctrl.length) = t1 := by
    unfold clamp; rw [min_eq_right (le_max_of_le_left h1)]
  rw [c0, c1, sub_self] at key
  exact key

/-- **C75** (B-splines, pieces of the generic class): if the angle `phi` of the tangent is continuous on the range
and the control polygon of the part of each Bézier piece in the range is in an open half plane, the result
is the rotation of the tangent over the range, which may be many turns; the range may start or end at a
knot.  Missing: periodic splines, tangents that jump at a knot, other polygons (`C75_polygon_refuted`). -/
theorem C75_bspline_partial {eps : ℝ} (heps : 0 ≤ eps) {c : BSpline ℝ (ℝ × ℝ)} {p : ℕ} (hp : 1 ≤ p)
    (hc : WellFormed c p) (hw : Wide c p) (hper : c.periodic = false) (hf : FirstSpan c p)
    {d : ℝ → ℝ × ℝ}
    (hd : ∀ t, knot c.knots p ≤ t → t ≤ knot c.knots c.ctrl.length → c.evaluateDerivative t = ok (d t))
    {t0 t1 : ℝ} (h0 : knot c.knots p ≤ t0) (h01 : t0 < t1) (h1 : t1 ≤ knot c.knots c.ctrl.length)
    {phi : ℝ → ℝ} (hphi : Angle d t0 t1 phi)
    (hhalf : ∀ segs bounds, c.toBezier eps = ok (segs, bounds) → ∀ i s a b, segs[i]? = some s →
      bounds[i]? = some a → bounds[i + 1]? = some b → max a t0 < min b t1 → ∃ w, ∀ S,
        s.subcurve (max ((t0 - a) / (b - a)) 0) (min ((t1 - a) / (b - a)) 1) = ok S → HalfPlane w S.ctrl) :
    ∃ theta, bspline eps c t0 t1 = ok theta ∧ Rotates d t0 t1 theta := by
  obtain ⟨m, rfl⟩ : ∃ m, p = m + 1 := ⟨p - 1, by omega⟩
  obtain ⟨segs, bounds, e, h⟩ := pieces_rotates (f := bezier) heps hc hw hper hf hd h0 h01 h1 hphi
    (fun P x g0 g1 => bezier_point m P false g0 g1) (by
      intro segs bounds e i s a b P hs ea eb hmm hab eseg _ lo hi' elo ehi lo0 hlt hi1
      obtain ⟨w, hw'⟩ := hhalf segs bounds e i s a b hs ea eb hmm
      rw [eseg, ← elo, ← ehi] at hw'
      obtain ⟨theta, j1, -, j2⟩ := C75_bezier_partial (c := { ctrl := arr (m + 2) P }) rfl (by simp)
        lo0 hlt hi1 hw' (fun t _ _ => evaluateDerivative_tangent m P t)
      exact ⟨theta, by rw [eseg]; exact j1, j2⟩)
  exact ⟨_, by rw [bspline, e, ok_bind]; exact h, phi, hphi, rfl⟩

/-! ### The fixed degree 2 -/

theorem turn_smul_right {c : ℝ} (hc : 0 < c) (v w : ℝ × ℝ) : turn v (c • w) = turn v w := by
  unfold turn
  rw [← Complex.arg_real_mul ⟨v.1 * w.1 + v.2 * w.2, _⟩ hc]
  congr 1
  apply Complex.ext <;> simp <;> ring

/-- For degree 2 the generic class and the class of the fixed degree agree. -/
theorem bezier_eq_bezier2 (P : ℕ → ℝ × ℝ) {t0 t1 : ℝ} (h0 : 0 ≤ t0) (h01 : t0 ≤ t1) (h1 : t1 ≤ 1) :
    bezier { ctrl := arr 3 P } t0 t1 = bezier2 { ctrl := arr 3 P } t0 t1 := by
  have h2 : ∀ x : ℝ, Bezier.evaluateDerivative2 { ctrl := arr 3 P } x = ok (tangent 1 P x) := by
    intro x
    rw [← evaluateDerivative_tangent 1 P x]
    exact (Props.C02_degree2 (P 0) (P 1) (P 2) false x).2.1
  rw [bezier2, h2, ok_bind, h2, ok_bind]
  rcases eq_or_lt_of_le h01 with rfl | hlt
  · rw [bezier_point 1 P false h0 h1, turn_self]; rfl
  rw [bezier_arr 1 P false h0 h01 h1, sum_range_one, tangent_first 1 P hlt, tangent_last 1 P hlt]
  have hk : (0 : ℝ) < ((1 : ℕ) + 1 : ℝ) / (t1 - t0) := div_pos (by positivity) (by linarith)
  rw [turn_smul_left hk, turn_smul_right hk]
  rfl

/-- **C75** (B-splines of degree 2, both the fixed degree and the generic class): if the tangent is continuous and
does not vanish on the range, the result is its rotation, for any number of turns and any ends of the range.  Missing: periodic splines and
jumps of the tangent at double knots. -/
theorem C75_bspline_quadratic_partial {eps : ℝ} (heps : 0 ≤ eps) {c : BSpline ℝ (ℝ × ℝ)}
    (hc : WellFormed c 2) (hw : Wide c 2) (hper : c.periodic = false) (hf : FirstSpan c 2)
    {d : ℝ → ℝ × ℝ}
    (hd : ∀ t, knot c.knots 2 ≤ t → t ≤ knot c.knots c.ctrl.length → c.evaluateDerivative t = ok (d t))
    {t0 t1 : ℝ} (h0 : knot c.knots 2 ≤ t0) (h01 : t0 < t1) (h1 : t1 ≤ knot c.knots c.ctrl.length)
    (hcont : ContinuousOn d (Set.Icc t0 t1)) {phi : ℝ → ℝ} (hphi : Angle d t0 t1 phi) :
    ∃ theta, bspline2 eps c t0 t1 = ok theta ∧ bspline eps c t0 t1 = ok theta ∧ Rotates d t0 t1 theta := by
  have h2 : ∀ (P : ℕ → ℝ × ℝ) (x : ℝ), Bezier.evaluateDerivative2 { ctrl := arr 3 P } x = ok (tangent 1 P x) := by
    intro P x
    rw [← evaluateDerivative_tangent 1 P x]
    exact (Props.C02_degree2 (P 0) (P 1) (P 2) false x).2.1
  have hpiece : ∀ segs bounds, c.toBezier eps = ok (segs, bounds) → ∀ i s a b P, segs[i]? = some s →
      bounds[i]? = some a → bounds[i + 1]? = some b → max a t0 < min b t1 → a < b →
      s = { ctrl := arr 3 P } →
      (∀ x, 0 < x → x < 1 → tangent 1 P x = (b - a) • d (a + x * (b - a))) →
      ∀ lo hi, lo = max ((t0 - a) / (b - a)) 0 → hi = min ((t1 - a) / (b - a)) 1 → 0 ≤ lo → lo < hi → hi ≤ 1 →
      ∃ theta, bezier2 s lo hi = ok theta ∧ Rotates (tangent 1 P) lo hi theta := by
      intro segs bounds e i s a b P hs ea eb hmm hab eseg htan lo hi' elo ehi lo0 hlt hi1
      have hpos : 0 < b - a := by linarith
      have hlo : ∀ x, lo ≤ x → t0 ≤ a + x * (b - a) := by
        intro x hx
        have : (t0 - a) / (b - a) ≤ x := (le_max_left _ 0).trans (elo ▸ hx)
        rw [div_le_iff₀ hpos] at this; linarith
      have hhi : ∀ x, x ≤ hi' → a + x * (b - a) ≤ t1 := by
        intro x hx
        have : x ≤ (t1 - a) / (b - a) := (ehi ▸ hx : x ≤ _).trans (min_le_left _ _)
        rw [le_div_iff₀ hpos] at this; linarith
      have heq : Set.EqOn (tangent 1 P) (fun x => (b - a) • d (a + x * (b - a))) (Set.Icc lo hi') := by
        have h1 : Set.EqOn (tangent 1 P) (fun x => (b - a) • d (a + x * (b - a))) (Set.Ioo lo hi') :=
          fun x hx => htan x (lo0.trans_lt hx.1) (hx.2.trans_le hi1)
        refine h1.of_subset_closure (tangent_cont 1 P).continuousOn ?_ Set.Ioo_subset_Icc_self ?_
        · refine ContinuousOn.const_smul (hcont.comp (by fun_prop) ?_) (b - a)
          exact fun x hx => ⟨hlo x hx.1, hhi x hx.2⟩
        · rw [closure_Ioo hlt.ne]
      refine ⟨turn (tangent 1 P lo) (tangent 1 P hi'), by rw [eseg, bezier2, h2, ok_bind, h2, ok_bind]; rfl, ?_⟩
      refine rotates_affine hlt.le ((2 : ℝ) • diff P 0) ((2 : ℝ) • (diff P 1 - diff P 0)) ?_ ?_
      · intro t
        rw [tangent, umb_lin_pow]
        simp only [sum_range_succ, range_zero, sum_empty, Spec.bernstein]
        norm_num
        module
      · intro x x1 x2
        have hx := heq ⟨x1, x2⟩
        obtain ⟨r, hr, er⟩ := hphi.eq _ (hlo x x1) (hhi x x2)
        rw [hx]
        dsimp only
        rw [er]
        exact smul_ne_zero hpos.ne' (smul_ne_zero hr.ne' (dir_ne _))
  obtain ⟨segs, bounds, e, h⟩ := pieces_rotates (f := bezier2) heps hc hw hper hf hd h0 h01 h1 hphi
    (fun P x _ _ => by rw [bezier2, h2, ok_bind, ok_bind, turn_self]; rfl) hpiece
  obtain ⟨segs', bounds', e', h'⟩ := pieces_rotates (f := bezier) heps hc hw hper hf hd h0 h01 h1 hphi
    (fun P x g0 g1 => bezier_point 1 P false g0 g1) (by
      intro segs bounds e i s a b P hs ea eb hmm hab eseg htan lo hi' elo ehi lo0 hlt hi1
      have := hpiece segs bounds e i s a b P hs ea eb hmm hab eseg htan lo hi' elo ehi lo0 hlt hi1
      rw [eseg] at this ⊢
      rwa [bezier_eq_bezier2 P lo0 hlt.le hi1])
  exact ⟨_, by rw [bspline2, e, ok_bind]; exact h, by rw [bspline, e', ok_bind]; exact h', phi, hphi, rfl⟩

/-- A quadratic spline with one inner knot, `x = t`, and `y` with slope `4 |t - 1| - 2`. -/
noncomputable def wave : BSpline ℝ (ℝ × ℝ) :=
  BSpline.mk [(0, 0), (1 / 2, 1), (3 / 2, -1), (2, 0)] [0, 0, 0, 1, 2, 2, 2] false none

theorem wave_wf : WellFormed wave 2 := by
  refine ⟨rfl, Or.inl rfl, by decide, by norm_num [wave], ?_⟩
  norm_num [wave, knot]

theorem wave_first : FirstSpan wave 2 := by norm_num [FirstSpan, wave, knot]

theorem wave_wide : Wide wave 2 := by
  intro i h1 h2 _
  have : i = 2 ∨ i = 3 := by simp [wave] at h2; omega
  rcases this with rfl | rfl <;> norm_num [wave, knot, tiny]

theorem umb_lin_lin (Q : ℕ → ℝ × ℝ) (a b : ℝ) :
    umb Q (lin a * lin b) = ((1 - a) * (1 - b)) • Q 0 + ((1 - a) * b + a * (1 - b)) • Q 1 + (a * b) • Q 2 := by
  have h : ∀ P : ℕ → ℝ × ℝ, umb P (lin b) = (1 - b) • P 0 + b • P 1 := by
    intro P
    have := umb_lin_pow P b 1
    rw [pow_one] at this
    rw [this]
    simp [sum_range_succ, Spec.bernstein]
  rw [umb_lin_mul, umb_shift, h, h]
  module

theorem wave_derivative (t : ℝ) (h0 : 0 ≤ t) (h2 : t ≤ 2) :
    wave.evaluateDerivative t = ok ((1 : ℝ), 4 * |t - 1| - 2) := by
  have hw : wave.wrap t = ok t := wrap_nonperiodic rfl t
  rcases lt_or_ge t 1 with h | h
  · rw [evaluateDerivative_of_span wave_wf wave_wide hw (k := 2)
      (Q := fun i => if i = 0 then (0, 0) else if i = 1 then (1 / 2, 1) else (1, 0))
      (atSpan_of_inSpan wave_wf (Or.inl wave_first) le_rfl (by simp [wave]) ?_ ?_)]
    · rw [abs_of_neg (by linarith), ok.injEq, umb_lin_pow]
      ext
      · norm_num [sum_range_succ, diffQ, Spec.bernstein]
      · norm_num [sum_range_succ, diffQ, Spec.bernstein]; ring
    · norm_num [InSpan, wave, knot, h, h0]; intro; linarith
    · intro i g1 g2
      have : i = 0 ∨ i = 1 ∨ i = 2 := by omega
      rcases this with rfl | rfl | rfl <;>
        norm_num [lprod, prod_range_succ, umb_lin_lin, wave, knot]
  · rw [evaluateDerivative_of_span wave_wf wave_wide hw (k := 3)
      (Q := fun i => if i = 0 then (0, 4) else if i = 1 then (1 / 2, 1) else (1, 0))
      (atSpan_of_inSpan wave_wf (Or.inl wave_first) (by norm_num) (by simp [wave]) ?_ ?_)]
    · rw [abs_of_nonneg (by linarith), ok.injEq, umb_lin_pow]
      ext
      · norm_num [sum_range_succ, diffQ, Spec.bernstein]
      · norm_num [sum_range_succ, diffQ, Spec.bernstein]; ring
    · norm_num [InSpan, wave, knot, h]
      exact fun hne => lt_of_le_of_ne h2 hne
    · intro i g1 g2
      have : i = 1 ∨ i = 2 ∨ i = 3 := by omega
      rcases this with rfl | rfl | rfl <;>
        norm_num [lprod, prod_range_succ, umb_lin_lin, wave, knot]

theorem wave_angle (a b : ℝ) : Angle (fun t => ((1 : ℝ), 4 * |t - 1| - 2)) a b
    (fun t => Real.arctan (4 * |t - 1| - 2)) := by
  refine ⟨by fun_prop, fun t _ _ => ⟨√(1 + (4 * |t - 1| - 2) ^ 2), by positivity, ?_⟩⟩
  rw [dir, Real.cos_arctan, Real.sin_arctan]
  have : √(1 + (4 * |t - 1| - 2) ^ 2) ≠ 0 := by positivity
  ext
  · simp; field_simp
  · simp; field_simp

/-- Concrete case of `C75_bspline_quadratic_partial`: a range with the inner knot `1`. -/
example : ∃ theta, bspline2 0 wave (1 / 4) 2 = ok theta ∧ bspline 0 wave (1 / 4) 2 = ok theta ∧
    Rotates (fun t => ((1 : ℝ), 4 * |t - 1| - 2)) (1 / 4) 2 theta := by
  refine C75_bspline_quadratic_partial le_rfl wave_wf wave_wide rfl wave_first ?_ ?_ (by norm_num) ?_
    (by fun_prop) (wave_angle _ _)
  · intro t h1 h2
    exact wave_derivative t (by norm_num [wave, knot] at h1; exact h1) (by norm_num [wave, knot] at h2; exact h2)
  all_goals norm_num [wave, knot]

/-- Concrete case of `C75_bspline_partial`: the same range, by the half planes of the two pieces. -/
example : ∃ theta, bspline 0 wave (1 / 4) 2 = ok theta ∧
    Rotates (fun t => ((1 : ℝ), 4 * |t - 1| - 2)) (1 / 4) 2 theta := by
  have hd : ∀ t, knot wave.knots 2 ≤ t → t ≤ knot wave.knots wave.ctrl.length →
      wave.evaluateDerivative t = ok ((1 : ℝ), 4 * |t - 1| - 2) := by
    intro t h1 h2
    exact wave_derivative t (by norm_num [wave, knot] at h1; exact h1)
      (by norm_num [wave, knot] at h2; exact h2)
  refine C75_bspline_partial le_rfl (by norm_num) wave_wf wave_wide rfl wave_first hd ?_ (by norm_num) ?_
    (wave_angle _ _) ?_
  · norm_num [wave, knot]
  · norm_num [wave, knot]
  · intro segs bounds e i s a b hs ea eb hmm
    obtain ⟨hab, -, -, P, eseg, htan⟩ := piece_data (m := 1) le_rfl wave_wf wave_wide rfl wave_first hd e hs ea eb
    refine ⟨(1, 0), fun S hS => ?_⟩
    have hpos : 0 < b - a := by linarith
    have hlt : max ((1 / 4 - a) / (b - a)) 0 < min ((2 - a) / (b - a)) 1 := by
      obtain ⟨k1, k2⟩ := lt_min_iff.1 hmm
      obtain ⟨k3, k4⟩ := max_lt_iff.1 k1
      obtain ⟨k5, k6⟩ := max_lt_iff.1 k2
      refine lt_min (max_lt ?_ ?_) (max_lt ?_ one_pos)
      · rw [div_lt_div_iff_of_pos_right hpos]; linarith
      · exact div_pos (by linarith) hpos
      · rw [div_lt_one hpos]; linarith
    have edge : ∀ t : ℝ, (umb (diff P) (lin t)).1 = (b - a) / 2 := by
      have key : ∀ t, tangent 1 P t = (2 : ℝ) • umb (diff P) (lin t) := by
        intro t; rw [tangent, pow_one]; norm_num
      have e1 := congrArg Prod.fst (htan (1 / 3) (by norm_num) (by norm_num))
      have e2 := congrArg Prod.fst (htan (2 / 3) (by norm_num) (by norm_num))
      have hl : ∀ t : ℝ, (umb (diff P) (lin t)).1 = (1 - t) * (diff P 0).1 + t * (diff P 1).1 := by
        intro t
        have := umb_lin_pow (diff P) t 1
        rw [pow_one] at this
        rw [this]
        simp [sum_range_succ, Spec.bernstein]
      rw [key] at e1 e2
      simp only [Prod.smul_fst, smul_eq_mul, hl, mul_one] at e1 e2
      intro t
      rw [hl]
      have d0 : (diff P 0).1 = (b - a) / 2 := by linarith
      have d1 : (diff P 1).1 = (b - a) / 2 := by linarith
      rw [d0, d1]; ring
    rw [eseg, Bezier.subcurve_arr 2 P _ _ false hlt.le (le_max_right _ _) (min_le_right _ _), ok.injEq] at hS
    rw [← hS]
    intro j p q hj hj1
    have hj2 : j + 1 < 3 := by
      by_contra hcon
      rw [List.getElem?_eq_none (by simp; omega)] at hj1
      cases hj1
    rw [arr_getElem?_of_lt (by omega), Option.some.injEq] at hj hj1
    have hs' := sub_edge 1 P (max ((1 / 4 - a) / (b - a)) 0) (min ((2 - a) / (b - a)) 1) j (by omega)
    have : q - p = sub 1 P (max ((1 / 4 - a) / (b - a)) 0) (min ((2 - a) / (b - a)) 1) (j + 1)
        - sub 1 P (max ((1 / 4 - a) / (b - a)) 0) (min ((2 - a) / (b - a)) 1) j := by
      rw [← hj, ← hj1]; rfl
    rw [hs'] at this
    have h1 := congrArg Prod.fst this
    rw [Prod.fst_sub, Prod.smul_fst, smul_eq_mul] at h1
    have hu : (umb (diff P) (lin (max ((1 / 4 - a) / (b - a)) 0) ^ (1 - j)
        * lin (min ((2 - a) / (b - a)) 1) ^ j)).1 = (b - a) / 2 := by
      have : j = 0 ∨ j = 1 := by omega
      rcases this with rfl | rfl <;> simp [edge]
    rw [hu] at h1
    simp only [one_mul, zero_mul, add_zero]
    rw [h1]
    exact mul_pos (by linarith) (by linarith)

/-! ### The fixed degree 3 -/

/-- **C75** (B-splines of the fixed degree 3): same result as the generic class if neither end of the range is
an inner knot and the range contains an inner knot or an end of the domain.  Missing: the other ranges
(`C75_bspline_cubic_start_refuted`, `C75_bspline_cubic_end_refuted`, and `C75_cubic_refuted` for a
range inside one piece). -/
theorem C75_bspline_cubic_partial {eps : ℝ} (heps : 0 ≤ eps) {c : BSpline ℝ (ℝ × ℝ)} (hc : WellFormed c 3)
    (hf : FirstSpan c 3) {t0 t1 : ℝ}
    (hk0 : t0 ∈ c.knots → t0 = knot c.knots 3) (hk1 : t1 ∈ c.knots → t1 = knot c.knots c.ctrl.length)
    (hsep : t0 = knot c.knots 3 ∨ t1 = knot c.knots c.ctrl.length ∨ ∃ y ∈ c.knots, t0 < y ∧ y < t1) :
    bspline3 eps c t0 t1 = bspline eps c t0 t1 := by
  obtain ⟨segs, bs, e, PP⟩ := toBezier_spec heps hc (Or.inl hf)
  obtain ⟨g1, g2, g3, -, g5⟩ := Props.pieces_index segs bs _ PP
  have hmem := Props.pieces_mem segs bs _ ((mem_knots_iff _ _).mpr ⟨3, by have := hc.len; omega, rfl⟩) PP
  rw [bspline, bspline3, e, ok_bind, ok_bind]
  refine loop_congr _ _ (fun i hi theta => ?_)
  have hs : segs[i]? = some segs[i] := List.getElem?_eq_getElem hi
  obtain ⟨a, b, ea, eb, PO⟩ := g5 i _ hs
  have hab : a < b := by
    have l1 := (List.getElem?_eq_some_iff.1 ea)
    have l2 := (List.getElem?_eq_some_iff.1 eb)
    have := List.pairwise_iff_getElem.1 g2 i (i + 1) l1.1 l2.1 (by omega)
    rwa [l1.2, l2.2] at this
  have ma := (hmem a).1 (List.mem_of_getElem? ea)
  have mb := (hmem b).1 (List.mem_of_getElem? eb)
  rw [show rd (knot c.knots 3 :: bs) i = ok a from rd_eq_ok.2 ea, ok_bind, ok_bind,
    show rd (knot c.knots 3 :: bs) (i + 1) = ok b from rd_eq_ok.2 eb, ok_bind, ok_bind]
  have hpos : 0 < b - a := by linarith
  by_cases hskip : b < t0 ∨ a > t1
  · rw [if_pos hskip, if_pos hskip]
  · rw [if_neg hskip, if_neg hskip, assert_true hpos.ne', ok_bind, ok_bind,
      show rd segs i = ok segs[i] from rd_eq_ok.2 hs, ok_bind, ok_bind]
    push Not at hskip
    obtain ⟨k1, k2⟩ := hskip
    have k1' : t0 < b := by
      rcases eq_or_lt_of_le k1 with h | h
      · have := hk0 (h ▸ mb.1)
        linarith [ma.2.1]
      · exact h
    have k2' : a < t1 := by
      rcases eq_or_lt_of_le k2 with h | h
      · have := hk1 (h ▸ ma.1)
        linarith [mb.2.2]
      · exact h
    have hcase : t0 ≤ a ∨ b ≤ t1 := by
      by_contra hcon
      push Not at hcon
      rcases hsep with h | h | ⟨y, hy, y0, y1⟩
      · linarith [ma.2.1]
      · linarith [mb.2.2]
      · exact PO.gap y hy ⟨by linarith, by linarith⟩
    congr 1
    apply C75_cubic_partial PO.len
    rcases hcase with h | h
    · left
      have u0 : 0 < (t1 - a) / (b - a) := div_pos (by linarith) hpos
      refine ⟨max_eq_right (div_nonpos_of_nonpos_of_nonneg (by linarith) hpos.le), lt_min u0 one_pos,
        min_le_right _ _⟩
    · right
      have u0 : (t0 - a) / (b - a) < 1 := by rw [div_lt_one hpos]; linarith
      refine ⟨le_max_right _ _, max_lt u0 one_pos, min_eq_right ?_⟩
      rw [le_div_iff₀ hpos]; linarith

/-- **C75** (fixed degree 3): false for a range that starts at an inner knot; the part `[1, 1]` of the piece before
the knot is taken, which reads past the end of an array.  This holds for every cubic spline. -/
theorem C75_bspline_cubic_start_refuted {eps : ℝ} (heps : 0 ≤ eps) {c : BSpline ℝ (ℝ × ℝ)}
    (hc : WellFormed c 3) (hf : FirstSpan c 3) {t0 t1 : ℝ} (h01 : t0 < t1) (hk : t0 ∈ c.knots)
    (h0 : knot c.knots 3 < t0) (h1 : t0 < knot c.knots c.ctrl.length) : bspline3 eps c t0 t1 = ub := by
  obtain ⟨segs, bs, e, PP⟩ := toBezier_spec heps hc (Or.inl hf)
  obtain ⟨g1, g2, g3, -, g5⟩ := Props.pieces_index segs bs _ PP
  have hmem := Props.pieces_mem segs bs _ ((mem_knots_iff _ _).mpr ⟨3, by have := hc.len; omega, rfl⟩) PP
  have hin : t0 ∈ knot c.knots 3 :: bs := (hmem t0).2 ⟨hk, h0.le, h1.le⟩
  rcases List.mem_cons.1 hin with h | hbs
  · exact absurd h h0.ne'
  obtain ⟨i, hi, ei⟩ := List.mem_iff_getElem.1 hbs
  have hi' : i < segs.length := by omega
  rw [bspline3, e, ok_bind]
  have step : ∀ j (hj : j < segs.length), ∃ a b, rd (knot c.knots 3 :: bs) j = ok a ∧
      rd (knot c.knots 3 :: bs) (j + 1) = ok b ∧ a < b ∧ (j < i → b < t0) ∧ (j = i → b = t0) := by
    intro j hj
    obtain ⟨a, b, ea, eb, -⟩ := g5 j _ (List.getElem?_eq_getElem hj)
    have l1 := (List.getElem?_eq_some_iff.1 ea)
    have l2 := (List.getElem?_eq_some_iff.1 eb)
    have hlt := List.pairwise_iff_getElem.1 g2 j (j + 1) l1.1 l2.1 (by omega)
    rw [l1.2, l2.2] at hlt
    have hbi : (knot c.knots 3 :: bs)[i + 1]'(by simpa using hi) = t0 := by
      simpa using ei
    refine ⟨a, b, rd_eq_ok.2 ea, rd_eq_ok.2 eb, hlt, fun h => ?_, fun h => ?_⟩
    · have := List.pairwise_iff_getElem.1 g2 (j + 1) (i + 1) l2.1 (by simpa using hi) (by omega)
      rwa [l2.2, hbi] at this
    · subst h; rw [← l2.2, hbi]
  have main : ∀ n, i < n → n ≤ segs.length → loop n (fun i theta => do
      let tMin ← rd (knot c.knots 3 :: bs) i
      let tMax ← rd (knot c.knots 3 :: bs) (i + 1)
      if tMax < t0 ∨ tMin > t1 then ok theta
      else do
        Outcome.assert (tMax - tMin ≠ 0)
        let lower := max ((t0 - tMin) / (tMax - tMin)) 0
        let upper := min ((t1 - tMin) / (tMax - tMin)) 1
        let s ← rd segs i
        let a ← bezier3 s lower upper
        pure (theta + a)) (0 : ℝ) = ub := by
    intro n hn hle
    induction n with
    | zero => omega
    | succ n ih =>
      rcases Nat.lt_succ_iff_lt_or_eq.1 hn with h | rfl
      · rw [loop, ih h (by omega)]; rfl
      · have pre := loop_eq (fun _ => (0 : ℝ)) i (fun i theta => do
          let tMin ← rd (knot c.knots 3 :: bs) i
          let tMax ← rd (knot c.knots 3 :: bs) (i + 1)
          if tMax < t0 ∨ tMin > t1 then ok theta
          else do
            Outcome.assert (tMax - tMin ≠ 0)
            let lower := max ((t0 - tMin) / (tMax - tMin)) 0
            let upper := min ((t1 - tMin) / (tMax - tMin)) 1
            let s ← rd segs i
            let a ← bezier3 s lower upper
            pure (theta + a)) (by
          intro j hj
          obtain ⟨a, b, ra, rb, -, hb, -⟩ := step j (by omega)
          dsimp only
          rw [ra, ok_bind, rb, ok_bind, if_pos (Or.inl (hb hj))])
        dsimp only at pre
        rw [loop, pre, ok_bind]
        obtain ⟨a, b, ra, rb, hab, -, hb⟩ := step i hi'
        have hbe := hb rfl
        subst hbe
        have hpos : 0 < b - a := by linarith
        rw [ra, ok_bind, rb, ok_bind, if_neg (by push Not; exact ⟨le_rfl, by linarith⟩),
          assert_true hpos.ne', ok_bind, rd_of_lt hi', ok_bind, div_self hpos.ne',
          max_eq_left zero_le_one, min_eq_right (by rw [le_div_iff₀ hpos]; linarith), bezier3,
          Props.C09_subcurve3_ub]
        rfl
  exact main segs.length hi' le_rfl

/-- A part without length at the start of a cubic is the whole cubic. -/
theorem bezier3_start {c : Bezier (ℝ × ℝ)} (hlen : c.ctrl.length = 4) : bezier3 c 0 0 = bezier c 0 1 := by
  rw [← C75_cubic_partial hlen (Or.inl ⟨rfl, one_pos, le_rfl⟩), bezier3, bezier3, Bezier.subcurve3,
    Bezier.subcurve3, throwIf_false (lt_irrefl _), ok_bind, if_neg (by simp), if_pos rfl,
    Bezier.split_invalid c 0 (Or.inl le_rfl), throwIf_false (by norm_num), ok_bind, if_pos ⟨rfl, rfl⟩]
  rfl

/-- **C75** (fixed degree 3): false for a range that ends at an inner knot: the turning angle of the whole piece
after the knot is added.  Here a straight piece, which does not turn, is followed by a parabola. -/
theorem C75_bspline_cubic_end_refuted :
    pieces bezier3 0 1 [{ ctrl := [(-3, 0), (-2, 0), (-1, 0), (0, 0)] }, { ctrl := arr 4 parabola }] [0, 1, 2]
      = ok (Real.arctan 2) ∧
    pieces bezier 0 1 [{ ctrl := [(-3, 0), (-2, 0), (-1, 0), (0, 0)] }, { ctrl := arr 4 parabola }] [0, 1, 2]
      = ok 0 ∧ Real.arctan 2 ≠ 0 := by
  have hline : bezier { ctrl := [(-3, 0), (-2, 0), (-1, 0), (0, 0)] } 0 1 = ok 0 := by
    have := bezier_arr 2 (fun i : ℕ => ((i : ℝ) - 3, (0 : ℝ))) false (t0 := 0) (t1 := 1) le_rfl zero_le_one le_rfl
    have e : ([(-3, 0), (-2, 0), (-1, 0), (0, 0)] : List (ℝ × ℝ)) = arr 4 (fun i : ℕ => ((i : ℝ) - 3, (0 : ℝ))) := by
      simp [arr, List.range, List.range.loop]; norm_num
    rw [e, this]
    congr 1
    have hsub : ∀ i, sub 2 (fun i : ℕ => ((i : ℝ) - 3, (0 : ℝ))) 0 1 i = ((i : ℝ) - 3, 0) := by
      intro i; rw [sub, lin_zero, lin_one, one_pow, one_mul, umb_X_pow]
    refine sum_eq_zero fun j _ => ?_
    rw [hsub, hsub, hsub]
    have : (((j + 2 : ℕ) : ℝ) - 3, (0 : ℝ)) - (((j + 1 : ℕ) : ℝ) - 3, 0) = (((j + 1 : ℕ) : ℝ) - 3, (0 : ℝ)) - ((j : ℝ) - 3, 0) := by
      ext
      · push_cast; simp; ring
      · simp
    rw [this]
    exact turn_self _
  have hpar : bezier { ctrl := arr 4 parabola } 0 1 = ok (Real.arctan 2) := by
    obtain ⟨theta, h1, -, h2⟩ := C75_bezier_partial (c := { ctrl := arr 4 parabola }) rfl (by simp)
      (t0 := 0) (t1 := 1) le_rfl one_pos le_rfl (w := (1, 0))
      (by
        intro s hs
        rw [Bezier.subcurve_arr 3 parabola _ _ _ zero_le_one le_rfl le_rfl, ok.injEq] at hs
        rw [← hs]
        exact parabola_half _ _ one_pos)
      (fun t _ _ => by rw [evaluateDerivative_tangent, parabola_tangent])
    rw [h1, C75_unique zero_le_one h2 ⟨_, parabola_angle _ _, rfl⟩]
    norm_num
  have hl3 : bezier3 { ctrl := [(-3, 0), (-2, 0), (-1, 0), (0, 0)] } 0 1 = ok 0 := by
    rw [C75_cubic_partial rfl (Or.inl ⟨rfl, one_pos, le_rfl⟩), hline]
  have hp3 : bezier3 { ctrl := arr 4 parabola } 0 0 = ok (Real.arctan 2) := by
    rw [bezier3_start (by simp), hpar]
  have hp0 : bezier { ctrl := arr 4 parabola } 0 0 = ok 0 := bezier_point 2 parabola false le_rfl zero_le_one
  refine ⟨?_, ?_, ?_⟩
  · simp only [pieces, List.length_cons, List.length_nil, loop, rd, ok_bind, List.getElem?_cons_zero,
      List.getElem?_cons_succ]
    norm_num [Outcome.assert, hl3, hp3, ok_bind, pure_eq]
  · simp only [pieces, List.length_cons, List.length_nil, loop, rd, ok_bind, List.getElem?_cons_zero,
      List.getElem?_cons_succ]
    norm_num [Outcome.assert, hline, hp0, ok_bind, pure_eq]
  · rw [Ne, Real.arctan_eq_zero_iff]; norm_num

/-- A cubic spline on `[0, 2]` with the inner knot `1`. -/
noncomputable def cubicWave : BSpline ℝ (ℝ × ℝ) :=
  BSpline.mk [(0, 0), (1, 1), (2, -1), (3, 0), (4, 1)] [0, 0, 0, 0, 1, 2, 2, 2, 2] false none

theorem cubicWave_wf : WellFormed cubicWave 3 := by
  refine ⟨rfl, Or.inl rfl, by decide, by norm_num [cubicWave], ?_⟩
  norm_num [cubicWave, knot]

theorem cubicWave_first : FirstSpan cubicWave 3 := by norm_num [FirstSpan, cubicWave, knot]

/-- Concrete case of `C75_bspline_cubic_partial`: a range with the inner knot inside. -/
example : bspline3 0 cubicWave (1 / 2) (3 / 2) = bspline 0 cubicWave (1 / 2) (3 / 2) := by
  refine C75_bspline_cubic_partial le_rfl cubicWave_wf cubicWave_first ?_ ?_
    (Or.inr (Or.inr ⟨1, ?_, ?_, ?_⟩)) <;> norm_num [cubicWave]

/-- Concrete case of `C75_bspline_cubic_start_refuted`: a range that starts at the inner knot. -/
example : bspline3 0 cubicWave 1 (3 / 2) = ub := by
  refine C75_bspline_cubic_start_refuted le_rfl cubicWave_wf cubicWave_first (by norm_num) ?_ ?_ ?_ <;>
    norm_num [cubicWave, knot]

end Turning
end NS
