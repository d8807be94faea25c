import Verif.Proof.ClampedEnds
import Verif.Props.BezierPatch
import Verif.Props.BSplinePatch
import Verif.Spec.Edge

/-!
# C97: ends of curves and edges of patches in exact arithmetic
-/

set_option linter.unusedSectionVars false

namespace NS.Props

open Outcome Spec Finset BSpline BSplinePatch Polynomial
open Fl (ClampedOn)

variable {K V : Type} [Field K] [LinearOrder K] [IsStrictOrderedRing K] [FloorRing K]
  [AddCommGroup V] [Module K V]

/-! ### Curves -/

/-- C97: a clamped B-spline starts at its first and ends at its last control point. -/
theorem C97_bspline_ends {c : BSpline K V} {p : ℕ} (hc : WellFormed c p) (hw : Wide c p)
    (hper : c.periodic = false) (hcl : ClampedOn c.knots c.ctrl.length p) :
    c.evaluate (knot c.knots p) = ok (c.ctrl.getD 0 0) ∧
    c.evaluate (knot c.knots c.ctrl.length) = ok (c.ctrl.getD (c.ctrl.length - 1) 0) := by
  obtain ⟨s, ha, he⟩ := axis_of hc
  obtain ⟨e1, e2⟩ := ha.clamped hcl fun i => c.ctrl.getD i 0
  have hww : WideOn c.knots c.ctrl.length p := hw
  rw [hper] at he
  have hev : ∀ t, c.evaluate t = (BSpline.mk (arr c.ctrl.length fun i => c.ctrl.getD i 0) c.knots false
      (staticDeg s)).evaluate t := fun t => congrArg (fun d : BSpline K V => d.evaluate t) he
  refine ⟨?_, ?_⟩
  · rw [hev, ha.evaluate_arr hww _ (per := false) rfl ⟨le_rfl, ha.dom.le, Or.inl hcl.first⟩, e1]
  · rw [hev, ha.evaluate_arr hww _ (per := false) rfl ⟨ha.dom.le, le_rfl, Or.inl hcl.first⟩, e2]

/-- C97: its derivatives at the ends are along the first and last leg of the control polygon. -/
theorem C97_bspline_end_tangents {c : BSpline K V} {p : ℕ} (hc : WellFormed c (p + 1))
    (hw : Wide c (p + 1)) (hper : c.periodic = false) (hcl : ClampedOn c.knots c.ctrl.length (p + 1)) :
    c.evaluateDerivative (knot c.knots (p + 1))
      = ok ((((p : K) + 1) / (knot c.knots (p + 2) - knot c.knots (p + 1))) •
          (c.ctrl.getD 1 0 - c.ctrl.getD 0 0)) ∧
    c.evaluateDerivative (knot c.knots c.ctrl.length)
      = ok ((((p : K) + 1) / (knot c.knots c.ctrl.length - knot c.knots (c.ctrl.length - 1))) •
          (c.ctrl.getD (c.ctrl.length - 1) 0 - c.ctrl.getD (c.ctrl.length - 2) 0)) := by
  obtain ⟨s, ha, he⟩ := axis_of hc
  obtain ⟨e1, e2⟩ := ha.clamped_deriv hcl fun i => c.ctrl.getD i 0
  have hww : WideOn c.knots c.ctrl.length (p + 1) := hw
  rw [hper] at he
  have hev : ∀ t, c.evaluateDerivative t = (BSpline.mk (arr c.ctrl.length fun i => c.ctrl.getD i 0) c.knots false
      (staticDeg s)).evaluateDerivative t := fun t => congrArg (fun d : BSpline K V => d.evaluateDerivative t) he
  refine ⟨?_, ?_⟩
  · rw [hev, ha.deriv hww _ (per := false) rfl ⟨le_rfl, ha.dom.le, Or.inl hcl.first⟩, e1]
  · rw [hev, ha.deriv hww _ (per := false) rfl ⟨ha.dom.le, le_rfl, Or.inl hcl.first⟩, e2]

/-- C97: the derivatives of a Bézier curve at its ends. -/
theorem C97_bezier_end_tangents {c : Bezier V} (hper : c.periodic = false) {n : ℕ}
    (hn : c.ctrl.length = n + 2) :
    c.evaluateDerivative (0 : K) = ok (((n : K) + 1) • (c.ctrl.getD 1 0 - c.ctrl.getD 0 0)) ∧
    c.evaluateDerivative (1 : K) = ok (((n : K) + 1) • (c.ctrl.getD (n + 1) 0 - c.ctrl.getD n 0)) := by
  have e : c = { ctrl := arr (n + 2) fun i => c.ctrl.getD i 0 } := by
    have := eq_arr c.ctrl (0 : V)
    rw [hn] at this
    rw [← this]
    exact congrArg (Bezier.mk c.ctrl) hper
  constructor
  · conv_lhs => rw [e]
    rw [evaluateDerivative_umb]
    simp only [lin_zero, one_pow, one_mul, map_sub, umb_one]
    have := umb_X_pow (K := K) (fun i => c.ctrl.getD i 0) 1
    rw [pow_one] at this
    rw [this]
    push_cast
    rfl
  · conv_lhs => rw [e]
    rw [evaluateDerivative_umb]
    simp only [lin_one, mul_sub, mul_one, map_sub, Nat.add_sub_cancel, ← pow_succ, umb_X_pow]
    push_cast
    rfl

theorem quot1_end {w0 : K} (h : w0 ≠ 0) (w1 a : K) (P0 P1 : V) :
    quot1 (w0 • P0, w0) (a • ((w1 • P1, w1) - (w0 • P0, w0))) = ok ((a * w1 / w0) • (P1 - P0)) := by
  unfold quot1
  rw [assert_true h, ok_bind, pure_eq]
  congr 1
  have e : w0⁻¹ * w0 = 1 := inv_mul_cancel₀ h
  simp only [Prod.smul_fst, Prod.smul_snd, Prod.fst_sub, Prod.snd_sub, smul_eq_mul, smul_sub, smul_smul]
  match_scalars <;> field_simp
  ring

/-- C97: a rational Bézier curve starts at its first control point, and its derivative there is along the
first leg; the ratio of the first two weights scales it. -/
theorem C97_rational_ends {c : RationalBezier K V} (hc : c.init = ok c) (hper : c.base.periodic = false)
    {n : ℕ} (hn : c.base.ctrl.length = n + 2) :
    (c.weights.getD 0 0 ≠ 0 → c.evaluate 0 = ok (c.base.ctrl.getD 0 0) ∧
      c.evaluateDerivative 0 = ok ((((n : K) + 1) * c.weights.getD 1 0 / c.weights.getD 0 0) •
        (c.base.ctrl.getD 1 0 - c.base.ctrl.getD 0 0))) ∧
    (c.weights.getD (n + 1) 0 ≠ 0 → c.evaluate 1 = ok (c.base.ctrl.getD (n + 1) 0) ∧
      c.evaluateDerivative 1 = ok ((((n : K) + 1) * c.weights.getD n 0 / c.weights.getD (n + 1) 0) •
        (c.base.ctrl.getD (n + 1) 0 - c.base.ctrl.getD n 0))) := by
  obtain ⟨S, -, -⟩ := (RationalBezier.init_iff _ _).1 hc
  have hl : c.hom.ctrl.length = n + 2 := by
    rw [S.hom]; exact (homog_length S.len).trans hn
  have hp : c.hom.periodic = false := by rw [S.hom]; exact hper
  have hne : c.hom.ctrl ≠ [] := by intro h; rw [h] at hl; simp at hl
  have hg : ∀ i, c.hom.ctrl.getD i 0
      = (c.weights.getD i 0 • c.base.ctrl.getD i 0, c.weights.getD i 0) := by
    intro i; rw [S.hom]; exact homog_getD i S.len
  have rdg : ∀ i < n + 2, rd c.hom.ctrl i = ok (c.hom.ctrl.getD i 0) := by
    intro i hi
    have h := eq_arr c.hom.ctrl (0 : V × K)
    conv_lhs => rw [h]
    rw [rd_arr (by omega)]
  obtain ⟨t0, t1⟩ := C97_bezier_end_tangents (K := K) hp hl
  have v0 := C03_start (K := K) c.hom hne
  have v1 := C03_end (K := K) c.hom hne hp
  rw [rdg 0 (by omega), hg] at v0
  have e1 : n + 2 - 1 = n + 1 := by omega
  rw [rdg _ (by omega), hl, e1, hg] at v1
  rw [hg, hg] at t0
  rw [hg, hg] at t1
  have q0 : ∀ {w : K} (_ : w ≠ 0) (P : V), quot0 (w • P, w) = ok P := by
    intro w hw P
    unfold quot0
    rw [assert_true hw, ok_bind, pure_eq, smul_smul, inv_mul_cancel₀ hw, one_smul]
  refine ⟨fun hw => ⟨?_, ?_⟩, fun hw => ⟨?_, ?_⟩⟩
  · unfold RationalBezier.evaluate
    rw [S.validate, ok_bind, v0, ok_bind, q0 hw]
  · unfold RationalBezier.evaluateDerivative
    rw [S.validate, ok_bind, v0, ok_bind, t0, ok_bind, quot1_end hw]
  · unfold RationalBezier.evaluate
    rw [S.validate, ok_bind, v1, ok_bind]
    exact q0 hw _
  · unfold RationalBezier.evaluateDerivative
    rw [S.validate, ok_bind, v1, ok_bind, t1, ok_bind, ← neg_sub (_, _) (_, _), smul_neg, ← neg_smul]
    refine (quot1_end hw _ _ _ _).trans ?_
    congr 1
    rw [← neg_sub (c.base.ctrl.getD (n + 1) 0), smul_neg, ← neg_smul]
    congr 1
    ring

/-- C97: likewise for a clamped NURBS curve. -/
theorem C97_nurbs_ends {c : NURBS K V} (hc : c.init = ok c) {p : ℕ} (hwf : WellFormed c.base (p + 1))
    (hw : Wide c.base (p + 1)) (hper : c.base.periodic = false)
    (hcl : ClampedOn c.base.knots c.base.ctrl.length (p + 1)) :
    (c.weights.getD 0 0 ≠ 0 → c.evaluate (knot c.base.knots (p + 1)) = ok (c.base.ctrl.getD 0 0) ∧
      c.evaluateDerivative (knot c.base.knots (p + 1))
        = ok ((((p : K) + 1) / (knot c.base.knots (p + 2) - knot c.base.knots (p + 1)) *
            c.weights.getD 1 0 / c.weights.getD 0 0) • (c.base.ctrl.getD 1 0 - c.base.ctrl.getD 0 0))) ∧
    (c.weights.getD (c.base.ctrl.length - 1) 0 ≠ 0 →
      c.evaluate (knot c.base.knots c.base.ctrl.length)
        = ok (c.base.ctrl.getD (c.base.ctrl.length - 1) 0) ∧
      c.evaluateDerivative (knot c.base.knots c.base.ctrl.length)
        = ok ((((p : K) + 1) / (knot c.base.knots c.base.ctrl.length
              - knot c.base.knots (c.base.ctrl.length - 1)) *
            c.weights.getD (c.base.ctrl.length - 2) 0 / c.weights.getD (c.base.ctrl.length - 1) 0) •
          (c.base.ctrl.getD (c.base.ctrl.length - 1) 0 - c.base.ctrl.getD (c.base.ctrl.length - 2) 0))) := by
  obtain ⟨S, -, -⟩ := (NURBS.init_iff _ _).1 hc
  have hl : c.hom.ctrl.length = c.base.ctrl.length := by
    rw [S.hom]; exact homog_length S.len
  have hk : c.hom.knots = c.base.knots := by rw [S.hom]
  have hp : c.hom.periodic = false := by rw [S.hom]; exact hper
  have hwf' : WellFormed c.hom (p + 1) := by
    refine ⟨by rw [hk, hl]; exact hwf.len, by rw [S.hom]; exact hwf.sdeg, by rw [hl]; exact hwf.ctrl,
      by rw [hk]; exact hwf.sorted, by rw [hk, hl]; exact hwf.dom⟩
  have hw' : Wide c.hom (p + 1) := by
    intro i i1 i2 i3
    rw [hk] at *
    exact hw i i1 (by omega) i3
  have hg : ∀ i, c.hom.ctrl.getD i 0
      = (c.weights.getD i 0 • c.base.ctrl.getD i 0, c.weights.getD i 0) := by
    intro i; rw [S.hom]; exact homog_getD i S.len
  have hval : c.validate = ok () := by rw [S.validate]; exact validate_ok hwf
  obtain ⟨v0, v1⟩ := C97_bspline_ends hwf' hw' hp (by rw [hk, hl]; exact hcl)
  obtain ⟨t0, t1⟩ := C97_bspline_end_tangents hwf' hw' hp (by rw [hk, hl]; exact hcl)
  simp only [hk, hl, hg] at v0 v1 t0 t1
  have q0 : ∀ {w : K} (_ : w ≠ 0) (P : V), quot0 (w • P, w) = ok P := by
    intro w hw P
    unfold quot0
    rw [assert_true hw, ok_bind, pure_eq, smul_smul, inv_mul_cancel₀ hw, one_smul]
  refine ⟨fun hw => ⟨?_, ?_⟩, fun hw => ⟨?_, ?_⟩⟩
  · unfold NURBS.evaluate
    rw [hval, ok_bind, v0, ok_bind, q0 hw]
  · unfold NURBS.evaluateDerivative
    rw [hval, ok_bind, v0, ok_bind, t0, ok_bind, quot1_end hw]
  · unfold NURBS.evaluate
    rw [hval, ok_bind, v1, ok_bind]
    exact q0 hw _
  · unfold NURBS.evaluateDerivative
    rw [hval, ok_bind, v1, ok_bind, t1, ok_bind, ← neg_sub (_, _) (_, _), smul_neg, ← neg_smul]
    refine (quot1_end hw _ _ _ _).trans ?_
    congr 1
    rw [← neg_sub (c.base.ctrl.getD (c.base.ctrl.length - 1) 0), smul_neg, ← neg_smul]
    congr 1
    ring

/-! ### Bézier patches -/

section BezierPatches

variable {p : BezierPatch V} {m n : ℕ}

theorem column_eq (p : BezierPatch V) (m n j : ℕ) :
    gridColumn p.grid m (n + 1) j = arr m fun i => p.pts n i j := rfl

theorem row_eq (p : BezierPatch V) (n i : ℕ) :
    gridRow p.grid (n + 1) i = arr (n + 1) fun j => p.pts n i j := rfl

/-- The curve in the first parameter along column `j`. -/
def edgeU (p : BezierPatch V) (m n j : ℕ) : Bezier V :=
  { ctrl := gridColumn p.grid (m + 1) (n + 1) j, periodic := p.perU }

/-- The curve in the second parameter along row `i`. -/
def edgeV (p : BezierPatch V) (n i : ℕ) : Bezier V :=
  { ctrl := gridRow p.grid (n + 1) i, periodic := p.perV }

/-- C97: the edges of a Bézier patch in the first parameter are the Bézier curves of the outer columns of
control points, with their derivatives. -/
theorem C97_exact_edges_u (hp : p.init = ok ()) (hm : p.degU = m) (hn : p.degV = n) (hv : p.perV = false)
    {v : K} {j : ℕ} (hj : v = 0 ∧ j = 0 ∨ v = 1 ∧ j = n) :
    p.isoCurveU v = ok (edgeU p m n j) ∧
    ∀ u, p.evaluate u v = (edgeU p m n j).evaluate u ∧
      p.derivU u v = (edgeU p m n j).evaluateDerivative u ∧
      p.derivUU u v = (edgeU p m n j).evaluate2ndDerivative u := by
  have hw := wf_of_init hp
  rw [hm, hn] at hw
  simp only [Int.toNat_natCast] at hw
  have e : p.isoCurveU v = ok (edgeU p m n j) := by
    rw [hw.isoCurveU (v' := v) (by rw [hv]; rfl)]
    unfold edgeU
    rw [column_eq]
    congr 2
    apply arr_congr
    intro i _
    rcases hj with ⟨rfl, rfl⟩ | ⟨rfl, rfl⟩
    · rw [lin_zero, one_pow, umb_one]
    · rw [lin_one, umb_X_pow]
  refine ⟨e, fun u => ⟨?_, ?_, ?_⟩⟩
  · rw [← (C28_iso_order hp u v).1, e, ok_bind]
  · unfold BezierPatch.derivU; rw [e, ok_bind]
  · unfold BezierPatch.derivUU; rw [e, ok_bind]

/-- C97: likewise for the edges in the second parameter and the outer rows. -/
theorem C97_exact_edges_v (hp : p.init = ok ()) (hm : p.degU = m) (hn : p.degV = n) (hu : p.perU = false)
    {u : K} {i : ℕ} (hi : u = 0 ∧ i = 0 ∨ u = 1 ∧ i = m) :
    p.isoCurveV u = ok (edgeV p n i) ∧
    ∀ v, p.evaluate u v = (edgeV p n i).evaluate v ∧
      p.derivV u v = (edgeV p n i).evaluateDerivative v ∧
      p.derivVV u v = (edgeV p n i).evaluate2ndDerivative v := by
  have hw := wf_of_init hp
  rw [hm, hn] at hw
  simp only [Int.toNat_natCast] at hw
  have e : p.isoCurveV u = ok (edgeV p n i) := by
    rw [hw.isoCurveV (u' := u) (by rw [hu]; rfl)]
    unfold edgeV
    rw [row_eq]
    congr 2
    apply arr_congr
    intro j _
    rcases hi with ⟨rfl, rfl⟩ | ⟨rfl, rfl⟩
    · rw [lin_zero, one_pow, umb_one]
    · rw [lin_one, umb_X_pow]
  refine ⟨e, fun v => ⟨?_, ?_, ?_⟩⟩
  · rw [← (C28_iso_order hp u v).2, e, ok_bind]
  · unfold BezierPatch.derivV; rw [e, ok_bind]
  · unfold BezierPatch.derivVV; rw [e, ok_bind]

/-- C97: across an edge in the first parameter the derivative is the Bézier curve of the differences of the
two outer columns. -/
theorem C97_exact_cross (hp : p.init = ok ()) (hm : p.degU = m) (hn : p.degV = ((n + 1 : ℕ) : ℤ))
    (hv : p.perV = false) (u : K) :
    p.derivV u 0 = Bezier.evaluate { ctrl := arr (m + 1) fun i =>
        ((n : K) + 1) • (p.pts (n + 1) i 1 - p.pts (n + 1) i 0), periodic := p.perU } u ∧
    p.derivV u 1 = Bezier.evaluate { ctrl := arr (m + 1) fun i =>
        ((n : K) + 1) • (p.pts (n + 1) i (n + 1) - p.pts (n + 1) i n), periodic := p.perU } u := by
  have hw := wf_of_init hp
  rw [hm, hn] at hw
  simp only [Int.toNat_natCast] at hw
  obtain ⟨u', hu, -⟩ := bezier_folded p.perU u
  have w0 : Bezier.wrap p.perV (0 : K) = ok 0 := by rw [hv]; rfl
  have w1 : Bezier.wrap p.perV (1 : K) = ok 1 := by rw [hv]; rfl
  rw [hw.derivV hu w0, hw.derivV hu w1, BezierPatch.evaluate_arr_wrap m _ _ hu,
    BezierPatch.evaluate_arr_wrap m _ _ hu]
  unfold BezierPatch.part
  have x1 : ∀ P : ℕ → V, umb P (X : K[X]) = P 1 := fun P => by
    have := umb_X_pow (K := K) P 1
    rwa [pow_one] at this
  constructor
  · simp only [lin_zero, one_pow, one_mul, pow_one, map_sub, umb_one, x1, Nat.descFactorial,
      Nat.sub_zero, Nat.cast_one, mul_one, one_smul, pow_zero]
    rw [umb_smul_fun]
    push_cast
    rfl
  · simp only [lin_one, mul_sub, mul_one, pow_one, map_sub, ← pow_succ, umb_X_pow, Nat.descFactorial,
      Nat.sub_zero, Nat.cast_one, one_smul, pow_zero, Nat.add_sub_cancel]
    rw [umb_smul_fun]
    push_cast
    rfl

/-- C97: two Bézier patches which share a column of control points, with proportional legs across it, join
with equal positions and equal derivatives in both parameters along the whole common edge. -/
theorem C97_exact_join {q : BezierPatch V} {k : ℕ} (hp : p.init = ok ()) (hq : q.init = ok ())
    (hm : p.degU = m) (hn : p.degV = ((n + 1 : ℕ) : ℤ)) (hm' : q.degU = m)
    (hk : q.degV = ((k + 1 : ℕ) : ℤ)) (pv : p.perV = false) (qv : q.perV = false) (pu : p.perU = q.perU)
    (h0 : ∀ i ≤ m, p.pts (n + 1) i (n + 1) = q.pts (k + 1) i 0)
    (h1 : ∀ i ≤ m, ((n : K) + 1) • (p.pts (n + 1) i (n + 1) - p.pts (n + 1) i n)
      = ((k : K) + 1) • (q.pts (k + 1) i 1 - q.pts (k + 1) i 0)) (u : K) :
    p.evaluate u 1 = q.evaluate u 0 ∧ p.derivU u 1 = q.derivU u 0 ∧ p.derivUU u 1 = q.derivUU u 0 ∧
      p.derivV u 1 = q.derivV u 0 := by
  have e : edgeU p m (n + 1) (n + 1) = edgeU q m (k + 1) 0 := by
    unfold edgeU
    rw [column_eq, column_eq, pu]
    congr 1
    exact arr_congr fun i hi => h0 i (by omega)
  obtain ⟨-, a⟩ := C97_exact_edges_u (K := K) hp hm hn pv (Or.inr ⟨rfl, rfl⟩)
  obtain ⟨-, b⟩ := C97_exact_edges_u (K := K) hq hm' hk qv (Or.inl ⟨rfl, rfl⟩)
  obtain ⟨a1, a2, a3⟩ := a u
  obtain ⟨b1, b2, b3⟩ := b u
  refine ⟨by rw [a1, b1, e], by rw [a2, b2, e], by rw [a3, b3, e], ?_⟩
  rw [(C97_exact_cross hp hm hn pv u).2, (C97_exact_cross hq hm' hk qv u).1, pu]
  congr 2
  exact arr_congr fun i hi => h1 i (by omega)

end BezierPatches

/-! ### B-spline patches -/

section BSplinePatches

variable {p r : BSplinePatch K V} {m n du dv : ℕ}

/-- The curve in the first parameter along column `j`. -/
def splineU (p : BSplinePatch K V) (m n j : ℕ) : BSpline K V :=
  ⟨gridColumn p.grid m n j, p.knotsU, p.perU, staticDeg p.sU⟩

/-- The curve in the second parameter along row `i`. -/
def splineV (p : BSplinePatch K V) (n i : ℕ) : BSpline K V :=
  ⟨gridRow p.grid n i, p.knotsV, p.perV, staticDeg p.sV⟩

/-- C97: the edges of a clamped B-spline patch in the first parameter are the B-splines of the outer columns
of control points. -/
theorem C97_exact_spline_edges_u (hp : p.Valid m n du dv) (hr : p.init = ok r) (wu : WideOn p.knotsU m du)
    (wv : WideOn p.knotsV n dv) (cv : ClampedOn p.knotsV n dv) (pv : p.perV = false) {v : K} {j : ℕ}
    (hj : v = knot p.knotsV dv ∧ j = 0 ∨ v = knot p.knotsV n ∧ j = n - 1) :
    r.isoCurveU v = ok (splineU p m n j) ∧
    ∀ u u', wrapOn p.knotsU m du p.perU u = ok u' → InDom p.knotsU m du u' →
      r.evaluate u v = (splineU p m n j).evaluate u ∧
      r.derivU u v = (splineU p m n j).evaluateDerivative u ∧
      r.derivUU u v = (splineU p m n j).evaluate2ndDerivative u := by
  have hready := hp.ready hr
  obtain ⟨r', hr', -, k0, k1, k2, k3, k4, k5, k6, k7, k8⟩ := hp.init_ready
  rw [hr, ok.injEq] at hr'
  subst hr'
  have hv : wrapOn r.knotsV n dv r.perV v = ok v := by rw [k6, pv]; rfl
  have hd : InDom r.knotsV n dv v := by
    rw [k2]
    rcases hj with ⟨rfl, -⟩ | ⟨rfl, -⟩
    · exact ⟨le_rfl, hp.v.dom.le, Or.inl cv.first⟩
    · exact ⟨hp.v.dom.le, le_rfl, Or.inl cv.first⟩
  have e : r.isoCurveU v = ok (splineU p m n j) := by
    rw [hready.isoCurveU (by rw [k2]; exact wv) hv hd, k1, k2, k5, k7]
    unfold splineU
    congr 2
    apply arr_congr
    intro i _
    have hpt : r.pts n i = p.pts n i := by unfold BSplinePatch.pts; rw [k0]
    rw [hpt]
    rcases hj with ⟨rfl, rfl⟩ | ⟨rfl, rfl⟩
    · exact (hp.v.clamped cv _).1
    · exact (hp.v.clamped cv _).2
  refine ⟨e, fun u u' hu hu' => ⟨?_, ?_, ?_⟩⟩
  · have hu1 : wrapOn r.knotsU m du r.perU u = ok u' := by rw [k1, k5]; exact hu
    have hu2 : InDom r.knotsU m du u' := by rw [k1]; exact hu'
    have := hready.evaluateUV (by rw [k1]; exact wu) (by rw [k2]; exact wv) hu1 hu2 hv hd
    rw [hready.evaluate (by rw [k1]; exact wu) (by rw [k2]; exact wv) hu1 hu2 hv hd, ← this, e, ok_bind]
  · unfold BSplinePatch.derivU; rw [e, ok_bind]
  · unfold BSplinePatch.derivUU; rw [e, ok_bind]

/-- C97: likewise for the edges in the second parameter and the outer rows. -/
theorem C97_exact_spline_edges_v (hp : p.Valid m n du dv) (hr : p.init = ok r) (wu : WideOn p.knotsU m du)
    (wv : WideOn p.knotsV n dv) (cu : ClampedOn p.knotsU m du) (pu : p.perU = false) {u : K} {i : ℕ}
    (hi : u = knot p.knotsU du ∧ i = 0 ∨ u = knot p.knotsU m ∧ i = m - 1) :
    r.isoCurveV u = ok (splineV p n i) ∧
    ∀ v v', wrapOn p.knotsV n dv p.perV v = ok v' → InDom p.knotsV n dv v' →
      r.evaluate u v = (splineV p n i).evaluate v ∧
      r.derivV u v = (splineV p n i).evaluateDerivative v ∧
      r.derivVV u v = (splineV p n i).evaluate2ndDerivative v := by
  have hready := hp.ready hr
  obtain ⟨r', hr', -, k0, k1, k2, k3, k4, k5, k6, k7, k8⟩ := hp.init_ready
  rw [hr, ok.injEq] at hr'
  subst hr'
  have hu : wrapOn r.knotsU m du r.perU u = ok u := by rw [k5, pu]; rfl
  have hd : InDom r.knotsU m du u := by
    rw [k1]
    rcases hi with ⟨rfl, -⟩ | ⟨rfl, -⟩
    · exact ⟨le_rfl, hp.u.dom.le, Or.inl cu.first⟩
    · exact ⟨hp.u.dom.le, le_rfl, Or.inl cu.first⟩
  have e : r.isoCurveV u = ok (splineV p n i) := by
    rw [hready.isoCurveV (by rw [k1]; exact wu) hu hd, k1, k2, k6, k8]
    unfold splineV
    congr 2
    apply arr_congr
    intro j _
    have hpt : ∀ i, r.pts n i j = p.pts n i j := by intro i; unfold BSplinePatch.pts; rw [k0]
    simp only [hpt]
    rcases hi with ⟨rfl, rfl⟩ | ⟨rfl, rfl⟩
    · exact (hp.u.clamped cu _).1
    · exact (hp.u.clamped cu _).2
  refine ⟨e, fun v v' hv hv' => ⟨?_, ?_, ?_⟩⟩
  · have hv1 : wrapOn r.knotsV n dv r.perV v = ok v' := by rw [k2, k6]; exact hv
    have hv2 : InDom r.knotsV n dv v' := by rw [k2]; exact hv'
    have := hready.evaluateVU (by rw [k1]; exact wu) (by rw [k2]; exact wv) hu hd hv1 hv2
    rw [hready.evaluate (by rw [k1]; exact wu) (by rw [k2]; exact wv) hu hd hv1 hv2, ← this, e, ok_bind]
  · unfold BSplinePatch.derivV; rw [e, ok_bind]
  · unfold BSplinePatch.derivVV; rw [e, ok_bind]

/-- C97: across an edge in the first parameter the derivative is the B-spline of the scaled differences of
the two outer columns. -/
theorem C97_exact_spline_cross (hp : p.Valid m n du (dv + 1)) (hr : p.init = ok r)
    (wu : WideOn p.knotsU m du) (wv : WideOn p.knotsV n (dv + 1)) (cv : ClampedOn p.knotsV n (dv + 1))
    (pv : p.perV = false) {u u' : K} (hu : wrapOn p.knotsU m du p.perU u = ok u')
    (hu' : InDom p.knotsU m du u') :
    r.derivV u (knot p.knotsV (dv + 1)) = BSpline.evaluate
        ⟨arr m fun i => (((dv : K) + 1) / (knot p.knotsV (dv + 2) - knot p.knotsV (dv + 1))) •
          (p.pts n i 1 - p.pts n i 0), p.knotsU, p.perU, staticDeg p.sU⟩ u ∧
    r.derivV u (knot p.knotsV n) = BSpline.evaluate
        ⟨arr m fun i => (((dv : K) + 1) / (knot p.knotsV n - knot p.knotsV (n - 1))) •
          (p.pts n i (n - 1) - p.pts n i (n - 2)), p.knotsU, p.perU, staticDeg p.sU⟩ u := by
  have hready := hp.ready hr
  obtain ⟨r', hr', -, k0, k1, k2, k3, k4, k5, k6, k7, k8⟩ := hp.init_ready
  rw [hr, ok.injEq] at hr'
  subst hr'
  have hpt : ∀ i j, r.pts n i j = p.pts n i j := by intro i j; unfold BSplinePatch.pts; rw [k0]
  have e := hready.isoCurveV (u := u) (by rw [k1]; exact wu) (by rw [k1, k5]; exact hu)
    (by rw [k1]; exact hu')
  rw [k1, k2, k6, k8, pv] at e
  simp only [hpt] at e
  obtain ⟨c1, c2⟩ := hp.v.clamped_deriv cv
    fun j => bsum du p.knotsU m (fun i => p.pts n i j) u'
  unfold BSplinePatch.derivV
  rw [e, ok_bind, hp.u.evaluate_arr wu _ hu hu', hp.u.evaluate_arr wu _ hu hu', ok_bind,
    hp.v.deriv wv _ (per := false) rfl ⟨le_rfl, hp.v.dom.le, Or.inl cv.first⟩,
    hp.v.deriv wv _ (per := false) rfl ⟨hp.v.dom.le, le_rfl, Or.inl cv.first⟩, c1, c2,
    bsum_smul_sub, bsum_smul_sub]
  exact ⟨rfl, rfl⟩

/-- C97: two clamped B-spline patches over the same first knots which share a column of control points, with
proportional legs across it, join with equal positions and derivatives along the whole common edge. -/
theorem C97_exact_spline_join {q s : BSplinePatch K V} {k d : ℕ} (hp : p.Valid m n du (dv + 1))
    (hr : p.init = ok r) (hq : q.Valid m k du (d + 1)) (hs : q.init = ok s) (wu : WideOn p.knotsU m du)
    (wv : WideOn p.knotsV n (dv + 1)) (wv' : WideOn q.knotsV k (d + 1))
    (cv : ClampedOn p.knotsV n (dv + 1)) (cv' : ClampedOn q.knotsV k (d + 1)) (pv : p.perV = false)
    (qv : q.perV = false) (ku : q.knotsU = p.knotsU) (pu : q.perU = p.perU) (su : q.sU = p.sU)
    (h0 : ∀ i < m, p.pts n i (n - 1) = q.pts k i 0)
    (h1 : ∀ i < m, (((dv : K) + 1) / (knot p.knotsV n - knot p.knotsV (n - 1))) •
        (p.pts n i (n - 1) - p.pts n i (n - 2))
      = (((d : K) + 1) / (knot q.knotsV (d + 2) - knot q.knotsV (d + 1))) • (q.pts k i 1 - q.pts k i 0))
    {u u' : K} (hu : wrapOn p.knotsU m du p.perU u = ok u') (hu' : InDom p.knotsU m du u') :
    r.evaluate u (knot p.knotsV n) = s.evaluate u (knot q.knotsV (d + 1)) ∧
      r.derivU u (knot p.knotsV n) = s.derivU u (knot q.knotsV (d + 1)) ∧
      r.derivUU u (knot p.knotsV n) = s.derivUU u (knot q.knotsV (d + 1)) ∧
      r.derivV u (knot p.knotsV n) = s.derivV u (knot q.knotsV (d + 1)) := by
  have e : splineU p m n (n - 1) = splineU q m k 0 := by
    unfold splineU
    rw [ku, pu, su]
    congr 1
    exact arr_congr fun i hi => h0 i hi
  obtain ⟨-, a⟩ := C97_exact_spline_edges_u hp hr wu wv cv pv (Or.inr ⟨rfl, rfl⟩)
  obtain ⟨-, b⟩ := C97_exact_spline_edges_u hq hs (by rw [ku]; exact wu) wv' cv' qv (Or.inl ⟨rfl, rfl⟩)
  obtain ⟨a1, a2, a3⟩ := a u u' hu hu'
  obtain ⟨b1, b2, b3⟩ := b u u' (by rw [ku, pu]; exact hu) (by rw [ku]; exact hu')
  refine ⟨by rw [a1, b1, e], by rw [a2, b2, e], by rw [a3, b3, e], ?_⟩
  rw [(C97_exact_spline_cross hp hr wu wv cv pv hu hu').2,
    (C97_exact_spline_cross hq hs (by rw [ku]; exact wu) wv' cv' qv (by rw [ku, pu]; exact hu)
      (by rw [ku]; exact hu')).1, ku, pu, su]
  congr 2
  exact arr_congr fun i hi => h1 i hi

end BSplinePatches

/-! ### Concrete cases -/

/-- Concrete case of `C97_bspline_ends`, `C97_bspline_end_tangents` and `C97_nurbs_ends`: a quadratic spline
with a knot at `1`. -/
def endsCurve : BSpline ℚ ℚ := { ctrl := [2, 5, -1, 4], knots := [-7, 0, 0, 1, 3, 3, 9] }

example : WellFormed endsCurve 2 ∧ Wide endsCurve 2 ∧ ClampedOn endsCurve.knots 4 2 ∧
    endsCurve.evaluate 0 = ok 2 ∧ endsCurve.evaluate 3 = ok 4 ∧
    endsCurve.evaluateDerivative 0 = ok 6 ∧ endsCurve.evaluateDerivative 3 = ok 5 := by
  refine ⟨⟨rfl, Or.inl rfl, by decide, by decide +kernel, by decide +kernel⟩, ?_,
    ⟨by decide +kernel, ?_, by decide +kernel, ?_⟩, by decide +kernel, by decide +kernel,
    by decide +kernel, by decide +kernel⟩
  · intro i h1 h2 _
    have h2' : i < 4 := h2
    interval_cases i <;> decide +kernel
  · intro j h1 h2; interval_cases j <;> rfl
  · intro j h1 h2; interval_cases j <;> rfl

example : ∃ c : NURBS ℚ ℚ, c.init = ok c ∧ c.base = endsCurve ∧ c.weights = [2, 3, 1, 5] ∧
    c.evaluate 0 = ok 2 ∧ c.evaluateDerivative 0 = ok 9 ∧ c.evaluate 3 = ok 4 ∧
    c.evaluateDerivative 3 = ok 1 :=
  ⟨⟨endsCurve, [2, 3, 1, 5], ⟨[(4, 2), (15, 3), (-1, 1), (20, 5)], endsCurve.knots, false, none⟩⟩,
    by decide +kernel, rfl, rfl, by decide +kernel, by decide +kernel, by decide +kernel, by decide +kernel⟩

/-- Concrete case of `C97_rational_ends`. -/
example : ∃ c : RationalBezier ℚ ℚ, c.init = ok c ∧ c.base.ctrl = [2, 5, -1] ∧ c.weights = [2, 3, 1] ∧
    c.evaluateDerivative 0 = ok 9 ∧ c.evaluateDerivative 1 = ok (-36) :=
  ⟨⟨⟨[2, 5, -1], false⟩, [2, 3, 1], ⟨[(4, 2), (15, 3), (-1, 1)], false⟩⟩, by decide +kernel, rfl, rfl,
    by decide +kernel, by decide +kernel⟩

/-- Concrete case of `C97_exact_join`: a patch of degrees `1, 1` and one of degrees `1, 2`, with the common
edge from `3` to `5`. -/
example :
    let p : BezierPatch ℚ := { grid := [1, 3, 1, 5], degU := 1, degV := 1 }
    let q : BezierPatch ℚ := { grid := [3, 4, 0, 5, 7, 9], degU := 1, degV := 2 }
    p.init = ok () ∧ q.init = ok () ∧ (∀ i ≤ 1, p.pts 1 i 1 = q.pts 2 i 0) ∧
      (∀ i ≤ 1, ((0 : ℕ) + 1 : ℚ) • (p.pts 1 i 1 - p.pts 1 i 0)
        = ((1 : ℕ) + 1 : ℚ) • (q.pts 2 i 1 - q.pts 2 i 0)) ∧
      p.derivV (1 / 2 : ℚ) 1 = ok 3 ∧ q.derivV (1 / 2 : ℚ) 0 = ok 3 ∧
      p.derivUU (1 / 2 : ℚ) 1 = q.derivUU (1 / 2 : ℚ) 0 := by
  refine ⟨by decide +kernel, by decide +kernel, ?_, ?_, by decide +kernel, by decide +kernel,
    by decide +kernel⟩
  · intro i hi; interval_cases i <;> decide +kernel
  · intro i hi; interval_cases i <;> decide +kernel

/-- Concrete case of `C97_exact_spline_join`: patches of degrees `1, 1` and `1, 2` with the second knots
`0, 0, 2, 2` and `4, 4, 4, 5, 5, 5`. -/
example :
    let p : BSplinePatch ℚ ℚ :=
      { grid := [1, 3, 1, 5, 0, 2], knotsU := [0, 0, 1, 3, 3], knotsV := [0, 0, 2, 2], degU := 1, degV := 1 }
    let q : BSplinePatch ℚ ℚ :=
      { grid := [3, 7 / 2, 0, 5, 6, 9, 2, 5 / 2, 4], knotsU := [0, 0, 1, 3, 3],
        knotsV := [4, 4, 4, 5, 5, 5], degU := 1, degV := 2 }
    p.Valid 3 2 1 1 ∧ q.Valid 3 3 1 2 ∧ ClampedOn p.knotsV 2 1 ∧ ClampedOn q.knotsV 3 2 ∧
      (∀ i < 3, p.pts 2 i 1 = q.pts 3 i 0) ∧
      (∀ i < 3, (((0 : ℕ) + 1 : ℚ) / (knot p.knotsV 2 - knot p.knotsV 1)) • (p.pts 2 i 1 - p.pts 2 i 0)
        = (((1 : ℕ) + 1 : ℚ) / (knot q.knotsV 3 - knot q.knotsV 2)) • (q.pts 3 i 1 - q.pts 3 i 0)) ∧
      InDom p.knotsU 3 1 (1 / 2) ∧
      (do let r ← p.init; r.derivV (1 / 2) 2) = ok (3 / 2) ∧
      (do let s ← q.init; s.derivV (1 / 2) 4) = ok (3 / 2) := by
  refine ⟨⟨⟨rfl, rfl, Or.inl (by decide), by decide, by decide +kernel, by decide +kernel⟩,
    ⟨rfl, rfl, Or.inl (by decide), by decide, by decide +kernel, by decide +kernel⟩, rfl⟩,
    ⟨⟨rfl, rfl, Or.inl (by decide), by decide, by decide +kernel, by decide +kernel⟩,
    ⟨rfl, rfl, Or.inl (by decide), by decide, by decide +kernel, by decide +kernel⟩, rfl⟩,
    ⟨by decide +kernel, ?_, by decide +kernel, ?_⟩, ⟨by decide +kernel, ?_, by decide +kernel, ?_⟩, ?_, ?_,
    ⟨by decide +kernel, by decide +kernel, Or.inl (by decide +kernel)⟩, by decide +kernel, by decide +kernel⟩
  · intro j h1 h2; interval_cases j; rfl
  · intro j h1 h2; interval_cases j; rfl
  · intro j h1 h2; interval_cases j <;> rfl
  · intro j h1 h2; interval_cases j <;> rfl
  · intro i hi; interval_cases i <;> decide +kernel
  · intro i hi; interval_cases i <;> decide +kernel

end NS.Props
