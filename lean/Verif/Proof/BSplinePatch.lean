import Verif.Spec.BSplinePatch
import Verif.Proof.BSplineMap
import Verif.Proof.SplitBSpline
import Verif.Proof.HodographBSpline

/-! # Evaluation, derivatives and splitting of B-spline patches -/

set_option linter.unusedSectionVars false

namespace NS.BSplinePatch

open Outcome Spec Finset BSpline

variable {K V : Type} [Field K] [LinearOrder K] [IsStrictOrderedRing K] [FloorRing K]
  [AddCommGroup V] [Module K V]

/-! ### One direction -/

/-- `Σ N_i(t) P_i`. -/
def bsum (p : ℕ) (u : List K) (n : ℕ) (P : ℕ → V) (t : K) : V :=
  ∑ i ∈ range n, basis (knot u) (knot u n) p i t • P i

theorem bsplinePoint_arr (p : ℕ) (u : List K) (n : ℕ) (P : ℕ → V) (t : K) :
    bsplinePoint p u (arr n P) t = bsum p u n P t := by
  unfold bsplinePoint bsum
  rw [arr_length]
  refine sum_congr rfl fun i hi => ?_
  rw [arr_getD _ _ _ _ (mem_range.1 hi)]

theorem bsum_congr {p : ℕ} {u : List K} {n : ℕ} {P Q : ℕ → V} (h : ∀ i < n, P i = Q i) (t : K) :
    bsum p u n P t = bsum p u n Q t :=
  sum_congr rfl fun i hi => by rw [h i (mem_range.1 hi)]

theorem bsum_smul_sub {p : ℕ} {u : List K} {n : ℕ} (P Q : ℕ → V) (a : K) (t : K) :
    bsum p u n (fun i => a • (P i - Q i)) t = a • (bsum p u n P t - bsum p u n Q t) := by
  unfold bsum
  rw [← sum_sub_distrib, smul_sum]
  refine sum_congr rfl fun i _ => ?_
  module

theorem basis_empty {u : ℕ → K} {tmax : K} : ∀ (q i : ℕ) (t : K),
    (∀ k, i ≤ k → k ≤ i + q → u k = u (k + 1)) → basis u tmax q i t = 0
  | 0, i, t, h => by
    have := h i le_rfl le_rfl
    unfold basis
    rw [if_neg]
    unfold InSpan
    split
    · exact fun a => absurd this a.1.ne
    · exact fun a => absurd (this ▸ a.1) (not_le.2 a.2)
  | q + 1, i, t, h => by
    unfold basis
    rw [basis_empty q i t (fun k h1 h2 => h k h1 (by omega)),
      basis_empty q (i + 1) t (fun k h1 h2 => h k (by omega) (by omega))]
    simp

/-- Control points whose basis function has an empty support do not matter. -/
theorem bsum_congr_supp {p : ℕ} {u : List K} {n : ℕ} {P Q : ℕ → V} (hs : u.Pairwise (· ≤ ·))
    (hl : u.length = n + p + 1) (h : ∀ i < n, knot u i < knot u (i + p + 1) → P i = Q i) (t : K) :
    bsum p u n P t = bsum p u n Q t := by
  refine sum_congr rfl fun i hi => ?_
  have hi' := mem_range.1 hi
  by_cases e : knot u i < knot u (i + p + 1)
  · rw [h i hi' e]
  · rw [basis_empty, zero_smul, zero_smul]
    intro k h1 h2
    apply le_antisymm
    · exact knot_mono hs (by omega) (by omega)
    · exact (knot_mono hs (by omega) (by omega)).trans
        ((not_lt.1 e).trans (knot_mono hs h1 (by omega)))

theorem bsum_swap {p q : ℕ} {u v : List K} {m n : ℕ} (P : ℕ → ℕ → V) (s t : K) :
    bsum p u m (fun i => bsum q v n (P i) t) s = bsum q v n (fun j => bsum p u m (fun i => P i j) s) t := by
  unfold bsum
  simp only [smul_sum]
  rw [sum_comm]
  refine sum_congr rfl fun j _ => sum_congr rfl fun i _ => ?_
  rw [smul_comm]

/-- The parameter wrap of the curves along one direction. -/
def wrapOn (u : List K) (n p : ℕ) (per : Bool) (t : K) : Outcome K :=
  if per then unwrapParameter (knot u p) (knot u n) t else ok t

section Axis

variable {u : List K} {deg s : ℤ} {n p : ℕ} {per : Bool}

theorem Axis.wf (h : Axis u deg s n p) (per : Bool) {c : List V} (hc : c.length = n) :
    WellFormed (BSpline.mk c u per (staticDeg s)) p := by
  refine ⟨by simpa [hc] using h.len, ?_, by simpa [hc] using h.cnt, h.sorted,
    by simpa [hc] using h.dom⟩
  unfold staticDeg
  rcases h.static with h1 | h1
  · left; simp [h1]
  · right; simp [h1]

theorem Axis.wrap (h : Axis u deg s n p) {c : List V} (hc : c.length = n) (t : K) :
    (BSpline.mk c u per (staticDeg s)).wrap t = wrapOn u n p per t := by
  unfold wrapOn
  cases per with
  | false => exact wrap_nonperiodic rfl t
  | true =>
    rw [wrap_periodic (h.wf true hc) rfl, if_pos rfl]
    simp only [hc]

theorem wide_of {c : BSpline K V} (hk : c.knots = u) (hc : c.ctrl.length = n) (h : WideOn u n p) :
    Wide c p := by
  intro i h1 h2 h3
  rw [hk] at *
  exact h i h1 (by omega) h3

theorem Axis.evaluate (h : Axis u deg s n p) (hw : WideOn u n p) {c : List V} (hc : c.length = n)
    {t t' : K} (ht : wrapOn u n p per t = ok t') (hd : InDom u n p t') :
    (BSpline.mk c u per (staticDeg s)).evaluate t = ok (bsplinePoint p u c t') := by
  have hwf := h.wf per hc
  have := evaluate_eq hwf (wide_of rfl hc hw) (t := t) (t' := t')
    (by rw [h.wrap hc]; exact ht) hd.2.2 hd.1 (by simp only [hc]; exact hd.2.1)
  exact this

theorem Axis.evaluate_arr (h : Axis u deg s n p) (hw : WideOn u n p) (P : ℕ → V)
    {t t' : K} (ht : wrapOn u n p per t = ok t') (hd : InDom u n p t') :
    (BSpline.mk (arr n P) u per (staticDeg s)).evaluate t = ok (bsum p u n P t') := by
  rw [h.evaluate hw (by simp) ht hd, bsplinePoint_arr]

end Axis

/-! ### Well-formed patches -/

variable {p : BSplinePatch K V} {m n du dv : ℕ}

theorem Valid.degreeU (h : p.Valid m n du dv) : p.degreeU = ok du := by
  unfold BSplinePatch.degreeU
  rw [h.u.deg, assert_true (by omega)]
  simp

theorem Valid.degreeV (h : p.Valid m n du dv) : p.degreeV = ok dv := by
  unfold BSplinePatch.degreeV
  rw [h.v.deg, assert_true (by omega)]
  simp

theorem Valid.numU (h : p.Valid m n du dv) : p.numU = ok m := by
  unfold BSplinePatch.numU
  have := h.u.len
  rw [h.degreeU, ok_bind, assert_true (by omega), ok_bind, pure_eq]
  congr 1; omega

theorem Valid.numV (h : p.Valid m n du dv) : p.numV = ok n := by
  unfold BSplinePatch.numV
  have := h.v.len
  rw [h.degreeV, ok_bind, assert_true (by omega), ok_bind, pure_eq]
  congr 1; omega

/-- The points of the grid as a function of two indices. -/
def pts (p : BSplinePatch K V) (n : ℕ) (i j : ℕ) : V := gridPoint p.grid n i j

theorem Valid.gridEq (h : p.Valid m n du dv) : p.grid = gridOf m n (p.pts n) :=
  exists_gridOf 0 h.grid

theorem Valid.getControlPoint (h : p.Valid m n du dv) {i j : ℕ} (hi : i < m) (hj : j < n) :
    p.getControlPoint i j = ok (p.pts n i j) := by
  unfold BSplinePatch.getControlPoint linearIndex
  rw [h.numV, ok_bind]
  conv_lhs => rw [h.gridEq]
  exact rd_gridOf _ hi hj

/-- The columns and rows of the grid as curves. -/
def colU (p : BSplinePatch K V) (m n j : ℕ) : BSpline K V :=
  BSpline.mk (arr m (fun i => p.pts n i j)) p.knotsU p.perU (staticDeg p.sU)

def rowV (p : BSplinePatch K V) (n i : ℕ) : BSpline K V :=
  BSpline.mk (arr n (p.pts n i)) p.knotsV p.perV (staticDeg p.sV)

/-- The cached iso-curves are those of the grid. -/
structure Ready (p : BSplinePatch K V) (m n du dv : ℕ) : Prop extends Valid p m n du dv where
  isoU : p.isoU = arr n (p.colU m n)
  isoV : p.isoV = arr m (p.rowV n)

theorem Valid.allIsoU (h : p.Valid m n du dv) : p.allIsoU = ok (arr n (p.colU m n)) := by
  unfold BSplinePatch.allIsoU
  rw [h.numU, ok_bind, h.numV, ok_bind]
  apply tab_eq
  intro j hj
  rw [tab_eq (g := fun i => p.pts n i j) (fun i hi => h.getControlPoint hi hj)]
  rfl

theorem Valid.allIsoV (h : p.Valid m n du dv) : p.allIsoV = ok (arr m (p.rowV n)) := by
  unfold BSplinePatch.allIsoV
  rw [h.numU, ok_bind, h.numV, ok_bind]
  apply tab_eq
  intro i hi
  rw [tab_eq (g := p.pts n i) (fun j hj => h.getControlPoint hi hj)]
  rfl

theorem Valid.init (h : p.Valid m n du dv) :
    p.init = ok { p with isoU := arr n (p.colU m n), isoV := arr m (p.rowV n) } := by
  unfold BSplinePatch.init
  rw [h.degreeU, ok_bind, h.degreeV, ok_bind, throwIf_false, ok_bind, h.allIsoU, ok_bind,
    h.allIsoV, ok_bind]
  · rfl
  · have h1 := h.u.len
    have h2 := h.v.len
    rw [h.grid, h1, h2]
    push Not
    push_cast
    ring

theorem Valid.ready (h : p.Valid m n du dv) {q : BSplinePatch K V} (hq : p.init = ok q) :
    q.Ready m n du dv := by
  rw [h.init, ok.injEq] at hq
  subst hq
  exact ⟨⟨h.u, h.v, h.grid⟩, rfl, rfl⟩

/-- A call of `initialize` succeeds on a valid patch and gives a ready one with the same data. -/
theorem Valid.init_ready (h : p.Valid m n du dv) :
    ∃ q, p.init = ok q ∧ q.Ready m n du dv ∧ q.grid = p.grid ∧ q.knotsU = p.knotsU ∧
      q.knotsV = p.knotsV ∧ q.degU = p.degU ∧ q.degV = p.degV ∧ q.perU = p.perU ∧
      q.perV = p.perV ∧ q.sU = p.sU ∧ q.sV = p.sV :=
  ⟨_, h.init, h.ready h.init, rfl, rfl, rfl, rfl, rfl, rfl, rfl, rfl, rfl⟩

section Eval

variable {u v u' v' : K}

theorem Ready.isoCurveU (h : p.Ready m n du dv) (hwv : WideOn p.knotsV n dv)
    (hv : wrapOn p.knotsV n dv p.perV v = ok v') (hdv : InDom p.knotsV n dv v') :
    p.isoCurveU v = ok (BSpline.mk (arr m (fun i => bsum dv p.knotsV n (p.pts n i) v'))
      p.knotsU p.perU (staticDeg p.sU)) := by
  unfold BSplinePatch.isoCurveU
  rw [h.toValid.numU, ok_bind, h.isoV,
    tab_eq (g := fun i => bsum dv p.knotsV n (p.pts n i) v')]
  · rfl
  · intro i hi
    rw [rd_arr hi, ok_bind]
    exact h.v.evaluate_arr hwv _ hv hdv

theorem Ready.isoCurveV (h : p.Ready m n du dv) (hwu : WideOn p.knotsU m du)
    (hu : wrapOn p.knotsU m du p.perU u = ok u') (hdu : InDom p.knotsU m du u') :
    p.isoCurveV u = ok (BSpline.mk (arr n (fun j => bsum du p.knotsU m (fun i => p.pts n i j) u'))
      p.knotsV p.perV (staticDeg p.sV)) := by
  unfold BSplinePatch.isoCurveV
  rw [h.toValid.numV, ok_bind, h.isoU,
    tab_eq (g := fun j => bsum du p.knotsU m (fun i => p.pts n i j) u')]
  · rfl
  · intro j hj
    rw [rd_arr hj, ok_bind]
    exact h.u.evaluate_arr hwu _ hu hdu

/-- The tensor product sum, iterated. -/
def tsum (p : BSplinePatch K V) (m n du dv : ℕ) (u v : K) : V :=
  bsum du p.knotsU m (fun i => bsum dv p.knotsV n (p.pts n i) v) u

theorem tsum_eq (p : BSplinePatch K V) (m n du dv : ℕ) (u v : K) :
    p.tsum m n du dv u v = bsplineSurface du dv m n p.knotsU p.knotsV p.grid u v := by
  unfold tsum bsum bsplineSurface
  refine sum_congr rfl fun i _ => ?_
  rw [smul_sum]
  refine sum_congr rfl fun j _ => ?_
  rw [smul_smul]
  rfl

theorem Ready.evaluateUV (h : p.Ready m n du dv) (hwu : WideOn p.knotsU m du)
    (hwv : WideOn p.knotsV n dv) (hu : wrapOn p.knotsU m du p.perU u = ok u')
    (hdu : InDom p.knotsU m du u') (hv : wrapOn p.knotsV n dv p.perV v = ok v')
    (hdv : InDom p.knotsV n dv v') :
    (do let c ← p.isoCurveU v; c.evaluate u) = ok (p.tsum m n du dv u' v') := by
  rw [h.isoCurveU hwv hv hdv, ok_bind, h.u.evaluate_arr hwu _ hu hdu]
  rfl

theorem Ready.evaluateVU (h : p.Ready m n du dv) (hwu : WideOn p.knotsU m du)
    (hwv : WideOn p.knotsV n dv) (hu : wrapOn p.knotsU m du p.perU u = ok u')
    (hdu : InDom p.knotsU m du u') (hv : wrapOn p.knotsV n dv p.perV v = ok v')
    (hdv : InDom p.knotsV n dv v') :
    (do let c ← p.isoCurveV u; c.evaluate v) = ok (p.tsum m n du dv u' v') := by
  rw [h.isoCurveV hwu hu hdu, ok_bind, h.v.evaluate_arr hwv _ hv hdv]
  unfold tsum
  rw [bsum_swap]

theorem Ready.evaluate (h : p.Ready m n du dv) (hwu : WideOn p.knotsU m du)
    (hwv : WideOn p.knotsV n dv) (hu : wrapOn p.knotsU m du p.perU u = ok u')
    (hdu : InDom p.knotsU m du u') (hv : wrapOn p.knotsV n dv p.perV v = ok v')
    (hdv : InDom p.knotsV n dv v') :
    p.evaluate u v = ok (p.tsum m n du dv u' v') := by
  unfold BSplinePatch.evaluate
  split
  · exact h.evaluateVU hwu hwv hu hdu hv hdv
  · exact h.evaluateUV hwu hwv hu hdu hv hdv

end Eval

/-! ### Derivative patches -/

/-- The zero patch is zero everywhere. -/
theorem zeroPatch_spec : ∃ z : BSplinePatch K V, zeroPatch K V = ok z ∧ z.Ready 1 1 0 0 ∧
    ∀ u v, z.evaluate u v = ok 0 := by
  have hv : Valid (BSplinePatch.mk [0] [0, 1] [0, 1] 0 0 false false (-1) (-1) [] [] :
      BSplinePatch K V) 1 1 0 0 := by
    have ha : Axis ([0, 1] : List K) 0 (-1) 1 0 :=
      ⟨rfl, rfl, Or.inl (by decide), le_rfl, by simp, by simp [knot]⟩
    exact ⟨ha, ha, rfl⟩
  obtain ⟨z, e, hr, e1, e2, e3, e4, e5, e6, e7, e8, e9⟩ := hv.init_ready
  have key : ∀ (P : ℕ → V) (t : K), P 0 = 0 →
      (BSpline.mk (arr 1 P) [0, 1] false none : BSpline K V).evaluate t = ok 0 := by
    intro P t hP
    have hwf : WellFormed (BSpline.mk (arr 1 P) [0, 1] false none : BSpline K V) 0 :=
      ⟨rfl, Or.inl rfl, by simp, by simp, by simp [knot]⟩
    have hf : FirstSpan (BSpline.mk (arr 1 P) [0, 1] false none : BSpline K V) 0 := by
      simp [FirstSpan, knot]
    have hw : Wide (BSpline.mk (arr 1 P) [0, 1] false none : BSpline K V) 0 := by
      intro i h1 h2 h3
      have : i = 0 := by simp at h2; omega
      subst this
      simp [knot, tiny]
      norm_num
    obtain ⟨k, a1, a2, a3, a4, -⟩ := locateSpan_spec hwf t (Or.inl hf)
    have hk : k = 0 := by simp at a3; omega
    subst hk
    have := evaluate_of_span hwf hw (t := t) (t' := t) rfl (k := 0) (Q := fun _ => 0)
      ⟨a1, a2, a3, a4, by
        intro i h1 h2
        have : i = 0 := by omega
        subst this
        simp [lprod, hP, umb_one]⟩
    rw [this]
    simp [umb_one]
  have hg : ∀ i j, z.pts 1 i j = 0 := by
    intro i j
    unfold pts gridPoint
    rw [e1]
    rcases i * 1 + j with _ | k <;> simp
  refine ⟨z, e, hr, fun u v => ?_⟩
  have hs : staticDeg z.sU = none ∧ staticDeg z.sV = none := by
    rw [e8, e9]; exact ⟨rfl, rfl⟩
  unfold BSplinePatch.evaluate
  rw [e4, e5, if_neg (lt_irrefl _)]
  unfold BSplinePatch.isoCurveU
  rw [hr.toValid.numU, ok_bind, hr.isoV, tab_eq (g := fun _ => (0 : V)), ok_bind, pure_eq, ok_bind,
    e2, e6, hs.1]
  · exact key _ u rfl
  · intro i hi
    rw [rd_arr hi, ok_bind]
    unfold rowV
    rw [e3, e7, hs.2]
    exact key _ v (hg i 0)

theorem knot_arr {N : ℕ} {f : ℕ → K} {i : ℕ} (h : i < N) : knot (arr N f) i = f i :=
  arr_getD _ _ _ _ h

/-- Knots of a derivative. -/
def innerKnots (u : List K) : List K := arr (u.length - 2) (fun i => knot u (1 + i))

theorem seg_inner {u : List K} (h : 2 ≤ u.length) : seg u 1 (u.length - 2) = ok (innerKnots u) := by
  have : u = arr u.length (knot u) := eq_arr u 0
  conv_lhs => rw [this]
  rw [arr_length, seg_arr (by omega)]
  rfl

theorem Axis.inner {u : List K} {deg s : ℤ} {n p : ℕ} (h : Axis u deg s n (p + 1)) :
    Axis (innerKnots u) (p : ℤ) (-1) (n - 1) p ∧ knot (innerKnots u) p = knot u (p + 1) ∧
      knot (innerKnots u) (n - 1) = knot u n ∧ knot (innerKnots u) (p + 1) = knot u (p + 1 + 1) := by
  have hl := h.len
  have hc := h.cnt
  have k1 : knot (innerKnots u) p = knot u (p + 1) := by
    unfold innerKnots
    rw [knot_arr (by omega), add_comm]
  have k2 : knot (innerKnots u) (n - 1) = knot u n := by
    unfold innerKnots
    rw [knot_arr (by omega)]; congr 1; omega
  have k3 : knot (innerKnots u) (p + 1) = knot u (p + 1 + 1) := by
    unfold innerKnots
    rw [knot_arr (by omega), add_comm]
  refine ⟨⟨rfl, ?_, Or.inl (by decide), by omega, ?_, ?_⟩, k1, k2, k3⟩
  · unfold innerKnots; rw [arr_length]; omega
  · rw [List.pairwise_iff_getElem]
    intro i j hi hj hij
    have hj' : j < u.length - 2 := by simpa [innerKnots] using hj
    simp only [innerKnots, arr_getElem]
    exact knot_mono h.sorted (by omega) (by omega)
  · rw [k1, k2]; exact h.dom

theorem Axis.inner_dom {u : List K} {deg s : ℤ} {n p : ℕ} (h : Axis u deg s n (p + 1)) {t : K} :
    InDom (innerKnots u) (n - 1) p t ↔ InDom u n (p + 1) t := by
  obtain ⟨-, k1, k2, k3⟩ := h.inner
  unfold InDom
  rw [k1, k2, k3]

theorem Axis.inner_wide {u : List K} {deg s : ℤ} {n p : ℕ} (h : Axis u deg s n (p + 1))
    (hw : WideOn u n (p + 1)) : WideOn (innerKnots u) (n - 1) p := by
  have hl := h.len
  intro i h1 h2
  unfold innerKnots
  rw [knot_arr (by omega), knot_arr (by omega)]
  intro h3
  exact hw (1 + i) (by omega) (by omega) h3

theorem Axis.inner_wrap {u : List K} {deg s : ℤ} {n p : ℕ} (h : Axis u deg s n (p + 1)) (per : Bool)
    (t : K) : wrapOn (innerKnots u) (n - 1) p per t = wrapOn u n (p + 1) per t := by
  obtain ⟨-, k1, k2, -⟩ := h.inner
  unfold wrapOn
  rw [k1, k2]

/-- Derivatives of curves along a direction are values over the inner knots. -/
theorem Axis.deriv {u : List K} {deg s : ℤ} {n p : ℕ} (h : Axis u deg s n (p + 1))
    (hw : WideOn u n (p + 1)) (P : ℕ → V) {per : Bool} {t t' : K}
    (ht : wrapOn u n (p + 1) per t = ok t') (hd : InDom u n (p + 1) t') :
    (BSpline.mk (arr n P) u per (staticDeg s)).evaluateDerivative t
      = ok (bsum p (innerKnots u) (n - 1) (hodoAt (knot u) (p + 1) P) t') := by
  have hl := h.len
  obtain ⟨hi, k1, k2, k3⟩ := h.inner
  have hwf := h.wf (V := V) per (c := arr n P) (by simp)
  have H := hodograph_isHodograph hwf per
  have e := H.evaluate hwf (wide_of rfl (by simp) hw) (t := t) (t' := t')
    (by rw [h.wrap (by simp)]; exact ht) (by
      have := (hi.wrap (V := V) (per := per) (c := arr (n - 1) (fun _ => 0)) (by simp) t).trans
        (h.inner_wrap per t)
      rw [ht] at this
      cases per with
      | false => rw [← ht]; rfl
      | true =>
        rw [wrap_periodic H.wf rfl, H.lower, H.upper]
        simpa [wrapOn] using ht) hd.2.2 hd.1 (by simp; exact hd.2.1)
  rw [← e]
  have hs : (staticDeg s).map (fun d => d - 1) = none ∨
      (staticDeg s).map (fun d => d - 1) = some p := H.wf.sdeg
  have ew := evaluate_eq H.wf (H.wide (wide_of rfl (by simp) hw)) (t := t) (t' := t') (by
      cases per with
      | false => rw [← ht]; rfl
      | true =>
        rw [wrap_periodic H.wf rfl, H.lower, H.upper]
        simpa [wrapOn] using ht) (by rw [H.lower]; exact hd.2.2.imp_left H.first)
      (by rw [H.lower]; exact hd.1) (by rw [H.upper]; simp; exact hd.2.1)
  rw [ew]
  simp only [arr_length]
  rw [bsplinePoint_arr]
  congr 1
  apply bsum_congr
  intro i hi'
  unfold hodoAt
  simp only []
  rw [arr_getD _ _ _ _ (by omega), arr_getD _ _ _ _ (by omega)]

section Du

variable {u v u' v' : K}

theorem pts_gridOf' (Q : ℕ → ℕ → V) (q : BSplinePatch K V)
    (hg : q.grid = gridOf m n Q) {i j : ℕ} (hi : i < m) (hj : j < n) :
    q.pts n i j = Q i j := by
  unfold pts gridPoint
  rw [hg, List.getD_eq_getElem?_getD, gridOf_get Q hi hj, Option.getD_some]

theorem Valid.fill_grid {m n : ℕ} {f : ℕ → ℕ → Outcome V} {s : ℕ → ℕ → V}
    (hf : ∀ i < m, ∀ j < n, f i j = ok (s i j)) :
    fill m n (fun i j => i * n + j) f (List.replicate (m * n) 0) = ok (gridOf m n s) := by
  obtain ⟨g, e, l, H⟩ := fill_spec (N := m * n) (idx := fun i j => i * n + j) hf
    (fun i hi j hj => lin_lt hi hj) (fun i hi j hj i' hi' j' hj' h => lin_inj hj hj' h)
    (g := List.replicate (m * n) (0 : V)) (by simp)
  rw [e, eq_gridOf l H]

/-- Control points of the derivative patches along one direction. -/
def dAt (bad : V) (u : ℕ → K) (p : ℕ) (P : ℕ → V) (i : ℕ) : V :=
  divPt bad ((p : K) • (P (i + 1) - P i)) (u (i + p + 1) - u (i + 1))

theorem dAt_eq (bad : V) {u : ℕ → K} {p : ℕ} (P : ℕ → V) {i : ℕ} (h : u (i + 1) < u (i + p + 1)) :
    dAt bad u p P i = hodoAt u p P i := by
  unfold dAt divPt hodoAt
  rw [if_neg (sub_pos.2 h).ne', if_pos (sub_pos.2 h)]
  push_cast
  rfl

theorem inner_knot {u : List K} {i : ℕ} (h : i + 2 < u.length) :
    knot (innerKnots u) i = knot u (i + 1) := by
  unfold innerKnots
  rw [knot_arr (by omega), add_comm]

theorem Valid.duPatch (bad : V) (h : p.Valid m n (du + 1) dv) :
    ∃ q, p.duPatch bad = ok q ∧ q.Ready (m - 1) n du dv ∧ q.knotsU = innerKnots p.knotsU ∧
      q.knotsV = p.knotsV ∧ q.perU = p.perU ∧ q.perV = p.perV ∧
      ∀ i < m - 1, ∀ j < n, q.pts n i j
        = dAt bad (knot p.knotsU) (du + 1) (fun i => p.pts n i j) i := by
  have hlu := h.u.len
  have hcu := h.u.cnt
  obtain ⟨hin, -⟩ := h.u.inner
  have hv : Valid (BSplinePatch.mk (gridOf (m - 1) n (fun i j =>
      dAt bad (knot p.knotsU) (du + 1) (fun i => p.pts n i j) i)) (innerKnots p.knotsU) p.knotsV
      (((du + 1 : ℕ) : ℤ) - 1) (dv : ℤ) p.perU p.perV (-1) (-1) [] []) (m - 1) n du dv := by
    refine ⟨?_, ⟨rfl, h.v.len, Or.inl (by show (-1 : ℤ) < 0; decide), h.v.cnt, h.v.sorted, h.v.dom⟩, by simp⟩
    have : (((du + 1 : ℕ) : ℤ) - 1) = (du : ℤ) := by push_cast; ring
    simp only [this]
    exact hin
  obtain ⟨q, e, hr, e1, e2, e3, e4, e5, e6, e7, e8, e9⟩ := hv.init_ready
  refine ⟨q, ?_, hr, e2, e3, e6, e7, fun i hi j hj => ?_⟩
  · unfold BSplinePatch.duPatch
    rw [h.degreeU, ok_bind, h.degreeV, ok_bind, if_neg (by omega), h.numU, ok_bind, h.numV, ok_bind,
      assert_true (by omega), ok_bind, Valid.fill_grid (s := fun i j =>
        dAt bad (knot p.knotsU) (du + 1) (fun i => p.pts n i j) i), ok_bind, seg_inner (by omega),
      ok_bind]
    · exact e
    · intro i hi j hj
      rw [h.getControlPoint (by omega) hj, ok_bind, h.getControlPoint (by omega) hj, ok_bind,
        rd_knot (by omega), ok_bind, rd_knot (by omega), ok_bind]
      rfl
  · exact pts_gridOf' (fun i j => dAt bad (knot p.knotsU) (du + 1) (fun i => p.pts n i j) i) q e1
      hi hj

theorem Valid.dvPatch (bad : V) (h : p.Valid m n du (dv + 1)) :
    ∃ q, p.dvPatch bad = ok q ∧ q.Ready m (n - 1) du dv ∧ q.knotsU = p.knotsU ∧
      q.knotsV = innerKnots p.knotsV ∧ q.perU = p.perU ∧ q.perV = p.perV ∧
      ∀ i < m, ∀ j < n - 1, q.pts (n - 1) i j
        = dAt bad (knot p.knotsV) (dv + 1) (p.pts n i) j := by
  have hlv := h.v.len
  have hcv := h.v.cnt
  obtain ⟨hin, -⟩ := h.v.inner
  have hv : Valid (BSplinePatch.mk (gridOf m (n - 1) (fun i j =>
      dAt bad (knot p.knotsV) (dv + 1) (p.pts n i) j)) p.knotsU (innerKnots p.knotsV)
      (du : ℤ) (((dv + 1 : ℕ) : ℤ) - 1) p.perU p.perV (-1) (-1) [] []) m (n - 1) du dv := by
    refine ⟨⟨rfl, h.u.len, Or.inl (by show (-1 : ℤ) < 0; decide), h.u.cnt, h.u.sorted, h.u.dom⟩, ?_, by simp⟩
    have : (((dv + 1 : ℕ) : ℤ) - 1) = (dv : ℤ) := by push_cast; ring
    simp only [this]
    exact hin
  obtain ⟨q, e, hr, e1, e2, e3, e4, e5, e6, e7, e8, e9⟩ := hv.init_ready
  refine ⟨q, ?_, hr, e2, e3, e6, e7, fun i hi j hj => ?_⟩
  · unfold BSplinePatch.dvPatch
    rw [h.degreeU, ok_bind, h.degreeV, ok_bind, if_neg (by omega), h.numU, ok_bind, h.numV, ok_bind,
      assert_true (by omega), ok_bind, Valid.fill_grid (s := fun i j =>
        dAt bad (knot p.knotsV) (dv + 1) (p.pts n i) j), ok_bind, seg_inner (by omega),
      ok_bind]
    · exact e
    · intro i hi j hj
      rw [h.getControlPoint hi (by omega), ok_bind, h.getControlPoint hi (by omega), ok_bind,
        rd_knot (by omega), ok_bind, rd_knot (by omega), ok_bind]
      rfl
  · exact pts_gridOf' (fun i j => dAt bad (knot p.knotsV) (dv + 1) (p.pts n i) j) q e1 hi hj

theorem bsum_hodoAt (q : ℕ) (kv : List K) (n : ℕ) (ku : ℕ → K) (d : ℕ) (P : ℕ → ℕ → V) (i : ℕ)
    (v : K) :
    bsum q kv n (fun j => hodoAt ku d (fun i => P i j) i) v
      = hodoAt ku d (fun i => bsum q kv n (P i) v) i := by
  unfold hodoAt
  split
  · rw [smul_smul, ← bsum_smul_sub]
    refine bsum_congr (fun j _ => ?_) v
    rw [smul_smul]
  · simp [bsum]

theorem Ready.derivU {bad : V} (h : p.Ready m n (du + 1) dv) (hwu : WideOn p.knotsU m (du + 1))
    (hwv : WideOn p.knotsV n dv) (hu : wrapOn p.knotsU m (du + 1) p.perU u = ok u')
    (hdu : InDom p.knotsU m (du + 1) u') (hv : wrapOn p.knotsV n dv p.perV v = ok v')
    (hdv : InDom p.knotsV n dv v') {q : BSplinePatch K V}
    (hq : p.duPatch bad = ok q) :
    q.evaluate u v = p.derivU u v := by
  obtain ⟨q', e, hr, k1, k2, p1, p2, hp⟩ := h.toValid.duPatch bad
  rw [hq, ok.injEq] at e
  subst e
  unfold BSplinePatch.derivU
  rw [h.isoCurveU hwv hv hdv, ok_bind, h.u.deriv hwu _ hu hdu,
    hr.evaluate (u' := u') (v' := v') (by rw [k1]; exact h.u.inner_wide hwu) (by rw [k2]; exact hwv)
      (by rw [k1, p1, h.u.inner_wrap]; exact hu) (by rw [k1, h.u.inner_dom]; exact hdu)
      (by rw [k2, p2]; exact hv) (by rw [k2]; exact hdv)]
  congr 1
  unfold tsum
  rw [k1, k2]
  have hl := h.u.len
  refine bsum_congr_supp h.u.inner.1.sorted h.u.inner.1.len (fun i hi hk => ?_) _
  rw [inner_knot (by omega), inner_knot (by omega)] at hk
  rw [← bsum_hodoAt]
  exact bsum_congr (fun j hj => (hp i hi j hj).trans (dAt_eq _ _ hk)) _

theorem Ready.derivV {bad : V} (h : p.Ready m n du (dv + 1)) (hwu : WideOn p.knotsU m du)
    (hwv : WideOn p.knotsV n (dv + 1)) (hu : wrapOn p.knotsU m du p.perU u = ok u')
    (hdu : InDom p.knotsU m du u') (hv : wrapOn p.knotsV n (dv + 1) p.perV v = ok v')
    (hdv : InDom p.knotsV n (dv + 1) v') {q : BSplinePatch K V}
    (hq : p.dvPatch bad = ok q) :
    q.evaluate u v = p.derivV u v := by
  obtain ⟨q', e, hr, k1, k2, p1, p2, hp⟩ := h.toValid.dvPatch bad
  rw [hq, ok.injEq] at e
  subst e
  unfold BSplinePatch.derivV
  rw [h.isoCurveV hwu hu hdu, ok_bind, h.v.deriv hwv _ hv hdv,
    hr.evaluate (u' := u') (v' := v') (by rw [k1]; exact hwu) (by rw [k2]; exact h.v.inner_wide hwv)
      (by rw [k1, p1]; exact hu) (by rw [k1]; exact hdu)
      (by rw [k2, p2, h.v.inner_wrap]; exact hv) (by rw [k2, h.v.inner_dom]; exact hdv)]
  congr 1
  unfold tsum
  rw [bsum_swap, k1, k2]
  have hl := h.v.len
  refine bsum_congr_supp h.v.inner.1.sorted h.v.inner.1.len (fun j hj hk => ?_) _
  rw [inner_knot (by omega), inner_knot (by omega)] at hk
  have := bsum_hodoAt du p.knotsU m (knot p.knotsV) (dv + 1) (fun j i => p.pts n i j) j u'
  rw [← this]
  exact bsum_congr (fun i hi => (hp i hi j hj).trans (dAt_eq _ _ hk)) _

end Du

/-! ### Splits -/

theorem gather_spec {parts : List (List (BSpline K V))} {ci N r rows : ℕ} {idx : ℕ → ℕ → ℕ → ℕ}
    {c : ℕ → BSpline K V} (hparts : ∀ i < N, ∃ ps, rd parts i = ok ps ∧ rd ps ci = ok (c i))
    (hlen : ∀ i < N, (c i).ctrl.length = r) (hidx : ∀ i < N, ∀ k < r, idx r i k < rows)
    (hinj : ∀ i < N, ∀ k < r, ∀ i' < N, ∀ k' < r, idx r i k = idx r i' k' → i = i' ∧ k = k') :
    ∃ g, gather parts ci N idx rows = ok g ∧ g.length = rows ∧
      ∀ i < N, ∀ k < r, g[idx r i k]? = some ((c i).ctrl.getD k 0) := by
  unfold gather
  refine loop_inv (fun i (g : List V) => g.length = rows ∧
    ∀ a < i, ∀ k < r, g[idx r a k]? = some ((c a).ctrl.getD k 0)) N _ _ ⟨by simp, by simp⟩ ?_
  rintro i hi g ⟨hl, H⟩
  obtain ⟨ps, h1, h2⟩ := hparts i hi
  obtain ⟨g', e, l, a1, a2⟩ := copyTo_spec (n := r) (N := rows) (idx := idx r i)
    (s := fun k => (c i).ctrl.getD k 0) (fun k hk => hidx i hi k hk)
    (fun a ha b hb h => (hinj i hi a ha i hi b hb h).2) hl
  have ec : (c i).ctrl = arr r (fun k => (c i).ctrl.getD k 0) := by
    rw [← hlen i hi]; exact eq_arr _ 0
  refine ⟨g', ?_, l, ?_⟩
  · rw [h1, ok_bind, h2, ok_bind, hlen i hi, ec]
    exact e
  · intro a ha k hk
    rcases Nat.lt_succ_iff_lt_or_eq.mp ha with h | h
    · rw [a2]
      · exact H a h k hk
      · intro k' hk' e'
        have := (hinj a (by omega) k hk i hi k' hk' e').1
        omega
    · subst h
      exact a1 k hk

theorem gatherU {parts : List (List (BSpline K V))} {ci n r : ℕ} {c : ℕ → BSpline K V}
    (hparts : ∀ i < n, ∃ ps, rd parts i = ok ps ∧ rd ps ci = ok (c i))
    (hlen : ∀ i < n, (c i).ctrl.length = r) :
    gather parts ci n (fun _ vj ui => ui * n + vj) (r * n)
      = ok (gridOf r n (fun i j => (c j).ctrl.getD i 0)) := by
  obtain ⟨g, e, l, H⟩ := gather_spec (idx := fun _ vj ui => ui * n + vj) (rows := r * n) hparts hlen
    (fun i hi k hk => lin_lt hk hi)
    (fun i hi k hk i' hi' k' hk' h => (lin_inj hi hi' h).symm)
  rw [e, eq_gridOf l (fun i hi j hj => H j hj i hi)]

theorem gatherV {parts : List (List (BSpline K V))} {ci m r : ℕ} {c : ℕ → BSpline K V}
    (hparts : ∀ i < m, ∃ ps, rd parts i = ok ps ∧ rd ps ci = ok (c i))
    (hlen : ∀ i < m, (c i).ctrl.length = r) :
    gather parts ci m (fun w ui vj => ui * w + vj) (r * m)
      = ok (gridOf m r (fun i j => (c i).ctrl.getD j 0)) := by
  obtain ⟨g, e, l, H⟩ := gather_spec (idx := fun w ui vj => ui * w + vj) (rows := r * m) hparts hlen
    (fun i hi k hk => by rw [mul_comm r m]; exact lin_lt hi hk)
    (fun i hi k hk i' hi' k' hk' h => lin_inj hk hk' h)
  rw [e, eq_gridOf (by rw [l, mul_comm]) H]

theorem partDegree_eq {p : BSplinePatch K V} {s d : ℤ} (h : s < 0 ∨ s = d)
    (hs : s = p.sU ∨ s = p.sV) : p.partDegree d s = d := by
  unfold partDegree
  split
  · rfl
  · rename_i hn
    push Not at hn
    rcases h with h | h
    · rcases hs with e | e <;> omega
    · exact h

/-- Values of the part curves as sums. -/
theorem bsum_getD {d : ℕ} {k : List K} {r : ℕ} {c : BSpline K V} (hl : c.ctrl.length = r) (t : K) :
    bsum d k r (fun i => c.ctrl.getD i 0) t = bsplinePoint d k c.ctrl t := by
  subst hl; rfl

/-- A part of a split in `u`: the patch `q` and its curves `c j`. -/
structure PartU (p q : BSplinePatch K V) (n du dv r : ℕ) (c : ℕ → BSpline K V) : Prop where
  ready : q.Ready r n du dv
  knotsV : q.knotsV = p.knotsV
  perU : q.perU = false
  perV : q.perV = false
  sU : q.sU = p.sU
  sV : q.sV = p.sV
  knotsU : ∀ j < n, q.knotsU = (c j).knots
  tsum : ∀ x v, q.tsum r n du dv x v
    = bsum dv p.knotsV n (fun j => bsplinePoint du (c j).knots (c j).ctrl x) v
  grid : ∀ x ∈ q.grid, ∃ j < n, x ∈ (c j).ctrl

structure PartV (p q : BSplinePatch K V) (m du dv r : ℕ) (c : ℕ → BSpline K V) : Prop where
  ready : q.Ready m r du dv
  knotsU : q.knotsU = p.knotsU
  perU : q.perU = false
  perV : q.perV = false
  sU : q.sU = p.sU
  sV : q.sV = p.sV
  knotsV : ∀ i < m, q.knotsV = (c i).knots
  tsum : ∀ u x, q.tsum m r du dv u x
    = bsum du p.knotsU m (fun i => bsplinePoint dv (c i).knots (c i).ctrl x) u
  grid : ∀ x ∈ q.grid, ∃ i < m, x ∈ (c i).ctrl

theorem mem_gridOf {a b : ℕ} {f : ℕ → ℕ → V} {x : V} (h : x ∈ gridOf a b f) :
    ∃ i < a, ∃ j < b, x = f i j := by
  obtain ⟨k, hk, rfl⟩ := List.mem_iff_getElem.1 h
  have hk' : k < a * b := by simpa using hk
  obtain ⟨hi, hj, e⟩ := lin_surj hk'
  refine ⟨_, hi, _, hj, ?_⟩
  have := gridOf_get f hi hj
  rw [← e, List.getElem?_eq_getElem hk, Option.some.injEq] at this
  exact this

theorem Ready.partU (h : p.Ready m n du dv) {parts : List (List (BSpline K V))} {ci : ℕ}
    {c : ℕ → BSpline K V} (hparts : ∀ i < n, ∃ ps, rd parts i = ok ps ∧ rd ps ci = ok (c i))
    (hwf : ∀ i < n, WellFormed (c i) du) (hkn : ∀ i < n, (c i).knots = (c 0).knots) :
    ∃ q, p.partU parts n ci = ok q ∧ PartU p q n du dv (c 0).ctrl.length c := by
  have hn : 0 < n := by have := h.v.cnt; omega
  have hlen : ∀ i < n, (c i).ctrl.length = (c 0).ctrl.length := by
    intro i hi
    have h1 := (hwf i hi).len
    have h2 := (hwf 0 hn).len
    rw [hkn i hi] at h1
    omega
  have hw := hwf 0 hn
  have hv : Valid (BSplinePatch.mk (gridOf (c 0).ctrl.length n (fun i j => (c j).ctrl.getD i 0))
      (c 0).knots p.knotsV (p.partDegree (c 0).degree p.sU) (p.partDegree (dv : ℤ) p.sV) false false
      p.sU p.sV [] []) (c 0).ctrl.length n du dv := by
    rw [degree_eq hw, partDegree_eq h.u.static (Or.inl rfl), partDegree_eq h.v.static (Or.inr rfl)]
    exact ⟨⟨rfl, hw.len, h.u.static, hw.ctrl, hw.sorted, hw.dom⟩,
      ⟨rfl, h.v.len, h.v.static, h.v.cnt, h.v.sorted, h.v.dom⟩, by simp⟩
  obtain ⟨q, e, hr, e1, e2, e3, e4, e5, e6, e7, e8, e9⟩ := hv.init_ready
  refine ⟨q, ?_, hr, e3, e6, e7, e8, e9, fun j hj => by rw [hkn j hj]; exact e2, ?_, ?_⟩
  · unfold BSplinePatch.partU
    have : refRows parts ci = ok (c 0) := by
      obtain ⟨ps, h1, h2⟩ := hparts 0 hn
      unfold refRows
      rw [h1, ok_bind, h2]
    rw [this, ok_bind, gatherU hparts hlen, ok_bind, h.toValid.degreeV, ok_bind]
    exact e
  · intro x v
    unfold BSplinePatch.tsum
    rw [bsum_swap, e3]
    refine bsum_congr (fun j hj => ?_) _
    rw [hkn j hj, ← bsum_getD (hlen j hj), e2]
    exact bsum_congr (fun i hi => pts_gridOf' (fun i j => (c j).ctrl.getD i 0) q e1 hi hj) _
  · intro x hx
    rw [e1] at hx
    simp only at hx
    obtain ⟨i, hi, j, hj, rfl⟩ := mem_gridOf hx
    refine ⟨j, hj, ?_⟩
    have hi' : i < (c j).ctrl.length := by rw [hlen j hj]; exact hi
    rw [List.getD_eq_getElem?_getD, List.getElem?_eq_getElem hi', Option.getD_some]
    exact List.getElem_mem hi'

theorem Ready.partV (h : p.Ready m n du dv) {parts : List (List (BSpline K V))} {ci : ℕ}
    {c : ℕ → BSpline K V} (hparts : ∀ i < m, ∃ ps, rd parts i = ok ps ∧ rd ps ci = ok (c i))
    (hwf : ∀ i < m, WellFormed (c i) dv) (hkn : ∀ i < m, (c i).knots = (c 0).knots) :
    ∃ q, p.partV parts m ci = ok q ∧ PartV p q m du dv (c 0).ctrl.length c := by
  have hn : 0 < m := by have := h.u.cnt; omega
  have hlen : ∀ i < m, (c i).ctrl.length = (c 0).ctrl.length := by
    intro i hi
    have h1 := (hwf i hi).len
    have h2 := (hwf 0 hn).len
    rw [hkn i hi] at h1
    omega
  have hw := hwf 0 hn
  have hv : Valid (BSplinePatch.mk (gridOf m (c 0).ctrl.length (fun i j => (c i).ctrl.getD j 0))
      p.knotsU (c 0).knots (p.partDegree (du : ℤ) p.sU) (p.partDegree (c 0).degree p.sV) false false
      p.sU p.sV [] []) m (c 0).ctrl.length du dv := by
    rw [degree_eq hw, partDegree_eq h.u.static (Or.inl rfl), partDegree_eq h.v.static (Or.inr rfl)]
    exact ⟨⟨rfl, h.u.len, h.u.static, h.u.cnt, h.u.sorted, h.u.dom⟩,
      ⟨rfl, hw.len, h.v.static, hw.ctrl, hw.sorted, hw.dom⟩, by simp⟩
  obtain ⟨q, e, hr, e1, e2, e3, e4, e5, e6, e7, e8, e9⟩ := hv.init_ready
  refine ⟨q, ?_, hr, e2, e6, e7, e8, e9, fun j hj => by rw [hkn j hj]; exact e3, ?_, ?_⟩
  · unfold BSplinePatch.partV
    have : refRows parts ci = ok (c 0) := by
      obtain ⟨ps, h1, h2⟩ := hparts 0 hn
      unfold refRows
      rw [h1, ok_bind, h2]
    rw [this, ok_bind, gatherV hparts hlen, ok_bind, h.toValid.degreeU, ok_bind]
    exact e
  · intro u x
    unfold BSplinePatch.tsum
    rw [e2]
    refine bsum_congr (fun i hi => ?_) _
    rw [hkn i hi, ← bsum_getD (hlen i hi), e3]
    exact bsum_congr (fun j hj => pts_gridOf' (fun i j => (c i).ctrl.getD j 0) q e1 hi hj) _
  · intro x hx
    rw [e1] at hx
    simp only at hx
    obtain ⟨i, hi, j, hj, rfl⟩ := mem_gridOf hx
    refine ⟨i, hi, ?_⟩
    have hi' : j < (c i).ctrl.length := by rw [hlen i hi]; exact hj
    rw [List.getD_eq_getElem?_getD, List.getElem?_eq_getElem hi', Option.getD_some]
    exact List.getElem_mem hi'

theorem Valid.lowerU (h : p.Valid m n du dv) : p.lowerU = ok (knot p.knotsU du) := by
  have := h.u.len
  unfold BSplinePatch.lowerU
  rw [h.degreeU, ok_bind, rd_knot (by omega)]

theorem Valid.lowerV (h : p.Valid m n du dv) : p.lowerV = ok (knot p.knotsV dv) := by
  have := h.v.len
  unfold BSplinePatch.lowerV
  rw [h.degreeV, ok_bind, rd_knot (by omega)]

theorem Valid.upperU (h : p.Valid m n du dv) : p.upperU = ok (knot p.knotsU m) := by
  have := h.u.len
  unfold BSplinePatch.upperU
  rw [h.degreeU, ok_bind, rdI_knot (i := m) (by omega) (by omega)]

theorem Valid.upperV (h : p.Valid m n du dv) : p.upperV = ok (knot p.knotsV n) := by
  have := h.v.len
  unfold BSplinePatch.upperV
  rw [h.degreeV, ok_bind, rdI_knot (i := n) (by omega) (by omega)]

theorem Valid.pts_mem (h : p.Valid m n du dv) {i j : ℕ} (hi : i < m) (hj : j < n) :
    p.pts n i j ∈ p.grid := by
  have hl : i * n + j < p.grid.length := by rw [h.grid]; exact lin_lt hi hj
  unfold BSplinePatch.pts Spec.gridPoint
  rw [List.getD_eq_getElem?_getD, List.getElem?_eq_getElem hl, Option.getD_some]
  exact List.getElem_mem hl

theorem Valid.colU_mem (h : p.Valid m n du dv) {j : ℕ} (hj : j < n) {x : V}
    (hx : x ∈ (p.colU m n j).ctrl) : x ∈ p.grid := by
  obtain ⟨i, hi, rfl⟩ := List.mem_iff_getElem.1 hx
  have hi' : i < m := by simpa [colU] using hi
  have : (p.colU m n j).ctrl[i] = p.pts n i j := by simp [colU, arr_getElem]
  rw [this]
  exact h.pts_mem hi' hj

theorem Valid.rowV_mem (h : p.Valid m n du dv) {i : ℕ} (hi : i < m) {x : V}
    (hx : x ∈ (p.rowV n i).ctrl) : x ∈ p.grid := by
  obtain ⟨j, hj, rfl⟩ := List.mem_iff_getElem.1 hx
  have hj' : j < n := by simpa [rowV] using hj
  have : (p.rowV n i).ctrl[j] = p.pts n i j := by simp [rowV, arr_getElem]
  rw [this]
  exact h.pts_mem hi hj'

/-- The knots, domain and values of the parts along the split direction. `lt`: below `t`. -/
structure LeftOf (u a : List K) (n r d : ℕ) (t : K) : Prop where
  lower : knot a d = knot u d
  upper : knot a r = t

structure RightOf (u b : List K) (n r d : ℕ) (t : K) : Prop where
  first : knot b d < knot b (d + 1)
  lower : knot b d = t
  upper : knot b r = knot u n

/-- `split_u` strictly inside the domain. -/
theorem Ready.splitU {eps : K} (heps : 0 ≤ eps) (h : p.Ready m n du dv) (hd : 1 ≤ du) {t : K}
    (h1 : knot p.knotsU du < t) (h2 : t < knot p.knotsU m) :
    ∃ q r mq mr, p.splitU eps t = ok [q, r] ∧ q.Ready mq n du dv ∧ r.Ready mr n du dv ∧
      q.knotsV = p.knotsV ∧ r.knotsV = p.knotsV ∧
      q.perU = false ∧ q.perV = false ∧ r.perU = false ∧ r.perV = false ∧
      q.sU = p.sU ∧ q.sV = p.sV ∧ r.sU = p.sU ∧ r.sV = p.sV ∧
      LeftOf p.knotsU q.knotsU m mq du t ∧ RightOf p.knotsU r.knotsU m mr du t ∧
      (∀ x v, knot p.knotsU du ≤ x → x ≤ t → (x < t ∨ p.knotsU.count t ≤ du) →
        q.tsum mq n du dv x v = p.tsum m n du dv x v) ∧
      (∀ x v, t ≤ x → x ≤ knot p.knotsU m →
        r.tsum mr n du dv x v = p.tsum m n du dv x v) ∧
      HullOf K p.grid q.grid ∧ HullOf K p.grid r.grid := by
  have hn : 0 < n := by have := h.v.cnt; omega
  have hsp : ∀ j, ∃ a b, (p.colU m n j).split eps t = ok [a, b] ∧ SplitLeft (p.colU m n j) a du t ∧
      SplitRight (p.colU m n j) b du t := by
    intro j
    have hwf : WellFormed (p.colU m n j) du := h.u.wf p.perU (by simp)
    exact split_spec heps hwf hd h1 (by simp [colU]; exact h2)
  choose a b hab hL hR using hsp
  have hcol : ∀ j, (p.colU m n j).ctrl = arr m (fun i => p.pts n i j) := fun _ => rfl
  have hsame : ∀ j, (a j).knots = (a 0).knots ∧ (b j).knots = (b 0).knots := by
    intro j
    have := fun i => split_same (c := p.colU m n 0) (c' := p.colU m n j) rfl (by simp [colU]) rfl rfl
      (hab 0) (hab j) i
    have e0 := this 0
    have e1 := this 1
    simp at e0 e1
    exact ⟨e0, e1⟩
  obtain ⟨q, eq, Q⟩ := h.partU (parts := arr n (fun j => [a j, b j])) (ci := 0) (c := a)
    (fun i hi => ⟨_, rd_arr hi, rfl⟩) (fun i _ => (hL i).wf) (fun i _ => (hsame i).1)
  obtain ⟨r, er, R⟩ := h.partU (parts := arr n (fun j => [a j, b j])) (ci := 1) (c := b)
    (fun i hi => ⟨_, rd_arr hi, rfl⟩) (fun i _ => (hR i).wf) (fun i _ => (hsame i).2)
  refine ⟨q, r, _, _, ?_, Q.ready, R.ready, Q.knotsV, R.knotsV, Q.perU, Q.perV, R.perU, R.perV,
    Q.sU, Q.sV, R.sU, R.sV, ⟨?_, ?_⟩, ⟨?_, ?_, ?_⟩, ?_, ?_, ?_, ?_⟩
  · unfold BSplinePatch.splitU
    rw [h.toValid.lowerU, ok_bind, h.toValid.upperU, ok_bind, if_neg, h.toValid.numV, ok_bind,
      tab_eq (g := fun j => [a j, b j]), ok_bind, eq, ok_bind, er, ok_bind]
    · rfl
    · intro j hj
      rw [h.isoU, rd_arr hj, ok_bind, hab]
    · simp [isEndpoint, h1.ne', h2.ne]
  · rw [Q.knotsU 0 hn]; exact (hL 0).lower
  · rw [Q.knotsU 0 hn]; exact (hL 0).upper
  · rw [R.knotsU 0 hn]; exact (hR 0).first
  · rw [R.knotsU 0 hn]; exact (hR 0).lower
  · rw [R.knotsU 0 hn]
    have := (hR 0).upper
    simpa [colU] using this
  · intro x v hx1 hx2 hc
    rw [Q.tsum]
    unfold BSplinePatch.tsum
    rw [bsum_swap]
    refine bsum_congr (fun j _ => ?_) _
    have : bsplinePoint du (a j).knots (a j).ctrl x
        = bsplinePoint du p.knotsU (arr m (fun i => p.pts n i j)) x := by
      rcases lt_or_eq_of_le hx2 with hlt | heq
      · exact (hL j).point x hx1 hlt
      · subst heq
        exact (hL j).last (hc.resolve_left (lt_irrefl _))
    rw [this, bsplinePoint_arr]
  · intro x v hx1 hx2
    rw [R.tsum]
    unfold BSplinePatch.tsum
    rw [bsum_swap]
    refine bsum_congr (fun j _ => ?_) _
    have : bsplinePoint du (b j).knots (b j).ctrl x
        = bsplinePoint du p.knotsU (arr m (fun i => p.pts n i j)) x :=
      (hR j).point x hx1 (by simp [colU]; exact hx2)
    rw [this, bsplinePoint_arr]
  · intro S hS hp x hx
    obtain ⟨j, hj, hx⟩ := Q.grid x hx
    exact (hL j).hull S hS (fun y hy => hp y (h.toValid.colU_mem hj hy)) x hx
  · intro S hS hp x hx
    obtain ⟨j, hj, hx⟩ := R.grid x hx
    exact (hR j).hull S hS (fun y hy => hp y (h.toValid.colU_mem hj hy)) x hx

/-- `split_v` strictly inside the domain. -/
theorem Ready.splitV {eps : K} (heps : 0 ≤ eps) (h : p.Ready m n du dv) (hd : 1 ≤ dv) {t : K}
    (h1 : knot p.knotsV dv < t) (h2 : t < knot p.knotsV n) :
    ∃ q r nq nr, p.splitV eps t = ok [q, r] ∧ q.Ready m nq du dv ∧ r.Ready m nr du dv ∧
      q.knotsU = p.knotsU ∧ r.knotsU = p.knotsU ∧
      q.perU = false ∧ q.perV = false ∧ r.perU = false ∧ r.perV = false ∧
      q.sU = p.sU ∧ q.sV = p.sV ∧ r.sU = p.sU ∧ r.sV = p.sV ∧
      LeftOf p.knotsV q.knotsV n nq dv t ∧ RightOf p.knotsV r.knotsV n nr dv t ∧
      (∀ u x, knot p.knotsV dv ≤ x → x ≤ t → (x < t ∨ p.knotsV.count t ≤ dv) →
        q.tsum m nq du dv u x = p.tsum m n du dv u x) ∧
      (∀ u x, t ≤ x → x ≤ knot p.knotsV n →
        r.tsum m nr du dv u x = p.tsum m n du dv u x) ∧
      HullOf K p.grid q.grid ∧ HullOf K p.grid r.grid := by
  have hn : 0 < m := by have := h.u.cnt; omega
  have hsp : ∀ i, ∃ a b, (p.rowV n i).split eps t = ok [a, b] ∧ SplitLeft (p.rowV n i) a dv t ∧
      SplitRight (p.rowV n i) b dv t := by
    intro i
    have hwf : WellFormed (p.rowV n i) dv := h.v.wf p.perV (by simp)
    exact split_spec heps hwf hd h1 (by simp [rowV]; exact h2)
  choose a b hab hL hR using hsp
  have hsame : ∀ j, (a j).knots = (a 0).knots ∧ (b j).knots = (b 0).knots := by
    intro j
    have := fun i => split_same (c := p.rowV n 0) (c' := p.rowV n j) rfl (by simp [rowV]) rfl rfl
      (hab 0) (hab j) i
    have e0 := this 0
    have e1 := this 1
    simp at e0 e1
    exact ⟨e0, e1⟩
  obtain ⟨q, eq, Q⟩ := h.partV (parts := arr m (fun j => [a j, b j])) (ci := 0) (c := a)
    (fun i hi => ⟨_, rd_arr hi, rfl⟩) (fun i _ => (hL i).wf) (fun i _ => (hsame i).1)
  obtain ⟨r, er, R⟩ := h.partV (parts := arr m (fun j => [a j, b j])) (ci := 1) (c := b)
    (fun i hi => ⟨_, rd_arr hi, rfl⟩) (fun i _ => (hR i).wf) (fun i _ => (hsame i).2)
  refine ⟨q, r, _, _, ?_, Q.ready, R.ready, Q.knotsU, R.knotsU, Q.perU, Q.perV, R.perU, R.perV,
    Q.sU, Q.sV, R.sU, R.sV, ⟨?_, ?_⟩, ⟨?_, ?_, ?_⟩, ?_, ?_, ?_, ?_⟩
  · unfold BSplinePatch.splitV
    rw [h.toValid.lowerV, ok_bind, h.toValid.upperV, ok_bind, throwIf_false, ok_bind, if_neg,
      h.toValid.numU, ok_bind, tab_eq (g := fun j => [a j, b j]), ok_bind, eq, ok_bind, er, ok_bind]
    · rfl
    · intro j hj
      rw [h.isoV, rd_arr hj, ok_bind, hab]
    · simp [isEndpoint, h1.ne', h2.ne]
    · simp only [inDomain, Bool.and_eq_true, decide_eq_true_eq, not_not]
      constructor <;> linarith
  · rw [Q.knotsV 0 hn]; exact (hL 0).lower
  · rw [Q.knotsV 0 hn]; exact (hL 0).upper
  · rw [R.knotsV 0 hn]; exact (hR 0).first
  · rw [R.knotsV 0 hn]; exact (hR 0).lower
  · rw [R.knotsV 0 hn]
    have := (hR 0).upper
    simpa [rowV] using this
  · intro u x hx1 hx2 hc
    rw [Q.tsum]
    unfold BSplinePatch.tsum
    refine bsum_congr (fun j _ => ?_) _
    have : bsplinePoint dv (a j).knots (a j).ctrl x
        = bsplinePoint dv p.knotsV (arr n (p.pts n j)) x := by
      rcases lt_or_eq_of_le hx2 with hlt | heq
      · exact (hL j).point x hx1 hlt
      · subst heq
        exact (hL j).last (hc.resolve_left (lt_irrefl _))
    rw [this, bsplinePoint_arr]
  · intro u x hx1 hx2
    rw [R.tsum]
    unfold BSplinePatch.tsum
    refine bsum_congr (fun j _ => ?_) _
    have : bsplinePoint dv (b j).knots (b j).ctrl x
        = bsplinePoint dv p.knotsV (arr n (p.pts n j)) x :=
      (hR j).point x hx1 (by simp [rowV]; exact hx2)
    rw [this, bsplinePoint_arr]
  · intro S hS hp x hx
    obtain ⟨j, hj, hx⟩ := Q.grid x hx
    exact (hL j).hull S hS (fun y hy => hp y (h.toValid.rowV_mem hj hy)) x hx
  · intro S hS hp x hx
    obtain ⟨j, hj, hx⟩ := R.grid x hx
    exact (hR j).hull S hS (fun y hy => hp y (h.toValid.rowV_mem hj hy)) x hx

end NS.BSplinePatch
