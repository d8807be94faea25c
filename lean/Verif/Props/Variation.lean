import Verif.Proof.Variation
import Verif.Props.RationalNurbs
import Verif.Props.Affine
import Verif.Props.BSplinePatch
import Verif.Props.NurbsPatch

/-!
# C95: the variation diminishing property

`Changes D f n σ` says that `f` changes its sign at least `n` times along arguments in `D`.  A
hyperplane is given by an affine function `ℓ`: crossing it is a change of sign of `ℓ`.
-/

set_option linter.unusedSectionVars false

namespace NS.Props

open Outcome Spec Finset BSpline

variable {K V : Type} [Field K] [LinearOrder K] [IsStrictOrderedRing K] [FloorRing K]
  [AddCommGroup V] [Module K V]

theorem Changes.mono {T : Type} [LT T] {D D' : T → Prop} {f g : T → K} {n : ℕ} {σ : K}
    (h : Changes D f n σ) (hD : ∀ x, D x → D' x)
    (hfg : ∀ x τ, D x → 0 < τ * f x → 0 < τ * g x) : Changes D' g n σ := by
  obtain ⟨x, x1, x2, x3⟩ := h
  exact ⟨x, x1, fun j hj => hD _ (x2 j hj), fun j hj => hfg _ _ (x2 j hj) (x3 j hj)⟩

theorem getD_map_lt {W : Type} [Zero W] (f : V → W) (l : List V) {i : ℕ} (h : i < l.length) :
    (l.map f).getD i 0 = f (l.getD i 0) := by
  simp [h]

/-- C95: a B-spline curve crosses a hyperplane at most as often as its control polygon, and in the
same order. -/
theorem C95_bspline {c : BSpline K V} {p : ℕ} (hc : WellFormed c p) (hw : Wide c p)
    {f : K → V} {D : K → Prop}
    (hD : ∀ t, D t → knot c.knots p ≤ t ∧ t ≤ knot c.knots c.ctrl.length ∧
      (FirstSpan c p ∨ knot c.knots p < t) ∧
      (t < knot c.knots c.ctrl.length ∨ c.periodic = false))
    (hf : ∀ t, D t → c.evaluate t = ok (f t)) (ℓ : V →ᵃ[K] K) (n : ℕ) (σ : K)
    (h : Changes D (fun t => ℓ (f t)) n σ) :
    Changes (· < c.ctrl.length) (fun i => ℓ (c.ctrl.getD i 0)) n σ := by
  set c' : BSpline K K := BSpline.mk (c.ctrl.map ℓ) c.knots c.periodic c.sdeg with hc'
  have hl : c'.ctrl.length = c.ctrl.length := by simp [hc']
  have hwf : WellFormed c' p := ⟨by rw [hl]; exact hc.len, hc.sdeg, by rw [hl]; exact hc.ctrl,
    hc.sorted, by rw [hl]; exact hc.dom⟩
  have hw' : Wide c' p := by intro i a b; rw [hl] at b; exact hw i a b
  have hv : ∀ t, D t → bsplinePoint p c'.knots c'.ctrl t = ℓ (f t) := by
    intro t ht
    obtain ⟨a1, a2, a3, a4⟩ := hD t ht
    have e1 := C04_bspline_affine ℓ c t
    rw [hf t ht, ← hc', evaluate_eq hwf hw' (wrap_of_mem hwf a1 (by
      rw [hl]
      rcases a4 with a4 | a4
      · exact Or.inl a4
      · exact Or.inr ⟨a4, a2⟩)) a3 a1 (by rw [hl]; exact a2)] at e1
    exact ok.inj e1
  have := variation hwf (n := n) (σ := σ) (Changes.mono h
    (fun t ht => ⟨(hD t ht).1, by rw [hl]; exact (hD t ht).2.1⟩)
    (fun t τ ht h => by rw [hv t ht]; exact h))
  rw [hl] at this
  refine Changes.mono this (fun _ h => h) fun i τ hi h => ?_
  have e : c'.ctrl.getD i 0 = ℓ (c.ctrl.getD i 0) := getD_map_lt _ _ hi
  rw [e] at h
  exact h

theorem bezier_variation {P : List K} (hne : P ≠ []) {n : ℕ} {σ : K}
    (h : Changes (fun t : K => 0 ≤ t ∧ t ≤ 1) (bezierPoint P) n σ) :
    Changes (· < P.length) (fun i => P.getD i 0) n σ := by
  obtain ⟨p, hp⟩ : ∃ p, P.length = p + 1 := ⟨P.length - 1, by
    have := List.length_pos_iff.2 hne; omega⟩
  have hwf := ofBezier_wf (K := K) { ctrl := P } hp
  have k0 : knot (ofBezier K { ctrl := P }).knots p = 0 := by
    rw [ofBezier_knot { ctrl := P } hp p (by omega), if_pos le_rfl]
  have k1 : knot (ofBezier K { ctrl := P }).knots (ofBezier K { ctrl := P }).ctrl.length = 1 := by
    rw [show (ofBezier K { ctrl := P }).ctrl.length = p + 1 from hp,
      ofBezier_knot { ctrl := P } hp _ (by omega), if_neg (by omega)]
  refine variation hwf (Changes.mono h (fun t ht => by rw [k0, k1]; exact ht) fun t τ ht h' => ?_)
  have e := (C21_ofBezier (K := K) { ctrl := P } hp).2.2.2.2 t
  rw [evaluate_eq hwf (ofBezier_wide { ctrl := P } hp) (wrap_nonperiodic rfl t)
    (Or.inl (ofBezier_first { ctrl := P } hp)) (by rw [k0]; exact ht.1) (by rw [k1]; exact ht.2),
    Bezier.evaluate_eq _ hne] at e
  rw [ok.inj e]
  exact h'

theorem folded_self {per : Bool} {lo hi t t' : K} (h : Folded per lo hi t t') (h0 : lo ≤ t)
    (h1 : t ≤ hi) (h2 : t < hi ∨ per = false) : t' = t := by
  unfold Folded at h
  split at h
  · rename_i hp
    obtain ⟨a1, a2, z, a3⟩ := h
    have hlt : t < hi := h2.resolve_right (by simp [hp])
    have hd : 0 < hi - lo := by linarith
    have z1 : z < 1 := by
      by_contra hz
      have : (1 : K) ≤ z := by exact_mod_cast not_lt.1 hz
      nlinarith
    have z2 : -1 < z := by
      by_contra hz
      have : (z : K) ≤ -1 := by exact_mod_cast not_lt.1 hz
      nlinarith
    have : z = 0 := by omega
    subst this
    simp at a3
    linarith
  · exact h

/-- C95 for Bézier curves. -/
theorem C95_bezier {c : Bezier V} (hne : c.ctrl ≠ []) {f : K → V} {D : K → Prop}
    (hD : ∀ t, D t → 0 ≤ t ∧ t ≤ 1 ∧ (t < 1 ∨ c.periodic = false))
    (hf : ∀ t, D t → c.evaluate t = ok (f t)) (ℓ : V →ᵃ[K] K) (n : ℕ) (σ : K)
    (h : Changes D (fun t => ℓ (f t)) n σ) :
    Changes (· < c.ctrl.length) (fun i => ℓ (c.ctrl.getD i 0)) n σ := by
  have hne' : c.ctrl.map ℓ ≠ [] := by simpa using hne
  have := bezier_variation hne' (n := n) (σ := σ) (Changes.mono h
    (fun t ht => ⟨(hD t ht).1, (hD t ht).2.1⟩) fun t τ ht h' => by
      obtain ⟨t', w1, w2⟩ := bezier_folded c.periodic t
      have hs := folded_self w2 (hD t ht).1 (hD t ht).2.1 (hD t ht).2.2
      subst hs
      have e := C04_bezier_affine_any ℓ c t'
      rw [hf t' ht, Bezier.evaluate_wrap, w1, ok_bind, Bezier.evaluate_eq _ hne'] at e
      rw [ok.inj e]
      exact h')
  rw [List.length_map] at this
  refine Changes.mono this (fun _ h => h) fun i τ hi h => ?_
  rw [getD_map_lt _ _ hi] at h
  exact h

theorem weighted_affine (ℓ : V →ᵃ[K] K) {n : ℕ} {w : ℕ → K} {P : ℕ → V} {d : K}
    (hd : d = ∑ i ∈ range n, w i) (h0 : d ≠ 0) :
    d * ℓ (d⁻¹ • ∑ i ∈ range n, w i • P i) = ∑ i ∈ range n, w i * ℓ (P i) := by
  obtain ⟨b, e⟩ : ∃ b, ∀ x, ℓ x = ℓ.linear x + b := ⟨ℓ 0, fun x => by
    have := ℓ.map_vadd 0 x
    simpa using this⟩
  simp only [e, map_smul, map_sum, smul_eq_mul, mul_add, sum_add_distrib, ← sum_mul, ← hd]
  rw [← mul_assoc, mul_inv_cancel₀ h0, one_mul]

theorem weights_pos {w : List K} (hw : ∀ x ∈ w, 0 < x) {i : ℕ} (h : i < w.length) :
    0 < w.getD i 0 := by
  rw [List.getD_eq_getElem?_getD, List.getElem?_eq_getElem h, Option.getD_some]
  exact hw _ (List.getElem_mem h)

theorem sign_scale {d x τ : K} (hd : 0 < d) : 0 < τ * (d * x) ↔ 0 < τ * x := by
  rw [show τ * (d * x) = d * (τ * x) by ring]
  exact mul_pos_iff_of_pos_left hd

/-- C95 for NURBS curves with positive weights. -/
theorem C95_nurbs {c : NURBS K V} (hi : c.init = ok c) {p : ℕ} (hc : WellFormed c.base p)
    (hw : Wide c.base p) (hfst : FirstSpan c.base p) (hpos : ∀ x ∈ c.weights, 0 < x)
    {f : K → V} {D : K → Prop}
    (hD : ∀ t, D t → knot c.base.knots p ≤ t ∧ t ≤ knot c.base.knots c.base.ctrl.length ∧
      (t < knot c.base.knots c.base.ctrl.length ∨ c.base.periodic = false))
    (hf : ∀ t, D t → c.evaluate t = ok (f t)) (ℓ : V →ᵃ[K] K) (n : ℕ) (σ : K)
    (h : Changes D (fun t => ℓ (f t)) n σ) :
    Changes (· < c.base.ctrl.length) (fun i => ℓ (c.base.ctrl.getD i 0)) n σ := by
  obtain ⟨S, -, -⟩ := (NURBS.init_iff _ _).1 hi
  have hlw := S.len
  set N := c.base.ctrl.length with hN
  set c' : BSpline K K := BSpline.mk
    (arr N fun i => c.weights.getD i 0 * ℓ (c.base.ctrl.getD i 0)) c.base.knots false
    c.base.sdeg with hc'
  have hl : c'.ctrl.length = N := by simp [hc']
  have hwf : WellFormed c' p := ⟨by rw [hl]; exact hc.len, hc.sdeg, by rw [hl]; exact hc.ctrl,
    hc.sorted, by rw [hl]; exact hc.dom⟩
  have hv : ∀ t, D t → 0 < ratBSplineDen p c.base.knots c.weights t ∧
      bsplinePoint p c'.knots c'.ctrl t
        = ratBSplineDen p c.base.knots c.weights t * ℓ (f t) := by
    intro t ht
    obtain ⟨a1, a2, a3⟩ := hD t ht
    obtain ⟨t', w1, w2, -⟩ := C24_nurbs hi hc hw hfst t (Or.inr ⟨a1, a2⟩)
    have hs := folded_self w1 a1 a2 a3
    subst hs
    have hden := ratBSplineDen_pos hc hfst hlw hpos a1 a2
    have e := w2 hden.ne'
    rw [hf t' ht] at e
    refine ⟨hden, ?_⟩
    rw [ok.inj e, ratBSplinePoint, ← hN, weighted_affine ℓ
      (d := ratBSplineDen p c.base.knots c.weights t') (by rw [ratBSplineDen, ← hlw]) hden.ne',
      bsplinePoint, hl]
    refine sum_congr rfl fun i hi => ?_
    rw [hc', arr_getD _ _ _ _ (by simpa using hi), smul_eq_mul]
    ring
  have := variation hwf (n := n) (σ := σ) (Changes.mono h
    (fun t ht => ⟨(hD t ht).1, by rw [hl]; exact (hD t ht).2.1⟩)
    (fun t τ ht h => by
      obtain ⟨a, b⟩ := hv t ht
      rw [b, sign_scale a]
      exact h))
  rw [hl] at this
  refine Changes.mono this (fun _ h => h) fun i τ hi h => ?_
  simp only [hc'] at h
  rw [arr_getD _ _ _ _ hi, sign_scale (weights_pos hpos (by omega))] at h
  exact h

/-- C95 for rational Bézier curves with positive weights. -/
theorem C95_rational {c : RationalBezier K V} (hi : c.init = ok c) (hne : c.base.ctrl ≠ [])
    (hpos : ∀ x ∈ c.weights, 0 < x) {f : K → V} {D : K → Prop}
    (hD : ∀ t, D t → 0 ≤ t ∧ t ≤ 1 ∧ (t < 1 ∨ c.base.periodic = false))
    (hf : ∀ t, D t → c.evaluate t = ok (f t)) (ℓ : V →ᵃ[K] K) (n : ℕ) (σ : K)
    (h : Changes D (fun t => ℓ (f t)) n σ) :
    Changes (· < c.base.ctrl.length) (fun i => ℓ (c.base.ctrl.getD i 0)) n σ := by
  obtain ⟨S, -, -⟩ := (RationalBezier.init_iff _ _).1 hi
  have hlw := S.len
  set N := c.base.ctrl.length with hN
  have hN0 : 0 < N := List.length_pos_iff.2 hne
  set P : List K := arr N fun i => c.weights.getD i 0 * ℓ (c.base.ctrl.getD i 0) with hP
  have hl : P.length = N := by simp [hP]
  have hv : ∀ t, D t → 0 < ratBezierDen c.weights t ∧
      bezierPoint P t = ratBezierDen c.weights t * ℓ (f t) := by
    intro t ht
    obtain ⟨a1, a2, a3⟩ := hD t ht
    obtain ⟨t', w1, w2, -⟩ := C24_rational_bezier hi hne t
    have hs := folded_self w1 a1 a2 a3
    subst hs
    have hden := ratBezierDen_pos (w := c.weights) (by
      intro h; rw [h] at hlw; simp at hlw; omega) hpos a1 a2
    have e := w2 hden.ne'
    rw [hf t' ht] at e
    refine ⟨hden, ?_⟩
    rw [ok.inj e, ratBezierPoint, ← hN, weighted_affine ℓ
      (d := ratBezierDen c.weights t') (by rw [ratBezierDen, ← hlw]) hden.ne',
      bezierPoint, hl]
    refine sum_congr rfl fun i hi => ?_
    rw [hP, arr_getD _ _ _ _ (by simpa using hi), smul_eq_mul]
    ring
  have := bezier_variation (P := P) (by intro h; rw [h] at hl; simp at hl; omega)
    (n := n) (σ := σ) (Changes.mono h
    (fun t ht => ⟨(hD t ht).1, (hD t ht).2.1⟩)
    (fun t τ ht h => by
      obtain ⟨a, b⟩ := hv t ht
      rw [b, sign_scale a]
      exact h))
  rw [hl] at this
  refine Changes.mono this (fun _ h => h) fun i τ hi h => ?_
  rw [hP, arr_getD _ _ _ _ hi, sign_scale (weights_pos hpos (by omega))] at h
  exact h

/-! ### Monotone coordinates -/

theorem mono_of_changes {D : K → Prop} {f : K → K} {N : ℕ} {g : ℕ → K}
    (H : ∀ μ, Changes D (fun t => f t - μ) 1 1 → Changes (· < N) (fun i => g i - μ) 1 1)
    (hg : ∀ i, i + 1 < N → g i ≤ g (i + 1)) {a b : K} (ha : D a) (hb : D b) (hab : a ≤ b) :
    f a ≤ f b := by
  have hmono : ∀ d i, i + d < N → g i ≤ g (i + d) := by
    intro d
    induction d with
    | zero => intro i _; exact le_rfl
    | succ d ih => intro i h; exact (ih i (by omega)).trans (hg (i + d) (by omega))
  by_contra hcon
  push Not at hcon
  have hlt : a < b := lt_of_le_of_ne hab fun e => by rw [e] at hcon; exact lt_irrefl _ hcon
  obtain ⟨x, x1, x2, x3⟩ := H ((f a + f b) / 2) ⟨fun j => if j = 0 then a else b, fun j hj => by
      have : j = 0 := by omega
      subst this
      simpa using hlt, fun j hj => by
      dsimp only
      split_ifs
      · exact ha
      · exact hb, fun j hj => by
      rcases (by omega : j = 0 ∨ j = 1) with rfl | rfl
      · simp; linarith
      · simp; linarith⟩
  have h0 := x3 0 (by omega)
  have h1 := x3 1 le_rfl
  have h2 := x1 0 (by omega)
  simp only [pow_zero, pow_one] at h0 h1
  rw [zero_add] at h2
  obtain ⟨d, hd⟩ := Nat.exists_eq_add_of_lt h2
  have := hmono (d + 1) (x 0) (by have := x2 1 le_rfl; omega)
  rw [show x 0 + (d + 1) = x 1 by omega] at this
  linarith

/-- C95: if a coordinate does not decrease along the control points of a B-spline curve, it does
not decrease along the curve. -/
theorem C95_monotone {c : BSpline K V} {p : ℕ} (hc : WellFormed c p) (hw : Wide c p)
    {f : K → V} {D : K → Prop}
    (hD : ∀ t, D t → knot c.knots p ≤ t ∧ t ≤ knot c.knots c.ctrl.length ∧
      (FirstSpan c p ∨ knot c.knots p < t) ∧
      (t < knot c.knots c.ctrl.length ∨ c.periodic = false))
    (hf : ∀ t, D t → c.evaluate t = ok (f t)) (ℓ : V →ᵃ[K] K)
    (hm : ∀ i, i + 1 < c.ctrl.length → ℓ (c.ctrl.getD i 0) ≤ ℓ (c.ctrl.getD (i + 1) 0))
    {a b : K} (ha : D a) (hb : D b) (hab : a ≤ b) : ℓ (f a) ≤ ℓ (f b) :=
  mono_of_changes (f := fun t => ℓ (f t)) (fun μ h => by
    have := C95_bspline hc hw hD hf (ℓ - AffineMap.const K V μ) 1 1 (by simpa using h)
    simpa using this) hm ha hb hab

/-- C95: the same for NURBS curves with positive weights. -/
theorem C95_nurbs_monotone {c : NURBS K V} (hi : c.init = ok c) {p : ℕ} (hc : WellFormed c.base p)
    (hw : Wide c.base p) (hfst : FirstSpan c.base p) (hpos : ∀ x ∈ c.weights, 0 < x)
    {f : K → V} {D : K → Prop}
    (hD : ∀ t, D t → knot c.base.knots p ≤ t ∧ t ≤ knot c.base.knots c.base.ctrl.length ∧
      (t < knot c.base.knots c.base.ctrl.length ∨ c.base.periodic = false))
    (hf : ∀ t, D t → c.evaluate t = ok (f t)) (ℓ : V →ᵃ[K] K)
    (hm : ∀ i, i + 1 < c.base.ctrl.length →
      ℓ (c.base.ctrl.getD i 0) ≤ ℓ (c.base.ctrl.getD (i + 1) 0))
    {a b : K} (ha : D a) (hb : D b) (hab : a ≤ b) : ℓ (f a) ≤ ℓ (f b) :=
  mono_of_changes (f := fun t => ℓ (f t)) (fun μ h => by
    have := C95_nurbs hi hc hw hfst hpos hD hf (ℓ - AffineMap.const K V μ) 1 1 (by simpa using h)
    simpa using this) hm ha hb hab

/-- C95: the same for Bézier curves. -/
theorem C95_bezier_monotone {c : Bezier V} (hne : c.ctrl ≠ []) {f : K → V} {D : K → Prop}
    (hD : ∀ t, D t → 0 ≤ t ∧ t ≤ 1 ∧ (t < 1 ∨ c.periodic = false))
    (hf : ∀ t, D t → c.evaluate t = ok (f t)) (ℓ : V →ᵃ[K] K)
    (hm : ∀ i, i + 1 < c.ctrl.length → ℓ (c.ctrl.getD i 0) ≤ ℓ (c.ctrl.getD (i + 1) 0))
    {a b : K} (ha : D a) (hb : D b) (hab : a ≤ b) : ℓ (f a) ≤ ℓ (f b) :=
  mono_of_changes (f := fun t => ℓ (f t)) (fun μ h => by
    have := C95_bezier hne hD hf (ℓ - AffineMap.const K V μ) 1 1 (by simpa using h)
    simpa using this) hm ha hb hab

/-- C95: the same for rational Bézier curves with positive weights. -/
theorem C95_rational_monotone {c : RationalBezier K V} (hi : c.init = ok c) (hne : c.base.ctrl ≠ [])
    (hpos : ∀ x ∈ c.weights, 0 < x) {f : K → V} {D : K → Prop}
    (hD : ∀ t, D t → 0 ≤ t ∧ t ≤ 1 ∧ (t < 1 ∨ c.base.periodic = false))
    (hf : ∀ t, D t → c.evaluate t = ok (f t)) (ℓ : V →ᵃ[K] K)
    (hm : ∀ i, i + 1 < c.base.ctrl.length →
      ℓ (c.base.ctrl.getD i 0) ≤ ℓ (c.base.ctrl.getD (i + 1) 0))
    {a b : K} (ha : D a) (hb : D b) (hab : a ≤ b) : ℓ (f a) ≤ ℓ (f b) :=
  mono_of_changes (f := fun t => ℓ (f t)) (fun μ h => by
    have := C95_rational hi hne hpos hD hf (ℓ - AffineMap.const K V μ) 1 1 (by simpa using h)
    simpa using this) hm ha hb hab

theorem basis_mono {u : List K} {deg s : ℤ} {n p : ℕ} (h : BSplinePatch.Axis u deg s n p) {q : ℕ → K}
    (hq : ∀ i, i + 1 < n → q i ≤ q (i + 1)) {a b : K} (ha : BSplinePatch.InDom u n p a)
    (hb : BSplinePatch.InDom u n p b) (hab : a ≤ b) :
    ∑ i ∈ range n, basis (knot u) (knot u n) p i a * q i
      ≤ ∑ i ∈ range n, basis (knot u) (knot u n) p i b * q i := by
  refine mono_of_changes (D := BSplinePatch.InDom u n p)
    (f := fun t => ∑ i ∈ range n, basis (knot u) (knot u n) p i t * q i) (N := n) (g := q)
    (fun μ hch => ?_) hq ha hb hab
  have hwf := h.wf (V := K) false (c := arr n fun i => q i - μ) (by simp)
  have := variation hwf (n := 1) (σ := 1) (Changes.mono hch
    (fun t ht => ⟨ht.1, by simpa using ht.2.1⟩) fun t τ ht h' => by
      convert h' using 2
      simp only [bsplinePoint, arr_length]
      rw [sum_congr rfl (fun i hi => by rw [arr_getD _ _ _ _ (by simpa using hi)])]
      simp only [smul_eq_mul, mul_sub, sum_sub_distrib, ← sum_mul, (axis_basis h ht).2, one_mul])
  simp only [arr_length] at this
  refine Changes.mono this (fun _ h => h) fun i τ hi h => ?_
  rw [arr_getD _ _ _ _ hi] at h
  exact h

/-- C95: if a coordinate does not decrease with the first index of the control grid of a B-spline
patch, it does not decrease with `u` on the patch; likewise for the second index and `v`. -/
theorem C95_patch_monotone {p : BSplinePatch K V} {m n du dv : ℕ} (h : p.Valid m n du dv)
    (hi : p.init = ok p) (hwu : BSplinePatch.WideOn p.knotsU m du)
    (hwv : BSplinePatch.WideOn p.knotsV n dv) (ℓ : V →ₗ[K] K) {u u' v v' : K}
    (hu : BSplinePatch.InDom p.knotsU m du u ∧ (u < knot p.knotsU m ∨ p.perU = false))
    (hu' : BSplinePatch.InDom p.knotsU m du u' ∧ (u' < knot p.knotsU m ∨ p.perU = false))
    (hv : BSplinePatch.InDom p.knotsV n dv v ∧ (v < knot p.knotsV n ∨ p.perV = false))
    (hv' : BSplinePatch.InDom p.knotsV n dv v' ∧ (v' < knot p.knotsV n ∨ p.perV = false)) :
    ∃ x x' y, p.evaluate u v = ok x ∧ p.evaluate u' v = ok x' ∧ p.evaluate u v' = ok y ∧
      ((∀ i j, i + 1 < m → j < n →
          ℓ (gridPoint p.grid n i j) ≤ ℓ (gridPoint p.grid n (i + 1) j)) →
        u ≤ u' → ℓ x ≤ ℓ x') ∧
      ((∀ i j, i < m → j + 1 < n →
          ℓ (gridPoint p.grid n i j) ≤ ℓ (gridPoint p.grid n i (j + 1))) →
        v ≤ v' → ℓ x ≤ ℓ y) := by
  have e : ∀ s t, ℓ (bsplineSurface du dv m n p.knotsU p.knotsV p.grid s t) =
      ∑ i ∈ range m, basis (knot p.knotsU) (knot p.knotsU m) du i s *
        ∑ j ∈ range n, basis (knot p.knotsV) (knot p.knotsV n) dv j t *
          ℓ (gridPoint p.grid n i j) := by
    intro s t
    simp only [bsplineSurface, map_sum, map_smul, smul_eq_mul, mul_sum, mul_assoc]
  have e' : ∀ s t, ℓ (bsplineSurface du dv m n p.knotsU p.knotsV p.grid s t) =
      ∑ j ∈ range n, basis (knot p.knotsV) (knot p.knotsV n) dv j t *
        ∑ i ∈ range m, basis (knot p.knotsU) (knot p.knotsU m) du i s *
          ℓ (gridPoint p.grid n i j) := by
    intro s t
    rw [e]
    simp only [mul_sum]
    rw [sum_comm]
    refine sum_congr rfl fun j _ => sum_congr rfl fun i _ => by ring
  refine ⟨_, _, _, C31_evaluate_domain h hi hwu hwv hu.1 hv.1 hu.2 hv.2,
    C31_evaluate_domain h hi hwu hwv hu'.1 hv.1 hu'.2 hv.2,
    C31_evaluate_domain h hi hwu hwv hu.1 hv'.1 hu.2 hv'.2, fun hm huu => ?_, fun hm hvv => ?_⟩
  · rw [e, e]
    refine basis_mono h.u (fun i hi => ?_) hu.1 hu'.1 huu
    exact sum_le_sum fun j hj => mul_le_mul_of_nonneg_left (hm i j hi (by simpa using hj))
      ((axis_basis h.v hv.1).1 j (by simpa using hj))
  · rw [e', e']
    refine basis_mono h.v (fun j hj => ?_) hv.1 hv'.1 hvv
    exact sum_le_sum fun i hi => mul_le_mul_of_nonneg_left (hm i j (by simpa using hi) hj)
      ((axis_basis h.u hu.1).1 i (by simpa using hi))

/-! ### Concrete cases -/

/-- A parabola that crosses 0 twice. -/
def exWave : Bezier ℚ := { ctrl := [1, -3, 1] }

theorem exWave_changes :
    Changes (fun t : ℚ => 0 ≤ t ∧ t ≤ 1) (fun t => AffineMap.id ℚ ℚ (bezierPoint exWave.ctrl t)) 2 1 := by
  refine ⟨fun j => j / 2, fun j hj => ?_, fun j hj => ?_, fun j hj => ?_⟩
  · push_cast
    linarith
  · interval_cases j <;> decide +kernel
  · interval_cases j <;> decide +kernel

example : Changes (· < 3) (fun i => AffineMap.id ℚ ℚ (exWave.ctrl.getD i 0)) 2 1 :=
  C95_bezier (c := exWave) (by decide) (fun t ht => ⟨ht.1, ht.2, Or.inr rfl⟩)
    (fun t _ => Bezier.evaluate_eq _ (by decide) t) _ 2 1 exWave_changes

/-- The polygon of `exWave` does change its sign only twice. -/
theorem C95_sharp : ¬ Changes (· < 3) (fun i => exWave.ctrl.getD i 0) 3 1 := by
  rintro ⟨x, x1, x2, -⟩
  have := x1 0 (by omega)
  have := x1 1 (by omega)
  have := x1 2 (by omega)
  have := x2 3 le_rfl
  simp only [zero_add, Nat.reduceAdd] at *
  omega

/-- The second coordinate of the quarter circle `exNurbs` does not decrease. -/
example (f : ℚ → ℚ × ℚ) (hf : ∀ t, 0 ≤ t ∧ t ≤ 1 → exNurbs.evaluate t = ok (f t)) :
    (f (1 / 3)).2 ≤ (f (1 / 2)).2 :=
  C95_nurbs_monotone (D := fun t => 0 ≤ t ∧ t ≤ 1) (c := exNurbs) (by decide +kernel) exNurbs_wf
    exNurbs_wide exNurbs_first (by decide +kernel) (fun t ht => ⟨ht.1, ht.2, Or.inr rfl⟩) hf
    (LinearMap.snd ℚ ℚ ℚ).toAffineMap (fun i hi => by
      have hi' : i + 1 < 3 := hi
      have : i < 2 := by omega
      interval_cases i <;> decide +kernel)
    (by norm_num) (by norm_num) (by norm_num)

/-- C95 is false for a negative weight, even where the curve has no poles: with the control values
2, 1, 2 and the weights 1, -1/2, 1 the denominator is positive on the domain, the curve goes from 2
to 3 and back, and crosses 5/2 twice; the control values stay below. -/
theorem C95_negative_weight_refuted :
    ∃ c : RationalBezier ℚ ℚ, c.init = ok c ∧ c.base = { ctrl := [2, 1, 2] } ∧
      c.weights = [1, -1 / 2, 1] ∧ (∀ t, 0 < ratBezierDen c.weights t) ∧
      (∃ f : ℚ → ℚ, (∀ t, c.evaluate t = ok (f t)) ∧
        Changes (fun t => 0 ≤ t ∧ t ≤ 1) (fun t => f t - 5 / 2) 2 (-1)) ∧
      ¬ Changes (· < 3) (fun i => c.base.ctrl.getD i 0 - 5 / 2) 1 (-1) := by
  obtain ⟨c, hc⟩ : ∃ c, (RationalBezier.init ⟨{ ctrl := [2, 1, 2] }, [1, -1 / 2, 1], { ctrl := [] }⟩ :
      Outcome (RationalBezier ℚ ℚ)) = ok c := by
    unfold RationalBezier.init
    rw [homogenize_eq (by simp)]
    exact ⟨_, rfl⟩
  obtain ⟨S, e1, e2⟩ := (RationalBezier.init_iff _ _).1 hc
  have hi : c.init = ok c := (RationalBezier.init_iff _ _).2 ⟨S, rfl, rfl⟩
  have hden : ∀ t, 0 < ratBezierDen c.weights t := by
    intro t
    rw [e2]
    simp [ratBezierDen, bernstein, sum_range_succ]
    nlinarith [sq_nonneg (t - 1 / 2)]
  refine ⟨c, hi, e1, e2, hden, ⟨ratBezierPoint c.base.ctrl c.weights, fun t => ?_, ?_⟩, ?_⟩
  · obtain ⟨t', w1, w2, -⟩ := C24_rational_bezier hi (by rw [e1]; simp) t
    rw [e1] at w1
    have : t' = t := w1
    subst this
    exact w2 (hden _).ne'
  · rw [e1, e2]
    refine ⟨fun j => j / 2, fun j hj => ?_, fun j hj => ?_, fun j hj => ?_⟩
    · push_cast
      linarith
    · interval_cases j <;> decide +kernel
    · interval_cases j <;> decide +kernel
  · rintro ⟨x, x1, x2, x3⟩
    have h1 := x3 1 le_rfl
    have h2 := x2 1 le_rfl
    rw [e1] at h1
    obtain ⟨k, hk⟩ : ∃ k, x 1 = k := ⟨_, rfl⟩
    rw [hk] at h1 h2
    interval_cases k <;> norm_num at h1

end NS.Props
