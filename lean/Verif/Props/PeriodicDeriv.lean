import Verif.Props.RationalDeriv
import Verif.Props.BSplinePatch

/-!
# Derivatives of periodic curves and patches (C15, C25, C64)

Evaluators of periodic objects fold the parameter into the domain, so they are defined for every
real parameter.  They return right derivatives everywhere and two-sided derivatives away from the
(repeated) knots.
-/

set_option linter.unusedSectionVars false
set_option linter.unusedSimpArgs false

namespace NS.Props

open Outcome Spec Finset BSpline Filter Topology

section

variable {V : Type} [NormedAddCommGroup V] [NormedSpace ℝ V]

/-- Shifting a function shifts its derivatives. -/
theorem deriv_shift {f : ℝ → V} {x : V} {t a : ℝ} (hf : ∀ s, f (s + a) = f s)
    (h : HasDerivWithinAt f x (Set.Ici (t + a)) (t + a)) : HasDerivWithinAt f x (Set.Ici t) t := by
  have h1 : HasDerivWithinAt (fun s => f (s + a)) x (Set.Ici t) t := by
    have h2 : HasDerivWithinAt (fun s : ℝ => s + a) 1 (Set.Ici t) t :=
      ((hasDerivAt_id t).add_const a).hasDerivWithinAt
    have := HasDerivWithinAt.scomp t h h2 (fun s hs => by
      simp only [Set.mem_Ici] at hs ⊢; linarith)
    simpa [Function.comp_def] using this
  simpa only [hf] using h1

theorem deriv_shift_at {f : ℝ → V} {x : V} {t a : ℝ} (hf : ∀ s, f (s + a) = f s)
    (h : HasDerivAt f x (t + a)) : HasDerivAt f x t := by
  have := h.comp_add_const t a
  simpa only [hf] using this

/-- `f` has the right derivative `f'` everywhere, and the derivative `f'` at every parameter all of
whose translates by multiples of `T` avoid the exceptional set. -/
def PeriodicDeriv (T : ℝ) (bad : ℝ → Prop) (f f' : ℝ → V) : Prop :=
  ∀ t, HasDerivWithinAt f (f' t) (Set.Ici t) t ∧
    ((∀ z : ℤ, ¬ bad (t + z * T)) → HasDerivAt f (f' t) t)

/-- Periodic extension of a derivative on `[lo, lo + T)`. -/
theorem periodicDeriv {lo hi : ℝ} (hlt : lo < hi) {bad : ℝ → Prop} (hbad : bad lo)
    {f f' g g' : ℝ → V}
    (pf : ∀ (t : ℝ) (z : ℤ), f (t + z * (hi - lo)) = f t)
    (pf' : ∀ (t : ℝ) (z : ℤ), f' (t + z * (hi - lo)) = f' t)
    (ef : ∀ t, lo ≤ t → t < hi → f t = g t) (ef' : ∀ t, lo ≤ t → t < hi → f' t = g' t)
    (hr : ∀ t, lo ≤ t → t < hi → HasDerivWithinAt g (g' t) (Set.Ici t) t)
    (ht : ∀ t, lo < t → t < hi → ¬ bad t → HasDerivAt g (g' t) t) :
    PeriodicDeriv (hi - lo) bad f f' := by
  intro t
  obtain ⟨t', -, h1, h2, z, hz⟩ := unwrapParameter_spec lo hi t hlt
  have e' : f' t = g' t' := by rw [← ef' t' h1 h2, hz, pf']
  constructor
  · refine deriv_shift (a := z * (hi - lo)) (fun s => pf s z) ?_
    rw [← hz, e']
    refine (hr t' h1 h2).congr_of_eventuallyEq ?_ (ef t' h1 h2)
    filter_upwards [Ico_mem_nhdsGE h2] with s hs
    exact ef s (h1.trans hs.1) hs.2
  · intro hn
    have hb := hn z
    rw [← hz] at hb
    have hlo : lo < t' := lt_of_le_of_ne h1 (fun h => hb (h ▸ hbad))
    refine deriv_shift_at (a := z * (hi - lo)) (fun s => pf s z) ?_
    rw [← hz, e']
    refine (ht t' hlo h2 hb).congr_of_eventuallyEq ?_
    filter_upwards [Ioo_mem_nhds hlo h2] with s hs
    exact ef s hs.1.le hs.2

theorem knot_mem {u : List ℝ} {i : ℕ} (h : i < u.length) : knot u i ∈ u := by
  unfold knot
  rw [List.getD_eq_getElem?_getD, List.getElem?_eq_getElem h]
  exact List.getElem_mem h

/-- C15 for periodic splines: the evaluators return for every real parameter, the second and third
are right derivatives of the first and second everywhere, and derivatives at every parameter that is
not a knot modulo the period. -/
theorem C15_periodic_partial {c : BSpline ℝ V} {p : ℕ} (hc : WellFormed c p) (hw : Wide c p)
    (hfst : FirstSpan c p) (hper : c.periodic = true) :
    ∃ f f' f'' : ℝ → V, (∀ t, c.evaluate t = ok (f t) ∧ c.evaluateDerivative t = ok (f' t) ∧
        c.evaluate2ndDerivative t = ok (f'' t)) ∧
      PeriodicDeriv (knot c.knots c.ctrl.length - knot c.knots p) (· ∈ c.knots) f f' ∧
      PeriodicDeriv (knot c.knots c.ctrl.length - knot c.knots p) (· ∈ c.knots) f' f'' := by
  let c0 : BSpline ℝ V := { c with periodic := false }
  have hc0 : WellFormed c0 p := ⟨hc.len, hc.sdeg, hc.ctrl, hc.sorted, hc.dom⟩
  have hw0 : Wide c0 p := hw
  obtain ⟨g, g', g'', e⟩ := C15_evaluators_return hc0 hw0 rfl hfst
  have D := C15_derivative_partial hc0 hw0 rfl g g' g'' (fun s a b => (e s a b).1)
    (fun s a b => (e s a b).2.1) (fun s a b => (e s a b).2.2)
  have hdom := hc.dom
  have fold : ∀ t, ∃ t', unwrapParameter (knot c.knots p) (knot c.knots c.ctrl.length) t = ok t' ∧
      knot c.knots p ≤ t' ∧ t' < knot c.knots c.ctrl.length := fun t => by
    obtain ⟨t', a, b, d, -⟩ := unwrapParameter_spec _ _ t hdom
    exact ⟨t', a, b, d⟩
  choose φ hφ h1 h2 using fold
  have hφp : ∀ (t : ℝ) (z : ℤ), φ (t + z * (knot c.knots c.ctrl.length - knot c.knots p)) = φ t := by
    intro t z
    have := hφ (t + z * (knot c.knots c.ctrl.length - knot c.knots p))
    rw [unwrapParameter_add_period _ _ t hdom z, hφ t, ok.injEq] at this
    exact this.symm
  have hφi : ∀ t, knot c.knots p ≤ t → t < knot c.knots c.ctrl.length → φ t = t := by
    intro t a b
    have := hφ t
    rw [unwrapParameter_of_mem _ _ t a b, ok.injEq] at this
    exact this.symm
  have hwrap : ∀ t, c.wrap t = ok (φ t) := fun t => by rw [wrap_periodic hc hper, hφ]
  have hwrap0 : ∀ t, c0.wrap t = ok t := fun t => wrap_nonperiodic rfl t
  have hmem : knot c.knots p ∈ c.knots := knot_mem (by have := hc.len; omega)
  refine ⟨fun t => g (φ t), fun t => g' (φ t), fun t => g'' (φ t), ?_, ?_, ?_⟩
  · intro t
    obtain ⟨a, b, d⟩ := e (φ t) (h1 t) (h2 t).le
    refine ⟨?_, ?_, ?_⟩
    · rw [← a]; unfold evaluate; rw [hwrap, hwrap0]; rfl
    · rw [← b]; unfold evaluateDerivative; rw [hwrap, hwrap0]; rfl
    · rw [← d]; unfold evaluate2ndDerivative; rw [hwrap, hwrap0]; rfl
  · refine periodicDeriv hdom hmem (g := g) (g' := g') (fun t z => by simp only [hφp])
      (fun t z => by simp only [hφp]) (fun t a b => by simp only [hφi t a b])
      (fun t a b => by simp only [hφi t a b]) (fun t a b => ?_) (fun t a b hb => ?_)
    · exact ((D t a b.le (Or.inl hfst)).1 b).1
    · exact ((D t a.le b.le (Or.inl hfst)).2.2 a hb).1
  · refine periodicDeriv hdom hmem (g := g') (g' := g'') (fun t z => by simp only [hφp])
      (fun t z => by simp only [hφp]) (fun t a b => by simp only [hφi t a b])
      (fun t a b => by simp only [hφi t a b]) (fun t a b => ?_) (fun t a b hb => ?_)
    · exact ((D t a b.le (Or.inl hfst)).1 b).2
    · exact ((D t a.le b.le (Or.inl hfst)).2.2 a hb).2

/-- C05 for periodic Bézier curves, all three evaluators: right derivatives everywhere, derivatives
at non-integers. -/
theorem C05_derivatives_periodic (c : Bezier V) (hc : c.ctrl ≠ []) (hp : c.periodic = true) :
    ∃ f f' f'' : ℝ → V, (∀ t, c.evaluate t = ok (f t) ∧ c.evaluateDerivative t = ok (f' t) ∧
        c.evaluate2ndDerivative t = ok (f'' t)) ∧
      PeriodicDeriv 1 (· = 0) f f' ∧ PeriodicDeriv 1 (· = 0) f' f'' := by
  obtain ⟨g, g', g'', hg, hg', hg'', hd, hd'⟩ := C05_derivative { ctrl := c.ctrl } hc rfl
  have w : ∀ t : ℝ, Bezier.wrap c.periodic t = ok (t - ⌊t⌋) := by
    intro t
    rw [hp]
    have := unwrapParameter_eq (0 : ℝ) 1 t zero_lt_one
    simpa [Bezier.wrap] using this
  have ff : ∀ t : ℝ, 0 ≤ t → t < 1 → t - (⌊t⌋ : ℝ) = t := by
    intro t a b
    rw [Int.floor_eq_zero_iff.2 ⟨a, b⟩]; simp
  have pp : ∀ (t : ℝ) (z : ℤ), t + z * (1 - 0) - (⌊t + z * (1 - 0)⌋ : ℝ) = t - ⌊t⌋ := by
    intro t z
    rw [sub_zero, mul_one, Int.floor_add_intCast]; push_cast; ring
  refine ⟨fun t => g (t - ⌊t⌋), fun t => g' (t - ⌊t⌋), fun t => g'' (t - ⌊t⌋), ?_, ?_, ?_⟩
  · intro t
    refine ⟨?_, ?_, ?_⟩
    · rw [Bezier.evaluate_wrap, w, ok_bind, hg]
    · rw [Bezier.evaluateDerivative_wrap, w, ok_bind, hg']
    · rw [Bezier.evaluate2ndDerivative_wrap, w, ok_bind, hg'']
  · have := periodicDeriv (lo := 0) (hi := 1) (bad := (· = 0)) zero_lt_one rfl (g := g) (g' := g')
      (f := fun t => g (t - ⌊t⌋)) (f' := fun t => g' (t - ⌊t⌋))
      (fun t z => by simp only [pp]) (fun t z => by simp only [pp])
      (fun t a b => by simp only [ff t a b]) (fun t a b => by simp only [ff t a b])
      (fun t _ _ => (hd t).hasDerivWithinAt) (fun t _ _ _ => hd t)
    simpa using this
  · have := periodicDeriv (lo := 0) (hi := 1) (bad := (· = 0)) zero_lt_one rfl (g := g') (g' := g'')
      (f := fun t => g' (t - ⌊t⌋)) (f' := fun t => g'' (t - ⌊t⌋))
      (fun t z => by simp only [pp]) (fun t z => by simp only [pp])
      (fun t a b => by simp only [ff t a b]) (fun t a b => by simp only [ff t a b])
      (fun t _ _ => (hd' t).hasDerivWithinAt) (fun t _ _ _ => hd' t)
    simpa using this

/-- Quotients inherit one-sided and two-sided derivatives. -/
theorem ratio_periodic {g g' g'' : ℝ → V × ℝ} {T : ℝ} {bad : ℝ → Prop}
    (D1 : PeriodicDeriv T bad g g') (D2 : PeriodicDeriv T bad g' g'') (t : ℝ) (h0 : (g t).2 ≠ 0) :
    (HasDerivWithinAt (fun t => q0 (g t)) (q1 (g t) (g' t)) (Set.Ici t) t ∧
      HasDerivWithinAt (fun t => q1 (g t) (g' t)) (q2 (g t) (g' t) (g'' t)) (Set.Ici t) t) ∧
    ((∀ z : ℤ, ¬ bad (t + z * T)) →
      HasDerivAt (fun t => q0 (g t)) (q1 (g t) (g' t)) t ∧
      HasDerivAt (fun t => q1 (g t) (g' t)) (q2 (g t) (g' t) (g'' t)) t) := by
  have R : ∀ s : Set ℝ, t ∈ s → HasDerivWithinAt g (g' t) s t → HasDerivWithinAt g' (g'' t) s t →
      HasDerivWithinAt (fun t => q0 (g t)) (q1 (g t) (g' t)) s t ∧
      HasDerivWithinAt (fun t => q1 (g t) (g' t)) (q2 (g t) (g' t) (g'' t)) s t := by
    intro s hs h h'
    exact ratio_deriv (f := fun t => q0 (g t)) (f' := fun t => q1 (g t) (g' t)) (g'' := g'') hs
      h h' h0 (Eventually.of_forall (fun _ _ => rfl)) (Eventually.of_forall (fun _ _ => rfl))
  refine ⟨R _ Set.self_mem_Ici (D1 t).1 (D2 t).1, fun hb => ?_⟩
  have := R Set.univ trivial
  simp only [hasDerivWithinAt_univ] at this
  exact this ((D1 t).2 hb) ((D2 t).2 hb)

/-- C25 for periodic rational Bézier curves; `d` is the denominator, which has period one. -/
theorem C25_rational_bezier_periodic {c : RationalBezier ℝ V} (hc : c.init = ok c)
    (hne : c.base.ctrl ≠ []) (hp : c.base.periodic = true) :
    ∃ (f f' f'' : ℝ → V) (d : ℝ → ℝ),
      (∀ t, ∃ t' : ℝ, 0 ≤ t' ∧ t' < 1 ∧ (∃ z : ℤ, t' = t + z) ∧ d t = ratBezierDen c.weights t') ∧
      ∀ t, d t ≠ 0 →
      c.evaluate t = ok (f t) ∧ c.evaluateDerivative t = ok (f' t) ∧
      c.evaluate2ndDerivative t = ok (f'' t) ∧
      HasDerivWithinAt f (f' t) (Set.Ici t) t ∧ HasDerivWithinAt f' (f'' t) (Set.Ici t) t ∧
      ((∀ z : ℤ, t ≠ z) → HasDerivAt f (f' t) t ∧ HasDerivAt f' (f'' t) t) := by
  obtain ⟨S, -, -⟩ := (RationalBezier.init_iff _ _).1 hc
  have hhl : c.hom.ctrl.length = c.base.ctrl.length := by rw [S.hom]; exact homog_length S.len
  have hhn : c.hom.ctrl ≠ [] := by
    intro h
    rw [h] at hhl
    exact hne (List.length_eq_zero_iff.1 hhl.symm)
  have hhp : c.hom.periodic = true := by rw [S.hom]; exact hp
  obtain ⟨g, g', g'', e, d1, d2⟩ := C05_derivatives_periodic c.hom hhn hhp
  refine ⟨fun t => q0 (g t), fun t => q1 (g t) (g' t), fun t => q2 (g t) (g' t) (g'' t),
    fun t => (g t).2, ?_, ?_⟩
  · intro t
    obtain ⟨t', a, b, z, hz⟩ := C11_bezier c.hom hhn hhp t
    refine ⟨t', a, b, z, ?_⟩
    have h4 : c.hom.ctrl = homog c.base.ctrl c.weights := by rw [S.hom]
    rw [(e t).1, ok.injEq, h4, homog_bezierPoint S.len] at hz
    simp only [hz]
  · intro t ht
    have hv := S.validate
    obtain ⟨e0, e1, e2⟩ := e t
    obtain ⟨R1, R2⟩ := ratio_periodic d1 d2 t ht
    refine ⟨?_, ?_, ?_, R1.1, R1.2, fun hz => R2 fun z h => hz (-z) ?_⟩
    · unfold RationalBezier.evaluate; rw [hv, ok_bind, e0, ok_bind, quot0_eq ht]
    · unfold RationalBezier.evaluateDerivative
      rw [hv, ok_bind, e0, ok_bind, e1, ok_bind, quot1_eq ht]
    · unfold RationalBezier.evaluate2ndDerivative
      rw [hv, ok_bind, e0, ok_bind, e1, ok_bind, e2, ok_bind, quot2_eq ht]
    · push_cast; linarith

/-- C25 for periodic NURBS; `d` is the denominator at the folded parameter. -/
theorem C25_nurbs_periodic_partial {c : NURBS ℝ V} (hc : c.init = ok c) {p : ℕ} (hwf : WellFormed c.base p)
    (hw : Wide c.base p) (hfst : FirstSpan c.base p) (hper : c.base.periodic = true) :
    ∃ (f f' f'' : ℝ → V) (d : ℝ → ℝ),
      (∀ t, ∃ t' : ℝ, knot c.base.knots p ≤ t' ∧ t' < knot c.base.knots c.base.ctrl.length ∧
        (∃ z : ℤ, t' = t + z * (knot c.base.knots c.base.ctrl.length - knot c.base.knots p)) ∧
        d t = ratBSplineDen p c.base.knots c.weights t') ∧
      ∀ t, d t ≠ 0 →
      c.evaluate t = ok (f t) ∧ c.evaluateDerivative t = ok (f' t) ∧
      c.evaluate2ndDerivative t = ok (f'' t) ∧
      HasDerivWithinAt f (f' t) (Set.Ici t) t ∧ HasDerivWithinAt f' (f'' t) (Set.Ici t) t ∧
      ((∀ z : ℤ, t + z * (knot c.base.knots c.base.ctrl.length - knot c.base.knots p)
          ∉ c.base.knots) →
        HasDerivAt f (f' t) t ∧ HasDerivAt f' (f'' t) t) := by
  obtain ⟨S, -, -⟩ := (NURBS.init_iff _ _).1 hc
  have hhp : c.hom.periodic = true := by rw [S.per]; exact hper
  obtain ⟨g, g', g'', e, d1, d2⟩ := C15_periodic_partial (S.wf.2 hwf) (S.wide.2 hw) (S.first.2 hfst) hhp
  rw [S.knots, S.homLen] at d1 d2
  refine ⟨fun t => q0 (g t), fun t => q1 (g t) (g' t), fun t => q2 (g t) (g' t) (g'' t),
    fun t => (g t).2, ?_, ?_⟩
  · intro t
    obtain ⟨t', a, b, z, hz⟩ := C11_bspline (S.wf.2 hwf) (S.wide.2 hw) (S.first.2 hfst) hhp t
    rw [S.knots] at a
    rw [S.knots, S.homLen] at b z
    refine ⟨t', a, b, z, ?_⟩
    rw [(e t).1, ok.injEq, S.ctrl, S.knots, homog_bsplinePoint S.len] at hz
    simp only [hz]
  · intro t ht
    have hv : c.validate = ok () := by rw [S.validate]; exact NURBS.wf_validate hwf
    obtain ⟨e0, e1, e2⟩ := e t
    obtain ⟨R1, R2⟩ := ratio_periodic d1 d2 t ht
    refine ⟨?_, ?_, ?_, R1.1, R1.2, R2⟩
    · unfold NURBS.evaluate; rw [hv, ok_bind, e0, ok_bind, quot0_eq ht]
    · unfold NURBS.evaluateDerivative
      rw [hv, ok_bind, e0, ok_bind, e1, ok_bind, quot1_eq ht]
    · unfold NURBS.evaluate2ndDerivative
      rw [hv, ok_bind, e0, ok_bind, e1, ok_bind, e2, ok_bind, quot2_eq ht]

/-! ### Patches, periodic or not in either direction -/

open BSplinePatch

/-- Admissible parameters along one direction: all of them if it is periodic, the domain
otherwise. -/
def Allowed (per : Bool) (u : List ℝ) (n d : ℕ) (t : ℝ) : Prop :=
  per = true ∨ knot u d ≤ t ∧ t ≤ knot u n

/-- Derivatives along one direction, in the sense of `PeriodicDeriv` or `DerivAlong`. -/
def DerivDir (per : Bool) (u : List ℝ) (n d : ℕ) (f f' : ℝ → V) : Prop :=
  (per = true → PeriodicDeriv (knot u n - knot u d) (· ∈ u) f f') ∧
  (per = false → DerivAlong u n d f f')

/-- An initialised patch, periodic or not, with first spans that are not empty and no span below the
threshold of the evaluators. -/
structure RegularAny (p : BSplinePatch ℝ V) (m n du dv : ℕ) : Prop where
  valid : p.Valid m n du dv
  init : p.init = ok p
  wideU : WideOn p.knotsU m du
  wideV : WideOn p.knotsV n dv
  firstU : knot p.knotsU du < knot p.knotsU (du + 1)
  firstV : knot p.knotsV dv < knot p.knotsV (dv + 1)

theorem Allowed.fold {u : List ℝ} {deg s : ℤ} {n d : ℕ} (h : Axis u deg s n d)
    (hf : knot u d < knot u (d + 1)) {per : Bool} {t : ℝ} (ht : Allowed per u n d t) :
    ∃ t', wrapOn u n d per t = ok t' ∧ InDom u n d t' := by
  cases per with
  | true =>
    obtain ⟨t', e, a, b, -⟩ := unwrapParameter_spec (knot u d) (knot u n) t h.dom
    exact ⟨t', by unfold wrapOn; rw [if_pos rfl, e], a, b.le, Or.inl hf⟩
  | false =>
    obtain ⟨a, b⟩ := ht.resolve_left (by simp)
    exact ⟨t, rfl, a, b, Or.inl hf⟩

/-- The evaluators of a curve along one direction and their derivatives. -/
theorem curve_any {u : List ℝ} {deg s : ℤ} {n d : ℕ} (h : Axis u deg s n d) (hw : WideOn u n d)
    (hf : knot u d < knot u (d + 1)) (per : Bool) (P : ℕ → V) :
    ∃ f f' f'' : ℝ → V, (∀ t, Allowed per u n d t →
      (BSpline.mk (arr n P) u per (staticDeg s)).evaluate t = ok (f t) ∧
      (BSpline.mk (arr n P) u per (staticDeg s)).evaluateDerivative t = ok (f' t) ∧
      (BSpline.mk (arr n P) u per (staticDeg s)).evaluate2ndDerivative t = ok (f'' t)) ∧
      DerivDir per u n d f f' ∧ DerivDir per u n d f' f'' := by
  cases per with
  | true =>
    obtain ⟨f, f', f'', e, d1, d2⟩ := C15_periodic_partial (h.wf (V := V) true (c := arr n P) (by simp))
      (wide_of rfl (by simp) hw) hf rfl
    simp only [arr_length] at d1 d2
    exact ⟨f, f', f'', fun t _ => e t, ⟨fun _ => d1, by simp⟩, ⟨fun _ => d2, by simp⟩⟩
  | false =>
    obtain ⟨f, f', f'', e⟩ := curve_returns h hw hf P
    obtain ⟨d1, d2⟩ := curve_deriv h hw hf P (fun t a b => (e t a b).1)
      (fun t a b => (e t a b).2.1) (fun t a b => (e t a b).2.2)
    refine ⟨f, f', f'', fun t ht => ?_, ⟨by simp, fun _ => d1⟩, ⟨by simp, fun _ => d2⟩⟩
    obtain ⟨a, b⟩ := ht.resolve_left (by simp)
    exact e t a b

variable {p : BSplinePatch ℝ V} {m n du dv : ℕ}

/-- C64 along `u`, for patches periodic or not: at every admissible `v`, `evaluate`,
`evaluate_derivative_u` and `evaluate_2nd_derivative_uu` return at every admissible `u`, and each is
the derivative of the one before.  Partial: first spans not empty, no span below the threshold. -/
theorem C64_u_any_partial (h : RegularAny p m n du dv) {v : ℝ}
    (hv : Allowed p.perV p.knotsV n dv v) :
    ∃ f f' f'' : ℝ → V, (∀ u, Allowed p.perU p.knotsU m du u →
      p.evaluate u v = ok (f u) ∧ p.derivU u v = ok (f' u) ∧ p.derivUU u v = ok (f'' u)) ∧
      DerivDir p.perU p.knotsU m du f f' ∧ DerivDir p.perU p.knotsU m du f' f'' := by
  have hr := h.valid.ready h.init
  obtain ⟨v', e, hd⟩ := hv.fold h.valid.v h.firstV
  have iso := hr.isoCurveU h.wideV e hd
  obtain ⟨f, f', f'', E, d1, d2⟩ := curve_any h.valid.u h.wideU h.firstU p.perU
    (fun i => bsum dv p.knotsV n (p.pts n i) v')
  refine ⟨f, f', f'', fun u hu => ?_, d1, d2⟩
  obtain ⟨u', eu, hdu⟩ := hu.fold h.valid.u h.firstU
  obtain ⟨a, b, c⟩ := E u hu
  refine ⟨?_, by rw [derivU, iso, ok_bind, b], by rw [derivUU, iso, ok_bind, c]⟩
  rw [hr.evaluate h.wideU h.wideV eu hdu e hd, ← hr.evaluateUV h.wideU h.wideV eu hdu e hd, iso,
    ok_bind, a]

/-- C64 along `v`, for patches periodic or not. -/
theorem C64_v_any_partial (h : RegularAny p m n du dv) {u : ℝ}
    (hu : Allowed p.perU p.knotsU m du u) :
    ∃ f f' f'' : ℝ → V, (∀ v, Allowed p.perV p.knotsV n dv v →
      p.evaluate u v = ok (f v) ∧ p.derivV u v = ok (f' v) ∧ p.derivVV u v = ok (f'' v)) ∧
      DerivDir p.perV p.knotsV n dv f f' ∧ DerivDir p.perV p.knotsV n dv f' f'' := by
  have hr := h.valid.ready h.init
  obtain ⟨u', e, hd⟩ := hu.fold h.valid.u h.firstU
  have iso := hr.isoCurveV h.wideU e hd
  obtain ⟨f, f', f'', E, d1, d2⟩ := curve_any h.valid.v h.wideV h.firstV p.perV
    (fun j => bsum du p.knotsU m (fun i => p.pts n i j) u')
  refine ⟨f, f', f'', fun v hv => ?_, d1, d2⟩
  obtain ⟨v', ev, hdv⟩ := hv.fold h.valid.v h.firstV
  obtain ⟨a, b, c⟩ := E v hv
  refine ⟨?_, by rw [derivV, iso, ok_bind, b], by rw [derivVV, iso, ok_bind, c]⟩
  rw [hr.evaluate h.wideU h.wideV e hd ev hdv, ← hr.evaluateVU h.wideU h.wideV e hd ev hdv, iso,
    ok_bind, a]

/-- C64, mixed derivative of patches periodic or not: `evaluate_2nd_derivative_uv` is the derivative
in `v` of `evaluate_derivative_u`. -/
theorem C64_uv_any_partial (bad : V) (h : RegularAny p m n (du + 1) (dv + 1)) {u : ℝ}
    (hu : Allowed p.perU p.knotsU m (du + 1) u) :
    ∃ f f' : ℝ → V, (∀ v, Allowed p.perV p.knotsV n (dv + 1) v →
      p.derivU u v = ok (f v) ∧ p.derivUV bad u v = ok (f' v)) ∧
      DerivDir p.perV p.knotsV n (dv + 1) f f' := by
  have hr := h.valid.ready h.init
  obtain ⟨q, e, hq, k1, k2, p1, p2, -⟩ := h.valid.duPatch bad
  obtain ⟨-, i1, i2, i3⟩ := h.valid.u.inner
  have R : RegularAny q (m - 1) n du (dv + 1) := ⟨hq.toValid, ready_init hq,
    by rw [k1]; exact h.valid.u.inner_wide h.wideU, by rw [k2]; exact h.wideV,
    by rw [k1, i1, i3]; exact h.firstU, by rw [k2]; exact h.firstV⟩
  obtain ⟨q', e', hr', -⟩ := R.valid.dvPatch bad
  have au : Allowed q.perU q.knotsU (m - 1) du u := by
    unfold Allowed; rw [p1, k1, i1, i2]; exact hu
  obtain ⟨f, f', f'', E, d1, -⟩ := C64_v_any_partial R au
  rw [p2, k2] at d1
  refine ⟨f, f', fun v hv => ?_, d1⟩
  have av : Allowed q.perV q.knotsV n (dv + 1) v := by rw [p2, k2]; exact hv
  obtain ⟨a, b, -⟩ := E v av
  obtain ⟨u', eu, du'⟩ := hu.fold h.valid.u h.firstU
  obtain ⟨v', ev, dv'⟩ := hv.fold h.valid.v h.firstV
  obtain ⟨u2, eu2, du2⟩ := au.fold R.valid.u R.firstU
  obtain ⟨v2, ev2, dv2⟩ := av.fold R.valid.v R.firstV
  refine ⟨?_, ?_⟩
  · rw [← a]; exact (hr.derivU h.wideU h.wideV eu du' ev dv' e).symm
  · unfold derivUV duvPatch
    rw [e, ok_bind, e', ok_bind, ← b]
    exact (R.valid.ready R.init).derivV R.wideU R.wideV eu2 du2 ev2 dv2 e'

/-- A patch periodic in `u` only. -/
example : ∃ q : BSplinePatch ℝ ℝ, RegularAny q 2 2 1 1 ∧ q.grid = [0, 1, 3, 2] ∧
    q.perU = true ∧ q.perV = false := by
  have ha : Axis ([0, 0, 1, 1] : List ℝ) 1 (-1) 2 1 :=
    ⟨rfl, rfl, Or.inl (by decide), le_rfl, by simp, by simp [knot]⟩
  have hw : WideOn ([0, 0, 1, 1] : List ℝ) 2 1 := by
    intro i h1 h2 h3
    have : i = 1 := by omega
    subst this
    simp [knot, BSpline.tiny]; norm_num
  have hv : Valid (BSplinePatch.mk [0, 1, 3, 2] [0, 0, 1, 1] [0, 0, 1, 1] 1 1 true false (-1) (-1)
      [] [] : BSplinePatch ℝ ℝ) 2 2 1 1 := ⟨ha, ha, rfl⟩
  obtain ⟨q, e, e', hq, g, k1, k2, -, -, p1, p2⟩ := C31_init hv
  exact ⟨q, ⟨hq, e', by rw [k1]; exact hw, by rw [k2]; exact hw, by rw [k1]; simp [knot],
    by rw [k2]; simp [knot]⟩, g, p1, p2⟩

/-- A periodic spline with a seam: the hypotheses of `C15_periodic_partial`. -/
example : ∃ c : BSpline ℝ ℝ, WellFormed c 1 ∧ Wide c 1 ∧ FirstSpan c 1 ∧ c.periodic = true ∧
    c.ctrl = [0, 1] := by
  have ha : Axis ([0, 0, 1, 1] : List ℝ) 1 (-1) 2 1 :=
    ⟨rfl, rfl, Or.inl (by decide), le_rfl, by simp, by simp [knot]⟩
  have hw : WideOn ([0, 0, 1, 1] : List ℝ) 2 1 := by
    intro i h1 h2 h3
    have : i = 1 := by omega
    subst this
    simp [knot, BSpline.tiny]; norm_num
  exact ⟨BSpline.mk [0, 1] [0, 0, 1, 1] true (staticDeg (-1)), ha.wf true rfl,
    wide_of rfl rfl hw, by simp [FirstSpan, knot], rfl, rfl⟩

end

end NS.Props
