import Verif.Props.RationalNurbs

/-!
# C25: derivatives of rational curves
-/

set_option linter.unusedSectionVars false

namespace NS.Props

open Outcome Spec Finset BSpline Filter Topology

section

variable {V : Type} [NormedAddCommGroup V] [NormedSpace ℝ V]

theorem quot0_eq {p : V × ℝ} (h : p.2 ≠ 0) : quot0 p = ok (q0 p) := by
  unfold quot0; rw [assert_true h]; rfl

theorem quot1_eq {p d : V × ℝ} (h : p.2 ≠ 0) : quot1 p d = ok (q1 p d) := by
  unfold quot1; rw [assert_true h]; rfl

theorem quot2_eq {p d e : V × ℝ} (h : p.2 ≠ 0) : quot2 p d e = ok (q2 p d e) := by
  unfold quot2; rw [assert_true h]; rfl

/-- A function that is differentiable within `s` and nonzero at `t` is nonzero near `t` within
`s`. -/
theorem eventually_den {h : ℝ → V × ℝ} {d : V × ℝ} {s : Set ℝ} {t : ℝ}
    (H : HasDerivWithinAt h d s t) (h0 : (h t).2 ≠ 0) :
    ∀ᶠ x in 𝓝[s] t, (h x).2 ≠ 0 := by
  have := (hasDerivWithinAt_snd H).continuousWithinAt
  exact this.eventually_ne h0

theorem ratio_deriv {f f' : ℝ → V} {g g' g'' : ℝ → V × ℝ} {s : Set ℝ} {t : ℝ} (hs : t ∈ s)
    (hg : HasDerivWithinAt g (g' t) s t) (hg' : HasDerivWithinAt g' (g'' t) s t)
    (h0 : (g t).2 ≠ 0)
    (hf : ∀ᶠ x in 𝓝[s] t, (g x).2 ≠ 0 → f x = q0 (g x))
    (hf' : ∀ᶠ x in 𝓝[s] t, (g x).2 ≠ 0 → f' x = q1 (g x) (g' x)) :
    HasDerivWithinAt f (f' t) s t ∧
      HasDerivWithinAt f' (q2 (g t) (g' t) (g'' t)) s t := by
  have hd := eventually_den hg h0
  have e1 : f =ᶠ[𝓝[s] t] fun x => q0 (g x) := by
    filter_upwards [hd, hf] with x a b using b a
  have e2 : f' =ᶠ[𝓝[s] t] fun x => q1 (g x) (g' x) := by
    filter_upwards [hd, hf'] with x a b using b a
  have et1 := e1.eq_of_nhdsWithin hs
  have et2 := e2.eq_of_nhdsWithin hs
  refine ⟨?_, ?_⟩
  · rw [et2]
    exact (hasDeriv_q0 hg h0).congr_of_eventuallyEq e1 et1
  · exact (hasDeriv_q1 hg hg' h0).congr_of_eventuallyEq e2 et2

/-- C25: where the denominator of a rational Bézier curve does not vanish, the three evaluators
return finite values, and the second and third are the derivatives of the first and second. -/
theorem C25_rational_bezier {c : RationalBezier ℝ V} (hc : c.init = ok c) (hne : c.base.ctrl ≠ [])
    (hp : c.base.periodic = false) :
    ∃ f f' f'' : ℝ → V, ∀ t, ratBezierDen c.weights t ≠ 0 →
      c.evaluate t = ok (f t) ∧ c.evaluateDerivative t = ok (f' t) ∧
      c.evaluate2ndDerivative t = ok (f'' t) ∧
      HasDerivAt f (f' t) t ∧ HasDerivAt f' (f'' t) t := by
  obtain ⟨S, -, -⟩ := (RationalBezier.init_iff _ _).1 hc
  have hhl : c.hom.ctrl.length = c.base.ctrl.length := by rw [S.hom]; exact homog_length S.len
  have hhn : c.hom.ctrl ≠ [] := by
    intro h
    rw [h] at hhl
    exact hne (List.length_eq_zero_iff.1 hhl.symm)
  have hhp : c.hom.periodic = false := by rw [S.hom]; exact hp
  obtain ⟨g, g', g'', e0, e1, e2, d1, d2⟩ := C05_derivative c.hom hhn hhp
  have hden : ∀ t, (g t).2 = ratBezierDen c.weights t := by
    intro t
    have h1 := e0 t
    have h2 := Bezier.evaluate_eq c.hom.ctrl hhn t
    have h4 : c.hom = { ctrl := homog c.base.ctrl c.weights } := by rw [S.hom, hp]
    rw [h4] at h1 h2
    rw [h1, homog_bezierPoint S.len, ok.injEq] at h2
    rw [h2]
  refine ⟨fun t => q0 (g t), fun t => q1 (g t) (g' t), fun t => q2 (g t) (g' t) (g'' t), ?_⟩
  intro t ht
  rw [← hden] at ht
  have hv := S.validate
  refine ⟨?_, ?_, ?_, ?_⟩
  · unfold RationalBezier.evaluate; rw [hv, ok_bind, e0, ok_bind, quot0_eq ht]
  · unfold RationalBezier.evaluateDerivative
    rw [hv, ok_bind, e0, ok_bind, e1, ok_bind, quot1_eq ht]
  · unfold RationalBezier.evaluate2ndDerivative
    rw [hv, ok_bind, e0, ok_bind, e1, ok_bind, e2, ok_bind, quot2_eq ht]
  · have := ratio_deriv (s := Set.univ) (t := t) (f := fun t => q0 (g t))
      (f' := fun t => q1 (g t) (g' t)) (g'' := g'') trivial
      (d1 t).hasDerivWithinAt (d2 t).hasDerivWithinAt ht
      (Eventually.of_forall (fun _ _ => rfl)) (Eventually.of_forall (fun _ _ => rfl))
    simpa only [hasDerivWithinAt_univ] using this

/-- A rational quadratic with weights 1, 1, 2. -/
private def exRationalR : RationalBezier ℝ ℝ :=
  ⟨⟨[1, 1, 0], false⟩, [1, 1, 2], ⟨[(1, 1), (1, 1), (0, 2)], false⟩⟩

private theorem exRationalR_init : exRationalR.init = ok exRationalR := by
  simp [exRationalR, RationalBezier.init, homogenize, Outcome.assert, ok_bind, pure_eq]

example := C25_rational_bezier exRationalR_init (by simp [exRationalR]) rfl

/-- C25: the same for NURBS curves: two-sided derivatives away from the knots, right derivatives at
knots, the left derivative at the end. -/
theorem C25_nurbs_partial {c : NURBS ℝ V} (hc : c.init = ok c) {p : ℕ} (hwf : WellFormed c.base p)
    (hw : Wide c.base p) (hfst : FirstSpan c.base p) (hper : c.base.periodic = false) :
    ∃ f f' f'' : ℝ → V, ∀ t, knot c.base.knots p ≤ t → t ≤ knot c.base.knots c.base.ctrl.length →
      ratBSplineDen p c.base.knots c.weights t ≠ 0 →
      c.evaluate t = ok (f t) ∧ c.evaluateDerivative t = ok (f' t) ∧
      c.evaluate2ndDerivative t = ok (f'' t) ∧
      (t < knot c.base.knots c.base.ctrl.length →
        HasDerivWithinAt f (f' t) (Set.Ici t) t ∧ HasDerivWithinAt f' (f'' t) (Set.Ici t) t) ∧
      (t = knot c.base.knots c.base.ctrl.length →
        HasDerivWithinAt f (f' t) (Set.Iic t) t ∧ HasDerivWithinAt f' (f'' t) (Set.Iic t) t) ∧
      (knot c.base.knots p < t → t ∉ c.base.knots →
        HasDerivAt f (f' t) t ∧ HasDerivAt f' (f'' t) t) := by
  obtain ⟨S, -, -⟩ := (NURBS.init_iff _ _).1 hc
  have hhp : c.hom.periodic = false := by rw [S.per]; exact hper
  obtain ⟨g, g', g'', e⟩ := C15_evaluators_return (S.wf.2 hwf) (S.wide.2 hw) hhp (S.first.2 hfst)
  rw [S.knots, S.homLen] at e
  have D := C15_derivative_partial (S.wf.2 hwf) (S.wide.2 hw) hhp g g' g''
    (by rw [S.knots, S.homLen]; exact fun s a b => (e s a b).1)
    (by rw [S.knots, S.homLen]; exact fun s a b => (e s a b).2.1)
    (by rw [S.knots, S.homLen]; exact fun s a b => (e s a b).2.2)
  rw [S.knots, S.homLen] at D
  have hden : ∀ t, knot c.base.knots p ≤ t → t ≤ knot c.base.knots c.base.ctrl.length →
      (g t).2 = ratBSplineDen p c.base.knots c.weights t := by
    intro t h1 h2
    have a := (e t h1 h2).1
    rw [BSpline.evaluate_eq (S.wf.2 hwf) (S.wide.2 hw) (t' := t)
      (wrap_nonperiodic hhp t) (Or.inl (S.first.2 hfst)) (by rw [S.knots]; exact h1)
      (by rw [S.knots, S.homLen]; exact h2), S.ctrl, S.knots, homog_bsplinePoint S.len, ok.injEq] at a
    rw [← a]
  refine ⟨fun t => q0 (g t), fun t => q1 (g t) (g' t), fun t => q2 (g t) (g' t) (g'' t), ?_⟩
  intro t h1 h2 ht
  rw [← hden t h1 h2] at ht
  have hv : c.validate = ok () := by rw [S.validate]; exact NURBS.wf_validate hwf
  obtain ⟨e0, e1, e2⟩ := e t h1 h2
  obtain ⟨D1, D2, D3⟩ := D t h1 h2 (Or.inl (S.first.2 hfst))
  have R : ∀ s : Set ℝ, t ∈ s → HasDerivWithinAt g (g' t) s t ∧ HasDerivWithinAt g' (g'' t) s t →
      HasDerivWithinAt (fun t => q0 (g t)) (q1 (g t) (g' t)) s t ∧
      HasDerivWithinAt (fun t => q1 (g t) (g' t)) (q2 (g t) (g' t) (g'' t)) s t := by
    intro s hs h
    exact ratio_deriv (f := fun t => q0 (g t)) (f' := fun t => q1 (g t) (g' t)) (g'' := g'') hs
      h.1 h.2 ht (Eventually.of_forall (fun _ _ => rfl)) (Eventually.of_forall (fun _ _ => rfl))
  refine ⟨?_, ?_, ?_, ?_, ?_, ?_⟩
  · unfold NURBS.evaluate; rw [hv, ok_bind, e0, ok_bind, quot0_eq ht]
  · unfold NURBS.evaluateDerivative
    rw [hv, ok_bind, e0, ok_bind, e1, ok_bind, quot1_eq ht]
  · unfold NURBS.evaluate2ndDerivative
    rw [hv, ok_bind, e0, ok_bind, e1, ok_bind, e2, ok_bind, quot2_eq ht]
  · exact fun h => R _ Set.self_mem_Ici (D1 h)
  · exact fun h => R _ Set.self_mem_Iic (D2 h)
  · intro h h'
    have := R Set.univ trivial
    simp only [hasDerivWithinAt_univ] at this
    exact this (D3 h h')

end

end NS.Props
