import Verif.Props.RationalPatch

/-!
# C63: derivatives of rational Bézier patches
-/

set_option linter.unusedSectionVars false
set_option linter.unusedSimpArgs false

namespace NS.Props

open Outcome Spec Finset
open BSpline (HullOf)
open BSplinePatch (Axis WideOn InDom)

section Deriv

variable {V : Type} [NormedAddCommGroup V] [NormedSpace ℝ V]

/-- Value of `quotMixed`. -/
noncomputable def qm (p du dv duv : V × ℝ) : V :=
  p.2⁻¹ • (duv.1 - duv.2 • q0 p - du.2 • q1 p dv - dv.2 • q1 p du)

theorem quotSame_eq {tol : ℝ} {p d dd : V × ℝ} (h0 : 0 ≤ tol) (h : tol < p.2) :
    quotSame tol p d dd = ok (q2 p d dd) := by
  have hp : p.2 ≠ 0 := (h0.trans_lt h).ne'
  unfold quotSame
  rw [if_neg (not_le.2 h), quot0_eq hp, quot1_eq hp]
  simp only [ok_bind, pure_eq, q2]
  congr 2
  abel

theorem quotMixed_eq {tol : ℝ} {p du dv duv : V × ℝ} (h0 : 0 ≤ tol) (h : tol < p.2) :
    quotMixed tol p du dv duv = ok (qm p du dv duv) := by
  have hp : p.2 ≠ 0 := (h0.trans_lt h).ne'
  unfold quotMixed
  rw [if_neg (not_le.2 h), quot0_eq hp, quot1_eq hp, quot1_eq hp]
  rfl

theorem qm_comm (p du dv duv : V × ℝ) : qm p du dv duv = qm p dv du duv := by
  unfold qm; congr 1; abel

theorem hasDeriv_qm {h hu : ℝ → V × ℝ} {dv duv : V × ℝ} {s : Set ℝ} {t : ℝ}
    (H : HasDerivWithinAt h dv s t) (H' : HasDerivWithinAt hu duv s t) (h0 : (h t).2 ≠ 0) :
    HasDerivWithinAt (fun x => q1 (h x) (hu x)) (qm (h t) (hu t) dv duv) s t := by
  have i := (hasDerivWithinAt_snd H).inv h0
  have a := (hasDerivWithinAt_snd H').smul (hasDerivWithinAt_fst H)
  have b := i.smul a
  have e := (hasDerivWithinAt_fst H').sub b
  have f := i.smul e
  refine f.congr_deriv ?_
  simp only [qm, q1, q0, Pi.inv_apply, Pi.smul_apply', Pi.sub_apply]
  generalize (h t).2 = w at *
  match_scalars <;> field_simp
  ring

theorem atQ0 {h : ℝ → V × ℝ} {d : V × ℝ} {t : ℝ} (H : HasDerivAt h d t) (h0 : (h t).2 ≠ 0) :
    HasDerivAt (fun x => q0 (h x)) (q1 (h t) d) t := by
  rw [← hasDerivWithinAt_univ] at *; exact hasDeriv_q0 H h0

theorem atQ1 {h h' : ℝ → V × ℝ} {d : V × ℝ} {t : ℝ}
    (H : HasDerivAt h (h' t) t) (H' : HasDerivAt h' d t) (h0 : (h t).2 ≠ 0) :
    HasDerivAt (fun x => q1 (h x) (h' x)) (q2 (h t) (h' t) d) t := by
  rw [← hasDerivWithinAt_univ] at *; exact hasDeriv_q1 H H' h0

theorem atQm {h hu : ℝ → V × ℝ} {dv duv : V × ℝ} {t : ℝ}
    (H : HasDerivAt h dv t) (H' : HasDerivAt hu duv t) (h0 : (h t).2 ≠ 0) :
    HasDerivAt (fun x => q1 (h x) (hu x)) (qm (h t) (hu t) dv duv) t := by
  rw [← hasDerivWithinAt_univ] at *; exact hasDeriv_qm H H' h0

/-- C63: the derivative evaluators of a rational Bézier patch are the partial derivatives of
`evaluate` wherever the denominator `W` exceeds the tolerance of the implementation (for the first
ones: is not zero), away from the seam of a periodic direction. -/
theorem C63_bezier_derivatives {tol : ℝ} (h0 : 0 ≤ tol) {p : RationalBezierPatch ℝ V}
    (h : p.init = ok p) :
    ∃ (W : ℝ → ℝ → ℝ) (f fu fv fuu fuv fvv : ℝ → ℝ → V),
      (∀ u v, ∃ u' v', Folded p.base.perU 0 1 u u' ∧ Folded p.base.perV 0 1 v v' ∧
        W u v = ratBezierSurfaceDen p.base.degU.toNat p.base.degV.toNat p.weights u' v') ∧
      (∀ u v, W u v ≠ 0 → p.evaluate u v = ok (f u v) ∧ p.derivU u v = ok (fu u v) ∧
        p.derivV u v = ok (fv u v)) ∧
      (∀ u v, tol < W u v → p.derivUU tol u v = ok (fuu u v) ∧
        p.derivUV tol u v = ok (fuv u v) ∧ p.derivVV tol u v = ok (fvv u v)) ∧
      (∀ u v : ℝ, W u v ≠ 0 → (p.base.perU = true → ∀ z : ℤ, u ≠ z) →
        HasDerivAt (fun u => f u v) (fu u v) u ∧ HasDerivAt (fun u => fu u v) (fuu u v) u ∧
        HasDerivAt (fun u => fv u v) (fuv u v) u) ∧
      (∀ u v : ℝ, W u v ≠ 0 → (p.base.perV = true → ∀ z : ℤ, v ≠ z) →
        HasDerivAt (fun v => f u v) (fv u v) v ∧ HasDerivAt (fun v => fv u v) (fvv u v) v ∧
        HasDerivAt (fun v => fu u v) (fuv u v) v) := by
  obtain ⟨S, -, -⟩ := (RationalBezierPatch.init_iff _ _).1 h
  obtain ⟨g, gu, gv, guu, guv, gvv, E, DU, DV⟩ := C29_derivatives (init_hom h)
  have pu : p.hom.perU = p.base.perU := by rw [S.hom]
  have pv : p.hom.perV = p.base.perV := by rw [S.hom]
  rw [pu] at DU
  rw [pv] at DV
  refine ⟨fun u v => (g u v).2, fun u v => q0 (g u v), fun u v => q1 (g u v) (gu u v),
    fun u v => q1 (g u v) (gv u v), fun u v => q2 (g u v) (gu u v) (guu u v),
    fun u v => qm (g u v) (gu u v) (gv u v) (guv u v),
    fun u v => q2 (g u v) (gv u v) (gvv u v), ?_, ?_, ?_, ?_, ?_⟩
  · intro u v
    obtain ⟨u', hu, fu⟩ := bezier_folded p.base.perU u
    obtain ⟨v', hv, fv⟩ := bezier_folded p.base.perV v
    refine ⟨u', v', fu, fv, ?_⟩
    have := (E u v).1
    rw [S.evaluate hu hv, ok.injEq, homog_bezierSurface S.len] at this
    simp only
    rw [← this]
  · intro u v hw
    obtain ⟨e, eu, ev, -⟩ := E u v
    refine ⟨?_, ?_, ?_⟩
    · unfold RationalBezierPatch.evaluate
      rw [S.validate, ok_bind, e, ok_bind, quot0_eq hw]
    · unfold RationalBezierPatch.derivU
      rw [S.validate, ok_bind, e, ok_bind, eu, ok_bind, quot1_eq hw]
    · unfold RationalBezierPatch.derivV
      rw [S.validate, ok_bind, e, ok_bind, ev, ok_bind, quot1_eq hw]
  · intro u v hw
    obtain ⟨e, eu, ev, euu, euv, evv⟩ := E u v
    refine ⟨?_, ?_, ?_⟩
    · unfold RationalBezierPatch.derivUU
      rw [S.validate, ok_bind, e, ok_bind, eu, ok_bind, euu, ok_bind, quotSame_eq h0 hw]
    · unfold RationalBezierPatch.derivUV
      rw [S.validate, ok_bind, e, ok_bind, eu, ok_bind, ev, ok_bind, euv, ok_bind,
        quotMixed_eq h0 hw]
    · unfold RationalBezierPatch.derivVV
      rw [S.validate, ok_bind, e, ok_bind, ev, ok_bind, evv, ok_bind, quotSame_eq h0 hw]
  · intro u v hw hz
    obtain ⟨a, b, c⟩ := DU u v hz
    refine ⟨atQ0 (h := fun u => g u v) a hw,
      atQ1 (h := fun u => g u v) (h' := fun u => gu u v) a b hw, ?_⟩
    simp only
    rw [qm_comm]
    exact atQm (h := fun u => g u v) (hu := fun u => gv u v) a c hw
  · intro u v hw hz
    obtain ⟨a, b, c⟩ := DV u v hz
    exact ⟨atQ0 (h := fun v => g u v) a hw,
      atQ1 (h := fun v => g u v) (h' := fun v => gv u v) a b hw,
      atQm (h := fun v => g u v) (hu := fun v => gu u v) a c hw⟩

end Deriv

/-- C63 is false for negative weights: multiplying every weight by `-1` leaves the surface as it is,
but the second derivatives become zero, because the guard of the division is `w <= tol`. -/
theorem C63_negative_weight_refuted :
    let q : RationalBezierPatch ℚ ℚ := RationalBezierPatch.mk exRatPatch.base [-1, -2, -1, -3, -1, -2]
      (BezierPatch.mk [(0, -1), (-2, -2), (-3, -1), (-6, -3), (-5, -1), (-14, -2)] 2 1 false false 2 1)
    q.init = ok q ∧ q.evaluate (1/2 : ℚ) (1/3) = exRatPatch.evaluate (1/2 : ℚ) (1/3) ∧
      exRatPatch.derivUV (1/1000000) (1/2 : ℚ) (1/3) = ok (-2/9) ∧
      q.derivUV (1/1000000) (1/2 : ℚ) (1/3) = ok 0 := by
  decide +kernel

end NS.Props
