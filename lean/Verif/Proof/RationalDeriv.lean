import Mathlib.Analysis.Calculus.Deriv.Inv
import Mathlib.Analysis.Calculus.Deriv.Mul
import Mathlib.Analysis.Calculus.Deriv.Add
import Mathlib.Analysis.Calculus.Deriv.Prod
import Mathlib.Tactic.FieldSimp
import Mathlib.Tactic.Module
import Verif.Proof.Rational

/-!
# Quotient rule for homogeneous curves
-/

set_option linter.unusedSectionVars false

namespace NS

variable {V : Type} [NormedAddCommGroup V] [NormedSpace ℝ V]

theorem hasDerivWithinAt_fst {h : ℝ → V × ℝ} {d : V × ℝ} {s : Set ℝ} {t : ℝ}
    (H : HasDerivWithinAt h d s t) : HasDerivWithinAt (fun x => (h x).1) d.1 s t :=
  (ContinuousLinearMap.fst ℝ V ℝ).hasFDerivAt.comp_hasDerivWithinAt t H

theorem hasDerivWithinAt_snd {h : ℝ → V × ℝ} {d : V × ℝ} {s : Set ℝ} {t : ℝ}
    (H : HasDerivWithinAt h d s t) : HasDerivWithinAt (fun x => (h x).2) d.2 s t :=
  (ContinuousLinearMap.snd ℝ V ℝ).hasFDerivAt.comp_hasDerivWithinAt t H

/-- Value of `quot0`, `quot1`, `quot2`. -/
noncomputable def q0 (p : V × ℝ) : V := p.2⁻¹ • p.1
noncomputable def q1 (p d : V × ℝ) : V := p.2⁻¹ • (d.1 - p.2⁻¹ • (d.2 • p.1))
noncomputable def q2 (p d1 d2 : V × ℝ) : V :=
  p.2⁻¹ • (d2.1 - d2.2 • q0 p - (2 * d1.2) • q1 p d1)

theorem hasDeriv_q0 {h : ℝ → V × ℝ} {d : V × ℝ} {s : Set ℝ} {t : ℝ}
    (H : HasDerivWithinAt h d s t) (h0 : (h t).2 ≠ 0) :
    HasDerivWithinAt (fun x => q0 (h x)) (q1 (h t) d) s t := by
  have := ((hasDerivWithinAt_snd H).inv h0).smul (hasDerivWithinAt_fst H)
  refine this.congr_deriv ?_
  simp only [q1, Pi.inv_apply]
  generalize (h t).2 = w at *
  match_scalars <;> field_simp

theorem hasDeriv_q1 {h h' : ℝ → V × ℝ} {d : V × ℝ} {s : Set ℝ} {t : ℝ}
    (H : HasDerivWithinAt h (h' t) s t) (H' : HasDerivWithinAt h' d s t) (h0 : (h t).2 ≠ 0) :
    HasDerivWithinAt (fun x => q1 (h x) (h' x)) (q2 (h t) (h' t) d) s t := by
  have i := (hasDerivWithinAt_snd H).inv h0
  have a := (hasDerivWithinAt_snd H').smul (hasDerivWithinAt_fst H)
  have b := i.smul a
  have e := (hasDerivWithinAt_fst H').sub b
  have f := i.smul e
  refine f.congr_deriv ?_
  simp only [q2, q1, q0, Pi.inv_apply, Pi.smul_apply', Pi.sub_apply]
  generalize (h t).2 = w at *
  match_scalars <;> field_simp <;> ring

end NS
