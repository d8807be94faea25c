import Verif.Model.Inverse
import Mathlib.Analysis.Calculus.Deriv.Basic

/-!
# True partial derivatives of a patch
-/

namespace NS

open Outcome

variable {E : Type} [NormedAddCommGroup E] [NormedSpace ℝ E]

/-- All evaluators are defined everywhere and the five derivative functions are the partial derivatives
of `evaluate`; both ways of forming the mixed derivative give `evaluate_2nd_derivative_uv`. -/
def TruePartials (s : PatchFn ℝ E) : Prop :=
  ∃ f fu fv fuu fvv fuv : ℝ → ℝ → E,
    ((∀ u v, s.ev u v = ok (f u v)) ∧ (∀ u v, s.du u v = ok (fu u v)) ∧
      (∀ u v, s.dv u v = ok (fv u v)) ∧ (∀ u v, s.duu u v = ok (fuu u v)) ∧
      (∀ u v, s.dvv u v = ok (fvv u v)) ∧ (∀ u v, s.duv u v = ok (fuv u v))) ∧
    ∀ u v,
      HasDerivAt (fun x => f x v) (fu u v) u ∧ HasDerivAt (fun y => f u y) (fv u v) v ∧
      HasDerivAt (fun x => fu x v) (fuu u v) u ∧ HasDerivAt (fun y => fv u y) (fvv u v) v ∧
      HasDerivAt (fun y => fu u y) (fuv u v) v ∧ HasDerivAt (fun x => fv x v) (fuv u v) u

/-- On the parameters of `S` the curve evaluators are defined and return the first and second
derivatives (one-sided at boundary points of `S`). -/
def DerivsOn (c : CurveFn ℝ E) (S : Set ℝ) : Prop :=
  ∃ f f1 f2 : ℝ → E, ∀ t ∈ S, c.ev t = ok (f t) ∧ c.d1 t = ok (f1 t) ∧ c.d2 t = ok (f2 t) ∧
    HasDerivWithinAt f (f1 t) S t ∧ HasDerivWithinAt f1 (f2 t) S t

/-- `TruePartials` on the parameters of `S × T`. -/
def PartialsOn (s : PatchFn ℝ E) (S T : Set ℝ) : Prop :=
  ∃ f fu fv fuu fvv fuv : ℝ → ℝ → E, ∀ u ∈ S, ∀ v ∈ T,
    (s.ev u v = ok (f u v) ∧ s.du u v = ok (fu u v) ∧ s.dv u v = ok (fv u v) ∧
      s.duu u v = ok (fuu u v) ∧ s.dvv u v = ok (fvv u v) ∧ s.duv u v = ok (fuv u v)) ∧
    HasDerivWithinAt (fun x => f x v) (fu u v) S u ∧ HasDerivWithinAt (fun y => f u y) (fv u v) T v ∧
    HasDerivWithinAt (fun x => fu x v) (fuu u v) S u ∧
    HasDerivWithinAt (fun y => fv u y) (fvv u v) T v ∧
    HasDerivWithinAt (fun y => fu u y) (fuv u v) T v ∧ HasDerivWithinAt (fun x => fv x v) (fuv u v) S u

theorem TruePartials.on {s : PatchFn ℝ E} (h : TruePartials s) (S T : Set ℝ) : PartialsOn s S T := by
  obtain ⟨f, fu, fv, fuu, fvv, fuv, ⟨h1, h2, h3, h4, h5, h6⟩, hd⟩ := h
  refine ⟨f, fu, fv, fuu, fvv, fuv, fun u _ v _ => ⟨⟨h1 u v, h2 u v, h3 u v, h4 u v, h5 u v, h6 u v⟩, ?_⟩⟩
  obtain ⟨d1, d2, d3, d4, d5, d6⟩ := hd u v
  exact ⟨d1.hasDerivWithinAt, d2.hasDerivWithinAt, d3.hasDerivWithinAt, d4.hasDerivWithinAt,
    d5.hasDerivWithinAt, d6.hasDerivWithinAt⟩

end NS
