import Verif.Proof.Generated
import Verif.Proof.GeneratedHigh
import Verif.Proof.GeneratedRational
import Verif.Proof.Bezier
import Verif.Proof.Rational
import Verif.Model.Features
import Verif.Spec.Roots

/-!
# Helper lemmas for the generated polynomials
-/

set_option linter.unusedSectionVars false
set_option linter.unusedSimpArgs false

namespace NS
namespace Features

open Outcome Finset Polynomial

section

variable {K : Type} [Field K] [LinearOrder K] [IsStrictOrderedRing K] [FloorRing K]

theorem evalP_polyVal {co : List K} {d : ℕ} (h : co.length = d + 1) (t : K) :
    Roots.polyVal (fun i => co.getD i 0) d t = evalP co t := by
  have hc : co = (List.range (d + 1)).map fun i => co.getD i 0 := by
    apply List.ext_getElem
    · simp [h]
    · intro i h1 h2
      simp [h1]
  conv_rhs => rw [hc]
  rw [evalP_map_range, Roots.polyVal]

theorem umb_fst (P : ℕ → K × K) (p : K[X]) : (umb P p).1 = umb (fun i => (P i).1) p :=
  umb_map (LinearMap.fst K K K) P p

theorem umb_snd (P : ℕ → K × K) (p : K[X]) : (umb P p).2 = umb (fun i => (P i).2) p :=
  umb_map (LinearMap.snd K K K) P p

/-- A coordinate of the first derivative in degree `n + 1`. -/
def der (n : ℕ) (z : ℕ → K) (t : K) : K := evalP (hodo (n + 1) n 1 z) t

/-- A coordinate of the second derivative in degree `n + 2`. -/
def der2 (n : ℕ) (z : ℕ → K) (t : K) : K := evalP (hodo ((n + 2) * (n + 1)) n 2 z) t

variable {W : Type} [AddCommGroup W] [Module K W]

theorem wrap_evaluate {c : Bezier W} {t : K} (hw : Bezier.wrap c.periodic t = ok t) :
    c.evaluate t = ({ ctrl := c.ctrl } : Bezier W).evaluate t := by
  simp only [Bezier.evaluate, hw, ok_bind, Bezier.degree]
  simp only [Bezier.wrap, Bool.false_eq_true, if_false, ok_bind]

theorem wrap_derivative {c : Bezier W} {t : K} (hw : Bezier.wrap c.periodic t = ok t) :
    c.evaluateDerivative t = ({ ctrl := c.ctrl } : Bezier W).evaluateDerivative t := by
  simp only [Bezier.evaluateDerivative, hw, ok_bind, Bezier.degree]
  simp only [Bezier.wrap, Bool.false_eq_true, if_false, ok_bind]
  rfl

theorem wrap_2nd {c : Bezier W} {t : K} (hw : Bezier.wrap c.periodic t = ok t) :
    c.evaluate2ndDerivative t = ({ ctrl := c.ctrl } : Bezier W).evaluate2ndDerivative t := by
  simp only [Bezier.evaluate2ndDerivative, hw, ok_bind, Bezier.degree]
  simp only [Bezier.wrap, Bool.false_eq_true, if_false, ok_bind]
  rfl

theorem bezier_der {c : Bezier (K × K)} {n : ℕ} (h : c.ctrl.length = n + 2) {t : K}
    (hw : Bezier.wrap c.periodic t = ok t) :
    c.evaluateDerivative t = ok (der n (colX c.ctrl) t, der n (colY c.ctrl) t) := by
  rw [wrap_derivative hw]
  have hc : c.ctrl = arr (n + 2) (fun i => c.ctrl.getD i (0, 0)) := by
    conv_lhs => rw [eq_arr c.ctrl (0, 0), h]
  conv_lhs => rw [hc]
  rw [Bezier.evaluateDerivative_arr, ok.injEq]
  refine Prod.ext ?_ ?_
  · rw [Prod.smul_fst, umb_fst, der, evalP_hodo, pow_one, smul_eq_mul]; push_cast; rfl
  · dsimp only; rw [Prod.smul_snd, umb_snd, der, evalP_hodo, pow_one, smul_eq_mul]; push_cast; rfl

theorem bezier_der2 {c : Bezier (K × K)} {n : ℕ} (h : c.ctrl.length = n + 3) {t : K}
    (hw : Bezier.wrap c.periodic t = ok t) :
    c.evaluate2ndDerivative t = ok (der2 n (colX c.ctrl) t, der2 n (colY c.ctrl) t) := by
  rw [wrap_2nd hw]
  have hc : c.ctrl = arr (n + 3) (fun i => c.ctrl.getD i (0, 0)) := by
    conv_lhs => rw [eq_arr c.ctrl (0, 0), h]
  conv_lhs => rw [hc]
  rw [Bezier.evaluate2ndDerivative_arr, ok.injEq]
  refine Prod.ext ?_ ?_
  · rw [Prod.smul_fst, umb_fst, der2, evalP_hodo, smul_eq_mul]; push_cast; rfl
  · dsimp only; rw [Prod.smul_snd, umb_snd, der2, evalP_hodo, smul_eq_mul]; push_cast; rfl

/-! ### The switches -/

theorem infl_of {p x' y' x'' y'' : List K} (h : p ++ [0] =
    addP (mulP y' x'') (smulP (-1) (mulP x' y''))) (t : K) :
    evalP p t = evalP y' t * evalP x'' t - evalP x' t * evalP y'' t := by
  have := evalP_append_zero p 1 t
  rw [show List.replicate 1 (0 : K) = [0] from rfl, h] at this
  rw [← this, evalP_addP, evalP_smulP, evalP_mulP, evalP_mulP]; ring

theorem inflectionCoeffs_eval {high : Bool} {P : List (K × K)} {co : List K}
    (h : inflectionCoeffs high P = some co) :
    ∃ n, P.length = n + 3 ∧ co.length = 2 * n + 1 ∧ ∀ t, evalP co t =
      der (n + 1) (colY P) t * der2 n (colX P) t - der (n + 1) (colX P) t * der2 n (colY P) t := by
  unfold inflectionCoeffs at h
  dsimp only at h
  split at h
  case _ e => obtain rfl := Option.some.inj h; exact ⟨0, e, rfl, infl_of (inflection2_eq _ _)⟩
  case _ e => obtain rfl := Option.some.inj h; exact ⟨1, e, rfl, infl_of (inflection3_eq _ _)⟩
  case _ e => obtain rfl := Option.some.inj h; exact ⟨2, e, rfl, infl_of (inflection4_eq _ _)⟩
  case _ e =>
    split at h
    · obtain rfl := Option.some.inj h; exact ⟨3, e, rfl, infl_of (inflection5_eq _ _)⟩
    · exact absurd h (by simp)
  case _ e =>
    split at h
    · obtain rfl := Option.some.inj h; exact ⟨4, e, rfl, infl_of (inflection6_eq _ _)⟩
    · exact absurd h (by simp)
  case _ e =>
    split at h
    · obtain rfl := Option.some.inj h; exact ⟨5, e, rfl, infl_of (inflection7_eq _ _)⟩
    · exact absurd h (by simp)
  case _ e =>
    split at h
    · obtain rfl := Option.some.inj h; exact ⟨6, e, rfl, infl_of (inflection8_eq _ _)⟩
    · exact absurd h (by simp)
  case _ e =>
    split at h
    · obtain rfl := Option.some.inj h; exact ⟨7, e, rfl, infl_of (inflection9_eq _ _)⟩
    · exact absurd h (by simp)
  case _ e =>
    split at h
    · obtain rfl := Option.some.inj h; exact ⟨8, e, rfl, infl_of (inflection10_eq _ _)⟩
    · exact absurd h (by simp)
  case _ => exact absurd h (by simp)

theorem sing_of {p x' y' : List K} (h : p = addP (mulP x' x') (mulP y' y')) (t : K) :
    evalP p t = evalP x' t * evalP x' t + evalP y' t * evalP y' t := by
  rw [h, evalP_addP, evalP_mulP, evalP_mulP]

theorem singularityCoeffs_eval {high : Bool} {P : List (K × K)} {co : List K}
    (h : singularityCoeffs high P = some co) :
    ∃ n, P.length = n + 3 ∧ co.length = 2 * n + 3 ∧ ∀ t, evalP co t =
      der (n + 1) (colX P) t * der (n + 1) (colX P) t +
        der (n + 1) (colY P) t * der (n + 1) (colY P) t := by
  unfold singularityCoeffs at h
  dsimp only at h
  split at h
  case _ e => obtain rfl := Option.some.inj h; exact ⟨0, e, rfl, sing_of (singularity2_eq _ _)⟩
  case _ e => obtain rfl := Option.some.inj h; exact ⟨1, e, rfl, sing_of (singularity3_eq _ _)⟩
  case _ e => obtain rfl := Option.some.inj h; exact ⟨2, e, rfl, sing_of (singularity4_eq _ _)⟩
  case _ e =>
    split at h
    · obtain rfl := Option.some.inj h; exact ⟨3, e, rfl, sing_of (singularity5_eq _ _)⟩
    · exact absurd h (by simp)
  case _ e =>
    split at h
    · obtain rfl := Option.some.inj h; exact ⟨4, e, rfl, sing_of (singularity6_eq _ _)⟩
    · exact absurd h (by simp)
  case _ => exact absurd h (by simp)

theorem tan_of {p x' y' : List K} {a b : K} (h : p = addP (smulP a x') (smulP b y')) (t : K) :
    evalP p t = evalP x' t * a + evalP y' t * b := by
  rw [h, evalP_addP, evalP_smulP, evalP_smulP]; ring

theorem tangentCoeffs_eval {high : Bool} {P : List (K × K)} {tx ty : K} {co : List K}
    (h : tangentCoeffs high P tx ty = some co) :
    ∃ n, P.length = n + 3 ∧ co.length = n + 2 ∧ ∀ t, evalP co t =
      der (n + 1) (colX P) t * tx + der (n + 1) (colY P) t * ty := by
  unfold tangentCoeffs at h
  dsimp only at h
  split at h
  case _ e => obtain rfl := Option.some.inj h; exact ⟨0, e, rfl, tan_of (tangent2_eq _ _ _ _)⟩
  case _ e => obtain rfl := Option.some.inj h; exact ⟨1, e, rfl, tan_of (tangent3_eq _ _ _ _)⟩
  case _ e => obtain rfl := Option.some.inj h; exact ⟨2, e, rfl, tan_of (tangent4_eq _ _ _ _)⟩
  case _ e =>
    split at h
    · obtain rfl := Option.some.inj h; exact ⟨3, e, rfl, tan_of (tangent5_eq _ _ _ _)⟩
    · exact absurd h (by simp)
  case _ e =>
    split at h
    · obtain rfl := Option.some.inj h; exact ⟨4, e, rfl, tan_of (tangent6_eq _ _ _ _)⟩
    · exact absurd h (by simp)
  case _ e =>
    split at h
    · obtain rfl := Option.some.inj h; exact ⟨5, e, rfl, tan_of (tangent7_eq _ _ _ _)⟩
    · exact absurd h (by simp)
  case _ e =>
    split at h
    · obtain rfl := Option.some.inj h; exact ⟨6, e, rfl, tan_of (tangent8_eq _ _ _ _)⟩
    · exact absurd h (by simp)
  case _ e =>
    split at h
    · obtain rfl := Option.some.inj h; exact ⟨7, e, rfl, tan_of (tangent9_eq _ _ _ _)⟩
    · exact absurd h (by simp)
  case _ e =>
    split at h
    · obtain rfl := Option.some.inj h; exact ⟨8, e, rfl, tan_of (tangent10_eq _ _ _ _)⟩
    · exact absurd h (by simp)
  case _ => exact absurd h (by simp)

/-! ### Rational curves -/

/-- A coordinate of the point in degree `n`. -/
def val (n : ℕ) (z : ℕ → K) (t : K) : K := evalP (hodo 1 n 0 z) t

theorem ratInflectionCoeffs_eval {P : List (K × K)} {w : List K} {co : List K}
    (h : ratInflectionCoeffs P w = some co) :
    ∃ n, P.length = n + 3 ∧ co.length = 5 * n + 5 ∧ ∀ t,
      let X := fun i => w.getD i 0 * colX P i
      let Y := fun i => w.getD i 0 * colY P i
      let W := fun i => w.getD i 0
      evalP co t = val (n + 2) W t ^ 2 *
        (val (n + 2) X t * (der (n + 1) W t * der2 n Y t - der (n + 1) Y t * der2 n W t) +
          (val (n + 2) Y t * (der (n + 1) X t * der2 n W t - der (n + 1) W t * der2 n X t) +
          val (n + 2) W t * (der (n + 1) Y t * der2 n X t - der (n + 1) X t * der2 n Y t))) := by
  unfold ratInflectionCoeffs at h
  dsimp only at h
  split at h
  case _ e =>
    obtain rfl := Option.some.inj h
    exact ⟨0, e, rfl, fun t => (ratInflection2_eq _ _ _ t).trans (evalP_inflU _ _ _ (by omega) t)⟩
  case _ e =>
    obtain rfl := Option.some.inj h
    exact ⟨1, e, rfl, fun t => (ratInflection3_eq _ _ _ t).trans (evalP_inflU _ _ _ (by omega) t)⟩
  case _ e =>
    obtain rfl := Option.some.inj h
    exact ⟨2, e, rfl, fun t => (ratInflection4_eq _ _ _ t).trans (evalP_inflU _ _ _ (by omega) t)⟩
  case _ => exact absurd h (by simp)

theorem ratSingularityCoeffs_eval {P : List (K × K)} {w : List K} {co : List K}
    (h : ratSingularityCoeffs P w = some co) :
    ∃ n, P.length = n + 2 ∧ co.length = 4 * n + 1 ∧ ∀ t,
      let X := fun i => w.getD i 0 * colX P i
      let Y := fun i => w.getD i 0 * colY P i
      let W := fun i => w.getD i 0
      evalP co t =
        (der n X t * val (n + 1) W t - val (n + 1) X t * der n W t) ^ 2 +
        (der n Y t * val (n + 1) W t - val (n + 1) Y t * der n W t) ^ 2 := by
  unfold ratSingularityCoeffs at h
  dsimp only at h
  split at h
  case _ e =>
    obtain rfl := Option.some.inj h
    exact ⟨1, e, rfl, fun t => (ratSingularity2_eq _ _ _ t).trans (evalP_singU _ _ _ (by omega) t)⟩
  case _ e =>
    obtain rfl := Option.some.inj h
    exact ⟨2, e, rfl, fun t => (ratSingularity3_eq _ _ _ t).trans (evalP_singU _ _ _ (by omega) t)⟩
  case _ => exact absurd h (by simp)

/-- Value and derivatives of the homogeneous curve. -/
theorem hom_eval {c : Bezier ((K × K) × K)} {n : ℕ} (h : c.ctrl.length = n + 1) {t : K}
    (hw : Bezier.wrap c.periodic t = ok t) (Q : ℕ → (K × K) × K) (hQ : ∀ i, c.ctrl.getD i 0 = Q i) :
    c.evaluate t = ok ((val n (fun i => (Q i).1.1) t, val n (fun i => (Q i).1.2) t),
      val n (fun i => (Q i).2) t) := by
  rw [wrap_evaluate hw]
  have hc : c.ctrl = arr (n + 1) Q := by
    conv_lhs => rw [eq_arr c.ctrl 0, h, funext hQ]
  conv_lhs => rw [hc]
  rw [Bezier.evaluate_arr, ok.injEq]
  have e : ∀ f : ((K × K) × K) →ₗ[K] K, f (umb Q (lin t ^ n)) = val n (fun i => f (Q i)) t := by
    intro f
    rw [umb_map, val, evalP_hodo, pow_zero, mul_one]; simp
  exact Prod.ext (Prod.ext (e (LinearMap.fst K K K ∘ₗ LinearMap.fst K (K × K) K))
    (e (LinearMap.snd K K K ∘ₗ LinearMap.fst K (K × K) K))) (e (LinearMap.snd K (K × K) K))

theorem hom_der {c : Bezier ((K × K) × K)} {n : ℕ} (h : c.ctrl.length = n + 2) {t : K}
    (hw : Bezier.wrap c.periodic t = ok t) (Q : ℕ → (K × K) × K) (hQ : ∀ i, c.ctrl.getD i 0 = Q i) :
    c.evaluateDerivative t = ok ((der n (fun i => (Q i).1.1) t, der n (fun i => (Q i).1.2) t),
      der n (fun i => (Q i).2) t) := by
  rw [wrap_derivative hw]
  have hc : c.ctrl = arr (n + 2) Q := by
    conv_lhs => rw [eq_arr c.ctrl 0, h, funext hQ]
  conv_lhs => rw [hc]
  rw [Bezier.evaluateDerivative_arr, ok.injEq]
  have e : ∀ f : ((K × K) × K) →ₗ[K] K, f ((n + 1 : K) • umb Q (lin t ^ n * (X - 1))) =
      der n (fun i => f (Q i)) t := by
    intro f
    rw [map_smul, umb_map, der, evalP_hodo, pow_one, smul_eq_mul]; push_cast; rfl
  exact Prod.ext (Prod.ext (e (LinearMap.fst K K K ∘ₗ LinearMap.fst K (K × K) K))
    (e (LinearMap.snd K K K ∘ₗ LinearMap.fst K (K × K) K))) (e (LinearMap.snd K (K × K) K))

theorem hom_der2 {c : Bezier ((K × K) × K)} {n : ℕ} (h : c.ctrl.length = n + 3) {t : K}
    (hw : Bezier.wrap c.periodic t = ok t) (Q : ℕ → (K × K) × K) (hQ : ∀ i, c.ctrl.getD i 0 = Q i) :
    c.evaluate2ndDerivative t = ok ((der2 n (fun i => (Q i).1.1) t, der2 n (fun i => (Q i).1.2) t),
      der2 n (fun i => (Q i).2) t) := by
  rw [wrap_2nd hw]
  have hc : c.ctrl = arr (n + 3) Q := by
    conv_lhs => rw [eq_arr c.ctrl 0, h, funext hQ]
  conv_lhs => rw [hc]
  rw [Bezier.evaluate2ndDerivative_arr, ok.injEq]
  have e : ∀ f : ((K × K) × K) →ₗ[K] K,
      f (((n + 2 : K) * (n + 1 : K)) • umb Q (lin t ^ n * (X - 1) ^ 2)) =
      der2 n (fun i => f (Q i)) t := by
    intro f
    rw [map_smul, umb_map, der2, evalP_hodo, smul_eq_mul]; push_cast; rfl
  exact Prod.ext (Prod.ext (e (LinearMap.fst K K K ∘ₗ LinearMap.fst K (K × K) K))
    (e (LinearMap.snd K K K ∘ₗ LinearMap.fst K (K × K) K))) (e (LinearMap.snd K (K × K) K))

end

end Features
end NS
