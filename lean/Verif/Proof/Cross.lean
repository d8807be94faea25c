import Verif.Model.Swept
import Verif.Spec.Surface
import Verif.Proof.Frame
import Mathlib.Analysis.Calculus.Deriv.Mul
import Mathlib.Analysis.Calculus.FDeriv.Pi
import Mathlib.Analysis.InnerProductSpace.Calculus
import Mathlib.Analysis.SpecialFunctions.Trigonometric.Deriv

/-!
# Vector algebra in space
-/

set_option linter.unusedSectionVars false

namespace NS

open Outcome Geom LawfulGeom

theorem dot_e3 (a b : E3) : (dot a b : ℝ) = a 0 * b 0 + a 1 * b 1 + a 2 * b 2 := by
  show inner ℝ a b = _
  rw [PiLp.inner_apply, Fin.sum_univ_three]
  simp only [RCLike.inner_apply, conj_trivial]
  ring

@[simp] theorem cross_0 (a b : E3) : cross a b 0 = a 1 * b 2 - a 2 * b 1 := rfl
@[simp] theorem cross_1 (a b : E3) : cross a b 1 = a 2 * b 0 - a 0 * b 2 := rfl
@[simp] theorem cross_2 (a b : E3) : cross a b 2 = a 0 * b 1 - a 1 * b 0 := rfl

theorem ext3 {a b : E3} (h0 : a 0 = b 0) (h1 : a 1 = b 1) (h2 : a 2 = b 2) : a = b := by
  ext i; fin_cases i <;> assumption

theorem cross_add_left (a b c : E3) : cross (a + b) c = cross a c + cross b c := by
  apply ext3 <;> simp <;> ring

theorem cross_add_right (a b c : E3) : cross a (b + c) = cross a b + cross a c := by
  apply ext3 <;> simp <;> ring

theorem cross_smul_left (k : ℝ) (a b : E3) : cross (k • a) b = k • cross a b := by
  apply ext3 <;> simp <;> ring

theorem cross_smul_right (k : ℝ) (a b : E3) : cross a (k • b) = k • cross a b := by
  apply ext3 <;> simp <;> ring

theorem cross_self (a : E3) : cross a a = 0 := by
  apply ext3 <;> simp <;> ring

theorem dot_cross_left (a b : E3) : (dot a (cross a b) : ℝ) = 0 := by
  rw [dot_e3]; simp; ring

theorem dot_cross_right (a b : E3) : (dot b (cross a b) : ℝ) = 0 := by
  rw [dot_e3]; simp; ring

/-- Triple product. -/
theorem cross_cross (a b c : E3) : cross a (cross b c) = (dot a c : ℝ) • b - (dot a b : ℝ) • c := by
  apply ext3 <;> simp [dot_e3] <;> ring

/-- Lagrange's identity. -/
theorem sqNorm_cross (a b : E3) : (sqNorm (cross a b) : ℝ) = sqNorm a * sqNorm b - dot a b ^ 2 := by
  unfold sqNorm; rw [dot_e3, dot_e3, dot_e3, dot_e3]; simp; ring

/-- The cross product as a continuous bilinear map. -/
noncomputable def crossL : E3 →L[ℝ] E3 →L[ℝ] E3 :=
  LinearMap.toContinuousLinearMap
    ((LinearMap.toContinuousLinearMap : (E3 →ₗ[ℝ] E3) ≃ₗ[ℝ] (E3 →L[ℝ] E3)).toLinearMap ∘ₗ
      LinearMap.mk₂ ℝ cross cross_add_left cross_smul_left cross_add_right cross_smul_right)

theorem crossL_apply (a b : E3) : crossL a b = cross a b := rfl

/-- Product rule for the cross product. -/
theorem hasDerivWithinAt_cross {f g : ℝ → E3} {f' g' : E3} {S : Set ℝ} {x : ℝ}
    (hf : HasDerivWithinAt f f' S x) (hg : HasDerivWithinAt g g' S x) :
    HasDerivWithinAt (fun t => cross (f t) (g t)) (cross f' (g x) + cross (f x) g') S x := by
  have h1 := (crossL.hasFDerivAt (x := f x)).comp_hasDerivWithinAt x hf
  have h2 := h1.clm_apply hg
  exact h2.congr_deriv rfl

theorem norm_of_sq {V : Type} [AddCommGroup V] [Module ℝ V] [Geom ℝ V] [LawfulGeom ℝ V] (x : V) :
    (Geom.norm x : ℝ) = Real.sqrt (sqNorm x) := by
  rw [show (sqNorm x : ℝ) = Geom.norm x * Geom.norm x from (norm_sq x).symm,
    Real.sqrt_mul_self (LawfulGeom.norm_nonneg x)]

theorem normalized_of_pos {a : E3} (h : (sqNorm a : ℝ) ≠ 0) :
    normalized a = (1 / Real.sqrt (sqNorm a)) • a :=
  if_pos (lt_of_le_of_ne (sqNorm_nonneg (K := ℝ) _) (Ne.symm h))

theorem sqNorm_normalized {a : E3} (h : (sqNorm a : ℝ) ≠ 0) : (sqNorm (normalized a) : ℝ) = 1 := by
  have hp : (0 : ℝ) < sqNorm a := lt_of_le_of_ne (sqNorm_nonneg (K := ℝ) _) (Ne.symm h)
  rw [normalized_of_pos h]
  have hs := Real.mul_self_sqrt hp.le
  have : (0 : ℝ) < Real.sqrt (sqNorm a) := Real.sqrt_pos.2 hp
  show (dot ((1 / Real.sqrt (sqNorm a)) • a) ((1 / Real.sqrt (sqNorm a)) • a) : ℝ) = 1
  rw [dot_smul, dot_smul_right, ← mul_assoc]
  show 1 / Real.sqrt (sqNorm a) * (1 / Real.sqrt (sqNorm a)) * sqNorm a = 1
  field_simp
  rw [sq, hs]

/-- `‖a‖` times the unit vector of `a` is `a`. -/
theorem norm_smul_normalized (a : E3) : Real.sqrt (sqNorm a) • normalized a = a := by
  by_cases h : (sqNorm a : ℝ) = 0
  · have : a = 0 := sqNorm_eq_zero.1 h
    subst this
    unfold normalized
    rw [if_neg (by rw [h]; exact lt_irrefl _), smul_zero]
  · have hp : (0 : ℝ) < sqNorm a := lt_of_le_of_ne (sqNorm_nonneg (K := ℝ) _) (Ne.symm h)
    have : (0 : ℝ) < Real.sqrt (sqNorm a) := Real.sqrt_pos.2 hp
    rw [normalized_of_pos h, smul_smul, mul_one_div_cancel this.ne', one_smul]

/-! ## Rotation -/

variable {a : E3}

theorem rotate_add (u : ℝ) (a x y : E3) : rotate u a (x + y) = rotate u a x + rotate u a y := by
  unfold rotate; rw [cross_add_right, dot_add_right]; module

theorem rotate_smul (u k : ℝ) (a x : E3) : rotate u a (k • x) = k • rotate u a x := by
  unfold rotate; rw [cross_smul_right, dot_smul_right]; module

theorem rotate_sub (u : ℝ) (a x y : E3) : rotate u a (x - y) = rotate u a x - rotate u a y := by
  have h := rotate_smul u (-1) a y
  rw [neg_one_smul, neg_one_smul] at h
  rw [sub_eq_add_neg, rotate_add, h, sub_eq_add_neg]

theorem rotate_zero (a x : E3) : rotate 0 a x = x := by
  unfold rotate; rw [Real.cos_zero, Real.sin_zero]; module

/-- Rotation is linear, hence continuous. -/
noncomputable def rotateL (u : ℝ) (a : E3) : E3 →L[ℝ] E3 :=
  LinearMap.toContinuousLinearMap ⟨⟨rotate u a, rotate_add u a⟩, fun k x => rotate_smul u k a x⟩

theorem dot_rotate (h : (sqNorm a : ℝ) = 1) (u : ℝ) (x : E3) : (dot (rotate u a x) a : ℝ) = dot x a := by
  unfold rotate
  have h' : (dot a a : ℝ) = 1 := h
  rw [dot_add, dot_add, dot_smul, dot_smul, dot_smul, h', dot_comm (K := ℝ) (cross a x) a, dot_cross_left,
    dot_comm (K := ℝ) a x]
  ring

theorem cross_rotate (h : (sqNorm a : ℝ) = 1) (u : ℝ) (x : E3) :
    cross a (rotate u a x) =
      Real.cos u • cross a x + Real.sin u • ((dot a x : ℝ) • a - x) := by
  have h' : (dot a a : ℝ) = 1 := h
  unfold rotate
  rw [cross_add_right, cross_add_right, cross_smul_right, cross_smul_right, cross_smul_right, cross_self,
    cross_cross, h']
  module

theorem sqNorm_rotate (h : (sqNorm a : ℝ) = 1) (u : ℝ) (x : E3) :
    (sqNorm (rotate u a x) : ℝ) = sqNorm x := by
  have h' : (dot a a : ℝ) = 1 := h
  have h1 : (dot a (cross a x) : ℝ) = 0 := dot_cross_left a x
  have h2 : (dot (cross a x) a : ℝ) = 0 := by rw [dot_comm (K := ℝ)]; exact h1
  have h3 : (dot x (cross a x) : ℝ) = 0 := dot_cross_right a x
  have h4 : (dot (cross a x) x : ℝ) = 0 := by rw [dot_comm (K := ℝ)]; exact h3
  have h5 : (dot (cross a x) (cross a x) : ℝ) = dot x x - dot a x ^ 2 := by
    have := sqNorm_cross a x
    rw [h, one_mul] at this
    exact this
  have h6 : (dot x a : ℝ) = dot a x := dot_comm (K := ℝ) x a
  unfold rotate sqNorm
  simp only [dot_add, dot_add_right, dot_smul, dot_smul_right, h', h1, h2, h3, h4, h5, h6]
  linear_combination (dot x x - (dot a x : ℝ) ^ 2) * Real.sin_sq_add_cos_sq u

/-- Two rotations about the same unit axis compose by adding the angles. -/
theorem rotate_rotate (h : (sqNorm a : ℝ) = 1) (u w : ℝ) (x : E3) :
    rotate u a (rotate w a x) = rotate (u + w) a x := by
  have h' := cross_rotate h w x
  have h2 := dot_rotate h w x
  rw [dot_comm (K := ℝ), dot_comm (K := ℝ) x a] at h2
  rw [rotate, h', h2, rotate, rotate, Real.cos_add, Real.sin_add]
  module

theorem rotate_hasDerivAt (h : (sqNorm a : ℝ) = 1) (u : ℝ) (x : E3) :
    HasDerivAt (fun t => rotate t a x) (cross a (rotate u a x)) u := by
  have := (((Real.hasDerivAt_cos u).smul_const x).add ((Real.hasDerivAt_sin u).smul_const (cross a x))).add
    ((((Real.hasDerivAt_cos u).const_sub 1).mul_const (dot a x : ℝ)).smul_const a)
  refine HasDerivAt.congr_deriv this ?_
  rw [cross_rotate h]
  module

/-- The renormalisation of RevolutionPatch.h:77-82 and 117-120 changes nothing for unit axes. -/
theorem renorm (h : (sqNorm a : ℝ) = 1) (x : E3) :
    (Geom.norm (x - (dot x a : ℝ) • a) : ℝ) • normalized (cross a x) = cross a x := by
  have h' : (dot a a : ℝ) = 1 := h
  have : (sqNorm (x - (dot x a : ℝ) • a) : ℝ) = sqNorm (cross a x) := by
    rw [sqNorm_cross, h, sqNorm_sub, sqNorm_smul, h, dot_smul_right, dot_comm (K := ℝ) a x]
    ring
  rw [norm_of_sq, this, norm_smul_normalized]

theorem renorm_perp {d : E3} (hd : (dot d a : ℝ) = 0) :
    (Geom.norm (d - (dot d a : ℝ) • a) : ℝ) • normalized d = d := by
  rw [hd, zero_smul, sub_zero, norm_of_sq, norm_smul_normalized]

end NS
