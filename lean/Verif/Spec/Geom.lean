import Verif.Model.Inverse
import Mathlib.Algebra.Order.Ring.Abs
import Mathlib.Analysis.InnerProductSpace.Basic

/-!
# Laws of the dot product and the norm

What the proofs use about Eigen's `dot` and `norm`, with two instances: real inner product spaces and
the one dimensional space `ℚ` used for concrete cases.
-/

set_option linter.unusedSectionVars false
set_option linter.unusedVariables false

namespace NS

open Geom

/-- `dot` is a positive definite symmetric bilinear form and `norm` its norm. -/
class LawfulGeom (K V : Type) [Field K] [LinearOrder K] [AddCommGroup V] [Module K V]
    [Geom K V] : Prop where
  dot_comm : ∀ x y : V, (dot x y : K) = dot y x
  dot_add : ∀ x y z : V, (dot (x + y) z : K) = dot x z + dot y z
  dot_smul : ∀ (a : K) (x y : V), (dot (a • x) y : K) = a * dot x y
  dot_self : ∀ x : V, x ≠ 0 → (0 : K) < dot x x
  norm_nonneg : ∀ x : V, (0 : K) ≤ norm x
  norm_sq : ∀ x : V, (norm x * norm x : K) = dot x x

noncomputable instance instGeomReal {V : Type} [NormedAddCommGroup V] [InnerProductSpace ℝ V] :
    Geom ℝ V := ⟨fun x y => inner ℝ x y, fun x => ‖x‖⟩

instance {V : Type} [NormedAddCommGroup V] [InnerProductSpace ℝ V] : LawfulGeom ℝ V where
  dot_comm x y := real_inner_comm y x
  dot_add x y z := inner_add_left x y z
  dot_smul a x y := real_inner_smul_left x y a
  dot_self x h := real_inner_self_pos.2 h
  norm_nonneg x := _root_.norm_nonneg x
  norm_sq x := (real_inner_self_eq_norm_mul_norm x).symm

instance instGeomRat : Geom ℚ ℚ := ⟨fun x y => x * y, fun x => |x|⟩

instance : LawfulGeom ℚ ℚ where
  dot_comm x y := mul_comm x y
  dot_add x y z := add_mul x y z
  dot_smul a x y := mul_assoc a x y
  dot_self x h := mul_self_pos.2 h
  norm_nonneg x := abs_nonneg x
  norm_sq x := abs_mul_abs_self x

variable {K V : Type} [Field K] [LinearOrder K] [IsStrictOrderedRing K] [AddCommGroup V] [Module K V]
  [Geom K V] [LawfulGeom K V]

open LawfulGeom

theorem dot_zero_left (y : V) : (dot (0 : V) y : K) = 0 := by
  have := dot_smul (K := K) 0 (0 : V) y
  simpa using this

theorem dot_zero_right (y : V) : (dot y (0 : V) : K) = 0 := by
  rw [dot_comm, dot_zero_left]

theorem dot_neg_left (x y : V) : (dot (-x) y : K) = -dot x y := by
  have := dot_smul (K := K) (-1) x y
  simpa using this

theorem dot_neg_right (x y : V) : (dot x (-y) : K) = -dot x y := by
  rw [dot_comm, dot_neg_left, dot_comm]

theorem dot_sub_left (x y z : V) : (dot (x - y) z : K) = dot x z - dot y z := by
  rw [sub_eq_add_neg, dot_add, dot_neg_left, sub_eq_add_neg]

theorem dot_add_right (x y z : V) : (dot x (y + z) : K) = dot x y + dot x z := by
  rw [dot_comm, dot_add, dot_comm y, dot_comm z]

theorem dot_sub_right (x y z : V) : (dot x (y - z) : K) = dot x y - dot x z := by
  rw [dot_comm, dot_sub_left, dot_comm y, dot_comm z]

theorem dot_smul_right (a : K) (x y : V) : (dot x (a • y) : K) = a * dot x y := by
  rw [dot_comm, dot_smul, dot_comm]

theorem sqNorm_nonneg (x : V) : (0 : K) ≤ sqNorm x := by
  unfold sqNorm
  rw [← norm_sq]; exact mul_self_nonneg _

theorem sqNorm_eq_zero {x : V} : (sqNorm x : K) = 0 ↔ x = 0 := by
  constructor
  · intro h
    by_contra hx
    have := dot_self (K := K) x hx
    unfold sqNorm at h
    rw [h] at this
    exact lt_irrefl _ this
  · rintro rfl; exact dot_zero_left _

theorem sqNorm_neg (x : V) : (sqNorm (-x) : K) = sqNorm x := by
  unfold sqNorm; rw [dot_neg_left, dot_neg_right, neg_neg]

theorem sqNorm_sub_comm (x y : V) : (sqNorm (x - y) : K) = sqNorm (y - x) := by
  rw [← neg_sub, sqNorm_neg]

theorem sqNorm_add (x y : V) : (sqNorm (x + y) : K) = sqNorm x + 2 * dot x y + sqNorm y := by
  unfold sqNorm
  rw [dot_add, dot_add_right, dot_add_right, dot_comm y x]; ring

theorem sqNorm_sub (x y : V) : (sqNorm (x - y) : K) = sqNorm x - 2 * dot x y + sqNorm y := by
  unfold sqNorm
  rw [dot_sub_left, dot_sub_right, dot_sub_right, dot_comm y x]; ring

theorem sqNorm_smul (a : K) (x : V) : (sqNorm (a • x) : K) = a * a * sqNorm x := by
  unfold sqNorm
  rw [dot_smul, dot_smul_right]; ring

end NS
