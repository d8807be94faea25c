import Verif.Proof.Angle
import Verif.Spec.Geom
import Mathlib.Analysis.SpecialFunctions.Trigonometric.Deriv
import Mathlib.Analysis.InnerProductSpace.PiL2
import Mathlib.Tactic.Module

/-!
# Orthonormal frames
-/

set_option linter.unusedSectionVars false

namespace NS

open Outcome Geom LawfulGeom

variable {V : Type} [AddCommGroup V] [Module ℝ V] [Geom ℝ V] [LawfulGeom ℝ V]

/-- Two orthogonal unit vectors. -/
structure Ortho2 (e0 e1 : V) : Prop where
  n0 : (dot e0 e0 : ℝ) = 1
  n1 : (dot e1 e1 : ℝ) = 1
  o01 : (dot e0 e1 : ℝ) = 0

/-- Three pairwise orthogonal unit vectors. -/
structure Ortho3 (f : Frame V) : Prop where
  n0 : (dot f.e0 f.e0 : ℝ) = 1
  n1 : (dot f.e1 f.e1 : ℝ) = 1
  n2 : (dot f.e2 f.e2 : ℝ) = 1
  o01 : (dot f.e0 f.e1 : ℝ) = 0
  o12 : (dot f.e1 f.e2 : ℝ) = 0
  o20 : (dot f.e2 f.e0 : ℝ) = 0

theorem Ortho2.o10 {e0 e1 : V} (h : Ortho2 e0 e1) : (dot e1 e0 : ℝ) = 0 := by
  rw [dot_comm]; exact h.o01

theorem Ortho3.o10 {f : Frame V} (h : Ortho3 f) : (dot f.e1 f.e0 : ℝ) = 0 := by
  rw [dot_comm]; exact h.o01

theorem Ortho3.o21 {f : Frame V} (h : Ortho3 f) : (dot f.e2 f.e1 : ℝ) = 0 := by
  rw [dot_comm]; exact h.o12

theorem Ortho3.o02 {f : Frame V} (h : Ortho3 f) : (dot f.e0 f.e2 : ℝ) = 0 := by
  rw [dot_comm]; exact h.o20

/-- Squared distance in the plane of the frame. -/
theorem sqDist2 {e0 e1 : V} (h : Ortho2 e0 e1) (a b : ℝ) (d : V) :
    (sqNorm (a • e0 + b • e1 - d) : ℝ) =
      a * a + b * b - 2 * (a * dot d e0 + b * dot d e1) + sqNorm d := by
  unfold sqNorm
  simp only [dot_sub_left, dot_sub_right, dot_add, dot_add_right, dot_smul, dot_smul_right, h.n0, h.n1,
    h.o01, h.o10]
  rw [dot_comm (K := ℝ) e0 d, dot_comm (K := ℝ) e1 d]
  ring

/-- Squared distance in terms of the coordinates. -/
theorem sqDist3 {f : Frame V} (h : Ortho3 f) (a b c : ℝ) (d : V) :
    (sqNorm (a • f.e0 + b • f.e1 + c • f.e2 - d) : ℝ) =
      a * a + b * b + c * c - 2 * (a * dot d f.e0 + b * dot d f.e1 + c * dot d f.e2) + sqNorm d := by
  unfold sqNorm
  simp only [dot_sub_left, dot_sub_right, dot_add, dot_add_right, dot_smul, dot_smul_right, h.n0, h.n1,
    h.n2, h.o01, h.o10, h.o12, h.o21, h.o20, h.o02]
  rw [dot_comm (K := ℝ) f.e0 d, dot_comm (K := ℝ) f.e1 d, dot_comm (K := ℝ) f.e2 d]
  ring

theorem dot_frame0 {f : Frame V} (h : Ortho3 f) (a b c : ℝ) :
    (dot (a • f.e0 + b • f.e1 + c • f.e2) f.e0 : ℝ) = a := by
  simp only [dot_add, dot_smul, h.n0, h.o10, h.o20]; ring

theorem dot_frame1 {f : Frame V} (h : Ortho3 f) (a b c : ℝ) :
    (dot (a • f.e0 + b • f.e1 + c • f.e2) f.e1 : ℝ) = b := by
  simp only [dot_add, dot_smul, h.n1, h.o01, h.o21]; ring

theorem dot_frame2 {f : Frame V} (h : Ortho3 f) (a b c : ℝ) :
    (dot (a • f.e0 + b • f.e1 + c • f.e2) f.e2 : ℝ) = c := by
  simp only [dot_add, dot_smul, h.n2, h.o02, h.o12]; ring

/-- Orthonormal families of Euclidean spaces give such frames. -/
theorem ortho3_of_orthonormal {E : Type} [NormedAddCommGroup E] [InnerProductSpace ℝ E]
    {v : Fin 3 → E} (h : Orthonormal ℝ v) : Ortho3 (Frame.mk (v 0) (v 1) (v 2)) := by
  have hd := orthonormal_iff_ite.1 h
  constructor <;> simp only [dot]
  · simpa using hd 0 0
  · simpa using hd 1 1
  · simpa using hd 2 2
  · simpa using hd 0 1
  · simpa using hd 1 2
  · simpa using hd 2 0

/-- The standard frame of space. -/
noncomputable def stdFrame : Frame (EuclideanSpace ℝ (Fin 3)) :=
  ⟨EuclideanSpace.basisFun (Fin 3) ℝ 0, EuclideanSpace.basisFun (Fin 3) ℝ 1,
    EuclideanSpace.basisFun (Fin 3) ℝ 2⟩

theorem stdFrame_ortho : Ortho3 stdFrame :=
  ortho3_of_orthonormal (EuclideanSpace.basisFun (Fin 3) ℝ).orthonormal

theorem Ortho3.two {f : Frame V} (h : Ortho3 f) : Ortho2 f.e0 f.e1 := ⟨h.n0, h.n1, h.o01⟩

end NS
