import Mathlib.Analysis.SpecialFunctions.Trigonometric.Basic
import Verif.Model.SaveMsh

/-!
# Model of `num_recommended_samples_u/v`

Only the data on which the two numbers depend are kept.
-/

namespace NS
namespace Samples

open Outcome

/-- The classes of curves, with what `get_num_control_points` depends on. -/
inductive CurveKind where
  /-- Bezier and rational Bezier curves of the given degree (BezierBase.h:47). -/
  | bezier (degree : ℕ)
  /-- B-splines and NURBS with the given number of rows (BSplineBase.h:98-101). -/
  | spline (rows : ℕ)
  /-- Line.h:83. -/
  | line
  /-- Circle.h:122. -/
  | circle
  /-- Ellipse.h:190. -/
  | ellipse

/-- `get_num_control_points` (BezierBase.h:47, BSplineBase.h:98-101, Line.h:83, Circle.h:122,
Ellipse.h:190). -/
def CurveKind.numControlPoints : CurveKind → ℕ
  | .bezier d => d + 1
  | .spline n => n
  | .line => 0
  | .circle => 0
  | .ellipse => 0

/-- The classes of patches, with what the numbers of recommended samples depend on; `r` and `t` are the
lengths of the parameter ranges in `u` and `v`. -/
inductive PatchKind where
  /-- Bezier, rational Bezier, B-spline and NURBS patches with a grid of control points. -/
  | grid (numU numV : ℕ)
  | plane
  | cylinder (r : ℝ)
  | cone (r : ℝ)
  | sphere (r t : ℝ)
  | torus (r t : ℝ)
  | extrusion (profile : CurveKind)
  | revolution (profile : CurveKind) (r : ℝ)
  | offset (base : PatchKind)

/-- `std::max(8, static_cast<int>(std::ceil(range / M_PI * 18)))` (Cylinder.h:160, Cone.h:180,
Sphere.h:182, 186, Torus.h:184, 188, RevolutionPatch.h:257).  The range is not negative after
`initialize`; that the number fits an `int` is assumed. -/
noncomputable def angular (range : ℝ) : ℕ := max 8 ⌈range / Real.pi * 18⌉₊

/-- `num_recommended_samples_u` (PatchBase.h:226, Plane.h:139-141, Cylinder.h:159-161,
Cone.h:179-181, Sphere.h:181-183, Torus.h:183-185, ExtrusionPatch.h:200-202,
RevolutionPatch.h:256-258, OffsetPatch.h:246-249). -/
noncomputable def PatchKind.samplesU : PatchKind → ℕ
  | .grid n _ => n + 1
  | .plane => 3
  | .cylinder r => angular r
  | .cone r => angular r
  | .sphere r _ => angular r
  | .torus r _ => angular r
  | .extrusion c => c.numControlPoints
  | .revolution _ r => angular r
  | .offset b => b.samplesU

/-- `num_recommended_samples_v` (PatchBase.h:232, Plane.h:143-145, Cylinder.h:163-165,
Cone.h:183-185, Sphere.h:185-187, Torus.h:187-189, ExtrusionPatch.h:204-206,
RevolutionPatch.h:260-262, OffsetPatch.h:251-254). -/
noncomputable def PatchKind.samplesV : PatchKind → ℕ
  | .grid _ n => n + 1
  | .plane => 3
  | .cylinder _ => 3
  | .cone _ => 3
  | .sphere _ t => angular t
  | .torus _ t => angular t
  | .extrusion _ => 3
  | .revolution c _ => c.numControlPoints
  | .offset b => b.samplesV

/-- `save_msh` with `save_sampled` (save_msh.h:292-326): every patch is sampled at twice the recommended
numbers (318-319). -/
noncomputable def save {V : Type} (coord : V → ℕ → ℝ) (dim : ℕ) (cs : List (MshCurveIn ℝ V))
    (ps : List (MshPatchIn ℝ V × PatchKind)) : Outcome (Mesh ℝ) :=
  saveSampled coord dim cs (ps.map fun p => (p.1, p.2.samplesU, p.2.samplesV))

end Samples
end NS
