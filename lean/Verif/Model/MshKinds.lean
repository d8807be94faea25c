import Verif.Model.MshFile

/-!
# Model of the type queries, and of the accessors of the primitives that `save_msh` calls

`get_curve_type` and `get_patch_type` return the constants below; the curves and patches without control
points (lines, arcs, planes, quadrics, swept and offset surfaces) enter `save_msh` through their accessors.
-/

namespace NS

open Outcome

/-- `enum class CurveEnum`, enums.h:5-13. -/
inductive CurveEnum
  | bezier | rationalBezier | bspline | nurbs | line | circle | ellipse
  deriving DecidableEq, Repr

/-- The numbers of the constants, enums.h:6-12. -/
def CurveEnum.val : CurveEnum → ℕ
  | .bezier => 1
  | .rationalBezier => 2
  | .bspline => 3
  | .nurbs => 4
  | .line => 5
  | .circle => 6
  | .ellipse => 7

/-- `enum class PatchEnum`, enums.h:15-28. -/
inductive PatchEnum
  | bezier | rationalBezier | bspline | nurbs | plane | cylinder | cone | sphere | torus | revolution
  | extrusion | offset
  deriving DecidableEq, Repr

/-- The numbers of the constants, enums.h:16-27. -/
def PatchEnum.val : PatchEnum → ℕ
  | .bezier => 1
  | .rationalBezier => 2
  | .bspline => 3
  | .nurbs => 4
  | .plane => 5
  | .cylinder => 6
  | .cone => 7
  | .sphere => 8
  | .torus => 9
  | .revolution => 10
  | .extrusion => 11
  | .offset => 12

/-- The curve classes of the library. -/
inductive CurveClass
  | Bezier | RationalBezier | BSpline | NURBS | Line | Circle | Ellipse
  deriving DecidableEq, Repr

/-- The patch classes of the library. -/
inductive PatchClass
  | BezierPatch | RationalBezierPatch | BSplinePatch | NURBSPatch | Plane | Cylinder | Cone | Sphere | Torus
  | RevolutionPatch | ExtrusionPatch | OffsetPatch
  deriving DecidableEq, Repr

/-- `get_curve_type`: Bezier.h:36 (and the specialisations, 437, 495, 591, 783), RationalBezier.h:31,
BSpline.h:52, NURBS.h:43, Line.h:26, Circle.h:30, Ellipse.h:30. -/
def curveType : CurveClass → CurveEnum
  | .Bezier => .bezier
  | .RationalBezier => .rationalBezier
  | .BSpline => .bspline
  | .NURBS => .nurbs
  | .Line => .line
  | .Circle => .circle
  | .Ellipse => .ellipse

/-- `get_patch_type`: BezierPatch.h:46, RationalBezierPatch.h:36, BSplinePatch.h:60, NURBSPatch.h:37,
Plane.h:34, Cylinder.h:37, Cone.h:37, Sphere.h:37, Torus.h:37, RevolutionPatch.h:44, ExtrusionPatch.h:45,
OffsetPatch.h:38. -/
def patchType : PatchClass → PatchEnum
  | .BezierPatch => .bezier
  | .RationalBezierPatch => .bezier
  | .BSplinePatch => .bspline
  | .NURBSPatch => .nurbs
  | .Plane => .plane
  | .Cylinder => .cylinder
  | .Cone => .cone
  | .Sphere => .sphere
  | .Torus => .torus
  | .RevolutionPatch => .revolution
  | .ExtrusionPatch => .extrusion
  | .OffsetPatch => .offset

section
variable {K : Type} [Field K] [LinearOrder K] [IsStrictOrderedRing K] [FloorRing K]

/-- The accessors of the curves without control points: Line.h:26, 55, 83-106, Circle.h:30, 69, 122-145,
Ellipse.h:30, 80, 190-213. -/
def primitiveCurve (dim : ℕ) (c : CurveClass) : CurveApi K :=
  { dim := dim, ctype := (curveType c).val, degree := -1, numCtrl := 0, numWeights := 0, numKnots := 0,
    ctrl := fun _ => .throw .notImplemented, weight := fun _ => .throw .notImplemented,
    knot := fun _ => .throw .notImplemented }

/-- The degrees set by the constructors: Plane.h:29-30, Cylinder.h:32-33, Cone.h:32-33, Sphere.h:32-33,
Torus.h:32-33, RevolutionPatch.h:27-28, ExtrusionPatch.h:28-29; those of an offset surface are the degrees of
its base surface, OffsetPatch.h:175-176. -/
def primitiveDegrees (base : ℕ × ℕ) : PatchClass → ℕ × ℕ
  | .Plane => (1, 1)
  | .Cylinder => (2, 1)
  | .Cone => (2, 1)
  | .Sphere => (2, 2)
  | .Torus => (2, 1)
  | .RevolutionPatch => (2, 2)
  | .ExtrusionPatch => (2, 2)
  | _ => base

/-- The accessors of the patches without control points: Plane.h:98-132, Cylinder.h:118-152,
Cone.h:138-172, Sphere.h:140-174, Torus.h:142-176, RevolutionPatch.h:215-249, ExtrusionPatch.h:159-193,
OffsetPatch.h:204-238, PatchBase.h:74-84. -/
def primitivePatch (dim : ℕ) (base : ℕ × ℕ) (c : PatchClass) : PatchApi K :=
  { dim := dim, degU := ok (primitiveDegrees base c).1, degV := ok (primitiveDegrees base c).2,
    numCtrlU := ok 0, numCtrlV := ok 0, numWeightsU := ok 0, numWeightsV := ok 0, numKnotsU := 0,
    numKnotsV := 0, ctrl := fun _ _ => .throw .notImplemented, weight := fun _ _ => .throw .notImplemented,
    knotU := fun _ => .throw .notImplemented, knotV := fun _ => .throw .notImplemented }

/-- The body of `load_Bezier_patch` in a build without assertions, load_msh.h:166-181. -/
def loadBezierPatchRelease (s : MshPatch K) : Outcome (BezierPatch (P3 K)) := do
  let g ← extractCtrl s.withWeights s.numCtrl s.data
  let p : BezierPatch (P3 K) := { BezierPatch.ofGrid (-1) (-1) g with degU := s.degU, degV := s.degV }
  p.init
  pure p

end

end NS
