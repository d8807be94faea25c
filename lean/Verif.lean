import Verif.Basic.Grid
import Verif.Basic.Outcome
import Verif.Spec.BSpline
import Verif.Spec.BSplinePatch
import Verif.Spec.BSplineValid
import Verif.Spec.Bernstein
import Verif.Spec.Cone
import Verif.Spec.CurveFeatures
import Verif.Spec.Edge
import Verif.Spec.Features
import Verif.Spec.Geom
import Verif.Spec.LeastSquares
import Verif.Spec.Msh
import Verif.Spec.MshRecord
import Verif.Spec.Obj
import Verif.Spec.Patch
import Verif.Spec.PostScript
import Verif.Spec.Rational
import Verif.Spec.RationalPatch
import Verif.Spec.Roots
import Verif.Spec.Seminorm
import Verif.Spec.SignChanges
import Verif.Spec.Simplex
import Verif.Spec.SpanSearch
import Verif.Spec.Surface
import Verif.Spec.TurningAngle
import Verif.Model.BSpline
import Verif.Model.BSplinePatch
import Verif.Model.Bezier
import Verif.Model.BezierPatch
import Verif.Model.BezierSearch
import Verif.Model.Combine
import Verif.Model.ControlSearch
import Verif.Model.Curve
import Verif.Model.Features
import Verif.Model.Float
import Verif.Model.FloatEdit
import Verif.Model.FloatNurbsMixed
import Verif.Model.FloatNurbsPatch
import Verif.Model.FloatNurbsSecond
import Verif.Model.FloatPatch
import Verif.Model.FloatPatchDeriv
import Verif.Model.FloatPatchSecond
import Verif.Model.FloatRational
import Verif.Model.FloatSearch
import Verif.Model.FloatSecond
import Verif.Model.Generated
import Verif.Model.GeneratedRational
import Verif.Model.Ieee
import Verif.Model.IeeeSearch
import Verif.Model.Inverse
import Verif.Model.InverseArcLength
import Verif.Model.LeastSquares
import Verif.Model.Line
import Verif.Model.MshFile
import Verif.Model.MshKinds
import Verif.Model.MshRecord
import Verif.Model.Numeric
import Verif.Model.PatchBase
import Verif.Model.Primitive
import Verif.Model.PrimitiveFeatures
import Verif.Model.Quadrature
import Verif.Model.Rational
import Verif.Model.RationalPatch
import Verif.Model.RemoveKnot
import Verif.Model.Roots
import Verif.Model.Rounding
import Verif.Model.Samples
import Verif.Model.SaveMsh
import Verif.Model.SaveObj
import Verif.Model.Simplex
import Verif.Model.SimplexInt
import Verif.Model.SpanSearch
import Verif.Model.Svg
import Verif.Model.Swept
import Verif.Model.TurningAngle
import Verif.Proof.Angle
import Verif.Proof.BSplineCurve
import Verif.Proof.BSplineEval
import Verif.Proof.BSplineMap
import Verif.Proof.BSplinePatch
import Verif.Proof.BSplineStart
import Verif.Proof.Bezier
import Verif.Proof.BezierEval
import Verif.Proof.BezierPatch
import Verif.Proof.ClampedEnds
import Verif.Proof.Combine
import Verif.Proof.ControlSearch
import Verif.Proof.CornerCut
import Verif.Proof.CoxDeBoor
import Verif.Proof.Cross
import Verif.Proof.Curve
import Verif.Proof.Features
import Verif.Proof.FeaturesSolve
import Verif.Proof.FlatInverse
import Verif.Proof.Float
import Verif.Proof.FloatEdge
import Verif.Proof.FloatEdit
import Verif.Proof.FloatElevate
import Verif.Proof.FloatEval
import Verif.Proof.FloatPatch
import Verif.Proof.FloatSearch
import Verif.Proof.FloatSplit
import Verif.Proof.FloatUnwrap
import Verif.Proof.Frame
import Verif.Proof.Generated
import Verif.Proof.GeneratedHigh
import Verif.Proof.GeneratedRational
import Verif.Proof.HodographBSpline
import Verif.Proof.Ieee
import Verif.Proof.IeeeBSpline
import Verif.Proof.IeeeExact
import Verif.Proof.IeeeFormat
import Verif.Proof.IeeeSearch
import Verif.Proof.InsertCurve
import Verif.Proof.InsertKnot
import Verif.Proof.Inverse
import Verif.Proof.LeastSquares
import Verif.Proof.LocateSpan
import Verif.Proof.MshRecord
import Verif.Proof.NearOptimal
import Verif.Proof.PatchBase
import Verif.Proof.Polar
import Verif.Proof.PolyReflect
import Verif.Proof.PolygonLength
import Verif.Proof.PowerBasis
import Verif.Proof.Rational
import Verif.Proof.RationalDeriv
import Verif.Proof.RationalPatch
import Verif.Proof.Refine
import Verif.Proof.RemoveCurve
import Verif.Proof.RemoveKnot
import Verif.Proof.RemovePass
import Verif.Proof.Reparam
import Verif.Proof.Romberg
import Verif.Proof.Rounding
import Verif.Proof.SaveMsh
import Verif.Proof.SaveObj
import Verif.Proof.Simplex
import Verif.Proof.SimplexForm
import Verif.Proof.SimplexInt
import Verif.Proof.Smooth
import Verif.Proof.SpanSearch
import Verif.Proof.SplitBSpline
import Verif.Proof.Stability
import Verif.Proof.SubpatchMap
import Verif.Proof.ToBezier
import Verif.Proof.Turned
import Verif.Proof.TurningAngle
import Verif.Proof.Umbral
import Verif.Proof.UmbralDeriv
import Verif.Proof.Unique
import Verif.Proof.Variation
import Verif.Props.Affine
import Verif.Props.BSpline
import Verif.Props.BSplinePatch
import Verif.Props.Bezier
import Verif.Props.BezierPatch
import Verif.Props.Circle
import Verif.Props.Clone
import Verif.Props.Combine
import Verif.Props.Compose
import Verif.Props.ComposePatch
import Verif.Props.ComposeSpline
import Verif.Props.ComposeSplinePatch
import Verif.Props.ControlSearch
import Verif.Props.ControlSearchAffine
import Verif.Props.ControlSearchBezier
import Verif.Props.ControlSearchExamples
import Verif.Props.ControlSearchRefuted
import Verif.Props.ControlSearchRuns
import Verif.Props.CornerCut
import Verif.Props.Edges
import Verif.Props.EdgesExact
import Verif.Props.ElevateSpline
import Verif.Props.Ellipse
import Verif.Props.EllipseStep
import Verif.Props.FeaturePieces
import Verif.Props.Features
import Verif.Props.FlatInverse
import Verif.Props.FlatPatches
import Verif.Props.Float
import Verif.Props.FloatEdit
import Verif.Props.FloatNurbsConstant
import Verif.Props.FloatNurbsLow
import Verif.Props.FloatNurbsMixed
import Verif.Props.FloatNurbsPatch
import Verif.Props.FloatNurbsSecond
import Verif.Props.FloatPatch
import Verif.Props.FloatPatchConstant
import Verif.Props.FloatPatchDeriv
import Verif.Props.FloatPatchLow
import Verif.Props.FloatPatchSecond
import Verif.Props.FloatPatchWrap
import Verif.Props.FloatRational
import Verif.Props.FloatSearch
import Verif.Props.FloatSecond
import Verif.Props.FloatWrap
import Verif.Props.Hodographs
import Verif.Props.Ieee
import Verif.Props.IeeeExact
import Verif.Props.IeeeOrder
import Verif.Props.IeeeSearch
import Verif.Props.IeeeSearchExact
import Verif.Props.IeeeSigns
import Verif.Props.IeeeSpecial
import Verif.Props.IntersectSteps
import Verif.Props.Inverse
import Verif.Props.InverseArcLength
import Verif.Props.LeastSquares
import Verif.Props.Length
import Verif.Props.LineOffset
import Verif.Props.MshFile
import Verif.Props.MshKinds
import Verif.Props.MshRecord
import Verif.Props.NearOptimal
import Verif.Props.Numeric
import Verif.Props.NumericSteps
import Verif.Props.NurbsPatch
import Verif.Props.NurbsPatchEdit
import Verif.Props.Periodic
import Verif.Props.PeriodicDeriv
import Verif.Props.PeriodicNurbsDeriv
import Verif.Props.Primitive
import Verif.Props.PrimitiveFeatures
import Verif.Props.Quadrature
import Verif.Props.Rational
import Verif.Props.RationalAny
import Verif.Props.RationalDeriv
import Verif.Props.RationalIso
import Verif.Props.RationalNurbs
import Verif.Props.RationalOps
import Verif.Props.RationalPatch
import Verif.Props.RationalPatchDeriv
import Verif.Props.Refine
import Verif.Props.RefinePatch
import Verif.Props.RemoveKnot
import Verif.Props.Reparam
import Verif.Props.ReparamPatch
import Verif.Props.ReparamPatchDeriv
import Verif.Props.Rigid
import Verif.Props.RigidControl
import Verif.Props.RigidPrimitives
import Verif.Props.Roots
import Verif.Props.Samples
import Verif.Props.SaveMsh
import Verif.Props.SaveObj
import Verif.Props.Simplex
import Verif.Props.SimplexInt
import Verif.Props.Smooth
import Verif.Props.SmoothPatch
import Verif.Props.SpanSearch
import Verif.Props.Stability
import Verif.Props.Svg
import Verif.Props.Swept
import Verif.Props.TurningAngle
import Verif.Props.TurningSpline
import Verif.Props.Unique
import Verif.Props.Variation
import Verif.Props.Weights
import Verif.Props.WeightsPatch
import Verif.Props.Windows
import Verif.Audit
