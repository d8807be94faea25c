import Mathlib.Algebra.Order.Field.Basic
import Verif.Basic.Grid

/-!
# Model of `save_svg.h` and `VectorExport.h`

A file is the list of the coordinates it contains; the text formatting of numbers, colours and line
widths of SVG are not modelled.  A planar curve is represented by its control points, its `evaluate`
function and its domain, the only parts the exporters use.  `hyp a b` is the Euclidean norm of `(a, b)`.
-/

namespace NS

open Outcome

variable {K : Type} [Field K] [LinearOrder K]

/-- The parts of a planar curve used by the exporters. -/
structure DrawnCurve (K : Type) where
  ctrl : List (K × K)
  ev : K → Outcome (K × K)
  lo : K
  hi : K

/-- The `i`-th of the `n + 1` parameters, VectorExport.h:28-29 and 83-84.  For `n = 0` the quotient is NaN
and `std::min(max_t, NaN)` is `max_t`. -/
def drawParam (c : DrawnCurve K) (n i : ℕ) : K :=
  if n = 0 then max c.lo c.hi
  else max c.lo (min c.hi (c.lo + (i : K) / (n : K) * (c.hi - c.lo)))

/-- The map from points to the page, VectorExport.h:32-36. -/
def place (offset : K × K) (scaling : K) (p : K × K) : K × K :=
  ((p.1 + offset.1) * scaling, (p.2 + offset.2) * scaling)

/-- The elements written by `to_svg`: the vertices of the path, each with the flag "`M`" (else "`L`"), and
the centres and radii of the circles unless `export_ctrl` is false. -/
structure SvgShape (K : Type) where
  path : List (Bool × (K × K))
  circles : Option (List ((K × K) × K))
  deriving DecidableEq, Repr

/-- `to_svg`, VectorExport.h:7-55. -/
def toSvg (c : DrawnCurve K) (offset : K × K) (scaling : K) (exportCtrl : Bool) (radius : K) (n : ℕ) :
    Outcome (SvgShape K) := do
  let path ← tab (n + 1) (fun i => do
    let p ← c.ev (drawParam c n i)
    pure (decide (i = 0), place offset scaling p))
  if !exportCtrl then pure ⟨path, none⟩
  else pure ⟨path, some (c.ctrl.map (fun p => (place offset scaling p, radius * scaling)))⟩

/-- An SVG file: width and height of the `viewBox`, those of the frame, and the elements. -/
structure SvgDoc (K : Type) where
  viewBox : K × K
  frame : K × K
  shapes : List (SvgShape K)
  deriving DecidableEq, Repr

/-- `control_points.colwise().minCoeff()`, save_svg.h:17; Eigen asserts that the matrix is not empty. -/
def colMin : List (K × K) → Outcome (K × K)
  | [] => ub
  | p :: ps => ok (ps.foldl (fun a q => (min a.1 q.1, min a.2 q.2)) p)

/-- `control_points.colwise().maxCoeff()`, save_svg.h:18. -/
def colMax : List (K × K) → Outcome (K × K)
  | [] => ub
  | p :: ps => ok (ps.foldl (fun a q => (max a.1 q.1, max a.2 q.2)) p)

/-- save_svg.h:19-41 and 65-84, the part common to both versions of `save_svg`: a bounding box to the file.
A box of zero size divides by zero (undefined). -/
def svgPage (hyp : K → K → K) (mn mx : K × K) (cs : List (DrawnCurve K)) : Outcome (SvgDoc K) := do
  let dim := (mx.1 - mn.1, mx.2 - mn.2)
  let size := max dim.1 dim.2
  Outcome.assert (size ≠ 0)
  let margin := size / 10
  let s := 1000 / size
  let r := hyp dim.1 dim.2 / 100
  let o := (-mn.1 + margin, -mn.2 + margin)
  let box := ((dim.1 + 2 * margin) * s, (dim.2 + 2 * margin) * s)
  let shapes ← tab cs.length (fun i => do
    let c ← rd cs i
    toSvg c o s true r 1000)
  pure ⟨box, box, shapes⟩

/-- `save_svg(filename, curve)`, save_svg.h:12-42. -/
def saveSvg (hyp : K → K → K) (c : DrawnCurve K) : Outcome (SvgDoc K) := do
  let mn ← colMin c.ctrl
  let mx ← colMax c.ctrl
  svgPage hyp mn mx [c]

/-- The loop over the curves that grows the bounding box, save_svg.h:54-61. -/
def growBox : List (DrawnCurve K) → (K × K) × (K × K) → Outcome ((K × K) × (K × K))
  | [], b => ok b
  | c :: cs, b => do
    let mn ← colMin c.ctrl
    let mx ← colMax c.ctrl
    growBox cs ((min b.1.1 mn.1, min b.1.2 mn.2), (max b.2.1 mx.1, max b.2.2 mx.2))

/-- `save_svg(filename, curves)`, save_svg.h:44-85; `big` is the largest scalar. -/
def saveSvgs (hyp : K → K → K) (big : K) (cs : List (DrawnCurve K)) : Outcome (SvgDoc K) := do
  let b ← growBox cs ((big, big), (-big, -big))
  svgPage hyp b.1 b.2 cs

/-! ## `to_eps` -/

/-- A token of a PostScript program. -/
inductive PsTok (K : Type) where
  | num (x : K)
  | name (s : String)
  deriving DecidableEq, Repr

/-- The tokens of `x y`. -/
def psPoint (p : K × K) : List (PsTok K) := [.num p.1, .num p.2]

/-- `to_eps`, VectorExport.h:57-105; the colour strings are given by their three numbers. -/
def toEps (c : DrawnCurve K) (offset : K × K) (scaling : K) (exportCtrl : Bool) (color : K × K × K)
    (lineWidth : K) (ctrlColor : K × K × K) (radius : K) (n : ℕ) : Outcome (List (PsTok K)) := do
  let path ← tab (n + 1) (fun i => do
    let p ← c.ev (drawParam c n i)
    pure (psPoint (place offset scaling p) ++
      [PsTok.name (if i = 0 then "moveto" else "lineto")]))
  let body := [.num color.1, .num color.2.1, .num color.2.2, .name "setrgbcolor",
    .num lineWidth, .name "setlinewidth"] ++ path.flatten ++ [.name "stoke"]
  if !exportCtrl then pure body
  else pure (body ++ [.num ctrlColor.1, .num ctrlColor.2.1, .num ctrlColor.2.2, .name "setrgbcolor"] ++
    (c.ctrl.map (fun p => psPoint (place offset scaling p) ++
      [.num (radius * scaling), .num 0, .num 360])).flatten ++ [.name "fill"])

end NS
