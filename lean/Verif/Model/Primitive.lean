import Verif.Model.Numeric
import Mathlib.Analysis.SpecialFunctions.Complex.Arg

/-!
# Model of the analytic primitives

`Circle.h`, `Ellipse.h`, `Plane.h`, `Cylinder.h`, `Cone.h`, `Sphere.h`, `Torus.h`.

Scalars are real numbers (the plane works over any field), `M_PI` is `π`, `std::cos`, `std::sin` and
`std::sqrt` are the exact functions and `std::atan2 (y, x)` is the argument of `x + y i`, in `(-π, π]`
(for `y = -0.0`, `x < 0` the C++ function returns `-π`; signed zeros are not modelled).
-/

namespace NS

open Outcome Geom

/-- `std::round`: halves are rounded away from zero. -/
def rnd {K : Type} [Field K] [LinearOrder K] [FloorRing K] (x : K) : ℤ :=
  if 0 ≤ x then ⌊x + 1 / 2⌋ else ⌈x - 1 / 2⌉

/-- `std::atan2`. -/
noncomputable def atan2 (y x : ℝ) : ℝ := Complex.arg ⟨x, y⟩

/-- `std::hypot`. -/
noncomputable def hypot (x y : ℝ) : ℝ := Real.sqrt (x * x + y * y)

/-- The periodicity test of a parameter that is an angle: `update_periodicity` (Circle.h:182-186,
Ellipse.h:238-242) and its copies in the `initialize` of the patches (Cylinder.h:102-103,
Cone.h:122-123, Sphere.h:120-121, Torus.h:125-128, RevolutionPatch.h:191-192). -/
noncomputable def windingPeriodic (tol lower upper : ℝ) : Bool :=
  let rounded := (rnd ((upper - lower) / (2 * Real.pi)) : ℝ) * 2 * Real.pi
  decide (|upper - lower - rounded| < tol)

/-- The loop `while (t < lower) t += 2 * M_PI`, Circle.h:105-107, Ellipse.h:173-175.  The loop is
unbounded in the code; `fuel` bounds the number of iterations and running out of it is undefined. -/
noncomputable def raise (lower : ℝ) : ℕ → ℝ → Outcome ℝ
  | 0, t => if t < lower then ub else ok t
  | n + 1, t => if t < lower then raise lower n (t + 2 * Real.pi) else ok t

section Curves

variable {V : Type} [AddCommGroup V] [Module ℝ V] [Geom ℝ V]

/-- The data of a `Circle` (Circle.h:189-193) and the flag of `CurveBase`. -/
structure Circle (V : Type) where
  center : V
  e0 : V
  e1 : V
  radius : ℝ
  lower : ℝ
  upper : ℝ
  periodic : Bool

namespace Circle

/-- `initialize`, Circle.h:44-52; `tol` is `10 * epsilon`. -/
noncomputable def init (tol : ℝ) (c : Circle V) : Outcome (Circle V) := do
  Outcome.assert (|(sqNorm c.e0 : ℝ) - 1| < tol)
  Outcome.assert (|(sqNorm c.e1 : ℝ) - 1| < tol)
  Outcome.assert (|(dot c.e0 c.e1 : ℝ)| < tol)
  Outcome.assert (c.upper ≥ c.lower)
  pure { c with periodic := windingPeriodic tol c.lower c.upper }

/-- `clone`, Circle.h:32-42. -/
noncomputable def clone (tol : ℝ) (c : Circle V) : Outcome (Circle V) :=
  init tol ⟨c.center, c.e0, c.e1, c.radius, c.lower, c.upper, false⟩

/-- `evaluate`, Circle.h:75-78. -/
noncomputable def evaluate (c : Circle V) (t : ℝ) : V :=
  c.center + c.radius • (Real.cos t • c.e0 + Real.sin t • c.e1)

/-- `evaluate_derivative`, Circle.h:85-88. -/
noncomputable def evaluateDerivative (c : Circle V) (t : ℝ) : V :=
  c.radius • (Real.sin t • (-c.e0) + Real.cos t • c.e1)

/-- `evaluate_2nd_derivative`, Circle.h:90-93. -/
noncomputable def evaluate2ndDerivative (c : Circle V) (t : ℝ) : V :=
  c.radius • (Real.cos t • (-c.e0) - Real.sin t • c.e1)

/-- `approximate_inverse_evaluate`, Circle.h:95-119. -/
noncomputable def approxInverse (fuel : ℕ) (c : Circle V) (p : V) (lower upper : ℝ) :
    Outcome ℝ := do
  Outcome.assert (lower ≤ upper)
  let x : ℝ := dot c.e0 (p - c.center)
  let y : ℝ := dot c.e1 (p - c.center)
  let t ← raise lower fuel (atan2 y x)
  pure (if t > upper then
      (if (sqNorm (c.evaluate lower - p) : ℝ) < sqNorm (c.evaluate upper - p) then lower else upper)
    else t)

/-- `inverse_evaluate`, Circle.h:80-83. -/
noncomputable def inverseEvaluate (fuel : ℕ) (c : Circle V) (p : V) : Outcome ℝ :=
  c.approxInverse fuel p c.lower c.upper

end Circle

/-- The data of an `Ellipse` (Ellipse.h:245-250) and the flag of `CurveBase`. -/
structure Ellipse (V : Type) where
  center : V
  e0 : V
  e1 : V
  major : ℝ
  minor : ℝ
  lower : ℝ
  upper : ℝ
  periodic : Bool

namespace Ellipse

/-- `initialize`, Ellipse.h:45-54. -/
noncomputable def init (tol : ℝ) (c : Ellipse V) : Outcome (Ellipse V) := do
  Outcome.assert (c.major > 0)
  Outcome.assert (c.minor > 0)
  Outcome.assert (c.major ≥ c.minor)
  Outcome.assert (|(dot c.e0 c.e1 : ℝ)| < tol)
  Outcome.assert (c.upper ≥ c.lower)
  pure { c with periodic := windingPeriodic tol c.lower c.upper }

/-- `clone`, Ellipse.h:32-43. -/
noncomputable def clone (tol : ℝ) (c : Ellipse V) : Outcome (Ellipse V) :=
  init tol ⟨c.center, c.e0, c.e1, c.major, c.minor, c.lower, c.upper, false⟩

/-- `evaluate`, Ellipse.h:86-90. -/
noncomputable def evaluate (c : Ellipse V) (t : ℝ) : V :=
  c.center + c.major • (Real.cos t • c.e0) + c.minor • (Real.sin t • c.e1)

/-- `evaluate_derivative`, Ellipse.h:97-101. -/
noncomputable def evaluateDerivative (c : Ellipse V) (t : ℝ) : V :=
  Real.sin t • (c.major • (-c.e0)) + Real.cos t • (c.minor • c.e1)

/-- `evaluate_2nd_derivative`, Ellipse.h:103-107. -/
noncomputable def evaluate2ndDerivative (c : Ellipse V) (t : ℝ) : V :=
  Real.cos t • (-c.major • c.e0) - Real.sin t • (c.minor • c.e1)

/-- The angle `theta` times the radius of curvature divided by the speed: the body of the loop of
`approximate_inverse_evaluate` up to the update of `t`, Ellipse.h:137-154.  A non-positive radicand
gives NaN or an infinity and is made undefined. -/
noncomputable def stepSize (tol : ℝ) (c : Ellipse V) (a1 a2 p2 : V) (t : ℝ) : Outcome ℝ := do
  let q := c.evaluate t
  let k ← curvature (K := ℝ) (fun s => ok (c.evaluateDerivative s))
    (fun s => ok (c.evaluate2ndDerivative s)) t
  let sn : ℝ := sqNorm k
  Outcome.assert (sn > tol)
  let r := 1 / Real.sqrt sn
  let cc := q + (1 / sn) • k
  let x : ℝ := dot (q - c.center) a1
  let y : ℝ := dot (q - c.center) a2
  let qx : ℝ := dot (q - cc) a1
  let qy : ℝ := dot (q - cc) a2
  let px : ℝ := dot (p2 - cc) a1
  let py : ℝ := dot (p2 - cc) a2
  let theta := atan2 (qx * py - qy * px) (qx * px + qy * py)
  let rad := c.major * c.major + c.minor * c.minor - x * x - y * y
  if rad ≤ 0 then ub else pure (r * theta / Real.sqrt rad)

/-- The clamping of `t`, Ellipse.h:156-160. -/
noncomputable def quadrant (t : ℝ) : ℝ :=
  if t < 0 then 0 else if t > Real.pi / 2 then Real.pi / 2 else t

/-- The loop of `approximate_inverse_evaluate`, Ellipse.h:135-162, with `n` iterations left. -/
noncomputable def closestGo (tol : ℝ) (c : Ellipse V) (a1 a2 p2 : V) : ℕ → ℝ → ℝ → Outcome ℝ
  | 0, t, _ => ok t
  | n + 1, t, dt =>
    if |dt| > tol then do
      let d ← stepSize tol c a1 a2 p2 t
      closestGo tol c a1 a2 p2 n (quadrant (t + d)) d
    else ok t

/-- `m_frame.row(i) / m_frame.row(i).norm()`, Ellipse.h:118-119; a zero row gives NaN, made
undefined. -/
noncomputable def axis (e : V) : Outcome V :=
  if (norm e : ℝ) = 0 then ub else ok ((1 / norm e : ℝ) • e)

/-- The reflection of the query into the first quadrant, Ellipse.h:122-130. -/
noncomputable def reflectPoint (c : Ellipse V) (a1 a2 p : V) : V :=
  let p2 := if (dot (p - c.center) a1 : ℝ) < 0 then p - (2 * (dot (p - c.center) a1 : ℝ)) • a1 else p
  if (dot (p - c.center) a2 : ℝ) < 0 then p2 - (2 * (dot (p - c.center) a2 : ℝ)) • a2 else p2

/-- Undoing the reflection on the parameter, Ellipse.h:165-170. -/
noncomputable def reflectParam (c : Ellipse V) (a1 a2 p : V) (t : ℝ) : ℝ :=
  let t1 := if (dot (p - c.center) a1 : ℝ) < 0 then Real.pi - t else t
  if (dot (p - c.center) a2 : ℝ) < 0 then 2 * Real.pi - t1 else t1

/-- `approximate_inverse_evaluate`, Ellipse.h:109-187; `big` is the largest scalar. -/
noncomputable def approxInverse (tol big : ℝ) (fuel : ℕ) (c : Ellipse V) (p : V)
    (lower upper : ℝ) : Outcome ℝ := do
  Outcome.assert (lower ≤ upper)
  let a1 ← axis c.e0
  let a2 ← axis c.e1
  let t ← closestGo tol c a1 a2 (reflectPoint c a1 a2 p) 100 (Real.pi / 4) big
  let t ← raise lower fuel (reflectParam c a1 a2 p t)
  pure (if t > upper then
      (if (sqNorm (c.evaluate lower - p) : ℝ) < sqNorm (c.evaluate upper - p) then lower else upper)
    else t)

/-- `inverse_evaluate`, Ellipse.h:92-95. -/
noncomputable def inverseEvaluate (tol big : ℝ) (fuel : ℕ) (c : Ellipse V) (p : V) : Outcome ℝ :=
  c.approxInverse tol big fuel p c.lower c.upper

end Ellipse

end Curves

/-- The bounds of a patch and the flags of `PatchBase` (e.g. Cylinder.h:171-174). -/
structure Box (K : Type) where
  uLower : K
  uUpper : K
  vLower : K
  vUpper : K
  periodicU : Bool
  periodicV : Bool

section Plane

variable {K V : Type} [Field K] [LinearOrder K] [IsStrictOrderedRing K] [FloorRing K]
  [AddCommGroup V] [Module K V] [Geom K V]

/-- The data of a `Plane` (Plane.h:148-153). -/
structure Plane (K V : Type) where
  location : V
  e0 : V
  e1 : V
  box : Box K

namespace Plane

/-- `initialize`, Plane.h:75-85. -/
def init (tol : K) (s : Plane K V) : Outcome (Plane K V) := do
  Outcome.assert ((sqNorm s.e0 : K) > tol)
  Outcome.assert ((sqNorm s.e1 : K) > tol)
  Outcome.assert (s.box.uUpper ≥ s.box.uLower)
  Outcome.assert (s.box.vUpper ≥ s.box.vLower)
  pure { s with box := { s.box with periodicU := false, periodicV := false } }

/-- `evaluate`, Plane.h:43-46. -/
def evaluate (s : Plane K V) (u v : K) : V := s.location + u • s.e0 + v • s.e1

/-- `evaluate_derivative_u`, `_v`, `evaluate_2nd_derivative_uu`, `_vv`, `_uv`, Plane.h:48-56. -/
def fn (s : Plane K V) : PatchFn K V where
  ev u v := ok (s.evaluate u v)
  du _ _ := ok s.e0
  dv _ _ := ok s.e1
  duu _ _ := ok 0
  dvv _ _ := ok 0
  duv _ _ := ok 0

/-- `inverse_evaluate`, Plane.h:58-73; a zero row gives NaN, made undefined. -/
def inverseEvaluate (s : Plane K V) (p : V) (minU maxU minV maxV : K) :
    Outcome ((K × K) × Bool) :=
  if (sqNorm s.e0 : K) = 0 ∨ (sqNorm s.e1 : K) = 0 then ub else
  let u : K := dot (p - s.location) s.e0 / sqNorm s.e0
  let v : K := dot (p - s.location) s.e1 / sqNorm s.e1
  ok ((max minU (min u maxU), max minV (min v maxV)), true)

end Plane

end Plane

section Patches

variable {V : Type} [AddCommGroup V] [Module ℝ V] [Geom ℝ V]

/-- The rows of `m_frame`. -/
structure Frame (V : Type) where
  e0 : V
  e1 : V
  e2 : V

/-- The asserts on frame and bounds at the start of `initialize` (Cylinder.h:93-100, Cone.h:113-120,
Sphere.h:111-118, Torus.h:116-123). -/
noncomputable def checkFrame (tol : ℝ) (f : Frame V) (b : Box ℝ) : Outcome Unit := do
  Outcome.assert (|(sqNorm f.e0 : ℝ) - 1| < tol)
  Outcome.assert (|(sqNorm f.e1 : ℝ) - 1| < tol)
  Outcome.assert (|(sqNorm f.e2 : ℝ) - 1| < tol)
  Outcome.assert (|(dot f.e0 f.e1 : ℝ)| < tol)
  Outcome.assert (|(dot f.e1 f.e2 : ℝ)| < tol)
  Outcome.assert (|(dot f.e2 f.e0 : ℝ)| < tol)
  Outcome.assert (b.uUpper ≥ b.uLower)
  Outcome.assert (b.vUpper ≥ b.vLower)

/-- The data of a `Cylinder` (Cylinder.h:168-174). -/
structure Cylinder (V : Type) where
  location : V
  frame : Frame V
  radius : ℝ
  box : Box ℝ

namespace Cylinder

/-- `initialize`, Cylinder.h:90-105. -/
noncomputable def init (tol : ℝ) (s : Cylinder V) : Outcome (Cylinder V) := do
  checkFrame tol s.frame s.box
  pure { s with box := { s.box with
    periodicU := windingPeriodic tol s.box.uLower s.box.uUpper, periodicV := false } }

/-- `evaluate`, Cylinder.h:49-53. -/
noncomputable def evaluate (s : Cylinder V) (u v : ℝ) : V :=
  s.location + s.radius • (Real.cos u • s.frame.e0) + s.radius • (Real.sin u • s.frame.e1)
    + v • s.frame.e2

/-- The evaluators, Cylinder.h:49-69. -/
noncomputable def fn (s : Cylinder V) : PatchFn ℝ V where
  ev u v := ok (s.evaluate u v)
  du u _ := ok (s.radius • (Real.sin u • (-s.frame.e0)) + s.radius • (Real.cos u • s.frame.e1))
  dv _ _ := ok s.frame.e2
  duu u _ := ok (s.radius • (Real.cos u • (-s.frame.e0)) - s.radius • (Real.sin u • s.frame.e1))
  dvv _ _ := ok 0
  duv _ _ := ok 0

/-- `inverse_evaluate`, Cylinder.h:71-88. -/
noncomputable def inverseEvaluate (s : Cylinder V) (p : V) (minU maxU minV maxV : ℝ) :
    Outcome ((ℝ × ℝ) × Bool) := do
  let x : ℝ := dot (p - s.location) s.frame.e0
  let y : ℝ := dot (p - s.location) s.frame.e1
  let z : ℝ := dot (p - s.location) s.frame.e2
  let v := max minV (min z maxV)
  let u ← PatchBase.clipPeriodic (atan2 y x) minU maxU (2 * Real.pi)
  pure ((u, v), true)

end Cylinder

/-- The data of a `Cone` (Cone.h:188-195). -/
structure Cone (V : Type) where
  location : V
  frame : Frame V
  radius : ℝ
  angle : ℝ
  box : Box ℝ

namespace Cone

/-- `initialize`, Cone.h:110-125. -/
noncomputable def init (tol : ℝ) (s : Cone V) : Outcome (Cone V) := do
  checkFrame tol s.frame s.box
  pure { s with box := { s.box with
    periodicU := windingPeriodic tol s.box.uLower s.box.uUpper, periodicV := false } }

/-- `evaluate`, Cone.h:52-58. -/
noncomputable def evaluate (s : Cone V) (u v : ℝ) : V :=
  s.location + (s.radius + v * Real.sin s.angle) •
      (Real.cos u • s.frame.e0 + Real.sin u • s.frame.e1)
    + Real.cos s.angle • (v • s.frame.e2)

/-- The evaluators, Cone.h:52-83. -/
noncomputable def fn (s : Cone V) : PatchFn ℝ V where
  ev u v := ok (s.evaluate u v)
  du u v := ok ((s.radius + v * Real.sin s.angle) •
    (Real.sin u • (-s.frame.e0) + Real.cos u • s.frame.e1))
  dv u _ := ok (Real.sin s.angle • (Real.cos u • s.frame.e0 + Real.sin u • s.frame.e1)
    + Real.cos s.angle • s.frame.e2)
  duu u v := ok ((s.radius + v * Real.sin s.angle) •
    (Real.cos u • (-s.frame.e0) - Real.sin u • s.frame.e1))
  dvv _ _ := ok 0
  duv u _ := ok (Real.sin s.angle • (Real.sin u • (-s.frame.e0) + Real.cos u • s.frame.e1))

/-- `inverse_evaluate`, Cone.h:85-108; `tol6` is `1e-6`. -/
noncomputable def inverseEvaluate (tol6 : ℝ) (s : Cone V) (p : V) (minU maxU minV maxV : ℝ) :
    Outcome ((ℝ × ℝ) × Bool) := do
  let x : ℝ := dot (p - s.location) s.frame.e0
  let y : ℝ := dot (p - s.location) s.frame.e1
  let a := atan2 y x
  let w := Real.cos a • s.frame.e0 + Real.sin a • s.frame.e1
  let q := s.location + s.radius • w
  let d := Real.sin s.angle • w + Real.cos s.angle • s.frame.e2
  Outcome.assert (|(norm d : ℝ) - 1| < tol6)
  let h : ℝ := dot (p - q) d
  let v := max minV (min h maxV)
  let u ← PatchBase.clipPeriodic a minU maxU (2 * Real.pi)
  pure ((u, v), true)

end Cone

/-- The data of a `Sphere` (Sphere.h:190-196). -/
structure Sphere (V : Type) where
  location : V
  frame : Frame V
  radius : ℝ
  box : Box ℝ

namespace Sphere

/-- `initialize`, Sphere.h:108-127. -/
noncomputable def init (tol : ℝ) (s : Sphere V) : Outcome (Sphere V) := do
  checkFrame tol s.frame s.box
  pure { s with box := { s.box with
    periodicU := windingPeriodic tol s.box.uLower s.box.uUpper
    periodicV := decide (|s.box.vLower + Real.pi / 2| < tol) &&
      decide (|s.box.vUpper - Real.pi / 2| < tol) } }

/-- `evaluate`, Sphere.h:49-55. -/
noncomputable def evaluate (s : Sphere V) (u v : ℝ) : V :=
  s.location + (s.radius * Real.cos v) • (Real.cos u • s.frame.e0 + Real.sin u • s.frame.e1)
    + (s.radius * Real.sin v) • s.frame.e2

/-- The evaluators, Sphere.h:49-87. -/
noncomputable def fn (s : Sphere V) : PatchFn ℝ V where
  ev u v := ok (s.evaluate u v)
  du u v := ok ((s.radius * Real.cos v) •
    (-Real.sin u • s.frame.e0 + Real.cos u • s.frame.e1))
  dv u v := ok ((-s.radius * Real.sin v) • (Real.cos u • s.frame.e0 + Real.sin u • s.frame.e1)
    + (s.radius * Real.cos v) • s.frame.e2)
  duu u v := ok ((s.radius * Real.cos v) •
    (-Real.cos u • s.frame.e0 - Real.sin u • s.frame.e1))
  dvv u v := ok ((-s.radius * Real.cos v) • (Real.cos u • s.frame.e0 + Real.sin u • s.frame.e1)
    - (s.radius * Real.sin v) • s.frame.e2)
  duv u v := ok ((-s.radius * Real.sin v) •
    (-Real.sin u • s.frame.e0 + Real.cos u • s.frame.e1))

/-- `inverse_evaluate`, Sphere.h:89-106. -/
noncomputable def inverseEvaluate (s : Sphere V) (p : V) (minU maxU minV maxV : ℝ) :
    Outcome ((ℝ × ℝ) × Bool) := do
  let x : ℝ := dot (p - s.location) s.frame.e0
  let y : ℝ := dot (p - s.location) s.frame.e1
  let z : ℝ := dot (p - s.location) s.frame.e2
  let u ← PatchBase.clipPeriodic (atan2 y x) minU maxU (2 * Real.pi)
  let v ← PatchBase.clipPeriodic (atan2 z (hypot x y)) minV maxV (2 * Real.pi)
  pure ((u, v), true)

end Sphere

/-- The data of a `Torus` (Torus.h:192-199). -/
structure Torus (V : Type) where
  location : V
  frame : Frame V
  major : ℝ
  minor : ℝ
  box : Box ℝ

namespace Torus

/-- `initialize`, Torus.h:113-130. -/
noncomputable def init (tol : ℝ) (s : Torus V) : Outcome (Torus V) := do
  checkFrame tol s.frame s.box
  pure { s with box := { s.box with
    periodicU := windingPeriodic tol s.box.uLower s.box.uUpper
    periodicV := windingPeriodic tol s.box.vLower s.box.vUpper } }

/-- `evaluate`, Torus.h:52-58. -/
noncomputable def evaluate (s : Torus V) (u v : ℝ) : V :=
  s.location + (s.major + s.minor * Real.cos v) •
      (Real.cos u • s.frame.e0 + Real.sin u • s.frame.e1)
    + (s.minor * Real.sin v) • s.frame.e2

/-- The evaluators, Torus.h:52-90. -/
noncomputable def fn (s : Torus V) : PatchFn ℝ V where
  ev u v := ok (s.evaluate u v)
  du u v := ok ((s.major + s.minor * Real.cos v) •
    (-Real.sin u • s.frame.e0 + Real.cos u • s.frame.e1))
  dv u v := ok ((-s.minor * Real.sin v) • (Real.cos u • s.frame.e0 + Real.sin u • s.frame.e1)
    + (s.minor * Real.cos v) • s.frame.e2)
  duu u v := ok ((s.major + s.minor * Real.cos v) •
    (-Real.cos u • s.frame.e0 - Real.sin u • s.frame.e1))
  dvv u v := ok ((-s.minor * Real.cos v) • (Real.cos u • s.frame.e0 + Real.sin u • s.frame.e1)
    - (s.minor * Real.sin v) • s.frame.e2)
  duv u v := ok ((s.minor * Real.sin v) • (Real.sin u • s.frame.e0 - Real.cos u • s.frame.e1))

/-- `inverse_evaluate`, Torus.h:92-111. -/
noncomputable def inverseEvaluate (s : Torus V) (p : V) (minU maxU minV maxV : ℝ) :
    Outcome ((ℝ × ℝ) × Bool) := do
  let x : ℝ := dot (p - s.location) s.frame.e0
  let y : ℝ := dot (p - s.location) s.frame.e1
  let z : ℝ := dot (p - s.location) s.frame.e2
  let w := hypot x y - s.major
  let u ← PatchBase.clipPeriodic (atan2 y x) minU maxU (2 * Real.pi)
  let v ← PatchBase.clipPeriodic (atan2 z w) minV maxV (2 * Real.pi)
  pure ((u, v), true)

end Torus

end Patches

end NS
