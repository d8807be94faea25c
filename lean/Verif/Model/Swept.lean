import Verif.Model.Primitive
import Verif.Spec.Geom
import Mathlib.Analysis.InnerProductSpace.PiL2

/-!
# Model of `ExtrusionPatch.h`, `RevolutionPatch.h` and `OffsetPatch.h`

The profile curve and the base surface enter through their virtual functions.  Scalar arithmetic is
exact, so that the tests for non-finite numbers never fire; divisions by zero are undefined.
-/

namespace NS

open Outcome Geom

/-- What the patches use of a profile curve (`CurveBase`): the evaluators,
`approximate_inverse_evaluate(p, lower, upper)` and `get_periodic`. -/
structure Profile (K V : Type) where
  fn : CurveFn K V
  inv : V → K → K → Outcome K
  periodic : Bool

/-- The profile, or the exception of `assert_valid_profile` (ExtrusionPatch.h:209-214,
RevolutionPatch.h:265-270) and `assert_valid_base_surface` (OffsetPatch.h:257-262). -/
def getPart {P : Type} : Option P → Outcome P
  | some p => ok p
  | none => .throw .invalidSetting

/-! ## Extrusion -/

section Extrusion

variable {K V : Type} [Field K] [LinearOrder K] [IsStrictOrderedRing K] [FloorRing K]
  [AddCommGroup V] [Module K V] [Geom K V]

/-- The data of an `ExtrusionPatch` (ExtrusionPatch.h:216-224). -/
structure Extrusion (K V : Type) where
  location : V
  direction : V
  profile : Option (Profile K V)
  box : Box K

namespace Extrusion

/-- `initialize`, ExtrusionPatch.h:129-147; `tol` is ten times epsilon. -/
def init (tol : K) (s : Extrusion K V) : Outcome (Extrusion K V) := do
  let c ← getPart s.profile
  Outcome.assert (|(sqNorm s.direction : K) - 1| < tol)
  Outcome.assert (s.box.uUpper ≥ s.box.uLower)
  Outcome.assert (s.box.vUpper ≥ s.box.vLower)
  if c.periodic then do
    let p0 ← c.fn.ev s.box.uLower
    let p1 ← c.fn.ev s.box.uUpper
    pure { s with box := { s.box with
      periodicU := decide ((sqNorm (p1 - p0) : K) < tol), periodicV := false } }
  else
    pure { s with box := { s.box with periodicU := false, periodicV := false } }

/-- `clone`, ExtrusionPatch.h:32-44; the profile is cloned by `set_profile`, which is taken to
reproduce it. -/
def clone (tol : K) (s : Extrusion K V) : Outcome (Extrusion K V) :=
  init tol ⟨s.location, s.direction, s.profile,
    ⟨s.box.uLower, s.box.uUpper, s.box.vLower, s.box.vUpper, false, false⟩⟩

/-- The evaluators, ExtrusionPatch.h:65-100. -/
def fn (s : Extrusion K V) : PatchFn K V where
  ev u v := do
    let c ← getPart s.profile
    let p ← c.fn.ev u
    pure (s.location + p + v • s.direction)
  du u _ := do
    let c ← getPart s.profile
    c.fn.d1 u
  dv _ _ := do
    let _ ← getPart s.profile
    pure s.direction
  duu u _ := do
    let c ← getPart s.profile
    c.fn.d2 u
  dvv _ _ := do
    let _ ← getPart s.profile
    pure 0
  duv _ _ := do
    let _ ← getPart s.profile
    pure 0

/-- The loop of `inverse_evaluate`, ExtrusionPatch.h:113-121, with at least one and at most `n + 1`
iterations left; `v` is `uv[1]`. -/
def invLoop (tol : K) (s : Extrusion K V) (c : Profile K V) (p : V) (minU maxU : K) :
    ℕ → K → Outcome (K × K)
  | 0, v => do
    let u ← c.inv (p - s.location - v • s.direction) minU maxU
    let q ← c.fn.ev u
    pure (u, dot (p - q) s.direction)
  | n + 1, v => do
    let u ← c.inv (p - s.location - v • s.direction) minU maxU
    let q ← c.fn.ev u
    if |(dot (p - q) s.direction : K) - v| > tol then
      invLoop tol s c p minU maxU n (dot (p - q) s.direction)
    else pure (u, dot (p - q) s.direction)

/-- `inverse_evaluate`, ExtrusionPatch.h:102-127; `tol6` is `1e-6`. -/
def inverseEvaluate (tol6 : K) (s : Extrusion K V) (p : V) (minU maxU minV maxV : K) :
    Outcome ((K × K) × Bool) := do
  let c ← getPart s.profile
  let r ← invLoop tol6 s c p minU maxU 19 minV
  let v := min maxV (max minV r.2)
  Outcome.assert (r.1 ≥ minU ∧ r.1 ≤ maxU)
  Outcome.assert (v ≥ minV ∧ v ≤ maxV)
  pure ((r.1, v), true)

end Extrusion

end Extrusion

/-! ## Three-dimensional vectors -/

/-- Points of space, `Eigen::Matrix<double, 1, 3>`. -/
abbrev E3 : Type := EuclideanSpace ℝ (Fin 3)

/-- Eigen's `a.cross(b)`. -/
noncomputable def cross (a b : E3) : E3 :=
  !₂[a 1 * b 2 - a 2 * b 1, a 2 * b 0 - a 0 * b 2, a 0 * b 1 - a 1 * b 0]

/-- Eigen's `normalized()` and `normalize()`: a zero vector is left as it is. -/
noncomputable def normalized (a : E3) : E3 :=
  if 0 < (sqNorm a : ℝ) then (1 / Real.sqrt (sqNorm a)) • a else a

/-- Rotation by `Eigen::AngleAxis(u, a)`, by its rotation matrix: Rodrigues' formula. -/
noncomputable def rotate (u : ℝ) (a x : E3) : E3 :=
  Real.cos u • x + Real.sin u • cross a x + ((1 - Real.cos u) * dot a x) • a

/-! ## Revolution -/

/-- The data of a `RevolutionPatch` (RevolutionPatch.h:272-280). -/
structure Revolution where
  location : E3
  axis : E3
  profile : Option (Profile ℝ E3)
  box : Box ℝ

namespace Revolution

/-- `initialize`, RevolutionPatch.h:182-202; `tol` is ten times epsilon. -/
noncomputable def init (tol : ℝ) (s : Revolution) : Outcome Revolution := do
  let c ← getPart s.profile
  Outcome.assert (|(sqNorm s.axis : ℝ) - 1| < tol)
  Outcome.assert (s.box.uUpper ≥ s.box.uLower)
  Outcome.assert (s.box.vUpper ≥ s.box.vLower)
  if c.periodic then do
    let p0 ← c.fn.ev s.box.vLower
    let p1 ← c.fn.ev s.box.vUpper
    pure { s with box := { s.box with
      periodicU := windingPeriodic tol s.box.uLower s.box.uUpper
      periodicV := decide ((sqNorm (p1 - p0) : ℝ) < tol) } }
  else
    pure { s with box := { s.box with
      periodicU := windingPeriodic tol s.box.uLower s.box.uUpper, periodicV := false } }

/-- `clone`, RevolutionPatch.h:31-43. -/
noncomputable def clone (tol : ℝ) (s : Revolution) : Outcome Revolution :=
  init tol ⟨s.location, s.axis, s.profile,
    ⟨s.box.uLower, s.box.uUpper, s.box.vLower, s.box.vUpper, false, false⟩⟩

/-- The evaluators, RevolutionPatch.h:64-122; `tol` is ten times epsilon. -/
noncomputable def fn (tol : ℝ) (s : Revolution) : PatchFn ℝ E3 where
  ev u v := do
    let c ← getPart s.profile
    let p ← c.fn.ev v
    pure (s.location + rotate u s.axis (p - s.location))
  du u v := do
    let c ← getPart s.profile
    let p ← c.fn.ev v
    let x := s.location + rotate u s.axis (p - s.location) - s.location
    let d := cross s.axis x
    if (Geom.norm d : ℝ) > tol then
      pure ((Geom.norm (x - (dot x s.axis : ℝ) • s.axis) : ℝ) • normalized d)
    else pure d
  dv u v := do
    let c ← getPart s.profile
    let d ← c.fn.d1 v
    pure (rotate u s.axis d)
  duu u v := do
    let c ← getPart s.profile
    let p ← c.fn.ev v
    let d := s.location + rotate u s.axis (p - s.location) - s.location
    pure (-d + (dot d s.axis : ℝ) • s.axis)
  dvv u v := do
    let c ← getPart s.profile
    let d ← c.fn.d2 v
    pure (rotate u s.axis d)
  duv u v := do
    let c ← getPart s.profile
    let d1 ← c.fn.d1 v
    let d := cross s.axis (rotate u s.axis d1)
    if (Geom.norm d : ℝ) > tol then
      pure ((Geom.norm (d - (dot d s.axis : ℝ) • s.axis) : ℝ) • normalized d)
    else pure d

/-- The average of ten points of the profile, RevolutionPatch.h:133-142. -/
noncomputable def pivot (tol : ℝ) (s : Revolution) (minV maxV : ℝ) : Outcome E3 := do
  let q ← loop 10 (fun i q => do
    let t : ℝ := (i : ℝ) / 9
    let x ← (s.fn tol).ev 0 (minV * (1 - t) + maxV * t)
    pure (q + x)) 0
  pure ((1 / 10 : ℝ) • q)

/-- The loop of `inverse_evaluate`, RevolutionPatch.h:146-174.  The loop is unbounded in the code; running
out of `fuel` is undefined.  `tol` is ten times, `tol100` a hundred times epsilon. -/
noncomputable def invLoop (tol tol100 : ℝ) (s : Revolution) (c : Profile ℝ E3) (p : E3)
    (minU maxU minV maxV : ℝ) : ℕ → E3 → Outcome (ℝ × ℝ)
  | 0, _ => ub
  | n + 1, q => do
    let d := q - s.location
    let d1 := d - (dot d s.axis : ℝ) • s.axis
    let d2 := cross s.axis d1
    let x : ℝ := dot (p - s.location) (normalized d1)
    let y : ℝ := dot (p - s.location) (normalized d2)
    let u ← PatchBase.clipPeriodic (atan2 y x) minU maxU (2 * Real.pi)
    let p2 := s.location + rotate (-u) s.axis (p - s.location)
    let v ← c.inv p2 minV maxV
    let q2 ← (s.fn tol).ev 0 v
    if (sqNorm (q - q2) : ℝ) > tol100 then
      invLoop tol tol100 s c p minU maxU minV maxV n q2
    else pure (u, v)

/-- `inverse_evaluate`, RevolutionPatch.h:124-180; `big` is the initial distance of `newton_raphson`. -/
noncomputable def inverseEvaluate (big tol tol100 : ℝ) (fuel : ℕ) (s : Revolution) (p : E3)
    (minU maxU minV maxV : ℝ) : Outcome ((ℝ × ℝ) × Bool) := do
  let c ← getPart s.profile
  let q ← pivot tol s minV maxV
  let uv ← invLoop tol tol100 s c p minU maxU minV maxV fuel q
  let r ← PatchBase.newtonPatch (s.fn tol) p tol100 minU maxU minV maxV 20 uv.1 uv.2 uv big
  Outcome.assert (r.1.1 ≥ minU ∧ r.1.1 ≤ maxU)
  Outcome.assert (r.1.2 ≥ minV ∧ r.1.2 ≤ maxV)
  pure r

end Revolution

/-! ## Offset -/

/-- What an offset patch uses of its base surface (`PatchBase`): evaluators, inverse evaluation over a
box, periodicity and bounds. -/
structure BasePatch where
  fn : PatchFn ℝ E3
  inv : E3 → ℝ → ℝ → ℝ → ℝ → Outcome ((ℝ × ℝ) × Bool)
  box : Box ℝ

/-- The data of an `OffsetPatch` (OffsetPatch.h:264-270). -/
structure Offset where
  base : Option BasePatch
  offset : ℝ
  box : Box ℝ

namespace Offset

/-- `initialize`, OffsetPatch.h:172-191, without the degrees; `tol` is a hundred times epsilon. -/
noncomputable def init (tol : ℝ) (s : Offset) : Outcome Offset := do
  let b ← getPart s.base
  pure { s with box := { s.box with
    periodicU := s.box.periodicU || (b.box.periodicU && (decide (|b.box.uLower - s.box.uLower| < tol) &&
      decide (|b.box.uUpper - s.box.uUpper| < tol)))
    periodicV := s.box.periodicV || (b.box.periodicV && (decide (|b.box.vLower - s.box.vLower| < tol) &&
      decide (|b.box.vUpper - s.box.vUpper| < tol))) } }

/-- `clone`, OffsetPatch.h:25-36. -/
noncomputable def clone (tol : ℝ) (s : Offset) : Outcome Offset :=
  init tol ⟨s.base, s.offset,
    ⟨s.box.uLower, s.box.uUpper, s.box.vLower, s.box.vUpper, false, false⟩⟩

/-- `evaluate`, OffsetPatch.h:58-72. -/
noncomputable def evaluate (s : Offset) (u v : ℝ) : Outcome E3 := do
  let b ← getPart s.base
  let p ← b.fn.ev u v
  let du ← b.fn.du u v
  let dv ← b.fn.dv u v
  pure (p + s.offset • normalized (cross du dv))

/-- The formula of OffsetPatch.h:91 and 111, with the divisions by zero at singular points made
undefined. -/
noncomputable def slope (offset : ℝ) (d n r : E3) : Outcome E3 := do
  Outcome.assert ((sqNorm n : ℝ) ≠ 0)
  pure (d + offset • ((1 / Real.sqrt (sqNorm n)) • r -
    (dot r n / (sqNorm n * Real.sqrt (sqNorm n))) • n))

/-- `evaluate_derivative_u`, OffsetPatch.h:74-92. -/
noncomputable def evaluateDerivativeU (s : Offset) (u v : ℝ) : Outcome E3 := do
  let b ← getPart s.base
  let du ← b.fn.du u v
  let dv ← b.fn.dv u v
  let duu ← b.fn.duu u v
  let duv ← b.fn.duv u v
  slope s.offset du (cross du dv) (cross duu dv + cross du duv)

/-- `evaluate_derivative_v`, OffsetPatch.h:94-112. -/
noncomputable def evaluateDerivativeV (s : Offset) (u v : ℝ) : Outcome E3 := do
  let b ← getPart s.base
  let du ← b.fn.du u v
  let dv ← b.fn.dv u v
  let duv ← b.fn.duv u v
  let dvv ← b.fn.dvv u v
  slope s.offset dv (cross du dv) (cross duv dv + cross du dvv)

/-- The finite difference of OffsetPatch.h:118-146; a zero step is undefined. -/
noncomputable def difference (delta : ℝ) (f : ℝ → Outcome E3) (t : ℝ) : Outcome E3 := do
  let before ← f (t - delta)
  let after ← f (t + delta)
  Outcome.assert (delta ≠ 0)
  pure ((1 / (delta * 2)) • (after - before))

/-- All evaluators, OffsetPatch.h:58-146; `small` is `1e-6`. -/
noncomputable def fn (small : ℝ) (s : Offset) : PatchFn ℝ E3 where
  ev := s.evaluate
  du := s.evaluateDerivativeU
  dv := s.evaluateDerivativeV
  duu u v := difference ((s.box.uUpper - s.box.uLower) * small) (fun x => s.evaluateDerivativeU x v) u
  dvv u v := difference ((s.box.vUpper - s.box.vLower) * small) (fun y => s.evaluateDerivativeV u y) v
  duv u v := difference ((s.box.vUpper - s.box.vLower) * small) (fun y => s.evaluateDerivativeU u y) v

/-- `inverse_evaluate`, OffsetPatch.h:148-170, with the default 20 iterations and tolerance `tolInv` of
`PatchBase::inverse_evaluate` (PatchBase.h:177-194). -/
noncomputable def inverseEvaluate (big small tolInv : ℝ) (s : Offset) (p : E3)
    (minU maxU minV maxV : ℝ) : Outcome ((ℝ × ℝ) × Bool) := do
  let b ← getPart s.base
  let r ← b.inv p minU maxU minV maxV
  let r2 ← PatchBase.inverseFrom big (s.fn small) p r.1.1 r.1.2 minU maxU minV maxV 20 tolInv
  if r.2 && !r2.2 then
    PatchBase.inverseFrom big (s.fn small) p r2.1.1 r2.1.2 minU maxU minV maxV 20 tolInv
  else pure r2

end Offset

end NS
