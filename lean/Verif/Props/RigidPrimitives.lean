import Verif.Model.Line
import Verif.Model.Primitive
import Verif.Model.Swept
import Verif.Props.Rigid

/-!
# Primitives and sweeps under rigid motions (C110)

Moving a primitive means moving its location and turning its frame.
-/

set_option linter.unusedSectionVars false

namespace NS.Props

open Outcome Geom LawfulGeom

section Generic

variable {K V W : Type} [Field K] [LinearOrder K] [IsStrictOrderedRing K] [FloorRing K]
  [AddCommGroup V] [Module K V] [Geom K V] [LawfulGeom K V]
  [AddCommGroup W] [Module K W] [Geom K W] [LawfulGeom K W] {f : V →ᵃ[K] W}

theorem moved_add (f : V →ᵃ[K] W) (x y : V) : f (x + y) = f x + f.linear y := by
  rw [affine_eq f (x + y), affine_eq f x, map_add]; abel

theorem moved_sub (f : V →ᵃ[K] W) (x y : V) : f (x - y) = f x - f.linear y := by
  rw [sub_eq_add_neg, moved_add, map_neg, sub_eq_add_neg]

theorem assert_moved {α β : Type} {g : α → β} {c c' : Prop} [Decidable c] [Decidable c'] (h : c' ↔ c) {x : Outcome α}
    {y : Outcome β} (e : y = g <$> x) :
    (Outcome.assert c' >>= fun _ => y) = g <$> (Outcome.assert c >>= fun _ => x) := by
  unfold Outcome.assert
  by_cases hc : c
  · rw [if_pos hc, if_pos (h.2 hc), ok_bind, ok_bind, e]
  · rw [if_neg hc, if_neg (fun x => hc (h.1 x))]
    rfl

/-! ### Lines and planes -/

/-- The moved line. -/
def moveLine (f : V →ᵃ[K] W) (c : Line K V) : Line K W :=
  ⟨f c.location, f.linear c.direction, c.lower, c.upper, c.periodic⟩

/-- C110: lines.  Initialisation accepts the moved line when it accepts the line; points are moved, derivatives turned,
and the closest point has the same parameter. -/
theorem C110_line (hA : Rigid f) (c : Line K V) :
    (∀ eps, (moveLine f c).init eps = moveLine f <$> c.init eps) ∧
    (∀ t, (moveLine f c).evaluate t = f (c.evaluate t)) ∧
    (∀ t, (moveLine f c).evaluateDerivative t = f.linear (c.evaluateDerivative t)) ∧
    (∀ t, (moveLine f c).evaluate2ndDerivative t = f.linear (c.evaluate2ndDerivative t)) ∧
    (∀ p lower upper, (moveLine f c).approxInverse (f p) lower upper = c.approxInverse p lower upper) ∧
    ∀ p, (moveLine f c).inverseEvaluate (f p) = c.inverseEvaluate p := by
  have hi : ∀ p lower upper, (moveLine f c).approxInverse (f p) lower upper = c.approxInverse p lower upper := by
    intro p lower upper
    unfold Line.approxInverse
    simp only [moveLine, diff_moved, hA.sq, hA.dot]
  refine ⟨fun eps => ?_, fun t => ?_, fun t => rfl, fun t => ?_, hi, fun p => hi p _ _⟩
  · exact assert_moved Iff.rfl (assert_moved (by simp only [moveLine, hA.sq]) rfl)
  · simp only [Line.evaluate, moveLine, moved_add, map_smul]
  · simp [Line.evaluate2ndDerivative]

/-- The moved plane. -/
def movePlane (f : V →ᵃ[K] W) (s : Plane K V) : Plane K W :=
  ⟨f s.location, f.linear s.e0, f.linear s.e1, s.box⟩

/-- C110: planes. -/
theorem C110_plane (hA : Rigid f) (s : Plane K V) :
    (∀ tol, (movePlane f s).init tol = movePlane f <$> s.init tol) ∧ MovedPatch f s.fn (movePlane f s).fn ∧
    ∀ p a b c d, (movePlane f s).inverseEvaluate (f p) a b c d = s.inverseEvaluate p a b c d := by
  refine ⟨fun tol => ?_, ⟨fun u v => ?_, fun u v => rfl, fun u v => rfl, fun u v => ?_, fun u v => ?_, fun u v => ?_⟩,
    fun p a b c d => ?_⟩
  · exact assert_moved (by simp only [movePlane, hA.sq]) (assert_moved (by simp only [movePlane, hA.sq])
      (assert_moved Iff.rfl (assert_moved Iff.rfl rfl)))
  · simp only [Plane.fn, Plane.evaluate, movePlane, map_ok, moved_add, map_smul]
  · simp only [Plane.fn, map_ok, map_zero]
  · simp only [Plane.fn, map_ok, map_zero]
  · simp only [Plane.fn, map_ok, map_zero]
  · unfold Plane.inverseEvaluate
    simp only [movePlane, diff_moved, hA.sq, hA.dot]

end Generic

section Real

variable {V W : Type} [AddCommGroup V] [Module ℝ V] [Geom ℝ V] [LawfulGeom ℝ V]
  [AddCommGroup W] [Module ℝ W] [Geom ℝ W] [LawfulGeom ℝ W] {f : V →ᵃ[ℝ] W}

/-! ### Circles and ellipses -/

/-- The moved circle. -/
def moveCircle (f : V →ᵃ[ℝ] W) (c : Circle V) : Circle W :=
  ⟨f c.center, f.linear c.e0, f.linear c.e1, c.radius, c.lower, c.upper, c.periodic⟩

theorem circle_moved (f : V →ᵃ[ℝ] W) (c : Circle V) (t : ℝ) : (moveCircle f c).evaluate t = f (c.evaluate t) := by
  simp only [Circle.evaluate, moveCircle, moved_add, map_smul, map_add]

/-- C110: circles. -/
theorem C110_circle (hA : Rigid f) (c : Circle V) :
    (∀ tol, (moveCircle f c).init tol = moveCircle f <$> c.init tol) ∧
    (∀ t, (moveCircle f c).evaluate t = f (c.evaluate t)) ∧
    (∀ t, (moveCircle f c).evaluateDerivative t = f.linear (c.evaluateDerivative t)) ∧
    (∀ t, (moveCircle f c).evaluate2ndDerivative t = f.linear (c.evaluate2ndDerivative t)) ∧
    ∀ fuel p lower upper, (moveCircle f c).approxInverse fuel (f p) lower upper = c.approxInverse fuel p lower upper := by
  refine ⟨fun tol => ?_, circle_moved f c, fun t => ?_, fun t => ?_, fun fuel p lower upper => ?_⟩
  · exact assert_moved (by simp only [moveCircle, hA.sq]) (assert_moved (by simp only [moveCircle, hA.sq])
      (assert_moved (by simp only [moveCircle, hA.dot]) (assert_moved Iff.rfl rfl)))
  · simp only [Circle.evaluateDerivative, moveCircle, map_smul, map_add, map_neg]
  · simp only [Circle.evaluate2ndDerivative, moveCircle, map_smul, map_sub, map_neg]
  · unfold Circle.approxInverse
    simp only [circle_moved, diff_moved, hA.sq]
    simp only [moveCircle, diff_moved, hA.dot]

/-- The moved ellipse. -/
def moveEllipse (f : V →ᵃ[ℝ] W) (c : Ellipse V) : Ellipse W :=
  ⟨f c.center, f.linear c.e0, f.linear c.e1, c.major, c.minor, c.lower, c.upper, c.periodic⟩

theorem ellipse_moved (f : V →ᵃ[ℝ] W) (c : Ellipse V) (t : ℝ) : (moveEllipse f c).evaluate t = f (c.evaluate t) := by
  simp only [Ellipse.evaluate, moveEllipse, moved_add, map_smul]

theorem ellipse_turned (f : V →ᵃ[ℝ] W) (c : Ellipse V) (t : ℝ) :
    (moveEllipse f c).evaluateDerivative t = f.linear (c.evaluateDerivative t) := by
  simp only [Ellipse.evaluateDerivative, moveEllipse, map_smul, map_add, map_neg]

theorem ellipse_turned2 (f : V →ᵃ[ℝ] W) (c : Ellipse V) (t : ℝ) :
    (moveEllipse f c).evaluate2ndDerivative t = f.linear (c.evaluate2ndDerivative t) := by
  simp only [Ellipse.evaluate2ndDerivative, moveEllipse, map_smul, map_sub]

theorem stepSize_moved (hA : Rigid f) (c : Ellipse V) (tol : ℝ) (a1 a2 p : V) (t : ℝ) :
    (moveEllipse f c).stepSize tol (f.linear a1) (f.linear a2) (f p) t = c.stepSize tol a1 a2 p t := by
  have hc := C110_curvature hA (c := ⟨fun s => ok (c.evaluate s), fun s => ok (c.evaluateDerivative s),
      fun s => ok (c.evaluate2ndDerivative s)⟩)
    (c' := ⟨fun s => ok ((moveEllipse f c).evaluate s), fun s => ok ((moveEllipse f c).evaluateDerivative s),
      fun s => ok ((moveEllipse f c).evaluate2ndDerivative s)⟩)
    ⟨fun t => congrArg ok (ellipse_moved f c t), fun t => congrArg ok (ellipse_turned f c t),
      fun t => congrArg ok (ellipse_turned2 f c t)⟩ t
  dsimp only at hc
  unfold Ellipse.stepSize
  rw [hc]
  refine bind_moved fun k _ => ?_
  have e1 : (moveEllipse f c).center = f c.center := rfl
  have e2 : (moveEllipse f c).major = c.major := rfl
  have e3 : (moveEllipse f c).minor = c.minor := rfl
  simp only [ellipse_moved, e1, e2, e3, hA.sq, ← map_smul, ← moved_add, diff_moved, hA.dot]

theorem closestGo_moved (hA : Rigid f) (c : Ellipse V) (tol : ℝ) (a1 a2 p : V) (n : ℕ) (t dt : ℝ) :
    (moveEllipse f c).closestGo tol (f.linear a1) (f.linear a2) (f p) n t dt = c.closestGo tol a1 a2 p n t dt := by
  induction n generalizing t dt with
  | zero => rfl
  | succ n ih => simp only [Ellipse.closestGo, stepSize_moved hA, ih]

theorem axis_moved (hA : Rigid f) (e : V) : Ellipse.axis (f.linear e) = f.linear <$> Ellipse.axis e := by
  unfold Ellipse.axis
  rw [hA.norm]
  split_ifs
  · rfl
  · rw [map_ok, map_smul]

/-- C110: ellipses, with all steps of the iteration for the closest point. -/
theorem C110_ellipse (hA : Rigid f) (c : Ellipse V) :
    (∀ tol, (moveEllipse f c).init tol = moveEllipse f <$> c.init tol) ∧
    (∀ t, (moveEllipse f c).evaluate t = f (c.evaluate t)) ∧
    (∀ t, (moveEllipse f c).evaluateDerivative t = f.linear (c.evaluateDerivative t)) ∧
    (∀ t, (moveEllipse f c).evaluate2ndDerivative t = f.linear (c.evaluate2ndDerivative t)) ∧
    ∀ tol big fuel p lower upper,
      (moveEllipse f c).approxInverse tol big fuel (f p) lower upper = c.approxInverse tol big fuel p lower upper := by
  refine ⟨fun tol => ?_, ellipse_moved f c, ellipse_turned f c, ellipse_turned2 f c, fun tol big fuel p lower upper => ?_⟩
  · exact assert_moved Iff.rfl (assert_moved Iff.rfl (assert_moved Iff.rfl
      (assert_moved (by simp only [moveEllipse, hA.dot]) (assert_moved Iff.rfl rfl))))
  · unfold Ellipse.approxInverse
    have e0 : (moveEllipse f c).e0 = f.linear c.e0 := rfl
    have e1 : (moveEllipse f c).e1 = f.linear c.e1 := rfl
    have ec : (moveEllipse f c).center = f c.center := rfl
    refine bind_congr fun _ => ?_
    rw [e0, e1, axis_moved hA, axis_moved hA]
    refine bind_moved fun a1 _ => bind_moved fun a2 _ => ?_
    have h1 : (moveEllipse f c).reflectPoint (f.linear a1) (f.linear a2) (f p) = f (c.reflectPoint a1 a2 p) := by
      unfold Ellipse.reflectPoint
      simp only [ec, diff_moved, hA.dot]
      split_ifs <;> simp only [moved_sub, map_smul]
    have h2 : ∀ t, (moveEllipse f c).reflectParam (f.linear a1) (f.linear a2) (f p) t = c.reflectParam a1 a2 p t := by
      intro t
      unfold Ellipse.reflectParam
      simp only [ec, diff_moved, hA.dot]
    simp only [h1, h2, closestGo_moved hA, ellipse_moved, diff_moved, hA.sq]

/-! ### Cylinders, cones, spheres and tori -/

/-- The turned frame. -/
def turnFrame (A : V →ₗ[ℝ] W) (e : Frame V) : Frame W := ⟨A e.e0, A e.e1, A e.e2⟩

theorem checkFrame_moved (hA : Rigid f) (tol : ℝ) (e : Frame V) (b : Box ℝ) :
    checkFrame tol (turnFrame f.linear e) b = checkFrame tol e b := by
  unfold checkFrame turnFrame
  simp only [hA.sq, hA.dot]

/-- The moved cylinder. -/
def moveCylinder (f : V →ᵃ[ℝ] W) (s : Cylinder V) : Cylinder W :=
  ⟨f s.location, turnFrame f.linear s.frame, s.radius, s.box⟩

/-- C110: cylinders. -/
theorem C110_cylinder (hA : Rigid f) (s : Cylinder V) :
    (∀ tol, (moveCylinder f s).init tol = moveCylinder f <$> s.init tol) ∧ MovedPatch f s.fn (moveCylinder f s).fn ∧
    ∀ p a b c d, (moveCylinder f s).inverseEvaluate (f p) a b c d = s.inverseEvaluate p a b c d := by
  refine ⟨fun tol => ?_, by constructor <;> intro u v <;> simp only [Cylinder.fn, Cylinder.evaluate, moveCylinder,
    turnFrame, map_ok, moved_add, map_smul, map_add, map_sub, map_neg, map_zero], fun p a b c d => ?_⟩
  · unfold Cylinder.init
    change (checkFrame tol (turnFrame f.linear s.frame) s.box >>= _) = _
    rw [checkFrame_moved hA]
    cases checkFrame tol s.frame s.box <;> rfl
  · unfold Cylinder.inverseEvaluate
    simp only [moveCylinder, turnFrame, diff_moved, hA.dot]

/-- The moved cone. -/
def moveCone (f : V →ᵃ[ℝ] W) (s : Cone V) : Cone W :=
  ⟨f s.location, turnFrame f.linear s.frame, s.radius, s.angle, s.box⟩

/-- C110: cones. -/
theorem C110_cone (hA : Rigid f) (s : Cone V) :
    (∀ tol, (moveCone f s).init tol = moveCone f <$> s.init tol) ∧ MovedPatch f s.fn (moveCone f s).fn ∧
    ∀ tol6 p a b c d, (moveCone f s).inverseEvaluate tol6 (f p) a b c d = s.inverseEvaluate tol6 p a b c d := by
  refine ⟨fun tol => ?_, by constructor <;> intro u v <;> simp only [Cone.fn, Cone.evaluate, moveCone,
    turnFrame, map_ok, moved_add, map_smul, map_add, map_sub, map_neg, map_zero], fun tol6 p a b c d => ?_⟩
  · unfold Cone.init
    change (checkFrame tol (turnFrame f.linear s.frame) s.box >>= _) = _
    rw [checkFrame_moved hA]
    cases checkFrame tol s.frame s.box <;> rfl
  · unfold Cone.inverseEvaluate
    simp only [moveCone, turnFrame, diff_moved, hA.dot, ← map_smul, ← map_add, ← moved_add, hA.norm]

/-- The moved sphere. -/
def moveSphere (f : V →ᵃ[ℝ] W) (s : Sphere V) : Sphere W :=
  ⟨f s.location, turnFrame f.linear s.frame, s.radius, s.box⟩

/-- C110: spheres. -/
theorem C110_sphere (hA : Rigid f) (s : Sphere V) :
    (∀ tol, (moveSphere f s).init tol = moveSphere f <$> s.init tol) ∧ MovedPatch f s.fn (moveSphere f s).fn ∧
    ∀ p a b c d, (moveSphere f s).inverseEvaluate (f p) a b c d = s.inverseEvaluate p a b c d := by
  refine ⟨fun tol => ?_, by constructor <;> intro u v <;> simp only [Sphere.fn, Sphere.evaluate, moveSphere,
    turnFrame, map_ok, moved_add, map_smul, map_add, map_sub], fun p a b c d => ?_⟩
  · unfold Sphere.init
    change (checkFrame tol (turnFrame f.linear s.frame) s.box >>= _) = _
    rw [checkFrame_moved hA]
    cases checkFrame tol s.frame s.box <;> rfl
  · unfold Sphere.inverseEvaluate
    simp only [moveSphere, turnFrame, diff_moved, hA.dot]

/-- The moved torus. -/
def moveTorus (f : V →ᵃ[ℝ] W) (s : Torus V) : Torus W :=
  ⟨f s.location, turnFrame f.linear s.frame, s.major, s.minor, s.box⟩

/-- C110: tori. -/
theorem C110_torus (hA : Rigid f) (s : Torus V) :
    (∀ tol, (moveTorus f s).init tol = moveTorus f <$> s.init tol) ∧ MovedPatch f s.fn (moveTorus f s).fn ∧
    ∀ p a b c d, (moveTorus f s).inverseEvaluate (f p) a b c d = s.inverseEvaluate p a b c d := by
  refine ⟨fun tol => ?_, by constructor <;> intro u v <;> simp only [Torus.fn, Torus.evaluate, moveTorus,
    turnFrame, map_ok, moved_add, map_smul, map_add, map_sub], fun p a b c d => ?_⟩
  · unfold Torus.init
    change (checkFrame tol (turnFrame f.linear s.frame) s.box >>= _) = _
    rw [checkFrame_moved hA]
    cases checkFrame tol s.frame s.box <;> rfl
  · unfold Torus.inverseEvaluate
    simp only [moveTorus, turnFrame, diff_moved, hA.dot]

end Real

/-! ### Extrusions -/

section Extrusion

variable {K V W : Type} [Field K] [LinearOrder K] [IsStrictOrderedRing K] [FloorRing K]
  [AddCommGroup V] [Module K V] [Geom K V] [LawfulGeom K V]
  [AddCommGroup W] [Module K W] [Geom K W] [LawfulGeom K W] {f : V →ᵃ[K] W}

/-- A profile and its image. -/
structure MovedProfile (f : V →ᵃ[K] W) (c : Profile K V) (c' : Profile K W) : Prop where
  fn : MovedCurve f c.fn c'.fn
  inv : ∀ p a b, c'.inv (f p) a b = c.inv p a b
  periodic : c'.periodic = c.periodic

/-- The moved extrusion. -/
def moveExtrusion (f : V →ᵃ[K] W) (c' : Profile K W) (s : Extrusion K V) : Extrusion K W :=
  ⟨f.linear s.location, f.linear s.direction, some c', s.box⟩

/-- C110: extrusions.  The profile is moved, the location (which is added to the profile) and the direction are
turned.  Initialisation, evaluators and inverse are those of the original. -/
theorem C110_extrusion (hA : Rigid f) (s : Extrusion K V) {c : Profile K V} {c' : Profile K W} (hs : s.profile = some c)
    (h : MovedProfile f c c') :
    (∀ tol, (moveExtrusion f c' s).init tol = moveExtrusion f c' <$> s.init tol) ∧
    MovedPatch f s.fn (moveExtrusion f c' s).fn ∧
    ∀ tol p a b l m, (moveExtrusion f c' s).inverseEvaluate tol (f p) a b l m = s.inverseEvaluate tol p a b l m := by
  obtain ⟨loc, dir, prof, box⟩ := s
  subst hs
  refine ⟨fun tol => ?_, ⟨fun u v => ?_, fun u v => h.fn.d1 u, fun u v => rfl, fun u v => h.fn.d2 u, fun u v => ?_,
    fun u v => ?_⟩, fun tol p a b l m => ?_⟩
  · simp only [moveExtrusion, Extrusion.init, getPart, ok_bind, h.periodic]
    refine assert_moved (by rw [hA.sq]) (assert_moved Iff.rfl (assert_moved Iff.rfl ?_))
    cases c.periodic
    · rfl
    · simp only [if_true, h.fn.ev]
      cases c.fn.ev box.uLower
      · cases c.fn.ev box.uUpper
        · simp only [map_ok, ok_bind, pure_eq, diff_moved, hA.sq]
          rfl
        · rfl
        · rfl
      · rfl
      · rfl
  · simp only [moveExtrusion, Extrusion.fn, getPart, ok_bind, h.fn.ev]
    cases c.fn.ev u
    · rename_i x
      simp only [map_ok, ok_bind, pure_eq, moved_add, map_smul]
      congr 1
      rw [affine_eq f x, affine_eq f loc]
      abel
    · rfl
    · rfl
  · simp only [moveExtrusion, Extrusion.fn, getPart, ok_bind, pure_eq, map_ok, map_zero]
  · simp only [moveExtrusion, Extrusion.fn, getPart, ok_bind, pure_eq, map_ok, map_zero]
  · have hl : ∀ (n : ℕ) (v : K), (moveExtrusion f c' ⟨loc, dir, some c, box⟩).invLoop tol c' (f p) a b n v
        = Extrusion.invLoop tol ⟨loc, dir, some c, box⟩ c p a b n v := by
      have e1 : ∀ v : K, f p - f.linear loc - v • f.linear dir = f (p - loc - v • dir) := by
        intro v; rw [moved_sub, moved_sub, map_smul]
      intro n
      induction n with
      | zero =>
        intro v
        simp only [Extrusion.invLoop, moveExtrusion, e1, h.inv]
        refine bind_congr fun u => ?_
        rw [h.fn.ev]
        refine bind_moved fun q _ => ?_
        rw [diff_moved, hA.dot]
      | succ n ih =>
        intro v
        simp only [Extrusion.invLoop, ih]
        simp only [moveExtrusion, e1, h.inv]
        refine bind_congr fun u => ?_
        rw [h.fn.ev]
        refine bind_moved fun q _ => ?_
        simp only [diff_moved, hA.dot]
    change (moveExtrusion f c' ⟨loc, dir, some c, box⟩).invLoop tol c' (f p) a b 19 l >>= _ = _
    rw [hl]
    rfl

end Extrusion

/-! ### Revolutions and offsets -/

section Space

variable {f : E3 →ᵃ[ℝ] E3}

/-- How the motion acts on cross products: `σ = 1` for rotations, `σ = -1` for reflections. -/
def Orient (f : E3 →ᵃ[ℝ] E3) (σ : ℝ) : Prop := ∀ a b, cross (f.linear a) (f.linear b) = σ • f.linear (cross a b)

theorem normalized_moved (hA : Rigid f) (a : E3) : normalized (f.linear a) = f.linear (normalized a) := by
  unfold normalized
  rw [hA.sq]
  split_ifs
  · rw [map_smul]
  · rfl

theorem rotate_moved (hA : Rigid f) (ho : Orient f 1) (u : ℝ) (a x : E3) :
    rotate u (f.linear a) (f.linear x) = f.linear (rotate u a x) := by
  unfold rotate
  rw [ho, one_smul, hA.dot]
  simp only [map_add, map_smul]

/-- The moved revolution. -/
noncomputable def moveRevolution (f : E3 →ᵃ[ℝ] E3) (s : Revolution) (c' : Profile ℝ E3) : Revolution :=
  ⟨f s.location, f.linear s.axis, some c', s.box⟩

theorem revolution_moved (hA : Rigid f) (ho : Orient f 1) (tol : ℝ) (s : Revolution) {c c' : Profile ℝ E3}
    (hs : s.profile = some c) (h : MovedProfile f c c') : MovedPatch f (s.fn tol) ((moveRevolution f s c').fn tol) := by
  obtain ⟨loc, ax, prof, box⟩ := s
  subst hs
  have hc : ∀ a b, cross (f.linear a) (f.linear b) = f.linear (cross a b) := fun a b => by rw [ho, one_smul]
  constructor <;> intro u v <;>
    simp only [Revolution.fn, moveRevolution, getPart, ok_bind, h.fn.ev, h.fn.d1, h.fn.d2]
  · cases c.fn.ev v
    · simp only [map_ok, ok_bind, pure_eq, moved_add, diff_moved, rotate_moved hA ho]
    · rfl
    · rfl
  · cases c.fn.ev v
    · simp only [map_ok, ok_bind, pure_eq, diff_moved, rotate_moved hA ho, add_sub_cancel_left, hc, hA.norm, hA.dot,
        ← map_smul, ← map_sub, normalized_moved hA]
      split_ifs <;> rfl
    · rfl
    · rfl
  · cases c.fn.d1 v
    · simp only [map_ok, ok_bind, pure_eq, rotate_moved hA ho]
    · rfl
    · rfl
  · cases c.fn.ev v
    · simp only [map_ok, ok_bind, pure_eq, diff_moved, rotate_moved hA ho, add_sub_cancel_left, hA.dot, map_add, map_neg,
        map_smul]
    · rfl
    · rfl
  · cases c.fn.d2 v
    · simp only [map_ok, ok_bind, pure_eq, rotate_moved hA ho]
    · rfl
    · rfl
  · cases c.fn.d1 v
    · simp only [map_ok, ok_bind, pure_eq, rotate_moved hA ho, hc, hA.norm, hA.dot,
        ← map_smul, ← map_sub, normalized_moved hA]
      split_ifs <;> rfl
    · rfl
    · rfl

theorem pivot_moved (hA : Rigid f) (ho : Orient f 1) (tol : ℝ) (s : Revolution) {c c' : Profile ℝ E3}
    (hs : s.profile = some c) (h : MovedProfile f c c') (minV maxV : ℝ) :
    (moveRevolution f s c').pivot tol minV maxV = f <$> s.pivot tol minV maxV := by
  have hm := revolution_moved hA ho tol s hs h
  unfold Revolution.pivot
  have hl : ∀ n : ℕ, loop n (fun i q => do
      let t : ℝ := (i : ℝ) / 9
      let x ← ((moveRevolution f s c').fn tol).ev 0 (minV * (1 - t) + maxV * t)
      pure (q + x)) 0 = (fun q => f.linear q + (n : ℝ) • f 0) <$> loop n (fun i q => do
      let t : ℝ := (i : ℝ) / 9
      let x ← (s.fn tol).ev 0 (minV * (1 - t) + maxV * t)
      pure (q + x)) 0 := by
    intro n
    induction n with
    | zero => simp [loop]
    | succ n ih =>
      rw [loop_succ, loop_succ, ih]
      cases loop n (fun i q => do
          let t : ℝ := (i : ℝ) / 9
          let x ← (s.fn tol).ev 0 (minV * (1 - t) + maxV * t)
          pure (q + x)) 0
      · rename_i q
        simp only [map_ok, ok_bind, hm.ev]
        cases (s.fn tol).ev 0 (minV * (1 - (n : ℝ) / 9) + maxV * ((n : ℝ) / 9))
        · rename_i x
          simp only [map_ok, ok_bind, pure_eq]
          congr 1
          rw [affine_eq f x, map_add]
          push_cast
          module
        · rfl
        · rfl
      · rfl
      · rfl
  rw [hl]
  generalize loop _ _ _ = o
  cases o
  · rename_i q
    simp only [map_ok, ok_bind, pure_eq]
    congr 1
    rw [affine_eq f ((1 / 10 : ℝ) • q), map_smul]
    push_cast
    module
  · rfl
  · rfl

/-- C110: revolutions.  Initialisation, evaluators and inverse, for rotations and translations. -/
theorem C110_revolution (hA : Rigid f) (ho : Orient f 1) (s : Revolution) {c c' : Profile ℝ E3}
    (hs : s.profile = some c) (h : MovedProfile f c c') :
    (∀ tol, (moveRevolution f s c').init tol = (moveRevolution f · c') <$> s.init tol) ∧
    (∀ tol, MovedPatch f (s.fn tol) ((moveRevolution f s c').fn tol)) ∧
    ∀ big tol tol100 fuel p a b l m, (moveRevolution f s c').inverseEvaluate big tol tol100 fuel (f p) a b l m
      = s.inverseEvaluate big tol tol100 fuel p a b l m := by
  refine ⟨fun tol => ?_, fun tol => revolution_moved hA ho tol s hs h, fun big tol tol100 fuel p a b l m => ?_⟩
  · obtain ⟨loc, ax, prof, box⟩ := s
    subst hs
    simp only [moveRevolution, Revolution.init, getPart, ok_bind, h.periodic]
    refine assert_moved (by rw [hA.sq]) (assert_moved Iff.rfl (assert_moved Iff.rfl ?_))
    cases c.periodic
    · rfl
    · simp only [if_true, h.fn.ev]
      cases c.fn.ev box.vLower
      · cases c.fn.ev box.vUpper
        · simp only [map_ok, ok_bind, pure_eq, diff_moved, hA.sq]
        · rfl
        · rfl
      · rfl
      · rfl
  · have hm := revolution_moved hA ho tol s hs h
    have hc : ∀ a b, cross (f.linear a) (f.linear b) = f.linear (cross a b) := fun a b => by rw [ho, one_smul]
    have hl : ∀ (n : ℕ) (q : E3), (moveRevolution f s c').invLoop tol tol100 c' (f p) a b l m n (f q)
        = s.invLoop tol tol100 c p a b l m n q := by
      intro n
      induction n with
      | zero => intro q; rfl
      | succ n ih =>
        intro q
        have e1 : (moveRevolution f s c').location = f s.location := rfl
        have e2 : (moveRevolution f s c').axis = f.linear s.axis := rfl
        simp only [Revolution.invLoop, e1, e2, diff_moved, hA.dot, ← map_smul, ← map_sub, hc, normalized_moved hA,
          rotate_moved hA ho, ← moved_add, h.inv, hm.ev]
        refine bind_congr fun u => bind_congr fun v => bind_moved fun q2 _ => ?_
        simp only [diff_moved, hA.sq, ih]
    unfold Revolution.inverseEvaluate
    rw [hs, pivot_moved hA ho tol s hs h]
    simp only [moveRevolution, getPart, ok_bind]
    refine bind_moved fun q _ => ?_
    have := hl fuel q
    simp only [moveRevolution] at this
    rw [this]
    refine bind_congr fun uv => ?_
    rw [← newtonPatch_moved hA hm]
    rfl

/-! ### Offsets -/

/-- A base surface and its image. -/
structure MovedBase (f : E3 →ᵃ[ℝ] E3) (b b' : BasePatch) : Prop where
  fn : MovedPatch f b.fn b'.fn
  inv : ∀ p w x y z, b'.inv (f p) w x y z = b.inv p w x y z
  box : b'.box = b.box

/-- C110: offsets.  A reflection turns the normal of the image around, so the offset changes its sign. -/
theorem C110_offset (hA : Rigid f) {σ : ℝ} (hσ : σ * σ = 1) (ho : Orient f σ) (s : Offset) {b b' : BasePatch}
    (hs : s.base = some b) (h : MovedBase f b b') :
    let s' : Offset := ⟨some b', σ * s.offset, s.box⟩
    (∀ tol, Offset.box <$> s'.init tol = Offset.box <$> s.init tol) ∧
    (∀ small, MovedPatch f (s.fn small) (s'.fn small)) ∧
    ∀ big small tol p w x y z, s'.inverseEvaluate big small tol (f p) w x y z = s.inverseEvaluate big small tol p w x y z := by
  obtain ⟨base, off, box⟩ := s
  subst hs
  intro s'
  have hq : ∀ n, (sqNorm (σ • f.linear n) : ℝ) = sqNorm n := by
    intro n
    rw [← map_smul, hA.sq]
    change (dot (σ • n) (σ • n) : ℝ) = dot n n
    rw [dot_smul, dot_comm, dot_smul, ← mul_assoc, hσ, one_mul]
  have hn : ∀ n, (σ * off) • normalized (σ • f.linear n) = f.linear (off • normalized n) := by
    intro n
    unfold normalized
    rw [hq]
    split_ifs
    · rw [map_smul, map_smul, smul_comm _ σ, smul_smul, mul_right_comm, hσ, one_mul]
    · rw [map_smul, smul_smul, mul_right_comm, hσ, one_mul]
  have hev : ∀ u v, s'.evaluate u v = f <$> Offset.evaluate ⟨some b, off, box⟩ u v := by
    intro u v
    simp only [Offset.evaluate, s', getPart, ok_bind, h.fn.ev, h.fn.du, h.fn.dv]
    cases b.fn.ev u v
    · cases b.fn.du u v
      · cases b.fn.dv u v
        · simp only [map_ok, ok_bind, pure_eq, ho _ _, hn, moved_add]
        · rfl
        · rfl
      · rfl
      · rfl
    · rfl
    · rfl
  have hsl : ∀ d n r, Offset.slope (σ * off) (f.linear d) (σ • f.linear n) (σ • f.linear r)
      = f.linear <$> Offset.slope off d n r := by
    intro d n r
    refine assert_moved (by rw [hq]) ?_
    have hd : (dot (σ • f.linear r) (σ • f.linear n) : ℝ) = dot r n := by
      rw [dot_smul, dot_comm, dot_smul, ← mul_assoc, hσ, one_mul, dot_comm, hA.dot]
    simp only [pure_eq, map_ok, hq, hd, map_add, map_sub, map_smul]
    rw [smul_comm _ σ, smul_comm _ σ, ← smul_sub, smul_smul (σ * off) σ, mul_right_comm, hσ, one_mul]
  have hcr : ∀ w x y z, cross (f.linear w) (f.linear x) + cross (f.linear y) (f.linear z)
      = σ • f.linear (cross w x + cross y z) := by
    intro w x y z
    rw [ho, ho, map_add, smul_add]
  have hdu : ∀ u v, s'.evaluateDerivativeU u v = f.linear <$> Offset.evaluateDerivativeU ⟨some b, off, box⟩ u v := by
    intro u v
    simp only [Offset.evaluateDerivativeU, s', getPart, ok_bind, h.fn.du, h.fn.dv, h.fn.duu, h.fn.duv]
    cases b.fn.du u v
    · cases b.fn.dv u v
      · cases b.fn.duu u v
        · cases b.fn.duv u v
          · simp only [map_ok, ok_bind, hcr]
            rw [ho, hsl]
          · rfl
          · rfl
        · rfl
        · rfl
      · rfl
      · rfl
    · rfl
    · rfl
  have hdv : ∀ u v, s'.evaluateDerivativeV u v = f.linear <$> Offset.evaluateDerivativeV ⟨some b, off, box⟩ u v := by
    intro u v
    simp only [Offset.evaluateDerivativeV, s', getPart, ok_bind, h.fn.du, h.fn.dv, h.fn.dvv, h.fn.duv]
    cases b.fn.du u v
    · cases b.fn.dv u v
      · cases b.fn.duv u v
        · cases b.fn.dvv u v
          · simp only [map_ok, ok_bind, hcr]
            rw [ho, hsl]
          · rfl
          · rfl
        · rfl
        · rfl
      · rfl
      · rfl
    · rfl
    · rfl
  have hdf : ∀ (δ : ℝ) (g g' : ℝ → Outcome E3) (_ : ∀ t, g' t = f.linear <$> g t) (t : ℝ),
      Offset.difference δ g' t = f.linear <$> Offset.difference δ g t := by
    intro δ g g' hg t
    unfold Offset.difference
    rw [hg, hg]
    cases g (t - δ)
    · cases g (t + δ)
      · simp only [map_ok, ok_bind]
        refine assert_moved Iff.rfl ?_
        rw [pure_eq, pure_eq, map_ok, map_smul, map_sub]
      · rfl
      · rfl
    · rfl
    · rfl
  have hm : ∀ small, MovedPatch f (Offset.fn small ⟨some b, off, box⟩) (s'.fn small) := fun small =>
    ⟨hev, hdu, hdv, fun u v => hdf _ _ _ (fun x => hdu x v) u, fun u v => hdf _ _ _ (fun y => hdv u y) v,
      fun u v => hdf _ _ _ (fun y => hdu u y) v⟩
  refine ⟨fun tol => ?_, hm, fun big small tol p w x y z => ?_⟩
  · simp only [Offset.init, s', getPart, ok_bind, h.box]
    rfl
  · have hi := fun u v => C110_patch_from hA (hm small) big p u v w x y z 20 tol
    simp only [Offset.inverseEvaluate, hi]
    simp only [s', getPart, ok_bind, h.inv]

end Space

/-! ### Examples -/

/-- **C110**: an extrusion moved through its location has a different inverse, because the inverse forgets the location
when it computes the height (the defect of C43_extrusion_location_refuted): at location `0` the point `1 / 2` has height
`1 / 2`, after the translation by `5` of location and query the height is `1`, the end of the range. -/
theorem C110_extrusion_location_refuted :
    let c : Profile ℚ ℚ := ⟨⟨fun _ => ok 0, fun _ => ok 0, fun _ => ok 0⟩, fun _ a _ => ok a, false⟩
    Extrusion.inverseEvaluate (1 / 10 ^ 6) ⟨0, 1, some c, ⟨0, 1, 0, 1, false, false⟩⟩ (1 / 2) 0 1 0 1
      = ok ((0, 1 / 2), true) ∧
    Extrusion.inverseEvaluate (1 / 10 ^ 6) ⟨5, 1, some c, ⟨0, 1, 0, 1, false, false⟩⟩ (5 + 1 / 2) 0 1 0 1
      = ok ((0, 1), true) := by
  constructor <;> decide +kernel

/-- The quarter turn about the third axis, followed by the translation by `(1, 2, 3)`. -/
noncomputable def exTurn : E3 →ᵃ[ℝ] E3 where
  toFun x := !₂[-x 1 + 1, x 0 + 2, x 2 + 3]
  linear :=
    { toFun := fun x => !₂[-x 1, x 0, x 2]
      map_add' := fun x y => by ext i; fin_cases i <;> simp <;> ring
      map_smul' := fun r x => by ext i; fin_cases i <;> simp }
  map_vadd' := fun x y => by ext i; fin_cases i <;> simp <;> ring

theorem exTurn_rigid : Rigid exTurn := by
  intro x y
  rw [diff_moved]
  generalize x - y = z
  change ‖exTurn.linear z‖ = ‖z‖
  rw [EuclideanSpace.norm_eq, EuclideanSpace.norm_eq, Fin.sum_univ_three, Fin.sum_univ_three]
  simp [exTurn]
  ring_nf

theorem exTurn_orient : Orient exTurn 1 := by
  intro a b
  ext i
  fin_cases i <;> simp [exTurn, cross] <;> ring

/-- The reflection in the coordinate plane of the first two axes. -/
noncomputable def exMirror : E3 →ᵃ[ℝ] E3 where
  toFun x := !₂[x 0, x 1, -x 2]
  linear :=
    { toFun := fun x => !₂[x 0, x 1, -x 2]
      map_add' := fun x y => by ext i; fin_cases i <;> simp <;> ring
      map_smul' := fun r x => by ext i; fin_cases i <;> simp }
  map_vadd' := fun x y => by ext i; fin_cases i <;> simp <;> ring

theorem exMirror_rigid : Rigid exMirror := by
  intro x y
  rw [diff_moved]
  generalize x - y = z
  change ‖exMirror.linear z‖ = ‖z‖
  rw [EuclideanSpace.norm_eq, EuclideanSpace.norm_eq, Fin.sum_univ_three, Fin.sum_univ_three]
  simp [exMirror]

theorem exMirror_orient : Orient exMirror (-1) := by
  intro a b
  ext i
  fin_cases i <;> simp [exMirror, cross] <;> ring

/-- A line as profile, and the moved line. -/
theorem exLine_moved (f : E3 →ᵃ[ℝ] E3) (hf : Rigid f) (c : Line ℝ E3) :
    MovedProfile f ⟨⟨fun t => ok (c.evaluate t), fun t => ok (c.evaluateDerivative t), fun t => ok (c.evaluate2ndDerivative t)⟩,
        c.approxInverse, c.periodic⟩
      ⟨⟨fun t => ok ((moveLine f c).evaluate t), fun t => ok ((moveLine f c).evaluateDerivative t),
        fun t => ok ((moveLine f c).evaluate2ndDerivative t)⟩, (moveLine f c).approxInverse, (moveLine f c).periodic⟩ := by
  obtain ⟨-, h0, h1, h2, h3, -⟩ := C110_line hf c
  exact ⟨⟨fun t => congrArg ok (h0 t), fun t => congrArg ok (h1 t), fun t => congrArg ok (h2 t)⟩, h3, rfl⟩

example (c : Line ℝ E3) (b : Box ℝ) := C110_revolution exTurn_rigid exTurn_orient ⟨!₂[1, 0, 0], !₂[0, 0, 1], _, b⟩ rfl
  (exLine_moved exTurn exTurn_rigid c)

example (c : Line ℝ E3) (b : Box ℝ) := C110_extrusion exMirror_rigid ⟨!₂[1, 0, 0], !₂[0, 0, 1], _, b⟩ rfl
  (exLine_moved exMirror exMirror_rigid c)

/-- An offset of a sphere, mirrored. -/
example (s : Sphere E3) (b : Box ℝ) := C110_offset exMirror_rigid (σ := -1) (by norm_num) exMirror_orient
  ⟨some ⟨s.fn, s.inverseEvaluate, s.box⟩, 2, b⟩ rfl
  (b' := ⟨(moveSphere exMirror s).fn, (moveSphere exMirror s).inverseEvaluate, s.box⟩)
  ⟨(C110_sphere exMirror_rigid s).2.1, (C110_sphere exMirror_rigid s).2.2, rfl⟩

example := C110_ellipse exMirror_rigid ⟨!₂[1, 2, 3], !₂[1, 0, 0], !₂[0, 0, 2], 2, 1, 0, 1, false⟩
example := C110_circle exTurn_rigid ⟨!₂[1, 2, 3], !₂[1, 0, 0], !₂[0, 0, 1], 2, 0, 1, false⟩
example := C110_plane exTurn_rigid ⟨!₂[1, 2, 3], !₂[1, 0, 0], !₂[0, 0, 1], ⟨0, 1, 0, 1, false, false⟩⟩
example := C110_cone exTurn_rigid ⟨!₂[1, 2, 3], ⟨!₂[1, 0, 0], !₂[0, 1, 0], !₂[0, 0, 1]⟩, 2, 1, ⟨0, 1, 0, 1, false, false⟩⟩
example := C110_cylinder exTurn_rigid ⟨!₂[1, 2, 3], ⟨!₂[1, 0, 0], !₂[0, 1, 0], !₂[0, 0, 1]⟩, 2, ⟨0, 1, 0, 1, false, false⟩⟩
example := C110_torus exTurn_rigid ⟨!₂[1, 2, 3], ⟨!₂[1, 0, 0], !₂[0, 1, 0], !₂[0, 0, 1]⟩, 2, 1, ⟨0, 1, 0, 1, false, false⟩⟩

end NS.Props
