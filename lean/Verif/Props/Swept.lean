import Verif.Proof.Cross
import Verif.Proof.Angle
import Verif.Proof.Inverse
import Verif.Props.Primitive

/-!
# C42, C43, C44: surfaces of revolution, extrusions and offset surfaces
-/

set_option linter.unusedSectionVars false
set_option linter.unusedSimpArgs false

namespace NS

open Outcome Geom LawfulGeom

/-! ## Extrusion -/

namespace Extrusion

section

variable {K V : Type} [Field K] [LinearOrder K] [IsStrictOrderedRing K] [FloorRing K]
  [AddCommGroup V] [Module K V] [Geom K V]

/-- C43: without a profile every evaluator, the inverse and `initialize` throw. -/
theorem C43_extrusion_no_profile (tol : K) (s : Extrusion K V) (h : s.profile = none) (u v : K) (p : V)
    (a b c d : K) :
    s.fn.ev u v = Outcome.throw .invalidSetting ∧ s.fn.du u v = Outcome.throw .invalidSetting ∧
    s.fn.dv u v = Outcome.throw .invalidSetting ∧ s.fn.duu u v = Outcome.throw .invalidSetting ∧
    s.fn.dvv u v = Outcome.throw .invalidSetting ∧ s.fn.duv u v = Outcome.throw .invalidSetting ∧
    s.inverseEvaluate tol p a b c d = Outcome.throw .invalidSetting ∧
    s.init tol = Outcome.throw .invalidSetting := by
  simp only [fn, inverseEvaluate, init, h, getPart]
  exact ⟨rfl, rfl, rfl, rfl, rfl, rfl, rfl, rfl⟩

/-- The profile supports inverse evaluation over a range: the result is in the range and the curve can be
evaluated there. -/
def InvRange (c : Profile K V) (lo hi : K) : Prop :=
  ∀ p, ∃ t, c.inv p lo hi = ok t ∧ lo ≤ t ∧ t ≤ hi ∧ ∃ q, c.fn.ev t = ok q

theorem invLoop_spec (tol : K) (s : Extrusion K V) (c : Profile K V) (p : V) (minU maxU : K)
    (hc : InvRange c minU maxU) : ∀ (n : ℕ) (v : K),
    ∃ u q, invLoop tol s c p minU maxU n v = ok (u, dot (p - q) s.direction) ∧ minU ≤ u ∧ u ≤ maxU ∧
      c.fn.ev u = ok q
  | 0, v => by
    obtain ⟨t, h1, h2, h3, q, h4⟩ := hc (p - s.location - v • s.direction)
    exact ⟨t, q, by simp only [invLoop, h1, ok_bind, h4, pure_eq], h2, h3, h4⟩
  | n + 1, v => by
    obtain ⟨t, h1, h2, h3, q, h4⟩ := hc (p - s.location - v • s.direction)
    simp only [invLoop, h1, ok_bind, h4, pure_eq]
    by_cases h : |(dot (p - q) s.direction : K) - v| > tol
    · rw [if_pos h]
      exact invLoop_spec tol s c p minU maxU hc n _
    · rw [if_neg h]
      exact ⟨t, q, rfl, h2, h3, h4⟩

/-- C43: inverse evaluation always returns parameters in the box; `v` is the clamped coordinate of the
query along the direction, measured from the profile point found. -/
theorem C43_extrusion_in_box (tol : K) (s : Extrusion K V) (c : Profile K V) (hs : s.profile = some c)
    (p : V) (minU maxU minV maxV : K) (hv : minV ≤ maxV) (hc : InvRange c minU maxU) :
    ∃ u v q, s.inverseEvaluate tol p minU maxU minV maxV = ok ((u, v), true) ∧
      minU ≤ u ∧ u ≤ maxU ∧ minV ≤ v ∧ v ≤ maxV ∧ c.fn.ev u = ok q ∧
      v = min maxV (max minV (dot (p - q) s.direction)) := by
  obtain ⟨u, q, h1, h2, h3, h4⟩ := invLoop_spec tol s c p minU maxU hc 19 minV
  have hb : minV ≤ min maxV (max minV (dot (p - q) s.direction)) ∧
      min maxV (max minV (dot (p - q) s.direction)) ≤ maxV :=
    ⟨le_min hv (le_max_left _ _), min_le_left _ _⟩
  refine ⟨u, _, q, ?_, h2, h3, hb.1, hb.2, h4, rfl⟩
  unfold inverseEvaluate
  rw [hs, getPart, ok_bind, h1, ok_bind]
  simp only
  rw [assert_true ⟨h2, h3⟩, ok_bind, assert_true hb, ok_bind, pure_eq]

variable [LawfulGeom K V]

/-- C43, for locations orthogonal to the direction (the default location is the origin): inverse
evaluation of `evaluate (u', v')` returns the `v'` it came from once the profile point has been found, and
then the returned parameters evaluate to the query.

Full claim: every location.  Missing: other locations, where it fails
(`C43_extrusion_location_refuted`). -/
theorem C43_extrusion_found_partial (tol : K) (s : Extrusion K V) (c : Profile K V)
    (hs : s.profile = some c) (hd : (sqNorm s.direction : K) = 1)
    (hl : (dot s.location s.direction : K) = 0) (p : V) (minU maxU minV maxV : K)
    (u' v' : K) (h1 : minV ≤ v') (h2 : v' ≤ maxV) (hp : s.fn.ev u' v' = ok p) (u v : K) (b : Bool)
    (hi : s.inverseEvaluate tol p minU maxU minV maxV = ok ((u, v), b))
    (hc : InvRange c minU maxU) (hf : c.fn.ev u = c.fn.ev u') :
    v = v' ∧ s.fn.ev u v = ok p := by
  obtain ⟨u1, v1, q, e, -, -, -, -, hq, hv1⟩ :=
    C43_extrusion_in_box tol s c hs p minU maxU minV maxV (le_trans h1 h2) hc
  rw [hi, ok.injEq, Prod.mk.injEq, Prod.mk.injEq] at e
  obtain ⟨⟨rfl, rfl⟩, -⟩ := e
  have hp' : s.location + q + v' • s.direction = p := by
    simp only [fn, hs, getPart, ok_bind] at hp
    rw [← hf, hq, ok_bind, pure_eq, ok.injEq] at hp
    exact hp
  have hd' : (dot s.direction s.direction : K) = 1 := hd
  have hv : (dot (p - q) s.direction : K) = v' := by
    rw [← hp', show s.location + q + v' • s.direction - q = s.location + v' • s.direction by abel,
      dot_add, dot_smul, hl, hd']; ring
  rw [hv, max_eq_right h1, min_eq_right h2] at hv1
  subst hv1
  refine ⟨rfl, ?_⟩
  simp only [fn, hs, getPart, ok_bind, hq, pure_eq, hp']

/-- The profile inverse returns a closest point of the profile over the range. -/
def InvClosest (c : Profile K V) (f : K → V) (lo hi : K) : Prop :=
  (∀ t, lo ≤ t → t ≤ hi → c.fn.ev t = ok (f t)) ∧
  ∀ p, ∃ t, c.inv p lo hi = ok t ∧ lo ≤ t ∧ t ≤ hi ∧
    ∀ t', lo ≤ t' → t' ≤ hi → (sqNorm (f t - p) : K) ≤ sqNorm (f t' - p)

theorem InvClosest.range {c : Profile K V} {f : K → V} {lo hi : K} (h : InvClosest c f lo hi) :
    InvRange c lo hi := by
  intro p
  obtain ⟨t, h1, h2, h3, -⟩ := h.2 p
  exact ⟨t, h1, h2, h3, f t, h.1 t h2 h3⟩

/-- Splitting off the part along the direction. -/
theorem sq_split {d : V} (hd : (sqNorm d : K) = 1) {x : V} (w : K) :
    (sqNorm (x + w • d) : K) = sqNorm (x - (dot x d : K) • d) + (dot x d + w) ^ 2 := by
  have hd' : (dot d d : K) = 1 := hd
  rw [sqNorm_add, sqNorm_smul, sqNorm_sub, sqNorm_smul, hd, dot_smul_right, dot_smul_right]
  ring

/-- The loop with a profile in a plane across the direction: the parameter found is closest to every
shift of the query along the direction. -/
theorem invLoop_planar (tol : K) (s : Extrusion K V) (c : Profile K V) (f : K → V) (p : V) (minU maxU : K)
    (hc : InvClosest c f minU maxU) (hd : (sqNorm s.direction : K) = 1) (k : K)
    (hplane : ∀ t, minU ≤ t → t ≤ maxU → (dot (f t) s.direction : K) = k) : ∀ (n : ℕ) (v : K),
    ∃ u, invLoop tol s c p minU maxU n v = ok (u, dot p s.direction - k) ∧ minU ≤ u ∧ u ≤ maxU ∧
      ∀ t', minU ≤ t' → t' ≤ maxU → ∀ w : K,
        (sqNorm (s.location + f u + w • s.direction - p) : K) ≤
          sqNorm (s.location + f t' + w • s.direction - p) := by
  have key : ∀ v : K, ∃ u, c.inv (p - s.location - v • s.direction) minU maxU = ok u ∧ minU ≤ u ∧
      u ≤ maxU ∧ ∀ t', minU ≤ t' → t' ≤ maxU → ∀ w : K,
        (sqNorm (s.location + f u + w • s.direction - p) : K) ≤
          sqNorm (s.location + f t' + w • s.direction - p) := by
    intro v
    obtain ⟨u, h1, h2, h3, h4⟩ := hc.2 (p - s.location - v • s.direction)
    refine ⟨u, h1, h2, h3, fun t' a b w => ?_⟩
    have h5 := h4 t' a b
    have e : ∀ (t : K) (w : K), s.location + f t + w • s.direction - p =
        (f t - (p - s.location)) + w • s.direction := fun t w => by abel
    have e2 : ∀ t : K, f t - (p - s.location - v • s.direction) =
        (f t - (p - s.location)) + v • s.direction := fun t => by abel
    have e3 : ∀ t, minU ≤ t → t ≤ maxU → (dot (f t - (p - s.location)) s.direction : K) =
        k - dot (p - s.location) s.direction := fun t a b => by rw [dot_sub_left, hplane t a b]
    rw [e2, e2, sq_split hd, sq_split hd, e3 u h2 h3, e3 t' a b] at h5
    rw [e, e, sq_split hd, sq_split hd, e3 u h2 h3, e3 t' a b]
    linarith
  intro n
  induction n with
  | zero =>
    intro v
    obtain ⟨u, h1, h2, h3, h4⟩ := key v
    refine ⟨u, ?_, h2, h3, h4⟩
    simp only [invLoop, h1, ok_bind, hc.1 u h2 h3, pure_eq, dot_sub_left, hplane u h2 h3]
  | succ n ih =>
    intro v
    obtain ⟨u, h1, h2, h3, h4⟩ := key v
    simp only [invLoop, h1, ok_bind, hc.1 u h2 h3, pure_eq, dot_sub_left, hplane u h2 h3]
    by_cases h : |(dot p s.direction - k : K) - v| > tol
    · rw [if_pos h]; exact ih _
    · rw [if_neg h]; exact ⟨u, rfl, h2, h3, h4⟩

/-- C43, for a profile in a plane across the direction and a location orthogonal to the direction: when
the profile inverse returns a closest point of the profile, inverse evaluation returns a closest point of
the bounded patch, and inverts `evaluate`. -/
theorem C43_extrusion_closest_partial (tol : K) (s : Extrusion K V) (c : Profile K V) (f : K → V)
    (hs : s.profile = some c) (p : V) (minU maxU minV maxV : K) (hv : minV ≤ maxV)
    (hc : InvClosest c f minU maxU) (hd : (sqNorm s.direction : K) = 1)
    (hl : (dot s.location s.direction : K) = 0) (k : K)
    (hplane : ∀ t, minU ≤ t → t ≤ maxU → (dot (f t) s.direction : K) = k) :
    ∃ u v, s.inverseEvaluate tol p minU maxU minV maxV = ok ((u, v), true) ∧
      minU ≤ u ∧ u ≤ maxU ∧ minV ≤ v ∧ v ≤ maxV ∧
      ∃ x, s.fn.ev u v = ok x ∧
        ∀ u' v', minU ≤ u' → u' ≤ maxU → minV ≤ v' → v' ≤ maxV → ∃ x', s.fn.ev u' v' = ok x' ∧
          (sqNorm (x - p) : K) ≤ sqNorm (x' - p) ∧ (x' = p → x = p) := by
  obtain ⟨u, h1, h2, h3, h4⟩ := invLoop_planar tol s c f p minU maxU hc hd k hplane 19 minV
  have hb : minV ≤ min maxV (max minV (dot p s.direction - k)) ∧
      min maxV (max minV (dot p s.direction - k)) ≤ maxV :=
    ⟨le_min hv (le_max_left _ _), min_le_left _ _⟩
  refine ⟨u, min maxV (max minV (dot p s.direction - k)), ?_, h2, h3, hb.1, hb.2, ?_⟩
  · unfold inverseEvaluate
    rw [hs, getPart, ok_bind, h1, ok_bind]
    simp only
    rw [assert_true ⟨h2, h3⟩, ok_bind, assert_true hb, ok_bind, pure_eq]
  · have hev : ∀ u v : K, minU ≤ u → u ≤ maxU →
        s.fn.ev u v = ok (s.location + f u + v • s.direction) := by
      intro u v a b
      simp only [fn, hs, getPart, ok_bind, hc.1 u a b, pure_eq]
    refine ⟨_, hev _ _ h2 h3, fun u' v' a1 a2 b1 b2 => ⟨_, hev _ _ a1 a2, ?_⟩⟩
    have hle : (sqNorm (s.location + f u + min maxV (max minV (dot p s.direction - k)) • s.direction - p) : K)
        ≤ sqNorm (s.location + f u' + v' • s.direction - p) := by
      refine le_trans ?_ (h4 u' a1 a2 v')
      have e : ∀ w : K, s.location + f u + w • s.direction - p =
          (s.location + f u - p) + w • s.direction := fun w => by abel
      rw [e, e, sq_split hd, sq_split hd]
      have h5 : (dot (s.location + f u - p) s.direction : K) = -(dot p s.direction - k) := by
        rw [dot_sub_left, dot_add, hl, hplane u h2 h3]; ring
      rw [h5]
      have hbest := Plane.clamp_best minV maxV (dot p s.direction - k) v' hv b1 b2
      have hcl : min maxV (max minV (dot p s.direction - k)) =
          max minV (min (dot p s.direction - k) maxV) := by
        rw [min_max_distrib_left, min_eq_right hv, min_comm maxV]
      rw [hcl]
      have e3 : ∀ x y : K, (-x + y) ^ 2 = (y - x) ^ 2 := fun x y => by ring
      rw [e3, e3]
      linarith
    refine ⟨hle, fun hx => ?_⟩
    rw [hx, sub_self, show (sqNorm (0 : V) : K) = 0 from sqNorm_eq_zero.2 rfl] at hle
    exact sub_eq_zero.1 (sqNorm_eq_zero.1 (le_antisymm hle (sqNorm_nonneg (K := K) _)))

/-- C43 fails when the location is not orthogonal to the direction: whatever the profile, a point of the
patch whose profile point is found is given the `v` it came from plus the coordinate of the location along
the direction (clamped to the box), and does not evaluate to the point unless clamped back. -/
theorem C43_extrusion_location_refuted (tol : K) (s : Extrusion K V) (c : Profile K V)
    (hs : s.profile = some c) (hd : (sqNorm s.direction : K) = 1)
    (hl : (dot s.location s.direction : K) ≠ 0) (p : V) (minU maxU minV maxV : K)
    (u' v' : K) (h1 : minV ≤ v' + dot s.location s.direction)
    (h2 : v' + dot s.location s.direction ≤ maxV)
    (hp : s.fn.ev u' v' = ok p) (u v : K) (b : Bool)
    (hi : s.inverseEvaluate tol p minU maxU minV maxV = ok ((u, v), b))
    (hc : InvRange c minU maxU) (hf : c.fn.ev u = c.fn.ev u') :
    v = v' + dot s.location s.direction ∧ s.fn.ev u v ≠ ok p := by
  obtain ⟨u1, v1, q, e, -, -, -, -, hq, hv1⟩ :=
    C43_extrusion_in_box tol s c hs p minU maxU minV maxV (le_trans h1 h2) hc
  rw [hi, ok.injEq, Prod.mk.injEq, Prod.mk.injEq] at e
  obtain ⟨⟨rfl, rfl⟩, -⟩ := e
  have hp' : s.location + q + v' • s.direction = p := by
    simp only [fn, hs, getPart, ok_bind] at hp
    rw [← hf, hq, ok_bind, pure_eq, ok.injEq] at hp
    exact hp
  have hd' : (dot s.direction s.direction : K) = 1 := hd
  have hv : (dot (p - q) s.direction : K) = v' + dot s.location s.direction := by
    rw [← hp', show s.location + q + v' • s.direction - q = s.location + v' • s.direction by abel,
      dot_add, dot_smul, hd']; ring
  rw [hv, max_eq_right h1, min_eq_right h2] at hv1
  refine ⟨hv1, ?_⟩
  simp only [fn, hs, getPart, ok_bind, hq, pure_eq]
  rw [ne_eq, ok.injEq, ← hp', hv1]
  intro h
  have h6 : (dot s.location s.direction : K) • s.direction = 0 := by
    have := congrArg (fun x => x - (s.location + q + v' • s.direction)) h
    simp only [sub_self] at this
    rw [← this]; module
  have h7 := congrArg (fun x : V => (dot x s.direction : K)) h6
  simp only [dot_smul, hd', dot_zero_left, mul_one] at h7
  exact hl h7

end

/-- C43: the five derivative functions of an extrusion are the partial derivatives of `evaluate` wherever
those of the profile are its derivatives. -/
theorem C43_extrusion_partials {E : Type} [NormedAddCommGroup E] [NormedSpace ℝ E] (s : Extrusion ℝ E)
    (c : Profile ℝ E) (hs : s.profile = some c) (S T : Set ℝ) (hc : DerivsOn c.fn S) :
    PartialsOn s.fn S T := by
  obtain ⟨f, f1, f2, h⟩ := hc
  refine ⟨fun u v => s.location + f u + v • s.direction, fun u _ => f1 u, fun _ _ => s.direction,
    fun u _ => f2 u, fun _ _ => 0, fun _ _ => 0, fun u hu v hv => ?_⟩
  obtain ⟨a1, a2, a3, a4, a5⟩ := h u hu
  refine ⟨by simp only [fn, hs, getPart, ok_bind, a1, a2, a3, pure_eq]; trivial,
    (a4.const_add s.location).add_const _, ?_, a5, hasDerivWithinAt_const _ _ _,
    hasDerivWithinAt_const _ _ _, hasDerivWithinAt_const _ _ _⟩
  have := (((hasDerivAt_id v).smul_const s.direction).const_add (s.location + f u)).hasDerivWithinAt (s := T)
  exact this.congr_deriv (one_smul _ _)

/-! ### Concrete cases -/

/-- The profile `t ↦ t` of the complex plane with its exact inverse. -/
noncomputable def exProfile : Profile ℝ ℂ :=
  ⟨⟨fun t => ok t, fun _ => ok 1, fun _ => ok 0⟩, fun p lo hi => ok (max lo (min p.re hi)), false⟩

theorem exProfile_closest (lo hi : ℝ) (h : lo ≤ hi) : InvClosest exProfile (fun t => (t : ℂ)) lo hi := by
  refine ⟨fun _ _ _ => rfl, fun p => ⟨_, rfl, le_max_left _ _, max_le h (min_le_right _ _), ?_⟩⟩
  intro t' a b
  have hb := Plane.clamp_best lo hi p.re t' h a b
  generalize max lo (min p.re hi) = t at hb ⊢
  simp only [sqNorm, dot, Inner.inner]
  simp
  nlinarith

/-- The extrusion of the real line in the imaginary direction, from the location `l`. -/
noncomputable def exExtrusion (l : ℂ) : Extrusion ℝ ℂ :=
  ⟨l, Complex.I, some exProfile, ⟨0, 1, 0, 2, false, false⟩⟩

theorem exExtrusion_dir (l : ℂ) : (sqNorm (exExtrusion l).direction : ℝ) = 1 := by
  simp [exExtrusion, sqNorm, dot, Inner.inner]

/-- The hypotheses of the closest point theorem are met. -/
example (p : ℂ) := C43_extrusion_closest_partial (1 / 10 ^ 6) (exExtrusion 0) exProfile _ rfl p 0 1 0 2
  (by norm_num) (exProfile_closest 0 1 zero_le_one) (exExtrusion_dir 0)
  (by simp [exExtrusion, dot, Inner.inner]) 0 (by intro t _ _; simp [exExtrusion, dot, Inner.inner])

/-- C43 fails for an ordinary patch: location `i`, direction `i`, point of parameters `(0, 0)`, box
`[0, 1] × [0, 2]`; the result is `(0, 1)`, which evaluates to another point. -/
theorem C43_extrusion_concrete_refuted :
    (exExtrusion Complex.I).inverseEvaluate (1 / 10 ^ 6) Complex.I 0 1 0 2 = ok ((0, 1), true) ∧
    (exExtrusion Complex.I).fn.ev 0 0 = ok Complex.I ∧
    (exExtrusion Complex.I).fn.ev 0 1 ≠ ok Complex.I := by
  have h1 : ∀ n v, invLoop (1 / 10 ^ 6 : ℝ) (exExtrusion Complex.I) exProfile Complex.I 0 1 n v =
      ok (0, 1) := by
    intro n
    induction n with
    | zero => intro v; simp [invLoop, exExtrusion, exProfile, dot, Inner.inner, ok_bind, pure_eq]
    | succ n ih =>
      intro v
      have := ih 1
      simp only [exExtrusion, exProfile] at this
      simp only [invLoop, exExtrusion, exProfile, ok_bind]
      simp [dot, Inner.inner, pure_eq]
      intro _
      simpa using this
  refine ⟨?_, ?_, ?_⟩
  · unfold inverseEvaluate
    rw [show (exExtrusion Complex.I).profile = some exProfile from rfl, getPart, ok_bind, h1, ok_bind]
    norm_num [Outcome.assert, pure_eq]
  · simp [fn, exExtrusion, exProfile, getPart, ok_bind, pure_eq]
  · simp [fn, exExtrusion, exProfile, getPart, ok_bind, pure_eq]

end Extrusion

/-! ## Revolution -/

namespace Revolution

open Real

/-- C42: without a profile every evaluator, the inverse and `initialize` throw. -/
theorem C42_revolution_no_profile (big tol tol' : ℝ) (fuel : ℕ) (s : Revolution) (h : s.profile = none)
    (u v : ℝ) (p : E3) (a b c d : ℝ) :
    (s.fn tol).ev u v = Outcome.throw .invalidSetting ∧ (s.fn tol).du u v = Outcome.throw .invalidSetting ∧
    (s.fn tol).dv u v = Outcome.throw .invalidSetting ∧ (s.fn tol).duu u v = Outcome.throw .invalidSetting ∧
    (s.fn tol).dvv u v = Outcome.throw .invalidSetting ∧ (s.fn tol).duv u v = Outcome.throw .invalidSetting ∧
    s.inverseEvaluate big tol tol' fuel p a b c d = Outcome.throw .invalidSetting ∧
    s.init tol = Outcome.throw .invalidSetting := by
  simp only [fn, inverseEvaluate, init, h, getPart]
  exact ⟨rfl, rfl, rfl, rfl, rfl, rfl, rfl, rfl⟩

theorem ev_eq (tol : ℝ) (s : Revolution) (c : Profile ℝ E3) (hs : s.profile = some c) {v : ℝ} {x : E3}
    (hx : c.fn.ev v = ok x) (u : ℝ) :
    (s.fn tol).ev u v = ok (s.location + rotate u s.axis (x - s.location)) := by
  simp only [fn, hs, getPart, ok_bind, hx, pure_eq]

/-- C42: the point of parameters `(u, v)` has the same coordinate along the axis and the same distance to
the location, hence to the axis, as the profile point; `u = 0` gives the profile itself, whole turns change
nothing, and turning by `w` after turning by `u` is turning by `u + w`. -/
theorem C42_revolution_symmetry (tol : ℝ) (s : Revolution) (c : Profile ℝ E3) (hs : s.profile = some c)
    (ha : (sqNorm s.axis : ℝ) = 1) (u v : ℝ) (x : E3) (hx : c.fn.ev v = ok x) :
    ∃ y, (s.fn tol).ev u v = ok y ∧
      (dot (y - s.location) s.axis : ℝ) = dot (x - s.location) s.axis ∧
      (sqNorm (y - s.location) : ℝ) = sqNorm (x - s.location) ∧
      (sqNorm (y - s.location - (dot (y - s.location) s.axis : ℝ) • s.axis) : ℝ) =
        sqNorm (x - s.location - (dot (x - s.location) s.axis : ℝ) • s.axis) ∧
      (s.fn tol).ev 0 v = ok x ∧
      (∀ k : ℤ, (s.fn tol).ev (u + k * (2 * π)) v = ok y) ∧
      (∀ w, (s.fn tol).ev (u + w) v = ok (s.location + rotate w s.axis (y - s.location))) := by
  refine ⟨_, ev_eq tol s c hs hx u, ?_, ?_, ?_, ?_, ?_, ?_⟩
  · rw [add_sub_cancel_left, dot_rotate ha]
  · rw [add_sub_cancel_left, sqNorm_rotate ha]
  · rw [add_sub_cancel_left, dot_rotate ha, sqNorm_sub, sqNorm_sub (K := ℝ) (x - s.location),
      sqNorm_rotate ha, dot_smul_right, dot_smul_right, dot_rotate ha]
  · rw [ev_eq tol s c hs hx 0, rotate_zero, add_sub_cancel]
  · intro k
    rw [ev_eq tol s c hs hx, rotate, rotate, cos_add_turns, sin_add_turns]
  · intro w
    rw [ev_eq tol s c hs hx, add_sub_cancel_left, rotate_rotate ha, add_comm w u]

/-- C42: the five derivative functions are the partial derivatives of `evaluate` wherever those of the
profile are its derivatives. -/
theorem C42_revolution_partials (tol : ℝ) (s : Revolution) (c : Profile ℝ E3) (hs : s.profile = some c)
    (ha : (sqNorm s.axis : ℝ) = 1) (S T : Set ℝ) (hc : DerivsOn c.fn T) : PartialsOn (s.fn tol) S T := by
  obtain ⟨f, f1, f2, h⟩ := hc
  have hev : ∀ u v x, c.fn.ev v = ok x → (s.fn tol).du u v =
      ok (cross s.axis (rotate u s.axis (x - s.location))) := by
    intro u v x hx
    simp only [fn, hs, getPart, ok_bind, hx, pure_eq, add_sub_cancel_left]
    rw [renorm ha, ite_self]
  have hduv : ∀ u v x, c.fn.d1 v = ok x → (s.fn tol).duv u v =
      ok (cross s.axis (rotate u s.axis x)) := by
    intro u v x hx
    simp only [fn, hs, getPart, ok_bind, hx, pure_eq]
    rw [renorm_perp (by rw [LawfulGeom.dot_comm (K := ℝ)]; exact dot_cross_left _ _), ite_self]
  refine ⟨fun u v => s.location + rotate u s.axis (f v - s.location),
    fun u v => cross s.axis (rotate u s.axis (f v - s.location)),
    fun u v => rotate u s.axis (f1 v),
    fun u v => -rotate u s.axis (f v - s.location) +
      (dot (rotate u s.axis (f v - s.location)) s.axis : ℝ) • s.axis,
    fun u v => rotate u s.axis (f2 v),
    fun u v => cross s.axis (rotate u s.axis (f1 v)), fun u hu v hv => ?_⟩
  obtain ⟨a1, a2, a3, a4, a5⟩ := h v hv
  have a4' : HasDerivWithinAt (fun y => f y - s.location) (f1 v) T v := a4.sub_const _
  refine ⟨⟨ev_eq tol s c hs a1 u, hev u v _ a1, ?_, ?_, ?_, hduv u v _ a2⟩, ?_, ?_, ?_, ?_, ?_, ?_⟩
  · simp only [fn, hs, getPart, ok_bind, a2, pure_eq]
  · simp only [fn, hs, getPart, ok_bind, a1, pure_eq, add_sub_cancel_left]
  · simp only [fn, hs, getPart, ok_bind, a3, pure_eq]
  · exact ((rotate_hasDerivAt ha u _).const_add s.location).hasDerivWithinAt
  · exact (((rotateL u s.axis).hasFDerivAt.comp_hasDerivWithinAt v a4').const_add s.location)
  · have := (crossL s.axis).hasFDerivAt.comp_hasDerivAt u (rotate_hasDerivAt ha u (f v - s.location))
    refine (HasDerivAt.congr_deriv this ?_).hasDerivWithinAt
    rw [crossL_apply, cross_cross, show (dot s.axis s.axis : ℝ) = 1 from ha,
      LawfulGeom.dot_comm (K := ℝ) s.axis]
    module
  · exact (rotateL u s.axis).hasFDerivAt.comp_hasDerivWithinAt v a5
  · exact (crossL s.axis).hasFDerivAt.comp_hasDerivWithinAt v
      ((rotateL u s.axis).hasFDerivAt.comp_hasDerivWithinAt v a4')
  · exact (rotate_hasDerivAt ha u _).hasDerivWithinAt

/-- A profile in the half-plane bounded by the axis and containing the unit vector `e0`, with distance
`ρ v` from the axis and height `z v`. -/
structure HalfPlane (s : Revolution) (f : ℝ → E3) (e0 : E3) (ρ z : ℝ → ℝ) (lo hi : ℝ) : Prop where
  axis : (sqNorm s.axis : ℝ) = 1
  unit : (sqNorm e0 : ℝ) = 1
  perp : (dot s.axis e0 : ℝ) = 0
  pos : ∀ v, lo ≤ v → v ≤ hi → f v = s.location + (ρ v • e0 + z v • s.axis)
  nonneg : ∀ v, lo ≤ v → v ≤ hi → 0 ≤ ρ v

theorem normalized_smul {e : E3} (he : (sqNorm e : ℝ) = 1) {r : ℝ} (hr : 0 < r) : normalized (r • e) = e := by
  have h1 : (sqNorm (r • e) : ℝ) = r * r := by
    rw [sqNorm_smul, he]; ring
  rw [normalized_of_pos (by rw [h1]; positivity), h1, Real.sqrt_mul_self hr.le, smul_smul,
    one_div_mul_cancel hr.ne', one_smul]

section
variable {s : Revolution} {e0 : E3}

/-- Rotation of a point of the half-plane. -/
theorem rotate_half (ha : (sqNorm s.axis : ℝ) = 1) (hp : (dot s.axis e0 : ℝ) = 0) (u r z : ℝ) :
    rotate u s.axis (r • e0 + z • s.axis) =
      (r * cos u) • e0 + (r * sin u) • cross s.axis e0 + z • s.axis := by
  have ha' : (dot s.axis s.axis : ℝ) = 1 := ha
  rw [rotate_add, rotate_smul, rotate_smul, rotate, rotate, cross_self, hp, ha']
  module

/-- One pass of the loop for a query on the surface: the angle found brings the query back to its profile
point. -/
theorem turn_back (ha : (sqNorm s.axis : ℝ) = 1) (he : (sqNorm e0 : ℝ) = 1)
    (hp : (dot s.axis e0 : ℝ) = 0) (minU maxU u r z R Z : ℝ) (h1 : minU ≤ u) (h2 : u ≤ maxU) (hr : 0 ≤ r)
    (hR : r = 0 ∨ 0 < R) (p q : E3) (hq : q = s.location + (R • e0 + Z • s.axis))
    (hpe : p = s.location + rotate u s.axis (r • e0 + z • s.axis)) :
    ∃ t, PatchBase.clipPeriodic
        (atan2 (dot (p - s.location)
            (normalized (cross s.axis (q - s.location - (dot (q - s.location) s.axis : ℝ) • s.axis))))
          (dot (p - s.location) (normalized (q - s.location - (dot (q - s.location) s.axis : ℝ) • s.axis))))
        minU maxU (2 * π) = ok t ∧ minU ≤ t ∧ t ≤ maxU ∧
      s.location + rotate t s.axis (r • e0 + z • s.axis) = p ∧
      s.location + rotate (-t) s.axis (p - s.location) = s.location + (r • e0 + z • s.axis) := by
  have ha' : (dot s.axis s.axis : ℝ) = 1 := ha
  have he' : (dot e0 e0 : ℝ) = 1 := he
  have hp' : (dot e0 s.axis : ℝ) = 0 := by rw [LawfulGeom.dot_comm (K := ℝ)]; exact hp
  have back : ∀ t, s.location + rotate t s.axis (r • e0 + z • s.axis) = p →
      s.location + rotate (-t) s.axis (p - s.location) = s.location + (r • e0 + z • s.axis) := by
    intro t ht
    rw [← ht, add_sub_cancel_left, rotate_rotate ha, neg_add_cancel, rotate_zero]
  by_cases h0 : r = 0
  · obtain ⟨t, e, b1, b2, -⟩ := clip_cos (atan2 (dot (p - s.location)
            (normalized (cross s.axis (q - s.location - (dot (q - s.location) s.axis : ℝ) • s.axis))))
          (dot (p - s.location) (normalized (q - s.location - (dot (q - s.location) s.axis : ℝ) • s.axis))))
        minU maxU (le_trans h1 h2)
    have : s.location + rotate t s.axis (r • e0 + z • s.axis) = p := by
      rw [hpe, rotate_half ha hp, rotate_half ha hp, h0]
      module
    exact ⟨t, e, b1, b2, this, back t this⟩
  · have hR' : 0 < R := hR.resolve_left h0
    have d1 : q - s.location - (dot (q - s.location) s.axis : ℝ) • s.axis = R • e0 := by
      rw [hq, add_sub_cancel_left, dot_add, dot_smul, dot_smul, hp', ha']
      module
    have u1 : (sqNorm (cross s.axis e0) : ℝ) = 1 := by
      rw [sqNorm_cross, ha, he, hp]; ring
    have c0 : (dot e0 (cross s.axis e0) : ℝ) = 0 := dot_cross_right _ _
    have c0' : (dot (cross s.axis e0) e0 : ℝ) = 0 := by rw [LawfulGeom.dot_comm (K := ℝ)]; exact c0
    have c1 : (dot s.axis (cross s.axis e0) : ℝ) = 0 := dot_cross_left _ _
    have hpl : p - s.location = (r * cos u) • e0 + (r * sin u) • cross s.axis e0 + z • s.axis := by
      rw [hpe, add_sub_cancel_left, rotate_half ha hp]
    have hx : (dot (p - s.location) e0 : ℝ) = r * cos u := by
      rw [hpl, dot_add, dot_add, dot_smul, dot_smul, dot_smul, he', c0', hp]; ring
    have hy : (dot (p - s.location) (cross s.axis e0) : ℝ) = r * sin u := by
      rw [hpl, dot_add, dot_add, dot_smul, dot_smul, dot_smul, c0,
        show (dot (cross s.axis e0) (cross s.axis e0) : ℝ) = 1 from u1, c1]; ring
    rw [d1, cross_smul_right, normalized_smul he hR', normalized_smul u1 hR']
    obtain ⟨t, e, b1, b2, hx', hy'⟩ := clip_azimuth minU maxU hr hx hy h1 h2
    have : s.location + rotate t s.axis (r • e0 + z • s.axis) = p := by
      rw [rotate_half ha hp, ← hx', ← hy', hx, hy, ← hpl, add_sub_cancel]
    exact ⟨t, e, b1, b2, this, back t this⟩

end

/-- The pivot lies in the half-plane, off the axis unless all ten samples are on it. -/
theorem pivot_half (tol : ℝ) {s : Revolution} {c : Profile ℝ E3} (hs : s.profile = some c) {f : ℝ → E3}
    {e0 : E3} {ρ z : ℝ → ℝ} {lo hi : ℝ} (hlh : lo ≤ hi) (h : HalfPlane s f e0 ρ z lo hi)
    (hf : ∀ v, lo ≤ v → v ≤ hi → c.fn.ev v = ok (f v))
    (hoff : ∃ i : ℕ, i < 10 ∧ 0 < ρ (lo * (1 - (i : ℝ) / 9) + hi * ((i : ℝ) / 9))) :
    ∃ (q : E3) (R Z : ℝ), pivot tol s lo hi = ok q ∧ q = s.location + (R • e0 + Z • s.axis) ∧ 0 < R := by
  have hmem : ∀ i : ℕ, i < 10 → lo ≤ lo * (1 - (i : ℝ) / 9) + hi * ((i : ℝ) / 9) ∧
      lo * (1 - (i : ℝ) / 9) + hi * ((i : ℝ) / 9) ≤ hi := by
    intro i hi'
    have h0 : (0 : ℝ) ≤ (i : ℝ) / 9 := by positivity
    have h1 : (i : ℝ) / 9 ≤ 1 := by
      rw [div_le_one (by norm_num)]; exact_mod_cast Nat.le_of_lt_succ hi'
    constructor <;> nlinarith
  have key : ∀ n, n ≤ 10 → ∃ (q : E3) (R Z : ℝ), loop n (fun i q => do
        let t : ℝ := (i : ℝ) / 9
        let x ← (s.fn tol).ev 0 (lo * (1 - t) + hi * t)
        pure (q + x)) (0 : E3) = ok q ∧ q = (n : ℝ) • s.location + (R • e0 + Z • s.axis) ∧ 0 ≤ R ∧
      ((∃ i : ℕ, i < n ∧ 0 < ρ (lo * (1 - (i : ℝ) / 9) + hi * ((i : ℝ) / 9))) → 0 < R) := by
    intro n
    induction n with
    | zero =>
      intro _
      refine ⟨0, 0, 0, rfl, by simp, le_rfl, ?_⟩
      rintro ⟨i, hi', -⟩
      omega
    | succ n ih =>
      intro hn
      obtain ⟨q, R, Z, e1, e2, e3, e4⟩ := ih (by omega)
      obtain ⟨m1, m2⟩ := hmem n (by omega)
      refine ⟨q + f (lo * (1 - (n : ℝ) / 9) + hi * ((n : ℝ) / 9)),
        R + ρ (lo * (1 - (n : ℝ) / 9) + hi * ((n : ℝ) / 9)),
        Z + z (lo * (1 - (n : ℝ) / 9) + hi * ((n : ℝ) / 9)), ?_, ?_, ?_, ?_⟩
      · rw [loop_succ, e1, ok_bind]
        simp only
        rw [ev_eq tol s c hs (hf _ m1 m2), ok_bind, rotate_zero, add_sub_cancel, pure_eq]
      · rw [h.pos _ m1 m2, e2]; push_cast; module
      · exact add_nonneg e3 (h.nonneg _ m1 m2)
      · rintro ⟨i, hi', hpos⟩
        rcases Nat.lt_succ_iff_lt_or_eq.1 hi' with hlt | rfl
        · exact add_pos_of_pos_of_nonneg (e4 ⟨i, hlt, hpos⟩) (h.nonneg _ m1 m2)
        · exact add_pos_of_nonneg_of_pos e3 hpos
  obtain ⟨q, R, Z, e1, e2, -, e4⟩ := key 10 le_rfl
  refine ⟨(1 / 10 : ℝ) • q, R / 10, Z / 10, ?_, ?_, div_pos (e4 hoff) (by norm_num)⟩
  · unfold pivot; rw [e1, ok_bind, pure_eq]
  · rw [e2]; push_cast; module

/-- C80: for a profile in a half-plane bounded by the axis that is not contained in the axis, and a
profile inverse that returns closest points, inverse evaluation of a point of the bounded patch ends after
at most two passes, reports success, and returns parameters in the box that evaluate to the point. -/
theorem C80_revolution_inverse_partial (big tol tol100 : ℝ) (ht : 0 < tol100) (fuel : ℕ) (hfuel : 2 ≤ fuel)
    (s : Revolution) (c : Profile ℝ E3) (hs : s.profile = some c) (f : ℝ → E3) (e0 : E3) (ρ z : ℝ → ℝ)
    (minU maxU minV maxV : ℝ) (h : HalfPlane s f e0 ρ z minV maxV)
    (hc : Extrusion.InvClosest c f minV maxV)
    (hoff : ∃ i : ℕ, i < 10 ∧ 0 < ρ (minV * (1 - (i : ℝ) / 9) + maxV * ((i : ℝ) / 9)))
    (u v : ℝ) (hu1 : minU ≤ u) (hu2 : u ≤ maxU) (hv1 : minV ≤ v) (hv2 : v ≤ maxV) (p : E3)
    (hp : (s.fn tol).ev u v = ok p) :
    ∃ u' v', s.inverseEvaluate big tol tol100 fuel p minU maxU minV maxV = ok ((u', v'), true) ∧
      minU ≤ u' ∧ u' ≤ maxU ∧ minV ≤ v' ∧ v' ≤ maxV ∧ (s.fn tol).ev u' v' = ok p := by
  obtain ⟨hf, hinv⟩ := hc
  have hpe : p = s.location + rotate u s.axis (ρ v • e0 + z v • s.axis) := by
    rw [ev_eq tol s c hs (hf v hv1 hv2), ok.injEq, h.pos v hv1 hv2, add_sub_cancel_left] at hp
    exact hp.symm
  obtain ⟨q, R, Z, hpv, hq, hR⟩ := pivot_half tol hs (le_trans hv1 hv2) h hf hoff
  obtain ⟨v', w1, w2, w3, w4⟩ := hinv (f v)
  have hfv : f v' = f v := by
    have := w4 v hv1 hv2
    rw [sub_self, show (sqNorm (0 : E3) : ℝ) = 0 from sqNorm_eq_zero.2 rfl] at this
    exact sub_eq_zero.1 (sqNorm_eq_zero.1 (le_antisymm this (sqNorm_nonneg (K := ℝ) _)))
  have hev : ∀ t, (s.fn tol).ev t v' = ok (s.location + rotate t s.axis (ρ v • e0 + z v • s.axis)) := by
    intro t
    rw [ev_eq tol s c hs (hf v' w2 w3), hfv, h.pos v hv1 hv2, add_sub_cancel_left]
  have hev0 : (s.fn tol).ev 0 v' = ok (f v) := by
    rw [hev, rotate_zero, h.pos v hv1 hv2]
  have hpass : ∀ (n : ℕ) (q : E3) (R Z : ℝ), (ρ v = 0 ∨ 0 < R) →
      q = s.location + (R • e0 + Z • s.axis) → ∃ t, minU ≤ t ∧ t ≤ maxU ∧
        s.location + rotate t s.axis (ρ v • e0 + z v • s.axis) = p ∧
        invLoop tol tol100 s c p minU maxU minV maxV (n + 1) q =
          if (sqNorm (q - f v) : ℝ) > tol100 then invLoop tol tol100 s c p minU maxU minV maxV n (f v)
          else pure (t, v') := by
    intro n q R Z hR hq
    obtain ⟨t, e, b1, b2, ht1, ht2⟩ := turn_back h.axis h.unit h.perp minU maxU u (ρ v) (z v) R Z hu1 hu2
      (h.nonneg v hv1 hv2) hR p q hq hpe
    refine ⟨t, b1, b2, ht1, ?_⟩
    rw [invLoop]
    simp only
    rw [e, ok_bind, ht2, ← h.pos v hv1 hv2, w1, ok_bind, hev0, ok_bind]
  have hloop : ∃ t, minU ≤ t ∧ t ≤ maxU ∧
      s.location + rotate t s.axis (ρ v • e0 + z v • s.axis) = p ∧
      invLoop tol tol100 s c p minU maxU minV maxV fuel q = ok (t, v') := by
    obtain ⟨n, rfl⟩ : ∃ n, fuel = n + 1 + 1 := ⟨fuel - 2, by omega⟩
    obtain ⟨t, b1, b2, ht1, e⟩ := hpass (n + 1) q R Z (Or.inr hR) hq
    by_cases hbr : (sqNorm (q - f v) : ℝ) > tol100
    · obtain ⟨t2, b1, b2, ht2, e2⟩ := hpass n (f v) (ρ v) (z v)
        ((h.nonneg v hv1 hv2).eq_or_lt.imp Eq.symm id) (h.pos v hv1 hv2)
      refine ⟨t2, b1, b2, ht2, ?_⟩
      rw [e, if_pos hbr, e2, sub_self, show (sqNorm (0 : E3) : ℝ) = 0 from sqNorm_eq_zero.2 rfl,
        if_neg (by linarith), pure_eq]
    · exact ⟨t, b1, b2, ht1, by rw [e, if_neg hbr, pure_eq]⟩
  obtain ⟨t, b1, b2, ht1, hl⟩ := hloop
  refine ⟨t, v', ?_, b1, b2, w2, w3, by rw [hev, ht1]⟩
  unfold inverseEvaluate
  rw [hs, getPart, ok_bind, hpv, ok_bind, hl, ok_bind]
  simp only
  have hn : PatchBase.newtonPatch (s.fn tol) p tol100 minU maxU minV maxV 20 t v' (t, v') big =
      ok ((t, v'), true) := by
    rw [PatchBase.newtonPatch, hev, ht1, ok_bind]
    simp only
    rw [sub_self, if_pos (Or.inl ?_)]
    rw [norm_of_sq, show (sqNorm (0 : E3) : ℝ) = 0 from sqNorm_eq_zero.2 rfl, Real.sqrt_zero]
    exact ht
  rw [hn, ok_bind, assert_true ⟨b1, b2⟩, ok_bind, assert_true ⟨w2, w3⟩, ok_bind, pure_eq]

/-- C80: whatever the profile, a result of inverse evaluation lies in the box. -/
theorem C80_revolution_in_box (big tol tol100 : ℝ) (fuel : ℕ) (s : Revolution) (p : E3)
    (minU maxU minV maxV : ℝ) (r : (ℝ × ℝ) × Bool)
    (hi : s.inverseEvaluate big tol tol100 fuel p minU maxU minV maxV = ok r) :
    (minU ≤ r.1.1 ∧ r.1.1 ≤ maxU) ∧ minV ≤ r.1.2 ∧ r.1.2 ≤ maxV := by
  unfold inverseEvaluate at hi
  obtain ⟨_, _, hi⟩ := bind_eq_ok.1 hi
  obtain ⟨_, _, hi⟩ := bind_eq_ok.1 hi
  obtain ⟨_, _, hi⟩ := bind_eq_ok.1 hi
  obtain ⟨x, _, hi⟩ := bind_eq_ok.1 hi
  obtain ⟨_, h1, hi⟩ := bind_eq_ok.1 hi
  obtain ⟨_, h2, hi⟩ := bind_eq_ok.1 hi
  rw [pure_eq, ok.injEq] at hi
  subst hi
  constructor
  · by_contra hn; rw [assert_false hn] at h1; cases h1
  · by_contra hn; rw [assert_false hn] at h2; cases h2

/-- Concrete case: a segment parallel to the axis, at distance 1. -/
noncomputable def exProfile : Profile ℝ E3 :=
  ⟨⟨fun t => ok (stdFrame.e0 + t • stdFrame.e2), fun _ => ok stdFrame.e2, fun _ => ok 0⟩,
    fun p lo hi => ok (max lo (min (dot p stdFrame.e2) hi)), false⟩

noncomputable def exRevolution : Revolution :=
  ⟨0, stdFrame.e2, some exProfile, ⟨0, 2 * π, 0, 1, true, false⟩⟩

theorem exRevolution_half : HalfPlane exRevolution (fun t => stdFrame.e0 + t • stdFrame.e2) stdFrame.e0
    (fun _ => 1) (fun t => t) 0 1 :=
  ⟨stdFrame_ortho.n2, stdFrame_ortho.n0, stdFrame_ortho.o20,
    fun v _ _ => by simp [exRevolution], fun _ _ _ => zero_le_one⟩

theorem exProfile_closest :
    Extrusion.InvClosest exProfile (fun t => stdFrame.e0 + t • stdFrame.e2) 0 1 := by
  refine ⟨fun _ _ _ => rfl, fun p => ⟨_, rfl, le_max_left _ _, max_le zero_le_one (min_le_right _ _), ?_⟩⟩
  intro t' a b
  have hb := Plane.clamp_best 0 1 (dot p stdFrame.e2 : ℝ) t' zero_le_one a b
  generalize max 0 (min (dot p stdFrame.e2 : ℝ) 1) = t at hb ⊢
  have e : ∀ t : ℝ, stdFrame.e0 + t • stdFrame.e2 - p =
      (1 : ℝ) • stdFrame.e0 + (0 : ℝ) • stdFrame.e1 + t • stdFrame.e2 - p := fun t => by module
  rw [e, e, sqDist3 stdFrame_ortho, sqDist3 stdFrame_ortho]
  nlinarith

example (p : E3) (hp : (exRevolution.fn 0).ev 1 (1 / 2) = ok p) :=
  C80_revolution_inverse_partial 10 0 (1 / 10 ^ 6) (by norm_num) 2 le_rfl exRevolution exProfile rfl _ _ _ _
    0 (2 * π) 0 1 exRevolution_half exProfile_closest ⟨0, by norm_num⟩ 1 (1 / 2) (by norm_num)
    (by linarith [Real.two_le_pi]) (by norm_num) (by norm_num) p hp

/-- A diameter of the unit circle, across the axis. -/
noncomputable def exDiameter : Profile ℝ E3 :=
  ⟨⟨fun t => ok ((2 * t - 1) • stdFrame.e0), fun _ => ok ((2 : ℝ) • stdFrame.e0), fun _ => ok 0⟩,
    fun p lo hi => ok (max lo (min (((dot p stdFrame.e0 : ℝ) + 1) / 2) hi)), false⟩

/-- The unit disk as the surface swept by its diameter. -/
noncomputable def exDisk : Revolution :=
  ⟨0, stdFrame.e2, some exDiameter, ⟨0, 2 * π, 0, 1, true, false⟩⟩

theorem exDisk_ev (tol u v : ℝ) :
    (exDisk.fn tol).ev u v = ok (rotate u stdFrame.e2 ((2 * v - 1) • stdFrame.e0)) := by
  simp [fn, exDisk, getPart, exDiameter]

theorem exDisk_pivot (tol : ℝ) : exDisk.pivot tol 0 1 = ok 0 := by
  unfold pivot
  simp only [loop, exDisk_ev, rotate_zero, ok_bind, pure_eq]
  rw [ok.injEq]
  module

theorem exDiameter_closest : Extrusion.InvClosest exDiameter (fun t => (2 * t - 1) • stdFrame.e0) 0 1 := by
  refine ⟨fun _ _ _ => rfl, fun p => ⟨_, rfl, le_max_left _ _, max_le zero_le_one (min_le_right _ _), ?_⟩⟩
  intro t' a b
  have hb := Plane.clamp_best 0 1 (((dot p stdFrame.e0 : ℝ) + 1) / 2) t' zero_le_one a b
  generalize max 0 (min (((dot p stdFrame.e0 : ℝ) + 1) / 2) 1) = t at hb ⊢
  have e : ∀ t : ℝ, (2 * t - 1) • stdFrame.e0 - p =
      (2 * t - 1) • stdFrame.e0 + (0 : ℝ) • stdFrame.e1 + (0 : ℝ) • stdFrame.e2 - p := fun t => by module
  rw [e, e, sqDist3 stdFrame_ortho, sqDist3 stdFrame_ortho]
  nlinarith

theorem quarter_e0 : rotate (π / 2) stdFrame.e2 ((2 * (1 : ℝ) - 1) • stdFrame.e0) = stdFrame.e1 := by
  unfold rotate
  rw [Real.cos_pi_div_two, Real.sin_pi_div_two]
  apply ext3 <;> (simp [stdFrame, dot_e3]; try norm_num)

/-- C80 is false of the code for profiles that cross the axis (the comment in the code only asks that
the average of ten profile points is off the axis, and nothing checks it): on the unit disk swept by a
diameter, with a profile inverse that returns closest points, inverse evaluation of the boundary point
at `(π/2, 1)` reports success at the centre of the disk, at distance 1. -/
theorem C80_across_axis_refuted (big tol tol100 : ℝ) (hb : tol100 ≤ big - 1) (ht : 0 < tol100)
    (ht1 : tol100 ≤ 1) (fuel : ℕ) (hfuel : 1 ≤ fuel) :
    Extrusion.InvClosest exDiameter (fun t => (2 * t - 1) • stdFrame.e0) 0 1 ∧
    ∃ p, (exDisk.fn tol).ev (π / 2) 1 = ok p ∧
      exDisk.inverseEvaluate big tol tol100 fuel p 0 (2 * π) 0 1 = ok ((0, 1 / 2), true) ∧
      ∃ q, (exDisk.fn tol).ev 0 (1 / 2) = ok q ∧ (Geom.norm (q - p) : ℝ) = 1 := by
  have hzero : (2 * (1 / 2 : ℝ) - 1) • stdFrame.e0 = 0 := by norm_num
  have hnorm : (Geom.norm ((0 : E3) - stdFrame.e1) : ℝ) = 1 := by
    rw [norm_of_sq, show (sqNorm ((0 : E3) - stdFrame.e1) : ℝ) = 1 by
      unfold sqNorm; simp [dot_e3, stdFrame], Real.sqrt_one]
  refine ⟨exDiameter_closest, rotate (π / 2) stdFrame.e2 ((2 * (1 : ℝ) - 1) • stdFrame.e0),
    exDisk_ev _ _ _, ?_, _, exDisk_ev _ _ _, ?_⟩
  swap
  · rw [rotate_zero, hzero, quarter_e0, hnorm]
  rw [quarter_e0]
  obtain ⟨n, rfl⟩ : ∃ n, fuel = n + 1 := ⟨fuel - 1, by omega⟩
  have hz : normalized (0 : E3) = 0 := by unfold normalized; simp
  have hcz : cross stdFrame.e2 (0 : E3) = 0 := by apply ext3 <;> simp
  have hd0 : ∀ x : E3, (dot x (0 : E3) : ℝ) = 0 := fun x => by simp [dot_e3]
  have hc : PatchBase.clipPeriodic (atan2 0 0) 0 (2 * π) (2 * π) = ok 0 := by
    have h0 : atan2 0 0 = 0 := by unfold atan2; exact Complex.arg_zero
    rw [h0]
    unfold PatchBase.clipPeriodic
    have hpi := Real.pi_pos
    have hf : fmod (0 : ℝ) (2 * π) = ok 0 := by
      unfold fmod
      rw [if_neg (by positivity)]
      simp [trunc]
    simp only [lt_irrefl, if_false, sub_zero, hf, ok_bind, zero_add, ge_iff_le, le_refl, assert_true]
    rw [if_neg (by simp only [not_lt]; positivity), assert_true (by positivity)]
    rfl
  have hl : invLoop tol tol100 exDisk exDiameter stdFrame.e1 0 (2 * π) 0 1 (n + 1) 0 = ok (0, 1 / 2) := by
    rw [invLoop]
    simp only []
    have e1 : (0 : E3) - exDisk.location - (dot ((0 : E3) - exDisk.location) exDisk.axis : ℝ) • exDisk.axis
        = 0 := by
      simp only [exDisk, sub_zero, dot_zero_left, zero_smul]
    rw [e1, show exDisk.axis = stdFrame.e2 from rfl, hcz, hz, hd0, hc, ok_bind]
    have e2 : exDiameter.inv (exDisk.location + rotate (-0) stdFrame.e2 (stdFrame.e1 - exDisk.location)) 0 1
        = ok (1 / 2) := by
      rw [neg_zero, rotate_zero]
      simp only [exDiameter, exDisk, sub_zero, zero_add, stdFrame_ortho.o10]
      norm_num
    rw [e2, ok_bind, exDisk_ev, ok_bind, rotate_zero, hzero, if_neg]
    · rfl
    · rw [sub_zero, sqNorm_eq_zero.2 rfl]; exact not_lt.2 ht.le
  have hn : PatchBase.newtonPatch (exDisk.fn tol) stdFrame.e1 tol100 0 (2 * π) 0 1 20 0 (1 / 2) (0, 1 / 2)
      big = ok ((0, 1 / 2), true) := by
    rw [PatchBase.newtonPatch, exDisk_ev, ok_bind, rotate_zero, hzero]
    simp only [hnorm]
    rw [if_neg, if_neg (by linarith)]
    · have hdu : (exDisk.fn tol).du 0 (1 / 2) = ok 0 := by
        simp only [fn, exDisk, getPart, exDiameter, ok_bind, sub_zero, zero_add, rotate_zero, hzero, hcz]
        rw [dot_zero_left, zero_smul, sub_zero, hz, smul_zero, ite_self]
        rfl
      have hdv : (exDisk.fn tol).dv 0 (1 / 2) = ok ((2 : ℝ) • stdFrame.e0) := by
        simp only [fn, exDisk, getPart, exDiameter, ok_bind, rotate_zero]
        rfl
      rw [hdu, ok_bind, hdv, ok_bind, if_pos]
      constructor
      · rw [dot_zero_left, abs_zero]; exact ht
      · rw [zero_sub, dot_neg_right, dot_smul, stdFrame_ortho.o01, mul_zero, neg_zero, abs_zero]; exact ht
    · rintro (h | h)
      · linarith
      · rw [abs_sub_comm, abs_of_nonneg (by linarith)] at h
        linarith
  unfold inverseEvaluate
  rw [show exDisk.profile = some exDiameter from rfl, getPart, ok_bind, exDisk_pivot, ok_bind, hl, ok_bind]
  simp only []
  rw [hn, ok_bind, assert_true, ok_bind, assert_true, ok_bind]
  · rfl
  · norm_num
  · exact ⟨le_rfl, by positivity⟩

end Revolution

/-! ## Offset -/

namespace Offset

/-- C44: without a base surface everything throws. -/
theorem C44_offset_no_base (big small tol : ℝ) (s : Offset) (h : s.base = none) (u v : ℝ) (p : E3)
    (a b c d : ℝ) :
    (s.fn small).ev u v = Outcome.throw .invalidSetting ∧
    (s.fn small).du u v = Outcome.throw .invalidSetting ∧
    (s.fn small).dv u v = Outcome.throw .invalidSetting ∧
    (s.fn small).duu u v = Outcome.throw .invalidSetting ∧
    (s.fn small).dvv u v = Outcome.throw .invalidSetting ∧
    (s.fn small).duv u v = Outcome.throw .invalidSetting ∧
    s.inverseEvaluate big small tol p a b c d = Outcome.throw .invalidSetting ∧
    s.init tol = Outcome.throw .invalidSetting := by
  simp only [fn, evaluate, evaluateDerivativeU, evaluateDerivativeV, difference, inverseEvaluate, init, h,
    getPart]
  exact ⟨rfl, rfl, rfl, rfl, rfl, rfl, rfl, rfl⟩

/-- C44: at a regular point the offset point is at distance `|offset|` from the base point, along the
unit normal of the base surface, on the side of `du × dv`; at a singular point it is the base point. -/
theorem C44_offset_distance (s : Offset) (b : BasePatch) (hb : s.base = some b) (u v : ℝ) (p du dv : E3)
    (hp : b.fn.ev u v = ok p) (hdu : b.fn.du u v = ok du) (hdv : b.fn.dv u v = ok dv) :
    ∃ x, s.evaluate u v = ok x ∧
      (cross du dv ≠ 0 → (Geom.norm (x - p) : ℝ) = |s.offset| ∧
        (dot (x - p) du : ℝ) = 0 ∧ (dot (x - p) dv : ℝ) = 0 ∧
        ∃ k : ℝ, 0 < k ∧ x - p = (s.offset * k) • cross du dv) ∧
      (cross du dv = 0 → x = p) := by
  refine ⟨p + s.offset • normalized (cross du dv), ?_, ?_, ?_⟩
  · unfold evaluate
    rw [hb, getPart, ok_bind, hp, ok_bind, hdu, ok_bind, hdv, ok_bind, pure_eq]
  · intro hn
    have hn' : (sqNorm (cross du dv) : ℝ) ≠ 0 := fun h => hn (sqNorm_eq_zero.1 h)
    have hpos : (0 : ℝ) < sqNorm (cross du dv) :=
      lt_of_le_of_ne (sqNorm_nonneg (K := ℝ) _) (Ne.symm hn')
    rw [add_sub_cancel_left]
    refine ⟨?_, ?_, ?_, 1 / Real.sqrt (sqNorm (cross du dv)), by positivity, ?_⟩
    · rw [norm_of_sq, sqNorm_smul, sqNorm_normalized hn', mul_one, Real.sqrt_mul_self_eq_abs]
    · rw [normalized_of_pos hn', dot_smul, dot_smul, LawfulGeom.dot_comm (K := ℝ), dot_cross_left]; ring
    · rw [normalized_of_pos hn', dot_smul, dot_smul, LawfulGeom.dot_comm (K := ℝ), dot_cross_right]; ring
    · rw [normalized_of_pos hn', smul_smul]
  · intro hn
    rw [hn]
    unfold normalized
    rw [show (sqNorm (0 : E3) : ℝ) = 0 from sqNorm_eq_zero.2 rfl, if_neg (lt_irrefl _), smul_zero, add_zero]

/-- Derivative of the unit vector along a curve that does not vanish. -/
theorem normalized_hasDerivWithinAt {n : ℝ → E3} {r : E3} {S : Set ℝ} {x : ℝ}
    (hS : ∀ t ∈ S, (sqNorm (n t) : ℝ) ≠ 0) (hx : x ∈ S) (hn : HasDerivWithinAt n r S x) :
    HasDerivWithinAt (fun t => normalized (n t))
      ((1 / Real.sqrt (sqNorm (n x))) • r -
        (dot r (n x) / (sqNorm (n x) * Real.sqrt (sqNorm (n x)))) • n x) S x := by
  have hne := hS x hx
  have hpos : (0 : ℝ) < sqNorm (n x) := lt_of_le_of_ne (sqNorm_nonneg (K := ℝ) _) (Ne.symm hne)
  have hq : HasDerivWithinAt (fun t => (sqNorm (n t) : ℝ)) (dot (n x) r + dot r (n x)) S x :=
    HasDerivWithinAt.inner ℝ hn hn
  have hs := hq.sqrt hne
  have hi := hs.inv (Real.sqrt_pos.2 hpos).ne'
  have h2 := hi.smul hn
  refine (h2.congr (f₁ := fun t => normalized (n t)) ?_ ?_).congr_deriv ?_
  · intro t ht
    rw [normalized_of_pos (hS t ht), one_div]; rfl
  · rw [normalized_of_pos hne, one_div]; rfl
  · rw [LawfulGeom.dot_comm (K := ℝ) (n x) r]
    have hsq : Real.sqrt (sqNorm (n x)) ^ 2 = sqNorm (n x) := Real.sq_sqrt hpos.le
    have hsp := Real.sqrt_pos.2 hpos
    rw [hsq]
    simp only [Pi.inv_apply]
    generalize Real.sqrt (sqNorm (n x)) = w at *
    generalize (sqNorm (n x) : ℝ) = m at *
    generalize (dot r (n x) : ℝ) = k
    match_scalars <;> field_simp
    ring

/-- C44: on a rectangle of regular parameters where the derivative functions of the base surface are its
partial derivatives, `evaluate_derivative_u` and `_v` are the partial derivatives of `evaluate`. -/
theorem C44_offset_first_derivatives (s : Offset) (b : BasePatch) (hb : s.base = some b) (S T : Set ℝ)
    (hp : PartialsOn b.fn S T)
    (hreg : ∀ u ∈ S, ∀ v ∈ T, ∀ du dv, b.fn.du u v = ok du → b.fn.dv u v = ok dv → cross du dv ≠ 0) :
    ∃ g gu gv : ℝ → ℝ → E3, ∀ u ∈ S, ∀ v ∈ T,
      s.evaluate u v = ok (g u v) ∧ s.evaluateDerivativeU u v = ok (gu u v) ∧
      s.evaluateDerivativeV u v = ok (gv u v) ∧
      HasDerivWithinAt (fun x => g x v) (gu u v) S u ∧ HasDerivWithinAt (fun y => g u y) (gv u v) T v := by
  obtain ⟨f, fu, fv, fuu, fvv, fuv, h⟩ := hp
  have hne : ∀ u ∈ S, ∀ v ∈ T, (sqNorm (cross (fu u v) (fv u v)) : ℝ) ≠ 0 := by
    intro u hu v hv h0
    obtain ⟨⟨-, h2, h3, -⟩, -⟩ := h u hu v hv
    exact hreg u hu v hv _ _ h2 h3 (sqNorm_eq_zero.1 h0)
  let n := fun u v => cross (fu u v) (fv u v)
  let ru := fun u v => cross (fuu u v) (fv u v) + cross (fu u v) (fuv u v)
  let rv := fun u v => cross (fuv u v) (fv u v) + cross (fu u v) (fvv u v)
  let g' := fun (n r : E3) => (1 / Real.sqrt (sqNorm n)) • r -
    ((dot r n : ℝ) / (sqNorm n * Real.sqrt (sqNorm n))) • n
  refine ⟨fun u v => f u v + s.offset • normalized (n u v),
    fun u v => fu u v + s.offset • g' (n u v) (ru u v),
    fun u v => fv u v + s.offset • g' (n u v) (rv u v), fun u hu v hv => ?_⟩
  obtain ⟨⟨h1, h2, h3, h4, h5, h6⟩, d1, d2, d3, d4, d5, d6⟩ := h u hu v hv
  have hn := hne u hu v hv
  refine ⟨?_, ?_, ?_, ?_, ?_⟩
  · unfold evaluate
    rw [hb, getPart, ok_bind, h1, ok_bind, h2, ok_bind, h3, ok_bind, pure_eq]
  · unfold evaluateDerivativeU slope
    rw [hb, getPart, ok_bind, h2, ok_bind, h3, ok_bind, h4, ok_bind, h6, ok_bind, assert_true hn, ok_bind,
      pure_eq]
  · unfold evaluateDerivativeV slope
    rw [hb, getPart, ok_bind, h2, ok_bind, h3, ok_bind, h6, ok_bind, h5, ok_bind, assert_true hn, ok_bind,
      pure_eq]
  · have hcr := hasDerivWithinAt_cross d3 d6
    exact d1.add ((normalized_hasDerivWithinAt (n := fun x => n x v) (fun x hx => hne x hx v hv) hu
      hcr).const_smul s.offset)
  · have hcr := hasDerivWithinAt_cross d5 d4
    exact d2.add ((normalized_hasDerivWithinAt (n := fun y => n u y) (fun y hy => hne u hu y hy) hv
      hcr).const_smul s.offset)

/-- C44: at a singular point of the base surface the derivative functions divide by zero. -/
theorem C44_offset_singular (s : Offset) (b : BasePatch) (hb : s.base = some b) (u v : ℝ)
    (du dv duu duv : E3) (hdu : b.fn.du u v = ok du) (hdv : b.fn.dv u v = ok dv)
    (h3 : b.fn.duu u v = ok duu) (h4 : b.fn.duv u v = ok duv) (h0 : cross du dv = 0) :
    s.evaluateDerivativeU u v = ub := by
  unfold evaluateDerivativeU slope
  rw [hb, getPart, ok_bind, hdu, ok_bind, hdv, ok_bind, h3, ok_bind, h4, ok_bind, h0,
    assert_false (by rw [not_not]; exact sqNorm_eq_zero.2 rfl)]
  rfl

/-- C44: a result of inverse evaluation lies in the box. -/
theorem C44_offset_in_box (big small tol : ℝ) (s : Offset) (p : E3) (minU maxU minV maxV : ℝ)
    (r : (ℝ × ℝ) × Bool) (hi : s.inverseEvaluate big small tol p minU maxU minV maxV = ok r) :
    (minU ≤ r.1.1 ∧ r.1.1 ≤ maxU) ∧ minV ≤ r.1.2 ∧ r.1.2 ≤ maxV := by
  have key : ∀ u v r, PatchBase.inverseFrom big (s.fn small) p u v minU maxU minV maxV 20 tol = ok r →
      (minU ≤ r.1.1 ∧ r.1.1 ≤ maxU) ∧ minV ≤ r.1.2 ∧ r.1.2 ≤ maxV := by
    intro u v r hr
    unfold PatchBase.inverseFrom at hr
    simp only at hr
    obtain ⟨x, _, hr⟩ := bind_eq_ok.1 hr
    obtain ⟨_, h1, hr⟩ := bind_eq_ok.1 hr
    obtain ⟨_, h2, hr⟩ := bind_eq_ok.1 hr
    rw [pure_eq, ok.injEq] at hr
    subst hr
    constructor
    · by_contra hn; rw [assert_false hn] at h1; cases h1
    · by_contra hn; rw [assert_false hn] at h2; cases h2
  unfold inverseEvaluate at hi
  obtain ⟨b, _, hi⟩ := bind_eq_ok.1 hi
  obtain ⟨r1, _, hi⟩ := bind_eq_ok.1 hi
  obtain ⟨r2, h2, hi⟩ := bind_eq_ok.1 hi
  split_ifs at hi
  · exact key _ _ _ hi
  · rw [pure_eq, ok.injEq] at hi
    subst hi
    exact key _ _ _ h2

/-- Concrete case: the offset of the standard plane. -/
noncomputable def exOffset : Offset :=
  ⟨some ⟨(⟨0, stdFrame.e0, stdFrame.e1, ⟨0, 1, 0, 1, false, false⟩⟩ : Plane ℝ E3).fn,
    fun _ _ _ _ _ => ub, ⟨0, 1, 0, 1, false, false⟩⟩, 1 / 2, ⟨0, 1, 0, 1, false, false⟩⟩

theorem exOffset_regular : cross stdFrame.e0 stdFrame.e1 ≠ (0 : E3) := by
  intro h
  have := sqNorm_cross stdFrame.e0 stdFrame.e1
  rw [h, show (sqNorm stdFrame.e0 : ℝ) = 1 from stdFrame_ortho.n0,
    show (sqNorm stdFrame.e1 : ℝ) = 1 from stdFrame_ortho.n1, stdFrame_ortho.o01,
    show (sqNorm (0 : E3) : ℝ) = 0 from sqNorm_eq_zero.2 rfl] at this
  norm_num at this

example := C44_offset_first_derivatives exOffset _ rfl Set.univ Set.univ
  (TruePartials.on (Plane.C39_plane_partials _) _ _) (by
    intro u _ v _ du dv h1 h2
    rw [← (ok.inj h1), ← (ok.inj h2)]
    exact exOffset_regular)

end Offset

end NS
