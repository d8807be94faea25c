import Verif.Proof.IeeeExact

/-!
# Properties C104 and C105: without rounding errors and with enough range the machine computes the
exact results

Every function of the IEEE model, run in a format without rounding errors whose range is large enough
for the given data, returns the result of the exact model: the same point or parameter, the same error,
the same undefined outcome.  This holds for all parameters, periodic curves included.
-/

set_option linter.unusedSectionVars false

namespace NS.Ieee

open Outcome Geom

variable {K ι : Type} [Field K] [LinearOrder K] [IsStrictOrderedRing K] [FloorRing K] [Fintype ι]

/-- A curve with finite control points. -/
def liftCurve (c : Bezier (ι → K)) : Bezier (ι → Num K) :=
  { ctrl := c.ctrl.map lift, periodic := c.periodic }

variable {V : Type} [AddCommGroup V] [Module K V]

/-- The coordinates of a point as numbers. -/
def emb (φ : V →ₗ[K] (ι → K)) (x : V) : ι → Num K := lift (φ x)

/-- A curve given by the coordinates of its control points. -/
def liftBy (φ : V →ₗ[K] (ι → K)) (c : Bezier V) : Bezier (ι → Num K) :=
  { ctrl := c.ctrl.map (emb φ), periodic := c.periodic }

/-! ### Evaluators -/

theorem settles_unwrap (a b t : K) :
    Settles Num.fin (fun A => unwrap A (.fin a) (.fin b) (.fin t)) fun _ => unwrapParameter a b t := by
  unfold unwrapParameter fmod
  by_cases h : b - a = 0
  · refine ⟨ub, ((Eventually.sub b a).and (Eventually.sub t a)).mono ?_⟩
    rintro B hB ⟨h1, h2⟩
    refine ⟨?_, by simp [h]⟩
    beta_reduce
    unfold unwrap
    rw [h1, h2]
    have e : (exactFormat B hB).round (((Num.fin (t - a)).fmod (.fin (b - a))).add (.fin a)) = .nan := by
      rw [Num.fmod, if_pos h]; rfl
    dsimp only
    rw [e, show Num.nan.lt (Num.fin a) = false from rfl, if_neg Bool.false_ne_true,
      assert_false (fun h => Bool.false_ne_true h.2)]
    rfl
  · simp only [if_neg h]
    set m := t - a - (b - a) * (trunc ((t - a) / (b - a)) : K) with hm
    refine ⟨(do
      Outcome.assert ((if m + a < a then m + a + (b - a) else m + a) ≥ a ∧
        (if m + a < a then m + a + (b - a) else m + a) ≤ b)
      pure (if m + a < a then m + a + (b - a) else m + a)), ((Eventually.sub b a).and
      ((Eventually.sub t a).and ((Eventually.add m a).and (Eventually.add (m + a) (b - a))))).mono ?_⟩
    rintro B hB ⟨h1, h2, h3, h4⟩
    refine ⟨?_, by rw [ok_bind]⟩
    beta_reduce
    unfold unwrap
    rw [h1, h2]
    dsimp only
    rw [show (Num.fin (t - a)).fmod (.fin (b - a)) = .fin m from if_neg h, h3, h4]
    have e : (if (Num.fin (m + a)).lt (.fin a) then Num.fin (m + a + (b - a)) else Num.fin (m + a)) =
        Num.fin (if m + a < a then m + a + (b - a) else m + a) := by
      simp only [Num.lt, decide_eq_true_eq]
      split_ifs <;> rfl
    rw [e]
    simp only [Num.le, decide_eq_true_eq, ge_iff_le]
    unfold Outcome.assert
    split_ifs <;> rfl

theorem settles_wrap (per : Bool) (t : K) :
    Settles Num.fin (fun A => bezierWrap A per (.fin t)) fun _ => Bezier.wrap per t := by
  unfold bezierWrap Bezier.wrap
  cases per
  · exact .const _ (ok t)
  · exact settles_unwrap 0 1 t

theorem eventually_combine (φ : V →ₗ[K] (ι → K)) (s r : K) (a b : V) : Eventually fun A : Format K => ∀ f : ι → Fuse,
    (fun i => A.combine (f i) (.fin s) (emb φ a i) (.fin r) (emb φ b i)) = emb φ (s • a + r • b) := by
  refine (Eventually.all fun i => Eventually.combine s (φ a i) r (φ b i)).mono fun B hB h f => ?_
  funext i
  rw [show emb φ (s • a + r • b) i = .fin (s * φ a i + r * φ b i) by simp [emb, lift]]
  exact h i (f i)

theorem settles_bezierBlossom (φ : V →ₗ[K] (ι → K)) (F : ℕ → ℕ → ι → Fuse) (bv : List K) (d : ℕ) (c : List V) :
    Settles (List.map (emb φ)) (fun A => bezierBlossom A F (bv.map .fin) d (c.map (emb φ)))
      fun _ => Bezier.blossom bv d c := by
  refine Settles.forUp (fun r c => Settles.forDown (fun j c => ?_) _ _ _) _ _ _
  refine (Settles.rd Num.fin bv _).bind fun t => ?_
  refine (Settles.rd (emb φ) c _).bind fun a => ?_
  refine (Settles.rd (emb φ) c _).bind fun b => ?_
  refine Settles.wr c j (((Eventually.compl t).and (eventually_combine φ t (1 - t) a b)).mono ?_)
  rintro B hB ⟨h1, h2⟩
  rw [h1]
  exact h2 _

theorem settles_bezierDeBoor (φ : V →ₗ[K] (ι → K)) (F : ℕ → ℕ → ι → Fuse) (n : ℕ) (t : K) (d : ℤ) (c : List V) :
    Settles (emb φ) (fun A => bezierDeBoor A F n (.fin t) d (c.map (emb φ)))
      fun _ => Bezier.deBoor n t d c := by
  unfold bezierDeBoor Bezier.deBoor
  split_ifs with h
  · have := settles_bezierBlossom φ F (List.replicate n t) d.toNat c
    rw [List.map_replicate] at this
    exact this.bind fun c => Settles.rdI (emb φ) c d
  · exact Settles.rdI (emb φ) c d

theorem settles_bezierEvaluate (φ : V →ₗ[K] (ι → K)) (F : ℕ → ℕ → ι → Fuse) (c : Bezier V) (t : K) :
    Settles (emb φ) (fun A => bezierEvaluate A F (liftBy φ c) (.fin t)) fun _ => c.evaluate t := by
  have hd : (liftBy φ c).degree = c.degree := by simp [Bezier.degree, liftBy]
  unfold bezierEvaluate Bezier.evaluate
  rw [hd]
  exact (settles_wrap c.periodic t).bind fun t => settles_bezierDeBoor φ F _ t _ _

theorem settles_derivCoef (φ : V →ₗ[K] (ι → K)) (d : ℕ) (c : List V) :
    Settles (List.map (emb φ)) (fun A => bezierDerivCoef A d (c.map (emb φ)))
      fun _ => Bezier.derivativeCoefficients K d c := by
  refine Settles.loop (fun i c => ?_) _ _
  refine (Settles.rd (emb φ) c _).bind fun a => ?_
  refine (Settles.rd (emb φ) c _).bind fun b => ?_
  refine Settles.wr c i ((Eventually.all fun l => (Eventually.sub (φ a l) (φ b l)).and
    (Eventually.mul (d : K) (φ a l - φ b l))).mono fun B hB h => ?_)
  funext l
  obtain ⟨h1, h2⟩ := h l
  rw [show emb φ a l = .fin (φ a l) from rfl, show emb φ b l = .fin (φ b l) from rfl, h1, h2]
  simp [emb, lift]

theorem settles_bezierDerivative (φ : V →ₗ[K] (ι → K)) (F : ℕ → ℕ → ι → Fuse) (c : Bezier V) (t : K) :
    Settles (emb φ) (fun A => bezierDerivative A F (liftBy φ c) (.fin t))
      fun _ => c.evaluateDerivative t := by
  have hd : (liftBy φ c).degree = c.degree := by simp [Bezier.degree, liftBy]
  unfold bezierDerivative Bezier.evaluateDerivative
  rw [hd]
  refine (settles_wrap c.periodic t).bind fun t => ?_
  refine (Settles.assert (.of fun _ => Iff.rfl)).bind fun _ => ?_
  split_ifs
  · exact .ok' 0 (.of fun _ => by simp [emb]; rfl)
  · exact (settles_derivCoef φ _ _).bind fun d => settles_bezierDeBoor φ F _ t _ d

theorem settles_bezier2ndDerivative (φ : V →ₗ[K] (ι → K)) (F : ℕ → ℕ → ι → Fuse) (c : Bezier V) (t : K) :
    Settles (emb φ) (fun A => bezier2ndDerivative A F (liftBy φ c) (.fin t))
      fun _ => c.evaluate2ndDerivative t := by
  have hd : (liftBy φ c).degree = c.degree := by simp [Bezier.degree, liftBy]
  unfold bezier2ndDerivative Bezier.evaluate2ndDerivative
  rw [hd]
  refine (settles_wrap c.periodic t).bind fun t => ?_
  refine (Settles.assert (.of fun _ => Iff.rfl)).bind fun _ => ?_
  split_ifs
  · exact .ok' 0 (.of fun _ => by simp [emb]; rfl)
  · exact (settles_derivCoef φ _ _).bind fun d => (settles_derivCoef φ _ _).bind fun d =>
      settles_bezierDeBoor φ F _ t _ d

/-- C104: without rounding errors and with enough range, a Bézier curve and its derivatives evaluate
to the exact points, for every parameter, and fail in the same cases. -/
theorem C104_exact_bezier (F : ℕ → ℕ → ι → Fuse) (c : Bezier (ι → K)) (t : K) :
    (Eventually fun A => bezierEvaluate A F (liftCurve c) (.fin t) = lift <$> c.evaluate t) ∧
    (Eventually fun A => bezierDerivative A F (liftCurve c) (.fin t) =
      lift <$> c.evaluateDerivative t) ∧
    Eventually fun A => bezier2ndDerivative A F (liftCurve c) (.fin t) =
      lift <$> c.evaluate2ndDerivative t :=
  ⟨(settles_bezierEvaluate (LinearMap.id (M := ι → K)) F c t).result,
    (settles_bezierDerivative (LinearMap.id (M := ι → K)) F c t).result,
    (settles_bezier2ndDerivative (LinearMap.id (M := ι → K)) F c t).result⟩

/-! ### B-splines -/

theorem search_lift (u : List K) (t : K) : ∀ f low high,
    search u (.fin t) f low high = BSpline.search u t f low high
  | 0, _, _ => rfl
  | f + 1, low, high => by
    unfold search BSpline.search
    simp only [Num.lt, Num.le, decide_eq_true_eq, ge_iff_le, search_lift u t f]

theorem locateSpan_lift (c : BSpline K (ι → K)) (t : K) :
    locateSpan (liftSpline c) (.fin t) = c.locateSpan t := by
  have hd : (liftSpline c).degree = c.degree := by simp [BSpline.degree, liftSpline]
  have hl : (liftSpline c).ctrl.length = c.ctrl.length := by simp [liftSpline]
  unfold locateSpan BSpline.locateSpan
  rw [hd, hl]
  simp only [Num.le, decide_eq_true_eq, ge_iff_le, search_lift, show (liftSpline c).knots = c.knots from rfl]

theorem settles_bsplineWrap (c : BSpline K (ι → K)) (t : K) :
    Settles Num.fin (fun A => bsplineWrap A (liftSpline c) (.fin t)) fun _ => c.wrap t := by
  have hd : (liftSpline c).degree = c.degree := by simp [BSpline.degree, liftSpline]
  have h1 : (liftSpline c).lower = c.lower := by unfold BSpline.lower; rw [hd]; rfl
  have h2 : (liftSpline c).upper = c.upper := by unfold BSpline.upper; rw [hd]; rfl
  unfold bsplineWrap BSpline.wrap
  rw [h1, h2, show (liftSpline c).periodic = c.periodic from rfl]
  cases c.periodic
  · exact .const Num.fin (ok t)
  · simp only [if_true]
    refine Settles.bind (e := id) ⟨c.lower, .of fun _ => ⟨by cases c.lower <;> rfl, rfl⟩⟩ fun a => ?_
    refine Settles.bind (e := id) ⟨c.upper, .of fun _ => ⟨by cases c.upper <;> rfl, rfl⟩⟩ fun b => ?_
    exact settles_unwrap a b t

theorem settles_spanCtrl (c : BSpline K (ι → K)) (p : ℕ) (k : ℤ) :
    Settles (K := K) (List.map lift) (fun _ => spanCtrl (liftSpline c) p k) fun _ => c.spanCtrl p k := by
  unfold spanCtrl BSpline.spanCtrl
  have e : (List.replicate (p + 1) fun _ => .fin 0 : List (ι → Num K)) =
      List.map lift (List.replicate (p + 1) 0) := by rw [List.map_replicate]; rfl
  rw [e]
  refine Settles.loop (fun i q => ?_) _ _
  refine (Settles.assert (.of fun _ => Iff.rfl)).bind fun _ => ?_
  refine (Settles.assert (.of fun _ => by simp [liftSpline])).bind fun _ => ?_
  exact (Settles.rdI lift c.ctrl _).bind fun a => Settles.wr q i (.of fun _ => rfl)

theorem eventually_coef (a b t : K) : Eventually fun A : Format K =>
    coef A a b (.fin t) = .fin (if a - b > BSpline.tiny K then (t - b) / (a - b) else 0) := by
  by_cases h : a - b > BSpline.tiny K
  · have hne : a - b ≠ 0 := (lt_of_le_of_lt tiny_nonneg h).ne'
    refine ((Eventually.sub a b).and ((Eventually.sub t b).and ((Eventually.round (BSpline.tiny K)).and
      (Eventually.div (t - b) hne)))).mono ?_
    rintro B hB ⟨h1, h2, h3, h4⟩
    unfold coef
    rw [h1, h2, h3, if_pos h]
    dsimp only
    rw [show (Num.fin (BSpline.tiny K)).lt (.fin (a - b)) = true from decide_eq_true h, if_pos rfl, h4]
  · refine ((Eventually.sub a b).and (Eventually.round (BSpline.tiny K))).mono ?_
    rintro B hB ⟨h1, h3⟩
    unfold coef
    rw [h1, h3, if_neg h]
    dsimp only
    rw [show (Num.fin (BSpline.tiny K)).lt (.fin (a - b)) = false from decide_eq_false h,
      if_neg Bool.false_ne_true]

theorem settles_bsplineBlossom (F : ℕ → ℕ → ι → Fuse) (u bv : List K) (p : ℕ) (k : ℤ)
    (q : List (ι → K)) :
    Settles (List.map lift) (fun A => bsplineBlossom A F u (bv.map .fin) p k (q.map lift))
      fun _ => BSpline.blossom u bv p k q := by
  unfold bsplineBlossom BSpline.blossom
  refine (Settles.assert (.of fun _ => by simp)).bind fun _ => ?_
  refine Settles.forUp (fun r q => ?_) _ _ _
  refine (Settles.rd Num.fin bv _).bind fun t => ?_
  refine Settles.forDown (fun j q => ?_) _ _ _
  refine Settles.bind (e := id) ⟨rdI u _, .of fun _ => ⟨by cases rdI u _ <;> rfl, rfl⟩⟩ fun a => ?_
  refine Settles.bind (e := id) ⟨rdI u _, .of fun _ => ⟨by cases rdI u _ <;> rfl, rfl⟩⟩ fun b => ?_
  refine (Settles.rd lift q _).bind fun x => ?_
  refine (Settles.rd lift q _).bind fun y => ?_
  simp only [id]
  set al := if a - b > BSpline.tiny K then (t - b) / (a - b) else 0 with hal
  refine Settles.wr q j (((eventually_coef a b t).and ((Eventually.compl al).and
    (eventually_combine .id (1 - al) al x y))).mono ?_)
  rintro B hB ⟨h1, h2, h3⟩
  rw [h1, ← hal, h2]
  exact h3 _

theorem settles_bsplineEvaluate (F : ℕ → ℕ → ι → Fuse) (c : BSpline K (ι → K)) (t : K) :
    Settles lift (fun A => bsplineEvaluate A F (liftSpline c) (.fin t)) fun _ => c.evaluate t := by
  have hd : (liftSpline c).degree = c.degree := by simp [BSpline.degree, liftSpline]
  have hv : (liftSpline c).validate = c.validate := by
    unfold BSpline.validate
    rw [hd]
    rfl
  unfold bsplineEvaluate BSpline.evaluate
  rw [hv, hd]
  refine Settles.bind (e := id) ⟨c.validate, .of fun _ => ⟨by cases c.validate <;> rfl, rfl⟩⟩ fun _ => ?_
  refine (settles_bsplineWrap c t).bind fun t => ?_
  simp only [locateSpan_lift]
  refine Settles.bind (e := id) ⟨c.locateSpan t, .of fun _ => ⟨by cases c.locateSpan t <;> rfl, rfl⟩⟩
    fun k => ?_
  refine (Settles.assert (.of fun _ => Iff.rfl)).bind fun _ => ?_
  refine (settles_spanCtrl c _ _).bind fun q => ?_
  unfold bsplineDeBoor BSpline.deBoor
  rw [hd]
  split_ifs with h
  · have := settles_bsplineBlossom F c.knots (List.replicate c.degree.toNat t) c.degree.toNat (id k) q
    rw [List.map_replicate] at this
    exact this.bind fun c => Settles.rd lift c _
  · exact Settles.rd lift q _

/-- C104: without rounding errors and with enough range, a B-spline curve evaluates to the exact
point, for every parameter, and fails in the same cases. -/
theorem C104_exact_bspline (F : ℕ → ℕ → ι → Fuse) (c : BSpline K (ι → K)) (t : K) :
    Eventually fun A => bsplineEvaluate A F (liftSpline c) (.fin t) = lift <$> c.evaluate t :=
  (settles_bsplineEvaluate F c t).result

/-! ### Patches -/

theorem settles_getControlPoint (p : BezierPatch (ι → K)) (i j : ℕ) :
    Settles (K := K) lift (fun _ => (liftPatch p).getControlPoint i j)
      fun _ => p.getControlPoint i j := by
  unfold BezierPatch.getControlPoint
  exact (Settles.self (p.linearIndex i j)).bind fun k => Settles.rd lift p.grid k

theorem settles_isoCurvesV (p : BezierPatch (ι → K)) :
    Settles (K := K) (List.map liftCurve) (fun _ => (liftPatch p).isoCurvesV)
      fun _ => p.isoCurvesV := by
  unfold BezierPatch.isoCurvesV
  refine (Settles.self p.numU).bind fun m => (Settles.self p.numV).bind fun n => ?_
  refine Settles.tab (fun i => ?_) _
  exact (Settles.tab (fun j => settles_getControlPoint p i j) n).bind fun c =>
    Settles.ok' ({ ctrl := c, periodic := p.perV } : Bezier (ι → K)) (.of fun _ => rfl)

theorem settles_isoCurvesU (p : BezierPatch (ι → K)) :
    Settles (K := K) (List.map liftCurve) (fun _ => (liftPatch p).isoCurvesU)
      fun _ => p.isoCurvesU := by
  unfold BezierPatch.isoCurvesU
  refine (Settles.self p.numU).bind fun m => (Settles.self p.numV).bind fun n => ?_
  refine Settles.tab (fun j => ?_) _
  exact (Settles.tab (fun i => settles_getControlPoint p i j) m).bind fun c =>
    Settles.ok' ({ ctrl := c, periodic := p.perU } : Bezier (ι → K)) (.of fun _ => rfl)

theorem settles_curve (F : ℕ → ℕ → ι → Fuse) (c : Bezier (ι → K)) (t : K) :
    Settles lift (fun A => bezierEvaluate A F (liftCurve c) (.fin t)) fun _ => c.evaluate t :=
  settles_bezierEvaluate (LinearMap.id (M := ι → K)) F c t

theorem settles_isoCurveU (F : ℕ → ℕ → ℕ → ι → Fuse) (p : BezierPatch (ι → K)) (v : K) :
    Settles liftCurve (fun A => isoCurveU A F (liftPatch p) (.fin v)) fun _ => p.isoCurveU v := by
  unfold isoCurveU BezierPatch.isoCurveU
  refine (Settles.self p.numU).bind fun m => (settles_isoCurvesV p).bind fun isos => ?_
  refine (Settles.tab (fun i => (Settles.rd liftCurve isos i).bind fun c =>
    settles_curve (F i) c v) m).bind fun c => ?_
  exact Settles.ok' ({ ctrl := c, periodic := p.perU } : Bezier (ι → K)) (.of fun _ => rfl)

theorem settles_isoCurveV (F : ℕ → ℕ → ℕ → ι → Fuse) (p : BezierPatch (ι → K)) (u : K) :
    Settles liftCurve (fun A => isoCurveV A F (liftPatch p) (.fin u)) fun _ => p.isoCurveV u := by
  unfold isoCurveV BezierPatch.isoCurveV
  refine (Settles.self p.numV).bind fun m => (settles_isoCurvesU p).bind fun isos => ?_
  refine (Settles.tab (fun i => (Settles.rd liftCurve isos i).bind fun c =>
    settles_curve (F i) c u) m).bind fun c => ?_
  exact Settles.ok' ({ ctrl := c, periodic := p.perV } : Bezier (ι → K)) (.of fun _ => rfl)

theorem settles_patchEvaluate (F : ℕ → ℕ → ℕ → ι → Fuse) (G : ℕ → ℕ → ι → Fuse)
    (p : BezierPatch (ι → K)) (u v : K) :
    Settles lift (fun A => patchEvaluate A F G (liftPatch p) (.fin u) (.fin v))
      fun _ => p.evaluate u v := by
  unfold patchEvaluate BezierPatch.evaluate
  rw [show (liftPatch p).degV = p.degV from rfl, show (liftPatch p).degU = p.degU from rfl]
  split_ifs
  · exact (settles_isoCurveV F p u).bind fun c => settles_curve G c v
  · exact (settles_isoCurveU F p v).bind fun c => settles_curve G c u

/-- C104: without rounding errors and with enough range, a Bézier patch evaluates to the exact point,
for every parameter, and fails in the same cases. -/
theorem C104_exact_patch (F : ℕ → ℕ → ℕ → ι → Fuse) (G : ℕ → ℕ → ι → Fuse)
    (p : BezierPatch (ι → K)) (u v : K) :
    Eventually fun A => patchEvaluate A F G (liftPatch p) (.fin u) (.fin v) =
      lift <$> p.evaluate u v :=
  (settles_patchEvaluate F G p u v).result

/-! ### Rational curves -/

/-- The coordinates of a homogeneous point; the last one is the weight. -/
def homCoords : ((ι → K) × K) →ₗ[K] (Option ι → K) where
  toFun q o := match o with
    | some i => q.1 i
    | none => q.2
  map_add' x y := by funext o; cases o <;> rfl
  map_smul' a x := by funext o; cases o <;> rfl

theorem settles_homogenize (P : List (ι → K)) (w : List K) :
    Settles (List.map (emb homCoords)) (fun A => homogenize A (P.map lift) (w.map .fin))
      fun _ => NS.homogenize P w := by
  unfold homogenize NS.homogenize
  refine (Settles.assert (.of fun _ => by simp)).bind fun _ => ?_
  refine Settles.ok' _ ?_
  induction P generalizing w with
  | nil => exact .of fun _ => rfl
  | cons x P ih =>
    cases w with
    | nil => exact .of fun _ => rfl
    | cons a w =>
      refine ((ih w).and (Eventually.all fun i => Eventually.mul (x i) a)).mono ?_
      rintro B hB ⟨h1, h2⟩
      simp only [pure_eq, ok.injEq] at h1 ⊢
      simp only [List.map_cons, List.zipWith_cons_cons, h1]
      congr 1
      funext o
      cases o with
      | none => rfl
      | some i =>
        change (exactFormat B hB).round (Num.mul (.fin (x i)) (.fin a)) = .fin (a * x i)
        rw [h2 i, mul_comm]

/-- C104: without rounding errors and with enough range, a rational Bézier curve evaluates to the exact
point wherever there is one. -/
theorem C104_exact_rational (F : ℕ → ℕ → Option ι → Fuse) {c d : RationalBezier K (ι → K)}
    (hc : c.init = ok d) {t : K} {q : ι → K} (hq : d.evaluate t = ok q) :
    Eventually fun A => rationalEvaluate A F (c.base.ctrl.map lift) (c.weights.map .fin)
      c.base.periodic (.fin t) = ok (lift q) := by
  obtain ⟨Q, hQ, e⟩ := bind_eq_ok.1 hc
  simp only [pure_eq, ok.injEq] at e
  subst e
  obtain ⟨_, _, hq⟩ := bind_eq_ok.1 hq
  obtain ⟨z, hz, hq⟩ := bind_eq_ok.1 hq
  have h1 := (settles_homogenize c.base.ctrl c.weights).result
  rw [hQ] at h1
  have h2 := (settles_bezierEvaluate homCoords F { ctrl := Q, periodic := c.base.periodic } t).result
  change Eventually fun A => _ = emb homCoords <$>
    Bezier.evaluate { ctrl := Q, periodic := c.base.periodic } t at h2
  rw [hz] at h2
  unfold quot0 at hq
  by_cases h0 : z.2 = 0
  · rw [assert_false (by simpa using h0)] at hq; cases hq
  rw [assert_true h0] at hq
  simp only [pure_eq, ok_bind, ok.injEq] at hq
  refine (h1.and (h2.and (Eventually.all fun i => Eventually.div (z.1 i) h0))).mono ?_
  rintro B hB ⟨h1, h2, h3⟩
  unfold rationalEvaluate
  rw [h1, map_ok, ok_bind]
  have h2' : bezierEvaluate (exactFormat B hB) F
      { ctrl := Q.map (emb homCoords), periodic := c.base.periodic } (.fin t) =
        ok (emb homCoords z) := h2
  rw [h2', ok_bind, pure_eq, ← hq]
  congr 1
  funext i
  change (exactFormat B hB).round (Num.div (.fin (z.1 i)) (.fin z.2)) = .fin (z.2⁻¹ * z.1 i)
  rw [h3 i, div_eq_inv_mul]

/-! ### Examples -/

theorem ok_of_check {α : Type} [DecidableEq α] {x : Outcome α} {y : α}
    (h : (match x with | .ok z => decide (z = y) | _ => false) = true) : x = ok y := by
  cases x with
  | ok z => exact congrArg ok (of_decide_eq_true h)
  | throw e => cases h
  | ub => cases h

/-- A periodic curve outside its domain. -/
example : Eventually fun A : Format ℚ => bezierEvaluate A (fun _ _ _ => .second)
    (liftCurve { ctrl := [![0, 0], ![1, 4], ![2, 0]], periodic := true }) (.fin (-7 / 4)) =
      ok (lift ![1 / 2, 3 / 2]) := by
  have h := (C104_exact_bezier (fun _ _ _ => .second)
    ({ ctrl := [![0, 0], ![1, 4], ![2, 0]], periodic := true } : Bezier (Fin 2 → ℚ)) (-7 / 4)).1
  rwa [show ({ ctrl := [![0, 0], ![1, 4], ![2, 0]], periodic := true } : Bezier (Fin 2 → ℚ)).evaluate
    (-7 / 4 : ℚ) = ok ![1 / 2, 3 / 2] from ok_of_check (by decide +kernel)] at h

/-- A B-spline with a double knot. -/
example : Eventually fun A : Format ℚ => bsplineEvaluate A (fun _ _ _ => .first)
    (liftSpline { ctrl := [![0], ![4], ![8], ![2], ![6]], knots := [0, 0, 0, 1, 1, 2, 2, 2] })
      (.fin (3 / 2)) = ok (lift ![9 / 2]) := by
  have h := C104_exact_bspline (fun _ _ _ => .first)
    ({ ctrl := [![0], ![4], ![8], ![2], ![6]], knots := [0, 0, 0, 1, 1, 2, 2, 2] } :
      BSpline ℚ (Fin 1 → ℚ)) (3 / 2)
  rwa [show ({ ctrl := [![0], ![4], ![8], ![2], ![6]], knots := [0, 0, 0, 1, 1, 2, 2, 2] } :
      BSpline ℚ (Fin 1 → ℚ)).evaluate (3 / 2 : ℚ) = ok ![9 / 2] from ok_of_check (by decide +kernel)] at h

/-- A quarter circle. -/
example : Eventually fun A : Format ℚ => rationalEvaluate A (fun _ _ _ => .none)
    (([![1, 0], ![1, 1], ![0, 1]] : List (Fin 2 → ℚ)).map lift) (([1, 1, 2] : List ℚ).map .fin) false
      (.fin (1 / 2)) = ok (lift ![3 / 5, 4 / 5]) :=
  C104_exact_rational (K := ℚ)
    (c := ⟨{ ctrl := [![1, 0], ![1, 1], ![0, 1]] }, [1, 1, 2], { ctrl := [] }⟩) (t := 1 / 2) _ rfl
    (ok_of_check (by decide +kernel))

/-- A bilinear patch. -/
example : Eventually fun A : Format ℚ => patchEvaluate A (fun _ _ _ _ => .none) (fun _ _ _ => .first)
    (liftPatch { grid := [![0], ![2], ![4], ![10]], degU := 1, degV := 1 }) (.fin 3) (.fin (1 / 2)) =
      ok (lift ![19]) := by
  have h := C104_exact_patch (fun _ _ _ _ => .none) (fun _ _ _ => .first)
    ({ grid := [![0], ![2], ![4], ![10]], degU := 1, degV := 1 } : BezierPatch (Fin 1 → ℚ)) 3 (1 / 2)
  rwa [show ({ grid := [![0], ![2], ![4], ![10]], degU := 1, degV := 1 } :
    BezierPatch (Fin 1 → ℚ)).evaluate (3 : ℚ) (1 / 2) = ok ![19] from ok_of_check (by decide +kernel)] at h

end NS.Ieee
