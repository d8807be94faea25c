import Verif.Proof.LeastSquares
import Verif.Props.Affine

/-!
# Derivative evaluators commute with affine maps of the control points

The value is moved by the map, the derivatives by its linear part.  The working arrays of the evaluators are compared
entry by entry: the entries already replaced by differences are related by the linear part, the others by the map.
-/

set_option linter.unusedSectionVars false
set_option linter.unusedVariables false

namespace NS

open Outcome

section Rel

variable {α β σ τ : Type}

/-- Same kind of outcome, related values. -/
def ORel (R : α → β → Prop) : Outcome α → Outcome β → Prop
  | ok a, ok b => R a b
  | .throw e, .throw e' => e = e'
  | .ub, .ub => True
  | _, _ => False

theorem ORel.bind {R : α → β → Prop} {S : σ → τ → Prop} {x : Outcome α} {y : Outcome β} {g : α → Outcome σ}
    {h : β → Outcome τ} (hx : ORel R x y) (hg : ∀ a b, R a b → ORel S (g a) (h b)) : ORel S (x >>= g) (y >>= h) := by
  cases x <;> cases y <;> simp only [ORel] at hx
  · exact hg _ _ hx
  · subst hx; exact rfl
  · trivial

theorem ORel.same {S : σ → τ → Prop} (x : Outcome α) {g : α → Outcome σ} {h : α → Outcome τ}
    (hg : ∀ a, ORel S (g a) (h a)) : ORel S (x >>= g) (x >>= h) := by
  cases x with
  | ok a => exact hg a
  | throw e => exact rfl
  | ub => trivial

theorem ORel.eq_map {f : α → β} {x : Outcome α} {y : Outcome β} (h : ORel (fun a b => b = f a) x y) : y = f <$> x := by
  cases x <;> cases y <;> simp only [ORel] at h
  · subst h; rfl
  · subst h; rfl
  · rfl

theorem ORel.of_map {f : α → β} {x : Outcome α} {y : Outcome β} (h : y = f <$> x) : ORel (fun a b => b = f a) x y := by
  subst h
  cases x <;> first | exact rfl | trivial

theorem ORel.mono {R S : α → β → Prop} {x : Outcome α} {y : Outcome β} (h : ORel R x y) (hs : ∀ a b, R a b → S a b) :
    ORel S x y := by
  cases x <;> cases y <;> simp only [ORel] at h ⊢
  · exact hs _ _ h
  · exact h

theorem loop_orel (R : ℕ → σ → τ → Prop) {body : ℕ → σ → Outcome σ} {body' : ℕ → τ → Outcome τ} {s : σ} {s' : τ}
    (n : ℕ) (h0 : R 0 s s')
    (h : ∀ i, i < n → ∀ s s', R i s s' → ORel (R (i + 1)) (body i s) (body' i s')) :
    ORel (R n) (loop n body s) (loop n body' s') := by
  induction n with
  | zero => exact h0
  | succ n ih => exact (ih fun i hi => h i (by omega)).bind (h n (by omega))

theorem forUp_orel (R : σ → τ → Prop) {body : ℕ → σ → Outcome σ} {body' : ℕ → τ → Outcome τ} {s : σ} {s' : τ}
    (lo hi : ℕ) (h0 : R s s') (h : ∀ i, lo ≤ i → i < hi → ∀ s s', R s s' → ORel R (body i s) (body' i s')) :
    ORel R (forUp lo hi body s) (forUp lo hi body' s') :=
  loop_orel (fun _ => R) _ h0 fun i hi' => h _ (by omega) (by omega)

theorem forDown_orel (R : σ → τ → Prop) {body : ℕ → σ → Outcome σ} {body' : ℕ → τ → Outcome τ} {s : σ} {s' : τ}
    (hi lo : ℕ) (h0 : R s s') (h : ∀ i, i ≤ hi → ∀ s s', R s s' → ORel R (body i s) (body' i s')) :
    ORel R (forDown hi lo body s) (forDown hi lo body' s') :=
  loop_orel (fun _ => R) _ h0 fun i _ => h _ (by omega)

/-- Lists of the same length with related entries. -/
def Al (P : ℕ → α → β → Prop) (q : List α) (q' : List β) : Prop :=
  q'.length = q.length ∧ ∀ j x y, q[j]? = some x → q'[j]? = some y → P j x y

variable {P P' : ℕ → α → β → Prop} {q : List α} {q' : List β}

theorem Al.mono (h : Al P q q') (hp : ∀ j x y, P j x y → P' j x y) : Al P' q q' :=
  ⟨h.1, fun j x y a b => hp _ _ _ (h.2 j x y a b)⟩

theorem Al.map (f : α → β) (q : List α) : Al (fun _ x y => y = f x) q (q.map f) := by
  refine ⟨by simp, fun j x y h1 h2 => ?_⟩
  rw [List.getElem?_map, h1] at h2
  simpa using h2.symm

theorem Al.rd (h : Al P q q') (j : ℕ) : ORel (P j) (NS.rd q j) (NS.rd q' j) := by
  unfold NS.rd
  cases e : q[j]? with
  | none =>
    have : q'[j]? = none := by
      rw [List.getElem?_eq_none_iff] at e ⊢
      rw [h.1]; exact e
    rw [this]; trivial
  | some x =>
    cases e' : q'[j]? with
    | none =>
      rw [List.getElem?_eq_none_iff, h.1, ← List.getElem?_eq_none_iff, e] at e'
      cases e'
    | some y => exact h.2 j x y e e'

theorem Al.wr (h : Al P q q') (i : ℕ) {a : α} {b : β} (hi : P' i a b) (hp : ∀ j x y, j ≠ i → P j x y → P' j x y) :
    ORel (Al P') (NS.wr q i a) (NS.wr q' i b) := by
  unfold NS.wr
  rw [h.1]
  split_ifs with hl
  · refine ⟨by simp [h.1], fun j x y h1 h2 => ?_⟩
    rw [List.getElem?_set] at h1 h2
    split_ifs at h1 h2 with c c1
    · subst c
      simp only [Option.some.injEq] at h1 h2
      rw [← h1, ← h2]; exact hi
    · exact hp _ _ _ (Ne.symm c) (h.2 j x y h1 h2)
  · trivial

end Rel

section Evaluators

variable {K V W : Type} [Field K] [LinearOrder K] [IsStrictOrderedRing K] [FloorRing K]
  [AddCommGroup V] [Module K V] [AddCommGroup W] [Module K W]

/-- The entries before `m` are related by the linear map. -/
abbrev Turn (A : V →ₗ[K] W) (m : ℕ) : List V → List W → Prop := Al fun j x y => j < m → y = A x

namespace BSpline

theorem blossom_turn (A : V →ₗ[K] W) (u bv : List K) (p : ℕ) (k : ℤ) {q : List V} {q' : List W} {m : ℕ} (hm : p < m)
    (h : Turn A m q q') : ORel (Turn A m) (blossom u bv p k q) (blossom u bv p k q') := by
  unfold blossom
  rw [h.1]
  refine ORel.same _ fun _ => ?_
  refine forUp_orel _ _ _ h fun r hr _ s s' hs => ORel.same _ fun t => ?_
  refine forDown_orel _ _ _ hs fun j hj s s' hs => ORel.same _ fun a => ORel.same _ fun b => ?_
  refine (hs.rd _).bind fun x x' hx => (hs.rd _).bind fun y y' hy => ?_
  refine hs.wr _ (fun _ => ?_) fun _ _ _ _ h => h
  rw [hx (by omega), hy (by omega)]
  simp only [map_add, map_smul]

theorem derivativeCoefficients_turn (f : V →ᵃ[K] W) (c : BSpline K V) (n : ℕ) (k : ℤ) (q : List V) :
    ORel (Turn f.linear n) (c.derivativeCoefficients n k q) ((image f c).derivativeCoefficients n k (q.map f)) := by
  unfold derivativeCoefficients
  refine (loop_orel (fun i => Al fun j x y => if j < i then y = f.linear x else y = f x) n
    ((Al.map f q).mono fun j x y h => by simpa using h) fun i hi s s' hs => ?_).mono
      fun a b h => h.mono fun j x y h hj => by simpa [hj] using h
  rw [image_knots]
  refine ORel.same _ fun a => ORel.same _ fun b => ?_
  refine (hs.rd _).bind fun x x' hx => (hs.rd _).bind fun y y' hy => ?_
  refine hs.wr _ ?_ fun j x y hj h => ?_
  · rw [if_neg (by omega)] at hx hy
    rw [if_pos (by omega), hx, hy, map_smul, Props.affine_eq f x, Props.affine_eq f y, map_sub]
    congr 1
    abel
  · by_cases c1 : j < i
    · rw [if_pos c1] at h; rw [if_pos (by omega)]; exact h
    · rw [if_neg c1] at h; rw [if_neg (by omega)]; exact h

theorem derivativeCoefficients_turn' (A : V →ₗ[K] W) (c : BSpline K V) (c' : BSpline K W) (hk : c'.knots = c.knots)
    (n : ℕ) (k : ℤ) {q : List V} {q' : List W} (h : Turn A (n + 1) q q') :
    ORel (Turn A n) (c.derivativeCoefficients n k q) (c'.derivativeCoefficients n k q') := by
  unfold derivativeCoefficients
  refine (loop_orel (fun _ => Turn A (n + 1)) n h fun i hi s s' hs => ?_).mono
      fun a b h => h.mono fun j x y h hj => h (by omega)
  rw [hk]
  refine ORel.same _ fun a => ORel.same _ fun b => ?_
  refine (hs.rd _).bind fun x x' hx => (hs.rd _).bind fun y y' hy => ?_
  refine hs.wr _ (fun _ => ?_) fun _ _ _ _ h => h
  rw [hx (by omega), hy (by omega), map_smul, map_sub]

theorem deBoor_turn (f : V → W) (A : V →ₗ[K] W) (c : BSpline K V) (t : K) (p : ℕ) (k : ℤ) {q : List V} {q' : List W}
    {m : ℕ} (hm : p < m) (h : Turn A m q q') :
    ORel (fun x y => y = A x) (c.deBoor t p k q) ((image f c).deBoor t p k q') := by
  unfold deBoor
  rw [image_degree, image_knots]
  dsimp only
  split_ifs
  · exact (blossom_turn A _ _ _ _ hm h).bind fun s s' hs => (hs.rd _).mono fun x y h => h hm
  · exact (h.rd _).mono fun x y h => h hm

theorem evaluateDerivative_affine (f : V →ᵃ[K] W) (c : BSpline K V) (t : K) :
    (image f c).evaluateDerivative t = f.linear <$> c.evaluateDerivative t := by
  unfold evaluateDerivative
  rw [image_validate, image_wrap, image_degree]
  refine bind_map_same fun _ _ => bind_map_same fun t' _ => ?_
  rw [image_locateSpan]
  refine bind_map_same fun k _ => bind_map_same fun _ _ => ?_
  dsimp only
  split_ifs with hp
  · simp
  · refine bind_map_rel (Props.spanCtrl_image f c _ _) fun q _ => ORel.eq_map ?_
    exact (derivativeCoefficients_turn f c _ k q).bind fun a b h => deBoor_turn _ _ _ _ _ _ (by omega) h

theorem evaluate2ndDerivative_affine (f : V →ᵃ[K] W) (c : BSpline K V) (t : K) :
    (image f c).evaluate2ndDerivative t = f.linear <$> c.evaluate2ndDerivative t := by
  unfold evaluate2ndDerivative
  rw [image_validate, image_wrap, image_degree]
  refine bind_map_same fun _ _ => bind_map_same fun t' _ => ?_
  rw [image_locateSpan]
  refine bind_map_same fun k _ => bind_map_same fun _ _ => ?_
  dsimp only
  split_ifs with hp
  · simp
  · refine bind_map_rel (Props.spanCtrl_image f c _ _) fun q _ => ORel.eq_map ?_
    refine (derivativeCoefficients_turn f c _ k q).bind fun a b h => ?_
    refine ORel.bind (derivativeCoefficients_turn' f.linear c (image f c) rfl (c.degree.toNat - 1) k
      (h.mono fun j x y h hj => h (by omega))) fun a b h => ?_
    exact deBoor_turn _ _ _ _ _ _ (by omega) h

end BSpline

namespace Bezier

theorem blossom_turn (A : V →ₗ[K] W) (bv : List K) (d : ℕ) {q : List V} {q' : List W} {m : ℕ} (hm : d < m)
    (h : Turn A m q q') : ORel (Turn A m) (blossom bv d q) (blossom bv d q') := by
  unfold blossom
  refine forUp_orel _ _ _ h fun r hr _ s s' hs => ?_
  refine forDown_orel _ _ _ hs fun j hj s s' hs => ORel.same _ fun t => ?_
  refine (hs.rd _).bind fun x x' hx => (hs.rd _).bind fun y y' hy => ?_
  refine hs.wr _ (fun _ => ?_) fun _ _ _ _ h => h
  rw [hx (by omega), hy (by omega)]
  simp only [map_add, map_smul]

theorem derivativeCoefficients_turn (f : V →ᵃ[K] W) (n : ℕ) (q : List V) :
    ORel (Turn f.linear n) (derivativeCoefficients K n q) (derivativeCoefficients K n (q.map f)) := by
  unfold derivativeCoefficients
  refine (loop_orel (fun i => Al fun j x y => if j < i then y = f.linear x else y = f x) n
    ((Al.map f q).mono fun j x y h => by simpa using h) fun i hi s s' hs => ?_).mono
      fun a b h => h.mono fun j x y h hj => by simpa [hj] using h
  refine (hs.rd _).bind fun x x' hx => (hs.rd _).bind fun y y' hy => ?_
  refine hs.wr _ ?_ fun j x y hj h => ?_
  · rw [if_neg (by omega)] at hx hy
    rw [if_pos (by omega), hx, hy, map_smul, Props.affine_eq f x, Props.affine_eq f y, map_sub]
    congr 1
    abel
  · by_cases c1 : j < i
    · rw [if_pos c1] at h; rw [if_pos (by omega)]; exact h
    · rw [if_neg c1] at h; rw [if_neg (by omega)]; exact h

theorem derivativeCoefficients_turn' (A : V →ₗ[K] W) (n : ℕ) {q : List V} {q' : List W} (h : Turn A (n + 1) q q') :
    ORel (Turn A n) (derivativeCoefficients K n q) (derivativeCoefficients K n q') := by
  unfold derivativeCoefficients
  refine (loop_orel (fun _ => Turn A (n + 1)) n h fun i hi s s' hs => ?_).mono
      fun a b h => h.mono fun j x y h hj => h (by omega)
  refine (hs.rd _).bind fun x x' hx => (hs.rd _).bind fun y y' hy => ?_
  refine hs.wr _ (fun _ => ?_) fun _ _ _ _ h => h
  rw [hx (by omega), hy (by omega), map_smul, map_sub]

theorem deBoor_turn (A : V →ₗ[K] W) (n : ℕ) (t : K) (p : ℤ) {q : List V} {q' : List W}
    {m : ℕ} (hm : p < m) (h : Turn A m q q') :
    ORel (fun x y => y = A x) (deBoor n t p q) (deBoor n t p q') := by
  unfold deBoor
  have e : ∀ {s : List V} {s' : List W}, Turn A m s s' → ORel (fun x y => y = A x) (rdI s p) (rdI s' p) := by
    intro s s' hs
    unfold rdI
    split_ifs
    · trivial
    · exact (hs.rd _).mono fun x y h => h (by omega)
  dsimp only
  split_ifs
  · exact (blossom_turn A _ _ (by omega) h).bind fun s s' hs => e hs
  · exact e h

theorem image_degree (f : V → W) (c : Bezier V) : (image f c).degree = c.degree := by
  simp [degree, image]

theorem evaluateDerivative_affine (f : V →ᵃ[K] W) (c : Bezier V) (t : K) :
    (image f c).evaluateDerivative t = f.linear <$> c.evaluateDerivative t := by
  unfold evaluateDerivative
  rw [image_degree]
  refine bind_map_same fun t' _ => bind_map_same fun _ _ => ?_
  split_ifs with hp
  · simp
  · refine ORel.eq_map ?_
    refine (derivativeCoefficients_turn f _ c.ctrl).bind fun a b h => deBoor_turn _ _ _ _ (by omega) h

theorem evaluate2ndDerivative_affine (f : V →ᵃ[K] W) (c : Bezier V) (t : K) :
    (image f c).evaluate2ndDerivative t = f.linear <$> c.evaluate2ndDerivative t := by
  unfold evaluate2ndDerivative
  rw [image_degree]
  refine bind_map_same fun t' _ => bind_map_same fun _ _ => ?_
  split_ifs with hp
  · simp
  · refine ORel.eq_map ?_
    refine (derivativeCoefficients_turn f _ c.ctrl).bind fun a b h => ?_
    refine ORel.bind (derivativeCoefficients_turn' f.linear (c.degree - 1).toNat
      (h.mono fun j x y h hj => h (by omega))) fun a b h => ?_
    exact deBoor_turn _ _ _ _ (by omega) h

end Bezier

/-! ### Patches -/

theorem fill_map {α β : Type} (f : α → β) (m n : ℕ) (idx : ℕ → ℕ → ℕ) (x : ℕ → ℕ → Outcome α) (y : ℕ → ℕ → Outcome β)
    (h : ∀ i j, y i j = f <$> x i j) (g : List α) : fill m n idx y (g.map f) = List.map f <$> fill m n idx x g := by
  unfold fill
  refine loop_map (List.map f) _ _ _ _ (fun i _ s => loop_map (List.map f) _ _ _ _ (fun j _ s' => ?_))
  exact bind_map_rel (h _ _) fun a _ => wr_map f _ _ _

namespace BezierPatch

theorem point_affine (f : V → W) (p : BezierPatch V) (i j : ℕ) :
    (image f p).getControlPoint i j = f <$> p.getControlPoint i j := by
  unfold getControlPoint
  exact bind_map_same fun k _ => rd_map f _ _

theorem isoCurveU_affine (f : V →ᵃ[K] W) (p : BezierPatch V) (v : K) :
    (image f p).isoCurveU v = Bezier.image f <$> p.isoCurveU v := by
  unfold isoCurveU
  refine bind_map_same fun n _ => ?_
  refine bind_map_rel (φ := List.map (Bezier.image f)) ?_ fun l _ => ?_
  · unfold isoCurvesV
    refine bind_map_same fun m _ => bind_map_same fun n _ => Props.tab_map _ _ _ _ fun j _ => ?_
    exact bind_map_rel (φ := List.map f) (Props.tab_map _ _ _ _ fun i _ => point_affine f p _ _) fun l _ => rfl
  · refine bind_map_rel (φ := List.map f) (Props.tab_map _ _ _ _ fun i _ => ?_) fun l _ => rfl
    exact bind_map_rel (rd_map _ _ _) fun c _ => Props.C04_bezier_affine_any f c v

theorem isoCurveV_affine (f : V →ᵃ[K] W) (p : BezierPatch V) (u : K) :
    (image f p).isoCurveV u = Bezier.image f <$> p.isoCurveV u := by
  unfold isoCurveV
  refine bind_map_same fun n _ => ?_
  refine bind_map_rel (φ := List.map (Bezier.image f)) ?_ fun l _ => ?_
  · unfold isoCurvesU
    refine bind_map_same fun m _ => bind_map_same fun n _ => Props.tab_map _ _ _ _ fun j _ => ?_
    exact bind_map_rel (φ := List.map f) (Props.tab_map _ _ _ _ fun i _ => point_affine f p _ _) fun l _ => rfl
  · refine bind_map_rel (φ := List.map f) (Props.tab_map _ _ _ _ fun i _ => ?_) fun l _ => rfl
    exact bind_map_rel (rd_map _ _ _) fun c _ => Props.C04_bezier_affine_any f c u

theorem duvPatch_affine (f : V →ᵃ[K] W) (p : BezierPatch V) :
    (image f p).duvPatch K = image f.linear <$> p.duvPatch K := by
  unfold duvPatch
  refine bind_map_same fun m _ => bind_map_same fun n _ => ?_
  split_ifs with h
  · unfold zeroPatch
    refine bind_map_rel (φ := id) rfl fun _ _ => ?_
    simp [image]
  · refine bind_map_rel (φ := List.map f.linear) ?_ fun g _ => ?_
    · rw [← fill_map f.linear _ _ _ _ _ _ _]
      · rw [List.map_replicate, map_zero]
      · intro i j
        simp only [point_affine]
        refine bind_map_rel rfl fun a _ => bind_map_rel rfl fun b _ => bind_map_rel rfl fun c _ =>
          bind_map_rel rfl fun d _ => ?_
        simp only [pure_eq, map_ok, map_smul, map_sub, Props.affine_eq f a, Props.affine_eq f b, Props.affine_eq f c,
          Props.affine_eq f d, add_sub_add_right_eq_sub]
    · refine bind_map_rel (φ := id) ?_ fun _ _ => rfl
      rw [id_map]
      exact init_image f.linear (BezierPatch.mk g _ _ p.perU p.perV _ _)

end BezierPatch

namespace BSplinePatch

open Props

theorem isoCurveU_affine (f : V →ᵃ[K] W) (p : BSplinePatch K V) (v : K) :
    (imageBP f p).isoCurveU v = BSpline.image f <$> p.isoCurveU v := by
  unfold BSplinePatch.isoCurveU
  refine bind_map_same fun n _ => ?_
  refine bind_map_rel (φ := List.map f) (Props.tab_map _ _ _ _ fun i _ => ?_) fun l _ => rfl
  exact bind_map_rel (rd_map (BSpline.image f) _ _) fun c _ => C04_bspline_affine f c v

theorem isoCurveV_affine (f : V →ᵃ[K] W) (p : BSplinePatch K V) (u : K) :
    (imageBP f p).isoCurveV u = BSpline.image f <$> p.isoCurveV u := by
  unfold BSplinePatch.isoCurveV
  refine bind_map_same fun n _ => ?_
  refine bind_map_rel (φ := List.map f) (Props.tab_map _ _ _ _ fun i _ => ?_) fun l _ => rfl
  exact bind_map_rel (rd_map (BSpline.image f) _ _) fun c _ => C04_bspline_affine f c u

theorem point_affine (f : V → W) (p : BSplinePatch K V) (i j : ℕ) :
    (imageBP f p).getControlPoint i j = f <$> p.getControlPoint i j := by
  unfold getControlPoint
  exact bind_map_same fun k _ => rd_map f _ _

theorem zeroPatch_turn (A : V →ₗ[K] W) : zeroPatch K W = imageBP A <$> zeroPatch K V := by
  unfold zeroPatch
  rw [← imageBP_init A _ [] []]
  simp

theorem divPt_turn (A : V →ₗ[K] W) (bad x : V) (d : K) : divPt (A bad) (A x) d = A (divPt bad x d) := by
  unfold divPt
  split_ifs
  · rfl
  · rw [map_smul]

theorem duPatch_affine (f : V →ᵃ[K] W) (bad : V) (p : BSplinePatch K V) :
    (imageBP f p).duPatch (f.linear bad) = imageBP f.linear <$> p.duPatch bad := by
  unfold duPatch
  refine bind_map_same fun du _ => bind_map_same fun dv _ => ?_
  split_ifs with h
  · exact zeroPatch_turn _
  · refine bind_map_same fun m _ => bind_map_same fun n _ => bind_map_same fun _ _ => ?_
    refine bind_map_rel (φ := List.map f.linear) ?_ fun g _ => bind_map_same fun w _ => ?_
    · rw [← fill_map f.linear _ _ _ _ _ _ _]
      · rw [List.map_replicate, map_zero]
      · intro i j
        simp only [point_affine]
        refine bind_map_rel rfl fun a _ => bind_map_rel rfl fun b _ => bind_map_same fun x _ => bind_map_same fun y _ => ?_
        simp only [pure_eq, map_ok, ← divPt_turn, map_smul, map_sub, Props.affine_eq f a, Props.affine_eq f b,
          add_sub_add_right_eq_sub]
    · exact imageBP_init f.linear (BSplinePatch.mk g w p.knotsV _ _ p.perU p.perV _ _ [] []) [] []

theorem dvPatch_affine (f : V →ᵃ[K] W) (bad : V) (p : BSplinePatch K V) :
    (imageBP f p).dvPatch (f.linear bad) = imageBP f.linear <$> p.dvPatch bad := by
  unfold dvPatch
  refine bind_map_same fun du _ => bind_map_same fun dv _ => ?_
  split_ifs with h
  · exact zeroPatch_turn _
  · refine bind_map_same fun m _ => bind_map_same fun n _ => bind_map_same fun _ _ => ?_
    refine bind_map_rel (φ := List.map f.linear) ?_ fun g _ => bind_map_same fun w _ => ?_
    · rw [← fill_map f.linear _ _ _ _ _ _ _]
      · rw [List.map_replicate, map_zero]
      · intro i j
        simp only [point_affine]
        refine bind_map_rel rfl fun a _ => bind_map_rel rfl fun b _ => bind_map_same fun x _ => bind_map_same fun y _ => ?_
        simp only [pure_eq, map_ok, ← divPt_turn, map_smul, map_sub, Props.affine_eq f a, Props.affine_eq f b,
          add_sub_add_right_eq_sub]
    · exact imageBP_init f.linear (BSplinePatch.mk g p.knotsU w _ _ p.perU p.perV _ _ [] []) [] []

theorem duvPatch_affine (f : V →ᵃ[K] W) (bad : V) (p : BSplinePatch K V) :
    (imageBP f p).duvPatch (f.linear bad) = imageBP f.linear <$> p.duvPatch bad := by
  unfold duvPatch
  exact bind_map_rel (duPatch_affine f bad p) fun q _ => dvPatch_affine f.linear.toAffineMap bad q

end BSplinePatch

/-! ### Quotients -/

section Quot

open Props

variable (f : V →ᵃ[K] W) (p d e g : V × K)

theorem homMap_apply : homMap f p = (f.linear p.1 + p.2 • f 0, p.2) := rfl

theorem quot1_affine : quot1 (homMap f p) (homMap f d) = f.linear <$> quot1 p d := by
  unfold quot1
  by_cases hp : p.2 = 0
  · rw [assert_false (c := p.2 ≠ 0) (by simpa using hp), assert_false (c := (homMap f p).2 ≠ 0) (fun h => h hp)]; rfl
  rw [assert_true (c := p.2 ≠ 0) hp, assert_true (c := (homMap f p).2 ≠ 0) hp, ok_bind, ok_bind]
  simp only [homMap_apply, pure_eq, map_ok, ok.injEq, map_smul, map_sub, smul_sub, smul_add, smul_smul]
  match_scalars <;> field_simp <;> ring

theorem quot2_affine : quot2 (homMap f p) (homMap f d) (homMap f e) = f.linear <$> quot2 p d e := by
  unfold quot2
  by_cases hp : p.2 = 0
  · rw [assert_false (c := p.2 ≠ 0) (by simpa using hp), assert_false (c := (homMap f p).2 ≠ 0) (fun h => h hp)]; rfl
  rw [assert_true (c := p.2 ≠ 0) hp, assert_true (c := (homMap f p).2 ≠ 0) hp, ok_bind, ok_bind]
  simp only [homMap_apply, pure_eq, map_ok, ok.injEq, map_smul, map_sub, smul_sub, smul_add, smul_smul]
  match_scalars <;> field_simp <;> ring

theorem quotSame_affine (tol : K) :
    quotSame tol (homMap f p) (homMap f d) (homMap f e) = f.linear <$> quotSame tol p d e := by
  unfold quotSame quot0 quot1
  have e2 : (homMap f p).2 = p.2 := rfl
  by_cases ht : p.2 ≤ tol
  · rw [if_pos ht, if_pos (by rw [e2]; exact ht)]; simp
  rw [if_neg ht, if_neg (by rw [e2]; exact ht)]
  by_cases hp : p.2 = 0
  · rw [assert_false (c := p.2 ≠ 0) (by simpa using hp), assert_false (c := (homMap f p).2 ≠ 0) (fun h => h hp)]; rfl
  rw [assert_true (c := p.2 ≠ 0) hp, assert_true (c := (homMap f p).2 ≠ 0) hp]
  simp only [homMap_apply, ok_bind, pure_eq, map_ok, ok.injEq, map_smul, map_sub, smul_sub, smul_add, smul_smul]
  match_scalars <;> field_simp <;> ring

theorem quotMixed_affine (tol : K) :
    quotMixed tol (homMap f p) (homMap f d) (homMap f e) (homMap f g) = f.linear <$> quotMixed tol p d e g := by
  unfold quotMixed quot0 quot1
  have e2 : (homMap f p).2 = p.2 := rfl
  by_cases ht : p.2 ≤ tol
  · rw [if_pos ht, if_pos (by rw [e2]; exact ht)]; simp
  rw [if_neg ht, if_neg (by rw [e2]; exact ht)]
  by_cases hp : p.2 = 0
  · rw [assert_false (c := p.2 ≠ 0) (by simpa using hp), assert_false (c := (homMap f p).2 ≠ 0) (fun h => h hp)]; rfl
  rw [assert_true (c := p.2 ≠ 0) hp, assert_true (c := (homMap f p).2 ≠ 0) hp]
  simp only [homMap_apply, ok_bind, pure_eq, map_ok, ok.injEq, map_smul, map_sub, smul_sub, smul_add, smul_smul]
  match_scalars <;> field_simp <;> ring

end Quot

end Evaluators
end NS
