import Verif.Model.BSpline
import Mathlib.Algebra.Module.LinearMap.Basic

/-! # Linear maps commute with the B-spline algorithms -/

set_option linter.unusedSectionVars false

namespace NS

open Outcome

section Basic

variable {α β σ τ : Type}

@[simp] theorem map_ub (f : α → β) : f <$> (ub : Outcome α) = ub := rfl
@[simp] theorem map_throw (f : α → β) (e : Err) : f <$> (Outcome.throw e : Outcome α) = .throw e :=
  rfl

theorem map_eq_ok {f : α → β} {x : Outcome α} {b : β} :
    f <$> x = ok b ↔ ∃ a, x = ok a ∧ f a = b := by
  cases x with
  | ok a => simp
  | throw e => simp
  | ub => simp

theorem rd_map (f : α → β) (l : List α) (i : ℕ) : rd (l.map f) i = f <$> rd l i := by
  unfold rd
  rw [List.getElem?_map]
  cases l[i]? <;> rfl

theorem rdI_map (f : α → β) (l : List α) (i : ℤ) : rdI (l.map f) i = f <$> rdI l i := by
  unfold rdI
  split
  · rfl
  · exact rd_map f l _

theorem wr_map (f : α → β) (l : List α) (i : ℕ) (a : α) :
    wr (l.map f) i (f a) = (List.map f) <$> wr l i a := by
  unfold wr
  rw [List.length_map]
  split
  · rw [map_ok, List.map_set]
  · rfl

theorem seg_map (f : α → β) (l : List α) (a n : ℕ) :
    seg (l.map f) a n = (List.map f) <$> seg l a n := by
  unfold seg
  rw [List.length_map]
  split
  · rw [map_ok, List.map_take, List.map_drop]
  · rfl

theorem wrSeg_map (f : α → β) (l : List α) (a : ℕ) (xs : List α) :
    wrSeg (l.map f) a (xs.map f) = (List.map f) <$> wrSeg l a xs := by
  unfold wrSeg
  rw [List.length_map, List.length_map]
  split
  · rw [map_ok, List.map_append, List.map_append, List.map_take, List.map_drop]
  · rfl

theorem loop_map (φ : σ → τ) (n : ℕ) (body : ℕ → σ → Outcome σ) (body' : ℕ → τ → Outcome τ) (s : σ)
    (h : ∀ i < n, ∀ s, body' i (φ s) = φ <$> body i s) :
    loop n body' (φ s) = φ <$> loop n body s := by
  induction n with
  | zero => rfl
  | succ n ih =>
    rw [loop_succ, loop_succ, ih (fun i hi => h i (by omega))]
    cases loop n body s with
    | ok a => exact h n (by omega) a
    | throw e => rfl
    | ub => rfl

theorem forUp_map (φ : σ → τ) (lo hi : ℕ) (body : ℕ → σ → Outcome σ) (body' : ℕ → τ → Outcome τ)
    (s : σ) (h : ∀ i s, body' i (φ s) = φ <$> body i s) :
    forUp lo hi body' (φ s) = φ <$> forUp lo hi body s :=
  loop_map φ _ _ _ s (fun _ _ s => h _ s)

theorem forDown_map (φ : σ → τ) (hi lo : ℕ) (body : ℕ → σ → Outcome σ) (body' : ℕ → τ → Outcome τ)
    (s : σ) (h : ∀ i s, body' i (φ s) = φ <$> body i s) :
    forDown hi lo body' (φ s) = φ <$> forDown hi lo body s :=
  loop_map φ _ _ _ s (fun _ _ s => h _ s)

/-- Rule for two sequences of calls: same first call. -/
theorem bind_map_same {x : Outcome σ} {g : σ → Outcome α} {g' : σ → Outcome β} {f : α → β}
    (h : ∀ a, x = ok a → g' a = f <$> g a) : (x >>= g') = f <$> (x >>= g) := by
  cases x with
  | ok a => exact h a rfl
  | throw e => rfl
  | ub => rfl

/-- Rule for two sequences of calls: related first calls. -/
theorem bind_map_rel {x : Outcome σ} {x' : Outcome τ} {φ : σ → τ} {g : σ → Outcome α}
    {g' : τ → Outcome β} {f : α → β} (hx : x' = φ <$> x) (h : ∀ a, x = ok a → g' (φ a) = f <$> g a) :
    (x' >>= g') = f <$> (x >>= g) := by
  subst hx
  cases x with
  | ok a => exact h a rfl
  | throw e => rfl
  | ub => rfl

end Basic

namespace BSpline

variable {K V W : Type} [Field K] [LinearOrder K] [IsStrictOrderedRing K] [FloorRing K]
  [AddCommGroup V] [Module K V] [AddCommGroup W] [Module K W]

/-- Image of a curve. -/
def image (f : V → W) (c : BSpline K V) : BSpline K W :=
  { ctrl := c.ctrl.map f, knots := c.knots, periodic := c.periodic, sdeg := c.sdeg }

variable (f : V →ₗ[K] W) (c : BSpline K V)

@[simp] theorem image_ctrl (f : V → W) (c : BSpline K V) : (image f c).ctrl = c.ctrl.map f := rfl
@[simp] theorem image_knots (f : V → W) (c : BSpline K V) : (image f c).knots = c.knots := rfl
@[simp] theorem image_degree (f : V → W) (c : BSpline K V) : (image f c).degree = c.degree := by
  simp [degree]
@[simp] theorem image_validate (f : V → W) (c : BSpline K V) :
    (image f c).validate = c.validate := by
  unfold validate; rw [image_degree]; rfl
@[simp] theorem image_lower (f : V → W) (c : BSpline K V) : (image f c).lower = c.lower := by
  unfold lower; rw [image_degree]; rfl
@[simp] theorem image_upper (f : V → W) (c : BSpline K V) : (image f c).upper = c.upper := by
  unfold upper; rw [image_degree]; rfl
@[simp] theorem image_inDomain (eps : K) (f : V → W) (c : BSpline K V) (t : K) :
    (image f c).inDomain eps t = c.inDomain eps t := by
  unfold inDomain; rw [image_lower, image_upper]
@[simp] theorem image_locateSpan (f : V → W) (c : BSpline K V) (t : K) :
    (image f c).locateSpan t = c.locateSpan t := by
  unfold locateSpan; rw [image_degree, image_knots, image_ctrl, List.length_map]
@[simp] theorem image_multiplicity (f : V → W) (c : BSpline K V) (k : ℕ) :
    (image f c).multiplicity k = c.multiplicity k := rfl
@[simp] theorem image_multAt (f : V → W) (c : BSpline K V) (t : K) (k : ℤ) :
    (image f c).multAt t k = c.multAt t k := rfl
@[simp] theorem image_wrap (f : V → W) (c : BSpline K V) (t : K) :
    (image f c).wrap t = c.wrap t := by
  unfold wrap; rw [image_lower, image_upper]; rfl

theorem spanCtrl_map (p : ℕ) (k : ℤ) :
    (image f c).spanCtrl p k = (List.map f) <$> c.spanCtrl p k := by
  unfold spanCtrl
  rw [show List.replicate (p + 1) (0 : W) = (List.replicate (p + 1) (0 : V)).map f by simp]
  apply loop_map
  intro i _ q
  rw [image_ctrl, List.length_map]
  refine bind_map_same fun _ _ => bind_map_same fun _ _ => ?_
  refine bind_map_rel (rdI_map f _ _) fun a _ => ?_
  exact wr_map f _ _ _

theorem blossom_map (u bv : List K) (p : ℕ) (k : ℤ) (q : List V) :
    blossom u bv p k (q.map f) = (List.map f) <$> blossom u bv p k q := by
  unfold blossom
  rw [List.length_map]
  refine bind_map_same fun _ _ => ?_
  apply forUp_map
  intro r q
  refine bind_map_same fun t _ => ?_
  apply forDown_map
  intro j q
  refine bind_map_same fun a _ => bind_map_same fun b _ => ?_
  refine bind_map_rel (rd_map f _ _) fun x _ => bind_map_rel (rd_map f _ _) fun y _ => ?_
  rw [← wr_map]
  simp only [map_add, map_smul]

theorem deBoor_map (t : K) (p : ℕ) (k : ℤ) (q : List V) :
    (image f c).deBoor t p k (q.map f) = f <$> c.deBoor t p k q := by
  unfold deBoor
  rw [image_degree, image_knots]
  have h : (if p > 0 then blossom c.knots (List.replicate c.degree.toNat t) p k (q.map f)
      else ok (q.map f)) = (List.map f) <$>
      (if p > 0 then blossom c.knots (List.replicate c.degree.toNat t) p k q else ok q) := by
    split
    · exact blossom_map f _ _ _ _ _
    · rfl
  split
  · rw [if_pos (by assumption)] at h
    exact bind_map_rel (blossom_map f _ _ _ _ _) fun _ _ => rd_map f _ _
  · rw [ok_bind, ok_bind]; exact rd_map f _ _

/-- Evaluation commutes with linear maps. -/
theorem evaluate_map (t : K) : (image f c).evaluate t = f <$> c.evaluate t := by
  unfold evaluate
  rw [image_validate, image_wrap, image_degree]
  refine bind_map_same fun _ _ => bind_map_same fun t' _ => ?_
  rw [image_locateSpan]
  refine bind_map_same fun k _ => bind_map_same fun _ _ => ?_
  exact bind_map_rel (spanCtrl_map f c _ _) fun _ _ => deBoor_map f c _ _ _ _

theorem derivativeCoefficients_map (n : ℕ) (k : ℤ) (q : List V) :
    (image f c).derivativeCoefficients n k (q.map f)
      = (List.map f) <$> c.derivativeCoefficients n k q := by
  unfold derivativeCoefficients
  apply loop_map
  intro i _ q
  rw [image_knots]
  refine bind_map_same fun a _ => bind_map_same fun b _ => ?_
  refine bind_map_rel (rd_map f _ _) fun x _ => bind_map_rel (rd_map f _ _) fun y _ => ?_
  rw [← wr_map]
  simp only [map_sub, map_smul]

theorem evaluateDerivative_map (t : K) :
    (image f c).evaluateDerivative t = f <$> c.evaluateDerivative t := by
  unfold evaluateDerivative
  rw [image_validate, image_wrap, image_degree]
  refine bind_map_same fun _ _ => bind_map_same fun t' _ => ?_
  rw [image_locateSpan]
  refine bind_map_same fun k _ => bind_map_same fun _ _ => ?_
  simp only []
  split
  · rw [map_ok, map_zero]
  · refine bind_map_rel (spanCtrl_map f c _ _) fun _ _ => ?_
    refine bind_map_rel (derivativeCoefficients_map f c _ _ _) fun _ _ => ?_
    exact deBoor_map f c _ _ _ _

theorem evaluate2ndDerivative_map (t : K) :
    (image f c).evaluate2ndDerivative t = f <$> c.evaluate2ndDerivative t := by
  unfold evaluate2ndDerivative
  rw [image_validate, image_wrap, image_degree]
  refine bind_map_same fun _ _ => bind_map_same fun t' _ => ?_
  rw [image_locateSpan]
  refine bind_map_same fun k _ => bind_map_same fun _ _ => ?_
  simp only []
  split
  · rw [map_ok, map_zero]
  · refine bind_map_rel (spanCtrl_map f c _ _) fun _ _ => ?_
    refine bind_map_rel (derivativeCoefficients_map f c _ _ _) fun _ _ => ?_
    refine bind_map_rel (derivativeCoefficients_map f c _ _ _) fun _ _ => ?_
    exact deBoor_map f c _ _ _ _

theorem insertLoop_map (u : List K) (t : K) (p k r s : ℕ) (st : List V × List V) :
    insertLoop u t p k r s (st.1.map f, st.2.map f)
      = (fun st => (st.1.map f, st.2.map f)) <$> insertLoop u t p k r s st := by
  unfold insertLoop
  refine forUp_map (fun st : List V × List V => (st.1.map f, st.2.map f)) _ _ _ _ st ?_
  intro j st
  refine bind_map_rel (φ := List.map f) ?_ fun rw _ => ?_
  · refine loop_map (List.map f) _ _ _ st.1 ?_
    intro i _ q
    refine bind_map_same fun a _ => bind_map_same fun b _ => ?_
    refine bind_map_rel (rd_map f _ _) fun x _ => bind_map_rel (rd_map f _ _) fun y _ => ?_
    rw [← wr_map]
    simp only [map_add, map_smul]
  · refine bind_map_rel (rd_map f _ _) fun a _ => bind_map_rel (wr_map f _ _ _) fun q _ => ?_
    refine bind_map_rel (rd_map f _ _) fun a _ => bind_map_rel (wr_map f _ _ _) fun q _ => ?_
    rfl

theorem insertedCtrl_map (u : List K) (ctrl : List V) (t : K) (p k r s : ℕ) :
    insertedCtrl u (ctrl.map f) t p k r s = (List.map f) <$> insertedCtrl u ctrl t p k r s := by
  unfold insertedCtrl
  rw [List.length_map]
  simp only []
  rw [show List.replicate (ctrl.length + r) (0 : W)
    = (List.replicate (ctrl.length + r) (0 : V)).map f by simp]
  refine bind_map_rel (seg_map f _ _ _) fun a _ => bind_map_rel (wrSeg_map f _ _ _) fun q _ => ?_
  refine bind_map_same fun _ _ => bind_map_same fun _ _ => ?_
  refine bind_map_rel (seg_map f _ _ _) fun a _ => bind_map_rel (wrSeg_map f _ _ _) fun q _ => ?_
  refine bind_map_rel (seg_map f _ _ _) fun rw _ => ?_
  refine bind_map_rel (insertLoop_map f u t p k r s (rw, q)) fun st _ => ?_
  refine forUp_map (List.map f) _ _ _ _ st.2 ?_
  intro i q
  exact bind_map_rel (rd_map f _ _) fun a _ => wr_map f _ _ _

theorem insertKnot_map (eps t : K) (r : ℕ) :
    (image f c).insertKnot eps t r = (image f) <$> c.insertKnot eps t r := by
  unfold insertKnot
  rw [image_inDomain, image_validate, image_degree, image_locateSpan]
  refine bind_map_same fun _ _ => bind_map_same fun _ _ => bind_map_same fun _ _ =>
    bind_map_same fun _ _ => bind_map_same fun k _ => ?_
  rw [image_multAt]
  refine bind_map_same fun _ _ => bind_map_same fun _ _ => bind_map_same fun _ _ => ?_
  rw [image_knots, image_ctrl]
  refine bind_map_same fun _ _ => ?_
  exact bind_map_rel (insertedCtrl_map f _ _ _ _ _ _ _) fun _ _ => rfl

theorem raise_map (eps t : K) (d s : ℕ) :
    (image f c).raise eps t d s = (image f) <$> c.raise eps t d s := by
  unfold raise
  split
  · exact insertKnot_map f c _ _ _
  · rfl

theorem splitPieces_map (t : K) (d : ℕ) :
    (image f c).splitPieces t d = (List.map (image f)) <$> c.splitPieces t d := by
  unfold splitPieces
  rw [image_locateSpan, image_ctrl, image_knots, List.length_map]
  refine bind_map_same fun _ _ => bind_map_same fun _ _ => ?_
  refine bind_map_rel (seg_map f _ _ _) fun _ _ => bind_map_rel (seg_map f _ _ _) fun _ _ => ?_
  refine bind_map_same fun _ _ => bind_map_same fun _ _ => bind_map_same fun _ _ =>
    bind_map_same fun _ _ => ?_
  rfl

/-- Splitting commutes with linear maps. -/
theorem split_map (eps t : K) :
    (image f c).split eps t = (List.map (image f)) <$> c.split eps t := by
  unfold split
  rw [image_inDomain, image_lower, image_upper, image_degree, image_locateSpan]
  refine bind_map_same fun _ _ => bind_map_same fun _ _ => bind_map_same fun _ _ =>
    bind_map_same fun _ _ => ?_
  split
  · rfl
  split
  · rfl
  refine bind_map_same fun k _ => ?_
  rw [image_multAt]
  refine bind_map_same fun _ _ => ?_
  exact bind_map_rel (raise_map f c _ _ _ _) fun _ _ => splitPieces_map f _ _ _

/-- The parts of two curves over the same knots have the same knots. -/
theorem split_same {c c' : BSpline K V} (hk : c'.knots = c.knots)
    (hl : c'.ctrl.length = c.ctrl.length) (hp : c'.periodic = c.periodic) (hs : c'.sdeg = c.sdeg)
    {eps t : K} {ps ps' : List (BSpline K V)} (h : c.split eps t = ok ps)
    (h' : c'.split eps t = ok ps') (i : ℕ) :
    (ps'[i]?).map (fun q => q.knots) = (ps[i]?).map (fun q => q.knots) := by
  have e : image (0 : V →ₗ[K] V) c' = image (0 : V →ₗ[K] V) c := by
    unfold image
    congr 1
    apply List.ext_getElem
    · simpa using hl
    · intro i h1 h2; simp
  have h1 := split_map (0 : V →ₗ[K] V) c eps t
  have h2 := split_map (0 : V →ₗ[K] V) c' eps t
  rw [e, h1, h, h', map_ok, map_ok, ok.injEq] at h2
  have := congrArg (fun l => (l[i]?).map (fun q => q.knots)) h2
  simp only [List.getElem?_map, Option.map_map] at this
  exact this.symm

end BSpline

end NS
