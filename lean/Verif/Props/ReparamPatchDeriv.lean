import Verif.Props.ReparamPatch
import Mathlib.Analysis.Calculus.Deriv.Comp
import Mathlib.Analysis.Calculus.Deriv.Add

/-!
# C94: the derivative evaluators of patches under changes of parameters
-/

set_option linter.unusedSectionVars false

namespace NS.Props

open Outcome Spec Finset NS.BSpline BSplinePatch

variable {K V : Type} [Field K] [LinearOrder K] [IsStrictOrderedRing K] [FloorRing K]
  [AddCommGroup V] [Module K V]

/-- A change of one direction of a patch at the parameter `t`: the new knots, the position of the old control points
in the new order, the new parameter and the factor of a derivative. Either the knots are scaled and shifted, or they
are run backwards; in the latter case the parameter is no interior knot. -/
inductive DirChange (u : List K) (n p : ℕ) (per : Bool) (t : K) : List K → (ℕ → ℕ) → K → K → Prop
  | affine (x y : K) (hy : 0 < y) (ht : per = true ∨ (knot u p ≤ t ∧ t ≤ knot u n)) :
    DirChange u n p per t (u.map fun z => x + y * z) id (x + y * t) y⁻¹
  | flip (a : K) (hl : knot u (n - 1) < knot u n) (h1 : knot u p ≤ t) (h2 : t ≤ knot u n)
    (hper : per = false ∨ (knot u p < t ∧ t < knot u n)) (ht : t ∉ u ∨ t = knot u p ∨ t = knot u n) :
    DirChange u n p per t (flipKnots u a) (fun i => n - 1 - i) (a - t) (-1)

/-- What a change of direction does to curves. -/
structure Move (V : Type) [AddCommGroup V] [Module K V] (u : List K) (n p : ℕ) (per : Bool) (sd : Option ℕ) (t : K)
    (u₁ : List K) (π : ℕ → ℕ) (t₁ s : K) (t' t₁' : K) : Prop where
  wrap : wrapOn u n p per t = ok t'
  dom : InDom u n p t'
  wrap₁ : wrapOn u₁ n p per t₁ = ok t₁'
  dom₁ : InDom u₁ n p t₁'
  lt : ∀ i < n, π i < n
  val : ∀ P : ℕ → V, bsum p u₁ n (fun i => P (π i)) t₁' = bsum p u n P t'
  der : ∀ P : ℕ → V, ∃ D E, (BSpline.mk (arr n P) u per sd).evaluateDerivative t = ok D ∧
    (BSpline.mk (arr n P) u per sd).evaluate2ndDerivative t = ok E ∧
    (BSpline.mk (arr n fun i => P (π i)) u₁ per sd).evaluateDerivative t₁ = ok (s • D) ∧
    (BSpline.mk (arr n fun i => P (π i)) u₁ per sd).evaluate2ndDerivative t₁ = ok ((s * s) • E)

theorem arr_flip {α : Type} (n : ℕ) (P : ℕ → α) : (arr n P).reverse = arr n fun i => P (n - 1 - i) := by
  refine eq_arr_of (by simp) fun i hi => ?_
  simp only [List.length_reverse, arr_length] at hi
  rw [List.getElem_reverse]
  simp [arr]

theorem move_of {u u₁ : List K} {deg sd : ℤ} {n p : ℕ} (h : Axis u deg sd n p) (hw : WideOn u n p)
    (hw₁ : WideOn u₁ n p) (hf : knot u p < knot u (p + 1)) {per : Bool} {π : ℕ → ℕ} {t t₁ s : K}
    (d : DirChange u n p per t u₁ π t₁ s) : ∃ t' t₁', Move V u n p per (staticDeg sd) t u₁ π t₁ s t' t₁' := by
  have hlen := h.len
  have hcnt := h.cnt
  cases d with
  | affine x y hy ht =>
    obtain ⟨b1, b2, b3⟩ := axis_rescale h x hy
    obtain ⟨t', e, f⟩ := axis_folded h per t
    have hd : InDom u n p t' := by
      unfold Folded at f
      split at f
      · exact ⟨f.1, f.2.1.le, Or.inl hf⟩
      · rename_i hn
        have := ht.resolve_left hn
        rw [f]
        exact ⟨this.1, this.2, Or.inl hf⟩
    refine ⟨t', x + y * t', e, hd, b3 _ _ _ e, b2 _ hd, fun i hi => hi, fun P => ?_, fun P => ?_⟩
    · exact sum_congr rfl fun i hi => by rw [b1 i (by simpa using hi)]; rfl
    · obtain ⟨_, D, E, -, e2, e3, -, e5, e6⟩ := C94_affine (c := ⟨arr n P, u, per, staticDeg sd⟩) (h.wf per (by simp))
        (wide_of rfl (by simp) hw) hf x hy (wide_of rfl (by simp [rescaled]) hw₁) t
        (by unfold Admissible; simpa using ht)
      exact ⟨D, E, e2, e3, e5, e6⟩
  | flip a hl h1 h2 hper ht =>
    have k1 : knot (flipKnots u a) p = a - knot u n := by
      rw [knot_flipKnots _ _ (by omega), show u.length - 1 - p = n by omega]
    have k2 : knot (flipKnots u a) n = a - knot u p := by
      rw [knot_flipKnots _ _ (by omega), show u.length - 1 - n = p by omega]
    have k3 : knot (flipKnots u a) (p + 1) = a - knot u (n - 1) := by
      rw [knot_flipKnots _ _ (by omega), show u.length - 1 - (p + 1) = n - 1 by omega]
    have w1 : wrapOn u n p per t = ok t := wrapOn_mem h1 (hper.symm.imp And.right id)
    have w2 : wrapOn (flipKnots u a) n p per (a - t) = ok (a - t) := by
      refine wrapOn_mem (by rw [k1]; linarith) (hper.symm.imp (fun h => ?_) id)
      rw [k2]; linarith [h.1]
    have sm : Smooth u n p t := by
      rcases ht with ht | ht
      · exact Or.inr (Or.inr (by rw [List.count_eq_zero_of_not_mem ht]; omega))
      · exact ht.imp id Or.inl
    refine ⟨t, a - t, w1, ⟨h1, h2, Or.inl hf⟩, w2, ⟨by rw [k1]; linarith, by rw [k2]; linarith,
      Or.inl (by rw [k1, k3]; linarith)⟩, fun i hi => by omega, fun P => ?_, fun P => ?_⟩
    · unfold bsum
      rw [← sum_range_reflect]
      refine sum_congr rfl fun i hi => ?_
      have hi' : i < n := by simpa using hi
      simp only
      rw [axis_flip h a hw hw₁ hf hl h1 h2 sm (by omega), show n - 1 - (n - 1 - i) = i by omega]
    · obtain ⟨_, D, E, -, e2, e3, -, e5, e6⟩ := C94_reverse (c := ⟨arr n P, u, per, staticDeg sd⟩) (h.wf per (by simp))
        (wide_of rfl (by simp) hw) hf a (by
          show knot (flipKnots u a) p < knot (flipKnots u a) (p + 1)
          rw [k1, k3]; linarith) (wide_of rfl (by simp [flipped]) hw₁) (t := t) h1 (by simpa using h2) (by simpa using hper) (by simpa using ht)
      simp only [flipped, arr_flip] at e5 e6
      exact ⟨D, E, e2, e3, by rw [neg_one_smul]; exact e5, by rw [neg_mul_neg, one_mul, one_smul]; exact e6⟩

/-- Values of the derivative of a curve. -/
def dsum (p : ℕ) (u : List K) (n : ℕ) (P : ℕ → V) (t : K) : V :=
  bsum p (innerKnots u) (n - 1) (hodoAt (knot u) (p + 1) P) t

theorem dsum_smul (p : ℕ) (u : List K) (n : ℕ) (s : K) (P : ℕ → V) (t : K) :
    dsum p u n (fun j => s • P j) t = s • dsum p u n P t := by
  unfold dsum bsum
  rw [smul_sum]
  refine sum_congr rfl fun i _ => ?_
  unfold hodoAt
  split
  · module
  · simp

theorem dsum_congr {p : ℕ} {u : List K} {n : ℕ} {P Q : ℕ → V} (h : ∀ i < n, P i = Q i) (t : K) :
    dsum p u n P t = dsum p u n Q t := by
  refine bsum_congr (fun i hi => ?_) t
  unfold hodoAt
  rw [h i (by omega), h (i + 1) (by omega)]

/-- A change of direction acts on the values of derivatives. -/
theorem Move.dsum {u u₁ : List K} {deg sd deg₁ : ℤ} {n p : ℕ} (h : Axis u deg sd n (p + 1))
    (h₁ : Axis u₁ deg₁ sd n (p + 1)) (hw : WideOn u n (p + 1))
    (hw₁ : WideOn u₁ n (p + 1)) {per : Bool} {π : ℕ → ℕ} {t t₁ s t' t₁' : K}
    (M : Move V u n (p + 1) per (staticDeg sd) t u₁ π t₁ s t' t₁') (P : ℕ → V) :
    dsum p u₁ n (fun i => P (π i)) t₁' = s • dsum p u n P t' := by
  obtain ⟨D, E, e1, -, e2, -⟩ := M.der P
  rw [h.deriv hw P M.wrap M.dom, ok.injEq] at e1
  rw [h₁.deriv hw₁ _ M.wrap₁ M.dom₁, ok.injEq, ← e1] at e2
  exact e2

variable {p q : BSplinePatch K V} {m n du dv : ℕ}

/-- The mixed derivative is the derivative in `v` of the curve of derivatives in `u`. -/
theorem derivUV_value (bad : V) (h : p.Valid m n (du + 1) (dv + 1))
    (hwu : WideOn p.knotsU m (du + 1)) (hwv : WideOn p.knotsV n (dv + 1)) {u v u' v' : K}
    (eu : wrapOn p.knotsU m (du + 1) p.perU u = ok u') (hu : InDom p.knotsU m (du + 1) u')
    (ev : wrapOn p.knotsV n (dv + 1) p.perV v = ok v') (hv : InDom p.knotsV n (dv + 1) v') :
    p.derivUV bad u v = ok (dsum dv p.knotsV n (fun j => dsum du p.knotsU m (fun i => p.pts n i j) u') v') := by
  obtain ⟨q, e, hr, k1, k2, p1, p2, hp⟩ := h.duPatch bad
  obtain ⟨q', e', -⟩ := hr.toValid.dvPatch bad
  have hl := h.u.len
  unfold derivUV duvPatch
  rw [e, ok_bind, e', ok_bind]
  have a1 : wrapOn q.knotsU (m - 1) du q.perU u = ok u' := by rw [k1, p1, h.u.inner_wrap]; exact eu
  have a2 : InDom q.knotsU (m - 1) du u' := by rw [k1, h.u.inner_dom]; exact hu
  have a3 : wrapOn q.knotsV n (dv + 1) q.perV v = ok v' := by rw [k2, p2]; exact ev
  have a4 : InDom q.knotsV n (dv + 1) v' := by rw [k2]; exact hv
  have a5 : WideOn q.knotsU (m - 1) du := by rw [k1]; exact h.u.inner_wide hwu
  have a6 : WideOn q.knotsV n (dv + 1) := by rw [k2]; exact hwv
  rw [hr.derivV a5 a6 a1 a2 a3 a4 e']
  unfold BSplinePatch.derivV
  rw [hr.isoCurveV a5 a1 a2, ok_bind, hr.v.deriv a6 _ a3 a4, k1, k2]
  refine congrArg ok (dsum_congr (fun j hj => ?_) _)
  refine bsum_congr_supp h.u.inner.1.sorted h.u.inner.1.len (fun i hi hk => ?_) _
  rw [inner_knot (by omega), inner_knot (by omega)] at hk
  exact (hp i hi j hj).trans (dAt_eq _ _ hk)

/-- **C94** (B-spline patches): each direction may be scaled and shifted or run backwards. The value stays, each
derivative is multiplied by the factors of its directions. -/
theorem C94_bspline_patch_derivatives (h : p.Valid m n du dv) (hi : p.init = ok p) (h' : q.Valid m n du dv)
    (hi' : q.init = ok q) (hwu : WideOn p.knotsU m du) (hwv : WideOn p.knotsV n dv) (hwu' : WideOn q.knotsU m du)
    (hwv' : WideOn q.knotsV n dv) (fu : knot p.knotsU du < knot p.knotsU (du + 1))
    (fv : knot p.knotsV dv < knot p.knotsV (dv + 1)) {u v u₁ v₁ s s' : K} {π π' : ℕ → ℕ}
    (cu : DirChange p.knotsU m du p.perU u q.knotsU π u₁ s) (cv : DirChange p.knotsV n dv p.perV v q.knotsV π' v₁ s')
    (hg : ∀ i < m, ∀ j < n, gridPoint q.grid n i j = gridPoint p.grid n (π i) (π' j))
    (pu : q.perU = p.perU) (pv : q.perV = p.perV) (su : q.sU = p.sU) (sv : q.sV = p.sV) (bad : V) :
    ∃ P Du Dv Duu Dvv Duv, p.evaluate u v = ok P ∧ p.derivU u v = ok Du ∧ p.derivV u v = ok Dv ∧
      p.derivUU u v = ok Duu ∧ p.derivVV u v = ok Dvv ∧ p.derivUV bad u v = ok Duv ∧
      q.evaluate u₁ v₁ = ok P ∧ q.derivU u₁ v₁ = ok (s • Du) ∧ q.derivV u₁ v₁ = ok (s' • Dv) ∧
      q.derivUU u₁ v₁ = ok ((s * s) • Duu) ∧ q.derivVV u₁ v₁ = ok ((s' * s') • Dvv) ∧
      q.derivUV bad u₁ v₁ = ok ((s * s') • Duv) := by
  obtain ⟨u', u₁', M⟩ := move_of (V := V) h.u hwu hwu' fu cu
  obtain ⟨v', v₁', N⟩ := move_of (V := V) h.v hwv hwv' fv cv
  have R := h.ready hi
  have R' := h'.ready hi'
  have M1 : wrapOn q.knotsU m du q.perU u₁ = ok u₁' := by rw [pu]; exact M.wrap₁
  have N1 : wrapOn q.knotsV n dv q.perV v₁ = ok v₁' := by rw [pv]; exact N.wrap₁
  have rows : ∀ i < m, bsum dv q.knotsV n (q.pts n i) v₁' = bsum dv p.knotsV n (p.pts n (π i)) v' := fun i hi => by
    rw [← N.val]
    exact bsum_congr (fun j hj => hg i hi j hj) _
  have cols : ∀ j < n, bsum du q.knotsU m (fun i => q.pts n i j) u₁'
      = bsum du p.knotsU m (fun i => p.pts n i (π' j)) u' := fun j hj => by
    rw [← M.val]
    exact bsum_congr (fun i hi => hg i hi j hj) _
  have iu := R.isoCurveU hwv N.wrap N.dom
  have iv := R.isoCurveV hwu M.wrap M.dom
  have iu' : q.isoCurveU v₁ = ok (BSpline.mk (arr m fun i => bsum dv p.knotsV n (p.pts n (π i)) v') q.knotsU p.perU
      (staticDeg p.sU)) := by
    rw [R'.isoCurveU hwv' N1 N.dom₁, pu, su, arr_congr rows]
  have iv' : q.isoCurveV u₁ = ok (BSpline.mk (arr n fun j => bsum du p.knotsU m (fun i => p.pts n i (π' j)) u')
      q.knotsV p.perV (staticDeg p.sV)) := by
    rw [R'.isoCurveV hwu' M1 M.dom₁, pv, sv, arr_congr cols]
  obtain ⟨Du, Duu, a1, a2, a3, a4⟩ := M.der fun i => bsum dv p.knotsV n (p.pts n i) v'
  obtain ⟨Dv, Dvv, b1, b2, b3, b4⟩ := N.der fun j => bsum du p.knotsU m (fun i => p.pts n i j) u'
  have ev : ∃ P, p.evaluate u v = ok P ∧ q.evaluate u₁ v₁ = ok P := by
    refine ⟨_, R.evaluate hwu hwv M.wrap M.dom N.wrap N.dom, ?_⟩
    rw [R'.evaluate hwu' hwv' M1 M.dom₁ N1 N.dom₁]
    refine congrArg ok ?_
    unfold BSplinePatch.tsum
    rw [← M.val]
    exact bsum_congr rows _
  have ed : ∃ D, p.derivUV bad u v = ok D ∧ q.derivUV bad u₁ v₁ = ok ((s * s') • D) := by
    rcases du with _ | du
    · exact ⟨0, C64_uv_degree0 bad h (Or.inl rfl) u v, by rw [C64_uv_degree0 bad h' (Or.inl rfl), smul_zero]⟩
    rcases dv with _ | dv
    · exact ⟨0, C64_uv_degree0 bad h (Or.inr rfl) u v, by rw [C64_uv_degree0 bad h' (Or.inr rfl), smul_zero]⟩
    refine ⟨_, derivUV_value bad h hwu hwv M.wrap M.dom N.wrap N.dom, ?_⟩
    rw [derivUV_value bad h' hwu' hwv' M1 M.dom₁ N1 N.dom₁]
    refine congrArg ok ?_
    have hu' := h'.u
    have hv' := h'.v
    rw [su] at hu'
    rw [sv] at hv'
    rw [mul_smul, ← Move.dsum h.v hv' hwv hwv' N, ← dsum_smul]
    refine dsum_congr (fun j hj => ?_) _
    rw [← Move.dsum h.u hu' hwu hwu' M]
    exact dsum_congr (fun i hi => hg i hi j hj) _
  obtain ⟨P, e1, e2⟩ := ev
  obtain ⟨D, d1, d2⟩ := ed
  refine ⟨P, Du, Dv, Duu, Dvv, D, e1, ?_, ?_, ?_, ?_, d1, e2, ?_, ?_, ?_, ?_, d2⟩
  · rw [derivU, iu, ok_bind, a1]
  · rw [derivV, iv, ok_bind, b1]
  · rw [derivUU, iu, ok_bind, a2]
  · rw [derivVV, iv, ok_bind, b2]
  · rw [derivU, iu', ok_bind, a3]
  · rw [derivV, iv', ok_bind, b3]
  · rw [derivUU, iu', ok_bind, a4]
  · rw [derivVV, iv', ok_bind, b4]

/-! ### NURBS patches -/

theorem quotSame_smul (tol s : K) (P D E : V × K) :
    quotSame tol P (s • D) ((s * s) • E) = ((s * s) • ·) <$> quotSame tol P D E := by
  unfold quotSame
  split
  · exact congrArg ok (smul_zero _).symm
  · unfold quot0 quot1
    by_cases h : P.2 ≠ 0
    · rw [assert_true h]
      simp only [ok_bind, pure_eq, Prod.smul_fst, Prod.smul_snd, smul_eq_mul]
      refine congrArg ok ?_
      module
    · rw [assert_false h]
      rfl

theorem quotMixed_smul (tol s s' : K) (P D D' E : V × K) :
    quotMixed tol P (s • D) (s' • D') ((s * s') • E) = ((s * s') • ·) <$> quotMixed tol P D D' E := by
  unfold quotMixed
  split
  · exact congrArg ok (smul_zero _).symm
  · unfold quot0 quot1
    by_cases h : P.2 ≠ 0
    · rw [assert_true h]
      simp only [ok_bind, pure_eq, Prod.smul_fst, Prod.smul_snd, smul_eq_mul]
      refine congrArg ok ?_
      module
    · rw [assert_false h]
      rfl

/-- **C94** (NURBS patches): all six evaluators, including the parameters at which the denominator vanishes or is at
most the tolerance of the second derivatives. -/
theorem C94_nurbs_patch_derivatives {p q : NURBSPatch K V} (h : NValid p m n du dv) (hi : p.init = ok p)
    (h' : NValid q m n du dv) (hi' : q.init = ok q) (hwu : WideOn p.knotsU m du) (hwv : WideOn p.knotsV n dv)
    (hwu' : WideOn q.knotsU m du) (hwv' : WideOn q.knotsV n dv) (fu : knot p.knotsU du < knot p.knotsU (du + 1))
    (fv : knot p.knotsV dv < knot p.knotsV (dv + 1)) {u v u₁ v₁ s s' : K} {π π' : ℕ → ℕ}
    (cu : DirChange p.knotsU m du p.perU u q.knotsU π u₁ s) (cv : DirChange p.knotsV n dv p.perV v q.knotsV π' v₁ s')
    (hg : ∀ i < m, ∀ j < n, gridPoint q.grid n i j = gridPoint p.grid n (π i) (π' j))
    (hw : ∀ i < m, ∀ j < n, gridPoint q.weights n i j = gridPoint p.weights n (π i) (π' j))
    (pu : q.perU = p.perU) (pv : q.perV = p.perV) (su : q.sU = p.sU) (sv : q.sV = p.sV) (tol : K) (bad : V × K) :
    q.evaluate u₁ v₁ = p.evaluate u v ∧
    q.derivU u₁ v₁ = (s • ·) <$> p.derivU u v ∧ q.derivV u₁ v₁ = (s' • ·) <$> p.derivV u v ∧
    q.derivUU tol u₁ v₁ = ((s * s) • ·) <$> p.derivUU tol u v ∧
    q.derivVV tol u₁ v₁ = ((s' * s') • ·) <$> p.derivVV tol u v ∧
    q.derivUV tol bad u₁ v₁ = ((s * s') • ·) <$> p.derivUV tol bad u v := by
  have S := (sync_of_init hi).1
  have S' := (sync_of_init hi').1
  obtain ⟨P, Du, Dv, Duu, Dvv, Duv, a1, a2, a3, a4, a5, a6, b1, b2, b3, b4, b5, b6⟩ :=
    C94_bspline_patch_derivatives (h.hom S) S.init (h'.hom S') S'.init (by rwa [S.knotsU]) (by rwa [S.knotsV])
      (by rwa [S'.knotsU]) (by rwa [S'.knotsV]) (by rwa [S.knotsU]) (by rwa [S.knotsV])
      (by rw [S.knotsU, S.perU, S'.knotsU]; exact cu) (by rw [S.knotsV, S.perV, S'.knotsV]; exact cv)
      (fun i hi j hj => by
        rw [S.grid, S'.grid, homog_gridPoint S.len.symm, homog_gridPoint S'.len.symm, hg i hi j hj, hw i hi j hj])
      (by rw [S.perU, S'.perU, pu]) (by rw [S.perV, S'.perV, pv]) (by rw [S.sU, S'.sU, su]) (by rw [S.sV, S'.sV, sv])
      bad
  unfold NURBSPatch.evaluate NURBSPatch.derivU NURBSPatch.derivV NURBSPatch.derivUU NURBSPatch.derivVV
    NURBSPatch.derivUV
  rw [S.validate, S'.validate, a1, a2, a3, a4, a5, a6, b1, b2, b3, b4, b5, b6]
  simp only [ok_bind]
  exact ⟨trivial, quot1_smul _ _ _, quot1_smul _ _ _, quotSame_smul _ _ _ _ _, quotSame_smul _ _ _ _ _,
    quotMixed_smul _ _ _ _ _ _ _⟩

/-! ### Bézier curves and patches, over the real numbers -/

section Real

variable {V : Type} [NormedAddCommGroup V] [NormedSpace ℝ V]

theorem deriv_flip {f f' g g' : ℝ → V} (hf : ∀ t, HasDerivAt f (f' t) t) (hg : ∀ t, HasDerivAt g (g' t) t) (s : ℝ)
    (h : ∀ t, g (1 - t) = s • f t) (t : ℝ) : g' (1 - t) = -(s • f' t) := by
  have e : (fun t => g (1 - t)) = fun t => s • f t := funext h
  have h1 : HasDerivAt (fun t => g (1 - t)) (-(g' (1 - t))) t := by
    have := (hg (1 - t)).scomp t ((hasDerivAt_id' t).const_sub 1)
    rw [neg_one_smul] at this
    exact this
  rw [e] at h1
  rw [← h1.unique ((hf t).const_smul s), neg_neg]

/-- **C94** (Bézier curves run backwards): the first derivative is negated, the second kept. -/
theorem C94_bezier_derivatives (P : List V) (hP : P ≠ []) (t : ℝ) :
    ∃ D E, ({ ctrl := P } : Bezier V).evaluateDerivative t = ok D ∧
      ({ ctrl := P } : Bezier V).evaluate2ndDerivative t = ok E ∧
      ({ ctrl := P.reverse } : Bezier V).evaluateDerivative (1 - t) = ok (-D) ∧
      ({ ctrl := P.reverse } : Bezier V).evaluate2ndDerivative (1 - t) = ok E := by
  obtain ⟨f, f', f'', e, e', e'', d, d'⟩ := C05_derivative ({ ctrl := P } : Bezier V) hP rfl
  obtain ⟨g, g', g'', k, k', k'', b, b'⟩ := C05_derivative ({ ctrl := P.reverse } : Bezier V) (by simpa using hP) rfl
  have h0 : ∀ t, g (1 - t) = (1 : ℝ) • f t := fun t => by
    have := C94_bezier (K := ℝ) P t
    rw [k, e, ok.injEq] at this
    rw [this, one_smul]
  have h1 := fun t => deriv_flip d b 1 h0 t
  have h2 := fun t => deriv_flip d' b' (-1) (fun t => by rw [h1 t]; simp) t
  refine ⟨f' t, f'' t, e' t, e'' t, ?_, ?_⟩
  · rw [k', h1 t, one_smul]
  · rw [k'', h2 t, neg_one_smul, neg_neg]

/-- **C94** (rational Bézier curves run backwards). -/
theorem C94_rational_derivatives {c c' : RationalBezier ℝ V} (hi : c.init = ok c) (hi' : c'.init = ok c')
    (hb : c'.base.ctrl = c.base.ctrl.reverse) (hwt : c'.weights = c.weights.reverse) (hne : c.base.ctrl ≠ [])
    (hp : c.base.periodic = false) (hp' : c'.base.periodic = false) (t : ℝ) :
    c'.evaluateDerivative (1 - t) = (-·) <$> c.evaluateDerivative t ∧
    c'.evaluate2ndDerivative (1 - t) = c.evaluate2ndDerivative t := by
  obtain ⟨S, -, -⟩ := (RationalBezier.init_iff _ _).1 hi
  obtain ⟨S', -, -⟩ := (RationalBezier.init_iff _ _).1 hi'
  have hne' : homog c.base.ctrl c.weights ≠ [] := by
    intro h
    have := congrArg List.length h
    rw [homog_length S.len] at this
    exact hne (List.eq_nil_of_length_eq_zero this)
  obtain ⟨D, E, e1, e2, e3, e4⟩ := C94_bezier_derivatives (homog c.base.ctrl c.weights) hne' t
  have e := C94_bezier (K := ℝ) (homog c.base.ctrl c.weights) t
  obtain ⟨P, eP⟩ : ∃ P, ({ ctrl := homog c.base.ctrl c.weights } : Bezier (V × ℝ)).evaluate t = ok P := by
    obtain ⟨f, _, _, k, -⟩ := C05_derivative ({ ctrl := homog c.base.ctrl c.weights } : Bezier (V × ℝ)) hne' rfl
    exact ⟨_, k t⟩
  have hr : homog c'.base.ctrl c'.weights = (homog c.base.ctrl c.weights).reverse := by
    rw [hb, hwt, homog, homog, List.reverse_zipWith S.len]
  rw [eP] at e
  unfold RationalBezier.evaluateDerivative RationalBezier.evaluate2ndDerivative
  rw [S.validate, S'.validate, S.hom, S'.hom, hp, hp', hr, e, e1, e2, e3, e4, eP]
  simp only [ok_bind]
  have q1 := quot1_smul (-1) P D
  have q2 := quot2_smul (-1) P D E
  simp only [neg_one_smul, neg_mul_neg, one_mul, one_smul] at q1 q2
  have hid : ∀ x : Outcome V, (fun y => y) <$> x = x := fun x => by cases x <;> rfl
  exact ⟨q1, q2.trans (hid _)⟩

/-- **C94** (Bézier patches run backwards in both directions): first derivatives are negated, second ones kept. -/
theorem C94_bezier_patch_derivatives {p : BezierPatch V} (h : p.init = ok ()) (hu : p.perU = false)
    (hv : p.perV = false) (u v : ℝ) :
    ∃ Du Dv Duu Duv Dvv, p.derivU u v = ok Du ∧ p.derivV u v = ok Dv ∧ p.derivUU u v = ok Duu ∧
      p.derivUV u v = ok Duv ∧ p.derivVV u v = ok Dvv ∧
      let q : BezierPatch V := { p with grid := p.grid.reverse }
      q.derivU (1 - u) (1 - v) = ok (-Du) ∧ q.derivV (1 - u) (1 - v) = ok (-Dv) ∧
      q.derivUU (1 - u) (1 - v) = ok Duu ∧ q.derivUV (1 - u) (1 - v) = ok Duv ∧ q.derivVV (1 - u) (1 - v) = ok Dvv := by
  have hq : ({ p with grid := p.grid.reverse } : BezierPatch V).init = ok () := by
    have hw := wf_of_init h
    exact BezierPatch.init_ok ⟨hw.degU, hw.degV, by simpa using hw.len⟩
  obtain ⟨f, fu, fv, fuu, fuv, fvv, e, d1, d2⟩ := C29_derivatives h
  obtain ⟨g, gu, gv, guu, guv, gvv, k, b1, b2⟩ := C29_derivatives hq
  have d1' := fun u v => d1 u v fun h => absurd h (by simp [hu])
  have d2' := fun u v => d2 u v fun h => absurd h (by simp [hv])
  have b1' := fun u v => b1 u v fun h => absurd h (by simp [hu])
  have b2' := fun u v => b2 u v fun h => absurd h (by simp [hv])
  have h0 : ∀ u v, g (1 - u) (1 - v) = (1 : ℝ) • f u v := fun u v => by
    have := C94_bezier_patch (K := ℝ) h hu hv u v
    rw [(k _ _).1, (e _ _).1, ok.injEq] at this
    rw [this, one_smul]
  have hU : ∀ u v, gu (1 - u) (1 - v) = (-1 : ℝ) • fu u v := fun u v => by
    rw [deriv_flip (fun u => (d1' u v).1) (fun u => (b1' u (1 - v)).1) 1 (fun u => h0 u v) u]; simp
  have hV : ∀ u v, gv (1 - u) (1 - v) = (-1 : ℝ) • fv u v := fun u v => by
    rw [deriv_flip (fun v => (d2' u v).1) (fun v => (b2' (1 - u) v).1) 1 (fun v => h0 u v) v]; simp
  have hUU : guu (1 - u) (1 - v) = fuu u v := by
    rw [deriv_flip (fun u => (d1' u v).2.1) (fun u => (b1' u (1 - v)).2.1) (-1) (fun u => hU u v) u]; simp
  have hVV : gvv (1 - u) (1 - v) = fvv u v := by
    rw [deriv_flip (fun v => (d2' u v).2.1) (fun v => (b2' (1 - u) v).2.1) (-1) (fun v => hV u v) v]; simp
  have hUV : guv (1 - u) (1 - v) = fuv u v := by
    rw [deriv_flip (fun v => (d2' u v).2.2) (fun v => (b2' (1 - u) v).2.2) (-1) (fun v => hU u v) v]; simp
  obtain ⟨-, a1, a2, a3, a4, a5⟩ := e u v
  obtain ⟨-, c1, c2, c3, c4, c5⟩ := k (1 - u) (1 - v)
  refine ⟨_, _, _, _, _, a1, a2, a3, a4, a5, ?_, ?_, ?_, ?_, ?_⟩
  · rw [c1, hU, neg_one_smul]
  · rw [c2, hV, neg_one_smul]
  · rw [c3, hUU]
  · rw [c4, hUV]
  · rw [c5, hVV]

/-- **C94** (rational Bézier patches run backwards in both directions). -/
theorem C94_rational_patch_derivatives {p q : RationalBezierPatch ℝ V} (h : p.init = ok p) (h' : q.init = ok q)
    (hb : q.base = { p.base with grid := p.base.grid.reverse }) (hw : q.weights = p.weights.reverse)
    (hu : p.base.perU = false) (hv : p.base.perV = false) (tol u v : ℝ) :
    q.derivU (1 - u) (1 - v) = (-·) <$> p.derivU u v ∧ q.derivV (1 - u) (1 - v) = (-·) <$> p.derivV u v ∧
    q.derivUU tol (1 - u) (1 - v) = p.derivUU tol u v ∧ q.derivVV tol (1 - u) (1 - v) = p.derivVV tol u v ∧
    q.derivUV tol (1 - u) (1 - v) = p.derivUV tol u v := by
  obtain ⟨S, -, -⟩ := (RationalBezierPatch.init_iff _ _).1 h
  obtain ⟨S', -, -⟩ := (RationalBezierPatch.init_iff _ _).1 h'
  have pu : p.hom.perU = false := by rw [S.hom]; exact hu
  have pv : p.hom.perV = false := by rw [S.hom]; exact hv
  have e := C94_bezier_patch (init_hom h) pu pv u v
  have e' : q.hom = { p.hom with grid := p.hom.grid.reverse } := by
    rw [S.hom, S'.hom, hb, hw]
    simp only
    rw [homog, homog, List.reverse_zipWith S.len]
  obtain ⟨Du, Dv, Duu, Duv, Dvv, a1, a2, a3, a4, a5, b1, b2, b3, b4, b5⟩ :=
    C94_bezier_patch_derivatives (init_hom h) pu pv u v
  obtain ⟨P, eP⟩ : ∃ P, p.hom.evaluate u v = ok P := by
    obtain ⟨f, _, _, _, _, _, k, -⟩ := C29_derivatives (init_hom h)
    exact ⟨_, (k u v).1⟩
  unfold RationalBezierPatch.derivU RationalBezierPatch.derivV RationalBezierPatch.derivUU RationalBezierPatch.derivVV
    RationalBezierPatch.derivUV
  rw [S.validate, S'.validate, e', e, a1, a2, a3, a4, a5, b1, b2, b3, b4, b5, eP]
  simp only [ok_bind]
  have q1 := fun D => quot1_smul (-1) P D
  have q2 := fun D E => quotSame_smul tol (-1) P D E
  have q3 := fun D D' E => quotMixed_smul tol (-1) (-1) P D D' E
  simp only [neg_one_smul, neg_mul_neg, one_mul, one_smul] at q1 q2 q3
  have hid : ∀ x : Outcome V, (fun y => y) <$> x = x := fun x => by cases x <;> rfl
  exact ⟨q1 _, q1 _, (q2 _ _).trans (hid _), (q2 _ _).trans (hid _), (q3 _ _ _).trans (hid _)⟩

end Real

/-! ### Concrete cases -/

/-- `u` stretched to `[1, 3]`, `v` run backwards. -/
def exRDRaw : BSplinePatch ℚ ℚ := { exRaw with knotsU := [1, 1, 1, 2, 3, 3, 3], grid := [1, 0, 2, 3, 7, 5, 6, 4] }

theorem exRD_u : DirChange ([0, 0, 0, 1/2, 1, 1, 1] : List ℚ) 4 2 false (1/4) [1, 1, 1, 2, 3, 3, 3] id (3/2) (1/2) := by
  have := DirChange.affine (u := ([0, 0, 0, 1/2, 1, 1, 1] : List ℚ)) (n := 4) (p := 2) (per := false) (t := 1/4) 1 2
    (by norm_num) (Or.inr (by decide +kernel))
  norm_num at this ⊢
  exact this

theorem exRD_v : DirChange ([0, 0, 1, 1] : List ℚ) 2 1 false (1/3) [0, 0, 1, 1] (fun j => 1 - j) (2/3) (-1) := by
  have := DirChange.flip (u := ([0, 0, 1, 1] : List ℚ)) (n := 2) (p := 1) (per := false) (t := 1/3) 1
    (by decide +kernel) (by decide +kernel) (by decide +kernel) (Or.inl rfl) (Or.inl (by decide +kernel))
  norm_num [flipKnots] at this ⊢
  exact this

example : ∃ q Du Duv, exRDRaw.init = ok q ∧ exBP.derivU (1/4 : ℚ) (1/3) = ok Du ∧ exBP.derivUV 0 (1/4 : ℚ) (1/3) = ok Duv ∧
    q.derivU (3/2 : ℚ) (2/3) = ok ((1/2 : ℚ) • Du) ∧ q.derivUV 0 (3/2 : ℚ) (2/3) = ok ((1/2 * -1 : ℚ) • Duv) := by
  have hv : exRDRaw.Valid 4 2 2 1 := by
    refine ⟨⟨rfl, rfl, Or.inr rfl, by decide, by decide +kernel, by decide +kernel⟩,
      ⟨rfl, rfl, Or.inr rfl, by decide, by decide +kernel, by decide +kernel⟩, rfl⟩
  have i : ∃ q, exRDRaw.init = ok q ∧ q.sU = exBP.sU ∧ q.sV = exBP.sV := by
    obtain ⟨q, e, -, -, -, -, -, -, -, -, h1, h2⟩ := hv.init_ready
    exact ⟨q, e, h1, h2⟩
  obtain ⟨q, e, e2, hv, e3, e4, e5, e6, e7, e8, e9⟩ := C31_init hv
  obtain ⟨q', e', s1, s2⟩ := i
  rw [e, ok.injEq] at e'
  subst e'
  obtain ⟨P, Du, Dv, Duu, Dvv, Duv, a1, a2, a3, a4, a5, a6, b1, b2, b3, b4, b5, b6⟩ :=
    C94_bspline_patch_derivatives exBP_valid exBP_init.2 hv e2 exBP_wide.1 exBP_wide.2
      (by rw [e4]; exact (exRP_axis (Or.inr rfl) (Or.inl rfl)).1) (by rw [e5]; exact exBP_wide.2) (by decide +kernel)
      (by decide +kernel) (by rw [e4]; exact exRD_u) (by rw [e5]; exact exRD_v) (by rw [e3]; decide +kernel) e8 e9 s1 s2 0
  exact ⟨q, Du, Duv, e, a2, a6, b2, b6⟩

/-- The same for NURBS patches. -/
def exRDNRaw : NURBSPatch ℚ ℚ :=
  { exNPRaw with knotsU := [1, 1, 1, 2, 3, 3, 3], grid := [1, 0, 2, 3, 7, 5, 6, 4], weights := [2, 1, 3, 1, 2, 1, 1, 2] }

example : ∃ p q, exNPRaw.init = ok p ∧ exRDNRaw.init = ok q ∧
    q.derivV (3/2 : ℚ) (2/3) = ((-1 : ℚ) • ·) <$> p.derivV (1/4 : ℚ) (1/3) ∧
    q.derivUU (1/1000) (3/2 : ℚ) (2/3) = ((1/2 * (1/2) : ℚ) • ·) <$> p.derivUU (1/1000) (1/4 : ℚ) (1/3) := by
  have hn : NValid exRDNRaw 4 2 2 1 := ⟨⟨rfl, rfl, Or.inl (by decide), by decide, by decide +kernel, by decide +kernel⟩,
    ⟨rfl, rfl, Or.inl (by decide), by decide, by decide +kernel, by decide +kernel⟩, rfl, rfl⟩
  obtain ⟨p, e, e2, hv, hp⟩ := exRN_init exNP_valid
  obtain ⟨q, f, f2, hv', hq⟩ := exRN_init hn
  obtain ⟨-, -, h3, h4, -, -⟩ := C94_nurbs_patch_derivatives hv e2 hv' f2 (by rw [hp]; exact exBP_wide.1)
    (by rw [hp]; exact exBP_wide.2) (by rw [hq]; exact (exRP_axis (Or.inr rfl) (Or.inl rfl)).1)
    (by rw [hq]; exact exBP_wide.2) (by rw [hp]; dsimp only; decide +kernel) (by rw [hp]; dsimp only; decide +kernel)
    (by rw [hp, hq]; exact exRD_u) (by rw [hp, hq]; exact exRD_v) (by rw [hp, hq]; dsimp only; decide +kernel)
    (by rw [hp, hq]; dsimp only; decide +kernel) (by rw [hp, hq]; rfl) (by rw [hp, hq]; rfl) (by rw [hp, hq]; rfl)
    (by rw [hp, hq]; rfl) (1/1000) (0, 0)
  exact ⟨p, q, e, f, h3, h4⟩

example : ∃ D E, ({ ctrl := [0, 1, 3, 2] } : Bezier ℝ).evaluateDerivative (1/4 : ℝ) = ok D ∧
    ({ ctrl := [0, 1, 3, 2] } : Bezier ℝ).evaluate2ndDerivative (1/4 : ℝ) = ok E ∧
    ({ ctrl := [2, 3, 1, 0] } : Bezier ℝ).evaluateDerivative (1 - 1/4 : ℝ) = ok (-D) ∧
    ({ ctrl := [2, 3, 1, 0] } : Bezier ℝ).evaluate2ndDerivative (1 - 1/4 : ℝ) = ok E :=
  C94_bezier_derivatives [0, 1, 3, 2] (by simp) (1/4)

example := C94_bezier_patch_derivatives (V := ℝ) (p := { grid := [0, 1, 3, 2, 5, 7], degU := 2, degV := 1 }) rfl rfl rfl
  (1/4) (1/3)

/-- A rational patch with its homogeneous copy. -/
noncomputable def exRDRat (grid w : List ℝ) : RationalBezierPatch ℝ ℝ :=
  ⟨{ grid := grid, degU := 2, degV := 1 }, w, { grid := homog grid w, degU := 2, degV := 1 }⟩

theorem exRDRat_init {grid w : List ℝ} (h : grid.length = 6) (h' : w.length = 6) :
    (exRDRat grid w).init = ok (exRDRat grid w) :=
  (RationalBezierPatch.init_iff _ _).2 ⟨⟨h.trans h'.symm, rfl, BezierPatch.init_ok (m := 2) (n := 1) ⟨rfl, rfl, h⟩⟩, rfl, rfl⟩

example := C94_rational_patch_derivatives (p := exRDRat [0, 1, 3, 2, 5, 7] [1, 2, 1, 3, 1, 2])
  (q := exRDRat [7, 5, 2, 3, 1, 0] [2, 1, 3, 1, 2, 1]) (exRDRat_init rfl rfl) (exRDRat_init rfl rfl) rfl rfl rfl rfl
  (1/1000) (1/4) (1/3)

noncomputable def exRDRatCurve (P w : List ℝ) : RationalBezier ℝ ℝ := ⟨{ ctrl := P }, w, { ctrl := homog P w }⟩

example := C94_rational_derivatives (c := exRDRatCurve [0, 1, 3] [1, 2, 1]) (c' := exRDRatCurve [3, 1, 0] [1, 2, 1])
  ((RationalBezier.init_iff _ _).2 ⟨⟨rfl, rfl⟩, rfl, rfl⟩) ((RationalBezier.init_iff _ _).2 ⟨⟨rfl, rfl⟩, rfl, rfl⟩)
  rfl rfl (by simp [exRDRatCurve]) rfl rfl (1/4)

end NS.Props
