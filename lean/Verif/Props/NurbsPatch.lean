import Verif.Props.RationalPatchDeriv

/-!
# C63: NURBS patches

`p.init = ok p` says that the homogeneous copy of `p`, with its iso-curve caches, is up to date.
-/

set_option linter.unusedSectionVars false
set_option linter.unusedSimpArgs false

namespace NS.Props

open Outcome Spec Finset
open BSpline (HullOf)
open BSplinePatch (Axis WideOn InDom)

/-- Degrees 2 and 1, 4 × 2 control points, before `initialize`. -/
def exNPRaw : NURBSPatch ℚ ℚ :=
  NURBSPatch.mk [0, 1, 3, 2, 5, 7, 4, 6] [1, 2, 1, 3, 1, 2, 2, 1] [0, 0, 0, 1/2, 1, 1, 1]
    [0, 0, 1, 1] 2 1 false false (-1) (-1)
    (BSplinePatch.mk [] [] [] 0 0 false false (-1) (-1) [] [])

section General

variable {K V : Type} [Field K] [LinearOrder K] [IsStrictOrderedRing K] [FloorRing K]
  [AddCommGroup V] [Module K V]

/-- The data of a NURBS patch fit together: one knot vector of the right length per direction, one
point and one weight per grid position. -/
structure NValid (p : NURBSPatch K V) (m n du dv : ℕ) : Prop where
  u : Axis p.knotsU p.degU p.sU m du
  v : Axis p.knotsV p.degV p.sV n dv
  grid : p.grid.length = m * n
  weights : p.weights.length = m * n

variable {p : NURBSPatch K V} {m n du dv : ℕ}

theorem init_caches (q : BSplinePatch K V) (iu iv : List (BSpline K V)) :
    (BSplinePatch.mk q.grid q.knotsU q.knotsV q.degU q.degV q.perU q.perV q.sU q.sV iu iv).init
      = q.init := rfl

theorem sync_of_init {p q : NURBSPatch K V} (h : p.init = ok q) :
    q.Sync ∧ q = { p with hom := q.hom } := by
  unfold NURBSPatch.init at h
  obtain ⟨_, h1, h⟩ := bind_eq_ok.1 h
  have hl : p.weights.length = p.grid.length := by
    by_contra hne
    rw [throwIf_true hne] at h1; cases h1
  obtain ⟨g, hg, h⟩ := bind_eq_ok.1 h
  rw [homogenize_eq hl.symm, ok.injEq] at hg
  subst hg
  obtain ⟨a, ha, hA⟩ := bind_eq_ok.1 h
  obtain ⟨b, hb, hB⟩ := bind_eq_ok.1 hA
  obtain ⟨k, hk, hC⟩ := bind_eq_ok.1 hB
  have ha' : 0 ≤ p.degU := by
    unfold NURBSPatch.degreeOf at ha
    by_contra hne
    rw [assert_false (by omega)] at ha; cases ha
  have hb' : 0 ≤ p.degV := by
    unfold NURBSPatch.degreeOf at hb
    by_contra hne
    rw [assert_false (by omega)] at hb; cases hb
  rw [NURBSPatch.degreeOf_ok ha', ok.injEq] at ha
  rw [NURBSPatch.degreeOf_ok hb', ok.injEq] at hb
  subst ha hb
  rw [pure_eq, ok.injEq] at hC
  subst hC
  obtain ⟨iu, iv, rfl⟩ := init_same hk
  refine ⟨⟨hl, ha', hb', rfl, rfl, rfl, ?_, ?_, rfl, rfl, rfl, rfl, ?_⟩, rfl⟩
  · simp [Int.toNat_of_nonneg ha']
  · simp [Int.toNat_of_nonneg hb']
  · rw [← init_caches] at hk
    exact hk

theorem init_of_sync (S : p.Sync) : p.init = ok p := by
  unfold NURBSPatch.init
  rw [throwIf_false (by rw [S.len]; simp), ok_bind, homogenize_eq S.len.symm, ok_bind,
    NURBSPatch.degreeOf_ok S.degU, ok_bind, NURBSPatch.degreeOf_ok S.degV, ok_bind,
    Int.toNat_of_nonneg S.degU, Int.toNat_of_nonneg S.degV]
  have : BSplinePatch.mk (homog p.grid p.weights) p.knotsU p.knotsV p.degU p.degV p.perU p.perV
      p.sU p.sV p.hom.isoU p.hom.isoV = p.hom := by
    rw [← S.grid, ← S.knotsU, ← S.knotsV, ← S.hdegU, ← S.hdegV, ← S.perU, ← S.perV, ← S.sU, ← S.sV]
  rw [this, S.init]
  rfl

theorem NValid.hom (h : NValid p m n du dv) (S : p.Sync) : p.hom.Valid m n du dv := by
  refine ⟨?_, ?_, ?_⟩
  · rw [S.knotsU, S.hdegU, S.sU]; exact h.u
  · rw [S.knotsV, S.hdegV, S.sV]; exact h.v
  · rw [S.grid, homog_length S.len.symm]; exact h.grid

/-- C63: `initialize` succeeds on matching data, only replaces the homogeneous copy, and may be
repeated. -/
theorem C63_nurbs_init (h : NValid p m n du dv) :
    ∃ q, p.init = ok q ∧ q.init = ok q ∧ q = { p with hom := q.hom } := by
  have hl : p.weights.length = p.grid.length := by rw [h.grid, h.weights]
  have hu : 0 ≤ p.degU := by rw [h.u.deg]; omega
  have hv : 0 ≤ p.degV := by rw [h.v.deg]; omega
  obtain ⟨k, e, -⟩ := C31_init (p := BSplinePatch.mk (homog p.grid p.weights) p.knotsU p.knotsV
    p.degU p.degV p.perU p.perV p.sU p.sV p.hom.isoU p.hom.isoV) (m := m) (n := n) (du := du)
    (dv := dv) ⟨h.u, h.v, by simp only; rw [homog_length hl.symm, h.grid]⟩
  have ei : p.init = ok { p with hom := k } := by
    unfold NURBSPatch.init
    rw [throwIf_false (by rw [hl]; simp), ok_bind, homogenize_eq hl.symm, ok_bind,
      NURBSPatch.degreeOf_ok hu, ok_bind, NURBSPatch.degreeOf_ok hv, ok_bind,
      Int.toNat_of_nonneg hu, Int.toNat_of_nonneg hv, e]
    rfl
  exact ⟨_, ei, init_of_sync (sync_of_init ei).1, (sync_of_init ei).2⟩

/-- C63: whatever was done to a patch before, after a successful `initialize` it is up to date. -/
theorem C63_nurbs_reinit {p q : NURBSPatch K V} (h : p.init = ok q) :
    q.init = ok q ∧ q = { p with hom := q.hom } :=
  ⟨init_of_sync (sync_of_init h).1, (sync_of_init h).2⟩

/-- C63: an initialised NURBS patch evaluates to the weighted tensor quotient at the parameters
folded into the domain, wherever the denominator is not zero. -/
theorem C63_nurbs_evaluate (h : NValid p m n du dv) (hi : p.init = ok p)
    (hwu : WideOn p.knotsU m du) (hwv : WideOn p.knotsV n dv) (u v : K) :
    ∃ u' v', Folded p.perU (knot p.knotsU du) (knot p.knotsU m) u u' ∧
      Folded p.perV (knot p.knotsV dv) (knot p.knotsV n) v v' ∧
      (InDom p.knotsU m du u' → InDom p.knotsV n dv v' →
        ratBSplineSurfaceDen du dv m n p.knotsU p.knotsV p.weights u' v' ≠ 0 →
        p.evaluate u v = ok (ratBSplineSurface du dv m n p.knotsU p.knotsV p.grid p.weights u' v')) := by
  have S := (sync_of_init hi).1
  obtain ⟨u', v', fu, fv, H⟩ := C31_evaluate (h.hom S) S.init (by rw [S.knotsU]; exact hwu)
    (by rw [S.knotsV]; exact hwv) u v
  rw [S.knotsU, S.perU] at fu
  rw [S.knotsV, S.perV] at fv
  rw [S.knotsU, S.knotsV] at H
  refine ⟨u', v', fu, fv, fun d1 d2 hd => ?_⟩
  unfold NURBSPatch.evaluate
  rw [S.validate, ok_bind, (H d1 d2).1, ok_bind, S.grid, homog_bsplineSurface S.len.symm, q0_pair hd]
  rfl

theorem nurbsDen_pos (h : NValid p m n du dv) (S : p.Sync) (hw : ∀ x ∈ p.weights, 0 < x) {u v : K}
    (hu : InDom p.knotsU m du u) (hv : InDom p.knotsV n dv v) :
    0 < ratBSplineSurfaceDen du dv m n p.knotsU p.knotsV p.weights u v := by
  have := C31_convex_hull (h.hom S) (by rw [S.knotsU]; exact hu) (by rw [S.knotsV]; exact hv)
  rw [S.grid, S.knotsU, S.knotsV, homog_bsplineSurface S.len.symm] at this
  exact convexHull_min (fun q hq => hom_pos S.len.symm hw q hq) convex_pos this

/-- C63: with positive weights evaluation succeeds on the whole domain. -/
theorem C63_nurbs_positive (h : NValid p m n du dv) (hi : p.init = ok p)
    (hwu : WideOn p.knotsU m du) (hwv : WideOn p.knotsV n dv) (hw : ∀ x ∈ p.weights, 0 < x) {u v : K}
    (hu : InDom p.knotsU m du u) (hv : InDom p.knotsV n dv v)
    (hu' : u < knot p.knotsU m ∨ p.perU = false) (hv' : v < knot p.knotsV n ∨ p.perV = false) :
    p.evaluate u v = ok (ratBSplineSurface du dv m n p.knotsU p.knotsV p.grid p.weights u v) := by
  have S := (sync_of_init hi).1
  have := C31_evaluate_domain (h.hom S) S.init (u := u) (v := v) (by rw [S.knotsU]; exact hwu)
    (by rw [S.knotsV]; exact hwv) (by rw [S.knotsU]; exact hu) (by rw [S.knotsV]; exact hv)
    (by rw [S.knotsU, S.perU]; exact hu') (by rw [S.knotsV, S.perV]; exact hv')
  unfold NURBSPatch.evaluate
  rw [S.validate, ok_bind, this, ok_bind, S.grid, S.knotsU, S.knotsV,
    homog_bsplineSurface S.len.symm, q0_pair (nurbsDen_pos h S hw hu hv).ne']
  rfl

/-- C63 is false between a setter and the next `initialize`: the setters do not change what the
evaluators return. -/
theorem C63_nurbs_stale_refuted :
    (do let p ← exNPRaw.init
        let q ← p.setControlPoint 0 0 (100 : ℚ)
        let x ← q.getControlPoint 0 0
        let a ← q.evaluate 0 0
        let q' ← q.init
        let b ← q'.evaluate 0 0
        pure (x, a, b)) = ok ((100 : ℚ), (0 : ℚ), (100 : ℚ)) ∧
    (do let p ← exNPRaw.init
        let q ← p.setWeight 0 0 (100 : ℚ)
        let x ← q.getWeight 0 0
        let a ← q.evaluate (1/4) (1/3)
        let b ← p.evaluate (1/4) (1/3)
        let q' ← q.init
        let c ← q'.evaluate (1/4) (1/3)
        pure (x, a - b, decide (c = b))) = ok ((100 : ℚ), (0 : ℚ), false) := by
  constructor <;> decide +kernel

/-- A NURBS patch over a strip of width `1e-17`, weights `1` and `2` at its sides. -/
def exNPNarrow : NURBSPatch ℚ ℚ :=
  NURBSPatch.mk [0, 0, 1, 1] [1, 1, 2, 2] [0, 0, 1 / 10 ^ 17, 1 / 10 ^ 17] [0, 0, 1, 1] 1 1 false false (-1) (-1)
    (BSplinePatch.mk [] [] [] 0 0 false false (-1) (-1) [] [])

/-- C63 fails for spans not longer than `1e-16`: at the far side of the strip the value of the near side is returned. -/
theorem C63_nurbs_narrow_refuted : NValid exNPNarrow 2 2 1 1 ∧ (∀ x ∈ exNPNarrow.weights, 0 < x) ∧
    InDom exNPNarrow.knotsU 2 1 (1 / 10 ^ 17) ∧ InDom exNPNarrow.knotsV 2 1 (1 / 2) ∧
    (exNPNarrow.init >>= fun p => p.evaluate (1 / 10 ^ 17) (1 / 2)) = ok 0 ∧
    ratBSplineSurface 1 1 2 2 exNPNarrow.knotsU exNPNarrow.knotsV exNPNarrow.grid exNPNarrow.weights
      (1 / 10 ^ 17) (1 / 2) = 1 := by
  refine ⟨⟨⟨rfl, rfl, Or.inl (by decide), by decide, by decide +kernel, by decide +kernel⟩,
    ⟨rfl, rfl, Or.inl (by decide), by decide, by decide +kernel, by decide +kernel⟩, rfl, rfl⟩, by decide +kernel,
    ?_, ?_, by decide +kernel, by decide +kernel⟩ <;> (unfold InDom; decide +kernel)

/-- A piece of a NURBS patch: up to date, with positive weights, clamped to the box and with the
values of the surface of `p` there (where the breakpoint allows, see C65). -/
def NPartOf (p : NURBSPatch K V) (m n du dv : ℕ) (q : NURBSPatch K V) (a b c d : K)
    (eu ev : Prop) : Prop :=
  ∃ m' n', NValid q m' n' du dv ∧ q.init = ok q ∧ q.perU = false ∧ q.perV = false ∧
    knot q.knotsU du = a ∧ knot q.knotsU m' = b ∧ knot q.knotsV dv = c ∧ knot q.knotsV n' = d ∧
    (∀ x ∈ q.weights, 0 < x) ∧
    (WideOn q.knotsU m' du → WideOn q.knotsV n' dv → ∀ x y, InDom q.knotsU m' du x →
      InDom q.knotsV n' dv y → (x < b ∨ eu) → (y < d ∨ ev) →
      q.evaluate x y = ok (ratBSplineSurface du dv m n p.knotsU p.knotsV p.grid p.weights x y))

theorem ofHom_part (hi : p.init = ok p) (hw : ∀ x ∈ p.weights, 0 < x)
    {q : BSplinePatch K (V × K)} {a b c d : K} {eu ev : Prop}
    (H : PartOf p.hom m n du dv q a b c d eu ev) :
    ∃ r, NURBSPatch.ofHomogeneous q = ok r ∧ NPartOf p m n du dv r a b c d eu ev := by
  have S := (sync_of_init hi).1
  obtain ⟨m', n', hv, qi, pu, pv, la, lb, lc, ld, hull, vals⟩ := H
  have pos : ∀ x ∈ q.grid, 0 < x.2 := hull_pos hull (by rw [S.grid]; exact hom_pos S.len.symm hw)
  have ne : ∀ x ∈ q.grid, x.2 ≠ 0 := fun x hx => (pos x hx).ne'
  rw [hv.lowerU, ok.injEq] at la
  rw [hv.upperU, ok.injEq] at lb
  rw [hv.lowerV, ok.injEq] at lc
  rw [hv.upperV, ok.injEq] at ld
  let r : NURBSPatch K V := NURBSPatch.mk (q.grid.map fun x => x.2⁻¹ • x.1) (q.grid.map Prod.snd)
    q.knotsU q.knotsV du dv q.perU q.perV q.sU q.sV q
  have T : r.Sync := by
    refine ⟨by simp [r], by simp [r], by simp [r], ?_, rfl, rfl, hv.u.deg, hv.v.deg, rfl, rfl, rfl,
      rfl, qi⟩
    simp only [r]
    rw [homog_of_dehomogenize ne]
  refine ⟨r, ?_, m', n', ⟨?_, ?_, ?_, ?_⟩, init_of_sync T, pu, pv, la, lb, lc, ld, ?_, ?_⟩
  · unfold NURBSPatch.ofHomogeneous
    rw [dehomogenize_eq ne, ok_bind, hv.degreeU, ok_bind, hv.degreeV, ok_bind]
    simp only
    rw [T.validate, ok_bind, pure_eq]
  · have := hv.u; rw [hv.u.deg] at this; exact this
  · have := hv.v; rw [hv.v.deg] at this; exact this
  · simpa [r] using hv.grid
  · simpa [r] using hv.grid
  · intro x hx
    obtain ⟨y, hy, rfl⟩ := List.mem_map.1 hx
    exact pos y hy
  · intro wu wv x y dx dy ex ey
    have := vals wu wv x y dx dy ex ey
    have e2 := C31_evaluate_domain hv qi wu wv dx dy (Or.inr pu) (Or.inr pv)
    have hp : 0 < (bsplineSurface du dv m n p.hom.knotsU p.hom.knotsV p.hom.grid x y).2 := by
      rw [this, ok.injEq] at e2
      rw [e2]
      exact convexHull_min (fun z hz => pos z hz) convex_pos (C31_convex_hull hv dx dy)
    rw [S.grid, S.knotsU, S.knotsV, homog_bsplineSurface S.len.symm] at this hp
    unfold NURBSPatch.evaluate
    rw [T.validate, ok_bind, this, ok_bind, q0_pair hp.ne']
    rfl

/-- C63: `split_u` of a NURBS patch with positive weights at an interior parameter, for degree at
least 1 in `u`: two pieces that are up to date, have positive weights, share the parameter range of
the patch and evaluate to its surface. Missing, as for C65: a breakpoint of multiplicity above the
degree approached from the left, and narrow spans (`WideOn`). -/
theorem C63_nurbs_split_u_partial {eps : K} (heps : 0 ≤ eps) (h : NValid p m n du dv)
    (hi : p.init = ok p) (hw : ∀ x ∈ p.weights, 0 < x) (hd : 1 ≤ du) {t : K}
    (h1 : knot p.knotsU du < t) (h2 : t < knot p.knotsU m) :
    ∃ q r, p.splitU eps t = ok [q, r] ∧
      NPartOf p m n du dv q (knot p.knotsU du) t (knot p.knotsV dv) (knot p.knotsV n)
        (p.knotsU.count t ≤ du) True ∧
      NPartOf p m n du dv r t (knot p.knotsU m) (knot p.knotsV dv) (knot p.knotsV n) True True := by
  have S := (sync_of_init hi).1
  obtain ⟨q, r, e, A, B⟩ := C65_split_u_partial heps (h.hom S) S.init hd (t := t)
    (by rw [S.knotsU]; exact h1) (by rw [S.knotsU]; exact h2)
  rw [S.knotsU, S.knotsV] at A B
  obtain ⟨q', eq, A'⟩ := ofHom_part hi hw A
  obtain ⟨r', er, B'⟩ := ofHom_part hi hw B
  refine ⟨q', r', ?_, A', B'⟩
  unfold NURBSPatch.splitU
  rw [e, ok_bind]
  simp only [NURBSPatch.ofParts]
  rw [eq, ok_bind, er, ok_bind]
  rfl

/-- C63: the same for `split_v`. -/
theorem C63_nurbs_split_v_partial {eps : K} (heps : 0 ≤ eps) (h : NValid p m n du dv)
    (hi : p.init = ok p) (hw : ∀ x ∈ p.weights, 0 < x) (hd : 1 ≤ dv) {t : K}
    (h1 : knot p.knotsV dv < t) (h2 : t < knot p.knotsV n) :
    ∃ q r, p.splitV eps t = ok [q, r] ∧
      NPartOf p m n du dv q (knot p.knotsU du) (knot p.knotsU m) (knot p.knotsV dv) t
        True (p.knotsV.count t ≤ dv) ∧
      NPartOf p m n du dv r (knot p.knotsU du) (knot p.knotsU m) t (knot p.knotsV n) True True := by
  have S := (sync_of_init hi).1
  obtain ⟨q, r, e, A, B⟩ := C65_split_v_partial heps (h.hom S) S.init hd (t := t)
    (by rw [S.knotsV]; exact h1) (by rw [S.knotsV]; exact h2)
  rw [S.knotsU, S.knotsV] at A B
  obtain ⟨q', eq, A'⟩ := ofHom_part hi hw A
  obtain ⟨r', er, B'⟩ := ofHom_part hi hw B
  refine ⟨q', r', ?_, A', B'⟩
  unfold NURBSPatch.splitV
  rw [e, ok_bind]
  simp only [NURBSPatch.ofParts]
  rw [eq, ok_bind, er, ok_bind]
  rfl

/-- C63: `split` gives the four quadrants. -/
theorem C63_nurbs_split_partial {eps : K} (heps : 0 ≤ eps) (h : NValid p m n du dv)
    (hi : p.init = ok p) (hw : ∀ x ∈ p.weights, 0 < x) (hdu : 1 ≤ du) (hdv : 1 ≤ dv) {s t : K}
    (h1 : knot p.knotsU du < s) (h2 : s < knot p.knotsU m)
    (h3 : knot p.knotsV dv < t) (h4 : t < knot p.knotsV n) :
    ∃ a b c d, p.split eps s t = ok [a, b, c, d] ∧
      NPartOf p m n du dv a (knot p.knotsU du) s (knot p.knotsV dv) t
        (p.knotsU.count s ≤ du) (p.knotsV.count t ≤ dv) ∧
      NPartOf p m n du dv b (knot p.knotsU du) s t (knot p.knotsV n)
        (p.knotsU.count s ≤ du) True ∧
      NPartOf p m n du dv c s (knot p.knotsU m) (knot p.knotsV dv) t
        True (p.knotsV.count t ≤ dv) ∧
      NPartOf p m n du dv d s (knot p.knotsU m) t (knot p.knotsV n) True True := by
  have S := (sync_of_init hi).1
  obtain ⟨a, b, c, d, e, A, B, C, D⟩ := C65_split_partial heps (h.hom S) S.init hdu hdv (s := s)
    (t := t) (by rw [S.knotsU]; exact h1) (by rw [S.knotsU]; exact h2)
    (by rw [S.knotsV]; exact h3) (by rw [S.knotsV]; exact h4)
  rw [S.knotsU, S.knotsV] at A B C D
  obtain ⟨a', ea, A'⟩ := ofHom_part hi hw A
  obtain ⟨b', eb, B'⟩ := ofHom_part hi hw B
  obtain ⟨c', ec, C'⟩ := ofHom_part hi hw C
  obtain ⟨d', ed, D'⟩ := ofHom_part hi hw D
  refine ⟨a', b', c', d', ?_, A', B', C', D'⟩
  unfold NURBSPatch.split
  rw [e, ok_bind]
  simp only [NURBSPatch.ofParts]
  rw [ea, ok_bind, eb, ok_bind, ec, ok_bind, ed, ok_bind]
  rfl

/-- C63: `subpatch` of a proper box. -/
theorem C63_nurbs_subpatch_partial {eps : K} (heps : 0 ≤ eps) (h : NValid p m n du dv)
    (hi : p.init = ok p) (hw : ∀ x ∈ p.weights, 0 < x) (hpu : p.perU = false) (hpv : p.perV = false)
    (hdu : 1 ≤ du) (hdv : 1 ≤ dv) {u0 u1 v0 v1 : K} (h1 : knot p.knotsU du ≤ u0) (h2 : u0 < u1)
    (h3 : u1 ≤ knot p.knotsU m) (h4 : knot p.knotsV dv ≤ v0) (h5 : v0 < v1)
    (h6 : v1 ≤ knot p.knotsV n) :
    ∃ q, p.subpatch eps u0 u1 v0 v1 = ok q ∧
      NPartOf p m n du dv q u0 u1 v0 v1 (u1 = knot p.knotsU m) (v1 = knot p.knotsV n) := by
  have S := (sync_of_init hi).1
  obtain ⟨q, e, A⟩ := C65_subpatch_partial heps (h.hom S) S.init (by rw [S.perU]; exact hpu)
    (by rw [S.perV]; exact hpv) hdu hdv (u0 := u0) (u1 := u1) (v0 := v0) (v1 := v1)
    (by rw [S.knotsU]; exact h1) h2 (by rw [S.knotsU]; exact h3) (by rw [S.knotsV]; exact h4) h5
    (by rw [S.knotsV]; exact h6)
  rw [S.knotsU, S.knotsV] at A
  obtain ⟨q', eq, A'⟩ := ofHom_part hi hw A
  exact ⟨q', by unfold NURBSPatch.subpatch; rw [e, ok_bind, eq], A'⟩

/-- The hypotheses are met by a patch with varying weights. -/
theorem exNP_valid : NValid exNPRaw 4 2 2 1 := by
  refine ⟨⟨rfl, rfl, Or.inl (by decide), by decide, by decide +kernel, by decide +kernel⟩,
    ⟨rfl, rfl, Or.inl (by decide), by decide, by decide +kernel, by decide +kernel⟩, rfl, rfl⟩

example : ∃ q, exNPRaw.init = ok q ∧ NValid q 4 2 2 1 ∧ q.init = ok q ∧
    (∀ x ∈ q.weights, (0 : ℚ) < x) ∧ ∃ a b, q.splitU (1/1000 : ℚ) (1/3) = ok [a, b] := by
  obtain ⟨q, e, e2, hq⟩ := C63_nurbs_init exNP_valid
  have hv : NValid q 4 2 2 1 := by rw [hq]; exact ⟨exNP_valid.1, exNP_valid.2, exNP_valid.3, exNP_valid.4⟩
  have hw : ∀ x ∈ q.weights, (0 : ℚ) < x := by rw [hq]; simp only; decide +kernel
  refine ⟨q, e, hv, e2, hw, ?_⟩
  obtain ⟨a, b, E, -⟩ := C63_nurbs_split_u_partial (eps := (1/1000 : ℚ)) (by norm_num) hv e2 hw
    (by norm_num) (t := 1/3) (by rw [hq]; simp only; decide +kernel) (by rw [hq]; simp only; decide +kernel)
  exact ⟨a, b, E⟩

example : (do
    let p ← exNPRaw.init
    let a ← p.evaluate (3/4) (1/3)
    let ps ← p.splitU (1/1000 : ℚ) (1/3)
    let q ← rd ps 1
    let b ← q.evaluate (3/4) (1/3)
    pure (a - b, decide (a = 0))) = ok ((0 : ℚ), false) := by decide +kernel

end General

section Deriv

variable {V : Type} [NormedAddCommGroup V] [NormedSpace ℝ V]
variable {p : NURBSPatch ℝ V} {m n du dv : ℕ}

/-- Differentiability at one point of the domain in the sense of `DerivAlong`. -/
def DerivAtPt (u : List ℝ) (n d : ℕ) (f f' : ℝ → V) (t : ℝ) : Prop :=
  (t < knot u n → HasDerivWithinAt f (f' t) (Set.Ici t) t) ∧
    (t = knot u n → HasDerivWithinAt f (f' t) (Set.Iic t) t) ∧
    (knot u d < t → t ∉ u → HasDerivAt f (f' t) t)

/-- Data of a NURBS patch over the reals that is not periodic, with spans wide enough for the
guard in the evaluator and a nonempty first span in both directions. -/
structure NRegular (p : NURBSPatch ℝ V) (m n du dv : ℕ) : Prop where
  valid : NValid p m n du dv
  init : p.init = ok p
  perU : p.perU = false
  perV : p.perV = false
  wideU : WideOn p.knotsU m du
  wideV : WideOn p.knotsV n dv
  firstU : knot p.knotsU du < knot p.knotsU (du + 1)
  firstV : knot p.knotsV dv < knot p.knotsV (dv + 1)

theorem NRegular.hom (h : NRegular p m n du dv) : Regular p.hom m n du dv := by
  have S := (sync_of_init h.init).1
  exact ⟨h.valid.hom S, S.init, by rw [S.perU, h.perU], by rw [S.perV, h.perV],
    by rw [S.knotsU]; exact h.wideU, by rw [S.knotsV]; exact h.wideV,
    by rw [S.knotsU]; exact h.firstU, by rw [S.knotsV]; exact h.firstV⟩

/-- The closed parameter domain. -/
def InBox (p : NURBSPatch ℝ V) (m n du dv : ℕ) (u v : ℝ) : Prop :=
  knot p.knotsU du ≤ u ∧ u ≤ knot p.knotsU m ∧ knot p.knotsV dv ≤ v ∧ v ≤ knot p.knotsV n

theorem pt_q0 {k : List ℝ} {n d : ℕ} {g g' : ℝ → V × ℝ} (H : DerivAlong k n d g g') {t : ℝ}
    (h1 : knot k d ≤ t) (h2 : t ≤ knot k n) (h0 : (g t).2 ≠ 0) :
    DerivAtPt k n d (fun t => q0 (g t)) (fun t => q1 (g t) (g' t)) t := by
  obtain ⟨a, b, c⟩ := H t h1 h2
  exact ⟨fun h => hasDeriv_q0 (a h) h0, fun h => hasDeriv_q0 (b h) h0, fun h k => atQ0 (c h k) h0⟩

theorem pt_q1 {k : List ℝ} {n d : ℕ} {g g' g'' : ℝ → V × ℝ} (H : DerivAlong k n d g g')
    (H' : DerivAlong k n d g' g'') {t : ℝ}
    (h1 : knot k d ≤ t) (h2 : t ≤ knot k n) (h0 : (g t).2 ≠ 0) :
    DerivAtPt k n d (fun t => q1 (g t) (g' t)) (fun t => q2 (g t) (g' t) (g'' t)) t := by
  obtain ⟨a, b, c⟩ := H t h1 h2
  obtain ⟨a', b', c'⟩ := H' t h1 h2
  exact ⟨fun h => hasDeriv_q1 (a h) (a' h) h0, fun h => hasDeriv_q1 (b h) (b' h) h0,
    fun h k => atQ1 (c h k) (c' h k) h0⟩

theorem pt_qm {k : List ℝ} {n d : ℕ} {g gu gv guv : ℝ → V × ℝ} (H : DerivAlong k n d g gv)
    (H' : DerivAlong k n d gu guv) {t : ℝ}
    (h1 : knot k d ≤ t) (h2 : t ≤ knot k n) (h0 : (g t).2 ≠ 0) :
    DerivAtPt k n d (fun t => q1 (g t) (gu t)) (fun t => qm (g t) (gu t) (gv t) (guv t)) t := by
  obtain ⟨a, b, c⟩ := H t h1 h2
  obtain ⟨a', b', c'⟩ := H' t h1 h2
  exact ⟨fun h => hasDeriv_qm (a h) (a' h) h0, fun h => hasDeriv_qm (b h) (b' h) h0,
    fun h k => atQm (c h k) (c' h k) h0⟩

/-- C63: derivatives of a NURBS patch. On the closed domain, where the denominator is not zero, the
evaluators return values `f fu fv`, and where it exceeds the tolerance also `fuu fvv`; these are
the one-sided derivatives (right, at the upper end left), two-sided off the knots. Missing: periodic
patches, narrow spans, degenerate first spans. -/
theorem C63_nurbs_derivatives_partial {tol : ℝ} (h0 : 0 ≤ tol) (h : NRegular p m n du dv) :
    ∃ f fu fv fuu fvv : ℝ → ℝ → V, ∀ u v, InBox p m n du dv u v →
      (ratBSplineSurfaceDen du dv m n p.knotsU p.knotsV p.weights u v ≠ 0 →
        p.evaluate u v = ok (f u v) ∧ p.derivU u v = ok (fu u v) ∧ p.derivV u v = ok (fv u v) ∧
        DerivAtPt p.knotsU m du (fun s => f s v) (fun s => fu s v) u ∧
        DerivAtPt p.knotsU m du (fun s => fu s v) (fun s => fuu s v) u ∧
        DerivAtPt p.knotsV n dv (fun s => f u s) (fun s => fv u s) v ∧
        DerivAtPt p.knotsV n dv (fun s => fv u s) (fun s => fvv u s) v) ∧
      (tol < ratBSplineSurfaceDen du dv m n p.knotsU p.knotsV p.weights u v →
        p.derivUU tol u v = ok (fuu u v) ∧ p.derivVV tol u v = ok (fvv u v)) := by
  have S := (sync_of_init h.init).1
  have R := h.hom
  have key : ∀ u v, ∃ x xu xv xuu xvv : V × ℝ, InBox p m n du dv u v →
      p.hom.evaluate u v = ok x ∧ p.hom.derivU u v = ok xu ∧ p.hom.derivV u v = ok xv ∧
      p.hom.derivUU u v = ok xuu ∧ p.hom.derivVV u v = ok xvv := by
    intro u v
    by_cases hb : InBox p m n du dv u v
    · obtain ⟨x, xu, xv, xuu, xvv, H⟩ := C64_evaluators_return R (u := u) (v := v)
        (by rw [S.knotsU]; exact hb.1) (by rw [S.knotsU]; exact hb.2.1)
        (by rw [S.knotsV]; exact hb.2.2.1) (by rw [S.knotsV]; exact hb.2.2.2)
      exact ⟨x, xu, xv, xuu, xvv, fun _ => H⟩
    · exact ⟨0, 0, 0, 0, 0, fun h => absurd h hb⟩
  choose g gu gv guu gvv E using key
  refine ⟨fun u v => q0 (g u v), fun u v => q1 (g u v) (gu u v), fun u v => q1 (g u v) (gv u v),
    fun u v => q2 (g u v) (gu u v) (guu u v), fun u v => q2 (g u v) (gv u v) (gvv u v), ?_⟩
  intro u v hb
  obtain ⟨b1, b2, b3, b4⟩ := hb
  obtain ⟨e, eu, ev, euu, evv⟩ := E u v ⟨b1, b2, b3, b4⟩
  have hden : (g u v).2 = ratBSplineSurfaceDen du dv m n p.knotsU p.knotsV p.weights u v := by
    have := C31_evaluate_domain R.valid R.init R.wideU R.wideV (u := u) (v := v)
      ⟨by rw [S.knotsU]; exact b1, by rw [S.knotsU]; exact b2, Or.inl R.firstU⟩
      ⟨by rw [S.knotsV]; exact b3, by rw [S.knotsV]; exact b4, Or.inl R.firstV⟩
      (Or.inr R.perU) (Or.inr R.perV)
    rw [e, ok.injEq, S.knotsU, S.knotsV, S.grid, homog_bsplineSurface S.len.symm] at this
    rw [this]
  have DU := C64_u_partial R (v := v) (by rw [S.knotsV]; exact b3) (by rw [S.knotsV]; exact b4)
    (fun s => g s v) (fun s => gu s v) (fun s => guu s v)
    (by rw [S.knotsU]; intro s h1 h2; exact (E s v ⟨h1, h2, b3, b4⟩).1)
    (by rw [S.knotsU]; intro s h1 h2; exact (E s v ⟨h1, h2, b3, b4⟩).2.1)
    (by rw [S.knotsU]; intro s h1 h2; exact (E s v ⟨h1, h2, b3, b4⟩).2.2.2.1)
  have DV := C64_v_partial R (u := u) (by rw [S.knotsU]; exact b1) (by rw [S.knotsU]; exact b2)
    (fun s => g u s) (fun s => gv u s) (fun s => gvv u s)
    (by rw [S.knotsV]; intro s h1 h2; exact (E u s ⟨b1, b2, h1, h2⟩).1)
    (by rw [S.knotsV]; intro s h1 h2; exact (E u s ⟨b1, b2, h1, h2⟩).2.2.1)
    (by rw [S.knotsV]; intro s h1 h2; exact (E u s ⟨b1, b2, h1, h2⟩).2.2.2.2)
  rw [S.knotsU] at DU
  rw [S.knotsV] at DV
  rw [← hden]
  refine ⟨fun hw => ⟨?_, ?_, ?_, pt_q0 DU.1 b1 b2 hw, pt_q1 DU.1 DU.2 b1 b2 hw,
    pt_q0 DV.1 b3 b4 hw, pt_q1 DV.1 DV.2 b3 b4 hw⟩, fun hw => ⟨?_, ?_⟩⟩
  · unfold NURBSPatch.evaluate
    rw [S.validate, ok_bind, e, ok_bind, quot0_eq hw]
  · unfold NURBSPatch.derivU
    rw [S.validate, ok_bind, e, ok_bind, eu, ok_bind, quot1_eq hw]
  · unfold NURBSPatch.derivV
    rw [S.validate, ok_bind, e, ok_bind, ev, ok_bind, quot1_eq hw]
  · unfold NURBSPatch.derivUU
    rw [S.validate, ok_bind, e, ok_bind, eu, ok_bind, euu, ok_bind, quotSame_eq h0 hw]
  · unfold NURBSPatch.derivVV
    rw [S.validate, ok_bind, e, ok_bind, ev, ok_bind, evv, ok_bind, quotSame_eq h0 hw]

/-- C63: the mixed derivative of a NURBS patch of positive degrees is the `v`-derivative of
`evaluate_derivative_u`. -/
theorem C63_nurbs_mixed_partial {tol : ℝ} (h0 : 0 ≤ tol) (bad : V × ℝ)
    (h : NRegular p m n (du + 1) (dv + 1)) :
    ∃ fu fuv : ℝ → ℝ → V, ∀ u v, InBox p m n (du + 1) (dv + 1) u v →
      tol < ratBSplineSurfaceDen (du + 1) (dv + 1) m n p.knotsU p.knotsV p.weights u v →
      p.derivU u v = ok (fu u v) ∧ p.derivUV tol bad u v = ok (fuv u v) ∧
        DerivAtPt p.knotsV n (dv + 1) (fun s => fu u s) (fun s => fuv u s) v := by
  have S := (sync_of_init h.init).1
  have R := h.hom
  have key : ∀ u v, ∃ x xu xv xvv xuv : V × ℝ, InBox p m n (du + 1) (dv + 1) u v →
      p.hom.evaluate u v = ok x ∧ p.hom.derivU u v = ok xu ∧ p.hom.derivV u v = ok xv ∧
      p.hom.derivVV u v = ok xvv ∧ p.hom.derivUV bad u v = ok xuv := by
    intro u v
    by_cases hb : InBox p m n (du + 1) (dv + 1) u v
    · have c1 : knot p.hom.knotsU (du + 1) ≤ u := by rw [S.knotsU]; exact hb.1
      have c2 : u ≤ knot p.hom.knotsU m := by rw [S.knotsU]; exact hb.2.1
      have c3 : knot p.hom.knotsV (dv + 1) ≤ v := by rw [S.knotsV]; exact hb.2.2.1
      have c4 : v ≤ knot p.hom.knotsV n := by rw [S.knotsV]; exact hb.2.2.2
      obtain ⟨x, xu, xv, _, xvv, a, b, c, _, d⟩ := C64_evaluators_return R c1 c2 c3 c4
      obtain ⟨y, hy⟩ := C64_uv_returns bad R c1 c2 c3 c4
      exact ⟨x, xu, xv, xvv, y, fun _ => ⟨a, b, c, d, hy⟩⟩
    · exact ⟨0, 0, 0, 0, 0, fun h => absurd h hb⟩
  choose g gu gv gvv guv E using key
  refine ⟨fun u v => q1 (g u v) (gu u v), fun u v => qm (g u v) (gu u v) (gv u v) (guv u v), ?_⟩
  intro u v hb hw
  obtain ⟨b1, b2, b3, b4⟩ := hb
  obtain ⟨e, eu, ev, evv, euv⟩ := E u v ⟨b1, b2, b3, b4⟩
  have hden : (g u v).2 =
      ratBSplineSurfaceDen (du + 1) (dv + 1) m n p.knotsU p.knotsV p.weights u v := by
    have := C31_evaluate_domain R.valid R.init R.wideU R.wideV (u := u) (v := v)
      ⟨by rw [S.knotsU]; exact b1, by rw [S.knotsU]; exact b2, Or.inl R.firstU⟩
      ⟨by rw [S.knotsV]; exact b3, by rw [S.knotsV]; exact b4, Or.inl R.firstV⟩
      (Or.inr R.perU) (Or.inr R.perV)
    rw [e, ok.injEq, S.knotsU, S.knotsV, S.grid, homog_bsplineSurface S.len.symm] at this
    rw [this]
  rw [← hden] at hw
  have hw0 : (g u v).2 ≠ 0 := (h0.trans_lt hw).ne'
  have DV := C64_v_partial R (u := u) (by rw [S.knotsU]; exact b1) (by rw [S.knotsU]; exact b2)
    (fun s => g u s) (fun s => gv u s) (fun s => gvv u s)
    (by rw [S.knotsV]; intro s h1 h2; exact (E u s ⟨b1, b2, h1, h2⟩).1)
    (by rw [S.knotsV]; intro s h1 h2; exact (E u s ⟨b1, b2, h1, h2⟩).2.2.1)
    (by rw [S.knotsV]; intro s h1 h2; exact (E u s ⟨b1, b2, h1, h2⟩).2.2.2.1)
  have DM := C64_uv_partial bad R (u := u) (by rw [S.knotsU]; exact b1) (by rw [S.knotsU]; exact b2)
    (fun s => gu u s) (fun s => guv u s)
    (by rw [S.knotsV]; intro s h1 h2; exact (E u s ⟨b1, b2, h1, h2⟩).2.1)
    (by rw [S.knotsV]; intro s h1 h2; exact (E u s ⟨b1, b2, h1, h2⟩).2.2.2.2)
  rw [S.knotsV] at DV DM
  refine ⟨?_, ?_, pt_qm DV.1 DM b3 b4 hw0⟩
  · unfold NURBSPatch.derivU
    rw [S.validate, ok_bind, e, ok_bind, eu, ok_bind, quot1_eq hw0]
  · unfold NURBSPatch.derivUV
    rw [S.validate, ok_bind, e, ok_bind, eu, ok_bind, ev, ok_bind, euv, ok_bind,
      quotMixed_eq h0 hw]

end Deriv

end NS.Props
