import Verif.Proof.ControlSearch
import Verif.Props.BezierPatch
import Verif.Props.BSplinePatch
import Verif.Props.RationalPatch
import Verif.Props.NurbsPatch

/-!
# C76: closest point search of patches guided by control points
-/

set_option linter.unusedSectionVars false
set_option linter.unusedSimpArgs false

namespace NS.Props

open Outcome Spec ControlSearch
open BSpline (HullOf)
open BSplinePatch (Axis Valid Ready WideOn InDom)

variable {K V : Type} [Field K] [LinearOrder K] [IsStrictOrderedRing K] [FloorRing K]
  [AddCommGroup V] [Module K V]

/-! ### The guess is in the requested box -/

theorem bezier_preimage_order {p : BezierPatch V} {i j i' j' : ℕ} {x y : K × K} (hi : i ≤ i')
    (hj : j ≤ j') (hx : p.preimage i j = ok x) (hy : p.preimage i' j' = ok y) :
    x.1 ≤ y.1 ∧ x.2 ≤ y.2 := by
  unfold BezierPatch.preimage at hx hy
  simp only [bind_eq_ok, pure_eq, ok.injEq] at hx hy
  obtain ⟨du, e1, dv, e2, -, -, rfl⟩ := hx
  obtain ⟨du', e1', dv', e2', -, -, rfl⟩ := hy
  rw [e1, ok.injEq] at e1'
  rw [e2, ok.injEq] at e2'
  subst e1' e2'
  exact ⟨div_le_div_of_nonneg_right (by exact_mod_cast hi) (Nat.cast_nonneg _),
    div_le_div_of_nonneg_right (by exact_mod_cast hj) (Nat.cast_nonneg _)⟩

theorem throwIf_ok {c : Prop} [Decidable c] {e : Err} {x : Unit} (h : throwIf c e = ok x) : ¬ c := by
  intro hc
  simp [throwIf, hc] at h

theorem bezier_subpatch_ordered {eps : K} {p r : BezierPatch V} {t : Box K}
    (h : p.subpatch eps t.minU t.maxU t.minV t.maxV = ok r) : t.Ordered := by
  unfold BezierPatch.subpatch at h
  simp only [bind_eq_ok] at h
  obtain ⟨_, h1, _, -, _, h2, -⟩ := h
  exact ⟨not_lt.1 (throwIf_ok h1), not_lt.1 (throwIf_ok h2)⟩

section knots

variable {p : BSplinePatch K V} {m n du dv : ℕ}

/-- Both cuts in `u`, also for a range without width. -/
theorem cuts_u {eps : K} (heps : 0 ≤ eps) (hd : 1 ≤ du) {q : BSplinePatch K V}
    {c d lo hi : K} {ev : Prop} {u0 u1 : K} (P : FlatPiece p m n du dv q lo hi c d True ev)
    (h1 : lo ≤ u0) (h2 : u0 ≤ u1) (h3 : u1 ≤ hi) :
    ∃ q1 q2, BSplinePatch.cut (q.splitU eps) (BSplinePatch.isEndpoint lo hi u0) u0 1 q = ok q1 ∧
      BSplinePatch.cut (q1.splitU eps) (BSplinePatch.isEndpoint lo hi u1) u1 0 q1 = ok q2 ∧
      ∃ a b eu, FlatPiece p m n du dv q2 a b c d eu ev ∧ a ≤ u0 ∧ u1 ≤ b := by
  rcases (h2.trans h3).eq_or_lt with h | h
  · subst h
    obtain rfl := le_antisymm h2 h3
    exact ⟨q, q, by simp [BSplinePatch.cut, BSplinePatch.isEndpoint],
      by simp [BSplinePatch.cut, BSplinePatch.isEndpoint], _, _, _, P, h1, h3⟩
  · obtain ⟨q1, e1, F1⟩ := cut_u_low heps hd P h1 h
    rcases h2.eq_or_lt with h' | h'
    · subst h'
      refine ⟨q1, q1, e1, ?_, _, _, _, F1, le_rfl, h.le⟩
      obtain ⟨m', n', P'⟩ := F1.piece
      unfold BSplinePatch.cut
      split
      · rfl
      · unfold BSplinePatch.splitU
        rw [P'.ready.toValid.lowerU, ok_bind, P'.ready.toValid.upperU, ok_bind, P'.au,
          if_pos (by simp [BSplinePatch.isEndpoint])]
        rfl
    · obtain ⟨q2, e2, F2⟩ := cut_u_high heps hd F1 h1 h' h3
      exact ⟨q1, q2, e1, e2, _, _, _, F2, le_rfl, le_rfl⟩

/-- Both cuts in `v`, also for a range without width. -/
theorem cuts_v {eps : K} (heps : 0 ≤ eps) (hd : 1 ≤ dv) {q : BSplinePatch K V}
    {a b lo hi : K} {eu : Prop} {v0 v1 : K} (P : FlatPiece p m n du dv q a b lo hi eu True)
    (h1 : lo ≤ v0) (h2 : v0 ≤ v1) (h3 : v1 ≤ hi) :
    ∃ q1 q2, BSplinePatch.cut (q.splitV eps) (BSplinePatch.isEndpoint lo hi v0) v0 1 q = ok q1 ∧
      BSplinePatch.cut (q1.splitV eps) (BSplinePatch.isEndpoint lo hi v1) v1 0 q1 = ok q2 ∧
      ∃ c d ev, FlatPiece p m n du dv q2 a b c d eu ev ∧ c ≤ v0 ∧ v1 ≤ d := by
  rcases (h2.trans h3).eq_or_lt with h | h
  · subst h
    obtain rfl := le_antisymm h2 h3
    exact ⟨q, q, by simp [BSplinePatch.cut, BSplinePatch.isEndpoint],
      by simp [BSplinePatch.cut, BSplinePatch.isEndpoint], _, _, _, P, h1, h3⟩
  · obtain ⟨q1, e1, F1⟩ := cut_v_low heps hd P h1 h
    rcases h2.eq_or_lt with h' | h'
    · subst h'
      refine ⟨q1, q1, e1, ?_, _, _, _, F1, le_rfl, h.le⟩
      obtain ⟨m', n', P'⟩ := F1.piece
      unfold BSplinePatch.cut
      split
      · rfl
      · unfold BSplinePatch.splitV
        rw [P'.ready.toValid.lowerV, ok_bind, P'.ready.toValid.upperV, ok_bind, P'.cv,
          P'.dv', inDomain_mem heps le_rfl h.le, throwIf_false (by simp), ok_bind,
          if_pos (by simp [BSplinePatch.isEndpoint])]
        rfl
    · obtain ⟨q2, e2, F2⟩ := cut_v_high heps hd F1 h1 h' h3
      exact ⟨q1, q2, e1, e2, _, _, _, F2, le_rfl, le_rfl⟩

/-- `subpatch` of any range of the domain, also without width, returns an initialised patch of the
same degrees with control points in the convex hull of those of the patch. -/
theorem subpatch_flat {eps : K} (heps : 0 ≤ eps) (h : p.Ready m n du dv) (hpu : p.perU = false)
    (hpv : p.perV = false) (hdu : 1 ≤ du) (hdv : 1 ≤ dv) {u0 u1 v0 v1 : K}
    (h1 : knot p.knotsU du ≤ u0) (h2 : u0 ≤ u1) (h3 : u1 ≤ knot p.knotsU m)
    (h4 : knot p.knotsV dv ≤ v0) (h5 : v0 ≤ v1) (h6 : v1 ≤ knot p.knotsV n) :
    ∃ q, p.subpatch eps u0 u1 v0 v1 = ok q ∧
      ∃ a b c d eu ev, FlatPiece p m n du dv q a b c d eu ev ∧ a ≤ u0 ∧ u1 ≤ b ∧ c ≤ v0 ∧
        v1 ≤ d := by
  have F : FlatPiece p m n du dv p (knot p.knotsU du) (knot p.knotsU m) (knot p.knotsV dv)
      (knot p.knotsV n) True True := ⟨⟨m, n, Piece.whole h⟩, hpu, hpv⟩
  obtain ⟨q1, q2, e1, e2, a, b, eu, F2, a1, a2⟩ := cuts_u heps hdu F h1 h2 h3
  obtain ⟨q3, q4, e3, e4, c, d, ev, F4, a3, a4⟩ := cuts_v heps hdv F2 h4 h5 h6
  refine ⟨q4, ?_, a, b, c, d, eu, ev, F4, a1, a2, a3, a4⟩
  unfold BSplinePatch.subpatch
  rw [h.toValid.lowerU, ok_bind, h.toValid.upperU, ok_bind, h.toValid.lowerV, ok_bind,
    h.toValid.upperV, ok_bind,
    throwIf_false (not_lt.2 h2), ok_bind,
    inDomain_mem heps h1 (h2.trans h3), inDomain_mem heps (h1.trans h2) h3,
    throwIf_false (by simp), ok_bind, throwIf_false (not_lt.2 h5), ok_bind,
    inDomain_mem heps h4 (h5.trans h6), inDomain_mem heps (h4.trans h5) h6,
    throwIf_false (by simp), ok_bind, e1, ok_bind, e2, ok_bind, e3, ok_bind, e4]

theorem bspline_subpatch_ordered {eps : K} {r : BSplinePatch K V} {t : Box K}
    (h : p.subpatch eps t.minU t.maxU t.minV t.maxV = ok r) : t.Ordered := by
  unfold BSplinePatch.subpatch at h
  simp only [bind_eq_ok] at h
  obtain ⟨_, -, _, -, _, -, _, -, _, h1, _, -, _, h2, -⟩ := h
  exact ⟨not_lt.1 (throwIf_ok h1), not_lt.1 (throwIf_ok h2)⟩

theorem greville_le {u : List K} (hs : u.Pairwise (· ≤ ·)) {d i j : ℕ} (hij : i ≤ j) {a b : K}
    (ha : BSplinePatch.greville u d i = ok a) (hb : BSplinePatch.greville u d j = ok b) : a ≤ b := by
  cases d with
  | zero =>
    unfold BSplinePatch.greville at ha
    rw [bind_eq_ok] at ha
    obtain ⟨s, -, ha⟩ := ha
    rw [assert_false (by simp)] at ha
    simp at ha
  | succ d =>
    by_cases hl : j + d + 1 < u.length
    · obtain ⟨a', b', e1, e2, h, -⟩ := C66_preimage_sorted hs hij hl
      rw [e1, ok.injEq] at ha
      rw [e2, ok.injEq] at hb
      exact ha ▸ hb ▸ h
    · exfalso
      unfold BSplinePatch.greville at hb
      rw [loop_succ] at hb
      simp only [bind_eq_ok] at hb
      obtain ⟨s, ⟨s', -, y, hy, -⟩, -⟩ := hb
      rw [rd_eq_ok] at hy
      obtain ⟨h, -⟩ := List.getElem?_eq_some_iff.1 hy
      omega

theorem bspline_preimage_order (hu : p.knotsU.Pairwise (· ≤ ·)) (hv : p.knotsV.Pairwise (· ≤ ·))
    {i j i' j' : ℕ} {x y : K × K} (hi : i ≤ i') (hj : j ≤ j') (hx : p.preimage i j = ok x)
    (hy : p.preimage i' j' = ok y) : x.1 ≤ y.1 ∧ x.2 ≤ y.2 := by
  unfold BSplinePatch.preimage at hx hy
  simp only [bind_eq_ok, pure_eq, ok.injEq] at hx hy
  obtain ⟨du, e1, a, e3, dv, e2, b, e4, rfl⟩ := hx
  obtain ⟨du', e1', a', e3', dv', e2', b', e4', rfl⟩ := hy
  rw [e1, ok.injEq] at e1'
  rw [e2, ok.injEq] at e2'
  subst e1' e2'
  exact ⟨greville_le hu hi e3 e3', greville_le hv hj e4 e4'⟩

/-- A patch the search may meet: knots, degrees and grid fit and the cached curves are current. -/
def Current (p : BSplinePatch K V) : Prop := ∃ m n du dv, p.Ready m n du dv

/-- A range trimmed to the domain that is in order and accepted by `subpatch`. -/
theorem trimmed_sub {eps : K} (heps : 0 ≤ eps) (h : p.Ready m n du dv) (hpu : p.perU = false)
    (hpv : p.perV = false) (hdu : 1 ≤ du) (hdv : 1 ≤ dv) {b : Box K}
    (hu : max b.minU (knot p.knotsU du) ≤ min b.maxU (knot p.knotsU m))
    (hv : max b.minV (knot p.knotsV dv) ≤ min b.maxV (knot p.knotsV n)) :
    ∃ q, p.subpatch eps (max b.minU (knot p.knotsU du)) (min b.maxU (knot p.knotsU m))
        (max b.minV (knot p.knotsV dv)) (min b.maxV (knot p.knotsV n)) = ok q ∧
      ∃ a' b' c' d' eu ev, FlatPiece p m n du dv q a' b' c' d' eu ev ∧
        a' ≤ max b.minU (knot p.knotsU du) ∧ min b.maxU (knot p.knotsU m) ≤ b' ∧
        c' ≤ max b.minV (knot p.knotsV dv) ∧ min b.maxV (knot p.knotsV n) ≤ d' :=
  subpatch_flat heps h hpu hpv hdu hdv (le_max_right _ _) hu (min_le_right _ _) (le_max_right _ _) hv
    (min_le_right _ _)

theorem current_sub {eps : K} (heps : 0 ≤ eps) (hp : Current p) (hpu : p.perU = false)
    (hpv : p.perV = false) {du' dv' : ℕ} (hdu : p.degreeU = ok du') (hdv : p.degreeV = ok dv')
    (h2 : 2 ≤ du') (h3 : 2 ≤ dv') {b : Box K} {r : BSplinePatch K V} {ul uh vl vh : K}
    (e1 : p.lowerU = ok ul) (e2 : p.upperU = ok uh) (e3 : p.lowerV = ok vl) (e4 : p.upperV = ok vh)
    (h : p.subpatch eps (max b.minU ul) (min b.maxU uh) (max b.minV vl) (min b.maxV vh) = ok r) :
    Current r := by
  obtain ⟨m, n, du, dv, hr⟩ := hp
  rw [hr.toValid.degreeU, ok.injEq] at hdu
  rw [hr.toValid.degreeV, ok.injEq] at hdv
  rw [hr.toValid.lowerU, ok.injEq] at e1
  rw [hr.toValid.upperU, ok.injEq] at e2
  rw [hr.toValid.lowerV, ok.injEq] at e3
  rw [hr.toValid.upperV, ok.injEq] at e4
  subst hdu hdv e1 e2 e3 e4
  have ho := bspline_subpatch_ordered (t := ⟨_, _, _, _⟩) h
  obtain ⟨q, e, a, b, c, d, eu, ev, F, -⟩ := trimmed_sub (b := b) heps hr hpu hpv (by omega) (by omega)
    ho.1 ho.2
  rw [e, ok.injEq] at h
  subst h
  obtain ⟨m', n', P⟩ := F.piece
  exact ⟨m', n', _, _, P.ready⟩

end knots

theorem ofHomogeneous_hom {h : BSplinePatch K (V × K)} {r : NURBSPatch K V}
    (e : NURBSPatch.ofHomogeneous h = ok r) :
    r.hom = h ∧ r.perU = h.perU ∧ r.perV = h.perV ∧
      ∃ du dv : ℕ, h.degreeU = ok du ∧ h.degreeV = ok dv ∧ r.degU = du ∧ r.degV = dv := by
  unfold NURBSPatch.ofHomogeneous at e
  simp only [bind_eq_ok, pure_eq, ok.injEq] at e
  obtain ⟨g, -, du, e1, dv, e2, -, -, rfl⟩ := e
  exact ⟨rfl, rfl, rfl, du, dv, e1, e2, rfl, rfl⟩

variable [Geom K V]

/-- C76: whatever the patch, a guess returned by the search of a Bézier patch lies in the box that
was asked for. -/
theorem C76_bezier_in_box {eps big tol : K} {p : BezierPatch V} {x : V} {nu nv level : ℕ}
    {b : Box K} (hb : b.minU ≤ b.maxU ∧ b.minV ≤ b.maxV) {r : K × K}
    (h : p.approxInverse eps big tol x nu nv level b = ok r) :
    (b.minU ≤ r.1 ∧ r.1 ≤ b.maxU) ∧ (b.minV ≤ r.2 ∧ r.2 ≤ b.maxV) := by
  refine unitSearch_mem (Inv := fun _ => True) ⟨?_, ?_, ?_⟩ trivial hb h
  · intro s l b t r _ _ _ h
    exact ⟨bezier_subpatch_ordered h, trivial⟩
  · intro s i j i' j' x y _ hi hj hx hy
    exact bezier_preimage_order hi hj hx hy
  · intro s l b x _ ho h
    exact PatchBase.approxInverse_inBox ho.1 ho.2 h

/-- C76: the same for rational Bézier patches. -/
theorem C76_rational_bezier_in_box {eps big tol small : K} {p : RationalBezierPatch K V} {x : V}
    {nu nv level : ℕ} {b : Box K} (hb : b.minU ≤ b.maxU ∧ b.minV ≤ b.maxV) {r : K × K}
    (h : p.approxInverse eps big tol small x nu nv level b = ok r) :
    (b.minU ≤ r.1 ∧ r.1 ≤ b.maxU) ∧ (b.minV ≤ r.2 ∧ r.2 ≤ b.maxV) := by
  refine unitSearch_mem (Inv := fun _ => True) ⟨?_, ?_, ?_⟩ trivial hb h
  · intro s l b t r _ _ _ h
    dsimp only [RationalBezierPatch.ops] at h
    unfold RationalBezierPatch.subpatch at h
    rw [bind_eq_ok] at h
    obtain ⟨_, h, -⟩ := h
    exact ⟨bezier_subpatch_ordered h, trivial⟩
  · intro s i j i' j' x y _ hi hj hx hy
    exact bezier_preimage_order hi hj hx hy
  · intro s l b x _ ho h
    exact PatchBase.approxInverse_inBox ho.1 ho.2 h

/-- C76: whatever the query, a guess returned by the search of a B-spline patch lies in the box
that was asked for. -/
theorem C76_bspline_in_box {eps big tol : K} (heps : 0 ≤ eps) {bad : V} {p : BSplinePatch K V}
    {m n du dv : ℕ} (hp : p.Valid m n du dv) (hi : p.init = ok p) {x : V} {nu nv level : ℕ}
    {b : Box K} (hb : b.minU ≤ b.maxU ∧ b.minV ≤ b.maxV) {r : K × K}
    (h : p.approxInverse eps big tol bad x nu nv level b = ok r) :
    (b.minU ≤ r.1 ∧ r.1 ≤ b.maxU) ∧ (b.minV ≤ r.2 ∧ r.2 ≤ b.maxV) := by
  refine knotSearch_mem (Inv := Current) ⟨?_, ?_, ?_⟩ ⟨m, n, du, dv, hp.ready hi⟩ hb h
  · intro s l b t r hs hf ht h
    refine ⟨bspline_subpatch_ordered h, ?_⟩
    obtain ⟨hper, du, dv, m, n, e1, e2, -, -, h1, h2, -⟩ := fallback_none hf
    simp only [BSplinePatch.ops, Bool.or_eq_false_iff] at hper e1 e2
    unfold trim at ht
    simp only [BSplinePatch.ops, bind_eq_ok, pure_eq, ok.injEq] at ht
    obtain ⟨ul, a1, uh, a2, vl, a3, vh, a4, rfl⟩ := ht
    exact current_sub heps hs hper.1 hper.2 e1 e2 h1 h2 a1 a2 a3 a4 h
  · rintro s i j i' j' x y ⟨m, n, du, dv, hs⟩ hi hj hx hy
    exact bspline_preimage_order hs.toValid.u.sorted hs.toValid.v.sorted hi hj hx hy
  · intro s l b x _ ho h
    simp only [BSplinePatch.ops, BSplinePatch.baseSearch, bind_eq_ok] at h
    obtain ⟨_, -, _, -, _, -, _, -, h⟩ := h
    exact PatchBase.approxInverse_inBox ho.1 ho.2 h

/-- C76: the same for NURBS patches. -/
theorem C76_nurbs_in_box {eps big tol small : K} (heps : 0 ≤ eps) {bad : V × K}
    {p : NURBSPatch K V} {m n du dv : ℕ} (hp : NValid p m n du dv) (hi : p.init = ok p) {x : V}
    {nu nv level : ℕ} {b : Box K} (hb : b.minU ≤ b.maxU ∧ b.minV ≤ b.maxV) {r : K × K}
    (h : p.approxInverse eps big tol small bad x nu nv level b = ok r) :
    (b.minU ≤ r.1 ∧ r.1 ≤ b.maxU) ∧ (b.minV ≤ r.2 ∧ r.2 ≤ b.maxV) := by
  have S := (sync_of_init hi).1
  refine knotSearch_mem (Inv := fun s : NURBSPatch K V => Current s.hom ∧ s.hom.perU = s.perU ∧
    s.hom.perV = s.perV ∧ s.degU = s.hom.degU ∧ s.degV = s.hom.degV) ⟨?_, ?_, ?_⟩ ?_ hb h
  · rintro s l b t r ⟨hs, pu, pv, hdu, hdv⟩ hf ht h
    dsimp only [NURBSPatch.ops] at h
    unfold NURBSPatch.subpatch at h
    rw [bind_eq_ok] at h
    obtain ⟨c, h, e⟩ := h
    refine ⟨bspline_subpatch_ordered h, ?_⟩
    obtain ⟨hper, du, dv, m, n, e1, e2, -, -, h1, h2, -⟩ := fallback_none hf
    simp only [NURBSPatch.ops, Bool.or_eq_false_iff] at hper e1 e2
    unfold trim at ht
    simp only [NURBSPatch.ops, bind_eq_ok, pure_eq, ok.injEq] at ht
    obtain ⟨ul, a1, uh, a2, vl, a3, vh, a4, rfl⟩ := ht
    rw [hdu] at e1
    rw [hdv] at e2
    have hc := current_sub heps hs (pu.trans hper.1) (pv.trans hper.2) e1 e2 h1 h2 a1 a2 a3 a4 h
    obtain ⟨q1, q2, q3, du', dv', d1, d2, d3, d4⟩ := ofHomogeneous_hom e
    obtain ⟨m', n', du'', dv'', hr⟩ := hc
    rw [hr.toValid.degreeU, ok.injEq] at d1
    rw [hr.toValid.degreeV, ok.injEq] at d2
    subst d1 d2
    rw [q1]
    exact ⟨⟨m', n', _, _, hr⟩, q2.symm, q3.symm, d3.trans hr.toValid.u.deg.symm,
      d4.trans hr.toValid.v.deg.symm⟩
  · rintro s i j i' j' x y ⟨⟨m, n, du, dv, hs⟩, -⟩ hi hj hx hy
    exact bspline_preimage_order hs.toValid.u.sorted hs.toValid.v.sorted hi hj hx hy
  · intro s l b x _ ho h
    simp only [NURBSPatch.ops, bind_eq_ok] at h
    obtain ⟨_, -, _, -, _, -, _, -, h⟩ := h
    exact PatchBase.approxInverse_inBox ho.1 ho.2 h
  · exact ⟨⟨m, n, du, dv, (hp.hom S).ready S.init⟩, S.perU, S.perV, S.hdegU.symm, S.hdegV.symm⟩

end NS.Props
