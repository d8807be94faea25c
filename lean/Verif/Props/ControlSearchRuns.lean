import Verif.Props.ControlSearch

/-!
# C76: the searches guided by control points return for every query
-/

set_option linter.unusedSectionVars false
set_option linter.unusedSimpArgs false

namespace NS.Props

open Outcome Spec ControlSearch
open BSpline (HullOf)
open BSplinePatch (Axis Valid Ready WideOn InDom)

variable {K V : Type} [Field K] [LinearOrder K] [IsStrictOrderedRing K] [FloorRing K]
  [AddCommGroup V] [Module K V]

/-! ### B-spline and NURBS patches -/

section knots

variable {p : BSplinePatch K V} {m n du dv : ℕ}

/-- Range and domain have a parameter in common. -/
def Meets (p : BSplinePatch K V) (b : Box K) : Prop :=
  ∃ ul uh vl vh, p.lowerU = ok ul ∧ p.upperU = ok uh ∧ p.lowerV = ok vl ∧ p.upperV = ok vh ∧
    max b.minU ul ≤ min b.maxU uh ∧ max b.minV vl ≤ min b.maxV vh

theorem greville_ok {u : List K} {deg s : ℤ} {n d i : ℕ} (h : Axis u deg s n d) (hd : 1 ≤ d)
    (hi : i ≤ n) : ∃ a, BSplinePatch.greville u d i = ok a := by
  obtain ⟨d, rfl⟩ : ∃ k, d = k + 1 := ⟨d - 1, by omega⟩
  exact ⟨_, greville_eq (by rw [h.len]; omega)⟩

/-- Preimages can be asked for up to one control point beyond the last. -/
theorem preimage_ok (h : p.Valid m n du dv) (hdu : 1 ≤ du) (hdv : 1 ≤ dv) {i j : ℕ} (hi : i ≤ m)
    (hj : j ≤ n) : ∃ x, p.preimage i j = ok x := by
  obtain ⟨a, ea⟩ := greville_ok h.u hdu hi
  obtain ⟨b, eb⟩ := greville_ok h.v hdv hj
  exact ⟨(a, b), by
    unfold BSplinePatch.preimage
    rw [h.degreeU, ok_bind, ea, ok_bind, h.degreeV, ok_bind, eb, ok_bind]; rfl⟩

/-- One round on a patch and the piece `subpatch` returns. -/
theorem round_knots {α : Type} {o : Ops K α} {s r : α} {p q : BSplinePatch K V}
    {m' n' : ℕ} {b : Box K} {i j : ℕ} {a' b' c' d' : K}
    (lo : o.lowerU s = p.lowerU) (hi : o.upperU s = p.upperU)
    (lv : o.lowerV s = p.lowerV) (hv : o.upperV s = p.upperV)
    (nu : o.numU s = p.numU) (nv : o.numV s = p.numV)
    (pre : ∀ i j, o.preimage r i j = q.preimage i j)
    (h : p.Valid m n du dv) (hq : q.Valid m' n' du dv) (hdu : 1 ≤ du) (hdv : 1 ≤ dv)
    (hi' : i < m') (hj' : j < n')
    (hu : max b.minU (knot p.knotsU du) ≤ min b.maxU (knot p.knotsU m))
    (hv' : max b.minV (knot p.knotsV dv) ≤ min b.maxV (knot p.knotsV n))
    (qu : q.lowerU = ok a') (qU : q.upperU = ok b') (qv : q.lowerV = ok c') (qV : q.upperV = ok d')
    (c1 : a' ≤ max b.minU (knot p.knotsU du)) (c2 : min b.maxU (knot p.knotsU m) ≤ b')
    (c3 : c' ≤ max b.minV (knot p.knotsV dv)) (c4 : min b.maxV (knot p.knotsV n) ≤ d') :
    ∃ t uv d, trim o s b = ok t ∧
      t = ⟨max b.minU (knot p.knotsU du), min b.maxU (knot p.knotsU m),
        max b.minV (knot p.knotsV dv), min b.maxV (knot p.knotsV n)⟩ ∧
      o.preimage r i j = ok uv ∧ neighbours o s r i j = ok d ∧
      ((∀ i j i' j' x y, i ≤ i' → j ≤ j' → q.preimage i j = ok x → q.preimage i' j' = ok y →
        x.1 ≤ y.1 ∧ x.2 ≤ y.2) → Meets q (nextBox t d)) := by
  obtain ⟨uv, euv⟩ := preimage_ok hq hdu hdv hi'.le hj'.le
  obtain ⟨x, ex⟩ := preimage_ok hq hdu hdv (i := if i > 0 then i - 1 else i)
    (j := if j > 0 then j - 1 else j) (by split <;> omega) (by split <;> omega)
  obtain ⟨y, ey⟩ := preimage_ok hq hdu hdv (i := if i + 1 < m then i + 1 else i)
    (j := if j + 1 < n then j + 1 else j) (by split <;> omega) (by split <;> omega)
  refine ⟨_, uv, (x, y), ?_, rfl, (pre i j).trans euv, ?_, ?_⟩
  · unfold trim
    rw [lo, hi, lv, hv, h.lowerU, ok_bind, h.upperU, ok_bind, h.lowerV, ok_bind, h.upperV, ok_bind]
    rfl
  · unfold neighbours
    rw [pre, ex, ok_bind, nu, h.numU, ok_bind, nv, h.numV, ok_bind, pre, ey, ok_bind]
    rfl
  · intro ho
    have hxy := ho _ _ _ _ _ _ (by split <;> split <;> omega) (by split <;> split <;> omega) ex ey
    refine ⟨a', b', c', d', qu, qU, qv, qV, ?_, ?_⟩
    · have hm := clampBox_mono (b := (⟨max b.minU (knot p.knotsU du), min b.maxU (knot p.knotsU m),
        max b.minV (knot p.knotsV dv), min b.maxV (knot p.knotsV n)⟩ : Box K)) hxy
      have h1 := clampBox_mem (b := (⟨max b.minU (knot p.knotsU du), min b.maxU (knot p.knotsU m),
        max b.minV (knot p.knotsV dv), min b.maxV (knot p.knotsV n)⟩ : Box K)) ⟨hu, hv'⟩ x
      have h2 := clampBox_mem (b := (⟨max b.minU (knot p.knotsU du), min b.maxU (knot p.knotsU m),
        max b.minV (knot p.knotsV dv), min b.maxV (knot p.knotsV n)⟩ : Box K)) ⟨hu, hv'⟩ y
      exact max_le (le_min hm.1 (h1.1.2.trans c2)) (le_min (c1.trans h2.1.1) (c1.trans (hu.trans c2)))
    · have hm := clampBox_mono (b := (⟨max b.minU (knot p.knotsU du), min b.maxU (knot p.knotsU m),
        max b.minV (knot p.knotsV dv), min b.maxV (knot p.knotsV n)⟩ : Box K)) hxy
      have h1 := clampBox_mem (b := (⟨max b.minU (knot p.knotsU du), min b.maxU (knot p.knotsU m),
        max b.minV (knot p.knotsV dv), min b.maxV (knot p.knotsV n)⟩ : Box K)) ⟨hu, hv'⟩ x
      have h2 := clampBox_mem (b := (⟨max b.minU (knot p.knotsU du), min b.maxU (knot p.knotsU m),
        max b.minV (knot p.knotsV dv), min b.maxV (knot p.knotsV n)⟩ : Box K)) ⟨hu, hv'⟩ y
      exact max_le (le_min hm.2 (h1.2.2.trans c4)) (le_min (c3.trans h2.2.1) (c3.trans (hv'.trans c4)))

theorem meets_of (h : p.Valid m n du dv) {b : Box K} (hb : Meets p b) :
    max b.minU (knot p.knotsU du) ≤ min b.maxU (knot p.knotsU m) ∧
      max b.minV (knot p.knotsV dv) ≤ min b.maxV (knot p.knotsV n) := by
  obtain ⟨ul, uh, vl, vh, e1, e2, e3, e4, h1, h2⟩ := hb
  rw [h.lowerU, ok.injEq] at e1
  rw [h.upperU, ok.injEq] at e2
  rw [h.lowerV, ok.injEq] at e3
  rw [h.upperV, ok.injEq] at e4
  subst e1 e2 e3 e4
  exact ⟨h1, h2⟩

theorem meets_intro (h : p.Valid m n du dv) {b : Box K}
    (hb : b.minU ≤ b.maxU ∧ b.minV ≤ b.maxV)
    (hu : b.minU ≤ knot p.knotsU m ∧ knot p.knotsU du ≤ b.maxU)
    (hv : b.minV ≤ knot p.knotsV n ∧ knot p.knotsV dv ≤ b.maxV) : Meets p b :=
  ⟨_, _, _, _, h.lowerU, h.upperU, h.lowerV, h.upperV,
    max_le (le_min hb.1 hu.1) (le_min hu.2 h.u.dom.le),
    max_le (le_min hb.2 hv.1) (le_min hv.2 h.v.dom.le)⟩

theorem closest_range (big : K) (sq : V → K) (h : p.Valid m n du dv) (x : V) :
    ∃ i j, p.findClosest big sq x = ok (i, j) ∧ i < m ∧ j < n := by
  obtain ⟨i, j, e, H⟩ := PatchBase.findClosest_spec big sq
    (fun i hi j hj => h.getControlPoint hi hj) x
  refine ⟨i, j, ?_, ?_⟩
  · unfold BSplinePatch.findClosest
    rw [h.numU, ok_bind, h.numV, ok_bind, e]
  · have := h.u.cnt
    have := h.v.cnt
    rcases H with ⟨hi, hj, _⟩ | ⟨rfl, rfl, _⟩ <;> omega

end knots

variable [Geom K V]

/-- C76: on a B-spline patch of degrees at least 3 without periodic directions the search returns
for every query, level and box that meets the domain, and the guess is in the box.  Lower
degrees go to the base class in the rounds with three control points; see C35 for that search. -/
theorem C76_bspline_total {eps big tol : K} (heps : 0 ≤ eps) {bad : V} {p : BSplinePatch K V}
    {m n du dv : ℕ} (hp : p.Valid m n du dv) (hi : p.init = ok p) (hpu : p.perU = false)
    (hpv : p.perV = false) (hdu : 3 ≤ du) (hdv : 3 ≤ dv) (x : V) (nu nv level : ℕ) {b : Box K}
    (hb : b.minU ≤ b.maxU ∧ b.minV ≤ b.maxV)
    (hu : b.minU ≤ knot p.knotsU m ∧ knot p.knotsU du ≤ b.maxU)
    (hv : b.minV ≤ knot p.knotsV n ∧ knot p.knotsV dv ≤ b.maxV) :
    ∃ r, p.approxInverse eps big tol bad x nu nv level b = ok r ∧
      (b.minU ≤ r.1 ∧ r.1 ≤ b.maxU) ∧ (b.minV ≤ r.2 ∧ r.2 ≤ b.maxV) := by
  have R : Runs (BSplinePatch.ops eps big tol bad x nu nv)
      (fun q => ∃ m n, q.Ready m n du dv ∧ q.perU = false ∧ q.perV = false) Meets id := by
    rintro s b ⟨m, n, hs, su, sv⟩ hb
    obtain ⟨h1, h2⟩ := meets_of hs.toValid hb
    have c1 := hs.toValid.u.cnt
    have c2 := hs.toValid.v.cnt
    refine ⟨fun l => fallback_of (by simp [BSplinePatch.ops, su, sv]) hs.toValid.degreeU
      hs.toValid.degreeV hs.toValid.numU hs.toValid.numV (by omega) (by omega) (by omega)
      (by omega), ?_⟩
    obtain ⟨q, eq, a', b', c', d', eu, ev, F, a1, a2, a3, a4⟩ := trimmed_sub heps hs su sv (by omega)
      (by omega) h1 h2
    obtain ⟨m', n', P⟩ := F.piece
    obtain ⟨i, j, ec, hi, hj⟩ := closest_range big (sqNorm : V → K) P.ready.toValid x
    obtain ⟨t, uv, d, et, rt, euv, ed, hM⟩ := round_knots
      (o := BSplinePatch.ops eps big tol bad x nu nv) (s := s) (r := q) (p := s) (q := q) (b := b)
      rfl rfl rfl rfl rfl rfl (fun _ _ => rfl) hs.toValid P.ready.toValid (by omega) (by omega) hi hj
      h1 h2 (P.ready.toValid.lowerU) (P.ready.toValid.upperU) (P.ready.toValid.lowerV)
      (P.ready.toValid.upperV) (by rw [P.au]; exact a1) (by rw [P.bu]; exact a2)
      (by rw [P.cv]; exact a3) (by rw [P.dv']; exact a4)
    refine ⟨t, q, (i, j), uv, d, et, ?_, ec, euv, ed, ⟨m', n', P.ready, F.perU, F.perV⟩, ?_⟩
    · rw [rt]; exact eq
    · exact hM fun i j i' j' x y hi hj => bspline_preimage_order P.ready.toValid.u.sorted
        P.ready.toValid.v.sorted hi hj
  obtain ⟨r, e⟩ := knotSearch_runs (low := id) R level ⟨m, n, hp.ready hi, hpu, hpv⟩
    (meets_intro hp hb hu hv)
  exact ⟨r, e, C76_bspline_in_box heps hp hi hb e⟩

/-- C76: the same for NURBS patches with positive weights. -/
theorem C76_nurbs_total {eps big tol small : K} (heps : 0 ≤ eps) {bad : V × K}
    {p : NURBSPatch K V} {m n du dv : ℕ} (hp : NValid p m n du dv) (hi : p.init = ok p)
    (hw : ∀ y ∈ p.weights, 0 < y) (hpu : p.perU = false)
    (hpv : p.perV = false) (hdu : 3 ≤ du) (hdv : 3 ≤ dv) (x : V) (nu nv level : ℕ) {b : Box K}
    (hb : b.minU ≤ b.maxU ∧ b.minV ≤ b.maxV)
    (hu : b.minU ≤ knot p.knotsU m ∧ knot p.knotsU du ≤ b.maxU)
    (hv : b.minV ≤ knot p.knotsV n ∧ knot p.knotsV dv ≤ b.maxV) :
    ∃ r, p.approxInverse eps big tol small bad x nu nv level b = ok r ∧
      (b.minU ≤ r.1 ∧ r.1 ≤ b.maxU) ∧ (b.minV ≤ r.2 ∧ r.2 ≤ b.maxV) := by
  have R : Runs (NURBSPatch.ops eps big tol small bad x nu nv)
      (fun q => ∃ m n, NValid q m n du dv ∧ q.init = ok q ∧ (∀ y ∈ q.weights, 0 < y) ∧
        q.perU = false ∧ q.perV = false) (fun q b => Meets q.hom b) id := by
    rintro s b ⟨m, n, hs, si, sw, su, sv⟩ hb
    have S := (sync_of_init si).1
    have hh := (hs.hom S).ready S.init
    obtain ⟨h1, h2⟩ := meets_of hh.toValid hb
    have c1 := hs.u.cnt
    have c2 := hs.v.cnt
    refine ⟨fun l => fallback_of (by simp [NURBSPatch.ops, su, sv])
      (by simp only [NURBSPatch.ops]; rw [hs.u.deg]; exact NURBSPatch.degreeOf_ok (by simp))
      (by simp only [NURBSPatch.ops]; rw [hs.v.deg]; exact NURBSPatch.degreeOf_ok (by simp))
      hh.toValid.numU hh.toValid.numV (by simp; omega) (by simp; omega) (by omega)
      (by omega), ?_⟩
    obtain ⟨q, eq, a', b', c', d', eu, ev, F, a1, a2, a3, a4⟩ := trimmed_sub heps hh
      (S.perU.trans su) (S.perV.trans sv) (by omega) (by omega) h1 h2
    obtain ⟨m', n', P⟩ := F.piece
    obtain ⟨r, er, m'', n'', rv, ri, ru, rv', -, -, -, -, rw', -⟩ :=
      ofHom_part si sw (P.partOf F.perU F.perV)
    obtain ⟨rh, -⟩ := ofHomogeneous_hom er
    have T := (sync_of_init ri).1
    have hr := rv.hom T
    rw [rh] at hr
    have i1 : m'' = m' := by
      have := hr.u.len; rw [P.ready.toValid.u.len] at this; omega
    have i2 : n'' = n' := by
      have := hr.v.len; rw [P.ready.toValid.v.len] at this; omega
    subst i1 i2
    obtain ⟨i, j, ec, H⟩ := PatchBase.findClosest_spec big (sqNorm : V → K) (m := m'') (n := n'')
      (get := r.getControlPoint) (P := fun i j => r.grid.getD (i * n'' + j) 0) (by
        intro i hi j hj
        unfold NURBSPatch.getControlPoint NURBSPatch.linearIndex BSplinePatch.linearIndex
        rw [rh, hr.numV, ok_bind, pure_eq, ok_bind]
        have hl : i * n'' + j < r.grid.length := by
          rw [rv.grid]
          calc i * n'' + j < i * n'' + n'' := by omega
            _ = (i + 1) * n'' := by ring
            _ ≤ m'' * n'' := Nat.mul_le_mul_right _ hi
        rw [rd_of_lt hl]
        simp [List.getD, hl]) x
    have hij : i < m'' ∧ j < n'' := by
      have := rv.u.cnt
      have := rv.v.cnt
      rcases H with ⟨hi, hj, _⟩ | ⟨rfl, rfl, _⟩ <;> omega
    obtain ⟨t, uv, d, et, rt, euv, ed, hM⟩ := round_knots
      (o := NURBSPatch.ops eps big tol small bad x nu nv) (s := s) (r := r) (p := s.hom) (q := q)
      (b := b) rfl rfl rfl rfl rfl rfl (fun _ _ => by simp only [NURBSPatch.ops]; rw [rh])
      hh.toValid P.ready.toValid (by omega) (by omega) hij.1 hij.2
      h1 h2 (P.ready.toValid.lowerU) (P.ready.toValid.upperU) (P.ready.toValid.lowerV)
      (P.ready.toValid.upperV) (by rw [P.au]; exact a1) (by rw [P.bu]; exact a2)
      (by rw [P.cv]; exact a3) (by rw [P.dv']; exact a4)
    refine ⟨t, r, (i, j), uv, d, et, ?_, ?_, euv, ed, ⟨m'', n'', rv, ri, rw', ru, rv'⟩, ?_⟩
    · simp only [NURBSPatch.ops, NURBSPatch.subpatch]
      rw [rt, eq, ok_bind, er]
    · simp only [NURBSPatch.ops]
      rw [rh, hr.numU, ok_bind, hr.numV, ok_bind, ec]
    · simp only
      rw [rh]
      exact hM fun i j i' j' x y hi hj => bspline_preimage_order P.ready.toValid.u.sorted
        P.ready.toValid.v.sorted hi hj
  have S := (sync_of_init hi).1
  obtain ⟨r, e⟩ := knotSearch_runs (low := fun _ => 3) R level ⟨m, n, hp, hi, hw, hpu, hpv⟩
    (meets_intro (hp.hom S) hb (by rw [S.knotsU]; exact hu) (by rw [S.knotsV]; exact hv))
  exact ⟨r, e, C76_nurbs_in_box heps hp hi hb e⟩

end NS.Props
