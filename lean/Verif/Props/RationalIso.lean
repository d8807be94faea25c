import Verif.Props.NurbsPatch
import Verif.Proof.SaveObj

/-!
# C63: iso-curves of rational patches
-/

set_option linter.unusedSectionVars false
set_option linter.unusedSimpArgs false

namespace NS.Props

open Outcome Spec Finset
open BSplinePatch (Axis WideOn InDom wrapOn)

section General

variable {K V : Type} [Field K] [LinearOrder K] [IsStrictOrderedRing K] [FloorRing K]
  [AddCommGroup V] [Module K V]

theorem rat_of_hom {h : Bezier (V × K)} {c : RationalBezier K V}
    (e : RationalBezier.ofHomogeneous h = ok c) :
    c.validate = ok () ∧ c.hom = h ∧ c.init = ok c ∧ c.weights = h.ctrl.map Prod.snd := by
  have hw : ∀ q ∈ h.ctrl, q.2 ≠ 0 := by
    by_contra hne
    push Not at hne
    unfold RationalBezier.ofHomogeneous at e
    rw [dehomogenize_ub hne] at e
    cases e
  obtain ⟨c', e', S, h1, -, h3, -⟩ := RationalBezier.ofHomogeneous_eq hw
  rw [e, ok.injEq] at e'
  subst e'
  exact ⟨S.validate, h1, S.init, h3⟩

theorem nurbs_of_hom_ok {h : BSpline K (V × K)} {c : NURBS K V}
    (e : NURBS.ofHomogeneous h = ok c) : c.validate = ok () ∧ c.hom = h ∧
      c.weights = h.ctrl.map Prod.snd := by
  unfold NURBS.ofHomogeneous at e
  obtain ⟨P, -, e⟩ := bind_eq_ok.1 e
  obtain ⟨⟨⟩, e1, e⟩ := bind_eq_ok.1 e
  rw [pure_eq, ok.injEq] at e
  rw [← e]
  exact ⟨e1, rfl, rfl⟩

/-- C63: every iso-curve a rational Bézier patch returns is the patch with one parameter fixed, as
outcomes, i.e. also where the denominator vanishes. -/
theorem C63_bezier_iso {p : RationalBezierPatch K V} (h : p.init = ok p) (u v : K) :
    (∀ c, p.isoCurveU v = ok c → c.init = ok c ∧ ∀ s, c.evaluate s = p.evaluate s v) ∧
      ∀ c, p.isoCurveV u = ok c → c.init = ok c ∧ ∀ s, c.evaluate s = p.evaluate u s := by
  obtain ⟨S, -, -⟩ := (RationalBezierPatch.init_iff _ _).1 h
  obtain ⟨m, n, -, hh⟩ := S.wf
  have hi := BezierPatch.init_ok hh
  constructor
  · intro c e
    obtain ⟨k, ek, ec⟩ := bind_eq_ok.1 e
    obtain ⟨cv, ch, ci, -⟩ := rat_of_hom ec
    refine ⟨ci, fun s => ?_⟩
    have := (C28_iso_order hi s v).1
    rw [ek, ok_bind] at this
    unfold RationalBezier.evaluate RationalBezierPatch.evaluate
    rw [cv, S.validate, ch, this]
  · intro c e
    obtain ⟨k, ek, ec⟩ := bind_eq_ok.1 e
    obtain ⟨cv, ch, ci, -⟩ := rat_of_hom ec
    refine ⟨ci, fun s => ?_⟩
    have := (C28_iso_order hi u s).2
    rw [ek, ok_bind] at this
    unfold RationalBezier.evaluate RationalBezierPatch.evaluate
    rw [cv, S.validate, ch, this]

theorem bez_mem_unit {per : Bool} {t t' : K} (h : 0 ≤ t ∧ t ≤ 1) (f : Folded per 0 1 t t') :
    0 ≤ t' ∧ t' ≤ 1 := by
  unfold Folded at f
  cases per with
  | false => rw [if_neg (by simp)] at f; rw [f]; exact h
  | true => rw [if_pos rfl] at f; exact ⟨f.1, f.2.1.le⟩

/-- C63: with positive weights the iso-curves exist on the whole domain and have positive
weights. -/
theorem C63_bezier_iso_positive {p : RationalBezierPatch K V} (h : p.init = ok p)
    (hw : ∀ x ∈ p.weights, 0 < x) {u v : K} (hu : 0 ≤ u ∧ u ≤ 1) (hv : 0 ≤ v ∧ v ≤ 1) :
    (∃ c, p.isoCurveU v = ok c ∧ c.weights.length = p.base.degU.toNat + 1 ∧
        ∀ x ∈ c.weights, 0 < x) ∧
      ∃ c, p.isoCurveV u = ok c ∧ c.weights.length = p.base.degV.toNat + 1 ∧
        ∀ x ∈ c.weights, 0 < x := by
  obtain ⟨S, -, -⟩ := (RationalBezierPatch.init_iff _ _).1 h
  obtain ⟨m, n, hb, hh⟩ := S.wf
  obtain ⟨u', hu', fu⟩ := bezier_folded p.hom.perU u
  obtain ⟨v', hv', fv⟩ := bezier_folded p.hom.perV v
  have mu := bez_mem_unit hu fu
  have mv := bez_mem_unit hv fv
  have pos : ∀ i j, i < m + 1 → j < n + 1 → 0 < (p.hom.pts n i j).2 := by
    intro i j hi hj
    have hl : p.hom.grid.length = (m + 1) * (n + 1) := hh.len
    have hk : i * (n + 1) + j < p.hom.grid.length := by rw [hl]; exact lin_lt hi hj
    have e : p.hom.grid = homog p.base.grid p.weights := by rw [S.hom]
    have := hom_pos S.len hw
    refine this _ ?_
    rw [← e]
    unfold BezierPatch.pts gridPoint
    rw [List.getD_eq_getElem?_getD, List.getElem?_eq_getElem hk, Option.getD_some]
    exact List.getElem_mem hk
  have mk : ∀ (k : Bezier (V × K)) (len : ℕ), (k.ctrl.length = len) → (∀ q ∈ k.ctrl, 0 < q.2) →
      ∃ c, RationalBezier.ofHomogeneous k = ok c ∧ c.weights.length = len ∧
        ∀ x ∈ c.weights, 0 < x := by
    intro k len hl hk
    obtain ⟨c, e, -, -, -, h3, -⟩ := RationalBezier.ofHomogeneous_eq (fun q hq => (hk q hq).ne')
    refine ⟨c, e, by rw [h3]; simpa using hl, fun x hx => ?_⟩
    rw [h3] at hx
    obtain ⟨q, hq, rfl⟩ := List.mem_map.1 hx
    exact hk q hq
  have hd1 : p.base.degU.toNat = m := by rw [hb.degU]; simp
  have hd2 : p.base.degV.toNat = n := by rw [hb.degV]; simp
  have cv : Convex K {q : V × K | 0 < q.2} := convex_pos
  constructor
  · unfold RationalBezierPatch.isoCurveU
    rw [hh.isoCurveU hv', ok_bind, hd1]
    refine mk _ _ (by simp) fun q hq => ?_
    obtain ⟨i, hi, rfl⟩ := mem_arr.1 hq
    rw [umb_lin_pow]
    exact cv.sum_mem (fun j _ => bernstein_nonneg' mv.1 mv.2) (bernstein_sum n v')
      fun j hj => pos i j hi (mem_range.1 hj)
  · unfold RationalBezierPatch.isoCurveV
    rw [hh.isoCurveV hu', ok_bind, hd2]
    refine mk _ _ (by simp) fun q hq => ?_
    obtain ⟨j, hj, rfl⟩ := mem_arr.1 hq
    rw [umb_lin_pow]
    exact cv.sum_mem (fun i _ => bernstein_nonneg' mu.1 mu.2) (bernstein_sum m u')
      fun i hi => pos i j (mem_range.1 hi) hj

variable {p : NURBSPatch K V} {m n du dv : ℕ}

/-- C63: the iso-curves a NURBS patch returns are the patch with one parameter fixed, at parameters
whose folded values lie in the domain. -/
theorem C63_nurbs_iso (h : NValid p m n du dv) (hi : p.init = ok p)
    (hwu : WideOn p.knotsU m du) (hwv : WideOn p.knotsV n dv) (u v : K) :
    ∃ u' v', Folded p.perU (knot p.knotsU du) (knot p.knotsU m) u u' ∧
      Folded p.perV (knot p.knotsV dv) (knot p.knotsV n) v v' ∧
      (InDom p.knotsU m du u' → InDom p.knotsV n dv v' →
        (∀ c, p.isoCurveU v = ok c → c.evaluate u = p.evaluate u v) ∧
        ∀ c, p.isoCurveV u = ok c → c.evaluate v = p.evaluate u v) := by
  have S := (sync_of_init hi).1
  obtain ⟨u', v', fu, fv, H⟩ := C31_evaluate (h.hom S) S.init (by rw [S.knotsU]; exact hwu)
    (by rw [S.knotsV]; exact hwv) u v
  rw [S.knotsU, S.perU] at fu
  rw [S.knotsV, S.perV] at fv
  rw [S.knotsU, S.knotsV] at H
  refine ⟨u', v', fu, fv, fun d1 d2 => ?_⟩
  obtain ⟨-, A, B⟩ := H d1 d2
  constructor
  · intro c e
    obtain ⟨k, ek, ec⟩ := bind_eq_ok.1 e
    obtain ⟨cv, ch, -⟩ := nurbs_of_hom_ok ec
    rw [ek, ok_bind] at A
    unfold NURBS.evaluate NURBSPatch.evaluate
    rw [cv, S.validate, ch, A]
  · intro c e
    obtain ⟨k, ek, ec⟩ := bind_eq_ok.1 e
    obtain ⟨cv, ch, -⟩ := nurbs_of_hom_ok ec
    rw [ek, ok_bind] at B
    unfold NURBS.evaluate NURBSPatch.evaluate
    rw [cv, S.validate, ch, B]

end General

example : ∃ c, exRatPatch.isoCurveV (1/2) = ok c ∧ c.weights.length = 2 ∧
    ∀ s, c.evaluate s = exRatPatch.evaluate (1/2) s := by
  have hi : exRatPatch.init = ok exRatPatch := by decide +kernel
  obtain ⟨-, c, e, l, -⟩ := C63_bezier_iso_positive (u := 1/2) (v := 0) hi (by decide +kernel)
    (by norm_num) (by norm_num)
  exact ⟨c, e, l, ((C63_bezier_iso hi _ 0).2 c e).2⟩

example : (do let p ← exNPRaw.init
              let c ← p.isoCurveU (1/3)
              let d ← p.isoCurveV (1/4)
              let x ← c.evaluate (1/4)
              let y ← d.evaluate (1/3)
              let z ← p.evaluate (1/4) (1/3)
              pure (decide (x = z), decide (y = z))) = ok (true, true) := by
  decide +kernel

end NS.Props
