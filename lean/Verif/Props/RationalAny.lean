import Verif.Props.NurbsPatch

/-!
# Operations of rational curves and patches with weights of any sign (C10, C62, C63)

Elevation, knot insertion, splits and conversions of rational curves and patches work on the
homogeneous object and divide by the new weights.  For weights of any sign each operation either
runs into a new weight that is zero, or returns objects that are up to date, have no zero weight
and evaluate like the original (also where the original has no value).
-/

set_option linter.unusedSectionVars false
set_option linter.unusedSimpArgs false

namespace NS.Props

open Outcome Spec Finset BSpline

section

variable {K V : Type} [Field K] [LinearOrder K] [IsStrictOrderedRing K] [FloorRing K]
  [AddCommGroup V] [Module K V]

/-- A list of homogeneous points contains one of weight zero. -/
def HasZero (Q : List (V × K)) : Prop := ∃ q ∈ Q, q.2 = 0

theorem not_hasZero {Q : List (V × K)} (h : ¬ HasZero Q) : ∀ q ∈ Q, q.2 ≠ 0 :=
  fun q hq h0 => h ⟨q, hq, h0⟩

/-! ### Rational Bézier curves -/

theorem bezier_of_hom (h : Bezier (V × K)) :
    (HasZero h.ctrl ∧ (RationalBezier.ofHomogeneous h : Outcome (RationalBezier K V)) = ub) ∨
    ∃ c : RationalBezier K V, RationalBezier.ofHomogeneous h = ok c ∧ RationalBezier.Sync c ∧
      c.hom = h ∧ c.base.ctrl.length = h.ctrl.length ∧ (∀ x ∈ c.weights, x ≠ 0) ∧
      c.base.periodic = h.periodic := by
  by_cases hz : HasZero h.ctrl
  · exact Or.inl ⟨hz, RationalBezier.ofHomogeneous_ub hz⟩
  · obtain ⟨c, e, S, h1, h2, h3, h4⟩ := RationalBezier.ofHomogeneous_eq (not_hasZero hz)
    refine Or.inr ⟨c, e, S, h1, by rw [h2, List.length_map], ?_, h4⟩
    rw [h3]
    intro x hx
    obtain ⟨q, hq, rfl⟩ := List.mem_map.mp hx
    exact not_hasZero hz q hq

/-- Weights of the elevated curve. -/
def elevatedWeight (w : List K) (i : ℕ) : K :=
  (1 - (i : K) / w.length) * w.getD i 0 + ((i : K) / w.length) * w.getD (i - 1) 0

theorem hom_facts {c : RationalBezier K V} (S : RationalBezier.Sync c) (hne : c.base.ctrl ≠ []) :
    c.hom.ctrl = homog c.base.ctrl c.weights ∧ c.hom.ctrl.length = c.base.ctrl.length ∧
      c.hom.ctrl ≠ [] ∧ c.hom.periodic = c.base.periodic := by
  have hhc : c.hom.ctrl = homog c.base.ctrl c.weights := by rw [S.hom]
  have hhl : c.hom.ctrl.length = c.base.ctrl.length := by rw [hhc]; exact homog_length S.len
  refine ⟨hhc, hhl, ?_, by rw [S.hom]⟩
  intro h
  rw [h] at hhl
  exact hne (List.length_eq_zero_iff.1 hhl.symm)

/-- C10 for rational curves with any weights: if no elevated weight is zero, `elevate_degree`
returns a consistent curve of one degree more with the same values, including the parameters at
which neither curve has a value. -/
theorem C10_rational_elevate_any {c : RationalBezier K V} (hc : c.init = ok c)
    (hne : c.base.ctrl ≠ []) :
    ((∃ i ≤ c.weights.length, elevatedWeight c.weights i = 0) → c.elevateDegree = ub) ∧
    ((∀ i ≤ c.weights.length, elevatedWeight c.weights i ≠ 0) →
      ∃ c', c.elevateDegree = ok c' ∧ c'.init = ok c' ∧
        c'.base.ctrl.length = c.base.ctrl.length + 1 ∧ c'.base.periodic = c.base.periodic ∧
        (∀ x ∈ c'.weights, x ≠ 0) ∧ ∀ t, c'.evaluate t = c.evaluate t) := by
  obtain ⟨S, -, -⟩ := (RationalBezier.init_iff _ _).1 hc
  obtain ⟨hhc, hhl, hhn, hhp⟩ := hom_facts S hne
  obtain ⟨h, e, l, p, ev⟩ := C10_elevate (K := K) c.hom hhn
  have key : HasZero h.ctrl ↔ ∃ i ≤ c.weights.length, elevatedWeight c.weights i = 0 := by
    obtain ⟨n, P, eP⟩ := Bezier.exists_arr c.hom.ctrl hhn
    have ec : c.hom = { ctrl := arr (n + 1) P, periodic := c.hom.periodic } := by
      rw [← eP]
    have hn : c.weights.length = n + 1 := by
      rw [← S.len, ← hhl, eP, arr_length]
    have hw : ∀ i ≤ n, (P i).2 = c.weights.getD i 0 := by
      intro i hi
      have e1 : c.hom.ctrl.map Prod.snd = c.weights := by rw [hhc, map_snd_homog S.len]
      rw [← e1, eP]
      simp only [arr, List.getD_eq_getElem?_getD, List.getElem?_map]
      rw [List.getElem?_range (by omega)]
      rfl
    rw [ec, Bezier.elevateDegree_arr, ok.injEq] at e
    rw [← e]
    have hn0 : ((n : K) + 1) ≠ 0 := by positivity
    have val : ∀ i ≤ n + 1, (if i = 0 then P 0 else if i = n + 1 then P n else
        (1 - (i : K) / (n + 1)) • P i + ((i : K) / (n + 1)) • P (i - 1)).2
          = elevatedWeight c.weights i := by
      intro i hi
      unfold elevatedWeight
      rw [hn]; push_cast
      split_ifs with h1 h2
      · subst h1; rw [hw 0 (by omega)]; simp
      · subst h2
        rw [hw n le_rfl]; push_cast
        rw [div_self hn0]; simp
      · rw [Prod.snd_add, Prod.smul_snd, Prod.smul_snd, hw i (by omega), hw (i - 1) (by omega)]
        rfl
    rw [hn]
    unfold HasZero
    simp only [arr]
    constructor
    · rintro ⟨q, hq, h0⟩
      obtain ⟨i, hi, rfl⟩ := List.mem_map.mp hq
      have hi' : i < n + 2 := by simpa using hi
      exact ⟨i, by omega, by rw [← val i (by omega)]; exact h0⟩
    · rintro ⟨i, hi, h0⟩
      exact ⟨_, List.mem_map.mpr ⟨i, by simp; omega, rfl⟩, by rw [val i hi]; exact h0⟩
  have eq : c.elevateDegree = (RationalBezier.ofHomogeneous h >>= fun r =>
      Outcome.assert (r.base.periodic = c.base.periodic) >>= fun _ => pure r) := by
    unfold RationalBezier.elevateDegree
    rw [S.validate, ok_bind, e, ok_bind]
  refine ⟨fun hz => ?_, fun hz => ?_⟩
  · rw [eq, RationalBezier.ofHomogeneous_ub (key.2 hz), ub_bind]
  · rcases bezier_of_hom h with ⟨h0, -⟩ | ⟨c', e', S', h1, h2, h3, h4⟩
    · obtain ⟨i, hi, h0⟩ := key.1 h0
      exact absurd h0 (hz i hi)
    · refine ⟨c', ?_, S'.init, by rw [h2, l, hhl], by rw [h4, p, hhp], h3, ?_⟩
      · rw [eq, e', ok_bind, assert_true (by rw [h4, p, hhp])]; rfl
      · intro t
        rw [sync_evaluate_hom S', sync_evaluate_hom S, h1, ev]

/-- C62 for rational Bézier curves with any weights. -/
theorem C62_rational_bezier_split_any {eps : K} (heps : 0 ≤ eps) {c : RationalBezier K V}
    (hc : c.init = ok c) (hne : c.base.ctrl ≠ []) (hper : c.base.periodic = false)
    {t : K} (h0 : 0 < t) (h1 : t < 1) :
    (c.split eps t = ub ∧ ∃ A B, Bezier.freeSplit eps c.hom t = ok [A, B] ∧
      (HasZero A.ctrl ∨ HasZero B.ctrl)) ∨
    ∃ a b, c.split eps t = ok [a, b] ∧ a.init = ok a ∧ b.init = ok b ∧
      (∀ x ∈ a.weights, x ≠ 0) ∧ (∀ x ∈ b.weights, x ≠ 0) ∧
      a.base.ctrl.length = c.base.ctrl.length ∧ b.base.ctrl.length = c.base.ctrl.length ∧
      (∀ s, a.evaluate s = c.evaluate (t * s)) ∧
      (∀ s, b.evaluate s = c.evaluate (t + (1 - t) * s)) := by
  obtain ⟨S, -, -⟩ := (RationalBezier.init_iff _ _).1 hc
  obtain ⟨hhc, hhl, hhn, hhp⟩ := hom_facts S hne
  rw [hper] at hhp
  obtain ⟨A, B, e1, e2⟩ := (C08_freeSplit_partial eps heps c.hom hhn t).2.2 ⟨h0, h1⟩
  obtain ⟨A', B', e3, l1, l2, v1, v2⟩ := C07_split c.hom hhn hhp t h0 h1
  rw [e2, ok.injEq, List.cons.injEq, List.cons.injEq] at e3
  obtain ⟨rfl, rfl, -⟩ := e3
  have eq : c.split eps t = RationalBezier.ofParts [A, B] := by
    unfold RationalBezier.split
    rw [e1, ok_bind]
  rcases bezier_of_hom A with ⟨z, u⟩ | ⟨a, ea, Sa, a1, a2, a3, a4⟩
  · refine Or.inl ⟨?_, A, B, e1, Or.inl z⟩
    rw [eq, RationalBezier.ofParts, u, ub_bind]
  rcases bezier_of_hom B with ⟨z, u⟩ | ⟨b, eb, Sb, b1, b2, b3, b4⟩
  · refine Or.inl ⟨?_, A, B, e1, Or.inr z⟩
    rw [eq, RationalBezier.ofParts, ea, ok_bind, RationalBezier.ofParts, u, ub_bind, ub_bind]
  refine Or.inr ⟨a, b, ?_, Sa.init, Sb.init, a3, b3, by rw [a2, l1, hhl], by rw [b2, l2, hhl], ?_, ?_⟩
  · rw [eq, RationalBezier.ofParts, ea, ok_bind, RationalBezier.ofParts, eb, ok_bind]
    rfl
  · intro s; rw [sync_evaluate_hom Sa, sync_evaluate_hom S, a1, v1]
  · intro s; rw [sync_evaluate_hom Sb, sync_evaluate_hom S, b1, v2]

/-! ### NURBS -/

theorem nurbs_of_hom_any {h : BSpline K (V × K)} {p : ℕ} (hwf : WellFormed h p) :
    (HasZero h.ctrl ∧ (NURBS.ofHomogeneous h : Outcome (NURBS K V)) = ub) ∨
    ∃ c : NURBS K V, NURBS.ofHomogeneous h = ok c ∧ NURBS.Sync c ∧ c.hom = h ∧
      (∀ x ∈ c.weights, x ≠ 0) ∧ WellFormed c.base p ∧ c.base.knots = h.knots ∧
      c.base.ctrl.length = h.ctrl.length ∧ c.base.periodic = h.periodic := by
  by_cases hz : HasZero h.ctrl
  · refine Or.inl ⟨hz, ?_⟩
    unfold NURBS.ofHomogeneous
    rw [dehomogenize_ub hz]; rfl
  · obtain ⟨c, e, S, h1, h2, h3⟩ := NURBS.ofHomogeneous_eq (h := h) (not_hasZero hz)
      (NURBS.wf_validate hwf)
    refine Or.inr ⟨c, e, S, h1, ?_, ?_, ?_, ?_, ?_⟩
    · rw [h3]
      intro x hx
      obtain ⟨q, hq, rfl⟩ := List.mem_map.mp hx
      exact not_hasZero hz q hq
    · rw [← S.wf, h1]; exact hwf
    · rw [← S.knots, h1]
    · rw [← S.homLen, h1]
    · rw [← S.per, h1]

/-- C62: knot insertion into a NURBS curve with any weights (conditions of C17). -/
theorem C62_insert_knot_any_partial {eps : K} (heps : 0 ≤ eps) {c : NURBS K V} (hc : c.init = ok c)
    {p : ℕ} (hwf : WellFormed c.base p) (hfst : FirstSpan c.base p) {t : K}
    (h1 : knot c.base.knots p < t) (h2 : t ≤ knot c.base.knots c.base.ctrl.length) {m : ℕ}
    (hm : 1 ≤ m)
    (hmul : m + (if t = knot c.base.knots c.base.ctrl.length then 0 else c.base.knots.count t) ≤ p) :
    (c.insertKnot eps t m = ub ∧ ∃ h, c.hom.insertKnot eps t m = ok h ∧ HasZero h.ctrl) ∨
    ∃ c', c.insertKnot eps t m = ok c' ∧ c'.init = ok c' ∧ WellFormed c'.base p ∧
      (∀ x ∈ c'.weights, x ≠ 0) ∧ c'.base.ctrl.length = c.base.ctrl.length + m ∧
      c'.base.knots.Perm (List.replicate m t ++ c.base.knots) ∧
      c'.base.periodic = c.base.periodic ∧
      (Wide c.base p → Wide c'.base p → ∀ x, knot c.base.knots p < x →
        (x < knot c.base.knots c.base.ctrl.length ∨
          (c.base.periodic = false ∧ x ≤ knot c.base.knots c.base.ctrl.length)) →
        c'.evaluate x = c.evaluate x) := by
  obtain ⟨S, -, -⟩ := (NURBS.init_iff _ _).1 hc
  have hwh := S.wf.2 hwf
  obtain ⟨h, e, I⟩ := (insertKnot_inserted heps hwh (t := t) (r := m) (Or.inl (S.first.2 hfst))
    (by rw [S.knots]; exact h1.le) (by rw [S.knots, S.homLen]; exact h2) hm).2
    (by rw [S.knots, S.homLen]; exact hmul)
  have eq : c.insertKnot eps t m = NURBS.ofHomogeneous h := by
    unfold NURBS.insertKnot
    rw [S.validate, NURBS.wf_validate hwf, ok_bind, e, ok_bind]
  rcases nurbs_of_hom_any I.wf with ⟨z, u⟩ | ⟨c', e', S', b1, b2, b3, b4, b5, b6⟩
  · exact Or.inl ⟨by rw [eq, u], h, e, z⟩
  refine Or.inr ⟨c', by rw [eq, e'], S'.init, b3, b2, ?_, ?_, ?_, ?_⟩
  · rw [b5, I.ctrl, S.homLen]
  · rw [b4, ← S.knots]; exact I.perm
  · rw [b6, I.periodic, S.per]
  · intro w w' x hx1 hx2
    rw [nurbs_evaluate_hom S hwf, nurbs_evaluate_hom S' b3, b1]
    have SC : SameCurve c.hom h p (List.replicate m t) :=
      ⟨I.wf, by simpa using I.ctrl, I.perm, I.lower, I.upper, I.periodic, I.sdeg, I.point⟩
    rw [C17_evaluate hwh SC (S.wide.2 w) (by rw [← b1, S'.wide]; exact w')
      (Or.inr (by rw [S.knots]; exact hx1)) (Or.inr (by rw [S.knots]; exact hx1))
      (by rw [S.knots]; exact hx1.le) (by rw [S.knots, S.homLen, S.per]; exact hx2)]

/-- C62: splitting a NURBS curve with any weights (conditions of C19). -/
theorem C62_split_any_partial {eps : K} (heps : 0 ≤ eps) {c : NURBS K V} (hc : c.init = ok c)
    {p : ℕ} (hwf : WellFormed c.base p) (hw : Wide c.base p) (hp : 1 ≤ p)
    {t : K} (h1 : knot c.base.knots p < t)
    (h2 : t < knot c.base.knots c.base.ctrl.length) :
    (c.split eps t = ub ∧ ∃ A B, c.hom.split eps t = ok [A, B] ∧
      (HasZero A.ctrl ∨ HasZero B.ctrl)) ∨
    ∃ a b, c.split eps t = ok [a, b] ∧ a.init = ok a ∧ b.init = ok b ∧
      WellFormed a.base p ∧ WellFormed b.base p ∧
      (∀ x ∈ a.weights, x ≠ 0) ∧ (∀ x ∈ b.weights, x ≠ 0) ∧
      knot a.base.knots p = knot c.base.knots p ∧ knot a.base.knots a.base.ctrl.length = t ∧
      knot b.base.knots p = t ∧
      knot b.base.knots b.base.ctrl.length = knot c.base.knots c.base.ctrl.length ∧
      (Wide a.base p → ∀ x, knot c.base.knots p < x → x ≤ t → (x < t ∨ c.base.knots.count t ≤ p) →
        a.evaluate x = c.evaluate x) ∧
      (Wide b.base p → ∀ x, t ≤ x → x < knot c.base.knots c.base.ctrl.length →
        b.evaluate x = c.evaluate x) := by
  obtain ⟨S, -, -⟩ := (NURBS.init_iff _ _).1 hc
  have hwh := S.wf.2 hwf
  obtain ⟨A, B, e, L, R⟩ := split_spec heps hwh hp (t := t) (by rw [S.knots]; exact h1)
    (by rw [S.knots, S.homLen]; exact h2)
  have eq : c.split eps t = NURBS.ofParts [A, B] := by
    unfold NURBS.split
    rw [e, ok_bind]
  rcases nurbs_of_hom_any L.wf with ⟨z, u⟩ | ⟨a, ea, Sa, a1, a2, a3, a4, a5, a6⟩
  · exact Or.inl ⟨by rw [eq, NURBS.ofParts, u, ub_bind], A, B, e, Or.inl z⟩
  rcases nurbs_of_hom_any R.wf with ⟨z, u⟩ | ⟨b, eb, Sb, b1, b2, b3, b4, b5, b6⟩
  · exact Or.inl ⟨by rw [eq, NURBS.ofParts, ea, ok_bind, NURBS.ofParts, u, ub_bind, ub_bind], A, B,
      e, Or.inr z⟩
  have hva : ∀ wa : Wide a.base p, Wide A p := fun wa => by rw [← a1, Sa.wide]; exact wa
  have hvb : ∀ wb : Wide b.base p, Wide B p := fun wb => by rw [← b1, Sb.wide]; exact wb
  have wh := S.wide.2 hw
  refine Or.inr ⟨a, b, ?_, Sa.init, Sb.init, a3, b3, a2, b2, ?_, ?_, ?_, ?_, ?_, ?_⟩
  · rw [eq, NURBS.ofParts, ea, ok_bind, NURBS.ofParts, eb, ok_bind]
    rfl
  · rw [a4, L.lower, S.knots]
  · rw [a4, a5, L.upper]
  · rw [b4, R.lower]
  · rw [b4, b5, R.upper, S.knots, S.homLen]
  · intro wa x x1 x2 x3
    have hx3 := lt_of_le_of_lt x2 h2
    rw [nurbs_evaluate_hom Sa a3, nurbs_evaluate_hom S hwf, a1]
    congr 1
    rw [evaluate_eq hwh wh (t' := x) (wrap_of_mem hwh (by rw [S.knots]; exact x1.le)
        (Or.inl (by rw [S.knots, S.homLen]; exact hx3))) (Or.inr (by rw [S.knots]; exact x1))
        (by rw [S.knots]; exact x1.le) (by rw [S.knots, S.homLen]; exact hx3.le),
      evaluate_eq L.wf (hva wa) (wrap_nonperiodic L.periodic x)
        (Or.inr (by rw [L.lower, S.knots]; exact x1))
        (by rw [L.lower, S.knots]; exact x1.le) (by rw [L.upper]; exact x2)]
    rcases x2.lt_or_eq with h | h
    · rw [L.point x (by rw [S.knots]; exact x1.le) h]
    · subst h
      rw [L.last (by rw [S.knots]; rcases x3 with h | h; · exact absurd h (lt_irrefl _)
                     · exact h)]
  · intro wb x x1 x2
    have x0 := lt_of_lt_of_le h1 x1
    rw [nurbs_evaluate_hom Sb b3, nurbs_evaluate_hom S hwf, b1]
    congr 1
    rw [evaluate_eq hwh wh (t' := x) (wrap_of_mem hwh (by rw [S.knots]; exact x0.le)
        (Or.inl (by rw [S.knots, S.homLen]; exact x2))) (Or.inr (by rw [S.knots]; exact x0))
        (by rw [S.knots]; exact x0.le) (by rw [S.knots, S.homLen]; exact x2.le),
      evaluate_eq R.wf (hvb wb) (wrap_nonperiodic R.periodic x) (Or.inl R.first)
        (by rw [R.lower]; exact x1) (by rw [R.upper, S.knots, S.homLen]; exact x2.le),
      R.point x x1 (by rw [S.knots, S.homLen]; exact x2.le)]

theorem ofParts_any : ∀ (l : List (Bezier (V × K))),
    ((∃ s ∈ l, HasZero s.ctrl) ∧
      (RationalBezier.ofParts l : Outcome (List (RationalBezier K V))) = ub) ∨
    ∃ rs : List (RationalBezier K V), RationalBezier.ofParts l = ok rs ∧
      rs.length = l.length ∧
      ∀ (i : ℕ) (r : RationalBezier K V), rs[i]? = some r → ∃ s, l[i]? = some s ∧
        RationalBezier.Sync r ∧ r.hom = s ∧ (∀ x ∈ r.weights, x ≠ 0) ∧
        r.base.ctrl.length = s.ctrl.length
  | [] => Or.inr ⟨[], rfl, rfl, by simp⟩
  | s :: l => by
    rcases bezier_of_hom s with ⟨z, u⟩ | ⟨r, er, Sr, r1, r2, r3, r4⟩
    · exact Or.inl ⟨⟨s, by simp, z⟩, by rw [RationalBezier.ofParts, u, ub_bind]⟩
    rcases ofParts_any l with ⟨⟨s', hs', z⟩, u⟩ | ⟨rs, e, hl, H⟩
    · exact Or.inl ⟨⟨s', by simp [hs'], z⟩,
        by rw [RationalBezier.ofParts, er, ok_bind, u, ub_bind]⟩
    refine Or.inr ⟨r :: rs, by rw [RationalBezier.ofParts, er, ok_bind, e, ok_bind]; rfl,
      by simp [hl], ?_⟩
    intro i r' hr
    cases i with
    | zero =>
      simp only [List.getElem?_cons_zero, Option.some.injEq] at hr ⊢
      subst hr
      exact ⟨s, rfl, Sr, r1, r3, r2⟩
    | succ i =>
      simp only [List.getElem?_cons_succ] at hr ⊢
      exact H i r' hr

/-- C62: conversion of a NURBS curve with any weights to rational Bézier pieces. -/
theorem C62_to_rational_bezier_any_partial {eps : K} (heps : 0 ≤ eps) {c : NURBS K V}
    (hc : c.init = ok c) {p : ℕ} (hwf : WellFormed c.base p) (hw : Wide c.base p)
    (hfst : FirstSpan c.base p) :
    (c.toRationalBezier eps = ub ∧ ∃ out, c.hom.toBezier eps = ok out ∧
      ∃ s ∈ out.1, HasZero s.ctrl) ∨
    ∃ segs bounds, c.toRationalBezier eps = ok (segs, bounds) ∧
      bounds.length = segs.length + 1 ∧ bounds.Pairwise (· < ·) ∧
      bounds.head? = some (knot c.base.knots p) ∧
      bounds.getLast? = some (knot c.base.knots c.base.ctrl.length) ∧
      ∀ i s, segs[i]? = some s → ∃ a b, bounds[i]? = some a ∧ bounds[i + 1]? = some b ∧
        s.init = ok s ∧ s.base.ctrl.length = p + 1 ∧ (∀ x ∈ s.weights, x ≠ 0) ∧
        ∀ x : K, 0 ≤ x → x < 1 → s.evaluate x = c.evaluate ((1 - x) * a + x * b) := by
  obtain ⟨S, -, -⟩ := (NURBS.init_iff _ _).1 hc
  have hwh := S.wf.2 hwf
  obtain ⟨segs, bs, e, P⟩ := toBezier_spec heps hwh (Or.inl (S.first.2 hfst))
  obtain ⟨g1, g2, g3, g4, g5⟩ := pieces_index segs bs _ P
  obtain ⟨segs', bounds, e', ev⟩ :=
    C20_toBezier_evaluate_partial heps hwh (S.wide.2 hw) (S.first.2 hfst)
  rw [e, ok.injEq, Prod.mk.injEq] at e'
  obtain ⟨rfl, rfl⟩ := e'
  rcases ofParts_any segs with ⟨z, u⟩ | ⟨rs, er, rl, H⟩
  · refine Or.inl ⟨?_, _, e, z⟩
    unfold NURBS.toRationalBezier
    rw [e, ok_bind]
    simp only []
    rw [u, ub_bind]
  refine Or.inr ⟨rs, _, ?_, by simp [g1, rl], g2, by rw [S.knots]; rfl,
    by rw [g3, S.knots, S.homLen], ?_⟩
  · unfold NURBS.toRationalBezier
    rw [e, ok_bind]
    simp only []
    rw [er, ok_bind]
    rfl
  · intro i r hr
    obtain ⟨s, hs, Sr, r1, r2, r3⟩ := H i r hr
    obtain ⟨a, b, ha, hb, hev⟩ := ev i s hs
    obtain ⟨a', b', ha', hb', G⟩ := g5 i s hs
    refine ⟨a, b, ha, hb, Sr.init, by rw [r3, G.len], r2, ?_⟩
    intro x x0 x1
    rw [sync_evaluate_hom Sr, nurbs_evaluate_hom S hwf, r1, hev x x0 x1]

/-! ### Rational Bézier patches -/

open BSplinePatch (WideOn InDom)

/-- The weighted quotient as an outcome: no value where the denominator is zero. -/
def surfAny (p : RationalBezierPatch K V) (u v : K) : Outcome V :=
  if ratBezierSurfaceDen p.base.degU.toNat p.base.degV.toNat p.weights u v = 0 then ub
  else ok (ratBezierSurface p.base.degU.toNat p.base.degV.toNat p.base.grid p.weights u v)

theorem q0_any (x : V) (w : K) : quot0 (x, w) = if w = 0 then ub else ok (w⁻¹ • x) := by
  split
  · rename_i h
    subst h
    unfold quot0; rw [assert_false (by simp)]; rfl
  · rename_i h; exact q0_pair h

theorem flat_quot_any {p : RationalBezierPatch K V} (h : p.init = ok p) (u v : K) :
    ((flat p.hom).evaluate u v >>= quot0) = surfAny p u v := by
  obtain ⟨S, -, -⟩ := (RationalBezierPatch.init_iff _ _).1 h
  obtain ⟨m, n, hb, hh⟩ := S.wf
  have e1 : p.base.degU.toNat = m := by rw [hb.degU]; simp
  have e2 : p.base.degV.toNat = n := by rw [hb.degV]; simp
  have hg : p.hom.grid = homog p.base.grid p.weights := by rw [S.hom]
  rw [flat_evaluate hh, ok_bind, BezierPatch.part_eq_surface, hg, homog_bezierSurface S.len, q0_any]
  unfold surfAny
  rw [e1, e2]; rfl

/-- A piece of a rational Bézier patch with any weights: up to date, of the same degrees, without
zero weights and with the values `f`, defined or not. -/
def RatPieceAny (p A : RationalBezierPatch K V) (f : K → K → Outcome V) : Prop :=
  A.init = ok A ∧ A.base.degU = p.base.degU ∧ A.base.degV = p.base.degV ∧
    (∀ x ∈ A.weights, x ≠ 0) ∧ ∀ s t, A.evaluate s t = f s t

theorem ratPiece_any {p : RationalBezierPatch K V} (h : p.init = ok p)
    {H : BezierPatch (V × K)} (hH : PieceOk p.hom H) {f : K → K → K × K}
    (hf : ∀ s t, H.evaluate s t = (flat p.hom).evaluate (f s t).1 (f s t).2) :
    (HasZero H.grid ∧
      (RationalBezierPatch.ofHomogeneous H : Outcome (RationalBezierPatch K V)) = ub) ∨
    ∃ A, RationalBezierPatch.ofHomogeneous H = ok A ∧
      RatPieceAny p A (fun s t => surfAny p (f s t).1 (f s t).2) := by
  obtain ⟨S, -, -⟩ := (RationalBezierPatch.init_iff _ _).1 h
  by_cases hz : HasZero H.grid
  · refine Or.inl ⟨hz, ?_⟩
    unfold RationalBezierPatch.ofHomogeneous
    rw [dehomogenize_ub hz]; rfl
  obtain ⟨A, e, T, eh⟩ := RationalBezierPatch.ofHomogeneous_eq hH.1 hH.2.2.2.1 (not_hasZero hz)
  have a1 : A.base.degU = A.hom.degU := by rw [T.hom]
  have a2 : A.base.degV = A.hom.degV := by rw [T.hom]
  have b1 : p.base.degU = p.hom.degU := by rw [S.hom]
  have b2 : p.base.degV = p.hom.degV := by rw [S.hom]
  refine Or.inr ⟨A, e, (RationalBezierPatch.init_iff _ _).2 ⟨T, rfl, rfl⟩, ?_, ?_, ?_, ?_⟩
  · rw [a1, b1, eh, hH.2.1]
  · rw [a2, b2, eh, hH.2.2.1]
  · intro x hx
    have : x ∈ A.hom.grid.map Prod.snd := by rw [T.hom, map_snd_homog T.len]; exact hx
    obtain ⟨q, hq, rfl⟩ := List.mem_map.1 this
    exact not_hasZero hz q (eh ▸ hq)
  · intro s t
    unfold RationalBezierPatch.evaluate
    rw [T.validate, ok_bind, eh, hf s t, flat_quot_any h]

/-- C63: `split_u` of a fixed-degree patch with any weights. -/
theorem C63_bezier_split_u_any_partial {eps : K} (he : 0 ≤ eps) {p : RationalBezierPatch K V}
    (h : p.init = ok p) (hs : Static p.base) {u : K} (h0 : 0 < u) (h1 : u < 1) :
    (p.splitU eps u = ub ∧ ∃ A B, p.hom.splitU eps u = ok [A, B] ∧
      (HasZero A.grid ∨ HasZero B.grid)) ∨
    ∃ A B, p.splitU eps u = ok [A, B] ∧ RatPieceAny p A (fun s t => surfAny p (u * s) t) ∧
      RatPieceAny p B (fun s t => surfAny p (u + (1 - u) * s) t) := by
  obtain ⟨HA, HB, e, oA, oB, H⟩ := C30_split_u_partial he (init_hom h) (static_hom h hs) h0 h1
  have eq : p.splitU eps u = RationalBezierPatch.ofParts [HA, HB] := by
    unfold RationalBezierPatch.splitU
    rw [e, ok_bind]
  rcases ratPiece_any h oA (f := fun s t => (u * s, t)) (fun s t => (H s t).1)
    with ⟨z, x⟩ | ⟨A, eA, PA⟩
  · exact Or.inl ⟨by rw [eq, RationalBezierPatch.ofParts, x, ub_bind], HA, HB, e, Or.inl z⟩
  rcases ratPiece_any h oB (f := fun s t => (u + (1 - u) * s, t)) (fun s t => (H s t).2)
    with ⟨z, x⟩ | ⟨B, eB, PB⟩
  · exact Or.inl ⟨by
      rw [eq, RationalBezierPatch.ofParts, eA, ok_bind, RationalBezierPatch.ofParts, x, ub_bind,
        ub_bind], HA, HB, e, Or.inr z⟩
  refine Or.inr ⟨A, B, ?_, PA, PB⟩
  rw [eq]
  simp only [RationalBezierPatch.ofParts]
  rw [eA, ok_bind, eB, ok_bind]
  rfl

/-- C63: `split_v` of a fixed-degree patch with any weights. -/
theorem C63_bezier_split_v_any_partial {eps : K} (he : 0 ≤ eps) {p : RationalBezierPatch K V}
    (h : p.init = ok p) (hs : Static p.base) {v : K} (h0 : 0 < v) (h1 : v < 1) :
    (p.splitV eps v = ub ∧ ∃ A B, p.hom.splitV eps v = ok [A, B] ∧
      (HasZero A.grid ∨ HasZero B.grid)) ∨
    ∃ A B, p.splitV eps v = ok [A, B] ∧ RatPieceAny p A (fun s t => surfAny p s (v * t)) ∧
      RatPieceAny p B (fun s t => surfAny p s (v + (1 - v) * t)) := by
  obtain ⟨HA, HB, e, oA, oB, H⟩ := C30_split_v_partial he (init_hom h) (static_hom h hs) h0 h1
  have eq : p.splitV eps v = RationalBezierPatch.ofParts [HA, HB] := by
    unfold RationalBezierPatch.splitV
    rw [e, ok_bind]
  rcases ratPiece_any h oA (f := fun s t => (s, v * t)) (fun s t => (H s t).1)
    with ⟨z, x⟩ | ⟨A, eA, PA⟩
  · exact Or.inl ⟨by rw [eq, RationalBezierPatch.ofParts, x, ub_bind], HA, HB, e, Or.inl z⟩
  rcases ratPiece_any h oB (f := fun s t => (s, v + (1 - v) * t)) (fun s t => (H s t).2)
    with ⟨z, x⟩ | ⟨B, eB, PB⟩
  · exact Or.inl ⟨by
      rw [eq, RationalBezierPatch.ofParts, eA, ok_bind, RationalBezierPatch.ofParts, x, ub_bind,
        ub_bind], HA, HB, e, Or.inr z⟩
  refine Or.inr ⟨A, B, ?_, PA, PB⟩
  rw [eq]
  simp only [RationalBezierPatch.ofParts]
  rw [eA, ok_bind, eB, ok_bind]
  rfl

/-- C63: `split` of a fixed-degree patch with any weights gives the four quadrants. -/
theorem C63_bezier_split_any_partial {eps : K} (he : 0 ≤ eps) {p : RationalBezierPatch K V}
    (h : p.init = ok p) (hs : Static p.base) {u v : K} (u0 : 0 < u) (u1 : u < 1) (v0 : 0 < v)
    (v1 : v < 1) :
    (p.split eps u v = ub ∧ ∃ l, p.hom.split eps u v = ok l ∧ ∃ H ∈ l, HasZero H.grid) ∨
    ∃ A B C D, p.split eps u v = ok [A, B, C, D] ∧
      RatPieceAny p A (fun s t => surfAny p (u * s) (v * t)) ∧
      RatPieceAny p B (fun s t => surfAny p (u * s) (v + (1 - v) * t)) ∧
      RatPieceAny p C (fun s t => surfAny p (u + (1 - u) * s) (v * t)) ∧
      RatPieceAny p D (fun s t => surfAny p (u + (1 - u) * s) (v + (1 - v) * t)) := by
  obtain ⟨HA, HB, HC, HD, e, oA, oB, oC, oD, H⟩ :=
    C30_split_partial he (init_hom h) (static_hom h hs) u0 u1 v0 v1
  have eq : p.split eps u v = RationalBezierPatch.ofParts [HA, HB, HC, HD] := by
    unfold RationalBezierPatch.split
    rw [e, ok_bind]
  simp only [RationalBezierPatch.ofParts] at eq
  rcases ratPiece_any h oA (f := fun s t => (u * s, v * t)) (fun s t => (H s t).1)
    with ⟨z, x⟩ | ⟨A, eA, PA⟩
  · exact Or.inl ⟨by rw [eq, x, ub_bind], _, e, HA, by simp, z⟩
  rcases ratPiece_any h oB (f := fun s t => (u * s, v + (1 - v) * t)) (fun s t => (H s t).2.1)
    with ⟨z, x⟩ | ⟨B, eB, PB⟩
  · exact Or.inl ⟨by rw [eq, eA, ok_bind, x, ub_bind, ub_bind], _, e, HB, by simp, z⟩
  rcases ratPiece_any h oC (f := fun s t => (u + (1 - u) * s, v * t)) (fun s t => (H s t).2.2.1)
    with ⟨z, x⟩ | ⟨C, eC, PC⟩
  · exact Or.inl ⟨by rw [eq, eA, ok_bind, eB, ok_bind, x, ub_bind, ub_bind, ub_bind], _, e, HC,
      by simp, z⟩
  rcases ratPiece_any h oD (f := fun s t => (u + (1 - u) * s, v + (1 - v) * t))
    (fun s t => (H s t).2.2.2) with ⟨z, x⟩ | ⟨D, eD, PD⟩
  · exact Or.inl ⟨by rw [eq, eA, ok_bind, eB, ok_bind, eC, ok_bind, x, ub_bind, ub_bind, ub_bind,
      ub_bind], _, e, HD, by simp, z⟩
  refine Or.inr ⟨A, B, C, D, ?_, PA, PB, PC, PD⟩
  rw [eq, eA, ok_bind, eB, ok_bind, eC, ok_bind, eD, ok_bind]
  rfl

/-- C63: `subpatch` of a fixed-degree patch with any weights; the upper ends reached are those of
`C30_subpatch_actual`. -/
theorem C63_bezier_subpatch_actual {eps : K} (he : 0 ≤ eps) {p : RationalBezierPatch K V}
    (h : p.init = ok p) (hs : Static p.base) (hpu : p.base.perU = false)
    (hpv : p.base.perV = false) {a b c d : K}
    (a0 : 0 ≤ a) (a1 : a < 1) (ab : a ≤ b) (b0 : 0 < b) (b1 : b ≤ 1)
    (c0 : 0 ≤ c) (c1 : c < 1) (cd : c ≤ d) (d0 : 0 < d) (d1 : d ≤ 1) :
    (p.subpatch eps a b c d = ub ∧ ∃ H, p.hom.subpatch eps a b c d = ok H ∧ HasZero H.grid) ∨
    ∃ A, p.subpatch eps a b c d = ok A ∧ RatPieceAny p A (fun s t =>
      surfAny p (a + (actualEnd a b - a) * s) (c + (actualEnd c d - c) * t)) := by
  obtain ⟨S, -, -⟩ := (RationalBezierPatch.init_iff _ _).1 h
  have qu : p.hom.perU = false := by rw [S.hom]; exact hpu
  have qv : p.hom.perV = false := by rw [S.hom]; exact hpv
  obtain ⟨H, e, o, v⟩ := C30_subpatch_actual he (init_hom h) (static_hom h hs) qu qv a0 a1 ab b0 b1
    c0 c1 cd d0 d1
  have eq : p.subpatch eps a b c d = RationalBezierPatch.ofHomogeneous H := by
    unfold RationalBezierPatch.subpatch
    rw [e, ok_bind]
  rcases ratPiece_any h o (f := fun s t => (a + (actualEnd a b - a) * s,
    c + (actualEnd c d - c) * t)) (fun s t => by rw [v s t, flat_eq qu qv])
    with ⟨z, x⟩ | ⟨A, eA, PA⟩
  · exact Or.inl ⟨by rw [eq, x], H, e, z⟩
  · exact Or.inr ⟨A, by rw [eq, eA], PA⟩

/-- C63: `subpatch` of a fixed-degree patch whose ranges touch an end of the domain. -/
theorem C63_bezier_subpatch_partial {eps : K} (he : 0 ≤ eps) {p : RationalBezierPatch K V}
    (h : p.init = ok p) (hs : Static p.base) (hpu : p.base.perU = false)
    (hpv : p.base.perV = false) {a b c d : K}
    (a0 : 0 ≤ a) (ab : a < b) (b1 : b ≤ 1) (c0 : 0 ≤ c) (cd : c < d) (d1 : d ≤ 1)
    (hab : a = 0 ∨ b = 1) (hcd : c = 0 ∨ d = 1) :
    (p.subpatch eps a b c d = ub ∧ ∃ H, p.hom.subpatch eps a b c d = ok H ∧ HasZero H.grid) ∨
    ∃ A, p.subpatch eps a b c d = ok A ∧ RatPieceAny p A (fun s t =>
      surfAny p (a + (b - a) * s) (c + (d - c) * t)) := by
  have fix : ∀ {x y : K}, x = 0 ∨ y = 1 → actualEnd x y = y := by
    intro x y h
    unfold actualEnd
    rcases h with rfl | rfl
    · split
      · rename_i h; exact h.symm
      · ring
    · simp
  have := C63_bezier_subpatch_actual he h hs hpu hpv a0 (lt_of_lt_of_le ab b1) ab.le
    (lt_of_le_of_lt a0 ab) b1 c0 (lt_of_lt_of_le cd d1) cd.le (lt_of_le_of_lt c0 cd) d1
  rwa [fix hab, fix hcd] at this

/-! ### NURBS patches -/

variable {p : NURBSPatch K V} {m n du dv : ℕ}

/-- The weighted quotient of a NURBS patch as an outcome. -/
def nurbsAny (p : NURBSPatch K V) (m n du dv : ℕ) (u v : K) : Outcome V :=
  if ratBSplineSurfaceDen du dv m n p.knotsU p.knotsV p.weights u v = 0 then ub
  else ok (ratBSplineSurface du dv m n p.knotsU p.knotsV p.grid p.weights u v)

/-- A piece of a NURBS patch with any weights. -/
def NPartAny (p : NURBSPatch K V) (m n du dv : ℕ) (q : NURBSPatch K V) (a b c d : K)
    (eu ev : Prop) : Prop :=
  ∃ m' n', NValid q m' n' du dv ∧ q.init = ok q ∧ q.perU = false ∧ q.perV = false ∧
    knot q.knotsU du = a ∧ knot q.knotsU m' = b ∧ knot q.knotsV dv = c ∧ knot q.knotsV n' = d ∧
    (∀ x ∈ q.weights, x ≠ 0) ∧
    (WideOn q.knotsU m' du → WideOn q.knotsV n' dv → ∀ x y, InDom q.knotsU m' du x →
      InDom q.knotsV n' dv y → (x < b ∨ eu) → (y < d ∨ ev) →
      q.evaluate x y = nurbsAny p m n du dv x y)

theorem ofHom_any (hi : p.init = ok p) {q : BSplinePatch K (V × K)} {a b c d : K} {eu ev : Prop}
    (H : PartOf p.hom m n du dv q a b c d eu ev) :
    (HasZero q.grid ∧ (NURBSPatch.ofHomogeneous q : Outcome (NURBSPatch K V)) = ub) ∨
    ∃ r, NURBSPatch.ofHomogeneous q = ok r ∧ NPartAny p m n du dv r a b c d eu ev := by
  have S := (sync_of_init hi).1
  obtain ⟨m', n', hv, qi, pu, pv, la, lb, lc, ld, hull, vals⟩ := H
  by_cases hz : HasZero q.grid
  · refine Or.inl ⟨hz, ?_⟩
    unfold NURBSPatch.ofHomogeneous
    rw [dehomogenize_ub hz]; rfl
  have ne := not_hasZero hz
  rw [hv.lowerU, ok.injEq] at la
  rw [hv.upperU, ok.injEq] at lb
  rw [hv.lowerV, ok.injEq] at lc
  rw [hv.upperV, ok.injEq] at ld
  let r : NURBSPatch K V := NURBSPatch.mk (q.grid.map fun x => x.2⁻¹ • x.1) (q.grid.map Prod.snd)
    q.knotsU q.knotsV du dv q.perU q.perV q.sU q.sV q
  have T : r.Sync := by
    refine ⟨by simp [r], by simp [r], by simp [r], ?_, rfl, rfl, hv.u.deg, hv.v.deg, rfl, rfl, rfl,
      rfl, qi⟩
    simp only [r]
    rw [homog_of_dehomogenize ne]
  refine Or.inr ⟨r, ?_, m', n', ⟨?_, ?_, ?_, ?_⟩, init_of_sync T, pu, pv, la, lb, lc, ld, ?_, ?_⟩
  · unfold NURBSPatch.ofHomogeneous
    rw [dehomogenize_eq ne, ok_bind, hv.degreeU, ok_bind, hv.degreeV, ok_bind]
    simp only
    rw [T.validate, ok_bind, pure_eq]
  · have := hv.u; rw [hv.u.deg] at this; exact this
  · have := hv.v; rw [hv.v.deg] at this; exact this
  · simpa [r] using hv.grid
  · simpa [r] using hv.grid
  · intro x hx
    obtain ⟨y, hy, rfl⟩ := List.mem_map.1 hx
    exact ne y hy
  · intro wu wv x y dx dy ex ey
    have := vals wu wv x y dx dy ex ey
    rw [S.grid, S.knotsU, S.knotsV, homog_bsplineSurface S.len.symm] at this
    unfold NURBSPatch.evaluate
    rw [T.validate, ok_bind, this, ok_bind, q0_any]
    rfl

/-- C63: `split_u` of a NURBS patch with any weights. -/
theorem C63_nurbs_split_u_any_partial {eps : K} (heps : 0 ≤ eps) (h : NValid p m n du dv)
    (hi : p.init = ok p) (hd : 1 ≤ du) {t : K}
    (h1 : knot p.knotsU du < t) (h2 : t < knot p.knotsU m) :
    (p.splitU eps t = ub ∧ ∃ l, p.hom.splitU eps t = ok l ∧ ∃ q ∈ l, HasZero q.grid) ∨
    ∃ q r, p.splitU eps t = ok [q, r] ∧
      NPartAny p m n du dv q (knot p.knotsU du) t (knot p.knotsV dv) (knot p.knotsV n)
        (p.knotsU.count t ≤ du) True ∧
      NPartAny p m n du dv r t (knot p.knotsU m) (knot p.knotsV dv) (knot p.knotsV n)
        True True := by
  have S := (sync_of_init hi).1
  obtain ⟨q, r, e, A, B⟩ := C65_split_u_partial heps (h.hom S) S.init hd (t := t)
    (by rw [S.knotsU]; exact h1) (by rw [S.knotsU]; exact h2)
  rw [S.knotsU, S.knotsV] at A B
  have eq : p.splitU eps t = NURBSPatch.ofParts [q, r] := by
    unfold NURBSPatch.splitU
    rw [e, ok_bind]
  simp only [NURBSPatch.ofParts] at eq
  rcases ofHom_any hi A with ⟨z, x⟩ | ⟨q', eq', A'⟩
  · exact Or.inl ⟨by rw [eq, x, ub_bind], _, e, q, by simp, z⟩
  rcases ofHom_any hi B with ⟨z, x⟩ | ⟨r', er, B'⟩
  · exact Or.inl ⟨by rw [eq, eq', ok_bind, x, ub_bind, ub_bind], _, e, r, by simp, z⟩
  refine Or.inr ⟨q', r', ?_, A', B'⟩
  rw [eq, eq', ok_bind, er, ok_bind]
  rfl

/-- C63: `split_v` of a NURBS patch with any weights. -/
theorem C63_nurbs_split_v_any_partial {eps : K} (heps : 0 ≤ eps) (h : NValid p m n du dv)
    (hi : p.init = ok p) (hd : 1 ≤ dv) {t : K}
    (h1 : knot p.knotsV dv < t) (h2 : t < knot p.knotsV n) :
    (p.splitV eps t = ub ∧ ∃ l, p.hom.splitV eps t = ok l ∧ ∃ q ∈ l, HasZero q.grid) ∨
    ∃ q r, p.splitV eps t = ok [q, r] ∧
      NPartAny p m n du dv q (knot p.knotsU du) (knot p.knotsU m) (knot p.knotsV dv) t
        True (p.knotsV.count t ≤ dv) ∧
      NPartAny p m n du dv r (knot p.knotsU du) (knot p.knotsU m) t (knot p.knotsV n)
        True True := by
  have S := (sync_of_init hi).1
  obtain ⟨q, r, e, A, B⟩ := C65_split_v_partial heps (h.hom S) S.init hd (t := t)
    (by rw [S.knotsV]; exact h1) (by rw [S.knotsV]; exact h2)
  rw [S.knotsU, S.knotsV] at A B
  have eq : p.splitV eps t = NURBSPatch.ofParts [q, r] := by
    unfold NURBSPatch.splitV
    rw [e, ok_bind]
  simp only [NURBSPatch.ofParts] at eq
  rcases ofHom_any hi A with ⟨z, x⟩ | ⟨q', eq', A'⟩
  · exact Or.inl ⟨by rw [eq, x, ub_bind], _, e, q, by simp, z⟩
  rcases ofHom_any hi B with ⟨z, x⟩ | ⟨r', er, B'⟩
  · exact Or.inl ⟨by rw [eq, eq', ok_bind, x, ub_bind, ub_bind], _, e, r, by simp, z⟩
  refine Or.inr ⟨q', r', ?_, A', B'⟩
  rw [eq, eq', ok_bind, er, ok_bind]
  rfl

/-- C63: `split` of a NURBS patch with any weights gives the four quadrants. -/
theorem C63_nurbs_split_any_partial {eps : K} (heps : 0 ≤ eps) (h : NValid p m n du dv)
    (hi : p.init = ok p) (hdu : 1 ≤ du) (hdv : 1 ≤ dv) {s t : K}
    (h1 : knot p.knotsU du < s) (h2 : s < knot p.knotsU m)
    (h3 : knot p.knotsV dv < t) (h4 : t < knot p.knotsV n) :
    (p.split eps s t = ub ∧ ∃ l, p.hom.split eps s t = ok l ∧ ∃ q ∈ l, HasZero q.grid) ∨
    ∃ a b c d, p.split eps s t = ok [a, b, c, d] ∧
      NPartAny p m n du dv a (knot p.knotsU du) s (knot p.knotsV dv) t
        (p.knotsU.count s ≤ du) (p.knotsV.count t ≤ dv) ∧
      NPartAny p m n du dv b (knot p.knotsU du) s t (knot p.knotsV n)
        (p.knotsU.count s ≤ du) True ∧
      NPartAny p m n du dv c s (knot p.knotsU m) (knot p.knotsV dv) t
        True (p.knotsV.count t ≤ dv) ∧
      NPartAny p m n du dv d s (knot p.knotsU m) t (knot p.knotsV n) True True := by
  have S := (sync_of_init hi).1
  obtain ⟨a, b, c, d, e, A, B, C, D⟩ := C65_split_partial heps (h.hom S) S.init hdu hdv (s := s)
    (t := t) (by rw [S.knotsU]; exact h1) (by rw [S.knotsU]; exact h2)
    (by rw [S.knotsV]; exact h3) (by rw [S.knotsV]; exact h4)
  rw [S.knotsU, S.knotsV] at A B C D
  have eq : p.split eps s t = NURBSPatch.ofParts [a, b, c, d] := by
    unfold NURBSPatch.split
    rw [e, ok_bind]
  simp only [NURBSPatch.ofParts] at eq
  rcases ofHom_any hi A with ⟨z, x⟩ | ⟨a', ea, A'⟩
  · exact Or.inl ⟨by rw [eq, x, ub_bind], _, e, a, by simp, z⟩
  rcases ofHom_any hi B with ⟨z, x⟩ | ⟨b', eb, B'⟩
  · exact Or.inl ⟨by rw [eq, ea, ok_bind, x, ub_bind, ub_bind], _, e, b, by simp, z⟩
  rcases ofHom_any hi C with ⟨z, x⟩ | ⟨c', ec, C'⟩
  · exact Or.inl ⟨by rw [eq, ea, ok_bind, eb, ok_bind, x, ub_bind, ub_bind, ub_bind], _, e, c,
      by simp, z⟩
  rcases ofHom_any hi D with ⟨z, x⟩ | ⟨d', ed, D'⟩
  · exact Or.inl ⟨by rw [eq, ea, ok_bind, eb, ok_bind, ec, ok_bind, x, ub_bind, ub_bind, ub_bind,
      ub_bind], _, e, d, by simp, z⟩
  refine Or.inr ⟨a', b', c', d', ?_, A', B', C', D'⟩
  rw [eq, ea, ok_bind, eb, ok_bind, ec, ok_bind, ed, ok_bind]
  rfl

/-- C63: `subpatch` of a NURBS patch with any weights. -/
theorem C63_nurbs_subpatch_any_partial {eps : K} (heps : 0 ≤ eps) (h : NValid p m n du dv)
    (hi : p.init = ok p) (hpu : p.perU = false) (hpv : p.perV = false)
    (hdu : 1 ≤ du) (hdv : 1 ≤ dv) {u0 u1 v0 v1 : K} (h1 : knot p.knotsU du ≤ u0) (h2 : u0 < u1)
    (h3 : u1 ≤ knot p.knotsU m) (h4 : knot p.knotsV dv ≤ v0) (h5 : v0 < v1)
    (h6 : v1 ≤ knot p.knotsV n) :
    (p.subpatch eps u0 u1 v0 v1 = ub ∧
      ∃ q, p.hom.subpatch eps u0 u1 v0 v1 = ok q ∧ HasZero q.grid) ∨
    ∃ q, p.subpatch eps u0 u1 v0 v1 = ok q ∧
      NPartAny p m n du dv q u0 u1 v0 v1 (u1 = knot p.knotsU m) (v1 = knot p.knotsV n) := by
  have S := (sync_of_init hi).1
  obtain ⟨q, e, A⟩ := C65_subpatch_partial heps (h.hom S) S.init (by rw [S.perU]; exact hpu)
    (by rw [S.perV]; exact hpv) hdu hdv (u0 := u0) (u1 := u1) (v0 := v0) (v1 := v1)
    (by rw [S.knotsU]; exact h1) h2 (by rw [S.knotsU]; exact h3) (by rw [S.knotsV]; exact h4) h5
    (by rw [S.knotsV]; exact h6)
  rw [S.knotsU, S.knotsV] at A
  rcases ofHom_any hi A with ⟨z, x⟩ | ⟨q', eq, A'⟩
  · exact Or.inl ⟨by unfold NURBSPatch.subpatch; rw [e, ok_bind, x], q, e, z⟩
  exact Or.inr ⟨q', by unfold NURBSPatch.subpatch; rw [e, ok_bind, eq], A'⟩

/-- Weights of both signs for which everything returns. -/
example :
    let c : RationalBezier ℚ ℚ := RationalBezier.mk (Bezier.mk [0, 1] false) [1, -3]
      (Bezier.mk [(0, 1), (-3, -3)] false)
    c.init = ok c ∧ (∃ c', c.elevateDegree = ok c') ∧ (∃ l, c.split 0 (1 / 3) = ok l) ∧
      c.evaluate (1 / 4) = ub := by
  refine ⟨by decide +kernel, ?_, ?_, by decide +kernel⟩
  · obtain ⟨c', e, -⟩ := (C10_rational_elevate_any (c := RationalBezier.mk (Bezier.mk [(0 : ℚ), 1]
      false) [(1 : ℚ), -3] (Bezier.mk [(0, 1), (-3, -3)] false)) (by decide +kernel) (by simp)).2
      (by decide +kernel)
    exact ⟨c', e⟩
  · rcases C62_rational_bezier_split_any (eps := (0 : ℚ)) le_rfl (c := RationalBezier.mk
      (Bezier.mk [(0 : ℚ), 1] false) [(1 : ℚ), -3] (Bezier.mk [(0, 1), (-3, -3)] false))
      (by decide +kernel) (by simp) rfl (t := 1 / 3) (by norm_num) (by norm_num)
      with ⟨h, -⟩ | ⟨a, b, e, -⟩
    · exact absurd h (by decide +kernel)
    · exact ⟨_, e⟩

/-- A rational Bézier patch with weights of both signs that can be split into quadrants. -/
example :
    let p : RationalBezierPatch ℚ ℚ :=
      RationalBezierPatch.mk (BezierPatch.mk [0, 1, 3, 2, 5, 7] 2 1 false false 2 1)
        [1, 2, 1, -3, 1, 2]
        (BezierPatch.mk [(0, 1), (2, 2), (3, 1), (-6, -3), (5, 1), (14, 2)] 2 1 false false 2 1)
    p.init = ok p ∧ Static p.base ∧ p.split (1/1000 : ℚ) (1/3) (1/5) ≠ ub := by
  refine ⟨by decide +kernel, ⟨rfl, rfl⟩, by decide +kernel⟩

end

end NS.Props
