import Verif.Props.RationalNurbs

/-!
# Operations of rational curves: degree elevation (C10), split, knot insertion and conversion (C62)

All of them work on the homogeneous curve and divide by the new weights.  With positive weights the
new weights are positive; with weights of mixed sign a new weight may be zero, and the result has
no finite control points (`C10_rational_zero_refuted`, `C62_zero_refuted`).
-/

set_option linter.unusedSectionVars false

namespace NS.Props

open Outcome Spec Finset BSpline Polynomial

section Ops

variable {K V : Type} [Field K] [LinearOrder K] [IsStrictOrderedRing K] [FloorRing K]
  [AddCommGroup V] [Module K V]

theorem convex_pos : Convex K {q : V × K | 0 < q.2} := by
  intro x hx y hy a b ha hb hab
  simp only [Set.mem_ofPred_eq, Prod.snd_add, Prod.smul_snd, smul_eq_mul] at hx hy ⊢
  rcases ha.eq_or_lt with h | h
  · subst h
    have : b = 1 := by linarith
    subst this
    simpa using hy
  · have h1 := mul_pos h hx
    have h2 := mul_nonneg hb hy.le
    linarith

theorem hull_pos {Q Q' : List (V × K)} (h : HullOf K Q Q') (hQ : ∀ q ∈ Q, 0 < q.2) :
    ∀ q ∈ Q', 0 < q.2 :=
  h {q | 0 < q.2} convex_pos hQ

theorem hom_pos {P : List V} {w : List K} (hl : P.length = w.length) (hw : ∀ x ∈ w, 0 < x) :
    ∀ q ∈ homog P w, 0 < q.2 := by
  intro q hq
  have : q.2 ∈ w := by
    rw [← map_snd_homog hl]
    exact List.mem_map_of_mem hq
  exact hw _ this

theorem sync_evaluate_hom {c : RationalBezier K V} (S : RationalBezier.Sync c) (t : K) :
    c.evaluate t = (c.hom.evaluate t >>= quot0) := by
  unfold RationalBezier.evaluate
  rw [S.validate]; rfl

/-! ### C10 -/

theorem elevate_hull {c c' : Bezier V} (hc : c.ctrl ≠ []) (h : Bezier.elevateDegree K c = ok c') :
    HullOf K c.ctrl c'.ctrl := by
  obtain ⟨n, P, e⟩ := Bezier.exists_arr c.ctrl hc
  have ec : c = { ctrl := arr (n + 1) P, periodic := c.periodic } := by cases c; simp_all
  rw [ec, Bezier.elevateDegree_arr, ok.injEq] at h
  intro S hS h0 q hq
  rw [← h] at hq
  simp only [] at hq
  have hP : ∀ i ≤ n, P i ∈ S := by
    intro i hi
    apply h0
    rw [e, arr]
    exact List.mem_map.mpr ⟨i, by simp; omega, rfl⟩
  rw [arr] at hq
  obtain ⟨i, hi, rfl⟩ := List.mem_map.mp hq
  have hi' : i < n + 2 := by simpa using hi
  split_ifs with h1 h2
  · exact hP 0 (by omega)
  · exact hP n le_rfl
  · have hpos : (0 : K) < (n : K) + 1 := by positivity
    have hle : (i : K) / (n + 1) ≤ 1 := by
      rw [div_le_one hpos]
      have : i ≤ n + 1 := by omega
      exact_mod_cast this
    exact hS (hP i (by omega)) (hP (i - 1) (by omega)) (by linarith) (by positivity) (by ring)

/-- C10: degree elevation of a rational curve with positive weights. -/
theorem C10_rational_elevate {c : RationalBezier K V} (hc : c.init = ok c) (hne : c.base.ctrl ≠ [])
    (hw : ∀ x ∈ c.weights, 0 < x) :
    ∃ c', c.elevateDegree = ok c' ∧ c'.init = ok c' ∧
      c'.base.ctrl.length = c.base.ctrl.length + 1 ∧ c'.base.periodic = c.base.periodic ∧
      (∀ x ∈ c'.weights, 0 < x) ∧ ∀ t, c'.evaluate t = c.evaluate t := by
  obtain ⟨S, -, -⟩ := (RationalBezier.init_iff _ _).1 hc
  have hhc : c.hom.ctrl = homog c.base.ctrl c.weights := by rw [S.hom]
  have hhl : c.hom.ctrl.length = c.base.ctrl.length := by rw [hhc]; exact homog_length S.len
  have hhn : c.hom.ctrl ≠ [] := by
    intro h
    rw [h] at hhl
    exact hne (List.length_eq_zero_iff.1 hhl.symm)
  have hhp : c.hom.periodic = c.base.periodic := by rw [S.hom]
  obtain ⟨h, e, l, p, ev⟩ := C10_elevate (K := K) c.hom hhn
  have hpos : ∀ q ∈ h.ctrl, 0 < q.2 :=
    hull_pos (elevate_hull hhn e) (by rw [hhc]; exact hom_pos S.len hw)
  obtain ⟨c', e', S', h1, h2, h3, h4⟩ :=
    RationalBezier.ofHomogeneous_eq (h := h) (fun q hq => (hpos q hq).ne')
  refine ⟨c', ?_, S'.init, ?_, ?_, ?_, ?_⟩
  · unfold RationalBezier.elevateDegree
    rw [S.validate, ok_bind, e, ok_bind, e', ok_bind, assert_true (by rw [h4, p, hhp])]
    rfl
  · rw [h2, List.length_map, l, hhl]
  · rw [h4, p, hhp]
  · rw [h3]
    intro x hx
    obtain ⟨q, hq, rfl⟩ := List.mem_map.mp hx
    exact hpos q hq
  · intro t
    rw [sync_evaluate_hom S', sync_evaluate_hom S, h1, ev]

example := C10_rational_elevate exRational_init (by decide) (by decide +kernel)

/-- C10 fails for weights of mixed sign: weights 1, -1 give a zero weight in the middle. -/
theorem C10_rational_zero_refuted :
    let c : RationalBezier ℚ ℚ := RationalBezier.mk (Bezier.mk [0, 1] false) [1, -1]
      (Bezier.mk [(0, 1), (-1, -1)] false)
    c.init = ok c ∧ c.evaluate (1 / 4) = ok (-1 / 2) ∧ c.elevateDegree = ub := by
  decide +kernel

example : ∀ x ∈ exRational.weights, 0 < x := by decide +kernel

/-! ### Split of rational Bézier curves -/

theorem umb_mem {S : Set V} (hS : Convex K S) {t : K} (h0 : 0 ≤ t) (h1 : t ≤ 1) {P : ℕ → V} :
    ∀ (a b : ℕ), (∀ i, i ≤ a + b → P i ∈ S) → umb P (lin t ^ a * X ^ b) ∈ S := by
  intro a
  induction a with
  | zero =>
    intro b h
    rw [pow_zero, one_mul, umb_X_pow]
    exact h b (by omega)
  | succ a ih =>
    intro b h
    rw [pow_succ', mul_assoc, umb_lin_mul]
    have e : (X : K[X]) * (lin t ^ a * X ^ b) = lin t ^ a * X ^ (b + 1) := by ring
    rw [e]
    exact hS (ih b (fun i hi => h i (by omega))) (ih (b + 1) (fun i hi => h i (by omega)))
      (by linarith) h0 (by ring)

theorem bezier_split_hull {c A B : Bezier V} (hc : c.ctrl ≠ []) {t : K} (h0 : 0 < t) (h1 : t < 1)
    (h : Bezier.split c t = ok [A, B]) : HullOf K c.ctrl A.ctrl ∧ HullOf K c.ctrl B.ctrl := by
  obtain ⟨n, P, e⟩ := Bezier.exists_arr c.ctrl hc
  have ec : c = { ctrl := arr (n + 1) P, periodic := c.periodic } := by cases c; simp_all
  rw [ec, Bezier.split_arr (n + 1) P c.periodic t h0 h1, ok.injEq, List.cons.injEq,
    List.cons.injEq] at h
  obtain ⟨rfl, rfl, -⟩ := h
  have hP : ∀ S : Set V, (∀ q ∈ c.ctrl, q ∈ S) → ∀ i ≤ n, P i ∈ S := by
    intro S h0 i hi
    apply h0
    rw [e, arr]
    exact List.mem_map.mpr ⟨i, by simp; omega, rfl⟩
  refine ⟨?_, ?_⟩ <;> intro S hS hq0 q hq <;> simp only [arr] at hq <;>
    obtain ⟨i, hi, rfl⟩ := List.mem_map.mp hq <;>
    have hi' : i < n + 1 := (by simpa using hi)
  · have := umb_mem hS h0.le h1.le (P := P) i 0 (fun j hj => hP S hq0 j (by omega))
    simpa using this
  · exact umb_mem hS h0.le h1.le (P := P) _ _ (fun j hj => hP S hq0 j (by omega))

/-- C62 for rational Bézier curves: the two parts of a split with positive weights are consistent
curves with positive weights that trace the two parts of the curve. -/
theorem C62_rational_bezier_split {eps : K} (heps : 0 ≤ eps) {c : RationalBezier K V}
    (hc : c.init = ok c) (hne : c.base.ctrl ≠ []) (hper : c.base.periodic = false)
    (hw : ∀ x ∈ c.weights, 0 < x) {t : K} (h0 : 0 < t) (h1 : t < 1) :
    ∃ a b, c.split eps t = ok [a, b] ∧ a.init = ok a ∧ b.init = ok b ∧
      (∀ x ∈ a.weights, 0 < x) ∧ (∀ x ∈ b.weights, 0 < x) ∧
      a.base.ctrl.length = c.base.ctrl.length ∧ b.base.ctrl.length = c.base.ctrl.length ∧
      (∀ s, a.evaluate s = c.evaluate (t * s)) ∧
      (∀ s, b.evaluate s = c.evaluate (t + (1 - t) * s)) := by
  obtain ⟨S, -, -⟩ := (RationalBezier.init_iff _ _).1 hc
  have hhc : c.hom.ctrl = homog c.base.ctrl c.weights := by rw [S.hom]
  have hhl : c.hom.ctrl.length = c.base.ctrl.length := by rw [hhc]; exact homog_length S.len
  have hhn : c.hom.ctrl ≠ [] := by
    intro h
    rw [h] at hhl
    exact hne (List.length_eq_zero_iff.1 hhl.symm)
  have hhp : c.hom.periodic = false := by rw [S.hom]; exact hper
  obtain ⟨A, B, e1, e2⟩ := (C08_freeSplit_partial eps heps c.hom hhn t).2.2 ⟨h0, h1⟩
  obtain ⟨A', B', e3, l1, l2, v1, v2⟩ := C07_split c.hom hhn hhp t h0 h1
  rw [e2, ok.injEq, List.cons.injEq, List.cons.injEq] at e3
  obtain ⟨rfl, rfl, -⟩ := e3
  obtain ⟨H1, H2⟩ := bezier_split_hull hhn h0 h1 e2
  have hp0 : ∀ q ∈ c.hom.ctrl, 0 < q.2 := by rw [hhc]; exact hom_pos S.len hw
  have p1 := hull_pos H1 hp0
  have p2 := hull_pos H2 hp0
  obtain ⟨a, ea, Sa, a1, a2, a3, a4⟩ :=
    RationalBezier.ofHomogeneous_eq (h := A) (fun q hq => (p1 q hq).ne')
  obtain ⟨b, eb, Sb, b1, b2, b3, b4⟩ :=
    RationalBezier.ofHomogeneous_eq (h := B) (fun q hq => (p2 q hq).ne')
  refine ⟨a, b, ?_, Sa.init, Sb.init, ?_, ?_, ?_, ?_, ?_, ?_⟩
  · unfold RationalBezier.split
    rw [e1, ok_bind, RationalBezier.ofParts, ea, ok_bind, RationalBezier.ofParts, eb, ok_bind]
    rfl
  · rw [a3]
    intro x hx
    obtain ⟨q, hq, rfl⟩ := List.mem_map.mp hx
    exact p1 q hq
  · rw [b3]
    intro x hx
    obtain ⟨q, hq, rfl⟩ := List.mem_map.mp hx
    exact p2 q hq
  · rw [a2, List.length_map, l1, hhl]
  · rw [b2, List.length_map, l2, hhl]
  · intro s; rw [sync_evaluate_hom Sa, sync_evaluate_hom S, a1, v1]
  · intro s; rw [sync_evaluate_hom Sb, sync_evaluate_hom S, b1, v2]

example := C62_rational_bezier_split (eps := 0) le_rfl exRational_init (by decide) rfl (by decide +kernel)
  (t := 1 / 3) (by norm_num) (by norm_num)

/-! ### C62: NURBS -/

theorem nurbs_evaluate_hom {c : NURBS K V} (S : NURBS.Sync c) {p : ℕ} (hc : WellFormed c.base p)
    (t : K) : c.evaluate t = (c.hom.evaluate t >>= quot0) := by
  unfold NURBS.evaluate
  rw [S.validate, NURBS.wf_validate hc]; rfl

/-- The curve built from a homogeneous spline with positive weights. -/
theorem nurbs_of_hom {h : BSpline K (V × K)} {p : ℕ} (hwf : WellFormed h p)
    (hpos : ∀ q ∈ h.ctrl, 0 < q.2) :
    ∃ c, NURBS.ofHomogeneous h = ok c ∧ NURBS.Sync c ∧ c.hom = h ∧ (∀ x ∈ c.weights, 0 < x) ∧
      WellFormed c.base p ∧ c.base.knots = h.knots ∧ c.base.ctrl.length = h.ctrl.length ∧
      c.base.periodic = h.periodic := by
  obtain ⟨c, e, S, h1, h2, h3⟩ := NURBS.ofHomogeneous_eq (h := h) (fun q hq => (hpos q hq).ne')
    (NURBS.wf_validate hwf)
  refine ⟨c, e, S, h1, ?_, ?_, ?_, ?_, ?_⟩
  · rw [h3]
    intro x hx
    obtain ⟨q, hq, rfl⟩ := List.mem_map.mp hx
    exact hpos q hq
  · rw [← S.wf, h1]; exact hwf
  · rw [← S.knots, h1]
  · rw [← S.homLen, h1]
  · rw [← S.per, h1]

/-- C62: knot insertion into a NURBS curve with positive weights (under the conditions of C17): the
result is consistent, has positive weights, the old knots and `m` times `t`, and evaluates like the
original. -/
theorem C62_insert_knot_partial {eps : K} (heps : 0 ≤ eps) {c : NURBS K V} (hc : c.init = ok c)
    {p : ℕ} (hwf : WellFormed c.base p) (hfst : FirstSpan c.base p)
    (hpos : ∀ x ∈ c.weights, 0 < x) {t : K} (h1 : knot c.base.knots p < t)
    (h2 : t ≤ knot c.base.knots c.base.ctrl.length) {m : ℕ} (hm : 1 ≤ m)
    (hmul : m + (if t = knot c.base.knots c.base.ctrl.length then 0 else c.base.knots.count t) ≤ p) :
    ∃ c', c.insertKnot eps t m = ok c' ∧ c'.init = ok c' ∧ WellFormed c'.base p ∧
      (∀ x ∈ c'.weights, 0 < x) ∧ c'.base.ctrl.length = c.base.ctrl.length + m ∧
      c'.base.knots.Perm (List.replicate m t ++ c.base.knots) ∧
      c'.base.periodic = c.base.periodic ∧
      (Wide c.base p → Wide c'.base p → ∀ x, knot c.base.knots p < x →
        (x < knot c.base.knots c.base.ctrl.length ∨
          (c.base.periodic = false ∧ x ≤ knot c.base.knots c.base.ctrl.length)) →
        c'.evaluate x = c.evaluate x) := by
  obtain ⟨S, -, -⟩ := (NURBS.init_iff _ _).1 hc
  have hwh := S.wf.2 hwf
  have key := (insertKnot_inserted heps hwh (t := t) (r := m) (Or.inl (S.first.2 hfst))
    (by rw [S.knots]; exact h1.le) (by rw [S.knots, S.homLen]; exact h2) hm).2
    (by rw [S.knots, S.homLen]; exact hmul)
  obtain ⟨h, e, I⟩ := key
  have hp : ∀ q ∈ h.ctrl, 0 < q.2 :=
    hull_pos I.hull (by rw [S.ctrl]; exact hom_pos S.len hpos)
  obtain ⟨c', e', S', b1, b2, b3, b4, b5, b6⟩ := nurbs_of_hom I.wf hp
  refine ⟨c', ?_, S'.init, b3, b2, ?_, ?_, ?_, ?_⟩
  · unfold NURBS.insertKnot
    rw [S.validate, NURBS.wf_validate hwf, ok_bind, e, ok_bind, e']
  · rw [b5, I.ctrl, S.homLen]
  · rw [b4, ← S.knots]; exact I.perm
  · rw [b6, I.periodic, S.per]
  · intro w w' x hx1 hx2
    rw [nurbs_evaluate_hom S hwf, nurbs_evaluate_hom S' b3, b1]
    have SC : SameCurve c.hom h p (List.replicate m t) :=
      ⟨I.wf, by simpa using I.ctrl, I.perm, I.lower, I.upper, I.periodic, I.sdeg, I.point⟩
    rw [C17_evaluate hwh SC (S.wide.2 w) (by rw [← b1, S'.wide]; exact w')
      (Or.inr (by rw [S.knots]; exact hx1)) (Or.inr (by rw [S.knots]; exact hx1))
      (by rw [S.knots]; exact hx1.le) (by rw [S.knots, S.homLen, S.per]; exact hx2)]

example := C62_insert_knot_partial (eps := 0) le_rfl exNurbs_init exNurbs_wf exNurbs_first (by decide +kernel)
  (t := 1 / 3) (by decide +kernel) (by decide +kernel) (m := 2) (by norm_num) (by decide +kernel)

/-- C62: splitting a NURBS curve with positive weights (under the conditions of C19). -/
theorem C62_split_partial {eps : K} (heps : 0 ≤ eps) {c : NURBS K V} (hc : c.init = ok c)
    {p : ℕ} (hwf : WellFormed c.base p) (hw : Wide c.base p) (hp : 1 ≤ p)
    (hpos : ∀ x ∈ c.weights, 0 < x) {t : K} (h1 : knot c.base.knots p < t)
    (h2 : t < knot c.base.knots c.base.ctrl.length) :
    ∃ a b, c.split eps t = ok [a, b] ∧ a.init = ok a ∧ b.init = ok b ∧
      WellFormed a.base p ∧ WellFormed b.base p ∧
      (∀ x ∈ a.weights, 0 < x) ∧ (∀ x ∈ b.weights, 0 < x) ∧
      knot a.base.knots p = knot c.base.knots p ∧ knot a.base.knots a.base.ctrl.length = t ∧
      knot b.base.knots p = t ∧
      knot b.base.knots b.base.ctrl.length = knot c.base.knots c.base.ctrl.length ∧
      (Wide a.base p → ∀ x, knot c.base.knots p < x → x ≤ t → (x < t ∨ c.base.knots.count t ≤ p) →
        a.evaluate x = c.evaluate x) ∧
      (Wide b.base p → ∀ x, t ≤ x → x < knot c.base.knots c.base.ctrl.length →
        b.evaluate x = c.evaluate x) := by
  obtain ⟨S, -, -⟩ := (NURBS.init_iff _ _).1 hc
  have hwh := S.wf.2 hwf
  obtain ⟨A, B, e, L, R⟩ := split_spec heps hwh hp (t := t) (by rw [S.knots]; exact h1)
    (by rw [S.knots, S.homLen]; exact h2)
  have hp0 : ∀ q ∈ c.hom.ctrl, 0 < q.2 := by rw [S.ctrl]; exact hom_pos S.len hpos
  obtain ⟨a, ea, Sa, a1, a2, a3, a4, a5, a6⟩ := nurbs_of_hom L.wf (hull_pos L.hull hp0)
  obtain ⟨b, eb, Sb, b1, b2, b3, b4, b5, b6⟩ := nurbs_of_hom R.wf (hull_pos R.hull hp0)
  have hva : ∀ wa : Wide a.base p, Wide A p := fun wa => by rw [← a1, Sa.wide]; exact wa
  have hvb : ∀ wb : Wide b.base p, Wide B p := fun wb => by rw [← b1, Sb.wide]; exact wb
  have wh := S.wide.2 hw
  refine ⟨a, b, ?_, Sa.init, Sb.init, a3, b3, a2, b2, ?_, ?_, ?_, ?_, ?_, ?_⟩
  · unfold NURBS.split
    rw [e, ok_bind, NURBS.ofParts, ea, ok_bind, NURBS.ofParts, eb, ok_bind]
    rfl
  · rw [a4, L.lower, S.knots]
  · rw [a4, a5, L.upper]
  · rw [b4, R.lower]
  · rw [b4, b5, R.upper, S.knots, S.homLen]
  · intro wa x x1 x2 x3
    have hx3 := lt_of_le_of_lt x2 h2
    rw [nurbs_evaluate_hom Sa a3, nurbs_evaluate_hom S hwf, a1]
    congr 1
    rw [evaluate_eq hwh wh (t' := x) (wrap_of_mem hwh (by rw [S.knots]; exact x1.le)
        (Or.inl (by rw [S.knots, S.homLen]; exact hx3))) (Or.inr (by rw [S.knots]; exact x1))
        (by rw [S.knots]; exact x1.le) (by rw [S.knots, S.homLen]; exact hx3.le),
      evaluate_eq L.wf (hva wa) (wrap_nonperiodic L.periodic x)
        (Or.inr (by rw [L.lower, S.knots]; exact x1))
        (by rw [L.lower, S.knots]; exact x1.le) (by rw [L.upper]; exact x2)]
    rcases x2.lt_or_eq with h | h
    · rw [L.point x (by rw [S.knots]; exact x1.le) h]
    · subst h
      rw [L.last (by rw [S.knots]; rcases x3 with h | h; · exact absurd h (lt_irrefl _)
                     · exact h)]
  · intro wb x x1 x2
    have x0 := lt_of_lt_of_le h1 x1
    rw [nurbs_evaluate_hom Sb b3, nurbs_evaluate_hom S hwf, b1]
    congr 1
    rw [evaluate_eq hwh wh (t' := x) (wrap_of_mem hwh (by rw [S.knots]; exact x0.le)
        (Or.inl (by rw [S.knots, S.homLen]; exact x2))) (Or.inr (by rw [S.knots]; exact x0))
        (by rw [S.knots]; exact x0.le) (by rw [S.knots, S.homLen]; exact x2.le),
      evaluate_eq R.wf (hvb wb) (wrap_nonperiodic R.periodic x) (Or.inl R.first)
        (by rw [R.lower]; exact x1) (by rw [R.upper, S.knots, S.homLen]; exact x2.le),
      R.point x x1 (by rw [S.knots, S.homLen]; exact x2.le)]

example := C62_split_partial (eps := 0) le_rfl exNurbs_init exNurbs_wf exNurbs_wide (by norm_num) (by decide +kernel)
  (t := 1 / 3) (by decide +kernel) (by decide +kernel)

theorem ofParts_ok : ∀ (l : List (Bezier (V × K))), (∀ s ∈ l, ∀ q ∈ s.ctrl, 0 < q.2) →
    ∃ rs : List (RationalBezier K V), RationalBezier.ofParts l = ok rs ∧
      rs.length = l.length ∧
      ∀ (i : ℕ) (r : RationalBezier K V), rs[i]? = some r → ∃ s, l[i]? = some s ∧ RationalBezier.Sync r ∧ r.hom = s ∧
        (∀ x ∈ r.weights, 0 < x) ∧ r.base.ctrl.length = s.ctrl.length
  | [], _ => ⟨[], rfl, rfl, by simp⟩
  | s :: l, h => by
    obtain ⟨rs, e, hl, H⟩ := ofParts_ok l (fun s hs => h s (List.mem_cons_of_mem _ hs))
    have hp := h s (by simp)
    obtain ⟨r, er, Sr, r1, r2, r3, r4⟩ :=
      RationalBezier.ofHomogeneous_eq (h := s) (fun q hq => (hp q hq).ne')
    refine ⟨r :: rs, by rw [RationalBezier.ofParts, er, ok_bind, e, ok_bind]; rfl, by simp [hl], ?_⟩
    intro i r' hr
    cases i with
    | zero =>
      simp only [List.getElem?_cons_zero, Option.some.injEq] at hr ⊢
      subst hr
      refine ⟨s, rfl, Sr, r1, ?_, by rw [r2, List.length_map]⟩
      rw [r3]
      intro x hx
      obtain ⟨q, hq, rfl⟩ := List.mem_map.mp hx
      exact hp q hq
    | succ i =>
      simp only [List.getElem?_cons_succ] at hr ⊢
      exact H i r' hr

/-- C62: conversion of a NURBS curve with positive weights to rational Bézier pieces. -/
theorem C62_to_rational_bezier_partial {eps : K} (heps : 0 ≤ eps) {c : NURBS K V}
    (hc : c.init = ok c) {p : ℕ} (hwf : WellFormed c.base p) (hw : Wide c.base p)
    (hfst : FirstSpan c.base p) (hpos : ∀ x ∈ c.weights, 0 < x) :
    ∃ segs bounds, c.toRationalBezier eps = ok (segs, bounds) ∧
      bounds.length = segs.length + 1 ∧ bounds.Pairwise (· < ·) ∧
      bounds.head? = some (knot c.base.knots p) ∧
      bounds.getLast? = some (knot c.base.knots c.base.ctrl.length) ∧
      ∀ i s, segs[i]? = some s → ∃ a b, bounds[i]? = some a ∧ bounds[i + 1]? = some b ∧
        s.init = ok s ∧ s.base.ctrl.length = p + 1 ∧ (∀ x ∈ s.weights, 0 < x) ∧
        ∀ x : K, 0 ≤ x → x < 1 → s.evaluate x = c.evaluate ((1 - x) * a + x * b) := by
  obtain ⟨S, -, -⟩ := (NURBS.init_iff _ _).1 hc
  have hwh := S.wf.2 hwf
  obtain ⟨segs, bs, e, P⟩ := toBezier_spec heps hwh (Or.inl (S.first.2 hfst))
  obtain ⟨g1, g2, g3, g4, g5⟩ := pieces_index segs bs _ P
  obtain ⟨segs', bounds, e', ev⟩ :=
    C20_toBezier_evaluate_partial heps hwh (S.wide.2 hw) (S.first.2 hfst)
  rw [e, ok.injEq, Prod.mk.injEq] at e'
  obtain ⟨rfl, rfl⟩ := e'
  have hp0 : ∀ q ∈ c.hom.ctrl, 0 < q.2 := by rw [S.ctrl]; exact hom_pos S.len hpos
  obtain ⟨rs, er, rl, H⟩ := ofParts_ok segs (by
    intro s hs
    obtain ⟨i, hi, rfl⟩ := List.mem_iff_getElem.mp hs
    obtain ⟨a, b, -, -, G⟩ := g5 i _ (List.getElem?_eq_getElem hi)
    exact hull_pos G.hull hp0)
  refine ⟨rs, _, ?_, by simp [g1, rl], g2, by rw [S.knots]; rfl,
    by rw [g3, S.knots, S.homLen], ?_⟩
  · unfold NURBS.toRationalBezier
    rw [e, ok_bind]
    simp only []
    rw [er, ok_bind]
    rfl
  · intro i r hr
    obtain ⟨s, hs, Sr, r1, r2, r3⟩ := H i r hr
    obtain ⟨a, b, ha, hb, hev⟩ := ev i s hs
    obtain ⟨a', b', ha', hb', G⟩ := g5 i s hs
    refine ⟨a, b, ha, hb, Sr.init, by rw [r3, G.len], r2, ?_⟩
    intro x x0 x1
    rw [sync_evaluate_hom Sr, nurbs_evaluate_hom S hwf, r1, hev x x0 x1]

example := C62_to_rational_bezier_partial (eps := 0) le_rfl exNurbs_init exNurbs_wf exNurbs_wide exNurbs_first
  (by decide +kernel)

/-- C62 fails for weights of mixed sign: an inserted knot may get a zero weight although the curve
is defined at the knot's neighbours. -/
theorem C62_zero_refuted :
    let c : NURBS ℚ ℚ := NURBS.mk (BSpline.mk [0, 1] [0, 0, 1, 1] false none) [1, -1]
      (BSpline.mk [(0, 1), (-1, -1)] [0, 0, 1, 1] false none)
    c.init = ok c ∧ c.evaluate (1 / 4) = ok (-1 / 2) ∧ c.insertKnot 0 (1 / 2) 1 = ub ∧
      c.split 0 (1 / 2) = ub := by
  decide +kernel

example : ∃ c', exNurbs.insertKnot 0 (1 / 2) 2 = ok c' ∧ c'.init = ok c' := by
  obtain ⟨c', e, h, -⟩ := C62_insert_knot_partial le_rfl exNurbs_init exNurbs_wf exNurbs_first
    (t := 1 / 2) (m := 2) (by decide +kernel) (by decide +kernel) (by decide +kernel) (by norm_num)
    (by decide +kernel)
  exact ⟨c', e, h⟩

end Ops

end NS.Props
