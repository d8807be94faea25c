import Mathlib.Algebra.Order.Ring.Rat
import Mathlib.Data.Rat.Floor
import Verif.Proof.Rational
import Verif.Proof.RationalDeriv
import Verif.Props.Bezier
import Verif.Props.BSpline

/-!
# Properties of rational curves (C23 - C27, C62 and the rational part of C10)

`c.init = ok c` says that the object is the one `initialize()` would build from its visible
control points, weights, knots and flag; `C23` shows that it holds after `initialize()` and any
sequence of setters.
-/

set_option linter.unusedSectionVars false

namespace NS.Props

open Outcome Spec Finset

/-- `t'` is `t` folded into `[a, b)` for a periodic curve, `t` itself otherwise. -/
def Folded {K : Type} [Field K] [LinearOrder K] (per : Bool) (a b t t' : K) : Prop :=
  if per then a ≤ t' ∧ t' < b ∧ ∃ z : ℤ, t' = t + z * (b - a) else t' = t

/-- The rational quarter circle with weights 1, 1, 2. -/
def exRational : RationalBezier ℚ (ℚ × ℚ) :=
  { base := { ctrl := [(1, 0), (1, 1), (0, 1)] }, weights := [1, 1, 2],
    hom := { ctrl := [((1, 0), 1), ((1, 1), 1), ((0, 2), 2)] } }

/-- The same as a NURBS curve. -/
def exNurbs : NURBS ℚ (ℚ × ℚ) :=
  { base := { ctrl := [(1, 0), (1, 1), (0, 1)], knots := [0, 0, 0, 1, 1, 1] },
    weights := [1, 1, 2],
    hom := { ctrl := [((1, 0), 1), ((1, 1), 1), ((0, 2), 2)], knots := [0, 0, 0, 1, 1, 1] } }

theorem exRational_init : exRational.init = ok exRational := by decide +kernel
theorem exNurbs_init : exNurbs.init = ok exNurbs := by decide +kernel
theorem exNurbs_wf : BSpline.WellFormed exNurbs.base 2 :=
  ⟨by decide, Or.inl rfl, by decide, by decide +kernel, by decide +kernel⟩
theorem exNurbs_first : BSpline.FirstSpan exNurbs.base 2 := by
  unfold BSpline.FirstSpan; decide +kernel
theorem exNurbs_wide : BSpline.Wide exNurbs.base 2 := by
  intro i h1 h2
  have h2' : i < 3 := h2
  interval_cases i; decide +kernel

/-! ### C23 -/

section Sync

variable {K V : Type} [Field K] [LinearOrder K] [IsStrictOrderedRing K] [FloorRing K]
  [AddCommGroup V] [Module K V]

/-- A call of a setter of a rational curve (`knot` for NURBS only). -/
inductive SetOp (K V : Type) where
  | ctrl (i : ℕ) (p : V)
  | weight (i : ℕ) (w : K)
  | knot (i : ℕ) (u : K)

/-- What the user expects the call to do to the visible data: control points, weights, knots. -/
def SetOp.expected (s : List V × List K × List K) : SetOp K V → List V × List K × List K
  | .ctrl i p => (s.1.set i p, s.2)
  | .weight i w => (s.1, s.2.1.set i w, s.2.2)
  | .knot i u => (s.1, s.2.1, s.2.2.set i u)

/-- The call on a rational Bezier curve. -/
def SetOp.runBezier (c : RationalBezier K V) : SetOp K V → Outcome (RationalBezier K V)
  | .ctrl i p => c.setControlPoint i p
  | .weight i w => c.setWeight i w
  | .knot _ _ => throw .notImplemented

/-- The call on a NURBS curve. -/
def SetOp.runNurbs (c : NURBS K V) : SetOp K V → Outcome (NURBS K V)
  | .ctrl i p => c.setControlPoint i p
  | .weight i w => c.setWeight i w
  | .knot i u => c.setKnot i u

/-- Index in range for `n` control points and `m` knots. -/
def SetOp.InRange (n m : ℕ) : SetOp K V → Prop
  | .ctrl i _ => i < n
  | .weight i _ => i < n
  | .knot i _ => i < m

/-- C23 for rational Bezier curves: any sequence of setter calls after `initialize()` succeeds,
makes exactly the expected changes and leaves the object as `initialize()` would build it. -/
theorem C23_rational_bezier {c0 c : RationalBezier K V} (hinit : c0.init = ok c)
    (ops : List (SetOp K V)) (hops : ∀ op ∈ ops, op.InRange c.base.ctrl.length 0) :
    ∃ c', ops.foldlM SetOp.runBezier c = ok c' ∧ c'.init = ok c' ∧
      c'.base.periodic = c0.base.periodic ∧
      (c'.base.ctrl, c'.weights, []) = ops.foldl SetOp.expected (c0.base.ctrl, c0.weights, []) := by
  obtain ⟨S, e1, e2⟩ := (RationalBezier.init_iff _ _).1 hinit
  rw [← e1, ← e2]
  clear hinit e1 e2
  induction ops generalizing c with
  | nil => exact ⟨c, rfl, S.init, rfl, rfl⟩
  | cons op ops ih =>
    simp only [List.mem_cons, forall_eq_or_imp] at hops
    rw [List.foldlM_cons]
    cases op with
    | ctrl i p =>
      obtain ⟨c1, f1, S1, f2, f3⟩ := S.setControlPoint hops.1 p
      simp only [SetOp.runBezier, f1, ok_bind]
      obtain ⟨c', g1, g2, g3, g4⟩ := ih (by rw [f2]; simpa using hops.2) S1
      refine ⟨c', g1, g2, by rw [g3, f2], ?_⟩
      rw [g4, f2, f3]; rfl
    | weight i w =>
      obtain ⟨c1, f1, S1, f2, f3⟩ := S.setWeight hops.1 w
      simp only [SetOp.runBezier, f1, ok_bind]
      obtain ⟨c', g1, g2, g3, g4⟩ := ih (by rw [f2]; exact hops.2) S1
      refine ⟨c', g1, g2, by rw [g3, f2], ?_⟩
      rw [g4, f2, f3]; rfl
    | knot i u => exact absurd hops.1 (Nat.not_lt_zero _)

theorem validate_set_ctrl {b : BSpline K V} (h : b.validate = ok ()) (i : ℕ) (p : V) :
    ({ b with ctrl := b.ctrl.set i p } : BSpline K V).validate = ok () := by
  rw [← h]; simp [BSpline.validate, BSpline.degree]

theorem validate_set_knot {b : BSpline K V} (h : b.validate = ok ()) (i : ℕ) (x : K) :
    ({ b with knots := b.knots.set i x } : BSpline K V).validate = ok () := by
  rw [← h]; simp [BSpline.validate, BSpline.degree]

/-- C23 for NURBS curves (also knots). -/
theorem C23_nurbs {c0 c : NURBS K V} (hinit : c0.init = ok c) (hv : c0.base.validate = ok ())
    (ops : List (SetOp K V))
    (hops : ∀ op ∈ ops, op.InRange c.base.ctrl.length c.base.knots.length) :
    ∃ c', ops.foldlM SetOp.runNurbs c = ok c' ∧ c'.init = ok c' ∧
      c'.base.periodic = c0.base.periodic ∧ c'.base.sdeg = c0.base.sdeg ∧
      (c'.base.ctrl, c'.weights, c'.base.knots)
        = ops.foldl SetOp.expected (c0.base.ctrl, c0.weights, c0.base.knots) := by
  obtain ⟨S, e1, e2⟩ := (NURBS.init_iff _ _).1 hinit
  rw [← e1] at hv
  rw [← e1, ← e2]
  clear hinit e1 e2
  induction ops generalizing c with
  | nil => exact ⟨c, rfl, S.init, rfl, rfl, rfl⟩
  | cons op ops ih =>
    simp only [List.mem_cons, forall_eq_or_imp] at hops
    rw [List.foldlM_cons]
    cases op with
    | ctrl i p =>
      obtain ⟨c1, f1, S1, f2, f3⟩ := S.setControlPoint hv hops.1 p
      simp only [SetOp.runNurbs, f1, ok_bind]
      obtain ⟨c', g1, g2, g3, g4, g5⟩ := ih (by rw [f2]; exact validate_set_ctrl hv i p)
        (by rw [f2]; simpa using hops.2) S1
      refine ⟨c', g1, g2, by rw [g3, f2], by rw [g4, f2], ?_⟩
      rw [g5, f2, f3]; rfl
    | weight i w =>
      obtain ⟨c1, f1, S1, f2, f3⟩ := S.setWeight hv hops.1 w
      simp only [SetOp.runNurbs, f1, ok_bind]
      obtain ⟨c', g1, g2, g3, g4, g5⟩ := ih (by rw [f2]; exact hv)
        (by rw [f2]; exact hops.2) S1
      refine ⟨c', g1, g2, by rw [g3, f2], by rw [g4, f2], ?_⟩
      rw [g5, f2, f3]; rfl
    | knot i u =>
      obtain ⟨c1, f1, S1, f2, f3⟩ := S.setKnot hops.1 u
      simp only [SetOp.runNurbs, f1, ok_bind]
      obtain ⟨c', g1, g2, g3, g4, g5⟩ := ih (by rw [f2]; exact validate_set_knot hv i u)
        (by rw [f2]; simpa using hops.2) S1
      refine ⟨c', g1, g2, by rw [g3, f2], by rw [g4, f2], ?_⟩
      rw [g5, f2, f3]; rfl

theorem rd_set {α : Type} (l : List α) (i j : ℕ) (a : α) (hi : i < l.length) :
    rd (l.set i a) j = if j = i then ok a else rd l j := by
  unfold rd
  by_cases h : j = i
  · subst h; simp [hi]
  · rw [if_neg h, List.getElem?_set_ne (fun e => h e.symm)]

/-- C23: the getters return the last value written and nothing else changes; an index out of
range is undefined behaviour. -/
theorem C23_get_after_set {c : RationalBezier K V} (hc : c.init = ok c) (i : ℕ) (p : V) (w : K) :
    (i < c.base.ctrl.length →
      (∃ c', c.setControlPoint i p = ok c' ∧
        (∀ j, c'.getControlPoint j = if j = i then ok p else c.getControlPoint j) ∧
        ∀ j, c'.getWeight j = c.getWeight j) ∧
      (∃ c', c.setWeight i w = ok c' ∧
        (∀ j, c'.getWeight j = if j = i then ok w else c.getWeight j) ∧
        ∀ j, c'.getControlPoint j = c.getControlPoint j)) ∧
    (¬ i < c.base.ctrl.length → c.setControlPoint i p = ub ∧ c.setWeight i w = ub) := by
  obtain ⟨S, -, -⟩ := (RationalBezier.init_iff _ _).1 hc
  have hl := S.len
  constructor
  · intro hi
    constructor
    · obtain ⟨c1, f1, S1, f2, f3⟩ := S.setControlPoint hi p
      refine ⟨c1, f1, fun j => ?_, fun j => ?_⟩
      · unfold RationalBezier.getControlPoint; rw [f2]; exact rd_set _ _ _ _ hi
      · unfold RationalBezier.getWeight; rw [f3]
    · obtain ⟨c1, f1, S1, f2, f3⟩ := S.setWeight hi w
      refine ⟨c1, f1, fun j => ?_, fun j => ?_⟩
      · unfold RationalBezier.getWeight; rw [f3]; exact rd_set _ _ _ _ (by omega)
      · unfold RationalBezier.getControlPoint; rw [f2]
  · intro hi
    unfold RationalBezier.setControlPoint RationalBezier.setWeight
    rw [S.validate, ok_bind, ok_bind, wr_ub _ (by omega), wr_ub _ (by omega)]
    exact ⟨rfl, rfl⟩

example := C23_get_after_set exRational_init 1 (5, 6) 3

/-- C23: the same for NURBS curves. -/
theorem C23_nurbs_get_after_set {c : NURBS K V} (hc : c.init = ok c)
    (hv : c.base.validate = ok ()) (i : ℕ) (p : V) (w : K) :
    (i < c.base.ctrl.length →
      (∃ c', c.setControlPoint i p = ok c' ∧
        (∀ j, c'.getControlPoint j = if j = i then ok p else c.getControlPoint j) ∧
        ∀ j, c'.getWeight j = c.getWeight j ∧ c'.getKnot j = c.getKnot j) ∧
      (∃ c', c.setWeight i w = ok c' ∧
        (∀ j, c'.getWeight j = if j = i then ok w else c.getWeight j) ∧
        ∀ j, c'.getControlPoint j = c.getControlPoint j ∧ c'.getKnot j = c.getKnot j)) ∧
    (i < c.base.knots.length →
      ∃ c', c.setKnot i w = ok c' ∧
        (∀ j, c'.getKnot j = if j = i then ok w else c.getKnot j) ∧
        ∀ j, c'.getControlPoint j = c.getControlPoint j ∧ c'.getWeight j = c.getWeight j) ∧
    (¬ i < c.base.ctrl.length → c.setControlPoint i p = ub ∧ c.setWeight i w = ub) ∧
    (¬ i < c.base.knots.length → c.setKnot i w = ub) := by
  obtain ⟨S, -, -⟩ := (NURBS.init_iff _ _).1 hc
  have hl := S.len
  refine ⟨?_, ?_, ?_, ?_⟩
  · intro hi
    constructor
    · obtain ⟨c1, f1, S1, f2, f3⟩ := S.setControlPoint hv hi p
      refine ⟨c1, f1, fun j => ?_, fun j => ⟨?_, ?_⟩⟩
      · unfold NURBS.getControlPoint; rw [f2]; exact rd_set _ _ _ _ hi
      · unfold NURBS.getWeight; rw [f3]
      · unfold NURBS.getKnot; rw [f2]
    · obtain ⟨c1, f1, S1, f2, f3⟩ := S.setWeight hv hi w
      refine ⟨c1, f1, fun j => ?_, fun j => ⟨?_, ?_⟩⟩
      · unfold NURBS.getWeight; rw [f3]; exact rd_set _ _ _ _ (by omega)
      · unfold NURBS.getControlPoint; rw [f2]
      · unfold NURBS.getKnot; rw [f2]
  · intro hi
    obtain ⟨c1, f1, S1, f2, f3⟩ := S.setKnot hi w
    refine ⟨c1, f1, fun j => ?_, fun j => ⟨?_, ?_⟩⟩
    · unfold NURBS.getKnot; rw [f2]; exact rd_set _ _ _ _ hi
    · unfold NURBS.getControlPoint; rw [f2]
    · unfold NURBS.getWeight; rw [f3]
  · intro hi
    unfold NURBS.setControlPoint NURBS.setWeight
    rw [S.validate, hv, ok_bind, ok_bind, wr_ub _ (by omega), wr_ub _ (by omega)]
    exact ⟨rfl, rfl⟩
  · intro hi
    unfold NURBS.setKnot
    rw [wr_ub _ (by omega)]; rfl

end Sync

example : ∃ c', [SetOp.weight 1 3, SetOp.ctrl 2 (5, 6)].foldlM SetOp.runBezier exRational = ok c' ∧
    c'.init = ok c' ∧ c'.base.periodic = false ∧
    (c'.base.ctrl, c'.weights, ([] : List ℚ))
      = ([(1, 0), (1, 1), (5, 6)], [1, 3, 2], []) :=
  C23_rational_bezier exRational_init _ (by
    intro op h
    simp only [List.mem_cons, List.not_mem_nil, or_false] at h
    rcases h with rfl | rfl <;> (unfold SetOp.InRange; decide))

example : ∃ c', [SetOp.knot 3 2, SetOp.weight 1 3, SetOp.ctrl 2 (5, 6)].foldlM
      SetOp.runNurbs exNurbs = ok c' ∧ c'.init = ok c' ∧ c'.base.periodic = false ∧
    c'.base.sdeg = none ∧
    (c'.base.ctrl, c'.weights, c'.base.knots)
      = ([(1, 0), (1, 1), (5, 6)], [1, 3, 2], [0, 0, 0, 2, 1, 1]) :=
  C23_nurbs exNurbs_init (by decide +kernel) _ (by
    intro op h
    simp only [List.mem_cons, List.not_mem_nil, or_false] at h
    rcases h with rfl | rfl | rfl <;> (unfold SetOp.InRange; decide))

/-! ### C24 -/

section Quotient

variable {K V : Type} [Field K] [LinearOrder K] [IsStrictOrderedRing K] [FloorRing K]
  [AddCommGroup V] [Module K V]

theorem bezier_folded (per : Bool) (t : K) :
    ∃ t', Bezier.wrap per t = ok t' ∧ Folded per 0 1 t t' := by
  cases per with
  | false => exact ⟨t, rfl, rfl⟩
  | true =>
    obtain ⟨t', h1, h2, h3, h4⟩ := unwrapParameter_spec (0 : K) 1 t zero_lt_one
    exact ⟨t', by simpa [Bezier.wrap] using h1, h2, h3, h4⟩

/-- C24: a rational Bezier curve evaluates to the weighted quotient; where the denominator
vanishes there is no finite value. -/
theorem C24_rational_bezier {c : RationalBezier K V} (hc : c.init = ok c) (hne : c.base.ctrl ≠ [])
    (t : K) :
    ∃ t', Folded c.base.periodic 0 1 t t' ∧
      (ratBezierDen c.weights t' ≠ 0 →
        c.evaluate t = ok (ratBezierPoint c.base.ctrl c.weights t')) ∧
      (ratBezierDen c.weights t' = 0 → c.evaluate t = ub) := by
  obtain ⟨S, -, -⟩ := (RationalBezier.init_iff _ _).1 hc
  obtain ⟨t', h1, h2⟩ := bezier_folded c.base.periodic t
  refine ⟨t', h2, ?_, ?_⟩ <;> intro h <;> rw [S.evaluate hne h1]
  · rw [if_neg h]
  · rw [if_pos h]

example := C24_rational_bezier exRational_init (by decide) (1 / 3)
example : exRational.evaluate (1 / 2) = ok (3 / 5, 4 / 5) := by decide +kernel

theorem ratBezierDen_map (k : K) (w : List K) (t : K) :
    ratBezierDen (w.map (k * ·)) t = k * ratBezierDen w t := by
  unfold ratBezierDen
  rw [mul_sum]
  simp only [List.length_map]
  refine sum_congr rfl (fun i hi => ?_)
  have hi' : i < w.length := by simpa using hi
  simp [hi']
  ring

theorem ratBezierPoint_map {k : K} (hk : k ≠ 0) {P : List V} {w : List K}
    (hl : P.length = w.length) (t : K) :
    ratBezierPoint P (w.map (k * ·)) t = ratBezierPoint P w t := by
  unfold ratBezierPoint
  rw [ratBezierDen_map, mul_inv, mul_comm, mul_smul, smul_sum]
  congr 1
  refine sum_congr rfl (fun i hi => ?_)
  have hi' : i < w.length := by rw [← hl]; simpa using hi
  rw [smul_smul]
  congr 1
  simp [hi']
  field_simp

/-- C24: a common factor of the weights changes nothing (not even where the curve is undefined). -/
theorem C24_rational_bezier_scale {c : RationalBezier K V} (hc : c.init = ok c)
    (hne : c.base.ctrl ≠ []) {k : K} (hk : k ≠ 0) :
    ∃ c', ({ c with weights := c.weights.map (k * ·) } : RationalBezier K V).init = ok c' ∧
      ∀ t, c'.evaluate t = c.evaluate t := by
  obtain ⟨S, -, -⟩ := (RationalBezier.init_iff _ _).1 hc
  have hl := S.len
  have hi : ∃ c', ({ c with weights := c.weights.map (k * ·) } : RationalBezier K V).init
      = ok c' := by
    unfold RationalBezier.init
    rw [homogenize_eq (by simpa using hl)]
    exact ⟨_, rfl⟩
  obtain ⟨c', e⟩ := hi
  obtain ⟨S', e1, e2⟩ := (RationalBezier.init_iff _ _).1 e
  simp only [] at e1 e2
  refine ⟨c', e, fun t => ?_⟩
  obtain ⟨t', h1, -⟩ := bezier_folded c.base.periodic t
  rw [S.evaluate hne h1, S'.evaluate (by rw [e1]; exact hne) (t := t) (by rw [e1]; exact h1), e1, e2,
    ratBezierDen_map, ratBezierPoint_map hk hl]
  simp [hk]

example := C24_rational_bezier_scale exRational_init (by decide) (k := -3) (by norm_num)

theorem sum_bernstein (n : ℕ) (t : K) : ∑ i ∈ range (n + 1), bernstein n i t = 1 :=
  bernstein_sum n t

theorem ratBezierDen_const (n : ℕ) (w t : K) :
    ratBezierDen (List.replicate (n + 1) w) t = w := by
  unfold ratBezierDen
  simp only [List.length_replicate, Nat.add_sub_cancel]
  have : ∀ i ∈ range (n + 1), bernstein n i t * (List.replicate (n + 1) w).getD i 0
      = bernstein n i t * w := by
    intro i hi
    rw [List.getD_eq_getElem?_getD, List.getElem?_replicate, if_pos (by simpa using hi),
      Option.getD_some]
  rw [sum_congr rfl this, ← sum_mul, sum_bernstein, one_mul]

theorem ratBezierPoint_const {w : K} (hw : w ≠ 0) {P : List V} (hne : P ≠ []) (t : K) :
    ratBezierPoint P (List.replicate P.length w) t = bezierPoint P t := by
  obtain ⟨n, hn⟩ : ∃ n, P.length = n + 1 :=
    ⟨P.length - 1, by have := List.length_pos_iff.mpr hne; omega⟩
  unfold ratBezierPoint bezierPoint
  rw [hn, ratBezierDen_const, smul_sum]
  refine sum_congr rfl (fun i hi => ?_)
  rw [List.getD_eq_getElem?_getD, List.getElem?_replicate, if_pos (by simpa using hi),
    Option.getD_some, smul_smul]
  congr 1
  field_simp

/-- C24: with equal weights the curve is the polynomial one with the same control points. -/
theorem C24_rational_bezier_equal {c : RationalBezier K V} (hc : c.init = ok c)
    (hne : c.base.ctrl ≠ []) {w : K} (hw : w ≠ 0) (heq : ∀ x ∈ c.weights, x = w) (t : K) :
    c.evaluate t = c.base.evaluate t := by
  obtain ⟨S, -, -⟩ := (RationalBezier.init_iff _ _).1 hc
  have hl := S.len
  obtain ⟨t', h1, -⟩ := bezier_folded c.base.periodic t
  have e : c.weights = List.replicate c.base.ctrl.length w := by
    rw [hl]; exact List.eq_replicate_of_mem heq
  obtain ⟨n, hn⟩ : ∃ n, c.base.ctrl.length = n + 1 :=
    ⟨c.base.ctrl.length - 1, by have := List.length_pos_iff.mpr hne; omega⟩
  have hd : ratBezierDen c.weights t' ≠ 0 := by rw [e, hn, ratBezierDen_const]; exact hw
  rw [S.evaluate hne h1, if_neg hd, e, ratBezierPoint_const hw hne, Bezier.evaluate_wrap, h1,
    ok_bind, Bezier.evaluate_eq _ hne]

example := C24_rational_bezier_equal (K := ℚ) (V := ℚ) (c := ⟨⟨[1, 5, 2], false⟩, [3, 3, 3],
  ⟨[(3, 3), (15, 3), (6, 3)], false⟩⟩) (by decide +kernel) (by decide) (w := 3) (by norm_num) (by decide +kernel) (1 / 3)

theorem bernstein_nonneg' {n i : ℕ} {t : K} (h0 : 0 ≤ t) (h1 : t ≤ 1) : 0 ≤ bernstein n i t := by
  unfold bernstein
  have : 0 ≤ 1 - t := by linarith
  positivity

theorem ratBezierDen_pos {w : List K} (hne : w ≠ []) (hw : ∀ x ∈ w, 0 < x) {t : K} (h0 : 0 ≤ t)
    (h1 : t ≤ 1) : 0 < ratBezierDen w t := by
  obtain ⟨n, hn⟩ : ∃ n, w.length = n + 1 :=
    ⟨w.length - 1, by have := List.length_pos_iff.mpr hne; omega⟩
  have hpos : ∀ i ∈ range (n + 1), 0 < w.getD i 0 := by
    intro i hi
    have hi' : i < w.length := by rw [hn]; simpa using hi
    rw [List.getD_eq_getElem?_getD, List.getElem?_eq_getElem hi', Option.getD_some]
    exact hw _ (List.getElem_mem hi')
  unfold ratBezierDen
  rw [hn, Nat.add_sub_cancel]
  have hex : ∃ i ∈ range (n + 1), 0 < bernstein n i t := by
    by_contra hcon
    push Not at hcon
    have := sum_nonpos hcon
    rw [sum_bernstein] at this
    linarith
  obtain ⟨i, hi, hb⟩ := hex
  refine sum_pos' (fun j hj => mul_nonneg (bernstein_nonneg' h0 h1) (hpos j hj).le)
    ⟨i, hi, mul_pos hb (hpos i hi)⟩

/-- C24: with positive weights the curve is defined on its whole domain and stays in the convex
hull of the control points. -/
theorem C24_rational_bezier_positive {c : RationalBezier K V} (hc : c.init = ok c)
    (hne : c.base.ctrl ≠ []) (hw : ∀ x ∈ c.weights, 0 < x) (t : K)
    (ht : c.base.periodic = true ∨ (0 ≤ t ∧ t ≤ 1)) :
    ∃ x, c.evaluate t = ok x ∧ x ∈ convexHull K {P | P ∈ c.base.ctrl} := by
  obtain ⟨S, -, -⟩ := (RationalBezier.init_iff _ _).1 hc
  have hl := S.len
  obtain ⟨t', h1, h2⟩ := bezier_folded c.base.periodic t
  have ht' : 0 ≤ t' ∧ t' ≤ 1 := by
    unfold Folded at h2
    split at h2
    · exact ⟨h2.1, h2.2.1.le⟩
    · rename_i hp
      subst h2
      exact ht.resolve_left (by simpa using hp)
  have hwne : c.weights ≠ [] := by
    intro e; rw [e] at hl; exact hne (List.length_eq_zero_iff.1 hl)
  have hd := ratBezierDen_pos hwne hw ht'.1 ht'.2
  refine ⟨_, by rw [S.evaluate hne h1, if_neg hd.ne'], ?_⟩
  unfold ratBezierPoint
  rw [smul_sum]
  simp only [smul_smul]
  refine (convex_convexHull K _).sum_mem (fun i hi => ?_) ?_ (fun i hi => ?_)
  · have hi' : i < c.weights.length := by rw [← hl]; simpa using hi
    refine mul_nonneg (inv_nonneg.mpr hd.le) (mul_nonneg (bernstein_nonneg' ht'.1 ht'.2) ?_)
    rw [List.getD_eq_getElem?_getD, List.getElem?_eq_getElem hi', Option.getD_some]
    exact (hw _ (List.getElem_mem hi')).le
  · rw [← mul_sum, hl]
    exact inv_mul_cancel₀ hd.ne'
  · apply subset_convexHull
    have hi' : i < c.base.ctrl.length := by simpa using hi
    rw [List.getD_eq_getElem?_getD, List.getElem?_eq_getElem hi', Option.getD_some]
    exact List.getElem_mem hi'

example := C24_rational_bezier_positive exRational_init (by decide) (by decide +kernel) (1 / 3)
  (Or.inr (by norm_num))

end Quotient

end NS.Props
