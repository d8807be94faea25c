import Verif.Proof.BSplinePatch
import Verif.Proof.PatchBase
import Verif.Props.BSpline
import Verif.Props.RationalNurbs
import Verif.Props.BezierPatch

/-!
# C31, C32, C64, C65, C66, C33, C59: B-spline patches

`p.init = ok p` says that `initialize` has been called since the last change of `p`: calling it
again changes nothing.  `Valid` is the agreement of knots, degrees and grid.
-/

set_option linter.unusedSectionVars false
set_option linter.unusedSimpArgs false

namespace NS.Props

open Outcome Spec Finset BSplinePatch Polynomial
open BSpline (WellFormed Wide FirstSpan HullOf)

/-- Degrees 2 and 1, an interior knot in `u`, before `initialize`. -/
def exRaw : BSplinePatch ℚ ℚ :=
  BSplinePatch.mk [0, 1, 3, 2, 5, 7, 4, 6] [0, 0, 0, 1/2, 1, 1, 1] [0, 0, 1, 1] 2 1 false false
    2 1 [] []

/-- The same after `initialize`. -/
def exBP : BSplinePatch ℚ ℚ :=
  BSplinePatch.mk [0, 1, 3, 2, 5, 7, 4, 6] [0, 0, 0, 1/2, 1, 1, 1] [0, 0, 1, 1] 2 1 false false
    2 1
    [BSpline.mk [0, 3, 5, 4] [0, 0, 0, 1/2, 1, 1, 1] false (some 2),
      BSpline.mk [1, 2, 7, 6] [0, 0, 0, 1/2, 1, 1, 1] false (some 2)]
    [BSpline.mk [0, 1] [0, 0, 1, 1] false (some 1), BSpline.mk [3, 2] [0, 0, 1, 1] false (some 1),
      BSpline.mk [5, 7] [0, 0, 1, 1] false (some 1), BSpline.mk [4, 6] [0, 0, 1, 1] false (some 1)]

theorem exBP_init : exRaw.init = ok exBP ∧ exBP.init = ok exBP := by
  constructor <;> decide +kernel

theorem exBP_valid : exBP.Valid 4 2 2 1 := by
  refine ⟨⟨rfl, rfl, Or.inr rfl, by decide, by decide +kernel, by decide +kernel⟩,
    ⟨rfl, rfl, Or.inr rfl, by decide, by decide +kernel, by decide +kernel⟩, rfl⟩

theorem exBP_wide : WideOn exBP.knotsU 4 2 ∧ WideOn exBP.knotsV 2 1 := by
  constructor
  · intro i h1 h2; interval_cases i <;> decide +kernel
  · intro i h1 h2; interval_cases i; decide +kernel

section General

variable {K V W : Type} [Field K] [LinearOrder K] [IsStrictOrderedRing K] [FloorRing K]
  [AddCommGroup V] [Module K V] [AddCommGroup W] [Module K W]

variable {p : BSplinePatch K V} {m n du dv : ℕ}

/-! ### C31 -/

theorem axis_folded {u : List K} {deg s : ℤ} {n d : ℕ} (h : Axis u deg s n d) (per : Bool) (t : K) :
    ∃ t', wrapOn u n d per t = ok t' ∧ Folded per (knot u d) (knot u n) t t' := by
  obtain ⟨t', e, f⟩ := bspline_folded (h.wf (V := K) per (c := arr n (fun _ => 0)) (by simp)) t
  refine ⟨t', ?_, by simpa using f⟩
  rw [← h.wrap (V := K) (c := arr n (fun _ => 0)) (by simp)]
  exact e

/-- C31: `initialize` succeeds on matching data, changes nothing but the caches and may be
repeated. -/
theorem C31_init (h : p.Valid m n du dv) :
    ∃ q, p.init = ok q ∧ q.init = ok q ∧ q.Valid m n du dv ∧ q.grid = p.grid ∧
      q.knotsU = p.knotsU ∧ q.knotsV = p.knotsV ∧ q.degU = p.degU ∧ q.degV = p.degV ∧
      q.perU = p.perU ∧ q.perV = p.perV := by
  obtain ⟨q, e, hr, e1, e2, e3, e4, e5, e6, e7, e8, e9⟩ := h.init_ready
  refine ⟨q, e, ?_, hr.toValid, e1, e2, e3, e4, e5, e6, e7⟩
  rw [hr.toValid.init, ← hr.isoU, ← hr.isoV]

example := C31_init exBP_valid

/-- C31: an initialised patch evaluates to the tensor product B-spline sum at the parameters folded
into the domain, with either order of iso-curves. -/
theorem C31_evaluate (h : p.Valid m n du dv) (hi : p.init = ok p) (hwu : WideOn p.knotsU m du)
    (hwv : WideOn p.knotsV n dv) (u v : K) :
    ∃ u' v', Folded p.perU (knot p.knotsU du) (knot p.knotsU m) u u' ∧
      Folded p.perV (knot p.knotsV dv) (knot p.knotsV n) v v' ∧
      (InDom p.knotsU m du u' → InDom p.knotsV n dv v' →
        p.evaluate u v = ok (bsplineSurface du dv m n p.knotsU p.knotsV p.grid u' v') ∧
        (do let c ← p.isoCurveU v; c.evaluate u) = p.evaluate u v ∧
        (do let c ← p.isoCurveV u; c.evaluate v) = p.evaluate u v) := by
  obtain ⟨u', hu, fu⟩ := axis_folded h.u p.perU u
  obtain ⟨v', hv, fv⟩ := axis_folded h.v p.perV v
  have hr := h.ready hi
  refine ⟨u', v', fu, fv, fun du dv => ?_⟩
  rw [hr.evaluate hwu hwv hu du hv dv, hr.evaluateUV hwu hwv hu du hv dv,
    hr.evaluateVU hwu hwv hu du hv dv, tsum_eq]
  exact ⟨rfl, rfl, rfl⟩

example := C31_evaluate exBP_valid exBP_init.2 exBP_wide.1 exBP_wide.2 (1 / 4) (1 / 3)

theorem wrapOn_mem {u : List K} {n d : ℕ} {per : Bool} {t : K}
    (h1 : knot u d ≤ t) (h2 : t < knot u n ∨ per = false) : wrapOn u n d per t = ok t := by
  unfold wrapOn
  split
  · rename_i hp
    exact unwrapParameter_of_mem _ _ _ h1 (h2.resolve_right (by simp [hp]))
  · rfl

/-- C31 without folding: inside the domain the value is the sum at the parameters themselves. -/
theorem C31_evaluate_domain (h : p.Valid m n du dv) (hi : p.init = ok p)
    (hwu : WideOn p.knotsU m du) (hwv : WideOn p.knotsV n dv) {u v : K}
    (hu : InDom p.knotsU m du u) (hv : InDom p.knotsV n dv v)
    (hu' : u < knot p.knotsU m ∨ p.perU = false) (hv' : v < knot p.knotsV n ∨ p.perV = false) :
    p.evaluate u v = ok (bsplineSurface du dv m n p.knotsU p.knotsV p.grid u v) := by
  rw [(h.ready hi).evaluate hwu hwv (wrapOn_mem hu.1 hu') hu
    (wrapOn_mem hv.1 hv') hv, tsum_eq]

theorem axis_basis {u : List K} {deg s : ℤ} {n d : ℕ} (h : Axis u deg s n d) {t : K}
    (ht : InDom u n d t) :
    (∀ i < n, 0 ≤ basis (knot u) (knot u n) d i t) ∧
      ∑ i ∈ range n, basis (knot u) (knot u n) d i t = 1 := by
  have hwf := h.wf (V := K) false (c := arr n (fun _ => 0)) (by simp)
  obtain ⟨k, Q, hk, hin⟩ := BSpline.exists_atSpan hwf t ht.2.2 ht.1 (by simp; exact ht.2.1)
  obtain ⟨a, -, b⟩ := C14_basis hwf.sorted hwf.len hk.le hk.lt hin
  simp at a b
  exact ⟨a, b⟩

/-- C31: on the domain the surface lies in the convex hull of its control points. -/
theorem C31_convex_hull (h : p.Valid m n du dv) {u v : K} (hu : InDom p.knotsU m du u)
    (hv : InDom p.knotsV n dv v) :
    bsplineSurface du dv m n p.knotsU p.knotsV p.grid u v ∈ convexHull K {y | y ∈ p.grid} := by
  obtain ⟨bu, su⟩ := axis_basis h.u hu
  obtain ⟨bv, sv⟩ := axis_basis h.v hv
  rw [← tsum_eq]
  unfold BSplinePatch.tsum bsum
  refine (convex_convexHull K _).sum_mem (fun i hi => bu i (mem_range.1 hi)) su fun i hi => ?_
  refine (convex_convexHull K _).sum_mem (fun j hj => bv j (mem_range.1 hj)) sv fun j hj => ?_
  apply subset_convexHull
  have hl : i * n + j < p.grid.length := by
    rw [h.grid]; exact lin_lt (mem_range.1 hi) (mem_range.1 hj)
  change gridPoint p.grid n i j ∈ p.grid
  unfold gridPoint
  rw [List.getD_eq_getElem?_getD, List.getElem?_eq_getElem hl, Option.getD_some]
  exact List.getElem_mem hl

example := C31_convex_hull exBP_valid (u := 1 / 4) (v := 1 / 3)
  ⟨by decide +kernel, by decide +kernel, Or.inl (by decide +kernel)⟩
  ⟨by decide +kernel, by decide +kernel, Or.inl (by decide +kernel)⟩

/-- C31: data that do not fit are refused. -/
theorem C31_init_mismatch (hu : 0 ≤ p.degU) (hv : 0 ≤ p.degV)
    (hl : (p.grid.length : ℤ) ≠
      ((p.knotsU.length : ℤ) - p.degU - 1) * ((p.knotsV.length : ℤ) - p.degV - 1)) :
    p.init = Outcome.throw .invalidSetting := by
  unfold init degreeU degreeV
  rw [assert_true hu, ok_bind, assert_true hv]
  simp only [pure_bind, ok_bind]
  rw [throwIf_true]
  · rfl
  · intro e
    apply hl
    rw [e, Int.toNat_of_nonneg hu, Int.toNat_of_nonneg hv]

example : exBP.evaluate (1/4) (1/3) = ok (bsplineSurface 2 1 4 2 exBP.knotsU exBP.knotsV exBP.grid
    (1/4 : ℚ) (1/3)) ∧ exBP.evaluate (1/4) (1/3) = ok (59/24) := by
  refine ⟨?_, by decide +kernel⟩
  exact C31_evaluate_domain exBP_valid exBP_init.2 exBP_wide.1 exBP_wide.2
    ⟨by decide +kernel, by decide +kernel, Or.inr (by decide +kernel)⟩
    ⟨by decide +kernel, by decide +kernel, Or.inr (by decide +kernel)⟩ (Or.inr rfl) (Or.inr rfl)

/-! ### C32 -/

/-- C32 is false as stated: `set_control_point` never changes what the evaluators return, whatever
the patch, the indices and the new point. -/
theorem C32_set_control_point_refuted {q : BSplinePatch K V} {i j : ℕ} {x : V}
    (hq : p.setControlPoint i j x = ok q) (u v : K) :
    q.evaluate u v = p.evaluate u v ∧ q.derivU u v = p.derivU u v ∧
      q.derivV u v = p.derivV u v := by
  unfold setControlPoint at hq
  obtain ⟨k, hk, hq⟩ := bind_eq_ok.1 hq
  obtain ⟨g, hg, hq⟩ := bind_eq_ok.1 hq
  rw [pure_eq, ok.injEq] at hq
  subst hq
  exact ⟨rfl, rfl, rfl⟩

/-- C32 is false as stated: an initialised patch whose corner is moved still evaluates to the old
corner, while the sum over the new grid is the new corner. -/
theorem C32_stale_point_refuted :
    ∃ q, exBP.setControlPoint 0 0 (9 : ℚ) = ok q ∧ q.evaluate 0 0 = ok (0 : ℚ) ∧
      q.getControlPoint 0 0 = ok (9 : ℚ) ∧
      (do let r ← q.init; r.evaluate 0 0) = ok (9 : ℚ) := by
  refine ⟨{ exBP with grid := [9, 1, 3, 2, 5, 7, 4, 6] }, ?_, ?_, ?_, ?_⟩ <;> decide +kernel

/-- C32 is false as stated: after `set_knot_v` the value is that of the old knots when
`degree_v ≤ degree_u`. -/
theorem C32_stale_knot_refuted :
    ∃ q, exBP.setKnotV 2 (2 : ℚ) = ok q ∧ ∃ r, q.setKnotV 3 (2 : ℚ) = ok r ∧
      r.evaluate 0 1 = ok (1 : ℚ) ∧
      (do let s ← r.init; s.evaluate 0 1) = ok (1/2 : ℚ) := by
  refine ⟨{ exBP with knotsV := [0, 0, 2, 1] }, by decide +kernel,
    { exBP with knotsV := [0, 0, 2, 2] }, ?_, ?_, ?_⟩ <;> decide +kernel

/-- The calls that change a patch. -/
inductive Edit (K V : Type) where
  | point (i j : ℕ) (x : V)
  | knotU (i : ℕ) (x : K)
  | knotV (i : ℕ) (x : K)
  | initialize_
  deriving Repr

/-- Effect of one call. -/
def Edit.run (p : BSplinePatch K V) : Edit K V → Outcome (BSplinePatch K V)
  | .point i j x => p.setControlPoint i j x
  | .knotU i x => p.setKnotU i x
  | .knotV i x => p.setKnotV i x
  | .initialize_ => p.init

/-- Effect of a history of calls. -/
def runAll (p : BSplinePatch K V) : List (Edit K V) → Outcome (BSplinePatch K V)
  | [] => ok p
  | e :: r => do
    let q ← e.run p
    runAll q r

/-- Last control point written at `(i, j)`, `d` if there is none. -/
def lastPoint (i j : ℕ) (d : V) : List (Edit K V) → V
  | [] => d
  | .point a b x :: r => lastPoint i j (if a = i ∧ b = j then x else d) r
  | _ :: r => lastPoint i j d r

/-- Last `u`-knot written at `i`, `d` if there is none. -/
def lastKnotU (i : ℕ) (d : K) : List (Edit K V) → K
  | [] => d
  | .knotU a x :: r => lastKnotU i (if a = i then x else d) r
  | _ :: r => lastKnotU i d r

/-- Last `v`-knot written at `i`, `d` if there is none. -/
def lastKnotV (i : ℕ) (d : K) : List (Edit K V) → K
  | [] => d
  | .knotV a x :: r => lastKnotV i (if a = i then x else d) r
  | _ :: r => lastKnotV i d r

/-- What every call keeps. -/
structure SameShape (p q : BSplinePatch K V) : Prop where
  grid : q.grid.length = p.grid.length
  ku : q.knotsU.length = p.knotsU.length
  kv : q.knotsV.length = p.knotsV.length
  degU : q.degU = p.degU
  degV : q.degV = p.degV
  perU : q.perU = p.perU
  perV : q.perV = p.perV
  sU : q.sU = p.sU
  sV : q.sV = p.sV

theorem wr_set {α : Type} {l l' : List α} {i : ℕ} {x : α} (h : wr l i x = ok l') :
    i < l.length ∧ l' = l.set i x := by
  by_cases hi : i < l.length
  · rw [wr_of_lt _ hi, ok.injEq] at h
    exact ⟨hi, h.symm⟩
  · rw [wr_ub _ (by omega)] at h
    cases h

theorem getD_set {α : Type} (l : List α) (i j : ℕ) (x d : α) (hi : i < l.length) :
    (l.set i x).getD j d = if i = j then x else l.getD j d := by
  by_cases e : i = j
  · subst e
    rw [if_pos rfl, List.getD_eq_getElem?_getD, List.getElem?_set_self hi, Option.getD_some]
  · rw [if_neg e, List.getD_eq_getElem?_getD, List.getElem?_set_ne e, List.getD_eq_getElem?_getD]

theorem init_same {q : BSplinePatch K V} (h : p.init = ok q) :
    ∃ iu iv, q = { p with isoU := iu, isoV := iv } := by
  unfold init at h
  obtain ⟨_, h1, h⟩ := bind_eq_ok.1 h
  obtain ⟨_, h2, h⟩ := bind_eq_ok.1 h
  obtain ⟨_, h3, h⟩ := bind_eq_ok.1 h
  obtain ⟨iu, h4, h⟩ := bind_eq_ok.1 h
  obtain ⟨iv, h5, h⟩ := bind_eq_ok.1 h
  rw [pure_eq, ok.injEq] at h
  exact ⟨iu, iv, h.symm⟩

theorem edit_spec {q : BSplinePatch K V} {e : Edit K V} (h : e.run p = ok q)
    (hn : p.numV = ok n) :
    SameShape p q ∧
      (∀ i j, j < n → (∀ a b x, e = .point a b x → b < n) →
        gridPoint q.grid n i j = lastPoint i j (gridPoint p.grid n i j) [e]) ∧
      (∀ i, knot q.knotsU i = lastKnotU i (knot p.knotsU i) [e]) ∧
      (∀ i, knot q.knotsV i = lastKnotV i (knot p.knotsV i) [e]) := by
  cases e with
  | point a b x =>
    unfold Edit.run setControlPoint linearIndex at h
    rw [hn] at h
    simp only [ok_bind, pure_bind] at h
    obtain ⟨g, hg, hq⟩ := bind_eq_ok.1 h
    rw [pure_eq, ok.injEq] at hq
    subst hq
    obtain ⟨hl, rfl⟩ := wr_set hg
    refine ⟨⟨by simp, rfl, rfl, rfl, rfl, rfl, rfl, rfl, rfl⟩, ?_, fun i => rfl, fun i => rfl⟩
    intro i j hj hab
    have hb := hab a b x rfl
    unfold gridPoint
    simp only [lastPoint]
    rw [getD_set _ _ _ _ _ hl]
    by_cases e : a = i ∧ b = j
    · rw [if_pos e, if_pos (by rw [e.1, e.2])]
    · rw [if_neg e, if_neg]
      intro e'
      exact e (lin_inj hb hj e')
  | knotU a x =>
    unfold Edit.run setKnotU at h
    obtain ⟨g, hg, hq⟩ := bind_eq_ok.1 h
    rw [pure_eq, ok.injEq] at hq
    subst hq
    obtain ⟨hl, rfl⟩ := wr_set hg
    refine ⟨⟨rfl, by simp, rfl, rfl, rfl, rfl, rfl, rfl, rfl⟩, fun _ _ _ _ => rfl, ?_, fun i => rfl⟩
    intro i
    unfold knot
    simp only [lastKnotU]
    rw [getD_set _ _ _ _ _ hl]
  | knotV a x =>
    unfold Edit.run setKnotV at h
    obtain ⟨g, hg, hq⟩ := bind_eq_ok.1 h
    rw [pure_eq, ok.injEq] at hq
    subst hq
    obtain ⟨hl, rfl⟩ := wr_set hg
    refine ⟨⟨rfl, rfl, by simp, rfl, rfl, rfl, rfl, rfl, rfl⟩, fun _ _ _ _ => rfl, fun i => rfl, ?_⟩
    intro i
    unfold knot
    simp only [lastKnotV]
    rw [getD_set _ _ _ _ _ hl]
  | initialize_ =>
    obtain ⟨iu, iv, rfl⟩ := init_same (p := p) h
    exact ⟨⟨rfl, rfl, rfl, rfl, rfl, rfl, rfl, rfl, rfl⟩, fun _ _ _ _ => rfl, fun _ => rfl,
      fun _ => rfl⟩

theorem lastPoint_cons (i j : ℕ) (d : V) (e : Edit K V) (r : List (Edit K V)) :
    lastPoint i j d (e :: r) = lastPoint i j (lastPoint i j d [e]) r := by cases e <;> rfl

theorem lastKnotU_cons (i : ℕ) (d : K) (e : Edit K V) (r : List (Edit K V)) :
    lastKnotU i d (e :: r) = lastKnotU i (lastKnotU i d [e]) r := by cases e <;> rfl

theorem lastKnotV_cons (i : ℕ) (d : K) (e : Edit K V) (r : List (Edit K V)) :
    lastKnotV i d (e :: r) = lastKnotV i (lastKnotV i d [e]) r := by cases e <;> rfl

/-- C32, what the setters do: after any history of setter and `initialize` calls the data are the
last ones written. -/
theorem C32_history (ws : List (Edit K V)) :
    ∀ {p q : BSplinePatch K V}, runAll p ws = ok q → p.numV = ok n →
      (∀ a b x, Edit.point a b x ∈ ws → b < n) →
    SameShape p q ∧
      (∀ i j, j < n → gridPoint q.grid n i j = lastPoint i j (gridPoint p.grid n i j) ws) ∧
      (∀ i, knot q.knotsU i = lastKnotU i (knot p.knotsU i) ws) ∧
      (∀ i, knot q.knotsV i = lastKnotV i (knot p.knotsV i) ws) := by
  induction ws with
  | nil =>
    intro p q h _ _
    rw [runAll, ok.injEq] at h
    subst h
    exact ⟨⟨rfl, rfl, rfl, rfl, rfl, rfl, rfl, rfl, rfl⟩, fun _ _ _ => rfl, fun _ => rfl,
      fun _ => rfl⟩
  | cons e r ih =>
    intro p q h hn hb
    rw [runAll] at h
    obtain ⟨s, hs, h⟩ := bind_eq_ok.1 h
    obtain ⟨S, g, a, b⟩ := edit_spec hs hn
    have hn' : s.numV = ok n := by
      rw [← hn]
      unfold numV degreeV
      rw [S.degV, S.kv]
    obtain ⟨S', g', a', b'⟩ := ih h hn' (fun a b x hx => hb a b x (by simp [hx]))
    refine ⟨⟨S'.grid.trans S.grid, S'.ku.trans S.ku, S'.kv.trans S.kv, S'.degU.trans S.degU,
      S'.degV.trans S.degV, S'.perU.trans S.perU, S'.perV.trans S.perV, S'.sU.trans S.sU,
      S'.sV.trans S.sV⟩, ?_, ?_, ?_⟩
    · intro i j hj
      rw [lastPoint_cons, ← g i j hj (fun a b x e => hb a b x (by simp [e]))]
      exact g' i j hj
    · intro i
      rw [lastKnotU_cons, ← a i]; exact a' i
    · intro i
      rw [lastKnotV_cons, ← b i]; exact b' i

example : ∃ q, runAll exBP [.point 3 1 10, .knotU 3 (1 / 4), .initialize_, .point 3 1 8] = ok q ∧
    gridPoint q.grid 2 3 1 = 8 ∧ knot q.knotsU 3 = 1 / 4 := by
  have e : ∃ q, runAll exBP [.point 3 1 10, .knotU 3 (1 / 4), .initialize_, .point 3 1 8] = ok q := by
    cases h : runAll exBP [.point 3 1 (10 : ℚ), .knotU 3 (1 / 4), .initialize_, .point 3 1 8] with
    | ok q => exact ⟨q, rfl⟩
    | throw e =>
      exfalso; revert h
      have : (runAll exBP [.point 3 1 (10 : ℚ), .knotU 3 (1 / 4), .initialize_, .point 3 1 8] >>=
        fun _ => pure ()) = ok () := by decide +kernel
      intro h; rw [h] at this; exact nomatch this
    | ub =>
      exfalso; revert h
      have : (runAll exBP [.point 3 1 (10 : ℚ), .knotU 3 (1 / 4), .initialize_, .point 3 1 8] >>=
        fun _ => pure ()) = ok () := by decide +kernel
      intro h; rw [h] at this; exact nomatch this
  obtain ⟨q, e⟩ := e
  obtain ⟨-, h1, h2, -⟩ := C32_history (n := 2) _ e (by decide +kernel) (by
    intro a b x h; simp at h; rcases h with h | h <;> omega)
  refine ⟨q, e, ?_, ?_⟩
  · rw [h1 3 1 (by norm_num)]; decide +kernel
  · rw [h2 3]; decide +kernel

/-- C32, the part that holds: after any history of calls ending with `initialize`, on data that
fit, `evaluate` is the tensor product sum over the last values written.  Missing: without the final
`initialize` the setters have no effect (see the theorems above). -/
theorem C32_reinitialised_partial (ws : List (Edit K V)) {q : BSplinePatch K V}
    (hq : runAll p (ws ++ [.initialize_]) = ok q) (hn : p.numV = ok n)
    (hb : ∀ a b x, Edit.point a b x ∈ ws → b < n) (h : q.Valid m n du dv)
    (hwu : WideOn q.knotsU m du) (hwv : WideOn q.knotsV n dv) {u v : K}
    (hu : InDom q.knotsU m du u) (hv : InDom q.knotsV n dv v)
    (hu' : u < knot q.knotsU m ∨ p.perU = false) (hv' : v < knot q.knotsV n ∨ p.perV = false) :
    q.evaluate u v = ok (∑ i ∈ range m, ∑ j ∈ range n,
      (basis (fun k => lastKnotU k (knot p.knotsU k) ws) (lastKnotU m (knot p.knotsU m) ws) du i u *
        basis (fun k => lastKnotV k (knot p.knotsV k) ws) (lastKnotV n (knot p.knotsV n) ws) dv j v)
          • lastPoint i j (gridPoint p.grid n i j) ws) := by
  have app : ∀ (ws : List (Edit K V)) {p q : BSplinePatch K V},
      runAll p (ws ++ [.initialize_]) = ok q → ∃ s, runAll p ws = ok s ∧ s.init = ok q := by
    intro ws
    induction ws with
    | nil =>
      intro p q h
      refine ⟨p, rfl, ?_⟩
      simp only [List.nil_append, runAll] at h
      obtain ⟨s, hs, h⟩ := bind_eq_ok.1 h
      rw [ok.injEq] at h
      subst h
      exact hs
    | cons e r ih =>
      intro p q h
      rw [List.cons_append, runAll] at h
      obtain ⟨s, hs, h⟩ := bind_eq_ok.1 h
      obtain ⟨s', h1, h2⟩ := ih h
      exact ⟨s', by rw [runAll, hs, ok_bind, h1], h2⟩
  obtain ⟨s, hs, hsq⟩ := app ws hq
  obtain ⟨S, g, a, b⟩ := C32_history ws hs hn hb
  have hn' : s.numV = ok n := by
    rw [← hn]
    unfold numV degreeV
    rw [S.degV, S.kv]
  obtain ⟨S', g', a', b'⟩ := edit_spec (e := .initialize_) hsq hn'
  have hqi : q.init = ok q := by
    have hsv : s.Valid m n du dv := by
      obtain ⟨iu, iv, e⟩ := init_same hsq
      rw [e] at h
      exact ⟨h.u, h.v, h.grid⟩
    obtain ⟨q', e, e', -⟩ := C31_init hsv
    rw [hsq, ok.injEq] at e
    subst e
    exact e'
  rw [C31_evaluate_domain h hqi hwu hwv hu hv (by rw [S'.perU, S.perU]; exact hu')
    (by rw [S'.perV, S.perV]; exact hv')]
  have ku : knot q.knotsU = fun k => lastKnotU k (knot p.knotsU k) ws :=
    funext fun k => (a' k).trans (a k)
  have kv : knot q.knotsV = fun k => lastKnotV k (knot p.knotsV k) ws :=
    funext fun k => (b' k).trans (b k)
  unfold bsplineSurface
  rw [ku, kv]
  congr 1
  refine sum_congr rfl fun i hi => sum_congr rfl fun j hj => ?_
  rw [g' i j (mem_range.1 hj) (fun _ _ _ e => by cases e)]
  change _ • gridPoint s.grid n i j = _
  rw [g i j (mem_range.1 hj)]

example : (runAll exBP [.point 3 1 (10 : ℚ), .knotU 3 (1/4), .initialize_, .point 3 1 8] >>=
      fun q => q.evaluate (1 : ℚ) 1) = ok (10 : ℚ) ∧
    (runAll exBP [.point 3 1 (10 : ℚ), .knotU 3 (1/4), .point 3 1 8, .initialize_] >>=
      fun q => q.evaluate (1 : ℚ) 1) = ok (8 : ℚ) := by
  constructor <;> decide +kernel

/-! ### C33, C59 -/

/-- C33 for B-spline patches: frame law of the control grid. -/
theorem C33_bspline_set_get (h : p.Valid m n du dv) {i j : ℕ} (hi : i < m) (hj : j < n) (x : V) :
    ∃ q, p.setControlPoint i j x = ok q ∧ q.Valid m n du dv ∧ q.getControlPoint i j = ok x ∧
      ∀ i' j', i' < m → j' < n → (i', j') ≠ (i, j) →
        q.getControlPoint i' j' = p.getControlPoint i' j' := by
  have hl : i * n + j < p.grid.length := by rw [h.grid]; exact lin_lt hi hj
  have hv : Valid { p with grid := p.grid.set (i * n + j) x } m n du dv :=
    ⟨h.u, h.v, by simpa using h.grid⟩
  refine ⟨_, ?_, hv, ?_, ?_⟩
  · unfold setControlPoint linearIndex
    rw [h.numV, ok_bind]
    simp only [pure_bind]
    rw [wr_of_lt _ hl]
    rfl
  · unfold getControlPoint linearIndex
    rw [hv.numV, ok_bind]
    simp only [pure_bind]
    rw [rd_eq_ok, List.getElem?_set_self hl]
  · intro i' j' hi' hj' hne
    unfold getControlPoint linearIndex
    rw [hv.numV, h.numV]
    simp only [ok_bind]
    simp only [pure_bind]
    unfold rd
    rw [List.getElem?_set_ne]
    intro e
    obtain ⟨rfl, rfl⟩ := lin_inj hj hj' e
    exact hne rfl

example := C33_bspline_set_get exBP_valid (i := 3) (j := 1) (by norm_num) (by norm_num) 10

/-- Applying a history of `set_control_point` calls to a B-spline patch. -/
def setAllB (p : BSplinePatch K V) : List (ℕ × ℕ × V) → Outcome (BSplinePatch K V)
  | [] => ok p
  | (i, j, x) :: r => do
    let q ← p.setControlPoint i j x
    setAllB q r

/-- The last value written at `(i, j)`, or `d`. -/
def lastWriteB (i j : ℕ) (d : V) : List (ℕ × ℕ × V) → V
  | [] => d
  | (a, b, x) :: r => lastWriteB i j (if (a, b) = (i, j) then x else d) r

/-- C33 for B-spline patches: after any history of in-range writes every in-range read returns the
last value written there. -/
theorem C33_bspline_history (h : p.Valid m n du dv) (ws : List (ℕ × ℕ × V))
    (hr : ∀ w ∈ ws, w.1 < m ∧ w.2.1 < n) :
    ∃ q, setAllB p ws = ok q ∧ q.Valid m n du dv ∧
      ∀ i j x, i < m → j < n → p.getControlPoint i j = ok x →
        q.getControlPoint i j = ok (lastWriteB i j x ws) := by
  induction ws generalizing p with
  | nil => exact ⟨p, rfl, h, fun i j x _ _ hx => hx⟩
  | cons w r ih =>
    obtain ⟨a, b, y⟩ := w
    have hab := hr (a, b, y) (by simp)
    obtain ⟨q, e, hq, hg, hf⟩ := C33_bspline_set_get h hab.1 hab.2 y
    obtain ⟨q', e', hq', H⟩ := ih hq (fun w hw => hr w (by simp [hw]))
    refine ⟨q', by rw [setAllB, e, ok_bind, e'], hq', ?_⟩
    intro i j x hi hj hx
    rw [lastWriteB]
    apply H i j _ hi hj
    by_cases hab' : (a, b) = (i, j)
    · cases hab'
      rw [if_pos rfl]; exact hg
    · rw [if_neg hab', hf i j hi hj (fun e => hab' e.symm)]
      exact hx

example := C33_bspline_history exBP_valid [(0, 1, 9), (2, 0, 4), (0, 1, 6)] (by decide)

/-- C33 for B-spline patches: every row of the grid is the control point of exactly one index
pair. -/
theorem C33_bspline_rows (h : p.Valid m n du dv) {k : ℕ} (hk : k < p.grid.length) :
    ∃ i j, i < m ∧ j < n ∧ p.linearIndex i j = ok k ∧ p.getControlPoint i j = rd p.grid k ∧
      ∀ i' j', i' < m → j' < n → p.linearIndex i' j' = ok k → i' = i ∧ j' = j := by
  rw [h.grid] at hk
  obtain ⟨h1, h2, h3⟩ := lin_surj hk
  have hli : ∀ a b, p.linearIndex a b = ok (a * n + b) := by
    intro a b
    unfold linearIndex
    rw [h.numV]; rfl
  refine ⟨_, _, h1, h2, by rw [hli, ← h3], ?_, ?_⟩
  · unfold getControlPoint
    rw [hli, ok_bind, ← h3]
  · intro i' j' hi' hj' e
    rw [hli, ok.injEq] at e
    exact lin_inj hj' h2 (e.trans h3)

example : (setAllB exBP [(0, 1, (9 : ℚ)), (2, 0, 4), (0, 1, 6)] >>= fun q => q.getControlPoint 0 1)
    = ok 6 := by decide +kernel

/-- C59 for B-spline patches. -/
theorem C59_bspline_closest (big : K) (sq : V → K) (h : p.Valid m n du dv) (x : V)
    (hb : ∃ y ∈ p.grid, sq (x - y) < big) :
    ∃ i j y, p.findClosest big sq x = ok (i, j) ∧ i < m ∧ j < n ∧
      p.getControlPoint i j = ok y ∧ ∀ z ∈ p.grid, sq (x - y) ≤ sq (x - z) := by
  obtain ⟨i, j, e, H⟩ := PatchBase.findClosest_spec big sq
    (fun i hi j hj => h.getControlPoint hi hj) x
  have e' : p.findClosest big sq x = ok (i, j) := by
    unfold findClosest
    rw [h.numU, ok_bind, h.numV, ok_bind, e]
  have all : ∀ z ∈ p.grid, ∃ a < m, ∃ b < n, z = p.pts n a b := by
    intro z hz
    obtain ⟨k, hk, rfl⟩ := List.mem_iff_getElem.1 hz
    have hk' := hk
    rw [h.grid] at hk'
    obtain ⟨h1, h2, h3⟩ := lin_surj hk'
    refine ⟨_, h1, _, h2, ?_⟩
    unfold BSplinePatch.pts gridPoint
    rw [← h3, List.getD_eq_getElem?_getD, List.getElem?_eq_getElem hk, Option.getD_some]
  rcases H with ⟨hi, hj, hlt, hm⟩ | ⟨rfl, rfl, hm⟩
  · refine ⟨i, j, _, e', hi, hj, h.getControlPoint hi hj, fun z hz => ?_⟩
    obtain ⟨a, ha, b, hb, rfl⟩ := all z hz
    exact hm a ha b hb
  · obtain ⟨y, hy, hlt⟩ := hb
    obtain ⟨a, ha, b, hb, rfl⟩ := all y hy
    exact absurd hlt (not_lt.2 (hm a ha b hb))

example : exBP.findClosest (1000 : ℚ) (fun x => x * x) (29 / 5) = ok (3, 1) := by
  decide +kernel

/-! ### C66 -/

theorem umb_deriv (f : K[X]) : umb (fun j => (j : K)) f = (derivative f).eval 1 := by
  induction f using Polynomial.induction_on' with
  | add f g hf hg => rw [map_add, hf, hg, derivative_add, eval_add]
  | monomial k a =>
    rw [umb_monomial, derivative_monomial, eval_monomial]
    simp

theorem eval_lprod (u : ℕ → K) (i : ℕ) : ∀ d, (lprod u i d).eval 1 = 1
  | 0 => by simp [lprod_zero]
  | d + 1 => by
    rw [lprod_succ, eval_mul, eval_lprod u i d]
    simp [lin]

theorem deriv_lprod (u : ℕ → K) (i : ℕ) : ∀ d, (derivative (lprod u i d)).eval 1
    = ∑ k ∈ range d, u (i + k)
  | 0 => by simp [lprod_zero]
  | d + 1 => by
    rw [lprod_succ, derivative_mul, eval_add, eval_mul, eval_mul, deriv_lprod u i d, eval_lprod,
      sum_range_succ]
    simp [lin]

/-- The Greville abscissae reproduce the parameter. -/
theorem bsum_greville {u : List K} {deg s : ℤ} {n d : ℕ} (h : Axis u deg s n (d + 1)) {t : K}
    (hw : WideOn u n (d + 1)) (ht : InDom u n (d + 1) t) :
    bsum (d + 1) u n (fun i => (∑ k ∈ range (d + 1), knot u (1 + i + k)) / ((d + 1 : ℕ) : K)) t
      = t := by
  have hd : ((d + 1 : ℕ) : K) ≠ 0 := Nat.cast_ne_zero.2 (by omega)
  have hwf := h.wf (V := K) false (c := arr n (fun i =>
    (∑ k ∈ range (d + 1), knot u (1 + i + k)) / ((d + 1 : ℕ) : K))) (by simp)
  have e := h.evaluate_arr (V := K) hw (fun i =>
    (∑ k ∈ range (d + 1), knot u (1 + i + k)) / ((d + 1 : ℕ) : K)) (per := false) (t := t) (t' := t)
    rfl ht
  obtain ⟨k, Q, hk, hin⟩ := BSpline.exists_atSpan hwf t ht.2.2 ht.1 (by simp; exact ht.2.1)
  have e2 := BSpline.evaluate_of_span hwf (BSplinePatch.wide_of rfl (by simp) hw) (t := t) (t' := t)
    rfl (k := k) (Q := fun j => ((d + 1 : ℕ) : K)⁻¹ • (j : K)) ⟨hk.loc, hk.le, hk.lt, hk.ne, by
      intro i h1 h2
      have hklt := hk.lt
      rw [umb_smul_fun, umb_deriv, deriv_lprod]
      simp only []
      rw [arr_getD _ _ _ _ (by simp at hklt; omega), smul_eq_mul, div_eq_inv_mul]
      simp only [add_comm 1 i]⟩
  rw [e, ok.injEq] at e2
  rw [e2, umb_smul_fun, umb_deriv, ← lprod_const (v := fun _ => t) (j := 0) (fun _ _ => rfl), deriv_lprod]
  simp
  field_simp

theorem greville_eq {u : List K} {d i : ℕ} (hl : i + d + 1 < u.length) :
    greville u (d + 1) i
      = ok ((∑ k ∈ range (d + 1), knot u (1 + i + k)) / ((d + 1 : ℕ) : K)) := by
  unfold greville
  obtain ⟨s, e, hs⟩ := loop_inv (fun j (s : K) => s = ∑ k ∈ range j, knot u (1 + i + k)) (d + 1)
    (fun k s => do
      let x ← rd u (1 + i + k)
      pure (s + x)) (0 : K) (by simp) (by
      rintro j hj s rfl
      exact ⟨_, by rw [BSpline.rd_knot (by omega), ok_bind, pure_eq], by rw [sum_range_succ]⟩)
  rw [e, ok_bind, assert_true (by omega), ok_bind, pure_eq, hs]

/-- C66: a patch whose control points are the preimages reported by `get_control_point_preimage`
is the identity of the parameter domain. -/
theorem C66_preimage_identity {p : BSplinePatch K (K × K)} {m n du dv : ℕ}
    (h : p.Valid m n (du + 1) (dv + 1)) (hi : p.init = ok p) (hwu : WideOn p.knotsU m (du + 1))
    (hwv : WideOn p.knotsV n (dv + 1))
    (hc : ∀ i < m, ∀ j < n, p.getControlPoint i j = p.preimage i j) {u v : K}
    (hu : InDom p.knotsU m (du + 1) u) (hv : InDom p.knotsV n (dv + 1) v)
    (hu' : u < knot p.knotsU m ∨ p.perU = false) (hv' : v < knot p.knotsV n ∨ p.perV = false) :
    p.evaluate u v = ok (u, v) := by
  rw [(h.ready hi).evaluate hwu hwv (wrapOn_mem hu.1 hu') hu (wrapOn_mem hv.1 hv') hv]
  have hlu := h.u.len
  have hlv := h.v.len
  congr 1
  have hp : ∀ i < m, ∀ j < n, p.pts n i j
      = ((∑ k ∈ range (du + 1), knot p.knotsU (1 + i + k)) / ((du + 1 : ℕ) : K),
        (∑ k ∈ range (dv + 1), knot p.knotsV (1 + j + k)) / ((dv + 1 : ℕ) : K)) := by
    intro i hi j hj
    have := hc i hi j hj
    unfold BSplinePatch.preimage at this
    rw [h.getControlPoint hi hj, h.degreeU, ok_bind, greville_eq (by omega), ok_bind, h.degreeV,
      ok_bind, greville_eq (by omega), ok_bind, pure_eq, ok.injEq] at this
    exact this
  obtain ⟨-, su⟩ := axis_basis h.u hu
  obtain ⟨-, sv⟩ := axis_basis h.v hv
  unfold BSplinePatch.tsum
  ext
  · have e : ∀ i < m, (bsum (dv + 1) p.knotsV n (p.pts n i) v).1
        = (∑ k ∈ range (du + 1), knot p.knotsU (1 + i + k)) / ((du + 1 : ℕ) : K) := by
      intro i hi
      unfold bsum
      rw [Prod.fst_sum]
      rw [sum_congr rfl (fun j hj => by rw [Prod.smul_fst, hp i hi j (mem_range.1 hj)]),
        ← sum_smul, sv, one_smul]
    refine Eq.trans ?_ (bsum_greville h.u hwu hu)
    unfold bsum
    rw [Prod.fst_sum]
    exact sum_congr rfl fun i hi => by
      rw [Prod.smul_fst]
      congr 1
      exact e i (mem_range.1 hi)
  · rw [bsum_swap]
    have e : ∀ j < n, (bsum (du + 1) p.knotsU m (fun i => p.pts n i j) u).2
        = (∑ k ∈ range (dv + 1), knot p.knotsV (1 + j + k)) / ((dv + 1 : ℕ) : K) := by
      intro j hj
      unfold bsum
      rw [Prod.snd_sum]
      rw [sum_congr rfl (fun i hi => by
          rw [Prod.smul_snd, show (fun i => p.pts n i j) i = _ from hp i (mem_range.1 hi) j hj]),
        ← sum_smul, su, one_smul]
    refine Eq.trans ?_ (bsum_greville h.v hwv hv)
    unfold bsum
    rw [Prod.snd_sum]
    exact sum_congr rfl fun j hj => by
      rw [Prod.smul_snd]
      congr 1
      exact e j (mem_range.1 hj)

/-- Control points at the Greville points: the patch is the identity. -/
private def exIdentity : BSplinePatch ℚ (ℚ × ℚ) :=
  BSplinePatch.mk [(0, 0), (0, 1), (1/4, 0), (1/4, 1), (3/4, 0), (3/4, 1), (1, 0), (1, 1)]
    [0, 0, 0, 1/2, 1, 1, 1] [0, 0, 1, 1] 2 1 false false 2 1
    [BSpline.mk [(0, 0), (1/4, 0), (3/4, 0), (1, 0)] [0, 0, 0, 1/2, 1, 1, 1] false (some 2),
      BSpline.mk [(0, 1), (1/4, 1), (3/4, 1), (1, 1)] [0, 0, 0, 1/2, 1, 1, 1] false (some 2)]
    [BSpline.mk [(0, 0), (0, 1)] [0, 0, 1, 1] false (some 1),
      BSpline.mk [(1/4, 0), (1/4, 1)] [0, 0, 1, 1] false (some 1),
      BSpline.mk [(3/4, 0), (3/4, 1)] [0, 0, 1, 1] false (some 1),
      BSpline.mk [(1, 0), (1, 1)] [0, 0, 1, 1] false (some 1)]

example : exIdentity.evaluate (1 / 3) (1 / 4) = ok (1 / 3, 1 / 4) :=
  C66_preimage_identity (m := 4) (n := 2) (du := 1) (dv := 0)
    ⟨⟨rfl, rfl, Or.inr rfl, by decide, by decide +kernel, by decide +kernel⟩,
      ⟨rfl, rfl, Or.inr rfl, by decide, by decide +kernel, by decide +kernel⟩, rfl⟩
    (by decide +kernel) exBP_wide.1 exBP_wide.2
    (by intro i hi j hj; interval_cases i <;> interval_cases j <;> decide +kernel)
    ⟨by decide +kernel, by decide +kernel, Or.inl (by decide +kernel)⟩
    ⟨by decide +kernel, by decide +kernel, Or.inl (by decide +kernel)⟩ (Or.inr rfl) (Or.inr rfl)

/-- C66: preimages lie in the domain of clamped knots and are sorted. -/
theorem C66_preimage_sorted {u : List K} (hs : u.Pairwise (· ≤ ·)) {d i j : ℕ} (hij : i ≤ j)
    (hl : j + d + 1 < u.length) :
    ∃ a b, greville u (d + 1) i = ok a ∧ greville u (d + 1) j = ok b ∧ a ≤ b ∧
      knot u (i + 1) ≤ a ∧ a ≤ knot u (i + d + 1) := by
  refine ⟨_, _, greville_eq (by omega), greville_eq hl, ?_, ?_, ?_⟩
  · gcongr with k hk
    have := mem_range.1 hk
    exact BSpline.knot_mono hs (by omega) (by omega)
  · rw [le_div_iff₀ (by positivity)]
    calc knot u (i + 1) * ((d + 1 : ℕ) : K) = ∑ k ∈ range (d + 1), knot u (i + 1) := by
          simp [mul_comm]
      _ ≤ _ := sum_le_sum fun k hk => by
          have := mem_range.1 hk
          exact BSpline.knot_mono hs (by omega) (by omega)
  · rw [div_le_iff₀ (by positivity)]
    calc _ ≤ ∑ k ∈ range (d + 1), knot u (i + d + 1) := sum_le_sum fun k hk => by
          have := mem_range.1 hk
          exact BSpline.knot_mono hs (by omega) (by omega)
      _ = _ := by simp [mul_comm]

example : exBP.preimage 1 1 = ok (1/4, (1 : ℚ)) ∧ exBP.preimage 2 0 = ok (3/4, (0 : ℚ)) := by
  constructor <;> decide +kernel

/-! ### C65 -/

/-- `q` is the part of the surface of `p` over the rectangle `[a, b] × [c, d]`: that is its domain,
it is initialised, and where the evaluators meet no span below their threshold its values are
those of `p`'s surface.  Its control points are in the convex hull of those of `p`.  At an upper end `b` (or `d`) that cuts `p` the value is covered if the
flag `eu` (`ev`) holds. -/
def PartOf (p : BSplinePatch K V) (m n du dv : ℕ) (q : BSplinePatch K V) (a b c d : K)
    (eu ev : Prop) : Prop :=
  ∃ m' n', q.Valid m' n' du dv ∧ q.init = ok q ∧ q.perU = false ∧ q.perV = false ∧
    q.lowerU = ok a ∧ q.upperU = ok b ∧ q.lowerV = ok c ∧ q.upperV = ok d ∧
    HullOf K p.grid q.grid ∧
    (WideOn q.knotsU m' du → WideOn q.knotsV n' dv → ∀ x y, InDom q.knotsU m' du x →
      InDom q.knotsV n' dv y → (x < b ∨ eu) → (y < d ∨ ev) →
      q.evaluate x y = ok (bsplineSurface du dv m n p.knotsU p.knotsV p.grid x y))

/-- The same without evaluation: used to chain cuts. -/
structure Piece (p : BSplinePatch K V) (m n du dv : ℕ) (q : BSplinePatch K V) (m' n' : ℕ)
    (a b c d : K) (eu ev : Prop) : Prop where
  ready : q.Ready m' n' du dv
  au : knot q.knotsU du = a
  bu : knot q.knotsU m' = b
  cv : knot q.knotsV dv = c
  dv' : knot q.knotsV n' = d
  hull : HullOf K p.grid q.grid
  val : ∀ x y, a ≤ x → x ≤ b → c ≤ y → y ≤ d → (x < b ∨ eu) → (y < d ∨ ev) →
    q.tsum m' n' du dv x y = p.tsum m n du dv x y

theorem ready_init {q : BSplinePatch K V} (h : q.Ready m n du dv) : q.init = ok q := by
  rw [h.toValid.init, ← h.isoU, ← h.isoV]

theorem Piece.partOf {q : BSplinePatch K V} {m' n' : ℕ} {a b c d : K} {eu ev : Prop}
    (P : Piece p m n du dv q m' n' a b c d eu ev) (hu : q.perU = false) (hv : q.perV = false) :
    PartOf p m n du dv q a b c d eu ev := by
  refine ⟨m', n', P.ready.toValid, ready_init P.ready, hu, hv, ?_, ?_, ?_, ?_, P.hull, ?_⟩
  · rw [P.ready.toValid.lowerU, P.au]
  · rw [P.ready.toValid.upperU, P.bu]
  · rw [P.ready.toValid.lowerV, P.cv]
  · rw [P.ready.toValid.upperV, P.dv']
  · intro hwu hwv x y hx hy ex ey
    rw [C31_evaluate_domain P.ready.toValid (ready_init P.ready) hwu hwv hx hy (Or.inr hu)
      (Or.inr hv), ← tsum_eq, ← tsum_eq, P.val x y (P.au ▸ hx.1) (P.bu ▸ hx.2.1) (P.cv ▸ hy.1)
      (P.dv' ▸ hy.2.1) ex ey]

theorem Piece.whole (h : p.Ready m n du dv) :
    Piece p m n du dv p m n (knot p.knotsU du) (knot p.knotsU m) (knot p.knotsV dv)
      (knot p.knotsV n) True True :=
  ⟨h, rfl, rfl, rfl, rfl, HullOf.refl _, fun _ _ _ _ _ _ _ _ => rfl⟩

theorem Piece.splitU {eps : K} (heps : 0 ≤ eps) (hd : 1 ≤ du) {q : BSplinePatch K V} {m' n' : ℕ}
    {a b c d : K} {eu ev : Prop} (P : Piece p m n du dv q m' n' a b c d eu ev) {t : K} (h1 : a < t)
    (h2 : t < b) :
    ∃ q1 q2 m1 m2, q.splitU eps t = ok [q1, q2] ∧
      Piece p m n du dv q1 m1 n' a t c d (q.knotsU.count t ≤ du) ev ∧
      Piece p m n du dv q2 m2 n' t b c d eu ev ∧
      q1.perU = false ∧ q1.perV = false ∧ q2.perU = false ∧ q2.perV = false := by
  obtain ⟨q1, q2, m1, m2, e, r1, r2, k1, k2, p1, p2, p3, p4, -, -, -, -, L, R, v1, v2, hq, hr⟩ :=
    P.ready.splitU heps hd (t := t) (P.au ▸ h1) (P.bu ▸ h2)
  refine ⟨q1, q2, m1, m2, e, ⟨r1, L.lower.trans P.au, L.upper, by rw [k1, P.cv], by rw [k1, P.dv'],
    P.hull.trans hq, ?_⟩, ⟨r2, R.lower, R.upper.trans P.bu, by rw [k2, P.cv], by rw [k2, P.dv'],
    P.hull.trans hr, ?_⟩, p1, p2, p3, p4⟩
  · intro x y hx1 hx2 hy1 hy2 ex ey
    rw [v1 x y (P.au ▸ hx1) hx2 ex, P.val x y hx1 (hx2.trans h2.le) hy1 hy2
      (Or.inl (hx2.trans_lt h2)) ey]
  · intro x y hx1 hx2 hy1 hy2 ex ey
    rw [v2 x y hx1 (P.bu ▸ hx2), P.val x y (h1.le.trans hx1) hx2 hy1 hy2 ex ey]

theorem Piece.splitV {eps : K} (heps : 0 ≤ eps) (hd : 1 ≤ dv) {q : BSplinePatch K V} {m' n' : ℕ}
    {a b c d : K} {eu ev : Prop} (P : Piece p m n du dv q m' n' a b c d eu ev) {t : K} (h1 : c < t)
    (h2 : t < d) :
    ∃ q1 q2 n1 n2, q.splitV eps t = ok [q1, q2] ∧
      Piece p m n du dv q1 m' n1 a b c t eu (q.knotsV.count t ≤ dv) ∧
      Piece p m n du dv q2 m' n2 a b t d eu ev ∧
      q1.perU = false ∧ q1.perV = false ∧ q2.perU = false ∧ q2.perV = false := by
  obtain ⟨q1, q2, m1, m2, e, r1, r2, k1, k2, p1, p2, p3, p4, -, -, -, -, L, R, v1, v2, hq, hr⟩ :=
    P.ready.splitV heps hd (t := t) (P.cv ▸ h1) (P.dv' ▸ h2)
  refine ⟨q1, q2, m1, m2, e, ⟨r1, by rw [k1, P.au], by rw [k1, P.bu], L.lower.trans P.cv, L.upper,
    P.hull.trans hq, ?_⟩, ⟨r2, by rw [k2, P.au], by rw [k2, P.bu], R.lower, R.upper.trans P.dv',
    P.hull.trans hr, ?_⟩, p1, p2, p3, p4⟩
  · intro x y hx1 hx2 hy1 hy2 ex ey
    rw [v1 x y (P.cv ▸ hy1) hy2 ey, P.val x y hx1 hx2 hy1 (hy2.trans h2.le) ex
      (Or.inl (hy2.trans_lt h2))]
  · intro x y hx1 hx2 hy1 hy2 ex ey
    rw [v2 x y hy1 (P.dv' ▸ hy2), P.val x y hx1 hx2 (h1.le.trans hy1) hy2 ex ey]

/-- C65: `split_u` inside the domain gives two initialised patches with the domains left and right
of `t` and the same surface.  Partial: the degree is positive, and the value of the left part at
`t` needs the surface to be continuous there (multiplicity at most the degree). -/
theorem C65_split_u_partial {eps : K} (heps : 0 ≤ eps) (h : p.Valid m n du dv) (hi : p.init = ok p)
    (hd : 1 ≤ du) {t : K} (h1 : knot p.knotsU du < t) (h2 : t < knot p.knotsU m) :
    ∃ q r, p.splitU eps t = ok [q, r] ∧
      PartOf p m n du dv q (knot p.knotsU du) t (knot p.knotsV dv) (knot p.knotsV n)
        (p.knotsU.count t ≤ du) True ∧
      PartOf p m n du dv r t (knot p.knotsU m) (knot p.knotsV dv) (knot p.knotsV n) True True := by
  obtain ⟨q, r, _, _, e, P, Q, a, b, c, d⟩ :=
    (Piece.whole (h.ready hi)).splitU heps hd h1 h2
  exact ⟨q, r, e, P.partOf a b, Q.partOf c d⟩

example := C65_split_u_partial (eps := 0) le_rfl exBP_valid exBP_init.2 (by norm_num) (t := 1 / 2)
  (by decide +kernel) (by decide +kernel)

/-- C65: the same for `split_v`. -/
theorem C65_split_v_partial {eps : K} (heps : 0 ≤ eps) (h : p.Valid m n du dv) (hi : p.init = ok p)
    (hd : 1 ≤ dv) {t : K} (h1 : knot p.knotsV dv < t) (h2 : t < knot p.knotsV n) :
    ∃ q r, p.splitV eps t = ok [q, r] ∧
      PartOf p m n du dv q (knot p.knotsU du) (knot p.knotsU m) (knot p.knotsV dv) t
        True (p.knotsV.count t ≤ dv) ∧
      PartOf p m n du dv r (knot p.knotsU du) (knot p.knotsU m) t (knot p.knotsV n) True True := by
  obtain ⟨q, r, _, _, e, P, Q, a, b, c, d⟩ :=
    (Piece.whole (h.ready hi)).splitV heps hd h1 h2
  exact ⟨q, r, e, P.partOf a b, Q.partOf c d⟩

example := C65_split_v_partial (eps := 0) le_rfl exBP_valid exBP_init.2 (by norm_num) (t := 1 / 3)
  (by decide +kernel) (by decide +kernel)

theorem inDomain_mem {eps lo hi t : K} (he : 0 ≤ eps) (h1 : lo ≤ t) (h2 : t ≤ hi) :
    BSplinePatch.inDomain eps lo hi t = true := by
  simp only [BSplinePatch.inDomain, Bool.and_eq_true, decide_eq_true_eq]
  constructor <;> linarith

theorem not_endpoint {lo hi t : K} (h1 : lo < t) (h2 : t < hi) :
    BSplinePatch.isEndpoint lo hi t = false := by
  simp [BSplinePatch.isEndpoint, h1.ne', h2.ne]

/-- C65: `split` at an interior point gives the four quadrants, low `u` first, then low `v`. -/
theorem C65_split_partial {eps : K} (heps : 0 ≤ eps) (h : p.Valid m n du dv) (hi : p.init = ok p)
    (hdu : 1 ≤ du) (hdv : 1 ≤ dv) {s t : K} (h1 : knot p.knotsU du < s) (h2 : s < knot p.knotsU m)
    (h3 : knot p.knotsV dv < t) (h4 : t < knot p.knotsV n) :
    ∃ a b c d, p.split eps s t = ok [a, b, c, d] ∧
      PartOf p m n du dv a (knot p.knotsU du) s (knot p.knotsV dv) t
        (p.knotsU.count s ≤ du) (p.knotsV.count t ≤ dv) ∧
      PartOf p m n du dv b (knot p.knotsU du) s t (knot p.knotsV n)
        (p.knotsU.count s ≤ du) True ∧
      PartOf p m n du dv c s (knot p.knotsU m) (knot p.knotsV dv) t
        True (p.knotsV.count t ≤ dv) ∧
      PartOf p m n du dv d s (knot p.knotsU m) t (knot p.knotsV n) True True := by
  have hr := h.ready hi
  obtain ⟨q, r, m1, m2, e, r1, r2, k1, k2, p1, p2, p3, p4, -⟩ := hr.splitU heps hdu h1 h2
  obtain ⟨q', r', _, _, e', P, Q, -⟩ := (Piece.whole hr).splitU heps hdu h1 h2
  rw [e, ok.injEq] at e'
  cases e'
  obtain ⟨a, b, _, _, eab, A, B, a1, a2, b1, b2⟩ := P.splitV heps hdv h3 h4
  obtain ⟨c, d, _, _, ecd, C, D, c1, c2, d1, d2⟩ := Q.splitV heps hdv h3 h4
  rw [k1] at A
  rw [k2] at C
  refine ⟨a, b, c, d, ?_, A.partOf a1 a2, B.partOf b1 b2, C.partOf c1 c2, D.partOf d1 d2⟩
  unfold BSplinePatch.split
  rw [h.lowerU, ok_bind, h.upperU, ok_bind, h.lowerV, ok_bind, h.upperV, ok_bind,
    inDomain_mem heps h1.le h2.le, inDomain_mem heps h3.le h4.le, throwIf_false (by simp), ok_bind,
    not_endpoint h1 h2, not_endpoint h3 h4]
  simp [e, eab, ecd, rd, ok_bind]

example := C65_split_partial (eps := 0) le_rfl exBP_valid exBP_init.2 (by norm_num) (by norm_num)
  (s := 1 / 4) (t := 1 / 3) (by decide +kernel) (by decide +kernel) (by decide +kernel) (by decide +kernel)

theorem Piece.weaken {q : BSplinePatch K V} {m' n' : ℕ} {a b c d : K} {eu ev eu' ev' : Prop}
    (P : Piece p m n du dv q m' n' a b c d eu ev) (h1 : eu' → eu) (h2 : ev' → ev) :
    Piece p m n du dv q m' n' a b c d eu' ev' :=
  ⟨P.ready, P.au, P.bu, P.cv, P.dv', P.hull, fun x y a1 a2 a3 a4 a5 a6 =>
    P.val x y a1 a2 a3 a4 (a5.imp_right h1) (a6.imp_right h2)⟩

/-- A piece of a patch that is not periodic. -/
structure FlatPiece (p : BSplinePatch K V) (m n du dv : ℕ) (q : BSplinePatch K V)
    (a b c d : K) (eu ev : Prop) : Prop where
  piece : ∃ m' n', Piece p m n du dv q m' n' a b c d eu ev
  perU : q.perU = false
  perV : q.perV = false

theorem cut_u_low {eps : K} (heps : 0 ≤ eps) (hd : 1 ≤ du) {q : BSplinePatch K V}
    {c d lo hi : K} {eu ev : Prop} {t : K}
    (P : FlatPiece p m n du dv q lo hi c d eu ev) (h1 : lo ≤ t) (h2 : t < hi) :
    ∃ q', BSplinePatch.cut (q.splitU eps) (BSplinePatch.isEndpoint lo hi t) t 1 q = ok q' ∧
      FlatPiece p m n du dv q' t hi c d eu ev := by
  rcases h1.eq_or_lt with rfl | h
  · exact ⟨q, by simp [BSplinePatch.cut, BSplinePatch.isEndpoint], P⟩
  · obtain ⟨m', n', P'⟩ := P.piece
    obtain ⟨q1, q2, m1, m2, e, -, Q, -, -, a, b⟩ := P'.splitU heps hd h h2
    refine ⟨q2, ?_, ⟨m2, n', Q⟩, a, b⟩
    unfold BSplinePatch.cut
    rw [not_endpoint h h2, if_neg (by simp), e, ok_bind]
    rfl

theorem cut_u_high {eps : K} (heps : 0 ≤ eps) (hd : 1 ≤ du) {q : BSplinePatch K V}
    {a c d lo hi : K} {ev : Prop} {t : K}
    (P : FlatPiece p m n du dv q a hi c d True ev) (hlo : lo ≤ a) (h1 : a < t) (h2 : t ≤ hi) :
    ∃ q', BSplinePatch.cut (q.splitU eps) (BSplinePatch.isEndpoint lo hi t) t 0 q = ok q' ∧
      FlatPiece p m n du dv q' a t c d (t = hi) ev := by
  obtain ⟨m', n', P'⟩ := P.piece
  rcases h2.eq_or_lt with rfl | h
  · exact ⟨q, by simp [BSplinePatch.cut, BSplinePatch.isEndpoint],
      ⟨m', n', P'.weaken (fun _ => trivial) id⟩, P.perU, P.perV⟩
  · obtain ⟨q1, q2, m1, m2, e, Q, -, a, b, -⟩ := P'.splitU heps hd h1 h
    refine ⟨q1, ?_, ⟨m1, n', Q.weaken (fun e => absurd e h.ne) id⟩, a, b⟩
    unfold BSplinePatch.cut
    rw [not_endpoint (hlo.trans_lt h1) h, if_neg (by simp), e, ok_bind]
    rfl

theorem cut_v_low {eps : K} (heps : 0 ≤ eps) (hd : 1 ≤ dv) {q : BSplinePatch K V}
    {a b lo hi : K} {eu ev : Prop} {t : K}
    (P : FlatPiece p m n du dv q a b lo hi eu ev) (h1 : lo ≤ t) (h2 : t < hi) :
    ∃ q', BSplinePatch.cut (q.splitV eps) (BSplinePatch.isEndpoint lo hi t) t 1 q = ok q' ∧
      FlatPiece p m n du dv q' a b t hi eu ev := by
  rcases h1.eq_or_lt with rfl | h
  · exact ⟨q, by simp [BSplinePatch.cut, BSplinePatch.isEndpoint], P⟩
  · obtain ⟨m', n', P'⟩ := P.piece
    obtain ⟨q1, q2, m1, m2, e, -, Q, -, -, a, b⟩ := P'.splitV heps hd h h2
    refine ⟨q2, ?_, ⟨m', m2, Q⟩, a, b⟩
    unfold BSplinePatch.cut
    rw [not_endpoint h h2, if_neg (by simp), e, ok_bind]
    rfl

theorem cut_v_high {eps : K} (heps : 0 ≤ eps) (hd : 1 ≤ dv) {q : BSplinePatch K V}
    {a b c lo hi : K} {eu : Prop} {t : K}
    (P : FlatPiece p m n du dv q a b c hi eu True) (hlo : lo ≤ c) (h1 : c < t) (h2 : t ≤ hi) :
    ∃ q', BSplinePatch.cut (q.splitV eps) (BSplinePatch.isEndpoint lo hi t) t 0 q = ok q' ∧
      FlatPiece p m n du dv q' a b c t eu (t = hi) := by
  obtain ⟨m', n', P'⟩ := P.piece
  rcases h2.eq_or_lt with rfl | h
  · exact ⟨q, by simp [BSplinePatch.cut, BSplinePatch.isEndpoint],
      ⟨m', n', P'.weaken id (fun _ => trivial)⟩, P.perU, P.perV⟩
  · obtain ⟨q1, q2, m1, m2, e, Q, -, a, b, -⟩ := P'.splitV heps hd h1 h
    refine ⟨q1, ?_, ⟨m', m1, Q.weaken id (fun e => absurd e h.ne)⟩, a, b⟩
    unfold BSplinePatch.cut
    rw [not_endpoint (hlo.trans_lt h1) h, if_neg (by simp), e, ok_bind]
    rfl

/-- C65: `subpatch` of a non-empty rectangle of the domain has that rectangle as its domain and the
same surface on it (upper ends that cut the patch excluded). -/
theorem C65_subpatch_partial {eps : K} (heps : 0 ≤ eps) (h : p.Valid m n du dv)
    (hi : p.init = ok p) (hpu : p.perU = false) (hpv : p.perV = false)
    (hdu : 1 ≤ du) (hdv : 1 ≤ dv) {u0 u1 v0 v1 : K} (h1 : knot p.knotsU du ≤ u0) (h2 : u0 < u1)
    (h3 : u1 ≤ knot p.knotsU m) (h4 : knot p.knotsV dv ≤ v0) (h5 : v0 < v1)
    (h6 : v1 ≤ knot p.knotsV n) :
    ∃ q, p.subpatch eps u0 u1 v0 v1 = ok q ∧
      PartOf p m n du dv q u0 u1 v0 v1 (u1 = knot p.knotsU m) (v1 = knot p.knotsV n) := by
  have F : FlatPiece p m n du dv p (knot p.knotsU du) (knot p.knotsU m) (knot p.knotsV dv)
      (knot p.knotsV n) True True := ⟨⟨m, n, Piece.whole (h.ready hi)⟩, hpu, hpv⟩
  obtain ⟨q1, e1, F1⟩ := cut_u_low heps hdu F h1 (h2.trans_le h3)
  obtain ⟨q2, e2, F2⟩ := cut_u_high heps hdu F1 h1 h2 h3
  obtain ⟨q3, e3, F3⟩ := cut_v_low heps hdv F2 h4 (h5.trans_le h6)
  obtain ⟨q4, e4, F4⟩ := cut_v_high heps hdv F3 h4 h5 h6
  obtain ⟨m', n', P⟩ := F4.piece
  refine ⟨q4, ?_, P.partOf F4.perU F4.perV⟩
  unfold BSplinePatch.subpatch
  rw [h.lowerU, ok_bind, h.upperU, ok_bind, h.lowerV, ok_bind, h.upperV, ok_bind,
    throwIf_false (not_lt.2 h2.le), ok_bind,
    inDomain_mem heps h1 (h2.le.trans h3), inDomain_mem heps (h1.trans h2.le) h3,
    throwIf_false (by simp), ok_bind, throwIf_false (not_lt.2 h5.le), ok_bind,
    inDomain_mem heps h4 (h5.le.trans h6), inDomain_mem heps (h4.trans h5.le) h6,
    throwIf_false (by simp), ok_bind, e1, ok_bind, e2, ok_bind, e3, ok_bind, e4]

example := C65_subpatch_partial (eps := 0) le_rfl exBP_valid exBP_init.2 rfl rfl (by norm_num) (by norm_num)
  (u0 := 1 / 4) (u1 := 3 / 4) (v0 := 1 / 3) (v1 := 1) (by decide +kernel) (by decide +kernel)
  (by decide +kernel) (by decide +kernel) (by decide +kernel) (by decide +kernel)

/-- C65: `subpatch` of an interior rectangle without width returns the whole part above it, not a
patch over that rectangle. -/
theorem C65_subpatch_point_refuted :
    (exBP.subpatch 0 (1/2) (1/2) 0 1 >>= fun q => do
      let a ← q.lowerU
      let b ← q.upperU
      pure (a, b)) = ok ((1/2 : ℚ), 1) := by decide +kernel

/-- C65: splits of a boundary parameter return the patch itself. -/
theorem C65_split_ends (eps : K) (h : p.Valid m n du dv) {t : K}
    (ht : t = knot p.knotsU du ∨ t = knot p.knotsU m) : p.splitU eps t = ok [p] := by
  unfold BSplinePatch.splitU
  rw [h.lowerU, ok_bind, h.upperU, ok_bind, if_pos]
  · rfl
  · rcases ht with rfl | rfl <;> simp [BSplinePatch.isEndpoint]

example : exBP.splitU (1 / 1000) 1 = ok [exBP] :=
  C65_split_ends _ exBP_valid (Or.inr (by decide +kernel))

theorem tab_throw {α : Type} {N : ℕ} {f : ℕ → Outcome α} {e : Err} (hN : 0 < N)
    (h : ∀ i < N, f i = Outcome.throw e) : tab N f = Outcome.throw e := by
  induction N with
  | zero => omega
  | succ N ih =>
    rcases Nat.eq_zero_or_pos N with rfl | hpos
    · rw [tab, tab, ok_bind, h 0 (by omega)]; rfl
    · rw [tab, ih hpos (fun i hi => h i (by omega))]; rfl

/-- C65: `split_u` outside the domain (beyond the tolerance) throws, although its own domain test
has no effect (BSplinePatch.h:400 builds the exception without throwing it): the curve split does. -/
theorem C65_out_of_domain {eps : K} (heps : 0 ≤ eps) (h : p.Valid m n du dv) (hi : p.init = ok p)
    {t : K} (ht : t < knot p.knotsU du - eps ∨ knot p.knotsU m + eps < t) :
    p.splitU eps t = Outcome.throw .invalidSetting := by
  have hr := h.ready hi
  have hn : 0 < n := by have := h.v.cnt; omega
  unfold BSplinePatch.splitU
  rw [h.lowerU, ok_bind, h.upperU, ok_bind, if_neg, h.numV, ok_bind]
  · rw [tab_throw hn (e := .invalidSetting)]
    · rfl
    · intro j hj
      rw [hr.isoU, rd_arr hj, ok_bind]
      exact (C19_split_ends heps (c := p.colU m n j) (h.u.wf p.perU (by simp)) t).2
        (by simpa [colU] using ht)
  · have := h.u.dom
    simp only [BSplinePatch.isEndpoint, Bool.or_eq_true, decide_eq_true_eq]
    rintro (rfl | rfl) <;> rcases ht with ht | ht <;> linarith

example : (exBP.split (1/1000 : ℚ) (1/4) (1/3) >>= fun ps => rd ps 2 >>= fun q =>
    q.evaluate (1/2) (1/6)) = exBP.evaluate (1/2) (1/6) ∧
    (exBP.subpatch (1/1000 : ℚ) (1/4) (3/4) (1/3) 1 >>= fun q => q.evaluate (5/8) (2/3))
      = exBP.evaluate (5/8) (2/3) := by
  constructor <;> decide +kernel

end General

/-! ### C64 -/

section Deriv

variable {V : Type} [NormedAddCommGroup V] [NormedSpace ℝ V] {p : BSplinePatch ℝ V} {m n du dv : ℕ}

/-- `f'` is the derivative of `f`, and `f''` of `f'`, along the knots `u`: from the right below the
upper end of the domain, from the left at that end, from both sides at interior parameters that are
not knots. -/
def DerivAlong (u : List ℝ) (n d : ℕ) (f f' : ℝ → V) : Prop :=
  ∀ t, knot u d ≤ t → t ≤ knot u n →
    (t < knot u n → HasDerivWithinAt f (f' t) (Set.Ici t) t) ∧
    (t = knot u n → HasDerivWithinAt f (f' t) (Set.Iic t) t) ∧
    (knot u d < t → t ∉ u → HasDerivAt f (f' t) t)

theorem curve_deriv {u : List ℝ} {deg s : ℤ} {n d : ℕ} (h : Axis u deg s n d) (hw : WideOn u n d)
    (hf : knot u d < knot u (d + 1)) (P : ℕ → V) {f f' f'' : ℝ → V}
    (hf0 : ∀ t, knot u d ≤ t → t ≤ knot u n →
      (BSpline.mk (arr n P) u false (staticDeg s)).evaluate t = ok (f t))
    (hf1 : ∀ t, knot u d ≤ t → t ≤ knot u n →
      (BSpline.mk (arr n P) u false (staticDeg s)).evaluateDerivative t = ok (f' t))
    (hf2 : ∀ t, knot u d ≤ t → t ≤ knot u n →
      (BSpline.mk (arr n P) u false (staticDeg s)).evaluate2ndDerivative t = ok (f'' t)) :
    DerivAlong u n d f f' ∧ DerivAlong u n d f' f'' := by
  have hwf := h.wf (V := V) false (c := arr n P) (by simp)
  have key := C15_derivative_partial hwf (wide_of rfl (by simp) hw) rfl f f' f''
    (by simpa using hf0) (by simpa using hf1) (by simpa using hf2)
  simp only [arr_length] at key
  constructor
  · intro t h1 h2
    obtain ⟨a, b, c⟩ := key t h1 h2 (Or.inl hf)
    exact ⟨fun x => (a x).1, fun x => (b x).1, fun x y => (c x y).1⟩
  · intro t h1 h2
    obtain ⟨a, b, c⟩ := key t h1 h2 (Or.inl hf)
    exact ⟨fun x => (a x).2, fun x => (b x).2, fun x y => (c x y).2⟩

/-- Assumptions of C64: an initialised patch that is not periodic, with first spans that are not
empty and no span below the threshold of the evaluators. -/
structure Regular (p : BSplinePatch ℝ V) (m n du dv : ℕ) : Prop where
  valid : p.Valid m n du dv
  init : p.init = ok p
  perU : p.perU = false
  perV : p.perV = false
  wideU : WideOn p.knotsU m du
  wideV : WideOn p.knotsV n dv
  firstU : knot p.knotsU du < knot p.knotsU (du + 1)
  firstV : knot p.knotsV dv < knot p.knotsV (dv + 1)

theorem Regular.isoU (h : Regular p m n du dv) {v : ℝ} (h1 : knot p.knotsV dv ≤ v)
    (h2 : v ≤ knot p.knotsV n) :
    p.isoCurveU v = ok (BSpline.mk (arr m (fun i => bsum dv p.knotsV n (p.pts n i) v))
      p.knotsU false (staticDeg p.sU)) := by
  have := (h.valid.ready h.init).isoCurveU h.wideV (v := v) (v' := v)
    (wrapOn_mem h1 (Or.inr h.perV)) ⟨h1, h2, Or.inl h.firstV⟩
  rw [this, h.perU]

theorem Regular.isoV (h : Regular p m n du dv) {u : ℝ} (h1 : knot p.knotsU du ≤ u)
    (h2 : u ≤ knot p.knotsU m) :
    p.isoCurveV u = ok (BSpline.mk (arr n (fun j => bsum du p.knotsU m (fun i => p.pts n i j) u))
      p.knotsV false (staticDeg p.sV)) := by
  have := (h.valid.ready h.init).isoCurveV h.wideU (u := u) (u' := u)
    (wrapOn_mem h1 (Or.inr h.perU)) ⟨h1, h2, Or.inl h.firstU⟩
  rw [this, h.perV]

theorem Regular.orders (h : Regular p m n du dv) {u v : ℝ} (h1 : knot p.knotsU du ≤ u)
    (h2 : u ≤ knot p.knotsU m) (h3 : knot p.knotsV dv ≤ v) (h4 : v ≤ knot p.knotsV n) :
    (do let c ← p.isoCurveU v; c.evaluate u) = p.evaluate u v ∧
      (do let c ← p.isoCurveV u; c.evaluate v) = p.evaluate u v := by
  have hr := h.valid.ready h.init
  have a := wrapOn_mem (n := m) h1 (Or.inr h.perU)
  have b := wrapOn_mem (n := n) h3 (Or.inr h.perV)
  rw [hr.evaluate h.wideU h.wideV a ⟨h1, h2, Or.inl h.firstU⟩ b ⟨h3, h4, Or.inl h.firstV⟩]
  exact ⟨hr.evaluateUV h.wideU h.wideV a ⟨h1, h2, Or.inl h.firstU⟩ b ⟨h3, h4, Or.inl h.firstV⟩,
    hr.evaluateVU h.wideU h.wideV a ⟨h1, h2, Or.inl h.firstU⟩ b ⟨h3, h4, Or.inl h.firstV⟩⟩

/-- C64: `evaluate_derivative_u` and `evaluate_2nd_derivative_uu` are the first and second partial
derivatives in `u`.  Partial: one-sided derivatives at knots; no periodic patches, no empty first
span, no span below the threshold. -/
theorem C64_u_partial (h : Regular p m n du dv) {v : ℝ} (h3 : knot p.knotsV dv ≤ v)
    (h4 : v ≤ knot p.knotsV n) (f f' f'' : ℝ → V)
    (hf : ∀ s, knot p.knotsU du ≤ s → s ≤ knot p.knotsU m → p.evaluate s v = ok (f s))
    (hf' : ∀ s, knot p.knotsU du ≤ s → s ≤ knot p.knotsU m → p.derivU s v = ok (f' s))
    (hf'' : ∀ s, knot p.knotsU du ≤ s → s ≤ knot p.knotsU m → p.derivUU s v = ok (f'' s)) :
    DerivAlong p.knotsU m du f f' ∧ DerivAlong p.knotsU m du f' f'' := by
  refine curve_deriv h.valid.u h.wideU h.firstU (fun t h1 h2 => ?_) (fun t h1 h2 => ?_)
    (fun t h1 h2 => ?_) (P := fun i => bsum dv p.knotsV n (p.pts n i) v)
  · rw [← hf t h1 h2, ← (h.orders h1 h2 h3 h4).1, h.isoU h3 h4, ok_bind]
  · rw [← hf' t h1 h2, derivU, h.isoU h3 h4, ok_bind]
  · rw [← hf'' t h1 h2, derivUU, h.isoU h3 h4, ok_bind]

/-- C64: the same in `v`. -/
theorem C64_v_partial (h : Regular p m n du dv) {u : ℝ} (h1 : knot p.knotsU du ≤ u)
    (h2 : u ≤ knot p.knotsU m) (f f' f'' : ℝ → V)
    (hf : ∀ s, knot p.knotsV dv ≤ s → s ≤ knot p.knotsV n → p.evaluate u s = ok (f s))
    (hf' : ∀ s, knot p.knotsV dv ≤ s → s ≤ knot p.knotsV n → p.derivV u s = ok (f' s))
    (hf'' : ∀ s, knot p.knotsV dv ≤ s → s ≤ knot p.knotsV n → p.derivVV u s = ok (f'' s)) :
    DerivAlong p.knotsV n dv f f' ∧ DerivAlong p.knotsV n dv f' f'' := by
  refine curve_deriv h.valid.v h.wideV h.firstV (fun t h3 h4 => ?_) (fun t h3 h4 => ?_)
    (fun t h3 h4 => ?_) (P := fun j => bsum du p.knotsU m (fun i => p.pts n i j) u)
  · rw [← hf t h3 h4, ← (h.orders h1 h2 h3 h4).2, h.isoV h1 h2, ok_bind]
  · rw [← hf' t h3 h4, derivV, h.isoV h1 h2, ok_bind]
  · rw [← hf'' t h3 h4, derivVV, h.isoV h1 h2, ok_bind]

theorem curve_returns {u : List ℝ} {deg s : ℤ} {n d : ℕ} (h : Axis u deg s n d) (hw : WideOn u n d)
    (hf : knot u d < knot u (d + 1)) (P : ℕ → V) :
    ∃ f f' f'' : ℝ → V, ∀ t, knot u d ≤ t → t ≤ knot u n →
      (BSpline.mk (arr n P) u false (staticDeg s)).evaluate t = ok (f t) ∧
      (BSpline.mk (arr n P) u false (staticDeg s)).evaluateDerivative t = ok (f' t) ∧
      (BSpline.mk (arr n P) u false (staticDeg s)).evaluate2ndDerivative t = ok (f'' t) := by
  have := C15_evaluators_return (h.wf (V := V) false (c := arr n P) (by simp))
    (wide_of rfl (by simp) hw) rfl hf
  simpa using this

/-- The evaluators of C64 do return on the whole domain. -/
theorem C64_evaluators_return (h : Regular p m n du dv) {u v : ℝ} (h1 : knot p.knotsU du ≤ u)
    (h2 : u ≤ knot p.knotsU m) (h3 : knot p.knotsV dv ≤ v) (h4 : v ≤ knot p.knotsV n) :
    ∃ x xu xv xuu xvv : V, p.evaluate u v = ok x ∧ p.derivU u v = ok xu ∧ p.derivV u v = ok xv ∧
      p.derivUU u v = ok xuu ∧ p.derivVV u v = ok xvv := by
  obtain ⟨f, f', f'', H⟩ := curve_returns h.valid.u h.wideU h.firstU
    (fun i => bsum dv p.knotsV n (p.pts n i) v)
  obtain ⟨g, g', g'', G⟩ := curve_returns h.valid.v h.wideV h.firstV
    (fun j => bsum du p.knotsU m (fun i => p.pts n i j) u)
  obtain ⟨a, b, c⟩ := H u h1 h2
  obtain ⟨a', b', c'⟩ := G v h3 h4
  refine ⟨f u, f' u, g' v, f'' u, g'' v, ?_, ?_, ?_, ?_, ?_⟩
  · rw [← (h.orders h1 h2 h3 h4).1, h.isoU h3 h4, ok_bind, a]
  · rw [derivU, h.isoU h3 h4, ok_bind, b]
  · rw [derivV, h.isoV h1 h2, ok_bind, b']
  · rw [derivUU, h.isoU h3 h4, ok_bind, c]
  · rw [derivVV, h.isoV h1 h2, ok_bind, c']

/-- The patch of `u`-derivatives is regular again and evaluates to `evaluate_derivative_u`. -/
theorem Regular.duReg (bad : V) (h : Regular p m n (du + 1) dv) :
    ∃ q, p.duPatch bad = ok q ∧ Regular q (m - 1) n du dv ∧ q.knotsV = p.knotsV ∧
      knot q.knotsU du = knot p.knotsU (du + 1) ∧ knot q.knotsU (m - 1) = knot p.knotsU m ∧
      ∀ u v, knot p.knotsU (du + 1) ≤ u → u ≤ knot p.knotsU m → knot p.knotsV dv ≤ v →
        v ≤ knot p.knotsV n → q.evaluate u v = p.derivU u v := by
  obtain ⟨q, e, hr, k1, k2, p1, p2, -⟩ := h.valid.duPatch bad
  obtain ⟨-, i1, i2, i3⟩ := h.valid.u.inner
  refine ⟨q, e, ⟨hr.toValid, ready_init hr, by rw [p1, h.perU], by rw [p2, h.perV],
    by rw [k1]; exact h.valid.u.inner_wide h.wideU, by rw [k2]; exact h.wideV,
    by rw [k1, i1, i3]; exact h.firstU, by rw [k2]; exact h.firstV⟩, k2, by rw [k1, i1],
    by rw [k1, i2], ?_⟩
  intro u v h1 h2 h3 h4
  exact (h.valid.ready h.init).derivU h.wideU h.wideV (wrapOn_mem h1 (Or.inr h.perU))
    ⟨h1, h2, Or.inl h.firstU⟩ (wrapOn_mem h3 (Or.inr h.perV)) ⟨h3, h4, Or.inl h.firstV⟩ e

/-- C64: `evaluate_2nd_derivative_uv` is the derivative in `v` of `evaluate_derivative_u`, whatever
the quotients by the length of an empty support are.  For degree 0 in either direction it is zero. -/
theorem C64_uv_partial (bad : V) (h : Regular p m n (du + 1) (dv + 1)) {u : ℝ}
    (h1 : knot p.knotsU (du + 1) ≤ u) (h2 : u ≤ knot p.knotsU m) (f f' : ℝ → V)
    (hf : ∀ s, knot p.knotsV (dv + 1) ≤ s → s ≤ knot p.knotsV n → p.derivU u s = ok (f s))
    (hf' : ∀ s, knot p.knotsV (dv + 1) ≤ s → s ≤ knot p.knotsV n →
      p.derivUV bad u s = ok (f' s)) :
    DerivAlong p.knotsV n (dv + 1) f f' := by
  obtain ⟨q, e, R, kv, k1, k2, hv⟩ := h.duReg bad
  obtain ⟨q', e', hr', -⟩ := R.valid.dvPatch bad
  have a1 : knot q.knotsU du ≤ u := by rw [k1]; exact h1
  have a2 : u ≤ knot q.knotsU (m - 1) := by rw [k2]; exact h2
  have key : ∀ s, knot p.knotsV (dv + 1) ≤ s → s ≤ knot p.knotsV n →
      p.derivUV bad u s = q.derivV u s := by
    intro s h3 h4
    unfold derivUV duvPatch
    rw [e, ok_bind, e', ok_bind]
    exact (R.valid.ready R.init).derivV R.wideU R.wideV (wrapOn_mem a1 (Or.inr R.perU))
      ⟨a1, a2, Or.inl R.firstU⟩ (wrapOn_mem (by rw [kv]; exact h3) (Or.inr R.perV))
      ⟨by rw [kv]; exact h3, by rw [kv]; exact h4, Or.inl R.firstV⟩ e'
  obtain ⟨g, g', g'', G⟩ := curve_returns R.valid.v R.wideV R.firstV
    (fun j => bsum du q.knotsU (m - 1) (fun i => q.pts n i j) u)
  have := (C64_v_partial R a1 a2 f f' g'' (by
    rw [kv]; intro s h3 h4; rw [hv u s h1 h2 h3 h4, hf s h3 h4]) (by
    rw [kv]; intro s h3 h4; rw [← key s h3 h4, hf' s h3 h4]) (by
    intro s h3 h4
    rw [derivVV, R.isoV a1 a2, ok_bind]
    exact (G s h3 h4).2.2)).1
  rw [kv] at this
  exact this

/-- C64: the mixed derivative exists in the sense of `C64_uv_partial`. -/
theorem C64_uv_returns (bad : V) (h : Regular p m n (du + 1) (dv + 1)) {u v : ℝ}
    (h1 : knot p.knotsU (du + 1) ≤ u) (h2 : u ≤ knot p.knotsU m)
    (h3 : knot p.knotsV (dv + 1) ≤ v) (h4 : v ≤ knot p.knotsV n) :
    ∃ x, p.derivUV bad u v = ok x := by
  obtain ⟨q, e, R, kv, k1, k2, hv⟩ := h.duReg bad
  obtain ⟨q', e', hr', -⟩ := R.valid.dvPatch bad
  have a1 : knot q.knotsU du ≤ u := by rw [k1]; exact h1
  have a2 : u ≤ knot q.knotsU (m - 1) := by rw [k2]; exact h2
  have b1 : knot q.knotsV (dv + 1) ≤ v := by rw [kv]; exact h3
  have b2 : v ≤ knot q.knotsV n := by rw [kv]; exact h4
  obtain ⟨_, _, x, _, _, _, _, ex, _⟩ := C64_evaluators_return R a1 a2 b1 b2
  refine ⟨x, ?_⟩
  unfold derivUV duvPatch
  rw [e, ok_bind, e', ok_bind, ← ex]
  exact (R.valid.ready R.init).derivV R.wideU R.wideV (wrapOn_mem a1 (Or.inr R.perU))
    ⟨a1, a2, Or.inl R.firstU⟩ (wrapOn_mem b1 (Or.inr R.perV)) ⟨b1, b2, Or.inl R.firstV⟩ e'

/-- C64: for degree 0 in `u` or `v` the mixed derivative is zero. -/
theorem C64_uv_degree0 {K V : Type} [Field K] [LinearOrder K] [IsStrictOrderedRing K] [FloorRing K]
    [AddCommGroup V] [Module K V] (bad : V) {p : BSplinePatch K V} (h : p.Valid m n du dv)
    (h0 : du = 0 ∨ dv = 0) (u v : K) : p.derivUV bad u v = ok 0 := by
  obtain ⟨z, ez, hz, H⟩ := zeroPatch_spec (K := K) (V := V)
  have zdv : z.dvPatch bad = ok z := by
    unfold dvPatch
    rw [hz.toValid.degreeU, ok_bind, hz.toValid.degreeV, ok_bind, if_pos rfl, ez]
  unfold derivUV duvPatch
  cases du with
  | zero =>
    have : p.duPatch bad = ok z := by
      unfold duPatch
      rw [h.degreeU, ok_bind, h.degreeV, ok_bind, if_pos rfl, ez]
    rw [this, ok_bind, zdv, ok_bind, H]
  | succ d =>
    have hdv : dv = 0 := by omega
    subst hdv
    obtain ⟨q, e, hr, -⟩ := h.duPatch bad
    have : q.dvPatch bad = ok z := by
      unfold dvPatch
      rw [hr.toValid.degreeU, ok_bind, hr.toValid.degreeV, ok_bind, if_pos rfl, ez]
    rw [e, ok_bind, this, ok_bind, H]

example : exBP.derivU (1/4 : ℚ) (1/3) = ok (23/3) ∧ exBP.derivUV 0 (1/4 : ℚ) (1/3) = ok (-1) ∧
    exBP.derivUV 77 (3/4 : ℚ) (1/3) = ok 3 := by
  refine ⟨?_, ?_, ?_⟩ <;> decide +kernel

/-- A regular patch. -/
theorem exRegular : ∃ q : BSplinePatch ℝ ℝ, Regular q 2 2 1 1 ∧ q.grid = [0, 1, 3, 2] := by
  have ha : Axis ([0, 0, 1, 1] : List ℝ) 1 (-1) 2 1 :=
    ⟨rfl, rfl, Or.inl (by decide), le_rfl, by simp, by simp [knot]⟩
  have hw : WideOn ([0, 0, 1, 1] : List ℝ) 2 1 := by
    intro i h1 h2 h3
    have : i = 1 := by omega
    subst this
    simp [knot, BSpline.tiny]
    norm_num
  obtain ⟨q, -, e2, hv, g, ku, kv, -, -, pu, pv⟩ := C31_init (p := BSplinePatch.mk ([0, 1, 3, 2] : List ℝ)
    ([0, 0, 1, 1] : List ℝ) ([0, 0, 1, 1] : List ℝ) 1 1 false false (-1) (-1) [] [])
    (m := 2) (n := 2) (du := 1) (dv := 1) ⟨ha, ha, rfl⟩
  refine ⟨q, ⟨hv, e2, pu, pv, by rw [ku]; exact hw, by rw [kv]; exact hw, ?_, ?_⟩, g⟩
  · rw [ku]; simp [knot]
  · rw [kv]; simp [knot]

/-- The evaluators of this patch along the lower boundary curves. -/
example : ∃ (q : BSplinePatch ℝ ℝ) (f f' f'' g g' g'' h h' : ℝ → ℝ), Regular q 2 2 1 1 ∧
    DerivAlong q.knotsU 2 1 f f' ∧ DerivAlong q.knotsU 2 1 f' f'' ∧
    DerivAlong q.knotsV 2 1 g g' ∧ DerivAlong q.knotsV 2 1 g' g'' ∧ DerivAlong q.knotsV 2 1 h h' := by
  obtain ⟨q, hq, -⟩ := exRegular
  have a := hq.valid.u.dom.le
  have b := hq.valid.v.dom.le
  choose! f f' _ f'' _ e1 e2 _ e3 _ using fun s h1 h2 =>
    C64_evaluators_return (u := s) hq h1 h2 le_rfl b
  choose! g h g' _ g'' i1 i2 i3 _ i4 using fun s h3 h4 =>
    C64_evaluators_return (v := s) hq le_rfl a h3 h4
  choose! h' j using fun s h3 h4 => C64_uv_returns (v := s) (du := 0) (dv := 0) 0 hq le_rfl a h3 h4
  obtain ⟨k1, k2⟩ := C64_u_partial hq le_rfl b f f' f'' e1 e2 e3
  obtain ⟨k3, k4⟩ := C64_v_partial hq le_rfl a g g' g'' i1 i3 i4
  exact ⟨q, f, f', f'', g, g', g'', h, h', hq, k1, k2, k3, k4,
    C64_uv_partial (du := 0) (dv := 0) 0 hq le_rfl a h h' i2 j⟩

/-- A patch with a `u`-knot of multiplicity `degree + 1` inside its domain: one quotient of
`compute_du_patch` has a zero divisor, and the values do not depend on it. -/
example : (BSplinePatch.mk [0, 1, 3, 2, 5, 7, 4, 6] [0, 0, 1/2, 1/2, 1, 1] [0, 0, 1, 1] 1 1 false
      false (-1) (-1) [] [] : BSplinePatch ℚ ℚ).init >>= (fun q => do
        let a ← q.derivUV 77 (1/4) (1/3)
        let b ← q.derivUV (-5) (1/4) (1/3)
        pure (a - b)) = ok 0 := by decide +kernel

end Deriv

end NS.Props
