import Verif.Proof.RationalPatch
import Verif.Proof.RationalDeriv
import Verif.Props.BezierPatch
import Verif.Props.BSplinePatch
import Verif.Props.RationalOps
import Verif.Props.RationalDeriv

/-!
# C63: rational patches

`p.init = ok p` says that the homogeneous copy of `p` is up to date.
-/

set_option linter.unusedSectionVars false
set_option linter.unusedSimpArgs false

namespace NS.Props

open Outcome Spec Finset
open BSpline (HullOf)
open BSplinePatch (Axis WideOn InDom)

/-- Degrees 2 and 1 with varying weights. -/
def exRatPatch : RationalBezierPatch ℚ ℚ :=
  RationalBezierPatch.mk (BezierPatch.mk [0, 1, 3, 2, 5, 7] 2 1 false false 2 1)
    [1, 2, 1, 3, 1, 2]
    (BezierPatch.mk [(0, 1), (2, 2), (3, 1), (6, 3), (5, 1), (14, 2)] 2 1 false false 2 1)

section General

variable {K V : Type} [Field K] [LinearOrder K] [IsStrictOrderedRing K] [FloorRing K]
  [AddCommGroup V] [Module K V]

/-! ### Rational Bézier patches -/

theorem q0_pair {x : V} {w : K} (h : w ≠ 0) : quot0 (x, w) = ok (w⁻¹ • x) := by
  unfold quot0; rw [assert_true h]; rfl

/-- C63: a rational Bézier patch evaluates to the weighted tensor quotient wherever its denominator
is not zero. -/
theorem C63_bezier_evaluate {p : RationalBezierPatch K V} (h : p.init = ok p) (u v : K) :
    ∃ u' v', Folded p.base.perU 0 1 u u' ∧ Folded p.base.perV 0 1 v v' ∧
      (ratBezierSurfaceDen p.base.degU.toNat p.base.degV.toNat p.weights u' v' ≠ 0 →
        p.evaluate u v = ok (ratBezierSurface p.base.degU.toNat p.base.degV.toNat p.base.grid
          p.weights u' v')) := by
  obtain ⟨S, -, -⟩ := (RationalBezierPatch.init_iff _ _).1 h
  obtain ⟨u', hu, fu⟩ := bezier_folded p.base.perU u
  obtain ⟨v', hv, fv⟩ := bezier_folded p.base.perV v
  refine ⟨u', v', fu, fv, fun hd => ?_⟩
  unfold RationalBezierPatch.evaluate
  rw [S.validate, ok_bind, S.evaluate hu hv, ok_bind, homog_bezierSurface S.len, q0_pair hd]
  rfl

example := C63_bezier_evaluate (p := exRatPatch) (by decide +kernel) (1 / 3) (1 / 4)

theorem bezierDen_pos {m n : ℕ} {w : List K} (hl : w.length = (m + 1) * (n + 1))
    (hw : ∀ x ∈ w, 0 < x) {u v : K} (hu : 0 ≤ u ∧ u ≤ 1) (hv : 0 ≤ v ∧ v ≤ 1) :
    0 < ratBezierSurfaceDen m n w u v := by
  have h1 := bernstein_sum (K := K) m u
  have h2 := bernstein_sum (K := K) n v
  have key : Convex K (Set.Ioi (0 : K)) := convex_Ioi 0
  have inner : ∀ i ∈ range (m + 1), ∑ j ∈ range (n + 1), bernstein n j v •
      gridPoint w (n + 1) i j ∈ Set.Ioi (0 : K) := by
    intro i hi
    refine key.sum_mem (fun j _ => bernstein_nonneg' hv.1 hv.2) h2 fun j hj => ?_
    have hk : i * (n + 1) + j < w.length := by
      rw [hl]; exact lin_lt (mem_range.1 hi) (mem_range.1 hj)
    unfold gridPoint
    rw [List.getD_eq_getElem?_getD, List.getElem?_eq_getElem hk, Option.getD_some]
    exact hw _ (List.getElem_mem hk)
  have := key.sum_mem (fun i (_ : i ∈ range (m + 1)) => bernstein_nonneg' (n := m) hu.1 hu.2) h1
    inner
  simp only [smul_eq_mul, mul_sum, ← mul_assoc, Set.mem_Ioi] at this
  exact this

/-- C63: with positive weights the evaluation is defined on the whole domain. -/
theorem C63_bezier_positive {p : RationalBezierPatch K V} (h : p.init = ok p)
    (hw : ∀ x ∈ p.weights, 0 < x) {u v : K} (hu : 0 ≤ u ∧ u ≤ 1) (hv : 0 ≤ v ∧ v ≤ 1) :
    ∃ x, p.evaluate u v = ok x := by
  obtain ⟨u', v', fu, fv, e⟩ := C63_bezier_evaluate h u v
  obtain ⟨S, -, -⟩ := (RationalBezierPatch.init_iff _ _).1 h
  have mem : ∀ (per : Bool) {t t' : K}, 0 ≤ t ∧ t ≤ 1 → Folded per 0 1 t t' → 0 ≤ t' ∧ t' ≤ 1 := by
    intro per t t' ht f
    cases per with
    | false => cases f; exact ht
    | true => exact ⟨f.1, f.2.1.le⟩
  have hb := wf_of_init S.ok
  exact ⟨_, e (bezierDen_pos (by rw [← S.len, hb.len]) hw (mem _ hu fu) (mem _ hv fv)).ne'⟩

example := C63_bezier_positive (p := exRatPatch) (by decide +kernel) (by decide +kernel) (u := 1 / 3) (v := 1 / 4)
  (by norm_num) (by norm_num)

/-- C63: `set_control_point` keeps the homogeneous copy up to date, changes the point it names and
nothing else. -/
theorem C63_bezier_set_control_point {p : RationalBezierPatch K V} (h : p.init = ok p) {i j : ℕ}
    (hi : i ≤ p.base.degU.toNat) (hj : j ≤ p.base.degV.toNat) (x : V) :
    ∃ q, p.setControlPoint i j x = ok q ∧ q.init = ok q ∧ q.base.degU = p.base.degU ∧
      q.base.degV = p.base.degV ∧ q.getControlPoint i j = ok x ∧
      (∀ a b, a ≤ p.base.degU.toNat → b ≤ p.base.degV.toNat → (a, b) ≠ (i, j) →
        q.getControlPoint a b = p.getControlPoint a b) ∧
      (∀ a b, q.getWeight a b = p.getWeight a b) := by
  obtain ⟨S, -, -⟩ := (RationalBezierPatch.init_iff _ _).1 h
  obtain ⟨q, e, T, w, b⟩ := S.setControlPoint hi hj x
  refine ⟨q, e, (RationalBezierPatch.init_iff _ _).2 ⟨T, rfl, rfl⟩, by rw [b], by rw [b], ?_, ?_, ?_⟩
  · unfold RationalBezierPatch.getControlPoint
    rw [T.linearIndex, ok_bind, rd_eq_ok]
    rw [b]
    exact List.getElem?_set_self (S.index_lt hi hj)
  · intro i' j' hi' hj' hne
    unfold RationalBezierPatch.getControlPoint
    rw [T.linearIndex, S.linearIndex, ok_bind, ok_bind]
    rw [b]
    unfold rd
    simp only
    rw [List.getElem?_set_ne]
    intro e
    obtain ⟨rfl, rfl⟩ := lin_inj (by omega) (by omega) e
    exact hne rfl
  · intro a c
    unfold RationalBezierPatch.getWeight
    rw [T.linearIndex, S.linearIndex, w, b]

example := C63_bezier_set_control_point (p := exRatPatch) (by decide +kernel) (i := 1) (j := 0) (by decide) (by decide) 9

/-- C63: `set_weight` keeps the homogeneous copy up to date, changes the weight it names and nothing
else. -/
theorem C63_bezier_set_weight {p : RationalBezierPatch K V} (h : p.init = ok p) {i j : ℕ}
    (hi : i ≤ p.base.degU.toNat) (hj : j ≤ p.base.degV.toNat) (x : K) :
    ∃ q, p.setWeight i j x = ok q ∧ q.init = ok q ∧ q.base = p.base ∧ q.getWeight i j = ok x ∧
      (∀ a b, a ≤ p.base.degU.toNat → b ≤ p.base.degV.toNat → (a, b) ≠ (i, j) →
        q.getWeight a b = p.getWeight a b) ∧
      (∀ a b, q.getControlPoint a b = p.getControlPoint a b) := by
  obtain ⟨S, -, -⟩ := (RationalBezierPatch.init_iff _ _).1 h
  obtain ⟨q, e, T, b, w⟩ := S.setWeight hi hj x
  refine ⟨q, e, (RationalBezierPatch.init_iff _ _).2 ⟨T, rfl, rfl⟩, b, ?_, ?_, ?_⟩
  · unfold RationalBezierPatch.getWeight
    rw [T.linearIndex, ok_bind, rd_eq_ok, b, w]
    exact List.getElem?_set_self (S.len ▸ S.index_lt hi hj)
  · intro i' j' hi' hj' hne
    unfold RationalBezierPatch.getWeight
    rw [T.linearIndex, S.linearIndex, ok_bind, ok_bind, b, w]
    unfold rd
    rw [List.getElem?_set_ne]
    intro e
    obtain ⟨rfl, rfl⟩ := lin_inj (by omega) (by omega) e
    exact hne rfl
  · intro a c
    unfold RationalBezierPatch.getControlPoint
    rw [T.linearIndex, S.linearIndex, b]

example := C63_bezier_set_weight (p := exRatPatch) (by decide +kernel) (i := 1) (j := 0) (by decide) (by decide) 9

/-- The setters of a rational Bézier patch. -/
inductive RatEdit (K V : Type) where
  | point (i j : ℕ) (x : V)
  | weight (i j : ℕ) (x : K)

/-- Indices inside the grid. -/
def RatEdit.inside (m n : ℕ) : RatEdit K V → Prop
  | .point i j _ => i ≤ m ∧ j ≤ n
  | .weight i j _ => i ≤ m ∧ j ≤ n

/-- Effect of one setter. -/
def RatEdit.run (p : RationalBezierPatch K V) : RatEdit K V → Outcome (RationalBezierPatch K V)
  | .point i j x => p.setControlPoint i j x
  | .weight i j x => p.setWeight i j x

/-- Effect of a history of setters. -/
def ratRun (p : RationalBezierPatch K V) : List (RatEdit K V) → Outcome (RationalBezierPatch K V)
  | [] => ok p
  | e :: r => do
    let q ← e.run p
    ratRun q r

/-- C63: after every history of in-range setter calls the patch is still up to date, so that
`C63_bezier_evaluate` describes it. -/
theorem C63_bezier_history {p : RationalBezierPatch K V} (h : p.init = ok p)
    (es : List (RatEdit K V))
    (hes : ∀ e ∈ es, e.inside p.base.degU.toNat p.base.degV.toNat) :
    ∃ q, ratRun p es = ok q ∧ q.init = ok q ∧ q.base.degU = p.base.degU ∧
      q.base.degV = p.base.degV := by
  induction es generalizing p with
  | nil => exact ⟨p, rfl, h, rfl, rfl⟩
  | cons e r ih =>
    have he := hes e (by simp)
    have : ∃ q, e.run p = ok q ∧ q.init = ok q ∧ q.base.degU = p.base.degU ∧
        q.base.degV = p.base.degV := by
      cases e with
      | point i j x =>
        obtain ⟨q, e, i, d1, d2, -⟩ := C63_bezier_set_control_point h he.1 he.2 x
        exact ⟨q, e, i, d1, d2⟩
      | weight i j x =>
        obtain ⟨q, e, i, d, -⟩ := C63_bezier_set_weight h he.1 he.2 x
        exact ⟨q, e, i, by rw [d], by rw [d]⟩
    obtain ⟨q, e1, i1, d1, d2⟩ := this
    obtain ⟨q', e', i', d1', d2'⟩ := ih i1 (fun e he => by rw [d1, d2]; exact hes e (by simp [he]))
    exact ⟨q', by rw [ratRun, e1, ok_bind, e'], i', d1'.trans d1, d2'.trans d2⟩

example : exRatPatch.init = ok exRatPatch ∧
    exRatPatch.evaluate (1/2) (1/3) = ok (ratBezierSurface 2 1 exRatPatch.base.grid
      exRatPatch.weights (1/2 : ℚ) (1/3)) ∧
    (ratRun exRatPatch [.weight 1 1 (5 : ℚ), .point 0 1 (4 : ℚ)] >>= fun q =>
      q.evaluate 0 1) = ok (4 : ℚ) := by
  refine ⟨by decide +kernel, ?_, by decide +kernel⟩
  obtain ⟨u', v', fu, fv, e⟩ := C63_bezier_evaluate (p := exRatPatch) (by decide +kernel) (1/2) (1/3)
  cases fu
  cases fv
  refine e (bezierDen_pos (by decide) (by decide +kernel) ⟨by norm_num, by norm_num⟩
    ⟨by norm_num, by norm_num⟩).ne'

/-- A piece of a rational Bézier patch: up to date, of the same degrees, with positive weights and
the values `f`. -/
def RatPiece (p A : RationalBezierPatch K V) (f : K → K → Outcome V) : Prop :=
  A.init = ok A ∧ A.base.degU = p.base.degU ∧ A.base.degV = p.base.degV ∧
    (∀ x ∈ A.weights, 0 < x) ∧ ∀ s t, 0 ≤ s → s ≤ 1 → 0 ≤ t → t ≤ 1 → A.evaluate s t = f s t

theorem ratPiece_of {p : RationalBezierPatch K V} (h : p.init = ok p)
    {H : BezierPatch (V × K)} (hH : PieceOk p.hom H) (hpos : ∀ q ∈ H.grid, 0 < q.2)
    {f : K → K → K × K}
    (hf : ∀ s t, 0 ≤ s → s ≤ 1 → 0 ≤ t → t ≤ 1 →
      H.evaluate s t = (flat p.hom).evaluate (f s t).1 (f s t).2) :
    ∃ A, RationalBezierPatch.ofHomogeneous H = ok A ∧
      RatPiece p A (fun s t => (flat p.hom).evaluate (f s t).1 (f s t).2 >>= quot0) := by
  obtain ⟨S, -, -⟩ := (RationalBezierPatch.init_iff _ _).1 h
  obtain ⟨A, e, T, eh⟩ := RationalBezierPatch.ofHomogeneous_eq hH.1 hH.2.2.2.1
    (fun q hq => (hpos q hq).ne')
  have a1 : A.base.degU = A.hom.degU := by rw [T.hom]
  have a2 : A.base.degV = A.hom.degV := by rw [T.hom]
  have b1 : p.base.degU = p.hom.degU := by rw [S.hom]
  have b2 : p.base.degV = p.hom.degV := by rw [S.hom]
  refine ⟨A, e, (RationalBezierPatch.init_iff _ _).2 ⟨T, rfl, rfl⟩, ?_, ?_, ?_, ?_⟩
  · rw [a1, b1, eh, hH.2.1]
  · rw [a2, b2, eh, hH.2.2.1]
  · intro x hx
    have : x ∈ A.hom.grid.map Prod.snd := by rw [T.hom, map_snd_homog T.len]; exact hx
    obtain ⟨q, hq, rfl⟩ := List.mem_map.1 this
    exact hpos q (eh ▸ hq)
  · intro s t s0 s1 t0 t1
    unfold RationalBezierPatch.evaluate
    rw [T.validate, ok_bind, eh, hf s t s0 s1 t0 t1]

/-- The surface without folding: the weighted quotient. -/
theorem flat_quot {p : RationalBezierPatch K V} (h : p.init = ok p)
    (hw : ∀ x ∈ p.weights, 0 < x) {u v : K} (hu : 0 ≤ u ∧ u ≤ 1) (hv : 0 ≤ v ∧ v ≤ 1) :
    ((flat p.hom).evaluate u v >>= quot0) = ok (ratBezierSurface p.base.degU.toNat
      p.base.degV.toNat p.base.grid p.weights u v) := by
  obtain ⟨S, -, -⟩ := (RationalBezierPatch.init_iff _ _).1 h
  obtain ⟨m, n, hb, hh⟩ := S.wf
  have e1 : p.base.degU.toNat = m := by rw [hb.degU]; simp
  have e2 : p.base.degV.toNat = n := by rw [hb.degV]; simp
  have hg : p.hom.grid = homog p.base.grid p.weights := by rw [S.hom]
  rw [flat_evaluate hh, ok_bind, BezierPatch.part_eq_surface, hg, homog_bezierSurface S.len, q0_pair]
  · rw [e1, e2]; rfl
  · exact (bezierDen_pos (by rw [← S.len, hb.len]) hw hu hv).ne'

theorem hom_grid_pos {p : RationalBezierPatch K V} (h : p.init = ok p)
    (hw : ∀ x ∈ p.weights, 0 < x) : ∀ q ∈ p.hom.grid, 0 < q.2 := by
  obtain ⟨S, -, -⟩ := (RationalBezierPatch.init_iff _ _).1 h
  have hg : p.hom.grid = homog p.base.grid p.weights := by rw [S.hom]
  rw [hg]
  exact hom_pos S.len hw

theorem static_hom {p : RationalBezierPatch K V} (h : p.init = ok p) (hs : Static p.base) :
    Static p.hom := by
  obtain ⟨S, -, -⟩ := (RationalBezierPatch.init_iff _ _).1 h
  rw [S.hom]; exact hs

theorem init_hom {p : RationalBezierPatch K V} (h : p.init = ok p) : p.hom.init = ok () := by
  obtain ⟨S, -, -⟩ := (RationalBezierPatch.init_iff _ _).1 h
  obtain ⟨m, n, hb, hh⟩ := S.wf
  exact BezierPatch.init_ok hh

/-- Control points of the parts are convex combinations of those of the patch. -/
theorem splitU_hull {p : BezierPatch V} (h : p.init = ok ()) {eps : K} (he : 0 ≤ eps)
    {u : K} (h0 : 0 < u) (h1 : u < 1) {A B : BezierPatch V} (e : p.splitU eps u = ok [A, B]) :
    HullOf K p.grid A.grid ∧ HullOf K p.grid B.grid := by
  have hw := wf_of_init h
  rw [hw.splitU he h0 h1, ok.injEq] at e
  simp only [List.cons.injEq, and_true] at e
  obtain ⟨rfl, rfl⟩ := e
  have mem : ∀ i j, i ≤ p.degU.toNat → j ≤ p.degV.toNat → p.pts p.degV.toNat i j ∈ p.grid := by
    intro i j hi hj
    have hl : i * (p.degV.toNat + 1) + j < p.grid.length := by
      rw [hw.len]; exact lin_lt (by omega) (by omega)
    unfold BezierPatch.pts gridPoint
    rw [List.getD_eq_getElem?_getD, List.getElem?_eq_getElem hl, Option.getD_some]
    exact List.getElem_mem hl
  constructor
  · intro S hS hp x hx
    simp only [BezierPatch.ofGrid] at hx
    obtain ⟨i, hi, j, hj, rfl⟩ := BSplinePatch.mem_gridOf hx
    have := umb_mem hS h0.le h1.le (P := fun i => p.pts p.degV.toNat i j) i 0
      (fun k hk => hp _ (mem k j (by omega) (by omega)))
    rwa [pow_zero, mul_one] at this
  · intro S hS hp x hx
    simp only [BezierPatch.ofGrid] at hx
    obtain ⟨i, hi, j, hj, rfl⟩ := BSplinePatch.mem_gridOf hx
    exact umb_mem hS h0.le h1.le (P := fun i => p.pts p.degV.toNat i j) (p.degU.toNat - i) i
      (fun k hk => hp _ (mem k j (by omega) (by omega)))

theorem splitV_hull {p : BezierPatch V} (h : p.init = ok ()) {eps : K} (he : 0 ≤ eps)
    {u : K} (h0 : 0 < u) (h1 : u < 1) {A B : BezierPatch V} (e : p.splitV eps u = ok [A, B]) :
    HullOf K p.grid A.grid ∧ HullOf K p.grid B.grid := by
  have hw := wf_of_init h
  rw [hw.splitV he h0 h1, ok.injEq] at e
  simp only [List.cons.injEq, and_true] at e
  obtain ⟨rfl, rfl⟩ := e
  have mem : ∀ i j, i ≤ p.degU.toNat → j ≤ p.degV.toNat → p.pts p.degV.toNat i j ∈ p.grid := by
    intro i j hi hj
    have hl : i * (p.degV.toNat + 1) + j < p.grid.length := by
      rw [hw.len]; exact lin_lt (by omega) (by omega)
    unfold BezierPatch.pts gridPoint
    rw [List.getD_eq_getElem?_getD, List.getElem?_eq_getElem hl, Option.getD_some]
    exact List.getElem_mem hl
  constructor
  · intro S hS hp x hx
    simp only [BezierPatch.ofGrid] at hx
    obtain ⟨i, hi, j, hj, rfl⟩ := BSplinePatch.mem_gridOf hx
    have := umb_mem hS h0.le h1.le (P := fun j => p.pts p.degV.toNat i j) j 0
      (fun k hk => hp _ (mem i k (by omega) (by omega)))
    rwa [pow_zero, mul_one] at this
  · intro S hS hp x hx
    simp only [BezierPatch.ofGrid] at hx
    obtain ⟨i, hi, j, hj, rfl⟩ := BSplinePatch.mem_gridOf hx
    exact umb_mem hS h0.le h1.le (P := fun j => p.pts p.degV.toNat i j) (p.degV.toNat - j) j
      (fun k hk => hp _ (mem i k (by omega) (by omega)))

/-- The surface of `p` at a point, as an outcome. -/
def surf (p : RationalBezierPatch K V) (u v : K) : Outcome V :=
  ok (ratBezierSurface p.base.degU.toNat p.base.degV.toNat p.base.grid p.weights u v)

theorem RatPiece.congr {p A : RationalBezierPatch K V} {f g : K → K → Outcome V}
    (h : RatPiece p A f) (e : ∀ s t, 0 ≤ s → s ≤ 1 → 0 ≤ t → t ≤ 1 → f s t = g s t) :
    RatPiece p A g := by
  obtain ⟨a, b, c, d, H⟩ := h
  exact ⟨a, b, c, d, fun s t s0 s1 t0 t1 => (H s t s0 s1 t0 t1).trans (e s t s0 s1 t0 t1)⟩

/-- C63: `split_u` of a fixed-degree patch with positive weights. Dynamic degrees are excluded, see
`C63_dynamic_refuted`. -/
theorem C63_bezier_split_u_partial {eps : K} (he : 0 ≤ eps) {p : RationalBezierPatch K V}
    (h : p.init = ok p) (hs : Static p.base) (hw : ∀ x ∈ p.weights, 0 < x) {u : K} (h0 : 0 < u)
    (h1 : u < 1) :
    ∃ A B, p.splitU eps u = ok [A, B] ∧ RatPiece p A (fun s t => surf p (u * s) t) ∧
      RatPiece p B (fun s t => surf p (u + (1 - u) * s) t) := by
  obtain ⟨HA, HB, e, oA, oB, H⟩ := C30_split_u_partial he (init_hom h) (static_hom h hs) h0 h1
  obtain ⟨hA, hB⟩ := splitU_hull (init_hom h) he h0 h1 e
  have pos := hom_grid_pos h hw
  obtain ⟨A, eA, PA⟩ := ratPiece_of h oA (hull_pos hA pos) (f := fun s t => (u * s, t))
    (fun s t _ _ _ _ => (H s t).1)
  obtain ⟨B, eB, PB⟩ := ratPiece_of h oB (hull_pos hB pos) (f := fun s t => (u + (1 - u) * s, t))
    (fun s t _ _ _ _ => (H s t).2)
  refine ⟨A, B, ?_, PA.congr ?_, PB.congr ?_⟩
  · unfold RationalBezierPatch.splitU
    rw [e, ok_bind]
    simp only [RationalBezierPatch.ofParts]
    rw [eA, ok_bind, eB, ok_bind]
    rfl
  · intro s t s0 s1 t0 t1
    exact flat_quot h hw ⟨by positivity, by nlinarith⟩ ⟨t0, t1⟩
  · intro s t s0 s1 t0 t1
    exact flat_quot h hw ⟨by nlinarith, by nlinarith⟩ ⟨t0, t1⟩

example := C63_bezier_split_u_partial (eps := 0) le_rfl (p := exRatPatch) (by decide +kernel) ⟨rfl, rfl⟩
  (by decide +kernel) (u := 1 / 3) (by norm_num) (by norm_num)

/-- C63: `split_v` of a fixed-degree patch with positive weights. -/
theorem C63_bezier_split_v_partial {eps : K} (he : 0 ≤ eps) {p : RationalBezierPatch K V}
    (h : p.init = ok p) (hs : Static p.base) (hw : ∀ x ∈ p.weights, 0 < x) {v : K} (h0 : 0 < v)
    (h1 : v < 1) :
    ∃ A B, p.splitV eps v = ok [A, B] ∧ RatPiece p A (fun s t => surf p s (v * t)) ∧
      RatPiece p B (fun s t => surf p s (v + (1 - v) * t)) := by
  obtain ⟨HA, HB, e, oA, oB, H⟩ := C30_split_v_partial he (init_hom h) (static_hom h hs) h0 h1
  obtain ⟨hA, hB⟩ := splitV_hull (init_hom h) he h0 h1 e
  have pos := hom_grid_pos h hw
  obtain ⟨A, eA, PA⟩ := ratPiece_of h oA (hull_pos hA pos) (f := fun s t => (s, v * t))
    (fun s t _ _ _ _ => (H s t).1)
  obtain ⟨B, eB, PB⟩ := ratPiece_of h oB (hull_pos hB pos) (f := fun s t => (s, v + (1 - v) * t))
    (fun s t _ _ _ _ => (H s t).2)
  refine ⟨A, B, ?_, PA.congr ?_, PB.congr ?_⟩
  · unfold RationalBezierPatch.splitV
    rw [e, ok_bind]
    simp only [RationalBezierPatch.ofParts]
    rw [eA, ok_bind, eB, ok_bind]
    rfl
  · intro s t s0 s1 t0 t1
    exact flat_quot h hw ⟨s0, s1⟩ ⟨by positivity, by nlinarith⟩
  · intro s t s0 s1 t0 t1
    exact flat_quot h hw ⟨s0, s1⟩ ⟨by nlinarith, by nlinarith⟩

example := C63_bezier_split_v_partial (eps := 0) le_rfl (p := exRatPatch) (by decide +kernel) ⟨rfl, rfl⟩
  (by decide +kernel) (v := 1 / 3) (by norm_num) (by norm_num)

/-- C63 is false for dynamic degrees: splitting such a patch always ends in a failed assertion
(undefined behaviour without assertions), because `set_homogeneous` does not set the degrees. -/
theorem C63_dynamic_refuted {eps : K} (he : 0 ≤ eps) {p : RationalBezierPatch K V}
    (h : p.init = ok p) (hs : p.base.sU < 0 ∨ p.base.sV < 0) {u : K} (h0 : 0 < u) (h1 : u < 1) :
    p.splitU eps u = ub ∧ p.splitV eps u = ub := by
  obtain ⟨S, -, -⟩ := (RationalBezierPatch.init_iff _ _).1 h
  have hw := wf_of_init (init_hom h)
  have hs' : p.hom.sU < 0 ∨ p.hom.sV < 0 := by rw [S.hom]; exact hs
  constructor
  · unfold RationalBezierPatch.splitU
    rw [hw.splitU he h0 h1, ok_bind]
    simp only [RationalBezierPatch.ofParts]
    rw [RationalBezierPatch.ofHomogeneous_dynamic (by simpa [BezierPatch.ofGrid, BezierPatch.new] using hs'), ub_bind]
  · unfold RationalBezierPatch.splitV
    rw [hw.splitV he h0 h1, ok_bind]
    simp only [RationalBezierPatch.ofParts]
    rw [RationalBezierPatch.ofHomogeneous_dynamic (by simpa [BezierPatch.ofGrid, BezierPatch.new] using hs'), ub_bind]

example : (∃ A B, exRatPatch.splitU (1/1000 : ℚ) (1/3) = ok [A, B]) ∧
    (exRatPatch.splitU (1/1000 : ℚ) (1/3) >>= fun r => rd r 1 >>= fun q => q.evaluate (1/2) (1/2))
      = exRatPatch.evaluate (2/3) (1/2) := by
  refine ⟨?_, by decide +kernel⟩
  obtain ⟨A, B, e, _⟩ := C63_bezier_split_u_partial (eps := (1/1000 : ℚ)) (by norm_num)
    (p := exRatPatch) (by decide +kernel) ⟨rfl, rfl⟩ (by decide +kernel) (u := 1/3) (by norm_num)
    (by norm_num)
  exact ⟨A, B, e⟩

end General

end NS.Props
