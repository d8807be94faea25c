import Mathlib.Algebra.Order.Ring.Rat
import Mathlib.Analysis.Convex.Combination
import Mathlib.Data.Rat.Floor
import Mathlib.LinearAlgebra.AffineSpace.AffineMap
import Mathlib.Tactic.NormNum
import Verif.Proof.BezierPatch
import Verif.Proof.PatchBase
import Verif.Props.Rational

/-!
# C28, C29, C30, C33, C59: Bézier patches

`init` succeeding means: both degrees are set and the grid has the matching size.
-/

set_option linter.unusedSectionVars false

namespace NS.Props

open Outcome Spec Finset BezierPatch Polynomial

/-- A patch of degrees 2, 1 with fixed-degree template arguments. -/
def exPatch : BezierPatch ℚ :=
  { grid := [0, 1, 3, 2, 5, 7], degU := 2, degV := 1, sU := 2, sV := 1 }

section General

variable {K V W : Type} [Field K] [LinearOrder K] [IsStrictOrderedRing K] [FloorRing K]
  [AddCommGroup V] [Module K V] [AddCommGroup W] [Module K W]

theorem wf_of_init {p : BezierPatch V} (h : p.init = ok ()) :
    p.WellFormed p.degU.toNat p.degV.toNat := by
  obtain ⟨m, n, hw⟩ := (init_iff p).1 h
  have e1 : p.degU.toNat = m := by rw [hw.degU]; simp
  have e2 : p.degV.toNat = n := by rw [hw.degV]; simp
  rw [e1, e2]; exact hw

/-! ### C28 -/

/-- C28: an initialised patch evaluates, at every pair of parameters, to the tensor product
Bernstein sum (parameters of periodic directions are folded into the domain). -/
theorem C28_evaluate {p : BezierPatch V} (h : p.init = ok ()) (u v : K) :
    ∃ u' v', Folded p.perU 0 1 u u' ∧ Folded p.perV 0 1 v v' ∧
      p.evaluate u v = ok (bezierSurface p.degU.toNat p.degV.toNat p.grid u' v') := by
  obtain ⟨u', hu, fu⟩ := bezier_folded p.perU u
  obtain ⟨v', hv, fv⟩ := bezier_folded p.perV v
  exact ⟨u', v', fu, fv, by rw [(wf_of_init h).evaluate hu hv, part_eq_surface]⟩

example := C28_evaluate (p := exPatch) (by decide +kernel) (1 / 3 : ℚ) (1 / 4)

/-- C28: both orders of iso-curves give the value of `evaluate`. -/
theorem C28_iso_order {p : BezierPatch V} (h : p.init = ok ()) (u v : K) :
    (do let c ← p.isoCurveU v; c.evaluate u) = p.evaluate u v ∧
      (do let c ← p.isoCurveV u; c.evaluate v) = p.evaluate u v := by
  obtain ⟨u', hu, fu⟩ := bezier_folded p.perU u
  obtain ⟨v', hv, fv⟩ := bezier_folded p.perV v
  have hw := wf_of_init h
  rw [hw.evaluate hu hv, hw.evaluateUV hu hv, hw.evaluateVU hu hv]
  exact ⟨rfl, rfl⟩

example := C28_iso_order (p := exPatch) (by decide +kernel) (1 / 3 : ℚ) (1 / 4)

/-- C28: the iso-curve objects are the patch with one parameter fixed. -/
theorem C28_iso_curves {p : BezierPatch V} (h : p.init = ok ()) (u v : K) :
    (∃ c, p.isoCurveU v = ok c ∧ c.ctrl.length = p.degU.toNat + 1 ∧
        ∀ s, c.evaluate s = p.evaluate s v) ∧
      (∃ c, p.isoCurveV u = ok c ∧ c.ctrl.length = p.degV.toNat + 1 ∧
        ∀ s, c.evaluate s = p.evaluate u s) := by
  obtain ⟨u', hu, fu⟩ := bezier_folded p.perU u
  obtain ⟨v', hv, fv⟩ := bezier_folded p.perV v
  have hw := wf_of_init h
  refine ⟨⟨_, hw.isoCurveU hv, by simp, fun s => ?_⟩, ⟨_, hw.isoCurveV hu, by simp, fun s => ?_⟩⟩
  · have := (C28_iso_order h s v).1
    rw [hw.isoCurveU hv, ok_bind] at this
    exact this
  · have := (C28_iso_order h u s).2
    rw [hw.isoCurveV hu, ok_bind] at this
    exact this

example := C28_iso_curves (p := { exPatch with perV := true }) (by decide +kernel) (1 / 3 : ℚ) (5 / 4)

/-- C28: the corners of a non-periodic patch are its corner control points. -/
theorem C28_corners {p : BezierPatch V} (h : p.init = ok ()) (hu : p.perU = false)
    (hv : p.perV = false) :
    p.evaluate (0 : K) (0 : K) = p.getControlPoint 0 0 ∧
      p.evaluate (0 : K) (1 : K) = p.getControlPoint 0 p.degV.toNat ∧
      p.evaluate (1 : K) (0 : K) = p.getControlPoint p.degU.toNat 0 ∧
      p.evaluate (1 : K) (1 : K) = p.getControlPoint p.degU.toNat p.degV.toNat := by
  have hw := wf_of_init h
  have w : ∀ t : K, Bezier.wrap false t = ok t := fun t => rfl
  have key : ∀ a b : K, p.evaluate a b = ok (part p.degU.toNat p.degV.toNat
      (p.pts p.degV.toNat) 0 0 a b) :=
    fun a b => hw.evaluate (by rw [hu]; rfl) (by rw [hv]; rfl)
  refine ⟨?_, ?_, ?_, ?_⟩ <;>
    rw [key, hw.getControlPoint (by omega) (by omega), part_zero] <;>
    simp [lin_zero, lin_one, umb_one, umb_X_pow]

example := C28_corners (K := ℚ) (p := exPatch) (by decide +kernel) rfl rfl

/-- C28: on the domain the patch lies in the convex hull of its control points. -/
theorem C28_convex_hull {p : BezierPatch V} (h : p.init = ok ()) {u v : K}
    (hu : 0 ≤ u ∧ u ≤ 1) (hv : 0 ≤ v ∧ v ≤ 1) :
    ∃ x, p.evaluate u v = ok x ∧ x ∈ convexHull K {y | y ∈ p.grid} := by
  obtain ⟨u', v', fu, fv, e⟩ := C28_evaluate h u v
  have mem : ∀ (per : Bool) {t t' : K}, 0 ≤ t ∧ t ≤ 1 → Folded per 0 1 t t' → 0 ≤ t' ∧ t' ≤ 1 := by
    intro per t t' ht f
    cases per with
    | false => cases f; exact ht
    | true => exact ⟨f.1, f.2.1.le⟩
  have bu := mem _ hu fu
  have bv := mem _ hv fv
  refine ⟨_, e, ?_⟩
  have hw := wf_of_init h
  unfold bezierSurface
  have inner : ∀ i ∈ range (p.degU.toNat + 1),
      ∑ j ∈ range (p.degV.toNat + 1), bernstein p.degV.toNat j v' •
        gridPoint p.grid (p.degV.toNat + 1) i j ∈ convexHull K {y | y ∈ p.grid} := by
    intro i hi
    apply (convex_convexHull K _).sum_mem (fun j _ => bernstein_nonneg' bv.1 bv.2)
      (bernstein_sum _ _)
    intro j hj
    apply subset_convexHull
    have hl : i * (p.degV.toNat + 1) + j < p.grid.length := by
      rw [hw.len]; exact lin_lt (mem_range.1 hi) (mem_range.1 hj)
    change gridPoint p.grid (p.degV.toNat + 1) i j ∈ p.grid
    unfold gridPoint
    rw [List.getD_eq_getElem?_getD, List.getElem?_eq_getElem hl, Option.getD_some]
    exact List.getElem_mem hl
  have := (convex_convexHull K {y | y ∈ p.grid}).sum_mem
    (fun i (_ : i ∈ range (p.degU.toNat + 1)) => bernstein_nonneg' (n := p.degU.toNat) bu.1 bu.2)
    (bernstein_sum _ _) inner
  simp only [smul_sum, smul_smul] at this
  exact this

example := C28_convex_hull (p := exPatch) (by decide +kernel) (u := (1 / 3 : ℚ)) (v := 1 / 4) (by norm_num)
  (by norm_num)

/-- A patch whose size does not fit is refused. -/
theorem C28_init_mismatch {p : BezierPatch V} (hu : 0 ≤ p.degU) (hv : 0 ≤ p.degV)
    (hl : (p.grid.length : ℤ) ≠ (p.degU + 1) * (p.degV + 1)) :
    p.init = Outcome.throw .invalidSetting := by
  unfold init degreeU degreeV
  rw [assert_true hu, ok_bind, assert_true hv]
  simp only [pure_bind, ok_bind]
  rw [throwIf_true]
  intro e
  apply hl
  rw [e]
  push_cast
  rw [Int.toNat_of_nonneg hu, Int.toNat_of_nonneg hv]

example : exPatch.init = ok () ∧ exPatch.evaluate (1 / 2 : ℚ) (1 / 2 : ℚ) = ok (23 / 8) := by
  decide +kernel

/-! ### C04 (patches) -/

/-- C04: evaluation of patches commutes with affine maps of the control grid. -/
theorem C04_patch_affine (f : V →ᵃ[K] W) {p : BezierPatch V} (h : p.init = ok ()) (u v : K) :
    evaluate (BezierPatch.mk (p.grid.map f) p.degU p.degV p.perU p.perV p.sU p.sV) u v
      = f <$> p.evaluate u v := by
  have hw := wf_of_init h
  obtain ⟨u', hu, fu⟩ := bezier_folded p.perU u
  obtain ⟨v', hv, fv⟩ := bezier_folded p.perV v
  rw [hw.evaluate hu hv, map_ok]
  rw [WellFormed.evaluate (p := BezierPatch.mk (p.grid.map f) p.degU p.degV p.perU p.perV p.sU p.sV)
    (u' := u') (v' := v') ⟨hw.degU, hw.degV, by simpa using hw.len⟩ hu hv]
  congr 1
  rw [part_congr (Q := fun i j => f (p.pts p.degV.toNat i j))]
  · rw [part_zero, part_zero, umb_lin_pow, umb_lin_pow]
    have hfd : ∀ x, f x = f.linear x + f 0 := fun x => by
      conv_lhs => rw [f.decomp]
      rfl
    have inner : ∀ i, umb (fun j => f (p.pts p.degV.toNat i j)) (lin v' ^ p.degV.toNat)
        = f (umb (p.pts p.degV.toNat i) (lin v' ^ p.degV.toNat)) := by
      intro i
      rw [umb_lin_pow, umb_lin_pow, hfd (∑ j ∈ _, _)]
      simp only [hfd (p.pts _ _ _), map_sum, map_smul, smul_add, sum_add_distrib]
      rw [← sum_smul, bernstein_sum, one_smul]
    simp only [inner]
    rw [hfd (∑ i ∈ _, _)]
    simp only [hfd (umb _ _), map_sum, map_smul, smul_add, sum_add_distrib]
    rw [← sum_smul, bernstein_sum, one_smul]
  · intro i hi j hj
    have hl : i * (p.degV.toNat + 1) + j < p.grid.length := by
      rw [hw.len]; exact lin_lt hi hj
    unfold pts gridPoint
    simp only [List.getD_eq_getElem?_getD]
    rw [List.getElem?_eq_getElem hl, List.getElem?_eq_getElem (by simpa using hl)]
    simp

example := C04_patch_affine (AffineMap.lineMap (k := ℚ) (3 : ℚ) 7) (p := exPatch) (by decide +kernel) (1 / 3) (1 / 4)

/-! ### C30 -/

/-- The patch without its periodic flags. -/
def flat (p : BezierPatch V) : BezierPatch V :=
  BezierPatch.mk p.grid p.degU p.degV false false p.sU p.sV

/-- A fixed-degree patch object: the degrees are the template arguments. -/
def Static (p : BezierPatch V) : Prop := p.sU = p.degU ∧ p.sV = p.degV

theorem flat_eq {p : BezierPatch V} (hu : p.perU = false) (hv : p.perV = false) : flat p = p := by
  cases p; simp_all [flat]

theorem flat_wf {p : BezierPatch V} {m n : ℕ} (h : p.WellFormed m n) : (flat p).WellFormed m n :=
  ⟨h.degU, h.degV, h.len⟩

theorem flat_evaluate {p : BezierPatch V} {m n : ℕ} (h : p.WellFormed m n) (u v : K) :
    (flat p).evaluate u v = ok (part m n (p.pts n) 0 0 u v) :=
  (flat_wf h).evaluate rfl rfl

theorem ofGrid_evaluate {p : BezierPatch V} {m n : ℕ} (h : p.WellFormed m n) (hs : Static p)
    (Q : ℕ → ℕ → V) (u v : K) :
    (ofGrid p.sU p.sV (gridOf (m + 1) (n + 1) Q)).evaluate u v = ok (part m n Q 0 0 u v) := by
  have hw : (ofGrid p.sU p.sV (gridOf (m + 1) (n + 1) Q)).WellFormed m n := by
    refine ⟨?_, ?_, ?_⟩
    · simp [ofGrid, BezierPatch.new, hs.1, h.degU]
    · simp [ofGrid, BezierPatch.new, hs.2, h.degV]
    · simp [ofGrid]
  rw [hw.evaluate (u' := u) (v' := v) rfl rfl]
  congr 1
  exact part_congr (fun i hi j hj => pts_gridOf _ _ rfl hi hj) 0 0 u v

/-- What every returned piece of a fixed-degree patch is: an initialised patch of the same
degrees without periodic flags. -/
def PieceOk (p A : BezierPatch V) : Prop :=
  A.init = ok () ∧ A.degU = p.degU ∧ A.degV = p.degV ∧ Static A ∧ A.perU = false ∧ A.perV = false

theorem ofGrid_piece {p : BezierPatch V} {m n : ℕ} (h : p.WellFormed m n) (hs : Static p)
    (Q : ℕ → ℕ → V) : PieceOk p (ofGrid p.sU p.sV (gridOf (m + 1) (n + 1) Q)) := by
  refine ⟨init_ok (m := m) (n := n) ⟨?_, ?_, by simp [ofGrid]⟩, hs.1, hs.2, ⟨rfl, rfl⟩, rfl, rfl⟩
  · simp [ofGrid, BezierPatch.new, hs.1, h.degU]
  · simp [ofGrid, BezierPatch.new, hs.2, h.degV]

/-- C30 for `split_u` of a fixed-degree patch: the pieces reproduce the patch on `[0, u]` and
`[u, 1]`. Dynamic degrees are excluded, see `C30_dynamic_refuted`. -/
theorem C30_split_u_partial {eps : K} (he : 0 ≤ eps) {p : BezierPatch V} (h : p.init = ok ())
    (hs : Static p) {u : K} (h0 : 0 < u) (h1 : u < 1) :
    ∃ A B, p.splitU eps u = ok [A, B] ∧ PieceOk p A ∧ PieceOk p B ∧
      ∀ s t : K, A.evaluate s t = (flat p).evaluate (u * s) t ∧
        B.evaluate s t = (flat p).evaluate (u + (1 - u) * s) t := by
  have hw := wf_of_init h
  refine ⟨_, _, hw.splitU he h0 h1, ofGrid_piece hw hs _, ofGrid_piece hw hs _, fun s t => ?_⟩
  rw [ofGrid_evaluate hw hs, ofGrid_evaluate hw hs, flat_evaluate hw, flat_evaluate hw]
  constructor
  · congr 1
    have := part_restrictU p.degU.toNat p.degV.toNat (p.pts p.degV.toNat) 0 u s t
    simp only [lin_zero, one_pow, one_mul, zero_add, sub_zero] at this
    exact this
  · congr 1
    have := part_restrictU p.degU.toNat p.degV.toNat (p.pts p.degV.toNat) u 1 s t
    simp only [lin_one] at this
    exact this

example := C30_split_u_partial (eps := 1 / 1000) (by norm_num) (p := exPatch) (by decide +kernel) ⟨rfl, rfl⟩
  (u := (1 / 3 : ℚ)) (by norm_num) (by norm_num)

/-- C30 for `split_v` of a fixed-degree patch. -/
theorem C30_split_v_partial {eps : K} (he : 0 ≤ eps) {p : BezierPatch V} (h : p.init = ok ())
    (hs : Static p) {v : K} (h0 : 0 < v) (h1 : v < 1) :
    ∃ A B, p.splitV eps v = ok [A, B] ∧ PieceOk p A ∧ PieceOk p B ∧
      ∀ s t : K, A.evaluate s t = (flat p).evaluate s (v * t) ∧
        B.evaluate s t = (flat p).evaluate s (v + (1 - v) * t) := by
  have hw := wf_of_init h
  refine ⟨_, _, hw.splitV he h0 h1, ofGrid_piece hw hs _, ofGrid_piece hw hs _, fun s t => ?_⟩
  rw [ofGrid_evaluate hw hs, ofGrid_evaluate hw hs, flat_evaluate hw, flat_evaluate hw]
  constructor
  · congr 1
    have := part_restrictV p.degU.toNat p.degV.toNat (p.pts p.degV.toNat) 0 v s t
    simp only [lin_zero, one_pow, one_mul, zero_add, sub_zero] at this
    exact this
  · congr 1
    have := part_restrictV p.degU.toNat p.degV.toNat (p.pts p.degV.toNat) v 1 s t
    simp only [lin_one] at this
    exact this

example := C30_split_v_partial (eps := 1 / 1000) (by norm_num) (p := { exPatch with perU := true })
  (by decide +kernel) ⟨rfl, rfl⟩ (v := (1 / 3 : ℚ)) (by norm_num) (by norm_num)

/-- C30: at an end of the domain nothing is split; beyond the epsilon window the call throws. -/
theorem C30_split_ends {eps : K} (he : 0 ≤ eps) (p : BezierPatch V) (u : K) :
    (u = 0 ∨ u = 1 → p.splitU eps u = ok [p] ∧ p.splitV eps u = ok [p]) ∧
      (u < -eps ∨ 1 + eps < u → p.splitU eps u = Outcome.throw .invalidSetting ∧
        p.splitV eps u = Outcome.throw .invalidSetting) := by
  constructor
  · intro h
    have hd : Bezier.inDomain eps u = true := by
      rcases h with rfl | rfl <;> simp [Bezier.inDomain, he] <;> linarith
    have hb : isEndpoint u = true := by rcases h with rfl | rfl <;> simp [isEndpoint]
    unfold splitU splitV
    rw [throwIf_false (by simpa using hd), hb]
    exact ⟨rfl, rfl⟩
  · intro h
    have hd : ¬ Bezier.inDomain eps u = true := by
      rcases h with h | h
      · simp [Bezier.inDomain]; intro h'; linarith
      · simp [Bezier.inDomain]; intro _; exact h
    unfold splitU splitV
    rw [throwIf_true hd]
    exact ⟨rfl, rfl⟩

example : exPatch.splitU (1 / 1000 : ℚ) 2 = Outcome.throw .invalidSetting :=
  ((C30_split_ends (by norm_num) exPatch 2).2 (by norm_num)).1

theorem flat_piece {p A : BezierPatch V} (h : PieceOk p A) : flat A = A :=
  flat_eq h.2.2.2.2.1 h.2.2.2.2.2

/-- C30 for `split` of a fixed-degree patch at an interior point: four pieces, ordered as in the
documentation (left-lower, left-upper, right-lower, right-upper). -/
theorem C30_split_partial {eps : K} (he : 0 ≤ eps) {p : BezierPatch V} (h : p.init = ok ())
    (hs : Static p) {u v : K} (u0 : 0 < u) (u1 : u < 1) (v0 : 0 < v) (v1 : v < 1) :
    ∃ A B C D, p.split eps u v = ok [A, B, C, D] ∧
      PieceOk p A ∧ PieceOk p B ∧ PieceOk p C ∧ PieceOk p D ∧
      ∀ s t : K, A.evaluate s t = (flat p).evaluate (u * s) (v * t) ∧
        B.evaluate s t = (flat p).evaluate (u * s) (v + (1 - v) * t) ∧
        C.evaluate s t = (flat p).evaluate (u + (1 - u) * s) (v * t) ∧
        D.evaluate s t = (flat p).evaluate (u + (1 - u) * s) (v + (1 - v) * t) := by
  obtain ⟨L, R, e, oL, oR, H⟩ := C30_split_u_partial he h hs u0 u1
  obtain ⟨A, B, eL, oA, oB, HL⟩ := C30_split_v_partial he oL.1 oL.2.2.2.1 v0 v1
  obtain ⟨C, D, eR, oC, oD, HR⟩ := C30_split_v_partial he oR.1 oR.2.2.2.1 v0 v1
  have tr : ∀ {q A : BezierPatch V}, PieceOk p q → PieceOk q A → PieceOk p A := by
    intro q A h1 h2
    exact ⟨h2.1, h2.2.1.trans h1.2.1, h2.2.2.1.trans h1.2.2.1, h2.2.2.2⟩
  refine ⟨A, B, C, D, ?_, tr oL oA, tr oL oB, tr oR oC, tr oR oD, fun s t => ?_⟩
  · unfold BezierPatch.split
    rw [isEndpoint_false u0 u1, isEndpoint_false v0 v1]
    simp only [Bool.and_self, Bool.false_eq_true, if_false]
    rw [e, ok_bind]
    simp only [rd, List.getElem?_cons_succ, List.getElem?_cons_zero, ok_bind]
    rw [eL, ok_bind, eR, ok_bind]
    simp only [List.getElem?_cons_succ, List.getElem?_cons_zero, ok_bind]
    rfl
  · rw [flat_piece oL] at HL
    rw [flat_piece oR] at HR
    refine ⟨?_, ?_, ?_, ?_⟩
    · rw [(HL s t).1, (H s _).1]
    · rw [(HL s t).2, (H s _).1]
    · rw [(HR s t).1, (H s _).2]
    · rw [(HR s t).2, (H s _).2]

/-- C30: `split` at a boundary parameter only splits in the other direction. -/
theorem C30_split_boundary (eps : K) (p : BezierPatch V) (u v : K) :
    ((u = 0 ∨ u = 1) → (v = 0 ∨ v = 1) → p.split eps u v = ok [p]) ∧
      ((u = 0 ∨ u = 1) → v ≠ 0 → v ≠ 1 → p.split eps u v = p.splitV eps v) ∧
      (u ≠ 0 → u ≠ 1 → (v = 0 ∨ v = 1) → p.split eps u v = p.splitU eps u) := by
  have T : ∀ {x : K}, (x = 0 ∨ x = 1) → isEndpoint x = true := by
    intro x h; rcases h with rfl | rfl <;> simp [isEndpoint]
  have F : ∀ {x : K}, x ≠ 0 → x ≠ 1 → isEndpoint x = false := by
    intro x h h'; simp [isEndpoint, h, h']
  refine ⟨?_, ?_, ?_⟩
  · intro a b; unfold BezierPatch.split; rw [T a, T b]; rfl
  · intro a b c; unfold BezierPatch.split; rw [T a, F b c]; rfl
  · intro a b c; unfold BezierPatch.split; rw [F a b, T c]; rfl

example : exPatch.split (1 / 1000 : ℚ) 0 (1 / 3) = exPatch.splitV (1 / 1000 : ℚ) (1 / 3) :=
  (C30_split_boundary (1 / 1000 : ℚ) exPatch 0 (1 / 3)).2.1 (Or.inl rfl) (by norm_num) (by norm_num)

/-- C30 is false of dynamic-degree patches: the pieces have no degree, so that evaluating them
violates an assertion; `split` at an interior point does so itself. -/
theorem C30_dynamic_refuted {eps : K} (he : 0 ≤ eps) {p : BezierPatch V} (h : p.init = ok ())
    (hu : p.sU = -1) (hv : p.sV = -1) {u v : K} (u0 : 0 < u) (u1 : u < 1) (v0 : 0 < v)
    (v1 : v < 1) :
    (∃ A B, p.splitU eps u = ok [A, B] ∧ ∀ s t : K, A.evaluate s t = ub ∧ B.evaluate s t = ub) ∧
      p.split eps u v = ub := by
  have hw := wf_of_init h
  have hub : ∀ (g : List V) (s t : K), (ofGrid p.sU p.sV g).evaluate s t = ub := by
    intro g s t
    rw [hu, hv]
    unfold BezierPatch.evaluate
    rw [if_neg (by simp [ofGrid, BezierPatch.new])]
    have : (ofGrid (-1) (-1) g).numU = ub := by
      unfold BezierPatch.numU BezierPatch.degreeU
      rw [assert_false (by simp [ofGrid, BezierPatch.new])]
      rfl
    unfold BezierPatch.isoCurveU
    rw [this]
    rfl
  refine ⟨⟨_, _, hw.splitU he u0 u1, fun s t => ⟨hub _ s t, hub _ s t⟩⟩, ?_⟩
  have hub2 : ∀ g : List V, (ofGrid p.sU p.sV g).splitV eps v = ub := by
    intro g
    have hd : Bezier.inDomain eps v = true := by
      simp [Bezier.inDomain]; constructor <;> linarith
    unfold BezierPatch.splitV
    rw [throwIf_false (by simpa using hd), isEndpoint_false v0 v1]
    have : (ofGrid p.sU p.sV g).isoCurvesV = ub := by
      unfold BezierPatch.isoCurvesV BezierPatch.numU BezierPatch.degreeU
      rw [assert_false (by simp [ofGrid, BezierPatch.new, hu])]
      rfl
    simp only [Bool.false_eq_true, if_false, ok_bind]
    rw [this]
    rfl
  unfold BezierPatch.split
  rw [isEndpoint_false u0 u1, isEndpoint_false v0 v1]
  simp only [Bool.and_self, Bool.false_eq_true, if_false]
  rw [hw.splitU he u0 u1, ok_bind]
  simp only [rd, List.getElem?_cons_succ, List.getElem?_cons_zero, ok_bind]
  rw [hub2]
  rfl

/-- The upper end of the range really returned by `subpatch`: an end `b < 1` is taken relative to
the remaining range `[a, 1]` (BezierPatch.h:481, 491). -/
def actualEnd (a b : K) : K := if b = 1 then 1 else a + (1 - a) * b

/-- One direction of `subpatch`. -/
theorem cut_spec {p : BezierPatch V} {f : BezierPatch V → K → Outcome (List (BezierPatch V))}
    {ev : BezierPatch V → K → K → Outcome V} {Good : BezierPatch V → Prop}
    (hf : ∀ q, Good q → ∀ x : K, 0 < x → x < 1 → ∃ A B, f q x = ok [A, B] ∧ Good A ∧ Good B ∧
      ∀ s t, ev A s t = ev q (x * s) t ∧ ev B s t = ev q (x + (1 - x) * s) t)
    (hp : Good p) {a b : K} (a0 : 0 ≤ a) (a1 : a < 1) (b0 : 0 < b) (b1 : b ≤ 1) :
    ∃ q r, cut (f p) a 1 p = ok q ∧ cut (f q) b 0 q = ok r ∧ Good r ∧
      ∀ s t, ev r s t = ev p (a + (actualEnd a b - a) * s) t := by
  obtain ⟨q, eq, gq, hq⟩ : ∃ q, cut (f p) a 1 p = ok q ∧ Good q ∧
      ∀ s t, ev q s t = ev p (a + (1 - a) * s) t := by
    rcases eq_or_lt_of_le a0 with h | h
    · subst h
      refine ⟨p, by simp [cut, isEndpoint], hp, fun s t => ?_⟩
      congr 1; ring
    · obtain ⟨A, B, e, _, gB, H⟩ := hf p hp a h a1
      refine ⟨B, ?_, gB, fun s t => (H s t).2⟩
      unfold cut
      rw [isEndpoint_false h a1, e]
      rfl
  obtain ⟨r, er, gr, hr⟩ : ∃ r, cut (f q) b 0 q = ok r ∧ Good r ∧
      ∀ s t, ev r s t = ev q ((if b = 1 then 1 else b) * s) t := by
    rcases eq_or_lt_of_le b1 with h | h
    · subst h
      refine ⟨q, by simp [cut, isEndpoint], gq, fun s t => ?_⟩
      congr 1; simp
    · obtain ⟨A, B, e, gA, _, H⟩ := hf q gq b b0 h
      refine ⟨A, ?_, gA, fun s t => ?_⟩
      · unfold cut
        rw [isEndpoint_false b0 h, e]
        rfl
      · rw [(H s t).1, if_neg h.ne]
  refine ⟨q, r, eq, er, gr, fun s t => ?_⟩
  rw [hr, hq]
  congr 1
  unfold actualEnd
  split <;> ring

/-- What `subpatch` of a fixed-degree patch really returns. -/
theorem C30_subpatch_actual {eps : K} (he : 0 ≤ eps) {p : BezierPatch V} (h : p.init = ok ())
    (hs : Static p) (hpu : p.perU = false) (hpv : p.perV = false) {a b c d : K}
    (a0 : 0 ≤ a) (a1 : a < 1) (ab : a ≤ b) (b0 : 0 < b) (b1 : b ≤ 1)
    (c0 : 0 ≤ c) (c1 : c < 1) (cd : c ≤ d) (d0 : 0 < d) (d1 : d ≤ 1) :
    ∃ S, p.subpatch eps a b c d = ok S ∧ PieceOk p S ∧
      ∀ s t : K, S.evaluate s t
        = p.evaluate (a + (actualEnd a b - a) * s) (c + (actualEnd c d - c) * t) := by
  have good : PieceOk p p := ⟨h, rfl, rfl, hs, hpu, hpv⟩
  have tr : ∀ {q A : BezierPatch V}, PieceOk p q → PieceOk q A → PieceOk p A := by
    intro q A h1 h2
    exact ⟨h2.1, h2.2.1.trans h1.2.1, h2.2.2.1.trans h1.2.2.1, h2.2.2.2⟩
  obtain ⟨q, r, e1, e2, gr, H1⟩ := cut_spec (f := fun q => q.splitU eps)
    (ev := fun q => q.evaluate) (Good := PieceOk p) (p := p) (by
      intro q gq x x0 x1
      obtain ⟨A, B, e, oA, oB, H⟩ := C30_split_u_partial he gq.1 gq.2.2.2.1 x0 x1
      rw [flat_piece gq] at H
      exact ⟨A, B, e, tr gq oA, tr gq oB, H⟩) good a0 a1 b0 b1
  obtain ⟨q', r', e3, e4, gr', H2⟩ := cut_spec (f := fun q => q.splitV eps)
    (ev := fun q t s => q.evaluate s t) (Good := PieceOk p) (p := r) (by
      intro q gq x x0 x1
      obtain ⟨A, B, e, oA, oB, H⟩ := C30_split_v_partial he gq.1 gq.2.2.2.1 x0 x1
      rw [flat_piece gq] at H
      exact ⟨A, B, e, tr gq oA, tr gq oB, fun s t => H t s⟩) gr c0 c1 d0 d1
  refine ⟨r', ?_, gr', fun s t => ?_⟩
  · have dm : ∀ x : K, 0 ≤ x → x ≤ 1 → Bezier.inDomain eps x = true := by
      intro x h0 h1
      simp [Bezier.inDomain]; constructor <;> linarith
    unfold subpatch
    rw [throwIf_false (not_lt.2 ab), ok_bind,
      throwIf_false (by simp [dm a a0 a1.le, dm b b0.le b1]), ok_bind,
      throwIf_false (not_lt.2 cd), ok_bind,
      throwIf_false (by simp [dm c c0 c1.le, dm d d0.le d1]), ok_bind,
      e1, ok_bind, e2, ok_bind, e3, ok_bind, e4]
  · rw [H2, H1]

example := C30_subpatch_actual (eps := 1 / 1000) (by norm_num) (p := exPatch) (by decide +kernel) ⟨rfl, rfl⟩
  rfl rfl (a := (1 / 4 : ℚ)) (b := 1 / 2) (c := 1 / 3) (d := 1) (by norm_num) (by norm_num) (by norm_num)
  (by norm_num) (by norm_num) (by norm_num) (by norm_num) (by norm_num) (by norm_num) (by norm_num)

/-- C30 for `subpatch` where it holds: fixed degrees and each range touching an end of the
domain. -/
theorem C30_subpatch_partial {eps : K} (he : 0 ≤ eps) {p : BezierPatch V} (h : p.init = ok ())
    (hs : Static p) (hpu : p.perU = false) (hpv : p.perV = false) {a b c d : K}
    (a0 : 0 ≤ a) (ab : a < b) (b1 : b ≤ 1) (c0 : 0 ≤ c) (cd : c < d) (d1 : d ≤ 1)
    (hab : a = 0 ∨ b = 1) (hcd : c = 0 ∨ d = 1) :
    ∃ S, p.subpatch eps a b c d = ok S ∧ S.init = ok () ∧ S.degU = p.degU ∧ S.degV = p.degV ∧
      ∀ s t : K, S.evaluate s t = p.evaluate (a + (b - a) * s) (c + (d - c) * t) := by
  obtain ⟨S, e, ⟨i, du, dv, -⟩, H⟩ := C30_subpatch_actual he h hs hpu hpv a0 (lt_of_lt_of_le ab b1) ab.le
    (lt_of_le_of_lt a0 ab) b1 c0 (lt_of_lt_of_le cd d1) cd.le (lt_of_le_of_lt c0 cd) d1
  have fix : ∀ {x y : K}, x = 0 ∨ y = 1 → actualEnd x y = y := by
    intro x y h
    unfold actualEnd
    rcases h with rfl | rfl
    · split
      · rename_i h; exact h.symm
      · ring
    · simp
  refine ⟨S, e, i, du, dv, fun s t => ?_⟩
  rw [H, fix hab, fix hcd]

example := C30_subpatch_partial (eps := 1 / 1000) (by norm_num) (p := exPatch) (by decide +kernel) ⟨rfl, rfl⟩
  rfl rfl (a := (0 : ℚ)) (b := 1 / 2) (c := 1 / 3) (d := 1) (by norm_num) (by norm_num) (by norm_num)
  (by norm_num) (by norm_num) (by norm_num) (by norm_num) (by norm_num)

/-- C30 is false of `subpatch` for interior ranges: the patch `u` of degrees 1, 0 and the range
`[1/4, 1/2]`. -/
theorem C30_subpatch_refuted :
    ∃ (p S : BezierPatch ℚ), p.init = ok () ∧ Static p ∧
      p.subpatch (1 / 1000 : ℚ) (1 / 4) (1 / 2) 0 1 = ok S ∧
      S.evaluate (1 : ℚ) (0 : ℚ) ≠ p.evaluate (1 / 2 : ℚ) (0 : ℚ) := by
  refine ⟨{ grid := [0, 1], degU := 1, degV := 0, sU := 1, sV := 0 },
    ofGrid 1 0 [1 / 4, 5 / 8], by decide +kernel, ⟨rfl, rfl⟩, by decide +kernel, by decide +kernel⟩

example : exPatch.init = ok () ∧ Static exPatch ∧ exPatch.perU = false ∧ exPatch.perV = false ∧
    (∃ A B C D, exPatch.split (1 / 1000 : ℚ) (1 / 3) (1 / 2) = ok [A, B, C, D]) := by
  refine ⟨by decide +kernel, ⟨rfl, rfl⟩, rfl, rfl, ?_⟩
  obtain ⟨A, B, C, D, e, _⟩ := C30_split_partial (eps := (1 / 1000 : ℚ)) (by norm_num)
    (p := exPatch) (by decide +kernel) ⟨rfl, rfl⟩ (u := 1 / 3) (v := 1 / 2)
    (by norm_num) (by norm_num) (by norm_num) (by norm_num)
  exact ⟨A, B, C, D, e⟩

/-! ### C33 -/

/-- C33: frame law of the control grid. -/
theorem C33_set_get {p : BezierPatch V} (h : p.init = ok ()) {i j : ℕ}
    (hi : i ≤ p.degU.toNat) (hj : j ≤ p.degV.toNat) (x : V) :
    ∃ q, p.setControlPoint i j x = ok q ∧ q.init = ok () ∧ q.degU = p.degU ∧ q.degV = p.degV ∧
      q.getControlPoint i j = ok x ∧
      ∀ i' j', i' ≤ p.degU.toNat → j' ≤ p.degV.toNat → (i', j') ≠ (i, j) →
        q.getControlPoint i' j' = p.getControlPoint i' j' := by
  have hw := wf_of_init h
  have hl : i * (p.degV.toNat + 1) + j < p.grid.length := by
    rw [hw.len]; exact lin_lt (by omega) (by omega)
  have e : p.setControlPoint i j x
      = ok { p with grid := p.grid.set (i * (p.degV.toNat + 1) + j) x } := by
    unfold setControlPoint linearIndex
    rw [hw.numV, ok_bind]
    simp only [pure_bind]
    rw [wr_of_lt _ hl]
    rfl
  have hq : WellFormed { p with grid := p.grid.set (i * (p.degV.toNat + 1) + j) x }
      p.degU.toNat p.degV.toNat := ⟨hw.degU, hw.degV, by simpa using hw.len⟩
  refine ⟨_, e, init_ok hq, rfl, rfl, ?_, ?_⟩
  · unfold getControlPoint linearIndex
    rw [hq.numV, ok_bind]
    simp only [pure_bind]
    rw [rd_eq_ok, List.getElem?_set_self hl]
  · intro i' j' hi' hj' hne
    unfold getControlPoint linearIndex
    rw [hq.numV, hw.numV]
    simp only [ok_bind]
    simp only [pure_bind]
    unfold rd
    rw [List.getElem?_set_ne]
    intro e
    obtain ⟨rfl, rfl⟩ := lin_inj (by omega) (by omega) e
    exact hne rfl

example := C33_set_get (p := exPatch) (by decide +kernel) (i := 2) (j := 1) (by decide) (by decide) 9

/-- Applying a history of `set_control_point` calls. -/
def setAll (p : BezierPatch V) : List (ℕ × ℕ × V) → Outcome (BezierPatch V)
  | [] => ok p
  | (i, j, x) :: r => do
    let q ← p.setControlPoint i j x
    setAll q r

/-- The last value written at `(i, j)`, or `d`. -/
def lastWrite (i j : ℕ) (d : V) : List (ℕ × ℕ × V) → V
  | [] => d
  | (a, b, x) :: r => lastWrite i j (if (a, b) = (i, j) then x else d) r

/-- C33: after any history of in-range writes every in-range read returns the last value written
there. -/
theorem C33_history {p : BezierPatch V} (h : p.init = ok ()) (ws : List (ℕ × ℕ × V))
    (hr : ∀ w ∈ ws, w.1 ≤ p.degU.toNat ∧ w.2.1 ≤ p.degV.toNat) :
    ∃ q, setAll p ws = ok q ∧ q.init = ok () ∧
      ∀ i j x, i ≤ p.degU.toNat → j ≤ p.degV.toNat → p.getControlPoint i j = ok x →
        q.getControlPoint i j = ok (lastWrite i j x ws) := by
  induction ws generalizing p with
  | nil => exact ⟨p, rfl, h, fun i j x _ _ hx => hx⟩
  | cons w r ih =>
    obtain ⟨a, b, y⟩ := w
    have hab := hr (a, b, y) (by simp)
    obtain ⟨q, e, hq, du, dv, hg, hf⟩ := C33_set_get h hab.1 hab.2 y
    obtain ⟨q', e', hq', H⟩ := ih hq (fun w hw => by rw [du, dv]; exact hr w (by simp [hw]))
    refine ⟨q', by rw [setAll, e, ok_bind, e'], hq', ?_⟩
    intro i j x hi hj hx
    rw [lastWrite]
    apply H i j _ (by rw [du]; exact hi) (by rw [dv]; exact hj)
    by_cases hab' : (a, b) = (i, j)
    · cases hab'
      rw [if_pos rfl]; exact hg
    · rw [if_neg hab', hf i j hi hj (fun e => hab' e.symm)]
      exact hx

example := C33_history (p := exPatch) (by decide +kernel) [(0, 1, 9), (2, 0, 4), (0, 1, 6)] (by decide)

/-- C33: every row of the grid is the control point of exactly one index pair. -/
theorem C33_rows {p : BezierPatch V} (h : p.init = ok ()) {k : ℕ} (hk : k < p.grid.length) :
    ∃ i j, i ≤ p.degU.toNat ∧ j ≤ p.degV.toNat ∧ p.linearIndex i j = ok k ∧
      p.getControlPoint i j = rd p.grid k ∧
      ∀ i' j', i' ≤ p.degU.toNat → j' ≤ p.degV.toNat → p.linearIndex i' j' = ok k →
        i' = i ∧ j' = j := by
  have hw := wf_of_init h
  rw [hw.len] at hk
  obtain ⟨h1, h2, h3⟩ := lin_surj hk
  have hli : ∀ a b, p.linearIndex a b = ok (a * (p.degV.toNat + 1) + b) := by
    intro a b
    unfold linearIndex
    rw [hw.numV]; rfl
  refine ⟨k / (p.degV.toNat + 1), k % (p.degV.toNat + 1), Nat.lt_succ_iff.1 h1,
    Nat.lt_succ_iff.1 h2, by rw [hli, ← h3], ?_, ?_⟩
  · unfold getControlPoint
    rw [hli, ok_bind, ← h3]
  · intro i' j' hi' hj' e
    rw [hli, ok.injEq, h3] at e
    exact lin_inj (by omega) (by omega) e

example : ∃ q, setAll exPatch [(0, 1, 9), (2, 0, 4), (0, 1, 6)] = ok q ∧
    q.getControlPoint 0 1 = ok 6 ∧ q.getControlPoint 2 0 = ok 4 ∧
    q.getControlPoint 1 1 = ok 2 := by
  refine ⟨{ exPatch with grid := [0, 6, 3, 2, 4, 7] }, by decide +kernel, by decide +kernel,
    by decide +kernel, by decide +kernel⟩

/-! ### C59 -/

/-- C59: the returned pair is in range and minimises the distance, for every grid with some
control point at a representable distance (`big` is the largest scalar). -/
theorem C59_closest (big : K) (sq : V → K) {p : BezierPatch V} (h : p.init = ok ()) (x : V)
    (hb : ∃ y ∈ p.grid, sq (x - y) < big) :
    ∃ i j y, p.findClosest big sq x = ok (i, j) ∧ i ≤ p.degU.toNat ∧ j ≤ p.degV.toNat ∧
      p.getControlPoint i j = ok y ∧ ∀ z ∈ p.grid, sq (x - y) ≤ sq (x - z) := by
  have hw := wf_of_init h
  obtain ⟨i, j, e, H⟩ := PatchBase.findClosest_spec big sq
    (fun i hi j hj => hw.getControlPoint hi hj) x
  have e' : p.findClosest big sq x = ok (i, j) := by
    unfold findClosest
    rw [hw.numU, ok_bind, hw.numV, ok_bind, e]
  have all : ∀ z ∈ p.grid, ∃ a < p.degU.toNat + 1, ∃ b < p.degV.toNat + 1,
      z = p.pts p.degV.toNat a b := by
    intro z hz
    obtain ⟨k, hk, rfl⟩ := List.mem_iff_getElem.1 hz
    obtain ⟨a, b, ha, hb, e1, e2, _⟩ := C33_rows h hk
    refine ⟨a, by omega, b, by omega, ?_⟩
    rw [hw.getControlPoint (by omega) (by omega)] at e2
    have := rd_eq_ok.1 e2.symm
    rw [List.getElem?_eq_getElem hk] at this
    exact Option.some.inj this
  rcases H with ⟨hi, hj, hlt, hm⟩ | ⟨rfl, rfl, hm⟩
  · refine ⟨i, j, _, e', by omega, by omega, hw.getControlPoint hi hj, fun z hz => ?_⟩
    obtain ⟨a, ha, b, hb, rfl⟩ := all z hz
    exact hm a ha b hb
  · obtain ⟨y, hy, hlt⟩ := hb
    obtain ⟨a, ha, b, hb, rfl⟩ := all y hy
    exact absurd hlt (not_lt.2 (hm a ha b hb))

example := C59_closest (1000 : ℚ) (fun x => x * x) (p := exPatch) (by decide +kernel) (14 / 5)
  ⟨3, by decide +kernel, by norm_num⟩

/-- C59: in any case the returned pair is in range. -/
theorem C59_in_range (big : K) (sq : V → K) {p : BezierPatch V} (h : p.init = ok ()) (x : V) :
    ∃ i j, p.findClosest big sq x = ok (i, j) ∧ i ≤ p.degU.toNat ∧ j ≤ p.degV.toNat := by
  have hw := wf_of_init h
  obtain ⟨i, j, e, H⟩ := PatchBase.findClosest_spec big sq
    (fun i hi j hj => hw.getControlPoint hi hj) x
  refine ⟨i, j, ?_, ?_⟩
  · unfold findClosest
    rw [hw.numU, ok_bind, hw.numV, ok_bind, e]
  · rcases H with ⟨hi, hj, _⟩ | ⟨rfl, rfl, _⟩ <;> omega

example : exPatch.findClosest (1000 : ℚ) (fun x => x * x) (14 / 5) = ok (1, 0) := by
  decide +kernel

end General

/-! ### C29 -/

section Deriv

variable {V : Type} [NormedAddCommGroup V] [NormedSpace ℝ V]

/-- The parameter used by the evaluators, as a function. -/
noncomputable def foldFn (per : Bool) (t : ℝ) : ℝ := if per then t - ⌊t⌋ else t

theorem wrap_foldFn (per : Bool) (t : ℝ) : Bezier.wrap per t = ok (foldFn per t) := by
  cases per with
  | false => rfl
  | true =>
    have := unwrapParameter_eq (0 : ℝ) 1 t zero_lt_one
    simpa [Bezier.wrap, foldFn] using this

theorem hasDerivAt_fold {g : ℝ → V} {g' : ℝ → V} (hd : ∀ t, HasDerivAt g (g' t) t) (per : Bool)
    (t : ℝ) (ht : per = true → ∀ z : ℤ, t ≠ z) :
    HasDerivAt (fun t => g (foldFn per t)) (g' (foldFn per t)) t := by
  cases per with
  | false => exact hd t
  | true =>
    simp only [foldFn, if_true]
    have hlt : (⌊t⌋ : ℝ) < t := lt_of_le_of_ne (Int.floor_le t) (fun h => ht rfl ⌊t⌋ h.symm)
    have hgt : t < ⌊t⌋ + 1 := Int.lt_floor_add_one t
    have key : HasDerivAt (fun s : ℝ => g (s - ⌊t⌋)) (g' (t - ⌊t⌋)) t :=
      (hd (t - ⌊t⌋)).comp_sub_const t (⌊t⌋ : ℝ)
    apply key.congr_of_eventuallyEq
    have : Set.Ioo (⌊t⌋ : ℝ) (⌊t⌋ + 1) ∈ nhds t := Ioo_mem_nhds hlt hgt
    filter_upwards [this] with s hs
    have : ⌊s⌋ = ⌊t⌋ := by
      rw [Int.floor_eq_iff]
      exact ⟨hs.1.le, hs.2⟩
    rw [this]

theorem hasDerivAt_part_u (m n : ℕ) (P : ℕ → ℕ → V) (a b : ℕ) (u v : ℝ) :
    HasDerivAt (fun u => part m n P a b u v) (part m n P (a + 1) b u v) u := by
  unfold part
  have := ((hasDerivAt_umb (fun i => umb (P i) (lin v ^ (n - b) * (X - 1) ^ b)) ((X - 1) ^ a)
    (m - a) u).const_smul ((n.descFactorial b : ℕ) : ℝ)).const_smul ((m.descFactorial a : ℕ) : ℝ)
  refine this.congr_deriv ?_
  rw [Nat.descFactorial_succ, Nat.sub_sub, mul_assoc, ← pow_succ']
  push_cast
  module

theorem hasDerivAt_part_v (m n : ℕ) (P : ℕ → ℕ → V) (a b : ℕ) (u v : ℝ) :
    HasDerivAt (fun v => part m n P a b u v) (part m n P a (b + 1) u v) v := by
  have := hasDerivAt_part_u n m (fun j i => P i j) b a v u
  simp only [part_swap n m (fun j i => P i j)] at this
  exact this

/-- C29: the five derivative functions are the true partial derivatives of `evaluate`, for every
degree pair, at every pair of parameters; in a periodic direction the seam (integers) is
excepted. -/
theorem C29_derivatives {p : BezierPatch V} (h : p.init = ok ()) :
    ∃ f fu fv fuu fuv fvv : ℝ → ℝ → V,
      (∀ u v, p.evaluate u v = ok (f u v) ∧ p.derivU u v = ok (fu u v) ∧
        p.derivV u v = ok (fv u v) ∧ p.derivUU u v = ok (fuu u v) ∧
        p.derivUV u v = ok (fuv u v) ∧ p.derivVV u v = ok (fvv u v)) ∧
      (∀ u v : ℝ, (p.perU = true → ∀ z : ℤ, u ≠ z) →
        HasDerivAt (fun u => f u v) (fu u v) u ∧ HasDerivAt (fun u => fu u v) (fuu u v) u ∧
        HasDerivAt (fun u => fv u v) (fuv u v) u) ∧
      (∀ u v : ℝ, (p.perV = true → ∀ z : ℤ, v ≠ z) →
        HasDerivAt (fun v => f u v) (fv u v) v ∧ HasDerivAt (fun v => fv u v) (fvv u v) v ∧
        HasDerivAt (fun v => fu u v) (fuv u v) v) := by
  have hw := wf_of_init h
  let g := fun (a b : ℕ) (u v : ℝ) => part p.degU.toNat p.degV.toNat (p.pts p.degV.toNat) a b
    (foldFn p.perU u) (foldFn p.perV v)
  have du : ∀ a b (u v : ℝ), (p.perU = true → ∀ z : ℤ, u ≠ z) →
      HasDerivAt (fun u => g a b u v) (g (a + 1) b u v) u := fun a b u v hu =>
    hasDerivAt_fold (g := fun u => part _ _ _ a b u (foldFn p.perV v))
      (fun t => hasDerivAt_part_u _ _ _ a b t _) p.perU u hu
  have dv : ∀ a b (u v : ℝ), (p.perV = true → ∀ z : ℤ, v ≠ z) →
      HasDerivAt (fun v => g a b u v) (g a (b + 1) u v) v := fun a b u v hv =>
    hasDerivAt_fold (g := fun v => part _ _ _ a b (foldFn p.perU u) v)
      (fun t => hasDerivAt_part_v _ _ _ a b _ t) p.perV v hv
  refine ⟨g 0 0, g 1 0, g 0 1, g 2 0, g 1 1, g 0 2, ?_, ?_, ?_⟩
  · intro u v
    have wu := wrap_foldFn p.perU u
    have wv := wrap_foldFn p.perV v
    exact ⟨hw.evaluate wu wv, hw.derivU wu wv, hw.derivV wu wv, hw.derivUU wu wv,
      hw.derivUV wu wv, hw.derivVV wu wv⟩
  · intro u v hu
    exact ⟨du 0 0 u v hu, du 1 0 u v hu, du 0 1 u v hu⟩
  · intro u v hv
    exact ⟨dv 0 0 u v hv, dv 0 1 u v hv, dv 1 0 u v hv⟩

example := C29_derivatives (p := ({ grid := [0, 1, 3, 2, 5, 7], degU := 2, degV := 1 } : BezierPatch ℝ)) rfl

end Deriv

section Patches

variable {K V : Type} [Field K] [LinearOrder K] [IsStrictOrderedRing K] [FloorRing K]
  [AddCommGroup V] [Module K V]

/-- C29: the derivative patches of a non-periodic patch evaluate to the derivatives. -/
theorem C29_derivative_patches {p : BezierPatch V} (h : p.init = ok ()) (hpu : p.perU = false)
    (hpv : p.perV = false) :
    ∃ du dv duv, p.duPatch K = ok du ∧ p.dvPatch K = ok dv ∧ p.duvPatch K = ok duv ∧
      du.init = ok () ∧ dv.init = ok () ∧ duv.init = ok () ∧
      ∀ u v : K, du.evaluate u v = p.derivU u v ∧ dv.evaluate u v = p.derivV u v ∧
        duv.evaluate u v = p.derivUV u v := by
  have wu : ∀ u : K, Bezier.wrap p.perU u = ok u := fun u => by rw [hpu]; rfl
  have wv : ∀ u : K, Bezier.wrap p.perV u = ok u := fun u => by rw [hpv]; rfl
  obtain ⟨m, n, hw⟩ : ∃ m n, p.WellFormed m n := (init_iff p).1 h
  have zi : init (V := V) { grid := [0], degU := 0, degV := 0 } = ok () :=
    init_ok (m := 0) (n := 0) ⟨rfl, rfl, rfl⟩
  obtain ⟨du, e1, i1, H1⟩ : ∃ du, p.duPatch K = ok du ∧ du.init = ok () ∧
      ∀ u v : K, du.evaluate u v = p.derivU u v := by
    rcases m with _ | m
    · refine ⟨_, ?_, zi, fun u v => ?_⟩
      · unfold BezierPatch.duPatch
        rw [hw.degreeU, ok_bind, hw.degreeV, ok_bind, if_pos rfl, zeroPatch_eq]
      · rw [zeroPatch_evaluate, hw.derivU (wu u) (wv v)]
        simp [part]
    · refine ⟨_, hw.duPatch, init_ok (m := m) (n := n) ⟨rfl, rfl, by simp⟩, fun u v => ?_⟩
      rw [hw.derivU (wu u) (wv v), ← part_du]
      exact evaluate_gridOf rfl rfl rfl rfl rfl u v
  obtain ⟨dv, e2, i2, H2⟩ : ∃ dv, p.dvPatch K = ok dv ∧ dv.init = ok () ∧
      ∀ u v : K, dv.evaluate u v = p.derivV u v := by
    rcases n with _ | n
    · refine ⟨_, ?_, zi, fun u v => ?_⟩
      · unfold BezierPatch.dvPatch
        rw [hw.degreeU, ok_bind, hw.degreeV, ok_bind, if_pos rfl, zeroPatch_eq]
      · rw [zeroPatch_evaluate, hw.derivV (wu u) (wv v)]
        simp [part]
    · refine ⟨_, hw.dvPatch, init_ok (m := m) (n := n) ⟨rfl, rfl, by simp⟩, fun u v => ?_⟩
      rw [hw.derivV (wu u) (wv v), ← part_dv]
      exact evaluate_gridOf rfl rfl rfl rfl rfl u v
  obtain ⟨duv, e3, i3⟩ : ∃ duv, p.duvPatch K = ok duv ∧ duv.init = ok () := by
    by_cases h0 : m = 0 ∨ n = 0
    · refine ⟨_, ?_, zi⟩
      unfold BezierPatch.duvPatch
      rw [hw.degreeU, ok_bind, hw.degreeV, ok_bind, if_pos h0, zeroPatch_eq]
    · obtain ⟨m, rfl⟩ := Nat.exists_eq_succ_of_ne_zero (fun e => h0 (Or.inl e))
      obtain ⟨n, rfl⟩ := Nat.exists_eq_succ_of_ne_zero (fun e => h0 (Or.inr e))
      exact ⟨_, hw.duvPatch, init_ok (m := m) (n := n) ⟨rfl, rfl, by simp⟩⟩
  refine ⟨du, dv, duv, e1, e2, e3, i1, i2, i3, fun u v => ⟨H1 u v, H2 u v, ?_⟩⟩
  unfold derivUV
  rw [e3, ok_bind]

example : exPatch.init = ok () ∧ exPatch.perU = false ∧ exPatch.perV = false ∧
    exPatch.derivUV (1 / 2 : ℚ) (1 / 3 : ℚ) = ok 1 := by
  decide +kernel

end Patches

end NS.Props
