import Verif.Props.ComposePatch
import Verif.Props.ComposeSpline
import Verif.Props.NurbsPatch
import Mathlib.Algebra.Module.BigOperators
import Mathlib.LinearAlgebra.Pi

/-!
# C109: splits of B-spline patches in the two directions commute
-/

set_option linter.unusedSectionVars false

namespace NS.Props

open Outcome Spec BSpline BSplinePatch
open Finset (range mem_range smul_sum sum_comm sum_congr)

section Curve

variable {K V : Type} [Field K] [LinearOrder K] [IsStrictOrderedRing K] [FloorRing K]
  [AddCommGroup V] [Module K V]

/-- The linear combination of the points `P` with given coefficients. -/
def comb (m : ℕ) (P : ℕ → V) : (ℕ → K) →ₗ[K] V :=
  ∑ k ∈ range m, (LinearMap.proj k : (ℕ → K) →ₗ[K] K).smulRight (P k)

theorem comb_apply (m : ℕ) (P : ℕ → V) (x : ℕ → K) : comb m P x = ∑ k ∈ range m, x k • P k := by
  simp [comb]

theorem comb_single {m : ℕ} (P : ℕ → V) {i : ℕ} (hi : i < m) :
    comb m P (Pi.single i (1 : K)) = P i := by
  rw [comb_apply, Finset.sum_eq_single i]
  · simp
  · intro k _ hk
    simp [hk]
  · intro h
    exact absurd (mem_range.2 hi) h

theorem comb_congr {m : ℕ} {P Q : ℕ → V} (h : ∀ k < m, P k = Q k) (x : ℕ → K) : comb m P x = comb m Q x := by
  rw [comb_apply, comb_apply]
  exact sum_congr rfl fun k hk => by rw [h k (mem_range.1 hk)]

/-- Two combinations in different directions commute. -/
theorem comb_comm (m n : ℕ) (P : ℕ → ℕ → V) (x y : ℕ → K) :
    comb n (fun l => comb m (fun k => P k l) x) y = comb m (fun k => comb n (fun l => P k l) y) x := by
  simp only [comb_apply, smul_sum]
  rw [sum_comm]
  exact sum_congr rfl fun k _ => sum_congr rfl fun l _ => smul_comm _ _ _

/-- The same curve with another periodic flag. -/
def withPer (b : Bool) (c : BSpline K V) : BSpline K V := { c with periodic := b }

theorem insertKnot_per (b : Bool) (c : BSpline K V) (eps t : K) (r : ℕ) :
    (withPer b c).insertKnot eps t r = (withPer b) <$> c.insertKnot eps t r := by
  unfold BSpline.insertKnot
  refine bind_map_same fun _ _ => bind_map_same fun _ _ => bind_map_same fun _ _ =>
    bind_map_same fun _ _ => bind_map_same fun k _ => ?_
  refine bind_map_same fun _ _ => bind_map_same fun _ _ => bind_map_same fun _ _ => ?_
  refine bind_map_same fun _ _ => bind_map_same fun _ _ => rfl

/-- The parts of a split do not depend on the periodic flag. -/
theorem split_per (b : Bool) (c : BSpline K V) {eps t lo hi : K} (hl : c.lower = ok lo) (hu : c.upper = ok hi)
    (h1 : t ≠ lo) (h2 : t ≠ hi) : (withPer b c).split eps t = c.split eps t := by
  have e1 : (withPer b c).lower = ok lo := hl
  have e2 : (withPer b c).upper = ok hi := hu
  unfold BSpline.split
  rw [e1, e2, hl, hu, ok_bind, ok_bind, if_neg h1, if_neg h2]
  rw [show (withPer b c).inDomain eps t = c.inDomain eps t from rfl]
  congr 1
  funext dom
  congr 1
  funext _
  rw [ok_bind, ok_bind, if_neg h1, if_neg h2]
  change (c.locateSpan t >>= _) = _
  congr 1
  funext k
  change (c.multAt t k >>= _) = _
  congr 1
  funext s
  change ((withPer b c).raise eps t c.degree.toNat s >>= _) = _
  have : (withPer b c).raise eps t c.degree.toNat s = (withPer b) <$> c.raise eps t c.degree.toNat s := by
    unfold BSpline.raise
    split
    · exact insertKnot_per b c _ _ _
    · rfl
  rw [this]
  cases c.raise eps t c.degree.toNat s <;> rfl

/-- Both parts of a split are fixed linear combinations of the control points: the coefficients are the control
points of `A` and `B`, and they depend on the knots, the degree and the parameter only. -/
theorem split_matrix {eps : K} (heps : 0 ≤ eps) {u : List K} {deg s : ℤ} {m d : ℕ} (h : Axis u deg s m d)
    (hd : 1 ≤ d) {t : K} (h1 : knot u d < t) (h2 : t < knot u m) :
    ∃ A B : BSpline K (ℕ → K), ∀ (b : Bool) (P : ℕ → V),
      (BSpline.mk (arr m P) u b (staticDeg s)).split eps t = ok [image (comb m P) A, image (comb m P) B] := by
  have hw := h.wf (V := ℕ → K) false (c := arr m fun i => Pi.single i (1 : K)) (by simp)
  obtain ⟨A, B, e, -, -⟩ := split_spec heps hw hd h1 (by simpa using h2)
  refine ⟨A, B, fun b P => ?_⟩
  have hc := h.wf false (c := arr m P) (by simp)
  have hi : image (comb m P : (ℕ → K) →ₗ[K] V)
      (BSpline.mk (arr m fun i => Pi.single i (1 : K)) u false (staticDeg s))
      = BSpline.mk (arr m P) u false (staticDeg s) := by
    unfold image
    congr 1
    unfold arr
    rw [List.map_map]
    exact List.map_congr_left fun i hi => comb_single P (List.mem_range.1 hi)
  have := split_map (comb m P : (ℕ → K) →ₗ[K] V)
    (BSpline.mk (arr m fun i => Pi.single i (1 : K)) u false (staticDeg s)) eps t
  rw [hi, e, map_ok] at this
  rw [← split_per b _ (BSpline.lower_eq hc) (BSpline.upper_eq hc) h1.ne' (by simpa using h2.ne)] at this
  exact this

end Curve

section Patch

variable {K V : Type} [Field K] [LinearOrder K] [IsStrictOrderedRing K] [FloorRing K]
  [AddCommGroup V] [Module K V] {p : BSplinePatch K V} {m n du dv : ℕ}

/-- Everything of a ready patch is in its data. -/
theorem ready_ext {A B : BSplinePatch K V} (hA : A.Ready m n du dv) (hB : B.Ready m n du dv)
    (hg : A.grid = B.grid) (hu : A.knotsU = B.knotsU) (hv : A.knotsV = B.knotsV) (pu : A.perU = B.perU)
    (pv : A.perV = B.perV) (su : A.sU = B.sU) (sv : A.sV = B.sV) : A = B := by
  have a1 := hA.u.deg
  have a2 := hA.v.deg
  have b1 := hB.u.deg
  have b2 := hB.v.deg
  have i1 := hA.isoU
  have i2 := hA.isoV
  have j1 := hB.isoU
  have j2 := hB.isoV
  unfold colU BSplinePatch.pts at i1 j1
  unfold rowV BSplinePatch.pts at i2 j2
  obtain ⟨g, ku, kv, dgu, dgv, pu', pv', su', sv', iu, iv⟩ := A
  obtain ⟨g', ku', kv', dgu', dgv', pu'', pv'', su'', sv'', iu', iv'⟩ := B
  simp only at *
  subst hg hu hv pu pv su sv
  rw [a1, a2, b1, b2, i1, i2, j1, j2]

/-- `q` is the part of `p` along `u` with the coefficients `A`. -/
structure IsU (p q : BSplinePatch K V) (m n du dv : ℕ) (A : BSpline K (ℕ → K)) : Prop where
  ready : q.Ready A.ctrl.length n du dv
  grid : q.grid = gridOf A.ctrl.length n fun i j => comb m (fun k => p.pts n k j) (A.ctrl.getD i 0)
  knotsU : q.knotsU = A.knots
  knotsV : q.knotsV = p.knotsV
  perU : q.perU = false
  perV : q.perV = false
  sU : q.sU = p.sU
  sV : q.sV = p.sV

structure IsV (p q : BSplinePatch K V) (m n du dv : ℕ) (A : BSpline K (ℕ → K)) : Prop where
  ready : q.Ready m A.ctrl.length du dv
  grid : q.grid = gridOf m A.ctrl.length fun i j => comb n (fun l => p.pts n i l) (A.ctrl.getD j 0)
  knotsU : q.knotsU = p.knotsU
  knotsV : q.knotsV = A.knots
  perU : q.perU = false
  perV : q.perV = false
  sU : q.sU = p.sU
  sV : q.sV = p.sV

theorem init_grid {p q : BSplinePatch K V} (h : p.init = ok q) : q.grid = p.grid := by
  unfold BSplinePatch.init at h
  simp only [bind_eq_ok] at h
  obtain ⟨_, _, _, _, _, _, _, _, _, _, e⟩ := h
  cases e
  rfl

theorem getD_image (f : (ℕ → K) →ₗ[K] V) (A : BSpline K (ℕ → K)) (i : ℕ) :
    (image f A).ctrl.getD i 0 = f (A.ctrl.getD i 0) := by
  simp only [image_ctrl, List.getD_eq_getElem?_getD, List.getElem?_map]
  cases A.ctrl[i]? <;> simp

theorem splitU_matrix {eps : K} (heps : 0 ≤ eps) {u : List K} {deg s : ℤ} (h : Axis u deg s m du)
    (hd : 1 ≤ du) {t : K} (h1 : knot u du < t) (h2 : t < knot u m) :
    ∃ A B : BSpline K (ℕ → K), ∀ (p : BSplinePatch K V) (n dv : ℕ), p.Ready m n du dv → p.knotsU = u → p.sU = s →
      ∃ q r, p.splitU eps t = ok [q, r] ∧ IsU p q m n du dv A ∧ IsU p r m n du dv B ∧
        ∀ j, (p.colU m n j).split eps t
          = ok [image (comb m fun i => p.pts n i j) A, image (comb m fun i => p.pts n i j) B] := by
  obtain ⟨A, B, H⟩ := split_matrix (V := V) heps h hd h1 h2
  refine ⟨A, B, fun p n dv hp hu hs => ?_⟩
  subst hu hs
  have hn : 0 < n := by have := hp.v.cnt; omega
  have hcol : ∀ j, (p.colU m n j).split eps t
      = ok [image (comb m fun i => p.pts n i j) A, image (comb m fun i => p.pts n i j) B] :=
    fun j => H p.perU _
  have hwf : ∀ j, WellFormed (image (comb m fun i => p.pts n i j) A) du ∧
      WellFormed (image (comb m fun i => p.pts n i j) B) du := by
    intro j
    have hw : WellFormed (p.colU m n j) du := hp.u.wf p.perU (by simp)
    obtain ⟨a, b, e, L, R⟩ := split_spec heps hw hd h1 (by simp [colU]; exact h2)
    rw [hcol j] at e
    obtain ⟨rfl, rfl⟩ := by simpa using ok.inj e
    exact ⟨L.wf, R.wf⟩
  have key : ∀ (ci : ℕ) (C : BSpline K (ℕ → K)),
      (∀ j, WellFormed (image (comb m fun i => p.pts n i j : (ℕ → K) →ₗ[K] V) C) du) →
      (∀ j, rd [image (comb m fun i => p.pts n i j : (ℕ → K) →ₗ[K] V) A,
        image (comb m fun i => p.pts n i j : (ℕ → K) →ₗ[K] V) B] ci = ok (image (comb m fun i => p.pts n i j) C)) →
      ∃ q, p.partU (arr n fun j => [image (comb m fun i => p.pts n i j) A, image (comb m fun i => p.pts n i j) B]) n ci
        = ok q ∧ IsU p q m n du dv C := by
    intro ci C hC hci
    have hparts : ∀ i < n, ∃ ps, rd (arr n fun j => [image (comb m fun i => p.pts n i j : (ℕ → K) →ₗ[K] V) A,
        image (comb m fun i => p.pts n i j : (ℕ → K) →ₗ[K] V) B]) i = ok ps ∧
        rd ps ci = ok (image (comb m fun k => p.pts n k i) C) :=
      fun i hi => ⟨_, rd_arr hi, hci i⟩
    obtain ⟨q, e, Q⟩ := hp.partU (c := fun j => image (comb m fun i => p.pts n i j) C) hparts (fun i _ => hC i)
      (fun _ _ => rfl)
    have hr := Q.ready
    simp only [image_ctrl, List.length_map] at hr
    refine ⟨q, e, hr, ?_, Q.knotsU 0 hn, Q.knotsV, Q.perU, Q.perV, Q.sU, Q.sV⟩
    unfold BSplinePatch.partU refRows at e
    rw [rd_arr hn, ok_bind, hci 0, ok_bind, image_ctrl, List.length_map,
      gatherU (r := C.ctrl.length) hparts (fun i _ => by simp), ok_bind, hp.toValid.degreeV, ok_bind] at e
    rw [init_grid e]
    exact gridOf_congr fun i _ j _ => getD_image (comb m fun k => p.pts n k j) C i
  obtain ⟨q, eq, Q⟩ := key 0 A (fun j => (hwf j).1) fun _ => rfl
  obtain ⟨r, er, R⟩ := key 1 B (fun j => (hwf j).2) fun _ => rfl
  refine ⟨q, r, ?_, Q, R, hcol⟩
  unfold BSplinePatch.splitU
  rw [hp.toValid.lowerU, ok_bind, hp.toValid.upperU, ok_bind, if_neg, hp.toValid.numV, ok_bind,
    tab_eq (g := fun j => [image (comb m fun i => p.pts n i j) A, image (comb m fun i => p.pts n i j) B]), ok_bind,
    eq, ok_bind, er, ok_bind]
  · rfl
  · intro j hj
    rw [hp.isoU, rd_arr hj, ok_bind, hcol]
  · simp [BSplinePatch.isEndpoint, h1.ne', h2.ne]

theorem splitV_matrix {eps : K} (heps : 0 ≤ eps) {u : List K} {deg s : ℤ} (h : Axis u deg s n dv)
    (hd : 1 ≤ dv) {t : K} (h1 : knot u dv < t) (h2 : t < knot u n) :
    ∃ A B : BSpline K (ℕ → K), ∀ (p : BSplinePatch K V) (m du : ℕ), p.Ready m n du dv → p.knotsV = u → p.sV = s →
      ∃ q r, p.splitV eps t = ok [q, r] ∧ IsV p q m n du dv A ∧ IsV p r m n du dv B ∧
        ∀ j, (p.rowV n j).split eps t
          = ok [image (comb n fun l => p.pts n j l) A, image (comb n fun l => p.pts n j l) B] := by
  obtain ⟨A, B, H⟩ := split_matrix (V := V) heps h hd h1 h2
  refine ⟨A, B, fun p m du hp hu hs => ?_⟩
  subst hu hs
  have hn : 0 < m := by have := hp.u.cnt; omega
  have hcol : ∀ j, (p.rowV n j).split eps t
      = ok [image (comb n fun l => p.pts n j l) A, image (comb n fun l => p.pts n j l) B] :=
    fun j => H p.perV _
  have hwf : ∀ j, WellFormed (image (comb n fun l => p.pts n j l) A) dv ∧
      WellFormed (image (comb n fun l => p.pts n j l) B) dv := by
    intro j
    have hw : WellFormed (p.rowV n j) dv := hp.v.wf p.perV (by simp)
    obtain ⟨a, b, e, L, R⟩ := split_spec heps hw hd h1 (by simp [rowV]; exact h2)
    rw [hcol j] at e
    obtain ⟨rfl, rfl⟩ := by simpa using ok.inj e
    exact ⟨L.wf, R.wf⟩
  have key : ∀ (ci : ℕ) (C : BSpline K (ℕ → K)),
      (∀ j, WellFormed (image (comb n fun l => p.pts n j l : (ℕ → K) →ₗ[K] V) C) dv) →
      (∀ j, rd [image (comb n fun l => p.pts n j l : (ℕ → K) →ₗ[K] V) A,
        image (comb n fun l => p.pts n j l : (ℕ → K) →ₗ[K] V) B] ci = ok (image (comb n fun l => p.pts n j l) C)) →
      ∃ q, p.partV (arr m fun j => [image (comb n fun l => p.pts n j l) A, image (comb n fun l => p.pts n j l) B]) m ci
        = ok q ∧ IsV p q m n du dv C := by
    intro ci C hC hci
    have hparts : ∀ i < m, ∃ ps, rd (arr m fun j => [image (comb n fun l => p.pts n j l : (ℕ → K) →ₗ[K] V) A,
        image (comb n fun l => p.pts n j l : (ℕ → K) →ₗ[K] V) B]) i = ok ps ∧
        rd ps ci = ok (image (comb n fun l => p.pts n i l) C) :=
      fun i hi => ⟨_, rd_arr hi, hci i⟩
    obtain ⟨q, e, Q⟩ := hp.partV (c := fun j => image (comb n fun l => p.pts n j l) C) hparts (fun i _ => hC i)
      (fun _ _ => rfl)
    have hr := Q.ready
    simp only [image_ctrl, List.length_map] at hr
    refine ⟨q, e, hr, ?_, Q.knotsU, Q.knotsV 0 hn, Q.perU, Q.perV, Q.sU, Q.sV⟩
    unfold BSplinePatch.partV refRows at e
    rw [rd_arr hn, ok_bind, hci 0, ok_bind, image_ctrl, List.length_map,
      gatherV (r := C.ctrl.length) hparts (fun i _ => by simp), ok_bind, hp.toValid.degreeU, ok_bind] at e
    rw [init_grid e]
    exact gridOf_congr fun i _ j _ => getD_image (comb n fun l => p.pts n i l) C j
  obtain ⟨q, eq, Q⟩ := key 0 A (fun j => (hwf j).1) fun _ => rfl
  obtain ⟨r, er, R⟩ := key 1 B (fun j => (hwf j).2) fun _ => rfl
  refine ⟨q, r, ?_, Q, R, hcol⟩
  unfold BSplinePatch.splitV
  rw [hp.toValid.lowerV, ok_bind, hp.toValid.upperV, ok_bind, throwIf_false, ok_bind, if_neg, hp.toValid.numU, ok_bind,
    tab_eq (g := fun j => [image (comb n fun l => p.pts n j l) A, image (comb n fun l => p.pts n j l) B]), ok_bind,
    eq, ok_bind, er, ok_bind]
  · rfl
  · intro j hj
    rw [hp.isoV, rd_arr hj, ok_bind, hcol]
  · simp [BSplinePatch.isEndpoint, h1.ne', h2.ne]
  · rw [not_not]
    exact inDomain_mem heps h1.le h2.le

/-- A part in `u` of a part in `v` is the part in `v` of the part in `u`. -/
theorem parts_comm {A C : BSpline K (ℕ → K)} {q r x y : BSplinePatch K V} (hq : IsU p q m n du dv A)
    (hr : IsV p r m n du dv C) (hx : IsV q x A.ctrl.length n du dv C) (hy : IsU r y m C.ctrl.length du dv A) :
    x = y := by
  refine ready_ext hx.ready hy.ready ?_ ?_ ?_ ?_ ?_ ?_ ?_
  · rw [hx.grid, hy.grid]
    refine gridOf_congr fun i hi j hj => ?_
    rw [comb_congr (fun l hl => pts_gridOf' _ q hq.grid hi hl),
      comb_congr (fun k hk => pts_gridOf' _ r hr.grid hk hj)]
    exact comb_comm m n (fun k l => p.pts n k l) _ _
  · rw [hx.knotsU, hq.knotsU, hy.knotsU]
  · rw [hx.knotsV, hy.knotsV, hr.knotsV]
  · rw [hx.perU, hy.perU]
  · rw [hx.perV, hy.perV]
  · rw [hx.sU, hq.sU, hy.sU, hr.sU]
  · rw [hx.sV, hq.sV, hy.sV, hr.sV]

/-- **C109** (splits of B-spline patches): splitting in `u` and each half in `v` gives the same four patches, control
point by control point and knot by knot, as splitting in `v` and each half in `u`, and they are what `split` returns.
No assumption on the multiplicities of the knots, and the patch may be periodic. -/
theorem C109_bspline_split_order {eps : K} (heps : 0 ≤ eps) (h : p.Valid m n du dv) (hi : p.init = ok p)
    (hdu : 1 ≤ du) (hdv : 1 ≤ dv) {s t : K} (h1 : knot p.knotsU du < s) (h2 : s < knot p.knotsU m)
    (h3 : knot p.knotsV dv < t) (h4 : t < knot p.knotsV n) :
    ∃ L R B T A1 A2 A3 A4, p.splitU eps s = ok [L, R] ∧ L.splitV eps t = ok [A1, A2] ∧ R.splitV eps t = ok [A3, A4] ∧
      p.splitV eps t = ok [B, T] ∧ B.splitU eps s = ok [A1, A3] ∧ T.splitU eps s = ok [A2, A4] ∧
      p.split eps s t = ok [A1, A2, A3, A4] := by
  have hp := h.ready hi
  obtain ⟨MA, MB, HU⟩ := splitU_matrix (V := V) heps h.u hdu h1 h2
  obtain ⟨MC, MD, HV⟩ := splitV_matrix (V := V) heps h.v hdv h3 h4
  obtain ⟨L, R, e, hL, hR, -⟩ := HU p n dv hp rfl rfl
  obtain ⟨B, T, e', hB, hT, -⟩ := HV p m du hp rfl rfl
  obtain ⟨A1, A2, eL, a1, a2, -⟩ := HV L _ _ hL.ready hL.knotsV hL.sV
  obtain ⟨A3, A4, eR, a3, a4, -⟩ := HV R _ _ hR.ready hR.knotsV hR.sV
  obtain ⟨B1, B3, eB, b1, b3, -⟩ := HU B _ _ hB.ready hB.knotsU hB.sU
  obtain ⟨B2, B4, eT, b2, b4, -⟩ := HU T _ _ hT.ready hT.knotsU hT.sU
  obtain rfl := parts_comm hL hB a1 b1
  obtain rfl := parts_comm hL hT a2 b2
  obtain rfl := parts_comm hR hB a3 b3
  obtain rfl := parts_comm hR hT a4 b4
  refine ⟨L, R, B, T, A1, A2, A3, A4, e, eL, eR, e', eB, eT, ?_⟩
  unfold BSplinePatch.split
  rw [h.lowerU, ok_bind, h.upperU, ok_bind, h.lowerV, ok_bind, h.upperV, ok_bind,
    inDomain_mem heps h1.le h2.le, inDomain_mem heps h3.le h4.le, throwIf_false (by simp), ok_bind,
    not_endpoint h1 h2, not_endpoint h3 h4]
  simp [e, eL, eR, rd, ok_bind]

example := C109_bspline_split_order (eps := 0) le_rfl exBP_valid exBP_init.2 (by norm_num) (by norm_num) (s := 1 / 2)
  (t := 1 / 3) (by decide +kernel) (by decide +kernel) (by decide +kernel) (by decide +kernel)

theorem grid_eq (h : p.Valid m n du dv) : p.grid = gridOf m n (p.pts n) := by
  apply eq_gridOf h.grid
  intro i hi j hj
  have hl : i * n + j < p.grid.length := by rw [h.grid]; exact lin_lt hi hj
  unfold BSplinePatch.pts Spec.gridPoint
  rw [List.getD_eq_getElem?_getD, List.getElem?_eq_getElem hl, Option.getD_some]

/-- The columns of a part along `u` are the curve parts. -/
theorem IsU.col {q : BSplinePatch K V} {A : BSpline K (ℕ → K)} (h : IsU p q m n du dv A) (hp : A.periodic = false)
    (hs : A.sdeg = staticDeg p.sU) {j : ℕ} (hj : j < n) :
    image (comb m fun i => p.pts n i j) A = q.colU A.ctrl.length n j := by
  unfold image colU
  rw [h.knotsU, h.perU, h.sU, hp, hs]
  congr 1
  conv_lhs => rw [eq_arr A.ctrl 0]
  unfold arr
  rw [List.map_map]
  exact List.map_congr_left fun i hi => (pts_gridOf' _ q h.grid (List.mem_range.1 hi) hj).symm

/-- `split_u` splits every column. -/
theorem splitU_cols {eps : K} (heps : 0 ≤ eps) (hp : p.Ready m n du dv) (hd : 1 ≤ du) {t : K}
    (h1 : knot p.knotsU du < t) (h2 : t < knot p.knotsU m) :
    ∃ q r mq mr, p.splitU eps t = ok [q, r] ∧ q.Ready mq n du dv ∧ r.Ready mr n du dv ∧
      (q.knotsV = p.knotsV ∧ q.perU = false ∧ q.perV = false ∧ q.sU = p.sU ∧ q.sV = p.sV) ∧
      (r.knotsV = p.knotsV ∧ r.perU = false ∧ r.perV = false ∧ r.sU = p.sU ∧ r.sV = p.sV) ∧
      ∀ j < n, (p.colU m n j).split eps t = ok [q.colU mq n j, r.colU mr n j] := by
  obtain ⟨A, B, H⟩ := splitU_matrix (V := V) heps hp.u hd h1 h2
  obtain ⟨q, r, e, Q, R, hcol⟩ := H p n dv hp rfl rfl
  obtain ⟨a, b, e', L', R'⟩ := split_spec heps (c := p.colU m n 0) (hp.u.wf p.perU (by simp)) hd h1
    (by simp [colU]; exact h2)
  rw [hcol 0] at e'
  obtain ⟨rfl, rfl⟩ := by simpa using ok.inj e'
  refine ⟨q, r, _, _, e, Q.ready, R.ready, ⟨Q.knotsV, Q.perU, Q.perV, Q.sU, Q.sV⟩,
    ⟨R.knotsV, R.perU, R.perV, R.sU, R.sV⟩, fun j hj => ?_⟩
  rw [hcol j, Q.col L'.periodic L'.sdeg hj, R.col R'.periodic R'.sdeg hj]

/-- Patches with the same columns are the same. -/
theorem cols_ext {A B : BSplinePatch K V} {m' : ℕ} (hA : A.Ready m n du dv) (hB : B.Ready m' n du dv)
    (h : ∀ j < n, A.colU m n j = B.colU m' n j)
    (fA : A.knotsV = p.knotsV ∧ A.perU = false ∧ A.perV = false ∧ A.sU = p.sU ∧ A.sV = p.sV)
    (fB : B.knotsV = p.knotsV ∧ B.perU = false ∧ B.perV = false ∧ B.sU = p.sU ∧ B.sV = p.sV) : A = B := by
  have hn : 0 < n := by have := hA.v.cnt; omega
  obtain rfl : m = m' := by simpa [colU] using congrArg (fun c => c.ctrl.length) (h 0 hn)
  refine ready_ext hA hB ?_ (congrArg (fun c => c.knots) (h 0 hn)) (fA.1.trans fB.1.symm)
    (fA.2.1.trans fB.2.1.symm) (fA.2.2.1.trans fB.2.2.1.symm) (fA.2.2.2.1.trans fB.2.2.2.1.symm)
    (fA.2.2.2.2.trans fB.2.2.2.2.symm)
  rw [grid_eq hA.toValid, grid_eq hB.toValid]
  refine gridOf_congr fun i hi j hj => ?_
  have := congrArg (fun c => c.ctrl.getD i 0) (h j hj)
  simp only [colU] at this
  rw [arr_getD _ _ _ _ hi, arr_getD _ _ _ _ hi] at this
  exact this

/-- **C109** (strips of B-spline patches): splitting at `s` and the first part at `r` gives the same three strips as
splitting at `r` and the second part at `s`, for clamped knots and a patch that is continuous across both lines. -/
theorem C109_bspline_split_u_order {eps : K} (heps : 0 ≤ eps) (h : p.Valid m n du dv) (hi : p.init = ok p)
    (hd : 1 ≤ du) (hmem : ∀ x ∈ p.knotsU, knot p.knotsU du ≤ x ∧ x ≤ knot p.knotsU m)
    (hcnt : ∀ x, p.knotsU.count x ≤ du + 1) {r s : K} (h0 : knot p.knotsU du < r) (h1 : r < s)
    (h2 : s < knot p.knotsU m) (hr : p.knotsU.count r ≤ du) (hs : p.knotsU.count s ≤ du) :
    ∃ A B C L R, p.splitU eps s = ok [L, C] ∧ L.splitU eps r = ok [A, B] ∧
      p.splitU eps r = ok [A, R] ∧ R.splitU eps s = ok [B, C] := by
  have hp := h.ready hi
  have hn : 0 < n := by have := h.v.cnt; omega
  have wf : ∀ j, WellFormed (p.colU m n j) du := fun j => h.u.wf p.perU (by simp)
  have cl : ∀ j, Clamped (p.colU m n j) du := fun j => ⟨by simpa [colU] using hmem, hcnt⟩
  obtain ⟨L, C, mL, mC, e1, rL, rC, fL, fC, c1⟩ := splitU_cols heps hp hd (h0.trans h1) h2
  obtain ⟨A', R, mA', mR, e3, rA', rR, fA', fR, c3⟩ := splitU_cols heps hp hd h0 (h1.trans h2)
  have dom : knot L.knotsU du = knot p.knotsU du ∧ knot L.knotsU mL = s ∧ knot R.knotsU du = r ∧
      knot R.knotsU mR = knot p.knotsU m := by
    obtain ⟨a, b, e, S1, -⟩ := split_spec heps (wf 0) hd (t := s) (h0.trans h1) (by simp [colU]; exact h2)
    rw [c1 0 hn] at e
    cases e
    obtain ⟨a, b, e, -, S2⟩ := split_spec heps (wf 0) hd (t := r) h0 (by simp [colU]; exact h1.trans h2)
    rw [c3 0 hn] at e
    cases e
    have a1 := S1.lower
    have a2 := S1.upper
    have a3 := S2.lower
    have a4 := S2.upper
    simp only [colU, arr_length] at a1 a2 a3 a4
    exact ⟨a1, a2, a3, a4⟩
  obtain ⟨A, B, mA, mB, e2, rA, rB, fA, fB, c2⟩ := splitU_cols heps rL hd (t := r) (by rw [dom.1]; exact h0)
    (by rw [dom.2.1]; exact h1)
  obtain ⟨B', C', mB', mC', e4, rB', rC', fB', fC', c4⟩ := splitU_cols heps rR hd (t := s)
    (by rw [dom.2.2.1]; exact h1) (by rw [dom.2.2.2]; exact h2)
  have same : ∀ j < n, A.colU mA n j = A'.colU mA' n j ∧ B.colU mB n j = B'.colU mB' n j ∧
      C.colU mC n j = C'.colU mC' n j := by
    intro j hj
    obtain ⟨a, b, c, l, r', g1, g2, g3, g4⟩ := C92_bspline_split_order_eq heps (wf j) hd (cl j) h0 h1
      (by simp [colU]; exact h2) hr hs
    rw [c1 j hj] at g1
    cases g1
    rw [c2 j hj] at g2
    cases g2
    rw [c3 j hj] at g3
    have g3' := ok.inj g3
    simp only [List.cons.injEq, and_true] at g3'
    obtain ⟨g5, g6⟩ := g3'
    rw [← g6, c4 j hj] at g4
    have g4' := ok.inj g4
    simp only [List.cons.injEq, and_true] at g4'
    exact ⟨g5.symm, g4'.1.symm, g4'.2.symm⟩
  obtain rfl := cols_ext (p := p) rA rA' (fun j hj => (same j hj).1)
    ⟨fA.1.trans fL.1, fA.2.1, fA.2.2.1, fA.2.2.2.1.trans fL.2.2.2.1, fA.2.2.2.2.trans fL.2.2.2.2⟩ fA'
  obtain rfl := cols_ext (p := p) rB rB' (fun j hj => (same j hj).2.1)
    ⟨fB.1.trans fL.1, fB.2.1, fB.2.2.1, fB.2.2.2.1.trans fL.2.2.2.1, fB.2.2.2.2.trans fL.2.2.2.2⟩
    ⟨fB'.1.trans fR.1, fB'.2.1, fB'.2.2.1, fB'.2.2.2.1.trans fR.2.2.2.1, fB'.2.2.2.2.trans fR.2.2.2.2⟩
  obtain rfl := cols_ext (p := p) rC rC' (fun j hj => (same j hj).2.2) fC
    ⟨fC'.1.trans fR.1, fC'.2.1, fC'.2.2.1, fC'.2.2.2.1.trans fR.2.2.2.1, fC'.2.2.2.2.trans fR.2.2.2.2⟩
  exact ⟨A, B, C, L, R, e1, e2, e3, e4⟩

/-- The rows of a part along `v` are the curve parts. -/
theorem IsV.row {q : BSplinePatch K V} {A : BSpline K (ℕ → K)} (h : IsV p q m n du dv A) (hp : A.periodic = false)
    (hs : A.sdeg = staticDeg p.sV) {i : ℕ} (hi : i < m) :
    image (comb n fun l => p.pts n i l) A = q.rowV A.ctrl.length i := by
  unfold image rowV
  rw [h.knotsV, h.perV, h.sV, hp, hs]
  congr 1
  conv_lhs => rw [eq_arr A.ctrl 0]
  unfold arr
  rw [List.map_map]
  exact List.map_congr_left fun j hj => (pts_gridOf' _ q h.grid hi (List.mem_range.1 hj)).symm

/-- `split_v` splits every row. -/
theorem splitV_rows {eps : K} (heps : 0 ≤ eps) (hp : p.Ready m n du dv) (hd : 1 ≤ dv) {t : K}
    (h1 : knot p.knotsV dv < t) (h2 : t < knot p.knotsV n) :
    ∃ q r nq nr, p.splitV eps t = ok [q, r] ∧ q.Ready m nq du dv ∧ r.Ready m nr du dv ∧
      (q.knotsU = p.knotsU ∧ q.perU = false ∧ q.perV = false ∧ q.sU = p.sU ∧ q.sV = p.sV) ∧
      (r.knotsU = p.knotsU ∧ r.perU = false ∧ r.perV = false ∧ r.sU = p.sU ∧ r.sV = p.sV) ∧
      ∀ i < m, (p.rowV n i).split eps t = ok [q.rowV nq i, r.rowV nr i] := by
  obtain ⟨A, B, H⟩ := splitV_matrix (V := V) heps hp.v hd h1 h2
  obtain ⟨q, r, e, Q, R, hcol⟩ := H p m du hp rfl rfl
  obtain ⟨a, b, e', L', R'⟩ := split_spec heps (c := p.rowV n 0) (hp.v.wf p.perV (by simp)) hd h1
    (by simp [rowV]; exact h2)
  rw [hcol 0] at e'
  obtain ⟨rfl, rfl⟩ := by simpa using ok.inj e'
  refine ⟨q, r, _, _, e, Q.ready, R.ready, ⟨Q.knotsU, Q.perU, Q.perV, Q.sU, Q.sV⟩,
    ⟨R.knotsU, R.perU, R.perV, R.sU, R.sV⟩, fun i hi => ?_⟩
  rw [hcol i, Q.row L'.periodic L'.sdeg hi, R.row R'.periodic R'.sdeg hi]

/-- Patches with the same rows are the same. -/
theorem rows_ext {A B : BSplinePatch K V} {n' : ℕ} (hA : A.Ready m n du dv) (hB : B.Ready m n' du dv)
    (h : ∀ i < m, A.rowV n i = B.rowV n' i)
    (fA : A.knotsU = p.knotsU ∧ A.perU = false ∧ A.perV = false ∧ A.sU = p.sU ∧ A.sV = p.sV)
    (fB : B.knotsU = p.knotsU ∧ B.perU = false ∧ B.perV = false ∧ B.sU = p.sU ∧ B.sV = p.sV) : A = B := by
  have hm : 0 < m := by have := hA.u.cnt; omega
  obtain rfl : n = n' := by simpa [rowV] using congrArg (fun c => c.ctrl.length) (h 0 hm)
  refine ready_ext hA hB ?_ (fA.1.trans fB.1.symm) (congrArg (fun c => c.knots) (h 0 hm))
    (fA.2.1.trans fB.2.1.symm) (fA.2.2.1.trans fB.2.2.1.symm) (fA.2.2.2.1.trans fB.2.2.2.1.symm)
    (fA.2.2.2.2.trans fB.2.2.2.2.symm)
  rw [grid_eq hA.toValid, grid_eq hB.toValid]
  refine gridOf_congr fun i hi j hj => ?_
  have := congrArg (fun c => c.ctrl.getD j 0) (h i hi)
  simp only [rowV] at this
  rw [arr_getD _ _ _ _ hj, arr_getD _ _ _ _ hj] at this
  exact this

/-- **C109** (strips of B-spline patches along `v`). -/
theorem C109_bspline_split_v_order {eps : K} (heps : 0 ≤ eps) (h : p.Valid m n du dv) (hi : p.init = ok p)
    (hd : 1 ≤ dv) (hmem : ∀ x ∈ p.knotsV, knot p.knotsV dv ≤ x ∧ x ≤ knot p.knotsV n)
    (hcnt : ∀ x, p.knotsV.count x ≤ dv + 1) {r s : K} (h0 : knot p.knotsV dv < r) (h1 : r < s)
    (h2 : s < knot p.knotsV n) (hr : p.knotsV.count r ≤ dv) (hs : p.knotsV.count s ≤ dv) :
    ∃ A B C L R, p.splitV eps s = ok [L, C] ∧ L.splitV eps r = ok [A, B] ∧
      p.splitV eps r = ok [A, R] ∧ R.splitV eps s = ok [B, C] := by
  have hp := h.ready hi
  have hm : 0 < m := by have := h.u.cnt; omega
  have wf : ∀ j, WellFormed (p.rowV n j) dv := fun j => h.v.wf p.perV (by simp)
  have cl : ∀ j, Clamped (p.rowV n j) dv := fun j => ⟨by simpa [rowV] using hmem, hcnt⟩
  obtain ⟨L, C, mL, mC, e1, rL, rC, fL, fC, c1⟩ := splitV_rows heps hp hd (h0.trans h1) h2
  obtain ⟨A', R, mA', mR, e3, rA', rR, fA', fR, c3⟩ := splitV_rows heps hp hd h0 (h1.trans h2)
  have dom : knot L.knotsV dv = knot p.knotsV dv ∧ knot L.knotsV mL = s ∧ knot R.knotsV dv = r ∧
      knot R.knotsV mR = knot p.knotsV n := by
    obtain ⟨a, b, e, S1, -⟩ := split_spec heps (wf 0) hd (t := s) (h0.trans h1) (by simp [rowV]; exact h2)
    rw [c1 0 hm] at e
    cases e
    obtain ⟨a, b, e, -, S2⟩ := split_spec heps (wf 0) hd (t := r) h0 (by simp [rowV]; exact h1.trans h2)
    rw [c3 0 hm] at e
    cases e
    have a1 := S1.lower
    have a2 := S1.upper
    have a3 := S2.lower
    have a4 := S2.upper
    simp only [rowV, arr_length] at a1 a2 a3 a4
    exact ⟨a1, a2, a3, a4⟩
  obtain ⟨A, B, mA, mB, e2, rA, rB, fA, fB, c2⟩ := splitV_rows heps rL hd (t := r) (by rw [dom.1]; exact h0)
    (by rw [dom.2.1]; exact h1)
  obtain ⟨B', C', mB', mC', e4, rB', rC', fB', fC', c4⟩ := splitV_rows heps rR hd (t := s)
    (by rw [dom.2.2.1]; exact h1) (by rw [dom.2.2.2]; exact h2)
  have same : ∀ j < m, A.rowV mA j = A'.rowV mA' j ∧ B.rowV mB j = B'.rowV mB' j ∧
      C.rowV mC j = C'.rowV mC' j := by
    intro j hj
    obtain ⟨a, b, c, l, r', g1, g2, g3, g4⟩ := C92_bspline_split_order_eq heps (wf j) hd (cl j) h0 h1
      (by simp [rowV]; exact h2) hr hs
    rw [c1 j hj] at g1
    cases g1
    rw [c2 j hj] at g2
    cases g2
    rw [c3 j hj] at g3
    have g3' := ok.inj g3
    simp only [List.cons.injEq, and_true] at g3'
    obtain ⟨g5, g6⟩ := g3'
    rw [← g6, c4 j hj] at g4
    have g4' := ok.inj g4
    simp only [List.cons.injEq, and_true] at g4'
    exact ⟨g5.symm, g4'.1.symm, g4'.2.symm⟩
  obtain rfl := rows_ext (p := p) rA rA' (fun j hj => (same j hj).1)
    ⟨fA.1.trans fL.1, fA.2.1, fA.2.2.1, fA.2.2.2.1.trans fL.2.2.2.1, fA.2.2.2.2.trans fL.2.2.2.2⟩ fA'
  obtain rfl := rows_ext (p := p) rB rB' (fun j hj => (same j hj).2.1)
    ⟨fB.1.trans fL.1, fB.2.1, fB.2.2.1, fB.2.2.2.1.trans fL.2.2.2.1, fB.2.2.2.2.trans fL.2.2.2.2⟩
    ⟨fB'.1.trans fR.1, fB'.2.1, fB'.2.2.1, fB'.2.2.2.1.trans fR.2.2.2.1, fB'.2.2.2.2.trans fR.2.2.2.2⟩
  obtain rfl := rows_ext (p := p) rC rC' (fun j hj => (same j hj).2.2) fC
    ⟨fC'.1.trans fR.1, fC'.2.1, fC'.2.2.1, fC'.2.2.2.1.trans fR.2.2.2.1, fC'.2.2.2.2.trans fR.2.2.2.2⟩
  exact ⟨A, B, C, L, R, e1, e2, e3, e4⟩

theorem exBP_clamped : ∀ x, exBP.knotsU.count x ≤ 2 + 1 := by
  intro x
  by_cases h : x ∈ exBP.knotsU
  · revert x
    decide +kernel
  · rw [List.count_eq_zero.2 h]; omega

theorem exBP_clamped' : ∀ x, exBP.knotsV.count x ≤ 1 + 1 := by
  intro x
  by_cases h : x ∈ exBP.knotsV
  · revert x
    decide +kernel
  · rw [List.count_eq_zero.2 h]; omega

example := C109_bspline_split_u_order (eps := 0) le_rfl exBP_valid exBP_init.2 (by norm_num) (by decide +kernel)
  exBP_clamped (r := 1 / 4) (s := 1 / 2) (by decide +kernel) (by norm_num) (by decide +kernel) (by decide +kernel)
  (by decide +kernel)

example := C109_bspline_split_v_order (eps := 0) le_rfl exBP_valid exBP_init.2 (by norm_num) (by decide +kernel)
  exBP_clamped' (r := 1 / 4) (s := 1 / 2) (by decide +kernel) (by norm_num) (by decide +kernel) (by decide +kernel)
  (by decide +kernel)

end Patch

section Nurbs

variable {K V : Type} [Field K] [LinearOrder K] [IsStrictOrderedRing K] [FloorRing K]
  [AddCommGroup V] [Module K V] {p : NURBSPatch K V} {m n du dv : ℕ}

theorem hom_of_ofHomogeneous {q : BSplinePatch K (V × K)} {r : NURBSPatch K V}
    (h : NURBSPatch.ofHomogeneous q = ok r) : r.hom = q := by
  unfold NURBSPatch.ofHomogeneous at h
  simp only [bind_eq_ok] at h
  obtain ⟨_, _, _, _, _, _, _, _, e⟩ := h
  cases e
  rfl

/-- **C109** (splits of NURBS patches): with positive weights the four patches do not depend on the order of the splits
in the two directions, and they are what `split` returns. -/
theorem C109_nurbs_split_order {eps : K} (heps : 0 ≤ eps) (h : NValid p m n du dv) (hi : p.init = ok p)
    (hw : ∀ x ∈ p.weights, 0 < x) (hdu : 1 ≤ du) (hdv : 1 ≤ dv) {s t : K} (h1 : knot p.knotsU du < s)
    (h2 : s < knot p.knotsU m) (h3 : knot p.knotsV dv < t) (h4 : t < knot p.knotsV n) :
    ∃ L R B T A1 A2 A3 A4, p.splitU eps s = ok [L, R] ∧ L.splitV eps t = ok [A1, A2] ∧ R.splitV eps t = ok [A3, A4] ∧
      p.splitV eps t = ok [B, T] ∧ B.splitU eps s = ok [A1, A3] ∧ T.splitU eps s = ok [A2, A4] ∧
      p.split eps s t = ok [A1, A2, A3, A4] := by
  have S := (sync_of_init hi).1
  rw [← S.knotsU] at h1 h2
  rw [← S.knotsV] at h3 h4
  obtain ⟨L, R, B, T, A1, A2, A3, A4, e1, e2, e3, e4, e5, e6, e7⟩ :=
    C109_bspline_split_order heps (h.hom S) S.init hdu hdv h1 h2 h3 h4
  obtain ⟨_, _, f1, oL, oR⟩ := C65_split_u_partial heps (h.hom S) S.init hdu h1 h2
  obtain ⟨_, _, f2, oB, oT⟩ := C65_split_v_partial heps (h.hom S) S.init hdv h3 h4
  obtain ⟨_, _, _, _, f3, o1, o2, o3, o4⟩ := C65_split_partial heps (h.hom S) S.init hdu hdv h1 h2 h3 h4
  rw [e1] at f1
  rw [e4] at f2
  rw [e7] at f3
  cases f1
  cases f2
  cases f3
  obtain ⟨rL, gL, -⟩ := ofHom_part hi hw oL
  obtain ⟨rR, gR, -⟩ := ofHom_part hi hw oR
  obtain ⟨rB, gB, -⟩ := ofHom_part hi hw oB
  obtain ⟨rT, gT, -⟩ := ofHom_part hi hw oT
  obtain ⟨r1, g1, -⟩ := ofHom_part hi hw o1
  obtain ⟨r2, g2, -⟩ := ofHom_part hi hw o2
  obtain ⟨r3, g3, -⟩ := ofHom_part hi hw o3
  obtain ⟨r4, g4, -⟩ := ofHom_part hi hw o4
  refine ⟨rL, rR, rB, rT, r1, r2, r3, r4, ?_, ?_, ?_, ?_, ?_, ?_, ?_⟩ <;>
    simp only [NURBSPatch.splitU, NURBSPatch.splitV, NURBSPatch.split, hom_of_ofHomogeneous gL, hom_of_ofHomogeneous gR,
      hom_of_ofHomogeneous gB, hom_of_ofHomogeneous gT, e1, e2, e3, e4, e5, e6, e7, ok_bind, NURBSPatch.ofParts, gL, gR, gB,
      gT, g1, g2, g3, g4, pure_eq]

example : ∃ q, exNPRaw.init = ok q ∧ ∃ A1 A2 A3 A4, q.split (1/1000 : ℚ) (1/3) (1/4) = ok [A1, A2, A3, A4] := by
  obtain ⟨q, e, e2, hq⟩ := C63_nurbs_init exNP_valid
  have hv : NValid q 4 2 2 1 := by rw [hq]; exact ⟨exNP_valid.1, exNP_valid.2, exNP_valid.3, exNP_valid.4⟩
  have hw : ∀ x ∈ q.weights, (0 : ℚ) < x := by rw [hq]; simp only; decide +kernel
  obtain ⟨_, _, _, _, A1, A2, A3, A4, -, -, -, -, -, -, h⟩ := C109_nurbs_split_order (eps := (1/1000 : ℚ)) (by norm_num)
    hv e2 hw (by norm_num) (by norm_num) (s := 1/3) (t := 1/4) (by rw [hq]; simp only; decide +kernel)
    (by rw [hq]; simp only; decide +kernel) (by rw [hq]; simp only; decide +kernel)
    (by rw [hq]; simp only; decide +kernel)
  exact ⟨q, e, A1, A2, A3, A4, h⟩

/-- **C109** (strips of NURBS patches): as for B-spline patches, with positive weights. -/
theorem C109_nurbs_split_u_order {eps : K} (heps : 0 ≤ eps) (h : NValid p m n du dv) (hi : p.init = ok p)
    (hw : ∀ x ∈ p.weights, 0 < x) (hd : 1 ≤ du) (hmem : ∀ x ∈ p.knotsU, knot p.knotsU du ≤ x ∧ x ≤ knot p.knotsU m)
    (hcnt : ∀ x, p.knotsU.count x ≤ du + 1) {r s : K} (h0 : knot p.knotsU du < r) (h1 : r < s)
    (h2 : s < knot p.knotsU m) (hr : p.knotsU.count r ≤ du) (hs : p.knotsU.count s ≤ du) :
    ∃ A B C L R, p.splitU eps s = ok [L, C] ∧ L.splitU eps r = ok [A, B] ∧
      p.splitU eps r = ok [A, R] ∧ R.splitU eps s = ok [B, C] := by
  have S := (sync_of_init hi).1
  rw [← S.knotsU] at hmem hcnt h0 h2 hr hs
  obtain ⟨A, B, C, L, R, e1, e2, e3, e4⟩ :=
    C109_bspline_split_u_order heps (h.hom S) S.init hd hmem hcnt h0 h1 h2 hr hs
  obtain ⟨_, _, f1, oL, oC⟩ := C65_split_u_partial heps (h.hom S) S.init hd (h0.trans h1) h2
  obtain ⟨_, _, f3, oA, oR⟩ := C65_split_u_partial heps (h.hom S) S.init hd h0 (h1.trans h2)
  rw [e1] at f1
  rw [e3] at f3
  cases f1
  cases f3
  obtain ⟨rL, gL, m', n', vL, iL, -, -, aL, bL, -, -, wL, -⟩ := ofHom_part hi hw oL
  obtain ⟨rC, gC, -⟩ := ofHom_part hi hw oC
  obtain ⟨rA, gA, -⟩ := ofHom_part hi hw oA
  obtain ⟨rR, gR, -⟩ := ofHom_part hi hw oR
  have SL := (sync_of_init iL).1
  rw [← SL.knotsU] at aL bL
  obtain ⟨_, _, f2, -, oB⟩ := C65_split_u_partial heps (vL.hom SL) SL.init hd (t := r) (by rw [aL]; exact h0)
    (by rw [bL]; exact h1)
  rw [hom_of_ofHomogeneous gL, e2] at f2
  cases f2
  obtain ⟨rB, gB, -⟩ := ofHom_part iL wL oB
  refine ⟨rA, rB, rC, rL, rR, ?_, ?_, ?_, ?_⟩ <;>
    simp only [NURBSPatch.splitU, hom_of_ofHomogeneous gL, hom_of_ofHomogeneous gR, e1, e2, e3, e4, ok_bind,
      NURBSPatch.ofParts, gL, gR, gA, gB, gC, pure_eq]

/-- **C109** (strips of NURBS patches along `v`). -/
theorem C109_nurbs_split_v_order {eps : K} (heps : 0 ≤ eps) (h : NValid p m n du dv) (hi : p.init = ok p)
    (hw : ∀ x ∈ p.weights, 0 < x) (hd : 1 ≤ dv) (hmem : ∀ x ∈ p.knotsV, knot p.knotsV dv ≤ x ∧ x ≤ knot p.knotsV n)
    (hcnt : ∀ x, p.knotsV.count x ≤ dv + 1) {r s : K} (h0 : knot p.knotsV dv < r) (h1 : r < s)
    (h2 : s < knot p.knotsV n) (hr : p.knotsV.count r ≤ dv) (hs : p.knotsV.count s ≤ dv) :
    ∃ A B C L R, p.splitV eps s = ok [L, C] ∧ L.splitV eps r = ok [A, B] ∧
      p.splitV eps r = ok [A, R] ∧ R.splitV eps s = ok [B, C] := by
  have S := (sync_of_init hi).1
  rw [← S.knotsV] at hmem hcnt h0 h2 hr hs
  obtain ⟨A, B, C, L, R, e1, e2, e3, e4⟩ :=
    C109_bspline_split_v_order heps (h.hom S) S.init hd hmem hcnt h0 h1 h2 hr hs
  obtain ⟨_, _, f1, oL, oC⟩ := C65_split_v_partial heps (h.hom S) S.init hd (h0.trans h1) h2
  obtain ⟨_, _, f3, oA, oR⟩ := C65_split_v_partial heps (h.hom S) S.init hd h0 (h1.trans h2)
  rw [e1] at f1
  rw [e3] at f3
  cases f1
  cases f3
  obtain ⟨rL, gL, m', n', vL, iL, -, -, -, -, aL, bL, wL, -⟩ := ofHom_part hi hw oL
  obtain ⟨rC, gC, -⟩ := ofHom_part hi hw oC
  obtain ⟨rA, gA, -⟩ := ofHom_part hi hw oA
  obtain ⟨rR, gR, -⟩ := ofHom_part hi hw oR
  have SL := (sync_of_init iL).1
  rw [← SL.knotsV] at aL bL
  obtain ⟨_, _, f2, -, oB⟩ := C65_split_v_partial heps (vL.hom SL) SL.init hd (t := r) (by rw [aL]; exact h0)
    (by rw [bL]; exact h1)
  rw [hom_of_ofHomogeneous gL, e2] at f2
  cases f2
  obtain ⟨rB, gB, -⟩ := ofHom_part iL wL oB
  refine ⟨rA, rB, rC, rL, rR, ?_, ?_, ?_, ?_⟩ <;>
    simp only [NURBSPatch.splitV, hom_of_ofHomogeneous gL, hom_of_ofHomogeneous gR, e1, e2, e3, e4, ok_bind,
      NURBSPatch.ofParts, gL, gR, gA, gB, gC, pure_eq]

example : ∃ q, exNPRaw.init = ok q ∧ ∃ A B C L R, q.splitU (1/1000 : ℚ) (1/2) = ok [L, C] ∧
    L.splitU (1/1000 : ℚ) (1/3) = ok [A, B] ∧ q.splitU (1/1000 : ℚ) (1/3) = ok [A, R] ∧
    R.splitU (1/1000 : ℚ) (1/2) = ok [B, C] := by
  obtain ⟨q, e, e2, hq⟩ := C63_nurbs_init exNP_valid
  have hv : NValid q 4 2 2 1 := by rw [hq]; exact ⟨exNP_valid.1, exNP_valid.2, exNP_valid.3, exNP_valid.4⟩
  have hw : ∀ x ∈ q.weights, (0 : ℚ) < x := by rw [hq]; simp only; decide +kernel
  have hk : q.knotsU = exNPRaw.knotsU := by rw [hq]
  refine ⟨q, e, C109_nurbs_split_u_order (by norm_num) hv e2 hw (by norm_num) (by rw [hk]; decide +kernel) ?_
    (by rw [hk]; decide +kernel) (by norm_num) (by rw [hk]; decide +kernel) (by rw [hk]; decide +kernel)
    (by rw [hk]; decide +kernel)⟩
  intro x
  rw [hk]
  by_cases h : x ∈ exNPRaw.knotsU
  · revert x
    decide +kernel
  · rw [List.count_eq_zero.2 h]; omega

example : ∃ q, exNPRaw.init = ok q ∧ ∃ A B C L R, q.splitV (1/1000 : ℚ) (1/2) = ok [L, C] ∧
    L.splitV (1/1000 : ℚ) (1/3) = ok [A, B] ∧ q.splitV (1/1000 : ℚ) (1/3) = ok [A, R] ∧
    R.splitV (1/1000 : ℚ) (1/2) = ok [B, C] := by
  obtain ⟨q, e, e2, hq⟩ := C63_nurbs_init exNP_valid
  have hv : NValid q 4 2 2 1 := by rw [hq]; exact ⟨exNP_valid.1, exNP_valid.2, exNP_valid.3, exNP_valid.4⟩
  have hw : ∀ x ∈ q.weights, (0 : ℚ) < x := by rw [hq]; simp only; decide +kernel
  have hk : q.knotsV = exNPRaw.knotsV := by rw [hq]
  refine ⟨q, e, C109_nurbs_split_v_order (by norm_num) hv e2 hw (by norm_num) (by rw [hk]; decide +kernel) ?_
    (by rw [hk]; decide +kernel) (by norm_num) (by rw [hk]; decide +kernel) (by rw [hk]; decide +kernel)
    (by rw [hk]; decide +kernel)⟩
  intro x
  rw [hk]
  by_cases h : x ∈ exNPRaw.knotsV
  · revert x
    decide +kernel
  · rw [List.count_eq_zero.2 h]; omega

end Nurbs

end NS.Props
