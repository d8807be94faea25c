import Verif.Model.RationalPatch
import Verif.Spec.RationalPatch
import Verif.Proof.Rational
import Verif.Proof.BezierPatch
import Verif.Proof.BSplinePatch

/-!
# Rational patches: the homogeneous copy
-/

set_option linter.unusedSectionVars false
set_option linter.unusedSimpArgs false

namespace NS

open Outcome Spec Finset

variable {K V : Type} [Field K] [LinearOrder K] [IsStrictOrderedRing K] [FloorRing K]
  [AddCommGroup V] [Module K V]

theorem homog_gridPoint {P : List V} {w : List K} (h : P.length = w.length) (n i j : ℕ) :
    gridPoint (homog P w) n i j = (gridPoint w n i j • gridPoint P n i j, gridPoint w n i j) :=
  homog_getD _ h

theorem homog_bezierSurface {P : List V} {w : List K} (h : P.length = w.length) (m n : ℕ) (u v : K) :
    bezierSurface m n (homog P w) u v =
      (∑ i ∈ range (m + 1), ∑ j ∈ range (n + 1),
        (bernstein m i u * bernstein n j v * gridPoint w (n + 1) i j) • gridPoint P (n + 1) i j,
       ratBezierSurfaceDen m n w u v) := by
  unfold bezierSurface ratBezierSurfaceDen
  ext
  · rw [Prod.fst_sum]
    refine sum_congr rfl fun i _ => ?_
    rw [Prod.fst_sum]
    refine sum_congr rfl fun j _ => ?_
    rw [homog_gridPoint h, mul_smul (_ * _)]; rfl
  · rw [Prod.snd_sum]
    refine sum_congr rfl fun i _ => ?_
    rw [Prod.snd_sum]
    refine sum_congr rfl fun j _ => ?_
    rw [homog_gridPoint h]; rfl

theorem homog_bsplineSurface {P : List V} {w : List K} (h : P.length = w.length) (p q m n : ℕ)
    (ku kv : List K) (u v : K) :
    bsplineSurface p q m n ku kv (homog P w) u v =
      (∑ i ∈ range m, ∑ j ∈ range n,
        (basis (knot ku) (knot ku m) p i u * basis (knot kv) (knot kv n) q j v *
          gridPoint w n i j) • gridPoint P n i j,
       ratBSplineSurfaceDen p q m n ku kv w u v) := by
  unfold bsplineSurface ratBSplineSurfaceDen
  ext
  · rw [Prod.fst_sum]
    refine sum_congr rfl fun i _ => ?_
    rw [Prod.fst_sum]
    refine sum_congr rfl fun j _ => ?_
    rw [homog_gridPoint h, mul_smul (_ * _)]; rfl
  · rw [Prod.snd_sum]
    refine sum_congr rfl fun i _ => ?_
    rw [Prod.snd_sum]
    refine sum_congr rfl fun j _ => ?_
    rw [homog_gridPoint h]; rfl

namespace RationalBezierPatch

/-- The homogeneous copy agrees with the points, weights, degrees and flags. -/
structure Sync (p : RationalBezierPatch K V) : Prop where
  len : p.base.grid.length = p.weights.length
  hom : p.hom = BezierPatch.mk (homog p.base.grid p.weights) p.base.degU p.base.degV p.base.perU
    p.base.perV p.base.sU p.base.sV
  ok : p.base.init = Outcome.ok ()

theorem Sync.wf {p : RationalBezierPatch K V} (h : Sync p) :
    ∃ m n, p.base.WellFormed m n ∧ p.hom.WellFormed m n := by
  obtain ⟨m, n, hw⟩ := (BezierPatch.init_iff _).1 h.ok
  refine ⟨m, n, hw, ?_, ?_, ?_⟩
  · rw [h.hom]; exact hw.degU
  · rw [h.hom]; exact hw.degV
  · rw [h.hom]; simp only; rw [homog_length h.len]; exact hw.len

theorem Sync.validate {p : RationalBezierPatch K V} (h : Sync p) : p.validate = Outcome.ok () := by
  obtain ⟨m, n, hw, hh⟩ := h.wf
  unfold RationalBezierPatch.validate
  rw [throwIf_false, ok_bind, hw.degreeU, ok_bind, hw.degreeV, ok_bind, throwIf_false, ok_bind,
    throwIf_false]
  · rw [h.hom]; simp
  · rw [h.hom]; simp
  · rw [hh.len, hw.len, ← h.len, hw.len]; simp

theorem init_iff (p q : RationalBezierPatch K V) :
    p.init = Outcome.ok q ↔ Sync q ∧ q.base = p.base ∧ q.weights = p.weights := by
  constructor
  · intro e
    unfold RationalBezierPatch.init at e
    obtain ⟨g, hg, e⟩ := bind_eq_ok.1 e
    obtain ⟨du, hu, e⟩ := bind_eq_ok.1 e
    obtain ⟨dv, hv, e⟩ := bind_eq_ok.1 e
    obtain ⟨_, hi, e⟩ := bind_eq_ok.1 e
    have hl : p.base.grid.length = p.weights.length := by
      by_contra hne
      rw [homogenize_ub hne] at hg; cases hg
    rw [homogenize_eq hl, ok.injEq] at hg
    subst hg
    rw [pure_eq, ok.injEq] at e
    subst e
    obtain ⟨m, n, hw⟩ := (BezierPatch.init_iff _).1 hi
    have eu : (du : ℤ) = p.base.degU := by
      unfold BezierPatch.degreeU at hu
      obtain ⟨_, ha, hu⟩ := bind_eq_ok.1 hu
      rw [pure_eq, ok.injEq] at hu
      by_cases hd : p.base.degU ≥ 0
      · omega
      · rw [assert_false hd] at ha; cases ha
    have ev : (dv : ℤ) = p.base.degV := by
      unfold BezierPatch.degreeV at hv
      obtain ⟨_, ha, hv⟩ := bind_eq_ok.1 hv
      rw [pure_eq, ok.injEq] at hv
      by_cases hd : p.base.degV ≥ 0
      · omega
      · rw [assert_false hd] at ha; cases ha
    have l := hw.len
    have du' := hw.degU
    have dv' := hw.degV
    simp only at l du' dv'
    rw [homog_length hl] at l
    refine ⟨⟨hl, ?_, BezierPatch.init_ok (m := m) (n := n) ⟨?_, ?_, l⟩⟩, rfl, rfl⟩
    · simp only [eu, ev]
    · rw [← du', eu]
    · rw [← dv', ev]
  · rintro ⟨S, e1, e2⟩
    obtain ⟨m, n, hw, hh⟩ := S.wf
    unfold RationalBezierPatch.init
    rw [← e1, ← e2, homogenize_eq S.len, ok_bind, hw.degreeU, ok_bind, hw.degreeV, ok_bind]
    rw [← hw.degU, ← hw.degV, ← S.hom]
    simp only
    rw [BezierPatch.init_ok hh, ok_bind, pure_eq]

theorem Sync.evaluate {p : RationalBezierPatch K V} (h : Sync p) {u v u' v' : K}
    (hu : Bezier.wrap p.base.perU u = Outcome.ok u') (hv : Bezier.wrap p.base.perV v = Outcome.ok v') :
    p.hom.evaluate u v = Outcome.ok
      (bezierSurface p.base.degU.toNat p.base.degV.toNat (homog p.base.grid p.weights) u' v') := by
  obtain ⟨m, n, hw, hh⟩ := h.wf
  have e1 : p.base.degU.toNat = m := by rw [hw.degU]; simp
  have e2 : p.base.degV.toNat = n := by rw [hw.degV]; simp
  rw [hh.evaluate (u' := u') (v' := v') (by rw [h.hom]; exact hu) (by rw [h.hom]; exact hv),
    BezierPatch.part_eq_surface, e1, e2]
  rw [h.hom]

theorem Sync.linearIndex {p : RationalBezierPatch K V} (h : Sync p) (i j : ℕ) :
    p.linearIndex i j = Outcome.ok (i * (p.base.degV.toNat + 1) + j) := by
  obtain ⟨m, n, hw, hh⟩ := h.wf
  have e2 : p.base.degV.toNat = n := by rw [hw.degV]; simp
  unfold RationalBezierPatch.linearIndex BezierPatch.linearIndex
  rw [hh.numV, ok_bind, e2]; rfl

theorem Sync.index_lt {p : RationalBezierPatch K V} (h : Sync p) {i j : ℕ}
    (hi : i ≤ p.base.degU.toNat) (hj : j ≤ p.base.degV.toNat) :
    i * (p.base.degV.toNat + 1) + j < p.base.grid.length := by
  obtain ⟨m, n, hw, hh⟩ := h.wf
  have e1 : p.base.degU.toNat = m := by rw [hw.degU]; simp
  have e2 : p.base.degV.toNat = n := by rw [hw.degV]; simp
  rw [hw.len, e2]
  exact lin_lt (by omega) (by omega)

theorem Sync.setControlPoint {p : RationalBezierPatch K V} (h : Sync p) {i j : ℕ}
    (hi : i ≤ p.base.degU.toNat) (hj : j ≤ p.base.degV.toNat) (x : V) :
    ∃ q, p.setControlPoint i j x = Outcome.ok q ∧ Sync q ∧ q.weights = p.weights ∧
      q.base = { p.base with grid := p.base.grid.set (i * (p.base.degV.toNat + 1) + j) x } := by
  obtain ⟨m, n, hw, hh⟩ := h.wf
  have hl := h.index_lt hi hj
  have hidx := h.linearIndex i j
  generalize hk : i * (p.base.degV.toNat + 1) + j = k at *
  have hlw : k < p.weights.length := h.len ▸ hl
  have hlh : k < p.hom.grid.length := by rw [h.hom]; simp only; rw [homog_length h.len]; exact hl
  have hg : p.hom.grid = homog p.base.grid p.weights := by rw [h.hom]
  have hidx' : p.hom.linearIndex i j = Outcome.ok k := hidx
  have e : p.setControlPoint i j x = Outcome.ok
      { p with
        base := { p.base with grid := p.base.grid.set k x },
        hom := { p.hom with grid := p.hom.grid.set k (p.weights[k] • x, p.weights[k]) } } := by
    unfold RationalBezierPatch.setControlPoint BezierPatch.getControlPoint
      BezierPatch.setControlPoint
    rw [hidx, ok_bind, wr_of_lt _ hl, ok_bind, hidx', ok_bind]
    have : rd p.hom.grid k = Outcome.ok (p.weights[k] • p.base.grid[k], p.weights[k]) := by
      rw [rd_eq_ok, hg, homog_getElem? k h.len hl]
      simp [List.getD_eq_getElem?_getD, List.getElem?_eq_getElem hl,
        List.getElem?_eq_getElem hlw]
    rw [this, ok_bind, rd_of_lt hlw, ok_bind, ok_bind, wr_of_lt _ hlh, ok_bind]
    rfl
  refine ⟨_, e, ⟨?_, ?_, ?_⟩, rfl, rfl⟩
  · simpa using h.len
  · simp only
    rw [homog_set_ctrl _ _ _ _ (List.getElem?_eq_getElem hlw), h.hom]
  · exact BezierPatch.init_ok (m := m) (n := n) ⟨hw.degU, hw.degV, by simpa using hw.len⟩

theorem Sync.setWeight {p : RationalBezierPatch K V} (h : Sync p) {i j : ℕ}
    (hi : i ≤ p.base.degU.toNat) (hj : j ≤ p.base.degV.toNat) (x : K) :
    ∃ q, p.setWeight i j x = Outcome.ok q ∧ Sync q ∧ q.base = p.base ∧
      q.weights = p.weights.set (i * (p.base.degV.toNat + 1) + j) x := by
  obtain ⟨m, n, hw, hh⟩ := h.wf
  have hl := h.index_lt hi hj
  have hidx := h.linearIndex i j
  generalize hk : i * (p.base.degV.toNat + 1) + j = k at *
  have hlw : k < p.weights.length := h.len ▸ hl
  have hlh : k < p.hom.grid.length := by rw [h.hom]; simp only; rw [homog_length h.len]; exact hl
  have hidx' : p.hom.linearIndex i j = Outcome.ok k := hidx
  have e : p.setWeight i j x = Outcome.ok
      { p with
        weights := p.weights.set k x,
        hom := { p.hom with grid := p.hom.grid.set k (x • p.base.grid[k], x) } } := by
    unfold RationalBezierPatch.setWeight BezierPatch.getControlPoint
      BezierPatch.setControlPoint
    rw [hidx, ok_bind, wr_of_lt _ hlw, ok_bind, hidx', ok_bind, rd_of_lt hlh, ok_bind,
      rd_of_lt hl, ok_bind, ok_bind, wr_of_lt _ hlh, ok_bind]
    rfl
  refine ⟨_, e, ⟨?_, ?_, h.ok⟩, rfl, rfl⟩
  · simpa using h.len
  · simp only
    rw [homog_set_weight _ _ _ _ (List.getElem?_eq_getElem hl), h.hom]

theorem ofHomogeneous_eq {h : BezierPatch (V × K)} (hi : h.init = Outcome.ok ())
    (hs : h.sU = h.degU ∧ h.sV = h.degV) (hw : ∀ q ∈ h.grid, q.2 ≠ 0) :
    ∃ p, ofHomogeneous h = Outcome.ok p ∧ Sync p ∧ p.hom = h := by
  obtain ⟨m, n, hwf⟩ := (BezierPatch.init_iff _).1 hi
  have S : Sync (RationalBezierPatch.mk
      (BezierPatch.mk (h.grid.map fun q => q.2⁻¹ • q.1) h.sU h.sV h.perU h.perV h.sU h.sV)
      (h.grid.map Prod.snd) h) := by
    refine ⟨by simp, ?_, ?_⟩
    · simp only
      rw [homog_of_dehomogenize hw, hs.1, hs.2]
      cases h
      simp only at hs
      simp [hs.1, hs.2]
    · refine BezierPatch.init_ok (m := m) (n := n) ⟨?_, ?_, ?_⟩
      · simp only; rw [hs.1, hwf.degU]
      · simp only; rw [hs.2, hwf.degV]
      · simpa using hwf.len
  refine ⟨_, ?_, S, rfl⟩
  unfold ofHomogeneous
  rw [dehomogenize_eq hw, ok_bind]
  simp only
  rw [S.validate, ok_bind, pure_eq]

/-- For dynamic degrees `set_homogeneous` cannot succeed. -/
theorem ofHomogeneous_dynamic {h : BezierPatch (V × K)} (hs : h.sU < 0 ∨ h.sV < 0) :
    ofHomogeneous h = (ub : Outcome (RationalBezierPatch K V)) := by
  unfold ofHomogeneous
  by_cases hw : ∀ q ∈ h.grid, q.2 ≠ 0
  · rw [dehomogenize_eq hw, ok_bind]
    simp only
    unfold RationalBezierPatch.validate BezierPatch.degreeU BezierPatch.degreeV
    rw [throwIf_false (by simp), ok_bind]
    simp only
    by_cases h1 : h.sU ≥ 0
    · rw [assert_true h1, ok_bind, pure_eq, ok_bind, assert_false (by rcases hs with h | h <;> omega),
        ub_bind, ub_bind, ub_bind]
    · rw [assert_false h1, ub_bind, ub_bind, ub_bind]
  · push Not at hw
    rw [dehomogenize_ub hw, ub_bind]

end RationalBezierPatch

namespace NURBSPatch

/-- The homogeneous copy agrees with the data of the patch and its caches are up to date. -/
structure Sync (p : NURBSPatch K V) : Prop where
  len : p.weights.length = p.grid.length
  degU : 0 ≤ p.degU
  degV : 0 ≤ p.degV
  grid : p.hom.grid = homog p.grid p.weights
  knotsU : p.hom.knotsU = p.knotsU
  knotsV : p.hom.knotsV = p.knotsV
  hdegU : p.hom.degU = p.degU
  hdegV : p.hom.degV = p.degV
  perU : p.hom.perU = p.perU
  perV : p.hom.perV = p.perV
  sU : p.hom.sU = p.sU
  sV : p.hom.sV = p.sV
  init : p.hom.init = ok p.hom

theorem degreeOf_ok {d : ℤ} (h : 0 ≤ d) : degreeOf d = ok d.toNat := by
  unfold degreeOf; rw [assert_true h]; rfl

theorem Sync.validate {p : NURBSPatch K V} (h : Sync p) : p.validate = ok () := by
  unfold NURBSPatch.validate
  rw [throwIf_false, ok_bind, degreeOf_ok h.degU, ok_bind, degreeOf_ok h.degV, ok_bind,
    throwIf_false (by rw [h.perU]; simp), ok_bind, throwIf_false (by rw [h.perV]; simp)]
  rw [h.grid, homog_length h.len.symm, h.len]; simp

end NURBSPatch

end NS
