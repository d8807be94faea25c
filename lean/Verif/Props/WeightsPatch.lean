import Verif.Props.Weights
import Verif.Props.RationalPatch
import Verif.Props.NurbsPatchEdit

/-!
# What weights do to rational patches (C111)
-/

set_option linter.unusedSectionVars false
set_option linter.unusedSimpArgs false

namespace NS.Props

open Outcome Spec Finset

variable {K V : Type} [Field K] [LinearOrder K] [IsStrictOrderedRing K] [FloorRing K]
  [AddCommGroup V] [Module K V]

theorem sum_set_grid {M : Type} [AddCommGroup M] [Module K M] (b : ℕ → ℕ → K) (P : ℕ → ℕ → M) {w : List K} (x : K)
    {m n k l : ℕ} (hw : w.length = m * n) (hk : k < m) (hl : l < n) :
    ∑ i ∈ range m, ∑ j ∈ range n, (b i j * gridPoint (w.set (k * n + l) x) n i j) • P i j
      = ∑ i ∈ range m, ∑ j ∈ range n, (b i j * gridPoint w n i j) • P i j
        + (b k l * (x - gridPoint w n k l)) • P k l := by
  have h : ∀ i ∈ range m, ∀ j ∈ range n, (b i j * gridPoint (w.set (k * n + l) x) n i j) • P i j
      = (b i j * gridPoint w n i j) • P i j
        + if i = k then (if j = l then (b k l * (x - gridPoint w n k l)) • P k l else 0) else 0 := by
    intro i _ j hj
    unfold gridPoint
    rw [getD_set _ _ _ _ _ (by rw [hw]; exact lin_lt hk hl)]
    by_cases e : k * n + l = i * n + j
    · obtain ⟨rfl, rfl⟩ := lin_inj hl (mem_range.1 hj) e
      rw [if_pos rfl, if_pos rfl, if_pos rfl, ← add_smul]
      congr 1; ring
    · rw [if_neg e]
      by_cases e1 : i = k
      · subst e1
        rw [if_pos rfl, if_neg (by rintro rfl; exact e rfl), add_zero]
      · rw [if_neg e1, add_zero]
  rw [sum_congr rfl fun i hi => sum_congr rfl (h i hi)]
  simp only [sum_add_distrib]
  congr 1
  rw [sum_congr rfl fun i _ => show (∑ j ∈ range n, if i = k then (if j = l then
    (b k l * (x - gridPoint w n k l)) • P k l else 0) else 0)
    = if i = k then (b k l * (x - gridPoint w n k l)) • P k l else 0 by
      split
      · rw [sum_ite_eq', if_pos (mem_range.2 hl)]
      · exact sum_const_zero]
  rw [sum_ite_eq', if_pos (mem_range.2 hk)]

/-- **C111**: increasing a weight of a rational Bézier patch moves each point of the patch on a straight line towards
the control point of that weight. -/
theorem C111_rational_bezier_patch_pull {p : RationalBezierPatch K V} (hp : p.init = ok p)
    (hw : ∀ y ∈ p.weights, 0 < y) {i j : ℕ} (hi : i ≤ p.base.degU.toNat) (hj : j ≤ p.base.degV.toNat) {x : K}
    (hx : gridPoint p.weights (p.base.degV.toNat + 1) i j ≤ x) :
    ∃ p', p.setWeight i j x = ok p' ∧ ∀ u v, (p.base.perU = true ∨ (0 ≤ u ∧ u ≤ 1)) →
      (p.base.perV = true ∨ (0 ≤ v ∧ v ≤ 1)) →
      ∃ u' v' q q' r δ, Folded p.base.perU 0 1 u u' ∧ Folded p.base.perV 0 1 v v' ∧ p.evaluate u v = ok q ∧
        p'.evaluate u v = ok q' ∧ q' = (1 - r) • q + r • gridPoint p.base.grid (p.base.degV.toNat + 1) i j ∧
        0 ≤ r ∧ r < 1 ∧
        r = δ / (ratBezierSurfaceDen p.base.degU.toNat p.base.degV.toNat p.weights u' v' + δ) ∧
        δ = bernstein p.base.degU.toNat i u' * bernstein p.base.degV.toNat j v'
          * (x - gridPoint p.weights (p.base.degV.toNat + 1) i j) := by
  obtain ⟨S, -, -⟩ := (RationalBezierPatch.init_iff _ _).1 hp
  obtain ⟨p', e, S', eb, ew⟩ := S.setWeight hi hj x
  refine ⟨p', e, fun u v hu hv => ?_⟩
  obtain ⟨u', wu, fu⟩ := bezier_folded p.base.perU u
  obtain ⟨v', wv, fv⟩ := bezier_folded p.base.perV v
  have mem : ∀ {b : Bool} {t t' : K}, Folded b 0 1 t t' → (b = true ∨ (0 ≤ t ∧ t ≤ 1)) → 0 ≤ t' ∧ t' ≤ 1 := by
    intro b t t' h2 ht
    unfold Folded at h2
    split at h2
    · exact ⟨h2.1, h2.2.1.le⟩
    · rename_i hp
      subst h2
      exact ht.resolve_left (by simpa using hp)
  have mu := mem fu hu
  have mv := mem fv hv
  obtain ⟨m, n, hwf, -⟩ := S.wf
  have em : p.base.degU.toNat = m := by rw [hwf.degU]; simp
  have en : p.base.degV.toNat = n := by rw [hwf.degV]; simp
  have hwl : p.weights.length = (m + 1) * (n + 1) := by rw [← S.len, hwf.len]
  rw [en] at ew hx hj
  rw [em] at hi
  rw [em, en]
  have hD := bezierDen_pos hwl hw mu mv
  set δ := bernstein m i u' * bernstein n j v' * (x - gridPoint p.weights (n + 1) i j) with hδ
  have hb : 0 ≤ δ := mul_nonneg (mul_nonneg (bernstein_nonneg' mu.1 mu.2) (bernstein_nonneg' mv.1 mv.2))
    (sub_nonneg.2 hx)
  have hden : ratBezierSurfaceDen m n p'.weights u' v' = ratBezierSurfaceDen m n p.weights u' v' + δ := by
    unfold ratBezierSurfaceDen
    have := sum_set_grid (M := K) (fun i j => bernstein m i u' * bernstein n j v') (fun _ _ => 1) x hwl
      (Nat.lt_succ_of_le hi) (Nat.lt_succ_of_le hj)
    simp only [smul_eq_mul, mul_one] at this
    rw [ew, this]
  have hpos : 0 < ratBezierSurfaceDen m n p.weights u' v' + δ := by positivity
  have ev : p.evaluate u v = ok (ratBezierSurface m n p.base.grid p.weights u' v') := by
    unfold RationalBezierPatch.evaluate
    rw [S.validate, ok_bind, S.evaluate wu wv, ok_bind, homog_bezierSurface S.len, em, en, q0_pair hD.ne']
    rfl
  have ev' : p'.evaluate u v = ok (ratBezierSurface m n p.base.grid p'.weights u' v') := by
    unfold RationalBezierPatch.evaluate
    rw [S'.validate, ok_bind, S'.evaluate (by rw [eb]; exact wu) (by rw [eb]; exact wv), ok_bind,
      homog_bezierSurface S'.len, eb, em, en, q0_pair (by rw [hden]; exact hpos.ne')]
    rfl
  refine ⟨u', v', _, _, _, δ, fu, fv, ev, ev', ?_, (pull_mem hD hb).1, (pull_mem hD hb).2, rfl, rfl⟩
  unfold ratBezierSurface
  rw [hden, ew, sum_set_grid (fun i j => bernstein m i u' * bernstein n j v')
    (fun i j => gridPoint p.base.grid (n + 1) i j) x hwl (Nat.lt_succ_of_le hi) (Nat.lt_succ_of_le hj),
    ← quotient_pull hD.ne' hpos.ne']

example := C111_rational_bezier_patch_pull (p := exRatPatch) (by decide +kernel) (by decide +kernel) (i := 1) (j := 0)
  (by decide) (by decide) (x := 9) (by decide +kernel)

open BSplinePatch (WideOn InDom)

variable {p : NURBSPatch K V} {m n du dv : ℕ}

/-- **C111**: increasing a weight of a NURBS patch and initialising it again moves each point of the patch on a straight
line towards the control point of that weight. -/
theorem C111_nurbs_patch_pull (h : NValid p m n du dv) (hi : p.init = ok p)
    (hwu : WideOn p.knotsU m du) (hwv : WideOn p.knotsV n dv) (hw : ∀ y ∈ p.weights, 0 < y) {i j : ℕ} (hi' : i < m)
    (hj' : j < n) {x : K} (hx : gridPoint p.weights n i j ≤ x) :
    ∃ p₁ p', p.setWeight i j x = ok p₁ ∧ p₁.init = ok p' ∧ ∀ u v, InDom p.knotsU m du u → InDom p.knotsV n dv v →
      (u < knot p.knotsU m ∨ p.perU = false) → (v < knot p.knotsV n ∨ p.perV = false) →
      ∃ q q' r δ, p.evaluate u v = ok q ∧ p'.evaluate u v = ok q' ∧
        q' = (1 - r) • q + r • gridPoint p.grid n i j ∧ 0 ≤ r ∧ r < 1 ∧
        r = δ / (ratBSplineSurfaceDen du dv m n p.knotsU p.knotsV p.weights u v + δ) ∧
        δ = basis (knot p.knotsU) (knot p.knotsU m) du i u * basis (knot p.knotsV) (knot p.knotsV n) dv j v
          * (x - gridPoint p.weights n i j) := by
  have S := (sync_of_init hi).1
  have hV := h.hom S
  have hn : p.hom.numV = ok n := hV.numV
  have lin : ∀ i j, p.hom.linearIndex i j = ok (i * n + j) := fun i j => by
    unfold BSplinePatch.linearIndex; rw [hn]; rfl
  have hlt : i * n + j < p.weights.length := by rw [h.weights]; exact lin_lt hi' hj'
  have hlg : i * n + j < p.grid.length := by rw [h.grid]; exact lin_lt hi' hj'
  have hlh : i * n + j < p.hom.grid.length := by rw [S.grid, homog_length S.len.symm]; exact hlg
  obtain ⟨g, hq⟩ : ∃ g, p.setWeight i j x = ok { p with weights := p.weights.set (i * n + j) x, hom := g } := by
    unfold NURBSPatch.setWeight NURBSPatch.linearIndex BSplinePatch.getControlPoint BSplinePatch.setControlPoint
    rw [lin]
    simp only [ok_bind]
    rw [wr_of_lt _ hlt, ok_bind, rd_of_lt hlh, ok_bind, rd_of_lt hlg, ok_bind, wr_of_lt _ hlh]
    exact ⟨_, rfl⟩
  have h1 : NValid { p with weights := p.weights.set (i * n + j) x, hom := g } m n du dv :=
    ⟨h.u, h.v, h.grid, by simpa using h.weights⟩
  obtain ⟨p', e', ei, eq⟩ := C63_nurbs_init h1
  refine ⟨_, p', hq, e', fun u v mu mv hu' hv' => ?_⟩
  have k1 : p'.knotsU = p.knotsU := by rw [eq]
  have k2 : p'.knotsV = p.knotsV := by rw [eq]
  have k3 : p'.grid = p.grid := by rw [eq]
  have k4 : p'.weights = p.weights.set (i * n + j) x := by rw [eq]
  have k5 : p'.perU = p.perU := by rw [eq]
  have k6 : p'.perV = p.perV := by rw [eq]
  have h2 : NValid p' m n du dv := by rw [eq]; exact ⟨h.u, h.v, h.grid, by simpa using h.weights⟩
  have hw' : ∀ y ∈ p'.weights, 0 < y := by
    rw [k4]
    intro y hy
    rcases List.mem_or_eq_of_mem_set hy with hy | rfl
    · exact hw y hy
    · refine lt_of_lt_of_le ?_ hx
      unfold gridPoint
      rw [List.getD_eq_getElem?_getD, List.getElem?_eq_getElem hlt, Option.getD_some]
      exact hw _ (List.getElem_mem hlt)
  have ev := C63_nurbs_positive h hi hwu hwv hw mu mv hu' hv'
  have ev' := C63_nurbs_positive h2 ei (by rw [k1]; exact hwu) (by rw [k2]; exact hwv) hw' (by rw [k1]; exact mu)
    (by rw [k2]; exact mv) (by rw [k1, k5]; exact hu') (by rw [k2, k6]; exact hv')
  have hD := nurbsDen_pos h S hw mu mv
  obtain ⟨bu, -⟩ := axis_basis h.u mu
  obtain ⟨bv, -⟩ := axis_basis h.v mv
  set B := fun i j => basis (knot p.knotsU) (knot p.knotsU m) du i u * basis (knot p.knotsV) (knot p.knotsV n) dv j v
    with hB
  set δ := B i j * (x - gridPoint p.weights n i j) with hδ
  have hb : 0 ≤ δ := mul_nonneg (mul_nonneg (bu i hi') (bv j hj')) (sub_nonneg.2 hx)
  have hden : ratBSplineSurfaceDen du dv m n p.knotsU p.knotsV p'.weights u v
      = ratBSplineSurfaceDen du dv m n p.knotsU p.knotsV p.weights u v + δ := by
    unfold ratBSplineSurfaceDen
    have := sum_set_grid (M := K) B (fun _ _ => 1) x h.weights hi' hj'
    simp only [smul_eq_mul, mul_one] at this
    rw [k4]
    exact this
  have hpos : 0 < ratBSplineSurfaceDen du dv m n p.knotsU p.knotsV p.weights u v + δ := by positivity
  rw [k1, k2, k3] at ev'
  refine ⟨_, _, _, δ, ev, ev', ?_, (pull_mem hD hb).1, (pull_mem hD hb).2, rfl, rfl⟩
  have := sum_set_grid B (fun i j => gridPoint p.grid n i j) x h.weights hi' hj'
  unfold ratBSplineSurface
  rw [hden, k4, this, ← quotient_pull hD.ne' hpos.ne']

/-- The hypotheses are met by a patch with varying weights. -/
example : ∃ p p₁ p' : NURBSPatch ℚ ℚ, exNPRaw.init = ok p ∧ p.setWeight 1 1 9 = ok p₁ ∧ p₁.init = ok p' := by
  obtain ⟨q, e, e2, hq⟩ := C63_nurbs_init exNP_valid
  have hv : NValid q 4 2 2 1 := by rw [hq]; exact ⟨exNP_valid.1, exNP_valid.2, exNP_valid.3, exNP_valid.4⟩
  have hw : ∀ x ∈ q.weights, (0 : ℚ) < x := by rw [hq]; simp only; decide +kernel
  have wu : WideOn q.knotsU 4 2 := by
    rw [hq]; change WideOn exNPRaw.knotsU 4 2; intro i h1 h2; interval_cases i <;> decide +kernel
  have wv : WideOn q.knotsV 2 1 := by
    rw [hq]; change WideOn exNPRaw.knotsV 2 1; intro i h1 h2; interval_cases i; decide +kernel
  obtain ⟨p₁, p', a, b, -⟩ := C111_nurbs_patch_pull hv e2 wu wv hw (i := 1) (j := 1) (by norm_num) (by norm_num) (x := 9)
    (by rw [hq]; simp only; decide +kernel)
  exact ⟨q, p₁, p', e, a, b⟩

end NS.Props
