import Verif.Props.Reparam
import Verif.Props.RationalPatch
import Verif.Props.NurbsPatch

/-!
# C94: changing the parameters of B-spline, NURBS and rational patches
-/

set_option linter.unusedSectionVars false

namespace NS.Props

open Outcome Spec Finset NS.BSpline BSplinePatch

variable {K V : Type} [Field K] [LinearOrder K] [IsStrictOrderedRing K] [FloorRing K]
  [AddCommGroup V] [Module K V]

/-! ### Basis functions -/

theorem basis_rescale {u u' : ℕ → K} {tmax x y : K} (hy : 0 < y) (p i : ℕ)
    (h : ∀ j ≤ i + p + 1, u' j = x + y * u j) (t : K) :
    basis u' (x + y * tmax) p i (x + y * t) = basis u tmax p i t := by
  have hc : ∀ a b : K, x + y * a = x + y * b ↔ a = b := fun a b => by
    rw [add_right_inj, mul_right_inj' hy.ne']
  have hle : ∀ a b : K, x + y * a ≤ x + y * b ↔ a ≤ b := fun a b => by
    rw [add_le_add_iff_left, mul_le_mul_iff_right₀ hy]
  have hlt : ∀ a b : K, x + y * a < x + y * b ↔ a < b := fun a b => by
    rw [add_lt_add_iff_left, mul_lt_mul_iff_right₀ hy]
  induction p generalizing i with
  | zero =>
    simp only [basis, InSpan, h i (by omega), h (i + 1) (by omega), hc, hle, hlt]
  | succ p ih =>
    simp only [basis]
    rw [ih i fun j hj => h j (by omega), ih (i + 1) fun j hj => h j (by omega), h i (by omega),
      h (i + p + 1) (by omega), h (i + p + 2) (by omega), h (i + 1) (by omega)]
    rw [show x + y * t - (x + y * u i) = y * (t - u i) by ring,
      show x + y * u (i + p + 1) - (x + y * u i) = y * (u (i + p + 1) - u i) by ring,
      show x + y * u (i + p + 2) - (x + y * t) = y * (u (i + p + 2) - t) by ring,
      show x + y * u (i + p + 2) - (x + y * u (i + 1)) = y * (u (i + p + 2) - u (i + 1)) by ring,
      mul_div_mul_left _ _ hy.ne', mul_div_mul_left _ _ hy.ne']

/-- Scaling and shifting one direction. -/
theorem axis_rescale {u : List K} {deg s : ℤ} {n p : ℕ} (h : Axis u deg s n p) (x : K) {y : K} (hy : 0 < y) :
    (∀ i < n, ∀ t, basis (knot (u.map fun z => x + y * z)) (knot (u.map fun z => x + y * z) n) p i (x + y * t)
      = basis (knot u) (knot u n) p i t) ∧
    (∀ t, InDom u n p t → InDom (u.map fun z => x + y * z) n p (x + y * t)) ∧
    (∀ per t t', wrapOn u n p per t = ok t' →
      wrapOn (u.map fun z => x + y * z) n p per (x + y * t) = ok (x + y * t')) := by
  have hl := h.len
  have h2 := h.cnt
  have hk : ∀ i, i < n + p + 1 → knot (u.map fun z => x + y * z) i = x + y * knot u i := fun i hi =>
    knot_map _ (by omega)
  refine ⟨fun i hi t => ?_, fun t ht => ?_, fun per t t' ht => ?_⟩
  · rw [hk n (by omega)]
    exact basis_rescale hy p i (fun j hj => hk j (by omega)) t
  · unfold InDom at ht ⊢
    rw [hk n (by omega), hk p (by omega), hk (p + 1) (by omega)]
    obtain ⟨a, b, c⟩ := ht
    have a' := mul_le_mul_of_nonneg_left a hy.le
    have b' := mul_le_mul_of_nonneg_left b hy.le
    refine ⟨by linarith, by linarith, c.imp (fun c => ?_) fun c => ?_⟩
    · linarith [mul_lt_mul_of_pos_left c hy]
    · linarith [mul_lt_mul_of_pos_left c hy]
  · have hw := h.wf (V := K) per (c := arr n fun _ => 0) (by simp)
    have := rescaled_wrap hw x hy (t := t) (t' := t') (by
      rw [← ht, ← h.wrap (V := K) (c := arr n (fun _ => 0)) (by simp)])
    have ha : Axis (u.map fun z => x + y * z) deg s n p := by
      refine ⟨h.deg, by simpa using hl, h.static, h2, ?_, ?_⟩
      · refine h.sorted.map _ fun a b hab => ?_
        linarith [mul_le_mul_of_nonneg_left hab hy.le]
      · rw [hk n (by omega), hk p (by omega)]
        linarith [mul_lt_mul_of_pos_left h.dom hy]
    rw [← ha.wrap (V := K) (c := arr n (fun _ => 0)) (by simp)]
    exact this

/-- The knots run backwards. -/
def flipKnots (u : List K) (a : K) : List K := u.reverse.map fun z => a - z

theorem knot_flipKnots (u : List K) (a : K) {i : ℕ} (hi : i < u.length) :
    knot (flipKnots u a) i = a - knot u (u.length - 1 - i) := by
  have := knot_flipped (V := K) ⟨[], u, false, none⟩ a hi
  exact this

/-- A parameter at which both pieces meeting there agree. -/
def Smooth (u : List K) (n p : ℕ) (t : K) : Prop := t = knot u p ∨ t = knot u n ∨ u.count t ≤ p

/-- The basis functions of the reversed knots. -/
theorem axis_flip {u : List K} {deg s : ℤ} {n p : ℕ} (h : Axis u deg s n p) (a : K)
    (hw : WideOn u n p) (hw' : WideOn (flipKnots u a) n p) (hf : knot u p < knot u (p + 1))
    (hl : knot u (n - 1) < knot u n) {t : K} (h1 : knot u p ≤ t) (h2 : t ≤ knot u n) (hs : Smooth u n p t) {i : ℕ}
    (hi : i < n) :
    basis (knot (flipKnots u a)) (knot (flipKnots u a) n) p i (a - t) = basis (knot u) (knot u n) p (n - 1 - i) t := by
  have hlen := h.len
  have hcnt := h.cnt
  set c : BSpline K K := ⟨arr n fun j => if j = n - 1 - i then 1 else 0, u, false, staticDeg s⟩ with hc
  have hcl : c.ctrl.length = n := by simp [hc]
  have wf : WellFormed c p := h.wf false (by simp)
  have wd : Wide c p := wide_of rfl hcl hw
  have wd' : Wide (flipped c a) p := wide_of rfl (by simp [flipped, hcl]) hw'
  have ff : FirstSpan c p := hf
  have fl : FirstSpan (flipped c a) p := by
    unfold FirstSpan
    rw [knot_flipped c a (by simp [hc]; omega), knot_flipped c a (by simp [hc]; omega)]
    simp only [hc]
    rw [show u.length - 1 - p = n by omega, show u.length - 1 - (p + 1) = n - 1 by omega]
    linarith
  have e : (flipped c a).evaluate (a - t) = c.evaluate t := by
    by_cases hin : knot u p < t ∧ t < knot u n
    · have hct : c.knots.count t ≤ p := by
        rcases hs with hs | hs | hs
        · exact absurd hs hin.1.ne'
        · exact absurd hs hin.2.ne
        · exact hs
      exact C94_reverse_knot wf wd ff a fl wd' hin.1 (by rw [hcl]; exact hin.2) hct
    · have he : t = knot u p ∨ t = knot u n := by
        rcases h1.eq_or_lt with e | e
        · exact Or.inl e.symm
        · exact Or.inr (le_antisymm h2 (not_lt.1 fun h => hin ⟨e, h⟩))
      obtain ⟨P, D, E, g1, -, -, g2, -⟩ := C94_reverse wf wd ff a fl wd' h1 (by rw [hcl]; exact h2) (Or.inl rfl)
        (Or.inr (by rw [hcl]; exact he))
      rw [g1, g2]
  have wf' := flipped_wf wf a
  have fcl : (flipped c a).ctrl.length = n := by simp [flipped, hcl]
  have kp : knot (flipped c a).knots p = a - knot u n := by
    rw [knot_flipped c a (by simp [hc]; omega)]
    simp only [hc]
    rw [show u.length - 1 - p = n by omega]
  have kn : knot (flipped c a).knots n = a - knot u p := by
    rw [knot_flipped c a (by simp [hc]; omega)]
    simp only [hc]
    rw [show u.length - 1 - n = p by omega]
  rw [C13_evaluate_partial wf wd rfl t (Or.inl ff) h1 (by rw [hcl]; exact h2),
    C13_evaluate_partial wf' wd' rfl (a - t) (Or.inl fl) (by rw [kp]; linarith) (by rw [fcl, kn]; linarith)] at e
  have e' := ok.inj e
  unfold bsplinePoint at e'
  rw [hcl, fcl] at e'
  have c1 : ∀ j < n, c.ctrl.getD j 0 = if j = n - 1 - i then 1 else 0 := fun j hj => arr_getD _ _ _ _ hj
  have c2 : ∀ j < n, (flipped c a).ctrl.getD j 0 = if n - 1 - j = n - 1 - i then 1 else 0 := by
    intro j hj
    rw [← c1 _ (by omega)]
    simp only [flipped, List.getD_eq_getElem?_getD]
    rw [List.getElem?_reverse (by rw [hcl]; exact hj), hcl]
  rw [sum_eq_single_of_mem i (by simpa using hi), sum_eq_single_of_mem (n - 1 - i) (by simp; omega), c1 _ (by omega),
    c2 _ hi, if_pos rfl, smul_eq_mul, mul_one, smul_eq_mul, mul_one] at e'
  · exact e'
  · intro j hj hne
    rw [c1 j (by simpa using hj), if_neg hne, smul_zero]
  · intro j hj hne
    have hj' : j < n := by simpa using hj
    rw [c2 j hj', if_neg (by omega), smul_zero]

/-! ### B-spline patches -/

variable {p q : BSplinePatch K V} {m n du dv : ℕ}

/-- **C94** (B-spline patches, affine): scaling and shifting the knots of both directions moves the parameters. -/
theorem C94_bspline_patch_affine (h : p.Valid m n du dv) (hi : p.init = ok p) (h' : q.Valid m n du dv)
    (hi' : q.init = ok q) {x y x' y' : K} (hy : 0 < y) (hy' : 0 < y')
    (ku : q.knotsU = p.knotsU.map fun z => x + y * z) (kv : q.knotsV = p.knotsV.map fun z => x' + y' * z)
    (hg : q.grid = p.grid) (pu : q.perU = p.perU) (pv : q.perV = p.perV)
    (hwu : WideOn p.knotsU m du) (hwv : WideOn p.knotsV n dv) (hwu' : WideOn q.knotsU m du)
    (hwv' : WideOn q.knotsV n dv) (fu : knot p.knotsU du < knot p.knotsU (du + 1))
    (fv : knot p.knotsV dv < knot p.knotsV (dv + 1)) (u v : K)
    (hu : p.perU = true ∨ (knot p.knotsU du ≤ u ∧ u ≤ knot p.knotsU m))
    (hv : p.perV = true ∨ (knot p.knotsV dv ≤ v ∧ v ≤ knot p.knotsV n)) :
    ∃ P, p.evaluate u v = ok P ∧ q.evaluate (x + y * u) (x' + y' * v) = ok P := by
  obtain ⟨u', eu, gu⟩ := axis_folded h.u p.perU u
  obtain ⟨v', ev, gv⟩ := axis_folded h.v p.perV v
  have du' : InDom p.knotsU m du u' := by
    unfold Folded at gu
    split at gu
    · exact ⟨gu.1, gu.2.1.le, Or.inl fu⟩
    · rename_i hn
      have := hu.resolve_left hn
      rw [gu]
      exact ⟨this.1, this.2, Or.inl fu⟩
  have dv' : InDom p.knotsV n dv v' := by
    unfold Folded at gv
    split at gv
    · exact ⟨gv.1, gv.2.1.le, Or.inl fv⟩
    · rename_i hn
      have := hv.resolve_left hn
      rw [gv]
      exact ⟨this.1, this.2, Or.inl fv⟩
  obtain ⟨b1, b2, b3⟩ := axis_rescale h.u x hy
  obtain ⟨c1, c2, c3⟩ := axis_rescale h.v x' hy'
  refine ⟨_, (h.ready hi).evaluate hwu hwv eu du' ev dv', ?_⟩
  rw [(h'.ready hi').evaluate hwu' hwv' (by rw [ku, pu]; exact b3 _ _ _ eu) (by rw [ku]; exact b2 _ du')
    (by rw [kv, pv]; exact c3 _ _ _ ev) (by rw [kv]; exact c2 _ dv'), tsum_eq, tsum_eq, ku, kv, hg]
  refine congrArg ok ?_
  unfold bsplineSurface
  refine sum_congr rfl fun i hi => sum_congr rfl fun j hj => ?_
  rw [b1 i (by simpa using hi), c1 j (by simpa using hj)]

/-- **C94** (B-spline patches, reversal): with the knots and the rows of the grid in reverse order the patch is run
backwards in `u`. -/
theorem C94_bspline_patch_reverse_u (h : p.Valid m n du dv) (hi : p.init = ok p) (h' : q.Valid m n du dv)
    (hi' : q.init = ok q) {a : K} (ku : q.knotsU = flipKnots p.knotsU a) (kv : q.knotsV = p.knotsV)
    (hg : ∀ i < m, ∀ j < n, gridPoint q.grid n i j = gridPoint p.grid n (m - 1 - i) j)
    (pu : q.perU = p.perU) (pv : q.perV = p.perV)
    (hwu : WideOn p.knotsU m du) (hwv : WideOn p.knotsV n dv) (hwu' : WideOn q.knotsU m du)
    (fu : knot p.knotsU du < knot p.knotsU (du + 1)) (lu : knot p.knotsU (m - 1) < knot p.knotsU m) {u v : K}
    (u1 : knot p.knotsU du ≤ u) (u2 : u ≤ knot p.knotsU m)
    (up : p.perU = false ∨ (knot p.knotsU du < u ∧ u < knot p.knotsU m)) (su : Smooth p.knotsU m du u)
    (hv : InDom p.knotsV n dv v) (vp : v < knot p.knotsV n ∨ p.perV = false) :
    ∃ P, p.evaluate u v = ok P ∧ q.evaluate (a - u) v = ok P := by
  have hl := h.u.len
  have hcn := h.u.cnt
  refine ⟨_, C31_evaluate_domain h hi hwu hwv ⟨u1, u2, Or.inl fu⟩ hv (up.symm.imp And.right id) vp, ?_⟩
  have k1 : knot q.knotsU du = a - knot p.knotsU m := by
    rw [ku, knot_flipKnots _ _ (by omega), show p.knotsU.length - 1 - du = m by omega]
  have k2 : knot q.knotsU m = a - knot p.knotsU du := by
    rw [ku, knot_flipKnots _ _ (by omega), show p.knotsU.length - 1 - m = du by omega]
  have k3 : knot q.knotsU (du + 1) = a - knot p.knotsU (m - 1) := by
    rw [ku, knot_flipKnots _ _ (by omega), show p.knotsU.length - 1 - (du + 1) = m - 1 by omega]
  rw [C31_evaluate_domain h' hi' hwu' (by rw [kv]; exact hwv)
    ⟨by rw [k1]; linarith, by rw [k2]; linarith, Or.inl (by rw [k1, k3]; linarith)⟩ (by rw [kv]; exact hv)
    (by rw [k2, pu]; exact up.symm.imp (fun h => by linarith [h.1]) id) (by rw [kv, pv]; exact vp)]
  refine congrArg ok ?_
  unfold bsplineSurface
  rw [← sum_range_reflect]
  refine sum_congr rfl fun i hi => sum_congr rfl fun j hj => ?_
  have hi' : i < m := by simpa using hi
  rw [ku] at hwu' ⊢
  rw [kv, axis_flip h.u a hwu hwu' fu lu u1 u2 su (by omega), hg _ (by omega) _ (by simpa using hj),
    show m - 1 - (m - 1 - i) = i by omega]

/-- **C94** (B-spline patches, reversal): the same in `v`. -/
theorem C94_bspline_patch_reverse_v (h : p.Valid m n du dv) (hi : p.init = ok p) (h' : q.Valid m n du dv)
    (hi' : q.init = ok q) {a : K} (ku : q.knotsU = p.knotsU) (kv : q.knotsV = flipKnots p.knotsV a)
    (hg : ∀ i < m, ∀ j < n, gridPoint q.grid n i j = gridPoint p.grid n i (n - 1 - j))
    (pu : q.perU = p.perU) (pv : q.perV = p.perV)
    (hwu : WideOn p.knotsU m du) (hwv : WideOn p.knotsV n dv) (hwv' : WideOn q.knotsV n dv)
    (fv : knot p.knotsV dv < knot p.knotsV (dv + 1)) (lv : knot p.knotsV (n - 1) < knot p.knotsV n) {u v : K}
    (v1 : knot p.knotsV dv ≤ v) (v2 : v ≤ knot p.knotsV n)
    (vp : p.perV = false ∨ (knot p.knotsV dv < v ∧ v < knot p.knotsV n)) (sv : Smooth p.knotsV n dv v)
    (hu : InDom p.knotsU m du u) (up : u < knot p.knotsU m ∨ p.perU = false) :
    ∃ P, p.evaluate u v = ok P ∧ q.evaluate u (a - v) = ok P := by
  have hl := h.v.len
  have hcn := h.v.cnt
  refine ⟨_, C31_evaluate_domain h hi hwu hwv hu ⟨v1, v2, Or.inl fv⟩ up (vp.symm.imp And.right id), ?_⟩
  have k1 : knot q.knotsV dv = a - knot p.knotsV n := by
    rw [kv, knot_flipKnots _ _ (by omega), show p.knotsV.length - 1 - dv = n by omega]
  have k2 : knot q.knotsV n = a - knot p.knotsV dv := by
    rw [kv, knot_flipKnots _ _ (by omega), show p.knotsV.length - 1 - n = dv by omega]
  have k3 : knot q.knotsV (dv + 1) = a - knot p.knotsV (n - 1) := by
    rw [kv, knot_flipKnots _ _ (by omega), show p.knotsV.length - 1 - (dv + 1) = n - 1 by omega]
  rw [C31_evaluate_domain h' hi' (by rw [ku]; exact hwu) hwv' (by rw [ku]; exact hu)
    ⟨by rw [k1]; linarith, by rw [k2]; linarith, Or.inl (by rw [k1, k3]; linarith)⟩ (by rw [ku, pu]; exact up)
    (by rw [k2, pv]; exact vp.symm.imp (fun h => by linarith [h.1]) id)]
  refine congrArg ok ?_
  unfold bsplineSurface
  refine sum_congr rfl fun i hi => ?_
  rw [← sum_range_reflect]
  refine sum_congr rfl fun j hj => ?_
  have hj' : j < n := by simpa using hj
  rw [kv] at hwv' ⊢
  rw [ku, axis_flip h.v a hwv hwv' fv lv v1 v2 sv (by omega), hg _ (by simpa using hi) _ (by omega),
    show n - 1 - (n - 1 - j) = j by omega]

/-! ### NURBS patches -/

section Nurbs

variable {p q : NURBSPatch K V}

theorem nurbs_same (S : p.Sync) (S' : q.Sync) {u v u' v' : K}
    (h : ∃ P, p.hom.evaluate u v = ok P ∧ q.hom.evaluate u' v' = ok P) : q.evaluate u' v' = p.evaluate u v := by
  obtain ⟨P, e1, e2⟩ := h
  unfold NURBSPatch.evaluate
  rw [S.validate, S'.validate, e1, e2]

/-- **C94** (NURBS patches, affine), including the parameters at which the denominator vanishes. -/
theorem C94_nurbs_patch_affine (h : NValid p m n du dv) (hi : p.init = ok p) (h' : NValid q m n du dv)
    (hi' : q.init = ok q) {x y x' y' : K} (hy : 0 < y) (hy' : 0 < y')
    (ku : q.knotsU = p.knotsU.map fun z => x + y * z) (kv : q.knotsV = p.knotsV.map fun z => x' + y' * z)
    (hg : q.grid = p.grid) (hw : q.weights = p.weights) (pu : q.perU = p.perU) (pv : q.perV = p.perV)
    (hwu : WideOn p.knotsU m du) (hwv : WideOn p.knotsV n dv) (hwu' : WideOn q.knotsU m du)
    (hwv' : WideOn q.knotsV n dv) (fu : knot p.knotsU du < knot p.knotsU (du + 1))
    (fv : knot p.knotsV dv < knot p.knotsV (dv + 1)) (u v : K)
    (hu : p.perU = true ∨ (knot p.knotsU du ≤ u ∧ u ≤ knot p.knotsU m))
    (hv : p.perV = true ∨ (knot p.knotsV dv ≤ v ∧ v ≤ knot p.knotsV n)) :
    q.evaluate (x + y * u) (x' + y' * v) = p.evaluate u v := by
  have S := (sync_of_init hi).1
  have S' := (sync_of_init hi').1
  refine nurbs_same S S' (C94_bspline_patch_affine (h.hom S) S.init (h'.hom S') S'.init hy hy' ?_ ?_ ?_ ?_ ?_ ?_ ?_ ?_ ?_
    ?_ ?_ u v ?_ ?_)
  · rw [S.knotsU, S'.knotsU, ku]
  · rw [S.knotsV, S'.knotsV, kv]
  · rw [S.grid, S'.grid, hg, hw]
  · rw [S.perU, S'.perU, pu]
  · rw [S.perV, S'.perV, pv]
  · rwa [S.knotsU]
  · rwa [S.knotsV]
  · rwa [S'.knotsU]
  · rwa [S'.knotsV]
  · rwa [S.knotsU]
  · rwa [S.knotsV]
  · rwa [S.perU, S.knotsU]
  · rwa [S.perV, S.knotsV]

/-- **C94** (NURBS patches, reversal in `u`). -/
theorem C94_nurbs_patch_reverse_u (h : NValid p m n du dv) (hi : p.init = ok p) (h' : NValid q m n du dv)
    (hi' : q.init = ok q) {a : K} (ku : q.knotsU = flipKnots p.knotsU a) (kv : q.knotsV = p.knotsV)
    (hg : ∀ i < m, ∀ j < n, gridPoint q.grid n i j = gridPoint p.grid n (m - 1 - i) j)
    (hw : ∀ i < m, ∀ j < n, gridPoint q.weights n i j = gridPoint p.weights n (m - 1 - i) j)
    (pu : q.perU = p.perU) (pv : q.perV = p.perV)
    (hwu : WideOn p.knotsU m du) (hwv : WideOn p.knotsV n dv) (hwu' : WideOn q.knotsU m du)
    (fu : knot p.knotsU du < knot p.knotsU (du + 1)) (lu : knot p.knotsU (m - 1) < knot p.knotsU m) {u v : K}
    (u1 : knot p.knotsU du ≤ u) (u2 : u ≤ knot p.knotsU m)
    (up : p.perU = false ∨ (knot p.knotsU du < u ∧ u < knot p.knotsU m)) (su : Smooth p.knotsU m du u)
    (hv : InDom p.knotsV n dv v) (vp : v < knot p.knotsV n ∨ p.perV = false) :
    q.evaluate (a - u) v = p.evaluate u v := by
  have S := (sync_of_init hi).1
  have S' := (sync_of_init hi').1
  refine nurbs_same S S' (C94_bspline_patch_reverse_u (h.hom S) S.init (h'.hom S') S'.init (a := a) ?_ ?_ ?_ ?_ ?_ ?_ ?_
    ?_ ?_ ?_ ?_ ?_ ?_ ?_ ?_ ?_)
  · rw [S.knotsU, S'.knotsU, ku]
  · rw [S.knotsV, S'.knotsV, kv]
  · intro i hi j hj
    rw [S.grid, S'.grid, homog_gridPoint S.len.symm, homog_gridPoint S'.len.symm, hg i hi j hj, hw i hi j hj]
  · rw [S.perU, S'.perU, pu]
  · rw [S.perV, S'.perV, pv]
  · rwa [S.knotsU]
  · rwa [S.knotsV]
  · rwa [S'.knotsU]
  · rwa [S.knotsU]
  · rwa [S.knotsU]
  · rwa [S.knotsU]
  · rwa [S.knotsU]
  · rwa [S.perU, S.knotsU]
  · rwa [S.knotsU]
  · rwa [S.knotsV]
  · rwa [S.knotsV, S.perV]

/-- **C94** (NURBS patches, reversal in `v`). -/
theorem C94_nurbs_patch_reverse_v (h : NValid p m n du dv) (hi : p.init = ok p) (h' : NValid q m n du dv)
    (hi' : q.init = ok q) {a : K} (ku : q.knotsU = p.knotsU) (kv : q.knotsV = flipKnots p.knotsV a)
    (hg : ∀ i < m, ∀ j < n, gridPoint q.grid n i j = gridPoint p.grid n i (n - 1 - j))
    (hw : ∀ i < m, ∀ j < n, gridPoint q.weights n i j = gridPoint p.weights n i (n - 1 - j))
    (pu : q.perU = p.perU) (pv : q.perV = p.perV)
    (hwu : WideOn p.knotsU m du) (hwv : WideOn p.knotsV n dv) (hwv' : WideOn q.knotsV n dv)
    (fv : knot p.knotsV dv < knot p.knotsV (dv + 1)) (lv : knot p.knotsV (n - 1) < knot p.knotsV n) {u v : K}
    (v1 : knot p.knotsV dv ≤ v) (v2 : v ≤ knot p.knotsV n)
    (vp : p.perV = false ∨ (knot p.knotsV dv < v ∧ v < knot p.knotsV n)) (sv : Smooth p.knotsV n dv v)
    (hu : InDom p.knotsU m du u) (up : u < knot p.knotsU m ∨ p.perU = false) :
    q.evaluate u (a - v) = p.evaluate u v := by
  have S := (sync_of_init hi).1
  have S' := (sync_of_init hi').1
  refine nurbs_same S S' (C94_bspline_patch_reverse_v (h.hom S) S.init (h'.hom S') S'.init (a := a) ?_ ?_ ?_ ?_ ?_ ?_ ?_
    ?_ ?_ ?_ ?_ ?_ ?_ ?_ ?_ ?_)
  · rw [S.knotsU, S'.knotsU, ku]
  · rw [S.knotsV, S'.knotsV, kv]
  · intro i hi j hj
    rw [S.grid, S'.grid, homog_gridPoint S.len.symm, homog_gridPoint S'.len.symm, hg i hi j hj, hw i hi j hj]
  · rw [S.perU, S'.perU, pu]
  · rw [S.perV, S'.perV, pv]
  · rwa [S.knotsU]
  · rwa [S.knotsV]
  · rwa [S'.knotsV]
  · rwa [S.knotsV]
  · rwa [S.knotsV]
  · rwa [S.knotsV]
  · rwa [S.knotsV]
  · rwa [S.perV, S.knotsV]
  · rwa [S.knotsV]
  · rwa [S.knotsU]
  · rwa [S.knotsU, S.perU]

end Nurbs

/-! ### Rational Bézier patches -/

/-- **C94** (rational patches): reversing grid and weights reverses both directions. -/
theorem C94_rational_patch {p q : RationalBezierPatch K V} (h : p.init = ok p) (h' : q.init = ok q)
    (hb : q.base = { p.base with grid := p.base.grid.reverse }) (hw : q.weights = p.weights.reverse)
    (hu : p.base.perU = false) (hv : p.base.perV = false) (u v : K) :
    q.evaluate (1 - u) (1 - v) = p.evaluate u v := by
  obtain ⟨S, -, -⟩ := (RationalBezierPatch.init_iff _ _).1 h
  obtain ⟨S', -, -⟩ := (RationalBezierPatch.init_iff _ _).1 h'
  have e := C94_bezier_patch (init_hom h) (by rw [S.hom]; exact hu) (by rw [S.hom]; exact hv) u v
  have e' : q.hom = { p.hom with grid := p.hom.grid.reverse } := by
    rw [S.hom, S'.hom, hb, hw]
    simp only
    rw [homog, homog, List.reverse_zipWith S.len]
  unfold RationalBezierPatch.evaluate
  rw [S.validate, S'.validate, e', e]

/-- **C94** (rational patches): transposing grid and weights exchanges the directions. -/
theorem C94_rational_transpose {p q : RationalBezierPatch K V} (h : p.init = ok p) (h' : q.init = ok q)
    (hu : q.base.degU = p.base.degV) (hv : q.base.degV = p.base.degU) (pu : q.base.perU = p.base.perV)
    (pv : q.base.perV = p.base.perU)
    (hg : ∀ i ≤ p.base.degU.toNat, ∀ j ≤ p.base.degV.toNat,
      gridPoint q.base.grid (p.base.degU.toNat + 1) j i = gridPoint p.base.grid (p.base.degV.toNat + 1) i j)
    (hw : ∀ i ≤ p.base.degU.toNat, ∀ j ≤ p.base.degV.toNat,
      gridPoint q.weights (p.base.degU.toNat + 1) j i = gridPoint p.weights (p.base.degV.toNat + 1) i j) (u v : K) :
    q.evaluate v u = p.evaluate u v := by
  obtain ⟨S, -, -⟩ := (RationalBezierPatch.init_iff _ _).1 h
  obtain ⟨S', -, -⟩ := (RationalBezierPatch.init_iff _ _).1 h'
  unfold RationalBezierPatch.evaluate
  rw [S.validate, S'.validate, C94_bezier_transpose (init_hom h) (init_hom h')]
  · rw [S.hom, S'.hom]; exact hu
  · rw [S.hom, S'.hom]; exact hv
  · rw [S.hom, S'.hom]; exact pu
  · rw [S.hom, S'.hom]; exact pv
  · intro i hi j hj
    rw [S.hom] at hi hj ⊢
    rw [S'.hom]
    simp only at hi hj ⊢
    rw [homog_gridPoint S.len, homog_gridPoint S'.len, hg i hi j hj, hw i hi j hj]

/-! ### Concrete cases -/

/-- `exRaw` with `u` stretched to `[1, 3]` and `v` to `[-1, 2]`. -/
def exRPAffine : BSplinePatch ℚ ℚ :=
  { exRaw with knotsU := [1, 1, 1, 2, 3, 3, 3], knotsV := [-1, -1, 2, 2] }

def exRPFlipU : BSplinePatch ℚ ℚ := { exRaw with grid := [4, 6, 5, 7, 3, 2, 0, 1] }

def exRPFlipV : BSplinePatch ℚ ℚ := { exRaw with grid := [1, 0, 2, 3, 7, 5, 6, 4] }

theorem exRP_axis {ku kv : List ℚ} (hu : ku = [0, 0, 0, 1/2, 1, 1, 1] ∨ ku = [1, 1, 1, 2, 3, 3, 3])
    (hv : kv = [0, 0, 1, 1] ∨ kv = [-1, -1, 2, 2]) : WideOn ku 4 2 ∧ WideOn kv 2 1 := by
  constructor
  · intro i h1 h2
    rcases hu with rfl | rfl <;> interval_cases i <;> decide +kernel
  · intro i h1 h2
    rcases hv with rfl | rfl <;> interval_cases i <;> decide +kernel

theorem exRPAffine_valid : exRPAffine.Valid 4 2 2 1 := by
  refine ⟨⟨rfl, rfl, Or.inr rfl, by decide, by decide +kernel, by decide +kernel⟩,
    ⟨rfl, rfl, Or.inr rfl, by decide, by decide +kernel, by decide +kernel⟩, rfl⟩

theorem exRPFlipU_valid : exRPFlipU.Valid 4 2 2 1 := by
  refine ⟨⟨rfl, rfl, Or.inr rfl, by decide, by decide +kernel, by decide +kernel⟩,
    ⟨rfl, rfl, Or.inr rfl, by decide, by decide +kernel, by decide +kernel⟩, rfl⟩

theorem exRPFlipV_valid : exRPFlipV.Valid 4 2 2 1 := by
  refine ⟨⟨rfl, rfl, Or.inr rfl, by decide, by decide +kernel, by decide +kernel⟩,
    ⟨rfl, rfl, Or.inr rfl, by decide, by decide +kernel, by decide +kernel⟩, rfl⟩

example : ∃ q P, exRPAffine.init = ok q ∧ exBP.evaluate (1/4 : ℚ) (1/3) = ok P ∧ q.evaluate (3/2 : ℚ) 0 = ok P := by
  obtain ⟨q, e, e2, hv, e3, e4, e5, e6, e7, e8, e9⟩ := C31_init exRPAffine_valid
  obtain ⟨P, h1, h2⟩ := C94_bspline_patch_affine exBP_valid exBP_init.2 hv e2 (x := 1) (y := 2) (x' := -1) (y' := 3)
    (by norm_num) (by norm_num) (by rw [e4]; decide +kernel) (by rw [e5]; decide +kernel) e3 e8 e9
    exBP_wide.1 exBP_wide.2 (by rw [e4]; exact (exRP_axis (Or.inr rfl) (Or.inl rfl)).1)
    (by rw [e5]; exact (exRP_axis (Or.inl rfl) (Or.inr rfl)).2) (by decide +kernel) (by decide +kernel) (1/4) (1/3)
    (Or.inr (by decide +kernel)) (Or.inr (by decide +kernel))
  exact ⟨q, P, e, h1, by rw [← h2]; norm_num⟩

example : ∃ q P, exRPFlipU.init = ok q ∧ exBP.evaluate (1/4 : ℚ) (1/3) = ok P ∧ q.evaluate (3/4 : ℚ) (1/3) = ok P := by
  obtain ⟨q, e, e2, hv, e3, e4, e5, e6, e7, e8, e9⟩ := C31_init exRPFlipU_valid
  obtain ⟨P, h1, h2⟩ := C94_bspline_patch_reverse_u exBP_valid exBP_init.2 hv e2 (a := 1) (u := 1/4) (v := 1/3)
    (by rw [e4]; decide +kernel) (by rw [e5]; rfl) (by rw [e3]; decide +kernel) e8 e9
    exBP_wide.1 exBP_wide.2 (by rw [e4]; exact exBP_wide.1) (by decide +kernel) (by decide +kernel) (by decide +kernel)
    (by decide +kernel) (Or.inl rfl) (Or.inr (Or.inr (by decide +kernel))) ⟨by decide +kernel, by decide +kernel, Or.inl (by decide +kernel)⟩
    (Or.inr rfl)
  exact ⟨q, P, e, h1, by rw [← h2]; norm_num⟩

example : ∃ q P, exRPFlipV.init = ok q ∧ exBP.evaluate (1/4 : ℚ) (1/3) = ok P ∧ q.evaluate (1/4 : ℚ) (2/3) = ok P := by
  obtain ⟨q, e, e2, hv, e3, e4, e5, e6, e7, e8, e9⟩ := C31_init exRPFlipV_valid
  obtain ⟨P, h1, h2⟩ := C94_bspline_patch_reverse_v exBP_valid exBP_init.2 hv e2 (a := 1) (u := 1/4) (v := 1/3)
    (by rw [e4]; rfl) (by rw [e5]; decide +kernel) (by rw [e3]; decide +kernel) e8 e9
    exBP_wide.1 exBP_wide.2 (by rw [e5]; exact exBP_wide.2) (by decide +kernel) (by decide +kernel) (by decide +kernel)
    (by decide +kernel) (Or.inl rfl) (Or.inr (Or.inr (by decide +kernel)))
    ⟨by decide +kernel, by decide +kernel, Or.inl (by decide +kernel)⟩ (Or.inr rfl)
  exact ⟨q, P, e, h1, by rw [← h2]; norm_num⟩

def exRNAffine : NURBSPatch ℚ ℚ := { exNPRaw with knotsU := [1, 1, 1, 2, 3, 3, 3], knotsV := [-1, -1, 2, 2] }

def exRNFlipU : NURBSPatch ℚ ℚ :=
  { exNPRaw with grid := [4, 6, 5, 7, 3, 2, 0, 1], weights := [2, 1, 1, 2, 1, 3, 1, 2] }

def exRNFlipV : NURBSPatch ℚ ℚ :=
  { exNPRaw with grid := [1, 0, 2, 3, 7, 5, 6, 4], weights := [2, 1, 3, 1, 2, 1, 1, 2] }

theorem exRN_valid {q : NURBSPatch ℚ ℚ} (h : q = exRNAffine ∨ q = exRNFlipU ∨ q = exRNFlipV) : NValid q 4 2 2 1 := by
  rcases h with rfl | rfl | rfl <;>
  exact ⟨⟨rfl, rfl, Or.inl (by decide), by decide, by decide +kernel, by decide +kernel⟩,
    ⟨rfl, rfl, Or.inl (by decide), by decide, by decide +kernel, by decide +kernel⟩, rfl, rfl⟩

/-- Initialising and rebuilding. -/
theorem exRN_init {p : NURBSPatch ℚ ℚ} (h : NValid p 4 2 2 1) : ∃ q, p.init = ok q ∧ q.init = ok q ∧
    NValid q 4 2 2 1 ∧ q = { p with hom := q.hom } := by
  obtain ⟨q, e, e2, hq⟩ := C63_nurbs_init h
  exact ⟨q, e, e2, by rw [hq]; exact ⟨h.u, h.v, h.grid, h.weights⟩, hq⟩

example : ∃ p q, exNPRaw.init = ok p ∧ exRNAffine.init = ok q ∧
    q.evaluate (3/2 : ℚ) 0 = p.evaluate (1/4 : ℚ) (1/3) := by
  obtain ⟨p, e, e2, hv, hp⟩ := exRN_init exNP_valid
  obtain ⟨q, f, f2, hv', hq⟩ := exRN_init (exRN_valid (Or.inl rfl))
  have h := C94_nurbs_patch_affine hv e2 hv' f2 (x := 1) (y := 2) (x' := -1) (y' := 3)
    (by norm_num) (by norm_num) (by rw [hq, hp]; dsimp only; decide +kernel) (by rw [hq, hp]; dsimp only; decide +kernel) (by rw [hq, hp]; rfl)
    (by rw [hq, hp]; rfl) (by rw [hq, hp]; rfl) (by rw [hq, hp]; rfl)
    (by rw [hp]; exact exBP_wide.1) (by rw [hp]; exact exBP_wide.2)
    (by rw [hq]; exact (exRP_axis (Or.inr rfl) (Or.inl rfl)).1) (by rw [hq]; exact (exRP_axis (Or.inl rfl) (Or.inr rfl)).2)
    (by rw [hp]; dsimp only; decide +kernel) (by rw [hp]; dsimp only; decide +kernel) (1/4) (1/3)
    (Or.inr (by rw [hp]; dsimp only; decide +kernel)) (Or.inr (by rw [hp]; dsimp only; decide +kernel))
  exact ⟨p, q, e, f, by rw [← h]; norm_num⟩

example : ∃ p q, exNPRaw.init = ok p ∧ exRNFlipU.init = ok q ∧
    q.evaluate (3/4 : ℚ) (1/3) = p.evaluate (1/4 : ℚ) (1/3) := by
  obtain ⟨p, e, e2, hv, hp⟩ := exRN_init exNP_valid
  obtain ⟨q, f, f2, hv', hq⟩ := exRN_init (exRN_valid (Or.inr (Or.inl rfl)))
  have h := C94_nurbs_patch_reverse_u hv e2 hv' f2 (a := 1) (u := 1/4) (v := 1/3)
    (by rw [hq, hp]; dsimp only; decide +kernel) (by rw [hq, hp]; rfl) (by rw [hq, hp]; dsimp only; decide +kernel) (by rw [hq, hp]; dsimp only; decide +kernel)
    (by rw [hq, hp]; rfl) (by rw [hq, hp]; rfl)
    (by rw [hp]; exact exBP_wide.1) (by rw [hp]; exact exBP_wide.2) (by rw [hq]; exact exBP_wide.1)
    (by rw [hp]; dsimp only; decide +kernel) (by rw [hp]; dsimp only; decide +kernel) (by rw [hp]; dsimp only; decide +kernel) (by rw [hp]; dsimp only; decide +kernel)
    (Or.inl (by rw [hp]; rfl)) (Or.inr (Or.inr (by rw [hp]; dsimp only; decide +kernel)))
    (by rw [hp]; dsimp only; exact ⟨by decide +kernel, by decide +kernel, Or.inl (by decide +kernel)⟩) (Or.inr (by rw [hp]; rfl))
  exact ⟨p, q, e, f, by rw [← h]; norm_num⟩

example : ∃ p q, exNPRaw.init = ok p ∧ exRNFlipV.init = ok q ∧
    q.evaluate (1/4 : ℚ) (2/3) = p.evaluate (1/4 : ℚ) (1/3) := by
  obtain ⟨p, e, e2, hv, hp⟩ := exRN_init exNP_valid
  obtain ⟨q, f, f2, hv', hq⟩ := exRN_init (exRN_valid (Or.inr (Or.inr rfl)))
  have h := C94_nurbs_patch_reverse_v hv e2 hv' f2 (a := 1) (u := 1/4) (v := 1/3)
    (by rw [hq, hp]; rfl) (by rw [hq, hp]; dsimp only; decide +kernel) (by rw [hq, hp]; dsimp only; decide +kernel) (by rw [hq, hp]; dsimp only; decide +kernel)
    (by rw [hq, hp]; rfl) (by rw [hq, hp]; rfl)
    (by rw [hp]; exact exBP_wide.1) (by rw [hp]; exact exBP_wide.2) (by rw [hq]; exact exBP_wide.2)
    (by rw [hp]; dsimp only; decide +kernel) (by rw [hp]; dsimp only; decide +kernel) (by rw [hp]; dsimp only; decide +kernel) (by rw [hp]; dsimp only; decide +kernel)
    (Or.inl (by rw [hp]; rfl)) (Or.inr (Or.inr (by rw [hp]; dsimp only; decide +kernel)))
    (by rw [hp]; dsimp only; exact ⟨by decide +kernel, by decide +kernel, Or.inl (by decide +kernel)⟩) (Or.inr (by rw [hp]; rfl))
  exact ⟨p, q, e, f, by rw [← h]; norm_num⟩

def exRBRev : RationalBezierPatch ℚ ℚ :=
  RationalBezierPatch.mk (BezierPatch.mk [7, 5, 2, 3, 1, 0] 2 1 false false 2 1) [2, 1, 3, 1, 2, 1]
    (BezierPatch.mk [(14, 2), (5, 1), (6, 3), (3, 1), (2, 2), (0, 1)] 2 1 false false 2 1)

def exRBTr : RationalBezierPatch ℚ ℚ :=
  RationalBezierPatch.mk (BezierPatch.mk [0, 3, 5, 1, 2, 7] 1 2 false false 1 2) [1, 1, 1, 2, 3, 2]
    (BezierPatch.mk [(0, 1), (3, 1), (5, 1), (2, 2), (6, 3), (14, 2)] 1 2 false false 1 2)

example (u v : ℚ) : exRBRev.evaluate (1 - u) (1 - v) = exRatPatch.evaluate u v :=
  C94_rational_patch (by decide +kernel) (by decide +kernel) (by decide +kernel) (by decide +kernel) rfl rfl u v

example (u v : ℚ) : exRBTr.evaluate v u = exRatPatch.evaluate u v :=
  C94_rational_transpose (by decide +kernel) (by decide +kernel) rfl rfl rfl rfl (by decide +kernel)
    (by decide +kernel) u v

end NS.Props
