import Verif.Props.FlatInverse
import Verif.Props.NurbsPatch
import Verif.Props.RationalPatchDeriv

/-!
# C103 and C102 for B-spline, rational Bézier and NURBS patches
-/

set_option linter.unusedSectionVars false

namespace NS.Props

open Outcome Geom LawfulGeom Spec Finset ControlSearch NearOptimal
open BSplinePatch (Axis WideOn InDom bsum)

/-! ### C102: the guess of the patches that are searched by samples -/

section Near

variable {K V : Type} [Field K] [LinearOrder K] [IsStrictOrderedRing K] [FloorRing K]
  [AddCommGroup V] [Module K V]

theorem fallback_some {α : Type} {o : Ops K α} {low : ℕ} {s : α} {du dv m n : ℕ}
    (h1 : o.degreeU s = ok du) (h2 : o.degreeV s = ok dv) (h3 : o.numU s = ok m)
    (h4 : o.numV s = ok n)
    (h : o.periodic s = true ∨ du < 2 ∨ dv < 2 ∨ m ≤ 3 ∨ n ≤ 3) :
    ∃ l, fallback o low s = ok (some l) := by
  unfold fallback
  split
  · exact ⟨_, rfl⟩
  rw [h1, ok_bind]
  split
  · exact ⟨_, rfl⟩
  rw [h2, ok_bind]
  split
  · exact ⟨_, rfl⟩
  rw [h3, ok_bind]
  split
  · exact ⟨_, rfl⟩
  rw [h4, ok_bind, if_pos (by tauto)]
  exact ⟨_, rfl⟩

variable [Geom K V] [LawfulGeom K V]

/-- What C102 says of a search by samples: the guess `(u0, v0)` lies in the box and is no farther from
the query than any point of the box plus half a sample step times the speed in each direction, with one
step less than control points. -/
def NearGuess (b : Box K) (p : V) (e0 : K → K → V) (Lu Lv : K) (m n : ℕ) (u0 v0 : K) : Prop :=
  (b.minU ≤ u0 ∧ u0 ≤ b.maxU) ∧ (b.minV ≤ v0 ∧ v0 ≤ b.maxV) ∧
    ∀ u v, (b.minU ≤ u ∧ u ≤ b.maxU) ∧ (b.minV ≤ v ∧ v ≤ b.maxV) →
      (norm (p - e0 u0 v0) : K) ≤ norm (p - e0 u v)
        + Lu * ((b.maxU - b.minU) / (2 * (m - 1))) + Lv * ((b.maxV - b.minV) / (2 * (n - 1)))

theorem nearGuess {big tol uR vR : K} {s : PatchFn K V} {p : V} {m n level : ℕ} (hm : 2 ≤ m)
    (hn : 2 ≤ n) {e0 : K → K → V} {Lu Lv : K} (hLu : 0 ≤ Lu) (hLv : 0 ≤ Lv) {b : Box K}
    (hu : b.minU ≤ b.maxU) (hv : b.minV ≤ b.maxV)
    (h0 : ∀ u v, (b.minU ≤ u ∧ u ≤ b.maxU) ∧ (b.minV ≤ v ∧ v ≤ b.maxV) → s.ev u v = ok (e0 u v))
    (hb : ∀ u v, (b.minU ≤ u ∧ u ≤ b.maxU) ∧ (b.minV ≤ v ∧ v ≤ b.maxV) →
      (dot (p - e0 u v) (p - e0 u v) : K) < big)
    (hL : ∀ u v u' v', (b.minU ≤ u ∧ u ≤ b.maxU) ∧ (b.minV ≤ v ∧ v ≤ b.maxV) →
      (b.minU ≤ u' ∧ u' ≤ b.maxU) ∧ (b.minV ≤ v' ∧ v' ≤ b.maxV) →
      (norm (e0 u v - e0 u' v') : K) ≤ Lu * |u - u'| + Lv * |v - v'|) :
    ∃ r : K × K, PatchBase.approxInverse big tol uR vR s p (m + 1) (n + 1) level b.minU b.maxU b.minV
      b.maxV = ok r ∧ NearGuess b p e0 Lu Lv m n r.1 r.2 := by
  obtain ⟨r, er, h1, h2, hr⟩ := C102_patch (tol := tol) (uR := uR) (vR := vR) (level := level)
    (nu := m + 1) (nv := n + 1) (by omega) (by omega) hLu hLv hu hv h0 hb hL
  refine ⟨r, er, h1, h2, fun u v huv => (hr u v huv).trans (le_of_eq ?_)⟩
  push_cast
  rw [show (m : K) + 1 - 2 = m - 1 by ring, show (n : K) + 1 - 2 = n - 1 by ring]

/-- C102 for B-spline patches that are searched by samples: periodic ones, and those with a degree below
2 or with at most three control points in a direction. -/
theorem C102_bspline_patch {eps big tol10 tol100 : K} {bad : V} {q : BSplinePatch K V} {m n du dv : ℕ}
    (hq : q.Valid m n du dv) (hm : 2 ≤ m) (hn : 2 ≤ n)
    (hlow : q.perU = true ∨ q.perV = true ∨ du < 2 ∨ dv < 2 ∨ m ≤ 3 ∨ n ≤ 3)
    {e0 : K → K → V} {Lu Lv : K} (hLu : 0 ≤ Lu) (hLv : 0 ≤ Lv) {p : V} {b : Box K}
    (hu : b.minU ≤ b.maxU) (hv : b.minV ≤ b.maxV)
    (h0 : ∀ u v, (b.minU ≤ u ∧ u ≤ b.maxU) ∧ (b.minV ≤ v ∧ v ≤ b.maxV) →
      q.evaluate u v = ok (e0 u v))
    (hb : ∀ u v, (b.minU ≤ u ∧ u ≤ b.maxU) ∧ (b.minV ≤ v ∧ v ≤ b.maxV) →
      (dot (p - e0 u v) (p - e0 u v) : K) < big)
    (hL : ∀ u v u' v', (b.minU ≤ u ∧ u ≤ b.maxU) ∧ (b.minV ≤ v ∧ v ≤ b.maxV) →
      (b.minU ≤ u' ∧ u' ≤ b.maxU) ∧ (b.minV ≤ v' ∧ v' ≤ b.maxV) →
      (norm (e0 u v - e0 u' v') : K) ≤ Lu * |u - u'| + Lv * |v - v'|) :
    ∃ u0 v0, NearGuess b p e0 Lu Lv m n u0 v0 ∧
      q.inverseEvaluate eps big tol10 tol100 bad p b
        = PatchBase.inverseFrom big (q.fn bad) p u0 v0 b.minU b.maxU b.minV b.maxV 20 tol100 := by
  obtain ⟨l, hl⟩ := fallback_some (o := BSplinePatch.ops eps big tol10 bad p (m + 1) (n + 1))
    (low := 10) (s := q) hq.degreeU hq.degreeV hq.numU hq.numV (by
      show (q.perU || q.perV) = true ∨ _
      rw [Bool.or_eq_true]; tauto)
  obtain ⟨r, er, hr⟩ := nearGuess (tol := tol10) (uR := knot q.knotsU m - knot q.knotsU du)
    (vR := knot q.knotsV n - knot q.knotsV dv) (level := l) (s := q.fn bad) hm hn hLu hLv hu hv h0 hb hL
  refine ⟨r.1, r.2, hr, ?_⟩
  unfold BSplinePatch.inverseEvaluate BSplinePatch.approxInverse
  rw [hq.numU, ok_bind, hq.numV, ok_bind, knotSearch]
  simp only [id]
  rw [hl, ok_bind]
  simp only [BSplinePatch.ops, BSplinePatch.baseSearch]
  rw [hq.lowerU, ok_bind, hq.upperU, ok_bind, hq.lowerV, ok_bind, hq.upperV, ok_bind, er, ok_bind]

/-- C102 for rational Bézier patches that are searched by samples. -/
theorem C102_rational_patch {eps big tol10 tol100 small : K} {q : RationalBezierPatch K V} {m n : ℕ}
    (hi : q.init = ok q) (hq : q.base.WellFormed m n) (hm : 1 ≤ m) (hn : 1 ≤ n)
    (hlow : q.base.perU = true ∨ q.base.perV = true ∨ m ≤ 2 ∨ n ≤ 2)
    {e0 : K → K → V} {Lu Lv : K} (hLu : 0 ≤ Lu) (hLv : 0 ≤ Lv) {p : V} {b : Box K}
    (hu : b.minU ≤ b.maxU) (hv : b.minV ≤ b.maxV)
    (h0 : ∀ u v, (b.minU ≤ u ∧ u ≤ b.maxU) ∧ (b.minV ≤ v ∧ v ≤ b.maxV) →
      q.evaluate u v = ok (e0 u v))
    (hb : ∀ u v, (b.minU ≤ u ∧ u ≤ b.maxU) ∧ (b.minV ≤ v ∧ v ≤ b.maxV) →
      (dot (p - e0 u v) (p - e0 u v) : K) < big)
    (hL : ∀ u v u' v', (b.minU ≤ u ∧ u ≤ b.maxU) ∧ (b.minV ≤ v ∧ v ≤ b.maxV) →
      (b.minU ≤ u' ∧ u' ≤ b.maxU) ∧ (b.minV ≤ v' ∧ v' ≤ b.maxV) →
      (norm (e0 u v - e0 u' v') : K) ≤ Lu * |u - u'| + Lv * |v - v'|) :
    ∃ u0 v0, NearGuess b p e0 Lu Lv (m + 1) (n + 1) u0 v0 ∧
      q.inverseEvaluate eps big tol10 tol100 small p b
        = PatchBase.inverseFrom big (q.fn small) p u0 v0 b.minU b.maxU b.minV b.maxV 20 tol100 := by
  obtain ⟨S, -, -⟩ := (RationalBezierPatch.init_iff _ _).1 hi
  obtain ⟨m', n', hb', hh⟩ := S.wf
  have e1 : m' = m := by have := hb'.degU; rw [hq.degU] at this; exact_mod_cast this.symm
  have e2 : n' = n := by have := hb'.degV; rw [hq.degV] at this; exact_mod_cast this.symm
  subst e1 e2
  obtain ⟨l, hl⟩ := fallback_some (o := RationalBezierPatch.ops eps big tol10 small p (m' + 1 + 1)
    (n' + 1 + 1)) (low := 3) (s := q) hq.degreeU hq.degreeV hh.numU hh.numV (by
      show (q.base.perU || q.base.perV) = true ∨ _
      rw [Bool.or_eq_true]
      rcases hlow with h | h | h | h
      · tauto
      · tauto
      · exact Or.inr (Or.inr (Or.inr (Or.inl (by omega))))
      · exact Or.inr (Or.inr (Or.inr (Or.inr (by omega)))))
  obtain ⟨r, er, hr⟩ := nearGuess (tol := tol10) (uR := 1)
    (vR := 1) (level := l) (s := q.fn small) (m := m' + 1) (n := n' + 1) (by omega) (by omega)
    hLu hLv hu hv h0 hb hL
  refine ⟨r.1, r.2, hr, ?_⟩
  unfold RationalBezierPatch.inverseEvaluate RationalBezierPatch.approxInverse
  rw [hh.numU, ok_bind, hh.numV, ok_bind, unitSearch, hl, ok_bind]
  simp only [RationalBezierPatch.ops]
  rw [er, ok_bind]

/-- C102 for NURBS patches that are searched by samples. -/
theorem C102_nurbs_patch {eps big tol10 tol100 small : K} {bad : V × K} {q : NURBSPatch K V}
    {m n du dv : ℕ} (hq : NValid q m n du dv) (hi : q.init = ok q) (hm : 2 ≤ m) (hn : 2 ≤ n)
    (hlow : q.perU = true ∨ q.perV = true ∨ du < 2 ∨ dv < 2 ∨ m ≤ 3 ∨ n ≤ 3)
    {e0 : K → K → V} {Lu Lv : K} (hLu : 0 ≤ Lu) (hLv : 0 ≤ Lv) {p : V} {b : Box K}
    (hu : b.minU ≤ b.maxU) (hv : b.minV ≤ b.maxV)
    (h0 : ∀ u v, (b.minU ≤ u ∧ u ≤ b.maxU) ∧ (b.minV ≤ v ∧ v ≤ b.maxV) →
      q.evaluate u v = ok (e0 u v))
    (hb : ∀ u v, (b.minU ≤ u ∧ u ≤ b.maxU) ∧ (b.minV ≤ v ∧ v ≤ b.maxV) →
      (dot (p - e0 u v) (p - e0 u v) : K) < big)
    (hL : ∀ u v u' v', (b.minU ≤ u ∧ u ≤ b.maxU) ∧ (b.minV ≤ v ∧ v ≤ b.maxV) →
      (b.minU ≤ u' ∧ u' ≤ b.maxU) ∧ (b.minV ≤ v' ∧ v' ≤ b.maxV) →
      (norm (e0 u v - e0 u' v') : K) ≤ Lu * |u - u'| + Lv * |v - v'|) :
    ∃ u0 v0, NearGuess b p e0 Lu Lv m n u0 v0 ∧
      q.inverseEvaluate eps big tol10 tol100 small bad p b
        = PatchBase.inverseFrom big (q.fn small bad) p u0 v0 b.minU b.maxU b.minV b.maxV 20 tol100 := by
  have S := (sync_of_init hi).1
  have hh := hq.hom S
  obtain ⟨l, hl⟩ := fallback_some (o := NURBSPatch.ops eps big tol10 small bad p (m + 1) (n + 1))
    (low := 3) (s := q) (du := du) (dv := dv)
    (by simp only [NURBSPatch.ops]; rw [hq.u.deg]; exact NURBSPatch.degreeOf_ok (by simp))
    (by simp only [NURBSPatch.ops]; rw [hq.v.deg]; exact NURBSPatch.degreeOf_ok (by simp))
    hh.numU hh.numV (by
      show (q.perU || q.perV) = true ∨ _
      rw [Bool.or_eq_true]; tauto)
  obtain ⟨r, er, hr⟩ := nearGuess (tol := tol10) (uR := knot q.hom.knotsU m - knot q.hom.knotsU du)
    (vR := knot q.hom.knotsV n - knot q.hom.knotsV dv) (level := l) (s := q.fn small bad) hm hn hLu hLv
    hu hv h0 hb hL
  refine ⟨r.1, r.2, hr, ?_⟩
  unfold NURBSPatch.inverseEvaluate NURBSPatch.approxInverse
  rw [hh.numU, ok_bind, hh.numV, ok_bind, knotSearch, hl, ok_bind]
  simp only [NURBSPatch.ops]
  rw [hh.lowerU, ok_bind, hh.upperU, ok_bind, hh.lowerV, ok_bind, hh.upperV, ok_bind, er, ok_bind]

end Near

/-! ### Control nets over the Greville abscissae -/

section Greville

variable {K V : Type} [Field K] [LinearOrder K] [IsStrictOrderedRing K] [FloorRing K]
  [AddCommGroup V] [Module K V]

theorem bsum_affine {u : List K} {deg s : ℤ} {n d : ℕ} (h : Axis u deg s n d) {t : K}
    (ht : InDom u n d t) (O A : V) (x : ℕ → K) :
    bsum d u n (fun i => O + x i • A) t = O + bsum d u n x t • A := by
  obtain ⟨-, hs⟩ := axis_basis h ht
  unfold bsum
  simp only [smul_add, sum_add_distrib, ← sum_smul, hs, one_smul, smul_smul, smul_eq_mul]

/-- C103: a B-spline patch whose control points are an affine image of the preimages reported by
`get_control_point_preimage` is flat, with the parameters as coordinates. -/
theorem C103_greville {p : BSplinePatch K V} {m n du dv : ℕ} (h : p.Valid m n (du + 1) (dv + 1))
    (hi : p.init = ok p) (hwu : WideOn p.knotsU m (du + 1)) (hwv : WideOn p.knotsV n (dv + 1))
    {O A B : V} (hc : ∀ i < m, ∀ j < n, ∀ x, p.preimage i j = ok x →
      p.getControlPoint i j = ok (O + x.1 • A + x.2 • B)) {u v : K}
    (hu : InDom p.knotsU m (du + 1) u) (hv : InDom p.knotsV n (dv + 1) v)
    (hu' : u < knot p.knotsU m ∨ p.perU = false) (hv' : v < knot p.knotsV n ∨ p.perV = false) :
    p.evaluate u v = ok (O + u • A + v • B) := by
  rw [(h.ready hi).evaluate hwu hwv (wrapOn_mem hu.1 hu') hu (wrapOn_mem hv.1 hv') hv]
  have hlu := h.u.len
  have hlv := h.v.len
  congr 1
  have hp : ∀ i < m, ∀ j < n, p.pts n i j
      = (O + ((∑ k ∈ range (du + 1), knot p.knotsU (1 + i + k)) / ((du + 1 : ℕ) : K)) • A)
        + ((∑ k ∈ range (dv + 1), knot p.knotsV (1 + j + k)) / ((dv + 1 : ℕ) : K)) • B := by
    intro i hi j hj
    have e : p.preimage i j = ok ((∑ k ∈ range (du + 1), knot p.knotsU (1 + i + k)) / ((du + 1 : ℕ) : K),
        (∑ k ∈ range (dv + 1), knot p.knotsV (1 + j + k)) / ((dv + 1 : ℕ) : K)) := by
      unfold BSplinePatch.preimage
      rw [h.degreeU, ok_bind, greville_eq (by omega), ok_bind, h.degreeV, ok_bind,
        greville_eq (by omega), ok_bind, pure_eq]
    have := hc i hi j hj _ e
    rw [h.getControlPoint hi hj, ok.injEq] at this
    exact this
  have e : ∀ i < m, bsum (dv + 1) p.knotsV n (p.pts n i) v
      = (O + v • B) + ((∑ k ∈ range (du + 1), knot p.knotsU (1 + i + k)) / ((du + 1 : ℕ) : K)) • A := by
    intro i hi
    have e1 : bsum (dv + 1) p.knotsV n (p.pts n i) v = bsum (dv + 1) p.knotsV n (fun j =>
        (O + ((∑ k ∈ range (du + 1), knot p.knotsU (1 + i + k)) / ((du + 1 : ℕ) : K)) • A)
        + ((∑ k ∈ range (dv + 1), knot p.knotsV (1 + j + k)) / ((dv + 1 : ℕ) : K)) • B) v := by
      unfold bsum
      exact sum_congr rfl fun j hj => by rw [hp i hi j (mem_range.1 hj)]
    rw [e1, bsum_affine h.v hv, bsum_greville h.v hwv hv]
    abel
  unfold BSplinePatch.tsum
  have e2 : bsum (du + 1) p.knotsU m (fun i => bsum (dv + 1) p.knotsV n (p.pts n i) v) u
      = bsum (du + 1) p.knotsU m (fun i => (O + v • B)
        + ((∑ k ∈ range (du + 1), knot p.knotsU (1 + i + k)) / ((du + 1 : ℕ) : K)) • A) u := by
    exact sum_congr rfl fun i hi => congrArg _ (e i (mem_range.1 hi))
  rw [e2, bsum_affine h.u hu, bsum_greville h.u hwu hu]
  abel

/-- C103: a NURBS patch with equal weights over such a net is flat too. -/
theorem C103_greville_nurbs {p : NURBSPatch K V} {m n du dv : ℕ} (h : NValid p m n (du + 1) (dv + 1))
    (hi : p.init = ok p) (hwu : WideOn p.knotsU m (du + 1)) (hwv : WideOn p.knotsV n (dv + 1))
    {w : K} (hw : w ≠ 0) (hweights : ∀ x ∈ p.weights, x = w)
    {O A B : V} (hc : ∀ i < m, ∀ j < n, ∀ x, p.hom.preimage i j = ok x →
      gridPoint p.grid n i j = O + x.1 • A + x.2 • B) {u v : K}
    (hu : InDom p.knotsU m (du + 1) u) (hv : InDom p.knotsV n (dv + 1) v)
    (hu' : u < knot p.knotsU m ∨ p.perU = false) (hv' : v < knot p.knotsV n ∨ p.perV = false) :
    p.evaluate u v = ok (O + u • A + v • B) := by
  have S := (sync_of_init hi).1
  have hh := h.hom S
  have key := C103_greville hh S.init (by rw [S.knotsU]; exact hwu) (by rw [S.knotsV]; exact hwv)
    (O := ((w • O, w) : V × K)) (A := (w • A, 0)) (B := (w • B, 0)) (fun i hi j hj x hx => by
      have hlt : i * n + j < p.grid.length := by
        rw [h.grid]
        calc i * n + j < i * n + n := by omega
          _ = (i + 1) * n := by ring
          _ ≤ m * n := Nat.mul_le_mul_right n (by omega)
      have hlt' : i * n + j < p.weights.length := by rw [S.len]; exact hlt
      have e1 := hc i hi j hj x hx
      have e2 := hweights _ (List.getElem_mem hlt')
      rw [hh.getControlPoint hi hj]
      unfold BSplinePatch.pts
      rw [S.grid, homog_gridPoint S.len.symm]
      have e3 : gridPoint p.weights n i j = w := by
        unfold gridPoint
        rw [List.getD_eq_getElem?_getD, List.getElem?_eq_getElem hlt', Option.getD_some, e2]
      rw [e1, e3]
      congr 1
      ext <;> simp [smul_comm w])
    (u := u) (v := v) (by rw [S.knotsU]; exact hu) (by rw [S.knotsV]; exact hv)
    (by rw [S.knotsU, S.perU]; exact hu') (by rw [S.knotsV, S.perV]; exact hv')
  unfold NURBSPatch.evaluate
  rw [S.validate, ok_bind, key, ok_bind]
  have : ((w • O, w) : V × K) + u • (w • A, 0) + v • (w • B, 0) = (w • (O + u • A + v • B), w) := by
    ext <;> simp [smul_comm w]
  rw [this, q0_pair hw, inv_smul_smul₀ hw]

end Greville

/-! ### Flat patches have constant derivatives -/

section Flat

variable {V : Type} [NormedAddCommGroup V] [InnerProductSpace ℝ V]

theorem affine_deriv {f : ℝ → V} {a b t : ℝ} (hab : a < b) (h1 : a ≤ t) (h2 : t ≤ b) {O A d : V}
    (hf : ∀ s, a ≤ s → s ≤ b → f s = O + s • A) (H : HasDerivWithinAt f d (Set.Icc a b) t) :
    d = A := by
  have h : HasDerivWithinAt (fun s : ℝ => O + s • A) A (Set.Icc a b) t := by
    have := (((hasDerivAt_id t).smul_const A).const_add O).hasDerivWithinAt (s := Set.Icc a b)
    simpa using this
  have h' : HasDerivWithinAt f A (Set.Icc a b) t :=
    h.congr (fun s hs => hf s hs.1 hs.2) (hf t h1 h2)
  exact (uniqueDiffOn_Icc hab t ⟨h1, h2⟩).eq_deriv _ H h'

theorem pt_affine {k : List ℝ} {n d : ℕ} {f f' : ℝ → V} {t : ℝ} (H : DerivAtPt k n d f f' t)
    (hlt : knot k d < knot k n) (h1 : knot k d ≤ t) (h2 : t ≤ knot k n) {O A : V}
    (hf : ∀ s, knot k d ≤ s → s ≤ knot k n → f s = O + s • A) : f' t = A := by
  rcases h2.lt_or_eq with h | h
  · exact affine_deriv h le_rfl h2 (fun s a b => hf s (h1.trans a) b)
      ((H.1 h).mono Set.Icc_subset_Ici_self)
  · exact affine_deriv (a := knot k d) (b := t) (h ▸ hlt) h1 le_rfl (fun s a b => hf s a (b.trans h2))
      ((H.2.1 h).mono Set.Icc_subset_Iic_self)

theorem along_affine {k : List ℝ} {n d : ℕ} {f f' : ℝ → V} (H : DerivAlong k n d f f')
    (hlt : knot k d < knot k n) {O A : V}
    (hf : ∀ s, knot k d ≤ s → s ≤ knot k n → f s = O + s • A) {t : ℝ} (h1 : knot k d ≤ t)
    (h2 : t ≤ knot k n) : f' t = A :=
  pt_affine (H t h1 h2) hlt h1 h2 hf

/-- The evaluators of a flat B-spline patch. -/
theorem bspline_flat (bad : V) {p : BSplinePatch ℝ V} {m n du dv : ℕ}
    (h : Regular p m n (du + 1) (dv + 1)) {O A B : V}
    (hflat : ∀ u v, knot p.knotsU (du + 1) ≤ u → u ≤ knot p.knotsU m → knot p.knotsV (dv + 1) ≤ v →
      v ≤ knot p.knotsV n → p.evaluate u v = ok (O + u • A + v • B)) {u v : ℝ}
    (h1 : knot p.knotsU (du + 1) ≤ u) (h2 : u ≤ knot p.knotsU m) (h3 : knot p.knotsV (dv + 1) ≤ v)
    (h4 : v ≤ knot p.knotsV n) :
    p.derivU u v = ok A ∧ p.derivV u v = ok B ∧ p.derivUU u v = ok 0 ∧ p.derivVV u v = ok 0 ∧
      p.derivUV bad u v = ok 0 := by
  have key : ∀ u v, ∃ xu xv xuu xvv xuv : V, knot p.knotsU (du + 1) ≤ u → u ≤ knot p.knotsU m →
      knot p.knotsV (dv + 1) ≤ v → v ≤ knot p.knotsV n →
      p.derivU u v = ok xu ∧ p.derivV u v = ok xv ∧ p.derivUU u v = ok xuu ∧ p.derivVV u v = ok xvv ∧
      p.derivUV bad u v = ok xuv := by
    intro u v
    by_cases hb : knot p.knotsU (du + 1) ≤ u ∧ u ≤ knot p.knotsU m ∧ knot p.knotsV (dv + 1) ≤ v ∧
        v ≤ knot p.knotsV n
    · obtain ⟨a, b, c, d⟩ := hb
      obtain ⟨_, xu, xv, xuu, xvv, -, e⟩ := C64_evaluators_return h a b c d
      obtain ⟨y, hy⟩ := C64_uv_returns bad h a b c d
      exact ⟨xu, xv, xuu, xvv, y, fun _ _ _ _ => ⟨e.1, e.2.1, e.2.2.1, e.2.2.2, hy⟩⟩
    · exact ⟨0, 0, 0, 0, 0, fun a b c d => absurd ⟨a, b, c, d⟩ hb⟩
  choose gu gv guu gvv guv E using key
  have hU := h.valid.u.dom
  have hV := h.valid.v.dom
  have DU : ∀ v, knot p.knotsV (dv + 1) ≤ v → v ≤ knot p.knotsV n → ∀ u, knot p.knotsU (du + 1) ≤ u →
      u ≤ knot p.knotsU m → gu u v = A ∧ guu u v = 0 := by
    intro v c d
    have D := C64_u_partial h c d (fun s => O + v • B + s • A) (fun s => gu s v) (fun s => guu s v)
      (fun s a b => by rw [hflat s v a b c d, add_right_comm]) (fun s a b => (E s v a b c d).1)
      (fun s a b => (E s v a b c d).2.2.1)
    have e1 : ∀ u, knot p.knotsU (du + 1) ≤ u → u ≤ knot p.knotsU m → gu u v = A := fun u a b =>
      along_affine D.1 hU (O := O + v • B) (fun s _ _ => rfl) a b
    exact fun u a b => ⟨e1 u a b, along_affine D.2 hU (O := A) (A := 0)
      (fun s a b => by rw [smul_zero, add_zero]; exact e1 s a b) a b⟩
  have DV : ∀ v, knot p.knotsV (dv + 1) ≤ v → v ≤ knot p.knotsV n → gv u v = B ∧ gvv u v = 0 := by
    have D := C64_v_partial h h1 h2 (fun s => O + u • A + s • B) (fun s => gv u s) (fun s => gvv u s)
      (fun s a b => hflat u s h1 h2 a b) (fun s a b => (E u s h1 h2 a b).2.1)
      (fun s a b => (E u s h1 h2 a b).2.2.2.1)
    have e1 : ∀ v, knot p.knotsV (dv + 1) ≤ v → v ≤ knot p.knotsV n → gv u v = B := fun v a b =>
      along_affine D.1 hV (O := O + u • A) (fun s _ _ => rfl) a b
    exact fun v a b => ⟨e1 v a b, along_affine D.2 hV (O := B) (A := 0)
      (fun s a b => by rw [smul_zero, add_zero]; exact e1 s a b) a b⟩
  have D := C64_uv_partial bad h h1 h2 (fun s => gu u s) (fun s => guv u s)
    (fun s a b => (E u s h1 h2 a b).1) (fun s a b => (E u s h1 h2 a b).2.2.2.2)
  have e := along_affine D hV (O := A) (A := 0)
    (fun s a b => by rw [smul_zero, add_zero]; exact (DU s a b u h1 h2).1) h3 h4
  obtain ⟨a1, a2, a3, a4, a5⟩ := E u v h1 h2 h3 h4
  rw [(DU v h3 h4 u h1 h2).1] at a1
  rw [(DV v h3 h4).1] at a2
  rw [(DU v h3 h4 u h1 h2).2] at a3
  rw [(DV v h3 h4).2] at a4
  simp only [e] at a5
  exact ⟨a1, a2, a3, a4, a5⟩

/-- The evaluators of a flat NURBS patch whose denominator exceeds the threshold. -/
theorem nurbs_flat {tol : ℝ} (h0 : 0 ≤ tol) (bad : V × ℝ) {p : NURBSPatch ℝ V} {m n du dv : ℕ}
    (h : NRegular p m n (du + 1) (dv + 1)) {O A B : V}
    (hden : ∀ u v, InBox p m n (du + 1) (dv + 1) u v →
      tol < ratBSplineSurfaceDen (du + 1) (dv + 1) m n p.knotsU p.knotsV p.weights u v)
    (hflat : ∀ u v, InBox p m n (du + 1) (dv + 1) u v → p.evaluate u v = ok (O + u • A + v • B))
    {u v : ℝ} (hb : InBox p m n (du + 1) (dv + 1) u v) :
    p.derivU u v = ok A ∧ p.derivV u v = ok B ∧ p.derivUU tol u v = ok 0 ∧
      p.derivVV tol u v = ok 0 ∧ p.derivUV tol bad u v = ok 0 := by
  have hU := h.valid.u.dom
  have hV := h.valid.v.dom
  obtain ⟨f, fu, fv, fuu, fvv, F⟩ := C63_nurbs_derivatives_partial h0 h
  obtain ⟨gu, guv, G⟩ := C63_nurbs_mixed_partial h0 bad h
  have hd : ∀ u v, InBox p m n (du + 1) (dv + 1) u v →
      ratBSplineSurfaceDen (du + 1) (dv + 1) m n p.knotsU p.knotsV p.weights u v ≠ 0 :=
    fun u v hb => (h0.trans_lt (hden u v hb)).ne'
  have hf : ∀ u v, InBox p m n (du + 1) (dv + 1) u v → f u v = O + u • A + v • B := by
    intro u v hb
    have := ((F u v hb).1 (hd u v hb)).1
    rw [hflat u v hb, ok.injEq] at this
    exact this.symm
  have eu : ∀ u v, InBox p m n (du + 1) (dv + 1) u v → fu u v = A := by
    intro u v hb
    have H := ((F u v hb).1 (hd u v hb)).2.2.2.1
    exact pt_affine H hU hb.1 hb.2.1 (O := O + v • B) (fun s a b => by
      rw [hf s v ⟨a, b, hb.2.2⟩, add_right_comm])
  have ev : ∀ u v, InBox p m n (du + 1) (dv + 1) u v → fv u v = B := by
    intro u v hb
    have H := ((F u v hb).1 (hd u v hb)).2.2.2.2.2.1
    exact pt_affine H hV hb.2.2.1 hb.2.2.2 (O := O + u • A) (fun s a b => by
      rw [hf u s ⟨hb.1, hb.2.1, a, b⟩])
  obtain ⟨F1, F2⟩ := F u v hb
  obtain ⟨-, c1, c2, -, Huu, -, Hvv⟩ := F1 (hd u v hb)
  obtain ⟨c3, c4⟩ := F2 (hden u v hb)
  have euu := pt_affine Huu hU hb.1 hb.2.1 (O := A) (A := 0) (fun s a b => by
    rw [smul_zero, add_zero, eu s v ⟨a, b, hb.2.2⟩])
  have evv := pt_affine Hvv hV hb.2.2.1 hb.2.2.2 (O := B) (A := 0) (fun s a b => by
    rw [smul_zero, add_zero, ev u s ⟨hb.1, hb.2.1, a, b⟩])
  obtain ⟨-, c5, Huv⟩ := G u v hb (hden u v hb)
  have euv := pt_affine Huv hV hb.2.2.1 hb.2.2.2 (O := A) (A := 0) (fun s a b => by
    have hb' : InBox p m n (du + 1) (dv + 1) u s := ⟨hb.1, hb.2.1, a, b⟩
    have := (G u s hb' (hden u s hb')).1
    rw [((F u s hb').1 (hd u s hb')).2.1, ok.injEq, eu u s hb'] at this
    rw [smul_zero, add_zero, this])
  exact ⟨by rw [c1, eu u v hb], by rw [c2, ev u v hb], by rw [c3, euu], by rw [c4, evv], by rw [c5, euv]⟩

/-- The evaluators of a flat rational Bézier patch whose denominator exceeds the threshold. -/
theorem rational_flat {tol : ℝ} (h0 : 0 ≤ tol) {p : RationalBezierPatch ℝ V} (hi : p.init = ok p)
    (hpu : p.base.perU = false) (hpv : p.base.perV = false) {O A B : V}
    (hden : ∀ u v : ℝ, (0 ≤ u ∧ u ≤ 1) ∧ (0 ≤ v ∧ v ≤ 1) →
      tol < ratBezierSurfaceDen p.base.degU.toNat p.base.degV.toNat p.weights u v)
    (hflat : ∀ u v : ℝ, (0 ≤ u ∧ u ≤ 1) ∧ (0 ≤ v ∧ v ≤ 1) → p.evaluate u v = ok (O + u • A + v • B))
    {u v : ℝ} (hb : (0 ≤ u ∧ u ≤ 1) ∧ (0 ≤ v ∧ v ≤ 1)) :
    p.derivU u v = ok A ∧ p.derivV u v = ok B ∧ p.derivUU tol u v = ok 0 ∧
      p.derivVV tol u v = ok 0 ∧ p.derivUV tol u v = ok 0 := by
  obtain ⟨W, f, fu, fv, fuu, fuv, fvv, hW, E1, E2, DU, DV⟩ := C63_bezier_derivatives h0 hi
  have hW' : ∀ u v : ℝ, (0 ≤ u ∧ u ≤ 1) ∧ (0 ≤ v ∧ v ≤ 1) → tol < W u v := by
    intro u v hb
    obtain ⟨u', v', a, b, e⟩ := hW u v
    rw [hpu] at a
    rw [hpv] at b
    have a' : u' = u := by simpa [Folded] using a
    have b' : v' = v := by simpa [Folded] using b
    rw [e, a', b']
    exact hden u v hb
  have hne : ∀ u v : ℝ, (0 ≤ u ∧ u ≤ 1) ∧ (0 ≤ v ∧ v ≤ 1) → W u v ≠ 0 :=
    fun u v hb => (h0.trans_lt (hW' u v hb)).ne'
  have hf : ∀ u v : ℝ, (0 ≤ u ∧ u ≤ 1) ∧ (0 ≤ v ∧ v ≤ 1) → f u v = O + u • A + v • B := by
    intro u v hb
    have := (E1 u v (hne u v hb)).1
    rw [hflat u v hb, ok.injEq] at this
    exact this.symm
  have DU' := fun u v hb => DU u v (hne u v hb) (by rw [hpu]; simp)
  have DV' := fun u v hb => DV u v (hne u v hb) (by rw [hpv]; simp)
  have eu : ∀ u v : ℝ, (0 ≤ u ∧ u ≤ 1) ∧ (0 ≤ v ∧ v ≤ 1) → fu u v = A := fun u v hb =>
    affine_deriv (a := 0) (b := 1) (by norm_num) hb.1.1 hb.1.2 (O := O + v • B)
      (fun s a b => by rw [hf s v ⟨⟨a, b⟩, hb.2⟩, add_right_comm]) (DU' u v hb).1.hasDerivWithinAt
  have ev : ∀ u v : ℝ, (0 ≤ u ∧ u ≤ 1) ∧ (0 ≤ v ∧ v ≤ 1) → fv u v = B := fun u v hb =>
    affine_deriv (a := 0) (b := 1) (by norm_num) hb.2.1 hb.2.2 (O := O + u • A)
      (fun s a b => hf u s ⟨hb.1, ⟨a, b⟩⟩) (DV' u v hb).1.hasDerivWithinAt
  have euu : fuu u v = 0 := affine_deriv (a := 0) (b := 1) (by norm_num) hb.1.1 hb.1.2 (O := A)
    (fun s a b => by rw [smul_zero, add_zero, eu s v ⟨⟨a, b⟩, hb.2⟩])
    (DU' u v hb).2.1.hasDerivWithinAt
  have evv : fvv u v = 0 := affine_deriv (a := 0) (b := 1) (by norm_num) hb.2.1 hb.2.2 (O := B)
    (fun s a b => by rw [smul_zero, add_zero, ev u s ⟨hb.1, ⟨a, b⟩⟩])
    (DV' u v hb).2.1.hasDerivWithinAt
  have euv : fuv u v = 0 := affine_deriv (a := 0) (b := 1) (by norm_num) hb.2.1 hb.2.2 (O := A)
    (fun s a b => by rw [smul_zero, add_zero, eu u s ⟨hb.1, ⟨a, b⟩⟩])
    (DV' u v hb).2.2.hasDerivWithinAt
  obtain ⟨-, c1, c2⟩ := E1 u v (hne u v hb)
  obtain ⟨c3, c4, c5⟩ := E2 u v (hW' u v hb)
  exact ⟨by rw [c1, eu u v hb], by rw [c2, ev u v hb], by rw [c3, euu], by rw [c5, evv], by rw [c4, euv]⟩

/-! ### C103 -/

/-- What C103 says of a patch `S (u, v) = O + u A + v B` with the foot point `(x, y)` of the query: the
search reports convergence and returns the foot point, or a guess that is within the tolerance. -/
def FoundOn (O A B p : V) (tol x y : ℝ) (r : (ℝ × ℝ) × Bool) : Prop :=
  r.2 = true ∧ (r.1 = (x, y) ∨ ‖O + r.1.1 • A + r.1.2 • B - p‖ < tol ∨
    (|inner ℝ A (O + r.1.1 • A + r.1.2 • B - p)| < tol ∧
      |inner ℝ B (O + r.1.1 • A + r.1.2 • B - p)| < tol))

theorem foundOn {big tol : ℝ} {s : PatchFn ℝ V} {p O A B : V} {u v x y : ℝ} {b : Box ℝ}
    (htol : 0 < tol) (hG : inner ℝ A B * inner ℝ A B < inner ℝ A A * inner ℝ B B)
    (hx : b.minU ≤ x ∧ x ≤ b.maxU) (hy : b.minV ≤ y ∧ y ≤ b.maxV)
    (h0 : ∀ u v, (b.minU ≤ u ∧ u ≤ b.maxU) ∧ (b.minV ≤ v ∧ v ≤ b.maxV) →
      s.ev u v = ok (O + u • A + v • B))
    (h1 : ∀ u v, (b.minU ≤ u ∧ u ≤ b.maxU) ∧ (b.minV ≤ v ∧ v ≤ b.maxV) →
      s.du u v = ok A ∧ s.dv u v = ok B ∧ s.duu u v = ok 0 ∧ s.dvv u v = ok 0 ∧ s.duv u v = ok 0)
    (hA : inner ℝ (p - (O + x • A + y • B)) A = 0) (hB : inner ℝ (p - (O + x • A + y • B)) B = 0)
    (hbig : ∀ u v, (b.minU ≤ u ∧ u ≤ b.maxU) ∧ (b.minV ≤ v ∧ v ≤ b.maxV) →
      ‖O + u • A + v • B - p‖ + tol ≤ big) {r : (ℝ × ℝ) × Bool}
    (hr : PatchBase.inverseFrom big s p u v b.minU b.maxU b.minV b.maxV 20 tol = ok r) :
    FoundOn O A B p tol x y r := by
  obtain ⟨r', er, hr'⟩ := C103_patch_partial (s := s) (p := p) (u := u) (v := v) (iters := 20)
    (big := big) (by omega) htol hG hx hy h0 h1 hA hB hbig
  rw [er, ok.injEq] at hr
  subst hr
  exact ⟨rfl, hr'⟩

/-- C103 for B-spline patches, in part (foot point in the box; no periodic patch, no empty first span,
no span below the threshold): of any degrees at least 1, flat on their domain. -/
theorem C103_bspline_patch_partial {eps big tol10 tol100 : ℝ} (bad : V) {p : BSplinePatch ℝ V}
    {m n du dv : ℕ} (h : Regular p m n (du + 1) (dv + 1)) {O A B : V}
    (hflat : ∀ u v, knot p.knotsU (du + 1) ≤ u → u ≤ knot p.knotsU m → knot p.knotsV (dv + 1) ≤ v →
      v ≤ knot p.knotsV n → p.evaluate u v = ok (O + u • A + v • B))
    (htol : 0 < tol100) (hG : inner ℝ A B * inner ℝ A B < inner ℝ A A * inner ℝ B B) {q : V}
    {b : Box ℝ} (hin : knot p.knotsU (du + 1) ≤ b.minU ∧ b.maxU ≤ knot p.knotsU m ∧
      knot p.knotsV (dv + 1) ≤ b.minV ∧ b.maxV ≤ knot p.knotsV n)
    {x y : ℝ} (hx : b.minU ≤ x ∧ x ≤ b.maxU) (hy : b.minV ≤ y ∧ y ≤ b.maxV)
    (hA : inner ℝ (q - (O + x • A + y • B)) A = 0) (hB : inner ℝ (q - (O + x • A + y • B)) B = 0)
    (hbig : ∀ u v, (b.minU ≤ u ∧ u ≤ b.maxU) ∧ (b.minV ≤ v ∧ v ≤ b.maxV) →
      ‖O + u • A + v • B - q‖ + tol100 ≤ big) {r : (ℝ × ℝ) × Bool}
    (hr : p.inverseEvaluate eps big tol10 tol100 bad q b = ok r) :
    FoundOn O A B q tol100 x y r := by
  unfold BSplinePatch.inverseEvaluate at hr
  rw [h.valid.numU, ok_bind, h.valid.numV, ok_bind] at hr
  obtain ⟨g, -, hr⟩ := bind_eq_ok.1 hr
  exact foundOn htol hG hx hy
    (fun u v w => hflat u v (hin.1.trans w.1.1) (w.1.2.trans hin.2.1) (hin.2.2.1.trans w.2.1)
      (w.2.2.trans hin.2.2.2))
    (fun u v w => bspline_flat bad h hflat (hin.1.trans w.1.1) (w.1.2.trans hin.2.1)
      (hin.2.2.1.trans w.2.1) (w.2.2.trans hin.2.2.2)) hA hB hbig hr

/-- C103 for rational Bézier patches, in part (foot point in the box; not periodic), flat on the unit
square with a denominator above the threshold of the second derivatives. -/
theorem C103_rational_patch_partial {eps big tol10 tol100 small : ℝ} (hs : 0 ≤ small)
    {p : RationalBezierPatch ℝ V} (hi : p.init = ok p) (hpu : p.base.perU = false)
    (hpv : p.base.perV = false) {O A B : V}
    (hden : ∀ u v : ℝ, (0 ≤ u ∧ u ≤ 1) ∧ (0 ≤ v ∧ v ≤ 1) →
      small < ratBezierSurfaceDen p.base.degU.toNat p.base.degV.toNat p.weights u v)
    (hflat : ∀ u v : ℝ, (0 ≤ u ∧ u ≤ 1) ∧ (0 ≤ v ∧ v ≤ 1) → p.evaluate u v = ok (O + u • A + v • B))
    (htol : 0 < tol100) (hG : inner ℝ A B * inner ℝ A B < inner ℝ A A * inner ℝ B B) {q : V}
    {b : Box ℝ} (hin : 0 ≤ b.minU ∧ b.maxU ≤ 1 ∧ 0 ≤ b.minV ∧ b.maxV ≤ 1)
    {x y : ℝ} (hx : b.minU ≤ x ∧ x ≤ b.maxU) (hy : b.minV ≤ y ∧ y ≤ b.maxV)
    (hA : inner ℝ (q - (O + x • A + y • B)) A = 0) (hB : inner ℝ (q - (O + x • A + y • B)) B = 0)
    (hbig : ∀ u v, (b.minU ≤ u ∧ u ≤ b.maxU) ∧ (b.minV ≤ v ∧ v ≤ b.maxV) →
      ‖O + u • A + v • B - q‖ + tol100 ≤ big) {r : (ℝ × ℝ) × Bool}
    (hr : p.inverseEvaluate eps big tol10 tol100 small q b = ok r) :
    FoundOn O A B q tol100 x y r := by
  unfold RationalBezierPatch.inverseEvaluate at hr
  obtain ⟨m, -, hr⟩ := bind_eq_ok.1 hr
  obtain ⟨n, -, hr⟩ := bind_eq_ok.1 hr
  obtain ⟨g, -, hr⟩ := bind_eq_ok.1 hr
  have hbox : ∀ u v, (b.minU ≤ u ∧ u ≤ b.maxU) ∧ (b.minV ≤ v ∧ v ≤ b.maxV) →
      (0 ≤ u ∧ u ≤ 1) ∧ (0 ≤ v ∧ v ≤ 1) := fun u v w =>
    ⟨⟨hin.1.trans w.1.1, w.1.2.trans hin.2.1⟩, hin.2.2.1.trans w.2.1, w.2.2.trans hin.2.2.2⟩
  exact foundOn htol hG hx hy (fun u v w => hflat u v (hbox u v w))
    (fun u v w => rational_flat hs hi hpu hpv hden hflat (hbox u v w)) hA hB hbig hr

/-- C103 for NURBS patches, in part (as for B-spline patches), with a denominator above the threshold of
the second derivatives. -/
theorem C103_nurbs_patch_partial {eps big tol10 tol100 small : ℝ} (hs : 0 ≤ small) (bad : V × ℝ)
    {p : NURBSPatch ℝ V} {m n du dv : ℕ} (h : NRegular p m n (du + 1) (dv + 1)) {O A B : V}
    (hden : ∀ u v, InBox p m n (du + 1) (dv + 1) u v →
      small < ratBSplineSurfaceDen (du + 1) (dv + 1) m n p.knotsU p.knotsV p.weights u v)
    (hflat : ∀ u v, InBox p m n (du + 1) (dv + 1) u v → p.evaluate u v = ok (O + u • A + v • B))
    (htol : 0 < tol100) (hG : inner ℝ A B * inner ℝ A B < inner ℝ A A * inner ℝ B B) {q : V}
    {b : Box ℝ} (hin : knot p.knotsU (du + 1) ≤ b.minU ∧ b.maxU ≤ knot p.knotsU m ∧
      knot p.knotsV (dv + 1) ≤ b.minV ∧ b.maxV ≤ knot p.knotsV n)
    {x y : ℝ} (hx : b.minU ≤ x ∧ x ≤ b.maxU) (hy : b.minV ≤ y ∧ y ≤ b.maxV)
    (hA : inner ℝ (q - (O + x • A + y • B)) A = 0) (hB : inner ℝ (q - (O + x • A + y • B)) B = 0)
    (hbig : ∀ u v, (b.minU ≤ u ∧ u ≤ b.maxU) ∧ (b.minV ≤ v ∧ v ≤ b.maxV) →
      ‖O + u • A + v • B - q‖ + tol100 ≤ big) {r : (ℝ × ℝ) × Bool}
    (hr : p.inverseEvaluate eps big tol10 tol100 small bad q b = ok r) :
    FoundOn O A B q tol100 x y r := by
  unfold NURBSPatch.inverseEvaluate at hr
  obtain ⟨m', -, hr⟩ := bind_eq_ok.1 hr
  obtain ⟨n', -, hr⟩ := bind_eq_ok.1 hr
  obtain ⟨g, -, hr⟩ := bind_eq_ok.1 hr
  have hbox : ∀ u v, (b.minU ≤ u ∧ u ≤ b.maxU) ∧ (b.minV ≤ v ∧ v ≤ b.maxV) →
      InBox p m n (du + 1) (dv + 1) u v := fun u v w =>
    ⟨hin.1.trans w.1.1, w.1.2.trans hin.2.1, hin.2.2.1.trans w.2.1, w.2.2.trans hin.2.2.2⟩
  exact foundOn htol hG hx hy (fun u v w => hflat u v (hbox u v w))
    (fun u v w => nurbs_flat hs bad h hden hflat (hbox u v w)) hA hB hbig hr

end Flat

/-! ### Examples -/

section Examples

theorem exAxis2 : Axis ([0, 0, 0, 1, 1, 1] : List ℝ) 2 (-1) 3 2 :=
  ⟨rfl, rfl, Or.inl (by decide), by omega, by simp, by simp [knot]⟩

theorem exAxis1 : Axis ([0, 0, 1, 1] : List ℝ) 1 (-1) 2 1 :=
  ⟨rfl, rfl, Or.inl (by decide), le_rfl, by simp, by simp [knot]⟩

theorem exWide2 : WideOn ([0, 0, 0, 1, 1, 1] : List ℝ) 3 2 := by
  intro i h1 h2 h3
  have : i = 2 := by omega
  subst this
  simp [knot]
  norm_num

theorem exWide1 : WideOn ([0, 0, 1, 1] : List ℝ) 2 1 := by
  intro i h1 h2 h3
  have : i = 1 := by omega
  subst this
  simp [knot]
  norm_num

/-- The net `i / 2 + j i` of degrees 2 and 1 over the Greville abscissae. -/
noncomputable def exNet : List ℂ :=
  [0, Complex.I, 1 / 2, 1 / 2 + Complex.I, 1, 1 + Complex.I]

theorem exNet_preimage {V : Type} [AddCommGroup V] [Module ℝ V] {p : BSplinePatch ℝ V}
    (h : p.Valid 3 2 2 1) (ku : p.knotsU = [0, 0, 0, 1, 1, 1]) (kv : p.knotsV = [0, 0, 1, 1]) :
    ∀ i < 3, ∀ j < 2, ∀ x, p.preimage i j = ok x →
      gridPoint exNet 2 i j = (0 : ℂ) + x.1 • (1 : ℂ) + x.2 • Complex.I := by
  intro i hi j hj x hx
  unfold BSplinePatch.preimage at hx
  rw [h.degreeU, ok_bind, ku, greville_eq (d := 1) (by simp; omega), ok_bind, h.degreeV, ok_bind, kv,
    greville_eq (d := 0) (by simp; omega), ok_bind, pure_eq, ok.injEq] at hx
  subst hx
  interval_cases i <;> interval_cases j <;>
    simp [gridPoint, exNet, knot, Finset.sum_range_succ]

/-- A flat B-spline patch of degrees 2 and 1. -/
theorem exFlatBSpline : ∃ p : BSplinePatch ℝ ℂ, Regular p 3 2 2 1 ∧
    p.knotsU = [0, 0, 0, 1, 1, 1] ∧ p.knotsV = [0, 0, 1, 1] ∧
    ∀ u v, knot p.knotsU 2 ≤ u → u ≤ knot p.knotsU 3 → knot p.knotsV 1 ≤ v → v ≤ knot p.knotsV 2 →
      p.evaluate u v = ok ((0 : ℂ) + u • (1 : ℂ) + v • Complex.I) := by
  obtain ⟨q, -, e2, hv, g, ku, kv, -, -, pu, pv⟩ := C31_init (p := BSplinePatch.mk exNet
    ([0, 0, 0, 1, 1, 1] : List ℝ) ([0, 0, 1, 1] : List ℝ) 2 1 false false (-1) (-1) [] [])
    (m := 3) (n := 2) (du := 2) (dv := 1) ⟨exAxis2, exAxis1, rfl⟩
  have ku' : q.knotsU = [0, 0, 0, 1, 1, 1] := ku
  have kv' : q.knotsV = [0, 0, 1, 1] := kv
  have R : Regular q 3 2 2 1 := ⟨hv, e2, pu, pv, by rw [ku]; exact exWide2, by rw [kv]; exact exWide1,
    by rw [ku]; simp [knot], by rw [kv]; simp [knot]⟩
  refine ⟨q, R, ku', kv', fun u v a b c d => ?_⟩
  refine C103_greville (du := 1) (dv := 0) hv e2 R.wideU R.wideV (fun i hi j hj x hx => ?_)
    ⟨a, b, Or.inl R.firstU⟩ ⟨c, d, Or.inl R.firstV⟩ (Or.inr pu) (Or.inr pv)
  rw [hv.getControlPoint hi hj]
  unfold BSplinePatch.pts
  rw [g]
  exact congrArg ok (exNet_preimage hv ku' kv' i hi j hj x hx)

/-- A flat NURBS patch of degrees 2 and 1 with all weights 3. -/
theorem exFlatNurbs : ∃ p : NURBSPatch ℝ ℂ, NRegular p 3 2 2 1 ∧ p.weights = [3, 3, 3, 3, 3, 3] ∧
    ∀ u v, InBox p 3 2 2 1 u v →
      (1 : ℝ) < ratBSplineSurfaceDen 2 1 3 2 p.knotsU p.knotsV p.weights u v ∧
      p.evaluate u v = ok ((0 : ℂ) + u • (1 : ℂ) + v • Complex.I) := by
  let r : NURBSPatch ℝ ℂ := NURBSPatch.mk exNet [3, 3, 3, 3, 3, 3] [0, 0, 0, 1, 1, 1] [0, 0, 1, 1] 2 1
    false false (-1) (-1) (BSplinePatch.mk [] [] [] 0 0 false false (-1) (-1) [] [])
  have hv : NValid r 3 2 2 1 := ⟨exAxis2, exAxis1, rfl, rfl⟩
  obtain ⟨q, -, e, hq⟩ := C63_nurbs_init hv
  have hv' : NValid q 3 2 2 1 := by rw [hq]; exact ⟨exAxis2, exAxis1, rfl, rfl⟩
  have k1 : q.knotsU = [0, 0, 0, 1, 1, 1] := by rw [hq]
  have k2 : q.knotsV = [0, 0, 1, 1] := by rw [hq]
  have pu : q.perU = false := by rw [hq]
  have pv : q.perV = false := by rw [hq]
  have wq : q.weights = [3, 3, 3, 3, 3, 3] := by rw [hq]
  have gq : q.grid = exNet := by rw [hq]
  have R : NRegular q 3 2 2 1 := ⟨hv', e, pu, pv, by rw [k1]; exact exWide2, by rw [k2]; exact exWide1,
    by rw [k1]; simp [knot], by rw [k2]; simp [knot]⟩
  have S := (sync_of_init e).1
  refine ⟨q, R, wq, fun u v hb => ⟨?_, ?_⟩⟩
  · obtain ⟨-, su⟩ := axis_basis hv'.u (t := u) ⟨hb.1, hb.2.1, Or.inl R.firstU⟩
    obtain ⟨-, sv⟩ := axis_basis hv'.v (t := v) ⟨hb.2.2.1, hb.2.2.2, Or.inl R.firstV⟩
    have h3 : ∀ i < 3, ∀ j < 2, gridPoint q.weights 2 i j = 3 := by
      intro i hi j hj
      rw [wq]
      interval_cases i <;> interval_cases j <;> rfl
    unfold ratBSplineSurfaceDen
    rw [sum_congr rfl (fun i hi => sum_congr rfl (fun j hj => by
      rw [h3 i (mem_range.1 hi) j (mem_range.1 hj), mul_assoc])) (g := fun i => ∑ j ∈ range 2,
        basis (knot q.knotsU) (knot q.knotsU 3) 2 i u * (basis (knot q.knotsV) (knot q.knotsV 2) 1 j v * 3))]
    simp only [← mul_sum, ← sum_mul, su, sv]
    norm_num
  · refine C103_greville_nurbs (du := 1) (dv := 0) hv' e R.wideU R.wideV (w := 3) (by norm_num)
      (by rw [wq]; simp) (fun i hi j hj x hx => ?_)
      ⟨hb.1, hb.2.1, Or.inl R.firstU⟩ ⟨hb.2.2.1, hb.2.2.2, Or.inl R.firstV⟩ (Or.inr pu) (Or.inr pv)
    rw [gq]
    exact exNet_preimage (hv'.hom S) (by rw [S.knotsU, k1]) (by rw [S.knotsV, k2]) i hi j hj x hx

/-- A flat rational Bézier patch of degrees 2 and 1 whose weights differ: the denominator is `1 + u`. -/
theorem exFlatRational : ∃ p : RationalBezierPatch ℝ ℂ, p.init = ok p ∧
    p.weights = [1, 1, 3 / 2, 3 / 2, 2, 2] ∧ p.base.perU = false ∧ p.base.perV = false ∧
    ∀ u v : ℝ, (0 ≤ u ∧ u ≤ 1) ∧ (0 ≤ v ∧ v ≤ 1) →
      (1 / 2 : ℝ) < ratBezierSurfaceDen p.base.degU.toNat p.base.degV.toNat p.weights u v ∧
      p.evaluate u v = ok ((0 : ℂ) + u • (1 : ℂ) + v • Complex.I) := by
  let g : BezierPatch ℂ := BezierPatch.mk
    [0, Complex.I, 1 / 3, 1 / 3 + Complex.I, 1, 1 + Complex.I] 2 1 false false (-1) (-1)
  let r : RationalBezierPatch ℝ ℂ := RationalBezierPatch.mk g [1, 1, 3 / 2, 3 / 2, 2, 2]
    (BezierPatch.mk (homog g.grid ([1, 1, 3 / 2, 3 / 2, 2, 2] : List ℝ)) 2 1 false false (-1) (-1))
  have hi : r.init = ok r := by
    refine (RationalBezierPatch.init_iff _ _).2 ⟨⟨rfl, rfl, ?_⟩, rfl, rfl⟩
    exact BezierPatch.init_ok (m := 2) (n := 1) ⟨rfl, rfl, rfl⟩
  have hden : ∀ u v : ℝ, ratBezierSurfaceDen 2 1 ([1, 1, 3 / 2, 3 / 2, 2, 2] : List ℝ) u v = 1 + u := by
    intro u v
    unfold ratBezierSurfaceDen
    simp [Finset.sum_range_succ, bernstein, gridPoint]
    ring
  refine ⟨r, hi, rfl, rfl, rfl, fun u v hb => ⟨?_, ?_⟩⟩
  · show _ < ratBezierSurfaceDen 2 1 ([1, 1, 3 / 2, 3 / 2, 2, 2] : List ℝ) u v
    rw [hden]; linarith [hb.1.1]
  · obtain ⟨u', v', a, b, H⟩ := C63_bezier_evaluate hi u v
    have a' : u' = u := by simpa [Folded] using a
    have b' : v' = v := by simpa [Folded] using b
    rw [a', b'] at H
    have hne : (1 + u : ℝ) ≠ 0 := by linarith [hb.1.1]
    have hd : ratBezierSurfaceDen r.base.degU.toNat r.base.degV.toNat r.weights u v = 1 + u := hden u v
    rw [H (by rw [hd]; exact hne)]
    congr 1
    unfold ratBezierSurface
    rw [hd, inv_smul_eq_iff₀ hne]
    show ∑ i ∈ range (2 + 1), ∑ j ∈ range (1 + 1), _ = _
    simp [Finset.sum_range_succ, bernstein, gridPoint, r, g]
    ring

/-- On the first of these patches the search does return, and finds the parameters of the query
`1/3 + i/4` (C102 gives the guess, C103 the result). -/
example : ∃ p : BSplinePatch ℝ ℂ, Regular p 3 2 2 1 ∧ ∃ r,
    p.inverseEvaluate 0 100 (1 / 1000) (1 / 100) 0 (1 / 3 + Complex.I / 4) ⟨0, 1, 0, 1⟩ = ok r ∧
    FoundOn 0 1 Complex.I (1 / 3 + Complex.I / 4) (1 / 100) (1 / 3) (1 / 4) r := by
  obtain ⟨p, h, ku, kv, hf⟩ := exFlatBSpline
  have k0 : knot p.knotsU 2 = 0 := by rw [ku]; simp [knot]
  have k1 : knot p.knotsU 3 = 1 := by rw [ku]; simp [knot]
  have k2 : knot p.knotsV 1 = 0 := by rw [kv]; simp [knot]
  have k3 : knot p.knotsV 2 = 1 := by rw [kv]; simp [knot]
  have hn : ∀ u v : ℝ, (0 ≤ u ∧ u ≤ 1) ∧ (0 ≤ v ∧ v ≤ 1) →
      ‖(0 : ℂ) + u • (1 : ℂ) + v • Complex.I - (1 / 3 + Complex.I / 4)‖ ≤ 4 := by
    rintro u v ⟨⟨h1, h2⟩, h3, h4⟩
    refine (Complex.norm_le_abs_re_add_abs_im _).trans ?_
    have a1 : |((0 : ℂ) + u • (1 : ℂ) + v • Complex.I - (1 / 3 + Complex.I / 4)).re| ≤ 2 := by
      rw [abs_le]; simp; constructor <;> linarith
    have a2 : |((0 : ℂ) + u • (1 : ℂ) + v • Complex.I - (1 / 3 + Complex.I / 4)).im| ≤ 2 := by
      rw [abs_le]; simp; constructor <;> linarith
    linarith
  have hev : ∀ u v : ℝ, (0 ≤ u ∧ u ≤ 1) ∧ (0 ≤ v ∧ v ≤ 1) →
      p.evaluate u v = ok ((0 : ℂ) + u • (1 : ℂ) + v • Complex.I) := fun u v w =>
    hf u v (by rw [k0]; exact w.1.1) (by rw [k1]; exact w.1.2) (by rw [k2]; exact w.2.1)
      (by rw [k3]; exact w.2.2)
  obtain ⟨u0, v0, -, he⟩ := C102_bspline_patch (eps := 0) (big := 100) (tol10 := 1 / 1000)
    (tol100 := 1 / 100) (bad := 0) (q := p) (p := (1 / 3 + Complex.I / 4 : ℂ)) (b := ⟨0, 1, 0, 1⟩)
    h.valid (by omega) (by omega)
    (by right; right; right; left; omega) (e0 := fun u v => (0 : ℂ) + u • (1 : ℂ) + v • Complex.I)
    (Lu := 1) (Lv := 1) (by norm_num) (by norm_num) (by norm_num) (by norm_num) hev
    (fun u v w => by
      have := hn u v w
      show inner ℝ _ _ < (100 : ℝ)
      rw [real_inner_self_eq_norm_sq, norm_sub_rev]
      nlinarith [norm_nonneg ((0 : ℂ) + u • (1 : ℂ) + v • Complex.I - (1 / 3 + Complex.I / 4))])
    (fun u v u' v' _ _ => by
      show ‖_‖ ≤ _
      refine (Complex.norm_le_abs_re_add_abs_im _).trans (le_of_eq ?_)
      simp)
  have e : (1 / 3 + Complex.I / 4 : ℂ) - ((0 : ℂ) + (1 / 3 : ℝ) • (1 : ℂ) + (1 / 4 : ℝ) • Complex.I) = 0 := by
    simp; ring
  have hG : (inner ℝ (1 : ℂ) Complex.I : ℝ) * inner ℝ (1 : ℂ) Complex.I
      < inner ℝ (1 : ℂ) 1 * inner ℝ Complex.I Complex.I := by
    simp only [Complex.inner]
    norm_num
  obtain ⟨r, er, -⟩ := C103_patch_partial (big := 100) (tol := 1 / 100) (s := p.fn 0) (u := u0) (v := v0)
    (p := (1 / 3 + Complex.I / 4 : ℂ)) (O := 0) (A := 1) (B := Complex.I) (x := 1 / 3) (y := 1 / 4)
    (minU := 0) (maxU := 1) (minV := 0) (maxV := 1) (iters := 20) (by omega) (by norm_num) hG
    (by norm_num) (by norm_num) hev
    (fun u v w => bspline_flat 0 h hf (by rw [k0]; exact w.1.1) (by rw [k1]; exact w.1.2)
      (by rw [k2]; exact w.2.1) (by rw [k3]; exact w.2.2))
    (by rw [e]; exact inner_zero_left _) (by rw [e]; exact inner_zero_left _)
    (fun u v w => by
      have := hn u v w
      show ‖_‖ + (1 / 100 : ℝ) ≤ 100
      linarith)
  refine ⟨p, h, (r, true), by rw [he, er], ?_⟩
  refine C103_bspline_patch_partial (eps := 0) (big := 100) (tol10 := 1 / 1000) 0 h hf (by norm_num) hG
    (b := ⟨0, 1, 0, 1⟩) (by rw [k0, k1, k2, k3]; norm_num) (by norm_num) (by norm_num)
    (by rw [e]; exact inner_zero_left _) (by rw [e]; exact inner_zero_left _)
    (fun u v w => by have := hn u v w; linarith) (by rw [he, er])

end Examples

end NS.Props
