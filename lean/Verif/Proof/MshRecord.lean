import Mathlib.Tactic.Linarith
import Mathlib.Tactic.NormNum
import Verif.Model.MshRecord
import Verif.Proof.BSplinePatch
import Verif.Proof.BezierPatch
import Verif.Proof.RationalPatch
import Verif.Proof.SaveMsh
import Verif.Proof.SaveObj

/-! # Lemmas about the curve and patch records of MSH files -/

set_option linter.unusedSectionVars false
set_option linter.unusedSimpArgs false

namespace NS

open Outcome Spec

section Data
variable {K : Type}

theorem rows_get {α : Type} {k n : ℕ} {g : ℕ → List α} (hg : ∀ i < n, (g i).length = k) (rest : List α)
    {i j : ℕ} (hi : i < n) (hj : j < k) :
    ((arr n g).flatten ++ rest)[i * k + j]? = (g i)[j]? := by
  induction n generalizing rest with
  | zero => omega
  | succ n ih =>
    rw [arr_succ, List.flatten_append, List.append_assoc]
    rcases Nat.lt_succ_iff_lt_or_eq.1 hi with h | rfl
    · exact ih (fun i h => hg i (by omega)) _ h
    · have hl : (arr i g).flatten.length = i * k := by
        rw [flatten_length (k := k) _ (by
          intro r hr
          obtain ⟨a, ha, rfl⟩ := mem_arr.1 hr
          exact hg a (by omega)), arr_length]
      rw [List.getElem?_append_right (by omega), hl, Nat.add_sub_cancel_left]
      simp only [List.flatten_cons, List.flatten_nil, List.append_nil]
      rw [List.getElem?_append_left (by rw [hg i (by omega)]; exact hj)]

theorem rows_rest {α : Type} {k n : ℕ} {g : ℕ → List α} (hg : ∀ i < n, (g i).length = k) (rest : List α)
    (j : ℕ) : ((arr n g).flatten ++ rest)[n * k + j]? = rest[j]? := by
  have hl : (arr n g).flatten.length = n * k := by
    rw [flatten_length (k := k) _ (by
      intro r hr
      obtain ⟨a, ha, rfl⟩ := mem_arr.1 hr
      exact hg a ha), arr_length]
  rw [List.getElem?_append_right (by omega), hl, Nat.add_sub_cancel_left]

theorem rows_length {α : Type} {k n : ℕ} {g : ℕ → List α} (hg : ∀ i < n, (g i).length = k) :
    (arr n g).flatten.length = n * k := by
  rw [flatten_length (k := k) _ (by
    intro r hr
    obtain ⟨a, ha, rfl⟩ := mem_arr.1 hr
    exact hg a ha), arr_length]

theorem arr_arr_flatten {α : Type} (m n : ℕ) (f : ℕ → ℕ → α) :
    (arr m (fun i => arr n (f i))).flatten = gridOf m n f := by
  apply eq_gridOf
  · rw [rows_length (k := n) (by intro i _; exact arr_length _ _)]
  · intro i hi j hj
    have := rows_get (n := m) (k := n) (g := fun i => arr n (f i)) (by intro i _; exact arr_length _ _) []
      hi hj
    rw [List.append_nil] at this
    rw [this, arr_getElem?]
    simp [hj]

end Data

section
variable {K : Type} [Field K] [LinearOrder K] [IsStrictOrderedRing K] [FloorRing K]

/-- The row written for a point, with its weight if there is one. -/
def row3 (P : ℕ → P3 K) (i : ℕ) : List K := xyz (P i)

/-- The row written for a point and its weight. -/
def row4 (P : ℕ → P3 K) (w : ℕ → K) (i : ℕ) : List K := xyz (P i) ++ [w i]

theorem row3_len (P : ℕ → P3 K) (n : ℕ) : ∀ i < n, (row3 P i).length = 3 := fun _ _ => rfl

theorem row4_len (P : ℕ → P3 K) (w : ℕ → K) (n : ℕ) : ∀ i < n, (row4 P w i).length = 4 := fun _ _ => rfl

theorem extractCtrl_row3 (P : ℕ → P3 K) (n : ℕ) (rest : List K) :
    extractCtrl false n ((arr n (row3 P)).flatten ++ rest) = ok (arr n P) := by
  unfold extractCtrl
  apply tab_eq
  intro i hi
  have h0 := rows_get (row3_len P n) rest hi (show 0 < 3 by norm_num)
  rw [Nat.add_zero] at h0
  have h1 := rows_get (row3_len P n) rest hi (show 1 < 3 by norm_num)
  have h2 := rows_get (row3_len P n) rest hi (show 2 < 3 by norm_num)
  simp only [Bool.false_eq_true, if_false]
  rw [rd_eq_ok.2 (h0.trans rfl), ok_bind, rd_eq_ok.2 (h1.trans rfl), ok_bind, rd_eq_ok.2 (h2.trans rfl)]
  rfl

theorem extractCtrl_row4 (P : ℕ → P3 K) (w : ℕ → K) (n : ℕ) (rest : List K) :
    extractCtrl true n ((arr n (row4 P w)).flatten ++ rest) = ok (arr n P) := by
  unfold extractCtrl
  apply tab_eq
  intro i hi
  have h0 := rows_get (row4_len P w n) rest hi (show 0 < 4 by norm_num)
  rw [Nat.add_zero] at h0
  have h1 := rows_get (row4_len P w n) rest hi (show 1 < 4 by norm_num)
  have h2 := rows_get (row4_len P w n) rest hi (show 2 < 4 by norm_num)
  simp only [if_true]
  rw [rd_eq_ok.2 (h0.trans rfl), ok_bind, rd_eq_ok.2 (h1.trans rfl), ok_bind, rd_eq_ok.2 (h2.trans rfl)]
  rfl

theorem extractWeights_row4 (P : ℕ → P3 K) (w : ℕ → K) (n : ℕ) (rest : List K) :
    extractWeights n ((arr n (row4 P w)).flatten ++ rest) = ok (arr n w) := by
  unfold extractWeights
  apply tab_eq
  intro i hi
  have h3 := rows_get (row4_len P w n) rest hi (show 3 < 4 by norm_num)
  rw [rd_eq_ok.2 (h3.trans rfl)]

theorem extractKnots_eq {data : List K} {o k : ℕ} {U : ℕ → K} (h : ∀ i < k, data[o + i]? = some (U i)) :
    extractKnots o k data = ok (arr k U) := by
  unfold extractKnots
  exact tab_eq (fun i hi => rd_eq_ok.2 (h i hi))

/-- A list is the table of its entries. -/
theorem rd_getD {α : Type} (l : List α) (d : α) {i : ℕ} (h : i < l.length) : rd l i = ok (l.getD i d) := by
  rw [rd_eq_ok]
  simp [List.getD, h]

/-- How a curve or patch class hands out points: `co` gives `dim` coordinates, with a zero appended in the
plane they are those of `e p`. -/
def Coords {V : Type} (dim : ℕ) (co : V → List K) (e : V → P3 K) : Prop :=
  (dim = 3 ∧ ∀ p, co p = xyz (e p)) ∨ (dim = 2 ∧ ∀ p, co p ++ [0] = xyz (e p))

theorem Coords.row {V : Type} {dim : ℕ} {co : V → List K} {e : V → P3 K} (h : Coords dim co e) (p : V) :
    (if dim = 2 then co p ++ [0] else co p) = xyz (e p) := by
  rcases h with ⟨rfl, h⟩ | ⟨rfl, h⟩
  · simp [h]
  · simp [h]

theorem Coords.dim {V : Type} {dim : ℕ} {co : V → List K} {e : V → P3 K} (h : Coords dim co e) :
    ¬ (dim ≠ 3 ∧ dim ≠ 2) := by
  rcases h with ⟨rfl, h⟩ | ⟨rfl, h⟩ <;> simp

theorem addCurve_plain {V : Type} {a : CurveApi K} {co : V → List K} {e : V → P3 K}
    (hd : Coords a.dim co e) {d : ℕ} (hdeg : a.degree = d) (hw : a.numWeights = 0) {P : ℕ → V}
    (hP : ∀ i < a.numCtrl, a.ctrl i = ok (co (P i))) {U : ℕ → K}
    (hU : ∀ i < a.numKnots, a.knot i = ok (U i)) (tag : ℕ) :
    addCurve a tag = ok ⟨tag, a.ctype, d, a.numCtrl, a.numKnots, false,
      (arr a.numCtrl (row3 (fun i => e (P i)))).flatten ++ arr a.numKnots U⟩ := by
  unfold addCurve
  rw [throwIf_false hd.dim, ok_bind]
  rw [tab_eq (g := row3 (fun i => e (P i))) (by
    intro i hi
    rw [hP i hi, ok_bind, hw]
    simp only [gt_iff_lt, lt_irrefl, if_false]
    rw [hd.row]
    rfl), ok_bind, tab_eq hU, ok_bind, hdeg, hw]
  simp [toSize]

theorem addCurve_weighted {V : Type} {a : CurveApi K} {co : V → List K} {e : V → P3 K}
    (hd : Coords a.dim co e) {d : ℕ} (hdeg : a.degree = d) (hw : 0 < a.numWeights) {P : ℕ → V}
    (hP : ∀ i < a.numCtrl, a.ctrl i = ok (co (P i))) {w : ℕ → K}
    (hW : ∀ i < a.numCtrl, a.weight i = ok (w i)) {U : ℕ → K}
    (hU : ∀ i < a.numKnots, a.knot i = ok (U i)) (tag : ℕ) :
    addCurve a tag = ok ⟨tag, a.ctype, d, a.numCtrl, a.numKnots, true,
      (arr a.numCtrl (row4 (fun i => e (P i)) w)).flatten ++ arr a.numKnots U⟩ := by
  unfold addCurve
  rw [throwIf_false hd.dim, ok_bind]
  rw [tab_eq (g := row4 (fun i => e (P i)) w) (by
    intro i hi
    rw [hP i hi, ok_bind]
    simp only [gt_iff_lt, hw, if_true]
    rw [hd.row, hW i hi]
    rfl), ok_bind, tab_eq hU, ok_bind, hdeg]
  simp [hw, toSize]

/-- The entries of a mapped list. -/
theorem arr_getD_map {α β : Type} (l : List α) (d : α) (e : α → β) :
    arr l.length (fun i => e (l.getD i d)) = l.map e := by
  conv_rhs => rw [eq_arr l d]
  rw [arr_map]

section
variable {V : Type} [AddCommGroup V] [Module K V]

theorem roundtrip_bezier {dim : ℕ} {co : V → List K} {e : V → P3 K} (hd : Coords dim co e)
    {c : Bezier V} (h : c.ctrl ≠ []) (tag : ℕ) :
    ∃ s, addCurve ((AnyCurve.bezier (K := K) c).api dim co) tag = ok s ∧ s.tag = tag ∧
      loadCurve s = ok (.bezier ⟨c.ctrl.map e, false⟩) := by
  have hl : 0 < c.ctrl.length := List.length_pos_iff.2 h
  refine ⟨_, addCurve_plain (a := (AnyCurve.bezier (K := K) c).api dim co) hd
    (d := c.ctrl.length - 1) (by simp only [AnyCurve.api, Bezier.degree]; omega) rfl
    (P := fun i => c.ctrl.getD i 0) ?_ (U := fun _ => 0) ?_ tag, rfl, ?_⟩
  · intro i hi
    simp only [AnyCurve.api, Bezier.degree] at hi ⊢
    rw [rd_getD c.ctrl 0 (by omega)]
    rfl
  · intro i hi
    simp only [AnyCurve.api] at hi
    omega
  · have hn : (c.degree + 1).toNat = c.ctrl.length := by unfold Bezier.degree; omega
    simp only [AnyCurve.api, hn]
    unfold loadCurve loadBezier
    simp only [if_true]
    rw [assert_true trivial, ok_bind, assert_true (by simp), ok_bind, assert_true (by omega), ok_bind,
      assert_true (by rw [List.length_append, rows_length (row3_len _ _)]; simp), ok_bind,
      extractCtrl_row3, ok_bind, arr_getD_map c.ctrl 0 e]
    rfl

theorem roundtrip_bspline {dim : ℕ} {co : V → List K} {e : V → P3 K} (hd : Coords dim co e)
    {c : BSpline K V} (h : 0 ≤ c.degree) (tag : ℕ) :
    ∃ s, addCurve ((AnyCurve.bspline (K := K) c).api dim co) tag = ok s ∧ s.tag = tag ∧
      loadCurve s = ok (.bspline ⟨c.ctrl.map e, c.knots, false, none⟩) := by
  refine ⟨_, addCurve_plain (a := (AnyCurve.bspline (K := K) c).api dim co) hd
    (d := c.degree.toNat) (by simp only [AnyCurve.api]; omega) rfl
    (P := fun i => c.ctrl.getD i 0) ?_ (U := fun i => c.knots.getD i 0) ?_ tag, rfl, ?_⟩
  · intro i hi
    simp only [AnyCurve.api] at hi ⊢
    rw [rd_getD c.ctrl 0 (by omega)]
    rfl
  · intro i hi
    simp only [AnyCurve.api] at hi ⊢
    rw [rd_getD c.knots 0 (by omega)]
  · simp only [AnyCurve.api]
    unfold loadCurve loadBSpline
    unfold BSpline.degree at h
    simp only [if_true, show (3 : ℕ) ≠ 1 by norm_num, if_false]
    rw [assert_true (by simp), ok_bind, assert_true (by unfold BSpline.degree; omega), ok_bind,
      assert_true (by rw [List.length_append, rows_length (row3_len _ _)]; simp), ok_bind,
      extractCtrl_row3, ok_bind, arr_getD_map c.ctrl 0 e]
    simp only [Bool.false_eq_true, if_false]
    rw [extractKnots_eq (U := fun i => c.knots.getD i 0) (by
      intro i hi
      rw [rows_rest (row3_len _ _), arr_getElem?]
      simp [hi]), ok_bind, ← eq_arr c.knots 0]
    rfl

theorem roundtrip_rational {dim : ℕ} {co : V → List K} {e : V → P3 K} (hd : Coords dim co e)
    {c : RationalBezier K V} (h : c.base.ctrl ≠ []) (hw : c.base.ctrl.length = c.weights.length) (tag : ℕ) :
    ∃ s, addCurve ((AnyCurve.rational (K := K) c).api dim co) tag = ok s ∧ s.tag = tag ∧
      loadCurve s = ok (.rational ⟨⟨c.base.ctrl.map e, false⟩, c.weights,
        ⟨homog (c.base.ctrl.map e) c.weights, false⟩⟩) := by
  have hl : 0 < c.base.ctrl.length := List.length_pos_iff.2 h
  have hn : (c.base.degree + 1).toNat = c.base.ctrl.length := by unfold Bezier.degree; omega
  refine ⟨_, addCurve_weighted (a := (AnyCurve.rational (K := K) c).api dim co) hd
    (d := c.base.ctrl.length - 1) (by simp only [AnyCurve.api, Bezier.degree]; omega)
    (by simp only [AnyCurve.api, hn]; omega)
    (P := fun i => c.base.ctrl.getD i 0) ?_ (w := fun i => c.weights.getD i 0) ?_ (U := fun _ => 0) ?_ tag,
    rfl, ?_⟩
  · intro i hi
    simp only [AnyCurve.api, hn] at hi ⊢
    rw [rd_getD c.base.ctrl 0 (by omega)]
    rfl
  · intro i hi
    simp only [AnyCurve.api, hn] at hi ⊢
    rw [rd_getD c.weights 0 (by omega)]
  · intro i hi
    simp only [AnyCurve.api] at hi
    omega
  · simp only [AnyCurve.api, hn]
    unfold loadCurve loadRational
    simp only [if_true, show (2 : ℕ) ≠ 1 by norm_num, show (2 : ℕ) ≠ 3 by norm_num, if_false]
    rw [assert_true trivial, ok_bind, ok_bind,
      assert_true (by rw [List.length_append, rows_length (row4_len _ _ _)]; simp), ok_bind,
      extractCtrl_row4, ok_bind, arr_getD_map c.base.ctrl 0 e, extractWeights_row4, ok_bind, hw,
      ← eq_arr c.weights 0]
    unfold RationalBezier.init
    rw [homogenize_eq (by simpa using hw)]
    rfl

theorem roundtrip_nurbs {dim : ℕ} {co : V → List K} {e : V → P3 K} (hd : Coords dim co e)
    {c : NURBS K V} (h : 0 ≤ c.base.degree) (h0 : c.base.ctrl ≠ [])
    (hw : c.base.ctrl.length = c.weights.length) (tag : ℕ) :
    ∃ s, addCurve ((AnyCurve.nurbs (K := K) c).api dim co) tag = ok s ∧ s.tag = tag ∧
      loadCurve s = ok (.nurbs ⟨⟨c.base.ctrl.map e, c.base.knots, false, none⟩, c.weights,
        ⟨homog (c.base.ctrl.map e) c.weights, c.base.knots, false, none⟩⟩) := by
  have hl : 0 < c.base.ctrl.length := List.length_pos_iff.2 h0
  refine ⟨_, addCurve_weighted (a := (AnyCurve.nurbs (K := K) c).api dim co) hd
    (d := c.base.degree.toNat) (by simp only [AnyCurve.api]; omega)
    (by simp only [AnyCurve.api]; omega)
    (P := fun i => c.base.ctrl.getD i 0) ?_ (w := fun i => c.weights.getD i 0) ?_
    (U := fun i => c.base.knots.getD i 0) ?_ tag, rfl, ?_⟩
  · intro i hi
    simp only [AnyCurve.api] at hi ⊢
    rw [rd_getD c.base.ctrl 0 (by omega)]
    rfl
  · intro i hi
    simp only [AnyCurve.api] at hi ⊢
    rw [rd_getD c.weights 0 (by omega)]
  · intro i hi
    simp only [AnyCurve.api] at hi ⊢
    rw [rd_getD c.base.knots 0 (by omega)]
  · simp only [AnyCurve.api]
    unfold loadCurve loadNURBS
    unfold BSpline.degree at h
    simp only [if_true, show (4 : ℕ) ≠ 1 by norm_num, show (4 : ℕ) ≠ 3 by norm_num,
      show (4 : ℕ) ≠ 2 by norm_num, if_false]
    rw [assert_true trivial, ok_bind, assert_true (by unfold BSpline.degree; omega), ok_bind,
      assert_true (by rw [List.length_append, rows_length (row4_len _ _ _)]; simp), ok_bind,
      extractCtrl_row4, ok_bind, arr_getD_map c.base.ctrl 0 e]
    rw [extractKnots_eq (U := fun i => c.base.knots.getD i 0) (by
      intro i hi
      rw [rows_rest (row4_len _ _ _), arr_getElem?]
      simp [hi]), ok_bind, ← eq_arr c.base.knots 0, extractWeights_row4, ok_bind, hw,
      ← eq_arr c.weights 0]
    unfold NURBS.init
    rw [homogenize_eq (by simpa using hw)]
    rfl


/-! ### Patches -/

theorem gridOf_map {α β : Type} {m n : ℕ} (f : ℕ → ℕ → α) (e : α → β) :
    (gridOf m n f).map e = gridOf m n (fun i j => e (f i j)) := by
  unfold gridOf; rw [arr_map]

theorem gridPoint_map {W : Type} {m n : ℕ} {g : List V} (hl : g.length = m * n) (e : V → W) :
    gridOf m n (fun i j => e (gridPoint g n i j)) = g.map e := by
  conv_rhs => rw [exists_gridOf (0 : V) hl]
  rw [gridOf_map]
  rfl

theorem addPatch_plain {a : PatchApi K} {co : V → List K} {e : V → P3 K}
    (hd : Coords a.dim co e) {du dv m n : ℕ} (hdu : a.degU = ok du) (hdv : a.degV = ok dv)
    (hm : a.numCtrlU = ok m) (hn : a.numCtrlV = ok n) (hwu : a.numWeightsU = ok 0)
    (hwv : a.numWeightsV = ok 0) {P : ℕ → ℕ → V}
    (hP : ∀ i < m, ∀ j < n, a.ctrl i j = ok (co (P i j))) {U W : ℕ → K}
    (hU : ∀ i < a.numKnotsU, a.knotU i = ok (U i)) (hV : ∀ i < a.numKnotsV, a.knotV i = ok (W i))
    {pt : ℕ} (hpt : (if a.numKnotsU = 0 ∧ a.numKnotsV = 0 then 1 else 3) = pt) (tag : ℕ) :
    addPatch a tag = ok ⟨tag, pt, du, dv, m * n,
      a.numKnotsU, a.numKnotsV, false,
      (arr (m * n) (row3 (fun k => e (P (k / n) (k % n))))).flatten ++
        (arr a.numKnotsU U ++ arr a.numKnotsV W)⟩ := by
  unfold addPatch
  rw [hdu, ok_bind, hdv, ok_bind, hm, ok_bind, hn, ok_bind, hwu, ok_bind, hwv, ok_bind]
  have := tab_eq (n := m) (f := fun i => tab n (fun j => do
      let x ← a.ctrl i j
      let row := if a.dim = 2 then x ++ [0] else x
      if 0 > 0 then do
        let w ← a.weight i j
        pure (row ++ [w])
      else pure row)) (g := fun i => arr n (fun j => xyz (e (P i j)))) (by
    intro i hi
    apply tab_eq
    intro j hj
    rw [hP i hi j hj, ok_bind]
    simp only [gt_iff_lt, lt_irrefl, if_false]
    rw [hd.row]
    rfl)
  simp only [] at this ⊢
  rw [this, ok_bind, tab_eq hU, ok_bind, tab_eq hV, ok_bind, arr_arr_flatten]
  simp only [and_self, if_true, gt_iff_lt, lt_irrefl, decide_false, List.append_assoc, hpt]
  rfl

theorem addPatch_weighted {a : PatchApi K} {co : V → List K} {e : V → P3 K}
    (hd : Coords a.dim co e) {du dv m n wu wv : ℕ} (hdu : a.degU = ok du) (hdv : a.degV = ok dv)
    (hm : a.numCtrlU = ok m) (hn : a.numCtrlV = ok n) (hwu : a.numWeightsU = ok wu)
    (hwv : a.numWeightsV = ok wv) (hw : 0 < wu) {P : ℕ → ℕ → V}
    (hP : ∀ i < m, ∀ j < n, a.ctrl i j = ok (co (P i j))) {w : ℕ → ℕ → K}
    (hW : ∀ i < m, ∀ j < n, a.weight i j = ok (w i j)) {U W : ℕ → K}
    (hU : ∀ i < a.numKnotsU, a.knotU i = ok (U i)) (hV : ∀ i < a.numKnotsV, a.knotV i = ok (W i))
    {pt : ℕ} (hpt : (if a.numKnotsU = 0 ∧ a.numKnotsV = 0 then 2 else 4) = pt) (tag : ℕ) :
    addPatch a tag = ok ⟨tag, pt, du, dv, m * n,
      a.numKnotsU, a.numKnotsV, true,
      (arr (m * n) (row4 (fun k => e (P (k / n) (k % n))) (fun k => w (k / n) (k % n)))).flatten ++
        (arr a.numKnotsU U ++ arr a.numKnotsV W)⟩ := by
  unfold addPatch
  rw [hdu, ok_bind, hdv, ok_bind, hm, ok_bind, hn, ok_bind, hwu, ok_bind, hwv, ok_bind]
  have := tab_eq (n := m) (f := fun i => tab n (fun j => do
      let x ← a.ctrl i j
      let row := if a.dim = 2 then x ++ [0] else x
      if wu > 0 then do
        let w ← a.weight i j
        pure (row ++ [w])
      else pure row)) (g := fun i => arr n (fun j => xyz (e (P i j)) ++ [w i j])) (by
    intro i hi
    apply tab_eq
    intro j hj
    rw [hP i hi j hj, ok_bind]
    simp only [gt_iff_lt, hw, if_true]
    rw [hd.row, hW i hi j hj]
    rfl)
  simp only [] at this ⊢
  rw [this, ok_bind, tab_eq hU, ok_bind, tab_eq hV, ok_bind, arr_arr_flatten]
  have h0 : ¬ (wu = 0 ∧ wv = 0) := by omega
  simp only [h0, if_false, gt_iff_lt, hw, decide_true, List.append_assoc, hpt]
  rfl

theorem rd_grid {m n i j : ℕ} {α : Type} (d : α) {g : List α} (hl : g.length = m * n) (hi : i < m)
    (hj : j < n) : rd g (i * n + j) = ok (g.getD (i * n + j) d) :=
  rd_getD g d (by rw [hl]; exact lin_lt hi hj)

theorem roundtrip_bezierPatch {dim : ℕ} {co : V → List K} {e : V → P3 K} (hd : Coords dim co e)
    {p : BezierPatch V} {m n : ℕ} (h : p.WellFormed m n) (tag : ℕ) :
    ∃ s, addPatch ((AnyPatch.bezier (K := K) p).api dim co) tag = ok s ∧ s.tag = tag ∧
      loadPatch s = ok (.bezier ⟨p.grid.map e, p.degU, p.degV, false, false, -1, -1⟩) := by
  have hu : p.numU = ok (m + 1) := by unfold BezierPatch.numU; rw [h.degreeU]; rfl
  have hv : p.numV = ok (n + 1) := by unfold BezierPatch.numV; rw [h.degreeV]; rfl
  refine ⟨_, addPatch_plain (a := (AnyPatch.bezier (K := K) p).api dim co) hd h.degreeU h.degreeV
    hu hv rfl rfl (P := gridPoint p.grid (n + 1)) ?_ (U := fun _ => 0) (W := fun _ => 0) ?_ ?_
    rfl tag, rfl, ?_⟩
  · intro i hi j hj
    simp only [AnyPatch.api, BezierPatch.getControlPoint, BezierPatch.linearIndex]
    rw [hv, ok_bind, pure_eq, ok_bind, rd_grid 0 h.len hi hj]
    rfl
  · intro i hi
    simp only [AnyPatch.api] at hi
    omega
  · intro i hi
    simp only [AnyPatch.api] at hi
    omega
  · simp only [AnyPatch.api, and_self, if_true]
    unfold loadPatch loadBezierPatch
    simp only [if_true]
    rw [assert_true trivial, ok_bind, ok_bind, ok_bind, assert_true (by simp), ok_bind, extractCtrl_row3,
      ok_bind]
    have hg := gridPoint_map h.len e
    unfold gridOf at hg
    rw [hg]
    have hi := BezierPatch.init_ok (p := ⟨p.grid.map e, (m : ℤ), (n : ℤ), false, false, -1, -1⟩)
      (m := m) (n := n) ⟨rfl, rfl, by simpa using h.len⟩
    simp only [BezierPatch.ofGrid, BezierPatch.new]
    rw [hi, ok_bind, h.degU, h.degV]
    rfl

theorem roundtrip_rationalPatch {dim : ℕ} {co : V → List K} {e : V → P3 K} (hd : Coords dim co e)
    {p : RationalBezierPatch K V} (h : p.Sync) (tag : ℕ) :
    ∃ s, addPatch ((AnyPatch.rational (K := K) p).api dim co) tag = ok s ∧ s.tag = tag ∧
      loadPatch s = ok (.rational ⟨⟨p.base.grid.map e, p.base.degU, p.base.degV, false, false, -1, -1⟩,
        p.weights,
        ⟨homog (p.base.grid.map e) p.weights, p.base.degU, p.base.degV, false, false, -1, -1⟩⟩) := by
  obtain ⟨m, n, hb, hh⟩ := h.wf
  have hu : p.hom.numU = ok (m + 1) := by unfold BezierPatch.numU; rw [hh.degreeU]; rfl
  have hv : p.hom.numV = ok (n + 1) := by unfold BezierPatch.numV; rw [hh.degreeV]; rfl
  have hwl : p.weights.length = (m + 1) * (n + 1) := h.len ▸ hb.len
  refine ⟨_, addPatch_weighted (a := (AnyPatch.rational (K := K) p).api dim co) hd hb.degreeU hb.degreeV
    hu hv hu hv (by omega) (P := gridPoint p.base.grid (n + 1)) ?_ (w := gridPoint p.weights (n + 1)) ?_
    (U := fun _ => 0) (W := fun _ => 0) ?_ ?_
    rfl tag, rfl, ?_⟩
  · intro i hi j hj
    simp only [AnyPatch.api, RationalBezierPatch.getControlPoint, RationalBezierPatch.linearIndex,
      BezierPatch.linearIndex]
    rw [hv, ok_bind, pure_eq, ok_bind, rd_grid 0 hb.len hi hj]
    rfl
  · intro i hi j hj
    simp only [AnyPatch.api, RationalBezierPatch.getWeight, RationalBezierPatch.linearIndex,
      BezierPatch.linearIndex]
    rw [hv, ok_bind, pure_eq, ok_bind, rd_grid 0 hwl hi hj]
    rfl
  · intro i hi
    simp only [AnyPatch.api] at hi
    omega
  · intro i hi
    simp only [AnyPatch.api] at hi
    omega
  · simp only [AnyPatch.api, and_self, if_true]
    unfold loadPatch loadRationalPatch
    simp only [if_true, show (2 : ℕ) ≠ 1 by norm_num, show (2 : ℕ) ≠ 3 by norm_num, if_false]
    rw [assert_true trivial, ok_bind, ok_bind, ok_bind, ok_bind, extractCtrl_row4,
      ok_bind, extractWeights_row4, ok_bind]
    have hg := gridPoint_map hb.len e
    have hg' := gridPoint_map hwl id
    unfold gridOf at hg hg'
    simp only [id, List.map_id] at hg'
    rw [hg, hg']
    simp only [BezierPatch.ofGrid, BezierPatch.new]
    rw [hb.degU, hb.degV]
    rw [(RationalBezierPatch.init_iff
      (RationalBezierPatch.mk (BezierPatch.mk (p.base.grid.map e) m n false false (-1) (-1)) p.weights
        (BezierPatch.mk [] (-1) (-1) false false (-1) (-1)))
      (RationalBezierPatch.mk (BezierPatch.mk (p.base.grid.map e) m n false false (-1) (-1)) p.weights
        (BezierPatch.mk (homog (p.base.grid.map e) p.weights) m n false false (-1) (-1)))).2
      ⟨⟨by simpa using h.len, rfl, BezierPatch.init_ok (m := m) (n := n)
        ⟨rfl, rfl, by simpa using hb.len⟩⟩, rfl, rfl⟩]
    rfl

/-- The numbers of knots and points of a B-spline patch fit its degrees. -/
structure Sized (p : BSplinePatch K V) (m n du dv : ℕ) : Prop where
  degU : p.degU = du
  degV : p.degV = dv
  lenU : p.knotsU.length = m + du + 1
  lenV : p.knotsV.length = n + dv + 1
  grid : p.grid.length = m * n

section
variable {p : BSplinePatch K V} {m n du dv : ℕ}

theorem Sized.degreeU (h : Sized p m n du dv) : p.degreeU = ok du := by
  unfold BSplinePatch.degreeU
  rw [h.degU, assert_true (by omega)]
  simp

theorem Sized.degreeV (h : Sized p m n du dv) : p.degreeV = ok dv := by
  unfold BSplinePatch.degreeV
  rw [h.degV, assert_true (by omega)]
  simp

theorem Sized.numU (h : Sized p m n du dv) : p.numU = ok m := by
  unfold BSplinePatch.numU
  have := h.lenU
  rw [h.degreeU, ok_bind, assert_true (by omega), ok_bind, pure_eq]
  congr 1; omega

theorem Sized.numV (h : Sized p m n du dv) : p.numV = ok n := by
  unfold BSplinePatch.numV
  have := h.lenV
  rw [h.degreeV, ok_bind, assert_true (by omega), ok_bind, pure_eq]
  congr 1; omega

theorem Sized.getControlPoint (h : Sized p m n du dv) {i j : ℕ} (hi : i < m) (hj : j < n) :
    p.getControlPoint i j = ok (gridPoint p.grid n i j) := by
  unfold BSplinePatch.getControlPoint BSplinePatch.linearIndex
  rw [h.numV, ok_bind, pure_eq, ok_bind, rd_grid 0 h.grid hi hj]
  rfl

theorem Sized.init (h : Sized p m n du dv) :
    p.init = ok { p with isoU := arr n (p.colU m n), isoV := arr m (p.rowV n) } := by
  have h1 : p.allIsoU = ok (arr n (p.colU m n)) := by
    unfold BSplinePatch.allIsoU
    rw [h.numU, ok_bind, h.numV, ok_bind]
    apply tab_eq
    intro j hj
    rw [tab_eq (g := fun i => p.pts n i j) (fun i hi => h.getControlPoint hi hj)]
    rfl
  have h2 : p.allIsoV = ok (arr m (p.rowV n)) := by
    unfold BSplinePatch.allIsoV
    rw [h.numU, ok_bind, h.numV, ok_bind]
    apply tab_eq
    intro i hi
    rw [tab_eq (g := fun j => p.pts n i j) (fun j hj => h.getControlPoint hi hj)]
    rfl
  have hg := h.grid
  have hu := h.lenU
  have hv := h.lenV
  unfold BSplinePatch.init
  rw [h.degreeU, ok_bind, h.degreeV, ok_bind, throwIf_false, ok_bind, h1, ok_bind, h2, ok_bind]
  · rfl
  · rw [hu, hv, hg]
    push_cast
    rw [show ((m : ℤ) + du + 1 - du - 1) = m by ring, show ((n : ℤ) + dv + 1 - dv - 1) = n by ring]
    simp

theorem sized_of_init {q : BSplinePatch K V} (h : p.init = ok q) : ∃ m n du dv, Sized p m n du dv := by
  unfold BSplinePatch.init at h
  obtain ⟨du, h1, h⟩ := bind_eq_ok.1 h
  obtain ⟨dv, h2, h⟩ := bind_eq_ok.1 h
  obtain ⟨_, h3, h⟩ := bind_eq_ok.1 h
  obtain ⟨iu, h4, h⟩ := bind_eq_ok.1 h
  unfold BSplinePatch.allIsoU at h4
  obtain ⟨m, h5, h4⟩ := bind_eq_ok.1 h4
  obtain ⟨n, h6, h4⟩ := bind_eq_ok.1 h4
  have e1 : p.degU = du := by
    unfold BSplinePatch.degreeU at h1
    by_cases hd : p.degU ≥ 0
    · rw [assert_true hd, ok_bind, pure_eq, ok.injEq] at h1
      omega
    · rw [assert_false hd] at h1; cases h1
  have e2 : p.degV = dv := by
    unfold BSplinePatch.degreeV at h2
    by_cases hd : p.degV ≥ 0
    · rw [assert_true hd, ok_bind, pure_eq, ok.injEq] at h2
      omega
    · rw [assert_false hd] at h2; cases h2
  have e3 : p.knotsU.length = m + du + 1 := by
    unfold BSplinePatch.numU at h5
    rw [h1, ok_bind] at h5
    by_cases hd : p.knotsU.length ≥ du + 1
    · rw [assert_true hd, ok_bind, pure_eq, ok.injEq] at h5
      omega
    · rw [assert_false hd] at h5; cases h5
  have e4 : p.knotsV.length = n + dv + 1 := by
    unfold BSplinePatch.numV at h6
    rw [h2, ok_bind] at h6
    by_cases hd : p.knotsV.length ≥ dv + 1
    · rw [assert_true hd, ok_bind, pure_eq, ok.injEq] at h6
      omega
    · rw [assert_false hd] at h6; cases h6
  refine ⟨m, n, du, dv, e1, e2, e3, e4, ?_⟩
  by_contra hne
  rw [throwIf_true] at h3
  · cases h3
  · intro he
    apply hne
    rw [e3, e4] at he
    push_cast at he
    rw [show ((m : ℤ) + du + 1 - du - 1) = m by ring, show ((n : ℤ) + dv + 1 - dv - 1) = n by ring] at he
    exact_mod_cast he

end

/-- The patch that is read back: no flags, dynamic degrees. -/
def plainPatch (p : BSplinePatch K V) : BSplinePatch K V :=
  { p with perU := false, perV := false, sU := -1, sV := -1, isoU := [], isoV := [] }

theorem Sized.plain {p : BSplinePatch K V} {m n du dv : ℕ} (h : Sized p m n du dv) :
    Sized (plainPatch p) m n du dv := ⟨h.degU, h.degV, h.lenU, h.lenV, h.grid⟩

theorem roundtrip_bsplinePatch {dim : ℕ} {co : V → List K} {e : V → P3 K} (hd : Coords dim co e)
    {p : BSplinePatch K V} {m n du dv : ℕ} (h : Sized p m n du dv) (tag : ℕ) :
    ∃ s q, addPatch ((AnyPatch.bspline (K := K) p).api dim co) tag = ok s ∧ s.tag = tag ∧
      (BSplinePatch.mk (p.grid.map e) p.knotsU p.knotsV p.degU p.degV false false (-1) (-1) [] []).init =
        ok q ∧ loadPatch s = ok (.bspline q) := by
  have hs : Sized (BSplinePatch.mk (p.grid.map e) p.knotsU p.knotsV p.degU p.degV false false (-1) (-1)
    [] []) m n du dv := ⟨h.degU, h.degV, h.lenU, h.lenV, by simpa using h.grid⟩
  have hlu := h.lenU
  have hlv := h.lenV
  refine ⟨_, _, addPatch_plain (a := (AnyPatch.bspline (K := K) p).api dim co) hd h.degreeU h.degreeV
    h.numU h.numV rfl rfl (P := gridPoint p.grid n) ?_ (U := fun i => p.knotsU.getD i 0)
    (W := fun i => p.knotsV.getD i 0) ?_ ?_
    (if_neg (by simp only [AnyPatch.api]; omega)) tag, rfl, hs.init, ?_⟩
  · intro i hi j hj
    simp only [AnyPatch.api]
    rw [h.getControlPoint hi hj]
    rfl
  · intro i hi
    exact rd_getD _ _ hi
  · intro i hi
    exact rd_getD _ _ hi
  · simp only [AnyPatch.api]
    unfold loadPatch loadBSplinePatch
    simp only [if_true, show (3 : ℕ) ≠ 1 by norm_num, if_false]
    rw [assert_true (by omega), ok_bind,
      assert_true (by rw [hlu, hlv]; congr 1 <;> omega), ok_bind, assert_true (by simp), ok_bind,
      extractCtrl_row3, ok_bind]
    simp only [Bool.false_eq_true, if_false]
    rw [extractKnots_eq (U := fun i => p.knotsU.getD i 0) (by
      intro i hi
      rw [rows_rest (row3_len _ _), List.getElem?_append_left (by simpa using hi), arr_getElem?]
      simp [hi]), ok_bind, extractKnots_eq (U := fun i => p.knotsV.getD i 0) (by
      intro i hi
      rw [Nat.add_assoc, rows_rest (row3_len _ _), List.getElem?_append_right (by simp), arr_length,
        Nat.add_sub_cancel_left, arr_getElem?]
      simp [hi]), ok_bind, ← eq_arr p.knotsU 0, ← eq_arr p.knotsV 0]
    have hg := gridPoint_map h.grid e
    unfold gridOf at hg
    rw [hg]
    rw [h.degU, h.degV] at hs ⊢
    rw [hs.init, ok_bind]
    rfl

theorem NURBSPatch.init_unfold (p : NURBSPatch K V) {du dv : ℕ} (h1 : p.weights.length = p.grid.length)
    (h2 : p.degU = du) (h3 : p.degV = dv) {q : BSplinePatch K (V × K)}
    (h4 : BSplinePatch.init (BSplinePatch.mk (homog p.grid p.weights) p.knotsU p.knotsV du dv p.perU p.perV
      p.sU p.sV p.hom.isoU p.hom.isoV) = ok q) : p.init = ok { p with hom := q } := by
  unfold NURBSPatch.init
  rw [throwIf_false (by simp [h1]), ok_bind, homogenize_eq h1.symm, ok_bind, h2, h3,
    NURBSPatch.degreeOf_ok (by omega), ok_bind, NURBSPatch.degreeOf_ok (by omega), ok_bind]
  simp only [Int.toNat_natCast]
  rw [h4]
  rfl

theorem roundtrip_nurbsPatch {dim : ℕ} {co : V → List K} {e : V → P3 K} (hd : Coords dim co e)
    {p : NURBSPatch K V} {m n du dv : ℕ} (hp : p.Sync) (h : Sized p.hom m n du dv) (hm : 0 < m)
    (tag : ℕ) :
    ∃ s q, addPatch ((AnyPatch.nurbs (K := K) p).api dim co) tag = ok s ∧ s.tag = tag ∧
      (BSplinePatch.mk (homog (p.grid.map e) p.weights) p.knotsU p.knotsV p.degU p.degV false false
        (-1) (-1) [] []).init = ok q ∧
      loadPatch s = ok (.nurbs (NURBSPatch.mk (p.grid.map e) p.weights p.knotsU p.knotsV p.degU p.degV
        false false (-1) (-1) q)) := by
  have hdu : p.degU = du := hp.hdegU ▸ h.degU
  have hdv : p.degV = dv := hp.hdegV ▸ h.degV
  have hgl : p.grid.length = m * n := by
    have := h.grid; rwa [hp.grid, homog_length hp.len.symm] at this
  have hwl : p.weights.length = m * n := hp.len ▸ hgl
  have hlu : p.knotsU.length = m + du + 1 := hp.knotsU ▸ h.lenU
  have hlv : p.knotsV.length = n + dv + 1 := hp.knotsV ▸ h.lenV
  have hs : Sized (BSplinePatch.mk (homog (p.grid.map e) p.weights) p.knotsU p.knotsV p.degU p.degV
    false false (-1) (-1) [] []) m n du dv := ⟨hdu, hdv, hlu, hlv, by
      simp only; rw [homog_length (by simp [hgl, hwl])]; simpa using hgl⟩
  refine ⟨_, _, addPatch_weighted (a := (AnyPatch.nurbs (K := K) p).api dim co) hd
    (NURBSPatch.degreeOf_ok hp.degU) (NURBSPatch.degreeOf_ok hp.degV)
    h.numU h.numV h.numU h.numV hm (P := gridPoint p.grid n) ?_ (w := gridPoint p.weights n) ?_
    (U := fun i => p.knotsU.getD i 0) (W := fun i => p.knotsV.getD i 0) ?_ ?_
    (if_neg (by simp only [AnyPatch.api]; omega)) tag, rfl, hs.init, ?_⟩
  · intro i hi j hj
    simp only [AnyPatch.api, NURBSPatch.getControlPoint, NURBSPatch.linearIndex, BSplinePatch.linearIndex]
    rw [h.numV, ok_bind, pure_eq, ok_bind, rd_grid 0 hgl hi hj]
    rfl
  · intro i hi j hj
    simp only [AnyPatch.api, NURBSPatch.getWeight, NURBSPatch.linearIndex, BSplinePatch.linearIndex]
    rw [h.numV, ok_bind, pure_eq, ok_bind, rd_grid 0 hwl hi hj]
    rfl
  · intro i hi
    exact rd_getD _ _ hi
  · intro i hi
    exact rd_getD _ _ hi
  · simp only [AnyPatch.api]
    unfold loadPatch loadNURBSPatch
    simp only [if_true, show (4 : ℕ) ≠ 1 by norm_num, show (4 : ℕ) ≠ 3 by norm_num,
      show (4 : ℕ) ≠ 2 by norm_num, if_false]
    rw [assert_true (by rw [hdu, hdv]; simp; omega), ok_bind,
      assert_true (by
        rw [hlu, hlv, hdu, hdv, Int.toNat_natCast, Int.toNat_natCast,
          show m + du + 1 - du - 1 = m by omega, show n + dv + 1 - dv - 1 = n by omega]), ok_bind, assert_true (by trivial),
      ok_bind, extractCtrl_row4, ok_bind, extractWeights_row4, ok_bind]
    rw [extractKnots_eq (U := fun i => p.knotsU.getD i 0) (by
      intro i hi
      rw [rows_rest (row4_len _ _ _), List.getElem?_append_left (by simpa using hi), arr_getElem?]
      simp [hi]), ok_bind, extractKnots_eq (U := fun i => p.knotsV.getD i 0) (by
      intro i hi
      rw [Nat.add_assoc, rows_rest (row4_len _ _ _), List.getElem?_append_right (by simp), arr_length,
        Nat.add_sub_cancel_left, arr_getElem?]
      simp [hi]), ok_bind, ← eq_arr p.knotsU 0, ← eq_arr p.knotsV 0]
    have hg := gridPoint_map hgl e
    have hg' := gridPoint_map hwl id
    unfold gridOf at hg hg'
    simp only [id, List.map_id] at hg'
    rw [hg, hg']
    rw [hdu, hdv] at hs ⊢
    have := NURBSPatch.init_unfold (NURBSPatch.mk (p.grid.map e) p.weights p.knotsU p.knotsV du dv false
      false (-1) (-1) (BSplinePatch.mk [] [] [] (-1) (-1) false false (-1) (-1) [] [])) (du := du)
      (dv := dv) (by simp [hgl, hwl]) rfl rfl hs.init
    simp only [Int.toNat_natCast]
    rw [this, ok_bind]
    rfl

/-! ### The template degree does not matter for evaluation -/

theorem BSpline.evaluate_sdeg {c : BSpline K V} (h : c.validate = ok ()) (t : K) :
    (BSpline.mk c.ctrl c.knots c.periodic none).evaluate t = c.evaluate t := by
  have h2 : (BSpline.mk c.ctrl c.knots c.periodic none).validate = ok () := by
    unfold BSpline.validate at h ⊢
    by_cases hc : c.degree < 0 ∨
        (c.sdeg.isSome = true ∧ c.sdeg.map (fun d => (d : ℤ)) ≠ some c.degree)
    · rw [throwIf_true hc] at h; cases h
    · push Not at hc
      refine throwIf_false ?_
      rintro (h3 | h3)
      · exact absurd hc.1 (not_le.2 h3)
      · exact Bool.false_ne_true h3.1
  unfold BSpline.evaluate
  rw [h, h2]
  rfl

theorem BSpline.validate_static {C : List V} {U : List K} {per : Bool} {d : ℕ} {z : ℤ}
    (hl : U.length = C.length + d + 1) (hz : z < 0 ∨ z = d) :
    (BSpline.mk C U per (BSplinePatch.staticDeg z)).validate = ok () := by
  unfold BSpline.validate
  apply throwIf_false
  have hd : (BSpline.mk C U per (BSplinePatch.staticDeg z)).degree = d := by
    unfold BSpline.degree
    rw [hl]
    push_cast
    ring
  rw [hd]
  unfold BSplinePatch.staticDeg
  rcases hz with hz | rfl
  · simp [hz]
  · simp [show ¬ ((d : ℤ) < 0) by omega]

theorem tab_congr {α : Type} {n : ℕ} {f g : ℕ → Outcome α} (h : ∀ i < n, f i = g i) :
    tab n f = tab n g := by
  induction n with
  | zero => rfl
  | succ n ih =>
    rw [tab, tab, ih (fun i hi => h i (by omega)), h n (by omega)]

theorem Sized.isoU_eval {p : BSplinePatch K V} {m n du dv : ℕ} (h : Sized p m n du dv)
    (iv : p.isoV = arr m (p.rowV n)) (u v : K) :
    (do let c ← p.isoCurveU v
        c.evaluate u) = (do
      let c ← tab m (fun i => (p.rowV n i).evaluate v)
      (BSpline.mk c p.knotsU p.perU (BSplinePatch.staticDeg p.sU)).evaluate u) := by
  unfold BSplinePatch.isoCurveU
  rw [h.numU, ok_bind, tab_congr (g := fun i => (p.rowV n i).evaluate v) (by
    intro i hi
    rw [iv, rd_arr hi, ok_bind]), bind_assoc]
  rfl

theorem Sized.isoV_eval {p : BSplinePatch K V} {m n du dv : ℕ} (h : Sized p m n du dv)
    (iu : p.isoU = arr n (p.colU m n)) (u v : K) :
    (do let c ← p.isoCurveV u
        c.evaluate v) = (do
      let c ← tab n (fun j => (p.colU m n j).evaluate u)
      (BSpline.mk c p.knotsV p.perV (BSplinePatch.staticDeg p.sV)).evaluate v) := by
  unfold BSplinePatch.isoCurveV
  rw [h.numV, ok_bind, tab_congr (g := fun i => (p.colU m n i).evaluate u) (by
    intro i hi
    rw [iu, rd_arr hi, ok_bind]), bind_assoc]
  rfl

theorem bind_tab_congr {α β : Type} {n : ℕ} {f : ℕ → Outcome α} {F G : List α → Outcome β}
    (h : ∀ l : List α, l.length = n → F l = G l) :
    (do let l ← tab n f; F l) = (do let l ← tab n f; G l) := by
  cases ht : tab n f with
  | ok l => rw [ok_bind, ok_bind, h l (tab_inv ht).1]
  | throw e => rfl
  | ub => rfl

theorem Sized.evaluate_static {p q : BSplinePatch K V} {m n du dv : ℕ} (h : Sized p m n du dv)
    (hi : p.init = ok p) (hq : (BSplinePatch.mk p.grid p.knotsU p.knotsV p.degU p.degV false false (-1) (-1)
      [] []).init = ok q) (hpu : p.perU = false) (hpv : p.perV = false)
    (hu : p.sU < 0 ∨ p.sU = p.degU) (hv : p.sV < 0 ∨ p.sV = p.degV) (u v : K) :
    q.evaluate u v = p.evaluate u v := by
  have hs : Sized (BSplinePatch.mk p.grid p.knotsU p.knotsV p.degU p.degV false false (-1) (-1)
    [] []) m n du dv := ⟨h.degU, h.degV, h.lenU, h.lenV, h.grid⟩
  rw [hs.init, ok.injEq] at hq
  rw [h.init, ok.injEq] at hi
  have iu : p.isoU = arr n (p.colU m n) := by rw [← hi]; rfl
  have iv : p.isoV = arr m (p.rowV n) := by rw [← hi]; rfl
  rw [h.degU] at hu
  rw [h.degV] at hv
  have cu : ∀ C : List V, C.length = m → ∀ t, (BSpline.mk C p.knotsU false none).evaluate t =
      (BSpline.mk C p.knotsU false (BSplinePatch.staticDeg p.sU)).evaluate t := fun C hC =>
    BSpline.evaluate_sdeg (c := BSpline.mk C p.knotsU false (BSplinePatch.staticDeg p.sU))
      (BSpline.validate_static (by rw [hC]; exact h.lenU) hu)
  have cv : ∀ C : List V, C.length = n → ∀ t, (BSpline.mk C p.knotsV false none).evaluate t =
      (BSpline.mk C p.knotsV false (BSplinePatch.staticDeg p.sV)).evaluate t := fun C hC =>
    BSpline.evaluate_sdeg (c := BSpline.mk C p.knotsV false (BSplinePatch.staticDeg p.sV))
      (BSpline.validate_static (by rw [hC]; exact h.lenV) hv)
  have hqs : Sized q m n du dv := by
    subst hq; exact ⟨h.degU, h.degV, h.lenU, h.lenV, h.grid⟩
  have qu : q.isoU = arr n (q.colU m n) := by subst hq; rfl
  have qv : q.isoV = arr m (q.rowV n) := by subst hq; rfl
  have er : ∀ i, q.rowV n i = BSpline.mk (arr n (p.pts n i)) p.knotsV false none := by
    subst hq; intro i; rfl
  have ec : ∀ j, q.colU m n j = BSpline.mk (arr m (fun i => p.pts n i j)) p.knotsU false none := by
    subst hq; intro i; rfl
  have er' : ∀ i, p.rowV n i = BSpline.mk (arr n (p.pts n i)) p.knotsV false
      (BSplinePatch.staticDeg p.sV) := by intro i; unfold BSplinePatch.rowV; rw [hpv]
  have ec' : ∀ j, p.colU m n j = BSpline.mk (arr m (fun i => p.pts n i j)) p.knotsU false
      (BSplinePatch.staticDeg p.sU) := by intro i; unfold BSplinePatch.colU; rw [hpu]
  unfold BSplinePatch.evaluate
  rw [h.isoU_eval iv, h.isoV_eval iu, hqs.isoU_eval qv, hqs.isoV_eval qu, hqs.degU, hqs.degV, h.degU,
    h.degV, hpu, hpv]
  have f1 : q.knotsU = p.knotsU := by subst hq; rfl
  have f2 : q.knotsV = p.knotsV := by subst hq; rfl
  have f3 : q.perU = false := by subst hq; rfl
  have f4 : q.perV = false := by subst hq; rfl
  have f5 : BSplinePatch.staticDeg q.sU = none := by subst hq; rfl
  have f6 : BSplinePatch.staticDeg q.sV = none := by subst hq; rfl
  rw [f1, f2, f3, f4, f5, f6]
  rw [tab_congr (f := fun j => (q.colU m n j).evaluate u) (g := fun j => (p.colU m n j).evaluate u) (by
    intro j _
    rw [ec, ec', cu _ (arr_length _ _)]), tab_congr (f := fun i => (q.rowV n i).evaluate v)
    (g := fun i => (p.rowV n i).evaluate v) (by
    intro j _
    rw [er, er', cv _ (arr_length _ _)])]
  rw [bind_tab_congr (fun l hl => cv l hl v), bind_tab_congr (fun l hl => cu l hl u)]

end

end

end NS
