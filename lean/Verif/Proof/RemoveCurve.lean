import Verif.Proof.RemoveKnot
import Verif.Proof.InsertCurve

/-!
# Knot removal and the curve
-/

set_option linter.unusedSectionVars false
set_option linter.unusedSimpArgs false

namespace NS.BSpline

open Outcome Spec

variable {K V : Type} [Field K] [LinearOrder K] [IsStrictOrderedRing K] [FloorRing K]
  [AddCommGroup V] [Module K V]

/-- Setting: what `remOk_of` provides. -/
structure RemAt (c : BSpline K V) (p r : ℕ) (t : K) : Prop where
  wf : WellFormed c p
  set : RemOk c.knots t p r (c.knots.count t) c.ctrl.length
  block : ∀ i, r - c.knots.count t < i → i ≤ r → knot c.knots i = t

section

variable {c : BSpline K V} {p r : ℕ} {t : K}

theorem knot_remC {n : ℕ} {D : ℕ → V} {i : ℕ} (hi : i + n < c.knots.length) :
    knot (remC c r n D).knots i = if i + n ≤ r then knot c.knots i else knot c.knots (i + n) := by
  unfold remC
  simp only []
  rw [knot_arr (by omega), remU]

theorem remC_knots_length {n : ℕ} {D : ℕ → V} :
    (remC c r n D).knots.length = c.knots.length - n := by
  unfold remC; simp

theorem remC_ctrl_length {n : ℕ} {D : ℕ → V} :
    (remC c r n D).ctrl.length = c.ctrl.length - n := by
  unfold remC; simp

theorem RemAt.lower (h : RemAt c p r t) {n : ℕ} (hn : n ≤ c.knots.count t) {D : ℕ → V} :
    knot (remC c r n D).knots p = knot c.knots p := by
  have g1 := h.set.len
  have g3 := h.set.lo
  have g4 := h.set.hi
  rw [knot_remC (by omega), if_pos (by omega)]

theorem RemAt.upper (h : RemAt c p r t) {n : ℕ} (hn : n ≤ c.knots.count t) {D : ℕ → V} :
    knot (remC c r n D).knots (remC c r n D).ctrl.length = knot c.knots c.ctrl.length := by
  have g1 := h.set.len
  have g3 := h.set.lo
  have g4 := h.set.hi
  rw [remC_ctrl_length, knot_remC (by omega), if_neg (by omega)]
  congr 1; omega

theorem RemAt.wf_remC (h : RemAt c p r t) {n : ℕ} (hn : n ≤ c.knots.count t) (D : ℕ → V) :
    WellFormed (remC c r n D) p := by
  have g1 := h.set.len
  have g3 := h.set.lo
  have g4 := h.set.hi
  refine ⟨?_, h.wf.sdeg, ?_, ?_, ?_⟩
  · rw [remC_knots_length, remC_ctrl_length]; omega
  · rw [remC_ctrl_length]; omega
  · rw [List.pairwise_iff_getElem]
    intro i j hi hj hij
    rw [remC_knots_length] at hi hj
    have e : ∀ i (hi : i < (remC c r n D).knots.length),
        (remC c r n D).knots[i] = knot (remC c r n D).knots i := by
      intro i hi; simp [knot, hi]
    rw [e, e, knot_remC (by omega), knot_remC (by omega)]
    split_ifs
    · exact knot_mono h.set.sorted hij.le (by omega)
    · exact knot_mono h.set.sorted (by omega) (by omega)
    · omega
    · exact knot_mono h.set.sorted (by omega) (by omega)
  · rw [h.lower hn, h.upper hn]
    exact h.wf.dom

theorem RemAt.perm (h : RemAt c p r t) {n : ℕ} (hn : n ≤ c.knots.count t) (D : ℕ → V) :
    c.knots.Perm (List.replicate n t ++ (remC c r n D).knots) := by
  have g1 := h.set.len
  have g3 := h.set.lo
  have g4 := h.set.hi
  have := perm_insU (remC c r n D).knots t (r - n) n (by rw [remC_knots_length]; omega)
  have e : arr ((remC c r n D).knots.length + n) (insU (knot (remC c r n D).knots) t (r - n) n)
      = c.knots := by
    conv_rhs => rw [eq_arr c.knots 0]
    rw [remC_knots_length, show c.knots.length - n + n = c.knots.length by omega]
    apply arr_congr
    intro i hi
    unfold insU
    split_ifs with h1 h2
    · rw [knot_remC (by omega), if_pos (by omega)]; rfl
    · exact (h.block i (by omega) (by omega)).symm
    · rw [knot_remC (by omega), if_neg (by omega), show i - n + n = i by omega]; rfl
  rwa [e] at this

theorem RemAt.count (h : RemAt c p r t) {n : ℕ} (hn : n ≤ c.knots.count t) (D : ℕ → V) :
    (remC c r n D).knots.count t = c.knots.count t - n := by
  have := (h.perm hn D).count_eq t
  rw [List.count_append, List.count_replicate_self] at this
  omega

/-- Inserting one copy into the curve with `k + 1` copies less. -/
theorem remAt_insert (h : RemAt c p r t) {eps : K} (heps : 0 ≤ eps) {k : ℕ}
    (hk : k < c.knots.count t) (hp : c.knots.count t ≤ k + p) (D : ℕ → V) :
    (remC c r (k + 1) D).insertKnot eps t 1 = ok (remC c r k
      (boehm (remA (knot c.knots) t p k) (r - p - k) (r - c.knots.count t) D)) := by
  have g1 := h.set.len
  have g3 := h.set.lo
  have g4 := h.set.hi
  set s := c.knots.count t with hs
  have wf := h.wf_remC (n := k + 1) (by omega) D
  have hlo := h.lower (n := k + 1) (by omega) (D := D)
  have hup := h.upper (n := k + 1) (by omega) (D := D)
  have hpt : knot c.knots p < t :=
    lt_of_le_of_lt (knot_mono h.set.sorted (by omega) (by omega)) h.set.below
  have htn : t < knot c.knots c.ctrl.length :=
    lt_of_lt_of_le h.set.above (knot_mono h.set.sorted (by omega) (by omega))
  obtain ⟨κ, a1, a2, a3, a4, a5, -, -⟩ := locateSpan_spec wf t (Or.inr (by rw [hlo]; exact hpt))
  obtain ⟨b1, b2⟩ := a5 (by rw [hlo]; exact hpt.le) (by rw [hup]; exact htn)
  rw [remC_ctrl_length] at a3
  have hκ : κ = r - (k + 1) := by
    rw [knot_remC (by omega)] at b1 b2
    by_contra hne
    rcases Nat.lt_or_gt_of_ne hne with hlt | hlt
    · rw [if_pos (by omega)] at b2
      have : knot c.knots (κ + 1) ≤ t := by
        rcases Nat.lt_or_ge (r - s) (κ + 1) with h1 | h1
        · exact (h.block _ h1 (by omega)).le
        · exact (knot_mono h.set.sorted h1 (by omega)).trans h.set.below.le
      exact absurd b2 (not_lt.mpr this)
    · rw [if_neg (by omega)] at b1
      have := knot_mono h.set.sorted (i := r + 1) (j := κ + (k + 1)) (by omega) (by omega)
      exact absurd (this.trans b1) (not_le.mpr h.set.above)
  subst hκ
  have hs' : s - (k + 1) = if t = knot (remC c r (k + 1) D).knots (r - (k + 1))
      then (remC c r (k + 1) D).knots.count t else 0 := by
    have e0 : knot (remC c r (k + 1) D).knots (r - (k + 1)) = knot c.knots (r - (k + 1)) := by
      rw [knot_remC (by omega), if_pos (by omega)]
    rw [e0, h.count (by omega)]
    split_ifs with e
    · rfl
    · by_contra hz
      exact e (h.block _ (by omega) (by omega)).symm
  obtain ⟨g, e1, e2⟩ := (insertKnot_eq heps wf (by rw [hlo]; exact hpt.le)
    (by rw [hup]; exact htn.le) a1 (by omega) (by rw [remC_ctrl_length]; omega) a4 hs'
    (r := 1) le_rfl).2 (by omega)
  rw [e1]
  congr 1
  rw [remC_ctrl_length, remC_knots_length] at *
  have q1 : arr (c.ctrl.length - (k + 1) + 1) g = arr (c.ctrl.length - k)
      (boehm (remA (knot c.knots) t p k) (r - p - k) (r - s) D) := by
    rw [show c.ctrl.length - (k + 1) + 1 = c.ctrl.length - k by omega]
    apply arr_congr
    intro i hi
    have hget : ∀ i, i < c.ctrl.length - (k + 1) → (remC c r (k + 1) D).ctrl.getD i 0 = D i := by
      intro i hi
      unfold remC
      exact arr_getD _ _ _ _ hi
    unfold boehm
    split_ifs with h1 h2
    · rw [e2.low i (by omega), hget _ (by omega)]
    · have := e2.mid (i - (r - p - k)) (by omega)
      rw [show r - (k + 1) - p + 1 + (i - (r - p - k)) = i by omega] at this
      rw [this, insR, insR, insR, hget _ (by omega), hget _ (by omega),
        knot_remC (by omega), knot_remC (by omega), if_pos (by omega), if_neg (by omega), remA]
      have x1 : r - (k + 1) - p + (0 + 1) + (i - (r - p - k)) = i := by omega
      have x2 : i - (r - p - k) + (r - (k + 1)) + 1 + (k + 1) = i + p + 1 + k := by omega
      have x3 : r - (k + 1) - p + (i - (r - p - k) + 1) = i := by omega
      have x4 : r - (k + 1) - p + (i - (r - p - k)) = i - 1 := by omega
      rw [x1, x2, x3, x4]
    · rw [e2.high i (by omega) (by omega), hget _ (by omega)]
  have q2 : arr (c.knots.length - (k + 1) + 1)
      (insU (knot (remC c r (k + 1) D).knots) t (r - (k + 1)) 1)
      = arr (c.knots.length - k) (remU (knot c.knots) r k) := by
    rw [show c.knots.length - (k + 1) + 1 = c.knots.length - k by omega]
    apply arr_congr
    intro i hi
    unfold insU remU
    by_cases h1 : i ≤ r - (k + 1)
    · rw [if_pos h1, if_pos (by omega), knot_remC (by omega), if_pos (by omega)]
    · rw [if_neg h1]
      by_cases h2 : i ≤ r - (k + 1) + 1
      · rw [if_pos h2, if_pos (by omega)]
        exact (h.block i (by omega) (by omega)).symm
      · rw [if_neg h2, if_neg (by omega), knot_remC (by omega), if_neg (by omega)]
        congr 1; omega
  rw [q1, q2]
  rfl

end

/-! ### Insertion, one knot at a time -/

theorem insCtrl_zero {u : ℕ → K} {t : K} {κ p s N : ℕ} {P : ℕ → V} :
    InsCtrl u t κ p 0 s N P P := by
  refine ⟨fun _ _ => rfl, fun j h1 h2 => by omega, ?_, fun j h1 h2 => by omega, fun i _ _ => rfl⟩
  intro m hm
  rw [insR]; rfl

/-- `j + 1` insertions are `j` insertions and one more. -/
theorem insCtrl_step {u : ℕ → K} {t : K} {κ p s N j k m : ℕ} {P G G' : ℕ → V} (hpk : p ≤ κ)
    (hjs : j + 1 + s ≤ p) (hm : m = k + j + 1) (h : InsCtrl u t κ p j s N P G)
    (h' : InsCtrl u t κ p (j + 1) s N P G') {i : ℕ} (hi : i < N + j + 1) :
    G' i = boehm (remA (insU u t κ m) t p k) (κ - p + j + 1) (κ - s) G i := by
  unfold boehm
  split_ifs with h1 h2
  · by_cases h3 : i ≤ κ - p
    · rw [h.low i h3, h'.low i h3]
    · have a := h.left (i - (κ - p)) (by omega) (by omega)
      have b := h'.left (i - (κ - p)) (by omega) (by omega)
      rw [show κ - p + (i - (κ - p)) = i by omega] at a b
      rw [a, b]
  · obtain ⟨x, rfl⟩ : ∃ x, i = κ - p + (j + 1) + x := ⟨i - (κ - p + (j + 1)), by omega⟩
    have a := h.mid x (by omega)
    have b := h.mid (x + 1) (by omega)
    rw [h'.mid x (by omega), insR, show κ - p + (j + 1) + x - 1 = κ - p + j + x by omega, a,
      show κ - p + (j + 1) + x = κ - p + j + (x + 1) by omega, b, remA]
    have e1 : insU u t κ m (κ - p + j + (x + 1)) = u (κ - p + j + (x + 1)) := by
      rw [insU, if_pos (by omega)]
    have e2 : insU u t κ m (κ - p + j + (x + 1) + p + 1 + k) = u (x + κ + 1) := by
      rw [insU, if_neg (by omega), if_neg (by omega)]
      congr 1; omega
    rw [e1, e2]
  · by_cases h3 : i < κ + j + 1 - s
    · have a := h.right (κ + j + 1 - s - i) (by omega) (by omega)
      have b := h'.right (κ + j + 1 - s - i) (by omega) (by omega)
      rw [show κ + j - s - (κ + j + 1 - s - i) = i - 1 by omega] at a
      rw [show κ + (j + 1) - s - (κ + j + 1 - s - i) = i by omega] at b
      rw [a, b]
    · rw [h.high _ (by omega) (by omega), h'.high _ (by omega) (by omega)]
      congr 1; omega

end NS.BSpline
