import Mathlib.Analysis.Convex.Basic
import Verif.Proof.InsertKnot

/-!
# Knot insertion keeps the curve
-/

set_option linter.unusedSectionVars false
set_option linter.unusedSimpArgs false

namespace NS.BSpline

open Outcome Spec Polynomial Finset

variable {K V : Type} [Field K] [LinearOrder K] [IsStrictOrderedRing K] [FloorRing K]
  [AddCommGroup V] [Module K V]

variable (K) in
/-- Every convex set containing the points `P` contains the points `P'`. -/
def HullOf (P P' : List V) : Prop :=
  ∀ S : Set V, Convex K S → (∀ q ∈ P, q ∈ S) → ∀ q ∈ P', q ∈ S

theorem HullOf.refl (P : List V) : HullOf K P P := fun _ _ h => h

theorem HullOf.trans {P P' P'' : List V} (h : HullOf K P P') (g : HullOf K P' P'') :
    HullOf K P P'' := fun S hS h0 => g S hS (h S hS h0)

theorem HullOf.of_subset {P P' : List V} (h : ∀ q ∈ P', q ∈ P) : HullOf K P P' :=
  fun _ _ h0 q hq => h0 q (h q hq)

theorem HullOf.of_arr {P : List V} {n : ℕ} {g : ℕ → V}
    (h : ∀ i < n, ∃ j < P.length, g i = P.getD j 0) : HullOf K P (arr n g) := by
  apply HullOf.of_subset
  intro q hq
  obtain ⟨i, hi, rfl⟩ := List.mem_iff_getElem.mp hq
  rw [arr_getElem]
  obtain ⟨j, hj, e⟩ := h i (by simpa using hi)
  rw [e, List.getD_eq_getElem?_getD, List.getElem?_eq_getElem hj, Option.getD_some]
  exact List.getElem_mem hj

theorem insR_convex {u : List K} (hs : u.Pairwise (· ≤ ·)) {t : K} {k p N : ℕ} {P : ℕ → V}
    (hpk : p ≤ k) (hlen : u.length = N + p + 1) (hkN : k < N) (hlt : knot u k < knot u (k + 1))
    (h1 : knot u k ≤ t) (h2 : t ≤ knot u (k + 1)) {S : Set V} (hS : Convex K S)
    (hP : ∀ i < N, P i ∈ S) :
    ∀ j i, j + i ≤ p → insR (knot u) t k p P j i ∈ S := by
  intro j
  induction j with
  | zero =>
    intro i hi
    exact hP _ (by omega)
  | succ j ih =>
    intro i hi
    rw [insR]
    have b1 : knot u (k - p + (j + 1) + i) ≤ knot u k := knot_mono hs (by omega) (by omega)
    have b2 : knot u (k + 1) ≤ knot u (i + k + 1) := knot_mono hs (by omega) (by omega)
    have hd : 0 < knot u (i + k + 1) - knot u (k - p + (j + 1) + i) := by linarith
    have a0 : 0 ≤ (t - knot u (k - p + (j + 1) + i)) /
        (knot u (i + k + 1) - knot u (k - p + (j + 1) + i)) :=
      div_nonneg (by linarith) hd.le
    have a1 : (t - knot u (k - p + (j + 1) + i)) /
        (knot u (i + k + 1) - knot u (k - p + (j + 1) + i)) ≤ 1 := by
      rw [div_le_one hd]; linarith
    exact hS (ih (i + 1) (by omega)) (ih i (by omega)) a0 (by linarith) (by ring)

theorem insCtrl_hull {u : List K} (hs : u.Pairwise (· ≤ ·)) {t : K} {k p r s : ℕ} {c : List V}
    {g : ℕ → V} (hpk : p ≤ k) (hlen : u.length = c.length + p + 1) (hkN : k < c.length)
    (hlt : knot u k < knot u (k + 1)) (h1 : knot u k ≤ t) (h2 : t ≤ knot u (k + 1))
    (hrs : r + s ≤ p) (hg : InsCtrl (knot u) t k p r s c.length (fun i => c.getD i 0) g) :
    HullOf K c (arr (c.length + r) g) := by
  intro S hS hc q hq
  have hP : ∀ i < c.length, (fun i => c.getD i 0) i ∈ S := by
    intro i hi
    apply hc
    simp only []
    rw [List.getD_eq_getElem?_getD, List.getElem?_eq_getElem hi, Option.getD_some]
    exact List.getElem_mem hi
  have key := insR_convex hs hpk hlen hkN hlt h1 h2 hS hP
  obtain ⟨i, hi, rfl⟩ := List.mem_iff_getElem.mp hq
  rw [arr_getElem]
  simp only [arr_length] at hi
  by_cases d1 : i ≤ k - p
  · rw [hg.low i d1]; exact hP _ (by omega)
  · by_cases d2 : i ≤ k - p + r
    · have := hg.left (i - (k - p)) (by omega) (by omega)
      rw [show k - p + (i - (k - p)) = i by omega] at this
      rw [this]; exact key _ _ (by omega)
    · by_cases d3 : i ≤ k - s
      · have := hg.mid (i - (k - p + r)) (by omega)
        rw [show k - p + r + (i - (k - p + r)) = i by omega] at this
        rw [this]; exact key _ _ (by omega)
      · by_cases d4 : i < k + r - s
        · have := hg.right (k + r - s - i) (by omega) (by omega)
          rw [show k + r - s - (k + r - s - i) = i by omega] at this
          rw [this]; exact key _ _ (by omega)
        · rw [hg.high i (by omega) hi]; exact hP _ (by omega)

/-- The rows of the scheme are blossom values of every span they depend on. -/
theorem insR_repr {u : List K} (hs : u.Pairwise (· ≤ ·)) {t : K} {k p κ : ℕ} {P Q : ℕ → V}
    (hpk : p ≤ k) (hk : k + p + 1 ≤ u.length) (hlt : knot u k < knot u (k + 1))
    (hQ : Repr (knot u) P p κ Q) :
    ∀ j i, j + i ≤ p → k - p + i + j ≤ κ → κ ≤ k + i →
      insR (knot u) t k p P j i
        = umb Q (lin t ^ j * lprod (knot u) (k - p + i + j + 1) (p - j)) := by
  intro j
  induction j with
  | zero =>
    intro i h1 h2 h3
    rw [insR, hQ _ (by omega) (by omega), pow_zero, one_mul]
    rfl
  | succ j ih =>
    intro i h1 h2 h3
    rw [insR, ih (i + 1) (by omega) (by omega) (by omega), ih i (by omega) (by omega) (by omega)]
    have hd : knot u (i + k + 1) - knot u (k - p + (j + 1) + i) ≠ 0 := by
      have m1 := knot_mono hs (i := k - p + (j + 1) + i) (j := k) (by omega) (by omega)
      have m2 := knot_mono hs (i := k + 1) (j := i + k + 1) (by omega) (by omega)
      have : 0 < knot u (i + k + 1) - knot u (k - p + (j + 1) + i) := by linarith
      exact this.ne'
    have e1 : lprod (knot u) (k - p + (i + 1) + j + 1) (p - j)
        = lprod (knot u) (k - p + i + (j + 1) + 1) (p - (j + 1)) * lin (knot u (i + k + 1)) := by
      rw [show p - j = p - (j + 1) + 1 by omega, lprod_succ]
      congr 1
      · congr 1; omega
      · congr 2; omega
    have e2 : lprod (knot u) (k - p + i + j + 1) (p - j)
        = lin (knot u (k - p + (j + 1) + i)) *
          lprod (knot u) (k - p + i + (j + 1) + 1) (p - (j + 1)) := by
      rw [show p - j = p - (j + 1) + 1 by omega, lprod_succ']
      congr 1
      congr 2; omega
    rw [e1, e2, ← umb_C_mul, ← umb_C_mul, ← map_add]
    congr 1
    rw [pow_succ, ← lin_combine (t := t) hd]
    ring

theorem insU_mono {u : List K} (hs : u.Pairwise (· ≤ ·)) {t : K} {k r : ℕ}
    (hk : k + 1 < u.length) (h1 : knot u k ≤ t) (h2 : t ≤ knot u (k + 1)) :
    MonoTo (insU (knot u) t k r) (u.length + r) := by
  intro i j hij hj
  unfold insU
  by_cases a1 : j ≤ k
  · rw [if_pos a1, if_pos (by omega)]
    exact knot_mono hs hij (by omega)
  · by_cases a2 : j ≤ k + r
    · rw [if_neg a1, if_pos a2]
      by_cases b1 : i ≤ k
      · rw [if_pos b1]
        exact (knot_mono hs b1 (by omega)).trans h1
      · rw [if_neg b1, if_pos (by omega)]
    · rw [if_neg a1, if_neg a2]
      have m := h2.trans (knot_mono hs (i := k + 1) (j := j - r) (by omega) (by omega))
      by_cases b1 : i ≤ k
      · rw [if_pos b1]
        exact knot_mono hs (by omega) (by omega)
      · by_cases b2 : i ≤ k + r
        · rw [if_neg b1, if_pos b2]; exact m
        · rw [if_neg b1, if_neg b2]
          exact knot_mono hs (by omega) (by omega)

/-- The control points left by `insert_knot` represent the old polynomials. -/
theorem insCtrl_repr {u : List K} (hs : u.Pairwise (· ≤ ·)) {t : K} {k p r s N κ' : ℕ}
    {P g Q : ℕ → V} (hpk : p ≤ k) (hlen : u.length = N + p + 1) (hkN : k < N)
    (hlt : knot u k < knot u (k + 1)) (hr : 1 ≤ r) (hrs : r + s ≤ p)
    (hblock : ∀ i, k - s < i → i ≤ k → knot u i = t)
    (hg : InsCtrl (knot u) t k p r s N P g)
    (hp' : p ≤ κ') (hκ' : κ' < N + r)
    (hne : insU (knot u) t k r κ' < insU (knot u) t k r (κ' + 1))
    (hQ : Repr (knot u) P p (if κ' ≤ k then κ' else κ' - r) Q) :
    Repr (insU (knot u) t k r) g p κ' Q := by
  -- non-empty new spans
  have ne1 : ¬ (k < κ' ∧ κ' < k + r) := by
    rintro ⟨h1, h2⟩
    unfold insU at hne
    rw [if_neg (by omega), if_pos (by omega), if_neg (by omega), if_pos (by omega)] at hne
    exact lt_irrefl _ hne
  have ne2 : ¬ (k - s < κ' ∧ κ' ≤ k) := by
    rintro ⟨h1, h2⟩
    unfold insU at hne
    rw [if_pos h2, hblock κ' h1 h2] at hne
    by_cases h3 : κ' + 1 ≤ k
    · rw [if_pos h3, hblock (κ' + 1) (by omega) h3] at hne
      exact lt_irrefl _ hne
    · rw [if_neg h3, if_pos (by omega)] at hne
      exact lt_irrefl _ hne
  intro i hi1 hi2
  by_cases c1 : i ≤ k - p
  · rw [hg.low i c1, hQ i (by split <;> omega) (by split <;> omega)]
    congr 1
    apply lprod_congr
    intro l hl
    rw [insU, if_pos (by omega)]
  by_cases c2 : i ≤ k - p + r
  · obtain ⟨j, rfl⟩ : ∃ j, i = k - p + j := ⟨i - (k - p), by omega⟩
    rw [hg.left j (by omega) (by omega), insR_repr hs hpk (by omega) hlt hQ j 0 (by omega)
      (by split <;> omega) (by split <;> omega)]
    congr 1
    rw [lprod_split (insU (knot u) t k r) (j := k - p + j + 1) (a := p - j) (b := j)
      (j' := k + 1) (by omega) (by omega), mul_comm]
    congr 1
    · apply lprod_congr
      intro l hl
      rw [insU, if_pos (by omega)]
      rfl
    · rw [lprod_const]
      intro l hl
      rw [insU, if_neg (by omega), if_pos (by omega)]
  by_cases c3 : i ≤ k - s
  · obtain ⟨m, rfl⟩ : ∃ m, i = k - p + r + m := ⟨i - (k - p + r), by omega⟩
    rw [hg.mid m (by omega), insR_repr hs hpk (by omega) hlt hQ r m (by omega)
      (by split <;> omega) (by split <;> omega)]
    congr 1
    have e1 : lprod (insU (knot u) t k r) (k - p + r + m + 1) p
        = lprod (insU (knot u) t k r) (k - p + r + m + 1) (p - r - m)
          * lprod (insU (knot u) t k r) (k + 1) r
          * lprod (insU (knot u) t k r) (k + 1 + r) m := by
      rw [lprod_split (insU (knot u) t k r) (j := k - p + r + m + 1) (m := p) (a := p - r - m + r)
        (b := m) (j' := k + 1 + r) (by omega) (by omega),
        lprod_split (insU (knot u) t k r) (j := k - p + r + m + 1) (m := p - r - m + r)
        (a := p - r - m) (b := r) (j' := k + 1) (by omega) (by omega)]
    have e2 : lprod (knot u) (k - p + m + r + 1) (p - r)
        = lprod (knot u) (k - p + m + r + 1) (p - r - m) * lprod (knot u) (k + 1) m := by
      exact lprod_split (knot u) (by omega) (by omega)
    rw [e1, e2, lprod_const (v := insU (knot u) t k r) (j := k + 1) (t := t)]
    · have f1 : lprod (insU (knot u) t k r) (k - p + r + m + 1) (p - r - m)
          = lprod (knot u) (k - p + m + r + 1) (p - r - m) := by
        apply lprod_congr
        intro l hl
        rw [insU, if_pos (by omega)]
        congr 1
        omega
      have f2 : lprod (insU (knot u) t k r) (k + 1 + r) m = lprod (knot u) (k + 1) m := by
        apply lprod_congr
        intro l hl
        rw [insU, if_neg (by omega), if_neg (by omega)]
        congr 1
        omega
      rw [f1, f2]
      ring
    · intro l hl
      rw [insU, if_neg (by omega), if_pos (by omega)]
  by_cases c4 : i < k + r - s
  · obtain ⟨j, hj1, hj2, rfl⟩ : ∃ j, 1 ≤ j ∧ j ≤ r ∧ i = k + r - s - j :=
      ⟨k + r - s - i, by omega, by omega, by omega⟩
    rw [hg.right j hj1 hj2, insR_repr hs hpk (by omega) hlt hQ j (p - j - s) (by omega)
      (by split <;> omega) (by split <;> omega)]
    congr 1
    have e1 : lprod (insU (knot u) t k r) (k + r - s - j + 1) p
        = lprod (insU (knot u) t k r) (k + r - s - j + 1) (s + j)
          * lprod (insU (knot u) t k r) (k + 1 + r) (p - j - s) := by
      exact lprod_split _ (by omega) (by omega)
    have e2 : lprod (knot u) (k - p + (p - j - s) + j + 1) (p - j)
        = lprod (knot u) (k - s + 1) s * lprod (knot u) (k + 1) (p - j - s) := by
      rw [lprod_split (knot u) (m := p - j) (a := s) (b := p - j - s) (j' := k + 1)
        (by omega) (by omega)]
      congr 2
      omega
    rw [e1, e2, lprod_const (v := insU (knot u) t k r) (j := k + r - s - j + 1) (t := t), lprod_const (v := knot u) (j := k - s + 1) (t := t)]
    · have f2 : lprod (insU (knot u) t k r) (k + 1 + r) (p - j - s)
          = lprod (knot u) (k + 1) (p - j - s) := by
        apply lprod_congr
        intro l hl
        rw [insU, if_neg (by omega), if_neg (by omega)]
        congr 1
        omega
      rw [f2]
      ring
    · intro l hl
      exact hblock _ (by omega) (by omega)
    · intro l hl
      rw [insU]
      by_cases h : k + r - s - j + 1 + l ≤ k
      · rw [if_pos h]
        exact hblock _ (by omega) h
      · rw [if_neg h, if_pos (by omega)]
  · rw [hg.high i (by omega) (by omega), hQ (i - r) (by split <;> omega) (by split <;> omega)]
    congr 1
    apply lprod_congr
    intro l hl
    rw [insU]
    by_cases h : i + 1 + l ≤ k
    · rw [if_pos h, hblock _ (by omega) h, hblock _ (by omega) (by omega)]
    · by_cases h2 : i + 1 + l ≤ k + r
      · rw [if_neg h, if_pos h2, hblock _ (by omega) (by omega)]
      · rw [if_neg h, if_neg h2]
        congr 1
        omega

/-- Existence of the span of a parameter. -/
theorem exists_inSpan {u : ℕ → K} {p n : ℕ} (hdom : u p < u n) (hpn : p ≤ n) {t : K}
    (h1 : u p ≤ t) (h2 : t ≤ u n) (hm : ∀ i j, i ≤ j → j ≤ n → u i ≤ u j) :
    ∃ k, p ≤ k ∧ k < n ∧ InSpan u (u n) k t := by
  unfold InSpan
  have key : ∀ m, p + m ≤ n → ∀ x, u p ≤ x → x < u (p + m) →
      ∃ k, p ≤ k ∧ k < p + m ∧ u k ≤ x ∧ x < u (k + 1) := by
    intro m
    induction m with
    | zero => intro _ x a b; exact absurd b (not_lt.mpr (by simpa using a))
    | succ m ih =>
      intro hmn x a b
      by_cases h : u (p + m) ≤ x
      · exact ⟨p + m, by omega, by omega, h, b⟩
      · obtain ⟨k, c1, c2, c3⟩ := ih (by omega) x a (not_le.mp h)
        exact ⟨k, c1, by omega, c3⟩
  have key2 : ∀ m, p + m ≤ n → u p < u (p + m) →
      ∃ k, p ≤ k ∧ k < p + m ∧ u k < u (k + 1) ∧ u (k + 1) = u (p + m) := by
    intro m
    induction m with
    | zero => intro _ a; exact absurd a (lt_irrefl _)
    | succ m ih =>
      intro hmn a
      rcases (hm (p + m) (p + (m + 1)) (by omega) (by omega)).lt_or_eq with h | h
      · exact ⟨p + m, by omega, by omega, h, rfl⟩
      · obtain ⟨k, c1, c2, c3, c4⟩ := ih (by omega) (by rw [h]; exact a)
        exact ⟨k, c1, by omega, c3, by rw [c4, h]⟩
  obtain ⟨m, rfl⟩ : ∃ m, n = p + m := ⟨n - p, by omega⟩
  by_cases ht : t = u (p + m)
  · simp only [if_pos ht]
    obtain ⟨k, a1, a2, a3⟩ := key2 m le_rfl hdom
    exact ⟨k, a1, a2, a3⟩
  · simp only [if_neg ht]
    obtain ⟨k, a1, a2, a3⟩ := key m le_rfl t h1 (lt_of_le_of_ne h2 ht)
    exact ⟨k, a1, a2, a3⟩

/-- Knots equal to `u_k` at the end of their block. -/
theorem count_block (c : BSpline K V) (hs : c.knots.Pairwise (· ≤ ·)) {k : ℕ}
    (hk : k + 1 < c.knots.length) (hlt : knot c.knots k < knot c.knots (k + 1)) :
    ∀ i, k - c.knots.count (knot c.knots k) < i → i ≤ k → knot c.knots i = knot c.knots k := by
  intro i hi1 hi2
  obtain ⟨a, b, b1, b2, b3, b4, b5, b6, b7⟩ := multiplicity_block c k (by omega)
  have := multiplicity_count c hs k (by omega)
  rw [b4] at this
  have e : b - a = c.knots.count (knot c.knots k) := by injection this
  have hb : b ≤ k + 1 := by
    by_contra h
    have := b5 (k + 1) (by omega) (by omega)
    rw [this] at hlt
    exact lt_irrefl _ hlt
  exact b5 i (by omega) (by omega)

/-- What knot insertion does. -/
structure Inserted (c c' : BSpline K V) (p : ℕ) (t : K) (r : ℕ) : Prop where
  wf : WellFormed c' p
  ctrl : c'.ctrl.length = c.ctrl.length + r
  perm : c'.knots.Perm (List.replicate r t ++ c.knots)
  lower : knot c'.knots p = knot c.knots p
  upper : knot c'.knots c'.ctrl.length = knot c.knots c.ctrl.length
  periodic : c'.periodic = c.periodic
  sdeg : c'.sdeg = c.sdeg
  point : ∀ x, knot c.knots p ≤ x → x ≤ knot c.knots c.ctrl.length →
    bsplinePoint p c'.knots c'.ctrl x = bsplinePoint p c.knots c.ctrl x
  hull : HullOf K c.ctrl c'.ctrl

theorem knot_arr {n : ℕ} {g : ℕ → K} {i : ℕ} (h : i < n) : knot (arr n g) i = g i :=
  arr_getD n g i 0 h

theorem perm_insU (u : List K) (t : K) (k r : ℕ) (hk : k < u.length) :
    (arr (u.length + r) (insU (knot u) t k r)).Perm (List.replicate r t ++ u) := by
  have e : arr (u.length + r) (insU (knot u) t k r)
      = u.take (k + 1) ++ (List.replicate r t ++ u.drop (k + 1)) := by
    symm
    apply eq_arr_of
    · simp; omega
    · intro i hi
      rw [insU]
      have hk1 : (u.take (k + 1)).length = k + 1 := by simp; omega
      by_cases h1 : i ≤ k
      · rw [if_pos h1, List.getElem_append_left (by omega)]
        simp [knot, show i < u.length by omega]
      · by_cases h2 : i ≤ k + r
        · rw [if_neg h1, if_pos h2, List.getElem_append_right (by omega),
            List.getElem_append_left (by simp; omega)]
          simp
        · rw [if_neg h1, if_neg h2, List.getElem_append_right (by omega),
            List.getElem_append_right (by simp; omega)]
          simp only [List.length_append, List.length_replicate, List.length_drop, hk1] at hi
          have hi' : i - r < u.length := by omega
          simp only [List.getElem_drop, knot, hk1, List.length_replicate]
          rw [List.getD_eq_getElem?_getD, List.getElem?_eq_getElem hi', Option.getD_some]
          congr 1
          omega
  rw [e]
  conv_rhs => rw [← List.take_append_drop (k + 1) u]
  rw [← List.append_assoc, ← List.append_assoc]
  exact List.Perm.append_right _ List.perm_append_comm

theorem insertKnot_inserted {eps : K} (heps : 0 ≤ eps) {c : BSpline K V} {p : ℕ}
    (hc : WellFormed c p) {t : K} (hf : FirstSpan c p ∨ knot c.knots p < t)
    (h1 : knot c.knots p ≤ t) (h2 : t ≤ knot c.knots c.ctrl.length) {r : ℕ} (hr : 1 ≤ r) :
    let s := if t = knot c.knots c.ctrl.length then 0 else c.knots.count t
    (p < r + s → c.insertKnot eps t r = ub) ∧
    (r + s ≤ p → ∃ c', c.insertKnot eps t r = ok c' ∧ Inserted c c' p t r) := by
  have hl := hc.len
  have hcl := hc.ctrl
  obtain ⟨k, Q0, hk, hin⟩ := exists_atSpan hc t hf h1 h2
  have hpk := hk.le
  have hkn := hk.lt
  have hlt := hk.ne
  have hb := hin.bounds
  set s' := if t = knot c.knots k then c.knots.count t else 0 with hs'
  have hss : (if t = knot c.knots c.ctrl.length then 0 else c.knots.count t) = s' := by
    rw [hs']
    by_cases ht : t = knot c.knots c.ctrl.length
    · rw [if_pos ht, if_neg]
      intro e
      unfold InSpan at hin
      rw [if_pos ht] at hin
      rw [← hin.2, e] at ht
      exact hlt.ne ht
    · rw [if_neg ht]
      by_cases e : t = knot c.knots k
      · rw [if_pos e]
      · rw [if_neg e, List.count_eq_zero]
        intro hmem
        obtain ⟨i, hi, hit⟩ := List.mem_iff_getElem.mp hmem
        have hki : knot c.knots i = t := by simp [knot, hi, hit]
        unfold InSpan at hin
        rw [if_neg ht] at hin
        rcases Nat.lt_or_ge k i with h | h
        · have := knot_mono hc.sorted (i := k + 1) (j := i) (by omega) hi
          rw [hki] at this
          exact absurd hin.2 (not_lt.mpr this)
        · have := knot_mono hc.sorted (i := i) (j := k) h (by omega)
          rw [hki] at this
          exact e (le_antisymm this hin.1)
  simp only []
  rw [hss]
  obtain ⟨a1, a2⟩ := insertKnot_eq heps hc h1 h2 hk.loc hpk hkn hlt hs' hr
  refine ⟨a1, ?_⟩
  intro hrs
  obtain ⟨g, e, hg⟩ := a2 hrs
  refine ⟨_, e, ?_⟩
  have hblock : ∀ i, k - s' < i → i ≤ k → knot c.knots i = t := by
    intro i hi1 hi2
    rw [hs'] at hi1
    by_cases e : t = knot c.knots k
    · rw [if_pos e, e] at hi1
      rw [e]
      exact count_block c hc.sorted (by omega) hlt i hi1 hi2
    · rw [if_neg e] at hi1
      omega
  have hmono := insU_mono (r := r) hc.sorted (by omega) hb.1 hb.2
  have eM : c.knots.length + r = (c.ctrl.length + r) + p + 1 := by omega
  have hpw : (arr (c.knots.length + r) (insU (knot c.knots) t k r)).Pairwise (· ≤ ·) := by
    rw [List.pairwise_iff_getElem]
    intro i j hi hj hij
    rw [arr_getElem, arr_getElem]
    exact hmono i j hij.le (by simpa using hj)
  have elow : knot (arr (c.knots.length + r) (insU (knot c.knots) t k r)) p = knot c.knots p := by
    rw [knot_arr (by omega), insU, if_pos hpk]
  have ehigh : knot (arr (c.knots.length + r) (insU (knot c.knots) t k r)) (c.ctrl.length + r)
      = knot c.knots c.ctrl.length := by
    rw [knot_arr (by omega), insU, if_neg (by omega), if_neg (by omega), Nat.add_sub_cancel]
  refine ⟨⟨?_, hc.sdeg, ?_, hpw, ?_⟩, ?_, perm_insU _ _ _ _ (by omega), elow, ?_, rfl, rfl, ?_,
    insCtrl_hull hc.sorted hpk hl hkn hlt hb.1 hb.2 hrs hg⟩
  · simp only [arr_length]; omega
  · simp only [arr_length]; omega
  · simp only [arr_length]
    rw [elow, ehigh]
    exact hc.dom
  · simp
  · simp only [arr_length]
    exact ehigh
  · intro x hx1 hx2
    simp only []
    set w := arr (c.knots.length + r) (insU (knot c.knots) t k r) with hw
    have hwk : ∀ i, i < c.knots.length + r → knot w i = insU (knot c.knots) t k r i :=
      fun i hi => knot_arr hi
    obtain ⟨κ', b1, b2, b3⟩ := exists_inSpan (u := knot w) (p := p) (n := c.ctrl.length + r)
      (by rw [elow, ehigh]; exact hc.dom) (by omega) (t := x) (by rw [elow]; exact hx1)
      (by rw [ehigh]; exact hx2) (fun i j hij hj => knot_mono hpw hij (by rw [hw, arr_length]; omega))
    have hne := b3.lt
    have hwne : insU (knot c.knots) t k r κ' < insU (knot c.knots) t k r (κ' + 1) := by
      rw [← hwk _ (by omega), ← hwk _ (by omega)]
      exact hne
    have hin' : InSpan (knot c.knots) (knot c.knots c.ctrl.length)
        (if κ' ≤ k then κ' else κ' - r) x := by
      have b3' := b3
      unfold InSpan at b3' ⊢
      rw [ehigh, hwk _ (by omega), hwk _ (by omega)] at b3'
      unfold insU at b3' hwne
      by_cases d1 : κ' ≤ k
      · simp only [if_pos d1] at b3' hwne ⊢
        by_cases d2 : κ' + 1 ≤ k
        · simp only [if_pos d2] at b3'
          exact b3'
        · have : κ' = k := by omega
          subst this
          rw [if_neg d2, if_pos (show κ' + 1 ≤ κ' + r by omega)] at b3'
          by_cases hx : x = knot c.knots c.ctrl.length
          · rw [if_pos hx] at b3' ⊢
            refine ⟨hlt, le_antisymm (knot_mono hc.sorted (by omega) (by omega)) ?_⟩
            rw [← b3'.2]
            exact hb.2
          · rw [if_neg hx] at b3' ⊢
            exact ⟨b3'.1, b3'.2.trans_le hb.2⟩
      · simp only [if_neg d1] at b3' hwne ⊢
        rw [if_neg (show ¬ κ' + 1 ≤ k by omega)] at b3' hwne
        by_cases d2 : κ' ≤ k + r
        · rw [if_pos d2] at b3' hwne
          by_cases d3 : κ' + 1 ≤ k + r
          · rw [if_pos d3] at hwne
            exact absurd hwne (lt_irrefl _)
          · have hκ : κ' = k + r := by omega
            subst hκ
            rw [if_neg d3] at b3'
            rw [show k + r + 1 - r = k + 1 by omega] at b3'
            rw [show k + r - r = k by omega]
            by_cases hx : x = knot c.knots c.ctrl.length
            · rw [if_pos hx] at b3' ⊢
              exact ⟨hlt, b3'.2⟩
            · rw [if_neg hx] at b3' ⊢
              exact ⟨hb.1.trans b3'.1, b3'.2⟩
        · rw [if_neg d2, if_neg (show ¬ κ' + 1 ≤ k + r by omega)] at b3'
          rw [show κ' + 1 - r = κ' - r + 1 by omega] at b3'
          exact b3'
    set κ := if κ' ≤ k then κ' else κ' - r with hκ
    have ne1 : ¬ (k < κ' ∧ κ' < k + r) := by
      rintro ⟨h1, h2⟩
      unfold insU at hwne
      rw [if_neg (by omega), if_pos (by omega), if_neg (by omega), if_pos (by omega)] at hwne
      exact lt_irrefl _ hwne
    have hκp : p ≤ κ := by rw [hκ]; split <;> omega
    have hκn : κ < c.ctrl.length := by rw [hκ]; split <;> omega
    obtain ⟨Q, hQ⟩ := exists_repr hc.sorted (fun i => c.ctrl.getD i 0) hκp (by omega) hin'.lt
    have hrep := insCtrl_repr hc.sorted hpk hl hkn hlt hr hrs hblock hg b1 b2 hwne hQ
    rw [bsplinePoint_eq hc.sorted hl hin' hκp hκn hQ]
    refine bsplinePoint_eq (k := κ') hpw (by rw [hw, arr_length, arr_length]; omega) (by rw [arr_length]; exact b3) b1
      (by simpa using b2) ?_
    intro i hi1 hi2
    simp only []
    rw [arr_getD _ _ _ _ (by omega), hrep i hi1 hi2]
    congr 1
    apply lprod_congr
    intro l hl
    rw [hwk _ (by omega)]

end NS.BSpline
