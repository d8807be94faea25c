import Verif.Proof.BSplineCurve

/-!
# Loop analysis of `insert_knot`
-/

set_option linter.unusedSectionVars false
set_option linter.unusedSimpArgs false

namespace NS.BSpline

open Outcome Spec Polynomial Finset

variable {K V : Type} [Field K] [LinearOrder K] [IsStrictOrderedRing K] [FloorRing K]
  [AddCommGroup V] [Module K V]

/-- Rows of the triangular scheme of `insert_knot`. -/
def insR (u : ℕ → K) (t : K) (k p : ℕ) (P : ℕ → V) : ℕ → ℕ → V
  | 0, i => P (k - p + i)
  | j + 1, i =>
    ((t - u (k - p + (j + 1) + i)) / (u (i + k + 1) - u (k - p + (j + 1) + i))) •
        insR u t k p P j (i + 1)
      + (1 - (t - u (k - p + (j + 1) + i)) / (u (i + k + 1) - u (k - p + (j + 1) + i))) •
        insR u t k p P j i

/-- New knot vector. -/
def insU (u : ℕ → K) (t : K) (k r : ℕ) (i : ℕ) : K :=
  if i ≤ k then u i else if i ≤ k + r then t else u (i - r)

/-- What `insert_knot` leaves in the control points. -/
structure InsCtrl (u : ℕ → K) (t : K) (k p r s N : ℕ) (P g : ℕ → V) : Prop where
  low : ∀ i ≤ k - p, g i = P i
  left : ∀ j, 1 ≤ j → j ≤ r → g (k - p + j) = insR u t k p P j 0
  mid : ∀ m ≤ p - r - s, g (k - p + r + m) = insR u t k p P r m
  right : ∀ j, 1 ≤ j → j ≤ r → g (k + r - s - j) = insR u t k p P j (p - j - s)
  high : ∀ i, k + r - s ≤ i → i < N + r → g i = P (i - r)

theorem insRow (u : List K) (t : K) (p k s j : ℕ) (P ρ : ℕ → V) (hpk : p ≤ k)
    (hjs : j + 1 + s ≤ p) (hs : u.Pairwise (· ≤ ·)) (hk : k + p + 1 ≤ u.length)
    (hlt : knot u k < knot u (k + 1))
    (hρ : ∀ i ≤ p - j - s, ρ i = insR (knot u) t k p P j i) :
    ∃ ρ', loop (p - (j + 1) - s + 1) (fun i rw => do
        let a ← rd u (i + k + 1)
        let b ← rd u (k - p + (j + 1) + i)
        let diff := a - b
        let alpha := if diff > 0 then (t - b) / diff else 0
        let x ← rd rw (i + 1)
        let y ← rd rw i
        wr rw i (alpha • x + (1 - alpha) • y)) (arr (p - s + 1) ρ) = ok (arr (p - s + 1) ρ') ∧
      ∀ i ≤ p - (j + 1) - s, ρ' i = insR (knot u) t k p P (j + 1) i := by
  have key := loop_eq
    (S := fun m => arr (p - s + 1) (fun i => if i < m then insR (knot u) t k p P (j + 1) i
      else ρ i)) (p - (j + 1) - s + 1)
    (fun i rw => do
        let a ← rd u (i + k + 1)
        let b ← rd u (k - p + (j + 1) + i)
        let diff := a - b
        let alpha := if diff > 0 then (t - b) / diff else 0
        let x ← rd rw (i + 1)
        let y ← rd rw i
        wr rw i (alpha • x + (1 - alpha) • y)) ?_
  · refine ⟨_, key, ?_⟩
    intro i hi
    simp only [show i < p - (j + 1) - s + 1 by omega, if_true]
  · intro i hi
    rw [rd_knot (by omega), ok_bind, rd_knot (by omega), ok_bind]
    have hd : knot u (i + k + 1) - knot u (k - p + (j + 1) + i) > 0 := by
      have m1 := knot_mono hs (i := k - p + (j + 1) + i) (j := k) (by omega) (by omega)
      have m2 := knot_mono hs (i := k + 1) (j := i + k + 1) (by omega) (by omega)
      have : 0 < knot u (i + k + 1) - knot u (k - p + (j + 1) + i) := by linarith
      exact this
    simp only [hd, if_true]
    rw [rd_arr (by omega), ok_bind, rd_arr (by omega), ok_bind]
    apply wr_arr _ (by omega)
    intro l hl
    by_cases h : l = i
    · subst h
      simp only [show l < l + 1 by omega, show ¬ l < l by omega, show ¬ l + 1 < l by omega,
        if_true, if_false]
      rw [hρ l (by omega), hρ (l + 1) (by omega), insR]
    · have : l < i + 1 ↔ l < i := by omega
      simp only [this, h, if_false]

theorem insertLoop_spec (u : List K) (t : K) (p k r s N : ℕ) (P g : ℕ → V) (hpk : p ≤ k)
    (hrs : r + s ≤ p) (hs : u.Pairwise (· ≤ ·)) (hk : k + p + 1 ≤ u.length)
    (hkN : k < N)
    (hlt : knot u k < knot u (k + 1))
    (h1 : ∀ i ≤ k - p, g i = P i) (h2 : ∀ i, k + r - s ≤ i → i < N + r → g i = P (i - r)) :
    ∃ ρ g', insertLoop u t p k r s (arr (p - s + 1) (fun i => P (k - p + i)), arr (N + r) g)
        = ok (arr (p - s + 1) ρ, arr (N + r) g') ∧
      (∀ i ≤ p - r - s, ρ i = insR (knot u) t k p P r i) ∧
      (∀ i ≤ k - p, g' i = P i) ∧ (∀ i, k + r - s ≤ i → i < N + r → g' i = P (i - r)) ∧
      (∀ j, 1 ≤ j → j ≤ r → g' (k - p + j) = insR (knot u) t k p P j 0) ∧
      (∀ j, 1 ≤ j → j ≤ r → g' (k + r - s - j) = insR (knot u) t k p P j (p - j - s)) := by
  unfold insertLoop
  obtain ⟨st, e, ρ, g', rfl, hρ, b1, b2, b3, b4⟩ := forUp_inv
    (P := fun j (st : List V × List V) => ∃ ρ g', st = (arr (p - s + 1) ρ, arr (N + r) g') ∧
      (∀ i ≤ p - (j - 1) - s, ρ i = insR (knot u) t k p P (j - 1) i) ∧
      (∀ i ≤ k - p, g' i = P i) ∧ (∀ i, k + r - s ≤ i → i < N + r → g' i = P (i - r)) ∧
      (∀ j', 1 ≤ j' → j' < j → g' (k - p + j') = insR (knot u) t k p P j' 0) ∧
      (∀ j', 1 ≤ j' → j' < j → g' (k + r - s - j') = insR (knot u) t k p P j' (p - j' - s)))
    1 (r + 1) (by omega) (fun j (st : List V × List V) => do
    let L := k - p + j
    let rw ← loop (p - j - s + 1) (fun i rw => do
      let a ← rd u (i + k + 1)
      let b ← rd u (L + i)
      let diff := a - b
      let alpha := if diff > 0 then (t - b) / diff else 0
      let x ← rd rw (i + 1)
      let y ← rd rw i
      wr rw i (alpha • x + (1 - alpha) • y)) st.1
    let a ← rd rw 0
    let q ← wr st.2 L a
    let b ← rd rw (p - j - s)
    let q ← wr q (k + r - j - s) b
    pure (rw, q)) (arr (p - s + 1) (fun i => P (k - p + i)), arr (N + r) g)
    ⟨_, _, rfl, by intro i _; rfl, h1, h2, by intro j' _ _; omega, by intro j' _ _; omega⟩ (by
      rintro j' hj1 hj2 st ⟨ρ, g', rfl, hρ, b1, b2, b3, b4⟩
      obtain ⟨j, rfl⟩ : ∃ j, j' = j + 1 := ⟨j' - 1, by omega⟩
      obtain ⟨ρ', e, hρ'⟩ := insRow u t p k s j P ρ hpk (by omega) hs hk hlt (by simpa using hρ)
      refine ⟨(arr (p - s + 1) ρ', arr (N + r) (fun i =>
        if i = k + r - (j + 1) - s then insR (knot u) t k p P (j + 1) (p - (j + 1) - s)
        else if i = k - p + (j + 1) then insR (knot u) t k p P (j + 1) 0 else g' i)), ?_, ?_⟩
      · simp only []
        rw [e, ok_bind, rd_arr (by omega), ok_bind, wr_arr (fun i =>
          if i = k - p + (j + 1) then insR (knot u) t k p P (j + 1) 0 else g' i) (by omega),
          ok_bind, rd_arr (by omega), ok_bind, wr_arr (fun i =>
        if i = k + r - (j + 1) - s then insR (knot u) t k p P (j + 1) (p - (j + 1) - s)
        else if i = k - p + (j + 1) then insR (knot u) t k p P (j + 1) 0 else g' i) (by omega)]
        · rfl
        · intro l _; rw [hρ' _ le_rfl]
        · intro l _; rw [hρ' 0 (by omega)]
      · refine ⟨_, _, rfl, by simpa using hρ', ?_, ?_, ?_, ?_⟩
        · intro i hi
          rw [if_neg (by omega), if_neg (by omega), b1 i hi]
        · intro i hi hi2
          rw [if_neg (by omega), if_neg (by omega), b2 i hi hi2]
        · intro l hl1 hl2
          by_cases hl : l = j + 1
          · subst hl
            by_cases hx : k - p + (j + 1) = k + r - (j + 1) - s
            · rw [if_pos hx, show p - (j + 1) - s = 0 by omega]
            · rw [if_neg hx, if_pos rfl]
          · rw [if_neg (by omega), if_neg (by omega), b3 l hl1 (by omega)]
        · intro l hl1 hl2
          by_cases hl : l = j + 1
          · subst hl
            rw [if_pos (by omega)]
          · rw [if_neg (by omega), if_neg (by omega), b4 l hl1 (by omega)])
  exact ⟨ρ, g', e, by simpa using hρ, b1, b2, fun j h1 h2 => b3 j h1 (by omega),
    fun j h1 h2 => b4 j h1 (by omega)⟩

theorem multAt_eq (c : BSpline K V) (hs : c.knots.Pairwise (· ≤ ·)) (t : K) (k : ℕ)
    (hk : k < c.knots.length) :
    c.multAt t (k : ℤ) = ok (if t = knot c.knots k then c.knots.count t else 0) := by
  unfold multAt
  rw [rdI_natCast, rd_knot hk, ok_bind, Int.toNat_natCast, multiplicity_count c hs k hk]
  split
  · rename_i e; rw [← e]
  · rfl

theorem insertedKnots_eq (u : List K) (t : K) (k r : ℕ) (hk : k + 2 ≤ u.length) :
    insertedKnots u t k r = ok (arr (u.length + r) (insU (knot u) t k r)) := by
  unfold insertedKnots
  have hu : u = arr u.length (knot u) := eq_arr u 0
  have e1 : seg u 0 (k + 1) = ok (arr (k + 1) (fun i => knot u (0 + i))) := by
    conv_lhs => rw [hu]
    exact seg_arr (by omega)
  have e2 : seg u (k + 1) (u.length - 2 - k)
      = ok (arr (u.length - 2 - k) (fun i => knot u (k + 1 + i))) := by
    conv_lhs => rw [hu, arr_length]
    exact seg_arr (by omega)
  simp only []
  rw [assert_true hk, ok_bind, e1, ok_bind, replicate_eq_arr', replicate_eq_arr',
    wrSeg_arr (fun i => if i ≤ k then knot u i else 0) (by omega), ok_bind,
    wrSeg_arr (fun i => if i ≤ k then knot u i else if i ≤ k + r then t else 0) (by omega), ok_bind,
    e2, ok_bind,
    wrSeg_arr (fun i => if i ≤ k then knot u i else if i ≤ k + r then t
      else if i < u.length + r - 1 then knot u (i - r) else 0) (by omega), ok_bind,
    rd_knot (by omega), ok_bind]
  · apply wr_arr _ (by omega)
    intro j hj
    by_cases h : j = u.length - 1 + r
    · subst h
      rw [if_pos rfl, insU, if_neg (by omega), if_neg (by omega)]
      congr 1
      omega
    · rw [if_neg h, insU]
      simp only [show j < u.length + r - 1 by omega, if_true]
  · intro i hi
    by_cases h1 : i ≤ k
    · rw [if_pos h1, if_neg (by omega)]; simp [h1]
    · by_cases h2 : i ≤ k + r
      · rw [if_neg h1, if_pos h2, if_neg (by omega)]; simp [h1, h2]
      · by_cases h3 : i < u.length + r - 1
        · rw [if_neg h1, if_neg h2, if_pos h3, if_pos (by omega)]
          congr 1
          omega
        · rw [if_neg h1, if_neg h2, if_neg h3, if_neg (by omega)]; simp [h1, h2]
  · intro i hi
    by_cases h1 : i ≤ k
    · rw [if_pos h1, if_neg (by omega), if_pos h1]
    · by_cases h2 : i ≤ k + r
      · rw [if_neg h1, if_pos h2, if_pos (by omega)]
      · rw [if_neg h1, if_neg h2, if_neg (by omega), if_neg h1]
  · intro i hi
    by_cases h1 : i ≤ k
    · rw [if_pos h1, if_pos (by omega)]
      congr 1
      omega
    · rw [if_neg h1, if_neg (by omega)]

theorem insertedCtrl_eq (u : List K) (ctrl : List V) (t : K) (p k r s : ℕ) (hpk : p ≤ k)
    (hrs : r + s ≤ p) (hs : u.Pairwise (· ≤ ·)) (hk : k + p + 1 ≤ u.length)
    (hkN : k < ctrl.length) (hlt : knot u k < knot u (k + 1)) :
    ∃ g, insertedCtrl u ctrl t p k r s = ok (arr (ctrl.length + r) g) ∧
      InsCtrl (knot u) t k p r s ctrl.length (fun i => ctrl.getD i 0) g := by
  set N := ctrl.length with hN
  set P : ℕ → V := fun i => ctrl.getD i 0 with hP
  have hctrl : ctrl = arr N P := eq_arr ctrl 0
  have e1 : seg ctrl 0 (k - p + 1) = ok (arr (k - p + 1) (fun i => P (0 + i))) := by
    rw [hctrl]; exact seg_arr (by omega)
  have e2 : seg ctrl (k - s) (N + s - k) = ok (arr (N + s - k) (fun i => P (k - s + i))) := by
    rw [hctrl]; exact seg_arr (by omega)
  have e3 : seg ctrl (k - p) (p - s + 1) = ok (arr (p - s + 1) (fun i => P (k - p + i))) := by
    rw [hctrl]; exact seg_arr (by omega)
  obtain ⟨ρ, g, e4, a1, a2, a3, a4, a5⟩ := insertLoop_spec u t p k r s N P
    (fun i => if i ≤ k - p then P i else if k + r - s ≤ i then P (i - r) else 0) hpk hrs hs hk
    hkN hlt (by intro i hi; rw [if_pos hi]) (by
      intro i h1 h2
      by_cases h : i ≤ k - p
      · have : r = 0 := by omega
        subst this
        rw [if_pos h]
        rfl
      · rw [if_neg h, if_pos h1])
  refine ⟨fun i => if k - p + r ≤ i ∧ i < k - s then ρ (i - (k - p + r)) else g i, ?_, ?_⟩
  · unfold insertedCtrl
    simp only []
    rw [e1, ok_bind, replicate_eq_arr', ← hN,
      wrSeg_arr (fun i => if i ≤ k - p then P i else 0) (by omega), ok_bind,
      assert_true (by omega), ok_bind, assert_true (by omega), ok_bind, e2, ok_bind,
      wrSeg_arr (fun i => if i ≤ k - p then P i else if k + r - s ≤ i then P (i - r) else 0)
        (by omega), ok_bind, e3, ok_bind, e4, ok_bind]
    · have key := forUp_eq
        (S := fun m => arr (N + r) (fun i => if k - p + r ≤ i ∧ i < m then ρ (i - (k - p + r))
          else g i)) (k - p + r) (k - s) (by omega) (fun i q => do
        let a ← rd (arr (p - s + 1) ρ) (i - (k - p + r))
        wr q i a) (by
        intro i h1 h2
        rw [rd_arr (by omega), ok_bind]
        apply wr_arr _ (by omega)
        intro j hj
        by_cases h : j = i
        · subst h
          rw [if_pos (by omega), if_pos rfl]
        · rw [if_neg h]
          have : (k - p + r ≤ j ∧ j < i + 1) ↔ (k - p + r ≤ j ∧ j < i) := by omega
          simp only [this])
      rw [← key]
      congr 1
      apply arr_congr
      intro i _
      rw [if_neg (by omega)]
    · intro i hi
      by_cases h1 : i ≤ k - p
      · rw [if_pos h1]
        by_cases h2 : k + r - s ≤ i ∧ i < k + r - s + (N + s - k)
        · rw [if_pos h2]
          congr 1
          omega
        · rw [if_neg h2, if_pos h1]
      · rw [if_neg h1]
        by_cases h2 : k + r - s ≤ i
        · rw [if_pos h2, if_pos (by omega)]
          congr 1
          omega
        · rw [if_neg h2, if_neg (by omega), if_neg h1]
    · intro i hi
      by_cases h1 : i ≤ k - p
      · rw [if_pos h1, if_pos (by omega)]
        congr 1
        omega
      · rw [if_neg h1, if_neg (by omega)]
  · refine ⟨?_, ?_, ?_, ?_, ?_⟩
    · intro i hi
      by_cases h : k - p + r ≤ i ∧ i < k - s
      · have : r = 0 := by omega
        subst this
        rw [if_pos h, a1 _ (by omega), insR]
        congr 1
        omega
      · rw [if_neg h, a2 i hi]
    · intro j h1 h2
      by_cases h : k - p + r ≤ k - p + j ∧ k - p + j < k - s
      · have : j = r := by omega
        subst this
        rw [if_pos h, a1 _ (by omega)]
        congr 1
        omega
      · rw [if_neg h, a4 j h1 h2]
    · intro m hm
      by_cases h : m < p - r - s
      · rw [if_pos (by omega), a1 _ (by omega)]
        congr 1
        omega
      · rw [if_neg (by omega)]
        have hm' : m = p - r - s := by omega
        rcases Nat.eq_zero_or_pos r with hr | hr
        · subst hr
          rw [a3 _ (by omega) (by omega), insR]
          rfl
        · have := a5 r hr le_rfl
          rw [show k - p + r + m = k + r - s - r by omega, this, hm']
    · intro j h1 h2
      rw [if_neg (by omega), a5 j h1 h2]
    · intro i h1 h2
      rw [if_neg (by omega), a3 i h1 h2]

/-- Result of `insert_knot` at a located span. -/
theorem insertKnot_eq {eps : K} (heps : 0 ≤ eps) {c : BSpline K V} {p : ℕ} (hc : WellFormed c p)
    {t : K} (h1 : knot c.knots p ≤ t) (h2 : t ≤ knot c.knots c.ctrl.length) {k : ℕ}
    (hloc : c.locateSpan t = ok (k : ℤ)) (hpk : p ≤ k) (hkn : k < c.ctrl.length)
    (hlt : knot c.knots k < knot c.knots (k + 1))
    {s : ℕ} (hs : s = if t = knot c.knots k then c.knots.count t else 0) {r : ℕ} (hr : 1 ≤ r) :
    (p < r + s → c.insertKnot eps t r = ub) ∧
    (r + s ≤ p → ∃ g, c.insertKnot eps t r = ok { c with
        ctrl := arr (c.ctrl.length + r) g
        knots := arr (c.knots.length + r) (insU (knot c.knots) t k r) } ∧
      InsCtrl (knot c.knots) t k p r s c.ctrl.length (fun i => c.ctrl.getD i 0) g) := by
  have hl := hc.len
  have hdom : c.inDomain eps t = ok true := by
    unfold inDomain
    rw [lower_eq hc, upper_eq hc]
    simp only [ok_bind, pure_eq]
    congr 1
    simp only [Bool.and_eq_true, decide_eq_true_eq]
    constructor
    · have : knot c.knots p - eps ≤ t := by linarith
      exact this
    · linarith
  unfold insertKnot
  rw [assert_true hr, ok_bind, hdom, ok_bind, assert_true rfl, ok_bind, validate_ok hc, ok_bind,
    hloc, ok_bind, degree_eq hc, multAt_eq c hc.sorted t k (by omega), ← hs, ok_bind,
    assert_true (by simp [hpk]), ok_bind]
  simp only [Int.toNat_natCast]
  constructor
  · intro h
    rw [assert_false (by omega), ub_bind]
  · intro h
    obtain ⟨g, e, hg⟩ := insertedCtrl_eq c.knots c.ctrl t p k r s hpk h hc.sorted (by omega) hkn hlt
    refine ⟨g, ?_, hg⟩
    rw [assert_true h, ok_bind, insertedKnots_eq _ _ _ _ (by omega), ok_bind, e, ok_bind]
    rfl

end NS.BSpline
