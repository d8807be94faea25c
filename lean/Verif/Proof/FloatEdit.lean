import Verif.Proof.FloatEval
import Verif.Proof.InsertCurve
import Verif.Proof.SplitBSpline
import Verif.Model.FloatEdit

/-!
# Loop and error analysis of the rounded editing functions
-/

set_option linter.unusedSectionVars false
set_option linter.unusedSimpArgs false

namespace NS.Fl

open Outcome Spec Finset BSpline

variable {K ι : Type} [Field K] [LinearOrder K] [IsStrictOrderedRing K] [FloorRing K]

theorem rnd_pos_of_unit (R : Rounding K) (hu1 : R.unit < 1) {x : K} (h : 0 < x) : 0 < R.rnd x := by
  have h1 := R.near x
  rw [abs_of_pos h] at h1
  have h2 := (abs_le.1 h1).1
  have h3 : 0 < (1 - R.unit) * x := mul_pos (by linarith) h
  linarith

/-- The rounded coefficient of `insert_knot`. -/
def coefI (R : Rounding K) (a b t : K) : K :=
  if R.rnd (a - b) > 0 then R.rnd (R.rnd (t - b) / R.rnd (a - b)) else 0

theorem coefI_mem (R : Rounding K) {a b t : K} (h1 : b ≤ t) (h2 : t ≤ a) :
    0 ≤ coefI R a b t ∧ coefI R a b t ≤ 1 := by
  unfold coefI
  split_ifs with h
  · have h4 : 0 ≤ R.rnd (t - b) := R.nonneg (by linarith)
    exact ⟨R.nonneg (div_nonneg h4 (le_of_lt h)),
      R.le_one ((div_le_one h).2 (R.mono _ _ (by linarith)))⟩
  · exact ⟨le_rfl, zero_le_one⟩

theorem coefI_err (R : Rounding K) (hu1 : R.unit < 1) {a b t : K} (h1 : b ≤ t) (h2 : t ≤ a)
    (hab : 0 < a - b) :
    |coefI R a b t - (t - b) / (a - b)| ≤ ((1 + R.unit) ^ 2 / (1 - R.unit) - 1) := by
  have h := rnd_pos_of_unit R hu1 hab
  unfold coefI
  rw [if_pos h]
  exact quo_err R hu1 h1 h2 hab h

/-- Rows of the rounded triangular scheme of `insert_knot`. -/
def insR (R : Rounding K) (F : ℕ → ℕ → ι → Fuse) (u : ℕ → K) (t : K) (k p : ℕ) (P : ℕ → ι → K) :
    ℕ → ℕ → ι → K
  | 0, i => P (k - p + i)
  | j + 1, i => fun l =>
    R.combine (F (j + 1) i l) (coefI R (u (i + k + 1)) (u (k - p + (j + 1) + i)) t)
      (insR R F u t k p P j (i + 1) l)
      (R.rnd (1 - coefI R (u (i + k + 1)) (u (k - p + (j + 1) + i)) t)) (insR R F u t k p P j i l)

/-- What the rounded `insert_knot` leaves in the control points. -/
structure InsCtrl (R : Rounding K) (F : ℕ → ℕ → ι → Fuse) (u : ℕ → K) (t : K) (k p r s N : ℕ)
    (P g : ℕ → ι → K) : Prop where
  low : ∀ i ≤ k - p, g i = P i
  left : ∀ j, 1 ≤ j → j ≤ r → g (k - p + j) = insR R F u t k p P j 0
  mid : ∀ m ≤ p - r - s, g (k - p + r + m) = insR R F u t k p P r m
  right : ∀ j, 1 ≤ j → j ≤ r → g (k + r - s - j) = insR R F u t k p P j (p - j - s)
  high : ∀ i, k + r - s ≤ i → i < N + r → g i = P (i - r)

theorem insRow (R : Rounding K) (hu1 : R.unit < 1) (F : ℕ → ℕ → ι → Fuse) (u : List K) (t : K) (p k s j : ℕ) (P ρ : ℕ → ι → K) (hpk : p ≤ k)
    (hjs : j + 1 + s ≤ p) (hs : u.Pairwise (· ≤ ·)) (hk : k + p + 1 ≤ u.length)
    (hlt : knot u k < knot u (k + 1))
    (hρ : ∀ i ≤ p - j - s, ρ i = insR R F (knot u) t k p P j i) :
    ∃ ρ', loop (p - (j + 1) - s + 1) (fun i rw => do
        let a ← rd u (i + k + 1)
        let b ← rd u (k - p + (j + 1) + i)
        let diff := R.rnd (a - b)
        let alpha := if diff > 0 then R.rnd (R.rnd (t - b) / diff) else 0
        let x ← rd rw (i + 1)
        let y ← rd rw i
        wr rw i (fun l => R.combine (F (j + 1) i l) alpha (x l) (R.rnd (1 - alpha)) (y l))) (arr (p - s + 1) ρ) = ok (arr (p - s + 1) ρ') ∧
      ∀ i ≤ p - (j + 1) - s, ρ' i = insR R F (knot u) t k p P (j + 1) i := by
  have key := loop_eq
    (S := fun m => arr (p - s + 1) (fun i => if i < m then insR R F (knot u) t k p P (j + 1) i
      else ρ i)) (p - (j + 1) - s + 1)
    (fun i rw => do
        let a ← rd u (i + k + 1)
        let b ← rd u (k - p + (j + 1) + i)
        let diff := R.rnd (a - b)
        let alpha := if diff > 0 then R.rnd (R.rnd (t - b) / diff) else 0
        let x ← rd rw (i + 1)
        let y ← rd rw i
        wr rw i (fun l => R.combine (F (j + 1) i l) alpha (x l) (R.rnd (1 - alpha)) (y l))) ?_
  · refine ⟨_, key, ?_⟩
    intro i hi
    simp only [show i < p - (j + 1) - s + 1 by omega, if_true]
  · intro i hi
    rw [rd_knot (by omega), ok_bind, rd_knot (by omega), ok_bind]
    have hd : knot u (i + k + 1) - knot u (k - p + (j + 1) + i) > 0 := by
      have m1 := knot_mono hs (i := k - p + (j + 1) + i) (j := k) (by omega) (by omega)
      have m2 := knot_mono hs (i := k + 1) (j := i + k + 1) (by omega) (by omega)
      have : 0 < knot u (i + k + 1) - knot u (k - p + (j + 1) + i) := by linarith
      exact this
    have hd' := rnd_pos_of_unit R hu1 hd
    simp only [hd', if_true]
    rw [rd_arr (by omega), ok_bind, rd_arr (by omega), ok_bind]
    apply wr_arr _ (by omega)
    intro l hl
    by_cases h : l = i
    · subst h
      simp only [show l < l + 1 by omega, show ¬ l < l by omega, show ¬ l + 1 < l by omega,
        if_true, if_false]
      rw [hρ l (by omega), hρ (l + 1) (by omega), insR]
      simp only [gt_iff_lt, coefI, hd', if_true]
    · have : l < i + 1 ↔ l < i := by omega
      simp only [this, h, if_false]

theorem insertLoop_spec (R : Rounding K) (hu1 : R.unit < 1) (F : ℕ → ℕ → ι → Fuse) (u : List K) (t : K) (p k r s N : ℕ) (P g : ℕ → ι → K) (hpk : p ≤ k)
    (hrs : r + s ≤ p) (hs : u.Pairwise (· ≤ ·)) (hk : k + p + 1 ≤ u.length)
    (hkN : k < N)
    (hlt : knot u k < knot u (k + 1))
    (h1 : ∀ i ≤ k - p, g i = P i) (h2 : ∀ i, k + r - s ≤ i → i < N + r → g i = P (i - r)) :
    ∃ ρ g', insertLoop R F u t p k r s (arr (p - s + 1) (fun i => P (k - p + i)), arr (N + r) g)
        = ok (arr (p - s + 1) ρ, arr (N + r) g') ∧
      (∀ i ≤ p - r - s, ρ i = insR R F (knot u) t k p P r i) ∧
      (∀ i ≤ k - p, g' i = P i) ∧ (∀ i, k + r - s ≤ i → i < N + r → g' i = P (i - r)) ∧
      (∀ j, 1 ≤ j → j ≤ r → g' (k - p + j) = insR R F (knot u) t k p P j 0) ∧
      (∀ j, 1 ≤ j → j ≤ r → g' (k + r - s - j) = insR R F (knot u) t k p P j (p - j - s)) := by
  unfold insertLoop
  obtain ⟨st, e, ρ, g', rfl, hρ, b1, b2, b3, b4⟩ := forUp_inv
    (P := fun j (st : List (ι → K) × List (ι → K)) => ∃ ρ g', st = (arr (p - s + 1) ρ, arr (N + r) g') ∧
      (∀ i ≤ p - (j - 1) - s, ρ i = insR R F (knot u) t k p P (j - 1) i) ∧
      (∀ i ≤ k - p, g' i = P i) ∧ (∀ i, k + r - s ≤ i → i < N + r → g' i = P (i - r)) ∧
      (∀ j', 1 ≤ j' → j' < j → g' (k - p + j') = insR R F (knot u) t k p P j' 0) ∧
      (∀ j', 1 ≤ j' → j' < j → g' (k + r - s - j') = insR R F (knot u) t k p P j' (p - j' - s)))
    1 (r + 1) (by omega) (fun j (st : List (ι → K) × List (ι → K)) => do
    let L := k - p + j
    let rw ← loop (p - j - s + 1) (fun i rw => do
      let a ← rd u (i + k + 1)
      let b ← rd u (L + i)
      let diff := R.rnd (a - b)
      let alpha := if diff > 0 then R.rnd (R.rnd (t - b) / diff) else 0
      let x ← rd rw (i + 1)
      let y ← rd rw i
      wr rw i (fun l => R.combine (F j i l) alpha (x l) (R.rnd (1 - alpha)) (y l))) st.1
    let a ← rd rw 0
    let q ← wr st.2 L a
    let b ← rd rw (p - j - s)
    let q ← wr q (k + r - j - s) b
    pure (rw, q)) (arr (p - s + 1) (fun i => P (k - p + i)), arr (N + r) g)
    ⟨_, _, rfl, by intro i _; rfl, h1, h2, by intro j' _ _; omega, by intro j' _ _; omega⟩ (by
      rintro j' hj1 hj2 st ⟨ρ, g', rfl, hρ, b1, b2, b3, b4⟩
      obtain ⟨j, rfl⟩ : ∃ j, j' = j + 1 := ⟨j' - 1, by omega⟩
      obtain ⟨ρ', e, hρ'⟩ := insRow R hu1 F u t p k s j P ρ hpk (by omega) hs hk hlt (by simpa using hρ)
      refine ⟨(arr (p - s + 1) ρ', arr (N + r) (fun i =>
        if i = k + r - (j + 1) - s then insR R F (knot u) t k p P (j + 1) (p - (j + 1) - s)
        else if i = k - p + (j + 1) then insR R F (knot u) t k p P (j + 1) 0 else g' i)), ?_, ?_⟩
      · simp only []
        rw [e, ok_bind, rd_arr (by omega), ok_bind, wr_arr (fun i =>
          if i = k - p + (j + 1) then insR R F (knot u) t k p P (j + 1) 0 else g' i) (by omega),
          ok_bind, rd_arr (by omega), ok_bind, wr_arr (fun i =>
        if i = k + r - (j + 1) - s then insR R F (knot u) t k p P (j + 1) (p - (j + 1) - s)
        else if i = k - p + (j + 1) then insR R F (knot u) t k p P (j + 1) 0 else g' i) (by omega)]
        · rfl
        · intro l _; rw [hρ' _ le_rfl]
        · intro l _; rw [hρ' 0 (by omega)]
      · refine ⟨_, _, rfl, by simpa using hρ', ?_, ?_, ?_, ?_⟩
        · intro i hi
          rw [if_neg (by omega), if_neg (by omega), b1 i hi]
        · intro i hi hi2
          rw [if_neg (by omega), if_neg (by omega), b2 i hi hi2]
        · intro l hl1 hl2
          by_cases hl : l = j + 1
          · subst hl
            by_cases hx : k - p + (j + 1) = k + r - (j + 1) - s
            · rw [if_pos hx, show p - (j + 1) - s = 0 by omega]
            · rw [if_neg hx, if_pos rfl]
          · rw [if_neg (by omega), if_neg (by omega), b3 l hl1 (by omega)]
        · intro l hl1 hl2
          by_cases hl : l = j + 1
          · subst hl
            rw [if_pos (by omega)]
          · rw [if_neg (by omega), if_neg (by omega), b4 l hl1 (by omega)])
  exact ⟨ρ, g', e, by simpa using hρ, b1, b2, fun j h1 h2 => b3 j h1 (by omega),
    fun j h1 h2 => b4 j h1 (by omega)⟩

theorem insertedCtrl_eq (R : Rounding K) (hu1 : R.unit < 1) (F : ℕ → ℕ → ι → Fuse) (u : List K) (ctrl : List (ι → K)) (t : K) (p k r s : ℕ) (hpk : p ≤ k)
    (hrs : r + s ≤ p) (hs : u.Pairwise (· ≤ ·)) (hk : k + p + 1 ≤ u.length)
    (hkN : k < ctrl.length) (hlt : knot u k < knot u (k + 1)) :
    ∃ g, insertedCtrl R F u ctrl t p k r s = ok (arr (ctrl.length + r) g) ∧
      InsCtrl R F (knot u) t k p r s ctrl.length (fun i => ctrl.getD i 0) g := by
  set N := ctrl.length with hN
  set P : ℕ → ι → K := fun i => ctrl.getD i 0 with hP
  have hctrl : ctrl = arr N P := eq_arr ctrl 0
  have e1 : seg ctrl 0 (k - p + 1) = ok (arr (k - p + 1) (fun i => P (0 + i))) := by
    rw [hctrl]; exact seg_arr (by omega)
  have e2 : seg ctrl (k - s) (N + s - k) = ok (arr (N + s - k) (fun i => P (k - s + i))) := by
    rw [hctrl]; exact seg_arr (by omega)
  have e3 : seg ctrl (k - p) (p - s + 1) = ok (arr (p - s + 1) (fun i => P (k - p + i))) := by
    rw [hctrl]; exact seg_arr (by omega)
  obtain ⟨ρ, g, e4, a1, a2, a3, a4, a5⟩ := insertLoop_spec R hu1 F u t p k r s N P
    (fun i => if i ≤ k - p then P i else if k + r - s ≤ i then P (i - r) else 0) hpk hrs hs hk
    hkN hlt (by intro i hi; rw [if_pos hi]) (by
      intro i h1 h2
      by_cases h : i ≤ k - p
      · have : r = 0 := by omega
        subst this
        rw [if_pos h]
        rfl
      · rw [if_neg h, if_pos h1])
  refine ⟨fun i => if k - p + r ≤ i ∧ i < k - s then ρ (i - (k - p + r)) else g i, ?_, ?_⟩
  · unfold insertedCtrl
    simp only []
    rw [e1, ok_bind, replicate_eq_arr', ← hN,
      wrSeg_arr (fun i => if i ≤ k - p then P i else 0) (by omega), ok_bind,
      assert_true (by omega), ok_bind, assert_true (by omega), ok_bind, e2, ok_bind,
      wrSeg_arr (fun i => if i ≤ k - p then P i else if k + r - s ≤ i then P (i - r) else 0)
        (by omega), ok_bind, e3, ok_bind, e4, ok_bind]
    · have key := forUp_eq
        (S := fun m => arr (N + r) (fun i => if k - p + r ≤ i ∧ i < m then ρ (i - (k - p + r))
          else g i)) (k - p + r) (k - s) (by omega) (fun i q => do
        let a ← rd (arr (p - s + 1) ρ) (i - (k - p + r))
        wr q i a) (by
        intro i h1 h2
        rw [rd_arr (by omega), ok_bind]
        apply wr_arr _ (by omega)
        intro j hj
        by_cases h : j = i
        · subst h
          rw [if_pos (by omega), if_pos rfl]
        · rw [if_neg h]
          have : (k - p + r ≤ j ∧ j < i + 1) ↔ (k - p + r ≤ j ∧ j < i) := by omega
          simp only [this])
      rw [← key]
      congr 1
      apply arr_congr
      intro i _
      rw [if_neg (by omega)]
    · intro i hi
      by_cases h1 : i ≤ k - p
      · rw [if_pos h1]
        by_cases h2 : k + r - s ≤ i ∧ i < k + r - s + (N + s - k)
        · rw [if_pos h2]
          congr 1
          omega
        · rw [if_neg h2, if_pos h1]
      · rw [if_neg h1]
        by_cases h2 : k + r - s ≤ i
        · rw [if_pos h2, if_pos (by omega)]
          congr 1
          omega
        · rw [if_neg h2, if_neg (by omega), if_neg h1]
    · intro i hi
      by_cases h1 : i ≤ k - p
      · rw [if_pos h1, if_pos (by omega)]
        congr 1
        omega
      · rw [if_neg h1, if_neg (by omega)]
  · refine ⟨?_, ?_, ?_, ?_, ?_⟩
    · intro i hi
      by_cases h : k - p + r ≤ i ∧ i < k - s
      · have : r = 0 := by omega
        subst this
        rw [if_pos h, a1 _ (by omega), insR]
        congr 1
        omega
      · rw [if_neg h, a2 i hi]
    · intro j h1 h2
      by_cases h : k - p + r ≤ k - p + j ∧ k - p + j < k - s
      · have : j = r := by omega
        subst this
        rw [if_pos h, a1 _ (by omega)]
        congr 1
        omega
      · rw [if_neg h, a4 j h1 h2]
    · intro m hm
      by_cases h : m < p - r - s
      · rw [if_pos (by omega), a1 _ (by omega)]
        congr 1
        omega
      · rw [if_neg (by omega)]
        have hm' : m = p - r - s := by omega
        rcases Nat.eq_zero_or_pos r with hr | hr
        · subst hr
          rw [a3 _ (by omega) (by omega), insR]
          rfl
        · have := a5 r hr le_rfl
          rw [show k - p + r + m = k + r - s - r by omega, this, hm']
    · intro j h1 h2
      rw [if_neg (by omega), a5 j h1 h2]
    · intro i h1 h2
      rw [if_neg (by omega), a3 i h1 h2]

/-! ### Errors -/

/-- Error of the rows started from perturbed values. -/
theorem insR_err (R : Rounding K) (hu1 : R.unit < 1) (F : ℕ → ℕ → ι → Fuse) {u : List K}
    (hs : u.Pairwise (· ≤ ·)) {t : K} {k p N : ℕ} {P Q : ℕ → ι → K} (hpk : p ≤ k)
    (hlen : u.length = N + p + 1) (hkN : k < N) (hlt : knot u k < knot u (k + 1))
    (h1 : knot u k ≤ t) (h2 : t ≤ knot u (k + 1)) (l : ι) {h M : K} (hh : 1 ≤ h)
    (hM : ∀ j, |P j l| ≤ M) (hQ : ∀ j, |Q j l - P j l| ≤ (h - 1) * M) :
    ∀ j i, j + i ≤ p →
      |insR R F (knot u) t k p Q j i l - BSpline.insR (knot u) t k p P j i l|
          ≤ (h * growth R ^ j - 1) * M ∧
        |BSpline.insR (knot u) t k p P j i l| ≤ M := by
  have hM0 : 0 ≤ M := le_trans (abs_nonneg _) (hM 0)
  have hG := one_le_growth R hu1
  have hu := R.unit_nonneg
  have hE : 0 ≤ (1 + R.unit) ^ 2 / (1 - R.unit) - 1 := by
    have h1u : 0 < 1 - R.unit := by linarith
    rw [sub_nonneg, le_div_iff₀ h1u]; nlinarith
  intro j
  induction j with
  | zero =>
    intro i _
    simpa [insR, BSpline.insR] using ⟨hQ _, hM _⟩
  | succ j ih =>
    intro i hi
    obtain ⟨x1, x2⟩ := ih (i + 1) (by omega)
    obtain ⟨y1, y2⟩ := ih i (by omega)
    have b1 : knot u (k - p + (j + 1) + i) ≤ knot u k := knot_mono hs (by omega) (by omega)
    have b2 : knot u (k + 1) ≤ knot u (i + k + 1) := knot_mono hs (by omega) (by omega)
    have hd : 0 < knot u (i + k + 1) - knot u (k - p + (j + 1) + i) := by linarith
    have q0 : 0 ≤ (t - knot u (k - p + (j + 1) + i)) /
        (knot u (i + k + 1) - knot u (k - p + (j + 1) + i)) := div_nonneg (by linarith) hd.le
    have q1 : (t - knot u (k - p + (j + 1) + i)) /
        (knot u (i + k + 1) - knot u (k - p + (j + 1) + i)) ≤ 1 := (div_le_one hd).2 (by linarith)
    obtain ⟨c0, c1⟩ := coefI_mem R (le_trans b1 h1) (le_trans h2 b2)
    have hg : 1 ≤ h * growth R ^ j := by
      have := one_le_pow₀ hG (n := j)
      nlinarith
    constructor
    · have key := blend_err R (swap (F (j + 1) i l)) hM0 hg hE c0 c1 q0 q1
        (coefI_err R hu1 (le_trans b1 h1) (le_trans h2 b2) hd) y1 y2 x1 x2
      rw [← combine_swap, show h * growth R ^ j
        * ((1 + R.unit) ^ 3 + 2 * ((1 + R.unit) ^ 2 / (1 - R.unit) - 1))
        = h * growth R ^ (j + 1) by rw [pow_succ (growth R), ← mul_assoc]; rfl] at key
      simp only [insR, BSpline.insR, Pi.add_apply, Pi.smul_apply, smul_eq_mul]
      rwa [add_comm (_ * BSpline.insR (knot u) t k p P j (i + 1) l)]
    · simp only [BSpline.insR, Pi.add_apply, Pi.smul_apply, smul_eq_mul]
      refine le_trans (abs_add_le _ _) ?_
      rw [abs_mul, abs_mul, abs_of_nonneg q0, abs_of_nonneg (by linarith : (0:K) ≤ 1 - _)]
      nlinarith

/-! ### Curves that differ in their control points only -/

/-- Same knots, flags and number of control points. -/
structure Shape (c d : BSpline K (ι → K)) : Prop where
  knots : d.knots = c.knots
  len : d.ctrl.length = c.ctrl.length
  periodic : d.periodic = c.periodic
  sdeg : d.sdeg = c.sdeg

/-- The coordinates `l` of the control points of `c` are at most `M`, and those of `d` differ from
them by at most `(h - 1) * M`. -/
structure Near (c d : BSpline K (ι → K)) (l : ι) (h M : K) : Prop where
  bound : ∀ j, |c.ctrl.getD j 0 l| ≤ M
  err : ∀ j, |d.ctrl.getD j 0 l - c.ctrl.getD j 0 l| ≤ (h - 1) * M

theorem Shape.refl (c : BSpline K (ι → K)) : Shape c c := ⟨rfl, rfl, rfl, rfl⟩

theorem Near.refl {c : BSpline K (ι → K)} {l : ι} {M : K} (hc : c.ctrl ≠ [])
    (h : ∀ q ∈ c.ctrl, |q l| ≤ M) : Near c c l 1 M :=
  ⟨bound_getD hc h, by simp⟩

theorem Near.nonneg {c d : BSpline K (ι → K)} {l : ι} {h M : K} (n : Near c d l h M) : 0 ≤ M :=
  le_trans (abs_nonneg _) (n.bound 0)

theorem Near.mono {c d : BSpline K (ι → K)} {l : ι} {h h' M : K} (n : Near c d l h M)
    (hh : h ≤ h') : Near c d l h' M := by
  have := n.nonneg
  exact ⟨n.bound, fun j => (n.err j).trans (by nlinarith)⟩

theorem Shape.wf {c d : BSpline K (ι → K)} (h : Shape c d) {p : ℕ} (hc : WellFormed c p) :
    WellFormed d p :=
  ⟨by rw [h.knots, h.len]; exact hc.len, by rw [h.sdeg]; exact hc.sdeg, by rw [h.len]; exact hc.ctrl,
    by rw [h.knots]; exact hc.sorted, by rw [h.knots, h.len]; exact hc.dom⟩

theorem Shape.locateSpan {c d : BSpline K (ι → K)} (h : Shape c d) (t : K) :
    d.locateSpan t = c.locateSpan t := by
  unfold BSpline.locateSpan BSpline.degree
  rw [h.knots, h.len]

theorem Shape.multAt {c d : BSpline K (ι → K)} (h : Shape c d) (t : K) (k : ℤ) :
    d.multAt t k = c.multAt t k := by
  unfold BSpline.multAt BSpline.multiplicity
  rw [h.knots]

theorem bsplineInDomain_ok (R : Rounding K) {eps : K} (heps : 0 ≤ eps) {c : BSpline K (ι → K)} {p : ℕ}
    (hc : WellFormed c p) {t : K} (ht : R.IsFloat t) (h1 : knot c.knots p ≤ t)
    (h2 : t ≤ knot c.knots c.ctrl.length) : bsplineInDomain R eps c t = ok true := by
  unfold bsplineInDomain
  rw [lower_eq hc, upper_eq hc]
  simp only [ok_bind, pure_eq]
  congr 1
  simp only [Bool.and_eq_true, decide_eq_true_eq]
  have ht' : R.rnd t = t := ht
  constructor
  · have := R.mono (knot c.knots p - eps) t (by linarith)
    rwa [ht'] at this
  · have := R.mono t (knot c.knots c.ctrl.length + eps) (by linarith)
    rwa [ht'] at this

/-- Result of the rounded `insert_knot` at a located span. -/
theorem insertKnot_eq (R : Rounding K) (hu1 : R.unit < 1) (F : ℕ → ℕ → ι → Fuse) {eps : K}
    (heps : 0 ≤ eps) {c : BSpline K (ι → K)} {p : ℕ} (hc : WellFormed c p)
    {t : K} (ht : R.IsFloat t) (h1 : knot c.knots p ≤ t) (h2 : t ≤ knot c.knots c.ctrl.length) {k : ℕ}
    (hloc : c.locateSpan t = ok (k : ℤ)) (hpk : p ≤ k) (hkn : k < c.ctrl.length)
    (hlt : knot c.knots k < knot c.knots (k + 1))
    {s : ℕ} (hs : s = if t = knot c.knots k then c.knots.count t else 0) {r : ℕ} (hr : 1 ≤ r) :
    (p < r + s → insertKnot R F eps c t r = ub) ∧
    (r + s ≤ p → ∃ g, insertKnot R F eps c t r = ok { c with
        ctrl := arr (c.ctrl.length + r) g
        knots := arr (c.knots.length + r) (insU (knot c.knots) t k r) } ∧
      InsCtrl R F (knot c.knots) t k p r s c.ctrl.length (fun i => c.ctrl.getD i 0) g) := by
  have hl := hc.len
  unfold insertKnot
  rw [assert_true hr, ok_bind, bsplineInDomain_ok R heps hc ht h1 h2, ok_bind, assert_true rfl, ok_bind,
    validate_ok hc, ok_bind, hloc, ok_bind, degree_eq hc, multAt_eq c hc.sorted t k (by omega), ← hs,
    ok_bind, assert_true (by simp [hpk]), ok_bind]
  simp only [Int.toNat_natCast]
  constructor
  · intro h
    rw [assert_false (by omega), ub_bind]
  · intro h
    obtain ⟨g, e, hg⟩ := insertedCtrl_eq R hu1 F c.knots c.ctrl t p k r s hpk h hc.sorted (by omega) hkn
      hlt
    refine ⟨g, ?_, hg⟩
    rw [assert_true h, ok_bind, insertedKnots_eq _ _ _ _ (by omega), ok_bind, e, ok_bind]
    rfl

/-- Every entry of the result is an old point or an entry of the scheme. -/
theorem InsCtrl.cases {R : Rounding K} {F : ℕ → ℕ → ι → Fuse} {u : ℕ → K} {t : K} {k p r s N : ℕ}
    {P g : ℕ → ι → K} (h : InsCtrl R F u t k p r s N P g) {g' P' : ℕ → ι → K}
    (h' : BSpline.InsCtrl u t k p r s N P' g') (hpk : p ≤ k) (hkN : k < N) (hrs : r + s ≤ p) {i : ℕ}
    (hi : i < N + r) :
    (∃ j < N, g i = P j ∧ g' i = P' j) ∨
      ∃ j m, j + m ≤ p ∧ j ≤ r ∧ g i = insR R F u t k p P j m ∧ g' i = BSpline.insR u t k p P' j m := by
  by_cases d1 : i ≤ k - p
  · exact Or.inl ⟨i, by omega, h.low i d1, h'.low i d1⟩
  · by_cases d2 : i ≤ k - p + r
    · have e : k - p + (i - (k - p)) = i := by omega
      have a := h.left (i - (k - p)) (by omega) (by omega)
      have b := h'.left (i - (k - p)) (by omega) (by omega)
      rw [e] at a b
      exact Or.inr ⟨_, _, by omega, by omega, a, b⟩
    · by_cases d3 : i ≤ k - s
      · have e : k - p + r + (i - (k - p + r)) = i := by omega
        have a := h.mid (i - (k - p + r)) (by omega)
        have b := h'.mid (i - (k - p + r)) (by omega)
        rw [e] at a b
        exact Or.inr ⟨_, _, by omega, by omega, a, b⟩
      · by_cases d4 : i < k + r - s
        · have e : k + r - s - (k + r - s - i) = i := by omega
          have a := h.right (k + r - s - i) (by omega) (by omega)
          have b := h'.right (k + r - s - i) (by omega) (by omega)
          rw [e] at a b
          exact Or.inr ⟨_, _, by omega, by omega, a, b⟩
        · exact Or.inl ⟨i - r, by omega, h.high i (by omega) hi, h'.high i (by omega) hi⟩

/-- The entries of the rounded scheme are numbers of the format. -/
theorem insR_float (R : Rounding K) (F : ℕ → ℕ → ι → Fuse) (u : ℕ → K) (t : K) (k p : ℕ)
    (P : ℕ → ι → K) (hP : ∀ j l, R.IsFloat (P j l)) (j : ℕ) :
    ∀ i l, R.IsFloat (insR R F u t k p P j i l) := by
  cases j with
  | zero => intro i l; exact hP _ l
  | succ j => intro i l; exact R.isFloat_combine _ _ _ _ _

/-- The rounded scheme keeps signs. -/
theorem insR_nonneg (R : Rounding K) (F : ℕ → ℕ → ι → Fuse) {u : List K} (hs : u.Pairwise (· ≤ ·))
    {t : K} {k p N : ℕ} {P : ℕ → ι → K} (hpk : p ≤ k)
    (hlen : u.length = N + p + 1) (hkN : k < N)
    (h1 : knot u k ≤ t) (h2 : t ≤ knot u (k + 1)) (l : ι) (hP : ∀ j, 0 ≤ P j l) :
    ∀ j i, j + i ≤ p → 0 ≤ insR R F (knot u) t k p P j i l := by
  intro j
  induction j with
  | zero => intro i _; exact hP _
  | succ j ih =>
    intro i hi
    have b1 : knot u (k - p + (j + 1) + i) ≤ knot u k := knot_mono hs (by omega) (by omega)
    have b2 : knot u (k + 1) ≤ knot u (i + k + 1) := knot_mono hs (by omega) (by omega)
    obtain ⟨c0, c1⟩ := coefI_mem R (le_trans b1 h1) (le_trans h2 b2)
    exact combine_nonneg R _ c0 (ih _ (by omega)) (R.nonneg (by linarith)) (ih _ (by omega))

/-- The knots before the block of `u_k` are smaller. -/
theorem before_block {V : Type} [AddCommGroup V] [Module K V] (c : BSpline K V)
    (hs : c.knots.Pairwise (· ≤ ·)) {k : ℕ} (hk : k + 1 < c.knots.length)
    (hlt : knot c.knots k < knot c.knots (k + 1)) {i : ℕ}
    (hi : i + c.knots.count (knot c.knots k) ≤ k) : knot c.knots i < knot c.knots k := by
  obtain ⟨a, b, b1, b2, b3, b4, b5, b6, b7⟩ := multiplicity_block c k (by omega)
  have := multiplicity_count c hs k (by omega)
  rw [b4] at this
  have e : b - a = c.knots.count (knot c.knots k) := by injection this
  have hb : b ≤ k + 1 := by
    by_contra h
    have := b5 (k + 1) (by omega) (by omega)
    rw [this] at hlt
    exact lt_irrefl _ hlt
  rcases b6 with h | h
  · omega
  · have m := knot_mono hs (i := i) (j := a - 1) (by omega) (by omega)
    have m2 := knot_mono hs (i := a - 1) (j := k) (by omega) (by omega)
    exact lt_of_le_of_lt m (lt_of_le_of_ne m2 h)

/-- What one rounded insertion does, compared with the exact one. -/
structure NearInserted (R : Rounding K) (c d c' d' : BSpline K (ι → K)) (p : ℕ) (t : K) (r : ℕ) :
    Prop where
  exact : Inserted c c' p t r
  shape : Shape c' d'
  near : ∀ l h M, 1 ≤ h → Near c d l h M → Near c' d' l (h * growth R ^ r) M
  floats : Floats R d.ctrl → Floats R d'.ctrl
  nonneg : ∀ l, (∀ q ∈ d.ctrl, 0 ≤ q l) → ∀ q ∈ d'.ctrl, 0 ≤ q l
  below : ∀ j, j < c.ctrl.length → knot c.knots (j + p) < t → d'.ctrl.getD j 0 = d.ctrl.getD j 0
  above : ∀ j, j < c.ctrl.length → t ≤ knot c.knots (j + 1) → d'.ctrl.getD (j + r) 0 = d.ctrl.getD j 0

theorem insertKnot_near (R : Rounding K) (hu1 : R.unit < 1) (F : ℕ → ℕ → ι → Fuse) {eps : K}
    (heps : 0 ≤ eps) {c d : BSpline K (ι → K)} {p : ℕ} (hc : WellFormed c p) (hcd : Shape c d)
    {t : K} (ht : R.IsFloat t) (hf : FirstSpan c p ∨ knot c.knots p < t)
    (h1 : knot c.knots p ≤ t) (h2 : t ≤ knot c.knots c.ctrl.length) {r : ℕ} (hr : 1 ≤ r) :
    let s := if t = knot c.knots c.ctrl.length then 0 else c.knots.count t
    (p < r + s → c.insertKnot eps t r = ub ∧ insertKnot R F eps d t r = ub) ∧
    (r + s ≤ p → ∃ c' d', c.insertKnot eps t r = ok c' ∧ insertKnot R F eps d t r = ok d' ∧
      NearInserted R c d c' d' p t r) := by
  have hl := hc.len
  have hd := hcd.wf hc
  obtain ⟨k, Q0, hk, hin⟩ := exists_atSpan hc t hf h1 h2
  have hpk := hk.le
  have hkn := hk.lt
  have hlt := hk.ne
  have hb := hin.bounds
  obtain ⟨a1, a2⟩ := BSpline.insertKnot_eq heps hc h1 h2 hk.loc hpk hkn hlt rfl hr
  obtain ⟨f1, f2⟩ := insertKnot_eq R hu1 F heps hd ht (by rw [hcd.knots]; exact h1)
    (by rw [hcd.knots, hcd.len]; exact h2) (by rw [hcd.locateSpan]; exact hk.loc) hpk
    (by rw [hcd.len]; exact hkn) (by rw [hcd.knots]; exact hlt) rfl hr
  simp only [hcd.knots, hcd.len, hcd.periodic, hcd.sdeg] at f1 f2
  obtain ⟨i1, i2⟩ := insertKnot_inserted heps hc hf h1 h2 hr
  set s' := if t = knot c.knots k then c.knots.count t else 0 with hs'
  refine ⟨?_, ?_⟩
  · intro h
    have e := i1 h
    refine ⟨e, f1 ?_⟩
    by_contra hc'
    obtain ⟨g, e', -⟩ := a2 (by omega)
    rw [e] at e'
    cases e'
  · intro h
    obtain ⟨c', e, I⟩ := i2 h
    have hrs : r + s' ≤ p := by
      by_contra hc'
      rw [a1 (by omega)] at e
      cases e
    obtain ⟨g, eg, hg⟩ := a2 hrs
    obtain ⟨gd, ed, hgd⟩ := f2 hrs
    rw [eg] at e
    simp only [ok.injEq] at e
    subst e
    have geti : ∀ (f : ℕ → ι → K) j, j < c.ctrl.length + r →
        (arr (c.ctrl.length + r) f).getD j 0 = f j := fun f j hj => arr_getD _ _ _ _ hj
    refine ⟨_, _, eg, ed, I, ?_, ?_, ?_, ?_, ?_, ?_⟩
    · exact ⟨rfl, by simp, rfl, rfl⟩
    · intro l h M hh n
      have hM0 := n.nonneg
      have hG := one_le_growth R hu1
      have key := insR_err R hu1 F hc.sorted hpk hl hkn hlt hb.1 hb.2 l hh n.bound n.err
      have hgr : 1 ≤ growth R ^ r := one_le_pow₀ hG
      have main : ∀ i, i < c.ctrl.length + r →
          |g i l| ≤ M ∧ |gd i l - g i l| ≤ (h * growth R ^ r - 1) * M := by
        intro i hi
        rcases hgd.cases hg hpk hkn hrs hi with ⟨j, hj, e1, e2⟩ | ⟨j, m, hjm, hjr, e1, e2⟩
        · rw [e1, e2]
          refine ⟨n.bound j, (n.err j).trans ?_⟩
          have : h ≤ h * growth R ^ r := by nlinarith
          nlinarith
        · rw [e1, e2]
          obtain ⟨k1, k2⟩ := key j m hjm
          refine ⟨k2, k1.trans ?_⟩
          have : growth R ^ j ≤ growth R ^ r := pow_le_pow_right₀ hG hjr
          have : h * growth R ^ j ≤ h * growth R ^ r := by nlinarith
          nlinarith
      have hgt : 0 ≤ (h * growth R ^ r - 1) * M := by
        have : 1 ≤ h * growth R ^ r := by nlinarith
        exact mul_nonneg (by linarith) hM0
      constructor
      · intro j
        by_cases hj : j < c.ctrl.length + r
        · simp only []
          rw [geti _ _ hj]; exact (main j hj).1
        · rw [getD_of_le _ (by simp; omega)]; simpa using hM0
      · intro j
        by_cases hj : j < c.ctrl.length + r
        · simp only []
          rw [geti _ _ hj, geti _ _ hj]; exact (main j hj).2
        · rw [getD_of_le _ (by simp; omega), getD_of_le _ (by simp; omega)]; simpa using hgt
    · intro hfl q hq l
      obtain ⟨i, hi, rfl⟩ := List.mem_iff_getElem.mp hq
      rw [arr_getElem]
      rcases hgd.cases hg hpk hkn hrs (by simpa using hi) with ⟨j, hj, e1, e2⟩ | ⟨j, m, hjm, hjr, e1, e2⟩
      · rw [e1]; exact hfl.getD _ _
      · rw [e1]; exact insR_float R F _ _ _ _ _ (fun j l => hfl.getD _ _) _ _ _
    · intro l hpos q hq
      have hP : ∀ j, 0 ≤ d.ctrl.getD j 0 l := by
        intro j
        by_cases hj : j < d.ctrl.length
        · rw [getD_of_lt _ hj]; exact hpos _ (List.getElem_mem hj)
        · rw [getD_of_le _ (not_lt.1 hj)]; exact le_rfl
      obtain ⟨i, hi, rfl⟩ := List.mem_iff_getElem.mp hq
      rw [arr_getElem]
      rcases hgd.cases hg hpk hkn hrs (by simpa using hi) with ⟨j, hj, e1, e2⟩ | ⟨j, m, hjm, hjr, e1, e2⟩
      · rw [e1]; exact hP _
      · rw [e1]; exact insR_nonneg R F hc.sorted hpk hl hkn hb.1 hb.2 l hP _ _ hjm
    · intro j hj hjt
      have hjk : j ≤ k - p := by
        by_contra hcon
        have := knot_mono hc.sorted (i := k + 1) (j := j + p) (by omega) (by omega)
        linarith [hb.2]
      simp only []
      rw [geti _ _ (by omega), hgd.low j hjk]
    · intro j hj ht'
      have hjk : k - s' ≤ j := by
        by_contra hcon
        have m1 := knot_mono hc.sorted (i := j + 1) (j := k) (by omega) (by omega)
        have ek : t = knot c.knots k := le_antisymm (ht'.trans m1) hb.1
        rw [if_pos ek, ek] at hs'
        have := before_block c hc.sorted (by omega) hlt (i := j + 1) (by omega)
        linarith
      simp only []
      rw [geti _ _ (by omega), hgd.high (j + r) (by omega) (by omega), Nat.add_sub_cancel]

end NS.Fl
