import Verif.Proof.RemovePass

/-!
# The whole of `remove_knot`
-/

set_option linter.unusedSectionVars false
set_option linter.unusedSimpArgs false

namespace NS.BSpline

open Outcome Spec

variable {K V : Type} [Field K] [LinearOrder K] [IsStrictOrderedRing K] [FloorRing K]
  [AddCommGroup V] [Module K V]

/-- Setting of the passes: `r` is the last knot equal to `t`, `s` their number. -/
structure RemOk (u : List K) (t : K) (p r s N : ℕ) : Prop where
  len : u.length = N + p + 1
  sp : s ≤ p + 1
  lo : p + s ≤ r
  hi : r < N
  sorted : u.Pairwise (· ≤ ·)
  below : knot u (r - s) < t
  above : t < knot u (r + 1)

section

variable {u : List K} {t : K} {p r s N : ℕ}

theorem RemOk.pass (h : RemOk u t p r s N) {k : ℕ} (hk : k < s) :
    PassOk u t p k (r - p - k) (r - s) ((p + k + 1 - s) / 2) N := by
  have h1 := h.len
  have h2 := h.sp
  have h3 := h.lo
  have h4 := h.hi
  have lt1 : ∀ i, i ≤ r - s → knot u i < t := fun i hi =>
    lt_of_le_of_lt (knot_mono h.sorted hi (by omega)) h.below
  have lt2 : ∀ i, r - p - k ≤ i → i ≤ r - s → t < knot u (i + p + 1 + k) := fun i hi hi' =>
    lt_of_lt_of_le h.above (knot_mono h.sorted (by omega) (by omega))
  have den : ∀ i, r - p - k ≤ i → i ≤ r - s → 0 < knot u (i + p + 1 + k) - knot u i := by
    intro i a b
    have := lt1 i b
    have := lt2 i a b
    linarith
  refine ⟨h1, by omega, by omega, by omega, fun i a b => (den i a b).ne', ?_, ?_⟩
  · intro i a b
    exact div_pos (sub_pos.mpr (lt1 i b)) (den i a b)
  · intro i a b
    rw [sub_pos, remA, div_lt_one (den i a b)]
    have := lt2 i a b
    linarith

/-- The control points differ from those after one insertion into `D'` at one place only, by a
vector the test accepted. -/
def Near (nrm : V → K) (tol : K) (u : List K) (t : K) (p r s N k : ℕ) (D' D : ℕ → V) : Prop :=
  ∃ i0 : ℕ, ∃ θ : K, ∃ v : V, |θ| ≤ 1 ∧ nrm v ≤ tol ∧ ∀ i, i + k < N →
    D i = boehm (remA (knot u) t p k) (r - p - k) (r - s) D' i + (if i = i0 then θ else 0) • v

/-- `k` successful passes starting from `D0`. -/
inductive Chain (nrm : V → K) (tol : K) (u : List K) (t : K) (p r s N : ℕ) (D0 : ℕ → V) :
    ℕ → (ℕ → V) → Prop
  | zero (D : ℕ → V) (h : ∀ i < N, D i = D0 i) : Chain nrm tol u t p r s N D0 0 D
  | succ (k : ℕ) (D D' : ℕ → V) (h : Chain nrm tol u t p r s N D0 k D)
      (n : Near nrm tol u t p r s N k D' D) : Chain nrm tol u t p r s N D0 (k + 1) D'

theorem loop_cast (h : RemOk u t p r s N) {k : ℕ} (hk : k ≤ s) :
    (((r - p - k : ℕ) : ℤ) = r - p - k) ∧ (((r - s : ℕ) : ℤ) + k = r - s + k) := by
  have := h.lo
  constructor <;> omega

theorem removeLoop_chain (nrm : V → K) (tol : K) (h : RemOk u t p r s N) (D0 : ℕ → V) :
    ∀ w k P τ, k + w ≤ s →
      (∀ q, r - s ≤ q + (p + k - s) / 2 → q ≤ r - p - k + 1 + (p + k - s) / 2 →
        Chain nrm tol u t p r s N D0 k (glue k q P)) →
      ∃ count P', removeLoop nrm u t tol (p : ℤ) w k ((r : ℤ) - p - k) ((r : ℤ) - s + k)
          (arr N P) (arr N τ) = ok (count, arr N P') ∧ k ≤ count ∧ count ≤ k + w ∧
        (count = k → P' = P) ∧
        ∀ q, r - s ≤ q + (p + count - s) / 2 → q ≤ r - p - count + 1 + (p + count - s) / 2 →
          Chain nrm tol u t p r s N D0 count (glue count q P') := by
  have h1 := h.len
  have h2 := h.sp
  have h3 := h.lo
  have h4 := h.hi
  intro w
  induction w with
  | zero =>
    intro k P τ hk hP
    exact ⟨k, P, by rw [removeLoop], le_rfl, le_rfl, fun _ => rfl, hP⟩
  | succ w ih =>
    intro k P τ hk hP
    have hp := h.pass (k := k) (by omega)
    set q := r - p - k + 1 + (p + k - s) / 2 with hq
    have H : Holds k (r - p - k) (r - s) ((p + k + 1 - s) / 2) N (glue k q P) P := by
      refine ⟨?_, ?_, ?_⟩
      · intro i hi
        rw [glue, if_pos (by omega)]
      · intro hi
        rw [glue, if_pos (by omega)]
      · intro j hj hi
        rcases Nat.eq_zero_or_pos k with rfl | hk0
        · rw [glue]; simp
        · rw [glue, if_neg (by omega)]
          congr 1; omega
    obtain ⟨τ', e⟩ := removeLoop_succ nrm tol w hp H τ
    rw [(loop_cast h (by omega)).1, (loop_cast h (by omega)).2] at e
    rw [e]
    set al := remA (knot u) t p k with hal
    by_cases hn : nrm (resid al (glue k q P) (r - p - k) (r - s) ((p + k + 1 - s) / 2)) > tol
    · rw [if_pos hn]
      exact ⟨k, P, rfl, le_rfl, by omega, fun _ => rfl, hP⟩
    · rw [if_neg hn]
      have hC := hP q (by omega) le_rfl
      obtain ⟨count, P', e1, e2, e3, -, e5⟩ := ih (k + 1)
        (passP al (glue k q P) (r - p - k) (r - s) ((p + k + 1 - s) / 2) k P) τ' (by omega) (by
          intro q' hq1 hq2
          refine Chain.succ k (glue k q P) _ hC ?_
          obtain ⟨i0, θ, c1, c2⟩ := pass_near hp H (q := q')
            (by rw [show p + k + 1 - s = p + (k + 1) - s by omega]; exact hq1) (by omega)
          exact ⟨i0, θ, _, c1, not_lt.mp hn, c2⟩)
      refine ⟨count, P', ?_, by omega, by omega, fun hc => by omega, e5⟩
      rw [← e1]
      congr 1 <;> (push_cast; ring)

theorem removeLoop_exact (nrm : V → K) {tol : K} (hnrm : nrm 0 ≤ tol) (h : RemOk u t p r s N)
    (E : ℕ → ℕ → V) {num : ℕ} (hnum : num ≤ s)
    (hE : ∀ k < num, ∀ i, i + k < N →
      E k i = boehm (remA (knot u) t p k) (r - p - k) (r - s) (E (k + 1)) i) :
    ∀ w k P τ, k + w = num →
      (∀ i, i < r - p - k + 1 + (p + k - s) / 2 → P i = E k i) →
      (∀ i, r - s ≤ i + (p + k - s) / 2 → i + k < N → P (i + k) = E k i) →
      ∃ P', removeLoop nrm u t tol (p : ℤ) w k ((r : ℤ) - p - k) ((r : ℤ) - s + k)
          (arr N P) (arr N τ) = ok (num, arr N P') ∧
        (∀ i, i < r - p - num + 1 + (p + num - s) / 2 → P' i = E num i) ∧
        (∀ i, r - s ≤ i + (p + num - s) / 2 → i + num < N → P' (i + num) = E num i) := by
  have h1 := h.len
  have h2 := h.sp
  have h3 := h.lo
  have h4 := h.hi
  intro w
  induction w with
  | zero =>
    intro k P τ hk hP1 hP2
    have : k = num := by omega
    subst this
    exact ⟨P, by rw [removeLoop], hP1, hP2⟩
  | succ w ih =>
    intro k P τ hk hP1 hP2
    have hp := h.pass (k := k) (by omega)
    have H : Holds k (r - p - k) (r - s) ((p + k + 1 - s) / 2) N (E k) P := by
      refine ⟨?_, ?_, ?_⟩
      · intro i hi
        exact hP1 i (by omega)
      · intro hi
        exact hP1 _ (by omega)
      · intro j hj hi
        have := hP2 (j - k) (by omega) (by omega)
        rwa [show j - k + k = j by omega] at this
    obtain ⟨τ', e⟩ := removeLoop_succ nrm tol w hp H τ
    rw [(loop_cast h (by omega)).1, (loop_cast h (by omega)).2] at e
    rw [e]
    set al := remA (knot u) t p k with hal
    obtain ⟨x1, x2, x3⟩ := pass_exact hp H (hE k (by omega))
    rw [x1, if_neg (not_lt.mpr hnrm)]
    obtain ⟨P', e1, e2, e3⟩ := ih (k + 1)
        (passP al (E k) (r - p - k) (r - s) ((p + k + 1 - s) / 2) k P) τ' (by omega)
        (fun i hi => x2 i (by omega))
        (fun i hi hN => x3 i (by rw [show p + k + 1 - s = p + (k + 1) - s by omega]; exact hi)
          (by omega))
    refine ⟨P', ?_, e2, e3⟩
    rw [← e1]
    congr 1 <;> (push_cast; ring)

/-! ### Closing the gap -/

theorem gap_eq (fout : ℤ) : ∀ c : ℕ, 1 ≤ c → gap fout c = (fout - ((c - 1) / 2 : ℕ), fout + (c / 2 : ℕ)) := by
  intro c hc
  obtain ⟨c, rfl⟩ : ∃ c', c = c' + 1 := ⟨c - 1, by omega⟩
  unfold gap
  rw [Nat.add_sub_cancel]
  clear hc
  induction c with
  | zero => simp
  | succ c ih =>
    rw [List.range_succ, List.foldl_append, ih]
    simp only [List.foldl_cons, List.foldl_nil]
    split_ifs with h
    · rw [Prod.mk.injEq]; constructor <;> omega
    · rw [Prod.mk.injEq]; constructor <;> omega

theorem closeGap_eq (N : ℕ) (P : ℕ → V) {j i : ℕ} (hj : j ≤ i + 1) (hi : i + 1 ≤ N) :
    closeGap (arr N P) (j : ℤ) (i : ℤ) = ok (arr (N - (i + 1 - j)) (glue (i + 1 - j) j P)) := by
  unfold closeGap
  have e0 : ((i : ℤ) + 1).toNat = i + 1 := by omega
  rw [arr_length, e0]
  have key := loop_eq (fun x => arr N (fun y => if j ≤ y ∧ y < j + x then P (y + (i + 1 - j)) else P y))
    (N - (i + 1)) (fun x P => do
      let a ← rdI P ((i : ℤ) + 1 + x)
      wrI P ((j : ℤ) + x) a) (by
    intro x hx
    rw [rdI_of (i + 1 + x) (by push_cast; ring), rd_arr (by omega), ok_bind, if_neg (by omega),
      wrI_of (j + x) (by push_cast; ring)]
    apply wr_arr _ (by omega)
    intro y hy
    by_cases h1 : y = j + x
    · rw [if_pos h1, if_pos (by omega)]
      congr 1; omega
    · rw [if_neg h1]
      by_cases h2 : j ≤ y ∧ y < j + x
      · rw [if_pos h2, if_pos (by omega)]
      · rw [if_neg h2, if_neg (by omega)])
  have e1 : arr N P = arr N (fun y => if j ≤ y ∧ y < j + 0 then P (y + (i + 1 - j)) else P y) :=
    arr_congr (fun y hy => by rw [if_neg (by omega)])
  simp only [] at key ⊢
  rw [e1, key, ok_bind, assert_true (by omega), ok_bind,
    show ((j : ℤ) + ((N - (i + 1) : ℕ) : ℤ)).toNat = N - (i + 1 - j) by omega, seg_arr (by omega)]
  congr 1
  apply arr_congr
  intro y hy
  rw [glue, Nat.zero_add]
  by_cases h : y < j
  · rw [if_neg (by omega), if_pos h]
  · rw [if_pos (by omega), if_neg h]

theorem removedKnots_eq (u : List K) {r c : ℕ} (hc : c ≤ r + 1) (hr : r + 1 ≤ u.length) :
    removedKnots u (r : ℤ) c
      = ok (arr (u.length - c) (fun i => if i + c ≤ r then knot u i else knot u (i + c))) := by
  unfold removedKnots
  have e0 : ((r : ℤ) + 1).toNat = r + 1 := by omega
  simp only []
  rw [e0]
  have hu : u = arr u.length (knot u) := eq_arr u 0
  set M := u.length with hM
  have key := loop_eq (fun x => arr M (fun y => if r + 1 ≤ y + c ∧ y + c < r + 1 + x
      then knot u (y + c) else knot u y))
    (M - (r + 1)) (fun x u => do
      let a ← rdI u ((r : ℤ) + 1 + x)
      wrI u ((r : ℤ) + 1 + x - c) a) (by
    intro x hx
    rw [rdI_of (r + 1 + x) (by push_cast; ring), rd_arr (by omega), ok_bind,
      wrI_of (r + 1 + x - c) (by omega)]
    apply wr_arr _ (by omega)
    intro y hy
    by_cases h1 : y = r + 1 + x - c
    · rw [if_pos h1, if_pos (by omega)]
      rcases Nat.eq_zero_or_pos c with rfl | hc0
      · rw [if_neg (by omega), h1]; rfl
      · rw [if_neg (by omega)]
        congr 1; omega
    · rw [if_neg h1]
      by_cases h2 : r + 1 ≤ y + c ∧ y + c < r + 1 + x
      · rw [if_pos h2, if_pos (by omega)]
      · rw [if_neg h2, if_neg (by omega)])
  have e1 : u = arr M (fun y => if r + 1 ≤ y + c ∧ y + c < r + 1 + 0
      then knot u (y + c) else knot u y) := by
    conv_lhs => rw [hu]
    exact arr_congr (fun y hy => by rw [if_neg (by omega)])
  rw [(congrArg (fun l => loop (M - (r + 1)) (fun x u => do
      let a ← rdI u ((r : ℤ) + 1 + x)
      wrI u ((r : ℤ) + 1 + x - c) a) l) e1).trans key, ok_bind, seg_arr (by omega)]
  congr 1
  apply arr_congr
  intro y hy
  rw [Nat.zero_add]
  by_cases h : y + c ≤ r
  · rw [if_neg (by omega), if_pos h]
  · rw [if_pos (by omega), if_neg h]

end

/-! ### The whole function -/

theorem remOk_of {c : BSpline K V} {p : ℕ} (hc : WellFormed c p) {t : K}
    (h1 : knot c.knots p < t) (h2 : t < knot c.knots c.ctrl.length) (hm : t ∈ c.knots)
    (hcount : c.knots.count t ≤ p + 1) :
    ∃ r : ℕ, c.locateSpan t = ok (r : ℤ) ∧ knot c.knots r = t ∧
      RemOk c.knots t p r (c.knots.count t) c.ctrl.length ∧
      ∀ i, r - c.knots.count t < i → i ≤ r → knot c.knots i = t := by
  have hl := hc.len
  obtain ⟨r, a1, a2, a3, a4, a5, -, -⟩ := locateSpan_spec hc t (Or.inr h1)
  obtain ⟨b1, b2⟩ := a5 h1.le h2
  have hr : knot c.knots r = t := by
    obtain ⟨i, hi, hit⟩ := List.mem_iff_getElem.mp hm
    have hki : knot c.knots i = t := by simp [knot, hi, hit]
    rcases Nat.lt_or_ge r i with h | h
    · have := knot_mono hc.sorted (i := r + 1) (j := i) (by omega) hi
      rw [hki] at this
      exact absurd b2 (not_lt.mpr this)
    · have := knot_mono hc.sorted (i := i) (j := r) h (by omega)
      rw [hki] at this
      exact le_antisymm b1 this
  obtain ⟨a, b, d1, d2, d3, d4, d5, d6, d7⟩ := multiplicity_block c r (by omega)
  have := multiplicity_count c hc.sorted r (by omega)
  rw [d4, hr] at this
  have e : b - a = c.knots.count t := by injection this
  have hb : b = r + 1 := by
    by_contra h
    have := d5 (r + 1) (by omega) (by omega)
    rw [this, hr] at b2
    exact lt_irrefl _ b2
  have ha : p < a := by
    by_contra h
    have := d5 p (by omega) (by omega)
    rw [this, hr] at h1
    exact lt_irrefl _ h1
  refine ⟨r, a1, hr, ⟨hl, hcount, by omega, a3, hc.sorted, ?_, b2⟩, ?_⟩
  · rw [show r - c.knots.count t = a - 1 by omega]
    rcases d6 with d6 | d6
    · omega
    · have := knot_mono hc.sorted (i := a - 1) (j := r) (by omega) (by omega)
      rw [hr] at this d6
      exact lt_of_le_of_ne this d6
  · intro i hi1 hi2
    rw [d5 i (by omega) (by omega), hr]

/-- Knots without the `n` copies ending at index `r`. -/
def remU (u : ℕ → K) (r n : ℕ) (i : ℕ) : K := if i + n ≤ r then u i else u (i + n)

/-- The curve with `n` knots less and control points `D`. -/
def remC (c : BSpline K V) (r n : ℕ) (D : ℕ → V) : BSpline K V :=
  { c with
    ctrl := arr (c.ctrl.length - n) D
    knots := arr (c.knots.length - n) (remU (knot c.knots) r n) }

theorem remC_zero (c : BSpline K V) (r : ℕ) (D : ℕ → V)
    (hD : ∀ i < c.ctrl.length, D i = c.ctrl.getD i 0) : remC c r 0 D = c := by
  unfold remC
  have e1 : arr (c.ctrl.length - 0) D = c.ctrl := by
    conv_rhs => rw [eq_arr c.ctrl 0]
    exact arr_congr (fun i hi => hD i (by omega))
  have e2 : arr (c.knots.length - 0) (remU (knot c.knots) r 0) = c.knots := by
    conv_rhs => rw [eq_arr c.knots 0]
    apply arr_congr
    intro i hi
    unfold remU
    split_ifs <;> rfl
  rw [e1, e2]

theorem inDomain_ok {eps : K} (heps : 0 ≤ eps) {c : BSpline K V} {p : ℕ} (hc : WellFormed c p)
    {t : K} (h1 : knot c.knots p ≤ t) (h2 : t ≤ knot c.knots c.ctrl.length) :
    c.inDomain eps t = ok true := by
  unfold inDomain
  rw [lower_eq hc, upper_eq hc]
  simp only [ok_bind, pure_eq]
  congr 1
  simp only [Bool.and_eq_true, decide_eq_true_eq]
  constructor
  · have : knot c.knots p - eps ≤ t := by linarith
    exact this
  · linarith

/-- The tolerance in force. -/
def effTol (extent : List V → K) (c : BSpline K V) (tol : K) : K :=
  if tol < 0 then extent c.ctrl * (1 / 10 ^ 6) else tol

/-- The function from the passes on. -/
theorem removeKnot_unfold {eps : K} (heps : 0 ≤ eps) {c : BSpline K V} {p : ℕ}
    (hc : WellFormed c p) {t : K} (h1 : knot c.knots p < t)
    (h2 : t < knot c.knots c.ctrl.length) {r : ℕ} (hloc : c.locateSpan t = ok (r : ℤ))
    (hr : knot c.knots r = t) (h : RemOk c.knots t p r (c.knots.count t) c.ctrl.length)
    (hs : c.knots.count t ≠ 0) (nrm : V → K) (extent : List V → K) {num : ℕ} (hnum : 1 ≤ num)
    (tol : K) {count : ℕ} {P : ℕ → V}
    (hL : removeLoop nrm c.knots t (effTol extent c tol) (p : ℤ) num 0 ((r : ℤ) - p - (0 : ℕ))
      ((r : ℤ) - (c.knots.count t : ℕ) + (0 : ℕ)) c.ctrl (List.replicate c.ctrl.length 0)
        = ok (count, arr c.ctrl.length P))
    (hcount : count ≤ c.knots.count t)
    (h0 : count = 0 → ∀ i < c.ctrl.length, P i = c.ctrl.getD i 0) :
    ∃ q : ℕ, r - c.knots.count t ≤ q + (p + count - c.knots.count t) / 2 ∧
      q ≤ r - p - count + 1 + (p + count - c.knots.count t) / 2 ∧
      c.removeKnot nrm extent eps t num tol = ok (remC c r count (glue count q P), count) := by
  have g1 := h.len
  have g2 := h.sp
  have g3 := h.lo
  have g4 := h.hi
  have hne : knot c.knots (r + 1) ≠ knot c.knots r := by
    rw [hr]; exact h.above.ne'
  have hR : c.removeKnot nrm extent eps t num tol = (do
      let (count, P) ← (ok (count, arr c.ctrl.length P) : Outcome (ℕ × List V))
      if count = 0 then ok ({ c with ctrl := P }, 0)
      else do
        let w ← removedKnots c.knots (r : ℤ) count
        let ji := gap (Int.tdiv (2 * (r : ℤ) - (c.knots.count t : ℕ) - p) 2) count
        let q ← closeGap P ji.1 ji.2
        pure ({ c with ctrl := q, knots := w }, count)) := by
    unfold removeKnot
    rw [assert_true hnum, ok_bind, inDomain_ok heps hc h1.le h2.le, ok_bind, assert_true rfl,
      ok_bind, validate_ok hc, ok_bind, hloc, ok_bind, multAt_eq c hc.sorted t r (by omega),
      if_pos hr.symm, ok_bind, if_neg hs, degree_eq hc, if_neg (by omega),
      assert_true (by omega), ok_bind, rdI_of (r + 1) (by push_cast; rfl), rdI_natCast,
      rd_knot (by omega), ok_bind, rd_knot (by omega), ok_bind, assert_true hne, ok_bind, ← hL]
    simp only [Nat.cast_zero, sub_zero, add_zero]
    rfl
  rw [hR, ok_bind]
  simp only []
  by_cases hz : count = 0
  · rw [if_pos hz]
    subst hz
    refine ⟨r - c.knots.count t - (p + 0 - c.knots.count t) / 2, by omega, by omega, ?_⟩
    rw [remC_zero c r _ (fun i hi => by rw [← h0 rfl i hi, glue]; simp)]
    rw [show arr c.ctrl.length P = c.ctrl by
      conv_rhs => rw [eq_arr c.ctrl 0]
      exact arr_congr (h0 rfl)]
  · rw [if_neg hz]
    set s := c.knots.count t with hsdef
    set fo := (2 * r - s - p) / 2 with hfo
    have efo : Int.tdiv (2 * (r : ℤ) - (s : ℕ) - p) 2 = (fo : ℤ) := by
      rw [Int.tdiv_eq_ediv_of_nonneg (by omega)]
      omega
    refine ⟨fo - (count - 1) / 2, by omega, by omega, ?_⟩
    rw [removedKnots_eq _ (by omega) (by omega), ok_bind, efo, gap_eq _ _ (by omega)]
    simp only []
    rw [show (fo : ℤ) - ((count - 1) / 2 : ℕ) = ((fo - (count - 1) / 2 : ℕ) : ℤ) by omega,
      show (fo : ℤ) + (count / 2 : ℕ) = ((fo + count / 2 : ℕ) : ℤ) by omega,
      closeGap_eq _ _ (by omega) (by omega), ok_bind, pure_eq,
      show fo + count / 2 + 1 - (fo - (count - 1) / 2) = count by omega]
    rfl

/-- Removal with any tolerance. -/
theorem removeKnot_chain {eps : K} (heps : 0 ≤ eps) {c : BSpline K V} {p : ℕ}
    (hc : WellFormed c p) {t : K} (h1 : knot c.knots p < t)
    (h2 : t < knot c.knots c.ctrl.length) {r : ℕ} (hloc : c.locateSpan t = ok (r : ℤ))
    (hr : knot c.knots r = t) (h : RemOk c.knots t p r (c.knots.count t) c.ctrl.length)
    (nrm : V → K) (extent : List V → K) {num : ℕ} (hnum : 1 ≤ num)
    (hle : num ≤ c.knots.count t) (tol : K) :
    ∃ count D, c.removeKnot nrm extent eps t num tol = ok (remC c r count D, count) ∧
      count ≤ num ∧ Chain nrm (effTol extent c tol) c.knots t p r (c.knots.count t) c.ctrl.length
        (fun i => c.ctrl.getD i 0) count D := by
  obtain ⟨count, P, e1, -, e3, e4, e5⟩ := removeLoop_chain nrm (effTol extent c tol) h
    (fun i => c.ctrl.getD i 0) num 0 (fun i => c.ctrl.getD i 0) (fun _ => 0) (by omega) (by
      intro q _ _
      refine Chain.zero _ ?_
      intro i _
      rw [glue]; simp)
  rw [← eq_arr c.ctrl 0] at e1
  have er : arr c.ctrl.length (fun _ => (0 : V)) = List.replicate c.ctrl.length 0 := by
    symm
    apply eq_arr_of (by simp)
    intro i hi; simp
  rw [er] at e1
  obtain ⟨q, q1, q2, q3⟩ := removeKnot_unfold heps hc h1 h2 hloc hr h (by omega) nrm extent hnum tol
    e1 (by omega) (fun hz i hi => by rw [e4 hz])
  exact ⟨count, _, q3, by omega, e5 q q1 q2⟩

/-- Removal of what can be removed exactly. -/
theorem removeKnot_exact {eps : K} (heps : 0 ≤ eps) {c : BSpline K V} {p : ℕ}
    (hc : WellFormed c p) {t : K} (h1 : knot c.knots p < t)
    (h2 : t < knot c.knots c.ctrl.length) {r : ℕ} (hloc : c.locateSpan t = ok (r : ℤ))
    (hr : knot c.knots r = t) (h : RemOk c.knots t p r (c.knots.count t) c.ctrl.length)
    (nrm : V → K) (extent : List V → K) {num : ℕ} (hnum : 1 ≤ num)
    (hle : num ≤ c.knots.count t) {tol : K} (htol : nrm 0 ≤ effTol extent c tol)
    (E : ℕ → ℕ → V) (hE0 : ∀ i < c.ctrl.length, c.ctrl.getD i 0 = E 0 i)
    (hE : ∀ k < num, ∀ i, i + k < c.ctrl.length →
      E k i = boehm (remA (knot c.knots) t p k) (r - p - k) (r - c.knots.count t) (E (k + 1)) i) :
    c.removeKnot nrm extent eps t num tol = ok (remC c r num (E num), num) := by
  have g1 := h.len
  have g2 := h.sp
  have g3 := h.lo
  have g4 := h.hi
  obtain ⟨P, e1, e2, e3⟩ := removeLoop_exact nrm htol h E hle hE num 0
    (E 0) (fun _ => 0) (by omega) (fun i hi => rfl) (fun i _ hi => rfl)
  have ec : arr c.ctrl.length (E 0) = c.ctrl := by
    conv_rhs => rw [eq_arr c.ctrl 0]
    exact arr_congr (fun i hi => (hE0 i hi).symm)
  rw [ec] at e1
  have er : arr c.ctrl.length (fun _ => (0 : V)) = List.replicate c.ctrl.length 0 := by
    symm
    apply eq_arr_of (by simp)
    intro i hi; simp
  rw [er] at e1
  obtain ⟨q, q1, q2, q3⟩ := removeKnot_unfold heps hc h1 h2 hloc hr h (by omega) nrm extent hnum tol
    e1 hle (fun hz => by omega)
  rw [q3]
  unfold remC
  have : arr (c.ctrl.length - num) (glue num q P) = arr (c.ctrl.length - num) (E num) := by
    apply arr_congr
    intro i hi
    rw [glue]
    split_ifs with hq
    · exact e2 i (by omega)
    · exact e3 i (by omega) (by omega)
  rw [this]

end NS.BSpline
