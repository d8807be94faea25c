import Verif.Model.Combine
import Verif.Props.RemoveKnot

/-! # Lemmas about the B-spline built from Bézier pieces -/

set_option linter.unusedSectionVars false
set_option linter.unusedSimpArgs false

namespace NS.BSpline

open Outcome Spec Finset

variable {K V : Type} [Field K] [LinearOrder K] [IsStrictOrderedRing K] [FloorRing K]
  [AddCommGroup V] [Module K V]

/-- Control point `k` of the combined polygon. -/
def combP (bs : ℕ → ℕ → V) (d k : ℕ) : V :=
  if k ≤ d then bs 0 k else bs ((k - 1) / d) ((k - 1) % d + 1)

/-- Knot `j` of the combined knot vector before removals. -/
def combU (b : ℕ → K) (d n j : ℕ) : K := b (min n ((j - 1) / d))

theorem combineCtrl_eq {nrm : V → K} {eps : K} {d n : ℕ} (hd : 1 ≤ d) {bs : ℕ → Bezier V}
    {P : ℕ → ℕ → V} (hn : 1 ≤ n) (hb : ∀ i < n, (bs i).ctrl = arr (d + 1) (P i))
    (hj : ∀ i, i + 1 < n → nrm (P (i + 1) 0 - P i d) < eps) :
    combineCtrl nrm eps d (arr n bs) = ok (arr (n * d + 1) (combP P d)) := by
  unfold combineCtrl
  rw [rd_arr hn, ok_bind, hb 0 hn, arr_length, assert_true rfl, ok_bind, arr_length]
  let S : ℕ → List V := fun i => arr (n * d + 1) (fun k => if k ≤ i * d then combP P d k else 0)
  have hmul : ∀ i, i < n → (i + 1) * d ≤ n * d := fun i hi => Nat.mul_le_mul_right d hi
  have e0 : List.replicate (n * d + 1) (0 : V) = arr (n * d + 1) (fun _ => 0) := by
    apply eq_arr_of
    · simp
    · intro i hi; simp [hi]
  have h0 : wrSeg (List.replicate (n * d + 1) (0 : V)) 0 (arr (d + 1) (P 0)) = ok (S 1) := by
    rw [e0]
    apply wrSeg_arr
    · have := hmul 0 hn; omega
    · intro k hk
      simp only [combP]
      by_cases h : k ≤ d
      · rw [if_pos (by omega), if_pos h, if_pos (by omega)]; rfl
      · rw [if_neg (by omega), if_neg (by omega)]
  rw [h0, ok_bind]
  have hend : S n = arr (n * d + 1) (combP P d) := by
    apply arr_congr
    intro i hi
    rw [if_pos (by omega)]
  rw [← hend]
  refine forUp_eq S 1 n hn _ ?_
  intro i h1 h2
  have hm := hmul i h2
  have hm1 : (i + 1) * d = i * d + d := by ring
  have hle : 1 * d ≤ i * d := Nat.mul_le_mul_right d h1
  rw [rd_arr h2, ok_bind]
  have hdeg : (d : ℤ) = (bs i).degree := by
    unfold Bezier.degree; rw [hb i h2, arr_length]; omega
  have hq : combP P d (i * d) = P (i - 1) d := by
    obtain ⟨i', rfl⟩ : ∃ i', i = i' + 1 := ⟨i - 1, by omega⟩
    unfold combP
    by_cases hi : i' = 0
    · subst hi
      rw [if_pos (by omega)]
      simp
    · have h2' : 1 * d ≤ i' * d := Nat.mul_le_mul_right d (by omega)
      have h3 : (i' + 1) * d = i' * d + d := by ring
      have h4 : (i' + 1) * d - 1 = (d - 1) + d * i' := by rw [mul_comm d i']; omega
      rw [if_neg (by omega), h4, Nat.add_mul_div_left _ _ (by omega), Nat.add_mul_mod_self_left,
        Nat.div_eq_of_lt (by omega), Nat.mod_eq_of_lt (by omega)]
      congr 1 <;> omega
  rw [assert_true hdeg, ok_bind, hb i h2, rd_arr (by omega), ok_bind]
  have hrd : rd (S i) (i * d) = ok (P (i - 1) d) := by
    have : rd (S i) (i * d) = ok (if i * d ≤ i * d then combP P d (i * d) else 0) :=
      rd_arr (by omega)
    rw [this, if_pos le_rfl, hq]
  rw [hrd, ok_bind]
  have hjj := hj (i - 1) (by omega)
  rw [show i - 1 + 1 = i by omega] at hjj
  rw [assert_true hjj, ok_bind, seg_arr (by omega), ok_bind]
  apply wrSeg_arr
  · omega
  · intro k hk
    by_cases h : 1 + i * d ≤ k ∧ k < 1 + i * d + d
    · rw [if_pos h, if_pos (by omega)]
      unfold combP
      have h5 : k - 1 = (k - 1 - i * d) + d * i := by rw [mul_comm d i]; omega
      rw [if_neg (by omega), h5, Nat.add_mul_div_left _ _ (by omega), Nat.add_mul_mod_self_left,
        Nat.div_eq_of_lt (by omega), Nat.mod_eq_of_lt (by omega)]
      congr 1 <;> omega
    · rw [if_neg h]
      by_cases h' : k ≤ i * d
      · rw [if_pos h', if_pos (by omega)]
      · rw [if_neg h', if_neg (by omega)]

theorem combP_piece {P : ℕ → ℕ → V} {d i j : ℕ} (hd : 1 ≤ d) (h1 : 1 ≤ j ∨ i = 0) (hj : j ≤ d) :
    combP P d (i * d + j) = P i j := by
  unfold combP
  by_cases hi : i = 0
  · subst hi; simp [hj]
  · have hle : 1 * d ≤ i * d := Nat.mul_le_mul_right d (by omega)
    have hj1 : 1 ≤ j := by omega
    have h5 : i * d + j - 1 = (j - 1) + d * i := by rw [mul_comm d i]; omega
    rw [if_neg (by omega), h5, Nat.add_mul_div_left _ _ (by omega), Nat.add_mul_mod_self_left,
      Nat.div_eq_of_lt (by omega), Nat.mod_eq_of_lt (by omega)]
    congr 1 <;> omega

theorem combP_joint {P : ℕ → ℕ → V} {d i : ℕ} (hd : 1 ≤ d) :
    combP P d ((i + 1) * d) = P i d := by
  have := combP_piece (P := P) (i := i) (j := d) hd (Or.inl hd) le_rfl
  rwa [show i * d + d = (i + 1) * d by ring] at this

theorem combineKnots_eq {d n : ℕ} (hd : 1 ≤ d) (hn : 1 ≤ n) (b : ℕ → K) :
    combineKnots d n (arr (n + 1) b) = ok (arr (n * d + d + 2) (combU b d n)) := by
  unfold combineKnots
  rw [rd_arr (by omega), ok_bind, arr_length, assert_true (by omega),
    show n + 1 - 1 = n by omega, rd_arr (by omega)]
  have e0 : ∀ (m : ℕ) (x : K), List.replicate m x = arr m (fun _ => x) := by
    intro m x
    apply eq_arr_of
    · simp
    · intro i hi; simp [hi]
  have hle : 1 * d ≤ n * d := Nat.mul_le_mul_right d hn
  have hmul : ∀ i, i < n → (i + 1) * d ≤ n * d := fun i hi => Nat.mul_le_mul_right d hi
  let S : ℕ → List K := fun i => arr (n * d + d + 2)
    (fun j => if j ≤ i * d then combU b d n j else if n * d < j then b n else 0)
  have blk : ∀ i j, i * d + 1 ≤ j → j ≤ i * d + d → (j - 1) / d = i := by
    intro i j h1 h2
    have h5 : j - 1 = (j - 1 - i * d) + d * i := by rw [mul_comm d i]; omega
    rw [h5, Nat.add_mul_div_left _ _ (by omega), Nat.div_eq_of_lt (by omega)]; omega
  have last : ∀ j, n * d < j → combU b d n j = b n := by
    intro j h
    unfold combU
    congr 1
    have : n ≤ (j - 1) / d := by
      rw [Nat.le_div_iff_mul_le (by omega)]; omega
    omega
  have h1 : wrSeg (List.replicate (n * d + d + 2) (0 : K)) 0 (List.replicate (d + 1) (b 0))
      = ok (arr (n * d + d + 2) (fun j => if j ≤ d then b 0 else 0)) := by
    rw [e0, e0]
    apply wrSeg_arr
    · omega
    · intro j hj
      by_cases h : j ≤ d
      · rw [if_pos h, if_pos (by omega)]
      · rw [if_neg h, if_neg (by omega)]
  rw [h1, ok_bind, ok_bind, ok_bind]
  have h2 : wrSeg (arr (n * d + d + 2) (fun j => if j ≤ d then b 0 else 0))
      (n * d + d + 2 - d - 1) (List.replicate (d + 1) (b n)) = ok (S 1) := by
    rw [e0]
    apply wrSeg_arr
    · omega
    · intro j hj
      by_cases h : j ≤ 1 * d
      · rw [if_pos h, if_neg (by omega), if_pos (by omega)]
        unfold combU
        congr 1
        rcases Nat.eq_zero_or_pos j with g | g
        · subst g; simp
        · rw [blk 0 j (by omega) (by omega)]; omega
      · rw [if_neg h]
        by_cases h' : n * d < j
        · rw [if_pos h', if_pos (by omega)]
        · rw [if_neg h', if_neg (by omega), if_neg (by omega)]
  rw [h2, ok_bind]
  have hend : S n = arr (n * d + d + 2) (combU b d n) := by
    apply arr_congr
    intro j hj
    by_cases h : j ≤ n * d
    · rw [if_pos h]
    · rw [if_neg h, if_pos (by omega), last j (by omega)]
  rw [← hend]
  refine forUp_eq S 1 n hn _ ?_
  intro i g1 g2
  have hm := hmul i g2
  have hm1 : (i + 1) * d = i * d + d := by ring
  rw [rd_arr (by omega), ok_bind, e0]
  apply wrSeg_arr
  · omega
  · intro j hj
    by_cases h : i * d + 1 ≤ j ∧ j < i * d + 1 + d
    · rw [if_pos h, if_pos (by omega)]
      unfold combU
      rw [blk i j (by omega) (by omega)]
      congr 1; omega
    · rw [if_neg h]
      by_cases h' : j ≤ i * d
      · rw [if_pos h', if_pos (by omega)]
      · rw [if_neg h', if_neg (by omega)]

theorem count_arr (M : ℕ) {g : ℕ → K} {y : K} {lo hi : ℕ} (hle : lo ≤ hi)
    (H : ∀ j < M, g j = y ↔ lo ≤ j ∧ j < hi) : (arr M g).count y = min M hi - min M lo := by
  induction M with
  | zero => simp [arr]
  | succ M ih =>
    have e : arr (M + 1) g = arr M g ++ [g M] := by simp [arr, List.range_succ]
    rw [e, List.count_append, ih (fun j hj => H j (by omega)), List.count_singleton]
    have := H M (by omega)
    by_cases h : g M = y
    · have h2 := this.1 h
      simp only [h, beq_self_eq_true, if_true]
      omega
    · have h2 : ¬ (lo ≤ M ∧ M < hi) := fun h' => h (this.2 h')
      simp only [beq_iff_eq, h, if_false]
      omega

/-- The combined curve before removals. -/
def combC (P : ℕ → ℕ → V) (b : ℕ → K) (d n : ℕ) (sdeg : Option ℕ) : BSpline K V :=
  { ctrl := arr (n * d + 1) (combP P d), knots := arr (n * d + d + 2) (combU b d n), sdeg := sdeg }

section Base

variable {P : ℕ → ℕ → V} {b : ℕ → K} {d n : ℕ} {sdeg : Option ℕ}

theorem div_block {i j : ℕ} (h1 : i * d + 1 ≤ j) (h2 : j ≤ i * d + d) : (j - 1) / d = i := by
  have h5 : j - 1 = (j - 1 - i * d) + d * i := by rw [mul_comm d i]; omega
  rw [h5, Nat.add_mul_div_left _ _ (by omega), Nat.div_eq_of_lt (by omega)]; omega

theorem combU_block (hd : 1 ≤ d) {i j : ℕ} (hi : i ≤ n) (h1 : i * d + 1 ≤ j) (h2 : j ≤ i * d + d) :
    combU b d n j = b i := by
  unfold combU
  rw [div_block h1 h2]
  congr 1; omega

variable (hd : 1 ≤ d) (hn : 1 ≤ n) (hb : ∀ i j, i < j → j ≤ n → b i < b j)

theorem b_mono (hb : ∀ i j, i < j → j ≤ n → b i < b j) {i j : ℕ} (h : i ≤ j) (hj : j ≤ n) :
    b i ≤ b j := by
  rcases Nat.eq_or_lt_of_le h with e | e
  · rw [e]
  · exact (hb i j e hj).le

theorem b_inj (hb : ∀ i j, i < j → j ≤ n → b i < b j) {i j : ℕ} (hi : i ≤ n) (hj : j ≤ n)
    (h : b i = b j) : i = j := by
  rcases Nat.lt_trichotomy i j with e | e | e
  · exact absurd h (hb i j e hj).ne
  · exact e
  · exact absurd h (hb j i e hi).ne'

include hd hn hb

theorem combC_count {i : ℕ} (hi : i ≤ n) : (combC P b d n sdeg).knots.count (b i)
    = if i = 0 ∨ i = n then d + 1 else d := by
  have hnd : 1 * d ≤ n * d := Nat.mul_le_mul_right d hn
  have hid : i * d ≤ n * d := Nat.mul_le_mul_right d hi
  have key : ∀ j, combU b d n j = b i ↔ min n ((j - 1) / d) = i :=
    fun j => ⟨fun h => b_inj hb (by omega) hi h, fun h => by unfold combU; rw [h]⟩
  change (arr (n * d + d + 2) (combU b d n)).count (b i) = _
  by_cases h0 : i = 0
  · subst h0
    rw [count_arr (lo := 0) (hi := d + 1) _ (by omega), if_pos (Or.inl rfl)]
    · omega
    · intro j hj
      rw [key]
      constructor
      · intro h
        have h' : (j - 1) / d = 0 := by omega
        rw [Nat.div_eq_zero_iff] at h'
        omega
      · intro h
        have : (j - 1) / d = 0 := Nat.div_eq_of_lt (by omega)
        omega
  · have hi1 : 1 * d ≤ i * d := Nat.mul_le_mul_right d (by omega)
    by_cases h1 : i = n
    · rw [count_arr (lo := n * d + 1) (hi := n * d + d + 2) _ (by omega), if_pos (Or.inr h1)]
      · omega
      · intro j hj
        rw [key, h1]
        constructor
        · intro h
          have h' : n ≤ (j - 1) / d := by omega
          rw [Nat.le_div_iff_mul_le (by omega)] at h'
          omega
        · intro h
          have h' : n ≤ (j - 1) / d := by rw [Nat.le_div_iff_mul_le (by omega)]; omega
          omega
    · have hi2 : (i + 1) * d ≤ n * d := Nat.mul_le_mul_right d (by omega)
      have hi3 : (i + 1) * d = i * d + d := by ring
      rw [count_arr (lo := i * d + 1) (hi := i * d + d + 1) _ (by omega), if_neg (by omega)]
      · omega
      · intro j hj
        rw [key]
        constructor
        · intro h
          have h' : (j - 1) / d = i := by omega
          rw [Nat.div_eq_iff (by omega)] at h'
          omega
        · intro h
          rw [div_block h.1 (by omega)]; omega

theorem combC_wf (hs : sdeg = none ∨ sdeg = some d) : WellFormed (combC P b d n sdeg) d := by
  have hnd : 1 * d ≤ n * d := Nat.mul_le_mul_right d hn
  refine ⟨?_, hs, ?_, ?_, ?_⟩
  · simp [combC]; omega
  · simp [combC]; omega
  · rw [List.pairwise_iff_getElem]
    intro i j hi hj hij
    simp only [combC, arr, List.getElem_map, List.getElem_range]
    unfold combU
    refine b_mono hb ?_ (by omega)
    have : (i - 1) / d ≤ (j - 1) / d := Nat.div_le_div_right (by omega)
    omega
  · have e1 : knot (combC P b d n sdeg).knots d = b 0 := by
      unfold combC
      rw [knot_arr (by omega), combU_block hd (i := 0) (by omega) (by omega) (by omega)]
    have e2 : knot (combC P b d n sdeg).knots (combC P b d n sdeg).ctrl.length = b n := by
      unfold combC
      rw [arr_length, knot_arr (by omega), combU_block hd (i := n) (by omega) (by omega) (by omega)]
    rw [e1, e2]
    exact hb 0 n (by omega) le_rfl

theorem combC_lower : knot (combC P b d n sdeg).knots d = b 0 := by
  unfold combC
  rw [knot_arr (by omega), combU_block hd (i := 0) (by omega) (by omega) (by omega)]

theorem combC_upper :
    knot (combC P b d n sdeg).knots (combC P b d n sdeg).ctrl.length = b n := by
  unfold combC
  rw [arr_length, knot_arr (by omega), combU_block hd (i := n) (by omega) (by omega) (by omega)]

theorem combC_mem {y : K} : y ∈ (combC P b d n sdeg).knots ↔ ∃ i ≤ n, y = b i := by
  constructor
  · intro h
    simp only [combC, arr, List.mem_map, List.mem_range] at h
    obtain ⟨j, -, rfl⟩ := h
    exact ⟨_, by omega, rfl⟩
  · rintro ⟨i, hi, rfl⟩
    rw [← List.count_pos_iff, combC_count hd hn hb hi]
    split <;> omega

/-- Before removals the curve on `[b_i, b_(i+1)]` is the Bézier curve of its own block of the
polygon. -/
theorem combC_value (hs : sdeg = none ∨ sdeg = some d) {i : ℕ} (hi : i < n) {s : K} (h0 : 0 ≤ s)
    (h1 : s ≤ 1) :
    bsplinePoint d (combC P b d n sdeg).knots (combC P b d n sdeg).ctrl
        ((1 - s) * b i + s * b (i + 1))
      = bezierPoint (arr (d + 1) (fun j => combP P d (i * d + j))) s := by
  have hw := combC_wf (P := P) hd hn hb hs
  have hnd : (i + 1) * d ≤ n * d := Nat.mul_le_mul_right d hi
  have hnd' : (i + 1) * d = i * d + d := by ring
  have k1 : knot (combC P b d n sdeg).knots (i * d + d) = b i := by
    unfold combC
    rw [knot_arr (by omega), combU_block hd (i := i) (by omega) (by omega) (by omega)]
  have k2 : knot (combC P b d n sdeg).knots (i * d + d + 1) = b (i + 1) := by
    unfold combC
    rw [knot_arr (by omega), combU_block hd (i := i + 1) (by omega) (by omega) (by omega)]
  have c1 : d ≤ (combC P b d n sdeg).knots.count (b i) := by
    rw [combC_count hd hn hb (by omega)]; split <;> omega
  have c2 := combC_count (P := P) (sdeg := sdeg) hd hn hb (i := i + 1) (by omega)
  have := (pieceOf_span hw (k := i * d + d) (by omega) (by simp [combC]; omega)
    (by rw [k1, k2]; exact hb i (i + 1) (by omega) (by omega)) (by rw [k1]; exact c1)
    (by rw [k2, c2]; split <;> omega)).value s h0 h1 (by
      right
      rw [k2]
      by_cases hin : i + 1 = n
      · left; rw [combC_upper hd hn hb, hin]
      · right; rw [c2, if_neg (by omega)])
  rw [k1, k2, arr_congr (h := fun j => combP P d (i * d + j)) (fun j hj => by
      change (arr (n * d + 1) (combP P d)).getD (i * d + d - d + j) 0 = _
      rw [Nat.add_sub_cancel, arr_getD _ _ _ _ (by omega)]),
    Bezier.evaluate_arr, ok.injEq] at this
  rw [← this, Bezier.arr_bezierPoint]

end Base

/-- If the pieces were accepted they have one degree and join up to `eps`. -/
theorem combineCtrl_accepts {nrm : V → K} {eps : K} {d n : ℕ} (hd : 1 ≤ d) {bs : ℕ → Bezier V}
    (hn : 1 ≤ n) {Q : List V} (h : combineCtrl nrm eps d (arr n bs) = ok Q) :
    (∀ i < n, (bs i).ctrl.length = d + 1) ∧
      ∀ i, i + 1 < n → nrm ((bs (i + 1)).ctrl.getD 0 0 - (bs i).ctrl.getD d 0) < eps := by
  unfold combineCtrl at h
  rw [rd_arr hn, ok_bind] at h
  simp only [bind_eq_ok, arr_length] at h
  obtain ⟨⟨⟩, h1, Q0, h2, h3⟩ := h
  have hd0 : (bs 0).ctrl.length = d + 1 := by
    by_contra hne
    rw [assert_false hne] at h1
    cases h1
  have e0 : List.replicate (n * d + 1) (0 : V) = arr (n * d + 1) (fun _ => 0) := by
    apply eq_arr_of
    · simp
    · intro i hi; simp [hi]
  have hmul : ∀ i, i < n → (i + 1) * d ≤ n * d := fun i hi => Nat.mul_le_mul_right d hi
  have hm0 := hmul 0 hn
  rw [e0, eq_arr (bs 0).ctrl 0, hd0, wrSeg_arr (fun k => if k < d + 1 then
    (bs 0).ctrl.getD k 0 else 0) (by omega) (fun k hk => by
      by_cases hk : k < d + 1
      · rw [if_pos hk, if_pos (by omega), Nat.sub_zero]
      · rw [if_neg hk, if_neg (by omega)]), ok.injEq] at h2
  have key := loop_inv_of_ok (fun k (S : List V) => S.length = n * d + 1 ∧
      S.getD ((k + 1) * d) 0 = (bs k).ctrl.getD d 0 ∧ (∀ i ≤ k, (bs i).ctrl.length = d + 1) ∧
      ∀ i < k, nrm ((bs (i + 1)).ctrl.getD 0 0 - (bs i).ctrl.getD d 0) < eps) (n - 1) _ Q0
    ⟨by rw [← h2, arr_length], by
      rw [← h2, arr_getD _ _ _ _ (by omega), if_pos (by omega)]; simp,
      fun i hi => by rw [show i = 0 by omega]; exact hd0, fun i hi => by omega⟩ ?_ Q h3
  · exact ⟨fun i hi => key.2.2.1 i (by omega), fun i hi => key.2.2.2 i (by omega)⟩
  · rintro k hk S S' ⟨a1, a2, a3, a4⟩ hS
    rw [show 1 + k = k + 1 by omega] at hS
    dsimp only at hS
    rw [rd_arr (by omega), ok_bind] at hS
    simp only [bind_eq_ok] at hS
    obtain ⟨⟨⟩, b1, x, b2, y, b3, ⟨⟩, b4, blk, b5, b6⟩ := hS
    have hdeg : (bs (k + 1)).ctrl.length = d + 1 := by
      by_contra hne
      rw [assert_false] at b1
      · cases b1
      · unfold Bezier.degree; omega
    have hm := hmul (k + 1) (by omega)
    have hm1 : (k + 1 + 1) * d = (k + 1) * d + d := by ring
    have hx : x = (bs (k + 1)).ctrl.getD 0 0 := by
      rw [rd_eq_ok] at b2
      simp [List.getD, b2]
    have hy : y = (bs k).ctrl.getD d 0 := by
      rw [rd_eq_ok] at b3
      rw [← a2]
      simp [List.getD, b3]
    have hlt : nrm (x - y) < eps := by
      by_contra hne
      rw [assert_false hne] at b4
      cases b4
    rw [eq_arr (bs (k + 1)).ctrl 0, hdeg, seg_arr (by omega), ok.injEq] at b5
    rw [← b5, eq_arr S 0, a1, wrSeg_arr (fun i => if 1 + (k + 1) * d ≤ i ∧ i < 1 + (k + 1) * d + d
      then (bs (k + 1)).ctrl.getD (1 + (i - (1 + (k + 1) * d))) 0 else S.getD i 0) (by omega)
      (fun i _ => rfl), ok.injEq] at b6
    refine ⟨by rw [← b6, arr_length], ?_, ?_, ?_⟩
    · rw [← b6, arr_getD _ _ _ _ (by omega)]
      rw [if_pos (by omega)]
      congr 1; omega
    · intro i hi
      rcases Nat.lt_or_ge i (k + 1) with h | h
      · exact a3 i (by omega)
      · rw [show i = k + 1 by omega]; exact hdeg
    · intro i hi
      rcases Nat.lt_or_ge i k with h | h
      · exact a4 i h
      · rw [show i = k by omega, ← hx, ← hy]; exact hlt

/-- What the removal loop leaves. -/
theorem removeAll_spec {eps : K} (heps : 0 ≤ eps) {d : ℕ} (hd : 1 ≤ d) {nrm : V → K}
    (hnrm : IsSeminorm nrm) (extent : List V → K) : ∀ (ts : List K) (c : BSpline K V),
    WellFormed c d → ts.Nodup →
    (∀ t ∈ ts, knot c.knots d ≤ t ∧ t ≤ knot c.knots c.ctrl.length) →
    (∀ t ∈ ts, knot c.knots d < t → t < knot c.knots c.ctrl.length → c.knots.count t = d) →
    ∃ (c' : BSpline K V) (R : List K), removeAll nrm extent eps d ts c = ok c' ∧ WellFormed c' d ∧
      c.knots.Perm (R ++ c'.knots) ∧
      (∀ t ∈ R, t ∈ ts ∧ knot c.knots d < t ∧ t < knot c.knots c.ctrl.length) ∧
      c'.ctrl.length + R.length = c.ctrl.length ∧
      knot c'.knots d = knot c.knots d ∧
      knot c'.knots c'.ctrl.length = knot c.knots c.ctrl.length ∧
      c'.periodic = c.periodic ∧ c'.sdeg = c.sdeg ∧
      ∀ x, knot c.knots d ≤ x → x ≤ knot c.knots c.ctrl.length →
        nrm (bsplinePoint d c.knots c.ctrl x - bsplinePoint d c'.knots c'.ctrl x)
          ≤ (R.length : K) * eps := by
  have hz : nrm 0 = 0 := by
    have := hnrm.smul 0 0
    simpa using this
  intro ts
  induction ts with
  | nil =>
    intro c hc _ _ _
    exact ⟨c, [], rfl, hc, by simp, by simp, by simp, rfl, rfl, rfl, rfl, fun x _ _ => by simp [hz]⟩
  | cons t ts ih =>
    intro c hc hnd hdom hcnt
    rw [List.nodup_cons] at hnd
    obtain ⟨hd1, hd2⟩ := hdom t (by simp)
    by_cases hint : knot c.knots d < t ∧ t < knot c.knots c.ctrl.length
    · have hct := hcnt t (by simp) hint.1 hint.2
      have hmem : t ∈ c.knots := by rw [← List.count_pos_iff]; omega
      obtain ⟨c1, m, e, b1, b2, b3, b4, b5, b6, b7, b8, -⟩ := NS.Props.C18_bookkeeping_partial heps hc hint.1
        hint.2 hmem (by omega) nrm extent hd (by omega) eps
      have hdev := fun x h1 h2 => NS.Props.C18_deviation_partial heps hc hint.1 hint.2 hmem (by omega) hnrm
        extent hd (by omega) heps e (x := x) h1 h2
      obtain ⟨c', R, e', a1, a2, a3, a4, a5, a6, a7, a8, a9⟩ := ih c1 b2 hnd.2
        (fun y hy => by rw [b5, b6]; exact hdom y (by simp [hy]))
        (fun y hy h1 h2 => by
          rw [b5] at h1; rw [b6] at h2
          have h3 := hcnt y (by simp [hy]) h1 h2
          have h4 := b4.count_eq y
          have hne : t ≠ y := fun h => hnd.1 (h ▸ hy)
          rw [List.count_append, List.count_replicate] at h4
          simp only [beq_iff_eq, hne, if_false, zero_add] at h4
          omega)
      refine ⟨c', List.replicate m t ++ R, ?_, a1, ?_, ?_, ?_, by rw [a5, b5], by rw [a6, b6],
        by rw [a7, b7], by rw [a8, b8], ?_⟩
      · simp only [removeAll, e, ok_bind, e']
      · rw [List.append_assoc]
        exact b4.trans (List.Perm.append_left _ a2)
      · intro y hy
        rcases List.mem_append.1 hy with h | h
        · rw [(List.mem_replicate.1 h).2]
          exact ⟨by simp, hint⟩
        · obtain ⟨h1, h2, h3⟩ := a3 y h
          rw [b5] at h2; rw [b6] at h3
          exact ⟨by simp [h1], h2, h3⟩
      · simp only [List.length_append, List.length_replicate]; omega
      · intro x hx1 hx2
        have h1 := hdev x hx1 hx2
        have h2 := a9 x (by rw [b5]; exact hx1) (by rw [b6]; exact hx2)
        have h3 := hnrm.tri (bsplinePoint d c.knots c.ctrl x - bsplinePoint d c1.knots c1.ctrl x)
          (bsplinePoint d c1.knots c1.ctrl x - bsplinePoint d c'.knots c'.ctrl x)
        rw [sub_add_sub_cancel] at h3
        simp only [List.length_append, List.length_replicate]
        push_cast
        linarith
    · have e := NS.Props.C18_not_interior hc (eps := eps) (t := t) (by linarith) (by linarith)
        (by
          right
          by_contra h
          push Not at h
          exact hint h) nrm extent hd eps
      obtain ⟨c', R, e', a1, a2, a3, a4⟩ := ih c hc hnd.2 (fun y hy => hdom y (by simp [hy]))
        (fun y hy => hcnt y (by simp [hy]))
      refine ⟨c', R, ?_, a1, a2, fun y hy => ?_, a4⟩
      · simp only [removeAll, e, ok_bind, e']
      · obtain ⟨h1, h2⟩ := a3 y hy
        exact ⟨by simp [h1], h2⟩

end NS.BSpline
