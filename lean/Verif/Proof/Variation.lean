import Verif.Spec.SignChanges
import Verif.Spec.Seminorm
import Verif.Proof.InsertCurve

/-!
# Corner cutting and the variation diminishing property
-/

set_option linter.unusedSectionVars false

namespace NS.BSpline

open Outcome Spec Finset

variable {K V : Type} [Field K] [LinearOrder K] [IsStrictOrderedRing K] [FloorRing K]
  [AddCommGroup V] [Module K V]

/-- `b'` (one element more) arises from `b` by cutting corners: its elements lie on the edges of `b`,
in order. -/
def CutStep (K : Type) {V : Type} [Field K] [LinearOrder K] [AddCommGroup V] [Module K V] (N : ℕ)
    (b b' : ℕ → V) : Prop :=
  ∃ a : ℕ → K, (∀ i, 0 ≤ a i ∧ a i ≤ 1) ∧ a 0 = 1 ∧ a N = 0 ∧
    ∀ i ≤ N, b' i = a i • b i + (1 - a i) • b (i - 1)

/-- Repeated cutting of corners. -/
inductive Cuts (K : Type) {V : Type} [Field K] [LinearOrder K] [AddCommGroup V] [Module K V] (N : ℕ)
    (b : ℕ → V) : ℕ → (ℕ → V) → Prop
  | same (b' : ℕ → V) (h : ∀ i < N, b' i = b i) : Cuts K N b N b'
  | step (M : ℕ) (b' b'' : ℕ → V) (h : Cuts K N b M b') (h' : CutStep K M b' b'') :
    Cuts K N b (M + 1) b''

theorem CutStep.congr {N : ℕ} {b b' d d' : ℕ → V} (h : CutStep K N b b') (hb : ∀ i < N, d i = b i)
    (hb' : ∀ i ≤ N, d' i = b' i) : CutStep K N d d' := by
  obtain ⟨a, a1, a2, a3, a4⟩ := h
  have hN : N ≠ 0 := by rintro rfl; rw [a2] at a3; exact one_ne_zero a3
  refine ⟨a, a1, a2, a3, fun i hi => ?_⟩
  rw [hb' i hi, a4 i hi]
  rcases Nat.lt_or_ge i N with h | h
  · rw [hb i h, hb (i - 1) (by omega)]
  · obtain rfl : i = N := by omega
    rw [a3, zero_smul, zero_smul, hb (i - 1) (by omega)]

theorem Cuts.congr_right {N M : ℕ} {b b' : ℕ → V} (h : Cuts K N b M b') {d : ℕ → V}
    (hd : ∀ i < M, d i = b' i) : Cuts K N b M d := by
  cases h with
  | same b' h => exact .same d fun i hi => (hd i hi).trans (h i hi)
  | step M b' b'' h h' =>
    exact .step M b' d h (h'.congr (fun _ _ => rfl) fun i hi => hd i (by omega))

theorem Cuts.trans {N M L : ℕ} {b b' b'' : ℕ → V} (h : Cuts K N b M b') (h' : Cuts K M b' L b'') :
    Cuts K N b L b'' := by
  induction h' with
  | same d hd => exact h.congr_right hd
  | step L d d' _ hs ih => exact .step L d d' ih hs

/-- `b'` (one element more) arises from `b` by cutting corners, as far as signs are concerned. -/
def Cut (N : ℕ) (b b' : ℕ → K) : Prop :=
  ∀ i < N + 1, ∀ σ : K, 0 < σ * b' i → ∃ m < N, (m = i ∨ m + 1 = i) ∧ 0 < σ * b m

theorem Cut.changes {N : ℕ} {b b' : ℕ → K} (h : Cut N b b') {k : ℕ} {σ : K}
    (hc : Changes (· < N + 1) b' k σ) : Changes (· < N) b k σ := by
  obtain ⟨x, hx, hD, hs⟩ := hc
  have key : ∀ j, ∃ m, j ≤ k → m < N ∧ (m = x j ∨ m + 1 = x j) ∧ 0 < σ * (-1) ^ j * b m := by
    intro j
    by_cases hj : j ≤ k
    · obtain ⟨m, a1, a2, a3⟩ := h _ (hD j hj) _ (hs j hj)
      exact ⟨m, fun _ => ⟨a1, a2, a3⟩⟩
    · exact ⟨0, fun h => absurd h hj⟩
  choose y hy using key
  refine ⟨y, fun j hj => ?_, fun j hj => (hy j hj).1, fun j hj => (hy j hj).2.2⟩
  obtain ⟨-, a2, a3⟩ := hy j hj.le
  obtain ⟨-, b2, b3⟩ := hy (j + 1) hj
  have hxj := hx j hj
  rcases Nat.lt_or_ge (y j) (y (j + 1)) with h1 | h1
  · exact h1
  · exfalso
    have e : y (j + 1) = y j := by omega
    rw [e, pow_succ] at b3
    nlinarith

theorem sign_of_combo {a x y σ : K} (h0 : 0 ≤ a) (h1 : a ≤ 1)
    (h : 0 < σ * (a * x + (1 - a) * y)) : 0 < σ * x ∨ 0 < σ * y := by
  by_contra hn
  push Not at hn
  obtain ⟨hx, hy⟩ := hn
  have e : σ * (a * x + (1 - a) * y) = a * (σ * x) + (1 - a) * (σ * y) := by ring
  rw [e] at h
  nlinarith [mul_nonneg h0 (neg_nonneg.2 hx), mul_nonneg (sub_nonneg.2 h1) (neg_nonneg.2 hy)]

theorem CutStep.cut {N : ℕ} {b b' : ℕ → K} (h : CutStep K N b b') : Cut N b b' := by
  obtain ⟨a, a1, a2, a3, a4⟩ := h
  have hN : N ≠ 0 := by rintro rfl; rw [a2] at a3; exact one_ne_zero a3
  intro i hi σ hσ
  have ha4 := a4 i (by omega)
  rw [ha4, smul_eq_mul, smul_eq_mul] at hσ
  rcases Nat.eq_zero_or_pos i with rfl | h0
  · rw [a2] at hσ
    exact ⟨0, by omega, Or.inl rfl, by simpa using hσ⟩
  · rcases Nat.lt_or_ge i N with h | h
    · rcases sign_of_combo (a1 i).1 (a1 i).2 hσ with h' | h'
      · exact ⟨i, h, Or.inl rfl, h'⟩
      · exact ⟨i - 1, by omega, Or.inr (by omega), h'⟩
    · obtain rfl : i = N := by omega
      rw [a3] at hσ
      exact ⟨i - 1, by omega, Or.inr (by omega), by simpa using hσ⟩

theorem Cuts.changes {N M : ℕ} {b b' : ℕ → K} (h : Cuts K N b M b') {k : ℕ} {σ : K}
    (hc : Changes (· < M) b' k σ) : Changes (· < N) b k σ := by
  induction h with
  | same d hd =>
    obtain ⟨x, x1, x2, x3⟩ := hc
    exact ⟨x, x1, x2, fun j hj => by rw [← hd _ (x2 j hj)]; exact x3 j hj⟩
  | step M d d' _ hs ih => exact ih (hs.cut.changes hc)

/-- Cutting corners makes a polygon no longer. -/
theorem CutStep.length {nrm : V → K} (hn : IsSeminorm nrm) {N : ℕ} {b b' : ℕ → V}
    (h : CutStep K (N + 1) b b') :
    ∑ i ∈ range (N + 1), nrm (b' (i + 1) - b' i) ≤ ∑ i ∈ range N, nrm (b (i + 1) - b i) := by
  obtain ⟨a, a1, a2, a3, a4⟩ := h
  have key : ∀ i ∈ range (N + 1), nrm (b' (i + 1) - b' i) ≤
      a (i + 1) * nrm (b (i + 1) - b i) + (1 - a i) * nrm (b i - b (i - 1)) := by
    intro i hi
    have hi' : i < N + 1 := by simpa using hi
    rw [a4 (i + 1) (by omega), a4 i (by omega)]
    have e : a (i + 1) • b (i + 1) + (1 - a (i + 1)) • b (i + 1 - 1) -
        (a i • b i + (1 - a i) • b (i - 1)) =
        a (i + 1) • (b (i + 1) - b i) + (1 - a i) • (b i - b (i - 1)) := by
      rw [Nat.add_sub_cancel]
      module
    rw [e]
    refine (hn.tri _ _).trans ?_
    rw [hn.smul, hn.smul, abs_of_nonneg (a1 _).1, abs_of_nonneg (sub_nonneg.2 (a1 _).2)]
  refine (sum_le_sum key).trans ?_
  rw [sum_add_distrib, sum_range_succ, sum_range_succ' (fun i => (1 - a i) * nrm (b i - b (i - 1))),
    a3, a2]
  simp only [zero_mul, add_zero, sub_self, Nat.add_sub_cancel, ← sum_add_distrib]
  refine le_of_eq (sum_congr rfl fun i _ => by ring)

theorem Cuts.length {nrm : V → K} (hn : IsSeminorm nrm) {N M : ℕ} {b b' : ℕ → V}
    (h : Cuts K N b M b') :
    ∑ i ∈ range (M - 1), nrm (b' (i + 1) - b' i) ≤ ∑ i ∈ range (N - 1), nrm (b (i + 1) - b i) := by
  induction h with
  | same d hd =>
    refine le_of_eq (sum_congr rfl fun i hi => ?_)
    have : i < N - 1 := by simpa using hi
    rw [hd _ (by omega), hd _ (by omega)]
  | step M d d' _ hs ih =>
    refine le_trans ?_ ih
    have hM : M ≠ 0 := by
      obtain ⟨a, a1, a2, a3, a4⟩ := hs
      rintro rfl
      rw [a2] at a3
      exact one_ne_zero a3
    obtain ⟨m, rfl⟩ := Nat.exists_eq_succ_of_ne_zero hM
    exact hs.length hn

/-- The points of homogeneous coordinates with positive weights are cut as well. -/
theorem CutStep.project {N : ℕ} {b b' : ℕ → V × K} (h : CutStep K N b b') (hb : ∀ i < N, 0 < (b i).2) :
    CutStep K N (fun i => (b i).2⁻¹ • (b i).1) (fun i => (b' i).2⁻¹ • (b' i).1) ∧
      ∀ i < N + 1, 0 < (b' i).2 := by
  obtain ⟨a, a1, a2, a3, a4⟩ := h
  have hN : N ≠ 0 := by rintro rfl; rw [a2] at a3; exact one_ne_zero a3
  have hpos : ∀ i < N + 1, 0 < (b' i).2 := by
    intro i hi
    rw [a4 i (by omega)]
    simp only [Prod.snd_add, Prod.smul_snd, smul_eq_mul]
    have h1 := (a1 i).1
    have h2 := (a1 i).2
    have h3 := hb (i - 1) (by omega)
    rcases Nat.lt_or_ge i N with h | h
    · have h4 := hb i h
      rcases h1.lt_or_eq with h1 | h1
      · nlinarith [mul_nonneg (sub_nonneg.2 h2) h3.le, mul_pos h1 h4]
      · rw [← h1]; simpa using h3
    · obtain rfl : i = N := by omega
      rw [a3]; simpa using h3
  refine ⟨⟨fun i => if i < N then a i * (b i).2 / (b' i).2 else 0, fun i => ?_, ?_, ?_, fun i hi => ?_⟩,
    hpos⟩
  · dsimp only
    split_ifs with h
    · have h1 := hpos i (by omega)
      have h2 := hb i h
      refine ⟨div_nonneg (mul_nonneg (a1 i).1 h2.le) h1.le, ?_⟩
      rw [div_le_one h1, a4 i (by omega)]
      simp only [Prod.snd_add, Prod.smul_snd, smul_eq_mul, le_add_iff_nonneg_right]
      exact mul_nonneg (sub_nonneg.2 (a1 i).2) (hb (i - 1) (by omega)).le
    · exact ⟨le_rfl, zero_le_one⟩
  · dsimp only
    rw [if_pos (by omega), a2, one_mul, a4 0 (by omega), a2]
    simp only [one_smul, sub_self, zero_smul, add_zero]
    exact div_self (hb 0 (by omega)).ne'
  · simp
  · dsimp only
    have h1 := (hpos i (by omega)).ne'
    have h3 := (hb (i - 1) (by omega)).ne'
    split_ifs with h
    · have h2 := (hb i h).ne'
      have e2 : (b' i).2 = a i * (b i).2 + (1 - a i) * (b (i - 1)).2 := by
        rw [a4 i hi]; simp
      have e1 : (b' i).1 = a i • (b i).1 + (1 - a i) • (b (i - 1)).1 := by
        rw [a4 i hi]; simp
      have e3 : 1 - a i * (b i).2 / (b' i).2 = (1 - a i) * (b (i - 1)).2 / (b' i).2 := by
        rw [eq_div_iff h1, sub_mul, div_mul_cancel₀ _ h1, e2]
        ring
      rw [e3, e1, smul_smul, smul_smul, smul_add, smul_smul, smul_smul]
      congr 2 <;> field_simp
    · obtain rfl : i = N := by omega
      rw [a4 i le_rfl, a3]
      simp

theorem Cuts.project {N M : ℕ} {b b' : ℕ → V × K} (h : Cuts K N b M b') (hb : ∀ i < N, 0 < (b i).2) :
    Cuts K N (fun i => (b i).2⁻¹ • (b i).1) M (fun i => (b' i).2⁻¹ • (b' i).1) ∧
      ∀ i < M, 0 < (b' i).2 := by
  induction h with
  | same d hd =>
    exact ⟨.same _ fun i hi => by simp only [hd i hi], fun i hi => by rw [hd i hi]; exact hb i hi⟩
  | step M d d' _ hs ih =>
    obtain ⟨a, b⟩ := hs.project ih.2
    exact ⟨.step M _ _ ih.1 a, b⟩

/-- The control points after `j` of the rounds of `insert_knot`. -/
def stage (u : ℕ → K) (t : K) (k p s : ℕ) (P : ℕ → V) (j i : ℕ) : V :=
  if i ≤ k - p then P i
  else if i ≤ k - p + j then insR u t k p P (i - (k - p)) 0
  else if i ≤ k - s then insR u t k p P j (i - (k - p) - j)
  else if i < k + j - s then insR u t k p P (k + j - s - i) (p - (k + j - s - i) - s)
  else P (i - j)

variable {u : List K} {t : K} {k p s N : ℕ} {P : ℕ → V}

theorem stage_cut (hs : u.Pairwise (· ≤ ·)) (hpk : p ≤ k) (hk : k + p + 1 ≤ u.length) (hkN : k < N)
    (hlt : knot u k < knot u (k + 1)) (h1 : knot u k ≤ t) (h2 : t ≤ knot u (k + 1)) {j : ℕ}
    (hj : j + 1 + s ≤ p) :
    CutStep K (N + j) (stage (knot u) t k p s P j) (stage (knot u) t k p s P (j + 1)) := by
  have hal : ∀ i, k - p + j < i → i ≤ k - s →
      0 ≤ (t - knot u i) / (knot u (i - (k - p) - (j + 1) + k + 1) - knot u i) ∧
      (t - knot u i) / (knot u (i - (k - p) - (j + 1) + k + 1) - knot u i) ≤ 1 := by
    intro i c1 c2
    have e1 : knot u i ≤ knot u k := knot_mono hs (by omega) (by omega)
    have e2 : knot u (k + 1) ≤ knot u (i - (k - p) - (j + 1) + k + 1) :=
      knot_mono hs (by omega) (by omega)
    have hd : 0 < knot u (i - (k - p) - (j + 1) + k + 1) - knot u i := by linarith
    refine ⟨div_nonneg (by linarith) hd.le, ?_⟩
    rw [div_le_one hd]
    linarith
  refine ⟨fun i => if i ≤ k - p + j then 1 else if i ≤ k - s then
    (t - knot u i) / (knot u (i - (k - p) - (j + 1) + k + 1) - knot u i) else 0,
    fun i => ?_, ?_, ?_, fun i hi => ?_⟩
  · dsimp only
    split_ifs with c1 c2
    · exact ⟨zero_le_one, le_rfl⟩
    · exact hal i (by omega) c2
    · exact ⟨le_rfl, zero_le_one⟩
  · simp
  · dsimp only
    rw [if_neg (by omega), if_neg (by omega)]
  · dsimp only
    split_ifs with c1 c2
    · rw [one_smul, sub_self, zero_smul, add_zero]
      unfold stage
      by_cases h : i ≤ k - p
      · rw [if_pos h, if_pos h]
      · rw [if_neg h, if_neg h, if_pos c1, if_pos (by omega)]
    · have el : stage (knot u) t k p s P (j + 1) i
          = insR (knot u) t k p P (j + 1) (i - (k - p) - (j + 1)) := by
        unfold stage
        rw [if_neg (by omega)]
        by_cases h : i ≤ k - p + (j + 1)
        · have : i = k - p + (j + 1) := by omega
          rw [if_pos h]
          congr 1 <;> omega
        · rw [if_neg h, if_pos c2]
      have e0 : stage (knot u) t k p s P j i
          = insR (knot u) t k p P j (i - (k - p) - (j + 1) + 1) := by
        unfold stage
        rw [if_neg (by omega), if_neg c1, if_pos c2]
        congr 1
        omega
      have e1 : stage (knot u) t k p s P j (i - 1)
          = insR (knot u) t k p P j (i - (k - p) - (j + 1)) := by
        unfold stage
        by_cases h : i - 1 ≤ k - p
        · obtain rfl : j = 0 := by omega
          rw [if_pos h, insR]
          congr 1
          omega
        · rw [if_neg h]
          by_cases h' : i - 1 ≤ k - p + j
          · rw [if_pos h']
            congr 1 <;> omega
          · rw [if_neg h', if_pos (by omega)]
            congr 1
            omega
      rw [el, e0, e1, insR, show k - p + (j + 1) + (i - (k - p) - (j + 1)) = i by omega]
    · rw [zero_smul, zero_add, sub_zero, one_smul]
      unfold stage
      rw [if_neg (by omega), if_neg (by omega), if_neg c2]
      rcases Nat.lt_or_ge (k - s) (i - 1) with c5 | c5
      · rw [if_neg (by omega : ¬ i - 1 ≤ k - p), if_neg (by omega : ¬ i - 1 ≤ k - p + j),
          if_neg (by omega : ¬ i - 1 ≤ k - s)]
        by_cases h : i < k + (j + 1) - s
        · rw [if_pos h, if_pos (by omega), show k + (j + 1) - s - i = k + j - s - (i - 1) by omega]
        · rw [if_neg h, if_neg (by omega), show i - (j + 1) = i - 1 - j by omega]
      · by_cases h : i < k + (j + 1) - s
        · by_cases h' : i - 1 ≤ k - p
          · omega
          · rw [if_pos h, if_neg h']
            by_cases h'' : i - 1 ≤ k - p + j
            · have : s + j = p := by omega
              omega
            · rw [if_neg h'', if_pos c5]
              congr 1 <;> omega
        · obtain rfl : j = 0 := by omega
          rw [if_neg h]
          by_cases h' : i - 1 ≤ k - p
          · rw [if_pos h']
          · rw [if_neg h', if_neg (by omega), if_pos c5, insR]
            congr 1
            omega

theorem stage_cuts (hs : u.Pairwise (· ≤ ·)) (hpk : p ≤ k) (hk : k + p + 1 ≤ u.length)
    (hkN : k < N) (hlt : knot u k < knot u (k + 1)) (h1 : knot u k ≤ t) (h2 : t ≤ knot u (k + 1)) :
    ∀ r, r + s ≤ p → Cuts K N P (N + r) (stage (knot u) t k p s P r)
  | 0, hr => by
    refine .same _ fun i _ => ?_
    unfold stage
    split_ifs with c1 c2 c3 c4
    · rfl
    · omega
    · rw [insR]; congr 1; omega
    · omega
    · rfl
  | r + 1, hr => .step (N + r) _ _ (stage_cuts hs hpk hk hkN hlt h1 h2 r (by omega))
      (stage_cut (N := N) hs hpk hk hkN hlt h1 h2 hr)

theorem insCtrl_stage {r : ℕ} {g : ℕ → V} (hpk : p ≤ k) (hrs : r + s ≤ p)
    (h : InsCtrl (knot u) t k p r s N P g) :
    ∀ i < N + r, g i = stage (knot u) t k p s P r i := by
  intro i hi
  unfold stage
  split_ifs with c1 c2 c3 c4
  · exact h.low i c1
  · have := h.left (i - (k - p)) (by omega) (by omega)
    rwa [show k - p + (i - (k - p)) = i by omega] at this
  · have := h.mid (i - (k - p) - r) (by omega)
    rwa [show k - p + r + (i - (k - p) - r) = i by omega] at this
  · have := h.right (k + r - s - i) (by omega) (by omega)
    rwa [show k + r - s - (k + r - s - i) = i by omega] at this
  · exact h.high i (by omega) hi

/-- `d` describes the curve of `c` with further knots. -/
structure Finer (p : ℕ) (c d : BSpline K V) : Prop where
  wf : WellFormed d p
  lower : knot d.knots p = knot c.knots p
  upper : knot d.knots d.ctrl.length = knot c.knots c.ctrl.length
  point : ∀ x, knot c.knots p ≤ x → x ≤ knot c.knots c.ctrl.length →
    bsplinePoint p d.knots d.ctrl x = bsplinePoint p c.knots c.ctrl x
  count : ∀ y, c.knots.count y ≤ d.knots.count y
  cuts : Cuts K c.ctrl.length (fun i => c.ctrl.getD i 0) d.ctrl.length (fun i => d.ctrl.getD i 0)

theorem Finer.refl {c : BSpline K V} (h : WellFormed c p) : Finer p c c :=
  ⟨h, rfl, rfl, fun _ _ _ => rfl, fun _ => le_rfl, .same _ fun _ _ => rfl⟩

theorem Finer.trans {c d e : BSpline K V} (h : Finer p c d) (h' : Finer p d e) : Finer p c e :=
  ⟨h'.wf, h'.lower.trans h.lower, h'.upper.trans h.upper,
    fun x h1 h2 => (h'.point x (by rw [h.lower]; exact h1) (by rw [h.upper]; exact h2)).trans
      (h.point x h1 h2),
    fun y => (h.count y).trans (h'.count y), h.cuts.trans h'.cuts⟩

theorem finer_insert {c : BSpline K V} (hc : WellFormed c p) (h1 : knot c.knots p < t)
    (h2 : t < knot c.knots c.ctrl.length) : ∃ d, Finer p c d ∧ p ≤ d.knots.count t := by
  rcases Nat.lt_or_ge (c.knots.count t) p with hcount | hcount
  · have hl := hc.len
    obtain ⟨a, Q0, ha, hin⟩ := exists_atSpan hc t (Or.inr h1) h1.le h2.le
    have hne : t ≠ knot c.knots c.ctrl.length := h2.ne
    set r := p - c.knots.count t with hr
    have hI := (insertKnot_inserted (le_refl (0 : K)) hc (Or.inr h1) h1.le h2.le
      (r := r) (by omega)).2 (by rw [if_neg hne]; omega)
    obtain ⟨d, ed, hd⟩ := hI
    have hs' : (if t = knot c.knots a then c.knots.count t else 0) ≤ c.knots.count t := by
      split_ifs <;> omega
    obtain ⟨g, eg, hg⟩ := (insertKnot_eq (le_refl (0 : K)) hc h1.le h2.le ha.loc ha.le ha.lt ha.ne
      rfl (r := r) (by omega)).2 (by omega)
    rw [ed] at eg
    have edd := ok.inj eg
    refine ⟨d, ⟨hd.wf, hd.lower, hd.upper, hd.point, fun y => ?_, ?_⟩, ?_⟩
    · rw [hd.perm.count_eq, List.count_append]
      omega
    · have hst := insCtrl_stage ha.le (by omega) hg
      have hb := hin.bounds
      have hl' : d.ctrl.length = c.ctrl.length + r := by rw [edd]; simp
      rw [hl']
      refine (stage_cuts (k := a) (t := t) hc.sorted ha.le (by have := ha.lt; omega) ha.lt ha.ne
        hb.1 hb.2 r (s := if t = knot c.knots a then c.knots.count t else 0)
        (by omega)).congr_right fun i hi => ?_
      rw [edd, ← hst i hi]
      exact arr_getD _ _ _ _ hi
    · rw [hd.perm.count_eq, List.count_append, List.count_replicate_self]
      omega
  · exact ⟨c, Finer.refl hc, hcount⟩

theorem finer_all {c : BSpline K V} (hc : WellFormed c p) (L : List K)
    (hL : ∀ t ∈ L, knot c.knots p < t ∧ t < knot c.knots c.ctrl.length) :
    ∃ d, Finer p c d ∧ ∀ t ∈ L, p ≤ d.knots.count t := by
  induction L with
  | nil => exact ⟨c, Finer.refl hc, by simp⟩
  | cons t L ih =>
    obtain ⟨d, hd, hT⟩ := ih fun t ht => hL t (by simp [ht])
    have ht := hL t (by simp)
    obtain ⟨e, he, hte⟩ := finer_insert hd.wf (t := t) (by rw [hd.lower]; exact ht.1)
      (by rw [hd.upper]; exact ht.2)
    refine ⟨e, hd.trans he, fun y hy => ?_⟩
    rcases List.mem_cons.1 hy with rfl | hy
    · exact hte
    · exact (hT y hy).trans (he.count y)

theorem span_mono {u : List K} (hs : u.Pairwise (· ≤ ·)) {n a b : ℕ} {x y : K} (hn : n < u.length)
    (ha : InSpan (knot u) (knot u n) a x) (hb : InSpan (knot u) (knot u n) b y) (hxy : x < y)
    (han : a < n) : a ≤ b := by
  by_contra h
  have h1 := knot_mono hs (i := b + 1) (j := a) (by omega) (by omega)
  have h2 := ha.bounds
  have h3 := hb.bounds
  linarith

/-- At an interior knot of multiplicity at least the degree the value is a control value. -/
theorem value_at {c : BSpline K V} (hc : WellFormed c p) {y : K} {k : ℕ} (hpk : p ≤ k)
    (hk : k < c.ctrl.length) (hin : InSpan (knot c.knots) (knot c.knots c.ctrl.length) k y)
    (h2 : y < knot c.knots c.ctrl.length) (hcount : p ≤ c.knots.count y) :
    bsplinePoint p c.knots c.ctrl y = c.ctrl.getD (k - p) 0 ∧
      ∀ i, k - p < i → i ≤ k → knot c.knots i = y := by
  have hl := hc.len
  have hblock : ∀ i, k - p < i → i ≤ k → knot c.knots i = y := by
    intro i i1 i2
    have hmem : y ∈ c.knots := by
      rw [← List.count_pos_iff]
      omega
    have hky : knot c.knots k = y := by
      obtain ⟨a, ha, hat⟩ := List.mem_iff_getElem.mp hmem
      have hka : knot c.knots a = y := by simp [knot, ha, hat]
      have hin' := hin
      unfold InSpan at hin'
      rw [if_neg h2.ne] at hin'
      rcases Nat.lt_or_ge k a with h | h
      · have := knot_mono hc.sorted (i := k + 1) (j := a) (by omega) ha
        rw [hka] at this
        exact absurd hin'.2 (not_lt.mpr this)
      · have := knot_mono hc.sorted (i := a) (j := k) h (by omega)
        rw [hka] at this
        exact le_antisymm hin'.1 this
    rw [← hky]
    exact count_block c hc.sorted (by omega) hin.lt i (by rw [hky]; omega) i2
  refine ⟨?_, hblock⟩
  obtain ⟨Q, hQ⟩ := exists_repr hc.sorted (fun i => c.ctrl.getD i 0) hpk (by omega) hin.lt
  rw [bsplinePoint_eq hc.sorted hl hin hpk hk hQ]
  have := hQ (k - p) le_rfl (by omega)
  simp only at this
  rw [this, lprod_const (t := y)]
  intro i hi
  exact hblock _ (by omega) (by omega)

/-- A value of a given sign needs a control value of that sign on the span. -/
theorem value_sign {c : BSpline K K} (hc : WellFormed c p) {y σ : K} {k : ℕ} (hpk : p ≤ k)
    (hk : k < c.ctrl.length) (hin : InSpan (knot c.knots) (knot c.knots c.ctrl.length) k y)
    (hσ : 0 < σ * bsplinePoint p c.knots c.ctrl y) :
    ∃ m, k - p ≤ m ∧ m ≤ k ∧ 0 < σ * c.ctrl.getD m 0 := by
  have hl := hc.len
  by_contra hn
  push Not at hn
  unfold bsplinePoint at hσ
  rw [sum_basis_support (monoTo_knot hc.sorted) hin hpk hk (by omega), mul_sum] at hσ
  refine absurd hσ (not_lt.2 (sum_nonpos fun j hj => ?_))
  have hj' : j < p + 1 := by simpa using hj
  have h1 := basis_nonneg (monoTo_knot hc.sorted) hin (by omega) p (k - p + j) (by omega)
  have h2 := hn (k - p + j) (by omega) (by omega)
  rw [smul_eq_mul, mul_left_comm]
  exact mul_nonpos_of_nonneg_of_nonpos h1 h2

/-- The variation diminishing property of the sums of basis functions. -/
theorem variation {c : BSpline K K} (hc : WellFormed c p) {n : ℕ} {σ : K}
    (h : Changes (fun x => knot c.knots p ≤ x ∧ x ≤ knot c.knots c.ctrl.length)
      (bsplinePoint p c.knots c.ctrl) n σ) :
    Changes (· < c.ctrl.length) (fun i => c.ctrl.getD i 0) n σ := by
  obtain ⟨x, x1, x2, x3⟩ := h
  set lo := knot c.knots p with hlo
  set hi := knot c.knots c.ctrl.length with hhi
  have hdom : lo < hi := hc.dom
  set mid := (lo + hi) / 2 with hmid
  have hm1 : lo < mid := by rw [hmid]; linarith
  have hm2 : mid < hi := by rw [hmid]; linarith
  set L := mid :: ((List.range (n + 1)).map x).filter (fun t => decide (lo < t ∧ t < hi)) with hL
  obtain ⟨d, hd, hT⟩ := finer_all hc L (by
    intro t ht
    rw [hL, List.mem_cons, List.mem_filter] at ht
    rcases ht with rfl | ⟨-, ht⟩
    · exact ⟨hm1, hm2⟩
    · exact of_decide_eq_true ht)
  refine hd.cuts.changes ?_
  have hl := hd.wf.len
  have hcl := hd.wf.ctrl
  have hlo' := hd.lower
  have hhi' := hd.upper
  rw [← hlo] at hlo'
  rw [← hhi] at hhi'
  -- spans
  have hspan : ∀ y, ∃ k, lo ≤ y → y ≤ hi → p ≤ k ∧ k < d.ctrl.length ∧
      InSpan (knot d.knots) (knot d.knots d.ctrl.length) k y := by
    intro y
    by_cases hy : lo ≤ y ∧ y ≤ hi
    · obtain ⟨k, a⟩ := exists_inSpan (u := knot d.knots) (p := p) (n := d.ctrl.length)
        hd.wf.dom (by omega) (t := y) (by rw [hlo']; exact hy.1) (by rw [hhi']; exact hy.2)
        (fun i j hij hj => knot_mono hd.wf.sorted hij (by omega))
      exact ⟨k, fun _ _ => a⟩
    · exact ⟨0, fun a b => absurd ⟨a, b⟩ hy⟩
  choose κ hκ using hspan
  have hTd : ∀ y ∈ L, lo < y ∧ y < hi := by
    intro t ht
    rw [hL, List.mem_cons, List.mem_filter] at ht
    rcases ht with rfl | ⟨-, ht⟩
    · exact ⟨hm1, hm2⟩
    · exact of_decide_eq_true ht
  have hmono : ∀ y z, lo ≤ y → y < z → z ≤ hi → κ y ≤ κ z := by
    intro y z h1 h2 h3
    obtain ⟨-, a2, a3⟩ := hκ y h1 (h2.le.trans h3)
    obtain ⟨-, -, b3⟩ := hκ z (h1.trans h2.le) h3
    exact span_mono hd.wf.sorted (by omega) a3 b3 h2 a2
  -- the choice of a control value
  have pick : ∀ y τ, lo ≤ y → y ≤ hi → (y ∈ L ∨ y = lo ∨ y = hi) →
      0 < τ * bsplinePoint p c.knots c.ctrl y →
      ∃ m < d.ctrl.length, 0 < τ * d.ctrl.getD m 0 ∧ (y ∈ L → m = κ y - p) ∧
        (∀ z ∈ L, y < z → m ≤ κ z - p) ∧ ∀ z ∈ L, z < y → κ z - p ≤ m := by
    intro y τ h1 h2 hy hτ
    rw [← hd.point y h1 h2] at hτ
    obtain ⟨a1, a2, a3⟩ := hκ y h1 h2
    by_cases hyL : y ∈ L
    · have hv := (value_at hd.wf a1 a2 a3 (by rw [hhi']; exact (hTd y hyL).2) (hT y hyL)).1
      rw [hv] at hτ
      refine ⟨κ y - p, by omega, hτ, fun _ => rfl, fun z hz hyz => ?_, fun z hz hzy => ?_⟩
      · have := hmono y z h1 hyz (hTd z hz).2.le
        omega
      · have := hmono z y (hTd z hz).1.le hzy h2
        omega
    · obtain ⟨m, m1, m2, m3⟩ := value_sign hd.wf a1 a2 a3 hτ
      refine ⟨m, by omega, m3, fun h => absurd h hyL, fun z hz hyz => ?_, fun z hz hzy => ?_⟩
      · have hz' := hTd z hz
        rcases hy with hy | rfl | rfl
        · exact absurd hy hyL
        · obtain ⟨b1, b2, b3⟩ := hκ z hz'.1.le hz'.2.le
          have hm := hmono lo z le_rfl hz'.1 hz'.2.le
          have hb := (value_at hd.wf b1 b2 b3 (by rw [hhi']; exact hz'.2) (hT z hz)).2
          by_contra hcon
          have hp : 1 ≤ p := by omega
          have h3 := hb (κ z - p + 1) (by omega) (by omega)
          have h4 := knot_mono hd.wf.sorted (i := κ z - p + 1) (j := κ lo) (by omega) (by omega)
          have h5 := a3.bounds.1
          rw [h3] at h4
          exact absurd (h4.trans h5) (not_le.2 hz'.1)
        · exact absurd hyz (not_lt.2 hz'.2.le)
      · have hz' := hTd z hz
        rcases hy with hy | rfl | rfl
        · exact absurd hy hyL
        · exact absurd hzy (not_lt.2 hz'.1.le)
        · have := hmono z hi hz'.1.le hz'.2 le_rfl
          omega
  have hall : ∀ j ≤ n, x j ∈ L ∨ x j = lo ∨ x j = hi := by
    intro j hj
    obtain ⟨a, b⟩ := x2 j hj
    rcases a.lt_or_eq with a | a
    · rcases b.lt_or_eq with b | b
      · left
        rw [hL, List.mem_cons, List.mem_filter]
        right
        refine ⟨List.mem_map.2 ⟨j, by simp; omega, rfl⟩, ?_⟩
        simp [a, b]
      · exact Or.inr (Or.inr b)
    · exact Or.inr (Or.inl a.symm)
  have key : ∀ j, ∃ m, j ≤ n → m < d.ctrl.length ∧ 0 < σ * (-1) ^ j * d.ctrl.getD m 0 ∧
      (x j ∈ L → m = κ (x j) - p) ∧
        (∀ z ∈ L, x j < z → m ≤ κ z - p) ∧ ∀ z ∈ L, z < x j → κ z - p ≤ m := by
    intro j
    by_cases hj : j ≤ n
    · obtain ⟨m, a⟩ := pick (x j) (σ * (-1) ^ j) (x2 j hj).1 (x2 j hj).2 (hall j hj) (x3 j hj)
      exact ⟨m, fun _ => a⟩
    · exact ⟨0, fun h => absurd h hj⟩
  choose y hy using key
  refine ⟨y, fun j hj => ?_, fun j hj => (hy j hj).1, fun j hj => (hy j hj).2.1⟩
  obtain ⟨-, a2, a3, a4, a5⟩ := hy j hj.le
  obtain ⟨-, b2, b3, b4, b5⟩ := hy (j + 1) hj
  have hxj := x1 j hj
  have hle : y j ≤ y (j + 1) := by
    rcases hall j hj.le with h1 | h1 | h1
    · rw [a3 h1]
      exact b5 _ h1 hxj
    · rcases hall (j + 1) hj with h2 | h2 | h2
      · rw [b3 h2]
        exact a4 _ h2 hxj
      · rw [h1, h2] at hxj
        exact absurd hxj (lt_irrefl _)
      · have hmL : mid ∈ L := by rw [hL]; simp
        exact (a4 mid hmL (by rw [h1]; exact hm1)).trans (b5 mid hmL (by rw [h2]; exact hm2))
    · exact absurd (hxj.trans_le (x2 (j + 1) hj).2) (by rw [h1]; exact lt_irrefl _)
  refine lt_of_le_of_ne hle fun e => ?_
  rw [← e, pow_succ] at b2
  nlinarith

end NS.BSpline
