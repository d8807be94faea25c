import Verif.Proof.Combine

/-!
# Properties: B-splines from Bézier pieces (C22)
-/

set_option linter.unusedSectionVars false
set_option linter.unusedSimpArgs false

namespace NS.Props

open Outcome Spec BSpline Finset

variable {K V : Type} [Field K] [LinearOrder K] [IsStrictOrderedRing K] [FloorRing K]
  [AddCommGroup V] [Module K V]

/-- The pieces have degree `d` and each starts, up to less than `eps`, where the one before ends. -/
structure Chain (nrm : V → K) (eps : K) (d : ℕ) (bs : List (Bezier V)) : Prop where
  len : ∀ b ∈ bs, b.ctrl.length = d + 1
  joint : ∀ i (h : i + 1 < bs.length),
    nrm (bs[i + 1].ctrl.getD 0 0 - bs[i].ctrl.getD d 0) < eps

theorem list_arr_piece {bs : List (Bezier V)} :
    bs = arr bs.length (fun i => bs.getD i ⟨[], false⟩) := eq_arr bs _

/-- Replacing the first control point. -/
theorem block_deviation {nrm : V → K} (hn : IsSeminorm nrm) {eps : K} (heps : 0 ≤ eps) {d : ℕ}
    (hd : 1 ≤ d) {n : ℕ} {P : ℕ → ℕ → V}
    (hj : ∀ i, i + 1 < n → nrm (P (i + 1) 0 - P i d) ≤ eps) {i : ℕ} (hi : i < n) {s : K}
    (h0 : 0 ≤ s) (h1 : s ≤ 1) :
    nrm (bezierPoint (arr (d + 1) (fun j => combP P d (i * d + j))) s
      - bezierPoint (arr (d + 1) (P i)) s) ≤ eps := by
  have hz : nrm 0 = 0 := by simpa using hn.smul 0 0
  by_cases h : i = 0
  · subst h
    have e : arr (d + 1) (fun j => combP P d (0 * d + j)) = arr (d + 1) (P 0) :=
      arr_congr (fun j hj => combP_piece hd (Or.inr rfl) (by omega))
    rw [e, sub_self, hz]
    exact heps
  · obtain ⟨k, rfl⟩ : ∃ k, i = k + 1 := ⟨i - 1, by omega⟩
    have e : bezierPoint (arr (d + 1) (fun j => combP P d ((k + 1) * d + j))) s
        - bezierPoint (arr (d + 1) (P (k + 1))) s
        = (-(1 - s) ^ d) • (P (k + 1) 0 - P k d) := by
      unfold bezierPoint
      simp only [arr_length]
      rw [← Finset.sum_sub_distrib, Finset.sum_eq_single 0]
      · rw [arr_getD _ _ _ _ (by omega), arr_getD _ _ _ _ (by omega), add_zero, combP_joint hd,
          ← smul_sub, neg_smul, ← smul_neg, neg_sub]
        congr 1
        simp [bernstein]
      · intro j hj hne
        rw [Finset.mem_range] at hj
        rw [arr_getD _ _ _ _ hj, arr_getD _ _ _ _ hj, combP_piece hd (Or.inl (by omega)) (by omega),
          sub_self]
      · intro h; exact absurd (Finset.mem_range.2 (by omega)) h
    rw [e, hn.smul, abs_neg]
    have hp : |(1 - s) ^ d| ≤ 1 := by
      rw [abs_pow, abs_of_nonneg (by linarith)]
      exact pow_le_one₀ (by linarith) (by linarith)
    have hq := hj k hi
    have hq0 : 0 ≤ nrm (P (k + 1) 0 - P k d) := by
      have h2 := hn.tri (P (k + 1) 0 - P k d) (-1 • (P (k + 1) 0 - P k d))
      have h3 := hn.smul (-1) (P (k + 1) 0 - P k d)
      simp only [neg_smul, one_smul, abs_neg, abs_one, one_mul, add_neg_cancel, hz] at h2 h3
      linarith
    nlinarith [abs_nonneg ((1 - s) ^ d)]

theorem firstSpan_of_count {c : BSpline K V} {p : ℕ} (hc : WellFormed c p)
    (hmin : ∀ y ∈ c.knots, knot c.knots p ≤ y) (hcount : c.knots.count (knot c.knots p) ≤ p + 1) :
    FirstSpan c p := by
  have hl := hc.len
  have hcl := hc.ctrl
  obtain ⟨a, b, b1, b2, b3, b4, b5, b6, b7⟩ := multiplicity_block c p (by omega)
  have hm := multiplicity_count c hc.sorted p (by omega)
  rw [b4, ok.injEq] at hm
  have ha : a = 0 := by
    rcases b6 with h | h
    · exact h
    · exfalso
      apply h
      refine le_antisymm (knot_mono hc.sorted (by omega) (by omega)) (hmin _ ?_)
      exact (mem_knots_iff _ _).2 ⟨a - 1, by omega, rfl⟩
  have hb : b ≤ p + 1 := by omega
  have hb' : b = p + 1 := by omega
  rcases b7 with h | h
  · omega
  · rw [hb'] at h
    exact lt_of_le_of_ne (knot_mono hc.sorted (by omega) (by omega)) (Ne.symm h)

/-- C22: `combine` of a non-empty list of pieces of degree at least 1 that join up to `eps`, over
bounds that are further apart than `1e-16`, succeeds.  The result is a spline of that degree from
the first bound to the last, its knots are bounds, and on `[b_i, b_(i+1)]` it is within
`r eps + δ` of piece `i`, where `r` is the number of knots the constructor left out and `δ` bounds
the gaps at the joints.  Equality does not hold in general (`C22_exact_refuted`). -/
theorem C22_combine_partial {nrm : V → K} (hn : IsSeminorm nrm) (extent : List V → K) {eps : K}
    (heps : 0 ≤ eps) {d : ℕ} (hd : 1 ≤ d) {sdeg : Option ℕ} (hs : sdeg = none ∨ sdeg = some d)
    {bs : List (Bezier V)} (hne : bs ≠ []) (hbs : Chain nrm eps d bs) {δ : K} (hδ : 0 ≤ δ)
    (hjδ : ∀ i (h : i + 1 < bs.length), nrm (bs[i + 1].ctrl.getD 0 0 - bs[i].ctrl.getD d 0) ≤ δ)
    {bounds : List K} (hbl : bounds.length = bs.length + 1)
    (hgap : bounds.Pairwise (fun a b => 1 / 10 ^ 16 < b - a)) :
    ∃ (c : BSpline K V) (r : ℕ), combineBeziers nrm extent eps sdeg bs bounds = ok c ∧
      WellFormed c d ∧ c.sdeg = sdeg ∧ c.periodic = false ∧
      c.ctrl.length + r = bs.length * d + 1 ∧
      knot c.knots d = bounds.getD 0 0 ∧ knot c.knots c.ctrl.length = bounds.getD bs.length 0 ∧
      (∀ y ∈ c.knots, y ∈ bounds) ∧ FirstSpan c d ∧ Wide c d ∧
      ∀ i (h : i < bs.length) (x : K), bounds.getD i 0 ≤ x → x ≤ bounds.getD (i + 1) 0 →
        ∃ Q, c.evaluate x = ok Q ∧
          nrm (Q - bezierPoint bs[i].ctrl
            ((x - bounds.getD i 0) / (bounds.getD (i + 1) 0 - bounds.getD i 0)))
            ≤ (r : K) * eps + δ := by
  have ht : (0 : K) < tiny K := by unfold tiny; positivity
  set n := bs.length with hnl
  have hn1 : 1 ≤ n := List.length_pos_iff.2 hne
  set B : ℕ → Bezier V := fun i => bs.getD i ⟨[], false⟩ with hB
  set P : ℕ → ℕ → V := fun i j => (B i).ctrl.getD j 0 with hP
  set b : ℕ → K := fun i => bounds.getD i 0 with hbdef
  have hBi : ∀ i (h : i < n), B i = bs[i] := fun i h => by
    have h' : i < bs.length := h
    simp [hB, List.getD, h']
  have hBl : ∀ i < n, (B i).ctrl.length = d + 1 := fun i h => by
    rw [hBi i h]; exact hbs.len _ (List.getElem_mem _)
  have hBP : ∀ i < n, (B i).ctrl = arr (d + 1) (P i) := fun i h => by
    conv_lhs => rw [eq_arr (B i).ctrl 0, hBl i h]
  have hj : ∀ i, i + 1 < n → nrm (P (i + 1) 0 - P i d) < eps := fun i h => by
    simp only [hP]
    rw [hBi (i + 1) h, hBi i (by omega)]
    exact hbs.joint i h
  have hjδ' : ∀ i, i + 1 < n → nrm (P (i + 1) 0 - P i d) ≤ δ := fun i h => by
    simp only [hP]
    rw [hBi (i + 1) h, hBi i (by omega)]
    exact hjδ i h
  have hgap' : ∀ i j, i < j → j ≤ n → tiny K < b j - b i := fun i j hij hjn => by
    have := List.pairwise_iff_getElem.1 hgap i j (by omega) (by omega) hij
    change tiny K < _ at this
    simpa [hbdef, List.getD, show i < bounds.length by omega, show j < bounds.length by omega]
      using this
  have hb : ∀ i j, i < j → j ≤ n → b i < b j := fun i j h1 h2 => by
    linarith [hgap' i j h1 h2]
  have hbarr : bounds = arr (n + 1) b := by
    conv_lhs => rw [eq_arr bounds 0, hbl]
  have hbsarr : bs = arr n B := eq_arr bs _
  have hdeg : bs[0].degree = (d : ℤ) := by
    unfold Bezier.degree
    rw [hbs.len _ (List.getElem_mem _)]; omega
  have hwf := combC_wf (P := P) (sdeg := sdeg) hd hn1 hb hs
  have hlow := combC_lower (P := P) (sdeg := sdeg) hd hn1 hb
  have hup := combC_upper (P := P) (sdeg := sdeg) hd hn1 hb
  have hmem : ∀ t, t ∈ bounds → ∃ i ≤ n, t = b i := fun t h => by
    rw [hbarr] at h
    simp only [arr, List.mem_map, List.mem_range] at h
    obtain ⟨i, hi, rfl⟩ := h
    exact ⟨i, by omega, rfl⟩
  have hnodup : bounds.Nodup := hgap.imp (fun h e => by rw [e, sub_self] at h; linarith)
  obtain ⟨c, R, e, a1, a2, a3, a4, a5, a6, a7, a8, a9⟩ := removeAll_spec heps hd hn extent bounds
    (combC P b d n sdeg) hwf hnodup
    (fun t h => by
      obtain ⟨i, hi, rfl⟩ := hmem t h
      rw [hlow, hup]
      exact ⟨b_mono hb (Nat.zero_le _) hi, b_mono hb hi le_rfl⟩)
    (fun t h h1 h2 => by
      obtain ⟨i, hi, rfl⟩ := hmem t h
      rw [hlow] at h1; rw [hup] at h2
      rw [combC_count hd hn1 hb hi, if_neg]
      rintro (h | h)
      · rw [h] at h1; exact lt_irrefl _ h1
      · rw [h] at h2; exact lt_irrefl _ h2)
  have hsub : ∀ y ∈ c.knots, ∃ i ≤ n, y = b i := fun y hy =>
    (combC_mem (P := P) (sdeg := sdeg) hd hn1 hb).1 (a2.symm.subset (List.mem_append_right _ hy))
  have hl := a1.len
  have hcl := a1.ctrl
  have hF : FirstSpan c d := by
    refine firstSpan_of_count a1 ?_ ?_
    · intro y hy
      obtain ⟨i, hi, rfl⟩ := hsub y hy
      rw [a5, hlow]; exact b_mono hb (Nat.zero_le _) hi
    · rw [a5, hlow]
      have h1 := a2.count_eq (b 0)
      rw [List.count_append, combC_count hd hn1 hb (Nat.zero_le _), if_pos (Or.inl rfl)] at h1
      omega
  have hW : Wide c d := by
    intro i h1 h2 h3
    obtain ⟨j, hj1, hj2⟩ := hsub (knot c.knots i) ((mem_knots_iff _ _).2 ⟨i, by omega, rfl⟩)
    obtain ⟨k, hk1, hk2⟩ := hsub (knot c.knots (i + 1))
      ((mem_knots_iff _ _).2 ⟨i + 1, by omega, rfl⟩)
    rw [hj2, hk2] at h3 ⊢
    apply hgap' j k _ hk1
    by_contra hle
    exact absurd h3 (not_lt.2 (b_mono hb (by omega) hj1))
  refine ⟨c, R.length, ?_, a1, a8, a7, ?_, by rw [a5, hlow], by rw [a6, hup], ?_, hF, hW, ?_⟩
  · unfold combineBeziers
    rw [throwIf_false (by omega), ok_bind, assert_true hbl, ok_bind, rd_of_lt hn1, ok_bind, hdeg,
      assert_true (by omega), ok_bind]
    simp only [Int.toNat_natCast]
    have e1 := combineCtrl_eq hd hn1 hBP hj
    have e2 := combineKnots_eq hd hn1 b
    rw [← hbsarr] at e1
    rw [← hbarr] at e2
    rw [e1, ok_bind, e2, ok_bind]
    exact e
  · rw [a4]; exact arr_length _ _
  · intro y hy
    obtain ⟨i, hi, rfl⟩ := hsub y hy
    simp [hbdef, List.getD, show i < bounds.length by omega]
  · intro i hi x hx1 hx2
    have h3 := hb i (i + 1) (by omega) (by omega)
    have h4 : (0 : K) < b (i + 1) - b i := by linarith
    set s := (x - b i) / (b (i + 1) - b i) with hsdef
    have hs0 : 0 ≤ s := div_nonneg (by linarith) h4.le
    have hs1 : s ≤ 1 := by rw [hsdef, div_le_one h4]; linarith
    have hx : x = (1 - s) * b i + s * b (i + 1) := by
      have : s * (b (i + 1) - b i) = x - b i := div_mul_cancel₀ _ h4.ne'
      linarith
    have hxl : b 0 ≤ x := le_trans (b_mono hb (Nat.zero_le _) (by omega)) hx1
    have hxu : x ≤ b n := le_trans hx2 (b_mono hb (by omega) le_rfl)
    refine ⟨_, C13_evaluate_partial a1 hW (by rw [a7]; rfl) x (Or.inl hF) (by rw [a5, hlow]; exact hxl)
      (by rw [a6, hup]; exact hxu), ?_⟩
    have g1 := a9 x (by rw [hlow]; exact hxl) (by rw [hup]; exact hxu)
    have g2 := block_deviation hn hδ hd hjδ' hi hs0 hs1
    have g3 := combC_value (P := P) (sdeg := sdeg) hd hn1 hb hs hi hs0 hs1
    rw [← hx] at g3
    rw [g3] at g1
    rw [← hBP i hi, hBi i hi] at g2
    change nrm (bsplinePoint d c.knots c.ctrl x - bezierPoint bs[i].ctrl s) ≤ _
    have hneg : ∀ v, nrm (-v) = nrm v := fun v => by
      have := hn.smul (-1) v
      simpa using this
    have g4 := hn.tri (-(bezierPoint (arr (d + 1) (fun j => combP P d (i * d + j))) s
      - bsplinePoint d c.knots c.ctrl x))
      (bezierPoint (arr (d + 1) (fun j => combP P d (i * d + j))) s - bezierPoint bs[i].ctrl s)
    rw [hneg, neg_sub, sub_add_sub_cancel] at g4
    linarith

/-- C22: an empty list of pieces is refused, whatever the bounds. -/
theorem C22_empty (nrm : V → K) (extent : List V → K) (eps : K) (sdeg : Option ℕ)
    (bounds : List K) :
    combineBeziers nrm extent eps sdeg [] bounds = Outcome.throw .invalidSetting := rfl

/-- C22: pieces that do not have one degree, do not join up to `eps` or do not fit the number of
bounds are never combined. -/
theorem C22_accepts {nrm : V → K} {extent : List V → K} {eps : K} {sdeg : Option ℕ}
    {bs : List (Bezier V)} {bounds : List K} {c : BSpline K V}
    (h : combineBeziers nrm extent eps sdeg bs bounds = ok c) :
    bounds.length = bs.length + 1 ∧ ∃ d, 1 ≤ d ∧ Chain nrm eps d bs := by
  unfold combineBeziers at h
  simp only [bind_eq_ok] at h
  obtain ⟨⟨⟩, h1, ⟨⟩, h2, b0, h3, ⟨⟩, h4, Q, h5, u, h6, h7⟩ := h
  have hne : ¬ bs.length = 0 := fun hz => by rw [throwIf_true hz] at h1; cases h1
  have hbl : bounds.length = bs.length + 1 := by
    by_contra hz
    rw [assert_false hz] at h2; cases h2
  have hd : 1 ≤ b0.degree.toNat := by
    by_contra hz
    obtain ⟨t, ts, rfl⟩ : ∃ t ts, bounds = t :: ts := by
      cases bounds with
      | nil => simp at hbl
      | cons t ts => exact ⟨t, ts, rfl⟩
    rw [show b0.degree.toNat = 0 by omega] at h7
    simp only [removeAll, bind_eq_ok] at h7
    obtain ⟨r, h8, -⟩ := h7
    unfold BSpline.removeKnot at h8
    rw [assert_false (by omega)] at h8
    cases h8
  refine ⟨hbl, _, hd, ?_⟩
  rw [eq_arr bs ⟨[], false⟩] at h5
  obtain ⟨g1, g2⟩ := combineCtrl_accepts hd (by omega) h5
  constructor
  · intro b hb
    obtain ⟨i, hi, rfl⟩ := List.mem_iff_getElem.1 hb
    have := g1 i hi
    simpa [List.getD, hi] using this
  · intro i hi
    have := g2 i hi
    simpa [List.getD, hi, show i < bs.length by omega] using this

/-- Two parabolas that meet in a corner. -/
private def exTwo : List (Bezier ℚ) := [{ ctrl := [0, 1, 3] }, { ctrl := [3, 2, 5] }]

private theorem exTwo_chain : Chain (fun x : ℚ => |x|) (1 / 2 ^ 52) 2 exTwo :=
  ⟨by decide, by
    intro i h
    have : i = 0 := by simp [exTwo] at h; omega
    subst this
    simp [exTwo]⟩

private theorem exTwo_gap : ∀ i (h : i + 1 < exTwo.length),
    |exTwo[i + 1].ctrl.getD 0 0 - exTwo[i].ctrl.getD 2 0| ≤ (0 : ℚ) := by
  intro i h
  have : i = 0 := by simp [exTwo] at h; omega
  subst this
  simp [exTwo]

example := C22_combine_partial (nrm := fun x : ℚ => |x|) ⟨abs_add_le, fun a v => abs_mul a v⟩ (fun _ => 0)
  (eps := 1 / 2 ^ 52) (by norm_num) (d := 2) (by norm_num) (sdeg := none) (Or.inl rfl) (bs := exTwo) (by decide)
  exTwo_chain (δ := 0) le_rfl exTwo_gap (bounds := [0, 1 / 2, 2]) rfl (by simp; norm_num)

example : ∃ c, combineBeziers (fun x : ℚ => |x|) (fun _ => 0) (1 / 2 ^ 52) none exTwo [0, 1 / 2, 2] = ok c ∧
    ([0, 1 / 2, 2] : List ℚ).length = exTwo.length + 1 := by
  obtain ⟨c, r, e, -⟩ := C22_combine_partial (nrm := fun x : ℚ => |x|) ⟨abs_add_le, fun a v => abs_mul a v⟩
    (fun _ => 0) (eps := 1 / 2 ^ 52) (by norm_num) (d := 2) (by norm_num) (sdeg := none) (Or.inl rfl) (bs := exTwo)
    (by decide) exTwo_chain (δ := 0) le_rfl exTwo_gap (bounds := [0, 1 / 2, 2]) rfl (by simp; norm_num)
  exact ⟨c, e, (C22_accepts e).1⟩

/-- C22: the constructor without bounds uses `0, 1, 2, ...`. -/
theorem C22_uniform_partial {nrm : V → K} (hn : IsSeminorm nrm) (extent : List V → K) {eps : K}
    (heps : 0 ≤ eps) {d : ℕ} (hd : 1 ≤ d) {sdeg : Option ℕ} (hs : sdeg = none ∨ sdeg = some d)
    {bs : List (Bezier V)} (hne : bs ≠ []) (hbs : Chain nrm eps d bs) {δ : K} (hδ : 0 ≤ δ)
    (hjδ : ∀ i (h : i + 1 < bs.length), nrm (bs[i + 1].ctrl.getD 0 0 - bs[i].ctrl.getD d 0) ≤ δ) :
    ∃ (c : BSpline K V) (r : ℕ), ofBeziers nrm extent eps sdeg bs = ok c ∧ WellFormed c d ∧
      c.ctrl.length + r = bs.length * d + 1 ∧
      knot c.knots d = 0 ∧ knot c.knots c.ctrl.length = bs.length ∧
      ∀ i (h : i < bs.length) (s : K), 0 ≤ s → s ≤ 1 →
        ∃ Q, c.evaluate (i + s) = ok Q ∧ nrm (Q - bezierPoint bs[i].ctrl s) ≤ (r : K) * eps + δ := by
  have hg : ∀ i ≤ bs.length, (List.map (Nat.cast : ℕ → K) (List.range (bs.length + 1))).getD i 0
      = (i : K) := fun i hi => by
    simp [List.getD, show i < bs.length + 1 by omega]
  have ht : tiny K < 1 := by
    unfold tiny
    rw [div_lt_one (by positivity)]
    exact one_lt_pow₀ (by norm_num) (by norm_num)
  obtain ⟨c, r, e, a1, -, -, a4, a5, a6, -, -, -, a7⟩ := C22_combine_partial hn extent heps hd hs hne
    hbs hδ hjδ (bounds := List.map (Nat.cast : ℕ → K) (List.range (bs.length + 1))) (by simp) (by
      rw [List.pairwise_map]
      refine List.pairwise_lt_range.imp ?_
      intro a b hab
      have : (a : K) + 1 ≤ (b : K) := by exact_mod_cast hab
      linarith)
  refine ⟨c, r, e, a1, a4, by rw [a5, hg 0 (by omega), Nat.cast_zero], by rw [a6, hg _ le_rfl], ?_⟩
  intro i hi s h0 h1
  have := a7 i hi ((i : K) + s) (by rw [hg _ hi.le]; linarith)
    (by rw [hg _ hi]; push_cast; linarith)
  rw [hg _ hi.le, hg _ hi] at this
  push_cast at this
  rwa [show ((i : K) + s - i) / (i + 1 - i) = s by rw [add_sub_cancel_left, add_sub_cancel_left, div_one]]
    at this

example := C22_uniform_partial (nrm := fun x : ℚ => |x|) ⟨abs_add_le, fun a v => abs_mul a v⟩ (fun _ => 0)
  (eps := 1 / 2 ^ 52) (by norm_num) (d := 2) (by norm_num) (sdeg := none) (Or.inl rfl) (bs := exTwo) (by decide)
  exTwo_chain (δ := 0) le_rfl exTwo_gap

/-- C22 does not hold as an equality: a corner less sharp than `eps` is straightened. -/
theorem C22_exact_refuted :
    let eps : ℚ := 1 / 2 ^ 52
    let p0 : Bezier ℚ := { ctrl := [0, 1] }
    let p1 : Bezier ℚ := { ctrl := [1, 2 + 1 / 2 ^ 54] }
    ∃ c, combineBeziers (fun x => |x|) (fun _ => 0) eps none [p0, p1] [0, 1, 2] = ok c ∧
      c.evaluate 1 = ok (1 + 1 / 2 ^ 55) ∧ p0.evaluate (1 : ℚ) = ok 1 ∧ p1.evaluate (0 : ℚ) = ok 1 := by
  refine ⟨{ ctrl := [0, 2 + 1 / 2 ^ 54], knots := [0, 0, 2, 2] }, ?_, ?_, ?_, ?_⟩ <;> decide +kernel

/-- C22 excludes degree 0: the removal of 0 knots is an assertion failure. -/
theorem C22_degree_zero_refuted :
    combineBeziers (K := ℚ) (fun x => |x|) (fun _ => 0) (1 / 2 ^ 52) none
      [{ ctrl := [(1 : ℚ)] }, { ctrl := [1] }] [0, 1, 2] = ub := by
  decide +kernel

/-- C22 for rational pieces: pieces that meet but whose joint weights differ are not accepted. -/
theorem C22_rational_weights_refuted :
    let nrm : ℚ × ℚ → ℚ := fun v => |v.1| + |v.2|
    ∃ p q : RationalBezier ℚ ℚ,
      p.evaluate 1 = ok 1 ∧ q.evaluate 0 = ok 1 ∧
      NURBS.combineBeziers nrm (fun _ => 0) (1 / 2 ^ 52) none [p, q] [0, 1, 2] = ub :=
  ⟨{ base := { ctrl := [0, 1] }, weights := [1, 1], hom := { ctrl := [(0, 1), (1, 1)] } },
    { base := { ctrl := [1, 2] }, weights := [2, 2], hom := { ctrl := [(2, 2), (4, 2)] } },
    by decide +kernel, by decide +kernel, by decide +kernel⟩

end NS.Props
