import Verif.Proof.Ieee

/-!
# B-splines with overflow, underflow and special values
-/

set_option linter.unusedSectionVars false

namespace NS.Ieee

open Outcome Spec

variable {K ι : Type} [Field K] [LinearOrder K] [IsStrictOrderedRing K] [FloorRing K]

/-- The knots and sizes of a spline, with numbers for control points. -/
def skel (c : BSpline K (ι → Num K)) : BSpline K K :=
  { ctrl := List.replicate c.ctrl.length 0, knots := c.knots, periodic := c.periodic,
    sdeg := c.sdeg }

theorem search_fin (u : List K) (t : K) : ∀ f low high,
    search u (.fin t) f low high = BSpline.search u t f low high := by
  intro f
  induction f with
  | zero => intro _ _; rfl
  | succ f ih =>
    intro low high
    simp only [search, BSpline.search, Num.lt, Num.le, ih, decide_eq_true_eq, ge_iff_le]

theorem locateSpan_fin (c : BSpline K (ι → Num K)) (t : K) :
    locateSpan c (.fin t) = (skel c).locateSpan t := by
  unfold locateSpan BSpline.locateSpan
  simp only [search_fin, Num.le, decide_eq_true_eq, ge_iff_le, skel, BSpline.degree,
    List.length_replicate]

theorem spanCtrl_eq (c : BSpline K (ι → Num K)) (p k : ℕ) (hpk : p ≤ k) (hk : k < c.ctrl.length) :
    spanCtrl c p k = ok (arr (p + 1) (fun i => c.ctrl.getD (k - p + i) 0)) := by
  unfold spanCtrl
  rw [show (fun _ : ι => (Num.fin 0 : Num K)) = (0 : ι → Num K) from rfl, BSpline.replicate_eq_arr']
  have key := loop_eq
    (S := fun i => arr (p + 1) (fun j => if j < i then c.ctrl.getD (k - p + j) 0 else 0))
    (p + 1)
    (fun i q => do
      let idx : ℤ := (k : ℤ) - p + i
      Outcome.assert (idx ≥ 0)
      Outcome.assert (idx < c.ctrl.length)
      let a ← rdI c.ctrl idx
      wr q i a) ?_
  · have h0 : arr (p + 1) (fun _ => (0 : ι → Num K))
        = arr (p + 1) (fun j => if j < 0 then c.ctrl.getD (k - p + j) 0 else 0) := by
      apply arr_congr; intro i _; simp
    rw [h0, key]
    congr 1
    apply arr_congr
    intro i hi
    simp [hi]
  · intro i hi
    have e : (k : ℤ) - p + i = (k - p + i : ℕ) := by omega
    have hlt : k - p + i < c.ctrl.length := by omega
    simp only [e]
    rw [assert_true (by omega), ok_bind, assert_true (by omega), ok_bind, rdI_natCast]
    have : rd c.ctrl (k - p + i) = ok (c.ctrl.getD (k - p + i) 0) := by
      conv_lhs => rw [eq_arr c.ctrl 0]
      exact rd_arr hlt
    rw [this, ok_bind]
    apply wr_arr _ hi
    intro j hj
    by_cases h : j = i
    · subst h; simp
    · by_cases h2 : j < i
      · simp [h, h2, show j < i + 1 by omega]
      · simp [h, h2, show ¬ j < i + 1 by omega]

/-- One step of the scheme. -/
def stepB (A : Format K) (F : ℕ → ℕ → ι → Fuse) (p : ℕ) (v : ℕ → K) (t : Num K) (r j : ℕ)
    (x y : ι → Num K) : ι → Num K :=
  fun i => A.combine (F r j i) (A.compl (coef A (v (p + j - (r - 1))) (v j) t)) (x i)
    (coef A (v (p + j - (r - 1))) (v j) t) (y i)

open BSpline in
theorem bsplineDeBoor_eq (A : Format K) (F : ℕ → ℕ → ι → Fuse) (c : BSpline K (ι → Num K))
    (t : Num K) (p n k : ℕ) (P : ℕ → ι → Num K) (hn : p < n) (hdeg : p ≤ c.degree.toNat)
    (hpk : p ≤ k) (hk : k + p + 1 ≤ c.knots.length) :
    bsplineDeBoor A F c t p k (arr n P)
      = ok (tri (stepB A F p (loc (knot c.knots) k p) t) P p p) := by
  unfold bsplineDeBoor
  by_cases hp : p > 0
  · simp only [hp, if_true]
    have key : bsplineBlossom A F c.knots (List.replicate c.degree.toNat t) p k (arr n P)
        = ok (arr n (fun j => if j ≤ p then
            tri (stepB A F p (loc (knot c.knots) k p) t) P j j else P j)) := by
      unfold bsplineBlossom
      rw [assert_true (by simpa using hn), ok_bind, replicate_eq_arr',
        ← tri_loop (stepB A F p (loc (knot c.knots) k p) t) P n p (fun r j q => do
          let a ← rdI c.knots (j + k + 1 - r)
          let b ← rdI c.knots (j + k - p)
          let alpha := coef A a b t
          let x ← rd q (j - 1)
          let y ← rd q j
          wr q j (fun i => A.combine (F r j i) (A.compl alpha) (x i) alpha (y i)))]
      · unfold forUp
        apply loop_congr
        intro i hi s
        beta_reduce
        rw [rd_arr (by omega), ok_bind]
      · intro r j h1 h2 h3 g h hh
        have e1 : ((j : ℤ) + k + 1 - r) = (k - p + (p + j - (r - 1)) : ℕ) := by omega
        have e2 : ((j : ℤ) + k - p) = (k - p + j : ℕ) := by omega
        rw [rdI_knot e1 (by omega), ok_bind, rdI_knot e2 (by omega), ok_bind,
          rd_arr (by omega), ok_bind, rd_arr (by omega), ok_bind]
        apply wr_arr _ (by omega)
        intro i hi
        rw [hh i hi]
        rfl
    rw [key, ok_bind, rd_arr hn]
    simp
  · have : p = 0 := by omega
    subst this
    simp only [hp, if_false, ok_bind]
    rw [rd_arr hn]
    rfl

/-- Evaluation on the span that was located. -/
theorem bsplineEvaluate_at (A : Format K) (F : ℕ → ℕ → ι → Fuse) {c : BSpline K (ι → Num K)} {p : ℕ}
    (hc : BSpline.WellFormed (skel c) p) {t t' : Num K} (ht : bsplineWrap A c t = ok t') {k : ℕ}
    (hloc : locateSpan c t' = ok (k : ℤ)) (hpk : p ≤ k) (hk : k < c.ctrl.length) :
    bsplineEvaluate A F c t = ok (tri (stepB A F p (BSpline.loc (knot c.knots) k p) t')
        (fun j => c.ctrl.getD (k - p + j) 0) p p) := by
  have hl : c.knots.length = c.ctrl.length + p + 1 := by simpa [skel] using hc.len
  have hd : c.degree = p := by unfold BSpline.degree; rw [hl]; push_cast; ring
  have hv : c.validate = ok () := by
    have := BSpline.validate_ok hc
    unfold BSpline.validate BSpline.degree at this ⊢
    simpa only [skel, List.length_replicate] using this
  unfold bsplineEvaluate
  rw [hv, ok_bind, ht, ok_bind, hloc, ok_bind, hd, assert_true (by omega), ok_bind]
  simp only [Int.toNat_natCast]
  rw [spanCtrl_eq c p k hpk hk, ok_bind]
  exact bsplineDeBoor_eq A F c t' p (p + 1) k _ (by omega) (by rw [hd]; simp) hpk (by omega)

/-! ### Finite parameters -/

/-- The blending coefficient of finite numbers. -/
def coefK (A : Format K) (a b t : K) : K :=
  if A.rnd (BSpline.tiny K) < A.rnd (a - b) then A.rnd (A.rnd (t - b) / A.rnd (a - b)) else 0

theorem tiny_nonneg : (0 : K) ≤ BSpline.tiny K := by unfold BSpline.tiny; positivity

theorem tiny_le_one : BSpline.tiny K ≤ 1 := by
  unfold BSpline.tiny
  rw [div_le_one (by positivity)]
  norm_num

theorem coefK_mem (A : Format K) {a b t : K} (h1 : b ≤ t) (h2 : t ≤ a) :
    0 ≤ coefK A a b t ∧ coefK A a b t ≤ 1 ∧ A.rnd (coefK A a b t) = coefK A a b t := by
  unfold coefK
  split_ifs with h
  · have hp : 0 < A.rnd (a - b) := lt_of_le_of_lt (A.nonneg tiny_nonneg) h
    have h4 : 0 ≤ A.rnd (t - b) := A.nonneg (by linarith)
    exact ⟨A.nonneg (div_nonneg h4 hp.le),
      A.le_one ((div_le_one hp).2 (A.mono _ _ (by linarith))), A.idem _⟩
  · exact ⟨le_rfl, zero_le_one, A.zero⟩

theorem coef_fin (A : Format K) {a b t : K} (h1 : b ≤ t) (h2 : t ≤ a) (hb : a - b ≤ A.big) :
    coef A a b (.fin t) = .fin (coefK A a b t) := by
  have d1 : |a - b| ≤ A.big := by rw [abs_of_nonneg (by linarith)]; exact hb
  have d2 : |t - b| ≤ A.big := by rw [abs_of_nonneg (by linarith)]; linarith
  have ht : |BSpline.tiny K| ≤ A.big := by
    rw [abs_of_nonneg tiny_nonneg]
    exact tiny_le_one.trans A.one_le_big
  unfold coef coefK
  simp only [A.sub_fin d1, A.sub_fin d2, A.round_fin (A.abs_le_big ht), Num.lt, decide_eq_true_eq]
  split_ifs with h
  · have hp : 0 < A.rnd (a - b) := lt_of_le_of_lt (A.nonneg tiny_nonneg) h
    have h4 : 0 ≤ A.rnd (t - b) := A.nonneg (by linarith)
    have h5 : A.rnd (t - b) / A.rnd (a - b) ≤ 1 := (div_le_one hp).2 (A.mono _ _ (by linarith))
    simp only [Num.div, if_neg hp.ne']
    apply A.round_fin
    apply A.abs_le_big
    rw [abs_of_nonneg (div_nonneg h4 hp.le)]
    exact h5.trans A.one_le_big
  · rfl

/-- One step of the scheme on finite numbers. -/
def stepBK (A : Format K) (F : ℕ → ℕ → ι → Fuse) (p : ℕ) (v : ℕ → K) (t : K) (r j : ℕ)
    (x y : ι → K) : ι → K :=
  fun i => A.comb (F r j i) (A.rnd (1 - coefK A (v (p + j - (r - 1))) (v j) t)) (x i)
    (coefK A (v (p + j - (r - 1))) (v j) t) (y i)

/-- On finite values the scheme stays finite. -/
theorem triB_fin {A : Format K} (hA : A.Safe) (F : ℕ → ℕ → ι → Fuse) (p : ℕ) (v : ℕ → K) {t : K}
    (hv : ∀ i j, 1 ≤ i → i ≤ j → j ≤ 2 * p → v i ≤ v j) (h1 : v p ≤ t) (h2 : t ≤ v (p + 1))
    (hw : ∀ i j, 1 ≤ i → i ≤ j → j ≤ 2 * p → v j - v i ≤ A.big) (P : ℕ → ι → Num K)
    (Q : ℕ → ι → K) (i : ι) (hP : ∀ j ≤ p, P j i = .fin (Q j i)) (hb : ∀ j ≤ p, |Q j i| ≤ A.big)
    (r : ℕ) : r ≤ p → ∀ j, r ≤ j → j ≤ p →
    tri (stepB A F p v (.fin t)) P r j i = .fin (tri (stepBK A F p v t) Q r j i) ∧
      |tri (stepBK A F p v t) Q r j i| ≤ A.big := by
  induction r with
  | zero => exact fun _ j _ hj => ⟨hP j hj, hb j hj⟩
  | succ r ih =>
    intro hr j hj1 hj2
    obtain ⟨x1, x2⟩ := ih (by omega) (j - 1) (by omega) (by omega)
    obtain ⟨y1, y2⟩ := ih (by omega) j (by omega) hj2
    have b1 : v j ≤ t := le_trans (hv j p (by omega) hj2 (by omega)) h1
    have b2 : t ≤ v (p + j - r) := le_trans h2 (hv (p + 1) (p + j - r) (by omega) (by omega)
      (by omega))
    have b3 : v (p + j - r) - v j ≤ A.big := hw _ _ (by omega) (by omega) (by omega)
    obtain ⟨c0, c1, c2⟩ := coefK_mem A b1 b2
    simp only [tri, stepB, stepBK, Nat.add_sub_cancel, coef_fin A b1 b2 b3, A.compl_fin c0 c1, x1, y1]
    exact A.combine_fin (hA.pair c2 c0 c1) _ x2 y2

theorem coefK_err (A : Format K) (hu1 : A.unit < 1) {a b t : K} (fa : A.rnd a = a) (fb : A.rnd b = b)
    (ft : A.rnd t = t) (h1 : b ≤ t) (h2 : t ≤ a) (h : A.rnd (BSpline.tiny K) < A.rnd (a - b)) :
    |coefK A a b t - (t - b) / (a - b)| ≤ (1 + A.unit) ^ 2 / (1 - A.unit) - 1 + A.eta := by
  have hu := A.unit_nonneg
  have hab : 0 < a - b := by
    by_contra hc
    exact absurd h (not_lt.2 (A.mono _ _ ((not_lt.1 hc).trans tiny_nonneg)))
  have hrab : 0 < A.rnd (a - b) := lt_of_le_of_lt (A.nonneg tiny_nonneg) h
  unfold coefK
  rw [if_pos h]
  have hx : 0 ≤ t - b := by linarith
  have nx := A.sum_near t (-b) ft (by rw [A.odd, fb])
  have ny := A.sum_near a (-b) fa (by rw [A.odd, fb])
  rw [← sub_eq_add_neg] at nx ny
  set x := t - b
  set y := a - b
  set X := A.rnd x
  set Y := A.rnd y
  have nq := A.near (X / Y)
  rw [abs_of_nonneg hx] at nx
  rw [abs_of_nonneg hab.le] at ny
  have hX : 0 ≤ X := A.nonneg hx
  rw [abs_of_nonneg (div_nonneg hX hrab.le)] at nq
  have X1 := abs_le.1 nx
  have Y1 := abs_le.1 ny
  have Q1 := abs_le.1 nq
  have h1u : 0 < 1 - A.unit := by linarith
  have hxy : x / y ≤ 1 := (div_le_one hab).2 (by simp only [x, y]; linarith)
  have hxy0 : 0 ≤ x / y := div_nonneg hx hab.le
  have hYl : (1 - A.unit) * y ≤ Y := by linarith [Y1.1]
  have hYu : Y ≤ (1 + A.unit) * y := by linarith [Y1.2]
  have up : X / Y ≤ (1 + A.unit) / (1 - A.unit) * (x / y) := by
    rw [div_mul_div_comm]
    exact div_le_div₀ (by positivity) (by linarith [X1.2]) (by positivity) hYl
  have lo : (1 - A.unit) / (1 + A.unit) * (x / y) ≤ X / Y := by
    rw [div_mul_div_comm]
    exact div_le_div₀ hX (by linarith [X1.1]) hrab hYu
  set E := (1 + A.unit) ^ 2 / (1 - A.unit) with hE
  have e1 : (1 + A.unit) * ((1 + A.unit) / (1 - A.unit)) = E := by rw [hE]; ring
  rw [abs_le]
  constructor
  · have l1 : (1 - A.unit) * ((1 - A.unit) / (1 + A.unit) * (x / y)) - A.eta ≤ A.rnd (X / Y) := by
      have := mul_le_mul_of_nonneg_left lo h1u.le
      linarith [Q1.1]
    obtain ⟨l2, l3⟩ := Fl.lower_aux hu hu1
    rw [← hE] at l2
    rw [← mul_assoc] at l1
    have l4 := mul_le_mul_of_nonneg_left hxy l3
    linarith
  · have u1 : A.rnd (X / Y) ≤ E * (x / y) + A.eta := by
      have := mul_le_mul_of_nonneg_left up (by linarith : (0 : K) ≤ 1 + A.unit)
      rw [← mul_assoc, e1] at this
      linarith [Q1.2]
    have hE1 : 0 ≤ E - 1 := by
      obtain ⟨l2, l3⟩ := Fl.lower_aux hu hu1
      linarith
    have := mul_le_mul_of_nonneg_left hxy hE1
    linarith

/-- Growth of the error per round. -/
def growth (A : Format K) : K :=
  (1 + A.unit) ^ 3 + 2 * ((1 + A.unit) ^ 2 / (1 - A.unit) - 1 + A.eta)

theorem quo_nonneg (A : Format K) (hu1 : A.unit < 1) :
    0 ≤ (1 + A.unit) ^ 2 / (1 - A.unit) - 1 + A.eta := by
  have hu := A.unit_nonneg
  have h1u : 0 < 1 - A.unit := by linarith
  have : 1 ≤ (1 + A.unit) ^ 2 / (1 - A.unit) := by
    rw [le_div_iff₀ h1u]; nlinarith
  linarith [A.eta_nonneg]

theorem le_growth (A : Format K) (hu1 : A.unit < 1) : 1 + A.unit ≤ growth A := by
  have hu := A.unit_nonneg
  have := quo_nonneg A hu1
  have : 1 + A.unit ≤ (1 + A.unit) ^ 3 := le_self_pow₀ (by linarith) (by norm_num)
  unfold growth
  linarith

/-- Error of the scheme on a span. -/
theorem triB_err (A : Format K) (hu1 : A.unit < 1) (F : ℕ → ℕ → ι → Fuse) (p : ℕ) (v : ℕ → K)
    {t : K} (hv : ∀ i j, 1 ≤ i → i ≤ j → j ≤ 2 * p → v i ≤ v j) (h1 : v p ≤ t) (h2 : t ≤ v (p + 1))
    (fv : ∀ i, 1 ≤ i → i ≤ 2 * p → A.rnd (v i) = v i) (ft : A.rnd t = t)
    (hw : A.rnd (BSpline.tiny K) < A.rnd (v (p + 1) - v p)) (P : ℕ → ι → K) (M : K) (i : ι)
    (hM : ∀ j, |P j i| ≤ M) (r : ℕ) : r ≤ p → ∀ j, r ≤ j → j ≤ p →
    |tri (stepBK A F p v t) P r j i - dB p v (fun _ => t) P r j i|
        ≤ A.bound (growth A) M r - M ∧
      |dB p v (fun _ => t) P r j i| ≤ M := by
  have hM0 : 0 ≤ M := le_trans (abs_nonneg _) (hM 0)
  have hG := le_growth A hu1
  have hE := quo_nonneg A hu1
  induction r with
  | zero => intro _ j _ _; simpa [tri, dB, Format.bound] using hM j
  | succ r ih =>
    intro hr j hj1 hj2
    obtain ⟨x1, x2⟩ := ih (by omega) (j - 1) (by omega) (by omega)
    obtain ⟨y1, y2⟩ := ih (by omega) j (by omega) hj2
    have b1 : v j ≤ t := le_trans (hv j p (by omega) hj2 (by omega)) h1
    have b2 : t ≤ v (p + j - r) := le_trans h2 (hv (p + 1) (p + j - r) (by omega) (by omega)
      (by omega))
    have hww : A.rnd (BSpline.tiny K) < A.rnd (v (p + j - r) - v j) := by
      refine lt_of_lt_of_le hw (A.mono _ _ ?_)
      have := hv j p (by omega) hj2 (by omega)
      have := hv (p + 1) (p + j - r) (by omega) (by omega) (by omega)
      linarith
    have hpos : 0 < v (p + j - r) - v j := by
      by_contra hc
      exact absurd hww (not_lt.2 (A.mono _ _ ((not_lt.1 hc).trans tiny_nonneg)))
    have q0 : 0 ≤ (t - v j) / (v (p + j - r) - v j) := div_nonneg (by linarith) hpos.le
    have q1 : (t - v j) / (v (p + j - r) - v j) ≤ 1 := (div_le_one hpos).2 (by linarith)
    obtain ⟨c0, c1, c2⟩ := coefK_mem A b1 b2
    have hB := A.le_bound hG hM0 r
    constructor
    · have key := A.blend_err (F (r + 1) j i) (hM0.trans hB) hE c2 c0 c1 q0 q1
        (coefK_err A hu1 (fv _ (by omega) (by omega)) (fv _ (by omega) (by omega)) ft b1 b2 hww)
        x1 x2 y1 y2
      refine le_trans ?_ (sub_le_sub_right (A.bound_succ (M := M) hG r) M)
      simpa [tri, stepBK, dB, growth] using key
    · simp only [dB, Pi.add_apply, Pi.smul_apply, smul_eq_mul]
      refine le_trans (abs_add_le _ _) ?_
      rw [abs_mul, abs_mul, abs_of_nonneg q0, abs_of_nonneg (by linarith : (0:K) ≤ 1 - _)]
      nlinarith

end NS.Ieee
