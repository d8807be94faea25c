import Verif.Proof.Refine
import Verif.Props.Length

/-!
# C100: subdividing or elevating a Bézier curve drives its control polygon to the curve
-/

set_option linter.unusedSectionVars false

namespace NS.Props

open Outcome Spec Finset NS.Bezier Refine

section General

variable {K V : Type} [Field K] [LinearOrder K] [IsStrictOrderedRing K] [FloorRing K]
  [AddCommGroup V] [Module K V]

/-- The second difference of the control points at `i` is at most `D` long. -/
def Bends (nrm : V → K) (P : List V) (D : K) : Prop :=
  ∀ i, i + 2 < P.length →
    nrm (P.getD (i + 2) 0 - P.getD (i + 1) 0 - (P.getD (i + 1) 0 - P.getD i 0)) ≤ D

/-- Halving a curve `k` times; a client calling `split(0.5)` (Bezier.h:227-251) on every piece. -/
def subdivide (K : Type) {V : Type} [Field K] [LinearOrder K] [AddCommGroup V] [Module K V] :
    ℕ → Bezier V → Outcome (List (Bezier V))
  | 0, c => ok [c]
  | k + 1, c => do
    match ← split c (1 / 2 : K) with
    | [a, b] => do
      let l ← subdivide K k a
      let r ← subdivide K k b
      ok (l ++ r)
    | _ => ub

/-- Elevating a curve `r` times; a client calling `elevate_degree()` (Bezier.h:309-329). -/
def elevateTimes (K : Type) {V : Type} [Field K] [AddCommGroup V] [Module K V] :
    ℕ → Bezier V → Outcome (Bezier V)
  | 0, c => ok c
  | r + 1, c => do
    let c ← elevateTimes K r c
    elevateDegree K c

theorem bends_arr {nrm : V → K} {n : ℕ} {P : ℕ → V} {D : K} :
    Bends nrm (arr (n + 1) P) D ↔ ∀ i, i + 2 ≤ n → nrm (d2 P i) ≤ D := by
  unfold Bends d2
  constructor
  · intro h i hi
    have := h i (by simp; omega)
    rwa [arr_getD _ _ _ _ (by omega), arr_getD _ _ _ _ (by omega), arr_getD _ _ _ _ (by omega)] at this
  · intro h i hi
    have hi' : i + 2 < n + 1 := by simpa using hi
    rw [arr_getD _ _ _ _ (by omega), arr_getD _ _ _ _ (by omega), arr_getD _ _ _ _ (by omega)]
    exact h i (by omega)

theorem bezierPoint_arr (n : ℕ) (P : ℕ → V) (t : K) :
    bezierPoint (arr (n + 1) P) t = umb P (lin t ^ n) := by
  have := Bezier.evaluate_eq (arr (n + 1) P) (by simp [arr]) t
  rw [evaluate_arr] at this
  exact (ok.inj this).symm

theorem point_polygon {nrm : V → K} (hn : IsSeminorm nrm) {P : List V} {n : ℕ}
    (hlen : P.length = n + 1) {D : K} (hD : 0 ≤ D) (hb : Bends nrm P D) {j : ℕ} (hj : j < n) {s : K}
    (h0 : 0 ≤ s) (h1 : s ≤ 1) :
    nrm (bezierPoint P ((j + s) / n) - ((1 - s) • P.getD j 0 + s • P.getD (j + 1) 0))
      ≤ n / 8 * D := by
  have hne : P ≠ [] := by intro h; simp [h] at hlen
  obtain ⟨m, Q, rfl⟩ := exists_arr P hne
  have hm : m = n := by simpa using hlen
  subst hm
  have hn0 : (m : K) ≠ 0 := by exact_mod_cast (by omega : m ≠ 0)
  rw [bezierPoint_arr, arr_getD _ _ _ _ (by omega), arr_getD _ _ _ _ (by omega)]
  have e : (m : K) * ((j + s) / m) = j + s := by field_simp
  have := polygon_dist hn hD hj (bends_arr.1 hb) (t := (j + s) / m) (by rw [e]; linarith)
    (by rw [e]; linarith)
  rw [e] at this
  refine le_trans (le_of_eq ?_) this
  congr 2
  module

/-- C100: each point of the control polygon is close to the corresponding point of the curve: the
distance is at most an eighth of the degree times the largest second difference. -/
theorem C100_polygon {nrm : V → K} (hn : IsSeminorm nrm) {c : Bezier V} {n : ℕ}
    (hlen : c.ctrl.length = n + 1) {D : K} (hD : 0 ≤ D) (hb : Bends nrm c.ctrl D) {f : K → V}
    {I : K → Prop} (hI : ∀ t, I t → 0 ≤ t ∧ t ≤ 1 ∧ (t < 1 ∨ c.periodic = false))
    (hf : ∀ t, I t → c.evaluate t = ok (f t)) {j : ℕ} (hj : j < n) {s : K}
    (h0 : 0 ≤ s) (h1 : s ≤ 1) (ht : I ((j + s) / n)) :
    nrm (f ((j + s) / n) - ((1 - s) • c.ctrl.getD j 0 + s • c.ctrl.getD (j + 1) 0))
      ≤ n / 8 * D := by
  have hne : c.ctrl ≠ [] := by intro h; simp [h] at hlen
  rw [bezier_value hne hI hf ht]
  exact point_polygon hn hlen hD hb hj h0 h1

/-- C100: the second differences of a part of the curve shrink with the square of the length of the
range of parameters. -/
theorem C100_subcurve {nrm : V → K} (hn : IsSeminorm nrm) {c : Bezier V} (hne : c.ctrl ≠ [])
    {D : K} (hb : Bends nrm c.ctrl D) {t0 t1 : K} (h01 : t0 ≤ t1) (h0 : 0 ≤ t0) (h1 : t1 ≤ 1) :
    ∃ q, subcurve c t0 t1 = ok q ∧ q.ctrl.length = c.ctrl.length ∧
      Bends nrm q.ctrl ((t1 - t0) ^ 2 * D) := by
  obtain ⟨n, P, e⟩ := exists_arr c.ctrl hne
  have ec : c = { ctrl := arr (n + 1) P, periodic := c.periodic } := by cases c; simp_all
  rw [ec] at hb ⊢
  refine ⟨_, subcurve_arr n P t0 t1 _ h01 h0 h1, by simp, bends_arr.2 fun i hi => ?_⟩
  exact d2_sub_le hn h0 (h01.trans h1) (h0.trans h01) h1 (bends_arr.1 hb) hi

/-- C100: `split` at `t` multiplies the second differences by at most `t²` and `(1 - t)²`. -/
theorem C100_split {nrm : V → K} (hn : IsSeminorm nrm) {c : Bezier V} (hne : c.ctrl ≠ [])
    {D : K} (hb : Bends nrm c.ctrl D) {t : K} (h0 : 0 < t) (h1 : t < 1) :
    ∃ a b, split c t = ok [a, b] ∧ a.periodic = false ∧ b.periodic = false ∧
      a.ctrl.length = c.ctrl.length ∧ b.ctrl.length = c.ctrl.length ∧
      Bends nrm a.ctrl (t ^ 2 * D) ∧ Bends nrm b.ctrl ((1 - t) ^ 2 * D) ∧
      (∀ s, bezierPoint a.ctrl s = bezierPoint c.ctrl (t * s)) ∧
      ∀ s, bezierPoint b.ctrl s = bezierPoint c.ctrl (t + (1 - t) * s) := by
  obtain ⟨n, P, e⟩ := exists_arr c.ctrl hne
  have ec : c = { ctrl := arr (n + 1) P, periodic := c.periodic } := by cases c; simp_all
  rw [ec] at hb ⊢
  refine ⟨_, _, split_arr (n + 1) P _ t h0 h1, rfl, rfl, by simp, by simp,
    bends_arr.2 fun i hi => ?_, bends_arr.2 fun i hi => ?_, fun s => ?_, fun s => ?_⟩
  · have := d2_sub_le hn le_rfl zero_le_one h0.le h1.le (bends_arr.1 hb) hi
    simpa only [lin_zero, one_pow, one_mul, sub_zero] using this
  · have := d2_sub_le hn h0.le h1.le zero_le_one le_rfl (bends_arr.1 hb) hi
    simpa only [lin_one, Nat.add_sub_cancel] using this
  · rw [bezierPoint_arr, bezierPoint_arr, umb_lin_pow]
    have := umb_compose P 1 (lin t) n s
    simp only [one_pow, one_mul] at this
    rw [this, ← lin_zero, lin_affine]
    congr 3
    ring
  · rw [bezierPoint_arr, bezierPoint_arr, umb_lin_pow]
    simp only [Nat.add_sub_cancel]
    have := umb_compose P (lin t) Polynomial.X n s
    rw [this, ← lin_one, lin_affine]
    congr 3
    ring

theorem subdivide_spec {nrm : V → K} (hn : IsSeminorm nrm) (k : ℕ) {c : Bezier V}
    (hne : c.ctrl ≠ []) {D : K} (hb : Bends nrm c.ctrl D) :
    ∃ L, subdivide K k c = ok L ∧ L.length = 2 ^ k ∧ ∀ (m : ℕ) q, L[m]? = some q →
      q.ctrl.length = c.ctrl.length ∧ Bends nrm q.ctrl (D / 4 ^ k) ∧
      ∀ s : K, bezierPoint q.ctrl s = bezierPoint c.ctrl ((m + s) / 2 ^ k) := by
  induction k generalizing c D with
  | zero =>
    refine ⟨[c], rfl, rfl, fun m q h => ?_⟩
    rcases m with _ | m
    · obtain rfl : c = q := by simpa using h
      simpa using hb
    · simp at h
  | succ k ih =>
    obtain ⟨a, b, e1, -, -, la, lb, ba, bb, va, vb⟩ :=
      C100_split hn hne hb (t := (1 / 2 : K)) (by norm_num) (by norm_num)
    have nea : a.ctrl ≠ [] := by
      intro h; rw [h] at la; exact hne (List.length_eq_zero_iff.1 la.symm)
    have neb : b.ctrl ≠ [] := by
      intro h; rw [h] at lb; exact hne (List.length_eq_zero_iff.1 lb.symm)
    obtain ⟨L, hL, nL, pL⟩ := ih nea ba
    obtain ⟨R, hR, nR, pR⟩ := ih neb bb
    have p4 : (4 : K) ^ k ≠ 0 := by positivity
    have p2 : (2 : K) ^ k ≠ 0 := by positivity
    refine ⟨L ++ R, ?_, by simp [nL, nR]; ring, fun m q h => ?_⟩
    · simp only [subdivide, e1, ok_bind, hL, hR]
    · rcases Nat.lt_or_ge m L.length with hm | hm
      · rw [List.getElem?_append_left hm] at h
        obtain ⟨q1, q2, q3⟩ := pL m q h
        refine ⟨q1.trans la, ?_, fun s => ?_⟩
        · convert q2 using 1
          rw [pow_succ]
          field_simp
          norm_num
        · rw [q3, va]
          congr 1
          rw [pow_succ]
          field_simp
      · rw [List.getElem?_append_right hm] at h
        obtain ⟨q1, q2, q3⟩ := pR _ q h
        refine ⟨q1.trans lb, ?_, fun s => ?_⟩
        · convert q2 using 1
          rw [pow_succ]
          field_simp
          norm_num
        · rw [q3, vb]
          congr 1
          rw [nL] at hm ⊢
          rw [Nat.cast_sub hm]
          push_cast
          field_simp
          ring

/-- C100: halving a curve `k` times gives `2^k` curves of the same degree; the `m`-th is the curve
on `[m/2^k, (m+1)/2^k]`, and its control polygon is within `n/8 · D/4^k` of the curve. -/
theorem C100_subdivision {nrm : V → K} (hn : IsSeminorm nrm) (k : ℕ) {c : Bezier V} {n : ℕ}
    (hlen : c.ctrl.length = n + 1) {D : K} (hD : 0 ≤ D) (hb : Bends nrm c.ctrl D) {f : K → V}
    {I : K → Prop} (hI : ∀ t, I t → 0 ≤ t ∧ t ≤ 1 ∧ (t < 1 ∨ c.periodic = false))
    (hf : ∀ t, I t → c.evaluate t = ok (f t)) :
    ∃ L, subdivide K k c = ok L ∧ L.length = 2 ^ k ∧ ∀ (m : ℕ) q, L[m]? = some q →
      q.ctrl.length = c.ctrl.length ∧
      (∀ s : K, 0 ≤ s → s < 1 → I ((m + s) / 2 ^ k) → q.evaluate s = ok (f ((m + s) / 2 ^ k))) ∧
      ∀ j < n, ∀ s, 0 ≤ s → s ≤ 1 → I ((m + (j + s) / n) / 2 ^ k) →
        nrm (f ((m + (j + s) / n) / 2 ^ k)
          - ((1 - s) • q.ctrl.getD j 0 + s • q.ctrl.getD (j + 1) 0)) ≤ n / 8 * (D / 4 ^ k) := by
  have hne : c.ctrl ≠ [] := by intro h; simp [h] at hlen
  obtain ⟨L, h1, h2, h3⟩ := subdivide_spec hn k hne hb
  refine ⟨L, h1, h2, fun m q hq => ?_⟩
  obtain ⟨q1, q2, q3⟩ := h3 m q hq
  have qne : q.ctrl ≠ [] := by
    intro h; rw [h] at q1; exact hne (List.length_eq_zero_iff.1 q1.symm)
  refine ⟨q1, fun s s0 s1 hI' => ?_, fun j hj s s0 s1 hI' => ?_⟩
  · obtain ⟨t', w1, w2⟩ := bezier_folded q.periodic s
    have := folded_self w2 s0 s1.le (Or.inl s1)
    subst this
    rw [evaluate_wrap, w1, ok_bind, Bezier.evaluate_eq _ qne, q3, bezier_value hne hI hf hI']
  · rw [bezier_value hne hI hf hI', ← q3]
    exact point_polygon hn (q1.trans hlen) (by positivity) q2 hj s0 s1

/-- C100: for every tolerance there is a number of halvings after which every control polygon is
closer to the curve than the tolerance. -/
theorem C100_subdivision_converges {nrm : V → K} (hn : IsSeminorm nrm) {c : Bezier V} {n : ℕ}
    (hlen : c.ctrl.length = n + 1) (hp : c.periodic = false) {ε : K} (hε : 0 < ε) :
    ∃ k0, ∀ k ≥ k0, ∃ L, subdivide K k c = ok L ∧ L.length = 2 ^ k ∧ ∀ (m : ℕ) q, L[m]? = some q →
      ∀ j < n, ∀ s : K, 0 ≤ s → s ≤ 1 → ∃ v, c.evaluate ((m + (j + s) / n) / 2 ^ k) = ok v ∧
        nrm (v - ((1 - s) • q.ctrl.getD j 0 + s • q.ctrl.getD (j + 1) 0)) < ε := by
  have hne : c.ctrl ≠ [] := by intro h; simp [h] at hlen
  obtain ⟨D, hD, hb⟩ : ∃ D, 0 ≤ D ∧ Bends nrm c.ctrl D := by
    refine ⟨∑ i ∈ range c.ctrl.length, nrm (c.ctrl.getD (i + 2) 0 - c.ctrl.getD (i + 1) 0
      - (c.ctrl.getD (i + 1) 0 - c.ctrl.getD i 0)),
      sum_nonneg fun i _ => BSpline.nrm_nonneg hn _, fun i hi => ?_⟩
    exact single_le_sum (f := fun i => nrm (c.ctrl.getD (i + 2) 0 - c.ctrl.getD (i + 1) 0
      - (c.ctrl.getD (i + 1) 0 - c.ctrl.getD i 0))) (fun i _ => BSpline.nrm_nonneg hn _)
      (by simp; omega)
  obtain ⟨k0, hk0⟩ := exists_nat_gt ((n : K) / 8 * D / ε)
  refine ⟨k0, fun k hk => ?_⟩
  obtain ⟨L, h1, h2, h3⟩ := subdivide_spec hn k hne hb
  refine ⟨L, h1, h2, fun m q hq j hj s s0 s1 => ?_⟩
  obtain ⟨q1, q2, q3⟩ := h3 m q hq
  have p4 : (0 : K) < 4 ^ k := by positivity
  refine ⟨_, C01_evaluate_eq_bernstein c hne hp _, ?_⟩
  rw [← q3]
  refine (point_polygon hn (q1.trans hlen) (by positivity) q2 hj s0 s1).trans_lt ?_
  have hlt : (k : K) < 4 ^ k := by exact_mod_cast (Nat.lt_pow_self (by norm_num) : k < 4 ^ k)
  have hkk : (k0 : K) ≤ k := by exact_mod_cast hk
  have : (n : K) / 8 * D / ε < 4 ^ k := by linarith
  rw [div_lt_iff₀ hε] at this
  rw [← mul_div_assoc, div_lt_iff₀ p4]
  linarith

/-! ### Elevation -/

theorem elevateTimes_spec {nrm : V → K} (hn : IsSeminorm nrm) (r : ℕ) {c : Bezier V} {p : ℕ}
    (hlen : c.ctrl.length = p + 2) {D : K} (hb : Bends nrm c.ctrl D) :
    ∃ q, elevateTimes K r c = ok q ∧ q.ctrl.length = p + 2 + r ∧ q.periodic = c.periodic ∧
      Bends nrm q.ctrl (if r = 0 then D else D * ((p + 1) * p / ((p + 1 + r) * (p + r)))) ∧
      ∀ t : K, bezierPoint q.ctrl t = bezierPoint c.ctrl t := by
  induction r with
  | zero => exact ⟨c, rfl, hlen, rfl, by simpa using hb, fun _ => rfl⟩
  | succ r ih =>
    obtain ⟨q, e1, e2, e3, e4, e5⟩ := ih
    have hne : q.ctrl ≠ [] := by intro h; simp [h] at e2; omega
    obtain ⟨n, P, e⟩ := exists_arr q.ctrl hne
    have hN : n = p + 1 + r := by rw [e] at e2; simp at e2; omega
    have ec : q = { ctrl := arr (n + 1) P, periodic := q.periodic } := by cases q; simp_all
    have step : elevateTimes K (r + 1) c = ok ⟨arr (n + 2) (elev (K := K) n P), q.periodic⟩ := by
      simp only [elevateTimes, e1, ok_bind]
      rw [ec]
      exact elevateDegree_arr n P q.periodic
    refine ⟨_, step, by simp [hN]; omega, e3, ?_, fun t => ?_⟩
    · rw [if_neg (Nat.succ_ne_zero r)]
      refine bends_arr.2 fun i hi => ?_
      rw [e] at e4
      refine (d2_elev_le hn (bends_arr.1 e4) hi).trans (le_of_eq ?_)
      rw [hN]
      have hp0 : (0 : K) ≤ p := Nat.cast_nonneg _
      have hr0 : (0 : K) ≤ r := Nat.cast_nonneg _
      have h1 : (p : K) + 1 + r ≠ 0 := by positivity
      have h2 : (p : K) + 1 + (r + 1) ≠ 0 := by positivity
      have h3 : (p : K) + (r + 1) ≠ 0 := by positivity
      have h4 : (p : K) + 1 + r + 1 ≠ 0 := by positivity
      by_cases hr : r = 0
      · subst hr
        simp
        field_simp
      · rw [if_neg hr]
        have : (0 : K) < r := by exact_mod_cast Nat.pos_of_ne_zero hr
        have h5 : (p : K) + r ≠ 0 := by positivity
        push_cast
        field_simp
        ring
    · rw [← e5 t, e, bezierPoint_arr, bezierPoint_arr, umb_lin_pow, umb_lin_pow]
      exact elevate_sum n P t

/-- C100: after `r ≥ 1` elevations of a curve of degree `n` the control polygon is within
`D · n (n - 1) / (8 (n + r - 1))` of the curve, which stays the same. -/
theorem C100_elevation {nrm : V → K} (hn : IsSeminorm nrm) {r : ℕ} (hr : r ≠ 0) {c : Bezier V}
    {n : ℕ} (hn1 : 1 ≤ n) (hlen : c.ctrl.length = n + 1) {D : K} (hD : 0 ≤ D)
    (hb : Bends nrm c.ctrl D) {f : K → V} {I : K → Prop}
    (hI : ∀ t, I t → 0 ≤ t ∧ t ≤ 1 ∧ (t < 1 ∨ c.periodic = false))
    (hf : ∀ t, I t → c.evaluate t = ok (f t)) :
    ∃ q, elevateTimes K r c = ok q ∧ q.ctrl.length = n + 1 + r ∧
      (∀ t, I t → q.evaluate t = ok (f t)) ∧
      ∀ j < n + r, ∀ s, 0 ≤ s → s ≤ 1 → I ((j + s) / (n + r : ℕ)) →
        nrm (f ((j + s) / (n + r : ℕ)) - ((1 - s) • q.ctrl.getD j 0 + s • q.ctrl.getD (j + 1) 0))
          ≤ D * (n * (n - 1)) / (8 * (n + r - 1)) := by
  obtain ⟨p, rfl⟩ : ∃ p, n = p + 1 := ⟨n - 1, by omega⟩
  have hne : c.ctrl ≠ [] := by intro h; simp [h] at hlen
  obtain ⟨q, h1, h2, h3, h4, h5⟩ := elevateTimes_spec hn r hlen hb
  have qne : q.ctrl ≠ [] := by intro h; simp [h] at h2; omega
  refine ⟨q, h1, h2, fun t ht => ?_, fun j hj s s0 s1 ht => ?_⟩
  · obtain ⟨t', w1, w2⟩ := bezier_folded q.periodic t
    obtain ⟨i1, i2, i3⟩ := hI t ht
    have := folded_self w2 i1 i2 (by rw [h3]; exact i3)
    subst this
    rw [evaluate_wrap, w1, ok_bind, Bezier.evaluate_eq _ qne, h5, bezier_value hne hI hf ht]
  · rw [if_neg hr] at h4
    rw [bezier_value hne hI hf ht, ← h5]
    have hp0 : (0 : K) ≤ p := Nat.cast_nonneg _
    have hr0 : (0 : K) < r := by exact_mod_cast Nat.pos_of_ne_zero hr
    refine (point_polygon hn (n := p + 1 + r) (by omega) (by positivity) h4 hj s0 s1).trans
      (le_of_eq ?_)
    have a1 : (p : K) + r ≠ 0 := by positivity
    have a2 : (p : K) + 1 + r ≠ 0 := by positivity
    have a3 : (p : K) + 1 + r - 1 ≠ 0 := by rw [show (p : K) + 1 + r - 1 = p + r by ring]; exact a1
    push_cast
    field_simp
    ring

/-- C100: for every tolerance there is a number of elevations after which the control polygon is
closer to the curve than the tolerance. -/
theorem C100_elevation_converges {nrm : V → K} (hn : IsSeminorm nrm) {c : Bezier V} {n : ℕ}
    (hn1 : 1 ≤ n) (hlen : c.ctrl.length = n + 1) (hp : c.periodic = false) {ε : K} (hε : 0 < ε) :
    ∃ r0, ∀ r ≥ r0, ∃ q, elevateTimes K r c = ok q ∧ q.ctrl.length = n + 1 + r ∧
      ∀ j < n + r, ∀ s : K, 0 ≤ s → s ≤ 1 → ∃ v, c.evaluate ((j + s) / (n + r : ℕ)) = ok v ∧
        nrm (v - ((1 - s) • q.ctrl.getD j 0 + s • q.ctrl.getD (j + 1) 0)) < ε := by
  have hne : c.ctrl ≠ [] := by intro h; simp [h] at hlen
  obtain ⟨D, hD, hb⟩ : ∃ D, 0 ≤ D ∧ Bends nrm c.ctrl D := by
    refine ⟨∑ i ∈ range c.ctrl.length, nrm (c.ctrl.getD (i + 2) 0 - c.ctrl.getD (i + 1) 0
      - (c.ctrl.getD (i + 1) 0 - c.ctrl.getD i 0)),
      sum_nonneg fun i _ => BSpline.nrm_nonneg hn _, fun i hi => ?_⟩
    exact single_le_sum (f := fun i => nrm (c.ctrl.getD (i + 2) 0 - c.ctrl.getD (i + 1) 0
      - (c.ctrl.getD (i + 1) 0 - c.ctrl.getD i 0))) (fun i _ => BSpline.nrm_nonneg hn _)
      (by simp; omega)
  have hn0 : (1 : K) ≤ n := by exact_mod_cast hn1
  obtain ⟨r0, hr0⟩ := exists_nat_gt (D * (n * (n - 1)) / 8 / ε)
  refine ⟨r0 + 1, fun r hr => ?_⟩
  obtain ⟨q, h1, h2, h3, h4⟩ := C100_elevation hn (r := r) (by omega) hn1 hlen hD hb
    (f := fun t => bezierPoint c.ctrl t) (I := fun t => 0 ≤ t ∧ t ≤ 1)
    (fun t h => ⟨h.1, h.2, Or.inr hp⟩) (fun t _ => C01_evaluate_eq_bernstein c hne hp t)
  refine ⟨q, h1, h2, fun j hj s s0 s1 => ⟨_, C01_evaluate_eq_bernstein c hne hp _, ?_⟩⟩
  have hN : (0 : K) < ((n + r : ℕ) : K) := by exact_mod_cast (by omega : 0 < n + r)
  have hjN : (j : K) + 1 ≤ ((n + r : ℕ) : K) := by exact_mod_cast hj
  have hj0 : (0 : K) ≤ j := Nat.cast_nonneg _
  refine (h4 j hj s s0 s1 ⟨div_nonneg (by linarith) hN.le, ?_⟩).trans_lt ?_
  · rw [div_le_one hN]; linarith
  · have hrr : (r0 : K) + 1 ≤ r := by exact_mod_cast hr
    have r00 : (0 : K) ≤ r0 := Nat.cast_nonneg _
    rw [div_lt_iff₀ hε] at hr0
    rw [div_lt_iff₀ (by linarith)]
    have : (r0 : K) * ε ≤ (n + r - 1) * ε := mul_le_mul_of_nonneg_right (by linarith) hε.le
    linarith

end General

/-! ### Examples -/

/-- A cubic over the rationals. -/
def exArch : Bezier ℚ := { ctrl := [0, 4, 4, 0] }

theorem exArch_bends : Bends (fun x : ℚ => |x|) exArch.ctrl 4 := by
  intro i hi
  have : i + 2 < 4 := hi
  rcases i with _ | _ | i
  · decide +kernel
  · decide +kernel
  · omega

example : ∃ L, subdivide ℚ 3 exArch = ok L ∧ L.length = 2 ^ 3 ∧ ∀ (m : ℕ) q, L[m]? = some q →
    ∀ j : ℕ, j < 3 → ∀ s : ℚ, 0 ≤ s → s ≤ 1 → ∃ v, exArch.evaluate ((m + (j + s) / (3 : ℕ)) / 2 ^ 3) = ok v ∧
      |v - ((1 - s) • q.ctrl.getD j 0 + s • q.ctrl.getD (j + 1) 0)| ≤ 3 / 128 := by
  obtain ⟨L, h1, h2, h3⟩ := C100_subdivision abs_isSeminorm 3 (c := exArch) (n := 3) rfl
    (by norm_num) exArch_bends (f := fun t => bezierPoint exArch.ctrl t)
    (I := fun t => 0 ≤ t ∧ t ≤ 1) (fun t h => ⟨h.1, h.2, Or.inr rfl⟩)
    (fun t _ => C01_evaluate_eq_bernstein exArch (by simp [exArch]) rfl t)
  refine ⟨L, h1, h2, fun m q hq j hj s s0 s1 =>
    ⟨_, C01_evaluate_eq_bernstein exArch (by simp [exArch]) rfl _, ?_⟩⟩
  have hm : m < 8 := by
    have := (List.getElem?_eq_some_iff.1 hq).1
    rw [h2] at this
    exact this
  have hm' : (m : ℚ) ≤ 7 := by exact_mod_cast (by omega : m ≤ 7)
  have hj' : (j : ℚ) ≤ 2 := by exact_mod_cast (by omega : j ≤ 2)
  refine ((h3 m q hq).2.2 j hj s s0 s1 ⟨by positivity, ?_⟩).trans (by norm_num)
  push_cast
  linarith

/-- The factor `n / 8` is attained: a parabola at the middle of its polygon. -/
theorem C100_sharp :
    Bends (fun x : ℚ => |x|) [0, 0, 4] 4 ∧
      ∃ v, ({ ctrl := [0, 0, 4] } : Bezier ℚ).evaluate ((1 + 0) / 2 : ℚ) = ok v ∧
        |v - ((1 - 0) • 0 + (0 : ℚ) • 4)| = 2 / 8 * 4 := by
  refine ⟨fun i hi => ?_, _, C01_evaluate_eq_bernstein _ (by simp) rfl _, ?_⟩
  · have : i + 2 < 3 := hi
    obtain rfl : i = 0 := by omega
    decide +kernel
  · decide +kernel

/-- Halving fewer times is not enough: the polygon of the undivided curve is not within the bound of
two halvings. -/
example : ∃ v, exArch.evaluate ((1 + 1 / 2) / 3 : ℚ) = ok v ∧
    ¬ |v - ((1 - 1 / 2) • 4 + (1 / 2 : ℚ) • 4)| ≤ 3 / 8 * (4 / 4 ^ 2) := by
  refine ⟨_, C01_evaluate_eq_bernstein _ (by simp [exArch]) rfl _, ?_⟩
  decide +kernel

end NS.Props
