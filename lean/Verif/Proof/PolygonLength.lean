import Verif.Spec.Cone
import Verif.Proof.Variation

/-!
# The length of inscribed polygons
-/

set_option linter.unusedSectionVars false

namespace NS.BSpline

open Outcome Spec Finset

variable {K V : Type} [Field K] [LinearOrder K] [IsStrictOrderedRing K] [FloorRing K]
  [AddCommGroup V] [Module K V]

theorem nrm_zero {nrm : V → K} (hn : IsSeminorm nrm) : nrm 0 = 0 := by
  have := hn.smul 0 0
  simpa using this

theorem nrm_nonneg {nrm : V → K} (hn : IsSeminorm nrm) (v : V) : 0 ≤ nrm v := by
  have h1 := hn.tri v ((-1 : K) • v)
  rw [hn.smul, abs_neg, abs_one, one_mul, neg_smul, one_smul, add_neg_cancel, nrm_zero hn] at h1
  linarith

theorem nrm_sub_comm {nrm : V → K} (hn : IsSeminorm nrm) (v w : V) : nrm (v - w) = nrm (w - v) := by
  have := hn.smul (-1) (w - v)
  rw [abs_neg, abs_one, one_mul, neg_smul, one_smul, neg_sub] at this
  exact this

theorem nrm_sub_le {nrm : V → K} (hn : IsSeminorm nrm) (u v w : V) :
    nrm (u - w) ≤ nrm (u - v) + nrm (v - w) := by
  have := hn.tri (u - v) (v - w)
  rwa [sub_add_sub_cancel] at this

theorem nrm_combo {nrm : V → K} (hn : IsSeminorm nrm) {q : ℕ} {l : ℕ → K} {e : ℕ → V} {v : V} {B : K}
    (h0 : ∀ j < q, 0 ≤ l j) (h1 : ∑ j ∈ range q, l j = 1) (hB : ∀ j < q, nrm (v - e j) ≤ B) :
    nrm (v - ∑ j ∈ range q, l j • e j) ≤ B := by
  have e1 : v - ∑ j ∈ range q, l j • e j = ∑ j ∈ range q, l j • (v - e j) := by
    simp only [smul_sub, sum_sub_distrib, ← sum_smul, h1, one_smul]
  have e2 : ∀ m ≤ q, nrm (∑ j ∈ range m, l j • (v - e j)) ≤ ∑ j ∈ range m, l j * B := by
    intro m
    induction m with
    | zero => intro _; simp [nrm_zero hn]
    | succ m ih =>
      intro hm
      rw [sum_range_succ, sum_range_succ]
      refine (hn.tri _ _).trans (add_le_add (ih (by omega)) ?_)
      rw [hn.smul, abs_of_nonneg (h0 m (by omega))]
      exact mul_le_mul_of_nonneg_left (hB m (by omega)) (h0 m (by omega))
  rw [e1]
  refine (e2 q le_rfl).trans (le_of_eq ?_)
  rw [← sum_mul, h1, one_mul]

theorem length_abstract {nrm : V → K} (hn : IsSeminorm nrm) {e : ℕ → V} {M p : ℕ} {g : K → V}
    {κ : K → ℕ} {lo hi mid : K} {L : List K} (hdom : lo < hi) (hL : ∀ y ∈ L, lo < y ∧ y < hi)
    (hmid : mid ∈ L) (hκ : ∀ y, lo ≤ y → y ≤ hi → p ≤ κ y ∧ κ y < M)
    (hκm : ∀ y z, lo ≤ y → y < z → z ≤ hi → κ y ≤ κ z) (hlo : ∀ z ∈ L, κ lo ≤ κ z - p)
    (hg : ∀ y ∈ L, g y = e (κ y - p))
    (hcv : ∀ y, lo ≤ y → y ≤ hi → ∃ l : ℕ → K, (∀ j < p + 1, 0 ≤ l j) ∧
      ∑ j ∈ range (p + 1), l j = 1 ∧ g y = ∑ j ∈ range (p + 1), l j • e (κ y - p + j))
    {x : ℕ → K} {n : ℕ} (hx : ∀ j < n, x j ≤ x (j + 1))
    (hxm : ∀ j ≤ n, x j ∈ L ∨ x j = lo ∨ x j = hi) :
    ∑ j ∈ range n, nrm (g (x (j + 1)) - g (x j))
      ≤ ∑ i ∈ range (M - 1), nrm (e (i + 1) - e i) := by
  set A : ℕ → K := fun i => ∑ l ∈ range i, nrm (e (l + 1) - e l) with hA
  have hA0 : A 0 = 0 := by simp [hA]
  have hAs : ∀ i, A (i + 1) = A i + nrm (e (i + 1) - e i) := fun i => by
    simp only [hA]; rw [sum_range_succ]
  have hAe : ∀ d i, nrm (e (i + d) - e i) ≤ A (i + d) - A i := by
    intro d
    induction d with
    | zero => intro i; simp [nrm_zero hn]
    | succ d ih =>
      intro i
      have h1 := ih i
      have h2 := hAs (i + d)
      have h3 := nrm_sub_le hn (e (i + (d + 1))) (e (i + d)) (e i)
      rw [← add_assoc] at h3 ⊢
      linarith
  have hAm : ∀ i j, i ≤ j → nrm (e j - e i) ≤ A j - A i := by
    intro i j hij
    have := hAe (j - i) i
    rwa [show i + (j - i) = j by omega] at this
  have hAmono : ∀ i j, i ≤ j → A i ≤ A j := fun i j hij => by
    have := hAm i j hij
    have := nrm_nonneg hn (e j - e i)
    linarith
  set S : K → K := fun y => if y = lo then 0 else if y = hi then A (M - 1) else A (κ y - p) with hS
  have Slo : S lo = 0 := by simp [hS]
  have Shi : S hi = A (M - 1) := by simp [hS, hdom.ne']
  have SL : ∀ y ∈ L, S y = A (κ y - p) := by
    intro y hy
    obtain ⟨a, b⟩ := hL y hy
    simp [hS, a.ne', b.ne]
  have lowL : ∀ z ∈ L, nrm (g z - g lo) ≤ S z := by
    intro z hz
    obtain ⟨l, l0, l1, l2⟩ := hcv lo le_rfl hdom.le
    rw [l2, hg z hz, SL z hz]
    refine nrm_combo hn l0 l1 fun j hj => ?_
    have h1 := hlo z hz
    have h2 := hκ lo le_rfl hdom.le
    have h3 := hAm (κ lo - p + j) (κ z - p) (by omega)
    have h4 := hAmono 0 (κ lo - p + j) (by omega)
    linarith
  have Lhigh : ∀ y ∈ L, nrm (g hi - g y) ≤ A (M - 1) - S y := by
    intro y hy
    obtain ⟨l, l0, l1, l2⟩ := hcv hi hdom.le le_rfl
    rw [nrm_sub_comm hn, l2, hg y hy, SL y hy]
    refine nrm_combo hn l0 l1 fun j hj => ?_
    have h1 := hκm y hi (hL y hy).1.le (hL y hy).2 le_rfl
    have h2 := hκ hi hdom.le le_rfl
    have h3 := hAm (κ y - p) (κ hi - p + j) (by omega)
    have h4 := hAmono (κ hi - p + j) (M - 1) (by omega)
    rw [nrm_sub_comm hn]
    linarith
  have key : ∀ y z, (y ∈ L ∨ y = lo ∨ y = hi) → (z ∈ L ∨ z = lo ∨ z = hi) → y ≤ z →
      nrm (g z - g y) ≤ S z - S y := by
    intro y z hy hz hyz
    rcases hyz.lt_or_eq with hlt | rfl
    · rcases hy with hy | rfl | rfl
      · rcases hz with hz | rfl | rfl
        · rw [hg y hy, hg z hz, SL y hy, SL z hz]
          have := hκm y z (hL y hy).1.le hlt (hL z hz).2.le
          exact hAm _ _ (by omega)
        · exact absurd hlt (not_lt.2 (hL y hy).1.le)
        · rw [Shi]; exact Lhigh y hy
      · rcases hz with hz | rfl | rfl
        · rw [Slo, sub_zero]; exact lowL z hz
        · exact absurd hlt (lt_irrefl _)
        · rw [Slo, sub_zero, Shi]
          have h1 := lowL mid hmid
          have h2 := Lhigh mid hmid
          have h3 := nrm_sub_le hn (g z) (g mid) (g y)
          linarith
      · rcases hz with hz | rfl | rfl
        · exact absurd hlt (not_lt.2 (hL z hz).2.le)
        · exact absurd hlt (not_lt.2 hdom.le)
        · exact absurd hlt (lt_irrefl _)
    · rw [sub_self, sub_self, nrm_zero hn]
  have hsum : ∑ j ∈ range n, nrm (g (x (j + 1)) - g (x j)) ≤ ∑ j ∈ range n, (S (x (j + 1)) - S (x j)) :=
    sum_le_sum fun j hj => by
      have hj' : j < n := by simpa using hj
      exact key _ _ (hxm j hj'.le) (hxm (j + 1) hj') (hx j hj')
  rw [sum_range_sub (fun j => S (x j))] at hsum
  have hS0 : ∀ y, (y ∈ L ∨ y = lo ∨ y = hi) → 0 ≤ S y ∧ S y ≤ A (M - 1) := by
    intro y hy
    have hM := hAmono 0 (M - 1) (by omega)
    rw [hA0] at hM
    rcases hy with hy | rfl | rfl
    · rw [SL y hy]
      have h2 := hκ y (hL y hy).1.le (hL y hy).2.le
      have h3 := hAmono 0 (κ y - p) (by omega)
      rw [hA0] at h3
      exact ⟨h3, hAmono _ _ (by omega)⟩
    · rw [Slo]; exact ⟨le_rfl, hM⟩
    · rw [Shi]; exact ⟨hM, le_rfl⟩
  have h1 := (hS0 _ (hxm 0 (by omega))).1
  have h2 := (hS0 _ (hxm n le_rfl)).2
  linarith

/-- After inserting the points of `L` to full multiplicity. -/
theorem refine_at {c : BSpline K V} {p : ℕ} (hc : WellFormed c p) (L : List K)
    (hL : ∀ t ∈ L, knot c.knots p < t ∧ t < knot c.knots c.ctrl.length) :
    ∃ (d : BSpline K V) (κ : K → ℕ), Finer p c d ∧
      (∀ y, knot c.knots p ≤ y → y ≤ knot c.knots c.ctrl.length → p ≤ κ y ∧ κ y < d.ctrl.length) ∧
      (∀ y z, knot c.knots p ≤ y → y < z → z ≤ knot c.knots c.ctrl.length → κ y ≤ κ z) ∧
      (∀ z ∈ L, κ (knot c.knots p) ≤ κ z - p) ∧
      (∀ y ∈ L, bsplinePoint p c.knots c.ctrl y = d.ctrl.getD (κ y - p) 0) ∧
      ∀ y, knot c.knots p ≤ y → y ≤ knot c.knots c.ctrl.length → ∃ l : ℕ → K,
        (∀ j < p + 1, 0 ≤ l j) ∧ ∑ j ∈ range (p + 1), l j = 1 ∧
        bsplinePoint p c.knots c.ctrl y
          = ∑ j ∈ range (p + 1), l j • d.ctrl.getD (κ y - p + j) 0 := by
  set lo := knot c.knots p with hlo
  set hi := knot c.knots c.ctrl.length with hhi
  have hdom : lo < hi := hc.dom
  obtain ⟨d, hd, hT⟩ := finer_all hc L hL
  have hl := hd.wf.len
  have hcl := hd.wf.ctrl
  have hlo' := hd.lower
  have hhi' := hd.upper
  rw [← hlo] at hlo'
  rw [← hhi] at hhi'
  have hspan : ∀ y, ∃ k, lo ≤ y → y ≤ hi → p ≤ k ∧ k < d.ctrl.length ∧
      InSpan (knot d.knots) (knot d.knots d.ctrl.length) k y := by
    intro y
    by_cases hy : lo ≤ y ∧ y ≤ hi
    · obtain ⟨k, a⟩ := exists_inSpan (u := knot d.knots) (p := p) (n := d.ctrl.length)
        hd.wf.dom (by omega) (t := y) (by rw [hlo']; exact hy.1) (by rw [hhi']; exact hy.2)
        (fun i j hij hj => knot_mono hd.wf.sorted hij (by omega))
      exact ⟨k, fun _ _ => a⟩
    · exact ⟨0, fun a b => absurd ⟨a, b⟩ hy⟩
  choose κ hκ using hspan
  have hmono : ∀ y z, lo ≤ y → y < z → z ≤ hi → κ y ≤ κ z := by
    intro y z h1 h2 h3
    obtain ⟨-, a2, a3⟩ := hκ y h1 (h2.le.trans h3)
    obtain ⟨-, -, b3⟩ := hκ z (h1.trans h2.le) h3
    exact span_mono hd.wf.sorted (by omega) a3 b3 h2 a2
  refine ⟨d, κ, hd, fun y a b => ⟨(hκ y a b).1, (hκ y a b).2.1⟩, hmono, fun z hz => ?_,
    fun y hy => ?_, fun y a b => ?_⟩
  · have hz' := hL z hz
    obtain ⟨a1, a2, a3⟩ := hκ lo le_rfl hdom.le
    obtain ⟨b1, b2, b3⟩ := hκ z hz'.1.le hz'.2.le
    have hm := hmono lo z le_rfl hz'.1 hz'.2.le
    have hb := (value_at hd.wf b1 b2 b3 (by rw [hhi']; exact hz'.2) (hT z hz)).2
    by_contra hcon
    have hp : 1 ≤ p := by omega
    have h3 := hb (κ z - p + 1) (by omega) (by omega)
    have h4 := knot_mono hd.wf.sorted (i := κ z - p + 1) (j := κ lo) (by omega) (by omega)
    have h5 := a3.bounds.1
    rw [h3] at h4
    exact absurd (h4.trans h5) (not_le.2 hz'.1)
  · have hy' := hL y hy
    obtain ⟨a1, a2, a3⟩ := hκ y hy'.1.le hy'.2.le
    rw [← hd.point y hy'.1.le hy'.2.le]
    exact (value_at hd.wf a1 a2 a3 (by rw [hhi']; exact hy'.2) (hT y hy)).1
  · obtain ⟨a1, a2, a3⟩ := hκ y a b
    refine ⟨fun j => basis (knot d.knots) (knot d.knots d.ctrl.length) p (κ y - p + j) y,
      fun j hj => basis_nonneg (monoTo_knot hd.wf.sorted) a3 (by omega) p _ (by omega), ?_, ?_⟩
    · exact sum_basis_one (monoTo_knot hd.wf.sorted) a3 a1 (by omega)
    · rw [← hd.point y a b, bsplinePoint,
        sum_basis_support (monoTo_knot hd.wf.sorted) a3 a1 a2 (by omega)]

/-- The inner ones of the points `x 0, …, x n`, and the middle of the domain. -/
def inner (lo hi : K) (x : ℕ → K) (n : ℕ) : List K :=
  (lo + hi) / 2 :: ((List.range (n + 1)).map x).filter (fun t => decide (lo < t ∧ t < hi))

theorem mem_inner {lo hi : K} (h : lo < hi) {x : ℕ → K} {n : ℕ} :
    (∀ y ∈ inner lo hi x n, lo < y ∧ y < hi) ∧ (lo + hi) / 2 ∈ inner lo hi x n ∧
      ∀ j ≤ n, lo ≤ x j → x j ≤ hi → x j ∈ inner lo hi x n ∨ x j = lo ∨ x j = hi := by
  refine ⟨fun y hy => ?_, by simp [inner], fun j hj a b => ?_⟩
  · rw [inner, List.mem_cons, List.mem_filter] at hy
    rcases hy with rfl | ⟨-, hy⟩
    · constructor <;> linarith
    · exact of_decide_eq_true hy
  · rcases a.lt_or_eq with a | a
    · rcases b.lt_or_eq with b | b
      · left
        rw [inner, List.mem_cons, List.mem_filter]
        right
        refine ⟨List.mem_map.2 ⟨j, by simp; omega, rfl⟩, ?_⟩
        simp [a, b]
      · exact Or.inr (Or.inr b)
    · exact Or.inr (Or.inl a.symm)

/-- A polygon with increasing parameters inscribed to a curve is no longer than the control
polygon. -/
theorem polygon_length {nrm : V → K} (hn : IsSeminorm nrm) {c : BSpline K V} {p : ℕ}
    (hc : WellFormed c p) {x : ℕ → K} {n : ℕ} (hx : ∀ j < n, x j ≤ x (j + 1))
    (h1 : ∀ j ≤ n, knot c.knots p ≤ x j) (h2 : ∀ j ≤ n, x j ≤ knot c.knots c.ctrl.length) :
    ∑ j ∈ range n, nrm (bsplinePoint p c.knots c.ctrl (x (j + 1)) - bsplinePoint p c.knots c.ctrl (x j))
      ≤ ∑ i ∈ range (c.ctrl.length - 1), nrm (c.ctrl.getD (i + 1) 0 - c.ctrl.getD i 0) := by
  obtain ⟨m1, m2, m3⟩ := mem_inner hc.dom (x := x) (n := n)
  obtain ⟨d, κ, hd, a1, a2, a3, a4, a5⟩ := refine_at hc _ m1
  exact (length_abstract hn (e := fun i => d.ctrl.getD i 0) hc.dom m1 m2 a1 a2 a3 a4 a5 hx
    fun j hj => m3 j hj (h1 j hj) (h2 j hj)).trans (hd.cuts.length hn)

/-- The point of a convex combination with positive weights is a convex combination of the points. -/
theorem project_combo {q : ℕ} {e : ℕ → V × K} {v : V × K} (hw : ∀ j < q, 0 < (e j).2)
    (h : ∃ l : ℕ → K, (∀ j < q, 0 ≤ l j) ∧ ∑ j ∈ range q, l j = 1 ∧ v = ∑ j ∈ range q, l j • e j) :
    ∃ l : ℕ → K, (∀ j < q, 0 ≤ l j) ∧ ∑ j ∈ range q, l j = 1 ∧
      v.2⁻¹ • v.1 = ∑ j ∈ range q, l j • (e j).2⁻¹ • (e j).1 := by
  obtain ⟨l, l0, l1, l2⟩ := h
  set D := ∑ j ∈ range q, l j * (e j).2 with hD
  have hDpos : 0 < D := by
    obtain ⟨j, hj, hlj⟩ : ∃ j ∈ range q, 0 < l j := by
      by_contra hcon
      push Not at hcon
      have := sum_nonpos hcon
      rw [l1] at this
      exact absurd this (not_le.2 zero_lt_one)
    exact sum_pos' (fun i hi => mul_nonneg (l0 i (by simpa using hi)) (hw i (by simpa using hi)).le)
      ⟨j, hj, mul_pos hlj (hw j (by simpa using hj))⟩
  have e2 : v.2 = D := by
    rw [l2, Prod.snd_sum, hD]
    rfl
  have e1 : v.1 = ∑ j ∈ range q, l j • (e j).1 := by
    rw [l2, Prod.fst_sum]
    rfl
  refine ⟨fun j => D⁻¹ * (l j * (e j).2), fun j hj => ?_, ?_, ?_⟩
  · exact mul_nonneg (inv_nonneg.2 hDpos.le) (mul_nonneg (l0 j hj) (hw j hj).le)
  · rw [← mul_sum, ← hD, inv_mul_cancel₀ hDpos.ne']
  · rw [e2, e1, smul_sum]
    refine sum_congr rfl fun j hj => ?_
    have := (hw j (by simpa using hj)).ne'
    rw [smul_smul, smul_smul]
    congr 1
    field_simp

/-- The same for the points of homogeneous coordinates with positive weights. -/
theorem polygon_length_rational {nrm : V → K} (hn : IsSeminorm nrm) {c : BSpline K (V × K)} {p : ℕ}
    (hc : WellFormed c p) (hpos : ∀ i < c.ctrl.length, 0 < (c.ctrl.getD i 0).2) {g : K → V}
    (hg : ∀ y, knot c.knots p ≤ y → y ≤ knot c.knots c.ctrl.length →
      g y = (bsplinePoint p c.knots c.ctrl y).2⁻¹ • (bsplinePoint p c.knots c.ctrl y).1)
    {x : ℕ → K} {n : ℕ} (hx : ∀ j < n, x j ≤ x (j + 1))
    (h1 : ∀ j ≤ n, knot c.knots p ≤ x j) (h2 : ∀ j ≤ n, x j ≤ knot c.knots c.ctrl.length) :
    ∑ j ∈ range n, nrm (g (x (j + 1)) - g (x j))
      ≤ ∑ i ∈ range (c.ctrl.length - 1),
          nrm ((c.ctrl.getD (i + 1) 0).2⁻¹ • (c.ctrl.getD (i + 1) 0).1
            - (c.ctrl.getD i 0).2⁻¹ • (c.ctrl.getD i 0).1) := by
  obtain ⟨m1, m2, m3⟩ := mem_inner hc.dom (x := x) (n := n)
  obtain ⟨d, κ, hd, a1, a2, a3, a4, a5⟩ := refine_at hc _ m1
  obtain ⟨c1, c2⟩ := hd.cuts.project hpos
  refine (length_abstract hn (e := fun i => (d.ctrl.getD i 0).2⁻¹ • (d.ctrl.getD i 0).1) hc.dom m1 m2
    a1 a2 a3 (fun y hy => ?_) (fun y b1 b2 => ?_) hx
    fun j hj => m3 j hj (h1 j hj) (h2 j hj)).trans (c1.length hn)
  · rw [hg y (m1 y hy).1.le (m1 y hy).2.le, a4 y hy]
  · have hk := a1 y b1 b2
    rw [hg y b1 b2]
    exact project_combo (fun j hj => c2 _ (by omega)) (a5 y b1 b2)

/-- The edges of a cut polygon are sums of parts of the edges. -/
theorem CutStep.cone {C : V → Prop} (hC : IsCone K C) {N : ℕ} {b b' : ℕ → V} (h : CutStep K N b b')
    (hb : ∀ i, i + 1 < N → C (b (i + 1) - b i)) : ∀ i, i + 1 < N + 1 → C (b' (i + 1) - b' i) := by
  obtain ⟨a, a1, a2, a3, a4⟩ := h
  intro i hi
  rw [a4 (i + 1) (by omega), a4 i (by omega), Nat.add_sub_cancel]
  have e : a (i + 1) • b (i + 1) + (1 - a (i + 1)) • b i -
      (a i • b i + (1 - a i) • b (i - 1)) =
      a (i + 1) • (b (i + 1) - b i) + (1 - a i) • (b i - b (i - 1)) := by module
  rw [e]
  refine hC.add _ _ ?_ ?_
  · by_cases h : i + 1 < N
    · exact hC.smul _ _ (a1 _).1 (hb i h)
    · rw [show i + 1 = N by omega, a3, zero_smul]
      exact hC.zero
  · rcases Nat.eq_zero_or_pos i with rfl | h
    · rw [a2, sub_self, zero_smul]
      exact hC.zero
    · have := hb (i - 1) (by omega)
      rw [show i - 1 + 1 = i by omega] at this
      exact hC.smul _ _ (sub_nonneg.2 (a1 _).2) this

theorem Cuts.cone {C : V → Prop} (hC : IsCone K C) {N M : ℕ} {b b' : ℕ → V} (h : Cuts K N b M b')
    (hb : ∀ i, i + 1 < N → C (b (i + 1) - b i)) : ∀ i, i + 1 < M → C (b' (i + 1) - b' i) := by
  induction h with
  | same d hd => intro i hi; rw [hd _ hi, hd _ (by omega)]; exact hb i hi
  | step M d d' _ hs ih => exact hs.cone hC ih

theorem cone_sum {C : V → Prop} (hC : IsCone K C) {q : ℕ} {l : ℕ → K} {e : ℕ → V}
    (h0 : ∀ j < q, 0 ≤ l j) (hB : ∀ j < q, C (e j)) : C (∑ j ∈ range q, l j • e j) := by
  induction q with
  | zero => simpa using hC.zero
  | succ q ih =>
    rw [sum_range_succ]
    exact hC.add _ _ (ih (fun j hj => h0 j (by omega)) fun j hj => hB j (by omega))
      (hC.smul _ _ (h0 q (by omega)) (hB q (by omega)))

theorem cone_abstract {C : V → Prop} (hC : IsCone K C) {e : ℕ → V} {M p : ℕ} {g : K → V}
    {κ : K → ℕ} {lo hi mid : K} {L : List K} (hdom : lo < hi) (hL : ∀ y ∈ L, lo < y ∧ y < hi)
    (hmid : mid ∈ L) (hκ : ∀ y, lo ≤ y → y ≤ hi → p ≤ κ y ∧ κ y < M)
    (hκm : ∀ y z, lo ≤ y → y < z → z ≤ hi → κ y ≤ κ z) (hlo : ∀ z ∈ L, κ lo ≤ κ z - p)
    (hg : ∀ y ∈ L, g y = e (κ y - p))
    (hcv : ∀ y, lo ≤ y → y ≤ hi → ∃ l : ℕ → K, (∀ j < p + 1, 0 ≤ l j) ∧
      ∑ j ∈ range (p + 1), l j = 1 ∧ g y = ∑ j ∈ range (p + 1), l j • e (κ y - p + j))
    (he : ∀ i, i + 1 < M → C (e (i + 1) - e i)) {y z : K} (hy : y ∈ L ∨ y = lo ∨ y = hi)
    (hz : z ∈ L ∨ z = lo ∨ z = hi) (hyz : y ≤ z) : C (g z - g y) := by
  have hAe : ∀ d i, i + d < M → C (e (i + d) - e i) := by
    intro d
    induction d with
    | zero => intro i _; simpa using hC.zero
    | succ d ih =>
      intro i h
      have h1 := hC.add _ _ (he (i + d) (by omega)) (ih i (by omega))
      rwa [sub_add_sub_cancel] at h1
  have hAm : ∀ i j, i ≤ j → j < M → C (e j - e i) := by
    intro i j hij hj
    have := hAe (j - i) i (by omega)
    rwa [show i + (j - i) = j by omega] at this
  have lowL : ∀ z ∈ L, C (g z - g lo) := by
    intro z hz
    obtain ⟨l, l0, l1, l2⟩ := hcv lo le_rfl hdom.le
    have h1 := hlo z hz
    have h2 := hκ lo le_rfl hdom.le
    have h3 := hκ z (hL z hz).1.le (hL z hz).2.le
    have := cone_sum hC l0 (e := fun j => e (κ z - p) - e (κ lo - p + j)) fun j hj =>
      hAm _ _ (by omega) (by omega)
    rw [l2, hg z hz]
    simpa only [smul_sub, sum_sub_distrib, ← sum_smul, l1, one_smul] using this
  have Lhigh : ∀ y ∈ L, C (g hi - g y) := by
    intro y hy
    obtain ⟨l, l0, l1, l2⟩ := hcv hi hdom.le le_rfl
    have h1 := hκm y hi (hL y hy).1.le (hL y hy).2 le_rfl
    have h2 := hκ hi hdom.le le_rfl
    have := cone_sum hC l0 (e := fun j => e (κ hi - p + j) - e (κ y - p)) fun j hj =>
      hAm _ _ (by omega) (by omega)
    rw [l2, hg y hy]
    simpa only [smul_sub, sum_sub_distrib, ← sum_smul, l1, one_smul] using this
  rcases hyz.lt_or_eq with hlt | rfl
  · rcases hy with hy | rfl | rfl
    · rcases hz with hz | rfl | rfl
      · rw [hg y hy, hg z hz]
        have := hκm y z (hL y hy).1.le hlt (hL z hz).2.le
        have h3 := hκ z (hL z hz).1.le (hL z hz).2.le
        exact hAm _ _ (by omega) (by omega)
      · exact absurd hlt (not_lt.2 (hL y hy).1.le)
      · exact Lhigh y hy
    · rcases hz with hz | rfl | rfl
      · exact lowL z hz
      · exact absurd hlt (lt_irrefl _)
      · have := hC.add _ _ (Lhigh mid hmid) (lowL mid hmid)
        rwa [sub_add_sub_cancel] at this
    · rcases hz with hz | rfl | rfl
      · exact absurd hlt (not_lt.2 (hL z hz).2.le)
      · exact absurd hlt (not_lt.2 hdom.le)
      · exact absurd hlt (lt_irrefl _)
  · rw [sub_self]; exact hC.zero

/-- The chords of a curve lie in every convex cone that contains the edges of the control polygon. -/
theorem chord_cone {C : V → Prop} (hC : IsCone K C) {c : BSpline K V} {p : ℕ}
    (hc : WellFormed c p)
    (he : ∀ i, i + 1 < c.ctrl.length → C (c.ctrl.getD (i + 1) 0 - c.ctrl.getD i 0)) {y z : K}
    (h1 : knot c.knots p ≤ y) (h2 : y ≤ z) (h3 : z ≤ knot c.knots c.ctrl.length) :
    C (bsplinePoint p c.knots c.ctrl z - bsplinePoint p c.knots c.ctrl y) := by
  obtain ⟨m1, m2, m3⟩ := mem_inner hc.dom (x := fun j => if j = 0 then y else z) (n := 1)
  obtain ⟨d, κ, hd, a1, a2, a3, a4, a5⟩ := refine_at hc _ m1
  exact cone_abstract hC (e := fun i => d.ctrl.getD i 0) hc.dom m1 m2 a1 a2 a3 a4 a5
    (hd.cuts.cone hC he) (by simpa using m3 0 (by omega) (by simpa using h1) (by simpa using h2.trans h3))
    (by simpa using m3 1 (by omega) (by simpa using h1.trans h2) (by simpa using h3)) h2

/-- The same for the points of homogeneous coordinates with positive weights. -/
theorem chord_cone_rational {C : V → Prop} (hC : IsCone K C) {c : BSpline K (V × K)} {p : ℕ}
    (hc : WellFormed c p) (hpos : ∀ i < c.ctrl.length, 0 < (c.ctrl.getD i 0).2) {g : K → V}
    (hg : ∀ y, knot c.knots p ≤ y → y ≤ knot c.knots c.ctrl.length →
      g y = (bsplinePoint p c.knots c.ctrl y).2⁻¹ • (bsplinePoint p c.knots c.ctrl y).1)
    (he : ∀ i, i + 1 < c.ctrl.length → C ((c.ctrl.getD (i + 1) 0).2⁻¹ • (c.ctrl.getD (i + 1) 0).1
            - (c.ctrl.getD i 0).2⁻¹ • (c.ctrl.getD i 0).1)) {y z : K}
    (h1 : knot c.knots p ≤ y) (h2 : y ≤ z) (h3 : z ≤ knot c.knots c.ctrl.length) :
    C (g z - g y) := by
  obtain ⟨m1, m2, m3⟩ := mem_inner hc.dom (x := fun j => if j = 0 then y else z) (n := 1)
  obtain ⟨d, κ, hd, a1, a2, a3, a4, a5⟩ := refine_at hc _ m1
  obtain ⟨c1, c2⟩ := hd.cuts.project hpos
  refine cone_abstract hC (e := fun i => (d.ctrl.getD i 0).2⁻¹ • (d.ctrl.getD i 0).1) hc.dom m1 m2
    a1 a2 a3 (fun y hy => ?_) (fun y b1 b2 => ?_) (c1.cone hC he)
    (by simpa using m3 0 (by omega) (by simpa using h1) (by simpa using h2.trans h3))
    (by simpa using m3 1 (by omega) (by simpa using h1.trans h2) (by simpa using h3)) h2
  · rw [hg y (m1 y hy).1.le (m1 y hy).2.le, a4 y hy]
  · have hk := a1 y b1 b2
    rw [hg y b1 b2]
    exact project_combo (fun j hj => c2 _ (by omega)) (a5 y b1 b2)

/-- The mean of the `p` knots that belong to control point `i`. -/
def abscissa (u : List K) (p i : ℕ) : K := (∑ r ∈ range p, knot u (i + 1 + r)) / p

theorem umb_id (f : Polynomial K) : umb (fun i => (i : K)) f = (Polynomial.derivative f).eval 1 := by
  induction f using Polynomial.induction_on' with
  | add f g hf hg => simp only [map_add, hf, hg, Polynomial.eval_add]
  | monomial n a =>
    rw [umb_monomial, Polynomial.derivative_monomial, Polynomial.eval_monomial]
    simp

theorem lprod_slope (v : ℕ → K) (j m : ℕ) :
    (lprod v j m).eval 1 = 1 ∧
      (Polynomial.derivative (lprod v j m)).eval 1 = ∑ i ∈ range m, v (j + i) := by
  induction m with
  | zero => simp [lprod_zero]
  | succ m ih =>
    have e1 : (lin (v (j + m))).eval 1 = 1 := by simp [lin]
    have e2 : (Polynomial.derivative (lin (v (j + m)))).eval 1 = v (j + m) := by simp [lin]
    rw [lprod_succ, Polynomial.derivative_mul]
    simp only [Polynomial.eval_mul, Polynomial.eval_add, ih.1, ih.2, e1, e2, sum_range_succ]
    constructor <;> ring

/-- The curve with the mean knots as control values is the parameter itself. -/
theorem linear_precision {u : List K} (hs : u.Pairwise (· ≤ ·)) {p n k : ℕ} (hp : p ≠ 0)
    (hlen : u.length = n + p + 1) {t : K} (hk : InSpan (knot u) (knot u n) k t) (hpk : p ≤ k)
    (hkn : k < n) :
    ∑ i ∈ range n, basis (knot u) (knot u n) p i t * abscissa u p i = t := by
  have hp' : (p : K) ≠ 0 := by exact_mod_cast hp
  have hsc : ∀ f : Polynomial K, umb (fun i => (i : K) / p) f = (Polynomial.derivative f).eval 1 / p := by
    intro f
    rw [← umb_id]
    induction f using Polynomial.induction_on' with
    | add f g hf hg => simp only [map_add, hf, hg]; ring
    | monomial m a => simp only [umb_monomial, smul_eq_mul]; ring
  have hQ : Repr (knot u) (fun i => (arr n (abscissa u p)).getD i 0) p k (fun i => (i : K) / p) := by
    intro i h1 h2
    dsimp only
    rw [arr_getD _ _ _ _ (by omega), hsc, (lprod_slope _ _ _).2, abscissa]
  have := bsplinePoint_eq (ctrl := arr n (abscissa u p)) hs (by simpa using hlen)
    (by simpa using hk) hpk (by simpa using hkn) hQ
  rw [hsc] at this
  simp only [bsplinePoint, arr_length] at this
  rw [sum_congr rfl (fun i hi => by rw [arr_getD _ _ _ _ (by simpa using hi)])] at this
  simp only [smul_eq_mul] at this
  rw [this, show lin t ^ p = lprod (fun _ => t) 0 p by simp [lprod], (lprod_slope _ _ _).2]
  simp
  field_simp

end NS.BSpline
