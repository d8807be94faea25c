import Verif.Proof.FloatEdit
import Verif.Proof.ToBezier
import Verif.Proof.CoxDeBoor

/-!
# Splitting and converting B-splines in floating point
-/

set_option linter.unusedSectionVars false
set_option linter.unusedSimpArgs false

namespace NS.Fl

open Outcome Spec Finset BSpline

variable {K ι : Type} [Field K] [LinearOrder K] [IsStrictOrderedRing K] [FloorRing K]

theorem NearInserted.refl (R : Rounding K) {c d : BSpline K (ι → K)} {p : ℕ} (hc : WellFormed c p)
    (h : Shape c d) (t : K) : NearInserted R c d c d p t 0 :=
  ⟨Inserted.refl hc t, h, fun _ _ _ _ n => by simpa using n, id, fun _ => id, fun _ _ _ => rfl,
    fun _ _ _ => rfl⟩

theorem raise_near (R : Rounding K) (hu1 : R.unit < 1) (F : ℕ → ℕ → ι → Fuse) {eps : K}
    (heps : 0 ≤ eps) {c d : BSpline K (ι → K)} {p : ℕ} (hc : WellFormed c p) (hcd : Shape c d)
    {t : K} (ht : R.IsFloat t) {s : ℕ} (hf : p ≤ s ∨ FirstSpan c p ∨ knot c.knots p < t)
    (h1 : knot c.knots p ≤ t) (h2 : t ≤ knot c.knots c.ctrl.length)
    (hs : t = knot c.knots c.ctrl.length ∨ s = c.knots.count t) :
    ∃ c' d', c.raise eps t p s = ok c' ∧ raise R F eps d t p s = ok d' ∧
      NearInserted R c d c' d' p t (p - s) := by
  unfold BSpline.raise raise
  by_cases h : p > s
  · rw [if_pos h, if_pos h]
    have hf' : FirstSpan c p ∨ knot c.knots p < t := by
      rcases hf with h' | h'
      · omega
      · exact h'
    refine (insertKnot_near R hu1 F heps hc hcd ht hf' h1 h2 (r := p - s) (by omega)).2 ?_
    rcases hs with hs | hs
    · rw [if_pos hs]; omega
    · split <;> omega
  · rw [if_neg h, if_neg h]
    refine ⟨c, d, rfl, rfl, ?_⟩
    rw [show p - s = 0 by omega]
    exact NearInserted.refl R hc hcd t

/-! ### Points of nearby curves -/

/-- The curves of nearby control points are near. -/
theorem point_near {c d : BSpline K (ι → K)} {p : ℕ} (hc : WellFormed c p) (hcd : Shape c d) {l : ι}
    {h M : K} (n : Near c d l h M) {x : K} (h1 : knot c.knots p ≤ x)
    (h2 : x ≤ knot c.knots c.ctrl.length) :
    |bsplinePoint p d.knots d.ctrl x l - bsplinePoint p c.knots c.ctrl x l| ≤ (h - 1) * M ∧
      |bsplinePoint p c.knots c.ctrl x l| ≤ M := by
  have hl := hc.len
  have hcl := hc.ctrl
  obtain ⟨k, a1, a2, a3⟩ := exists_inSpan (u := knot c.knots) (p := p) (n := c.ctrl.length) hc.dom
    (by omega) h1 h2 (fun i j hij hj => knot_mono hc.sorted hij (by omega))
  have hmono : MonoTo (knot c.knots) c.knots.length :=
    fun i j hij hj => knot_mono hc.sorted hij hj
  have hsum : ∀ b : BSpline K (ι → K), b.knots = c.knots → b.ctrl.length = c.ctrl.length →
      bsplinePoint p b.knots b.ctrl x l
        = ∑ j ∈ range (p + 1), basis (knot c.knots) (knot c.knots c.ctrl.length) p (k - p + j) x
          * b.ctrl.getD (k - p + j) 0 l := by
    intro b hb1 hb2
    unfold bsplinePoint
    rw [hb1, hb2]
    rw [sum_basis_support hmono a3 a1 a2 (by omega)]
    simp [Finset.sum_apply]
  have one := sum_basis_one hmono a3 a1 (p := p) (by omega)
  have pos : ∀ j ∈ range (p + 1),
      0 ≤ basis (knot c.knots) (knot c.knots c.ctrl.length) p (k - p + j) x := by
    intro j hj
    have : j < p + 1 := by simpa using hj
    exact basis_nonneg hmono a3 (by omega) _ _ (by omega)
  rw [hsum c rfl rfl, hsum d hcd.knots hcd.len]
  have avg : ∀ (f : ℕ → K) (B : K), (∀ j, |f j| ≤ B) →
      |∑ j ∈ range (p + 1), basis (knot c.knots) (knot c.knots c.ctrl.length) p (k - p + j) x * f j|
        ≤ B := by
    intro f B hB
    refine (abs_sum_le_sum_abs _ _).trans ?_
    calc _ ≤ ∑ j ∈ range (p + 1),
          basis (knot c.knots) (knot c.knots c.ctrl.length) p (k - p + j) x * B := by
            apply sum_le_sum
            intro j hj
            rw [abs_mul, abs_of_nonneg (pos j hj)]
            exact mul_le_mul_of_nonneg_left (hB j) (pos j hj)
      _ = B := by rw [← sum_mul, one, one_mul]
  constructor
  · rw [← sum_sub_distrib]
    simp only [← mul_sub]
    exact avg _ _ (fun j => n.err _)
  · exact avg _ _ (fun j => n.bound _)

/-! ### Cutting -/

theorem knot_append_left {l : List K} (l' : List K) {j : ℕ} (h : j < l.length) :
    knot (l ++ l') j = knot l j := by
  simp [knot, List.getElem?_append_left h]

/-- The pieces cut from two curves of the same shape. -/
theorem splitPieces_near {c d : BSpline K (ι → K)} {p : ℕ} (hc : WellFormed c p) (hcd : Shape c d)
    (hp : 1 ≤ p) {t : K} (h1 : knot c.knots p < t) (h2 : t < knot c.knots c.ctrl.length)
    (hcount : p ≤ c.knots.count t) :
    ∃ a b a' b' m, c.splitPieces t p = ok [a, b] ∧ d.splitPieces t p = ok [a', b'] ∧
      Shape a a' ∧ Shape b b' ∧ m < c.ctrl.length ∧ a.ctrl.length = m + 1 ∧
      b.ctrl.length = c.ctrl.length - m ∧
      (∀ j ≤ m, a.ctrl.getD j 0 = c.ctrl.getD j 0 ∧ a'.ctrl.getD j 0 = d.ctrl.getD j 0) ∧
      (∀ j, b.ctrl.getD j 0 = c.ctrl.getD (m + j) 0 ∧ b'.ctrl.getD j 0 = d.ctrl.getD (m + j) 0) ∧
      (∀ j, m < j → j ≤ m + p → knot a.knots j = t) ∧
      (∀ j ≤ m, knot a.knots j = knot c.knots j) ∧
      (∀ j, 1 ≤ j → j ≤ p → knot b.knots j = t) ∧
      (c.knots.count t ≤ p → knot c.knots m < t) := by
  have hl := hc.len
  have hcl := hc.ctrl
  obtain ⟨k, Q0, hk, hin⟩ := exists_atSpan hc t (Or.inr h1) h1.le h2.le
  have hpk := hk.le
  have hkn := hk.lt
  have hlt := hk.ne
  have hin2 := hin
  unfold InSpan at hin2
  rw [if_neg h2.ne] at hin2
  have hkt : knot c.knots k = t := by
    have hmem : t ∈ c.knots := List.count_pos_iff.mp (by omega)
    obtain ⟨i, hi, hit⟩ := List.mem_iff_getElem.mp hmem
    have hki : knot c.knots i = t := by simp [knot, hi, hit]
    rcases Nat.lt_or_ge k i with h | h
    · have := knot_mono hc.sorted (i := k + 1) (j := i) (by omega) hi
      rw [hki] at this
      exact absurd hin2.2 (not_lt.mpr this)
    · have := knot_mono hc.sorted (i := i) (j := k) h (by omega)
      rw [hki] at this
      exact le_antisymm hin2.1 this
  have hblock : ∀ i, k - p < i → i ≤ k → knot c.knots i = t := by
    intro i hi1 hi2
    rw [← hkt]
    apply count_block c hc.sorted (by omega) hlt i _ hi2
    rw [hkt]
    omega
  have hknots : c.knots = arr c.knots.length (knot c.knots) := eq_arr c.knots 0
  have e3 : seg c.knots 0 (k + 1) = ok (arr (k + 1) (fun i => knot c.knots (0 + i))) := by
    conv_lhs => rw [hknots]
    exact seg_arr (by omega)
  have e4 : seg c.knots (k - p + 1) (c.knots.length - 1 - k + p)
      = ok (arr (c.knots.length - 1 - k + p) (fun i => knot c.knots (k - p + 1 + i))) := by
    conv_lhs => rw [hknots, arr_length]
    exact seg_arr (by omega)
  have eq : ∀ b : BSpline K (ι → K), b.knots = c.knots → b.ctrl.length = c.ctrl.length →
      b.locateSpan t = ok (k : ℤ) → b.splitPieces t p = ok [
      { ctrl := arr (k - p + 1) (fun i => b.ctrl.getD i 0),
        knots := arr (k + 1) (fun i => knot c.knots (0 + i)) ++ [knot c.knots (0 + k)], sdeg := b.sdeg },
      { ctrl := arr (c.ctrl.length - (k - p)) (fun i => b.ctrl.getD (k - p + i) 0),
        knots := knot c.knots (k - p + 1 + 0) ::
          arr (c.knots.length - 1 - k + p) (fun i => knot c.knots (k - p + 1 + i)), sdeg := b.sdeg }] := by
    intro b hb1 hb2 hb3
    have hctrl : b.ctrl = arr c.ctrl.length (fun i => b.ctrl.getD i 0) := by
      rw [← hb2]; exact eq_arr b.ctrl 0
    have e1 : seg b.ctrl 0 (k - p + 1) = ok (arr (k - p + 1) (fun i => b.ctrl.getD (0 + i) 0)) := by
      conv_lhs => rw [hctrl]
      exact seg_arr (by omega)
    have e2 : seg b.ctrl (k - p) (c.ctrl.length - (k - p))
        = ok (arr (c.ctrl.length - (k - p)) (fun i => b.ctrl.getD (k - p + i) 0)) := by
      conv_lhs => rw [hctrl]
      exact seg_arr (by omega)
    simp only [zero_add] at e1
    unfold splitPieces
    simp only []
    rw [hb3, ok_bind, assert_true (by omega), ok_bind, hb1, hb2]
    simp only [Int.toNat_natCast]
    rw [e1, ok_bind, e2, ok_bind, e3, ok_bind, rd_arr (by omega), ok_bind, e4, ok_bind,
      rd_arr (by omega), ok_bind]
    rfl
  refine ⟨_, _, _, _, k - p, eq c rfl rfl hk.loc, eq d hcd.knots hcd.len (by
    rw [hcd.locateSpan]; exact hk.loc), ⟨rfl, by simp, rfl, hcd.sdeg⟩, ⟨rfl, by simp, rfl, hcd.sdeg⟩,
    by omega, by simp, by simp, ?_, ?_, ?_, ?_, ?_, ?_⟩
  · intro j hj
    simp only []
    rw [arr_getD _ _ _ _ (by omega), arr_getD _ _ _ _ (by omega)]
    exact ⟨rfl, rfl⟩
  · intro j
    simp only []
    by_cases hj : j < c.ctrl.length - (k - p)
    · rw [arr_getD _ _ _ _ hj, arr_getD _ _ _ _ hj]
      exact ⟨rfl, rfl⟩
    · have := hcd.len
      have z : ∀ f : ℕ → ι → K, (arr (c.ctrl.length - (k - p)) f).getD j 0 = 0 :=
        fun f => getD_of_le _ (by rw [arr_length]; omega)
      rw [z, z, getD_of_le (l := c.ctrl) (j := k - p + j) _ (by omega),
        getD_of_le (l := d.ctrl) (j := k - p + j) _ (by omega)]
      exact ⟨rfl, rfl⟩
  · intro j hj1 hj2
    have : knot (arr (k + 1) (fun i => knot c.knots (0 + i)) ++ [knot c.knots (0 + k)]) j
        = knot c.knots j := by
      rw [knot_append_left _ (by rw [arr_length]; omega), knot_arr (by omega), zero_add]
    rw [this]
    exact hblock j hj1 (by omega)
  · intro j hj
    simp only []
    rw [knot_append_left _ (by rw [arr_length]; omega), knot_arr (by omega), zero_add]
  · intro j hj1 hj2
    obtain ⟨j, rfl⟩ : ∃ i, j = i + 1 := ⟨j - 1, by omega⟩
    have : knot (knot c.knots (k - p + 1 + 0) ::
          arr (c.knots.length - 1 - k + p) (fun i => knot c.knots (k - p + 1 + i))) (j + 1)
        = knot c.knots (k - p + 1 + j) := by
      simp only [knot]
      rw [List.getD_cons_succ, arr_getD _ _ _ _ (by omega)]
    rw [this]
    exact hblock _ (by omega) (by omega)
  · intro hcnt
    rw [← hkt]
    exact before_block c hc.sorted (by omega) hlt (by rw [hkt]; omega)

/-! ### Conversion to Bézier curves -/

/-- What several rounded insertions of knots do, compared with the exact ones. -/
structure NearRefined (R : Rounding K) (c d c' d' : BSpline K (ι → K)) (p m : ℕ) : Prop where
  exact : Refined c c' p
  shape : Shape c' d'
  near : ∀ l h M, 1 ≤ h → Near c d l h M → Near c' d' l (h * growth R ^ m) M
  floats : Floats R d.ctrl → Floats R d'.ctrl

theorem NearRefined.trans {R : Rounding K} (hu1 : R.unit < 1) {a a' b b' c c' : BSpline K (ι → K)}
    {p m n : ℕ} (h : NearRefined R a a' b b' p m) (g : NearRefined R b b' c c' p n) :
    NearRefined R a a' c c' p (m + n) := by
  refine ⟨h.exact.trans g.exact, g.shape, ?_, fun hf => g.floats (h.floats hf)⟩
  intro l x M hx hn
  have hG : 1 ≤ growth R ^ m := one_le_pow₀ (one_le_growth R hu1)
  have := g.near l _ M (by nlinarith) (h.near l x M hx hn)
  rwa [mul_assoc, ← pow_add] at this

theorem NearInserted.refined {R : Rounding K} {c d c' d' : BSpline K (ι → K)} {p : ℕ} {t : K}
    (h : NearInserted R c d c' d' p t (p - c.knots.count t)) (ht : t ∈ c.knots) :
    NearRefined R c d c' d' p (p - c.knots.count t) ∧ p ≤ c'.knots.count t :=
  ⟨⟨(h.exact.refined ht).1, h.shape, h.near, h.floats⟩, (h.exact.refined ht).2⟩

theorem bezierKnots_near (R : Rounding K) (hu1 : R.unit < 1) (F : ℕ → ℕ → ℕ → ι → Fuse) {eps : K}
    (heps : 0 ≤ eps) {p : ℕ} {tMin tMax : K} (xs : List K) :
    ∀ {c d : BSpline K (ι → K)} (n : ℕ), WellFormed c p → Shape c d → knot c.knots p = tMin →
      knot c.knots c.ctrl.length = tMax → xs.Pairwise (· ≤ ·) → (∀ x ∈ xs, x ∈ c.knots) →
      (∀ x ∈ xs, R.IsFloat x) →
      ∃ c' d' m, BSpline.bezierKnots eps tMin tMax p xs c = ok c' ∧
        bezierKnots R F eps tMin tMax p xs n d = ok d' ∧ NearRefined R c d c' d' p m ∧
        m ≤ p * xs.length := by
  induction xs with
  | nil =>
    intro c d n hc hcd _ _ _ _ _
    exact ⟨c, d, 0, rfl, rfl, ⟨Refined.refl hc, hcd, fun _ _ _ _ n => by simpa using n, id⟩, by simp⟩
  | cons x xs ih =>
    intro c d n hc hcd hlo hhi hsort hmem hfl
    rw [List.pairwise_cons] at hsort
    unfold BSpline.bezierKnots bezierKnots
    by_cases h1 : x ≤ tMin
    · rw [if_pos h1, if_pos h1]
      obtain ⟨c', d', m, e, e', N, hm⟩ := ih n hc hcd hlo hhi hsort.2 (fun y hy => hmem y (by simp [hy]))
        (fun y hy => hfl y (by simp [hy]))
      refine ⟨c', d', m, e, e', N, hm.trans ?_⟩
      simp only [List.length_cons]
      exact Nat.mul_le_mul_left _ (by omega)
    · rw [if_neg h1, if_neg h1]
      push Not at h1
      by_cases h2 : x ≥ tMax
      · rw [if_pos h2, if_pos h2]
        exact ⟨c, d, 0, rfl, rfl, ⟨Refined.refl hc, hcd, fun _ _ _ _ n => by simpa using n, id⟩, by omega⟩
      · rw [if_neg h2, if_neg h2]
        push Not at h2
        have hl := hc.len
        rw [← hlo] at h1
        rw [← hhi] at h2
        obtain ⟨k, a1, a2, a3, a4, a5, -⟩ := locateSpan_spec hc x (Or.inr h1)
        have hxm := hmem x (by simp)
        have hk : knot c.knots k = x := by
          obtain ⟨i, hi, hix⟩ := (mem_knots_iff _ _).mp hxm
          have hb := a5 h1.le h2
          rcases Nat.lt_or_ge k i with h | h
          · have := knot_mono hc.sorted (i := k + 1) (j := i) (by omega) hi
            rw [hix] at this
            exact absurd (hb.2.trans_le this) (lt_irrefl _)
          · have := knot_mono hc.sorted (i := i) (j := k) h (by omega)
            rw [hix] at this
            exact le_antisymm hb.1 this
        have ed : d.multiplicity k = c.multiplicity k := by
          unfold BSpline.multiplicity; rw [hcd.knots]
        rw [hcd.locateSpan, a1, ok_bind, ok_bind, Int.toNat_natCast, ed,
          multiplicity_count c hc.sorted k (by omega), ok_bind, ok_bind, hk]
        obtain ⟨c1, d1, e1, e1', I⟩ := raise_near R hu1 (F n) heps hc hcd (hfl x (by simp))
          (s := c.knots.count x) (Or.inr (Or.inr h1)) h1.le h2.le (Or.inr rfl)
        obtain ⟨R1, hcnt⟩ := I.refined hxm
        obtain ⟨c', d', m, e, e', N, hm⟩ := ih (n + 1) R1.exact.wf R1.shape (R1.exact.lower.trans hlo)
          (R1.exact.upper.trans hhi) hsort.2
          (fun y hy => (R1.exact.mem y).mpr (hmem y (by simp [hy]))) (fun y hy => hfl y (by simp [hy]))
        rw [e1, e1', ok_bind, ok_bind]
        refine ⟨c', d', _, e, e', R1.trans hu1 N, ?_⟩
        simp only [List.length_cons, Nat.mul_succ]
        omega

/-- Conversion in floating point copies the spans of a nearby refined curve. -/
theorem toBezier_near (R : Rounding K) (hu1 : R.unit < 1) (F : ℕ → ℕ → ℕ → ι → Fuse) {eps : K}
    (heps : 0 ≤ eps) {c : BSpline K (ι → K)} {p : ℕ} (hc : WellFormed c p)
    (hfl : ∀ x ∈ c.knots, R.IsFloat x)
    (hf : FirstSpan c p ∨ p ≤ c.knots.count (knot c.knots p)) :
    ∃ c' d' m ks bs, NearRefined R c c c' d' p m ∧ m ≤ p * (c.knots.length + 2) ∧
      c.toBezier eps = ok (ks.map (pieceAt p c'.ctrl), knot c.knots p :: bs) ∧
      bsplineToBezier R F eps c = ok (ks.map (pieceAt p d'.ctrl), knot c.knots p :: bs) ∧
      Spans c'.knots c'.ctrl.length p (knot c.knots p) ks bs ∧
      ∀ y ∈ c.knots, knot c.knots p < y → y < knot c.knots c.ctrl.length → p ≤ c'.knots.count y := by
  have hl := hc.len
  have hcl := hc.ctrl
  have hdom := hc.dom
  have hmin : knot c.knots p ∈ c.knots := (mem_knots_iff _ _).mpr ⟨p, by omega, rfl⟩
  have hmax : knot c.knots c.ctrl.length ∈ c.knots :=
    (mem_knots_iff _ _).mpr ⟨c.ctrl.length, by omega, rfl⟩
  have elow : c.locateSpan (knot c.knots p) = ok (p : ℤ) := by
    unfold BSpline.locateSpan
    simp only [degree_eq hc, Int.toNat_natCast]
    rw [assert_true (by omega), ok_bind, rd_knot (by omega), ok_bind, if_pos le_rfl]
  obtain ⟨k, b1, b2, b3, b4, -, -, b5⟩ := locateSpan_spec hc (knot c.knots c.ctrl.length)
    (Or.inr hdom)
  have hk1 := b5 le_rfl
  obtain ⟨c1, d1, e1, e1', I1⟩ := raise_near R hu1 (F 0) heps hc (Shape.refl c) (hfl _ hmin)
    (s := c.knots.count (knot c.knots p)) (hf.symm.imp id Or.inl) le_rfl hdom.le (Or.inr rfl)
  obtain ⟨R1, h1⟩ := I1.refined hmin
  have hc1max : c1.knots.count (knot c.knots c.ctrl.length)
      = c.knots.count (knot c.knots c.ctrl.length) := by
    rw [I1.exact.count, if_neg hdom.ne', add_zero]
  obtain ⟨c2, d2, e2, e2', I2⟩ := raise_near R hu1 (F 1) heps R1.exact.wf R1.shape
    (t := knot c.knots c.ctrl.length) (hfl _ hmax)
    (s := c.knots.count (knot c.knots c.ctrl.length))
    (Or.inr (Or.inr (by rw [R1.exact.lower]; exact hdom))) (by rw [R1.exact.lower]; exact hdom.le)
    (by rw [R1.exact.upper]) (Or.inl R1.exact.upper.symm)
  rw [← hc1max] at I2
  obtain ⟨R2, h2⟩ := I2.refined ((R1.exact.mem _).mpr hmax)
  have R12 := R1.trans hu1 R2
  obtain ⟨c3, d3, m3, e3, e3', R3, hm3⟩ := bezierKnots_near R hu1 F heps c.knots 2 R12.exact.wf R12.shape
    R12.exact.lower R12.exact.upper hc.sorted (fun x hx => (R12.exact.mem x).mpr hx) hfl
  obtain ⟨c3', e3'', -, h3⟩ := bezierKnots_spec heps c.knots R12.exact.wf R12.exact.lower
    R12.exact.upper hc.sorted (fun x hx => (R12.exact.mem x).mpr hx)
  obtain rfl : c3' = c3 := by
    rw [e3] at e3''
    injection e3'' with e
    exact e.symm
  have Rf := R12.trans hu1 R3
  have hw := Rf.exact.wf
  obtain ⟨ks, bs, eks, S⟩ := bezierPieces_index (V := ι → K) hw.len hw.sorted c3'.knots.length 0
    (knot c.knots p) (by omega) (by rw [Rf.exact.lower]) (by rw [Rf.exact.upper]; exact hdom.le)
    (by simp) (Or.inl Rf.exact.lower.symm)
  rw [Rf.exact.upper] at eks
  refine ⟨c3', d3, _, ks, bs, Rf, ?_, ?_, ?_, S, fun y hy g1 g2 => h3 y hy g1 g2⟩
  · rw [Nat.mul_add]; omega
  · unfold BSpline.toBezier
    simp only [degree_eq hc, Int.toNat_natCast]
    rw [lower_eq hc, ok_bind, upper_eq hc, ok_bind, elow, ok_bind, b1, ok_bind, Int.toNat_natCast,
      multiplicity_count c hc.sorted p (by omega), ok_bind,
      show ((k : ℤ) + 1).toNat = k + 1 by omega,
      multiplicity_count c hc.sorted (k + 1) (by omega), ok_bind, hk1, e1, ok_bind, e2, ok_bind, e3,
      ok_bind]
    simpa using eks c3'.ctrl [] [knot c.knots p] rfl
  · unfold bsplineToBezier
    simp only [degree_eq hc, Int.toNat_natCast]
    rw [lower_eq hc, ok_bind, upper_eq hc, ok_bind, elow, ok_bind, b1, ok_bind, Int.toNat_natCast,
      multiplicity_count c hc.sorted p (by omega), ok_bind,
      show ((k : ℤ) + 1).toNat = k + 1 by omega,
      multiplicity_count c hc.sorted (k + 1) (by omega), ok_bind, hk1, e1', ok_bind, e2', ok_bind, e3',
      ok_bind, Rf.shape.knots]
    simpa using eks d3.ctrl [] [knot c.knots p] Rf.shape.len

end NS.Fl
