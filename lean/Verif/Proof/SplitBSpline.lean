import Verif.Proof.InsertCurve

/-!
# Raising multiplicities and cutting a B-spline
-/

set_option linter.unusedSectionVars false
set_option linter.unusedSimpArgs false

namespace NS.BSpline

open Outcome Spec Polynomial Finset

variable {K V : Type} [Field K] [LinearOrder K] [IsStrictOrderedRing K] [FloorRing K]
  [AddCommGroup V] [Module K V]

theorem Inserted.refl {c : BSpline K V} {p : ℕ} (hc : WellFormed c p) (t : K) :
    Inserted c c p t 0 :=
  ⟨hc, rfl, by simp, rfl, rfl, rfl, rfl, fun _ _ _ => rfl, HullOf.refl _⟩

theorem Inserted.count {c c' : BSpline K V} {p r : ℕ} {t : K} (h : Inserted c c' p t r) (y : K) :
    c'.knots.count y = c.knots.count y + if y = t then r else 0 := by
  rw [h.perm.count_eq, List.count_append, List.count_replicate, add_comm]
  congr 1
  by_cases h : y = t
  · simp [h]
  · have : ¬ t = y := fun e => h e.symm
    simp [h, this]

theorem raise_inserted {eps : K} (heps : 0 ≤ eps) {c : BSpline K V} {p : ℕ}
    (hc : WellFormed c p) {t : K} {s : ℕ}
    (hf : p ≤ s ∨ FirstSpan c p ∨ knot c.knots p < t)
    (h1 : knot c.knots p ≤ t) (h2 : t ≤ knot c.knots c.ctrl.length)
    (hs : t = knot c.knots c.ctrl.length ∨ s = c.knots.count t) :
    ∃ c', c.raise eps t p s = ok c' ∧ Inserted c c' p t (p - s) := by
  unfold raise
  by_cases h : p > s
  · rw [if_pos h]
    have hf' : FirstSpan c p ∨ knot c.knots p < t := by
      rcases hf with h' | h'
      · omega
      · exact h'
    refine (insertKnot_inserted heps hc hf' h1 h2 (r := p - s) (by omega)).2 ?_
    rcases hs with hs | hs
    · rw [if_pos hs]; omega
    · split <;> omega
  · rw [if_neg h]
    refine ⟨c, rfl, ?_⟩
    rw [show p - s = 0 by omega]
    exact Inserted.refl hc t

/-- At a knot of multiplicity at least the degree, the curve passes through a control point. -/
theorem bsplinePoint_interp {c : BSpline K V} {p : ℕ} (hc : WellFormed c p) {t : K} {k : ℕ}
    (hin : InSpan (knot c.knots) (knot c.knots c.ctrl.length) k t) (hp : p ≤ k)
    (hk : k < c.ctrl.length) (hb : ∀ i, k - p < i → i ≤ k → knot c.knots i = t) :
    bsplinePoint p c.knots c.ctrl t = c.ctrl.getD (k - p) 0 := by
  have hl := hc.len
  obtain ⟨Q, hQ⟩ := exists_repr hc.sorted (fun i => c.ctrl.getD i 0) hp (by omega) hin.lt
  rw [bsplinePoint_eq hc.sorted hc.len hin hp hk hQ]
  have := hQ (k - p) le_rfl (by omega)
  simp only [] at this
  rw [this, lprod_const (t := t)]
  intro i hi
  exact hb _ (by omega) (by omega)

/-- The same from the left. -/
theorem left_interp {u : ℕ → K} {P Q : ℕ → V} {p κ : ℕ} {t : K} (hQ : Repr u P p κ Q)
    (hb : ∀ i, κ < i → i ≤ κ + p → u i = t) : umb Q (lin t ^ p) = P κ := by
  rw [hQ κ (by omega) le_rfl, lprod_const (t := t)]
  intro i hi
  exact hb _ (by omega) (by omega)

structure SplitLeft (c a : BSpline K V) (p : ℕ) (t : K) : Prop where
  wf : WellFormed a p
  lower : knot a.knots p = knot c.knots p
  upper : knot a.knots a.ctrl.length = t
  point : ∀ x, knot c.knots p ≤ x → x < t →
    bsplinePoint p a.knots a.ctrl x = bsplinePoint p c.knots c.ctrl x
  last : c.knots.count t ≤ p → bsplinePoint p a.knots a.ctrl t = bsplinePoint p c.knots c.ctrl t
  periodic : a.periodic = false
  sdeg : a.sdeg = c.sdeg
  hull : HullOf K c.ctrl a.ctrl

structure SplitRight (c b : BSpline K V) (p : ℕ) (t : K) : Prop where
  wf : WellFormed b p
  first : FirstSpan b p
  lower : knot b.knots p = t
  upper : knot b.knots b.ctrl.length = knot c.knots c.ctrl.length
  point : ∀ x, t ≤ x → x ≤ knot c.knots c.ctrl.length →
    bsplinePoint p b.knots b.ctrl x = bsplinePoint p c.knots c.ctrl x
  periodic : b.periodic = false
  sdeg : b.sdeg = c.sdeg
  hull : HullOf K c.ctrl b.ctrl

theorem splitPieces_spec {c : BSpline K V} {p : ℕ} (hc : WellFormed c p) (hp : 1 ≤ p) {t : K}
    (h1 : knot c.knots p < t) (h2 : t < knot c.knots c.ctrl.length) (hcount : p ≤ c.knots.count t) :
    ∃ a b, c.splitPieces t p = ok [a, b] ∧ SplitLeft c a p t ∧ SplitRight c b p t := by
  have hl := hc.len
  have hcl := hc.ctrl
  obtain ⟨k, Q0, hk, hin⟩ := exists_atSpan hc t (Or.inr h1) h1.le h2.le
  have hpk := hk.le
  have hkn := hk.lt
  have hlt := hk.ne
  have hin2 := hin
  unfold InSpan at hin2
  rw [if_neg h2.ne] at hin2
  -- `t` is the knot `u_k`
  have hkt : knot c.knots k = t := by
    have hmem : t ∈ c.knots := List.count_pos_iff.mp (by omega)
    obtain ⟨i, hi, hit⟩ := List.mem_iff_getElem.mp hmem
    have hki : knot c.knots i = t := by simp [knot, hi, hit]
    rcases Nat.lt_or_ge k i with h | h
    · have := knot_mono hc.sorted (i := k + 1) (j := i) (by omega) hi
      rw [hki] at this
      exact absurd hin2.2 (not_lt.mpr this)
    · have := knot_mono hc.sorted (i := i) (j := k) h (by omega)
      rw [hki] at this
      exact le_antisymm hin2.1 this
  have hblock : ∀ i, k - p < i → i ≤ k → knot c.knots i = t := by
    intro i hi1 hi2
    rw [← hkt]
    apply count_block c hc.sorted (by omega) hlt i _ hi2
    rw [hkt]
    omega
  have h2p : p < k - p + 1 := by
    by_contra h
    have := knot_mono hc.sorted (i := k - p + 1) (j := p) (by omega) (by omega)
    rw [hblock (k - p + 1) (by omega) (by omega)] at this
    exact absurd h1 (not_lt.mpr this)
  set P : ℕ → V := fun i => c.ctrl.getD i 0 with hP
  have hctrl : c.ctrl = arr c.ctrl.length P := eq_arr c.ctrl 0
  have hknots : c.knots = arr c.knots.length (knot c.knots) := eq_arr c.knots 0
  have e1 : seg c.ctrl 0 (k - p + 1) = ok (arr (k - p + 1) (fun i => P (0 + i))) := by
    rw [hctrl]; exact seg_arr (by omega)
  have e2 : seg c.ctrl (k - p) (c.ctrl.length - (k - p))
      = ok (arr (c.ctrl.length - (k - p)) (fun i => P (k - p + i))) := by
    conv_lhs => rw [hctrl, arr_length]
    exact seg_arr (by omega)
  have e3 : seg c.knots 0 (k + 1) = ok (arr (k + 1) (fun i => knot c.knots (0 + i))) := by
    conv_lhs => rw [hknots]
    exact seg_arr (by omega)
  have e4 : seg c.knots (k - p + 1) (c.knots.length - 1 - k + p)
      = ok (arr (c.knots.length - 1 - k + p) (fun i => knot c.knots (k - p + 1 + i))) := by
    conv_lhs => rw [hknots, arr_length]
    exact seg_arr (by omega)
  have eq : c.splitPieces t p = ok [
      { ctrl := arr (k - p + 1) (fun i => P (0 + i)),
        knots := arr (k + 1) (fun i => knot c.knots (0 + i)) ++ [knot c.knots (0 + k)], sdeg := c.sdeg },
      { ctrl := arr (c.ctrl.length - (k - p)) (fun i => P (k - p + i)),
        knots := knot c.knots (k - p + 1 + 0) ::
          arr (c.knots.length - 1 - k + p) (fun i => knot c.knots (k - p + 1 + i)), sdeg := c.sdeg }] := by
    unfold splitPieces
    simp only []
    rw [hk.loc, ok_bind, assert_true (by omega), ok_bind]
    simp only [Int.toNat_natCast]
    rw [e1, ok_bind, e2, ok_bind, e3, ok_bind, rd_arr (by omega), ok_bind, e4, ok_bind,
      rd_arr (by omega), ok_bind]
    rfl
  have k1 : arr (k + 1) (fun i => knot c.knots (0 + i)) ++ [knot c.knots (0 + k)]
      = arr (k + 2) (fun i => knot c.knots (min i k)) := by
    apply eq_arr_of
    · simp
    · intro i hi
      simp only [List.length_append, arr_length, List.length_singleton] at hi
      by_cases h : i < k + 1
      · rw [List.getElem_append_left (by simpa using h), arr_getElem, zero_add, min_eq_left (by omega)]
      · have : i = k + 1 := by omega
        subst this
        simp
  have k2 : knot c.knots (k - p + 1 + 0) :: arr (c.knots.length - 1 - k + p) (fun i => knot c.knots (k - p + 1 + i))
      = arr (c.knots.length - k + p) (fun i => knot c.knots (k - p + max i 1)) := by
    apply eq_arr_of
    · simp; omega
    · intro i hi
      cases i with
      | zero => simp
      | succ i =>
        simp only [List.getElem_cons_succ, arr_getElem]
        congr 1
        omega
  rw [k1, k2] at eq
  refine ⟨_, _, eq, ?_, ?_⟩
  · -- left piece
    have hkn1 : ∀ i ≤ k, knot (arr (k + 2) (fun i => knot c.knots (min i k))) i = knot c.knots i := by
      intro i hi
      rw [knot_arr (by omega), min_eq_left hi]
    have hpw : (arr (k + 2) (fun i => knot c.knots (min i k))).Pairwise (· ≤ ·) := by
      rw [List.pairwise_iff_getElem]
      intro i j hi hj hij
      rw [arr_getElem, arr_getElem]
      exact knot_mono hc.sorted (by omega) (by omega)
    have hup : knot (arr (k + 2) (fun i => knot c.knots (min i k))) (k - p + 1) = t := by
      rw [hkn1 _ (by omega), hblock _ (by omega) (by omega)]
    have hdom : knot (arr (k + 2) (fun i => knot c.knots (min i k))) p
        < knot (arr (k + 2) (fun i => knot c.knots (min i k))) (k - p + 1) := by
      rw [hup, hkn1 _ hpk]; exact h1
    have hrep : ∀ κ Q, κ ≤ k - p → p ≤ κ → Repr (knot c.knots) P p κ Q →
        Repr (knot (arr (k + 2) (fun i => knot c.knots (min i k))))
          (fun i => (arr (k - p + 1) (fun i => P (0 + i))).getD i 0) p κ Q := by
      intro κ Q hκ hκ2 hQ i hi1 hi2
      simp only []
      rw [arr_getD _ _ _ _ (by omega), zero_add, hQ i hi1 hi2]
      congr 1
      apply lprod_congr
      intro l hl
      rw [hkn1 _ (by omega)]
    refine ⟨⟨by simp; omega, hc.sdeg, by simp; omega, hpw, by simpa using hdom⟩,
      hkn1 p hpk, by simpa using hup, ?_, ?_, rfl, rfl,
      HullOf.of_arr (fun i hi => ⟨i, by omega, by simp [hP]⟩)⟩
    · intro x hx1 hx2
      obtain ⟨κ, b1, b2, b3⟩ := exists_inSpan hdom (by omega) (t := x)
        (by rw [hkn1 _ hpk]; exact hx1) (by rw [hup]; exact hx2.le)
        (fun i j hij hj => knot_mono hpw hij (by simp; omega))
      have hin' : InSpan (knot c.knots) (knot c.knots c.ctrl.length) κ x := by
        have b3' := b3
        unfold InSpan at b3' ⊢
        rw [hup, if_neg hx2.ne, hkn1 _ (by omega), hkn1 _ (by omega)] at b3'
        rw [if_neg (hx2.trans h2).ne]
        exact b3'
      obtain ⟨Q, hQ⟩ := exists_repr hc.sorted P b1 (by omega) hin'.lt
      rw [bsplinePoint_eq hc.sorted hl hin' b1 (by omega) hQ]
      exact bsplinePoint_eq hpw (by simp; omega) (by simpa using b3) b1 (by simpa using b2)
        (hrep κ Q (by omega) b1 hQ)
    · intro hcnt
      obtain ⟨κ, b1, b2, b3⟩ := exists_inSpan hdom (by omega) (t := t)
        (by rw [hkn1 _ hpk]; exact h1.le) (by rw [hup])
        (fun i j hij hj => knot_mono hpw hij (by simp; omega))
      have hne : knot c.knots (k - p) < t := by
        obtain ⟨a, b, c1, c2, c3, c4, c5, c6, c7⟩ := multiplicity_block c k (by omega)
        have := multiplicity_count c hc.sorted k (by omega)
        rw [c4] at this
        have e : b - a = c.knots.count (knot c.knots k) := by injection this
        rw [hkt] at e
        have hb : b ≤ k + 1 := by
          by_contra h
          have := c5 (k + 1) (by omega) (by omega)
          rw [this] at hlt
          exact lt_irrefl _ hlt
        have ha : a - 1 = k - p := by omega
        have m := knot_mono hc.sorted (i := k - p) (j := k) (by omega) (by omega)
        rw [hkt] at m
        rcases c6 with c6 | c6
        · omega
        · rw [ha, hkt] at c6
          exact lt_of_le_of_ne m c6
      have hκ : κ = k - p := by
        by_contra h
        have b3' := b3
        unfold InSpan at b3'
        rw [hup, if_pos rfl, hkn1 (κ + 1) (by omega)] at b3'
        have m := knot_mono hc.sorted (i := κ + 1) (j := k - p) (by omega) (by omega)
        rw [b3'.2] at m
        exact absurd hne (not_lt.mpr m)
      obtain ⟨Q, hQ⟩ := exists_repr hc.sorted P (k := κ) b1 (by omega) (by
        have := b3.lt
        rwa [hkn1 _ (by omega), hkn1 _ (by omega)] at this)
      rw [bsplinePoint_interp hc hin hpk hkn hblock]
      have := bsplinePoint_eq hpw (by simp; omega) (by simpa using b3) b1 (by simpa using b2)
        (hrep κ Q (by omega) b1 hQ)
      rw [this, left_interp hQ (t := t), hκ]
      intro i hi1 hi2
      exact hblock i (by omega) (by omega)
  · -- right piece
    have hkn2 : ∀ i, 1 ≤ i → i < c.knots.length - k + p →
        knot (arr (c.knots.length - k + p) (fun i => knot c.knots (k - p + max i 1))) i = knot c.knots (k - p + i) := by
      intro i hi hi2
      rw [knot_arr hi2, max_eq_left hi]
    have hpw : (arr (c.knots.length - k + p) (fun i => knot c.knots (k - p + max i 1))).Pairwise (· ≤ ·) := by
      rw [List.pairwise_iff_getElem]
      intro i j hi hj hij
      rw [arr_getElem, arr_getElem]
      simp only [arr_length] at hi hj
      exact knot_mono hc.sorted (by omega) (by omega)
    have elow : knot (arr (c.knots.length - k + p) (fun i => knot c.knots (k - p + max i 1))) p = t := by
      rw [hkn2 p hp (by omega), show k - p + p = k by omega, hkt]
    have ehigh : knot (arr (c.knots.length - k + p) (fun i => knot c.knots (k - p + max i 1)))
        (c.ctrl.length - (k - p)) = knot c.knots c.ctrl.length := by
      rw [hkn2 _ (by omega) (by omega)]
      congr 1
      omega
    have hdom : knot (arr (c.knots.length - k + p) (fun i => knot c.knots (k - p + max i 1))) p
        < knot (arr (c.knots.length - k + p) (fun i => knot c.knots (k - p + max i 1)))
          (c.ctrl.length - (k - p)) := by
      rw [elow, ehigh]; exact h2
    refine ⟨⟨by simp; omega, hc.sdeg, by simp; omega, hpw, by simpa using hdom⟩, ?_,
      elow, by simpa using ehigh, ?_, rfl, rfl,
      HullOf.of_arr (fun i hi => ⟨k - p + i, by omega, by simp [hP]⟩)⟩
    · unfold FirstSpan
      simp only []
      rw [hkn2 p hp (by omega), hkn2 (p + 1) (by omega) (by omega), show k - p + p = k by omega,
        show k - p + (p + 1) = k + 1 by omega]
      exact hlt
    · intro x hx1 hx2
      obtain ⟨κ, b1, b2, b3⟩ := exists_inSpan hdom (by omega) (t := x)
        (by rw [elow]; exact hx1) (by rw [ehigh]; exact hx2)
        (fun i j hij hj => knot_mono hpw hij (by simp; omega))
      have hin' : InSpan (knot c.knots) (knot c.knots c.ctrl.length) (k - p + κ) x := by
        have b3' := b3
        unfold InSpan at b3' ⊢
        rw [ehigh, hkn2 _ (by omega) (by omega), hkn2 _ (by omega) (by omega)] at b3'
        exact b3'
      obtain ⟨Q, hQ⟩ := exists_repr hc.sorted P (k := k - p + κ) (p := p) (by omega) (by omega)
        hin'.lt
      rw [bsplinePoint_eq hc.sorted hl hin' (by omega) (by omega) hQ]
      refine bsplinePoint_eq hpw (by simp; omega) (by simpa using b3) b1 (by simpa using b2) ?_
      intro i hi1 hi2
      simp only []
      rw [arr_getD _ _ _ _ (by omega), hQ (k - p + i) (by omega) (by omega)]
      congr 1
      apply lprod_congr
      intro l hl
      rw [hkn2 _ (by omega) (by omega)]
      congr 1
      omega

theorem inDomain_eq {eps : K} {c : BSpline K V} {p : ℕ} (hc : WellFormed c p) (t : K) :
    c.inDomain eps t = ok (decide (knot c.knots p - eps ≤ t) &&
      decide (t ≤ knot c.knots c.ctrl.length + eps)) := by
  unfold inDomain
  rw [lower_eq hc, upper_eq hc]
  rfl

theorem split_spec {eps : K} (heps : 0 ≤ eps) {c : BSpline K V} {p : ℕ} (hc : WellFormed c p)
    (hp : 1 ≤ p) {t : K} (h1 : knot c.knots p < t) (h2 : t < knot c.knots c.ctrl.length) :
    ∃ a b, c.split eps t = ok [a, b] ∧ SplitLeft c a p t ∧ SplitRight c b p t := by
  have hl := hc.len
  obtain ⟨k, Q0, hk, hin⟩ := exists_atSpan hc t (Or.inr h1) h1.le h2.le
  have hkn := hk.lt
  have hin2 := hin
  unfold InSpan at hin2
  rw [if_neg h2.ne] at hin2
  have hmul : c.multAt t (k : ℤ) = ok (c.knots.count t) := by
    rw [multAt_eq c hc.sorted t k (by omega)]
    by_cases e : t = knot c.knots k
    · rw [if_pos e]
    · rw [if_neg e]
      congr 1
      symm
      rw [List.count_eq_zero]
      intro hmem
      obtain ⟨i, hi, hit⟩ := List.mem_iff_getElem.mp hmem
      have hki : knot c.knots i = t := by simp [knot, hi, hit]
      rcases Nat.lt_or_ge k i with h | h
      · have := knot_mono hc.sorted (i := k + 1) (j := i) (by omega) hi
        rw [hki] at this
        exact absurd hin2.2 (not_lt.mpr this)
      · have := knot_mono hc.sorted (i := i) (j := k) h (by omega)
        rw [hki] at this
        exact e (le_antisymm this hin2.1)
  obtain ⟨c', e, hi⟩ := raise_inserted heps hc (t := t) (s := c.knots.count t)
    (Or.inr (Or.inr h1)) h1.le h2.le (Or.inr rfl)
  have hcount := hi.count t
  rw [if_pos rfl] at hcount
  obtain ⟨a, b, e2, ha, hb⟩ := splitPieces_spec hi.wf hp (t := t) (by rw [hi.lower]; exact h1)
    (by rw [hi.upper]; exact h2) (by omega)
  refine ⟨a, b, ?_, ?_, ?_⟩
  · unfold split
    rw [inDomain_eq hc, ok_bind, throwIf_false, ok_bind, lower_eq hc, ok_bind, upper_eq hc, ok_bind,
      if_neg h1.ne', if_neg h2.ne]
    · simp only [degree_eq hc, Int.toNat_natCast]
      rw [hk.loc, ok_bind, hmul, ok_bind, e, ok_bind, e2]
    · simp only [Bool.and_eq_true, decide_eq_true_eq, not_not]
      exact ⟨by linarith, by linarith⟩
  · refine ⟨ha.wf, by rw [ha.lower, hi.lower], ha.upper, ?_, ?_, ha.periodic, by rw [ha.sdeg, hi.sdeg],
      hi.hull.trans ha.hull⟩
    · intro x hx1 hx2
      rw [ha.point x (by rw [hi.lower]; exact hx1) hx2, hi.point x hx1 (hx2.trans h2).le]
    · intro hcnt
      rw [ha.last (by omega), hi.point t h1.le h2.le]
  · refine ⟨hb.wf, hb.first, hb.lower, by rw [hb.upper, hi.upper], ?_, hb.periodic,
      by rw [hb.sdeg, hi.sdeg], hi.hull.trans hb.hull⟩
    intro x hx1 hx2
    rw [hb.point x hx1 (by rw [hi.upper]; exact hx2), hi.point x (h1.le.trans hx1) hx2]

end NS.BSpline
