import Verif.Props.Compose

/-!
# C92: the order of two splits of a B-spline curve does not matter
-/

set_option linter.unusedSectionVars false

namespace NS.Props

open Outcome Spec

section General

variable {K V : Type} [Field K] [LinearOrder K] [IsStrictOrderedRing K] [FloorRing K]
  [AddCommGroup V] [Module K V]

/-- Multiplicities of the knots of the two parts of a split at `t`. -/
structure PartCounts (p : ℕ) (u a b : List K) (t : K) : Prop where
  left : ∀ x, a.count x = if x < t then u.count x else if x = t then max p (u.count t) + 1 else 0
  right : ∀ x, b.count x = if x < t then 0 else if x = t then p + 1 else u.count x

theorem splitPieces_counts {c : BSpline K V} {p : ℕ} (hc : BSpline.WellFormed c p) (hp : 1 ≤ p) {t : K}
    (h1 : knot c.knots p < t) (h2 : t < knot c.knots c.ctrl.length) (hcount : p ≤ c.knots.count t)
    {a b : BSpline K V} (h : c.splitPieces t p = ok [a, b]) : PartCounts p c.knots a.knots b.knots t := by
  have hl := hc.len
  have hcl := hc.ctrl
  obtain ⟨k, Q0, hk, hin⟩ := BSpline.exists_atSpan hc t (Or.inr h1) h1.le h2.le
  have hpk := hk.le
  have hkn := hk.lt
  have hlt := hk.ne
  unfold InSpan at hin
  rw [if_neg h2.ne] at hin
  have hkt : knot c.knots k = t := by
    have hmem : t ∈ c.knots := List.count_pos_iff.mp (by omega)
    obtain ⟨i, hi, hit⟩ := List.mem_iff_getElem.mp hmem
    have hki : knot c.knots i = t := by simp [knot, hi, hit]
    rcases Nat.lt_or_ge k i with h | h
    · have := BSpline.knot_mono hc.sorted (i := k + 1) (j := i) (by omega) hi
      rw [hki] at this
      exact absurd hin.2 (not_lt.mpr this)
    · have := BSpline.knot_mono hc.sorted (i := i) (j := k) h (by omega)
      rw [hki] at this
      exact le_antisymm hin.1 this
  have hblock : ∀ i, k - p < i → i ≤ k → knot c.knots i = t := by
    intro i hi1 hi2
    rw [← hkt]
    apply BSpline.count_block c hc.sorted (by omega) hlt i _ hi2
    rw [hkt]
    omega
  have hT : ∀ x ∈ c.knots.take (k + 1), x ≤ t := by
    intro x hx
    obtain ⟨i, hi, rfl⟩ := List.mem_iff_getElem.1 hx
    simp only [List.length_take] at hi
    have := BSpline.knot_mono hc.sorted (i := i) (j := k) (by omega) (by omega)
    rw [hkt] at this
    simpa [knot, show i < c.knots.length by omega] using this
  have hD : ∀ x ∈ c.knots.drop (k + 1), t < x := by
    intro x hx
    obtain ⟨i, hi, rfl⟩ := List.mem_iff_getElem.1 hx
    simp only [List.length_drop] at hi
    have := BSpline.knot_mono hc.sorted (i := k + 1) (j := k + 1 + i) (by omega) (by omega)
    have := hin.2.trans_le this
    simpa [knot, show k + 1 + i < c.knots.length by omega] using this
  have hsum : ∀ x, c.knots.count x = (c.knots.take (k + 1)).count x + (c.knots.drop (k + 1)).count x := by
    intro x
    rw [← List.count_append, List.take_append_drop]
  have e3 : seg c.knots 0 (k + 1) = ok (c.knots.take (k + 1)) := by
    unfold seg
    rw [if_pos (by omega), List.drop_zero]
  have hmid : c.knots.drop (k - p + 1) = List.replicate p t ++ c.knots.drop (k + 1) := by
    apply List.ext_getElem
    · simp; omega
    · intro i g1 g2
      simp only [List.length_drop] at g1
      rw [List.getElem_append]
      split
      · rename_i g
        simp only [List.length_replicate] at g
        have := hblock (k - p + 1 + i) (by omega) (by omega)
        simpa [knot, show k - p + 1 + i < c.knots.length by omega] using this
      · rename_i g
        simp only [List.length_replicate, not_lt] at g
        simp only [List.getElem_drop, List.length_replicate]
        congr 1
        omega
  have e4 : seg c.knots (k - p + 1) (c.knots.length - 1 - k + p) = ok (c.knots.drop (k - p + 1)) := by
    unfold seg
    rw [if_pos (by omega), List.take_of_length_le (by simp; omega)]
  have r3 : rd (c.knots.take (k + 1)) k = ok t := by
    rw [rd_of_lt (by simp; omega)]
    congr 1
    simpa [knot, show k < c.knots.length by omega] using hkt
  have r4 : rd (c.knots.drop (k - p + 1)) 0 = ok t := by
    rw [hmid]
    obtain ⟨q, rfl⟩ : ∃ q, p = q + 1 := ⟨p - 1, by omega⟩
    rfl
  unfold BSpline.splitPieces at h
  simp only [] at h
  rw [hk.loc, ok_bind, assert_true (by omega), ok_bind] at h
  simp only [Int.toNat_natCast] at h
  obtain ⟨q1, -, h⟩ := bind_eq_ok.1 h
  obtain ⟨q2, -, h⟩ := bind_eq_ok.1 h
  rw [e3, ok_bind, r3, ok_bind, e4, ok_bind, r4, ok_bind] at h
  cases h
  constructor
  · intro x
    rw [List.count_append, List.count_singleton]
    rcases lt_trichotomy x t with g | g | g
    · rw [if_pos g, hsum x, List.count_eq_zero.2 (fun hx => absurd (hD x hx) (not_lt.2 g.le))]
      simp [g.ne']
    · subst g
      rw [if_neg (lt_irrefl _), if_pos rfl, max_eq_right hcount, hsum x,
        List.count_eq_zero.2 (fun hx => absurd (hD x hx) (lt_irrefl _))]
      simp
    · rw [if_neg (not_lt.2 g.le), if_neg g.ne', List.count_eq_zero.2 (fun hx => absurd (hT x hx) (not_le.2 g))]
      simp [g.ne]
  · intro x
    rw [List.count_cons, hmid, List.count_append, List.count_replicate]
    rcases lt_trichotomy x t with g | g | g
    · rw [if_pos g, List.count_eq_zero.2 (fun hx => absurd (hD x hx) (not_lt.2 g.le))]
      simp [g.ne']
    · subst g
      rw [if_neg (lt_irrefl _), if_pos rfl, List.count_eq_zero.2 (fun hx => absurd (hD x hx) (lt_irrefl _))]
      simp
    · rw [if_neg (not_lt.2 g.le), if_neg g.ne', hsum x, List.count_eq_zero.2 (fun hx => absurd (hT x hx) (not_le.2 g))]
      simp [g.ne]

/-- `split` with everything known about its parts. -/
theorem split_full {eps : K} (heps : 0 ≤ eps) {c : BSpline K V} {p : ℕ} (hc : BSpline.WellFormed c p)
    (hp : 1 ≤ p) {t : K} (h1 : knot c.knots p < t) (h2 : t < knot c.knots c.ctrl.length) :
    ∃ a b, c.split eps t = ok [a, b] ∧ BSpline.SplitLeft c a p t ∧ BSpline.SplitRight c b p t ∧
      PartCounts p c.knots a.knots b.knots t := by
  obtain ⟨a, b, e, L, R⟩ := BSpline.split_spec heps hc hp h1 h2
  refine ⟨a, b, e, L, R, ?_⟩
  have hl := hc.len
  obtain ⟨k, Q0, hk, hin⟩ := BSpline.exists_atSpan hc t (Or.inr h1) h1.le h2.le
  have hkn := hk.lt
  unfold InSpan at hin
  rw [if_neg h2.ne] at hin
  have hmul : c.multAt t (k : ℤ) = ok (c.knots.count t) := by
    rw [BSpline.multAt_eq c hc.sorted t k (by omega)]
    by_cases e : t = knot c.knots k
    · rw [if_pos e]
    · rw [if_neg e]
      congr 1
      symm
      rw [List.count_eq_zero]
      intro hmem
      obtain ⟨i, hi, hit⟩ := List.mem_iff_getElem.mp hmem
      have hki : knot c.knots i = t := by simp [knot, hi, hit]
      rcases Nat.lt_or_ge k i with h | h
      · have := BSpline.knot_mono hc.sorted (i := k + 1) (j := i) (by omega) hi
        rw [hki] at this
        exact absurd hin.2 (not_lt.mpr this)
      · have := BSpline.knot_mono hc.sorted (i := i) (j := k) h (by omega)
        rw [hki] at this
        exact e (le_antisymm this hin.1)
  obtain ⟨c', e1, hi⟩ := BSpline.raise_inserted heps hc (t := t) (s := c.knots.count t)
    (Or.inr (Or.inr h1)) h1.le h2.le (Or.inr rfl)
  have hcount := hi.count t
  rw [if_pos rfl] at hcount
  unfold BSpline.split at e
  rw [BSpline.inDomain_eq hc, ok_bind, throwIf_false, ok_bind, BSpline.lower_eq hc, ok_bind, BSpline.upper_eq hc,
    ok_bind, if_neg h1.ne', if_neg h2.ne] at e
  · simp only [BSpline.degree_eq hc, Int.toNat_natCast] at e
    rw [hk.loc, ok_bind, hmul, ok_bind, e1, ok_bind] at e
    have P := splitPieces_counts hi.wf hp (by rw [hi.lower]; exact h1) (by rw [hi.upper]; exact h2) (by omega) e
    constructor
    · intro x
      rw [P.left x]
      rcases lt_trichotomy x t with g | g | g
      · rw [if_pos g, if_pos g, hi.count x, if_neg g.ne, add_zero]
      · rw [if_neg (not_lt.2 g.ge), if_pos g, if_neg (not_lt.2 g.ge), if_pos g]
        omega
      · rw [if_neg (not_lt.2 g.le), if_neg g.ne', if_neg (not_lt.2 g.le), if_neg g.ne']
    · intro x
      rw [P.right x]
      rcases lt_trichotomy x t with g | g | g
      · rw [if_pos g, if_pos g]
      · rw [if_neg (not_lt.2 g.ge), if_pos g, if_neg (not_lt.2 g.ge), if_pos g]
      · rw [if_neg (not_lt.2 g.le), if_neg g.ne', if_neg (not_lt.2 g.le), if_neg g.ne', hi.count x, if_neg g.ne',
          add_zero]
  · simp only [Bool.and_eq_true, decide_eq_true_eq, not_not]
    exact ⟨by linarith, by linarith⟩

/-- Two splines that are the same up to control points no span of the domain can see. -/
structure Alike (p : ℕ) (a b : BSpline K V) : Prop where
  knots : a.knots = b.knots
  ctrl : a.ctrl.length = b.ctrl.length
  periodic : a.periodic = b.periodic
  sdeg : a.sdeg = b.sdeg
  points : ∀ i, Seen a.knots p a.ctrl.length i → a.ctrl.getD i 0 = b.ctrl.getD i 0

theorem Alike.eq {p : ℕ} {a b : BSpline K V} (h : Alike p a b)
    (hs : ∀ i < a.ctrl.length, Seen a.knots p a.ctrl.length i) : a = b := by
  have h6 : a.ctrl = b.ctrl := by
    rw [eq_arr a.ctrl (0 : V), eq_arr b.ctrl (0 : V), ← h.ctrl]
    unfold arr
    exact List.map_congr_left fun i hi => h.points i (hs i (List.mem_range.1 hi))
  obtain ⟨k, -, pe, sd, -⟩ := h
  cases a
  cases b
  simp_all

theorem alike_of {p : ℕ} {a b : BSpline K V} (ha : BSpline.WellFormed a p) (hb : BSpline.WellFormed b p)
    (hc : ∀ x, a.knots.count x = b.knots.count x) (hp : a.periodic = b.periodic) (hs : a.sdeg = b.sdeg)
    (h : ∀ x, knot a.knots p ≤ x → x < knot a.knots a.ctrl.length →
      bsplinePoint p a.knots a.ctrl x = bsplinePoint p b.knots b.ctrl x) : Alike p a b := by
  have hk : a.knots = b.knots := sorted_unique (List.perm_iff_count.2 hc) ha.sorted hb.sorted
  have hl : a.ctrl.length = b.ctrl.length := by
    have h1 := ha.len
    have h2 := hb.len
    rw [hk] at h1
    omega
  refine ⟨hk, hl, hp, hs, ?_⟩
  have hlen := ha.len
  rintro i ⟨k, h1, h2, h3, h4, h5⟩
  obtain ⟨hinf, hin⟩ := span_infinite (n := a.ctrl.length) h5 ha.sorted h2 (by omega)
  refine bsplinePoint_unique ha.sorted hlen hl h1 h2 hinf hin (fun t ht => ?_) i (by omega) h3
  conv_rhs => rw [hk]
  exact h t ((BSpline.knot_mono ha.sorted h1 (by omega)).trans ht.1.le)
    (ht.2.trans_le (BSpline.knot_mono ha.sorted (by omega) (by omega)))

/-- C92: splitting a B-spline at `s` and the left part at `r` gives the same three curves as splitting it at `r` and
the right part at `s`: same knots, same degree, same control points (those that matter to the curve at all). -/
theorem C92_bspline_split_order {eps : K} (heps : 0 ≤ eps) {c : BSpline K V} {p : ℕ} (hc : BSpline.WellFormed c p)
    (hp : 1 ≤ p) {r s : K} (h0 : knot c.knots p < r) (h1 : r < s) (h2 : s < knot c.knots c.ctrl.length) :
    ∃ L C A B A' R B' C', c.split eps s = ok [L, C] ∧ L.split eps r = ok [A, B] ∧
      c.split eps r = ok [A', R] ∧ R.split eps s = ok [B', C'] ∧
      Alike p A A' ∧ Alike p B B' ∧ Alike p C C' := by
  obtain ⟨L, C, e1, L1, C1, P1⟩ := split_full heps hc hp (h0.trans h1) h2
  obtain ⟨A', R, e3, A3, R3, P3⟩ := split_full heps hc hp h0 (h1.trans h2)
  obtain ⟨A, B, e2, A2, B2, P2⟩ := split_full heps L1.wf hp (t := r) (by rw [L1.lower]; exact h0)
    (by rw [L1.upper]; exact h1)
  obtain ⟨B', C', e4, B4, C4, P4⟩ := split_full heps R3.wf hp (t := s) (by rw [R3.lower]; exact h1)
    (by rw [R3.upper]; exact h2)
  refine ⟨L, C, A, B, A', R, B', C', e1, e2, e3, e4, ?_, ?_, ?_⟩
  · refine alike_of A2.wf A3.wf (fun x => ?_) (A2.periodic.trans A3.periodic.symm)
      (by rw [A2.sdeg, L1.sdeg, A3.sdeg]) fun x g1 g2 => ?_
    · rw [P2.left, P3.left, P1.left, P1.left]
      rcases lt_trichotomy x r with g | g | g
      · rw [if_pos g, if_pos (g.trans h1), if_pos g]
      · subst g
        rw [if_pos h1]
      · rw [if_neg (not_lt.2 g.le), if_neg g.ne', if_neg (not_lt.2 g.le), if_neg g.ne']
    · rw [A2.lower, L1.lower] at g1
      rw [A2.upper] at g2
      rw [A2.point x (by rw [L1.lower]; exact g1) g2, L1.point x g1 (g2.trans h1), A3.point x g1 g2]
  · refine alike_of B2.wf B4.wf (fun x => ?_) (B2.periodic.trans B4.periodic.symm)
      (by rw [B2.sdeg, L1.sdeg, B4.sdeg, R3.sdeg]) fun x g1 g2 => ?_
    · rw [P2.right, P4.left, P1.left, P3.right, P3.right]
      rcases lt_trichotomy x r with g | g | g
      · rw [if_pos g, if_pos (g.trans h1), if_pos g]
      · rw [if_neg (not_lt.2 g.ge), if_pos g, if_pos (g.trans_lt h1), if_neg (not_lt.2 g.ge), if_pos g]
      · rw [if_neg (not_lt.2 g.le), if_neg g.ne', if_neg (not_lt.2 g.le), if_neg g.ne', if_neg (not_lt.2 h1.le),
          if_neg h1.ne']
    · rw [B2.lower] at g1
      rw [B2.upper, L1.upper] at g2
      rw [B2.point x g1 (by rw [L1.upper]; exact g2.le), L1.point x (h0.le.trans g1) g2,
        B4.point x (by rw [R3.lower]; exact g1) g2, R3.point x g1 (g2.trans h2).le]
  · refine alike_of C1.wf C4.wf (fun x => ?_) (C1.periodic.trans C4.periodic.symm)
      (by rw [C1.sdeg, C4.sdeg, R3.sdeg]) fun x g1 g2 => ?_
    · rw [P1.right, P4.right, P3.right]
      rcases lt_trichotomy x s with g | g | g
      · rw [if_pos g, if_pos g]
      · rw [if_neg (not_lt.2 g.ge), if_pos g, if_neg (not_lt.2 g.ge), if_pos g]
      · rw [if_neg (not_lt.2 g.le), if_neg g.ne', if_neg (not_lt.2 g.le), if_neg g.ne',
          if_neg (not_lt.2 (h1.trans g).le), if_neg (h1.trans g).ne']
    · rw [C1.lower] at g1
      rw [C1.upper] at g2
      rw [C1.point x g1 g2.le, C4.point x g1 (by rw [R3.upper]; exact g2.le), R3.point x (h1.le.trans g1) g2.le]

/-- All knots are in the domain and none is repeated more than `p + 1` times: the usual clamped knot vectors, breaks
included. -/
structure Clamped (c : BSpline K V) (p : ℕ) : Prop where
  mem : ∀ x ∈ c.knots, knot c.knots p ≤ x ∧ x ≤ knot c.knots c.ctrl.length
  count : ∀ x, c.knots.count x ≤ p + 1

theorem count_range {l : List K} {i j : ℕ} {x : K} (hij : i ≤ j) (hj : j < l.length)
    (h : ∀ k, i ≤ k → k ≤ j → knot l k = x) : j + 1 - i ≤ l.count x := by
  have e : (l.drop i).take (j + 1 - i) = List.replicate (j + 1 - i) x := by
    apply List.ext_getElem
    · simp; omega
    · intro k g1 g2
      simp only [List.length_replicate] at g2
      have := h (i + k) (by omega) (by omega)
      simpa [knot, show i + k < l.length by omega] using this
  have := ((List.take_sublist (j + 1 - i) (l.drop i)).trans (List.drop_sublist i l)).count_le x
  rwa [e, List.count_replicate_self] at this

/-- Every control point of a clamped curve matters. -/
theorem Clamped.seen {c : BSpline K V} {p : ℕ} (h : Clamped c p) (hc : BSpline.WellFormed c p) :
    ∀ i < c.ctrl.length, Seen c.knots p c.ctrl.length i := by
  intro i hi
  have hl := hc.len
  have hn := hc.ctrl
  have mono := fun {i j : ℕ} (a : i ≤ j) (b : j < c.knots.length) => BSpline.knot_mono hc.sorted a b
  have mem : ∀ k < c.knots.length, knot c.knots p ≤ knot c.knots k ∧ knot c.knots k ≤ knot c.knots c.ctrl.length := by
    intro k hk
    refine h.mem _ ?_
    unfold knot
    rw [List.getD_eq_getElem?_getD, List.getElem?_eq_getElem hk, Option.getD_some]
    exact List.getElem_mem hk
  refine seen_of_lt hc.sorted (by omega) hi ?_
  by_contra hlt
  rw [not_lt] at hlt
  have key : ∀ k, i ≤ k → k ≤ i + p + 1 → knot c.knots k = knot c.knots (max i p) := by
    intro k k1 k2
    have lo : knot c.knots (max i p) ≤ knot c.knots i := by
      rcases le_total i p with g | g
      · rw [max_eq_right g]; exact (mem i (by omega)).1
      · rw [max_eq_left g]
    have hi' : knot c.knots (i + p + 1) ≤ knot c.knots (min (i + p + 1) c.ctrl.length) := by
      rcases le_total (i + p + 1) c.ctrl.length with g | g
      · rw [min_eq_left g]
      · rw [min_eq_right g]; exact (mem _ (by omega)).2
    exact le_antisymm ((mono k2 (by omega)).trans (hi'.trans hlt)) (lo.trans (mono k1 (by omega)))
  have := count_range (i := i) (j := i + p + 1) (by omega) (by omega) key
  have := h.count (knot c.knots (max i p))
  omega

theorem Clamped.left {c a b : BSpline K V} {p : ℕ} {t : K} (h : Clamped c p) (L : BSpline.SplitLeft c a p t)
    (P : PartCounts p c.knots a.knots b.knots t) (ht : c.knots.count t ≤ p) : Clamped a p := by
  constructor
  · intro x hx
    have hx := List.count_pos_iff.2 hx
    rw [L.lower, L.upper]
    rw [P.left] at hx
    split at hx
    · rename_i g
      exact ⟨(h.mem x (List.count_pos_iff.1 hx)).1, g.le⟩
    · split at hx
      · rename_i g
        subst g
        refine ⟨?_, le_rfl⟩
        rw [← L.lower, ← L.upper]
        exact L.wf.dom.le
      · omega
  · intro x
    rw [P.left]
    split
    · exact h.count x
    · split
      · omega
      · omega

theorem Clamped.right {c a b : BSpline K V} {p : ℕ} {t : K} (h : Clamped c p) (R : BSpline.SplitRight c b p t)
    (P : PartCounts p c.knots a.knots b.knots t) : Clamped b p := by
  constructor
  · intro x hx
    have hx := List.count_pos_iff.2 hx
    rw [R.lower, R.upper]
    rw [P.right] at hx
    split at hx
    · omega
    · rename_i g
      split at hx
      · rename_i g
        subst g
        refine ⟨le_rfl, ?_⟩
        rw [← R.lower, ← R.upper]
        exact R.wf.dom.le
      · exact ⟨not_lt.1 g, (h.mem x (List.count_pos_iff.1 hx)).2⟩
  · intro x
    rw [P.right]
    split
    · omega
    · split
      · omega
      · exact h.count x

/-- C92: for clamped curves that are continuous at the split parameters the three curves are the same objects. -/
theorem C92_bspline_split_order_eq {eps : K} (heps : 0 ≤ eps) {c : BSpline K V} {p : ℕ}
    (hc : BSpline.WellFormed c p) (hp : 1 ≤ p) (hcl : Clamped c p) {r s : K} (h0 : knot c.knots p < r) (h1 : r < s)
    (h2 : s < knot c.knots c.ctrl.length) (hr : c.knots.count r ≤ p) (hs : c.knots.count s ≤ p) :
    ∃ A B C L R, c.split eps s = ok [L, C] ∧ L.split eps r = ok [A, B] ∧
      c.split eps r = ok [A, R] ∧ R.split eps s = ok [B, C] := by
  obtain ⟨L, C, A, B, A', R, B', C', e1, e2, e3, e4, a, b, d⟩ := C92_bspline_split_order heps hc hp h0 h1 h2
  obtain ⟨_, _, f1, L1, C1, P1⟩ := split_full heps hc hp (h0.trans h1) h2
  rw [e1] at f1
  cases f1
  obtain ⟨_, _, f2, A2, B2, P2⟩ := split_full heps L1.wf hp (t := r) (by rw [L1.lower]; exact h0)
    (by rw [L1.upper]; exact h1)
  rw [e2] at f2
  cases f2
  have hL := hcl.left L1 P1 hs
  have hr' : L.knots.count r ≤ p := by rw [P1.left, if_pos h1]; exact hr
  obtain rfl := a.eq ((hL.left A2 P2 hr').seen A2.wf)
  obtain rfl := b.eq ((hL.right B2 P2).seen B2.wf)
  obtain rfl := d.eq ((hcl.right C1 P1).seen C1.wf)
  exact ⟨A, B, C, L, R, e1, e2, e3, e4⟩

theorem exSpline_clamped : Clamped exSpline 2 := by
  constructor
  · decide +kernel
  · intro x
    by_cases h : x ∈ exSpline.knots
    · revert x
      decide +kernel
    · rw [List.count_eq_zero.2 h]; omega

example := C92_bspline_split_order (eps := (0 : ℚ)) le_rfl exSpline_wf (by norm_num) (r := 1 / 4) (s := 1 / 2)
  (by decide +kernel) (by norm_num) (by decide +kernel)

example := C92_bspline_split_order_eq (eps := (0 : ℚ)) le_rfl exSpline_wf (by norm_num) exSpline_clamped (r := 1 / 4)
  (s := 1 / 2) (by decide +kernel) (by norm_num) (by decide +kernel) (by decide +kernel) (by decide +kernel)

end General
end NS.Props
