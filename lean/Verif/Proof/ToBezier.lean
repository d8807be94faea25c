import Verif.Proof.SplitBSpline
import Verif.Proof.Bezier

/-!
# Conversion of a B-spline to Bézier pieces
-/

set_option linter.unusedSectionVars false
set_option linter.unusedSimpArgs false

namespace NS.BSpline

open Outcome Spec Polynomial Finset

variable {K V : Type} [Field K] [LinearOrder K] [IsStrictOrderedRing K] [FloorRing K]
  [AddCommGroup V] [Module K V]

/-- Block of equal knots starting right after a non-empty span. -/
theorem count_block_after (c : BSpline K V) (hs : c.knots.Pairwise (· ≤ ·)) {k : ℕ}
    (hk : k + 1 < c.knots.length) (hlt : knot c.knots k < knot c.knots (k + 1)) :
    (∀ i, k < i → i ≤ k + c.knots.count (knot c.knots (k + 1)) →
      knot c.knots i = knot c.knots (k + 1)) ∧
    (k + 1 + c.knots.count (knot c.knots (k + 1)) < c.knots.length →
      knot c.knots (k + 1 + c.knots.count (knot c.knots (k + 1))) ≠ knot c.knots (k + 1)) ∧
    k + 1 + c.knots.count (knot c.knots (k + 1)) ≤ c.knots.length := by
  obtain ⟨a, b, h1, h2, h3, h4, h5, h6, h7⟩ := multiplicity_block c (k + 1) hk
  rw [multiplicity_count c hs (k + 1) hk] at h4
  have hcnt := ok.inj h4
  have ha : a = k + 1 := by
    by_contra hne
    have := h5 k (by omega) (by omega)
    exact hlt.ne this
  subst ha
  rw [hcnt]
  refine ⟨fun i hi1 hi2 => h5 i (by omega) (by omega), ?_, by omega⟩
  intro hl
  rw [show k + 1 + (b - (k + 1)) = b by omega] at hl ⊢
  rcases h7 with h | h
  · omega
  · exact h

theorem mem_knots_iff (u : List K) (x : K) : x ∈ u ↔ ∃ i < u.length, knot u i = x := by
  rw [List.mem_iff_getElem]
  constructor
  · rintro ⟨i, hi, h⟩
    exact ⟨i, hi, by simp [knot, hi, h]⟩
  · rintro ⟨i, hi, h⟩
    exact ⟨i, hi, by simpa [knot, hi] using h⟩

/-- Result of raising multiplicities. -/
structure Refined (c c' : BSpline K V) (p : ℕ) : Prop where
  wf : WellFormed c' p
  lower : knot c'.knots p = knot c.knots p
  upper : knot c'.knots c'.ctrl.length = knot c.knots c.ctrl.length
  mem : ∀ y, y ∈ c'.knots ↔ y ∈ c.knots
  count : ∀ y, c.knots.count y ≤ c'.knots.count y ∧
    c'.knots.count y ≤ max p (c.knots.count y)
  point : ∀ x, knot c.knots p ≤ x → x ≤ knot c.knots c.ctrl.length →
    bsplinePoint p c'.knots c'.ctrl x = bsplinePoint p c.knots c.ctrl x
  hull : HullOf K c.ctrl c'.ctrl

theorem Refined.refl {c : BSpline K V} {p : ℕ} (hc : WellFormed c p) : Refined c c p :=
  ⟨hc, rfl, rfl, fun _ => Iff.rfl, fun _ => ⟨le_rfl, le_max_right _ _⟩, fun _ _ _ => rfl,
    HullOf.refl _⟩

theorem Refined.trans {a b c : BSpline K V} {p : ℕ} (h : Refined a b p) (g : Refined b c p) :
    Refined a c p := by
  refine ⟨g.wf, g.lower.trans h.lower, g.upper.trans h.upper,
    fun y => (g.mem y).trans (h.mem y), fun y => ?_, ?_, h.hull.trans g.hull⟩
  · have h1 := h.count y
    have g1 := g.count y
    exact ⟨h1.1.trans g1.1, by omega⟩
  · intro x h1 h2
    rw [g.point x (by rw [h.lower]; exact h1) (by rw [h.upper]; exact h2), h.point x h1 h2]

theorem Inserted.refined {c c' : BSpline K V} {p : ℕ} {t : K}
    (h : Inserted c c' p t (p - c.knots.count t)) (ht : t ∈ c.knots) :
    Refined c c' p ∧ p ≤ c'.knots.count t := by
  refine ⟨⟨h.wf, h.lower, h.upper, ?_, ?_, h.point, h.hull⟩, ?_⟩
  · intro y
    rw [h.perm.mem_iff, List.mem_append, List.mem_replicate]
    constructor
    · rintro (⟨-, rfl⟩ | h)
      · exact ht
      · exact h
    · exact Or.inr
  · intro y
    rw [h.count y]
    split
    · rename_i e
      subst e
      omega
    · omega
  · rw [h.count t, if_pos rfl]
    omega

theorem bezierKnots_spec {eps : K} (heps : 0 ≤ eps) {p : ℕ} {tMin tMax : K} (xs : List K) :
    ∀ {c : BSpline K V}, WellFormed c p → knot c.knots p = tMin →
      knot c.knots c.ctrl.length = tMax → xs.Pairwise (· ≤ ·) → (∀ x ∈ xs, x ∈ c.knots) →
      ∃ c', bezierKnots eps tMin tMax p xs c = ok c' ∧ Refined c c' p ∧
        ∀ x ∈ xs, tMin < x → x < tMax → p ≤ c'.knots.count x := by
  induction xs with
  | nil =>
    intro c hc _ _ _ _
    exact ⟨c, rfl, Refined.refl hc, by simp⟩
  | cons x xs ih =>
    intro c hc hlo hhi hsort hmem
    rw [List.pairwise_cons] at hsort
    unfold bezierKnots
    by_cases h1 : x ≤ tMin
    · rw [if_pos h1]
      obtain ⟨c', e, R, hx⟩ := ih hc hlo hhi hsort.2 (fun y hy => hmem y (by simp [hy]))
      refine ⟨c', e, R, ?_⟩
      intro y hy g1 g2
      rcases List.mem_cons.mp hy with h | h
      · rw [h] at g1; exact absurd g1 (not_lt.mpr h1)
      · exact hx y h g1 g2
    · rw [if_neg h1]
      push Not at h1
      by_cases h2 : x ≥ tMax
      · rw [if_pos h2]
        refine ⟨c, rfl, Refined.refl hc, ?_⟩
        intro y hy _ g2
        rcases List.mem_cons.mp hy with h | h
        · rw [h] at g2; exact absurd g2 (not_lt.mpr h2)
        · exact absurd (g2.trans_le h2) (not_lt.mpr (hsort.1 y h))
      · rw [if_neg h2]
        push Not at h2
        have hl := hc.len
        rw [← hlo] at h1
        rw [← hhi] at h2
        obtain ⟨k, a1, a2, a3, a4, a5, -⟩ := locateSpan_spec hc x (Or.inr h1)
        have hxm := hmem x (by simp)
        have hk : knot c.knots k = x := by
          obtain ⟨i, hi, hix⟩ := (mem_knots_iff _ _).mp hxm
          have hb := a5 h1.le h2
          rcases Nat.lt_or_ge k i with h | h
          · have := knot_mono hc.sorted (i := k + 1) (j := i) (by omega) hi
            rw [hix] at this
            exact absurd (hb.2.trans_le this) (lt_irrefl _)
          · have := knot_mono hc.sorted (i := i) (j := k) h (by omega)
            rw [hix] at this
            exact le_antisymm hb.1 this
        rw [a1, ok_bind, Int.toNat_natCast, multiplicity_count c hc.sorted k (by omega), ok_bind, hk]
        obtain ⟨c1, e1, I⟩ := raise_inserted heps hc (t := x) (s := c.knots.count x)
          (Or.inr (Or.inr h1)) h1.le h2.le (Or.inr rfl)
        obtain ⟨R1, hcnt⟩ := I.refined hxm
        obtain ⟨c', e, R, hx⟩ := ih R1.wf (R1.lower.trans hlo) (R1.upper.trans hhi) hsort.2
          (fun y hy => (R1.mem y).mpr (hmem y (by simp [hy])))
        rw [e1, ok_bind]
        refine ⟨c', e, R1.trans R, ?_⟩
        intro y hy g1 g2
        rcases List.mem_cons.mp hy with h | h
        · rw [h]; exact hcnt.trans (R.count x).1
        · exact hx y h g1 g2

/-- Control points of one piece. -/
theorem piece_value {c : BSpline K V} {p k : ℕ} (hpk : p ≤ k) {Q : ℕ → V} {a b : K}
    (hQ : Repr (knot c.knots) (fun i => c.ctrl.getD i 0) p k Q)
    (ha : ∀ i, k - p < i → i ≤ k → knot c.knots i = a)
    (hb : ∀ i, k < i → i ≤ k + p → knot c.knots i = b) (s : K) :
    Bezier.evaluate ({ ctrl := arr (p + 1) (fun j => c.ctrl.getD (k - p + j) 0) } : Bezier V) s
      = ok (umb Q (lin ((1 - s) * a + s * b) ^ p)) := by
  rw [Bezier.evaluate_arr, umb_lin_pow, ← lin_affine, ← umb_compose]
  congr 1
  apply sum_congr rfl
  intro j hj
  have hj' : j ≤ p := by simp at hj; omega
  congr 1
  have := hQ (k - p + j) (by omega) (by omega)
  simp only [] at this
  rw [this, lprod_split (knot c.knots) (j := k - p + j + 1) (m := p) (a := p - j) (b := j)
    (j' := k + 1) (by omega) (by omega), lprod_const (t := a), lprod_const (t := b)]
  · intro i hi
    exact hb _ (by omega) (by omega)
  · intro i hi
    exact ha _ (by omega) (by omega)

/-- Chain of pieces: `cur = b_0 < b_1 < ... = tMax`, consecutive bounds related to the piece
between them by `G`. -/
def Pieces (tMax : K) (G : K → K → Bezier V → Prop) : K → List (Bezier V) → List K → Prop
  | cur, [], [] => cur = tMax
  | cur, s :: ss, b :: bs => cur < b ∧ G cur b s ∧ Pieces tMax G b ss bs
  | _, _, _ => False

/-- What each piece of the conversion satisfies. -/
structure PieceOf (c : BSpline K V) (p : ℕ) (a b : K) (s : Bezier V) : Prop where
  len : s.ctrl.length = p + 1
  periodic : s.periodic = false
  gap : ∀ y ∈ c.knots, ¬ (a < y ∧ y < b)
  bmem : b ∈ c.knots
  value : ∀ x : K, 0 ≤ x → x ≤ 1 →
    (x < 1 ∨ b = knot c.knots c.ctrl.length ∨ c.knots.count b ≤ p) →
    Bezier.evaluate s x = ok (bsplinePoint p c.knots c.ctrl ((1 - x) * a + x * b))
  hull : HullOf K c.ctrl s.ctrl

theorem pieceOf_span {c : BSpline K V} {p k : ℕ} (hc : WellFormed c p) (hpk : p ≤ k)
    (hk : k < c.ctrl.length) (hlt : knot c.knots k < knot c.knots (k + 1))
    (ha : p ≤ c.knots.count (knot c.knots k)) (hb : p ≤ c.knots.count (knot c.knots (k + 1))) :
    PieceOf c p (knot c.knots k) (knot c.knots (k + 1))
      { ctrl := arr (p + 1) (fun j => c.ctrl.getD (k - p + j) 0) } := by
  have hl := hc.len
  obtain ⟨Q, hQ⟩ := exists_repr hc.sorted (fun i => c.ctrl.getD i 0) hpk (by omega) hlt
  have ba := count_block c hc.sorted (by omega) hlt
  obtain ⟨bb, bb2, bb3⟩ := count_block_after c hc.sorted (k := k) (by omega) hlt
  refine ⟨by simp, rfl, ?_, (mem_knots_iff _ _).mpr ⟨k + 1, by omega, rfl⟩, ?_,
    HullOf.of_arr (fun i hi => ⟨k - p + i, by omega, rfl⟩)⟩
  · intro y hy ⟨h1, h2⟩
    obtain ⟨i, hi, rfl⟩ := (mem_knots_iff _ _).mp hy
    rcases Nat.lt_or_ge k i with h | h
    · exact absurd h2 (not_lt.mpr (knot_mono hc.sorted (by omega) hi))
    · exact absurd h1 (not_lt.mpr (knot_mono hc.sorted (by omega) (by omega)))
  · intro x h0 h1 hx
    rw [piece_value hpk hQ (a := knot c.knots k) (b := knot c.knots (k + 1))
      (fun i g1 g2 => ba i (by omega) g2) (fun i g1 g2 => bb i g1 (by omega))]
    congr 1
    have khi : knot c.knots (k + 1) ≤ knot c.knots c.ctrl.length :=
      knot_mono hc.sorted (by omega) (by omega)
    have hd : 0 < knot c.knots (k + 1) - knot c.knots k := by linarith
    have ex : (1 - x) * knot c.knots k + x * knot c.knots (k + 1)
        = knot c.knots k + x * (knot c.knots (k + 1) - knot c.knots k) := by ring
    by_cases hx1 : x < 1 ∨ knot c.knots (k + 1) = knot c.knots c.ctrl.length
    · symm
      refine bsplinePoint_eq hc.sorted hl ?_ hpk hk hQ
      rw [ex]
      have m1 : 0 ≤ x * (knot c.knots (k + 1) - knot c.knots k) := mul_nonneg h0 hd.le
      unfold InSpan
      split
      · rename_i he
        refine ⟨hlt, ?_⟩
        rcases hx1 with h | h
        · have : x * (knot c.knots (k + 1) - knot c.knots k)
              < 1 * (knot c.knots (k + 1) - knot c.knots k) := mul_lt_mul_of_pos_right h hd
          linarith
        · exact h
      · rename_i he
        refine ⟨by linarith, ?_⟩
        rcases hx1 with h | h
        · have : x * (knot c.knots (k + 1) - knot c.knots k)
              < 1 * (knot c.knots (k + 1) - knot c.knots k) := mul_lt_mul_of_pos_right h hd
          linarith
        · rw [h] at he ⊢
          refine lt_of_le_of_ne ?_ he
          have : x * (knot c.knots c.ctrl.length - knot c.knots k)
              ≤ 1 * (knot c.knots c.ctrl.length - knot c.knots k) :=
            mul_le_mul_of_nonneg_right h1 (by rw [h] at hd; exact hd.le)
          linarith
    · -- right end of an inner piece
      push Not at hx1
      have e1 : x = 1 := le_antisymm h1 hx1.1
      subst e1
      have hcb : c.knots.count (knot c.knots (k + 1)) ≤ p := by
        rcases hx with h | h | h
        · exact absurd h (lt_irrefl _)
        · exact absurd h hx1.2
        · exact h
      have hcp : c.knots.count (knot c.knots (k + 1)) = p := le_antisymm hcb hb
      rw [hcp] at bb bb2 bb3
      rw [sub_self, zero_mul, one_mul, zero_add]
      have hlt2 : knot c.knots (k + 1) < knot c.knots c.ctrl.length := lt_of_le_of_ne khi hx1.2
      have hpN : k + p < c.ctrl.length := by
        by_contra hh
        rcases Nat.eq_or_lt_of_le (show k + 1 ≤ c.ctrl.length by omega) with g | g
        · rw [g] at hlt2; exact lt_irrefl _ hlt2
        · have := bb c.ctrl.length (by omega) (by omega)
          exact hlt2.ne this.symm
      have hp1 : 1 ≤ p := by
        rw [← hcp]
        exact List.count_pos_iff.mpr ((mem_knots_iff _ _).mpr ⟨k + 1, by omega, rfl⟩)
      have hkp : knot c.knots (k + p) = knot c.knots (k + 1) := bb _ (by omega) (by omega)
      have hnext : knot c.knots (k + 1) < knot c.knots (k + p + 1) := by
        have := bb2 (by omega)
        rw [show k + 1 + p = k + p + 1 by omega] at this
        exact lt_of_le_of_ne (knot_mono hc.sorted (by omega) (by omega)) this.symm
      rw [left_interp hQ (t := knot c.knots (k + 1)) (fun i g1 g2 => bb i g1 g2)]
      have := bsplinePoint_interp hc (t := knot c.knots (k + 1)) (k := k + p) (by
        unfold InSpan
        rw [if_neg hlt2.ne, hkp]
        exact ⟨le_rfl, hnext⟩) (by omega) hpN (fun i g1 g2 => bb i (by omega) (by omega))
      rw [this, show k + p - p = k by omega]

/-- The extraction loop. -/
theorem bezierPieces_spec {c : BSpline K V} {p : ℕ} (hc : WellFormed c p)
    (hmul : ∀ y ∈ c.knots, knot c.knots p ≤ y → y ≤ knot c.knots c.ctrl.length →
      p ≤ c.knots.count y) :
    ∀ (n i : ℕ) (cur : K) (segs : List (Bezier V)) (bounds : List K), i + n = c.knots.length →
      knot c.knots p ≤ cur → cur ≤ knot c.knots c.ctrl.length →
      (∀ j < i, knot c.knots j ≤ cur) →
      (cur = knot c.knots p ∨ ∃ j < i, knot c.knots j = cur) →
      ∃ segs' bounds', bezierPieces (knot c.knots c.ctrl.length) p c.ctrl (c.knots.drop i) i cur
          segs bounds = ok (segs ++ segs', bounds ++ bounds') ∧
        Pieces (knot c.knots c.ctrl.length) (PieceOf c p) cur segs' bounds' := by
  have hl := hc.len
  intro n
  induction n with
  | zero =>
    intro i cur segs bounds hi hlo hhi hall hcur
    refine ⟨[], [], ?_, ?_⟩
    · rw [List.drop_of_length_le (by omega)]
      simp [bezierPieces]
    · exact le_antisymm hhi (hall _ (by omega))
  | succ n ih =>
    intro i cur segs bounds hi hlo hhi hall hcur
    have hi' : i < c.knots.length := by omega
    have ed : c.knots.drop i = knot c.knots i :: c.knots.drop (i + 1) := by
      rw [List.drop_eq_getElem_cons hi']
      congr 1
      simp [knot, hi']
    rw [ed]
    unfold bezierPieces
    by_cases h1 : knot c.knots i ≤ cur
    · rw [if_pos h1]
      apply ih (i + 1) cur segs bounds (by omega) hlo hhi
      · intro j hj
        rcases Nat.lt_or_ge j i with h | h
        · exact hall j h
        · rw [show j = i by omega]; exact h1
      · rcases hcur with h | ⟨j, hj, h⟩
        · exact Or.inl h
        · exact Or.inr ⟨j, by omega, h⟩
    · rw [if_neg h1]
      push Not at h1
      by_cases h2 : knot c.knots i > knot c.knots c.ctrl.length
      · rw [if_pos h2]
        refine ⟨[], [], by simp, ?_⟩
        have : c.ctrl.length < i := by
          by_contra h
          exact absurd h2 (not_lt.mpr (knot_mono hc.sorted (by omega) (by omega)))
        exact le_antisymm hhi (hall _ this)
      · rw [if_neg h2]
        push Not at h2
        have hpi : p < i := by
          by_contra h
          have := knot_mono hc.sorted (i := i) (j := p) (by omega) (by omega)
          exact absurd (h1.trans_le this) (not_lt.mpr hlo)
        have hprev : knot c.knots (i - 1) = cur := by
          apply le_antisymm (hall _ (by omega))
          rcases hcur with h | ⟨j, hj, h⟩
          · rw [h]; exact knot_mono hc.sorted (by omega) (by omega)
          · rw [← h]; exact knot_mono hc.sorted (by omega) (by omega)
        have hiN : i - 1 < c.ctrl.length := by
          by_contra h
          have := knot_mono hc.sorted (i := c.ctrl.length) (j := i - 1) (by omega) (by omega)
          rw [hprev] at this
          exact absurd (h1.trans_le h2) (not_lt.mpr this)
        have hk1 : i - 1 + 1 = i := by omega
        have eseg : seg c.ctrl (i - p - 1) (p + 1)
            = ok (arr (p + 1) (fun j => c.ctrl.getD (i - 1 - p + j) 0)) := by
          conv_lhs => rw [eq_arr c.ctrl 0]
          rw [seg_arr (by omega), show i - p - 1 = i - 1 - p by omega]
        have P := pieceOf_span hc (k := i - 1) (by omega) hiN (by rw [hk1, hprev]; exact h1)
          (hmul _ ((mem_knots_iff _ _).mpr ⟨i - 1, by omega, rfl⟩) (by rw [hprev]; exact hlo)
            (by rw [hprev]; exact hhi))
          (by
            rw [hk1]
            exact hmul _ ((mem_knots_iff _ _).mpr ⟨i, by omega, rfl⟩) (hlo.trans h1.le) h2)
        rw [hprev, hk1] at P
        obtain ⟨ss, bs, e, C⟩ := ih (i + 1) (knot c.knots i)
          (segs ++ [{ ctrl := arr (p + 1) (fun j => c.ctrl.getD (i - 1 - p + j) 0) }])
          (bounds ++ [knot c.knots i]) (by omega) (hlo.trans h1.le) h2 (by
            intro j hj
            exact knot_mono hc.sorted (by omega) (by omega)) (Or.inr ⟨i, by omega, rfl⟩)
        rw [assert_true (by omega), ok_bind, eseg, ok_bind, e]
        refine ⟨_ :: ss, _ :: bs, ?_, h1, P, C⟩
        simp

theorem Pieces.weaken {tMax : K} {G G' : K → K → Bezier V → Prop} {lo : K}
    (h : ∀ a b s, lo ≤ a → a < b → b ≤ tMax → G a b s → G' a b s) : ∀ (ss : List (Bezier V)) (bs : List K)
    (cur : K), lo ≤ cur → Pieces tMax G cur ss bs → cur ≤ tMax ∧ Pieces tMax G' cur ss bs
  | [], [], cur, _, H => ⟨le_of_eq H, H⟩
  | [], _ :: _, _, _, H => H.elim
  | _ :: _, [], _, _, H => H.elim
  | _ :: ss, b :: bs, _, hlo, ⟨h1, h2, h3⟩ => by
    have := Pieces.weaken h ss bs b (hlo.trans h1.le) h3
    exact ⟨h1.le.trans this.1, h1, h _ _ _ hlo h1 this.1 h2, this.2⟩

/-- `convert_to_Bezier`. -/
theorem toBezier_spec {eps : K} (heps : 0 ≤ eps) {c : BSpline K V} {p : ℕ} (hc : WellFormed c p)
    (hf : FirstSpan c p ∨ p ≤ c.knots.count (knot c.knots p)) :
    ∃ segs bounds, c.toBezier eps = ok (segs, knot c.knots p :: bounds) ∧
      Pieces (knot c.knots c.ctrl.length) (PieceOf c p) (knot c.knots p) segs bounds := by
  have hl := hc.len
  have hcl := hc.ctrl
  have hdom := hc.dom
  have hmin : knot c.knots p ∈ c.knots := (mem_knots_iff _ _).mpr ⟨p, by omega, rfl⟩
  have hmax : knot c.knots c.ctrl.length ∈ c.knots :=
    (mem_knots_iff _ _).mpr ⟨c.ctrl.length, by omega, rfl⟩
  have elow : c.locateSpan (knot c.knots p) = ok (p : ℤ) := by
    unfold locateSpan
    simp only [degree_eq hc, Int.toNat_natCast]
    rw [assert_true (by omega), ok_bind, rd_knot (by omega), ok_bind, if_pos le_rfl]
  obtain ⟨k, b1, b2, b3, b4, -, -, b5⟩ := locateSpan_spec hc (knot c.knots c.ctrl.length)
    (Or.inr hdom)
  have hk1 := b5 le_rfl
  obtain ⟨c1, e1, I1⟩ := raise_inserted heps hc (t := knot c.knots p)
    (s := c.knots.count (knot c.knots p)) (hf.symm.imp id Or.inl) le_rfl hdom.le (Or.inr rfl)
  obtain ⟨R1, h1⟩ := I1.refined hmin
  have hc1max : c1.knots.count (knot c.knots c.ctrl.length)
      = c.knots.count (knot c.knots c.ctrl.length) := by
    rw [I1.count, if_neg hdom.ne', add_zero]
  obtain ⟨c2, e2, I2⟩ := raise_inserted heps R1.wf (t := knot c.knots c.ctrl.length)
    (s := c.knots.count (knot c.knots c.ctrl.length))
    (Or.inr (Or.inr (by rw [R1.lower]; exact hdom))) (by rw [R1.lower]; exact hdom.le)
    (by rw [R1.upper]) (Or.inl R1.upper.symm)
  rw [← hc1max] at I2
  obtain ⟨R2, h2⟩ := I2.refined ((R1.mem _).mpr hmax)
  have R12 := R1.trans R2
  obtain ⟨c3, e3, R3, h3⟩ := bezierKnots_spec heps c.knots R12.wf R12.lower R12.upper hc.sorted
    (fun x hx => (R12.mem x).mpr hx)
  have R := R12.trans R3
  have hmul : ∀ y ∈ c3.knots, knot c3.knots p ≤ y → y ≤ knot c3.knots c3.ctrl.length →
      p ≤ c3.knots.count y := by
    intro y hy g1 g2
    rw [R.lower] at g1
    rw [R.upper] at g2
    rcases g1.lt_or_eq with g1 | g1
    · rcases g2.lt_or_eq with g2 | g2
      · exact h3 y ((R.mem y).mp hy) g1 g2
      · rw [g2]; exact h2.trans (R3.count _).1
    · rw [← g1]; exact h1.trans ((R2.count _).1.trans (R3.count _).1)
  obtain ⟨segs, bounds, e4, P⟩ := bezierPieces_spec R.wf hmul c3.knots.length 0 (knot c.knots p) []
    [knot c.knots p] (by omega) (by rw [R.lower]) (by rw [R.upper]; exact hdom.le) (by simp)
    (Or.inl R.lower.symm)
  refine ⟨segs, bounds, ?_, ?_⟩
  · unfold toBezier
    simp only [degree_eq hc, Int.toNat_natCast]
    rw [lower_eq hc, ok_bind, upper_eq hc, ok_bind, elow, ok_bind, b1, ok_bind, Int.toNat_natCast,
      multiplicity_count c hc.sorted p (by omega), ok_bind,
      show ((k : ℤ) + 1).toNat = k + 1 by omega,
      multiplicity_count c hc.sorted (k + 1) (by omega), ok_bind, hk1, e1, ok_bind, e2, ok_bind, e3,
      ok_bind]
    rw [R.upper] at e4
    simpa using e4
  · rw [R.upper] at P
    refine (Pieces.weaken ?_ segs bounds _ le_rfl P).2
    intro a b s ha hab hb G
    refine ⟨G.len, G.periodic, fun y hy => G.gap y ((R.mem y).mpr hy), (R.mem b).mp G.bmem, ?_,
      R.hull.trans G.hull⟩
    intro x h0 hx1 hx
    rw [G.value x h0 hx1, R.point]
    · nlinarith [mul_nonneg h0 (sub_nonneg.mpr hab.le)]
    · nlinarith [mul_nonneg (sub_nonneg.mpr hx1) (sub_nonneg.mpr hab.le)]
    · rcases hx with h | h | h
      · exact Or.inl h
      · exact Or.inr (Or.inl (by rw [R.upper]; exact h))
      · exact Or.inr (Or.inr (by have := (R.count b).2; omega))

/-- The Bézier curve of the control points of span `k`. -/
def pieceAt (p : ℕ) (ctrl : List V) (k : ℕ) : Bezier V :=
  { ctrl := arr (p + 1) (fun j => ctrl.getD (k - p + j) 0) }

/-- Chain of non-empty spans from `cur` to the end of the domain. -/
def Spans (u : List K) (N p : ℕ) : K → List ℕ → List K → Prop
  | cur, [], [] => cur = knot u N
  | cur, k :: ks, b :: bs => p ≤ k ∧ k < N ∧ knot u k = cur ∧ knot u (k + 1) = b ∧ cur < b ∧
      Spans u N p b ks bs
  | _, _, _ => False

/-- The extraction loop copies control points of spans that depend on the knots only. -/
theorem bezierPieces_index {u : List K} {N p : ℕ} (hl : u.length = N + p + 1)
    (hs : u.Pairwise (· ≤ ·)) :
    ∀ (n i : ℕ) (cur : K), i + n = u.length → knot u p ≤ cur → cur ≤ knot u N →
      (∀ j < i, knot u j ≤ cur) → (cur = knot u p ∨ ∃ j < i, knot u j = cur) →
      ∃ ks bs, (∀ (ctrl : List V) segs bounds, ctrl.length = N →
        bezierPieces (knot u N) p ctrl (u.drop i) i cur segs bounds
          = ok (segs ++ ks.map (pieceAt p ctrl), bounds ++ bs)) ∧ Spans u N p cur ks bs := by
  intro n
  induction n with
  | zero =>
    intro i cur hi hlo hhi hall hcur
    refine ⟨[], [], ?_, ?_⟩
    · intro ctrl segs bounds _
      rw [List.drop_of_length_le (by omega)]
      simp [bezierPieces]
    · exact le_antisymm hhi (hall _ (by omega))
  | succ n ih =>
    intro i cur hi hlo hhi hall hcur
    have hi' : i < u.length := by omega
    have ed : u.drop i = knot u i :: u.drop (i + 1) := by
      rw [List.drop_eq_getElem_cons hi']
      congr 1
      simp [knot, hi']
    rw [ed]
    simp only [bezierPieces]
    by_cases h1 : knot u i ≤ cur
    · simp only [if_pos h1]
      apply ih (i + 1) cur (by omega) hlo hhi
      · intro j hj
        rcases Nat.lt_or_ge j i with h | h
        · exact hall j h
        · rw [show j = i by omega]; exact h1
      · rcases hcur with h | ⟨j, hj, h⟩
        · exact Or.inl h
        · exact Or.inr ⟨j, by omega, h⟩
    · simp only [if_neg h1]
      push Not at h1
      by_cases h2 : knot u i > knot u N
      · simp only [if_pos h2]
        refine ⟨[], [], by simp, ?_⟩
        have : N < i := by
          by_contra h
          exact absurd h2 (not_lt.mpr (knot_mono hs (by omega) (by omega)))
        exact le_antisymm hhi (hall _ this)
      · simp only [if_neg h2]
        push Not at h2
        have hpi : p < i := by
          by_contra h
          have := knot_mono hs (i := i) (j := p) (by omega) (by omega)
          exact absurd (h1.trans_le this) (not_lt.mpr hlo)
        have hprev : knot u (i - 1) = cur := by
          apply le_antisymm (hall _ (by omega))
          rcases hcur with h | ⟨j, hj, h⟩
          · rw [h]; exact knot_mono hs (by omega) (by omega)
          · rw [← h]; exact knot_mono hs (by omega) (by omega)
        have hiN : i - 1 < N := by
          by_contra h
          have := knot_mono hs (i := N) (j := i - 1) (by omega) (by omega)
          rw [hprev] at this
          exact absurd (h1.trans_le h2) (not_lt.mpr this)
        have hk1 : i - 1 + 1 = i := by omega
        obtain ⟨ks, bs, e, C⟩ := ih (i + 1) (knot u i) (by omega) (hlo.trans h1.le) h2 (by
            intro j hj
            exact knot_mono hs (by omega) (by omega)) (Or.inr ⟨i, by omega, rfl⟩)
        refine ⟨(i - 1) :: ks, knot u i :: bs, ?_, by omega, hiN, hprev, by rw [hk1], h1, C⟩
        intro ctrl segs bounds hN
        have eseg : seg ctrl (i - p - 1) (p + 1)
            = ok (arr (p + 1) (fun j => ctrl.getD (i - 1 - p + j) 0)) := by
          conv_lhs => rw [eq_arr ctrl 0]
          rw [seg_arr (by omega), show i - p - 1 = i - 1 - p by omega]
        rw [assert_true (by omega), ok_bind, eseg, ok_bind, e _ _ _ hN]
        simp [pieceAt]

end NS.BSpline
