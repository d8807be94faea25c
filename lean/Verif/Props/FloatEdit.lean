import Verif.Props.FloatWrap
import Verif.Proof.FloatSplit
import Verif.Proof.FloatElevate

/-!
# Properties C85 and C99: editing curves in floating point arithmetic

`R` is any rounding, `F`, `G` any choice of contractions.  `growth R` is about `1 + 9 u`.
-/

set_option linter.unusedSectionVars false

namespace NS.Fl

open Outcome Finset Spec

section General

variable {K ι : Type} [Field K] [LinearOrder K] [IsStrictOrderedRing K] [FloorRing K]

theorem ctrl_ne_nil {V : Type} [AddCommGroup V] [Module K V] {c : BSpline K V} {p : ℕ}
    (hc : BSpline.WellFormed c p) : c.ctrl ≠ [] := by
  intro h
  have := hc.ctrl
  rw [h] at this
  simp at this

/-! ### Knot insertion -/

/-- C99: inserting a knot in floating point fails exactly when the exact insertion does.  The knots are
those of the exact result, each new control point is off by at most `growth ^ r - 1` times the
largest coordinate, and the control points outside of the reach of the new knot are kept bit by bit. -/
theorem C99_insert_knot (R : Rounding K) (hu1 : R.unit < 1) (F : ℕ → ℕ → ι → Fuse) {eps : K}
    (heps : 0 ≤ eps) {c : BSpline K (ι → K)} {p : ℕ} (hc : BSpline.WellFormed c p) {t : K}
    (ht : R.IsFloat t) (hf : BSpline.FirstSpan c p ∨ knot c.knots p < t) (h1 : knot c.knots p ≤ t)
    (h2 : t ≤ knot c.knots c.ctrl.length) (r : ℕ) :
    (c.insertKnot eps t r = ub ∧ insertKnot R F eps c t r = ub) ∨
    ∃ c' d', c.insertKnot eps t r = ok c' ∧ insertKnot R F eps c t r = ok d' ∧
      d'.knots = c'.knots ∧ d'.ctrl.length = c'.ctrl.length ∧ d'.periodic = c'.periodic ∧
      d'.sdeg = c'.sdeg ∧
      (∀ l M, (∀ q ∈ c.ctrl, |q l| ≤ M) → ∀ j,
        |d'.ctrl.getD j 0 l - c'.ctrl.getD j 0 l| ≤ (growth R ^ r - 1) * M) ∧
      (Floats R c.ctrl → Floats R d'.ctrl) ∧
      (∀ l, (∀ q ∈ c.ctrl, 0 ≤ q l) → ∀ q ∈ d'.ctrl, 0 ≤ q l) ∧
      (∀ j, j < c.ctrl.length → knot c.knots (j + p) < t →
        d'.ctrl.getD j 0 = c.ctrl.getD j 0) ∧
      (∀ j, j < c.ctrl.length → t ≤ knot c.knots (j + 1) →
        d'.ctrl.getD (j + r) 0 = c.ctrl.getD j 0) := by
  rcases Nat.eq_zero_or_pos r with rfl | hr
  · left
    unfold BSpline.insertKnot insertKnot
    rw [assert_false (by omega)]
    exact ⟨rfl, rfl⟩
  · obtain ⟨a, b⟩ := insertKnot_near R hu1 F heps hc (Shape.refl c) ht hf h1 h2 hr
    rcases Nat.lt_or_ge p (r + if t = knot c.knots c.ctrl.length then 0 else c.knots.count t)
      with h | h
    · exact Or.inl (a h)
    · right
      obtain ⟨c', d', e, e', n⟩ := b h
      refine ⟨c', d', e, e', n.shape.knots, n.shape.len, n.shape.periodic, n.shape.sdeg, ?_, n.floats,
        n.nonneg, n.below, n.above⟩
      intro l M hM j
      simpa using (n.near l 1 M le_rfl (Near.refl (ctrl_ne_nil hc) hM)).err j

/-- A client inserting the knots of a list one after the other; `ins n` is the insertion of step `n`. -/
def insertAll {C : Type} (ins : ℕ → C → K → ℕ → Outcome C) : ℕ → List (K × ℕ) → C → Outcome C
  | _, [], c => ok c
  | n, (t, r) :: ops, c => do
    let c ← ins n c t r
    insertAll ins (n + 1) ops c

/-- C99: any sequence of insertions in floating point goes through exactly when the exact one does.
After inserting `m` knots the curve has the knots of the exact result and is off by at most
`growth ^ m - 1` times the largest coordinate, and evaluating it in floating point by at most
`growth ^ (p + m) - 1` times that. -/
theorem C99_insertions (R : Rounding K) (hu1 : R.unit < 1) (F : ℕ → ℕ → ℕ → ι → Fuse) {eps : K}
    (heps : 0 ≤ eps) {c : BSpline K (ι → K)} {p : ℕ} (hc : BSpline.WellFormed c p)
    (ops : List (K × ℕ)) (hops : ∀ o ∈ ops, R.IsFloat o.1 ∧ knot c.knots p < o.1 ∧
      o.1 ≤ knot c.knots c.ctrl.length) :
    (insertAll (fun _ c t r => c.insertKnot eps t r) 0 ops c = ub ∧
      insertAll (fun n c t r => insertKnot R (F n) eps c t r) 0 ops c = ub) ∨
    ∃ c' d', insertAll (fun _ c t r => c.insertKnot eps t r) 0 ops c = ok c' ∧
      insertAll (fun n c t r => insertKnot R (F n) eps c t r) 0 ops c = ok d' ∧
      d'.knots = c'.knots ∧ d'.ctrl.length = c'.ctrl.length ∧
      (Floats R c.ctrl → Floats R d'.ctrl) ∧
      ∀ l M, (∀ q ∈ c.ctrl, |q l| ≤ M) →
        (∀ j, |d'.ctrl.getD j 0 l - c'.ctrl.getD j 0 l|
          ≤ (growth R ^ (ops.map (·.2)).sum - 1) * M) ∧
        ∀ x, knot c.knots p ≤ x → x ≤ knot c.knots c.ctrl.length →
          |bsplinePoint p d'.knots d'.ctrl x l - bsplinePoint p c.knots c.ctrl x l|
            ≤ (growth R ^ (ops.map (·.2)).sum - 1) * M ∧
          (c.periodic = false → FlWide R d' p → knot c.knots p < x → ∀ G,
            ∃ q, bsplineEvaluate R G d' x = ok q ∧
              |q l - bsplinePoint p c.knots c.ctrl x l|
                ≤ (growth R ^ (p + (ops.map (·.2)).sum) - 1) * M) := by
  have hG := one_le_growth R hu1
  suffices H : ∀ (ops : List (K × ℕ)) (n : ℕ) (c1 d1 : BSpline K (ι → K)), BSpline.WellFormed c1 p →
      Shape c1 d1 → knot c1.knots p = knot c.knots p →
      knot c1.knots c1.ctrl.length = knot c.knots c.ctrl.length →
      (∀ o ∈ ops, R.IsFloat o.1 ∧ knot c.knots p < o.1 ∧ o.1 ≤ knot c.knots c.ctrl.length) →
      (insertAll (fun _ c t r => c.insertKnot eps t r) n ops c1 = ub ∧
        insertAll (fun n c t r => insertKnot R (F n) eps c t r) n ops d1 = ub) ∨
      ∃ c' d', insertAll (fun _ c t r => c.insertKnot eps t r) n ops c1 = ok c' ∧
        insertAll (fun n c t r => insertKnot R (F n) eps c t r) n ops d1 = ok d' ∧
        BSpline.WellFormed c' p ∧ Shape c' d' ∧ c'.periodic = c1.periodic ∧
        knot c'.knots p = knot c.knots p ∧ knot c'.knots c'.ctrl.length = knot c.knots c.ctrl.length ∧
        (Floats R d1.ctrl → Floats R d'.ctrl) ∧
        (∀ l h M, 1 ≤ h → Near c1 d1 l h M → Near c' d' l (h * growth R ^ (ops.map (·.2)).sum) M) ∧
        ∀ x, knot c.knots p ≤ x → x ≤ knot c.knots c.ctrl.length →
          bsplinePoint p c'.knots c'.ctrl x = bsplinePoint p c1.knots c1.ctrl x by
    rcases H ops 0 c c hc (Shape.refl c) rfl rfl hops with h | ⟨c', d', e, e', hw, hs, hper, hlo, hhi, hfl, hn, hpt⟩
    · exact Or.inl h
    · right
      refine ⟨c', d', e, e', hs.knots, hs.len, hfl, ?_⟩
      intro l M hM
      have n := hn l 1 M le_rfl (Near.refl (ctrl_ne_nil hc) hM)
      rw [one_mul] at n
      refine ⟨n.err, fun x hx1 hx2 => ?_⟩
      have q1 := (point_near hw hs n (x := x) (by rw [hlo]; exact hx1) (by rw [hhi]; exact hx2)).1
      rw [hpt x hx1 hx2] at q1
      refine ⟨q1, fun hp hwide hx G => ?_⟩
      obtain ⟨q, eq, hq⟩ := C82_bspline_error R hu1 G (hs.wf hw) (by rw [hs.periodic, hper, hp]) hwide
        (t := x) (Or.inr (by rw [hs.knots, hlo]; exact hx)) (by rw [hs.knots, hlo]; exact hx1)
        (by rw [hs.knots, hs.len, hhi]; exact hx2)
      refine ⟨q, eq, ?_⟩
      have q2 := hq l (growth R ^ (ops.map (·.2)).sum * M) (by
        intro y hy
        obtain ⟨j, hj, rfl⟩ := List.mem_iff_getElem.1 hy
        have a := n.err j
        have b := n.bound j
        rw [getD_of_lt _ hj] at a
        have := abs_add_le (d'.ctrl[j] l - c'.ctrl.getD j 0 l) (c'.ctrl.getD j 0 l)
        rw [sub_add_cancel] at this
        linarith)
      rw [show (1 + R.unit) ^ 3 + 2 * ((1 + R.unit) ^ 2 / (1 - R.unit) - 1) = growth R from rfl] at q2
      have := abs_add_le (q l - bsplinePoint p d'.knots d'.ctrl x l)
        (bsplinePoint p d'.knots d'.ctrl x l - bsplinePoint p c.knots c.ctrl x l)
      rw [sub_add_sub_cancel] at this
      rw [pow_add]
      linarith
  clear hops ops
  intro ops
  induction ops with
  | nil =>
    intro n c1 d1 hw hs hlo hhi _
    right
    exact ⟨c1, d1, rfl, rfl, hw, hs, rfl, hlo, hhi, id, fun _ _ _ _ n => by simpa using n,
      fun _ _ _ => rfl⟩
  | cons o ops ih =>
    obtain ⟨t, r⟩ := o
    intro n c1 d1 hw hs hlo hhi ho
    obtain ⟨ht, k1, k2⟩ := ho (t, r) (by simp)
    simp only at ht k1 k2
    simp only [insertAll]
    rcases Nat.eq_zero_or_pos r with rfl | hr
    · left
      unfold BSpline.insertKnot insertKnot
      rw [assert_false (by omega)]
      exact ⟨rfl, rfl⟩
    · rw [← hlo] at k1
      rw [← hhi] at k2
      obtain ⟨a, b⟩ := insertKnot_near R hu1 (F n) heps hw hs ht (Or.inr k1) k1.le k2 hr
      rcases Nat.lt_or_ge p (r + if t = knot c1.knots c1.ctrl.length then 0 else c1.knots.count t)
        with h | h
      · left
        rw [(a h).1, (a h).2]
        exact ⟨rfl, rfl⟩
      · obtain ⟨c2, d2, e, e', I⟩ := b h
        rw [e, e', ok_bind, ok_bind]
        rcases ih (n + 1) c2 d2 I.exact.wf I.shape (I.exact.lower.trans hlo) (I.exact.upper.trans hhi)
          (fun o h => ho o (by simp [h])) with h' | ⟨c', d', f, f', g1, g2, g3, g4, g5, g6, g7, g8⟩
        · exact Or.inl h'
        · right
          refine ⟨c', d', f, f', g1, g2, g3.trans I.exact.periodic, g4, g5, fun h => g6 (I.floats h), ?_, ?_⟩
          · intro l h M hh hn
            have hGr : 1 ≤ growth R ^ r := one_le_pow₀ hG
            have := g7 l _ M (by nlinarith) (I.near l h M hh hn)
            rwa [mul_assoc, ← pow_add] at this
          · intro x x1 x2
            rw [g8 x x1 x2, I.exact.point x (by rw [hlo]; exact x1) (by rw [hhi]; exact x2)]

/-! ### Splitting -/

/-- C85: splitting a B-spline in floating point.  The pieces have the knots of the exact pieces; the
first and the last control point are kept and the join is shared bit by bit; every control point is
off by at most `growth ^ p - 1` times the largest coordinate.  When the split parameter is not a knot
of multiplicity above the degree, evaluating the first piece at its end and the second piece at its
start returns the join bit by bit, whatever is contracted. -/
theorem C85_bspline_split (R : Rounding K) (hu1 : R.unit < 1) (F : ℕ → ℕ → ι → Fuse) {eps : K}
    (heps : 0 ≤ eps) {c : BSpline K (ι → K)} {p : ℕ} (hc : BSpline.WellFormed c p) (hp : 1 ≤ p) {t : K}
    (ht : R.IsFloat t) (h1 : knot c.knots p < t) (h2 : t < knot c.knots c.ctrl.length) :
    ∃ a b a' b', c.split eps t = ok [a, b] ∧ bsplineSplit R F eps c t = ok [a', b'] ∧
      a'.knots = a.knots ∧ b'.knots = b.knots ∧ a'.ctrl.length = a.ctrl.length ∧
      b'.ctrl.length = b.ctrl.length ∧
      a'.ctrl.getD 0 0 = c.ctrl.getD 0 0 ∧
      b'.ctrl.getD (b'.ctrl.length - 1) 0 = c.ctrl.getD (c.ctrl.length - 1) 0 ∧
      a'.ctrl.getD (a'.ctrl.length - 1) 0 = b'.ctrl.getD 0 0 ∧
      (∀ l M, (∀ q ∈ c.ctrl, |q l| ≤ M) → ∀ j,
        |a'.ctrl.getD j 0 l - a.ctrl.getD j 0 l| ≤ (growth R ^ (p - c.knots.count t) - 1) * M ∧
        |b'.ctrl.getD j 0 l - b.ctrl.getD j 0 l| ≤ (growth R ^ (p - c.knots.count t) - 1) * M) ∧
      (Floats R c.ctrl → ∀ G,
        (c.knots.count t ≤ p → FlWide R a' p →
          bsplineEvaluate R G a' t = ok (a'.ctrl.getD (a'.ctrl.length - 1) 0)) ∧
        (FlWide R b' p → bsplineEvaluate R G b' t = ok (b'.ctrl.getD 0 0))) := by
  have hl := hc.len
  have hcl := hc.ctrl
  obtain ⟨k, Q0, hk, hin⟩ := BSpline.exists_atSpan hc t (Or.inr h1) h1.le h2.le
  have hkn := hk.lt
  have hin2 := hin
  unfold InSpan at hin2
  rw [if_neg h2.ne] at hin2
  have hmul : c.multAt t (k : ℤ) = ok (c.knots.count t) := by
    rw [BSpline.multAt_eq c hc.sorted t k (by omega)]
    by_cases e : t = knot c.knots k
    · rw [if_pos e]
    · rw [if_neg e]
      congr 1
      symm
      rw [List.count_eq_zero]
      intro hmem
      obtain ⟨i, hi, hit⟩ := List.mem_iff_getElem.mp hmem
      have hki : knot c.knots i = t := by simp [knot, hi, hit]
      rcases Nat.lt_or_ge k i with h | h
      · have := BSpline.knot_mono hc.sorted (i := k + 1) (j := i) (by omega) hi
        rw [hki] at this
        exact absurd hin2.2 (not_lt.mpr this)
      · have := BSpline.knot_mono hc.sorted (i := i) (j := k) h (by omega)
        rw [hki] at this
        exact e (le_antisymm this hin2.1)
  obtain ⟨c', d', e, e', I⟩ := raise_near R hu1 F heps hc (Shape.refl c) ht (s := c.knots.count t)
    (Or.inr (Or.inr h1)) h1.le h2.le (Or.inr rfl)
  have hcount := I.exact.count t
  rw [if_pos rfl] at hcount
  obtain ⟨a, b, a', b', m, e2, e2', sa, sb, hm, la, lb, ja, jb, ka, ka', kb, km⟩ :=
    splitPieces_near I.exact.wf I.shape hp (t := t) (by rw [I.exact.lower]; exact h1)
      (by rw [I.exact.upper]; exact h2) (by omega)
  have es : c.split eps t = ok [a, b] := by
    unfold BSpline.split
    rw [BSpline.inDomain_eq hc, ok_bind, throwIf_false, ok_bind, BSpline.lower_eq hc, ok_bind,
      BSpline.upper_eq hc, ok_bind, if_neg h1.ne', if_neg h2.ne]
    · simp only [BSpline.degree_eq hc, Int.toNat_natCast]
      rw [hk.loc, ok_bind, hmul, ok_bind, e, ok_bind, e2]
    · simp only [Bool.and_eq_true, decide_eq_true_eq, not_not]
      exact ⟨by linarith, by linarith⟩
  have es' : bsplineSplit R F eps c t = ok [a', b'] := by
    unfold bsplineSplit
    rw [bsplineInDomain_ok R heps hc ht h1.le h2.le, ok_bind, throwIf_false (by simp), ok_bind,
      BSpline.lower_eq hc, ok_bind, BSpline.upper_eq hc, ok_bind, if_neg h1.ne', if_neg h2.ne]
    simp only [BSpline.degree_eq hc, Int.toNat_natCast]
    rw [hk.loc, ok_bind, hmul, ok_bind, e', ok_bind, e2']
  obtain ⟨a0, b0, es0, SL, SR⟩ := BSpline.split_spec heps hc hp h1 h2
  obtain ⟨rfl, rfl⟩ : a0 = a ∧ b0 = b := by
    rw [es] at es0
    simp only [ok.injEq, List.cons.injEq, and_true] at es0
    exact ⟨es0.1.symm, es0.2.symm⟩
  have hd := I.exact.ctrl
  have la' : a'.ctrl.length = m + 1 := sa.len.trans la
  have lb' : b'.ctrl.length = c'.ctrl.length - m := sb.len.trans lb
  refine ⟨a0, b0, a', b', es, es', sa.knots, sb.knots, sa.len, sb.len, ?_, ?_, ?_, ?_, ?_⟩
  · rw [(ja 0 (by omega)).2, I.below 0 (by omega) (by simpa using h1)]
  · rw [(jb _).2, lb', show m + (c'.ctrl.length - m - 1) = (c.ctrl.length - 1) + (p - c.knots.count t) by omega,
      I.above _ (by omega) (by rw [show c.ctrl.length - 1 + 1 = c.ctrl.length by omega]; exact h2.le)]
  · rw [la', show m + 1 - 1 = m by omega, (ja m le_rfl).2, (jb 0).2, add_zero]
  · intro l M hM j
    have n := I.near l 1 M le_rfl (Near.refl (ctrl_ne_nil hc) hM)
    rw [one_mul] at n
    refine ⟨?_, ?_⟩
    · rcases Nat.lt_or_ge m j with h | h
      · rw [getD_of_le (l := a'.ctrl) _ (by omega), getD_of_le (l := a0.ctrl) _ (by omega), sub_self, abs_zero]
        exact (abs_nonneg _).trans (n.err 0)
      · rw [(ja j h).1, (ja j h).2]; exact n.err j
    · rw [(jb j).1, (jb j).2]; exact n.err _
  · intro hf G
    have fd := I.floats hf
    have fa : Floats R a'.ctrl := by
      intro q hq i
      obtain ⟨j, hj, rfl⟩ := List.mem_iff_getElem.1 hq
      have := (ja j (by omega)).2
      rw [getD_of_lt _ hj] at this
      rw [this]
      exact fd.getD j i
    have fb : Floats R b'.ctrl := by
      intro q hq i
      obtain ⟨j, hj, rfl⟩ := List.mem_iff_getElem.1 hq
      have := (jb j).2
      rw [getD_of_lt _ hj] at this
      rw [this]
      exact fd.getD _ i
    refine ⟨?_, ?_⟩
    · intro hcnt hw
      have := (C81_bspline_ends R G (sa.wf SL.wf) (by rw [sa.periodic, SL.periodic]) hw fa).2
      rw [sa.knots, sa.len, SL.upper] at this
      rw [sa.len]
      apply this
      · rw [la, show m + 1 - 1 = m by omega, ka' m le_rfl]
        exact km (by omega)
      · intro j j1 j2
        exact ka j (by omega) (by omega)
    · intro hw
      have := (C81_bspline_ends R G (sb.wf SR.wf) (by rw [sb.periodic, SR.periodic]) hw fb).1
      rw [sb.knots, SR.lower] at this
      exact this (by unfold BSpline.FirstSpan; rw [sb.knots]; exact SR.first) kb

/-! ### Conversion to Bézier curves -/

theorem Spans.join {u : List K} {N p : ℕ} : ∀ {ks : List ℕ} {bs : List K} {cur : K},
    BSpline.Spans u N p cur ks bs → ks.length = bs.length ∧ ∀ n, n + 1 < ks.length → ∃ b, bs[n]? = some b ∧
      p ≤ ks.getD n 0 ∧ ks.getD (n + 1) 0 < N ∧ knot u (ks.getD n 0) < b ∧
      knot u (ks.getD n 0 + 1) = b ∧ knot u (ks.getD (n + 1) 0) = b ∧
      b < knot u (ks.getD (n + 1) 0 + 1)
  | [], [], _, _ => ⟨rfl, by simp⟩
  | [], _ :: _, _, h => absurd h (by simp [BSpline.Spans])
  | _ :: _, [], _, h => absurd h (by simp [BSpline.Spans])
  | [k], [b], _, _ => ⟨rfl, by simp⟩
  | [_], _ :: _ :: _, _, h => absurd h (by simp [BSpline.Spans])
  | _ :: _ :: _, [_], _, h => absurd h (by simp [BSpline.Spans])
  | k :: k' :: ks, b :: b' :: bs, cur, h => by
    obtain ⟨h1, h2, h3, h4, h5, h6⟩ := h
    have ih := Spans.join h6
    refine ⟨by simpa using ih.1, ?_⟩
    rintro (_ | n) hn
    · obtain ⟨g1, g2, g3, g4, g5, g6⟩ := h6
      exact ⟨b, rfl, h1, g2, by simpa [h3] using h5, by simpa using h4, by simpa using g3,
        by simpa [g4] using g5⟩
    · obtain ⟨b0, q⟩ := ih.2 n (by simpa using hn)
      exact ⟨b0, by simpa using q⟩

/-- C99: converting a B-spline to Bézier curves in floating point gives as many curves over the same
intervals as the exact conversion; every control point is off by at most the rounding of the inserted
knots, and neighbours share their join bit by bit unless the knot between them has multiplicity above
the degree. -/
theorem C99_to_bezier (R : Rounding K) (hu1 : R.unit < 1) (F : ℕ → ℕ → ℕ → ι → Fuse) {eps : K}
    (heps : 0 ≤ eps) {c : BSpline K (ι → K)} {p : ℕ} (hc : BSpline.WellFormed c p)
    (hfl : ∀ x ∈ c.knots, R.IsFloat x)
    (hf : BSpline.FirstSpan c p ∨ p ≤ c.knots.count (knot c.knots p)) :
    ∃ S S' bounds, c.toBezier eps = ok (S, bounds) ∧ bsplineToBezier R F eps c = ok (S', bounds) ∧
      S'.length = S.length ∧
      (∀ n, n < S.length → ∃ s s', S[n]? = some s ∧ S'[n]? = some s' ∧
        s.ctrl.length = p + 1 ∧ s'.ctrl.length = p + 1 ∧
        ∀ l M, (∀ q ∈ c.ctrl, |q l| ≤ M) → ∀ j ≤ p,
          |s'.ctrl.getD j 0 l - s.ctrl.getD j 0 l|
            ≤ (growth R ^ (p * (c.knots.length + 2)) - 1) * M) ∧
      ∀ n, n + 1 < S.length → ∃ s s' b, S'[n]? = some s ∧ S'[n + 1]? = some s' ∧
        bounds[n + 1]? = some b ∧
        (c.knots.count b ≤ p → s.ctrl.getD p 0 = s'.ctrl.getD 0 0) := by
  obtain ⟨c', d', m, ks, bs, I, hm, e, e', hS, hmult⟩ := toBezier_near R hu1 F heps hc hfl hf
  have hG := one_le_growth R hu1
  have hw := I.exact.wf
  have hl' := hw.len
  have hget : ∀ (ctrl : List (ι → K)) n, n < ks.length →
      (ks.map (BSpline.pieceAt p ctrl))[n]? = some (BSpline.pieceAt p ctrl (ks.getD n 0)) := by
    intro ctrl n hn
    rw [List.getElem?_map, List.getElem?_eq_getElem hn, getD_of_lt _ hn]
    rfl
  have hpt : ∀ (ctrl : List (ι → K)) k j, j ≤ p →
      (BSpline.pieceAt p ctrl k).ctrl.getD j 0 = ctrl.getD (k - p + j) 0 := by
    intro ctrl k j hj
    exact arr_getD _ _ _ _ (by omega)
  refine ⟨_, _, _, e, e', by simp, ?_, ?_⟩
  · intro n hn
    simp only [List.length_map] at hn
    refine ⟨_, _, hget _ n hn, hget _ n hn, by simp [BSpline.pieceAt], by simp [BSpline.pieceAt], ?_⟩
    intro l M hM j hj
    rw [hpt _ _ _ hj, hpt _ _ _ hj]
    have n1 := I.near l 1 M le_rfl (Near.refl (ctrl_ne_nil hc) hM)
    rw [one_mul] at n1
    exact (n1.mono (pow_le_pow_right₀ hG hm)).err _
  · intro n hn
    simp only [List.length_map] at hn
    obtain ⟨b, hb, g1, g2, g3, g4, g5, g6⟩ := (Spans.join hS).2 n hn
    refine ⟨_, _, b, hget _ n (by omega), hget _ (n + 1) hn, by simpa using hb, ?_⟩
    intro hcnt
    set k1 := ks.getD n 0
    set k2 := ks.getD (n + 1) 0
    have hlt : k1 < k2 := by
      by_contra h
      have := BSpline.knot_mono hw.sorted (i := k2) (j := k1) (by omega) (by
        by_contra h'
        have : knot c'.knots (k1 + 1) = 0 := by simp [knot, List.getElem?_eq_none (by omega : c'.knots.length ≤ k1 + 1)]
        have h3 : knot c'.knots k1 = 0 := by simp [knot, List.getElem?_eq_none (by omega : c'.knots.length ≤ k1)]
        rw [h3, ← g4, this] at g3
        exact lt_irrefl _ g3)
      rw [g5] at this
      exact absurd g3 (not_lt.mpr this)
    have lo : knot c.knots p < b := by
      rw [← I.exact.lower]
      exact (BSpline.knot_mono hw.sorted g1 (by omega)).trans_lt g3
    have hi : b < knot c.knots c.ctrl.length := by
      rw [← I.exact.upper]
      exact g6.trans_le (BSpline.knot_mono hw.sorted (by omega) (by omega))
    have hmem : b ∈ c.knots := (I.exact.mem b).1 ((BSpline.mem_knots_iff _ _).mpr ⟨k2, by omega, g5⟩)
    have hcb : c'.knots.count b = p := by
      have := (I.exact.count b).2
      have := hmult b hmem lo hi
      omega
    obtain ⟨b1, b2, b3⟩ := BSpline.count_block_after c' hw.sorted (k := k1) (by omega) (by rw [g4]; exact g3)
    rw [g4, hcb] at b1 b2 b3
    have h12 : k2 = k1 + p := by
      apply le_antisymm
      · by_contra h
        have q1 := BSpline.knot_mono hw.sorted (i := k1 + 1) (j := k1 + 1 + p) (by omega) (by omega)
        have q2 := BSpline.knot_mono hw.sorted (i := k1 + 1 + p) (j := k2) (by omega) (by omega)
        rw [g4] at q1
        rw [g5] at q2
        exact b2 (by omega) (le_antisymm q2 q1)
      · by_contra h
        have q1 := b1 (k1 + p) (by omega) le_rfl
        have q2 := BSpline.knot_mono hw.sorted (i := k2 + 1) (j := k1 + p) (by omega) (by omega)
        rw [q1] at q2
        exact absurd g6 (not_lt.mpr q2)
    rw [hpt _ _ _ le_rfl, hpt _ _ _ (by omega)]
    congr 1
    omega

/-! ### Degree elevation -/

/-- C99: elevating the degree of a Bézier curve in floating point keeps the end points bit by bit, and
each of the other control points is off by at most `growth - 1` times the largest coordinate. -/
theorem C99_elevate (R : Rounding K) (hu1 : R.unit < 1) (F : ℕ → ι → Fuse) (l : List (ι → K))
    (hl : l ≠ []) (per : Bool) :
    ∃ E E', bezierElevate R F { ctrl := l, periodic := per } = ok { ctrl := E, periodic := per } ∧
      Bezier.elevateDegree K { ctrl := l, periodic := per } = ok { ctrl := E', periodic := per } ∧
      E.length = l.length + 1 ∧ E'.length = l.length + 1 ∧
      E.getD 0 0 = l.getD 0 0 ∧ E.getD l.length 0 = l.getD (l.length - 1) 0 ∧
      ∀ i M, (∀ x ∈ l, |x i| ≤ M) → ∀ j,
        |E.getD j 0 i - E'.getD j 0 i| ≤ (growth R - 1) * M := by
  have hpos : 0 < l.length := List.length_pos_of_ne_nil hl
  obtain ⟨n, hn⟩ : ∃ n, l.length = n + 1 := ⟨l.length - 1, by omega⟩
  have hG := one_le_growth R hu1
  have el : l = arr (n + 1) (fun j => l.getD j 0) := by rw [← hn]; exact eq_arr l 0
  have e1 := bezierElevate_arr R F n (fun j => l.getD j 0) per
  have e2 := Bezier.elevateDegree_arr (K := K) n (fun j => l.getD j 0) per
  rw [← el] at e1 e2
  refine ⟨_, _, e1, e2, by simp [hn], by simp [hn], ?_, ?_, ?_⟩
  · rw [arr_getD _ _ _ _ (by omega), if_pos rfl]
  · rw [hn, arr_getD _ _ _ _ (by omega), if_neg (by omega), if_pos rfl]
    rfl
  · intro i M hM j
    have hM0 : 0 ≤ M := (abs_nonneg _).trans (bound_getD hl hM 0)
    have h0 : 0 ≤ (growth R - 1) * M := mul_nonneg (by linarith) hM0
    by_cases hj : j < n + 2
    · rw [arr_getD _ _ _ _ hj, arr_getD _ _ _ _ hj]
      by_cases j0 : j = 0
      · rw [if_pos j0, if_pos j0, sub_self, abs_zero]; exact h0
      · rw [if_neg j0, if_neg j0]
        by_cases j1 : j = n + 1
        · rw [if_pos j1, if_pos j1, sub_self, abs_zero]; exact h0
        · rw [if_neg j1, if_neg j1]
          exact elevated_err R hu1 F n (fun j => l.getD j 0) (by omega) (bound_getD hl hM)
    · rw [getD_of_le _ (by simp; omega), getD_of_le _ (by simp; omega), sub_self, abs_zero]
      exact h0

/-! ### Exact arithmetic -/

theorem exact_insertKnot (F : ℕ → ℕ → ι → Fuse) (eps : K) (c : BSpline K (ι → K)) (t : K) (r : ℕ) :
    insertKnot Rounding.exact F eps c t r = c.insertKnot eps t r := by
  have hl : ∀ u t p k r s st, insertLoop Rounding.exact F u t p k r s st
      = BSpline.insertLoop (K := K) (V := ι → K) u t p k r s st := by
    intro u t p k r s st
    unfold insertLoop BSpline.insertLoop
    simp only [exact_combine]
    rfl
  have hc : ∀ u q t p k r s, insertedCtrl Rounding.exact F u q t p k r s
      = BSpline.insertedCtrl (K := K) (V := ι → K) u q t p k r s := by
    intro u q t p k r s
    unfold insertedCtrl BSpline.insertedCtrl
    simp only [hl]
  unfold insertKnot BSpline.insertKnot
  simp only [hc]
  rfl

/-- Rounding without error is the exact model of the editing functions. -/
theorem C99_exact_arithmetic (F : ℕ → ℕ → ι → Fuse) (G : ℕ → ℕ → ℕ → ι → Fuse) (H : ℕ → ι → Fuse)
    (eps : K) (c : BSpline K (ι → K)) (b : Bezier (ι → K)) (t : K) (r : ℕ) :
    insertKnot Rounding.exact F eps c t r = c.insertKnot eps t r ∧
      bsplineSplit Rounding.exact F eps c t = c.split eps t ∧
      bsplineToBezier Rounding.exact G eps c = c.toBezier eps ∧
      bezierElevate Rounding.exact H b = b.elevateDegree K := by
  have hr : ∀ F c t d s, raise Rounding.exact F eps c t d s
      = BSpline.raise (K := K) (V := ι → K) eps c t d s := by
    intro F c t d s
    unfold raise BSpline.raise
    simp only [exact_insertKnot]
  have hb : ∀ lo hi d (xs : List K) n c, bezierKnots Rounding.exact G eps lo hi d xs n c
      = BSpline.bezierKnots (K := K) (V := ι → K) eps lo hi d xs c := by
    intro lo hi d xs
    induction xs with
    | nil => intro n c; rfl
    | cons x xs ih =>
      intro n c
      unfold bezierKnots BSpline.bezierKnots
      simp only [ih, hr]
  refine ⟨exact_insertKnot F eps c t r, ?_, ?_, ?_⟩
  · unfold bsplineSplit BSpline.split
    simp only [hr]
    rfl
  · unfold bsplineToBezier BSpline.toBezier
    simp only [hr, hb]
  · unfold bezierElevate Bezier.elevateDegree
    simp only [exact_combine]
    rfl

end General

/-! ### Cases meeting the hypotheses -/

/-- A B-spline of degree two over `[0, 1]` with the control points `0.1, 3, -1/4`. -/
def someQuadratic : BSpline ℚ (Fin 1 → ℚ) :=
  { ctrl := someCtrl, knots := [0, 0, 0, 1, 1, 1] }

theorem someQuadratic_wf : BSpline.WellFormed someQuadratic 2 :=
  ⟨by decide, by decide, by decide, by decide +kernel, by decide +kernel⟩

/-- Inserting `0.1` twice in double precision changes the curve: at `0.1` it is off by a rounding. -/
theorem C99_rounding_changes_curve :
    ∃ d', insertKnot double (fun _ _ _ => .none) (1 / 2 ^ 52) someQuadratic tenth 2 = ok d' ∧
      d'.evaluate tenth ≠ someQuadratic.evaluate tenth := by
  rcases C99_insert_knot double (by decide +kernel) (fun _ _ _ => .none) (eps := 1 / 2 ^ 52)
    (by norm_num) someQuadratic_wf (t := tenth) (by unfold Rounding.IsFloat; decide +kernel)
    (Or.inr (by decide +kernel)) (by decide +kernel) (by decide +kernel) 2 with ⟨h, -⟩ | ⟨c', d', -, e, -⟩
  · have : (someQuadratic.insertKnot (1 / 2 ^ 52) tenth 2 >>= fun c => ok c.ctrl.length) = ok 5 := by
      decide +kernel
    rw [h] at this
    exact absurd this (by simp)
  · refine ⟨d', e, fun h => ?_⟩
    have k1 : (insertKnot double (fun _ _ _ => .none) (1 / 2 ^ 52) someQuadratic tenth 2 >>= fun d =>
        d.evaluate tenth >>= fun q => ok (q 0)) ≠ (someQuadratic.evaluate tenth >>= fun q => ok (q 0)) := by
      decide +kernel
    rw [e, ok_bind, h] at k1
    exact k1 rfl

/-- The hypotheses of `C99_insert_knot` and `C85_bspline_split`, and the insertion goes through. -/
example : double.unit < 1 ∧ BSpline.WellFormed someQuadratic 2 ∧ double.IsFloat tenth ∧
    Floats double someQuadratic.ctrl ∧ knot someQuadratic.knots 2 < tenth ∧
    tenth < knot someQuadratic.knots someQuadratic.ctrl.length ∧ someQuadratic.knots.count tenth ≤ 2 ∧
    (someQuadratic.insertKnot (1 / 2 ^ 52) tenth 2 >>= fun c => ok c.ctrl.length) = ok 5 :=
  ⟨by decide +kernel, someQuadratic_wf, by unfold Rounding.IsFloat; decide +kernel, someCtrl_floats,
    by decide +kernel, by decide +kernel, by decide +kernel, by decide +kernel⟩

/-- Both pieces of the split of that curve at `0.1` have wide spans. -/
example : ∃ a' b', bsplineSplit double (fun _ _ _ => .first) (1 / 2 ^ 52) someQuadratic tenth
    = ok [a', b'] ∧ FlWide double a' 2 ∧ FlWide double b' 2 := by
  obtain ⟨a, b, a', b', e1, e, h1, h2, h3, h4, -⟩ := C85_bspline_split double (by decide +kernel)
    (fun _ _ _ => .first) (eps := 1 / 2 ^ 52) (by norm_num) someQuadratic_wf (by omega) (t := tenth)
    (by unfold Rounding.IsFloat; decide +kernel) (by decide +kernel) (by decide +kernel)
  have k : (someQuadratic.split (1 / 2 ^ 52) tenth >>= fun l =>
      ok (l.map fun x => (x.knots, x.ctrl.length)))
        = ok [([0, 0, 0, tenth, tenth, tenth], 3), ([tenth, tenth, tenth, 1, 1, 1], 3)] := by
    decide +kernel
  rw [e1, ok_bind, ok.injEq] at k
  simp only [List.map_cons, List.map_nil, List.cons.injEq, and_true, Prod.mk.injEq] at k
  refine ⟨a', b', e, ?_, ?_⟩
  · intro i i1 i2 i3
    rw [h3, k.1.2] at i2
    obtain rfl : i = 2 := by omega
    rw [h1, k.1.1]
    decide +kernel
  · intro i i1 i2 i3
    rw [h4, k.2.2] at i2
    obtain rfl : i = 2 := by omega
    rw [h2, k.2.1]
    decide +kernel

/-- A history of two insertions meeting the hypotheses of `C99_insertions`, which goes through and
leaves wide spans. -/
example : (∀ o ∈ [(tenth, 1), ((1 : ℚ) / 2, 2)], double.IsFloat o.1 ∧ knot someQuadratic.knots 2 < o.1 ∧
      o.1 ≤ knot someQuadratic.knots someQuadratic.ctrl.length) ∧
    (insertAll (fun _ c t r => c.insertKnot (1 / 2 ^ 52) t r) 0 [(tenth, 1), ((1 : ℚ) / 2, 2)] someQuadratic
      >>= fun c => ok c.knots) = ok [0, 0, 0, tenth, 1 / 2, 1 / 2, 1, 1, 1] := by
  refine ⟨?_, by decide +kernel⟩
  intro o ho
  simp only [List.mem_cons, List.not_mem_nil, or_false] at ho
  unfold Rounding.IsFloat
  rcases ho with rfl | rfl <;> decide +kernel

/-- A B-spline of degree two with interior knots `0.1` and `1/2`. -/
def threeSpans : BSpline ℚ (Fin 1 → ℚ) :=
  { ctrl := [fun _ => tenth, fun _ => 3, fun _ => -1 / 4, fun _ => 7, fun _ => 1],
    knots := [0, 0, 0, tenth, 1 / 2, 1, 1, 1] }

/-- The hypotheses of `C99_to_bezier`; the conversion gives three curves. -/
example : (∀ x ∈ threeSpans.knots, double.IsFloat x) ∧ BSpline.WellFormed threeSpans 2 ∧
    BSpline.FirstSpan threeSpans 2 ∧
    (threeSpans.toBezier (1 / 2 ^ 52) >>= fun r => ok (r.1.length, r.2))
      = ok (3, [0, tenth, 1 / 2, 1]) := by
  refine ⟨?_, ⟨by decide, by decide, by decide, by decide +kernel, by decide +kernel⟩,
    by unfold BSpline.FirstSpan; decide +kernel, by decide +kernel⟩
  intro x hx
  simp only [threeSpans, List.mem_cons, List.not_mem_nil, or_false] at hx
  unfold Rounding.IsFloat
  rcases hx with rfl | rfl | rfl | rfl | rfl | rfl | rfl | rfl <;> decide +kernel

/-- The hypotheses of `C99_elevate`; the elevated curve differs from the exact one. -/
example : someCtrl ≠ [] ∧ double.unit < 1 ∧
    (bezierElevate double (fun _ _ => .none) { ctrl := someCtrl } >>= fun b => ok (b.ctrl.map (· 0)))
      ≠ (Bezier.elevateDegree ℚ { ctrl := someCtrl } >>= fun b => ok (b.ctrl.map (· 0))) :=
  ⟨by simp [someCtrl], by decide +kernel, by decide +kernel⟩

end NS.Fl
