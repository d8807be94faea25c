import Verif.Model.SpanSearch
import Verif.Spec.SpanSearch
import Verif.Proof.Inverse
import Verif.Proof.LocateSpan
import Mathlib.Data.Finset.Max

/-!
# The span-wise search of `BSplineBase`
-/

set_option linter.unusedSectionVars false
set_option linter.unusedSimpArgs false

namespace NS

open Outcome Geom BSpline Spec

variable {K V W : Type} [Field K] [LinearOrder K] [IsStrictOrderedRing K] [FloorRing K]
  [AddCommGroup V] [Module K V] [Geom K V] [AddCommGroup W] [Module K W]

namespace SpanSearch

theorem samplePiece_spec {f : CurveFn K V} {p : V} {num : ℕ} {lo hi : K} {e0 : K → V}
    (h0 : ∀ j ≤ num, f.ev (sampleAt num lo hi j) = ok (e0 (sampleAt num lo hi j))) (b : Best K) :
    ∃ b', samplePiece f p num lo hi b = ok b' ∧ b'.dist ≤ b.dist ∧
      (∀ j ≤ num, b'.dist ≤ sqNorm (p - e0 (sampleAt num lo hi j))) ∧
      (b' = b ∨ ∃ j ≤ num, b' = ⟨sqNorm (p - e0 (sampleAt num lo hi j)), sampleAt num lo hi j,
        (hi - lo) / (num : K)⟩) := by
  unfold samplePiece
  obtain ⟨b', e, h1, h2, h3⟩ := loop_inv
    (fun n (b' : Best K) => b'.dist ≤ b.dist ∧
      (∀ j < n, b'.dist ≤ sqNorm (p - e0 (sampleAt num lo hi j))) ∧
      (b' = b ∨ ∃ j ≤ num, b' = ⟨sqNorm (p - e0 (sampleAt num lo hi j)), sampleAt num lo hi j,
        (hi - lo) / (num : K)⟩))
    (num + 1) (fun j (b : Best K) => do
      let r := (j : K) / (num : K)
      let t := lo + r * (hi - lo)
      let q ← f.ev t
      let dist : K := sqNorm (p - q)
      pure (if dist < b.dist then ⟨dist, t, (hi - lo) / (num : K)⟩ else b)) b
    ⟨le_rfl, fun j hj => by omega, Or.inl rfl⟩ (by
    intro j hj s hs
    obtain ⟨s1, s2, s3⟩ := hs
    have hj' : j ≤ num := by omega
    have e : f.ev (lo + (j : K) / (num : K) * (hi - lo)) = ok (e0 (sampleAt num lo hi j)) :=
      h0 j hj'
    simp only
    rw [e, ok_bind, pure_eq]
    refine ⟨_, rfl, ?_⟩
    by_cases hlt : (sqNorm (p - e0 (sampleAt num lo hi j)) : K) < s.dist
    · rw [if_pos hlt]
      refine ⟨hlt.le.trans s1, ?_, Or.inr ⟨j, hj', rfl⟩⟩
      intro i hi
      rcases Nat.lt_succ_iff_lt_or_eq.1 hi with h | rfl
      · exact hlt.le.trans (s2 i h)
      · exact le_rfl
    · rw [if_neg hlt]
      refine ⟨s1, ?_, s3⟩
      intro i hi
      rcases Nat.lt_succ_iff_lt_or_eq.1 hi with h | rfl
      · exact s2 i h
      · exact not_lt.1 hlt)
  exact ⟨b', e, h1, fun j hj => h2 j (by omega), h3⟩

/-- What the loop has established when it stands at `x`: the best value is not above any sample of a
piece that ends at `x` or before, and it belongs to a sample. -/
structure Upto (knots : List K) (num : ℕ) (lower upper big : K) (D : K → K) (x : K) (b : Best K) :
    Prop where
  le : ∀ a e, Piece knots lower upper a e → e ≤ x → ∀ j ≤ num, b.dist ≤ D (sampleAt num a e j)
  pick : b = ⟨big, 0, 0⟩ ∨ ∃ a e, Piece knots lower upper a e ∧ ∃ j ≤ num,
    b = ⟨D (sampleAt num a e j), sampleAt num a e j, (e - a) / (num : K)⟩

theorem knot_mem {u : List K} {i : ℕ} (h : i < u.length) : knot u i ∈ u := by
  unfold knot
  rw [List.getD_eq_getElem?_getD, List.getElem?_eq_getElem h]
  simp

theorem mem_knot {u : List K} {x : K} (h : x ∈ u) : ∃ i < u.length, knot u i = x := by
  obtain ⟨i, hi, rfl⟩ := List.mem_iff_getElem.1 h
  exact ⟨i, hi, by simp [knot, List.getD, hi]⟩

/-- Between neighbouring knots there is no knot. -/
theorem no_knot {u : List K} (hs : u.Pairwise (· ≤ ·)) {i : ℕ} (hi : i + 1 < u.length) {x : K}
    (hx : x ∈ u) : ¬(knot u i < x ∧ x < knot u (i + 1)) := by
  obtain ⟨j, hj, rfl⟩ := mem_knot hx
  rintro ⟨h1, h2⟩
  rcases Nat.lt_or_ge i j with h | h
  · exact absurd (knot_mono hs (show i + 1 ≤ j by omega) (by omega)) (not_le.2 h2)
  · exact absurd (knot_mono hs h (by omega)) (not_le.2 h1)

theorem spans_spec {c : BSpline K W} (hs : c.knots.Pairwise (· ≤ ·)) (hper : c.periodic = false)
    {f : CurveFn K V} {p : V} {num : ℕ} (hn : 0 < num) {lower upper big period : K} {e0 : K → V}
    (h0 : ∀ t, lower ≤ t → t ≤ upper → f.ev t = ok (e0 t)) {m : ℕ} (hm : m < c.knots.length)
    (hup : upper ≤ knot c.knots m) :
    ∀ (fuel i : ℕ) (x : K) (b : Best K), i ≤ m → m + 1 - i ≤ fuel →
      lower ≤ x → x ≤ upper → knot c.knots i ≤ x → (x = lower ∨ x = knot c.knots i) →
      (i < m → lower ≤ knot c.knots (i + 1)) →
      Upto c.knots num lower upper big (fun t => sqNorm (p - e0 t)) x b →
      ∃ b', spans c f p num upper period fuel x (i : ℤ) 0 b = ok b' ∧
        Upto c.knots num lower upper big (fun t => sqNorm (p - e0 t)) upper b' := by
  intro fuel
  induction fuel with
  | zero => intro i x b h1 h2; omega
  | succ fuel ih =>
    intro i x b h1 h2 hx1 hx2 hk hxe hnext hU
    unfold spans
    by_cases hlt : x < upper
    · have him : i < m := by
        rcases Nat.lt_or_ge i m with h | h
        · exact h
        · have : i = m := by omega
          subst this
          exact absurd (hup.trans hk) (not_le.2 hlt)
      rw [if_pos hlt, if_neg (by rintro ⟨-, h⟩; omega)]
      simp only [hper, Bool.false_and, Bool.false_eq_true, if_false, Int.cast_zero, zero_mul,
        add_zero]
      have e1 : ((i : ℤ) + 1) = ((i + 1 : ℕ) : ℤ) := by push_cast; rfl
      rw [e1, rdI_natCast, rd_knot (by omega), ok_bind]
      have hmono : knot c.knots i ≤ knot c.knots (i + 1) := knot_mono hs (by omega) (by omega)
      have hnx := hnext him
      set y := min upper (knot c.knots (i + 1)) with hy
      have hyu : y ≤ upper := min_le_left _ _
      have hyk : y ≤ knot c.knots (i + 1) := min_le_right _ _
      have hly : lower ≤ y := le_min (hx1.trans hx2) hnx
      have hnext' : i + 1 < m → lower ≤ knot c.knots (i + 1 + 1) := fun h =>
        hnx.trans (knot_mono hs (by omega) (by omega))
      have hyc : y = upper ∨ y = knot c.knots (i + 1) := by
        rcases le_total upper (knot c.knots (i + 1)) with h | h
        · left; rw [hy, min_eq_left h]
        · right; rw [hy, min_eq_right h]
      -- the state after the sampling
      have key : ∃ b', samplePieceIf f p num x y b = ok b' ∧
          Upto c.knots num lower upper big (fun t => sqNorm (p - e0 t)) (max x y) b' := by
        unfold samplePieceIf
        by_cases hgt : y > x
        · rw [if_pos hgt]
          have hP : Piece c.knots lower upper x y := by
            refine ⟨hx1, hgt, hyu, ?_, ?_, ?_⟩
            · rcases hxe with h | h
              · exact Or.inl h
              · right; rw [h]; exact knot_mem (by omega)
            · rcases hyc with h | h
              · exact Or.inl h
              · right; rw [h]; exact knot_mem (by omega)
            · rintro z hz ⟨g1, g2⟩
              exact no_knot hs (by omega) hz ⟨lt_of_le_of_lt hk g1, lt_of_lt_of_le g2 hyk⟩
          obtain ⟨b', e, d1, d2, d3⟩ := samplePiece_spec (f := f) (p := p) (num := num) (lo := x)
            (hi := y) (e0 := e0) (fun j hj => by
              obtain ⟨g1, g2⟩ := sampleAt_mem (K := K) hn hgt.le hj
              exact h0 _ (hx1.trans g1) (g2.trans hyu)) b
          refine ⟨b', e, ?_, ?_⟩
          · intro a z hz hzy j hj
            rw [max_eq_right hgt.le] at hzy
            rcases le_or_gt z x with h | h
            · exact d1.trans (hU.le a z hz h j hj)
            · have ea : a = x := by
                apply le_antisymm
                · by_contra hax
                  push Not at hax
                  rcases hz.left with g | g
                  · rw [g] at hax; exact absurd hx1 (not_le.2 hax)
                  · exact no_knot hs (by omega) g ⟨lt_of_le_of_lt hk hax,
                      lt_of_lt_of_le (lt_of_lt_of_le hz.lt hzy) hyk⟩
                · by_contra hax
                  push Not at hax
                  rcases hxe with g | g
                  · exact absurd hz.lo (not_le.2 (g ▸ hax))
                  · exact hz.none x (g ▸ knot_mem (by omega)) ⟨hax, h⟩
              have ez : z = y := by
                apply le_antisymm hzy
                by_contra hzz
                push Not at hzz
                rcases hz.right with g | g
                · exact absurd hyu (not_le.2 (g ▸ hzz))
                · exact no_knot hs (by omega) g ⟨lt_of_le_of_lt hk h, lt_of_lt_of_le hzz hyk⟩
              rw [ea, ez]
              exact d2 j hj
          · rcases d3 with d3 | ⟨j, hj, d3⟩
            · rw [d3]; exact hU.pick
            · exact Or.inr ⟨x, y, hP, j, hj, d3⟩
        · rw [if_neg hgt]
          refine ⟨b, rfl, ?_⟩
          rw [max_eq_left (not_lt.1 hgt)]
          exact hU
      obtain ⟨b', e, hb'⟩ := key
      rw [e, ok_bind]
      have hxy : x ≤ y := by
        rcases hxe with h | h
        · rw [h]; exact hly
        · exact le_min hx2 (h ▸ hmono)
      rw [max_eq_right hxy] at hb'
      rcases hyc with hc | hc
      · -- the end is reached
        rw [hc] at hb' ⊢
        refine ⟨b', ?_, hb'⟩
        obtain ⟨k, rfl⟩ : ∃ k, fuel = k + 1 := ⟨fuel - 1, by omega⟩
        unfold spans
        rw [if_neg (lt_irrefl _)]
      · exact ih (i + 1) y b' (by omega) (by omega) hly hyu (hc ▸ le_rfl) (Or.inr hc) hnext' hb'
    · rw [if_neg hlt]
      have : x = upper := le_antisymm hx2 (not_lt.1 hlt)
      exact ⟨b, rfl, this ▸ hU⟩

theorem exists_piece {c : BSpline K W} {lower upper : K} (hlt : lower < upper) :
    ∃ b, Piece c.knots lower upper lower b := by
  classical
  set S := (c.knots.toFinset.filter (fun x => lower < x ∧ x < upper)) with hS
  rcases S.eq_empty_or_nonempty with h | h
  · refine ⟨upper, le_rfl, hlt, le_rfl, Or.inl rfl, Or.inl rfl, ?_⟩
    intro x hx hh
    have : x ∈ S := by rw [hS]; simp [hx, hh]
    rw [h] at this
    simp at this
  · have hmem : ∀ x, x ∈ S → x ∈ c.knots ∧ lower < x ∧ x < upper := by
      intro x hx; rwa [hS, Finset.mem_filter, List.mem_toFinset] at hx
    have hm := hmem _ (S.min'_mem h)
    refine ⟨S.min' h, le_rfl, hm.2.1, hm.2.2.le, Or.inl rfl, Or.inr hm.1, ?_⟩
    rintro x hx ⟨h1, h2⟩
    have : x ∈ S := by
      rw [hS, Finset.mem_filter, List.mem_toFinset]
      exact ⟨hx, h1, h2.trans hm.2.2⟩
    exact absurd (S.min'_le x this) (not_le.2 h2)

theorem exists_last_piece {c : BSpline K W} {lower upper : K} (hlt : lower < upper) :
    ∃ a, Piece c.knots lower upper a upper := by
  classical
  set S := (c.knots.toFinset.filter (fun x => lower < x ∧ x < upper)) with hS
  rcases S.eq_empty_or_nonempty with h | h
  · refine ⟨lower, le_rfl, hlt, le_rfl, Or.inl rfl, Or.inl rfl, ?_⟩
    intro x hx hh
    have : x ∈ S := by rw [hS]; simp [hx, hh]
    rw [h] at this
    simp at this
  · have hmem : ∀ x, x ∈ S → x ∈ c.knots ∧ lower < x ∧ x < upper := by
      intro x hx; rwa [hS, Finset.mem_filter, List.mem_toFinset] at hx
    have hm := hmem _ (S.max'_mem h)
    refine ⟨S.max' h, hm.2.1.le, hm.2.2, le_rfl, Or.inr hm.1, Or.inl rfl, ?_⟩
    rintro x hx ⟨h1, h2⟩
    have : x ∈ S := by
      rw [hS, Finset.mem_filter, List.mem_toFinset]
      exact ⟨hx, hm.2.1.trans h1, h2⟩
    exact absurd (S.le_max' x this) (not_le.2 h1)

theorem num_eq {c : BSpline K W} {p : ℕ} (hc : WellFormed c p) :
    (2 * (c.degree + 1)).toNat = 2 * (p + 1) := by
  rw [degree_eq hc]; omega

theorem validate_ok {c : BSpline K W} {p : ℕ} (hc : WellFormed c p) : c.validate = ok () := by
  unfold validate throwIf
  rw [if_neg]
  rw [degree_eq hc]
  rintro (h | ⟨h1, h2⟩)
  · omega
  · rcases hc.sdeg with h | h
    · rw [h] at h1; simp at h1
    · rw [h] at h2; simp at h2

theorem locate_lower {c : BSpline K W} {d : ℕ} (hc : WellFormed c d) {t : K}
    (hlo : knot c.knots d ≤ t) (hlt : t < knot c.knots c.ctrl.length) :
    ∃ k : ℕ, c.locateSpan t = ok (k : ℤ) ∧ d ≤ k ∧ k < c.ctrl.length ∧
      knot c.knots k ≤ t ∧ t ≤ knot c.knots (k + 1) := by
  have hlen := hc.len
  have hctrl := hc.ctrl
  rcases eq_or_lt_of_le hlo with h | h
  · refine ⟨d, ?_, le_rfl, by omega, hlo, h ▸ knot_mono hc.sorted (by omega) (by omega)⟩
    unfold locateSpan
    have hp : c.degree.toNat = d := by rw [degree_eq hc]; simp
    rw [assert_true (by omega), ok_bind]
    simp only [hp]
    rw [rd_knot (by omega), ok_bind, if_pos h.ge]
  · obtain ⟨k, a1, a2, a3, -, a4, -⟩ := locateSpan_spec hc t (Or.inr h)
    have := a4 hlo hlt
    exact ⟨k, a1, a2, a3, this.1, this.2.le⟩

/-- One round on a curve that is not periodic. -/
theorem round_spec {c : BSpline K W} {d : ℕ} (hc : WellFormed c d) (hper : c.periodic = false)
    {f : CurveFn K V} {p : V} {lower upper big : K} {e0 : K → V} (hlt : lower < upper)
    (hlo : knot c.knots d ≤ lower) (hup : upper ≤ knot c.knots c.ctrl.length)
    (h0 : ∀ t, lower ≤ t → t ≤ upper → f.ev t = ok (e0 t))
    (hb : ∀ t, lower ≤ t → t ≤ upper → (sqNorm (p - e0 t) : K) < big) {fuel : ℕ}
    (hfuel : c.knots.length ≤ fuel) :
    ∃ b, round fuel big c f p lower upper = ok b ∧
      (∃ a e, Piece c.knots lower upper a e ∧ ∃ j ≤ 2 * (d + 1),
        b = ⟨sqNorm (p - e0 (sampleAt (2 * (d + 1)) a e j)), sampleAt (2 * (d + 1)) a e j,
          (e - a) / ((2 * (d + 1) : ℕ) : K)⟩) ∧
      ∀ t, IsSample c.knots (2 * (d + 1)) lower upper t → b.dist ≤ sqNorm (p - e0 t) := by
  have hlen := hc.len
  have hctrl := hc.ctrl
  have hn : 0 < 2 * (d + 1) := by omega
  unfold round
  rw [assert_true hlt.le, ok_bind, validate_ok hc, ok_bind, num_eq hc]
  obtain ⟨k, e1, k1, k2, k3, k4⟩ := locate_lower hc hlo (lt_of_lt_of_le hlt hup)
  rw [e1, ok_bind, lower_eq hc, ok_bind, upper_eq hc, ok_bind]
  unfold periodCount
  simp only [hper, Bool.false_eq_true, if_false, ok_bind]
  obtain ⟨b, e, hU⟩ := spans_spec hc.sorted hper hn (big := big) (period := knot c.knots c.ctrl.length - knot c.knots d) h0
    (show c.ctrl.length < c.knots.length by omega) hup fuel k lower ⟨big, 0, 0⟩ (by omega) (by omega)
    le_rfl hlt.le k3 (Or.inl rfl) (fun _ => k4)
    ⟨fun a e hp he => absurd (lt_of_le_of_lt hp.lo hp.lt) (not_lt.2 he), Or.inl rfl⟩
  refine ⟨b, e, ?_, ?_⟩
  · rcases hU.pick with h | h
    · obtain ⟨x, hx⟩ := exists_piece (c := c) hlt
      have h1 := hU.le lower x hx hx.hi 0 (by omega)
      rw [sampleAt_zero, h] at h1
      exact absurd h1 (not_le.2 (hb _ le_rfl hlt.le))
    · exact h
  · rintro t ⟨a, e, hP, j, hj, rfl⟩
    exact hU.le a e hP hP.hi j hj

/-- The next range contains the current best sample as one of its samples. -/
theorem next_sample {knots : List K} {num : ℕ} (hn : 0 < num) (hev : Even num) {lower upper a b : K}
    (hP : Piece knots lower upper a b) {j : ℕ} (hj : j ≤ num) (lo hi : K)
    (elo : lo = min upper (max lower (sampleAt num a b j - (b - a) / num)))
    (ehi : hi = min upper (max lower (sampleAt num a b j + (b - a) / num))) :
    lower ≤ lo ∧ lo < hi ∧ hi ≤ upper ∧ IsSample knots num lo hi (sampleAt num a b j) := by
  have hn' : (0 : K) < num := by exact_mod_cast hn
  have hab := hP.lt
  have hla := hP.lo
  have hbu := hP.hi
  generalize hD : (b - a) / (num : K) = D at *
  have hDp : 0 < D := hD ▸ div_pos (sub_pos.2 hab) hn'
  have hbD : b = a + num * D := by rw [← hD]; field_simp; ring
  have hs : sampleAt num a b j = a + j * D := by unfold sampleAt; rw [← hD]; ring
  have hj0 : (0 : K) ≤ j := by positivity
  have hj1 : (j : K) ≤ num := by exact_mod_cast hj
  have hnum1 : (1 : K) ≤ num := by exact_mod_cast hn
  have hsub : ∀ lo' hi' : K, a ≤ lo' → hi' ≤ b → ∀ x ∈ knots, ¬(lo' < x ∧ x < hi') :=
    fun lo' hi' g1 g2 x hx g => hP.none x hx ⟨lt_of_le_of_lt g1 g.1, lt_of_lt_of_le g.2 g2⟩
  rw [hs] at elo ehi ⊢
  have hst1 : a ≤ a + j * D := by nlinarith
  have hst2 : a + j * D ≤ b := by nlinarith
  have hloL : lower ≤ lo := by
    rw [elo]; exact le_min (by linarith) (le_max_left _ _)
  have hhiU : hi ≤ upper := by rw [ehi]; exact min_le_left _ _
  have hlo' : lo = max lower (a + j * D - D) := by
    rw [elo, min_eq_right]
    exact max_le (by linarith) (by linarith)
  have hhi' : hi = min upper (a + j * D + D) := by
    rw [ehi, max_eq_right (by linarith)]
  have hlohi : lo < hi := by
    rw [hlo', hhi']
    refine max_lt (lt_min (by linarith) (by linarith)) (lt_min (by linarith) (by linarith))
  refine ⟨hloL, hlohi, hhiU, ?_⟩
  rcases Nat.eq_zero_or_pos j with rfl | hjp
  · -- left end of the piece
    simp only [Nat.cast_zero, zero_mul, add_zero] at *
    have e1 : hi = a + D := by rw [hhi', min_eq_right]; nlinarith
    refine ⟨a, hi, ⟨?_, by linarith, le_rfl, ?_, Or.inl rfl, hsub _ _ le_rfl (by nlinarith)⟩, 0,
      by omega, by simp⟩
    · rw [hlo']; exact max_le hla (by linarith)
    · rcases hP.left with h | h
      · left; rw [hlo', h, max_eq_left (by linarith)]
      · exact Or.inr h
  · have hjp' : (1 : K) ≤ j := by exact_mod_cast hjp
    rcases Nat.lt_or_ge j num with hjn | hjn
    · -- inside
      have hjn' : (j : K) + 1 ≤ num := by exact_mod_cast hjn
      have g1 : a ≤ a + j * D - D := by nlinarith
      have g2 : a + j * D + D ≤ b := by nlinarith
      have e1 : lo = a + j * D - D := by rw [hlo', max_eq_right]; linarith
      have e2 : hi = a + j * D + D := by rw [hhi', min_eq_right]; linarith
      obtain ⟨m, hm⟩ := hev
      refine ⟨lo, hi, ⟨le_rfl, hlohi, le_rfl, Or.inl rfl, Or.inl rfl, hsub _ _ (by linarith)
        (by linarith)⟩, m, by omega, ?_⟩
      have := sampleAt_mid (K := K) (show num = 2 * m by omega) hn (a + j * D) D
      rw [e1, e2]
      exact this.symm
    · have hjeq : j = num := by omega
      subst hjeq
      have eb : a + (j : K) * D = b := hbD.symm
      rw [eb] at hlo' hhi' ⊢
      have haD : a ≤ b - D := by nlinarith
      have e1 : lo = b - D := by rw [hlo', max_eq_right]; linarith
      refine ⟨lo, b, ⟨le_rfl, by linarith, ?_, Or.inl rfl, ?_, hsub _ _ (by linarith) le_rfl⟩, j,
        le_rfl, ?_⟩
      · rw [hhi']; exact le_min hbu (by linarith)
      · rcases hP.right with h | h
        · left; rw [hhi', h, min_eq_left (by linarith)]
        · exact Or.inr h
      · rw [div_self hn'.ne']; ring

/-- The rounds put together: `knots` are the cuts the rounds respect. -/
theorem approxInverse_of_round {c : BSpline K W} {knots : List K} {d : ℕ} {f : CurveFn K V} {p : V}
    {big tol : K} {e0 : K → V} {fuel : ℕ} {A B : K}
    (hround : ∀ {lower upper : K}, lower < upper → A ≤ lower → upper ≤ B →
      (∀ t, lower ≤ t → t ≤ upper → f.ev t = ok (e0 t)) →
      (∀ t, lower ≤ t → t ≤ upper → (sqNorm (p - e0 t) : K) < big) →
      ∃ b, round fuel big c f p lower upper = ok b ∧
        (∃ a e, Piece knots lower upper a e ∧ ∃ j ≤ 2 * (d + 1),
          b = ⟨sqNorm (p - e0 (sampleAt (2 * (d + 1)) a e j)), sampleAt (2 * (d + 1)) a e j,
            (e - a) / ((2 * (d + 1) : ℕ) : K)⟩) ∧
        ∀ t, IsSample knots (2 * (d + 1)) lower upper t → b.dist ≤ sqNorm (p - e0 t)) :
    ∀ {level : ℕ} {lower upper : K}, lower < upper → A ≤ lower → upper ≤ B →
    (∀ t, lower ≤ t → t ≤ upper → f.ev t = ok (e0 t)) →
    (∀ t, lower ≤ t → t ≤ upper → (sqNorm (p - e0 t) : K) < big) →
    ∃ lo hi t', lower ≤ lo ∧ lo < hi ∧ hi ≤ upper ∧ lo ≤ t' ∧ t' ≤ hi ∧
      approxInverse fuel big tol c f p level lower upper = newtonRaphson f p t' 10 tol lo hi ∧
      ∀ t, IsSample knots (2 * (d + 1)) lower upper t →
        (sqNorm (p - e0 t') : K) ≤ sqNorm (p - e0 t) := by
  have hn : 0 < 2 * (d + 1) := by omega
  intro level
  induction level with
  | zero =>
    intro lower upper hlt hlo hup h0 hb
    obtain ⟨b, e, ⟨a, x, hP, j, hj, rfl⟩, hm⟩ := hround hlt hlo hup h0 hb
    obtain ⟨g1, g2⟩ := sampleAt_mem (K := K) hn hP.lt.le hj
    refine ⟨lower, upper, sampleAt (2 * (d + 1)) a x j, le_rfl, hlt, le_rfl, hP.lo.trans g1,
      g2.trans hP.hi, ?_, hm⟩
    rw [approxInverse, e, ok_bind]
  | succ level ih =>
    intro lower upper hlt hlo hup h0 hb
    obtain ⟨b, e, ⟨a, x, hP, j, hj, rfl⟩, hm⟩ := hround hlt hlo hup h0 hb
    obtain ⟨g1, g2, g3, g4⟩ := next_sample hn ⟨d + 1, by ring⟩ hP hj _ _ rfl rfl
    obtain ⟨lo, hi, t', a1, a2, a3, a4, a5, a6, a7⟩ := ih g2 (hlo.trans g1) (g3.trans hup)
      (fun t x y => h0 t (g1.trans x) (y.trans g3)) (fun t x y => hb t (g1.trans x) (y.trans g3))
    refine ⟨lo, hi, t', g1.trans a1, a2, a3.trans g3, a4, a5, ?_, ?_⟩
    · rw [approxInverse, e, ok_bind]
      exact a6
    · intro t ht
      exact (a7 _ g4).trans (hm t ht)

/-! ### Periodic curves -/

/-- One round on a periodic curve: the range is not cut at the knots. -/
theorem round_periodic {c : BSpline K W} {d : ℕ} (hc : WellFormed c d) (hper : c.periodic = true)
    {f : CurveFn K V} {p : V} {lower upper big : K} {e0 : K → V} (hlt : lower < upper)
    (hlo : knot c.knots d ≤ lower) (hup : upper ≤ knot c.knots c.ctrl.length)
    (h0 : ∀ t, lower ≤ t → t ≤ upper → f.ev t = ok (e0 t))
    (hb : ∀ t, lower ≤ t → t ≤ upper → (sqNorm (p - e0 t) : K) < big) {fuel : ℕ}
    (hfuel : 2 ≤ fuel) :
    ∃ b, round fuel big c f p lower upper = ok b ∧
      (∃ a e, Piece [] lower upper a e ∧ ∃ j ≤ 2 * (d + 1),
        b = ⟨sqNorm (p - e0 (sampleAt (2 * (d + 1)) a e j)), sampleAt (2 * (d + 1)) a e j,
          (e - a) / ((2 * (d + 1) : ℕ) : K)⟩) ∧
      ∀ t, IsSample [] (2 * (d + 1)) lower upper t → b.dist ≤ sqNorm (p - e0 t) := by
  have hlen := hc.len
  have hctrl := hc.ctrl
  have hdom := hc.dom
  have hn : 0 < 2 * (d + 1) := by omega
  have hper0 : 0 < knot c.knots c.ctrl.length - knot c.knots d := sub_pos.2 hdom
  unfold round
  rw [assert_true hlt.le, ok_bind, validate_ok hc, ok_bind, num_eq hc]
  obtain ⟨k, e1, k1, k2, -⟩ := locate_lower hc hlo (lt_of_lt_of_le hlt hup)
  rw [e1, ok_bind, lower_eq hc, ok_bind, upper_eq hc, ok_bind]
  have hfl : ⌊(lower - knot c.knots d) / (knot c.knots c.ctrl.length - knot c.knots d)⌋ = 0 := by
    rw [Int.floor_eq_zero_iff]
    refine ⟨div_nonneg (by linarith) hper0.le, ?_⟩
    rw [div_lt_one hper0]; linarith
  have hcount : periodCount c lower (knot c.knots d)
      (knot c.knots c.ctrl.length - knot c.knots d) = ok 0 := by
    unfold periodCount
    rw [if_pos hper, assert_true hper0.ne', ok_bind]
    simp only [hfl]
    rw [assert_true (by simpa using hlo), ok_bind, assert_true (by push_cast; linarith), ok_bind]
    rfl
  dsimp only
  rw [hcount, ok_bind]
  obtain ⟨fuel, rfl⟩ : ∃ n, fuel = n + 2 := ⟨fuel - 2, by omega⟩
  unfold spans
  rw [if_pos hlt, if_neg (by rw [hper]; simp)]
  have hw : (c.periodic && decide ((k : ℤ) + 1 < (c.knots.length : ℤ))) = true := by
    rw [hper]; simp; omega
  simp only [hw, if_true]
  have e2 : c.degree + 1 = ((d + 1 : ℕ) : ℤ) := by rw [degree_eq hc]; push_cast; rfl
  have e3 : min upper (knot c.knots (d + 1) + (((0 : ℤ) + 1 : ℤ) : K)
      * (knot c.knots c.ctrl.length - knot c.knots d)) = upper := by
    apply min_eq_left
    have := knot_mono hc.sorted (show d ≤ d + 1 by omega) (by omega)
    push_cast
    linarith
  rw [e2, rdI_natCast, rd_knot (by omega), ok_bind, e3]
  unfold samplePieceIf
  rw [if_pos hlt]
  obtain ⟨b, e, d1, d2, d3⟩ := samplePiece_spec (f := f) (p := p) (num := 2 * (d + 1)) (lo := lower)
    (hi := upper) (e0 := e0) (fun j hj => by
      obtain ⟨g1, g2⟩ := sampleAt_mem (K := K) hn hlt.le hj
      exact h0 _ g1 g2) ⟨big, 0, 0⟩
  refine ⟨b, ?_, ?_, ?_⟩
  · rw [e, ok_bind]
    unfold spans
    rw [if_neg (lt_irrefl _)]
  · rcases d3 with h | ⟨j, hj, h⟩
    · have := d2 0 (by omega)
      rw [sampleAt_zero, h] at this
      exact absurd this (not_le.2 (hb _ le_rfl hlt.le))
    · exact ⟨lower, upper, ⟨le_rfl, hlt, le_rfl, Or.inl rfl, Or.inl rfl, by simp⟩, j, hj, h⟩
  · rintro t ⟨a, x, hP, j, hj, rfl⟩
    have ha : a = lower := by simpa using hP.left
    have hx : x = upper := by simpa using hP.right
    subst ha hx
    exact d2 j hj

end SpanSearch

end NS
