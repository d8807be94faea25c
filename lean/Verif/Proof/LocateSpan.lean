import Mathlib.Tactic.Linarith
import Verif.Spec.BSplineValid

/-!
# Correctness of `locate_span` and `get_multiplicity`
-/

set_option linter.unusedSectionVars false

namespace NS.BSpline

open Outcome Spec

variable {K V : Type} [Field K] [LinearOrder K] [IsStrictOrderedRing K] [FloorRing K]
  [AddCommGroup V] [Module K V]

theorem rd_knot {u : List K} {i : ℕ} (h : i < u.length) : rd u i = ok (knot u i) := by
  rw [rd_of_lt h]; simp [knot, h]

theorem knot_mono {u : List K} (hs : u.Pairwise (· ≤ ·)) {i j : ℕ} (hij : i ≤ j)
    (hj : j < u.length) : knot u i ≤ knot u j := by
  rcases Nat.lt_or_ge i j with h | h
  · have := List.pairwise_iff_getElem.mp hs i j (by omega) hj h
    simpa [knot, hj, show i < u.length by omega] using this
  · have : i = j := by omega
    subst this; exact le_rfl

theorem search_spec (u : List K) (t : K) : ∀ f low high, high - low ≤ f → low < high →
    high < u.length → knot u low ≤ t → t < knot u high →
    ∃ mid, search u t f low high = ok mid ∧ low ≤ mid ∧ mid < high ∧ knot u mid ≤ t ∧
      t < knot u (mid + 1) := by
  intro f
  induction f with
  | zero => intro low high h1 h2; omega
  | succ f ih =>
    intro low high h1 h2 h3 h4 h5
    rw [search]
    rw [rd_knot (by omega), ok_bind]
    by_cases hm : t < knot u ((high + low) / 2)
    · rw [if_pos hm]
      have hne : low < (high + low) / 2 := by
        rcases Nat.lt_or_ge low ((high + low) / 2) with h | h
        · exact h
        · have : (high + low) / 2 = low := by omega
          rw [this] at hm
          exact absurd h4 (not_le.mpr hm)
      obtain ⟨mid, a, b, d, e⟩ := ih low ((high + low) / 2) (by omega) hne (by omega) h4 hm
      exact ⟨mid, a, b, by omega, e⟩
    · rw [if_neg hm, rd_knot (by omega), ok_bind]
      by_cases hm2 : t ≥ knot u ((high + low) / 2 + 1)
      · rw [if_pos hm2]
        have hne : low < (high + low) / 2 := by
          rcases Nat.lt_or_ge low ((high + low) / 2) with h | h
          · exact h
          · have e : (high + low) / 2 = low := by omega
            have e2 : (high + low) / 2 + 1 = high := by omega
            rw [e2] at hm2
            exact absurd h5 (not_lt.mpr hm2)
        obtain ⟨mid, a, b, d, e⟩ := ih ((high + low) / 2) high (by omega) (by omega) h3
          (not_lt.mp hm) h5
        exact ⟨mid, a, by omega, d, e⟩
      · rw [if_neg hm2]
        exact ⟨_, rfl, by omega, by omega, not_lt.mp hm, not_le.mp hm2⟩

theorem bypassBefore_spec (u : List K) : ∀ i, i < u.length →
    ∃ j, bypassBefore u i = ok j ∧ j ≤ i ∧ (∀ l, j ≤ l → l ≤ i → knot u l = knot u i) ∧
      (j = 0 ∨ knot u (j - 1) ≠ knot u j) := by
  intro i
  induction i with
  | zero => intro _; exact ⟨0, rfl, le_rfl, fun l h1 h2 => by congr 1; omega, Or.inl rfl⟩
  | succ i ih =>
    intro hi
    rw [bypassBefore, rd_knot hi, ok_bind, rd_knot (by omega), ok_bind]
    by_cases h : knot u (i + 1) = knot u i
    · rw [if_pos h]
      obtain ⟨j, a, b, d, e⟩ := ih (by omega)
      refine ⟨j, a, by omega, ?_, e⟩
      intro l h1 h2
      rcases Nat.lt_or_ge l (i + 1) with h3 | h3
      · rw [d l h1 (by omega), h]
      · congr 1; omega
    · rw [if_neg h]
      exact ⟨i + 1, rfl, le_rfl, fun l h1 h2 => by congr 1; omega, Or.inr (by simpa using Ne.symm h)⟩

theorem degree_eq {c : BSpline K V} {p : ℕ} (hc : WellFormed c p) : c.degree = p := by
  have := hc.len
  unfold degree
  omega

theorem validate_ok {c : BSpline K V} {p : ℕ} (hc : WellFormed c p) : c.validate = ok () := by
  unfold validate
  apply throwIf_false
  rw [degree_eq hc]
  rintro (h | ⟨h1, h2⟩)
  · omega
  · rcases hc.sdeg with h | h
    · simp [h] at h1
    · simp [h] at h2

theorem lower_eq {c : BSpline K V} {p : ℕ} (hc : WellFormed c p) :
    c.lower = ok (knot c.knots p) := by
  have := hc.len; have := hc.ctrl
  rw [lower, degree_eq hc, rdI_natCast, rd_knot (by omega)]

theorem upper_eq {c : BSpline K V} {p : ℕ} (hc : WellFormed c p) :
    c.upper = ok (knot c.knots c.ctrl.length) := by
  have := hc.len; have := hc.ctrl
  have e : (c.knots.length : ℤ) - p - 1 = (c.ctrl.length : ℕ) := by omega
  rw [upper, degree_eq hc, e, rdI_natCast, rd_knot (by omega)]

/-- Everything the callers use about the located span. -/
theorem locateSpan_spec {c : BSpline K V} {p : ℕ} (hc : WellFormed c p) (t : K)
    (hf : FirstSpan c p ∨ knot c.knots p < t) :
    ∃ k : ℕ, c.locateSpan t = ok (k : ℤ) ∧ p ≤ k ∧ k < c.ctrl.length ∧
      knot c.knots k < knot c.knots (k + 1) ∧
      (knot c.knots p ≤ t → t < knot c.knots c.ctrl.length →
        knot c.knots k ≤ t ∧ t < knot c.knots (k + 1)) ∧
      (t ≤ knot c.knots p → k = p) ∧
      (knot c.knots c.ctrl.length ≤ t → knot c.knots (k + 1) = knot c.knots c.ctrl.length) := by
  have hlen := hc.len
  have hctrl := hc.ctrl
  have hdom := hc.dom
  have hp : c.degree.toNat = p := by rw [degree_eq hc]; simp
  have hhigh : c.knots.length - p - 1 = c.ctrl.length := by omega
  unfold locateSpan
  rw [assert_true (by omega), ok_bind]
  simp only [hp, hhigh]
  rw [rd_knot (by omega), ok_bind]
  by_cases h1 : t ≤ knot c.knots p
  · rw [if_pos h1]
    have hfs : FirstSpan c p := by
      rcases hf with h | h
      · exact h
      · exact absurd h1 (not_le.mpr h)
    refine ⟨p, rfl, le_rfl, by omega, hfs, ?_, fun _ => rfl, ?_⟩
    · intro h2 _
      have : t = knot c.knots p := le_antisymm h1 h2
      rw [this]
      exact ⟨le_rfl, hfs⟩
    · intro h2
      exact absurd (lt_of_lt_of_le hdom h2) (not_lt.mpr h1)
  · rw [if_neg h1, rd_knot (by omega), ok_bind]
    push Not at h1
    by_cases h2 : t ≥ knot c.knots c.ctrl.length
    · rw [if_pos h2]
      obtain ⟨j, a, b, d, e⟩ := bypassBefore_spec c.knots c.ctrl.length (by omega)
      have hjp : p < j := by
        by_contra h
        have := d p (by omega) (by omega)
        rw [this] at hdom
        exact lt_irrefl _ hdom
      have hne : knot c.knots (j - 1) ≠ knot c.knots j := by
        rcases e with e | e
        · omega
        · exact e
      have ej : j - 1 + 1 = j := by omega
      refine ⟨j - 1, ?_, by omega, by omega, ?_, ?_, ?_, ?_⟩
      · rw [a, ok_bind]
        congr 1
        omega
      · rw [ej]
        exact lt_of_le_of_ne (knot_mono hc.sorted (by omega) (by omega)) hne
      · intro _ h3; exact absurd h3 (not_lt.mpr h2)
      · intro h3; exact absurd h3 (not_le.mpr h1)
      · intro _; rw [ej]; exact d j le_rfl b
    · rw [if_neg h2]
      push Not at h2
      obtain ⟨mid, a, b, d, e, g⟩ := search_spec c.knots t c.knots.length p c.ctrl.length
        (by omega) (by omega) (by omega) h1.le h2
      rw [a, ok_bind]
      have hlt := lt_of_le_of_lt e g
      have hb : bypassAfter c.knots c.knots.length mid = ok mid := by
        obtain ⟨m, hm⟩ : ∃ m, c.knots.length = m + 1 := ⟨c.knots.length - 1, by omega⟩
        rw [hm, bypassAfter, if_pos (by omega), rd_knot (by omega), ok_bind, rd_knot (by omega),
          ok_bind, if_neg hlt.ne]
      rw [hb, ok_bind]
      exact ⟨mid, rfl, b, by omega, hlt, fun _ _ => ⟨e, g⟩, fun h => absurd h (not_le.mpr h1),
        fun h => absurd h (not_le.mpr h2)⟩

/-- The located span contains the parameter in the sense of the specification. -/
theorem locateSpan_inSpan {c : BSpline K V} {p : ℕ} (hc : WellFormed c p) (t : K)
    (hf : FirstSpan c p ∨ knot c.knots p < t) (h1 : knot c.knots p ≤ t)
    (h2 : t ≤ knot c.knots c.ctrl.length) :
    ∃ k : ℕ, c.locateSpan t = ok (k : ℤ) ∧ p ≤ k ∧ k < c.ctrl.length ∧
      knot c.knots k < knot c.knots (k + 1) ∧
      InSpan (knot c.knots) (knot c.knots c.ctrl.length) k t := by
  obtain ⟨k, a, b, d, e, f, g, h⟩ := locateSpan_spec hc t hf
  refine ⟨k, a, b, d, e, ?_⟩
  unfold InSpan
  split
  · next h3 => exact ⟨e, h h3.ge⟩
  · next h3 => exact f h1 (lt_of_le_of_ne h2 h3)

/-! ### Multiplicity -/

theorem multBefore_spec (u : List K) (k : ℕ) (hk : k < u.length) : ∀ i s, i ≤ k →
    ∃ j, j ≤ i ∧ multBefore u k i s = ok (s + (i - j)) ∧
      (∀ l, j ≤ l → l < i → knot u l = knot u k) ∧ (j = 0 ∨ knot u (j - 1) ≠ knot u k) := by
  intro i
  induction i with
  | zero => intro s _; exact ⟨0, le_rfl, by simp [multBefore], fun l h1 h2 => by omega, Or.inl rfl⟩
  | succ i ih =>
    intro s hi
    rw [multBefore, rd_knot (by omega), ok_bind, rd_knot hk, ok_bind]
    by_cases h : knot u i = knot u k
    · rw [if_pos h]
      obtain ⟨j, a, b, d, e⟩ := ih (s + 1) (by omega)
      refine ⟨j, by omega, ?_, ?_, e⟩
      · rw [b]; congr 1; omega
      · intro l h1 h2
        rcases Nat.lt_or_ge l i with h3 | h3
        · exact d l h1 h3
        · have : l = i := by omega
          rw [this, h]
    · rw [if_neg h]
      exact ⟨i + 1, le_rfl, by simp, fun l h1 h2 => by omega, Or.inr (by simpa using h)⟩

theorem multAfter_spec (u : List K) (k : ℕ) (hk : k < u.length) : ∀ f i s, i + f = u.length →
    ∃ j, i ≤ j ∧ j ≤ u.length ∧ multAfter u k f i s = ok (s + (j - i)) ∧
      (∀ l, i ≤ l → l < j → knot u l = knot u k) ∧
      (j = u.length ∨ knot u j ≠ knot u k) := by
  intro f
  induction f with
  | zero =>
    intro i s h
    exact ⟨i, le_rfl, by omega, by simp [multAfter], fun l h1 h2 => by omega, Or.inl (by omega)⟩
  | succ f ih =>
    intro i s hi
    rw [multAfter, rd_knot (by omega), ok_bind, rd_knot hk, ok_bind]
    by_cases h : knot u i = knot u k
    · rw [if_pos h]
      obtain ⟨j, a, b, d, e, g⟩ := ih (i + 1) (s + 1) (by omega)
      refine ⟨j, by omega, b, ?_, ?_, g⟩
      · rw [d]; congr 1; omega
      · intro l h1 h2
        rcases Nat.lt_or_ge i l with h3 | h3
        · exact e l h3 h2
        · have : l = i := by omega
          rw [this, h]
    · rw [if_neg h]
      exact ⟨i, le_rfl, by omega, by simp, fun l h1 h2 => by omega, Or.inr h⟩

/-- `get_multiplicity(k)` returns the length of the maximal block of equal knots around `k`. -/
theorem multiplicity_block (c : BSpline K V) (k : ℕ) (hk : k < c.knots.length) :
    ∃ a b, a ≤ k ∧ k < b ∧ b ≤ c.knots.length ∧ c.multiplicity k = ok (b - a) ∧
      (∀ l, a ≤ l → l < b → knot c.knots l = knot c.knots k) ∧
      (a = 0 ∨ knot c.knots (a - 1) ≠ knot c.knots k) ∧
      (b = c.knots.length ∨ knot c.knots b ≠ knot c.knots k) := by
  obtain ⟨a, h1, h2, h3, h4⟩ := multBefore_spec c.knots k hk k 1 le_rfl
  obtain ⟨b, g1, g2, g3, g4, g5⟩ := multAfter_spec c.knots k hk (c.knots.length - (k + 1)) (k + 1)
    (1 + (k - a)) (by omega)
  refine ⟨a, b, h1, by omega, g2, ?_, ?_, h4, g5⟩
  · rw [multiplicity, h2, ok_bind, g3]
    congr 1; omega
  · intro l hl1 hl2
    rcases Nat.lt_trichotomy l k with h | h | h
    · exact h3 l hl1 h
    · rw [h]
    · exact g4 l h hl2

/-- On sorted knots it is the number of occurrences in the knot vector. -/
theorem multiplicity_count (c : BSpline K V) (hs : c.knots.Pairwise (· ≤ ·)) (k : ℕ)
    (hk : k < c.knots.length) :
    c.multiplicity k = ok (c.knots.count (knot c.knots k)) := by
  obtain ⟨a, b, h1, h2, h3, h4, h5, h6, h7⟩ := multiplicity_block c k hk
  rw [h4]
  congr 1
  have e : c.knots = c.knots.take a ++ ((c.knots.drop a).take (b - a) ++ c.knots.drop b) := by
    have : c.knots.drop b = (c.knots.drop a).drop (b - a) := by
      rw [List.drop_drop]; congr 1; omega
    rw [this, List.take_append_drop, List.take_append_drop]
  have hget : ∀ i (hi : i < c.knots.length), c.knots[i] = knot c.knots i := by
    intro i hi; simp [knot, hi]
  have c1 : (c.knots.take a).count (knot c.knots k) = 0 := by
    rw [List.count_eq_zero]
    intro hm
    obtain ⟨i, hi, he⟩ := List.getElem_of_mem hm
    have hi' : i < a := by simp at hi; omega
    rw [List.getElem_take, hget] at he
    rcases h6 with h6 | h6
    · omega
    · have m1 := knot_mono hs (i := i) (j := a - 1) (by omega) (by omega)
      have m2 := knot_mono hs (i := a - 1) (j := k) (by omega) (by omega)
      rw [he] at m1
      exact h6 (le_antisymm m2 m1)
  have c2 : ((c.knots.drop a).take (b - a)).count (knot c.knots k) = b - a := by
    have : ∀ x ∈ (c.knots.drop a).take (b - a), knot c.knots k = x := by
      intro x hx
      obtain ⟨i, hi, he⟩ := List.getElem_of_mem hx
      rw [List.getElem_take, List.getElem_drop, hget] at he
      rw [← he]
      exact (h5 (a + i) (by omega) (by simp at hi; omega)).symm
    rw [List.count_eq_length.mpr this]
    simp; omega
  have c3 : (c.knots.drop b).count (knot c.knots k) = 0 := by
    rw [List.count_eq_zero]
    intro hm
    obtain ⟨i, hi, he⟩ := List.getElem_of_mem hm
    have hi' : b + i < c.knots.length := by simp at hi; omega
    rw [List.getElem_drop, hget] at he
    rcases h7 with h7 | h7
    · omega
    · have m1 := knot_mono hs (i := b) (j := b + i) (by omega) (by omega)
      have m2 := knot_mono hs (i := k) (j := b) (by omega) (by omega)
      rw [he] at m1
      exact h7 (le_antisymm m1 m2)
  rw [show c.knots.count (knot c.knots k)
    = (c.knots.take a ++ ((c.knots.drop a).take (b - a) ++ c.knots.drop b)).count (knot c.knots k)
    by rw [← e], List.count_append, List.count_append, c1, c2, c3]
  omega

end NS.BSpline
