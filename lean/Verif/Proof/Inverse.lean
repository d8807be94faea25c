import Mathlib.Tactic.Linarith
import Mathlib.Tactic.Positivity
import Mathlib.Tactic.FieldSimp
import Mathlib.Tactic.Ring
import Verif.Model.Inverse

/-!
# Inverse evaluation: ranges and residuals
-/

set_option linter.unusedSectionVars false
set_option linter.unusedSimpArgs false

namespace NS

open Outcome Geom

variable {K V : Type} [Field K] [LinearOrder K] [IsStrictOrderedRing K] [FloorRing K]
  [AddCommGroup V] [Module K V] [Geom K V]

/-- Result of the loop lies in the range. -/
theorem newtonCurve_mem {c : CurveFn K V} {p : V} {tol lower upper : K} (hlu : lower ≤ upper) :
    ∀ {n : ℕ} {t pt pe r : K}, lower ≤ t → t ≤ upper → lower ≤ pt → pt ≤ upper →
      newtonCurve c p tol lower upper n t pt pe = ok r → lower ≤ r ∧ r ≤ upper := by
  intro n
  induction n with
  | zero => intro t pt pe r h1 h2 _ _ e; cases e; exact ⟨h1, h2⟩
  | succ n ih =>
    intro t pt pe r h1 h2 h3 h4 e
    unfold newtonCurve at e
    obtain ⟨d0, -, e⟩ := bind_eq_ok.1 e
    obtain ⟨d1, -, e⟩ := bind_eq_ok.1 e
    obtain ⟨d2, -, e⟩ := bind_eq_ok.1 e
    simp only at e
    split at e
    · cases e; exact ⟨h1, h2⟩
    split at e
    · cases e; exact ⟨h3, h4⟩
    split at e
    · split at e
      · cases e
      split at e
      · cases e; exact ⟨le_rfl, hlu⟩
      · cases e; exact ⟨hlu, le_rfl⟩
    split at e
    · cases e; exact ⟨le_rfl, hlu⟩
    split at e
    · cases e; exact ⟨hlu, le_rfl⟩
    · rename_i a b
      exact ih (not_le.1 a).le (not_le.1 b).le h1 h2 e

/-- With evaluators that return and a positive tolerance the loop returns. -/
theorem newtonCurve_returns {c : CurveFn K V} {p : V} {tol lower upper : K} (ht : 0 < tol)
    {e0 e1 e2 : K → V} (h0 : ∀ t, lower ≤ t → t ≤ upper → c.ev t = ok (e0 t))
    (h1 : ∀ t, lower ≤ t → t ≤ upper → c.d1 t = ok (e1 t))
    (h2 : ∀ t, lower ≤ t → t ≤ upper → c.d2 t = ok (e2 t)) :
    ∀ {n : ℕ} {t pt pe : K}, lower ≤ t → t ≤ upper →
      ∃ r, newtonCurve c p tol lower upper n t pt pe = ok r := by
  intro n
  induction n with
  | zero => intro t pt pe _ _; exact ⟨_, rfl⟩
  | succ n ih =>
    intro t pt pe a b
    unfold newtonCurve
    rw [h0 t a b, ok_bind, h1 t a b, ok_bind, h2 t a b, ok_bind]
    simp only
    split
    · exact ⟨_, rfl⟩
    rename_i he
    split
    · exact ⟨_, rfl⟩
    split
    · split
      · rename_i hf
        rw [hf, abs_zero] at he
        exact absurd ht he
      split <;> exact ⟨_, rfl⟩
    split
    · exact ⟨_, rfl⟩
    split
    · exact ⟨_, rfl⟩
    · rename_i a b
      exact ih (not_le.1 a).le (not_le.1 b).le

/-- The residual `(p - C(t)) · C'(t)` of the Newton iteration, and its derivative. -/
def resid (e0 e1 : K → V) (p : V) (t : K) : K := dot (p - e0 t) (e1 t)
def residD (e0 e1 e2 : K → V) (p : V) (t : K) : K := dot (p - e0 t) (e2 t) - sqNorm (e1 t)

theorem newtonCurve_resid {c : CurveFn K V} {p : V} {tol lower upper : K} (ht : 0 < tol)
    {e0 e1 e2 : K → V} (h0 : ∀ t, lower ≤ t → t ≤ upper → c.ev t = ok (e0 t))
    (h1 : ∀ t, lower ≤ t → t ≤ upper → c.d1 t = ok (e1 t))
    (h2 : ∀ t, lower ≤ t → t ≤ upper → c.d2 t = ok (e2 t)) {E : K} :
    ∀ {n : ℕ} {t pt pe r : K}, lower ≤ t → t ≤ upper →
      ((pe < 0 ∧ |resid e0 e1 p t| ≤ E) ∨
        (pe = |resid e0 e1 p pt| ∧ 0 < pe ∧ pe ≤ E ∧ residD e0 e1 e2 p pt ≠ 0 ∧
          t = pt - resid e0 e1 p pt / residD e0 e1 e2 p pt)) →
      newtonCurve c p tol lower upper n t pt pe = ok r →
      r = lower ∨ r = upper ∨ |resid e0 e1 p r| ≤ E ∨
        ∃ s, lower ≤ r ∧ r ≤ upper ∧ |resid e0 e1 p s| ≤ E ∧ residD e0 e1 e2 p s ≠ 0 ∧
          r = s - resid e0 e1 p s / residD e0 e1 e2 p s := by
  intro n
  induction n with
  | zero =>
    intro t pt pe r a b hs e
    cases e
    rcases hs with ⟨_, h⟩ | ⟨rfl, h3, h4, h5, h6⟩
    · exact Or.inr (Or.inr (Or.inl h))
    · exact Or.inr (Or.inr (Or.inr ⟨pt, a, b, h4, h5, h6⟩))
  | succ n ih =>
    intro t pt pe r a b hs e
    unfold newtonCurve at e
    rw [h0 t a b, ok_bind, h1 t a b, ok_bind, h2 t a b, ok_bind] at e
    simp only at e
    split at e
    · rename_i hlt
      cases e
      right; right
      rcases hs with ⟨_, h⟩ | ⟨rfl, h3, h4, h5, h6⟩
      · exact Or.inl h
      · right; exact ⟨pt, a, b, h4, h5, h6⟩
    rename_i hge
    split at e
    · rename_i hbig
      cases e
      right; right; left
      rcases hs with ⟨h, _⟩ | ⟨h, h3, h4, h5, h6⟩
      · exact absurd hbig.1 (not_lt.2 h.le)
      · rw [← h]; exact h4
    rename_i hnb
    have hE : |resid e0 e1 p t| ≤ E := by
      rcases hs with ⟨_, h⟩ | ⟨h, h3, h4, h5, h6⟩
      · exact h
      · by_contra hc
        exact hnb ⟨h3, lt_of_le_of_lt h4 (not_le.1 hc)⟩
    split at e
    · split at e
      · cases e
      split at e
      · cases e; exact Or.inl rfl
      · cases e; exact Or.inr (Or.inl rfl)
    rename_i hdf
    split at e
    · cases e; exact Or.inl rfl
    split at e
    · cases e; exact Or.inr (Or.inl rfl)
    · rename_i x y
      refine ih (not_le.1 x).le (not_le.1 y).le (Or.inr ⟨rfl, ?_, hE, hdf, rfl⟩) e
      exact lt_of_lt_of_le ht (not_lt.1 hge)

/-- Position of sample `i`. -/
def sampleAt (num : ℕ) (lower upper : K) (i : ℕ) : K :=
  lower + (i : K) / (num : K) * (upper - lower)

theorem sampleAt_mem {num : ℕ} (hn : 0 < num) {lower upper : K} (h : lower ≤ upper) {i : ℕ}
    (hi : i ≤ num) : lower ≤ sampleAt num lower upper i ∧ sampleAt num lower upper i ≤ upper := by
  have hn' : (0 : K) < num := by exact_mod_cast hn
  have h1 : (0 : K) ≤ (i : K) / num := by positivity
  have h2 : (i : K) / num ≤ 1 := by rw [div_le_one hn']; exact_mod_cast hi
  have h3 : 0 ≤ upper - lower := sub_nonneg.2 h
  unfold sampleAt
  constructor
  · nlinarith
  · nlinarith

theorem closestSample_spec {big : K} {c : CurveFn K V} {p : V} {num : ℕ} {lower upper : K}
    {e0 : K → V} (h0 : ∀ i ≤ num, c.ev (sampleAt num lower upper i) =
      ok (e0 (sampleAt num lower upper i)))
    (hb : ∀ i ≤ num, sqNorm (p - e0 (sampleAt num lower upper i)) < big) :
    ∃ k ≤ num, closestSample big c p num lower upper =
        ok (sqNorm (p - e0 (sampleAt num lower upper k)), sampleAt num lower upper k) ∧
      ∀ i ≤ num, (sqNorm (p - e0 (sampleAt num lower upper k)) : K) ≤
        sqNorm (p - e0 (sampleAt num lower upper i)) := by
  unfold closestSample
  obtain ⟨s, e, hs⟩ := loop_inv
    (fun n (s : K × K) => (n = 0 ∧ s = (big, 0)) ∨
      (∃ k < n, s = (sqNorm (p - e0 (sampleAt num lower upper k)), sampleAt num lower upper k) ∧
        ∀ i < n, (sqNorm (p - e0 (sampleAt num lower upper k)) : K) ≤
          sqNorm (p - e0 (sampleAt num lower upper i))))
    (num + 1) (fun i s => do
      let t := lower + (i : K) / (num : K) * (upper - lower)
      let q ← c.ev t
      let dist : K := sqNorm (p - q)
      pure (if dist < s.1 then (dist, t) else s)) (big, 0) (Or.inl ⟨rfl, rfl⟩) (by
    intro i hi s hs
    have hi' : i ≤ num := by omega
    have e : c.ev (lower + (i : K) / (num : K) * (upper - lower)) =
      ok (e0 (sampleAt num lower upper i)) := h0 i hi'
    simp only
    rw [e, ok_bind, pure_eq]
    refine ⟨_, rfl, Or.inr ?_⟩
    rcases hs with ⟨rfl, rfl⟩ | ⟨k, hk, rfl, hm⟩
    · refine ⟨0, by omega, ?_, ?_⟩
      · rw [if_pos (hb 0 (by omega))]; rfl
      · intro j hj
        have : j = 0 := by omega
        subst this; exact le_rfl
    · by_cases hlt : (sqNorm (p - e0 (sampleAt num lower upper i)) : K) <
          sqNorm (p - e0 (sampleAt num lower upper k))
      · refine ⟨i, by omega, by rw [if_pos hlt]; rfl, ?_⟩
        intro j hj
        rcases Nat.lt_succ_iff_lt_or_eq.1 hj with h | rfl
        · exact hlt.le.trans (hm j h)
        · exact le_rfl
      · refine ⟨k, by omega, by rw [if_neg hlt], ?_⟩
        intro j hj
        rcases Nat.lt_succ_iff_lt_or_eq.1 hj with h | rfl
        · exact hm j h
        · exact not_lt.1 hlt)
  rcases hs with ⟨h, _⟩ | ⟨k, hk, rfl, hm⟩
  · omega
  · exact ⟨k, by omega, e, fun i hi => hm i (by omega)⟩

/-- Without any assumption on the size of the distances: the sample is in the range or is `0`. -/
theorem closestSample_mem {big : K} {c : CurveFn K V} {p : V} {num : ℕ} (hn : 0 < num)
    {lower upper : K} (hlu : lower ≤ upper) {s : K × K}
    (e : closestSample big c p num lower upper = ok s) :
    s = (big, 0) ∨ (lower ≤ s.2 ∧ s.2 ≤ upper) := by
  unfold closestSample at e
  refine loop_inv_of_ok (fun _ (s : K × K) => s = (big, 0) ∨ (lower ≤ s.2 ∧ s.2 ≤ upper))
    (num + 1) _ (big, 0) (Or.inl rfl) ?_ s e
  intro i hi s s' hs e
  obtain ⟨q, -, e⟩ := bind_eq_ok.1 e
  rw [pure_eq, ok.injEq] at e
  subst e
  split
  · exact Or.inr (sampleAt_mem hn hlu (by omega))
  · exact hs


theorem sampleAt_mid {num m : ℕ} (hm : num = 2 * m) (hn : 0 < num) (t d : K) :
    sampleAt num (t - d) (t + d) m = t := by
  have : (m : K) ≠ 0 := by
    have : 0 < m := by omega
    positivity
  unfold sampleAt
  subst hm
  push_cast
  field_simp
  ring

theorem sampleAt_zero (num : ℕ) (a b : K) : sampleAt num a b 0 = a := by simp [sampleAt]

theorem sampleAt_last {num : ℕ} (hn : 0 < num) (a b : K) : sampleAt num a b num = b := by
  have : (num : K) ≠ 0 := by positivity
  unfold sampleAt
  rw [div_self this]; ring

/-- The next search range contains the current best sample, and samples it when `num` is even. -/
theorem next_range {num : ℕ} (hn : 0 < num) {lower upper : K} (h : lower ≤ upper) {k : ℕ}
    (hk : k ≤ num) (lo hi : K)
    (elo : lo = min (max (sampleAt num lower upper k - (upper - lower) / num) lower) upper)
    (ehi : hi = min (max (sampleAt num lower upper k + (upper - lower) / num) lower) upper) :
    lower ≤ lo ∧ lo ≤ hi ∧ hi ≤ upper ∧
    (Even num → ∃ i ≤ num, sampleAt num lo hi i = sampleAt num lower upper k) := by
  obtain ⟨h1, h2⟩ := sampleAt_mem (K := K) hn h hk
  have hn' : (0 : K) < num := by exact_mod_cast hn
  have hd : 0 ≤ (upper - lower) / num := div_nonneg (sub_nonneg.2 h) hn'.le
  refine ⟨?_, ?_, ?_, ?_⟩
  · rw [elo]; exact le_min (le_max_right _ _) h
  · rw [elo, ehi]
    exact min_le_min (max_le_max (by linarith) le_rfl) le_rfl
  · rw [ehi]; exact min_le_right _ _
  · rintro ⟨m, hm⟩
    have hm : num = 2 * m := by omega
    have hdel : (upper - lower) = num * ((upper - lower) / num) := by field_simp
    generalize hD : (upper - lower) / (num : K) = D at *
    have hs : sampleAt num lower upper k = lower + k * D := by
      unfold sampleAt; rw [← hD]; ring
    rcases Nat.eq_zero_or_pos k with rfl | hk0
    · refine ⟨0, by omega, ?_⟩
      rw [sampleAt_zero, sampleAt_zero, elo, sampleAt_zero, max_eq_right (by linarith),
        min_eq_left h]
    · rcases Nat.lt_or_ge k num with hkn | hkn
      · refine ⟨m, by omega, ?_⟩
        have hk1 : (1 : K) ≤ k := by exact_mod_cast hk0
        have hk2 : (k : K) + 1 ≤ num := by exact_mod_cast hkn
        have hup : upper = lower + num * D := by linarith
        rw [elo, ehi, hs, max_eq_left (by nlinarith), max_eq_left (by nlinarith),
          min_eq_left (by nlinarith), min_eq_left (by nlinarith)]
        exact sampleAt_mid hm hn _ _
      · have : k = num := by omega
        subst this
        refine ⟨k, le_rfl, ?_⟩
        rw [sampleAt_last hn, sampleAt_last hn, ehi, sampleAt_last hn,
          max_eq_left (by linarith), min_eq_right (by linarith)]

/-- What the recursive sampling ends with: a Newton run from `t'`, which lies in the last range. -/
theorem approxInverse_spec {big tol : K} {c : CurveFn K V} {p : V} {num : ℕ} (hn : 0 < num)
    {e0 : K → V} : ∀ {level : ℕ} {lower upper : K}, lower ≤ upper →
    (∀ t, lower ≤ t → t ≤ upper → c.ev t = ok (e0 t)) →
    (∀ t, lower ≤ t → t ≤ upper → (sqNorm (p - e0 t) : K) < big) →
    ∃ lo hi t', lower ≤ lo ∧ lo ≤ t' ∧ t' ≤ hi ∧ hi ≤ upper ∧
      approxInverse big tol c p num level lower upper = newtonRaphson c p t' 10 tol lo hi ∧
      (Even num ∨ level = 0 → ∀ i ≤ num, (sqNorm (p - e0 t') : K) ≤
        sqNorm (p - e0 (sampleAt num lower upper i))) := by
  intro level
  induction level with
  | zero =>
    intro lower upper h h0 hb
    obtain ⟨k, hk, e, hm⟩ := closestSample_spec (big := big) (c := c) (p := p) (num := num)
      (lower := lower) (upper := upper) (e0 := e0)
      (fun i hi => h0 _ (sampleAt_mem hn h hi).1 (sampleAt_mem hn h hi).2)
      (fun i hi => hb _ (sampleAt_mem hn h hi).1 (sampleAt_mem hn h hi).2)
    obtain ⟨h1, h2⟩ := sampleAt_mem (K := K) hn h hk
    refine ⟨lower, upper, sampleAt num lower upper k, le_rfl, h1, h2, le_rfl, ?_, fun _ => hm⟩
    rw [approxInverse, assert_true hn, ok_bind, e, ok_bind]
  | succ level ih =>
    intro lower upper h h0 hb
    obtain ⟨k, hk, e, hm⟩ := closestSample_spec (big := big) (c := c) (p := p) (num := num)
      (lower := lower) (upper := upper) (e0 := e0)
      (fun i hi => h0 _ (sampleAt_mem hn h hi).1 (sampleAt_mem hn h hi).2)
      (fun i hi => hb _ (sampleAt_mem hn h hi).1 (sampleAt_mem hn h hi).2)
    obtain ⟨g1, g2, g3, g4⟩ := next_range hn h hk _ _ rfl rfl
    obtain ⟨lo, hi, t', a1, a2, a3, a4, a5, a6⟩ := ih g2
      (fun t x y => h0 t (g1.trans x) (y.trans g3)) (fun t x y => hb t (g1.trans x) (y.trans g3))
    refine ⟨lo, hi, t', g1.trans a1, a2, a3, a4.trans g3, ?_, ?_⟩
    · rw [approxInverse, assert_true hn, ok_bind, e, ok_bind]
      exact a5
    · rintro (hev | h) i hi
      · obtain ⟨j, hj, ej⟩ := g4 hev
        have := a6 (Or.inl hev) j hj
        rw [ej] at this
        exact this.trans (hm i hi)
      · omega

namespace PatchBase

theorem clampTo_mem {lo hi x : K} (h : lo ≤ hi) : lo ≤ clampTo lo hi x ∧ clampTo lo hi x ≤ hi :=
  ⟨le_max_left _ _, max_le h (min_le_left _ _)⟩

theorem clampTo_of_mem {lo hi x : K} (h : lo ≤ x) (h' : x ≤ hi) : clampTo lo hi x = x := by
  unfold clampTo; rw [min_eq_right h', max_eq_right h]

theorem clampStep_mem {lo hi x : K} (h : lo ≤ hi) :
    lo ≤ clampStep lo hi x ∧ clampStep lo hi x ≤ hi := by
  unfold clampStep
  by_cases h1 : x < lo
  · simp only [h1, if_true]
    rw [if_neg (not_lt.2 h)]; exact ⟨le_rfl, h⟩
  · simp only [h1, if_false]
    split
    · exact ⟨h, le_rfl⟩
    · rename_i h2; exact ⟨not_lt.1 h1, not_lt.1 h2⟩

/-- A pair of parameters lies in a box. -/
def InBox (minU maxU minV maxV : K) (x : K × K) : Prop :=
  (minU ≤ x.1 ∧ x.1 ≤ maxU) ∧ (minV ≤ x.2 ∧ x.2 ≤ maxV)

theorem newtonPatch_mem {s : PatchFn K V} {p : V} {tol minU maxU minV maxV : K}
    (hu : minU ≤ maxU) (hv : minV ≤ maxV) :
    ∀ {n : ℕ} {u v : K} {prev : K × K} {pd : K} {r : (K × K) × Bool},
      InBox minU maxU minV maxV (u, v) → InBox minU maxU minV maxV prev →
      newtonPatch s p tol minU maxU minV maxV n u v prev pd = ok r →
      InBox minU maxU minV maxV r.1 := by
  intro n
  induction n with
  | zero => intro u v prev pd r h1 _ e; cases e; exact h1
  | succ n ih =>
    intro u v prev pd r h1 h2 e
    unfold newtonPatch at e
    obtain ⟨q, -, e⟩ := bind_eq_ok.1 e
    simp only at e
    split at e
    · cases e; exact h1
    split at e
    · cases e; exact h2
    obtain ⟨su, -, e⟩ := bind_eq_ok.1 e
    obtain ⟨sv, -, e⟩ := bind_eq_ok.1 e
    split at e
    · cases e; exact h1
    obtain ⟨suu, -, e⟩ := bind_eq_ok.1 e
    obtain ⟨svv, -, e⟩ := bind_eq_ok.1 e
    obtain ⟨suv, -, e⟩ := bind_eq_ok.1 e
    split at e
    · cases e; exact h1
    · exact ih ⟨clampStep_mem hu, clampStep_mem hv⟩ h1 e

/-- The six evaluators return on a box. -/
def Returns (s : PatchFn K V) (minU maxU minV maxV : K) : Prop :=
  ∀ u v, InBox minU maxU minV maxV (u, v) →
    (∃ x, s.ev u v = ok x) ∧ (∃ x, s.du u v = ok x) ∧ (∃ x, s.dv u v = ok x) ∧
    (∃ x, s.duu u v = ok x) ∧ (∃ x, s.dvv u v = ok x) ∧ (∃ x, s.duv u v = ok x)

theorem newtonPatch_returns {s : PatchFn K V} {p : V} {tol minU maxU minV maxV : K}
    (hu : minU ≤ maxU) (hv : minV ≤ maxV) (hs : Returns s minU maxU minV maxV) :
    ∀ {n : ℕ} {u v : K} {prev : K × K} {pd : K}, InBox minU maxU minV maxV (u, v) →
      ∃ r, newtonPatch s p tol minU maxU minV maxV n u v prev pd = ok r := by
  intro n
  induction n with
  | zero => intro u v prev pd _; exact ⟨_, rfl⟩
  | succ n ih =>
    intro u v prev pd h1
    obtain ⟨⟨a, ea⟩, ⟨b, eb⟩, ⟨c, ec⟩, ⟨d, ed⟩, ⟨e, ee⟩, ⟨f, ef⟩⟩ := hs u v h1
    unfold newtonPatch
    rw [ea, ok_bind]
    simp only
    split
    · exact ⟨_, rfl⟩
    split
    · exact ⟨_, rfl⟩
    rw [eb, ok_bind, ec, ok_bind]
    split
    · exact ⟨_, rfl⟩
    rw [ed, ok_bind, ee, ok_bind, ef, ok_bind]
    split
    · exact ⟨_, rfl⟩
    · exact ih ⟨clampStep_mem hu, clampStep_mem hv⟩

/-- Distance to the query: the returned point is not farther than `D` allows, unless the iterations
ran out.  `D` bounds the distance at the start. -/
theorem newtonPatch_dist {s : PatchFn K V} {p : V} {tol minU maxU minV maxV : K} {e0 : K → K → V}
    (hu : minU ≤ maxU) (hv : minV ≤ maxV)
    (h0 : ∀ u v, InBox minU maxU minV maxV (u, v) → s.ev u v = ok (e0 u v)) {D : K} :
    ∀ {n : ℕ} {u v : K} {prev : K × K} {pd : K} {r : (K × K) × Bool},
      InBox minU maxU minV maxV (u, v) →
      ((norm (e0 u v - p) ≤ D ∧ norm (e0 u v - p) ≤ pd) ∨
        (pd ≤ D ∧ norm (e0 prev.1 prev.2 - p) = pd)) →
      newtonPatch s p tol minU maxU minV maxV n u v prev pd = ok r →
      (r.2 = false → norm (e0 r.1.1 r.1.2 - p) ≤ D) ∧
      (r.2 = true → 0 < n → norm (e0 r.1.1 r.1.2 - p) < tol ∨ norm (e0 r.1.1 r.1.2 - p) < D + tol ∨
        norm (e0 r.1.1 r.1.2 - p) ≤ D ∨
        ∃ x y a b, norm (e0 x y - p) ≤ D ∧ InBox minU maxU minV maxV (x, y) ∧
          r.1 = (clampStep minU maxU (x + a), clampStep minV maxV (y + b))) := by
  intro n
  induction n with
  | zero => intro u v prev pd r _ _ e; cases e; exact ⟨fun h => (by cases h), fun _ h => absurd h (by omega)⟩
  | succ n ih =>
    intro u v prev pd r h1 hs e
    unfold newtonPatch at e
    rw [h0 u v h1, ok_bind] at e
    simp only at e
    split at e
    · rename_i hc
      cases e
      refine ⟨fun h => (by cases h), fun _ _ => ?_⟩
      rcases hc with hc | hc
      · exact Or.inl hc
      · rcases hs with hs | ⟨hs, -⟩
        · exact Or.inr (Or.inr (Or.inl hs.1))
        · right; left
          have := (abs_lt.1 hc).2
          linarith
    split at e
    · rename_i hc
      cases e
      refine ⟨fun _ => ?_, fun h => by cases h⟩
      rcases hs with hs | ⟨hs, h⟩
      · exact absurd hc (not_lt.2 hs.2)
      · rw [h]; exact hs
    rename_i hle
    have hD : norm (e0 u v - p) ≤ D := by
      rcases hs with hs | ⟨hs, -⟩
      · exact hs.1
      · exact (not_lt.1 hle).trans hs
    obtain ⟨su, -, e⟩ := bind_eq_ok.1 e
    obtain ⟨sv, -, e⟩ := bind_eq_ok.1 e
    split at e
    · cases e; exact ⟨fun _ => hD, fun _ _ => Or.inr (Or.inr (Or.inl hD))⟩
    obtain ⟨suu, -, e⟩ := bind_eq_ok.1 e
    obtain ⟨svv, -, e⟩ := bind_eq_ok.1 e
    obtain ⟨suv, -, e⟩ := bind_eq_ok.1 e
    split at e
    · cases e; exact ⟨fun _ => hD, fun _ _ => Or.inr (Or.inr (Or.inl hD))⟩
    · rcases Nat.eq_zero_or_pos n with rfl | hn
      · cases e
        refine ⟨fun h => (by cases h), fun _ _ => Or.inr (Or.inr (Or.inr ?_))⟩
        exact ⟨u, v, _, _, hD, h1, rfl⟩
      · obtain ⟨a, b⟩ := ih ⟨clampStep_mem hu, clampStep_mem hv⟩ (Or.inr ⟨hD, rfl⟩) e
        exact ⟨a, fun h _ => b h hn⟩

theorem samplePos_mem {num : ℕ} {lo hi : K} (h : lo ≤ hi) {i : ℕ} (hi' : i ≤ num) :
    lo ≤ samplePos num lo hi i ∧ samplePos num lo hi i ≤ hi := by
  unfold samplePos
  split
  · exact ⟨h, le_rfl⟩
  · rename_i hne
    have hn : 0 < num := by omega
    have hn' : (0 : K) < num := by exact_mod_cast hn
    have h1 : (i : K) ≤ num := by exact_mod_cast hi'
    have h0 : (0 : K) ≤ (i : K) := by positivity
    have h3 : 0 ≤ hi - lo := sub_nonneg.2 h
    constructor
    · have : 0 ≤ (i : K) * (hi - lo) / num := by positivity
      linarith
    · have : (i : K) * (hi - lo) / num ≤ hi - lo := by
        rw [div_le_iff₀ hn']; nlinarith
      linarith

/-- The sampling keeps both candidates in the box, and the first is the closest sample. -/
theorem bestSamples_spec {big : K} {s : PatchFn K V} {p : V} {nu nv : ℕ}
    {minU maxU minV maxV : K} (hu : minU ≤ maxU) (hv : minV ≤ maxV) {e0 : K → K → V}
    (h0 : ∀ u v, InBox minU maxU minV maxV (u, v) → s.ev u v = ok (e0 u v))
    (hb : ∀ u v, InBox minU maxU minV maxV (u, v) → (sqNorm (p - e0 u v) : K) < big) :
    ∃ b, bestSamples big s p nu nv minU maxU minV maxV = ok b ∧
      InBox minU maxU minV maxV b.uv ∧ InBox minU maxU minV maxV b.uv2 ∧
      (∃ i ≤ nu, ∃ j ≤ nv, b.uv = (samplePos nu minU maxU i, samplePos nv minV maxV j)) ∧
      b.dist = sqNorm (p - e0 b.uv.1 b.uv.2) ∧
      ∀ i ≤ nu, ∀ j ≤ nv, b.dist ≤
        sqNorm (p - e0 (samplePos nu minU maxU i) (samplePos nv minV maxV j)) := by
  have hbox : ∀ i ≤ nu, ∀ j ≤ nv,
      InBox minU maxU minV maxV (samplePos nu minU maxU i, samplePos nv minV maxV j) :=
    fun i hi j hj => ⟨samplePos_mem hu hi, samplePos_mem hv hj⟩
  -- state of the scan after the samples `(i, j)` with `i * (nv + 1) + j < k`
  let I : ℕ → ℕ → Best K → Prop := fun i j b =>
    InBox minU maxU minV maxV b.uv ∧ InBox minU maxU minV maxV b.uv2 ∧
    ((i = 0 ∧ j = 0 ∧ b.dist = big) ∨
      ((∃ i ≤ nu, ∃ j ≤ nv, b.uv = (samplePos nu minU maxU i, samplePos nv minV maxV j)) ∧
      b.dist = sqNorm (p - e0 b.uv.1 b.uv.2))) ∧
    (∀ i' j', (i' < i ∧ j' ≤ nv) ∨ (i' = i ∧ j' < j) → i' ≤ nu → j' ≤ nv → b.dist ≤
        sqNorm (p - e0 (samplePos nu minU maxU i') (samplePos nv minV maxV j')))
  unfold bestSamples
  obtain ⟨b, e, hI⟩ := loop_inv (fun i b => I i 0 b) (nu + 1)
    (fun i b => loop (nv + 1) (fun j b => do
      let u := samplePos nu minU maxU i
      let v := samplePos nv minV maxV j
      let q ← s.ev u v
      pure (b.update (sqNorm (p - q)) (u, v))) b) ⟨big, (minU, minV), big, (minU, minV)⟩
    ⟨⟨⟨le_rfl, hu⟩, ⟨le_rfl, hv⟩⟩, ⟨⟨le_rfl, hu⟩, ⟨le_rfl, hv⟩⟩, Or.inl ⟨rfl, rfl, rfl⟩, by
      rintro i' j' (⟨h, _⟩ | ⟨_, h⟩) <;> omega⟩ (by
    intro i hi b hI
    obtain ⟨b', e', hI'⟩ := loop_inv (fun j b => I i j b) (nv + 1)
      (fun j b => do
        let u := samplePos nu minU maxU i
        let v := samplePos nv minV maxV j
        let q ← s.ev u v
        pure (b.update (sqNorm (p - q)) (u, v))) b hI (by
      intro j hj b hI
      have hx := hbox i (by omega) j (by omega)
      simp only
      rw [h0 _ _ hx, ok_bind, pure_eq]
      refine ⟨_, rfl, ?_⟩
      obtain ⟨i1, i2, i3, i4⟩ := hI
      unfold Best.update
      have hlt := hb _ _ hx
      split
      · rename_i hc
        refine ⟨hx, i1, Or.inr ⟨⟨i, by omega, j, by omega, rfl⟩, rfl⟩, ?_⟩
        intro i' j' h h' h''
        by_cases hij : i' = i ∧ j' = j
        · obtain ⟨rfl, rfl⟩ := hij; exact le_rfl
        · exact hc.le.trans (i4 i' j' (by omega) h' h'')
      · rename_i hc
        have hmain : ∀ i' j', (i' < i ∧ j' ≤ nv) ∨ (i' = i ∧ j' < j + 1) → i' ≤ nu → j' ≤ nv →
            b.dist ≤ sqNorm (p - e0 (samplePos nu minU maxU i') (samplePos nv minV maxV j')) := by
          intro i' j' h h' h''
          by_cases hij : i' = i ∧ j' = j
          · obtain ⟨rfl, rfl⟩ := hij; exact not_lt.1 hc
          · exact i4 i' j' (by omega) h' h''
        have h3 : (∃ i ≤ nu, ∃ j ≤ nv,
            b.uv = (samplePos nu minU maxU i, samplePos nv minV maxV j)) ∧
            b.dist = sqNorm (p - e0 b.uv.1 b.uv.2) := by
          rcases i3 with ⟨_, _, h⟩ | h
          · rw [h] at hc; exact absurd hlt hc
          · exact h
        split
        · exact ⟨i1, hx, Or.inr h3, hmain⟩
        · exact ⟨i1, i2, Or.inr h3, hmain⟩)
    refine ⟨b', e', ?_⟩
    obtain ⟨i1, i2, i3, i4⟩ := hI'
    refine ⟨i1, i2, ?_, ?_⟩
    · rcases i3 with ⟨_, h, _⟩ | h
      · omega
      · exact Or.inr h
    · intro i' j' h h' h''
      exact i4 i' j' (by omega) h' h'')
  obtain ⟨i1, i2, i3, i4⟩ := hI
  refine ⟨b, e, i1, i2, ?_, ?_, ?_⟩
  · rcases i3 with ⟨h, _⟩ | h
    · omega
    · exact h.1
  · rcases i3 with ⟨h, _⟩ | h
    · omega
    · exact h.2
  · intro i hi j hj
    exact i4 i j (by omega) hi hj

theorem approxInverse_mem {big tol uR vR : K} {s : PatchFn K V} {p : V} {nu nv : ℕ} (hnu : 0 < nu)
    (hnv : 0 < nv) {e0 : K → K → V} : ∀ {level : ℕ} {minU maxU minV maxV : K}, minU ≤ maxU →
    minV ≤ maxV → (∀ u v, InBox minU maxU minV maxV (u, v) → s.ev u v = ok (e0 u v)) →
    (∀ u v, InBox minU maxU minV maxV (u, v) → (sqNorm (p - e0 u v) : K) < big) →
    ∃ r, approxInverse big tol uR vR s p nu nv level minU maxU minV maxV = ok r ∧
      InBox minU maxU minV maxV r := by
  intro level
  induction level with
  | zero =>
    intro minU maxU minV maxV hu hv h0 hb
    obtain ⟨b, e, i1, -⟩ := bestSamples_spec (nu := nu) (nv := nv) hu hv h0 hb
    exact ⟨b.uv, by rw [approxInverse, e, ok_bind]; rfl, i1⟩
  | succ level ih =>
    intro minU maxU minV maxV hu hv h0 hb
    obtain ⟨b, e, i1, i2, -⟩ := bestSamples_spec (nu := nu) (nv := nv) hu hv h0 hb
    have hdu : 0 ≤ (maxU - minU) / (nu : K) := div_nonneg (sub_nonneg.2 hu) (by positivity)
    have hdv : 0 ≤ (maxV - minV) / (nv : K) := div_nonneg (sub_nonneg.2 hv) (by positivity)
    have hsub : ∀ x : K × K, InBox minU maxU minV maxV x → ∃ r,
        approxInverse big tol uR vR s p nu nv level (max (x.1 - (maxU - minU) / (nu : K)) minU)
        (min (x.1 + (maxU - minU) / (nu : K)) maxU) (max (x.2 - (maxV - minV) / (nv : K)) minV)
        (min (x.2 + (maxV - minV) / (nv : K)) maxV) = ok r ∧ InBox minU maxU minV maxV r := by
      rintro ⟨u, v⟩ ⟨⟨h1, h2⟩, ⟨h3, h4⟩⟩
      simp only at h1 h2 h3 h4 ⊢
      have hsubset : ∀ y, InBox (max (u - (maxU - minU) / (nu : K)) minU)
          (min (u + (maxU - minU) / (nu : K)) maxU) (max (v - (maxV - minV) / (nv : K)) minV)
          (min (v + (maxV - minV) / (nv : K)) maxV) y → InBox minU maxU minV maxV y := by
        rintro y ⟨⟨a, b⟩, ⟨c, d⟩⟩
        exact ⟨⟨(le_max_right _ _).trans a, b.trans (min_le_right _ _)⟩,
          ⟨(le_max_right _ _).trans c, d.trans (min_le_right _ _)⟩⟩
      obtain ⟨r, er, hr⟩ := ih (minU := max (u - (maxU - minU) / (nu : K)) minU)
        (maxU := min (u + (maxU - minU) / (nu : K)) maxU)
        (minV := max (v - (maxV - minV) / (nv : K)) minV)
        (maxV := min (v + (maxV - minV) / (nv : K)) maxV)
        (max_le (le_min (by linarith) (by linarith)) (le_min (by linarith) hu))
        (max_le (le_min (by linarith) (by linarith)) (le_min (by linarith) hv))
        (fun u v h => h0 u v (hsubset _ h)) (fun u v h => hb u v (hsubset _ h))
      exact ⟨r, er, hsubset _ hr⟩
    obtain ⟨r1, e1, hr1⟩ := hsub b.uv i1
    obtain ⟨r2, e2, hr2⟩ := hsub b.uv2 i2
    rw [approxInverse, e, ok_bind, assert_true ⟨hnu, hnv⟩, ok_bind]
    simp only
    split
    · exact ⟨r1, e1, hr1⟩
    · rw [e1, ok_bind, e2, ok_bind, h0 r1.1 r1.2 hr1, ok_bind, h0 r2.1 r2.2 hr2, ok_bind, pure_eq]
      refine ⟨_, rfl, ?_⟩
      split
      · exact hr1
      · exact hr2

theorem samplePos_eq {num : ℕ} (hn : 0 < num) (lo hi : K) (i : ℕ) :
    samplePos num lo hi i = sampleAt num lo hi i := by
  unfold samplePos
  split
  · rename_i h; subst h; exact (sampleAt_last hn lo hi).symm
  · unfold sampleAt; ring

/-- The next search range (clamped differently) again samples the current best position. -/
theorem next_range {num : ℕ} (hn : 0 < num) {lo hi : K} (h : lo ≤ hi) {k : ℕ} (hk : k ≤ num)
    (he : Even num) :
    ∃ i ≤ num, samplePos num (max (samplePos num lo hi k - (hi - lo) / num) lo)
      (min (samplePos num lo hi k + (hi - lo) / num) hi) i = samplePos num lo hi k := by
  have hm := samplePos_mem (num := num) h hk
  have hn' : (0 : K) < num := by exact_mod_cast hn
  have hd : 0 ≤ (hi - lo) / num := div_nonneg (sub_nonneg.2 h) hn'.le
  obtain ⟨-, -, -, g⟩ := NS.next_range (K := K) hn h hk _ _ rfl rfl
  obtain ⟨i, hi', e⟩ := g he
  refine ⟨i, hi', ?_⟩
  rw [samplePos_eq hn] at hm
  rw [samplePos_eq hn, samplePos_eq hn]
  rw [min_eq_left (max_le (by linarith [hm.2]) h : max (sampleAt num lo hi k - (hi - lo) / num) lo
    ≤ hi), max_eq_left (by linarith [hm.1] : lo ≤ sampleAt num lo hi k + (hi - lo) / num)] at e
  exact e

theorem approxInverse_dist (hneg : ∀ x y : V, (sqNorm (x - y) : K) = sqNorm (y - x))
    {big tol uR vR : K} {s : PatchFn K V} {p : V} {nu nv : ℕ} (hnu : 0 < nu)
    (hnv : 0 < nv) (heu : Even nu) (hev : Even nv) {e0 : K → K → V} :
    ∀ {level : ℕ} {minU maxU minV maxV : K}, minU ≤ maxU →
    minV ≤ maxV → (∀ u v, InBox minU maxU minV maxV (u, v) → s.ev u v = ok (e0 u v)) →
    (∀ u v, InBox minU maxU minV maxV (u, v) → (sqNorm (p - e0 u v) : K) < big) →
    ∃ r, approxInverse big tol uR vR s p nu nv level minU maxU minV maxV = ok r ∧
      InBox minU maxU minV maxV r ∧
      ∀ i ≤ nu, ∀ j ≤ nv, (sqNorm (p - e0 r.1 r.2) : K) ≤
        sqNorm (p - e0 (samplePos nu minU maxU i) (samplePos nv minV maxV j)) := by
  intro level
  induction level with
  | zero =>
    intro minU maxU minV maxV hu hv h0 hb
    obtain ⟨b, e, i1, -, -, i4, i5⟩ := bestSamples_spec (nu := nu) (nv := nv) hu hv h0 hb
    exact ⟨b.uv, by rw [approxInverse, e, ok_bind]; rfl, i1, i4 ▸ i5⟩
  | succ level ih =>
    intro minU maxU minV maxV hu hv h0 hb
    obtain ⟨b, e, i1, i2, ⟨iu, hiu, iv, hiv, i3⟩, i4, i5⟩ :=
      bestSamples_spec (nu := nu) (nv := nv) hu hv h0 hb
    have hdu : 0 ≤ (maxU - minU) / (nu : K) := div_nonneg (sub_nonneg.2 hu) (by positivity)
    have hdv : 0 ≤ (maxV - minV) / (nv : K) := div_nonneg (sub_nonneg.2 hv) (by positivity)
    have hsub : ∀ x : K × K, InBox minU maxU minV maxV x → ∃ r,
        approxInverse big tol uR vR s p nu nv level (max (x.1 - (maxU - minU) / (nu : K)) minU)
        (min (x.1 + (maxU - minU) / (nu : K)) maxU) (max (x.2 - (maxV - minV) / (nv : K)) minV)
        (min (x.2 + (maxV - minV) / (nv : K)) maxV) = ok r ∧ InBox minU maxU minV maxV r ∧
        ∀ i ≤ nu, ∀ j ≤ nv, (sqNorm (p - e0 r.1 r.2) : K) ≤
          sqNorm (p - e0 (samplePos nu (max (x.1 - (maxU - minU) / (nu : K)) minU)
            (min (x.1 + (maxU - minU) / (nu : K)) maxU) i)
            (samplePos nv (max (x.2 - (maxV - minV) / (nv : K)) minV)
            (min (x.2 + (maxV - minV) / (nv : K)) maxV) j)) := by
      rintro ⟨u, v⟩ ⟨⟨h1, h2⟩, ⟨h3, h4⟩⟩
      simp only at h1 h2 h3 h4 ⊢
      have hsubset : ∀ y, InBox (max (u - (maxU - minU) / (nu : K)) minU)
          (min (u + (maxU - minU) / (nu : K)) maxU) (max (v - (maxV - minV) / (nv : K)) minV)
          (min (v + (maxV - minV) / (nv : K)) maxV) y → InBox minU maxU minV maxV y := by
        rintro y ⟨⟨a, b⟩, ⟨c, d⟩⟩
        exact ⟨⟨(le_max_right _ _).trans a, b.trans (min_le_right _ _)⟩,
          ⟨(le_max_right _ _).trans c, d.trans (min_le_right _ _)⟩⟩
      obtain ⟨r, er, hr, hd⟩ := ih (minU := max (u - (maxU - minU) / (nu : K)) minU)
        (maxU := min (u + (maxU - minU) / (nu : K)) maxU)
        (minV := max (v - (maxV - minV) / (nv : K)) minV)
        (maxV := min (v + (maxV - minV) / (nv : K)) maxV)
        (max_le (le_min (by linarith) (by linarith)) (le_min (by linarith) hu))
        (max_le (le_min (by linarith) (by linarith)) (le_min (by linarith) hv))
        (fun u v h => h0 u v (hsubset _ h)) (fun u v h => hb u v (hsubset _ h))
      exact ⟨r, er, hsubset _ hr, hd⟩
    obtain ⟨r1, e1, hr1, d1⟩ := hsub b.uv i1
    obtain ⟨r2, e2, hr2, -⟩ := hsub b.uv2 i2
    have hfin : ∀ i ≤ nu, ∀ j ≤ nv, (sqNorm (p - e0 r1.1 r1.2) : K) ≤
        sqNorm (p - e0 (samplePos nu minU maxU i) (samplePos nv minV maxV j)) := by
      intro i hi j hj
      obtain ⟨a, ha, ea⟩ := next_range (K := K) hnu hu hiu heu
      obtain ⟨c, hc, ec⟩ := next_range (K := K) hnv hv hiv hev
      have := d1 a ha c hc
      rw [i3] at this
      simp only at this
      rw [ea, ec] at this
      have h6 := i5 i hi j hj
      rw [i4, i3] at h6
      exact this.trans h6
    rw [approxInverse, e, ok_bind, assert_true ⟨hnu, hnv⟩, ok_bind]
    simp only
    split
    · exact ⟨r1, e1, hr1, hfin⟩
    · rw [e1, ok_bind, e2, ok_bind, h0 r1.1 r1.2 hr1, ok_bind, h0 r2.1 r2.2 hr2, ok_bind, pure_eq]
      refine ⟨_, rfl, ?_⟩
      split
      · exact ⟨hr1, hfin⟩
      · rename_i hlt
        refine ⟨hr2, fun i hi j hj => le_trans ?_ (hfin i hi j hj)⟩
        rw [hneg p, hneg p]
        exact not_lt.1 hlt

end PatchBase

end NS
