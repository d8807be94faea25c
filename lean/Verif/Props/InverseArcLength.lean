import Verif.Model.InverseArcLength
import Verif.Props.Numeric
import Verif.Props.NumericSteps
import Mathlib.Analysis.Calculus.Deriv.MeanValue
import Mathlib.Analysis.SpecialFunctions.ExpDeriv

/-!
# C77: inverse arc length

The Newton iteration of `inverse_arc_length` is right for a correct length function: for increasing speed
it approaches the wanted length from above, for constant speed one step is exact.  With the library's own
`arc_length` (see C47) it is wrong on every curve of constant speed.
-/

set_option linter.unusedSectionVars false
set_option linter.unusedSimpArgs false

namespace NS

open Outcome Geom LawfulGeom

variable {K V : Type} [Field K] [LinearOrder K] [IsStrictOrderedRing K] [FloorRing K]
  [AddCommGroup V] [Module K V] [Geom K V]

/-- `t'` follows from `t` by one Newton step for `len = l`. -/
def NewtonStep (len speed : K → Outcome K) (l t t' : K) : Prop :=
  ∃ a s, len t = ok a ∧ speed t = ok s ∧ s ≠ 0 ∧ s * (t' - t) = l - a

/-- `t'` follows from `t` by `n` Newton steps. -/
def NewtonSteps (len speed : K → Outcome K) (l : K) : ℕ → K → K → Prop
  | 0, t, t' => t = t'
  | n + 1, t, t' => ∃ x, NewtonStep len speed l t x ∧ NewtonSteps len speed l n x t'

/-- **C77** (stopping).  Whatever the curve, a returned parameter either has a computed length within the
tolerance of `l` or is the result of `n` Newton steps for the equation `len t = l`. -/
theorem C77_stops (len speed : K → Outcome K) (l tol : K) : ∀ (n : ℕ) (t r : K),
    invArcGo len speed l tol n t = ok r →
    (∃ a, len r = ok a ∧ |a - l| < tol) ∨ NewtonSteps len speed l n t r := by
  intro n
  induction n with
  | zero => intro t r h; rw [invArcGo, ok.injEq] at h; exact Or.inr h
  | succ n ih =>
    intro t r h
    rw [invArcGo] at h
    obtain ⟨a, ha, h⟩ := bind_eq_ok.1 h
    dsimp only at h
    split at h
    · rename_i hlt
      rw [ok.injEq] at h
      subst h
      exact Or.inl ⟨a, ha, hlt⟩
    · obtain ⟨s, hs, h⟩ := bind_eq_ok.1 h
      split at h
      · cases h
      · rename_i hne
        rcases ih _ _ h with h | h
        · exact Or.inl h
        · refine Or.inr ⟨_, ⟨a, s, ha, hs, hne, ?_⟩, h⟩
          field_simp
          ring

/-- **C77** (constant speed, exact lengths).  If the length from the start `a` of the domain were
`c (t - a)`, the iteration would return a parameter whose length is within the tolerance of `l`. -/
theorem C77_constant_speed_partial (len speed : K → Outcome K) (a c l tol : K) (hc : 0 < c)
    (htol : 0 < tol) (hlen : ∀ t, len t = ok (c * (t - a))) (hsp : ∀ t, speed t = ok c) (n : ℕ) (t : K) :
    ∃ r, invArcGo len speed l tol (n + 1) t = ok r ∧ |c * (r - a) - l| < tol := by
  rw [invArcGo, hlen, ok_bind]
  dsimp only
  split
  · rename_i h
    exact ⟨t, rfl, h⟩
  · rw [hsp, ok_bind, if_neg hc.ne']
    have e : c * (t - (c * (t - a) - l) / c - a) - l = 0 := by field_simp; ring
    refine ⟨t - (c * (t - a) - l) / c, ?_, ?_⟩
    · cases n with
      | zero => rfl
      | succ n =>
        rw [invArcGo, hlen, ok_bind]
        dsimp only
        rw [e, abs_zero, if_pos htol]
    · rw [e, abs_zero]; exact htol

/-- **C77** (increasing speed, exact lengths).  For a length function with positive increasing
derivative the iteration never falls below `l` by more than the tolerance, and from a parameter whose
length is at least `l` it only moves backwards. -/
theorem C77_increasing_speed_partial (F f : ℝ → ℝ) (hF : ∀ t, HasDerivAt F (f t) t) (hf : Monotone f)
    (hpos : ∀ t, 0 < f t) (l tol : ℝ) (htol : 0 < tol) : ∀ (n : ℕ) (t : ℝ),
    (∃ r, invArcGo (fun t => ok (F t)) (fun t => ok (f t)) l tol (n + 1) t = ok r ∧ l - tol < F r) ∧
    (l ≤ F t → ∃ r, invArcGo (fun t => ok (F t)) (fun t => ok (f t)) l tol n t = ok r ∧ l ≤ F r ∧
      r ≤ t) := by
  have tangent : ∀ t x, F t + f t * (x - t) ≤ F x := by
    intro t x
    have hc : Continuous F := continuous_iff_continuousAt.2 fun t => (hF t).continuousAt
    rcases lt_trichotomy t x with h | h | h
    · obtain ⟨ξ, hξ, e⟩ := exists_hasDerivAt_eq_slope F f h hc.continuousOn (fun y _ => hF y)
      have h1 : f t ≤ f ξ := hf hξ.1.le
      rw [e, le_div_iff₀ (sub_pos.2 h)] at h1
      linarith
    · subst h; simp
    · obtain ⟨ξ, hξ, e⟩ := exists_hasDerivAt_eq_slope F f h hc.continuousOn (fun y _ => hF y)
      have h1 : f ξ ≤ f t := hf hξ.2.le
      rw [e, div_le_iff₀ (sub_pos.2 h)] at h1
      linarith
  have step : ∀ t, l ≤ F (t - (F t - l) / f t) := by
    intro t
    have := tangent t (t - (F t - l) / f t)
    have e : F t + f t * (t - (F t - l) / f t - t) = l := by
      have := (hpos t).ne'
      field_simp
      ring
    linarith
  have above : ∀ (n : ℕ) (t : ℝ), l ≤ F t →
      ∃ r, invArcGo (fun t => ok (F t)) (fun t => ok (f t)) l tol n t = ok r ∧ l ≤ F r ∧ r ≤ t := by
    intro n
    induction n with
    | zero => intro t h; exact ⟨t, rfl, h, le_rfl⟩
    | succ n ih =>
      intro t h
      rw [invArcGo, ok_bind]
      dsimp only
      split
      · exact ⟨t, rfl, h, le_rfl⟩
      · rw [ok_bind, if_neg (hpos t).ne']
        obtain ⟨r, e, h1, h2⟩ := ih _ (step t)
        refine ⟨r, e, h1, h2.trans ?_⟩
        have : 0 ≤ (F t - l) / f t := div_nonneg (by linarith) (hpos t).le
        linarith
  intro n t
  refine ⟨?_, above n t⟩
  rw [invArcGo, ok_bind]
  dsimp only
  split
  · rename_i h
    have := (abs_lt.1 h).1
    exact ⟨t, rfl, by linarith⟩
  · rw [ok_bind, if_neg (hpos t).ne']
    obtain ⟨r, e, h1, -⟩ := above n _ (step t)
    exact ⟨r, e, by linarith⟩

/-! ### With the library's own lengths -/

/-- `arc_length` with the default arguments is between a third and 99.5 % of a length traversed at
constant speed. -/
theorem romberg_const_bounds (c t0 t1 tol : K) (hS : 0 ≤ c * (t1 - t0)) :
    ∃ r, romberg (fun _ => ok c) t0 t1 10 tol = ok r ∧ c * (t1 - t0) ≤ 3 * r ∧
      201 * r ≤ 200 * (c * (t1 - t0)) := by
  obtain ⟨k, h1, h2, e⟩ := romberg_const c t0 t1 tol 10 (by norm_num)
  refine ⟨_, e, ?_, ?_⟩ <;> unfold rv <;> generalize c * (t1 - t0) = S at hS
  · interval_cases k <;> norm_num [ra, rb] <;> nlinarith
  · interval_cases k <;> norm_num [ra, rb] <;> nlinarith

/-- The iteration with a length function that is always short by 0.5 % to two thirds. -/
theorem invArcGo_short (len : K → Outcome K) (c l tol : K) (hc : 0 < c) (hl : 0 < l)
    (hlen : ∀ t, 0 ≤ t → ∃ r, len t = ok r ∧ c * t ≤ 3 * r ∧ 201 * r ≤ 200 * (c * t)) :
    ∀ (n : ℕ) (t : K), 201 * l ≤ 200 * (c * t) → c * t ≤ 3 * l →
    ∃ r, invArcGo len (fun _ => ok c) l tol n t = ok r ∧ 201 * l ≤ 200 * (c * r) ∧ c * r ≤ 3 * l := by
  intro n
  induction n with
  | zero => intro t h1 h2; exact ⟨t, rfl, h1, h2⟩
  | succ n ih =>
    intro t h1 h2
    have ht : 0 ≤ t := by
      by_contra h
      push Not at h
      nlinarith
    obtain ⟨a, e, a1, a2⟩ := hlen t ht
    rw [invArcGo, e, ok_bind]
    dsimp only
    split
    · exact ⟨t, rfl, h1, h2⟩
    · rw [ok_bind, if_neg hc.ne']
      have e2 : c * (t - (a - l) / c) = c * t - a + l := by field_simp; ring
      apply ih
      · rw [e2]; nlinarith
      · rw [e2]; nlinarith

/-- **C77**: false for every curve of constant speed `|d| > 0` on `[0, 1]` and every positive length: the
part of the curve up to the returned parameter is longer than asked for, by half a percent or more.  (It
is at most three times as long.)  For the whole length the returned parameter lies outside the domain. -/
theorem C77_constant_speed_refuted [LawfulGeom K V] (d1 : K → Outcome V) (d : V) (hd : d ≠ 0)
    (h : ∀ t, d1 t = ok d) (l : K) (hl : 0 < l) :
    ∃ r, inverseArcLength d1 0 1 l = ok r ∧ l * (1 + 1 / 200) ≤ norm d * r ∧ norm d * r ≤ 3 * l ∧
      (l = norm d → 1 < r) := by
  have hc : (0 : K) < norm d := by
    rcases (norm_nonneg (K := K) d).lt_or_eq with h | h
    · exact h
    · have h1 := norm_sq (K := K) d
      have h2 := dot_self (K := K) d hd
      rw [← h, mul_zero] at h1
      exact absurd h1 h2.ne
  have e : curveSpeed d1 = fun _ : K => ok (norm d : K) := by
    funext t; simp [curveSpeed, h]
  have hlen : ∀ t : K, 0 ≤ t → ∃ r, arcLength d1 0 t 10 (1 / 10 ^ 12) = ok r ∧ norm d * t ≤ 3 * r ∧
      201 * r ≤ 200 * (norm d * t) := by
    intro t ht
    have := romberg_const_bounds (norm d : K) 0 t (1 / 10 ^ 12) (by rw [sub_zero]; positivity)
    rw [sub_zero] at this
    unfold arcLength
    rw [e]
    exact this
  obtain ⟨L, hL, b1, b2⟩ := hlen 1 zero_le_one
  rw [mul_one] at b1 b2
  have hL0 : 0 < L := by linarith
  obtain ⟨r, er, r1, r2⟩ := invArcGo_short (fun t => arcLength d1 0 t 10 (1 / 10 ^ 12)) (norm d : K) l
    (L * (1 / 10 ^ 12)) hc hl hlen 10 (l / L)
    (by
      rw [← mul_div_assoc, ← mul_div_assoc, le_div_iff₀ hL0]
      nlinarith)
    (by
      rw [← mul_div_assoc, div_le_iff₀ hL0]
      nlinarith)
  refine ⟨r, ?_, by linarith, r2, ?_⟩
  · unfold inverseArcLength
    simp only
    rw [hL, ok_bind, if_neg hL0.ne', e]
    exact er
  · intro hl'
    rw [hl'] at r1
    by_contra hr
    push Not at hr
    nlinarith

/-- **C77**: false on every flat patch in every non-zero direction: the part of the segment up to the
returned point is longer than asked for, by half a percent or more. -/
theorem C77_flat_patch_refuted [LawfulGeom K V] (s : PatchFn K V) (a b : V)
    (h1 : ∀ u v, s.du u v = ok a) (h2 : ∀ u v, s.dv u v = ok b) (u0 v0 u1 v1 l : K) (hl : 0 < l)
    (iters : ℕ) (w : V) (hw : w = (u1 - u0) • a + (v1 - v0) • b) (hne : w ≠ 0) :
    ∃ t : K, patchInverseArcLength s u0 v0 u1 v1 l iters =
        ok ((u1 - u0) * t + u0, (v1 - v0) * t + v0) ∧
      l * (1 + 1 / 200) ≤ norm w * t ∧ norm w * t ≤ 3 * l := by
  have hc : (0 : K) < norm w := by
    rcases (norm_nonneg (K := K) w).lt_or_eq with h | h
    · exact h
    · have h1 := norm_sq (K := K) w
      have h2 := dot_self (K := K) w hne
      rw [← h, mul_zero] at h1
      exact absurd h1 h2.ne
  have hsm : ∀ t : K, 0 ≤ t → (norm (t • w) : K) = t * norm w := by
    intro t ht
    have e1 := norm_sq (K := K) (t • w)
    rw [dot_smul, dot_smul_right, ← norm_sq w] at e1
    have e2 : (norm (t • w) : K) * norm (t • w) = (t * norm w) * (t * norm w) := by rw [e1]; ring
    exact (mul_self_inj (LawfulGeom.norm_nonneg _) (by positivity)).1 e2
  have e : ∀ t : K, patchSpeed s u0 v0 ((u1 - u0) * t + u0) ((v1 - v0) * t + v0) =
      fun _ => ok (norm (t • w) : K) := by
    intro t
    funext x
    simp only [patchSpeed, h1, h2, ok_bind, pure_eq]
    congr 2
    rw [hw]
    module
  have e1 : patchSpeed s u0 v0 u1 v1 = fun _ => ok (norm w : K) := by
    funext x
    simp only [patchSpeed, h1, h2, ok_bind, pure_eq, hw]
  have hlen : ∀ t : K, 0 ≤ t →
      ∃ r, patchArcLength s u0 v0 ((u1 - u0) * t + u0) ((v1 - v0) * t + v0) 10 (1 / 10 ^ 12) = ok r ∧
        norm w * t ≤ 3 * r ∧ 201 * r ≤ 200 * (norm w * t) := by
    intro t ht
    have := romberg_const_bounds (norm (t • w) : K) 0 1 (1 / 10 ^ 12)
      (by rw [sub_zero, mul_one]; exact LawfulGeom.norm_nonneg _)
    rw [sub_zero, mul_one] at this
    unfold patchArcLength
    rw [e t]
    rw [hsm t ht, mul_comm t] at this
    exact hsm t ht ▸ mul_comm t (norm w) ▸ this
  obtain ⟨L, hL, b1, b2⟩ := hlen 1 zero_le_one
  rw [mul_one] at b1 b2
  have hL' : patchArcLength s u0 v0 u1 v1 10 (1 / 10 ^ 12) = ok L := by
    rw [← hL]; congr 1 <;> ring
  have hL0 : 0 < L := by linarith
  obtain ⟨r, er, r1, r2⟩ := invArcGo_short
    (fun t => patchArcLength s u0 v0 ((u1 - u0) * t + u0) ((v1 - v0) * t + v0) 10 (1 / 10 ^ 12))
    (norm w : K) l (L * (1 / 10 ^ 12)) hc hl hlen iters (l / L)
    (by
      rw [← mul_div_assoc, ← mul_div_assoc, le_div_iff₀ hL0]
      nlinarith)
    (by
      rw [← mul_div_assoc, div_le_iff₀ hL0]
      nlinarith)
  refine ⟨r, ?_, by linarith, r2⟩
  unfold patchInverseArcLength segmentAt
  simp only
  rw [hL', ok_bind, if_neg hL0.ne', e1, er, ok_bind]
  rfl

/-! ### Concrete cases -/

example : ∃ r, inverseArcLength (fun _ : ℚ => ok (2 : ℚ)) 0 1 1 = ok r ∧ 201 / 400 ≤ r := by
  obtain ⟨r, e, h, -⟩ := C77_constant_speed_refuted (K := ℚ) (V := ℚ) (fun _ => ok 2) 2 (by norm_num)
    (fun _ => rfl) 1 (by norm_num)
  refine ⟨r, e, ?_⟩
  have : (Geom.norm (2 : ℚ) : ℚ) = 2 := by decide +kernel
  rw [this] at h
  linarith

example : ∃ r, invArcGo (fun t : ℚ => ok (3 * (t - 1))) (fun _ => ok 3) 5 (1 / 10) 1 0 = ok r ∧
    |3 * (r - 1) - 5| < 1 / 10 :=
  C77_constant_speed_partial _ _ 1 3 5 (1 / 10) (by norm_num) (by norm_num) (fun _ => rfl)
    (fun _ => rfl) 0 0

example (n : ℕ) : ∃ r, invArcGo (fun t : ℝ => ok (Real.exp t)) (fun t => ok (Real.exp t)) 1 (1 / 10)
    n 2 = ok r ∧ 1 ≤ Real.exp r ∧ r ≤ 2 :=
  (C77_increasing_speed_partial Real.exp Real.exp Real.hasDerivAt_exp Real.exp_monotone Real.exp_pos 1
    (1 / 10) (by norm_num) n 2).2 (Real.one_le_exp (by norm_num))

example : ∃ t : ℚ, patchInverseArcLength (⟨fun u v => ok (u + 2 * v), fun _ _ => ok 1, fun _ _ => ok 2,
    fun _ _ => ok 0, fun _ _ => ok 0, fun _ _ => ok 0⟩ : PatchFn ℚ ℚ) 0 0 1 1 1 10 =
      ok ((1 - 0) * t + 0, (1 - 0) * t + 0) ∧ (1 : ℚ) * (1 + 1 / 200) ≤ Geom.norm (3 : ℚ) * t ∧
      Geom.norm (3 : ℚ) * t ≤ 3 * 1 :=
  C77_flat_patch_refuted (K := ℚ) (V := ℚ) _ 1 2 (fun _ _ => rfl) (fun _ _ => rfl) 0 0 1 1 1
    (by norm_num) 10 3 (by norm_num) (by norm_num)

end NS
