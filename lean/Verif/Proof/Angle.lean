import Verif.Model.Primitive
import Verif.Props.Inverse
import Mathlib.Analysis.SpecialFunctions.Trigonometric.Bounds

/-!
# Angles: `atan2`, the wrap-around loop and clipped angles
-/

set_option linter.unusedSectionVars false

namespace NS

open Outcome Real

theorem two_pi_pos' : (0 : ℝ) < 2 * π := by positivity

/-- Polar coordinates. -/
theorem atan2_polar (y x : ℝ) :
    x = hypot x y * cos (atan2 y x) ∧ y = hypot x y * sin (atan2 y x) := by
  have h1 := Complex.norm_mul_cos_arg (⟨x, y⟩ : ℂ)
  have h2 := Complex.norm_mul_sin_arg (⟨x, y⟩ : ℂ)
  have h3 : ‖(⟨x, y⟩ : ℂ)‖ = hypot x y := by
    rw [Complex.norm_def, Complex.normSq_apply]; rfl
  rw [h3] at h1 h2
  exact ⟨h1.symm, h2.symm⟩

theorem hypot_nonneg (x y : ℝ) : 0 ≤ hypot x y := Real.sqrt_nonneg _

theorem hypot_sq (x y : ℝ) : hypot x y * hypot x y = x * x + y * y :=
  Real.mul_self_sqrt (by nlinarith [mul_self_nonneg x, mul_self_nonneg y])

theorem hypot_polar {r : ℝ} (h : 0 ≤ r) (a : ℝ) : hypot (r * cos a) (r * sin a) = r := by
  unfold hypot
  rw [show r * cos a * (r * cos a) + r * sin a * (r * sin a) = r * r by
    linear_combination r * r * Real.sin_sq_add_cos_sq a, Real.sqrt_mul_self h]

theorem neg_pi_lt_atan2 (y x : ℝ) : -π < atan2 y x := Complex.neg_pi_lt_arg _

theorem atan2_le_pi (y x : ℝ) : atan2 y x ≤ π := Complex.arg_le_pi _

/-- `atan2` recovers an angle modulo full turns. -/
theorem atan2_spec {r : ℝ} (h : 0 < r) (a : ℝ) :
    ∃ k : ℤ, atan2 (r * sin a) (r * cos a) = a + k * (2 * π) := by
  obtain ⟨h1, h2⟩ := atan2_polar (r * sin a) (r * cos a)
  rw [hypot_polar h.le] at h1 h2
  have hc := (mul_left_cancel₀ h.ne' h1).symm
  have hs := (mul_left_cancel₀ h.ne' h2).symm
  have : cos (atan2 (r * sin a) (r * cos a) - a) = 1 := by
    rw [Real.cos_sub, hc, hs]; linear_combination Real.sin_sq_add_cos_sq a
  obtain ⟨k, hk⟩ := (Real.cos_eq_one_iff _).1 this
  exact ⟨k, by linarith⟩

theorem cos_add_turns (x : ℝ) (k : ℤ) : cos (x + k * (2 * π)) = cos x := Real.cos_add_int_mul_two_pi x k

theorem sin_add_turns (x : ℝ) (k : ℤ) : sin (x + k * (2 * π)) = sin x := Real.sin_add_int_mul_two_pi x k

/-- Every angle is within half a turn of some representative of every other. -/
theorem exists_near (d : ℝ) : ∃ k : ℤ, |d + k * (2 * π)| ≤ π := by
  have hp := Real.pi_pos
  refine ⟨-round (d / (2 * π)), ?_⟩
  have h := abs_sub_round (d / (2 * π))
  have e : d + ((-round (d / (2 * π)) : ℤ) : ℝ) * (2 * π) = (d / (2 * π) - round (d / (2 * π))) * (2 * π) := by
    push_cast; field_simp; ring
  rw [e, abs_mul, abs_of_pos two_pi_pos']
  nlinarith

/-- Monotonicity of the cosine in the absolute value. -/
theorem cos_le_of_abs_le {x y : ℝ} (h : |x| ≤ |y|) (hy : |y| ≤ π) : cos y ≤ cos x := by
  rw [← Real.cos_abs x, ← Real.cos_abs y]
  exact Real.cos_le_cos_of_nonneg_of_le_pi (abs_nonneg _) hy h

/-- The clipped angle maximises the cosine of the deviation from the given angle. -/
theorem clip_cos (a lo hi : ℝ) (h : lo ≤ hi) :
    ∃ r, PatchBase.clipPeriodic a lo hi (2 * π) = ok r ∧ lo ≤ r ∧ r ≤ hi ∧
      ((∃ k : ℤ, lo ≤ a + k * (2 * π) ∧ a + k * (2 * π) ≤ hi) → ∃ k : ℤ, r = a + k * (2 * π)) ∧
      ∀ x, lo ≤ x → x ≤ hi → cos (x - a) ≤ cos (r - a) := by
  obtain ⟨r, e, h1, h2, hin, hout⟩ := PatchBase.C41_clip a lo hi (2 * π) two_pi_pos' h
  refine ⟨r, e, h1, h2, hin, ?_⟩
  intro x hx1 hx2
  by_cases hk : ∃ k : ℤ, lo ≤ a + k * (2 * π) ∧ a + k * (2 * π) ≤ hi
  · obtain ⟨k, hk⟩ := hin hk
    rw [show r - a = 0 + k * (2 * π) by rw [hk]; ring, cos_add_turns, Real.cos_zero]
    exact Real.cos_le_one _
  · obtain ⟨-, i, hi'⟩ := hout (by push Not at hk; intro k hk'; exact absurd hk'.2 (not_le.2 (hk k hk'.1)))
    obtain ⟨j, hj⟩ := exists_near (x - a)
    have ej : x - (a + ((-j : ℤ) : ℝ) * (2 * π)) = x - a + j * (2 * π) := by push_cast; ring
    have hle := hi' x hx1 hx2 (-j)
    rw [ej] at hle
    have := cos_le_of_abs_le hle hj
    rw [cos_add_turns] at this
    rw [show r - (a + i * (2 * π)) = (r - a) + ((-i : ℤ) : ℝ) * (2 * π) by push_cast; ring,
      cos_add_turns] at this
    exact this

/-- Clipping the polar angle of a point to a range that contains an angle of the point gives an angle of
the point. -/
theorem clip_azimuth {x y r a : ℝ} (lo hi : ℝ) (hr : 0 ≤ r) (hx : x = r * cos a) (hy : y = r * sin a)
    (h1 : lo ≤ a) (h2 : a ≤ hi) :
    ∃ t, PatchBase.clipPeriodic (atan2 y x) lo hi (2 * π) = ok t ∧ lo ≤ t ∧ t ≤ hi ∧
      x = r * cos t ∧ y = r * sin t := by
  obtain ⟨t, e, b1, b2, hin, -⟩ := clip_cos (atan2 y x) lo hi (le_trans h1 h2)
  refine ⟨t, e, b1, b2, ?_⟩
  rcases hr.eq_or_lt with rfl | hr
  · rw [hx, hy]; simp
  · obtain ⟨k, hk⟩ := atan2_spec hr a
    rw [← hx, ← hy] at hk
    obtain ⟨j, hj⟩ := hin ⟨-k, by rw [hk]; push_cast; constructor <;> linarith⟩
    rw [hj, cos_add_turns, sin_add_turns, hk, cos_add_turns, sin_add_turns]
    exact ⟨hx, hy⟩

/-- A range of a full turn contains an angle of every point. -/
theorem exists_azimuth (x y lo hi : ℝ) (h : lo + 2 * π ≤ hi) :
    ∃ a, lo ≤ a ∧ a ≤ hi ∧ x = hypot x y * cos a ∧ y = hypot x y * sin a := by
  have hp := two_pi_pos'
  obtain ⟨h1, h2⟩ := atan2_polar y x
  set b := atan2 y x
  refine ⟨b + ⌈(lo - b) / (2 * π)⌉ * (2 * π), ?_, ?_, ?_, ?_⟩
  · have := Int.le_ceil ((lo - b) / (2 * π))
    rw [div_le_iff₀ hp] at this
    linarith
  · have := Int.ceil_lt_add_one ((lo - b) / (2 * π))
    have h3 : (⌈(lo - b) / (2 * π)⌉ : ℝ) * (2 * π) < ((lo - b) / (2 * π) + 1) * (2 * π) :=
      mul_lt_mul_of_pos_right this hp
    rw [add_mul, div_mul_cancel₀ _ hp.ne'] at h3
    linarith
  · rw [cos_add_turns]; exact h1
  · rw [sin_add_turns]; exact h2

/-- The wrap-around loop stops, given enough iterations, at the first representative that is not below
the bound. -/
theorem raise_spec (lower : ℝ) : ∀ (fuel : ℕ) (t : ℝ), lower ≤ t + fuel * (2 * π) →
    ∃ r, raise lower fuel t = ok r ∧ lower ≤ r ∧ (∃ k : ℕ, r = t + k * (2 * π)) ∧
      (t < lower → r < lower + 2 * π) ∧ (lower ≤ t → r = t) := by
  intro fuel
  induction fuel with
  | zero =>
    intro t h
    have h' : lower ≤ t := by simpa using h
    refine ⟨t, ?_, h', ⟨0, by simp⟩, fun a => absurd h' (not_le.2 a), fun _ => rfl⟩
    rw [raise, if_neg (not_lt.2 h')]
  | succ n ih =>
    intro t h
    by_cases ht : t < lower
    · obtain ⟨r, e, h1, ⟨k, hk⟩, h3, h4⟩ := ih (t + 2 * π) (by push_cast at h; linarith)
      refine ⟨r, by rw [raise, if_pos ht, e], h1, ⟨k + 1, by rw [hk]; push_cast; ring⟩, ?_,
        fun h => absurd h (not_le.2 ht)⟩
      intro _
      rcases lt_or_ge (t + 2 * π) lower with h' | h'
      · exact h3 h'
      · rw [h4 h']; linarith
    · exact ⟨t, by rw [raise, if_neg ht], not_lt.1 ht, ⟨0, by simp⟩, fun h => absurd h ht, fun _ => rfl⟩

/-- The cosine has no interior maximum on an interval inside an open turn. -/
theorem cos_le_max_ends {lo x hi : ℝ} (h0 : 0 ≤ lo) (h1 : lo ≤ x) (h2 : x ≤ hi) (h3 : hi ≤ 2 * π) :
    cos x ≤ cos lo ∨ cos x ≤ cos hi := by
  rcases le_total x π with h | h
  · exact Or.inl (Real.cos_le_cos_of_nonneg_of_le_pi h0 h h1)
  · right
    rw [← Real.cos_two_pi_sub x, ← Real.cos_two_pi_sub hi]
    exact Real.cos_le_cos_of_nonneg_of_le_pi (by linarith) (by linarith) (by linarith)

end NS
