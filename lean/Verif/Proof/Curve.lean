import Verif.Model.Curve
import Mathlib.Tactic.Linarith
import Mathlib.Tactic.Ring
import Mathlib.Tactic.FieldSimp
import Mathlib.Tactic.Positivity

/-! # Facts about parameter unwrapping -/

set_option linter.unusedSectionVars false

namespace NS

open Outcome

variable {K V : Type} [Field K] [LinearOrder K] [IsStrictOrderedRing K] [FloorRing K]

/-- `unwrap_parameter` is reduction modulo the period, always into `[tMin, tMax)`. -/
theorem unwrapParameter_eq (tMin tMax t : K) (h : tMin < tMax) :
    unwrapParameter tMin tMax t
      = ok (t - (tMax - tMin) * (⌊(t - tMin) / (tMax - tMin)⌋ : K)) := by
  have hp : 0 < tMax - tMin := sub_pos.mpr h
  have hp0 : tMax - tMin ≠ 0 := hp.ne'
  set p := tMax - tMin with hpdef
  set x := (t - tMin) / p with hx
  have hxt : t - tMin = p * x := by rw [hx]; field_simp
  have hf1 : (⌊x⌋ : K) ≤ x := Int.floor_le x
  have hf2 : x < ⌊x⌋ + 1 := Int.lt_floor_add_one x
  have hmul : ∀ a b : K, a ≤ b → p * a ≤ p * b := fun a b h => mul_le_mul_of_nonneg_left h hp.le
  have hmul' : ∀ a b : K, a < b → p * a < p * b := fun a b h => mul_lt_mul_of_pos_left h hp
  unfold unwrapParameter fmod
  simp only [← hpdef, ← hx, hp0, if_false, ok_bind]
  have main : (if t - tMin - p * (trunc x : K) + tMin < tMin then
      t - tMin - p * (trunc x : K) + tMin + p else t - tMin - p * (trunc x : K) + tMin)
      = t - p * (⌊x⌋ : K) := by
    unfold trunc
    by_cases h0 : 0 ≤ x
    · simp only [h0, if_true]
      have := hmul _ _ hf1
      rw [if_neg (by linarith)]
      ring
    · simp only [h0, if_false]
      push Not at h0
      rcases eq_or_ne (⌈x⌉ : ℤ) ⌊x⌋ with hc | hc
      · rw [hc]
        have := hmul _ _ hf1
        rw [if_neg (by linarith)]
        ring
      · have hc1 : ⌈x⌉ ≤ ⌊x⌋ + 1 := Int.ceil_le_floor_add_one x
        have hc2 : ⌊x⌋ ≤ ⌈x⌉ := Int.floor_le_ceil x
        have hc3 : ⌈x⌉ = ⌊x⌋ + 1 := by omega
        rw [hc3]
        push_cast
        have := hmul' _ _ hf2
        rw [if_pos (by linarith)]
        ring
  rw [main]
  rw [assert_true, ok_bind, pure_eq]
  have a1 := hmul _ _ hf1
  have a2 := hmul' _ _ hf2
  constructor
  · linarith
  · have : tMax = tMin + p := by rw [hpdef]; ring
    linarith

theorem unwrapParameter_of_mem (tMin tMax t : K) (h1 : tMin ≤ t) (h2 : t < tMax) :
    unwrapParameter tMin tMax t = ok t := by
  have hp : 0 < tMax - tMin := by linarith
  rw [unwrapParameter_eq _ _ _ (by linarith)]
  have : ⌊(t - tMin) / (tMax - tMin)⌋ = 0 := by
    rw [Int.floor_eq_zero_iff]
    constructor
    · apply div_nonneg <;> linarith
    · rw [div_lt_one hp]; linarith
  rw [this]; simp

theorem unwrapParameter_add_period (tMin tMax t : K) (h : tMin < tMax) (z : ℤ) :
    unwrapParameter tMin tMax (t + z * (tMax - tMin)) = unwrapParameter tMin tMax t := by
  have hp0 : tMax - tMin ≠ 0 := (sub_pos.mpr h).ne'
  rw [unwrapParameter_eq _ _ _ h, unwrapParameter_eq _ _ _ h]
  have : (t + z * (tMax - tMin) - tMin) / (tMax - tMin) = (t - tMin) / (tMax - tMin) + z := by
    field_simp; ring
  rw [this, Int.floor_add_intCast]
  push_cast
  congr 1
  ring

theorem unwrapParameter_spec (tMin tMax t : K) (h : tMin < tMax) :
    ∃ t' : K, unwrapParameter tMin tMax t = ok t' ∧ tMin ≤ t' ∧ t' < tMax ∧
      ∃ z : ℤ, t' = t + z * (tMax - tMin) := by
  have hp : 0 < tMax - tMin := sub_pos.mpr h
  refine ⟨_, unwrapParameter_eq _ _ _ h, ?_, ?_, -⌊(t - tMin) / (tMax - tMin)⌋, ?_⟩
  · have := Int.floor_le ((t - tMin) / (tMax - tMin))
    rw [le_div_iff₀ hp] at this
    linarith
  · have := Int.lt_floor_add_one ((t - tMin) / (tMax - tMin))
    rw [div_lt_iff₀ hp] at this
    linarith
  · push_cast; ring

end NS
