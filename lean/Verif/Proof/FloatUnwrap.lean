import Verif.Proof.Float
import Verif.Proof.Curve

/-!
# Rounded parameter unwrapping
-/

set_option linter.unusedSectionVars false

namespace NS

open Outcome

variable {K : Type} [Field K] [LinearOrder K] [IsStrictOrderedRing K] [FloorRing K]

/-- `p`-bit numbers are the multiples of powers of two with a significand of at most `p` bits. -/
theorem isFloat_binary_iff {p : ℕ} (hp : 1 ≤ p) (x : K) :
    (binary p hp : Rounding K).IsFloat x ↔ ∃ k e : ℤ, |k| ≤ 2 ^ p ∧ x = k * 2 ^ e := by
  constructor
  · intro h
    have h' : binaryRnd p x = x := h
    rcases lt_trichotomy x 0 with hx | hx | hx
    · have b := (binaryRnd_pos_bounds hp (neg_pos.2 hx)).2.2
      refine ⟨-roundEven (-x / ulp p (-x)), Int.log 2 |-x| - (p : ℤ) + 1, by rwa [abs_neg], ?_⟩
      have e : binaryRnd p (-x) = -x := by rw [binaryRnd_neg, h']
      have e2 : (roundEven (-x / ulp p (-x)) : K) * 2 ^ (Int.log 2 |-x| - (p : ℤ) + 1) = -x := e
      push_cast
      linear_combination e2
    · exact ⟨0, 0, by simp, by simp [hx]⟩
    · exact ⟨_, _, (binaryRnd_pos_bounds hp hx).2.2, h'.symm⟩
  · rintro ⟨k, e, hk, rfl⟩
    exact binaryRnd_fix hp hk

/-- The remainder keeps the sign of `x` and is smaller than `x` and `y`. -/
theorem fmod_bounds (x : K) {y : K} (hy : 0 < y) :
    |x - y * (trunc (x / y) : K)| < y ∧ |x - y * (trunc (x / y) : K)| ≤ |x| ∧
      (0 ≤ x → 0 ≤ x - y * (trunc (x / y) : K)) ∧ (x ≤ 0 → x - y * (trunc (x / y) : K) ≤ 0) := by
  have hx : x = y * (x / y) := by field_simp
  unfold trunc
  by_cases h : 0 ≤ x / y
  · have h0 : 0 ≤ x := by rw [hx]; positivity
    have f1 := mul_le_mul_of_nonneg_left (Int.floor_le (x / y)) hy.le
    have f2 := mul_lt_mul_of_pos_left (Int.lt_floor_add_one (x / y)) hy
    have f3 : (0 : K) ≤ ⌊x / y⌋ := by exact_mod_cast Int.floor_nonneg.2 h
    have f4 := mul_nonneg hy.le f3
    rw [← hx] at f1 f2
    rw [if_pos h]
    have hn : 0 ≤ x - y * (⌊x / y⌋ : K) := by linarith
    rw [abs_of_nonneg hn, abs_of_nonneg h0]
    refine ⟨by linarith, by linarith, fun _ => hn, fun hx0 => ?_⟩
    linarith
  · push Not at h
    have h0 : x < 0 := by rw [hx]; exact mul_neg_of_pos_of_neg hy h
    have f1 := mul_le_mul_of_nonneg_left (Int.le_ceil (x / y)) hy.le
    have f2 := mul_lt_mul_of_pos_left (Int.ceil_lt_add_one (x / y)) hy
    have f3 : (⌈x / y⌉ : K) ≤ 0 := by exact_mod_cast Int.ceil_le.2 (by simpa using h.le)
    have f4 := mul_nonneg hy.le (neg_nonneg.2 f3)
    rw [← hx] at f1
    rw [mul_add, ← hx, mul_one] at f2
    rw [if_neg (not_le.2 h)]
    have hn : x - y * (⌈x / y⌉ : K) ≤ 0 := by linarith
    rw [abs_of_nonpos hn, abs_of_nonpos h0.le]
    refine ⟨by linarith, by linarith, fun hx0 => ?_, fun _ => hn⟩
    linarith

/-- The exact remainder of two `p`-bit numbers has `p` bits: `fmod` does not round. -/
theorem fmod_isFloat {p : ℕ} (hp : 1 ≤ p) {x y : K} (hx : (binary p hp : Rounding K).IsFloat x)
    (hy : (binary p hp : Rounding K).IsFloat y) (hy0 : 0 < y) :
    (binary p hp : Rounding K).IsFloat (x - y * (trunc (x / y) : K)) := by
  obtain ⟨b1, b2, -, -⟩ := fmod_bounds x hy0
  rw [isFloat_binary_iff] at hx hy ⊢
  obtain ⟨k, e, hk, rfl⟩ := hx
  obtain ⟨l, f, hl, rfl⟩ := hy
  generalize trunc ((k : K) * 2 ^ e / (l * 2 ^ f)) = q at *
  have cast2 : ∀ n : ℕ, ((2 ^ n : ℤ) : K) = 2 ^ (n : ℤ) := by intro n; simp
  rcases le_total e f with h | h
  · obtain ⟨n, rfl⟩ : ∃ n : ℕ, f = e + n := ⟨(f - e).toNat, by omega⟩
    have h2 : (0 : K) < 2 ^ e := zpow_pos two_pos _
    have eq : (k : K) * 2 ^ e - l * 2 ^ (e + n) * q = ((k - l * 2 ^ n * q : ℤ) : K) * 2 ^ e := by
      rw [zpow_add₀ two_ne_zero]; push_cast; simp only [zpow_natCast]; ring
    refine ⟨k - l * 2 ^ n * q, e, ?_, eq⟩
    rw [eq, abs_mul, abs_mul, abs_of_pos h2] at b2
    have := le_of_mul_le_mul_right b2 h2
    exact le_trans (by exact_mod_cast this) hk
  · obtain ⟨n, rfl⟩ : ∃ n : ℕ, e = f + n := ⟨(e - f).toNat, by omega⟩
    have h2 : (0 : K) < 2 ^ f := zpow_pos two_pos _
    have eq : (k : K) * 2 ^ (f + n) - l * 2 ^ f * q = ((k * 2 ^ n - l * q : ℤ) : K) * 2 ^ f := by
      rw [zpow_add₀ two_ne_zero]; push_cast; simp only [zpow_natCast]; ring
    refine ⟨k * 2 ^ n - l * q, f, ?_, eq⟩
    rw [eq, abs_mul, abs_of_pos h2] at b1
    have := lt_of_mul_lt_mul_right b1 h2.le
    have h3 : |k * 2 ^ n - l * q| < l := by exact_mod_cast this
    exact le_trans h3.le (le_trans (le_abs_self l) hl)

namespace Fl

/-- A number of the format below a rounded number is below the number itself. -/
theorem lt_of_lt_rnd (R : Rounding K) {m x : K} (hm : R.IsFloat m) (h : m < R.rnd x) : m < x := by
  by_contra hc
  push Not at hc
  have := R.mono _ _ hc
  rw [show R.rnd m = m from hm] at this
  exact absurd h (not_lt.2 this)

theorem rnd_pos {p : ℕ} (hp : 1 ≤ p) {x : K} (hx : 0 < x) : 0 < (binary p hp : Rounding K).rnd x :=
  binaryRnd_pos hp hx

/-- Parameters from the start of the domain on. -/
theorem unwrap_forward {p : ℕ} (hp : 1 ≤ p) {a b t : K} (hab : a < b)
    (ha : (binary p hp : Rounding K).IsFloat a) (hb : (binary p hp : Rounding K).IsFloat b)
    (hat : a ≤ t) :
    ∃ t', unwrap (binary p hp) a b t = ok t' ∧ a ≤ t' ∧ t' ≤ b := by
  set R : Rounding K := binary p hp with hR
  have hP : 0 < R.rnd (b - a) := rnd_pos hp (by linarith)
  have hx : 0 ≤ R.rnd (t - a) := R.nonneg (by linarith)
  obtain ⟨b1, b2, b3, -⟩ := fmod_bounds (R.rnd (t - a)) hP
  have hf := fmod_isFloat hp (R.idem (t - a)) (R.idem (b - a)) hP
  have b4 := b3 hx
  unfold unwrap fmod
  simp only [if_neg hP.ne', ok_bind]
  generalize R.rnd (t - a) - R.rnd (b - a) * (trunc (R.rnd (t - a) / R.rnd (b - a)) : K) = m at *
  rw [abs_of_nonneg b4] at b1
  have hm := lt_of_lt_rnd R hf b1
  have ha' : R.rnd a = a := ha
  have hb' : R.rnd b = b := hb
  have l1 : a ≤ R.rnd (m + a) := by
    have := R.mono a (m + a) (by linarith)
    rwa [ha'] at this
  have l2 : R.rnd (m + a) ≤ b := by
    have := R.mono (m + a) b (by linarith)
    rwa [hb'] at this
  simp only [if_neg (not_lt.2 l1)]
  rw [assert_true ⟨l1, l2⟩, ok_bind]
  exact ⟨_, rfl, l1, l2⟩

/-- Domains starting at zero. -/
theorem unwrap_zero {p : ℕ} (hp : 1 ≤ p) {b t : K} (h0 : 0 < b)
    (hb : (binary p hp : Rounding K).IsFloat b) (ht : (binary p hp : Rounding K).IsFloat t) :
    ∃ t' s, unwrap (binary p hp) 0 b t = ok t' ∧ 0 ≤ t' ∧ t' ≤ b ∧
      unwrapParameter 0 b t = ok s ∧ (0 ≤ t → t' = s) ∧ t' = (binary p hp : Rounding K).rnd s := by
  set R : Rounding K := binary p hp with hR
  have hb' : R.rnd b = b := hb
  have ht' : R.rnd t = t := ht
  obtain ⟨b1, b2, b3, b4⟩ := fmod_bounds t h0
  have hf := fmod_isFloat hp ht hb h0
  unfold unwrap unwrapParameter fmod
  simp only [sub_zero, hb', ht', if_neg h0.ne', ok_bind, add_zero]
  generalize t - b * (trunc (t / b) : K) = m at *
  have hm : R.rnd m = m := hf
  rw [hm]
  rw [abs_lt] at b1
  by_cases h : m < 0
  · simp only [if_pos h]
    have l1 : 0 ≤ R.rnd (m + b) := R.nonneg (by linarith)
    have l2 : R.rnd (m + b) ≤ b := by
      have := R.mono (m + b) b (by linarith)
      rwa [hb'] at this
    rw [assert_true ⟨l1, l2⟩, ok_bind, assert_true ⟨by linarith, by linarith⟩, ok_bind]
    refine ⟨_, _, rfl, l1, l2, rfl, fun h2 => ?_, rfl⟩
    have := b3 h2
    linarith
  · simp only [if_neg h]
    push Not at h
    rw [assert_true ⟨h, b1.2.le⟩, ok_bind]
    exact ⟨_, _, rfl, h, b1.2.le, rfl, fun _ => rfl, hm.symm⟩

end Fl

end NS
