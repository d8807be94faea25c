import Mathlib.Tactic.Linarith
import Mathlib.Tactic.FieldSimp
import Mathlib.Tactic.Positivity
import Mathlib.Tactic.NormNum
import Mathlib.Tactic.Ring
import Mathlib.Algebra.Order.Floor.Ring
import Verif.Model.Rounding

/-!
# The binary formats satisfy the laws of a rounding
-/

set_option linter.unusedSectionVars false

namespace NS

section Binary

variable {K : Type} [Field K] [LinearOrder K] [IsStrictOrderedRing K] [FloorRing K]

theorem roundEven_near (x : K) : |(roundEven x : K) - x| ≤ 1 / 2 := by
  have h1 := Int.floor_le x
  have h2 := Int.lt_floor_add_one x
  unfold roundEven
  split_ifs <;> rw [abs_le] <;> push_cast <;> constructor <;> linarith

theorem roundEven_bounds (x : K) : ⌊x⌋ ≤ roundEven x ∧ roundEven x ≤ ⌊x⌋ + 1 := by
  unfold roundEven
  split_ifs <;> constructor <;> omega

theorem roundEven_int (n : ℤ) : roundEven (n : K) = n := by
  unfold roundEven
  rw [Int.floor_intCast, sub_self, if_pos (by norm_num)]

theorem roundEven_mono {x y : K} (h : x ≤ y) : roundEven x ≤ roundEven y := by
  rcases (Int.floor_mono h).lt_or_eq with hf | hf
  · exact (roundEven_bounds x).2.trans (le_trans (by omega) (roundEven_bounds y).1)
  · unfold roundEven
    rw [hf]
    have : x - (⌊y⌋ : K) ≤ y - ⌊y⌋ := by linarith
    split_ifs <;> first | omega | linarith

theorem roundEven_unique {x : K} {n : ℤ} (h : |x - n| < 1 / 2) : roundEven x = n := by
  have h1 := roundEven_near x
  have : |(roundEven x : K) - n| < 1 := by
    calc |(roundEven x : K) - n| = |((roundEven x : K) - x) + (x - n)| := by ring_nf
      _ ≤ _ := abs_add_le _ _
      _ < 1 := by linarith
  have h2 : |roundEven x - n| < 1 := by exact_mod_cast this
  rw [Int.abs_lt_one_iff] at h2
  omega

theorem roundEven_neg (x : K) : roundEven (-x) = -roundEven x := by
  by_cases hx : (⌊x⌋ : K) = x
  · rw [← hx, ← Int.cast_neg, roundEven_int, roundEven_int]
  · have h1 := Int.floor_le x
    have h2 := Int.lt_floor_add_one x
    have h3 : (⌊x⌋ : K) < x := lt_of_le_of_ne h1 hx
    have hf : ⌊-x⌋ = -⌊x⌋ - 1 := by
      rw [Int.floor_eq_iff]; push_cast; constructor <;> linarith
    unfold roundEven
    rw [hf]; push_cast
    have e : -x - (-(⌊x⌋ : K) - 1) = 1 - (x - ⌊x⌋) := by ring
    rw [e]
    have a1 : (1 - (x - (⌊x⌋ : K)) < 1 / 2) ↔ 1 / 2 < x - ⌊x⌋ := by constructor <;> intro h <;> linarith
    have a2 : (1 / 2 < 1 - (x - (⌊x⌋ : K))) ↔ x - ⌊x⌋ < 1 / 2 := by constructor <;> intro h <;> linarith
    simp only [a1, a2]
    split_ifs <;> first | omega | linarith

theorem ulp_pos (p : ℕ) (x : K) : 0 < ulp p x := zpow_pos two_pos _

theorem binaryRnd_zero (p : ℕ) : binaryRnd p (0 : K) = 0 := by
  unfold binaryRnd
  rw [zero_div, show (0 : K) = ((0 : ℤ) : K) by simp, roundEven_int]; simp

theorem ulp_neg (p : ℕ) (x : K) : ulp p (-x) = ulp p x := by unfold ulp; rw [abs_neg]

theorem binaryRnd_neg (p : ℕ) (x : K) : binaryRnd p (-x) = -binaryRnd p x := by
  unfold binaryRnd
  rw [ulp_neg, neg_div, roundEven_neg]; push_cast; ring

theorem log_bounds {x : K} (hx : x ≠ 0) :
    (2 : K) ^ Int.log 2 |x| ≤ |x| ∧ |x| < (2 : K) ^ (Int.log 2 |x| + 1) := by
  constructor
  · exact_mod_cast Int.zpow_log_le_self (b := 2) (by norm_num) (abs_pos.2 hx)
  · exact_mod_cast Int.lt_zpow_succ_log_self (b := 2) (by norm_num) |x|

theorem ulp_le (p : ℕ) {x : K} (hx : x ≠ 0) : ulp p x / 2 ≤ (1 / 2) ^ p * |x| := by
  have h := (log_bounds hx).1
  unfold ulp
  have e : (2 : K) ^ (Int.log 2 |x| - (p : ℤ) + 1) / 2 = (1 / 2) ^ p * 2 ^ Int.log 2 |x| := by
    rw [zpow_add₀ two_ne_zero, zpow_sub₀ two_ne_zero, zpow_natCast, zpow_one, one_div, inv_pow]
    field_simp
  rw [e]
  exact mul_le_mul_of_nonneg_left h (by positivity)

theorem binaryRnd_near (p : ℕ) (x : K) : |binaryRnd p x - x| ≤ (1 / 2) ^ p * |x| := by
  by_cases hx : x = 0
  · subst hx; rw [binaryRnd_zero]; simp
  · have hu := ulp_pos p x
    have e : binaryRnd p x - x = ((roundEven (x / ulp p x) : K) - x / ulp p x) * ulp p x := by
      unfold binaryRnd; field_simp
    rw [e, abs_mul, abs_of_pos hu]
    calc _ ≤ 1 / 2 * ulp p x := mul_le_mul_of_nonneg_right (roundEven_near _) hu.le
      _ = ulp p x / 2 := by ring
      _ ≤ _ := ulp_le p hx

/-- The `p`-bit numbers are fixed. -/
theorem binaryRnd_fix {p : ℕ} (hp : 1 ≤ p) {k e : ℤ} (hk : |k| ≤ 2 ^ p) :
    binaryRnd p ((k : K) * 2 ^ e) = k * 2 ^ e := by
  by_cases h0 : k = 0
  · subst h0; simp [binaryRnd_zero]
  set x : K := (k : K) * 2 ^ e with hx
  have hx0 : x ≠ 0 := mul_ne_zero (by exact_mod_cast h0) (zpow_ne_zero _ two_ne_zero)
  have hab : |x| = (|k| : ℤ) * (2 : K) ^ e := by
    rw [hx, abs_mul, abs_of_pos (zpow_pos (two_pos) e : (0 : K) < 2 ^ e), Int.cast_abs]
  suffices ∃ m : ℤ, x / ulp p x = m by
    obtain ⟨m, hm⟩ := this
    unfold binaryRnd
    rw [hm, roundEven_int, ← hm]
    exact div_mul_cancel₀ _ (ulp_pos p x).ne'
  obtain ⟨l1, l2⟩ := log_bounds hx0
  rcases hk.lt_or_eq with h | h
  · -- fewer than `p` bits above `2 ^ e`
    have hl : Int.log 2 |x| < e + p := by
      have : |x| < (2 : K) ^ (e + p) := by
        rw [hab, zpow_add₀ two_ne_zero, mul_comm, zpow_natCast]
        exact mul_lt_mul_of_pos_left (by exact_mod_cast h) (zpow_pos two_pos _)
      exact (zpow_lt_zpow_iff_right₀ (by norm_num : (1 : K) < 2)).1 (lt_of_le_of_lt l1 this)
    obtain ⟨d, hd⟩ : ∃ d : ℕ, e - (Int.log 2 |x| - (p : ℤ) + 1) = d :=
      ⟨(e - (Int.log 2 |x| - (p : ℤ) + 1)).toNat, by omega⟩
    refine ⟨k * 2 ^ d, ?_⟩
    unfold ulp
    rw [hx, mul_div_assoc, ← zpow_sub₀ two_ne_zero, ← hx, hd, zpow_natCast]
    push_cast; rfl
  · -- a power of two
    have hl : Int.log 2 |x| = e + p := by
      have hpow : |x| = (2 : K) ^ (e + p) := by
        rw [hab, h, zpow_add₀ two_ne_zero, zpow_natCast]; push_cast; ring
      rw [hpow]
      have := Int.log_zpow (R := K) (b := 2) (by norm_num) (e + p)
      exact_mod_cast this
    have h2 : k = 2 ^ p ∨ k = -2 ^ p := (abs_eq (by positivity)).1 h
    have hq : (2 : K) ^ p * 2 ^ e / 2 ^ (e + p - (p : ℤ) + 1) = ((2 ^ (p - 1) : ℤ) : K) := by
      rw [show e + (p : ℤ) - p + 1 = e + 1 by ring, zpow_add₀ two_ne_zero, zpow_one]
      obtain ⟨r, rfl⟩ : ∃ r, p = r + 1 := ⟨p - 1, by omega⟩
      have : (2 : K) ^ e ≠ 0 := zpow_ne_zero _ two_ne_zero
      rw [Nat.add_sub_cancel, pow_succ]; push_cast; field_simp
    rcases h2 with h2 | h2
    · refine ⟨2 ^ (p - 1), ?_⟩
      unfold ulp
      rw [hl, hx, h2, ← hq]; push_cast; rfl
    · refine ⟨-2 ^ (p - 1), ?_⟩
      unfold ulp
      rw [hl, hx, h2, Int.cast_neg, Int.cast_neg, ← hq]; push_cast; ring

/-- Rounding within a binade. -/
theorem binaryRnd_pos_bounds {p : ℕ} (hp : 1 ≤ p) {x : K} (hx : 0 < x) :
    (2 : K) ^ Int.log 2 |x| ≤ binaryRnd p x ∧ binaryRnd p x ≤ 2 ^ (Int.log 2 |x| + 1) ∧
      |roundEven (x / ulp p x)| ≤ 2 ^ p := by
  obtain ⟨l1, l2⟩ := log_bounds hx.ne'
  rw [abs_of_pos hx] at l1 l2
  have hu := ulp_pos p x
  have e1 : (2 : K) ^ Int.log 2 x / ulp p x = ((2 ^ (p - 1) : ℤ) : K) := by
    unfold ulp
    rw [abs_of_pos hx, ← zpow_sub₀ two_ne_zero,
      show Int.log 2 x - (Int.log 2 x - (p : ℤ) + 1) = ((p - 1 : ℕ) : ℤ) by omega, zpow_natCast]
    push_cast; rfl
  have e2 : (2 : K) ^ (Int.log 2 x + 1) / ulp p x = ((2 ^ p : ℤ) : K) := by
    unfold ulp
    rw [abs_of_pos hx, ← zpow_sub₀ two_ne_zero,
      show Int.log 2 x + 1 - (Int.log 2 x - (p : ℤ) + 1) = ((p : ℕ) : ℤ) by omega, zpow_natCast]
    push_cast; rfl
  have r1 : 2 ^ (p - 1) ≤ roundEven (x / ulp p x) := by
    rw [← roundEven_int (K := K) (2 ^ (p - 1)), ← e1]
    exact roundEven_mono (div_le_div_of_nonneg_right l1 hu.le)
  have r2 : roundEven (x / ulp p x) ≤ 2 ^ p := by
    rw [← roundEven_int (K := K) (2 ^ p), ← e2]
    exact roundEven_mono (div_le_div_of_nonneg_right l2.le hu.le)
  rw [abs_of_pos hx]
  refine ⟨?_, ?_, ?_⟩
  · rw [← div_mul_cancel₀ ((2 : K) ^ Int.log 2 x) hu.ne', e1]
    exact mul_le_mul_of_nonneg_right (by exact_mod_cast r1) hu.le
  · rw [← div_mul_cancel₀ ((2 : K) ^ (Int.log 2 x + 1)) hu.ne', e2]
    exact mul_le_mul_of_nonneg_right (by exact_mod_cast r2) hu.le
  · rw [abs_of_nonneg (le_trans (by positivity) r1)]; exact r2

theorem binaryRnd_mono_pos {p : ℕ} (hp : 1 ≤ p) {x y : K} (hx : 0 < x) (h : x ≤ y) :
    binaryRnd p x ≤ binaryRnd p y := by
  have hy := lt_of_lt_of_le hx h
  have hl : Int.log 2 |x| ≤ Int.log 2 |y| := by
    rw [abs_of_pos hx, abs_of_pos hy]; exact Int.log_mono_right hx h
  rcases hl.lt_or_eq with h1 | h1
  · exact (binaryRnd_pos_bounds hp hx).2.1.trans
      ((zpow_le_zpow_right₀ (by norm_num) (by omega)).trans (binaryRnd_pos_bounds hp hy).1)
  · have : ulp p x = ulp p y := by unfold ulp; rw [h1]
    unfold binaryRnd
    rw [this]
    exact mul_le_mul_of_nonneg_right
      (by exact_mod_cast roundEven_mono (div_le_div_of_nonneg_right h (ulp_pos p y).le))
      (ulp_pos p y).le

theorem binaryRnd_pos {p : ℕ} (hp : 1 ≤ p) {x : K} (hx : 0 < x) : 0 < binaryRnd p x :=
  lt_of_lt_of_le (zpow_pos two_pos _) (binaryRnd_pos_bounds hp hx).1

theorem binaryRnd_mono {p : ℕ} (hp : 1 ≤ p) {x y : K} (h : x ≤ y) :
    binaryRnd p x ≤ binaryRnd p y := by
  have neg : ∀ {z : K}, z < 0 → binaryRnd p z < 0 := by
    intro z hz
    have := binaryRnd_pos hp (neg_pos.2 hz)
    rw [binaryRnd_neg] at this; linarith
  rcases lt_trichotomy x 0 with hx | hx | hx
  · rcases lt_trichotomy y 0 with hy | hy | hy
    · have := binaryRnd_mono_pos hp (neg_pos.2 hy) (neg_le_neg h)
      rw [binaryRnd_neg, binaryRnd_neg] at this; linarith
    · subst hy; rw [binaryRnd_zero]; exact (neg hx).le
    · exact (neg hx).le.trans (binaryRnd_pos hp hy).le
  · subst hx
    rw [binaryRnd_zero]
    rcases h.lt_or_eq with hy | hy
    · exact (binaryRnd_pos hp hy).le
    · rw [← hy, binaryRnd_zero]
  · exact binaryRnd_mono_pos hp hx h

theorem binaryRnd_idem {p : ℕ} (hp : 1 ≤ p) (x : K) :
    binaryRnd p (binaryRnd p x) = binaryRnd p x := by
  have pos : ∀ {z : K}, 0 < z → binaryRnd p (binaryRnd p z) = binaryRnd p z := by
    intro z hz
    exact binaryRnd_fix hp (binaryRnd_pos_bounds hp hz).2.2
  rcases lt_trichotomy x 0 with hx | hx | hx
  · have := pos (neg_pos.2 hx)
    rw [binaryRnd_neg, binaryRnd_neg] at this
    exact neg_injective this
  · subst hx; rw [binaryRnd_zero, binaryRnd_zero]
  · exact pos hx

/-- Rounding to nearest with `p` significant bits, ties to even. -/
def binary (p : ℕ) (hp : 1 ≤ p) : Rounding K where
  rnd := binaryRnd p
  unit := (1 / 2) ^ p
  unit_nonneg := by positivity
  near := binaryRnd_near p
  mono _ _ := binaryRnd_mono hp
  odd := binaryRnd_neg p
  idem := binaryRnd_idem hp
  one := by
    have := binaryRnd_fix (K := K) (p := p) hp (k := 1) (e := 0) (by simpa using one_le_pow₀ (by norm_num : (1 : ℤ) ≤ 2))
    simpa using this

/-- The value of a rounding from the neighbouring multiple of the spacing. -/
theorem binaryRnd_eq {p : ℕ} {x : K} {e k : ℤ} (h1 : (2 : K) ^ (e + p - 1) ≤ |x|)
    (h2 : |x| < 2 ^ (e + p)) (hk : |x - k * 2 ^ e| < 2 ^ e / 2) : binaryRnd p x = k * 2 ^ e := by
  have hx : x ≠ 0 := by
    rintro rfl
    rw [abs_zero] at h1
    exact absurd h1 (not_le.2 (zpow_pos two_pos _))
  obtain ⟨l1, l2⟩ := log_bounds hx
  have hl : Int.log 2 |x| = e + p - 1 := by
    have a := (zpow_lt_zpow_iff_right₀ (by norm_num : (1 : K) < 2)).1 (lt_of_le_of_lt l1 h2)
    have b := (zpow_lt_zpow_iff_right₀ (by norm_num : (1 : K) < 2)).1 (lt_of_le_of_lt h1 l2)
    omega
  have hu : ulp p x = 2 ^ e := by
    unfold ulp; rw [hl]; congr 1; ring
  have he : (0 : K) < 2 ^ e := zpow_pos two_pos _
  unfold binaryRnd
  rw [hu, roundEven_unique (n := k)]
  rw [show x / 2 ^ e - k = (x - k * 2 ^ e) / 2 ^ e by field_simp, abs_div, abs_of_pos he, div_lt_iff₀ he]
  linarith

end Binary

end NS
