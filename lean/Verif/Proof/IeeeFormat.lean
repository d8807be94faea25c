import Mathlib.Tactic.FieldSimp
import Verif.Proof.Ieee

/-!
# Binary formats with gradual underflow and a largest number
-/

set_option linter.unusedSectionVars false

namespace NS.Ieee

variable {K : Type} [Field K] [LinearOrder K] [IsStrictOrderedRing K] [FloorRing K]

theorem two_zpow_pos (e : ℤ) : (0 : K) < 2 ^ e := zpow_pos two_pos _

theorem zpow_split {e j : ℤ} (h : e ≤ j) : (2 : K) ^ j = ((2 ^ (j - e).toNat : ℤ) : K) * 2 ^ e := by
  push_cast
  rw [← zpow_natCast, ← zpow_add₀ two_ne_zero]
  congr 1
  omega

/-- Multiples of `2^e` are fixed below the normal range. -/
theorem rnd_mult (e k : ℤ) : (roundEven ((k : K) * 2 ^ e / 2 ^ e) : K) * 2 ^ e = k * 2 ^ e := by
  rw [mul_div_assoc, div_self (two_zpow_pos e).ne', mul_one, roundEven_int]

theorem rndSub_fix {p : ℕ} (hp : 1 ≤ p) {e j k : ℤ} (hj : e ≤ j) (hk : |k| ≤ 2 ^ p) :
    rndSub p e ((k : K) * 2 ^ j) = k * 2 ^ j := by
  unfold rndSub
  split_ifs
  · rw [zpow_split hj, ← mul_assoc, ← Int.cast_mul]
    exact rnd_mult _ _
  · exact binaryRnd_fix hp hk

theorem log_large {p : ℕ} {e : ℤ} {x : K} (hx : x ≠ 0) (h : ¬ |x| < 2 ^ (e + p - 1)) :
    e ≤ Int.log 2 |x| - (p : ℤ) + 1 := by
  have l2 := (log_bounds hx).2
  have := (zpow_lt_zpow_iff_right₀ (by norm_num : (1 : K) < 2)).1 (lt_of_le_of_lt (not_lt.1 h) l2)
  omega

theorem ne_of_large {p : ℕ} {e : ℤ} {x : K} (h : ¬ |x| < 2 ^ (e + p - 1)) : x ≠ 0 := by
  rintro rfl
  rw [abs_zero] at h
  exact h (two_zpow_pos _)

theorem round_abs {p : ℕ} (hp : 1 ≤ p) {x : K} (hx : x ≠ 0) :
    |roundEven (x / ulp p x)| ≤ 2 ^ p := by
  rcases lt_or_gt_of_ne hx with h | h
  · have := (binaryRnd_pos_bounds hp (neg_pos.2 h)).2.2
    rwa [ulp_neg, neg_div, roundEven_neg, abs_neg] at this
  · exact (binaryRnd_pos_bounds hp h).2.2

theorem small_abs {p : ℕ} (hp : 1 ≤ p) {e : ℤ} {x : K} (h : |x| < 2 ^ (e + p - 1)) :
    |roundEven (x / 2 ^ e)| ≤ 2 ^ (p - 1) := by
  have he := two_zpow_pos (K := K) e
  have e1 : (2 : K) ^ (e + p - 1) = ((2 ^ (p - 1) : ℤ) : K) * 2 ^ e := by
    rw [zpow_split (show e ≤ e + p - 1 by omega)]
    congr 3
    omega
  rw [e1] at h
  obtain ⟨h1, h2⟩ := abs_lt.1 h
  refine abs_le.2 ⟨?_, ?_⟩
  · rw [← roundEven_int (K := K) (-2 ^ (p - 1))]
    apply roundEven_mono
    rw [le_div_iff₀ he]
    push_cast at h1 ⊢
    linarith
  · rw [← roundEven_int (K := K) (2 ^ (p - 1))]
    apply roundEven_mono
    rw [div_le_iff₀ he]
    exact h2.le

theorem rndSub_near (p : ℕ) (e : ℤ) (x : K) :
    |rndSub p e x - x| ≤ (1 / 2) ^ p * |x| + 2 ^ e / 2 := by
  have he := two_zpow_pos (K := K) e
  have h0 : 0 ≤ (1 / 2 : K) ^ p * |x| := by positivity
  unfold rndSub
  split_ifs
  · have e1 : (roundEven (x / 2 ^ e) : K) * 2 ^ e - x
        = ((roundEven (x / 2 ^ e) : K) - x / 2 ^ e) * 2 ^ e := by field_simp
    rw [e1, abs_mul, abs_of_pos he]
    have := mul_le_mul_of_nonneg_right (roundEven_near (x / 2 ^ e)) he.le
    linarith
  · have := binaryRnd_near p x
    linarith

theorem rndSub_neg (p : ℕ) (e : ℤ) (x : K) : rndSub p e (-x) = -rndSub p e x := by
  unfold rndSub
  rw [abs_neg, neg_div, roundEven_neg, binaryRnd_neg]
  split_ifs
  · push_cast; ring
  · rfl

theorem rndSub_idem {p : ℕ} (hp : 1 ≤ p) (e : ℤ) (x : K) :
    rndSub p e (rndSub p e x) = rndSub p e x := by
  by_cases h : |x| < 2 ^ (e + p - 1)
  · have e1 : rndSub p e x = (roundEven (x / 2 ^ e) : K) * 2 ^ e := if_pos h
    rw [e1]
    exact rndSub_fix hp le_rfl ((small_abs hp h).trans (pow_le_pow_right₀ (by norm_num) (by omega)))
  · have e1 : rndSub p e x = binaryRnd p x := if_neg h
    have hx := ne_of_large h
    rw [e1]
    exact rndSub_fix hp (log_large hx h) (round_abs hp hx)

/-- Numbers of the format are multiples of `2^e`. -/
theorem exists_mult {p : ℕ} {e : ℤ} {x : K} (h : rndSub p e x = x) :
    ∃ k : ℤ, x = k * 2 ^ e := by
  by_cases hs : |x| < 2 ^ (e + p - 1)
  · exact ⟨roundEven (x / 2 ^ e), h.symm.trans (if_pos hs)⟩
  · have e1 : rndSub p e x = binaryRnd p x := if_neg hs
    rw [e1] at h
    refine ⟨roundEven (x / ulp p x) * 2 ^ (Int.log 2 |x| - (p : ℤ) + 1 - e).toNat, ?_⟩
    rw [Int.cast_mul, mul_assoc, ← zpow_split (log_large (ne_of_large hs) hs)]
    exact h.symm

theorem rndSub_sum (p : ℕ) (e : ℤ) (x y : K) (hx : rndSub p e x = x) (hy : rndSub p e y = y) :
    |rndSub p e (x + y) - (x + y)| ≤ (1 / 2) ^ p * |x + y| := by
  obtain ⟨k, rfl⟩ := exists_mult hx
  obtain ⟨l, rfl⟩ := exists_mult hy
  rw [← add_mul, ← Int.cast_add]
  unfold rndSub
  split_ifs
  · rw [rnd_mult, sub_self, abs_zero]
    positivity
  · exact binaryRnd_near _ _

theorem rndSub_mono {p : ℕ} (hp : 1 ≤ p) (e : ℤ) {x y : K} (h : x ≤ y) :
    rndSub p e x ≤ rndSub p e y := by
  have he := two_zpow_pos (K := K) e
  -- below the normal range the result does not leave its closure
  have top : ∀ z : K, |z| < 2 ^ (e + p - 1) → rndSub p e z ≤ 2 ^ (e + p - 1) := by
    intro z hz
    have e1 : rndSub p e z = (roundEven (z / 2 ^ e) : K) * 2 ^ e := if_pos hz
    rw [e1, zpow_split (show e ≤ e + p - 1 by omega)]
    refine mul_le_mul_of_nonneg_right ?_ he.le
    have := (abs_le.1 (small_abs hp hz)).2
    rw [show (e + p - 1 - e).toNat = p - 1 by omega]
    exact_mod_cast this
  have large : ∀ z : K, 2 ^ (e + p - 1) ≤ z → 2 ^ (e + p - 1) ≤ binaryRnd p z := by
    intro z hz
    have := binaryRnd_mono hp hz
    have f := binaryRnd_fix (K := K) hp (k := 1) (e := e + p - 1)
      (by simpa using one_le_pow₀ (by norm_num : (1 : ℤ) ≤ 2))
    rw [Int.cast_one, one_mul] at f
    rwa [f] at this
  -- non-negative difference of magnitude classes
  have up : ∀ x y : K, x ≤ y → |x| < 2 ^ (e + p - 1) → ¬ |y| < 2 ^ (e + p - 1) →
      rndSub p e x ≤ rndSub p e y := by
    intro x y h hx hy
    have hy' : 2 ^ (e + p - 1) ≤ y := by
      rcases le_abs'.1 (not_lt.1 hy) with h1 | h1
      · have := (abs_lt.1 hx).1
        linarith
      · exact h1
    have e1 : rndSub p e y = binaryRnd p y := if_neg hy
    rw [e1]
    exact (top x hx).trans (large y hy')
  by_cases hx : |x| < 2 ^ (e + p - 1)
  · by_cases hy : |y| < 2 ^ (e + p - 1)
    · have e1 : rndSub p e x = (roundEven (x / 2 ^ e) : K) * 2 ^ e := if_pos hx
      have e2 : rndSub p e y = (roundEven (y / 2 ^ e) : K) * 2 ^ e := if_pos hy
      rw [e1, e2]
      exact mul_le_mul_of_nonneg_right
        (by exact_mod_cast roundEven_mono (div_le_div_of_nonneg_right h he.le)) he.le
    · exact up x y h hx hy
  · by_cases hy : |y| < 2 ^ (e + p - 1)
    · have := up (-y) (-x) (by linarith) (by rwa [abs_neg]) (by rwa [abs_neg])
      rw [rndSub_neg, rndSub_neg] at this
      linarith
    · have e1 : rndSub p e x = binaryRnd p x := if_neg hx
      have e2 : rndSub p e y = binaryRnd p y := if_neg hy
      rw [e1, e2]
      exact binaryRnd_mono hp h

/-- `p` significant bits, multiples of `2^e`, largest number `(2^p - 1) * 2^q`; `double` is
`53, -1074, 971` and `float` is `24, -149, 104`. -/
def binary (p : ℕ) (e q : ℤ) (hp : 1 ≤ p) (he : e ≤ 0) (hq : 0 ≤ q) : Format K where
  rnd := rndSub p e
  unit := (1 / 2) ^ p
  eta := 2 ^ e / 2
  big := ((2 ^ p - 1 : ℤ) : K) * 2 ^ q
  unit_nonneg := by positivity
  eta_nonneg := (half_pos (two_zpow_pos e)).le
  near := rndSub_near p e
  sum_near := rndSub_sum p e
  mono _ _ := rndSub_mono hp e
  odd := rndSub_neg p e
  idem := rndSub_idem hp e
  one := by
    have := rndSub_fix (K := K) hp (e := e) (j := 0) (k := 1) he
      (by simpa using one_le_pow₀ (by norm_num : (1 : ℤ) ≤ 2))
    simpa using this
  big_float := by
    apply rndSub_fix hp (by omega)
    have : (1 : ℤ) ≤ 2 ^ p := one_le_pow₀ (by norm_num)
    rw [abs_of_nonneg (by omega)]
    omega
  one_le_big := by
    have h1 : (2 : ℤ) ≤ 2 ^ p := le_self_pow₀ (by norm_num) (by omega)
    have h2 : (1 : K) ≤ ((2 ^ p - 1 : ℤ) : K) := by exact_mod_cast (by omega : (1 : ℤ) ≤ 2 ^ p - 1)
    have h3 : (1 : K) ≤ 2 ^ q := one_le_zpow₀ (by norm_num) hq
    nlinarith

/-! ### Combinations do not overflow -/

theorem isFloat_binary {p : ℕ} (hp : 1 ≤ p) {e : ℤ} {z : K} (h : rndSub p e z = z) :
    binaryRnd p z = z := by
  by_cases hs : |z| < 2 ^ (e + p - 1)
  · have e1 : (roundEven (z / 2 ^ e) : K) * 2 ^ e = z := (if_pos hs).symm.trans h
    rw [← e1]
    exact binaryRnd_fix hp ((small_abs hp hs).trans (pow_le_pow_right₀ (by norm_num) (by omega)))
  · exact (if_neg hs).symm.trans h

/-- A positive number of the format with a normalised significand. -/
theorem normal_form {p : ℕ} (hp : 1 ≤ p) {e : ℤ} {z : K} (h : rndSub p e z = z) (hz : 0 < z) :
    ∃ m j : ℤ, z = m * 2 ^ j ∧ 2 ^ (p - 1) ≤ m ∧ m + 1 ≤ 2 ^ p := by
  have hb := isFloat_binary hp h
  have hu := ulp_pos p z
  obtain ⟨l1, l2⟩ := log_bounds hz.ne'
  rw [abs_of_pos hz] at l1 l2
  have e1 : (roundEven (z / ulp p z) : K) * ulp p z = z := hb
  refine ⟨roundEven (z / ulp p z), Int.log 2 |z| - (p : ℤ) + 1, e1.symm, ?_, ?_⟩
  · have : ((2 ^ (p - 1) : ℤ) : K) * ulp p z ≤ (roundEven (z / ulp p z) : K) * ulp p z := by
      rw [e1]
      refine le_trans (le_of_eq ?_) l1
      unfold ulp
      rw [abs_of_pos hz, zpow_split (show Int.log 2 z - (p : ℤ) + 1 ≤ Int.log 2 z by omega),
        show (Int.log 2 z - (Int.log 2 z - (p : ℤ) + 1)).toNat = p - 1 by omega]
    exact_mod_cast le_of_mul_le_mul_right this hu
  · have : (roundEven (z / ulp p z) : K) * ulp p z < ((2 ^ p : ℤ) : K) * ulp p z := by
      rw [e1]
      refine lt_of_lt_of_le l2 (le_of_eq ?_)
      unfold ulp
      rw [abs_of_pos hz, zpow_split (show Int.log 2 z - (p : ℤ) + 1 ≤ Int.log 2 z + 1 by omega),
        show (Int.log 2 z + 1 - (Int.log 2 z - (p : ℤ) + 1)).toNat = p by omega]
    have h3 : roundEven (z / ulp p z) < 2 ^ p := by exact_mod_cast lt_of_mul_lt_mul_right this hu.le
    omega

theorem half_ulp {p : ℕ} {x : K} (h0 : 0 < x) (h1 : x < 1) :
    |binaryRnd p x - x| ≤ (1 / 2) ^ (p + 1) := by
  have hu := ulp_pos p x
  have e : binaryRnd p x - x = ((roundEven (x / ulp p x) : K) - x / ulp p x) * ulp p x := by
    unfold binaryRnd; field_simp
  obtain ⟨l1, l2⟩ := log_bounds h0.ne'
  rw [abs_of_pos h0] at l1
  have hl : Int.log 2 |x| + 1 ≤ 0 := by
    rw [abs_of_pos h0]
    have := (zpow_lt_zpow_iff_right₀ (by norm_num : (1 : K) < 2)).1
      (lt_of_le_of_lt l1 (by simpa using h1 : x < (2 : K) ^ (0 : ℤ)))
    omega
  rw [e, abs_mul, abs_of_pos hu]
  refine (mul_le_mul_of_nonneg_right (roundEven_near _) hu.le).trans ?_
  have h2 : ulp p x ≤ (2 : K) ^ (-(p : ℤ)) := zpow_le_zpow_right₀ (by norm_num) (by omega)
  rw [zpow_neg, zpow_natCast] at h2
  rw [pow_succ, one_div, inv_pow]
  linarith

/-- Rounding to nearest does not overflow in convex combinations. -/
theorem binary_safe {p : ℕ} {e q : ℤ} (hp : 1 ≤ p) (he : e ≤ 0) (hq : 0 ≤ q) :
    (binary (K := K) p e q hp he hq).Safe := by
  obtain ⟨a, ha, h2a⟩ : ∃ a : ℤ, a = 2 ^ (p - 1) ∧ 2 ^ p = 2 * a := ⟨_, rfl, by
    rw [← pow_succ']; congr 1; omega⟩
  have a1 : 1 ≤ a := by rw [ha]; exact one_le_pow₀ (by norm_num)
  have a1' : (1 : K) ≤ a := by exact_mod_cast a1
  have pq : ∀ j : ℤ, (2 : K) ^ (j + p) = 2 * a * 2 ^ j := by
    intro j
    rw [zpow_add₀ two_ne_zero, zpow_natCast, mul_comm]
    congr 1
    exact_mod_cast h2a
  have pq1 : ∀ j : ℤ, (2 : K) ^ (j + p - 1) = a * 2 ^ j := by
    intro j
    have := pq (j - 1)
    rw [show j - 1 + (p : ℤ) = j + p - 1 by ring] at this
    rw [this, show j = j - 1 + 1 by ring, zpow_add_one₀ two_ne_zero]
    ring_nf
  have hq1 : (1 : K) ≤ 2 ^ q := one_le_zpow₀ (by norm_num) hq
  have hbig : (binary (K := K) p e q hp he hq).big = (2 * a - 1) * 2 ^ q := by
    change ((2 ^ p - 1 : ℤ) : K) * 2 ^ q = _
    rw [h2a]
    push_cast
    ring
  constructor
  · intro z hz h0 h1
    change rndSub p e z = z at hz
    change rndSub p e (z * _) ≤ _
    rw [hbig]
    rcases h0.eq_or_lt with h0 | h0
    · subst h0
      rw [zero_mul]
      exact (Format.zero (binary (K := K) p e q hp he hq)).le
    · obtain ⟨m, j, e1, m1, m2⟩ := normal_form hp hz h0
      rw [← ha] at m1
      rw [h2a] at m2
      have m1' : (a : K) ≤ m := by exact_mod_cast m1
      have m2' : (m : K) + 1 ≤ 2 * a := by exact_mod_cast m2
      have hze : (2 : K) ^ e ≤ z := by
        obtain ⟨k, hk⟩ := exists_mult hz
        have hk0 : (0 : K) < k := by
          by_contra hc
          have := mul_nonpos_of_nonpos_of_nonneg (not_lt.1 hc) (two_zpow_pos (K := K) e).le
          linarith
        have hk1 : (1 : K) ≤ k := by exact_mod_cast (by exact_mod_cast hk0 : (0 : ℤ) < k)
        rw [hk]
        have := mul_le_mul_of_nonneg_right hk1 (two_zpow_pos (K := K) e).le
        linarith
      have hF : (a : K) ≤ (2 * a - 1) * 2 ^ q := by nlinarith
      have hzF : (2 : K) ^ (e + p - 1) ≤ z * ((2 * a - 1) * 2 ^ q) := by
        rw [pq1, mul_comm (a : K)]
        exact mul_le_mul hze hF (by linarith) h0.le
      have hpos : 0 < z * ((2 * a - 1) * 2 ^ q) := lt_of_lt_of_le (two_zpow_pos _) hzF
      have hr : rndSub p e (z * ((2 * a - 1) * 2 ^ q)) = binaryRnd p (z * ((2 * a - 1) * 2 ^ q)) :=
        if_neg (by rw [abs_of_pos hpos]; exact not_lt.2 hzF)
      rw [hr]
      have hw := two_zpow_pos (K := K) (j + q)
      have ez : z * ((2 * a - 1) * 2 ^ q) = (m * (2 * a - 1)) * 2 ^ (j + q) := by
        rw [e1, zpow_add₀ two_ne_zero]; ring
      rcases m1.eq_or_lt with hm | hm
      · have ez2 : z * ((2 * a - 1) * 2 ^ q) = ((2 * a - 1 : ℤ) : K) * 2 ^ (j + q + p - 1) := by
          rw [ez, pq1, ← hm]
          push_cast
          ring
        rw [ez2]
        refine (binaryRnd_fix hp ?_).le
        rw [abs_of_nonneg (by omega), h2a]
        omega
      · have m3 : (a : K) + 1 ≤ m := by exact_mod_cast hm
        have key : binaryRnd p (z * ((2 * a - 1) * 2 ^ q)) = ((m - 1 : ℤ) : K) * 2 ^ (j + q + p) := by
          apply binaryRnd_eq
          · rw [abs_of_pos hpos, ez, pq1, pq, ← mul_assoc]
            refine mul_le_mul_of_nonneg_right ?_ hw.le
            nlinarith
          · rw [abs_of_pos hpos, ez, pq, pq, ← mul_assoc]
            refine mul_lt_mul_of_pos_right ?_ hw
            nlinarith
          · rw [ez, pq]
            push_cast
            rw [show (m : K) * (2 * a - 1) * 2 ^ (j + q) - (m - 1) * (2 * a * 2 ^ (j + q))
              = (2 * a - m) * 2 ^ (j + q) by ring, abs_of_nonneg (by
                apply mul_nonneg _ hw.le; linarith)]
            nlinarith
        rw [key, ez, pq]
        push_cast
        nlinarith
  · intro t ht h0 h1 x hx
    change rndSub p e t = t at ht
    change x ≤ (rndSub p e (1 - t) + t) * _ at hx
    change rndSub p e x ≤ _
    rw [hbig] at hx ⊢
    have hB0 : (0 : K) < (2 * a - 1) * 2 ^ q := by
      apply mul_pos _ (by linarith); linarith
    by_cases hxb : x ≤ (2 * a - 1) * 2 ^ q
    · have := rndSub_mono hp e hxb
      have f := (binary (K := K) p e q hp he hq).big_float
      rw [hbig] at f
      change rndSub p e _ = _ at f
      rwa [f] at this
    · push Not at hxb
      have hs : rndSub p e (1 - t) + t ≤ 1 + (1 / 2) ^ (p + 1) := by
        have hpp : (0 : K) ≤ (1 / 2) ^ (p + 1) := by positivity
        have f1 : rndSub p e 1 = (1 : K) := (binary (K := K) p e q hp he hq).one
        rcases h0.eq_or_lt with h | h
        · rw [← h, sub_zero, f1]; linarith
        · rcases h1.eq_or_lt with h' | h'
          · rw [h', sub_self]
            have := Format.zero (binary (K := K) p e q hp he hq)
            change rndSub p e 0 = (0 : K) at this
            rw [this]; linarith
          · by_cases hsm : |1 - t| < 2 ^ (e + p - 1)
            · have e1 : rndSub p e (1 - t) = (roundEven ((1 - t) / 2 ^ e) : K) * 2 ^ e := if_pos hsm
              obtain ⟨k, hk⟩ := exists_mult f1
              obtain ⟨l, hl⟩ := exists_mult ht
              have e2 : 1 - t = ((k - l : ℤ) : K) * 2 ^ e := by
                push_cast
                rw [sub_mul, ← hk, ← hl]
              rw [e1, e2, rnd_mult, ← e2]
              linarith
            · have e1 : rndSub p e (1 - t) = binaryRnd p (1 - t) := if_neg hsm
              have := (abs_le.1 (half_ulp (p := p) (x := 1 - t) (by linarith) (by linarith))).2
              rw [e1]; linarith
      have hpa : (1 / 2 : K) ^ (p + 1) * (4 * a) = 1 := by
        have : ((2 ^ p : ℤ) : K) = ((2 * a : ℤ) : K) := by rw [h2a]
        push_cast at this
        rw [show (4 : K) * a = 2 * (2 * a) by ring, ← this, ← pow_succ', ← mul_pow]
        norm_num
      have hxu : x < (2 * a - 1) * 2 ^ q + 2 ^ q / 2 := by
        have h3 := hx.trans (mul_le_mul_of_nonneg_right hs hB0.le)
        have h4 : (1 / 2 : K) ^ (p + 1) * ((2 * a - 1) * 2 ^ q)
            = 2 ^ q / 2 - (1 / 2 : K) ^ (p + 1) * 2 ^ q := by
          linear_combination (2 ^ q / 2) * hpa
        have h5 : 0 < (1 / 2 : K) ^ (p + 1) * 2 ^ q := by positivity
        linarith
      have x0 : 0 < x := hB0.trans hxb
      have hlow : (2 : K) ^ (q + p - 1) ≤ |x| := by
        rw [abs_of_pos x0, pq1]
        refine le_trans ?_ hxb.le
        nlinarith
      have hr : rndSub p e x = binaryRnd p x :=
        if_neg (not_lt.2 (le_trans (zpow_le_zpow_right₀ (by norm_num) (by omega)) hlow))
      have key : binaryRnd p x = ((2 * a - 1 : ℤ) : K) * 2 ^ q := by
        apply binaryRnd_eq hlow
        · rw [abs_of_pos x0, pq]
          linarith
        · push_cast
          rw [abs_of_pos (by linarith)]
          linarith
      rw [hr, key]
      push_cast
      exact le_rfl

end NS.Ieee
