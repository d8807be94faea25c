import Verif.Model.FloatSearch
import Verif.Proof.FloatUnwrap
import Verif.Proof.Inverse

/-!
# Sampling and closest point searches in floating point arithmetic
-/

set_option linter.unusedSectionVars false

namespace NS

open Outcome

variable {K : Type} [Field K] [LinearOrder K] [IsStrictOrderedRing K] [FloorRing K]

/-- Natural numbers up to `2 ^ p` have `p` bits. -/
theorem natCast_isFloat {p : ℕ} (hp : 1 ≤ p) {n : ℕ} (hn : n ≤ 2 ^ p) :
    (binary p hp : Rounding K).IsFloat (n : K) := by
  rw [isFloat_binary_iff]
  refine ⟨n, 0, ?_, by simp⟩
  rw [abs_of_nonneg (by positivity)]
  exact_mod_cast hn

/-- The tie after one is rounded to one. -/
theorem binary_one_add {p : ℕ} (hp : 1 ≤ p) (hp2 : 2 ≤ p) :
    (binary p hp : Rounding K).rnd (1 + (1 / 2) ^ p) = 1 := by
  have h0 : (0 : K) < (1 / 2) ^ p := by positivity
  have h1 : ((1 : K) / 2) ^ p ≤ 1 / 2 := by
    calc ((1 : K) / 2) ^ p ≤ (1 / 2) ^ 1 := pow_le_pow_of_le_one (by norm_num) (by norm_num) hp
      _ = 1 / 2 := by simp
  have hpos : (0 : K) < 1 + (1 / 2) ^ p := by linarith
  have hl : Int.log 2 |1 + ((1 : K) / 2) ^ p| = 0 := by
    rw [abs_of_pos hpos]
    apply le_antisymm
    · rw [← Int.lt_add_one_iff]
      have := (Int.lt_zpow_iff_log_lt (b := 2) (by norm_num) (x := 0 + 1) hpos).1
        (by push_cast; norm_num; linarith)
      exact this
    · exact (Int.zpow_le_iff_le_log (b := 2) (by norm_num) hpos).1 (by simp)
  obtain ⟨q, rfl⟩ : ∃ q, p = q + 2 := ⟨p - 2, by omega⟩
  have hu : ulp (q + 2) (1 + ((1 : K) / 2) ^ (q + 2)) = (2 ^ (q + 1))⁻¹ := by
    unfold ulp
    rw [hl, show (0 : ℤ) - ((q + 2 : ℕ) : ℤ) + 1 = -((q + 1 : ℕ) : ℤ) by push_cast; ring, zpow_neg,
      zpow_natCast]
  have e : (1 + ((1 : K) / 2) ^ (q + 2)) / (2 ^ (q + 1))⁻¹ = ((2 ^ (q + 1) : ℤ) : K) + 1 / 2 := by
    have : (2 : K) ^ (q + 1) ≠ 0 := by positivity
    rw [div_inv_eq_mul, div_pow, one_pow]
    push_cast
    rw [pow_succ (2 : K) (q + 1)]
    field_simp
  have hf : ⌊((2 ^ (q + 1) : ℤ) : K) + 1 / 2⌋ = 2 ^ (q + 1) := by
    rw [Int.floor_eq_iff]
    constructor <;> [skip; skip] <;> norm_num
  show binaryRnd (q + 2) (1 + ((1 : K) / 2) ^ (q + 2)) = 1
  unfold binaryRnd
  rw [hu, e]
  unfold roundEven
  rw [hf]
  have c : ((2 ^ (q + 1) : ℤ) : K) + 1 / 2 - ((2 ^ (q + 1) : ℤ) : K) = 1 / 2 := by ring
  rw [c, if_neg (by norm_num), if_neg (by norm_num), if_pos (by rw [pow_succ]; omega)]
  push_cast
  exact mul_inv_cancel₀ (by positivity)

namespace Fl

theorem isFloat_min {R : Rounding K} {a b : K} (ha : R.IsFloat a) (hb : R.IsFloat b) :
    R.IsFloat (min a b) := by rcases min_choice a b with h | h <;> rw [h] <;> assumption

theorem isFloat_max {R : Rounding K} {a b : K} (ha : R.IsFloat a) (hb : R.IsFloat b) :
    R.IsFloat (max a b) := by rcases max_choice a b with h | h <;> rw [h] <;> assumption

theorem le_rnd {R : Rounding K} {a x : K} (ha : R.IsFloat a) (h : a ≤ x) : a ≤ R.rnd x := by
  have := R.mono _ _ h
  rwa [show R.rnd a = a from ha] at this

theorem rnd_le {R : Rounding K} {a x : K} (ha : R.IsFloat a) (h : x ≤ a) : R.rnd x ≤ a := by
  have := R.mono _ _ h
  rwa [show R.rnd a = a from ha] at this

/-- The computed upper end of a range. -/
def top (R : Rounding K) (lo hi : K) : K := R.rnd (lo + R.rnd (hi - lo))

theorem searchParam_mem {R : Rounding K} (f : Fuse) {lo hi : K} (hlo : R.IsFloat lo) (h : lo ≤ hi)
    {num i : ℕ} (hi' : i ≤ num) :
    lo ≤ searchParam R f lo hi num i ∧ searchParam R f lo hi num i ≤ top R lo hi := by
  have hnK : (0 : K) ≤ R.rnd (num : K) := R.nonneg (Nat.cast_nonneg _)
  have hiK : (0 : K) ≤ R.rnd (i : K) := R.nonneg (Nat.cast_nonneg _)
  have hle : R.rnd (i : K) ≤ R.rnd (num : K) := R.mono _ _ (by exact_mod_cast hi')
  have s0 : 0 ≤ R.rnd (R.rnd (i : K) / R.rnd (num : K)) := R.nonneg (div_nonneg hiK hnK)
  have s1 : R.rnd (R.rnd (i : K) / R.rnd (num : K)) ≤ 1 :=
    R.le_one (div_le_one_of_le₀ hle hnK)
  have d0 : 0 ≤ R.rnd (hi - lo) := R.nonneg (by linarith)
  unfold searchParam top
  generalize R.rnd (R.rnd (i : K) / R.rnd (num : K)) = s at *
  have hd : R.IsFloat (R.rnd (hi - lo)) := R.idem _
  generalize R.rnd (hi - lo) = d at *
  have p0 : 0 ≤ s * d := mul_nonneg s0 d0
  have p1 : s * d ≤ d := by nlinarith
  have q0 : 0 ≤ R.rnd (s * d) := R.nonneg p0
  have q1 : R.rnd (s * d) ≤ d := rnd_le hd p1
  have hl : R.rnd lo = lo := hlo
  cases f <;> simp only [Rounding.combine, one_mul, hl] <;>
    exact ⟨le_rnd hlo (by linarith), R.mono _ _ (by linarith)⟩

/-- The computed upper end is close to the upper end. -/
theorem top_le (R : Rounding K) {lo hi M : K} (h1 : |lo| ≤ M) (h2 : |hi| ≤ M) :
    top R lo hi ≤ hi + (3 * R.unit + 2 * R.unit ^ 2) * M := by
  have hu := R.unit_nonneg
  have e1 := (abs_le.1 (R.near (hi - lo))).2
  have e1' := (abs_le.1 (R.near (hi - lo))).1
  have e2 := (abs_le.1 (R.near (lo + R.rnd (hi - lo)))).2
  have w : |hi - lo| ≤ 2 * M := by
    have := abs_sub hi lo
    linarith
  have w' := mul_le_mul_of_nonneg_left w hu
  have e3 : |lo + R.rnd (hi - lo)| ≤ M + R.unit * (2 * M) := by
    have hh := abs_le.1 h2
    rw [abs_le]
    constructor <;> linarith [hh.1, hh.2]
  have e4 := mul_le_mul_of_nonneg_left e3 hu
  unfold top
  nlinarith

theorem top_one {p : ℕ} (hp : 1 ≤ p) (hp2 : 2 ≤ p) {lo hi : K} (h0 : 0 ≤ lo) (h : lo ≤ hi)
    (h1 : hi ≤ 1) : top (binary p hp : Rounding K) lo hi ≤ 1 := by
  have e1 := (abs_le.1 ((binary p hp : Rounding K).near (hi - lo))).2
  have hu : (binary p hp : Rounding K).unit = (1 / 2) ^ p := rfl
  have h2 : (0 : K) ≤ (1 / 2) ^ p := by positivity
  rw [hu, abs_of_nonneg (by linarith : (0 : K) ≤ hi - lo)] at e1
  have e2 : ((1 : K) / 2) ^ p * (hi - lo) ≤ (1 / 2) ^ p * 1 :=
    mul_le_mul_of_nonneg_left (by linarith) h2
  unfold top
  calc _ ≤ (binary p hp : Rounding K).rnd (1 + (1 / 2) ^ p) :=
        (binary p hp : Rounding K).mono _ _ (by linarith)
    _ = 1 := binary_one_add hp hp2

theorem closestSample_mem {R : Rounding K} {f : ℕ → Fuse} {big : K} {dist : K → Outcome K} {num : ℕ}
    {lo hi : K} (hlo : R.IsFloat lo) (h : lo ≤ hi)
    (hb : ∀ t, ∃ d, dist t = ok d ∧ d < big) :
    ∃ s, closestSample R f big dist num lo hi = ok s ∧ R.IsFloat s.2 ∧ lo ≤ s.2 ∧
      s.2 ≤ top R lo hi := by
  unfold closestSample
  obtain ⟨s, e, hs⟩ := loop_inv
    (fun n (s : K × K) => (n = 0 ∧ s = (big, 0)) ∨
      (R.IsFloat s.2 ∧ lo ≤ s.2 ∧ s.2 ≤ top R lo hi))
    (num + 1) (fun i s => do
      let t := searchParam R (f i) lo hi num i
      let d ← dist t
      pure (if d < s.1 then (d, t) else s)) (big, 0) (Or.inl ⟨rfl, rfl⟩) (by
    intro i hi' s hs
    obtain ⟨d, e, hd⟩ := hb (searchParam R (f i) lo hi num i)
    simp only
    rw [e, ok_bind, pure_eq]
    refine ⟨_, rfl, Or.inr ?_⟩
    have hm := searchParam_mem (f i) hlo h (by omega : i ≤ num)
    have hfl : R.IsFloat (searchParam R (f i) lo hi num i) := R.isFloat_combine _ _ _ _ _
    rcases hs with ⟨rfl, rfl⟩ | hs
    · rw [if_pos hd]; exact ⟨hfl, hm⟩
    · split
      · exact ⟨hfl, hm⟩
      · exact hs)
  rcases hs with ⟨h, -⟩ | hs
  · omega
  · exact ⟨s, e, hs⟩

theorem newtonCurve_mem {R : Rounding K} {g : K → Outcome (K × K)} {tol lower upper : K} (n : ℕ) :
    ∀ {t prevT prevErr r : K}, newtonCurve R g tol lower upper n t prevT prevErr = ok r →
      lower ≤ upper → lower ≤ t → lower ≤ prevT → ∀ {B : K}, upper ≤ B → t ≤ B → prevT ≤ B →
      lower ≤ r ∧ r ≤ B := by
  induction n with
  | zero =>
    intro t prevT prevErr r h _ h1 _ B _ h2 _
    rw [newtonCurve, ok.injEq] at h
    exact h ▸ ⟨h1, h2⟩
  | succ n ih =>
    intro t prevT prevErr r h hlu h1 h2 B h3 h4 h5
    rw [newtonCurve, bind_eq_ok] at h
    obtain ⟨s, -, h⟩ := h
    dsimp only at h
    split at h
    · rw [ok.injEq] at h; exact h ▸ ⟨h1, h4⟩
    split at h
    · rw [ok.injEq] at h; exact h ▸ ⟨h2, h5⟩
    split at h
    · split at h
      · cases h
      split at h
      · rw [ok.injEq] at h; exact h ▸ ⟨le_rfl, hlu.trans h3⟩
      · rw [ok.injEq] at h; exact h ▸ ⟨hlu, h3⟩
    split at h
    · rw [ok.injEq] at h; exact h ▸ ⟨le_rfl, hlu.trans h3⟩
    split at h
    · rw [ok.injEq] at h; exact h ▸ ⟨hlu, h3⟩
    rename_i a b
    push Not at a b
    exact ih h hlu a.le h1 h3 (b.le.trans h3) h4

theorem newtonCurve_total {R : Rounding K} {g : K → Outcome (K × K)} {tol lower upper : K}
    (hg : ∀ t, ∃ s, g t = ok s ∧ (s.2 = 0 → s.1 ≠ 0)) (n : ℕ) :
    ∀ t prevT prevErr, ∃ r, newtonCurve R g tol lower upper n t prevT prevErr = ok r := by
  induction n with
  | zero => intro t _ _; exact ⟨t, rfl⟩
  | succ n ih =>
    intro t prevT prevErr
    obtain ⟨s, e, hs⟩ := hg t
    rw [newtonCurve, e, ok_bind]
    dsimp only
    split_ifs with a1 a2 a3 a4
    · exact ⟨_, rfl⟩
    · exact ⟨_, rfl⟩
    · exact absurd a4 (hs a3)
    all_goals first | exact ⟨_, rfl⟩ | exact ih _ _ _

/-- The result of the search is bounded by the upper end, or the computed upper end, of a range
inside the given one. -/
theorem curveSearch_mem {R : Rounding K} {f : ℕ → ℕ → Fuse} {big tol : K} {dist : K → Outcome K}
    {g : K → Outcome (K × K)} {num : ℕ} (hn : 0 < num) (hb : ∀ t, ∃ d, dist t = ok d ∧ d < big)
    (hg : ∀ t, ∃ s, g t = ok s ∧ (s.2 = 0 → s.1 ≠ 0)) (level : ℕ) :
    ∀ {lower upper : K}, R.IsFloat lower → R.IsFloat upper → lower ≤ upper →
      ∃ r lo hi, curveSearch R f big tol dist g num level lower upper = ok r ∧ lower ≤ lo ∧ lo ≤ hi ∧
        hi ≤ upper ∧ lo ≤ r ∧ r ≤ max hi (top R lo hi) := by
  induction level with
  | zero =>
    intro lower upper h1 h2 h
    obtain ⟨s, e, s1, s2, s3⟩ := closestSample_mem (f := f 0) (num := num) h1 h hb
    obtain ⟨r, er⟩ := newtonCurve_total (R := R) (tol := tol) (lower := lower) (upper := upper) hg 10
      s.2 s.2 (-1)
    obtain ⟨r1, r2⟩ := newtonCurve_mem 10 er h s2 s2 (le_max_left _ (top R lower upper))
      (s3.trans (le_max_right _ _)) (s3.trans (le_max_right _ _))
    refine ⟨r, lower, upper, ?_, le_rfl, h, le_rfl, r1, r2⟩
    rw [curveSearch, assert_true hn, ok_bind, e, ok_bind]
    exact er
  | succ level ih =>
    intro lower upper h1 h2 h
    obtain ⟨s, e, s1, s2, s3⟩ := closestSample_mem (f := f (level + 1)) (num := num) h1 h hb
    have hd : 0 ≤ R.rnd (R.rnd (upper - lower) / R.rnd (num : K)) :=
      R.nonneg (div_nonneg (R.nonneg (by linarith)) (R.nonneg (Nat.cast_nonneg _)))
    obtain ⟨r, lo, hi, er, a1, a2, a3, a4, a5⟩ := ih
      (lower := min (max (R.rnd (s.2 - R.rnd (R.rnd (upper - lower) / R.rnd (num : K)))) lower) upper)
      (upper := min (max (R.rnd (s.2 + R.rnd (R.rnd (upper - lower) / R.rnd (num : K)))) lower) upper)
      (isFloat_min (isFloat_max (R.idem _) h1) h2) (isFloat_min (isFloat_max (R.idem _) h1) h2)
      (min_le_min_right _ (max_le_max_right _ (R.mono _ _ (by linarith))))
    refine ⟨r, lo, hi, ?_, (le_min (le_max_right _ _) h).trans a1, a2, a3.trans (min_le_right _ _),
      a4, a5⟩
    rw [curveSearch, assert_true hn, ok_bind]
    simp only
    rw [e, ok_bind]
    exact er

/-! ### Patches -/

theorem gridParam_mem {R : Rounding K} {num : ℕ} (hnum : R.IsFloat (num : K))
    (hsmall : (1 + R.unit) ^ 3 * ((num : K) - 1) ≤ num) (hfl : ∀ i ≤ num, R.IsFloat (i : K)) {lo hi : K}
    (hlo : R.IsFloat lo) (hhi : R.IsFloat hi) (h : lo ≤ hi) {i : ℕ} (hi' : i ≤ num) :
    R.IsFloat (gridParam R num lo hi i) ∧ lo ≤ gridParam R num lo hi i ∧
      gridParam R num lo hi i ≤ hi := by
  unfold gridParam
  split_ifs with hin
  · exact ⟨hhi, h, le_rfl⟩
  have hlt : i < num := by omega
  have hu := R.unit_nonneg
  have e1 : R.rnd (i : K) = i := hfl i hi'
  have e2 : R.rnd (num : K) = num := hnum
  rw [e1, e2]
  have hi0 : (0 : K) ≤ i := Nat.cast_nonneg _
  have hn0 : (0 : K) < num := by exact_mod_cast (by omega : 0 < num)
  have d0 : 0 ≤ R.rnd (hi - lo) := R.nonneg (by linarith)
  have p0 : 0 ≤ R.rnd ((i : K) * R.rnd (hi - lo)) := R.nonneg (mul_nonneg hi0 d0)
  have q0 : 0 ≤ R.rnd (R.rnd ((i : K) * R.rnd (hi - lo)) / num) := R.nonneg (div_nonneg p0 hn0.le)
  refine ⟨R.idem _, le_rnd hlo (by linarith), rnd_le hhi ?_⟩
  have b1 : R.rnd (hi - lo) ≤ (1 + R.unit) * (hi - lo) := by
    have := R.abs_le (hi - lo)
    rwa [abs_of_nonneg d0, abs_of_nonneg (by linarith)] at this
  have b2 : R.rnd ((i : K) * R.rnd (hi - lo)) ≤ (1 + R.unit) * ((i : K) * R.rnd (hi - lo)) := by
    have := R.abs_le ((i : K) * R.rnd (hi - lo))
    rwa [abs_of_nonneg p0, abs_of_nonneg (mul_nonneg hi0 d0)] at this
  have b3 : R.rnd (R.rnd ((i : K) * R.rnd (hi - lo)) / num)
      ≤ (1 + R.unit) * (R.rnd ((i : K) * R.rnd (hi - lo)) / num) := by
    have := R.abs_le (R.rnd ((i : K) * R.rnd (hi - lo)) / num)
    rwa [abs_of_nonneg q0, abs_of_nonneg (div_nonneg p0 hn0.le)] at this
  have hi1 : (i : K) ≤ num - 1 := by
    have : ((i + 1 : ℕ) : K) ≤ num := by exact_mod_cast hlt
    push_cast at this; linarith
  have c0 : 0 ≤ 1 + R.unit := by linarith
  have w : 0 ≤ hi - lo := by linarith
  have b4 : R.rnd ((i : K) * R.rnd (hi - lo)) ≤ (1 + R.unit) ^ 2 * i * (hi - lo) := by
    calc _ ≤ (1 + R.unit) * ((i : K) * R.rnd (hi - lo)) := b2
      _ ≤ (1 + R.unit) * ((i : K) * ((1 + R.unit) * (hi - lo))) :=
        mul_le_mul_of_nonneg_left (mul_le_mul_of_nonneg_left b1 hi0) c0
      _ = _ := by ring
  have b5 : R.rnd (R.rnd ((i : K) * R.rnd (hi - lo)) / num) ≤ hi - lo := by
    calc _ ≤ (1 + R.unit) * (R.rnd ((i : K) * R.rnd (hi - lo)) / num) := b3
      _ ≤ (1 + R.unit) * ((1 + R.unit) ^ 2 * i * (hi - lo) / num) :=
        mul_le_mul_of_nonneg_left (div_le_div_of_nonneg_right b4 hn0.le) c0
      _ = ((1 + R.unit) ^ 3 * i) * (hi - lo) / num := by ring
      _ ≤ num * (hi - lo) / num := by
        apply div_le_div_of_nonneg_right _ hn0.le
        apply mul_le_mul_of_nonneg_right _ w
        exact (mul_le_mul_of_nonneg_left hi1 (by positivity)).trans hsmall
      _ = hi - lo := by field_simp
  linarith

/-- The pair of parameters is a pair of numbers of the format in a box. -/
def FlBox (R : Rounding K) (minU maxU minV maxV : K) (x : K × K) : Prop :=
  (R.IsFloat x.1 ∧ minU ≤ x.1 ∧ x.1 ≤ maxU) ∧ (R.IsFloat x.2 ∧ minV ≤ x.2 ∧ x.2 ≤ maxV)

/-- The sample counts are so small that the samples are below the upper end. -/
def Moderate (R : Rounding K) (num : ℕ) : Prop :=
  0 < num ∧ (1 + R.unit) ^ 3 * ((num : K) - 1) ≤ num ∧ ∀ i ≤ num, R.IsFloat (i : K)

theorem bestSamples_mem {R : Rounding K} {big : K} {dist : K → K → Outcome K} {nu nv : ℕ}
    (mu : Moderate R nu) (mv : Moderate R nv) (hd : ∀ u v, ∃ d, dist u v = ok d)
    {minU maxU minV maxV : K} (u1 : R.IsFloat minU) (u2 : R.IsFloat maxU) (v1 : R.IsFloat minV)
    (v2 : R.IsFloat maxV) (hu : minU ≤ maxU) (hv : minV ≤ maxV) :
    ∃ b, bestSamples R big dist nu nv minU maxU minV maxV = ok b ∧ FlBox R minU maxU minV maxV b.uv ∧
      FlBox R minU maxU minV maxV b.uv2 := by
  unfold bestSamples
  obtain ⟨b, e, hb⟩ := loop_inv (fun _ (b : PatchBase.Best K) => FlBox R minU maxU minV maxV b.uv ∧
      FlBox R minU maxU minV maxV b.uv2) (nu + 1)
    (fun i b => loop (nv + 1) (fun j b => do
      let u := gridParam R nu minU maxU i
      let v := gridParam R nv minV maxV j
      let d ← dist u v
      pure (b.update d (u, v))) b) ⟨big, (minU, minV), big, (minU, minV)⟩
    ⟨⟨⟨u1, le_rfl, hu⟩, v1, le_rfl, hv⟩, ⟨u1, le_rfl, hu⟩, v1, le_rfl, hv⟩ (by
    intro i hi b hb
    refine loop_inv (fun _ (b : PatchBase.Best K) => FlBox R minU maxU minV maxV b.uv ∧
      FlBox R minU maxU minV maxV b.uv2) (nv + 1) _ b hb ?_
    intro j hj c hc
    obtain ⟨d, ed⟩ := hd (gridParam R nu minU maxU i) (gridParam R nv minV maxV j)
    simp only
    rw [ed, ok_bind, pure_eq]
    refine ⟨_, rfl, ?_⟩
    have hx : FlBox R minU maxU minV maxV (gridParam R nu minU maxU i, gridParam R nv minV maxV j) :=
      ⟨gridParam_mem (mu.2.2 _ le_rfl) mu.2.1 mu.2.2 u1 u2 hu (by omega),
        gridParam_mem (mv.2.2 _ le_rfl) mv.2.1 mv.2.2 v1 v2 hv (by omega)⟩
    unfold PatchBase.Best.update
    split
    · exact ⟨hx, hc.1⟩
    · split
      · exact ⟨hc.1, hx⟩
      · exact hc)
  exact ⟨b, e, hb⟩

theorem patchSearch_mem {R : Rounding K} {big tol milli uR vR : K} {dist : K → K → Outcome K}
    {nu nv : ℕ} (mu : Moderate R nu) (mv : Moderate R nv) (hd : ∀ u v, ∃ d, dist u v = ok d)
    (level : ℕ) : ∀ {minU maxU minV maxV : K}, R.IsFloat minU → R.IsFloat maxU → R.IsFloat minV →
      R.IsFloat maxV → minU ≤ maxU → minV ≤ maxV →
      ∃ r, patchSearch R big tol milli uR vR dist nu nv level minU maxU minV maxV = ok r ∧
        FlBox R minU maxU minV maxV r := by
  induction level with
  | zero =>
    intro minU maxU minV maxV u1 u2 v1 v2 hu hv
    obtain ⟨b, e, b1, -⟩ := bestSamples_mem (big := big) mu mv hd u1 u2 v1 v2 hu hv
    exact ⟨b.uv, by rw [patchSearch, e, ok_bind]; rfl, b1⟩
  | succ level ih =>
    intro minU maxU minV maxV u1 u2 v1 v2 hu hv
    obtain ⟨b, e, b1, b2⟩ := bestSamples_mem (big := big) mu mv hd u1 u2 v1 v2 hu hv
    have hdu : 0 ≤ R.rnd (R.rnd (maxU - minU) / R.rnd (nu : K)) :=
      R.nonneg (div_nonneg (R.nonneg (by linarith)) (R.nonneg (Nat.cast_nonneg _)))
    have hdv : 0 ≤ R.rnd (R.rnd (maxV - minV) / R.rnd (nv : K)) :=
      R.nonneg (div_nonneg (R.nonneg (by linarith)) (R.nonneg (Nat.cast_nonneg _)))
    rw [patchSearch, e, ok_bind, assert_true ⟨mu.1, mv.1⟩, ok_bind]
    dsimp only
    generalize R.rnd (R.rnd (maxU - minU) / R.rnd (nu : K)) = du at *
    generalize R.rnd (R.rnd (maxV - minV) / R.rnd (nv : K)) = dv at *
    have hsub : ∀ x : K × K, FlBox R minU maxU minV maxV x → ∃ r,
        patchSearch R big tol milli uR vR dist nu nv level (max (R.rnd (x.1 - du)) minU)
        (min (R.rnd (x.1 + du)) maxU) (max (R.rnd (x.2 - dv)) minV)
        (min (R.rnd (x.2 + dv)) maxV) = ok r ∧ FlBox R minU maxU minV maxV r := by
      rintro ⟨u, v⟩ ⟨⟨f1, h1, h2⟩, ⟨f2, h3, h4⟩⟩
      simp only at f1 f2 h1 h2 h3 h4 ⊢
      obtain ⟨r, er, ⟨⟨g1, a, b⟩, ⟨g2, c, d⟩⟩⟩ := ih (isFloat_max (R.idem (u - du)) u1)
        (isFloat_min (R.idem (u + du)) u2) (isFloat_max (R.idem (v - dv)) v1)
        (isFloat_min (R.idem (v + dv)) v2)
        (max_le (le_min (R.mono _ _ (by linarith)) (rnd_le u2 (by linarith)))
          (le_min (le_rnd u1 (by linarith)) hu))
        (max_le (le_min (R.mono _ _ (by linarith)) (rnd_le v2 (by linarith)))
          (le_min (le_rnd v1 (by linarith)) hv))
      exact ⟨r, er, ⟨g1, (le_max_right _ _).trans a, b.trans (min_le_right _ _)⟩,
        ⟨g2, (le_max_right _ _).trans c, d.trans (min_le_right _ _)⟩⟩
    split
    · exact hsub _ b1
    · obtain ⟨c1, e1, m1⟩ := hsub _ b1
      obtain ⟨c2, e2, m2⟩ := hsub _ b2
      obtain ⟨d1, k1⟩ := hd c1.1 c1.2
      obtain ⟨d2, k2⟩ := hd c2.1 c2.2
      rw [e1, ok_bind, e2, ok_bind, k1, ok_bind, k2, ok_bind, pure_eq]
      refine ⟨_, rfl, ?_⟩
      split
      · exact m1
      · exact m2

theorem clampStep_mem {lo hi x : K} (h : lo ≤ hi) :
    lo ≤ PatchBase.clampStep lo hi x ∧ PatchBase.clampStep lo hi x ≤ hi := by
  unfold PatchBase.clampStep
  split_ifs with h1 h2 h2
  · exact absurd h2 (not_lt.2 h)
  · exact ⟨le_rfl, h⟩
  · exact ⟨h, le_rfl⟩
  · exact ⟨not_lt.1 h1, not_lt.1 h2⟩

theorem newtonPatch_mem {R : Rounding K} {step : ℕ → K × K → Outcome (Option (Bool × K × K))}
    (hs : ∀ n x, ∃ s, step n x = ok s) {minU maxU minV maxV : K} (hu : minU ≤ maxU)
    (hv : minV ≤ maxV) (n : ℕ) : ∀ {x prev : K × K},
    ((minU ≤ x.1 ∧ x.1 ≤ maxU) ∧ minV ≤ x.2 ∧ x.2 ≤ maxV) →
    ((minU ≤ prev.1 ∧ prev.1 ≤ maxU) ∧ minV ≤ prev.2 ∧ prev.2 ≤ maxV) →
    ∃ r, newtonPatch R step minU maxU minV maxV n x prev = ok r ∧
      (minU ≤ r.1 ∧ r.1 ≤ maxU) ∧ minV ≤ r.2 ∧ r.2 ≤ maxV := by
  induction n with
  | zero => intro x prev hx _; exact ⟨x, rfl, hx⟩
  | succ n ih =>
    intro x prev hx hp
    obtain ⟨s, e⟩ := hs n x
    rw [newtonPatch, e, ok_bind]
    match s with
    | none => exact ⟨x, rfl, hx⟩
    | some (false, _) => exact ⟨prev, rfl, hp⟩
    | some (true, δ) => exact ih ⟨clampStep_mem hu, clampStep_mem hv⟩ hx

end Fl

end NS
