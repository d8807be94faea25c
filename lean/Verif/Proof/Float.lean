import Mathlib.Tactic.Linarith
import Mathlib.Tactic.Positivity
import Verif.Model.Float
import Verif.Proof.Rounding
import Verif.Proof.BezierEval
import Verif.Proof.BSplineCurve

/-!
# Error analysis of the rounded evaluators
-/

set_option linter.unusedSectionVars false

namespace NS.Rounding

variable {K : Type} [Field K] [LinearOrder K] [IsStrictOrderedRing K] (R : Rounding K)

theorem zero : R.rnd 0 = 0 := by
  have := R.near 0
  simpa using this

theorem nonneg {x : K} (h : 0 ≤ x) : 0 ≤ R.rnd x := by
  have := R.mono 0 x h
  rwa [R.zero] at this

theorem le_one {x : K} (h : x ≤ 1) : R.rnd x ≤ 1 := by
  have := R.mono x 1 h
  rwa [R.one] at this

theorem isFloat_rnd (x : K) : R.IsFloat (R.rnd x) := R.idem x

theorem isFloat_combine (f : Fuse) (s a r b : K) : R.IsFloat (R.combine f s a r b) := by
  cases f <;> exact R.idem _

/-- The rounded value is at most `1 + unit` times as large. -/
theorem abs_le (x : K) : |R.rnd x| ≤ (1 + R.unit) * |x| := by
  have h := R.near x
  have h2 : |R.rnd x| ≤ |R.rnd x - x| + |x| := by
    have := abs_add_le (R.rnd x - x) x
    rwa [sub_add_cancel] at this
  linarith

/-- One combination: the two products and the sum add a factor `(1 + unit)^2`. -/
theorem combine_near (f : Fuse) (s a r b : K) :
    |R.combine f s a r b - (s * a + r * b)|
      ≤ ((1 + R.unit) ^ 2 - 1) * (|s * a| + |r * b|) := by
  have hu := R.unit_nonneg
  have h1 := R.near (s * a)
  have h2 := R.near (r * b)
  have n1 := abs_nonneg (s * a)
  have n2 := abs_nonneg (r * b)
  have gen : ∀ x y : K, |x - s * a| ≤ R.unit * |s * a| → |y - r * b| ≤ R.unit * |r * b| →
      |R.rnd (x + y) - (s * a + r * b)| ≤ ((1 + R.unit) ^ 2 - 1) * (|s * a| + |r * b|) := by
    intro x y hx hy
    have h3 := R.near (x + y)
    have e : R.rnd (x + y) - (s * a + r * b)
        = (R.rnd (x + y) - (x + y)) + ((x - s * a) + (y - r * b)) := by ring
    have e2 : x + y = ((x - s * a) + (y - r * b)) + (s * a + r * b) := by ring
    have a1 := abs_add_le (x - s * a) (y - r * b)
    have a2 := abs_add_le (R.rnd (x + y) - (x + y)) ((x - s * a) + (y - r * b))
    have a3 : |x + y| ≤ |(x - s * a) + (y - r * b)| + |s * a + r * b| := by
      conv_lhs => rw [e2]
      exact abs_add_le _ _
    have a4 := abs_add_le (s * a) (r * b)
    rw [e]
    have a5 : |x + y| ≤ (1 + R.unit) * (|s * a| + |r * b|) := by nlinarith
    have a6 : R.unit * |x + y| ≤ R.unit * ((1 + R.unit) * (|s * a| + |r * b|)) :=
      mul_le_mul_of_nonneg_left a5 hu
    nlinarith
  have z1 : |s * a - s * a| ≤ R.unit * |s * a| := by simpa using mul_nonneg hu n1
  have z2 : |r * b - r * b| ≤ R.unit * |r * b| := by simpa using mul_nonneg hu n2
  cases f
  · exact gen _ _ h1 h2
  · exact gen _ _ z1 h2
  · exact gen _ _ h1 z2

/-- Error of a combination of perturbed coefficients and values. -/
theorem combine_err (f : Fuse) {s s0 S a a0 A r r0 T b b0 B c g : K} (hc : 1 ≤ c)
    (hs : |s - s0| ≤ (c - 1) * S) (hs0 : |s0| ≤ S) (ha : |a - a0| ≤ (g - 1) * A) (ha0 : |a0| ≤ A)
    (hr : |r - r0| ≤ (c - 1) * T) (hr0 : |r0| ≤ T) (hb : |b - b0| ≤ (g - 1) * B) (hb0 : |b0| ≤ B) :
    |R.combine f s a r b - (s0 * a0 + r0 * b0)|
      ≤ (c * g * (1 + R.unit) ^ 2 - 1) * (S * A + T * B) := by
  have hu := R.unit_nonneg
  have one : ∀ {x x0 X y y0 Y : K}, |x - x0| ≤ (c - 1) * X → |x0| ≤ X → |y - y0| ≤ (g - 1) * Y →
      |y0| ≤ Y → |x * y - x0 * y0| ≤ (c * g - 1) * (X * Y) ∧ |x * y| ≤ c * g * (X * Y) := by
    intro x x0 X y y0 Y h1 h2 h3 h4
    have hX : 0 ≤ X := le_trans (abs_nonneg _) h2
    have hY : 0 ≤ Y := le_trans (abs_nonneg _) h4
    have bx : |x| ≤ c * X := by
      have := abs_add_le (x - x0) x0
      rw [sub_add_cancel] at this
      linarith
    have by' : |y| ≤ g * Y := by
      have := abs_add_le (y - y0) y0
      rw [sub_add_cancel] at this
      linarith
    constructor
    · have e : x * y - x0 * y0 = (x - x0) * y + x0 * (y - y0) := by ring
      rw [e]
      refine le_trans (abs_add_le _ _) ?_
      rw [abs_mul, abs_mul]
      have m1 : |x - x0| * |y| ≤ (c - 1) * X * (g * Y) :=
        mul_le_mul h1 by' (abs_nonneg _) (mul_nonneg (by linarith) hX)
      have m2 : |x0| * |y - y0| ≤ X * ((g - 1) * Y) := mul_le_mul h2 h3 (abs_nonneg _) hX
      nlinarith
    · rw [abs_mul]
      calc |x| * |y| ≤ (c * X) * (g * Y) :=
            mul_le_mul bx by' (abs_nonneg _) (mul_nonneg (by linarith) hX)
        _ = c * g * (X * Y) := by ring
  obtain ⟨p1, p2⟩ := one hs hs0 ha ha0
  obtain ⟨q1, q2⟩ := one hr hr0 hb hb0
  have e : R.combine f s a r b - (s0 * a0 + r0 * b0)
      = (R.combine f s a r b - (s * a + r * b)) + ((s * a - s0 * a0) + (r * b - r0 * b0)) := by ring
  rw [e]
  have h1 := R.combine_near f s a r b
  have h2 := abs_add_le (s * a - s0 * a0) (r * b - r0 * b0)
  have h3 := abs_add_le (R.combine f s a r b - (s * a + r * b))
    ((s * a - s0 * a0) + (r * b - r0 * b0))
  have h4 : ((1 + R.unit) ^ 2 - 1) * (|s * a| + |r * b|)
      ≤ ((1 + R.unit) ^ 2 - 1) * (c * g * (S * A + T * B)) := by
    apply mul_le_mul_of_nonneg_left
    · linarith
    · nlinarith
  nlinarith

end NS.Rounding

namespace NS.Fl

open Outcome Finset

variable {K ι : Type} [Field K] [LinearOrder K] [IsStrictOrderedRing K] [FloorRing K]

/-! ### Bézier curves -/

/-- One step of the rounded scheme. -/
def step (R : Rounding K) (F : ℕ → ℕ → ι → Fuse) (ts : ℕ → K) (r j : ℕ) (x y : ι → K) : ι → K :=
  fun i => R.combine (F r j i) (ts (r - 1)) (y i) (R.rnd (1 - ts (r - 1))) (x i)

theorem bezierBlossom_arr (R : Rounding K) (F : ℕ → ℕ → ι → Fuse) (m : ℕ) (ts : ℕ → K) (n d : ℕ)
    (P : ℕ → ι → K) (hd : d < n) (hm : d ≤ m) :
    bezierBlossom R F (arr m ts) d (arr n P) =
      ok (arr n (fun j => if j ≤ d then tri (step R F ts) P j j else P j)) := by
  unfold bezierBlossom
  apply tri_loop (step R F ts) P n d
  intro r j h1 h2 h3 g h hh
  rw [rd_arr (by omega), ok_bind, rd_arr (by omega), ok_bind, rd_arr (by omega), ok_bind]
  apply wr_arr _ (by omega)
  intro i hi
  rw [hh i hi]
  rfl

theorem bezierDeBoor_eq (R : Rounding K) (F : ℕ → ℕ → ι → Fuse) (b : ℕ) (t : K) (d n : ℕ)
    (P : ℕ → ι → K) (hd : d < n) (hb : d ≤ b) :
    bezierDeBoor R F b t (d : ℤ) (arr n P) = ok (tri (step R F fun _ => t) P d d) := by
  unfold bezierDeBoor
  by_cases h : (d : ℤ) > 0
  · simp only [h, if_true, Int.toNat_natCast]
    rw [Bezier.replicate_eq_arr, bezierBlossom_arr R F b (fun _ => t) n d P hd hb]
    simp only [ok_bind, rdI_natCast]
    rw [rd_arr hd]
    simp
  · have h0 : d = 0 := by omega
    subst h0
    simp only [h, if_false, ok_bind, rdI_natCast]
    rw [rd_arr hd]
    rfl

/-- The scheme on magnitudes. -/
def mag (s t : K) (A : ℕ → K) : ℕ → ℕ → K
  | 0, j => A j
  | r + 1, j => t * mag s t A r j + s * mag s t A r (j - 1)

theorem mag_eq (s t : K) (A : ℕ → K) (r : ℕ) : ∀ j, r ≤ j →
    mag s t A r j = ∑ k ∈ range (r + 1), (r.choose k : K) * t ^ k * s ^ (r - k) * A (j - r + k) := by
  induction r with
  | zero => intro j _; simp [mag]
  | succ r ih =>
    intro j hj
    rw [mag, ih j (by omega), ih (j - 1) (by omega)]
    have e1 : j - 1 - r = j - (r + 1) := by omega
    have e2 : j - r = j - (r + 1) + 1 := by omega
    rw [e1, e2]
    generalize j - (r + 1) = l
    rw [sum_range_succ' _ (r + 1)]
    have h1 : ∀ k ∈ range (r + 1), ((r + 1).choose (k + 1) : K) * t ^ (k + 1) * s ^ (r + 1 - (k + 1))
          * A (l + (k + 1))
        = t * ((r.choose k : K) * t ^ k * s ^ (r - k) * A (l + 1 + k))
          + (r.choose (k + 1) : K) * t ^ (k + 1) * s ^ (r - k) * A (l + (k + 1)) := by
      intro k _
      rw [Nat.choose_succ_succ, show r + 1 - (k + 1) = r - k by omega,
        show l + 1 + k = l + (k + 1) by omega]
      push_cast
      ring
    rw [sum_congr rfl h1, sum_add_distrib, ← mul_sum, add_assoc]
    congr 1
    rw [sum_range_succ' _ r, sum_range_succ, Nat.choose_succ_self, mul_add, mul_sum]
    simp only [Nat.cast_zero, zero_mul, add_zero, Nat.choose_zero_right, Nat.cast_one, pow_zero,
      one_mul, Nat.sub_zero]
    congr 1
    · apply sum_congr rfl
      intro k hk
      have : k < r := by simpa using hk
      rw [show r - k = r - (k + 1) + 1 by omega, pow_succ]
      ring
    · rw [pow_succ]; ring

theorem mag_nonneg {s t : K} (hs : 0 ≤ s) (ht : 0 ≤ t) {A : ℕ → K} (hA : ∀ j, 0 ≤ A j) (r : ℕ) :
    ∀ j, 0 ≤ mag s t A r j := by
  induction r with
  | zero => exact hA
  | succ r ih =>
    intro j
    have := ih j
    have := ih (j - 1)
    rw [mag]
    positivity

/-- Error of the rounded scheme started from perturbed values. -/
theorem tri_err (R : Rounding K) (F : ℕ → ℕ → ι → Fuse) (t : K) (P Q : ℕ → ι → K) (A : ℕ → K)
    (g : K) (hg : 1 ≤ g) (i : ι) (hA : ∀ j, |P j i| ≤ A j) (hQ : ∀ j, |Q j i - P j i| ≤ (g - 1) * A j)
    (r : ℕ) : ∀ j,
    |tri (step R F fun _ => t) Q r j i - Bezier.dcv (fun _ => t) P r j i|
        ≤ (g * (1 + R.unit) ^ (3 * r) - 1) * mag |1 - t| |t| A r j ∧
      |Bezier.dcv (fun _ => t) P r j i| ≤ mag |1 - t| |t| A r j := by
  have hu := R.unit_nonneg
  induction r with
  | zero => intro j; simpa [tri, Bezier.dcv, mag] using ⟨hQ j, hA j⟩
  | succ r ih =>
    intro j
    obtain ⟨x1, x2⟩ := ih j
    obtain ⟨y1, y2⟩ := ih (j - 1)
    have hge : 1 ≤ g * (1 + R.unit) ^ (3 * r) := by
      have : (1 : K) ≤ (1 + R.unit) ^ (3 * r) := one_le_pow₀ (by linarith)
      nlinarith
    constructor
    · have hn := R.near (1 - t)
      have key := R.combine_err (F (r + 1) j i) (c := 1 + R.unit) (s := t) (s0 := t) (S := |t|)
        (r := R.rnd (1 - t)) (r0 := 1 - t) (T := |1 - t|) (by linarith)
        (by
          have := mul_nonneg hu (abs_nonneg t)
          simpa using this) le_rfl x1 x2
        (by simpa using hn) le_rfl y1 y2
      have e : (1 + R.unit) * (g * (1 + R.unit) ^ (3 * r)) * (1 + R.unit) ^ 2
          = g * (1 + R.unit) ^ (3 * (r + 1)) := by ring
      rw [e] at key
      simpa [tri, step, Bezier.dcv, mag] using key
    · simp only [Bezier.dcv, mag, Pi.add_apply, Pi.smul_apply, smul_eq_mul]
      refine le_trans (abs_add_le _ _) ?_
      rw [abs_mul, abs_mul]
      exact add_le_add (mul_le_mul_of_nonneg_left x2 (abs_nonneg _))
        (mul_le_mul_of_nonneg_left y2 (abs_nonneg _))

theorem exact_combine (f : Fuse) (s a r b : K) :
    (Rounding.exact : Rounding K).combine f s a r b = s * a + r * b := by cases f <;> rfl

/-! ### End points -/

theorem combine_right (R : Rounding K) (f : Fuse) (a : K) {b : K} (hb : R.IsFloat b) :
    R.combine f 0 a 1 b = b := by
  have hb' : R.rnd b = b := hb
  cases f <;> simp [Rounding.combine, R.zero, hb']

theorem combine_left (R : Rounding K) (f : Fuse) {a : K} (b : K) (ha : R.IsFloat a) :
    R.combine f 1 a 0 b = a := by
  have ha' : R.rnd a = a := ha
  cases f <;> simp [Rounding.combine, R.zero, ha']

theorem combine_comm (R : Rounding K) (s a r b : K) :
    R.combine .none s a r b = R.combine .none r b s a := by
  simp only [Rounding.combine, add_comm]

theorem tri_zero (R : Rounding K) (F : ℕ → ℕ → ι → Fuse) (P : ℕ → ι → K)
    (hP : ∀ j i, R.IsFloat (P j i)) (r : ℕ) : ∀ j, tri (step R F fun _ => 0) P r j = P (j - r) := by
  induction r with
  | zero => intro j; rfl
  | succ r ih =>
    intro j
    funext i
    simp only [tri, ih, step, sub_zero, R.one]
    rw [combine_right R _ _ (hP _ _), show j - 1 - r = j - (r + 1) by omega]

theorem tri_one (R : Rounding K) (F : ℕ → ℕ → ι → Fuse) (P : ℕ → ι → K)
    (hP : ∀ j i, R.IsFloat (P j i)) (r : ℕ) : ∀ j, tri (step R F fun _ => 1) P r j = P j := by
  induction r with
  | zero => intro j; rfl
  | succ r ih =>
    intro j
    funext i
    simp only [tri, ih, step, sub_self, R.zero]
    rw [combine_left R _ _ (hP _ _)]

/-! ### Signs -/

theorem combine_nonneg (R : Rounding K) (f : Fuse) {s a r b : K} (hs : 0 ≤ s) (ha : 0 ≤ a)
    (hr : 0 ≤ r) (hb : 0 ≤ b) : 0 ≤ R.combine f s a r b := by
  have h1 := mul_nonneg hs ha
  have h2 := mul_nonneg hr hb
  have h3 := R.nonneg h1
  have h4 := R.nonneg h2
  cases f <;> exact R.nonneg (by positivity)

theorem tri_nonneg (R : Rounding K) (F : ℕ → ℕ → ι → Fuse) {t : K} (h0 : 0 ≤ t) (h1 : t ≤ 1)
    (P : ℕ → ι → K) (i : ι) (hP : ∀ j, 0 ≤ P j i) (r : ℕ) :
    ∀ j, 0 ≤ tri (step R F fun _ => t) P r j i := by
  induction r with
  | zero => exact hP
  | succ r ih =>
    intro j
    exact combine_nonneg R _ h0 (ih _) (R.nonneg (by linarith)) (ih _)

/-! ### Splitting -/

/-- Row `j` of the working copy of `split` after `i` rounds. -/
def spl (R : Rounding K) (F : ℕ → ℕ → ι → Fuse) (t : K) (P : ℕ → ι → K) : ℕ → ℕ → ι → K
  | 0, j => P j
  | i + 1, j => fun l => R.combine (F i j l) (R.rnd (1 - t)) (spl R F t P i j l) t
      (spl R F t P i (j + 1) l)

theorem bezierSplitLoop_arr (R : Rounding K) (F : ℕ → ℕ → ι → Fuse) (t : K) (n : ℕ)
    (P : ℕ → ι → K) :
    ∃ w, bezierSplitLoop R F t (arr n P) = ok (w, arr n (fun i => spl R F t P i 0),
      arr n (fun i => spl R F t P (n - 1 - i) i)) := by
  refine ⟨arr n (fun j => spl R F t P (min n (n - 1 - j)) j), ?_⟩
  unfold bezierSplitLoop
  simp only [arr_length]
  have key := loop_eq
    (S := fun i => (arr n (fun j => spl R F t P (min i (n - 1 - j)) j),
      arr n (fun j => if j < i then spl R F t P j 0 else 0),
      arr n (fun j => if n - 1 - j < i then spl R F t P (n - 1 - j) j else 0))) n
    (fun i s => do
      let (c, c1, c2) := s
      let a ← rd c 0
      let c1 ← wr c1 i a
      let b ← rd c (n - 1 - i)
      let c2 ← wr c2 (n - 1 - i) b
      let c ← loop (n - 1 - i) (fun j c => do
        let a ← rd c j
        let b ← rd c (j + 1)
        wr c j (fun l => R.combine (F i j l) (R.rnd (1 - t)) (a l) t (b l))) c
      pure (c, c1, c2)) ?_
  · have h0 : (arr n P, List.replicate n (0 : ι → K), List.replicate n (0 : ι → K)) =
      (arr n (fun j => spl R F t P (min 0 (n - 1 - j)) j),
      arr n (fun j => if j < 0 then spl R F t P j 0 else 0),
      arr n (fun j => if n - 1 - j < 0 then spl R F t P (n - 1 - j) j else 0)) := by
      rw [Bezier.replicate_eq_arr]
      simp [spl]
    rw [h0, key]
    congr 2
    congr 1
    · apply arr_congr; intro j hj; simp [hj]
    · apply arr_congr; intro j hj
      have : n - 1 - j < n := by omega
      simp [this]
  · intro i hi
    have hn : 0 < n := by omega
    have inner := loop_eq
      (S := fun k => arr n (fun j => if j < k then spl R F t P (i + 1) j
        else spl R F t P (min i (n - 1 - j)) j)) (n - 1 - i)
      (fun j c => do
        let a ← rd c j
        let b ← rd c (j + 1)
        wr c j (fun l => R.combine (F i j l) (R.rnd (1 - t)) (a l) t (b l))) ?_
    · have h0 : arr n (fun j => spl R F t P (min i (n - 1 - j)) j) =
        arr n (fun j => if j < 0 then spl R F t P (i + 1) j
        else spl R F t P (min i (n - 1 - j)) j) := by simp
      simp only
      rw [rd_arr hn, ok_bind]
      rw [wr_arr (fun j => if j < i + 1 then spl R F t P j 0 else 0) hi, ok_bind]
      · rw [rd_arr (by omega : n - 1 - i < n), ok_bind]
        rw [wr_arr (fun j => if n - 1 - j < i + 1 then spl R F t P (n - 1 - j) j else 0)
          (by omega : n - 1 - i < n), ok_bind]
        · rw [h0, inner, ok_bind, pure_eq]
          congr 2
          apply arr_congr
          intro j hj
          by_cases h : j < n - 1 - i
          · have : min (i + 1) (n - 1 - j) = i + 1 := by omega
            simp [h, this]
          · have : min (i + 1) (n - 1 - j) = min i (n - 1 - j) := by omega
            simp [h, this]
        · intro j hj
          by_cases h : j = n - 1 - i
          · subst h
            have e1 : n - 1 - (n - 1 - i) = i := by omega
            simp [e1]
          · by_cases h2 : n - 1 - j < i
            · simp [h, h2, Nat.lt_succ_of_lt h2]
            · have : ¬ (n - 1 - j < i + 1) := by omega
              simp [h, h2, this]
      · intro j hj
        by_cases h : j = i
        · subst h
          have : min j (n - 1) = j := by omega
          simp [this]
        · by_cases h2 : j < i
          · simp [h, h2, Nat.lt_succ_of_lt h2]
          · have : ¬ (j < i + 1) := by omega
            simp [h, h2, this]
    · intro k hk
      rw [rd_arr (by omega : k < n), ok_bind, rd_arr (by omega : k + 1 < n), ok_bind]
      apply wr_arr _ (by omega)
      intro j hj
      have a1 : ¬ (k + 1 < k) := by omega
      have e1 : min i (n - 1 - k) = i := by omega
      have e2 : min i (n - 1 - (k + 1)) = i := by omega
      simp only [a1, lt_irrefl, if_false, e1, e2]
      by_cases h : j = k
      · subst h; simp [spl]
      · by_cases h2 : j < k
        · simp [h, h2, Nat.lt_succ_of_lt h2]
        · have : ¬ (j < k + 1) := by omega
          simp [h, h2, this]

/-- Without contraction, splitting and evaluating use the same operations. -/
theorem spl_eq_tri (R : Rounding K) (t : K) (P : ℕ → ι → K) (r : ℕ) :
    ∀ j, spl R (fun _ _ _ => .none) t P r j
      = tri (step R (fun _ _ _ => .none) fun _ => t) P r (j + r) := by
  induction r with
  | zero => intro j; rfl
  | succ r ih =>
    intro j
    funext i
    rw [spl, tri, ih, ih, step, combine_comm, show j + 1 + r = j + (r + 1) by omega,
      show j + (r + 1) - 1 = j + r by omega]

/-- The rounded control points of the pieces. -/
theorem spl_err (R : Rounding K) (F : ℕ → ℕ → ι → Fuse) {t : K} (h0 : 0 ≤ t) (h1 : t ≤ 1)
    (P : ℕ → ι → K) (M : K) (i : ι) (hM : ∀ j, |P j i| ≤ M) (r : ℕ) : ∀ j,
    |spl R F t P r j i - Bezier.dcs t P r j i| ≤ ((1 + R.unit) ^ (3 * r) - 1) * M ∧
      |Bezier.dcs t P r j i| ≤ M := by
  have hu := R.unit_nonneg
  have a1 : |t| = t := abs_of_nonneg h0
  have a2 : |1 - t| = 1 - t := abs_of_nonneg (by linarith)
  induction r with
  | zero => intro j; simpa [spl, Bezier.dcs] using hM j
  | succ r ih =>
    intro j
    obtain ⟨x1, x2⟩ := ih j
    obtain ⟨y1, y2⟩ := ih (j + 1)
    constructor
    · have hn := R.near (1 - t)
      have key := R.combine_err (F r j i) (c := 1 + R.unit) (r := t) (r0 := t) (T := |t|)
        (s := R.rnd (1 - t)) (s0 := 1 - t) (S := |1 - t|) (by linarith)
        (by simpa using hn) le_rfl x1 x2
        (by
          have := mul_nonneg hu (abs_nonneg t)
          simpa using this) le_rfl y1 y2
      have e : (1 + R.unit) * (1 + R.unit) ^ (3 * r) * (1 + R.unit) ^ 2
          = (1 + R.unit) ^ (3 * (r + 1)) := by ring
      rw [e, a1, a2, show (1 - t) * M + t * M = M by ring] at key
      simpa [spl, Bezier.dcs] using key
    · simp only [Bezier.dcs, Pi.add_apply, Pi.smul_apply, smul_eq_mul]
      refine le_trans (abs_add_le _ _) ?_
      rw [abs_mul, abs_mul, a1, a2]
      nlinarith

/-! ### B-splines -/

/-- The rounded blending coefficient. -/
def coef (R : Rounding K) (a b t : K) : K :=
  if R.rnd (a - b) > R.rnd (BSpline.tiny K) then R.rnd (R.rnd (t - b) / R.rnd (a - b)) else 0

/-- One step of the rounded de Boor scheme. -/
def stepB (R : Rounding K) (F : ℕ → ℕ → ι → Fuse) (p : ℕ) (v : ℕ → K) (t : K) (r j : ℕ)
    (x y : ι → K) : ι → K :=
  fun i => R.combine (F r j i) (R.rnd (1 - coef R (v (p + j - (r - 1))) (v j) t)) (x i)
    (coef R (v (p + j - (r - 1))) (v j) t) (y i)

open BSpline Spec in
theorem bsplineDeBoor_eq (R : Rounding K) (F : ℕ → ℕ → ι → Fuse) (c : BSpline K (ι → K)) (t : K)
    (p n k : ℕ) (P : ℕ → ι → K) (hn : p < n) (hdeg : p ≤ c.degree.toNat) (hpk : p ≤ k)
    (hk : k + p + 1 ≤ c.knots.length) :
    bsplineDeBoor R F c t p k (arr n P)
      = ok (tri (stepB R F p (loc (knot c.knots) k p) t) P p p) := by
  unfold bsplineDeBoor
  by_cases hp : p > 0
  · simp only [hp, if_true]
    have key : bsplineBlossom R F c.knots (List.replicate c.degree.toNat t) p k (arr n P)
        = ok (arr n (fun j => if j ≤ p then
            tri (stepB R F p (loc (knot c.knots) k p) t) P j j else P j)) := by
      unfold bsplineBlossom
      rw [assert_true (by simpa using hn), ok_bind, replicate_eq_arr',
        ← tri_loop (stepB R F p (loc (knot c.knots) k p) t) P n p (fun r j q => do
          let a ← rdI c.knots (j + k + 1 - r)
          let b ← rdI c.knots (j + k - p)
          let diff := R.rnd (a - b)
          let alpha := if diff > R.rnd (BSpline.tiny K) then R.rnd (R.rnd (t - b) / diff) else 0
          let x ← rd q (j - 1)
          let y ← rd q j
          wr q j (fun i => R.combine (F r j i) (R.rnd (1 - alpha)) (x i) alpha (y i)))]
      · unfold forUp
        apply loop_congr
        intro i hi s
        beta_reduce
        rw [rd_arr (by omega), ok_bind]
      · intro r j h1 h2 h3 g h hh
        have e1 : ((j : ℤ) + k + 1 - r) = (k - p + (p + j - (r - 1)) : ℕ) := by omega
        have e2 : ((j : ℤ) + k - p) = (k - p + j : ℕ) := by omega
        rw [rdI_knot e1 (by omega), ok_bind, rdI_knot e2 (by omega), ok_bind,
          rd_arr (by omega), ok_bind, rd_arr (by omega), ok_bind]
        apply wr_arr _ (by omega)
        intro i hi
        rw [hh i hi]
        rfl
    rw [key, ok_bind, rd_arr hn]
    simp
  · have : p = 0 := by omega
    subst this
    simp only [hp, if_false, ok_bind]
    rw [rd_arr hn]
    rfl

theorem coef_mem (R : Rounding K) {a b t : K} (h1 : b ≤ t) (h2 : t ≤ a) :
    0 ≤ coef R a b t ∧ coef R a b t ≤ 1 := by
  unfold coef
  split_ifs with h
  · have hp : 0 < R.rnd (a - b) := by
      have h3 : 0 ≤ R.rnd (BSpline.tiny K) := R.nonneg (by unfold BSpline.tiny; positivity)
      exact lt_of_le_of_lt h3 h
    have h4 : 0 ≤ R.rnd (t - b) := R.nonneg (by linarith)
    exact ⟨R.nonneg (div_nonneg h4 hp.le),
      R.le_one ((div_le_one hp).2 (R.mono _ _ (by linarith)))⟩
  · exact ⟨le_rfl, zero_le_one⟩

theorem lower_aux {u : K} (hu : 0 ≤ u) (hu1 : u < 1) :
    1 - (1 - u) * ((1 - u) / (1 + u)) ≤ (1 + u) ^ 2 / (1 - u) - 1 ∧
      0 ≤ 1 - (1 - u) * ((1 - u) / (1 + u)) := by
  have hp : 0 < 1 + u := by linarith
  have hq : 0 < 1 - u := by linarith
  constructor
  · have : 2 ≤ (1 - u) * (1 - u) / (1 + u) + (1 + u) ^ 2 / (1 - u) := by
      rw [div_add_div _ _ hp.ne' hq.ne', le_div_iff₀ (by positivity)]
      nlinarith [mul_nonneg hu hu]
    rw [← mul_div_assoc]
    linarith
  · rw [← mul_div_assoc, sub_nonneg, div_le_one hp]
    nlinarith

/-- Error of a quotient of rounded differences. -/
theorem quo_err (R : Rounding K) (hu1 : R.unit < 1) {a b t : K} (h1 : b ≤ t) (h2 : t ≤ a)
    (hab : 0 < a - b) (hrab : 0 < R.rnd (a - b)) :
    |R.rnd (R.rnd (t - b) / R.rnd (a - b)) - (t - b) / (a - b)|
      ≤ ((1 + R.unit) ^ 2 / (1 - R.unit) - 1) := by
  have hu := R.unit_nonneg
  have hx : 0 ≤ t - b := by linarith
  set x := t - b
  set y := a - b
  set X := R.rnd x
  set Y := R.rnd y
  have nx := R.near x
  have ny := R.near y
  have nq := R.near (X / Y)
  rw [abs_of_nonneg hx] at nx
  rw [abs_of_nonneg hab.le] at ny
  have hX : 0 ≤ X := R.nonneg hx
  rw [abs_of_nonneg (div_nonneg hX hrab.le)] at nq
  have X1 := abs_le.1 nx
  have Y1 := abs_le.1 ny
  have Q1 := abs_le.1 nq
  have h1u : 0 < 1 - R.unit := by linarith
  have hxy : x / y ≤ 1 := (div_le_one hab).2 (by simp only [x, y]; linarith)
  have hxy0 : 0 ≤ x / y := div_nonneg hx hab.le
  have hYl : (1 - R.unit) * y ≤ Y := by linarith [Y1.1]
  have hYu : Y ≤ (1 + R.unit) * y := by linarith [Y1.2]
  have up : X / Y ≤ (1 + R.unit) / (1 - R.unit) * (x / y) := by
    rw [div_mul_div_comm]
    exact div_le_div₀ (by positivity) (by linarith [X1.2]) (by positivity) hYl
  have lo : (1 - R.unit) / (1 + R.unit) * (x / y) ≤ X / Y := by
    rw [div_mul_div_comm]
    exact div_le_div₀ hX (by linarith [X1.1]) hrab hYu
  have eta : (1 - R.unit) * ((1 + R.unit) ^ 2 / (1 - R.unit)) = (1 + R.unit) ^ 2 := by field_simp
  set E := (1 + R.unit) ^ 2 / (1 - R.unit) with hE
  have e1 : (1 + R.unit) * ((1 + R.unit) / (1 - R.unit)) = E := by rw [hE]; ring
  rw [abs_le]
  constructor
  · -- lower side: `(1 - u)^2 / (1 + u) ≥ 2 - E`
    have l1 : (1 - R.unit) * ((1 - R.unit) / (1 + R.unit) * (x / y)) ≤ R.rnd (X / Y) := by
      have := mul_le_mul_of_nonneg_left lo h1u.le
      linarith [Q1.1]
    obtain ⟨l2, l3⟩ := lower_aux hu hu1
    rw [← hE] at l2
    rw [← mul_assoc] at l1
    have l4 := mul_le_mul_of_nonneg_left hxy l3
    linarith
  · have u1 : R.rnd (X / Y) ≤ E * (x / y) := by
      have := mul_le_mul_of_nonneg_left up (by linarith : (0 : K) ≤ 1 + R.unit)
      rw [← mul_assoc, e1] at this
      linarith [Q1.2]
    have hE1 : 0 ≤ E - 1 := by
      obtain ⟨l2, l3⟩ := lower_aux hu hu1
      linarith
    have := mul_le_mul_of_nonneg_left hxy hE1
    linarith

/-- Error of the blending coefficient. -/
theorem coef_err (R : Rounding K) (hu1 : R.unit < 1) {a b t : K} (h1 : b ≤ t) (h2 : t ≤ a)
    (h : R.rnd (BSpline.tiny K) < R.rnd (a - b)) :
    |coef R a b t - (t - b) / (a - b)| ≤ ((1 + R.unit) ^ 2 / (1 - R.unit) - 1) := by
  have ht : 0 ≤ BSpline.tiny K := by unfold BSpline.tiny; positivity
  have hab : 0 < a - b := by
    by_contra hc
    push Not at hc
    have := R.mono _ _ (le_trans hc ht)
    exact absurd h (not_lt.2 this)
  have hrab : 0 < R.rnd (a - b) := lt_of_le_of_lt (R.nonneg ht) h
  unfold coef
  rw [if_pos h]
  exact quo_err R hu1 h1 h2 hab hrab

/-- Growth of the error per round of the de Boor scheme. -/
def growth (R : Rounding K) : K :=
  (1 + R.unit) ^ 3 + 2 * ((1 + R.unit) ^ 2 / (1 - R.unit) - 1)

theorem one_le_growth (R : Rounding K) (hu1 : R.unit < 1) : 1 ≤ growth R := by
  have hu := R.unit_nonneg
  have h1u : 0 < 1 - R.unit := by linarith
  have : 1 ≤ (1 + R.unit) ^ 2 / (1 - R.unit) := by
    rw [le_div_iff₀ h1u]; nlinarith
  have : (1 : K) ≤ (1 + R.unit) ^ 3 := one_le_pow₀ (by linarith)
  unfold growth
  linarith

theorem blend_err (R : Rounding K) (f : Fuse) {al a0 e x x0 y y0 g M : K} (hM : 0 ≤ M) (hg : 1 ≤ g)
    (he : 0 ≤ e) (h0 : 0 ≤ al) (h1 : al ≤ 1) (k0 : 0 ≤ a0) (k1 : a0 ≤ 1) (ha : |al - a0| ≤ e)
    (hx : |x - x0| ≤ (g - 1) * M) (hx0 : |x0| ≤ M) (hy : |y - y0| ≤ (g - 1) * M) (hy0 : |y0| ≤ M) :
    |R.combine f (R.rnd (1 - al)) x al y - ((1 - a0) * x0 + a0 * y0)|
      ≤ (g * ((1 + R.unit) ^ 3 + 2 * e) - 1) * M := by
  have hu := R.unit_nonneg
  have bx : |x| ≤ g * M := by
    have := abs_add_le (x - x0) x0
    rw [sub_add_cancel] at this
    linarith
  have by' : |y| ≤ g * M := by
    have := abs_add_le (y - y0) y0
    rw [sub_add_cancel] at this
    linarith
  have hgM : 0 ≤ g * M := by positivity
  have hs := R.near (1 - al)
  rw [abs_of_nonneg (by linarith : 0 ≤ 1 - al)] at hs
  have hs0 : 0 ≤ R.rnd (1 - al) := R.nonneg (by linarith)
  have hs1 : R.rnd (1 - al) ≤ (1 + R.unit) * (1 - al) := by linarith [(abs_le.1 hs).2]
  have c1 := R.combine_near f (R.rnd (1 - al)) x al y
  rw [abs_mul, abs_mul, abs_of_nonneg hs0, abs_of_nonneg h0] at c1
  have c2 : R.rnd (1 - al) * |x| + al * |y| ≤ (1 + R.unit) * (g * M) := by
    have m1 : R.rnd (1 - al) * |x| ≤ (1 + R.unit) * (1 - al) * (g * M) :=
      mul_le_mul hs1 bx (abs_nonneg _) (mul_nonneg (by linarith) (by linarith))
    have m2 : al * |y| ≤ al * (g * M) := mul_le_mul_of_nonneg_left by' h0
    have m3 : 0 ≤ R.unit * al * (g * M) := by positivity
    nlinarith
  have c3 : ((1 + R.unit) ^ 2 - 1) * (R.rnd (1 - al) * |x| + al * |y|)
      ≤ ((1 + R.unit) ^ 2 - 1) * ((1 + R.unit) * (g * M)) :=
    mul_le_mul_of_nonneg_left c2 (by nlinarith)
  have d1 : |(R.rnd (1 - al) - (1 - al)) * x| ≤ R.unit * (g * M) := by
    rw [abs_mul]
    refine mul_le_mul ?_ bx (abs_nonneg _) hu
    nlinarith
  have d2 : |(al - a0) * (y - x)| ≤ e * (2 * (g * M)) := by
    rw [abs_mul]
    refine mul_le_mul ha ?_ (abs_nonneg _) he
    have := abs_sub y x
    linarith
  have d3 : |(1 - a0) * (x - x0)| ≤ (1 - a0) * ((g - 1) * M) := by
    rw [abs_mul, abs_of_nonneg (by linarith : 0 ≤ 1 - a0)]
    exact mul_le_mul_of_nonneg_left hx (by linarith)
  have d4 : |a0 * (y - y0)| ≤ a0 * ((g - 1) * M) := by
    rw [abs_mul, abs_of_nonneg k0]
    exact mul_le_mul_of_nonneg_left hy k0
  have e' : R.combine f (R.rnd (1 - al)) x al y - ((1 - a0) * x0 + a0 * y0)
      = (R.combine f (R.rnd (1 - al)) x al y - (R.rnd (1 - al) * x + al * y))
        + ((R.rnd (1 - al) - (1 - al)) * x + ((al - a0) * (y - x)
          + ((1 - a0) * (x - x0) + a0 * (y - y0)))) := by ring
  rw [e']
  have t1 := abs_add_le (R.combine f (R.rnd (1 - al)) x al y - (R.rnd (1 - al) * x + al * y))
    ((R.rnd (1 - al) - (1 - al)) * x + ((al - a0) * (y - x)
          + ((1 - a0) * (x - x0) + a0 * (y - y0))))
  have t2 := abs_add_le ((R.rnd (1 - al) - (1 - al)) * x) ((al - a0) * (y - x)
          + ((1 - a0) * (x - x0) + a0 * (y - y0)))
  have t3 := abs_add_le ((al - a0) * (y - x)) ((1 - a0) * (x - x0) + a0 * (y - y0))
  have t4 := abs_add_le ((1 - a0) * (x - x0)) (a0 * (y - y0))
  have fin : ((1 + R.unit) ^ 2 - 1) * ((1 + R.unit) * (g * M)) + (R.unit * (g * M)
      + (e * (2 * (g * M)) + ((1 - a0) * ((g - 1) * M) + a0 * ((g - 1) * M))))
      = (g * ((1 + R.unit) ^ 3 + 2 * e) - 1) * M := by ring
  linarith

/-- Error of the rounded de Boor scheme on a span. -/
theorem triB_err (R : Rounding K) (hu1 : R.unit < 1) (F : ℕ → ℕ → ι → Fuse) (p : ℕ) (v : ℕ → K)
    (t : K) (hv : ∀ i j, 1 ≤ i → i ≤ j → j ≤ 2 * p → v i ≤ v j) (h1 : v p ≤ t) (h2 : t ≤ v (p + 1))
    (hw : R.rnd (BSpline.tiny K) < R.rnd (v (p + 1) - v p)) (P : ℕ → ι → K) (M : K) (i : ι)
    (hM : ∀ j, |P j i| ≤ M) (r : ℕ) : r ≤ p → ∀ j, r ≤ j → j ≤ p →
    |tri (stepB R F p v t) P r j i - dB p v (fun _ => t) P r j i|
        ≤ (growth R ^ r - 1) * M ∧
      |dB p v (fun _ => t) P r j i| ≤ M := by
  have hM0 : 0 ≤ M := le_trans (abs_nonneg _) (hM 0)
  have hG := one_le_growth R hu1
  have hu := R.unit_nonneg
  induction r with
  | zero => intro _ j _ _; simpa [tri, dB] using hM j
  | succ r ih =>
    intro hr j hj1 hj2
    obtain ⟨x1, x2⟩ := ih (by omega) (j - 1) (by omega) (by omega)
    obtain ⟨y1, y2⟩ := ih (by omega) j (by omega) hj2
    have b1 : v j ≤ t := le_trans (hv j p (by omega) hj2 (by omega)) h1
    have b2 : t ≤ v (p + j - r) := le_trans h2 (hv (p + 1) (p + j - r) (by omega) (by omega)
      (by omega))
    have hww : R.rnd (BSpline.tiny K) < R.rnd (v (p + j - r) - v j) := by
      refine lt_of_lt_of_le hw (R.mono _ _ ?_)
      have := hv j p (by omega) hj2 (by omega)
      have := hv (p + 1) (p + j - r) (by omega) (by omega) (by omega)
      linarith
    have hpos : 0 < v (p + j - r) - v j := by
      by_contra hc
      push Not at hc
      have ht : 0 ≤ BSpline.tiny K := by unfold BSpline.tiny; positivity
      exact absurd hww (not_lt.2 (R.mono _ _ (le_trans hc ht)))
    have q0 : 0 ≤ (t - v j) / (v (p + j - r) - v j) := div_nonneg (by linarith) hpos.le
    have q1 : (t - v j) / (v (p + j - r) - v j) ≤ 1 := (div_le_one hpos).2 (by linarith)
    obtain ⟨c0, c1⟩ := coef_mem R b1 b2
    have hE : 0 ≤ (1 + R.unit) ^ 2 / (1 - R.unit) - 1 := by
      have h1u : 0 < 1 - R.unit := by linarith
      rw [sub_nonneg, le_div_iff₀ h1u]; nlinarith
    constructor
    · have key := blend_err R (F (r + 1) j i) hM0 (one_le_pow₀ hG (n := r)) hE c0 c1 q0 q1
        (coef_err R hu1 b1 b2 hww) x1 x2 y1 y2
      rw [show growth R ^ r * ((1 + R.unit) ^ 3 + 2 * ((1 + R.unit) ^ 2 / (1 - R.unit) - 1))
        = growth R ^ (r + 1) by rw [pow_succ (growth R)]; rfl] at key
      simpa [tri, stepB, dB] using key
    · simp only [dB, Pi.add_apply, Pi.smul_apply, smul_eq_mul]
      refine le_trans (abs_add_le _ _) ?_
      rw [abs_mul, abs_mul, abs_of_nonneg q0, abs_of_nonneg (by linarith : (0:K) ≤ 1 - _)]
      nlinarith

/-- All knots below the parameter coincide with it: the first control point is returned. -/
theorem triB_lower (R : Rounding K) (F : ℕ → ℕ → ι → Fuse) (p : ℕ) (v : ℕ → K) (t : K)
    (hv : ∀ j, 1 ≤ j → j ≤ p → v j = t) (P : ℕ → ι → K) (hP : ∀ j i, R.IsFloat (P j i)) (r : ℕ) :
    ∀ j, r ≤ j → j ≤ p → tri (stepB R F p v t) P r j = P (j - r) := by
  induction r with
  | zero => intro j _ _; rfl
  | succ r ih =>
    intro j h1 h2
    funext i
    have hc : coef R (v (p + j - (r + 1 - 1))) (v j) t = 0 := by
      unfold coef
      rw [hv j (by omega) h2, sub_self, R.zero, zero_div, R.zero, ite_self]
    rw [tri, stepB, hc, sub_zero, R.one, ih (j - 1) (by omega) (by omega), combine_left R _ _ (hP _ _),
      show j - 1 - r = j - (r + 1) by omega]

/-- All knots above the parameter coincide with it: the last control point is returned. -/
theorem triB_upper (R : Rounding K) (F : ℕ → ℕ → ι → Fuse) (p : ℕ) (v : ℕ → K) (t : K)
    (hm : ∀ i j, 1 ≤ i → i ≤ j → j ≤ 2 * p → v i ≤ v j)
    (hw : R.rnd (BSpline.tiny K) < R.rnd (v (p + 1) - v p))
    (hv : ∀ j, p + 1 ≤ j → j ≤ 2 * p → v j = t) (P : ℕ → ι → K) (hP : ∀ j i, R.IsFloat (P j i))
    (r : ℕ) : ∀ j, r ≤ j → j ≤ p → tri (stepB R F p v t) P r j = P j := by
  induction r with
  | zero => intro j _ _; rfl
  | succ r ih =>
    intro j h1 h2
    funext i
    have ht : 0 ≤ BSpline.tiny K := by unfold BSpline.tiny; positivity
    have e : v (p + j - (r + 1 - 1)) = t := hv _ (by omega) (by omega)
    have hww : R.rnd (BSpline.tiny K) < R.rnd (t - v j) := by
      refine lt_of_lt_of_le hw (R.mono _ _ ?_)
      have := hm j p (by omega) h2 (by omega)
      have := hv (p + 1) (by omega) (by omega)
      linarith
    have hc : coef R (v (p + j - (r + 1 - 1))) (v j) t = 1 := by
      unfold coef
      rw [e, if_pos hww, div_self (lt_of_le_of_lt (R.nonneg ht) hww).ne', R.one]
    rw [tri, stepB, hc, sub_self, R.zero, ih j (by omega) h2, combine_right R _ _ (hP _ _)]

end NS.Fl
