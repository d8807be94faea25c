import Mathlib.Tactic.Linarith
import Mathlib.Tactic.Positivity
import Verif.Model.Ieee
import Verif.Proof.Float
import Verif.Proof.FloatEval

/-!
# The evaluators with overflow, underflow and special values
-/

set_option linter.unusedSectionVars false

namespace NS.Ieee

open Outcome

variable {K ι : Type} [Field K] [LinearOrder K] [IsStrictOrderedRing K] [FloorRing K]

/-- Infinity or NaN. -/
def Num.special : Num K → Prop
  | .fin _ => False
  | _ => True

namespace Format

variable (A : Format K)

/-- A number of the format. -/
def IsFloat (x : K) : Prop := A.rnd x = x

/-- Round to nearest: products of the largest number by weights are rounded down, and weights that
sum to one up to their rounding do not lead beyond the largest number. -/
structure Safe : Prop where
  prod : ∀ z, A.rnd z = z → 0 ≤ z → z ≤ 1 → A.rnd (z * A.big) ≤ z * A.big
  sum : ∀ t, A.rnd t = t → 0 ≤ t → t ≤ 1 → ∀ x, x ≤ (A.rnd (1 - t) + t) * A.big → A.rnd x ≤ A.big

/-- `s * a + r * b` on finite numbers without range check. -/
def comb (f : Fuse) (s a r b : K) : K :=
  match f with
  | .none => A.rnd (A.rnd (s * a) + A.rnd (r * b))
  | .first => A.rnd (s * a + A.rnd (r * b))
  | .second => A.rnd (A.rnd (s * a) + r * b)

theorem zero : A.rnd 0 = 0 := by
  have := A.odd 0
  rw [neg_zero] at this
  linarith

theorem nonneg {x : K} (h : 0 ≤ x) : 0 ≤ A.rnd x := by
  have := A.mono 0 x h
  rwa [A.zero] at this

theorem le_one {x : K} (h : x ≤ 1) : A.rnd x ≤ 1 := by
  have := A.mono x 1 h
  rwa [A.one] at this

theorem big_pos : 0 < A.big := lt_of_lt_of_le one_pos A.one_le_big

theorem abs_le_big {x : K} (h : |x| ≤ A.big) : |A.rnd x| ≤ A.big := by
  obtain ⟨h1, h2⟩ := abs_le.1 h
  have := A.mono _ _ h2
  rw [A.big_float] at this
  have h3 := A.mono _ _ h1
  rw [A.odd, A.big_float] at h3
  exact abs_le.2 ⟨h3, this⟩

theorem round_fin {x : K} (h : |A.rnd x| ≤ A.big) : A.round (.fin x) = .fin (A.rnd x) := if_pos h

theorem round_float {x : K} (hx : A.rnd x = x) (h : |x| ≤ A.big) : A.round (.fin x) = .fin x := by
  rw [A.round_fin (by rwa [hx]), hx]

theorem compl_fin {t : K} (h0 : 0 ≤ t) (h1 : t ≤ 1) :
    A.compl (.fin t) = .fin (A.rnd (1 - t)) := by
  have : |1 - t| ≤ A.big := by
    rw [abs_of_nonneg (by linarith)]
    linarith [A.one_le_big]
  unfold compl
  simp only [Num.neg, Num.add, ← sub_eq_add_neg]
  exact A.round_fin (A.abs_le_big this)

theorem compl_near {t : K} (hf : A.rnd t = t) (h1 : t ≤ 1) :
    |A.rnd (1 - t) - (1 - t)| ≤ A.unit * (1 - t) := by
  have := A.sum_near 1 (-t) A.one (by rw [A.odd, hf])
  rwa [← sub_eq_add_neg, abs_of_nonneg (by linarith : 0 ≤ 1 - t)] at this

theorem sub_fin {a b : K} (h : |a - b| ≤ A.big) :
    A.sub (.fin a) (.fin b) = .fin (A.rnd (a - b)) := by
  unfold sub
  simp only [Num.neg, Num.add, ← sub_eq_add_neg]
  exact A.round_fin (A.abs_le_big h)

/-- Weights of a combination that cannot overflow. -/
structure Pair (s r : K) : Prop where
  s0 : 0 ≤ s
  s1 : s ≤ 1
  r0 : 0 ≤ r
  r1 : r ≤ 1
  ps : A.rnd (s * A.big) ≤ s * A.big
  pr : A.rnd (r * A.big) ≤ r * A.big
  sum : ∀ x, x ≤ (s + r) * A.big → A.rnd x ≤ A.big

theorem Pair.symm {A : Format K} {s r : K} (h : A.Pair s r) : A.Pair r s :=
  ⟨h.r0, h.r1, h.s0, h.s1, h.pr, h.ps, fun x hx => h.sum x (by rwa [add_comm])⟩

theorem Safe.pair {A : Format K} (h : A.Safe) {t : K} (hf : A.rnd t = t) (h0 : 0 ≤ t) (h1 : t ≤ 1) :
    A.Pair (A.rnd (1 - t)) t := by
  have a := A.nonneg (by linarith : 0 ≤ 1 - t)
  have b := A.le_one (by linarith : 1 - t ≤ 1)
  exact ⟨a, b, h0, h1, h.prod _ (A.idem _) a b, h.prod t hf h0 h1, h.sum t hf h0 h1⟩

theorem abs_of_both {x B : K} (h : x ≤ B) (h' : -x ≤ B) : |x| ≤ B := abs_le.2 ⟨by linarith, h⟩

/-- A product by a weight stays below the weight times the largest number. -/
theorem prod_abs {s a : K} (s0 : 0 ≤ s) (ps : A.rnd (s * A.big) ≤ s * A.big) (ha : |a| ≤ A.big) :
    |s * a| ≤ s * A.big ∧ |A.rnd (s * a)| ≤ s * A.big := by
  obtain ⟨h1, h2⟩ := abs_le.1 ha
  have u := mul_le_mul_of_nonneg_left h2 s0
  have l := mul_le_mul_of_nonneg_left h1 s0
  refine ⟨abs_of_both u (by linarith), abs_of_both ((A.mono _ _ u).trans ps) ?_⟩
  rw [← A.odd]
  exact (A.mono _ _ (by linarith)).trans ps

/-- Convex combinations of finite numbers are finite. -/
theorem combine_fin {s r : K} (h : A.Pair s r) (f : Fuse) {a b : K} (ha : |a| ≤ A.big)
    (hb : |b| ≤ A.big) :
    A.combine f (.fin s) (.fin a) (.fin r) (.fin b) = .fin (A.comb f s a r b) ∧
      |A.comb f s a r b| ≤ A.big := by
  obtain ⟨p1, p2⟩ := A.prod_abs h.s0 h.ps ha
  obtain ⟨q1, q2⟩ := A.prod_abs h.r0 h.pr hb
  have hB := A.big_pos
  have m1 := mul_le_mul_of_nonneg_right h.s1 hB.le
  have m2 := mul_le_mul_of_nonneg_right h.r1 hB.le
  have r1 := A.round_fin (x := s * a) (by linarith)
  have r2 := A.round_fin (x := r * b) (by linarith)
  have key : ∀ x y : K, |x| ≤ s * A.big → |y| ≤ r * A.big → |A.rnd (x + y)| ≤ A.big := by
    intro x y hx hy
    obtain ⟨x1, x2⟩ := abs_le.1 hx
    obtain ⟨y1, y2⟩ := abs_le.1 hy
    refine abs_of_both (h.sum _ (by linarith)) ?_
    rw [← A.odd]
    exact h.sum _ (by linarith)
  cases f
  · have := key _ _ p2 q2
    refine ⟨?_, this⟩
    simp only [combine, comb, Num.mul, r1, r2, Num.add]
    exact A.round_fin this
  · have := key _ _ p1 q2
    refine ⟨?_, this⟩
    simp only [combine, comb, Num.mul, r2, Num.add]
    exact A.round_fin this
  · have := key _ _ p2 q1
    refine ⟨?_, this⟩
    simp only [combine, comb, Num.mul, r1, Num.add]
    exact A.round_fin this

/-- Rounding error of one combination. -/
theorem comb_near (f : Fuse) (s a r b : K) :
    |A.comb f s a r b - (s * a + r * b)|
      ≤ ((1 + A.unit) ^ 2 - 1) * (|s * a| + |r * b|) + 2 * ((1 + A.unit) * A.eta) := by
  have hu := A.unit_nonneg
  have he := A.eta_nonneg
  have h1 := A.near (s * a)
  have h2 := A.near (r * b)
  have n1 := abs_nonneg (s * a)
  have n2 := abs_nonneg (r * b)
  have gen : ∀ x y d e1 e2 : K, 0 ≤ e1 → 0 ≤ e2 → d + (e1 + e2) ≤ 2 * A.eta → 0 ≤ d →
      |x - s * a| ≤ A.unit * |s * a| + e1 →
      |y - r * b| ≤ A.unit * |r * b| + e2 →
      |A.rnd (x + y) - (x + y)| ≤ A.unit * |x + y| + d →
      |A.rnd (x + y) - (s * a + r * b)| ≤ ((1 + A.unit) ^ 2 - 1) * (|s * a| + |r * b|)
        + 2 * ((1 + A.unit) * A.eta) := by
    intro x y d e1 e2 k1 k2 hd d0 hx hy h3
    have e : A.rnd (x + y) - (s * a + r * b)
        = (A.rnd (x + y) - (x + y)) + ((x - s * a) + (y - r * b)) := by ring
    have e2' : x + y = ((x - s * a) + (y - r * b)) + (s * a + r * b) := by ring
    have a1 := abs_add_le (x - s * a) (y - r * b)
    have a2 := abs_add_le (A.rnd (x + y) - (x + y)) ((x - s * a) + (y - r * b))
    have a3 := abs_add_le ((x - s * a) + (y - r * b)) (s * a + r * b)
    rw [← e2'] at a3
    have a4 := abs_add_le (s * a) (r * b)
    rw [e]
    have a5 : |x + y| ≤ (1 + A.unit) * (|s * a| + |r * b|) + (e1 + e2) := by linarith
    have a6 := mul_le_mul_of_nonneg_left a5 hu
    have a7 := mul_le_mul_of_nonneg_left (by linarith : e1 + e2 ≤ 2 * A.eta) hu
    nlinarith
  cases f
  · refine gen _ _ 0 A.eta A.eta he he (by linarith) le_rfl h1 h2 ?_
    have := A.sum_near _ _ (A.idem (s * a)) (A.idem (r * b))
    simpa using this
  · refine gen _ _ A.eta 0 A.eta le_rfl he (by linarith) he ?_ h2 (A.near _)
    simpa using mul_nonneg hu n1
  · refine gen _ _ A.eta A.eta 0 he le_rfl (by linarith) he h1 ?_ (A.near _)
    simpa using mul_nonneg hu n2

theorem comb_swap (f : Fuse) (s a r b : K) :
    A.comb f s a r b = A.comb (Fl.swap f) r b s a := by
  cases f <;> simp [comb, Fl.swap, add_comm]

/-- Error of one blend of perturbed values with a perturbed weight; `B` bounds the perturbed
values. -/
theorem blend_err (f : Fuse) {al a0 e x x0 y y0 B M : K} (hB : 0 ≤ B)
    (he : 0 ≤ e) (hf : A.rnd al = al) (h0 : 0 ≤ al) (h1 : al ≤ 1) (k0 : 0 ≤ a0) (k1 : a0 ≤ 1)
    (ha : |al - a0| ≤ e) (hx : |x - x0| ≤ B - M) (hx0 : |x0| ≤ M) (hy : |y - y0| ≤ B - M)
    (hy0 : |y0| ≤ M) :
    |A.comb f (A.rnd (1 - al)) x al y - ((1 - a0) * x0 + a0 * y0)|
      ≤ ((1 + A.unit) ^ 3 + 2 * e) * B + 2 * ((1 + A.unit) * A.eta) - M := by
  have hu := A.unit_nonneg
  have bx : |x| ≤ B := by
    have := abs_add_le (x - x0) x0
    rw [sub_add_cancel] at this
    linarith
  have by' : |y| ≤ B := by
    have := abs_add_le (y - y0) y0
    rw [sub_add_cancel] at this
    linarith
  have hs := A.compl_near hf h1
  have hs0 : 0 ≤ A.rnd (1 - al) := A.nonneg (by linarith)
  have hs1 : A.rnd (1 - al) ≤ (1 + A.unit) * (1 - al) := by linarith [(abs_le.1 hs).2]
  have c1 := A.comb_near f (A.rnd (1 - al)) x al y
  rw [abs_mul, abs_mul, abs_of_nonneg hs0, abs_of_nonneg h0] at c1
  have c2 : A.rnd (1 - al) * |x| + al * |y| ≤ (1 + A.unit) * B := by
    have m1 : A.rnd (1 - al) * |x| ≤ (1 + A.unit) * (1 - al) * B :=
      mul_le_mul hs1 bx (abs_nonneg _) (mul_nonneg (by linarith) (by linarith))
    have m2 : al * |y| ≤ al * B := mul_le_mul_of_nonneg_left by' h0
    have m3 : 0 ≤ A.unit * al * B := by positivity
    nlinarith
  have c3 : ((1 + A.unit) ^ 2 - 1) * (A.rnd (1 - al) * |x| + al * |y|)
      ≤ ((1 + A.unit) ^ 2 - 1) * ((1 + A.unit) * B) :=
    mul_le_mul_of_nonneg_left c2 (by nlinarith)
  have d1 : |(A.rnd (1 - al) - (1 - al)) * x| ≤ A.unit * B := by
    rw [abs_mul]
    refine mul_le_mul ?_ bx (abs_nonneg _) hu
    nlinarith
  have d2 : |(al - a0) * (y - x)| ≤ e * (2 * B) := by
    rw [abs_mul]
    refine mul_le_mul ha ?_ (abs_nonneg _) he
    have := abs_sub y x
    linarith
  have d3 : |(1 - a0) * (x - x0)| ≤ (1 - a0) * (B - M) := by
    rw [abs_mul, abs_of_nonneg (by linarith : 0 ≤ 1 - a0)]
    exact mul_le_mul_of_nonneg_left hx (by linarith)
  have d4 : |a0 * (y - y0)| ≤ a0 * (B - M) := by
    rw [abs_mul, abs_of_nonneg k0]
    exact mul_le_mul_of_nonneg_left hy k0
  have e' : A.comb f (A.rnd (1 - al)) x al y - ((1 - a0) * x0 + a0 * y0)
      = (A.comb f (A.rnd (1 - al)) x al y - (A.rnd (1 - al) * x + al * y))
        + ((A.rnd (1 - al) - (1 - al)) * x + ((al - a0) * (y - x)
          + ((1 - a0) * (x - x0) + a0 * (y - y0)))) := by ring
  rw [e']
  have t1 := abs_add_le (A.comb f (A.rnd (1 - al)) x al y - (A.rnd (1 - al) * x + al * y))
    ((A.rnd (1 - al) - (1 - al)) * x + ((al - a0) * (y - x)
          + ((1 - a0) * (x - x0) + a0 * (y - y0))))
  have t2 := abs_add_le ((A.rnd (1 - al) - (1 - al)) * x) ((al - a0) * (y - x)
          + ((1 - a0) * (x - x0) + a0 * (y - y0)))
  have t3 := abs_add_le ((al - a0) * (y - x)) ((1 - a0) * (x - x0) + a0 * (y - y0))
  have t4 := abs_add_le ((1 - a0) * (x - x0)) (a0 * (y - y0))
  have fin : ((1 + A.unit) ^ 2 - 1) * ((1 + A.unit) * B) + (A.unit * B
      + (e * (2 * B) + ((1 - a0) * (B - M) + a0 * (B - M))))
      = ((1 + A.unit) ^ 3 + 2 * e) * B - M := by ring
  linarith

/-- Bound of the computed values after `r` rounds with growth `g`. -/
def bound (g M : K) (r : ℕ) : K := g ^ r * (M + 2 * r * A.eta)

theorem bound_succ {g M : K} (hg : 1 + A.unit ≤ g) (r : ℕ) :
    g * A.bound g M r + 2 * ((1 + A.unit) * A.eta) ≤ A.bound g M (r + 1) := by
  have hu := A.unit_nonneg
  have he := A.eta_nonneg
  have h1 : 1 ≤ g ^ r := one_le_pow₀ (by linarith)
  have h2 : 1 + A.unit ≤ g ^ (r + 1) := by
    rw [pow_succ]
    nlinarith
  have h3 := mul_le_mul_of_nonneg_right h2 he
  have e : A.bound g M (r + 1) = g * A.bound g M r + 2 * (g ^ (r + 1) * A.eta) := by
    unfold bound
    push_cast
    ring
  rw [e]
  linarith

theorem le_bound {g M : K} (hg : 1 + A.unit ≤ g) (hM : 0 ≤ M) (r : ℕ) : M ≤ A.bound g M r := by
  have hu := A.unit_nonneg
  have he := A.eta_nonneg
  have h1 : 1 ≤ g ^ r := one_le_pow₀ (by linarith)
  have h2 : 0 ≤ 2 * (r : K) * A.eta := by positivity
  unfold bound
  nlinarith

end Format

/-! ### Bézier curves -/

/-- One step of the scheme. -/
def step (A : Format K) (F : ℕ → ℕ → ι → Fuse) (t : Num K) (r j : ℕ) (x y : ι → Num K) :
    ι → Num K :=
  fun i => A.combine (F r j i) t (y i) (A.compl t) (x i)

/-- One step of the scheme on finite numbers. -/
def stepK (A : Format K) (F : ℕ → ℕ → ι → Fuse) (t : K) (r j : ℕ) (x y : ι → K) : ι → K :=
  fun i => A.comb (F r j i) t (y i) (A.rnd (1 - t)) (x i)

theorem bezierDeBoor_eq (A : Format K) (F : ℕ → ℕ → ι → Fuse) (b : ℕ) (t : Num K) (d n : ℕ)
    (P : ℕ → ι → Num K) (hd : d < n) (hb : d ≤ b) :
    bezierDeBoor A F b t (d : ℤ) (arr n P) = ok (tri (step A F t) P d d) := by
  unfold bezierDeBoor
  by_cases h : (d : ℤ) > 0
  · simp only [h, if_true, Int.toNat_natCast]
    have key : bezierBlossom A F (arr b fun _ => t) d (arr n P) =
        ok (arr n (fun j => if j ≤ d then tri (step A F t) P j j else P j)) := by
      unfold bezierBlossom
      apply tri_loop (step A F t) P n d
      intro r j h1 h2 h3 g h hh
      rw [rd_arr (by omega), ok_bind, rd_arr (by omega), ok_bind, rd_arr (by omega), ok_bind]
      apply wr_arr _ (by omega)
      intro i hi
      rw [hh i hi]
      rfl
    rw [Bezier.replicate_eq_arr, key]
    simp only [ok_bind, rdI_natCast]
    rw [rd_arr hd]
    simp
  · have h0 : d = 0 := by omega
    subst h0
    simp only [h, if_false, ok_bind, rdI_natCast]
    rw [rd_arr hd]
    rfl

theorem bezierEvaluate_arr (A : Format K) (F : ℕ → ℕ → ι → Fuse) (n : ℕ) (P : ℕ → ι → Num K)
    (per : Bool) {t t' : Num K} (ht : bezierWrap A per t = ok t') :
    bezierEvaluate A F { ctrl := arr (n + 1) P, periodic := per } t
      = ok (tri (step A F t') P n n) := by
  unfold bezierEvaluate
  rw [ht, ok_bind]
  have hd : ({ ctrl := arr (n + 1) P, periodic := per } : Bezier (ι → Num K)).degree = (n : ℤ) := by
    simp [Bezier.degree]
  rw [hd, Int.toNat_natCast]
  exact bezierDeBoor_eq A F n t' n (n + 1) P (by omega) le_rfl

theorem bezierEvaluate_eq (A : Format K) (F : ℕ → ℕ → ι → Fuse) (l : List (ι → Num K)) (hl : l ≠ [])
    (per : Bool) {t t' : Num K} (ht : bezierWrap A per t = ok t') :
    bezierEvaluate A F { ctrl := l, periodic := per } t
      = ok (tri (step A F t') (fun j => l.getD j 0) (l.length - 1) (l.length - 1)) := by
  have := bezierEvaluate_arr A F (l.length - 1) (fun j => l.getD j 0) per ht
  rwa [← Fl.list_arr l hl] at this

/-- On finite values the scheme stays finite. -/
theorem tri_fin {A : Format K} (hA : A.Safe) (F : ℕ → ℕ → ι → Fuse) {t : K} (hf : A.rnd t = t)
    (h0 : 0 ≤ t) (h1 : t ≤ 1) (P : ℕ → ι → Num K) (Q : ℕ → ι → K) (i : ι)
    (hP : ∀ j, P j i = .fin (Q j i)) (hb : ∀ j, |Q j i| ≤ A.big) (r : ℕ) : ∀ j,
    tri (step A F (.fin t)) P r j i = .fin (tri (stepK A F t) Q r j i) ∧
      |tri (stepK A F t) Q r j i| ≤ A.big := by
  induction r with
  | zero => exact fun j => ⟨hP j, hb j⟩
  | succ r ih =>
    intro j
    simp only [tri, step, stepK, A.compl_fin h0 h1, (ih j).1, (ih (j - 1)).1]
    exact A.combine_fin (hA.pair hf h0 h1).symm _ (ih j).2 (ih (j - 1)).2

/-- Error of the scheme started from values off by at most `B0 - M`. -/
theorem tri_err (A : Format K) (F : ℕ → ℕ → ι → Fuse) {t : K} (hf : A.rnd t = t)
    (h0 : 0 ≤ t) (h1 : t ≤ 1) (P Q : ℕ → ι → K) (i : ι) {M B : K} (hM : ∀ j, |P j i| ≤ M)
    (hMB : M ≤ B) (hQ : ∀ j, |Q j i - P j i| ≤ B - M) (r : ℕ) : ∀ j,
    |tri (stepK A F t) Q r j i - Bezier.dcv (fun _ => t) P r j i|
        ≤ A.bound ((1 + A.unit) ^ 3) B r - M ∧
      |Bezier.dcv (fun _ => t) P r j i| ≤ M := by
  have hu := A.unit_nonneg
  have hM0 : 0 ≤ M := (abs_nonneg _).trans (hM 0)
  have hg : 1 + A.unit ≤ (1 + A.unit) ^ 3 := le_self_pow₀ (by linarith) (by norm_num)
  induction r with
  | zero => intro j; simpa [tri, Bezier.dcv, Format.bound] using ⟨hQ j, hM j⟩
  | succ r ih =>
    intro j
    obtain ⟨x1, x2⟩ := ih (j - 1)
    obtain ⟨y1, y2⟩ := ih j
    have hB := A.le_bound hg (hM0.trans hMB) r
    constructor
    · have key := A.blend_err (Fl.swap (F (r + 1) j i)) (hM0.trans (hMB.trans hB))
        (e := 0) le_rfl hf h0 h1 h0 h1 (by simp) x1 x2 y1 y2
      rw [← Format.comb_swap, mul_zero, add_zero, add_comm ((1 - t) * _)] at key
      have := A.bound_succ (M := B) hg r
      refine le_trans ?_ (sub_le_sub_right this M)
      simpa [tri, stepK, Bezier.dcv] using key
    · simp only [Bezier.dcv, Pi.add_apply, Pi.smul_apply, smul_eq_mul]
      refine le_trans (abs_add_le _ _) ?_
      rw [abs_mul, abs_mul, abs_of_nonneg h0, abs_of_nonneg (by linarith : (0:K) ≤ 1 - t)]
      nlinarith

/-! ### Special values -/

namespace Num

theorem special_add_left {x : Num K} (h : x.special) (y : Num K) : (x.add y).special := by
  cases x <;> cases y <;> simp_all [Num.special, Num.add]
  split_ifs <;> trivial

theorem special_add_right (x : Num K) {y : Num K} (h : y.special) : (x.add y).special := by
  cases x <;> cases y <;> simp_all [Num.special, Num.add]
  split_ifs <;> trivial

theorem special_mul_left {x : Num K} (h : x.special) (y : Num K) : (x.mul y).special := by
  cases x <;> cases y <;> simp_all [Num.special, Num.mul, Num.infMul]
  split_ifs <;> trivial

theorem special_mul_right (x : Num K) {y : Num K} (h : y.special) : (x.mul y).special := by
  cases x <;> cases y <;> simp_all [Num.special, Num.mul, Num.infMul]
  split_ifs <;> trivial

theorem special_neg {x : Num K} (h : x.special) : x.neg.special := by
  cases x <;> simp_all [Num.special, Num.neg]

end Num

namespace Format

variable (A : Format K)

theorem round_special {x : Num K} (h : x.special) : (A.round x).special := by
  cases x
  · exact absurd h id
  · trivial
  · trivial

theorem compl_special {t : Num K} (h : t.special) : (A.compl t).special :=
  A.round_special (Num.special_add_right _ (Num.special_neg h))

theorem combine_special (f : Fuse) {s a r b : Num K} (h : (s.special ∨ a.special) ∨ b.special) :
    (A.combine f s a r b).special := by
  rcases h with h | h
  · have m : (s.mul a).special := h.elim (fun h => Num.special_mul_left h _)
      (fun h => Num.special_mul_right _ h)
    cases f
    · exact A.round_special (Num.special_add_left (A.round_special m) _)
    · exact A.round_special (Num.special_add_left m _)
    · exact A.round_special (Num.special_add_left (A.round_special m) _)
  · have m : (r.mul b).special := Num.special_mul_right _ h
    cases f
    · exact A.round_special (Num.special_add_right _ (A.round_special m))
    · exact A.round_special (Num.special_add_right _ (A.round_special m))
    · exact A.round_special (Num.special_add_right _ m)

theorem combine_nan (f : Fuse) (a r b : Num K) : A.combine f .nan a r b = .nan := by
  cases f <;> cases a <;> rfl

theorem combine_nan_third (f : Fuse) (s a b : Num K) : A.combine f s a .nan b = .nan := by
  have h : ∀ x : Num K, x.add .nan = .nan := by intro x; cases x <;> rfl
  have h' : (Num.nan.mul b : Num K) = .nan := by cases b <;> rfl
  cases f <;> simp [combine, h, h', round]

theorem combine_swap_num (f : Fuse) (s a r b : Num K) :
    A.combine f s a r b = A.combine (Fl.swap f) r b s a := by
  have h : ∀ x y : Num K, x.add y = y.add x := by
    intro x y
    cases x <;> cases y <;> simp [Num.add, add_comm]
    rename_i a b
    cases a <;> cases b <;> simp
  cases f <;> simp [combine, Fl.swap, h]

end Format

theorem tri_special_param (A : Format K) (F : ℕ → ℕ → ι → Fuse) {t : Num K} (ht : t.special)
    (P : ℕ → ι → Num K) {r : ℕ} (hr : r ≠ 0) (j : ℕ) (i : ι) : (tri (step A F t) P r j i).special := by
  obtain ⟨r, rfl⟩ := Nat.exists_eq_succ_of_ne_zero hr
  exact A.combine_special _ (Or.inl (Or.inl ht))

theorem tri_nan_param (A : Format K) (F : ℕ → ℕ → ι → Fuse)
    (P : ℕ → ι → Num K) {r : ℕ} (hr : r ≠ 0) (j : ℕ) (i : ι) :
    tri (step A F .nan) P r j i = .nan := by
  obtain ⟨r, rfl⟩ := Nat.exists_eq_succ_of_ne_zero hr
  exact A.combine_nan _ _ _ _

/-- A special control point makes every later value special. -/
theorem tri_special_ctrl {f : ℕ → ℕ → (ι → Num K) → (ι → Num K) → ι → Num K} {i : ι}
    (hf : ∀ r j x y, (x i).special ∨ (y i).special → (f r j x y i).special)
    (P : ℕ → ι → Num K) (r : ℕ) :
    ∀ j, r ≤ j → (∃ k, j - r ≤ k ∧ k ≤ j ∧ (P k i).special) → (tri f P r j i).special := by
  induction r with
  | zero =>
    rintro j _ ⟨k, h1, h2, h3⟩
    have : k = j := by omega
    rwa [this] at h3
  | succ r ih =>
    rintro j hj ⟨k, h1, h2, h3⟩
    apply hf
    by_cases h : k = j
    · exact Or.inr (ih j (by omega) ⟨k, by omega, h2, h3⟩)
    · exact Or.inl (ih (j - 1) (by omega) ⟨k, by omega, by omega, h3⟩)

end NS.Ieee
