import Verif.Model.FloatSecond
import Verif.Props.FloatRational

/-!
# Property C113: rounding errors of second derivatives and of the derivatives of the fixed degrees
-/

set_option linter.unusedSectionVars false

namespace NS.Fl

open Outcome Finset Spec

section General

variable {K ι : Type} [Field K] [LinearOrder K] [IsStrictOrderedRing K] [FloorRing K]

namespace Maj

variable {x y A B x' y' A' B' : K}

theorem add (h : Maj y x A B) (h' : Maj y' x' A' B') : Maj (y + y') (x + x') (A + A') (B + B') := by
  refine ⟨(abs_add_le _ _).trans (by linarith [h.exact, h'.exact]), ?_⟩
  have e : y + y' - (x + x') = (y - x) + (y' - x') := by ring
  rw [e]
  exact (abs_add_le _ _).trans (by linarith [h.err, h'.err])

theorem mono (h : Maj y x A B) (hB : B ≤ B') : Maj y x A B' := ⟨h.exact, by linarith [h.err]⟩

theorem weaken (h : Maj y x A B) (hA : A ≤ A') : Maj y x A' (B + (A' - A)) :=
  ⟨h.exact.trans hA, by linarith [h.err]⟩

theorem refl (h : |x| ≤ A) : Maj x x A A := ⟨h, by simp⟩

theorem nonneg (h : Maj y x A B) : 0 ≤ B := (abs_nonneg _).trans h.abs_y

theorem nonneg' (h : Maj y x A B) : 0 ≤ A := (abs_nonneg _).trans h.exact

theorem le_rnd (R : Rounding K) (h : Maj y x A B) : B ≤ (1 + R.unit) * B := by
  have := mul_nonneg R.unit_nonneg h.nonneg
  linarith

/-- Both operands of the sum rounded bounds every choice of contraction. -/
theorem combine (R : Rounding K) (f : Fuse) {s' s As Bs a' a Aa Ba r' r Ar Br b' b Ab Bb : K}
    (hs : Maj s' s As Bs) (ha : Maj a' a Aa Ba) (hr : Maj r' r Ar Br) (hb : Maj b' b Ab Bb) :
    Maj (R.combine f s' a' r' b') (s * a + r * b) (As * Aa + Ar * Ab)
      ((1 + R.unit) ^ 2 * (Bs * Ba + Br * Bb)) := by
  have m1 := hs.mul ha
  have m2 := hr.mul hb
  have l1 := m1.le_rnd R
  have l2 := m2.le_rnd R
  have r1 := m1.rnd R
  have r2 := m2.rnd R
  have e : (1 + R.unit) ^ 2 * (Bs * Ba + Br * Bb)
      = (1 + R.unit) * ((1 + R.unit) * (Bs * Ba) + (1 + R.unit) * (Br * Bb)) := by ring
  rw [e]
  cases f
  · exact (r1.add r2).rnd R
  · exact (((m1.mono l1).add r2)).rnd R
  · exact ((r1.add (m2.mono l2))).rnd R

theorem subMul (R : Rounding K) (f : Bool) {z' z Az Bz s' s As Bs a' a Aa Ba : K} (hz : Maj z' z Az Bz)
    (hs : Maj s' s As Bs) (ha : Maj a' a Aa Ba) :
    Maj (subMul R f z' s' a') (z - s * a) (Az + As * Aa)
      ((1 + R.unit) * (Bz + (1 + R.unit) * (Bs * Ba))) := by
  have m := hs.mul ha
  cases f
  · exact (hz.sub (m.rnd R)).rnd R
  · exact (hz.sub (m.mono (m.le_rnd R))).rnd R

/-- One interpolation step on the unit interval. -/
theorem lerp (R : Rounding K) (f : Fuse) {t a' a b' b M g : K} (h0 : 0 ≤ t) (h1 : t ≤ 1)
    (ha : Maj a' a M (g * M)) (hb : Maj b' b M (g * M)) :
    Maj (R.combine f (R.rnd (1 - t)) a' t b') ((1 - t) * a + t * b) M ((1 + R.unit) ^ 3 * g * M) := by
  have hu := R.unit_nonneg
  have s : Maj (R.rnd (1 - t)) (1 - t) (1 - t) ((1 + R.unit) * (1 - t)) :=
    (refl (le_of_eq (abs_of_nonneg (by linarith)))).rnd R
  have r : Maj t t t ((1 + R.unit) * t) :=
    (refl (le_of_eq (abs_of_nonneg h0))).mono (by nlinarith)
  have := combine R f s ha r hb
  refine ⟨?_, ?_⟩
  · have := this.exact; rwa [show (1 - t) * M + t * M = M by ring] at this
  · have := this.err
    rw [show (1 - t) * M + t * M = M by ring] at this
    refine this.trans (le_of_eq ?_)
    ring

end Maj

/-! ### The generic class -/

/-- The rounded first differences. -/
def firstCoef (R : Rounding K) (d : ℕ) (Q : ℕ → ι → K) (j : ℕ) (l : ι) : K :=
  R.rnd ((d : K) * R.rnd (Q (j + 1) l - Q j l))

/-- The second derivative is the derivative of the curve of rounded first differences. -/
theorem bezier2nd_eq (R : Rounding K) (H : ℕ → ℕ → ι → Fuse) (n : ℕ) (Q : ℕ → ι → K) (t : K) :
    bezier2ndDerivative R H { ctrl := arr (n + 3) Q } t
      = bezierDerivative R H { ctrl := arr (n + 2) (firstCoef R (n + 2) Q) } t := by
  have hd : ({ ctrl := arr (n + 3) Q } : Bezier (ι → K)).degree = ((n + 2 : ℕ) : ℤ) := by
    simp [Bezier.degree]; omega
  have hd' : ({ ctrl := arr (n + 2) (firstCoef R (n + 2) Q) } : Bezier (ι → K)).degree
      = ((n + 1 : ℕ) : ℤ) := by
    simp [Bezier.degree]; omega
  unfold bezier2ndDerivative bezierDerivative
  rw [show bezierWrap R (Bezier.periodic { ctrl := arr (n + 3) Q }) t = ok t from rfl,
    ok_bind, ok_bind, hd, hd', assert_true (by omega), assert_true (by omega), ok_bind, ok_bind,
    if_neg (by omega), if_neg (by omega), Int.toNat_natCast, Int.toNat_natCast,
    show ((n + 2 : ℕ) : ℤ) - 1 = ((n + 1 : ℕ) : ℤ) by omega, Int.toNat_natCast,
    bezierDerivCoef_arr R (n + 2) (n + 3) Q (by omega), ok_bind,
    bezierDerivCoef_arr R (n + 1) (n + 3) _ (by omega), ok_bind,
    bezierDerivCoef_arr R (n + 1) (n + 2) _ (by omega), ok_bind,
    show ((n + 2 : ℕ) : ℤ) - 2 = (n : ℤ) by omega, show ((n + 1 : ℕ) : ℤ) - 1 = (n : ℤ) by omega,
    bezierDeBoor_eq R H (n + 2) t n (n + 3) _ (by omega) (by omega),
    bezierDeBoor_eq R H (n + 1) t n (n + 2) _ (by omega) (by omega)]
  congr 1
  refine tri_congr _ _ _ n n fun j hj => ?_
  funext l
  simp only [if_pos (by omega : j < n + 1), if_pos (by omega : j < n + 2),
    if_pos (by omega : j + 1 < n + 2), firstCoef]

/-- The exact second differences. -/
theorem exact2nd_eq {V : Type} [AddCommGroup V] [Module K V] (n : ℕ) (P : ℕ → V) (t : K) :
    Bezier.evaluate2ndDerivative { ctrl := arr (n + 3) P } t
      = ok (∑ k ∈ range (n + 1), bernstein n k t • (((n + 1 : ℕ) : K) •
          (((n + 2 : ℕ) : K) • (P (k + 2) - P (k + 1)) - ((n + 2 : ℕ) : K) • (P (k + 1) - P k)))) := by
  rw [Bezier.evaluate2ndDerivative_arr]
  have h := Bezier.evaluateDerivative_arr n (BSpline.diffQ (K := K) (n + 2) P) t
  rw [deriv_bern, BSpline.umb_diffQ] at h
  rw [show lin t ^ n * (Polynomial.X - 1) ^ 2 = (Polynomial.X - 1) * (lin t ^ n * (Polynomial.X - 1)) by ring,
    mul_comm, ← smul_smul]
  have e : ∀ x : V, ((n + 2 : ℕ) : K) • x = ((n : K) + 2) • x := fun x => by push_cast; rfl
  rw [← e, ← ok.inj h]
  rfl

/-- The error of the rounded first differences. -/
def firstErr (R : Rounding K) (T ν : K) : K := ((1 + R.unit) ^ 2 - 1) * (T + ν) + ν

theorem firstCoef_err (R : Rounding K) (d : ℕ) (Q : ℕ → ι → K) (A : ℕ → K) (i : ι) (j : ℕ) {T ν : K}
    (hT : |(d : K) * (A (j + 1) - A j)| ≤ T)
    (hν : |(d : K) * (Q (j + 1) i - Q j i - (A (j + 1) - A j))| ≤ ν) :
    |firstCoef R d Q j i - (d : K) * (A (j + 1) - A j)| ≤ firstErr R T ν := by
  have h := deriv_coef_err R (d : K) (Q (j + 1) i) (Q j i)
  have a := abs_add_le ((d : K) * (A (j + 1) - A j)) ((d : K) * (Q (j + 1) i - Q j i - (A (j + 1) - A j)))
  rw [← mul_add, add_sub_cancel] at a
  have g : 0 ≤ (1 + R.unit) ^ 2 - 1 := by
    have := one_le_pow₀ (n := 2) (by linarith [R.unit_nonneg] : 1 ≤ 1 + R.unit)
    linarith
  have h2 := mul_le_mul_of_nonneg_left (a.trans (add_le_add hT hν)) g
  have b := abs_add_le (firstCoef R d Q j i - (d : K) * (Q (j + 1) i - Q j i))
    ((d : K) * (Q (j + 1) i - Q j i - (A (j + 1) - A j)))
  rw [show firstCoef R d Q j i - (d : K) * (Q (j + 1) i - Q j i)
    + (d : K) * (Q (j + 1) i - Q j i - (A (j + 1) - A j))
    = firstCoef R d Q j i - (d : K) * (A (j + 1) - A j) by ring] at b
  unfold firstErr
  unfold firstCoef at b ⊢
  linarith

/-- The second derivative of a rounded Bézier curve whose points are already perturbed. -/
theorem bezier_deriv2_axis (R : Rounding K) (H : ℕ → ℕ → ι → Fuse) (n : ℕ) (Q : ℕ → ι → K) {t : K}
    (h0 : 0 ≤ t) (h1 : t ≤ 1) :
    ∃ q, bezier2ndDerivative R H { ctrl := arr (n + 3) Q } t = ok q ∧ ∀ i (A : ℕ → K) (T T2 ν : K),
      (∀ k ≤ n + 1, |((n + 2 : ℕ) : K) * (A (k + 1) - A k)| ≤ T) →
      (∀ k ≤ n + 1, |((n + 2 : ℕ) : K) * (Q (k + 1) i - Q k i - (A (k + 1) - A k))| ≤ ν) →
      (∀ k ≤ n, |((n + 1 : ℕ) : K) * (((n + 2 : ℕ) : K) * (A (k + 2) - A (k + 1))
        - ((n + 2 : ℕ) : K) * (A (k + 1) - A k))| ≤ T2) →
      |q i - ∑ k ∈ range (n + 1), bernstein n k t * (((n + 1 : ℕ) : K) *
          (((n + 2 : ℕ) : K) * (A (k + 2) - A (k + 1)) - ((n + 2 : ℕ) : K) * (A (k + 1) - A k)))|
          ≤ ((1 + R.unit) ^ (3 * n + 2) - 1) * (T2 + 2 * (n + 1 : ℕ) * firstErr R T ν)
            + 2 * (n + 1 : ℕ) * firstErr R T ν ∧
        |∑ k ∈ range (n + 1), bernstein n k t * (((n + 1 : ℕ) : K) *
          (((n + 2 : ℕ) : K) * (A (k + 2) - A (k + 1)) - ((n + 2 : ℕ) : K) * (A (k + 1) - A k)))| ≤ T2 := by
  obtain ⟨q, hq, H'⟩ := bezier_deriv_axis R H n (firstCoef R (n + 2) Q) h0 h1
  refine ⟨q, by rw [bezier2nd_eq, hq], fun i A T T2 ν hT hν hT2 => ?_⟩
  refine H' i (fun k => ((n + 2 : ℕ) : K) * (A (k + 1) - A k)) T2 _ hT2 fun k hk => ?_
  have a1 := firstCoef_err R (n + 2) Q A i (k + 1) (hT _ (by omega)) (hν _ (by omega))
  have a0 := firstCoef_err R (n + 2) Q A i k (hT _ (by omega)) (hν _ (by omega))
  rw [abs_mul, abs_of_nonneg (by positivity : (0 : K) ≤ ((n + 1 : ℕ) : K))]
  have tri : |firstCoef R (n + 2) Q (k + 1) i - firstCoef R (n + 2) Q k i
      - (((n + 2 : ℕ) : K) * (A (k + 1 + 1) - A (k + 1)) - ((n + 2 : ℕ) : K) * (A (k + 1) - A k))|
      ≤ 2 * firstErr R T ν := by
    rw [abs_le] at a0 a1 ⊢
    constructor <;> linarith [a0.1, a0.2, a1.1, a1.2]
  calc _ ≤ ((n + 1 : ℕ) : K) * (2 * firstErr R T ν) := mul_le_mul_of_nonneg_left tri (by positivity)
    _ = _ := by ring

/-- **C113**: the second derivative of a Bézier curve of degree `n + 2` on the unit interval.  `T` and
`T2` bound the control points of the first and of the second derivative: the rounding errors of the
first differences are differenced again. -/
theorem C113_bezier_second_error (R : Rounding K) (H : ℕ → ℕ → ι → Fuse) (n : ℕ) (P : ℕ → ι → K) {t : K}
    (h0 : 0 ≤ t) (h1 : t ≤ 1) :
    ∃ q e, bezier2ndDerivative R H { ctrl := arr (n + 3) P } t = ok q ∧
      Bezier.evaluate2ndDerivative { ctrl := arr (n + 3) P } t = ok e ∧ ∀ i T T2,
      (∀ k ≤ n + 1, |((n + 2 : ℕ) : K) * (P (k + 1) i - P k i)| ≤ T) →
      (∀ k ≤ n, |((n + 1 : ℕ) : K) * (((n + 2 : ℕ) : K) * (P (k + 2) i - P (k + 1) i)
        - ((n + 2 : ℕ) : K) * (P (k + 1) i - P k i))| ≤ T2) →
      |q i - e i| ≤ ((1 + R.unit) ^ (3 * n + 2) - 1)
          * (T2 + 2 * (n + 1 : ℕ) * (((1 + R.unit) ^ 2 - 1) * T))
        + 2 * (n + 1 : ℕ) * (((1 + R.unit) ^ 2 - 1) * T) := by
  obtain ⟨q, hq, H'⟩ := bezier_deriv2_axis R H n P h0 h1
  refine ⟨q, _, hq, exact2nd_eq n P t, fun i T T2 hT hT2 => ?_⟩
  have := (H' i (fun k => P k i) T T2 0 hT (fun k _ => by simp) hT2).1
  simp only [firstErr, add_zero] at this
  simpa only [Finset.sum_apply, Pi.smul_apply, Pi.sub_apply, smul_eq_mul] using this

/-! ### The fixed degrees -/

/-- **C113**: the derivative of the class of degree one is correctly rounded. -/
theorem C113_degree1 (R : Rounding K) (p0 p1 : ι → K) (t : K) :
    ∃ q e, bezierDerivative1 R { ctrl := [p0, p1] } t = ok q ∧
      Bezier.evaluateDerivative1 { ctrl := [p0, p1] } t = ok e ∧ ∀ i, q i = R.rnd (e i) :=
  ⟨_, _, rfl, rfl, fun _ => rfl⟩

/-- **C113**: the derivatives of the class of degree two: the errors are relative to the control
points `M`, not to their differences. -/
theorem C113_degree2 (R : Rounding K) (F : ℕ → ι → Fuse) (f : ι → Bool) (p0 p1 p2 : ι → K) {t : K}
    (h0 : 0 ≤ t) (h1 : t ≤ 1) :
    ∃ q e q' e', bezierDerivative2 R F { ctrl := [p0, p1, p2] } t = ok q ∧
      Bezier.evaluateDerivative2 { ctrl := [p0, p1, p2] } t = ok e ∧
      bezier2ndDerivative2 R f { ctrl := [p0, p1, p2] } t = ok q' ∧
      Bezier.evaluate2ndDerivative2 { ctrl := [p0, p1, p2] } t = ok e' ∧
      ∀ i M, |p0 i| ≤ M → |p1 i| ≤ M → |p2 i| ≤ M →
        |q i - e i| ≤ ((1 + R.unit) ^ 5 - 1) * (4 * M) ∧
        |q' i - e' i| ≤ ((1 + R.unit) ^ 3 - 1) * (8 * M) := by
  refine ⟨_, _, _, _, rfl, rfl, rfl, rfl, fun i M m0 m1 m2 => ?_⟩
  have b : ∀ {x : K}, |x| ≤ M → Maj x x M (1 * M) := fun h => by rw [one_mul]; exact Maj.refl h
  have two : Maj (2 : K) 2 2 2 := Maj.refl (by norm_num)
  constructor
  · have l0 := Maj.lerp R (F 0 i) h0 h1 (b m0) (b m1)
    have l1 := Maj.lerp R (F 1 i) h0 h1 (b m1) (b m2)
    have := ((two.mul ((l1.sub l0).rnd R)).rnd R).err
    rw [mul_comm (2 : K) (R.rnd _)] at this
    refine this.trans (le_of_eq ?_)
    ring
  · have c := ((b m0).add (b m2)).rnd R
    have := ((two.mul (Maj.subMul R (f i) c two (b m1))).rnd R).err
    refine this.trans (le_of_eq ?_)
    ring

/-- **C113**: the derivatives of the class of degree three. -/
theorem C113_degree3 (R : Rounding K) (F : ℕ → ι → Fuse) (f : ι → Bool) (p0 p1 p2 p3 : ι → K) {t : K}
    (h0 : 0 ≤ t) (h1 : t ≤ 1) :
    ∃ q e q' e', bezierDerivative3 R F { ctrl := [p0, p1, p2, p3] } t = ok q ∧
      Bezier.evaluateDerivative3 { ctrl := [p0, p1, p2, p3] } t = ok e ∧
      bezier2ndDerivative3 R F f { ctrl := [p0, p1, p2, p3] } t = ok q' ∧
      Bezier.evaluate2ndDerivative3 { ctrl := [p0, p1, p2, p3] } t = ok e' ∧
      ∀ i M, |p0 i| ≤ M → |p1 i| ≤ M → |p2 i| ≤ M → |p3 i| ≤ M →
        |q i - e i| ≤ ((1 + R.unit) ^ 8 - 1) * (6 * M) ∧
        |q' i - e' i| ≤ ((1 + R.unit) ^ 6 - 1) * (24 * M) := by
  refine ⟨_, _, _, _, rfl, rfl, rfl, rfl, fun i M m0 m1 m2 m3 => ?_⟩
  have b : ∀ {x : K}, |x| ≤ M → Maj x x M (1 * M) := fun h => by rw [one_mul]; exact Maj.refl h
  have two : Maj (2 : K) 2 2 2 := Maj.refl (by norm_num)
  have three : Maj (3 : K) 3 3 3 := Maj.refl (by norm_num)
  have six : Maj (6 : K) 6 6 6 := Maj.refl (by norm_num)
  have l0 := Maj.lerp R (F 0 i) h0 h1 (b m0) (b m1)
  have l1 := Maj.lerp R (F 1 i) h0 h1 (b m1) (b m2)
  have l2 := Maj.lerp R (F 2 i) h0 h1 (b m2) (b m3)
  constructor
  · have k0 := Maj.lerp R (F 3 i) h0 h1 l0 l1
    have k1 := Maj.lerp R (F 4 i) h0 h1 l1 l2
    have := ((three.mul ((k1.sub k0).rnd R)).rnd R).err
    rw [mul_comm (3 : K) (R.rnd _)] at this
    refine this.trans (le_of_eq ?_)
    ring
  · have := ((six.mul (Maj.subMul R (f i) ((l0.add l2).rnd R) two l1)).rnd R).err
    refine this.trans (le_of_eq ?_)
    ring

/-! ### Rational curves -/

/-- The error of the rounded formula for the second derivative of a quotient; the arguments are as in
`derivBound`, followed by the bounds and the errors of the second derivatives of the numerator and
of the weight. -/
def deriv2Bound (R : Rounding K) (b M a D x S y D2 x2 S2 y2 : K) : K :=
  (1 + R.unit) / (1 - b) * ((1 + R.unit) *
      ((1 + R.unit) * (D2 + x2 + (1 + R.unit) * ((S2 + y2) * ((1 + R.unit) / (1 - b) * (M + a))))
        + (1 + R.unit) * ((1 + R.unit) * (2 * (S + y)) * (D + M * S + derivBound R b M a D x S y))))
    - (D2 + S2 * M + 2 * S * (D + M * S))

theorem deriv2Quotient_err (R : Rounding K) (f g : ι → Bool) {x d1 d2 : Option ι → K}
    {W b E S y E2 S2 y2 : K} (hW : 0 < W) (hw : |x none - W| ≤ b * W) (hb : b < 1) (hE : |E| ≤ S * W)
    (hd : |d1 none - E| ≤ y * W) (hE2 : |E2| ≤ S2 * W) (hd2 : |d2 none - E2| ≤ y2 * W) :
    ∃ q, deriv2Quotient R f g x d1 d2 = ok q ∧ ∀ i N D D2 M a T z T2 z2, |N| ≤ M * W →
      |x (some i) - N| ≤ a * W → |D| ≤ T * W → |d1 (some i) - D| ≤ z * W → |D2| ≤ T2 * W →
      |d2 (some i) - D2| ≤ z2 * W →
      |q i - W⁻¹ * (D2 - E2 * (W⁻¹ * N) - 2 * E * (W⁻¹ * (D - W⁻¹ * (E * N))))|
        ≤ deriv2Bound R b M a T z S y T2 z2 S2 y2 := by
  obtain ⟨hpos, hi⟩ := Maj.inv hW hb hw
  obtain ⟨c1, e1, H1⟩ := derivQuotient_err R (d := d1) hW hw hb hE hd
  refine ⟨_, by unfold deriv2Quotient; rw [assert_true hpos.ne', ok_bind, e1, ok_bind]; rfl, ?_⟩
  intro i N D D2 M a T z T2 z2 hN hxN hD hdD hD2 hdD2
  have hW' := hW.ne'
  have hb' : 1 - b ≠ 0 := by linarith
  have mN : Maj (x (some i)) N (M * W) (M * W + a * W) := ⟨hN, by linarith⟩
  have mE : Maj (d1 none) E (S * W) (S * W + y * W) := ⟨hE, by linarith⟩
  have mE2 : Maj (d2 none) E2 (S2 * W) (S2 * W + y2 * W) := ⟨hE2, by linarith⟩
  have mD2 : Maj (d2 (some i)) D2 (T2 * W) (T2 * W + z2 * W) := ⟨hD2, by linarith⟩
  have two : Maj (2 : K) 2 2 2 := Maj.refl (by norm_num)
  have m0 := (hi.mul mN).rnd R
  have m1 : Maj (c1 i) (W⁻¹ * (D - W⁻¹ * (E * N))) (T + M * S) (T + M * S + derivBound R b M a T z S y) := by
    refine ⟨?_, by have := H1 i N D M a T z hN hxN hD hdD; linarith⟩
    rw [abs_mul, abs_of_pos (inv_pos.2 hW)]
    have k : |D - W⁻¹ * (E * N)| ≤ (T + M * S) * W := by
      refine (abs_sub _ _).trans ?_
      rw [abs_mul, abs_of_pos (inv_pos.2 hW), abs_mul]
      have := mul_le_mul hE hN (abs_nonneg _) ((abs_nonneg _).trans hE)
      have := mul_le_mul_of_nonneg_left this (inv_pos.2 hW).le
      have e : W⁻¹ * (S * W * (M * W)) = M * S * W := by field_simp
      rw [e] at this
      linarith
    calc _ ≤ W⁻¹ * ((T + M * S) * W) := mul_le_mul_of_nonneg_left k (inv_pos.2 hW).le
      _ = _ := by field_simp
  have m2 := Maj.subMul R (f i) mD2 mE2 m0
  have m3 := Maj.subMul R (g i) m2 ((two.mul mE).rnd R) m1
  have h := ((m3.mul hi).rnd R).err
  simp only [div_eq_mul_inv]
  rw [show W⁻¹ * (D2 - E2 * (W⁻¹ * N) - 2 * E * (W⁻¹ * (D - W⁻¹ * (E * N))))
      = (D2 - E2 * (W⁻¹ * N) - 2 * E * (W⁻¹ * (D - W⁻¹ * (E * N)))) * W⁻¹ by ring,
    mul_comm (x (some i))]
  refine h.trans (le_of_eq ?_)
  unfold deriv2Bound
  generalize derivBound R b M a T z S y = B1
  field_simp

/-- **C113**: the second derivative of a rational Bézier curve of degree `n + 2` with weights between
`lo` and `hi`, `0 < lo`, on the unit interval.  `M` bounds the control points, `S`, `T` and `S2`, `T2`
the control points of the first and second exact derivatives of the weight and of the numerator. -/
theorem C113_rational_second_error (R : Rounding K) (F G H : ℕ → ℕ → Option ι → Fuse) (f g : ι → Bool)
    {c : RationalBezier K (ι → K)} (hinit : c.init = ok c) {n : ℕ} (hn : c.base.ctrl.length = n + 3)
    (hper : c.base.periodic = false) {lo hi : K} (hlo : 0 < lo)
    (hwt : ∀ x ∈ c.weights, lo ≤ x ∧ x ≤ hi) (hcond : (1 + R.unit) ^ (3 * (n + 2)) < 2) {t : K}
    (h0 : 0 ≤ t) (h1 : t ≤ 1) {S S2 : K}
    (hS : ∀ j ≤ n + 1, |((n + 2 : ℕ) : K) * (c.weights.getD (j + 1) 0 - c.weights.getD j 0)| ≤ S)
    (hS2 : ∀ j ≤ n, |((n + 1 : ℕ) : K) *
      (((n + 2 : ℕ) : K) * (c.weights.getD (j + 2) 0 - c.weights.getD (j + 1) 0)
        - ((n + 2 : ℕ) : K) * (c.weights.getD (j + 1) 0 - c.weights.getD j 0))| ≤ S2) :
    ∃ q e, rational2ndDerivative R F G H f g c.base.ctrl c.weights c.base.periodic t = ok q ∧
      c.evaluate2ndDerivative t = ok e ∧ ∀ i M T T2, (∀ x ∈ c.base.ctrl, |x i| ≤ M) →
        (∀ j ≤ n + 1, |((n + 2 : ℕ) : K) * (c.weights.getD (j + 1) 0 * c.base.ctrl.getD (j + 1) 0 i
            - c.weights.getD j 0 * c.base.ctrl.getD j 0 i)| ≤ T) →
        (∀ j ≤ n, |((n + 1 : ℕ) : K) *
          (((n + 2 : ℕ) : K) * (c.weights.getD (j + 2) 0 * c.base.ctrl.getD (j + 2) 0 i
              - c.weights.getD (j + 1) 0 * c.base.ctrl.getD (j + 1) 0 i)
            - ((n + 2 : ℕ) : K) * (c.weights.getD (j + 1) 0 * c.base.ctrl.getD (j + 1) 0 i
              - c.weights.getD j 0 * c.base.ctrl.getD j 0 i))| ≤ T2) →
        |q i - e i| ≤ deriv2Bound R ((1 + R.unit) ^ (3 * (n + 2)) - 1) M
          (((1 + R.unit) ^ (3 * (n + 2) + 1) - 1) * M) (T / lo)
          ((((1 + R.unit) ^ (3 * (n + 1) + 2) - 1) * (T + 2 * (n + 2 : ℕ) * R.unit * (hi * M))
            + 2 * (n + 2 : ℕ) * R.unit * (hi * M)) / lo)
          (S / lo) (((1 + R.unit) ^ (3 * (n + 1) + 2) - 1) * S / lo)
          (T2 / lo)
          ((((1 + R.unit) ^ (3 * n + 2) - 1)
              * (T2 + 2 * (n + 1 : ℕ) * firstErr R T (2 * (n + 2 : ℕ) * R.unit * (hi * M)))
            + 2 * (n + 1 : ℕ) * firstErr R T (2 * (n + 2 : ℕ) * R.unit * (hi * M))) / lo)
          (S2 / lo)
          ((((1 + R.unit) ^ (3 * n + 2) - 1) * (S2 + 2 * (n + 1 : ℕ) * firstErr R S 0)
            + 2 * (n + 1 : ℕ) * firstErr R S 0) / lo) := by
  obtain ⟨Sy, -, -⟩ := (RationalBezier.init_iff _ _).1 hinit
  have hlen := Sy.len
  have hu := R.unit_nonneg
  set P := c.base.ctrl with hPd
  set w := c.weights with hwd
  have hwj : ∀ j < n + 3, lo ≤ w.getD j 0 ∧ w.getD j 0 ≤ hi := by
    intro j hj
    rw [getD_of_lt _ (by omega)]
    exact hwt _ (List.getElem_mem _)
  have hQl : (homPts R P w).length = n + 3 := by rw [homPts_length R P w hlen, hn]
  have hQ : homPts R P w = arr (n + 3) fun j => (homPts R P w).getD j 0 := by
    rw [← hQl]; exact eq_arr _ 0
  -- the exact homogeneous value and derivatives
  have hH : homog P w = arr (n + 3) fun j => (w.getD j 0 • P.getD j 0, w.getD j 0) := by
    have e := eq_arr (homog P w) 0
    rw [homog_length hlen, hn] at e
    rw [e]
    congr 1
    funext j
    exact homog_getD j hlen
  set W := bern (n + 2) (fun j => w.getD j 0) t with hW
  set N : ι → K := fun i => bern (n + 2) (fun j => w.getD j 0 * P.getD j 0 i) t with hN
  set E := ∑ k ∈ range (n + 2), bernstein (n + 1) k t
    * (((n + 2 : ℕ) : K) * (w.getD (k + 1) 0 - w.getD k 0)) with hE
  set D : ι → K := fun i => ∑ k ∈ range (n + 2), bernstein (n + 1) k t *
    (((n + 2 : ℕ) : K) * (w.getD (k + 1) 0 * P.getD (k + 1) 0 i - w.getD k 0 * P.getD k 0 i)) with hD
  set E2 := ∑ k ∈ range (n + 1), bernstein n k t * (((n + 1 : ℕ) : K) *
    (((n + 2 : ℕ) : K) * (w.getD (k + 2) 0 - w.getD (k + 1) 0)
      - ((n + 2 : ℕ) : K) * (w.getD (k + 1) 0 - w.getD k 0))) with hE2
  set D2 : ι → K := fun i => ∑ k ∈ range (n + 1), bernstein n k t * (((n + 1 : ℕ) : K) *
    (((n + 2 : ℕ) : K) * (w.getD (k + 2) 0 * P.getD (k + 2) 0 i - w.getD (k + 1) 0 * P.getD (k + 1) 0 i)
      - ((n + 2 : ℕ) : K) * (w.getD (k + 1) 0 * P.getD (k + 1) 0 i - w.getD k 0 * P.getD k 0 i))) with hD2
  have ehom : c.hom = { ctrl := arr (n + 3) fun j => (w.getD j 0 • P.getD j 0, w.getD j 0) } := by
    rw [Sy.hom, hper, ← hPd, ← hwd, hH]
  have ex' : c.hom.evaluate t = ok (N, W) := by
    rw [ehom, Bezier.evaluate_arr, umb_lin_pow]
    congr 1
    ext i
    · simp [hN, bern, Prod.fst_sum, Finset.sum_apply]
    · simp [hW, bern, Prod.snd_sum]
  have ee' : c.hom.evaluateDerivative t = ok (D, E) := by
    rw [ehom, deriv_bern (n + 1)]
    congr 1
    ext i
    · simp only [hD, Prod.fst_sum, Finset.sum_apply, Prod.smul_fst, Prod.fst_sub, Pi.smul_apply,
        Pi.sub_apply, smul_eq_mul]
    · simp only [hE, Prod.snd_sum, Prod.smul_snd, Prod.snd_sub, smul_eq_mul]
  have ee2 : c.hom.evaluate2ndDerivative t = ok (D2, E2) := by
    rw [ehom, exact2nd_eq]
    congr 1
    ext i
    · simp only [hD2, Prod.fst_sum, Finset.sum_apply, Prod.smul_fst, Prod.fst_sub, Pi.smul_apply,
        Pi.sub_apply, smul_eq_mul]
    · simp only [hE2, Prod.snd_sum, Prod.smul_snd, Prod.snd_sub, smul_eq_mul]
  have hb : ∀ k, 0 ≤ bernstein (n + 2) k t := fun k => by
    unfold bernstein
    have : 0 ≤ 1 - t := by linarith
    positivity
  have hWlo : lo ≤ W := by
    calc lo = ∑ k ∈ range (n + 2 + 1), bernstein (n + 2) k t * lo := by
          rw [← sum_mul, bernstein_sum, one_mul]
      _ ≤ W := sum_le_sum fun k hk => mul_le_mul_of_nonneg_left
          (hwj k (by have := mem_range.1 hk; omega)).1 (hb k)
  have hWpos : 0 < W := lt_of_lt_of_le hlo hWlo
  have eex : c.evaluate2ndDerivative t
      = ok (W⁻¹ • (D2 - E2 • (W⁻¹ • N) - (2 * E) • (W⁻¹ • (D - W⁻¹ • (E • N))))) := by
    unfold RationalBezier.evaluate2ndDerivative
    rw [Sy.validate, ok_bind, ex', ok_bind, ee', ok_bind, ee2, ok_bind]
    unfold quot2
    rw [assert_true hWpos.ne', ok_bind]
    rfl
  -- the rounded ones
  obtain ⟨x, ex, HX⟩ := bezier_axis R F (n + 2) (fun j => (homPts R P w).getD j 0) false
    (t := t) (t' := t) (by simp [bezierWrap]) h0 h1
  obtain ⟨d, ed, HD⟩ := bezier_deriv_axis R G (n + 1) (fun j => (homPts R P w).getD j 0) h0 h1
  obtain ⟨d2, ed2, HD2⟩ := bezier_deriv2_axis R H n (fun j => (homPts R P w).getD j 0) h0 h1
  rw [← hQ] at ex ed ed2
  have en := (HX none 1 (fun j => w.getD j 0) (fun j => w.getD j 0) le_rfl
    (fun j hj => le_of_eq (abs_of_nonneg (by have := hwj j (by omega); linarith)))
    (fun j _ => by rw [sub_self, zero_mul, homPts_none R _ _ hlen, sub_self, abs_zero])).1
  rw [one_mul, ← hW] at en
  have scale : ∀ {z : K}, 0 ≤ z → z ≤ z / lo * W := by
    intro z hz
    rw [div_mul_eq_mul_div, le_div_iff₀ hlo]
    exact mul_le_mul_of_nonneg_left hWlo hz
  have scale' : ∀ {y z : K}, |y| ≤ z → |y| ≤ z / lo * W := fun h => h.trans (scale ((abs_nonneg _).trans h))
  obtain ⟨dn, en'⟩ := HD none (fun j => w.getD j 0) S 0 hS
    (fun j _ => by rw [homPts_none R _ _ hlen, homPts_none R _ _ hlen, sub_self, mul_zero, abs_zero])
  simp only [add_zero] at dn
  obtain ⟨dn2, en2⟩ := HD2 none (fun j => w.getD j 0) S S2 0 hS
    (fun j _ => by rw [homPts_none R _ _ hlen, homPts_none R _ _ hlen, sub_self, mul_zero, abs_zero]) hS2
  obtain ⟨q, eq, hq⟩ := deriv2Quotient_err R f g (d1 := d) (d2 := d2) hWpos en (by linarith)
    (E := E) (scale' en') (scale' dn) (E2 := E2) (scale' en2) (scale' dn2)
  refine ⟨q, _, ?_, eex, fun i M T T2 hM hT hT2 => ?_⟩
  · unfold rational2ndDerivative
    rw [homogenize_eq R _ _ hlen, ok_bind, hper, ex, ok_bind, ed, ok_bind, ed2, ok_bind, eq]
  · have hPj : ∀ j < n + 3, |P.getD j 0 i| ≤ M := by
      intro j hj
      rw [getD_of_lt _ (by omega)]
      exact hM _ (List.getElem_mem _)
    have hprodM : ∀ j < n + 3, |w.getD j 0 * P.getD j 0 i| ≤ M * w.getD j 0 := by
      intro j hj
      have := hwj j hj
      rw [abs_mul, abs_of_pos (lt_of_lt_of_le hlo this.1), mul_comm]
      exact mul_le_mul_of_nonneg_right (hPj j hj) (by linarith)
    have hM0 : 0 ≤ M := (abs_nonneg _).trans (hPj 0 (by omega))
    have near : ∀ j, |(homPts R P w).getD j 0 (some i) - w.getD j 0 * P.getD j 0 i|
        ≤ R.unit * |w.getD j 0 * P.getD j 0 i| := by
      intro j
      rw [homPts_some R _ _ hlen, mul_comm (w.getD j 0)]
      exact R.near _
    have hprod : ∀ j < n + 3, |(homPts R P w).getD j 0 (some i) - w.getD j 0 * P.getD j 0 i|
        ≤ R.unit * (hi * M) := by
      intro j hj
      refine (near j).trans (mul_le_mul_of_nonneg_left ((hprodM j hj).trans ?_) hu)
      rw [mul_comm]
      exact mul_le_mul_of_nonneg_right (hwj j hj).2 hM0
    obtain ⟨es, bs⟩ := HX (some i) (1 + R.unit) (fun j => w.getD j 0 * P.getD j 0 i)
      (fun j => M * w.getD j 0) (by linarith) (fun j hj => hprodM j (by omega))
      (fun j hj => by
        rw [add_sub_cancel_left]
        exact (near j).trans (mul_le_mul_of_nonneg_left (hprodM j (by omega)) hu))
    have eM : bern (n + 2) (fun j => M * w.getD j 0) t = M * W := by
      rw [hW, bern, bern, mul_sum]
      exact sum_congr rfl fun k _ => by ring
    rw [eM] at es bs
    rw [← pow_succ'] at es
    have noise : ∀ k ≤ n + 1, |((n + 2 : ℕ) : K) * ((homPts R P w).getD (k + 1) 0 (some i)
        - (homPts R P w).getD k 0 (some i)
        - (w.getD (k + 1) 0 * P.getD (k + 1) 0 i - w.getD k 0 * P.getD k 0 i))|
        ≤ 2 * (n + 2 : ℕ) * R.unit * (hi * M) := by
      intro k hk
      have a1 := hprod (k + 1) (by omega)
      have a0 := hprod k (by omega)
      rw [abs_mul, abs_of_nonneg (by positivity : (0 : K) ≤ ((n + 2 : ℕ) : K))]
      have tri : |(homPts R P w).getD (k + 1) 0 (some i) - (homPts R P w).getD k 0 (some i)
          - (w.getD (k + 1) 0 * P.getD (k + 1) 0 i - w.getD k 0 * P.getD k 0 i)|
          ≤ 2 * (R.unit * (hi * M)) := by
        rw [abs_le] at a0 a1 ⊢
        constructor <;> linarith [a0.1, a0.2, a1.1, a1.2]
      calc _ ≤ ((n + 2 : ℕ) : K) * (2 * (R.unit * (hi * M))) :=
            mul_le_mul_of_nonneg_left tri (by positivity)
        _ = _ := by ring
    obtain ⟨ds, ds'⟩ := HD (some i) (fun j => w.getD j 0 * P.getD j 0 i) T
      (2 * (n + 2 : ℕ) * R.unit * (hi * M)) hT noise
    obtain ⟨ds2, ds2'⟩ := HD2 (some i) (fun j => w.getD j 0 * P.getD j 0 i) T T2
      (2 * (n + 2 : ℕ) * R.unit * (hi * M)) hT noise hT2
    have := hq i (N i) (D i) (D2 i) M _ (T / lo) _ (T2 / lo) _ bs
      (es.trans (le_of_eq (mul_assoc _ _ _).symm)) (scale' ds') (scale' ds) (scale' ds2') (scale' ds2)
    simpa only [Pi.smul_apply, Pi.sub_apply, smul_eq_mul] using this

/-! ### B-splines -/

/-- The control points of the first derivative of a B-spline of degree `p + 2`. -/
def firstQuot (u : List K) (p : ℕ) (a : ℕ → K) (j : ℕ) : K :=
  ((p + 2 : ℕ) : K) / (knot u (j + p + 3) - knot u (j + 1)) * (a (j + 1) - a j)

/-- The rounded second derivative of a spline whose control points are perturbations of `A`. -/
theorem bspline_deriv2_axis (R : Rounding K) (hu1 : R.unit < 1) (F : ℕ → ℕ → ι → Fuse)
    {c : BSpline K (ι → K)} {p : ℕ} (hc : BSpline.WellFormed c (p + 2)) (hper : c.periodic = false)
    (hw : FlWide R c (p + 2)) (A : List (ι → K)) (hA : A.length = c.ctrl.length) {t : K}
    (hf : BSpline.FirstSpan c (p + 2) ∨ knot c.knots (p + 2) < t)
    (h1 : knot c.knots (p + 2) ≤ t) (h2 : t ≤ knot c.knots c.ctrl.length) {δ : K} (hδ : 0 < δ)
    (hgap : ∀ j, j + 2 < c.ctrl.length → δ ≤ knot c.knots (j + p + 3) - knot c.knots (j + 2)) :
    ∃ q e, bspline2ndDerivative R F c t = ok q ∧
      (BSpline.mk A c.knots c.periodic c.sdeg).evaluate2ndDerivative t = ok e ∧ ∀ i T N T2,
      (∀ j, j + 1 < c.ctrl.length → |firstQuot c.knots p (fun j => A.getD j 0 i) j| ≤ T) →
      (∀ j, j + 1 < c.ctrl.length → |firstQuot c.knots p (fun j => c.ctrl.getD j 0 i) j
          - firstQuot c.knots p (fun j => A.getD j 0 i) j| ≤ N) →
      (∀ j, j + 2 < c.ctrl.length → |((p + 1 : ℕ) : K) * (firstQuot c.knots p (fun j => A.getD j 0 i) (j + 1)
          - firstQuot c.knots p (fun j => A.getD j 0 i) j)|
        ≤ T2 * (knot c.knots (j + p + 3) - knot c.knots (j + 2))) →
      |q i - e i| ≤ (diffGrowth R * growth R ^ p - 1)
            * (T2 + 2 * (p + 1 : ℕ) * ((diffGrowth R - 1) * (T + N) + N) / δ)
          + 2 * (p + 1 : ℕ) * ((diffGrowth R - 1) * (T + N) + N) / δ ∧ |e i| ≤ T2 := by
  have hl := hc.len
  have hn := hc.ctrl
  have wrap : bsplineWrap R c t = ok t := by simp [bsplineWrap, hper]
  obtain ⟨k, Q, hk, hin⟩ := BSpline.exists_atSpan hc t hf h1 h2
  have hlt := hk.lt
  have hle := hk.le
  have hwk := hw k hk.le hk.lt hk.ne
  have ht0 : 0 ≤ BSpline.tiny K := by unfold BSpline.tiny; positivity
  have hne := hk.ne
  have mono : ∀ m ≤ p + 2, ∀ i < m, knot c.knots (k + 1) - knot c.knots k
      ≤ knot c.knots (i + k + 1) - knot c.knots (i + k + 1 - m) := by
    intro m hm i hi
    have m1 := BSpline.knot_mono hc.sorted (i := i + k + 1 - m) (j := k) (by omega) (by omega)
    have m2 := BSpline.knot_mono hc.sorted (i := k + 1) (j := i + k + 1) (by omega) (by omega)
    linarith
  have pos : ∀ m ≤ p + 2, ∀ i < m, 0 < knot c.knots (i + k + 1) - knot c.knots (i + k + 1 - m) :=
    fun m hm i hi => lt_of_lt_of_le (by linarith) (mono m hm i hi)
  have rpos : ∀ m ≤ p + 2, ∀ i < m,
      0 < R.rnd (knot c.knots (i + k + 1) - knot c.knots (i + k + 1 - m)) :=
    fun m hm i hi => lt_of_lt_of_le (lt_of_le_of_lt (R.nonneg ht0) hwk) (R.mono _ _ (mono m hm i hi))
  set P : ℕ → ι → K := fun j => c.ctrl.getD (k - (p + 2) + j) 0 with hP
  set P0 : ℕ → ι → K := fun j => A.getD (k - (p + 2) + j) 0 with hP0
  -- exact first and second differences
  set A1 : ℕ → ι → K := fun i => if i < p + 2 then (((p + 2 : ℕ) : K)
      / (knot c.knots (i + k + 1) - knot c.knots (i + k + 1 - (p + 2)))) • (P0 (i + 1) - P0 i)
      else P0 i with hA1
  set A2 : ℕ → ι → K := fun i => if i < p + 1 then (((p + 1 : ℕ) : K)
      / (knot c.knots (i + k + 1) - knot c.knots (i + k + 1 - (p + 1)))) • (A1 (i + 1) - A1 i)
      else A1 i with hA2
  -- rounded first differences, exact and rounded differences of them
  set E1 : ℕ → ι → K := fun i => if i < p + 2 then
      fun l => R.rnd (R.rnd (((p + 2 : ℕ) : K)
        / R.rnd (knot c.knots (i + k + 1) - knot c.knots (i + k + 1 - (p + 2))))
          * R.rnd (P (i + 1) l - P i l))
      else P i with hE1
  set D2 : ℕ → ι → K := fun i => if i < p + 1 then (((p + 1 : ℕ) : K)
      / (knot c.knots (i + k + 1) - knot c.knots (i + k + 1 - (p + 1)))) • (E1 (i + 1) - E1 i)
      else E1 i with hD2
  set E2 : ℕ → ι → K := fun i => if i < p + 1 then
      fun l => R.rnd (R.rnd (((p + 1 : ℕ) : K)
        / R.rnd (knot c.knots (i + k + 1) - knot c.knots (i + k + 1 - (p + 1))))
          * R.rnd (E1 (i + 1) l - E1 i l))
      else E1 i with hE2
  have e1 : bspline2ndDerivative R F c t
      = ok (tri (stepB R F p (BSpline.loc (knot c.knots) k p) t) E2 p p) := by
    unfold bspline2ndDerivative
    rw [BSpline.validate_ok hc, ok_bind, wrap, ok_bind, hk.loc, ok_bind, BSpline.degree_eq hc,
      assert_true (by omega), ok_bind]
    simp only [Int.toNat_natCast]
    rw [if_neg (by omega), BSpline.spanCtrl_eq c (p + 2) k hk.le hk.lt, ok_bind,
      bsplineDerivCoef_arr R c (p + 2) k (p + 2 + 1) _ (by omega) hk.le (by omega) (rpos _ le_rfl),
      ok_bind, show p + 2 - 1 = p + 1 by omega,
      bsplineDerivCoef_arr R c (p + 1) k (p + 2 + 1) _ (by omega) (by omega) (by omega)
        (rpos _ (by omega)), ok_bind]
    exact bsplineDeBoor_eq R F c t p (p + 2 + 1) k _ (by omega)
      (by rw [BSpline.degree_eq hc]; omega) (by omega) (by omega)
  set c0 : BSpline K (ι → K) := BSpline.mk A c.knots c.periodic c.sdeg with hc0
  have hwf0 : BSpline.WellFormed c0 (p + 2) := ⟨by rw [hc0, hA]; exact hc.len, hc.sdeg,
    by rw [hc0, hA]; exact hc.ctrl, hc.sorted, by rw [hc0]; simp only [hA]; exact hc.dom⟩
  have hloc0 : c0.locateSpan t = ok (k : ℤ) := by
    rw [← hk.loc, hc0]
    unfold BSpline.locateSpan BSpline.degree
    simp only [hA]
  have hkn : c0.knots.length = c.knots.length := rfl
  have e2 : c0.evaluate2ndDerivative t
      = ok (dB p (BSpline.loc (knot c.knots) k p) (fun _ => t) A2 p p) := by
    unfold BSpline.evaluate2ndDerivative
    rw [BSpline.validate_ok hwf0, ok_bind, show c0.wrap t = ok t by simp [BSpline.wrap, hc0, hper],
      ok_bind, hloc0, ok_bind, BSpline.degree_eq hwf0, assert_true (by omega), ok_bind]
    simp only [Int.toNat_natCast]
    rw [if_neg (by omega), BSpline.spanCtrl_eq c0 (p + 2) k hk.le (by rw [hc0, hA]; exact hk.lt), ok_bind,
      BSpline.derivativeCoefficients_arr c0 (p + 2) k (p + 2 + 1) _ (by omega) hk.le hc.sorted
        (by omega) (by omega) hk.ne, ok_bind, show p + 2 - 1 = p + 1 by omega,
      BSpline.derivativeCoefficients_arr c0 (p + 1) k (p + 2 + 1) _ (by omega) (by omega) hc.sorted
        (by omega) (by omega) hk.ne, ok_bind]
    exact BSpline.deBoor_eq c0 t p (p + 2 + 1) k _ (by omega)
      (by rw [BSpline.degree_eq hwf0]; omega) (by omega) hc.sorted (by omega) (by omega)
      (hw.wide k hk.le hk.lt hk.ne)
  refine ⟨_, _, e1, e2, fun i T N T2 hT hN hT2 => ?_⟩
  have hdg := one_le_diffGrowth R hu1
  -- the local coefficients are those of the statement
  have glob : ∀ j ≤ p + 1, A1 j i = firstQuot c.knots p (fun j => A.getD j 0 i) (k - (p + 2) + j) := by
    intro j hj
    simp only [hA1, if_pos (by omega : j < p + 2), Pi.smul_apply, Pi.sub_apply, smul_eq_mul, firstQuot, hP0]
    rw [show k - (p + 2) + j + p + 3 = j + k + 1 by omega,
      show k - (p + 2) + j + 1 = j + k + 1 - (p + 2) by omega,
      show k - (p + 2) + (j + 1) = j + k + 1 - (p + 2) by omega]
  have err1 : ∀ j ≤ p + 1, |E1 j i - A1 j i| ≤ (diffGrowth R - 1) * (T + N) + N := by
    intro j hj
    rw [glob j hj]
    have hp := pos (p + 2) le_rfl j (by omega)
    set Z := firstQuot c.knots p (fun j => c.ctrl.getD j 0 i) (k - (p + 2) + j) with hZ
    have hZ' : Z = ((p + 2 : ℕ) : K) / (knot c.knots (j + k + 1) - knot c.knots (j + k + 1 - (p + 2)))
        * (P (j + 1) i - P j i) := by
      simp only [hZ, firstQuot, hP]
      rw [show k - (p + 2) + j + p + 3 = j + k + 1 by omega,
        show k - (p + 2) + j + 1 = j + k + 1 - (p + 2) by omega,
        show k - (p + 2) + (j + 1) = j + k + 1 - (p + 2) by omega]
    have a := diff_coef_err R hu1 (n := ((p + 2 : ℕ) : K)) (x := P (j + 1) i) (y := P j i) hp
    rw [← hZ'] at a
    have t1 := hT (k - (p + 2) + j) (by omega)
    have t2 := hN (k - (p + 2) + j) (by omega)
    rw [← hZ] at t2
    have t3 := abs_add_le (firstQuot c.knots p (fun j => A.getD j 0 i) (k - (p + 2) + j))
      (Z - firstQuot c.knots p (fun j => A.getD j 0 i) (k - (p + 2) + j))
    rw [add_sub_cancel] at t3
    have t4 := mul_le_mul_of_nonneg_left (t3.trans (add_le_add t1 t2)) (by linarith : 0 ≤ diffGrowth R - 1)
    have hEj : E1 j i = R.rnd (R.rnd (((p + 2 : ℕ) : K)
        / R.rnd (knot c.knots (j + k + 1) - knot c.knots (j + k + 1 - (p + 2))))
          * R.rnd (P (j + 1) i - P j i)) := by
      simp only [hE1, if_pos (by omega : j < p + 2)]
    rw [hEj]
    have t5 := abs_sub_le (R.rnd (R.rnd (((p + 2 : ℕ) : K)
        / R.rnd (knot c.knots (j + k + 1) - knot c.knots (j + k + 1 - (p + 2))))
          * R.rnd (P (j + 1) i - P j i))) Z
      (firstQuot c.knots p (fun j => A.getD j 0 i) (k - (p + 2) + j))
    linarith
  set ε := (diffGrowth R - 1) * (T + N) + N with hε
  have hε0 : 0 ≤ ε := (abs_nonneg _).trans (err1 0 (by omega))
  set ν := 2 * (p + 1 : ℕ) * ε / δ with hν
  have hb : knot c.knots k ≤ t ∧ t ≤ knot c.knots (k + 1) := by
    unfold InSpan at hin
    split_ifs at hin with ht
    · rw [hin.2]; exact ⟨by rw [ht, ← hin.2]; exact hin.1.le, h2⟩
    · exact ⟨hin.1, hin.2.le⟩
  have f1 : k - p + p = k := by omega
  have f2 : k - p + (p + 1) = k + 1 := by omega
  have bound0 : ∀ j ≤ p, |D2 j i - A2 j i| ≤ ν := by
    intro j hj
    have hp := pos (p + 1) (by omega) j (by omega)
    simp only [hD2, hA2, if_pos (by omega : j < p + 1), Pi.smul_apply, Pi.sub_apply, smul_eq_mul]
    rw [← mul_sub, div_mul_eq_mul_div, abs_div, abs_of_pos hp, div_le_iff₀ hp, abs_mul,
      abs_of_nonneg (by positivity : (0 : K) ≤ ((p + 1 : ℕ) : K))]
    have a1 := err1 (j + 1) (by omega)
    have a0 := err1 j (by omega)
    have tri : |E1 (j + 1) i - E1 j i - (A1 (j + 1) i - A1 j i)| ≤ 2 * ε := by
      rw [abs_le] at a0 a1 ⊢
      constructor <;> linarith [a0.1, a0.2, a1.1, a1.2]
    have g := hgap (k - (p + 2) + j) (by omega)
    rw [show k - (p + 2) + j + p + 3 = j + k + 1 by omega,
      show k - (p + 2) + j + 2 = j + k + 1 - (p + 1) by omega] at g
    have hν0 : 0 ≤ ν := by rw [hν]; positivity
    calc _ ≤ ((p + 1 : ℕ) : K) * (2 * ε) := mul_le_mul_of_nonneg_left tri (by positivity)
      _ = ν * δ := by rw [hν]; field_simp
      _ ≤ _ := mul_le_mul_of_nonneg_left g hν0
  have bound1 : ∀ j ≤ p, |A2 j i| ≤ T2 := by
    intro j hj
    have hp := pos (p + 1) (by omega) j (by omega)
    have := hT2 (k - (p + 2) + j) (by omega)
    rw [show k - (p + 2) + j + p + 3 = j + k + 1 by omega,
      show k - (p + 2) + j + 2 = j + k + 1 - (p + 1) by omega,
      show k - (p + 2) + j + 1 = k - (p + 2) + (j + 1) by omega, ← glob j (by omega),
      ← glob (j + 1) (by omega)] at this
    simp only [hA2, if_pos (by omega : j < p + 1), Pi.smul_apply, Pi.sub_apply, smul_eq_mul]
    rwa [div_mul_eq_mul_div, abs_div, abs_of_pos hp, div_le_iff₀ hp]
  have bound : ∀ j ≤ p, |D2 j i| ≤ T2 + ν := by
    intro j hj
    have := abs_add_le (A2 j i) (D2 j i - A2 j i)
    rw [add_sub_cancel] at this
    linarith [bound0 j hj, bound1 j hj]
  have m0 := BSpline.loc_mono hc.sorted (k := k) (p := p) (by omega) (by omega)
  have m1 : BSpline.loc (knot c.knots) k p p ≤ t := by simp only [BSpline.loc, f1]; exact hb.1
  have m2 : t ≤ BSpline.loc (knot c.knots) k p (p + 1) := by simp only [BSpline.loc, f2]; exact hb.2
  have m3 : R.rnd (BSpline.tiny K) < R.rnd (BSpline.loc (knot c.knots) k p (p + 1)
      - BSpline.loc (knot c.knots) k p p) := by simp only [BSpline.loc, f1, f2]; exact hwk
  have r1 := (triB_err_pert R hu1 F p _ t m0 m1 m2 m3 D2 E2 (T2 + ν) (diffGrowth R) hdg i bound
    (fun j hj => by
      have hDj : D2 j i = ((p + 1 : ℕ) : K)
          / (knot c.knots (j + k + 1) - knot c.knots (j + k + 1 - (p + 1))) * (E1 (j + 1) i - E1 j i) := by
        simp only [hD2, if_pos (by omega : j < p + 1), Pi.smul_apply, Pi.sub_apply, smul_eq_mul]
      have hEj : E2 j i = R.rnd (R.rnd (((p + 1 : ℕ) : K)
          / R.rnd (knot c.knots (j + k + 1) - knot c.knots (j + k + 1 - (p + 1))))
            * R.rnd (E1 (j + 1) i - E1 j i)) := by
        simp only [hE2, if_pos (by omega : j < p + 1)]
      have hb := bound j hj
      rw [hDj] at hb ⊢
      rw [hEj]
      refine le_trans (diff_coef_err R hu1 (pos (p + 1) (by omega) j (by omega))) ?_
      exact mul_le_mul_of_nonneg_left hb (by linarith))
    p le_rfl p le_rfl le_rfl).1
  have r2 := (triB_err_pert R hu1 F p _ t m0 m1 m2 m3 (fun j => D2 j - A2 j) (fun j => D2 j - A2 j) ν 1
    le_rfl i bound0 (fun j _ => by simp) p le_rfl p le_rfl le_rfl).2
  have r3 := (triB_err_pert R hu1 F p _ t m0 m1 m2 m3 A2 A2 T2 1
    le_rfl i bound1 (fun j _ => by simp) p le_rfl p le_rfl le_rfl).2
  refine ⟨?_, r3⟩
  rw [dB_sub, Pi.sub_apply] at r2
  have := abs_add_le (tri (stepB R F p (BSpline.loc (knot c.knots) k p) t) E2 p p i
      - dB p (BSpline.loc (knot c.knots) k p) (fun _ => t) D2 p p i)
    (dB p (BSpline.loc (knot c.knots) k p) (fun _ => t) D2 p p i
      - dB p (BSpline.loc (knot c.knots) k p) (fun _ => t) A2 p p i)
  rw [sub_add_sub_cancel] at this
  linarith

/-- **C113**: the second derivative of a B-spline of degree `p + 2`.  `T` and `T2` bound the control
points of the exact first and second derivatives, `δ` is the shortest support of the basis functions
of the second derivative, by which the rounding errors of the first differences are divided. -/
theorem C113_bspline_second_error (R : Rounding K) (hu1 : R.unit < 1) (F : ℕ → ℕ → ι → Fuse)
    {c : BSpline K (ι → K)} {p : ℕ} (hc : BSpline.WellFormed c (p + 2)) (hper : c.periodic = false)
    (hw : FlWide R c (p + 2)) {t : K} (hf : BSpline.FirstSpan c (p + 2) ∨ knot c.knots (p + 2) < t)
    (h1 : knot c.knots (p + 2) ≤ t) (h2 : t ≤ knot c.knots c.ctrl.length) {δ : K} (hδ : 0 < δ)
    (hgap : ∀ j, j + 2 < c.ctrl.length → δ ≤ knot c.knots (j + p + 3) - knot c.knots (j + 2)) :
    ∃ q e, bspline2ndDerivative R F c t = ok q ∧ c.evaluate2ndDerivative t = ok e ∧ ∀ i T T2,
      (∀ j, j + 1 < c.ctrl.length → |firstQuot c.knots p (fun j => c.ctrl.getD j 0 i) j| ≤ T) →
      (∀ j, j + 2 < c.ctrl.length →
        |((p + 1 : ℕ) : K) * (firstQuot c.knots p (fun j => c.ctrl.getD j 0 i) (j + 1)
            - firstQuot c.knots p (fun j => c.ctrl.getD j 0 i) j)|
          ≤ T2 * (knot c.knots (j + p + 3) - knot c.knots (j + 2))) →
      |q i - e i| ≤ (diffGrowth R * growth R ^ p - 1)
            * (T2 + 2 * (p + 1 : ℕ) * ((diffGrowth R - 1) * T) / δ)
          + 2 * (p + 1 : ℕ) * ((diffGrowth R - 1) * T) / δ := by
  obtain ⟨q, e, h3, h4, H⟩ := bspline_deriv2_axis R hu1 F hc hper hw c.ctrl rfl hf h1 h2 hδ hgap
  refine ⟨q, e, h3, h4, fun i T T2 hT hT2 => ?_⟩
  have := (H i T 0 T2 hT (fun j _ => by simp) hT2).1
  simpa only [add_zero] using this

/-- **C113**: the second derivative of a NURBS curve of degree `p + 2` with weights between `lo` and
`hi`, `0 < lo`. -/
theorem C113_nurbs_second_error (R : Rounding K) (hu1 : R.unit < 1) (F G H : ℕ → ℕ → Option ι → Fuse)
    (f g : ι → Bool) {c : NURBS K (ι → K)} (hinit : c.init = ok c) {p : ℕ}
    (hc : BSpline.WellFormed c.base (p + 2)) (hper : c.base.periodic = false)
    (hw : FlWide R c.base (p + 2)) {lo hi : K} (hlo : 0 < lo) (hwt : ∀ x ∈ c.weights, lo ≤ x ∧ x ≤ hi)
    (hcond : (growth R ^ (p + 2) - 1) * (hi / lo) < 1) {t : K}
    (hf : BSpline.FirstSpan c.base (p + 2) ∨ knot c.base.knots (p + 2) < t)
    (h1 : knot c.base.knots (p + 2) ≤ t) (h2 : t ≤ knot c.base.knots c.base.ctrl.length)
    {S S2 δ : K} (hδ : 0 < δ)
    (hgap : ∀ j, j + 2 < c.base.ctrl.length → δ ≤ knot c.base.knots (j + p + 3) - knot c.base.knots (j + 2))
    (hS : ∀ j, j + 1 < c.base.ctrl.length → |firstQuot c.base.knots p (fun j => c.weights.getD j 0) j| ≤ S)
    (hS2 : ∀ j, j + 2 < c.base.ctrl.length →
      |((p + 1 : ℕ) : K) * (firstQuot c.base.knots p (fun j => c.weights.getD j 0) (j + 1)
          - firstQuot c.base.knots p (fun j => c.weights.getD j 0) j)|
        ≤ S2 * (knot c.base.knots (j + p + 3) - knot c.base.knots (j + 2))) :
    ∃ q e, nurbs2ndDerivative R F G H f g c.base c.weights t = ok q ∧ c.evaluate2ndDerivative t = ok e ∧
      ∀ i M T T2, (∀ x ∈ c.base.ctrl, |x i| ≤ M) →
        (∀ j, j + 1 < c.base.ctrl.length → |firstQuot c.base.knots p
          (fun j => c.weights.getD j 0 * c.base.ctrl.getD j 0 i) j| ≤ T) →
        (∀ j, j + 2 < c.base.ctrl.length → |((p + 1 : ℕ) : K) *
            (firstQuot c.base.knots p (fun j => c.weights.getD j 0 * c.base.ctrl.getD j 0 i) (j + 1)
              - firstQuot c.base.knots p (fun j => c.weights.getD j 0 * c.base.ctrl.getD j 0 i) j)|
          ≤ T2 * (knot c.base.knots (j + p + 3) - knot c.base.knots (j + 2))) →
        |q i - e i| ≤ deriv2Bound R ((growth R ^ (p + 2) - 1) * (hi / lo)) M
          (((1 + R.unit) * growth R ^ (p + 2) - 1) * (hi / lo) * M) (T / lo)
          (((diffGrowth R * growth R ^ (p + 1) - 1) * (T + 2 * (p + 2 : ℕ) * R.unit * (hi * M) / δ)
            + 2 * (p + 2 : ℕ) * R.unit * (hi * M) / δ) / lo)
          (S / lo) ((diffGrowth R * growth R ^ (p + 1) - 1) * S / lo)
          (T2 / lo)
          (((diffGrowth R * growth R ^ p - 1) * (T2 + 2 * (p + 1 : ℕ) * ((diffGrowth R - 1)
                * (T + 2 * (p + 2 : ℕ) * R.unit * (hi * M) / δ) + 2 * (p + 2 : ℕ) * R.unit * (hi * M) / δ) / δ)
            + 2 * (p + 1 : ℕ) * ((diffGrowth R - 1) * (T + 2 * (p + 2 : ℕ) * R.unit * (hi * M) / δ)
                + 2 * (p + 2 : ℕ) * R.unit * (hi * M) / δ) / δ) / lo)
          (S2 / lo)
          (((diffGrowth R * growth R ^ p - 1) * (S2 + 2 * (p + 1 : ℕ) * ((diffGrowth R - 1) * S) / δ)
            + 2 * (p + 1 : ℕ) * ((diffGrowth R - 1) * S) / δ) / lo) := by
  obtain ⟨Sy, -, -⟩ := (NURBS.init_iff _ _).1 hinit
  have hlen := Sy.len
  have hu := R.unit_nonneg
  have hl := hc.len
  have hn := hc.ctrl
  set n := c.base.ctrl.length with hnd
  set w := c.weights with hwd
  -- the supports of the first derivative
  have gap1 : ∀ j, j + 1 < n → δ ≤ knot c.base.knots (j + p + 3) - knot c.base.knots (j + 1) := by
    intro j hj
    rcases Nat.lt_or_ge (j + 2) n with h | h
    · have := BSpline.knot_mono hc.sorted (i := j + 1) (j := j + 2) (by omega) (by omega)
      linarith [hgap j h]
    · obtain ⟨m, rfl⟩ : ∃ m, j = m + 1 := ⟨j - 1, by omega⟩
      have := BSpline.knot_mono hc.sorted (i := m + p + 3) (j := m + 1 + p + 3) (by omega) (by omega)
      have g := hgap m (by omega)
      rw [show m + 1 + 1 = m + 2 by omega]
      linarith
  have gpos : ∀ j, j + 1 < n → 0 < knot c.base.knots (j + p + 3) - knot c.base.knots (j + 1) :=
    fun j hj => lt_of_lt_of_le hδ (gap1 j hj)
  have toMul : ∀ (a : ℕ → K) (j : ℕ) (B : K), j + 1 < n → |firstQuot c.base.knots p a j| ≤ B →
      |((p + 1 + 1 : ℕ) : K) * (a (j + 1) - a j)|
        ≤ B * (knot c.base.knots (j + (p + 1) + 2) - knot c.base.knots (j + 1)) := by
    intro a j B hj hB
    unfold firstQuot at hB
    rw [div_mul_eq_mul_div, abs_div, abs_of_pos (gpos j hj), div_le_iff₀ (gpos j hj)] at hB
    exact hB
  obtain ⟨x, ex, hWlo, en, HN⟩ := nurbs_hom R hu1 F hc hper hw hlen hlo hwt hf h1 h2
  rw [← hnd] at hWlo en HN
  set W := BSplinePatch.bsum (p + 2) c.base.knots n (fun j => w.getD j 0) t with hW
  have hWpos : 0 < W := lt_of_lt_of_le hlo hWlo
  set h : BSpline K (Option ι → K) :=
    BSpline.mk (homPts R c.base.ctrl w) c.base.knots c.base.periodic c.base.sdeg with hh
  have hhl : h.ctrl.length = n := homPts_length R _ _ hlen
  have hwf : BSpline.WellFormed h (p + 2) := ⟨by rw [hhl]; exact hc.len, hc.sdeg,
    by rw [hhl]; exact hc.ctrl, hc.sorted, by rw [hhl]; exact hc.dom⟩
  have hwide : FlWide R h (p + 2) := by
    intro j j1 j2 j3
    rw [hhl] at j2
    exact hw j j1 j2 j3
  have hhom : c.hom.ctrl.length = n := by rw [Sy.hom]; exact homog_length hlen
  obtain ⟨d, e, ed, ee, HD⟩ := bspline_deriv_axis R hu1 G (p := p + 1) hwf hper hwide
    (c.hom.ctrl.map (homFun ι K)) (by rw [List.length_map, hhom, hhl]) (t := t) hf h1
    (by rw [hhl]; exact h2)
  obtain ⟨d2, e2, ed2, ee2, HD2⟩ := bspline_deriv2_axis R hu1 H hwf hper hwide
    (c.hom.ctrl.map (homFun ι K)) (by rw [List.length_map, hhom, hhl]) (t := t) hf h1
    (by rw [hhl]; exact h2) hδ (by rw [hhl]; exact hgap)
  rw [hhl] at HD HD2
  -- the exact homogeneous derivatives
  have eimg : (BSpline.mk (c.hom.ctrl.map (homFun ι K)) h.knots h.periodic h.sdeg : BSpline K (Option ι → K))
      = BSpline.image (homFun ι K) c.hom := by
    rw [Sy.hom]; rfl
  rw [eimg, BSpline.evaluateDerivative_map, map_eq_ok] at ee
  obtain ⟨e', ee', rfl⟩ := ee
  rw [eimg, BSpline.evaluate2ndDerivative_map, map_eq_ok] at ee2
  obtain ⟨e2', ee2', rfl⟩ := ee2
  have hget : ∀ j < n, (c.hom.ctrl.map (homFun ι K)).getD j 0
      = homFun ι K (w.getD j 0 • c.base.ctrl.getD j 0, w.getD j 0) := by
    intro j hj
    have : c.hom.ctrl[j]? = some (w.getD j 0 • c.base.ctrl.getD j 0, w.getD j 0) := by
      rw [Sy.hom]; exact homog_getElem? j hlen hj
    rw [List.getD_eq_getElem?_getD, List.getElem?_map, this]
    rfl
  have fqn : ∀ j, j + 1 < n → firstQuot c.base.knots p
      (fun j => (c.hom.ctrl.map (homFun ι K)).getD j 0 none) j
      = firstQuot c.base.knots p (fun j => w.getD j 0) j := by
    intro j hj
    simp only [firstQuot]
    rw [hget _ hj, hget _ (by omega)]
    rfl
  have fqs : ∀ i j, j + 1 < n → firstQuot c.base.knots p
      (fun j => (c.hom.ctrl.map (homFun ι K)).getD j 0 (some i)) j
      = firstQuot c.base.knots p (fun j => w.getD j 0 * c.base.ctrl.getD j 0 i) j := by
    intro i j hj
    simp only [firstQuot]
    rw [hget _ hj, hget _ (by omega)]
    rfl
  have hws : BSpline.Wide c.base (p + 2) := hw.wide
  -- the exact homogeneous value
  obtain ⟨x', ex', x2, x1⟩ : ∃ x', c.hom.evaluate t = ok x' ∧ x'.2 = W ∧
      ∀ i, x'.1 i = BSplinePatch.bsum (p + 2) c.base.knots n
        (fun j => w.getD j 0 * c.base.ctrl.getD j 0 i) t := by
    have e := BSpline.evaluate_eq (Sy.wf.2 hc) (Sy.wide.2 hws) (t := t) (t' := t)
      (by rw [Sy.wrap]; simp [BSpline.wrap, hper]) (by rw [Sy.first, Sy.knots]; exact hf)
      (by rw [Sy.knots]; exact h1) (by rw [Sy.knots, Sy.homLen]; exact h2)
    rw [Sy.ctrl, Sy.knots, homog_bsplinePoint hlen] at e
    refine ⟨_, e, ?_, fun i => ?_⟩
    · rw [hW, hlen]
      unfold ratBSplineDen BSplinePatch.bsum
      simp only [smul_eq_mul]
    · unfold BSplinePatch.bsum
      simp only [Finset.sum_apply, Pi.smul_apply, smul_eq_mul, mul_assoc]
      rfl
  have eex : c.evaluate2ndDerivative t
      = ok (W⁻¹ • (e2'.1 - e2'.2 • (W⁻¹ • x'.1) - (2 * e'.2) • (W⁻¹ • (e'.1 - W⁻¹ • (e'.2 • x'.1))))) := by
    unfold NURBS.evaluate2ndDerivative
    rw [Sy.validate, BSpline.validate_ok hc, ok_bind, ex', ok_bind, ee', ok_bind, ee2', ok_bind]
    unfold quot2
    rw [x2, assert_true hWpos.ne', ok_bind]
    rfl
  have scale' : ∀ {y z : K}, |y| ≤ z → |y| ≤ z / lo * W := by
    intro y z hz
    refine hz.trans ?_
    rw [div_mul_eq_mul_div, le_div_iff₀ hlo]
    exact mul_le_mul_of_nonneg_left hWlo ((abs_nonneg _).trans hz)
  obtain ⟨dn, en'⟩ := HD none S 0
    (fun j hj => by rw [hget _ hj, hget _ (by omega)]; exact toMul _ j S hj (hS j hj))
    (fun j hj => by
      rw [hget _ hj, hget _ (by omega), hh]
      simp only [homPts_none R _ _ hlen]
      simp [homFun])
  simp only [add_zero] at dn
  obtain ⟨dn2, en2⟩ := HD2 none S 0 S2 (fun j hj => by rw [fqn j hj]; exact hS j hj)
    (fun j hj => by
      rw [fqn j hj, hh]
      simp only [homPts_none R _ _ hlen]
      simp)
    (fun j hj => by rw [fqn j (by omega), fqn (j + 1) hj]; exact hS2 j hj)
  simp only [add_zero] at dn2
  obtain ⟨q, eq, hq⟩ := deriv2Quotient_err R f g (d1 := d) (d2 := d2) hWpos en hcond
    (E := e'.2) (scale' en') (scale' dn) (E2 := e2'.2) (scale' en2) (scale' dn2)
  refine ⟨q, _, ?_, eex, fun i M T T2 hM hT hT2 => ?_⟩
  · unfold nurbs2ndDerivative
    rw [homogenize_eq R _ _ hlen, ok_bind, BSpline.validate_ok hc, ok_bind, ex, ok_bind, ed, ok_bind,
      ed2, ok_bind, eq]
  · obtain ⟨N1, N2⟩ := HN i M hM
    have hPj : ∀ j < n, |c.base.ctrl.getD j 0 i| ≤ M := by
      intro j hj
      rw [getD_of_lt _ (by omega)]
      exact hM _ (List.getElem_mem _)
    have hwj : ∀ j < n, lo ≤ w.getD j 0 ∧ w.getD j 0 ≤ hi := by
      intro j hj
      rw [getD_of_lt _ (by omega)]
      exact hwt _ (List.getElem_mem _)
    have hM0 : 0 ≤ M := (abs_nonneg _).trans (hPj 0 (by omega))
    have hprod : ∀ j < n, |h.ctrl.getD j 0 (some i) - w.getD j 0 * c.base.ctrl.getD j 0 i|
        ≤ R.unit * (hi * M) := by
      intro j hj
      have := hwj j hj
      rw [hh]
      simp only [homPts_some R _ _ hlen]
      rw [mul_comm (w.getD j 0)]
      refine (R.near _).trans (mul_le_mul_of_nonneg_left ?_ hu)
      rw [abs_mul, abs_of_pos (lt_of_lt_of_le hlo this.1), mul_comm]
      exact mul_le_mul this.2 (hPj j hj) (abs_nonneg _) (by linarith)
    set ν := 2 * (p + 2 : ℕ) * R.unit * (hi * M) / δ with hν
    have hhi : 0 ≤ hi := by have := hwj 0 (by omega); linarith
    have hν0 : 0 ≤ ν := by rw [hν]; positivity
    have noise : ∀ j, j + 1 < n → |((p + 1 + 1 : ℕ) : K) *
        (h.ctrl.getD (j + 1) 0 (some i) - h.ctrl.getD j 0 (some i)
          - (w.getD (j + 1) 0 * c.base.ctrl.getD (j + 1) 0 i - w.getD j 0 * c.base.ctrl.getD j 0 i))|
        ≤ ν * (knot c.base.knots (j + (p + 1) + 2) - knot c.base.knots (j + 1)) := by
      intro j hj
      have a1 := hprod (j + 1) hj
      have a0 := hprod j (by omega)
      rw [abs_mul, abs_of_nonneg (by positivity : (0 : K) ≤ ((p + 1 + 1 : ℕ) : K))]
      have tri : |h.ctrl.getD (j + 1) 0 (some i) - h.ctrl.getD j 0 (some i)
          - (w.getD (j + 1) 0 * c.base.ctrl.getD (j + 1) 0 i - w.getD j 0 * c.base.ctrl.getD j 0 i)|
          ≤ 2 * (R.unit * (hi * M)) := by
        rw [abs_le] at a0 a1 ⊢
        constructor <;> linarith [a0.1, a0.2, a1.1, a1.2]
      calc _ ≤ ((p + 1 + 1 : ℕ) : K) * (2 * (R.unit * (hi * M))) :=
            mul_le_mul_of_nonneg_left tri (by positivity)
        _ = ν * δ := by rw [hν]; field_simp
        _ ≤ _ := mul_le_mul_of_nonneg_left (gap1 j hj) hν0
    obtain ⟨ds, es⟩ := HD (some i) T ν
      (fun j hj => by
        rw [hget _ hj, hget _ (by omega)]
        exact toMul (fun j => w.getD j 0 * c.base.ctrl.getD j 0 i) j T hj (hT j hj))
      (fun j hj => by rw [hget _ hj, hget _ (by omega)]; exact noise j hj)
    obtain ⟨ds2, es2⟩ := HD2 (some i) T ν T2 (fun j hj => by rw [fqs i j hj]; exact hT j hj)
      (fun j hj => by
        rw [fqs i j hj]
        have gp := gpos j hj
        simp only [firstQuot]
        rw [← mul_sub, div_mul_eq_mul_div, abs_div, abs_of_pos gp, div_le_iff₀ gp]
        exact noise j hj)
      (fun j hj => by rw [fqs i j (by omega), fqs i (j + 1) hj]; exact hT2 j hj)
    have := hq i _ (e'.1 i) (e2'.1 i) M _ (T / lo) _ (T2 / lo) _ N1
      (N2.trans (le_of_eq (mul_assoc _ _ _).symm)) (scale' es) (scale' ds) (scale' es2) (scale' ds2)
    rw [← x1 i] at this
    simpa only [Pi.smul_apply, Pi.sub_apply, smul_eq_mul] using this

/-! ### Exact arithmetic -/

/-- C113: rounding without error is the exact model of the second derivatives of Bézier curves and
B-splines and of the derivatives of the fixed degrees. -/
theorem C113_exact_arithmetic (F : ℕ → ℕ → ι → Fuse) (F' : ℕ → ι → Fuse) (f : ι → Bool)
    (b : Bezier (ι → K)) (c : BSpline K (ι → K)) (t : K) :
    bezier2ndDerivative Rounding.exact F b t = b.evaluate2ndDerivative t ∧
    bspline2ndDerivative Rounding.exact F c t = c.evaluate2ndDerivative t ∧
    bezierDerivative1 Rounding.exact b t = b.evaluateDerivative1 t ∧
    bezierDerivative2 Rounding.exact F' b t = b.evaluateDerivative2 t ∧
    bezier2ndDerivative2 Rounding.exact f b t = b.evaluate2ndDerivative2 t ∧
    bezierDerivative3 Rounding.exact F' b t = b.evaluateDerivative3 t ∧
    bezier2ndDerivative3 Rounding.exact F' f b t = b.evaluate2ndDerivative3 t := by
  have hw : bezierWrap Rounding.exact b.periodic t = Bezier.wrap b.periodic t := rfl
  have hb : ∀ bv d q, bezierBlossom Rounding.exact F bv d q = Bezier.blossom (K := K) bv d q := by
    intro bv d q
    unfold bezierBlossom Bezier.blossom
    simp only [exact_combine]
    rfl
  have hs : ∀ u bv d k q, bsplineBlossom Rounding.exact F u bv d k q
      = BSpline.blossom (K := K) u bv d k q := by
    intro u bv d k q
    unfold bsplineBlossom BSpline.blossom
    simp only [exact_combine]
    rfl
  have hd : ∀ n k q, bsplineDerivCoef Rounding.exact c n k q = c.derivativeCoefficients n k q :=
    fun _ _ _ => rfl
  have hd' : ∀ n (q : List (ι → K)), bezierDerivCoef Rounding.exact n q
      = Bezier.derivativeCoefficients K n q := fun _ _ => rfl
  have hr : ∀ x : K, (Rounding.exact : Rounding K).rnd x = x := fun _ => rfl
  have hsm : ∀ (f : Bool) (x s y : K), subMul Rounding.exact f x s y = x - s * y := by
    intro f x s y; cases f <;> rfl
  refine ⟨?_, ?_, rfl, ?_, ?_, ?_, ?_⟩
  · unfold bezier2ndDerivative Bezier.evaluate2ndDerivative bezierDeBoor Bezier.deBoor
    simp only [hw, hb, hd']
  · unfold bspline2ndDerivative BSpline.evaluate2ndDerivative bsplineDeBoor BSpline.deBoor
    simp only [hs, hd]
    rfl
  · unfold bezierDerivative2 Bezier.evaluateDerivative2
    simp only [hw, exact_combine, hr, mul_comm _ (2 : K)]
    rfl
  · unfold bezier2ndDerivative2 Bezier.evaluate2ndDerivative2
    simp only [hw, hsm, hr]
    rfl
  · unfold bezierDerivative3 Bezier.evaluateDerivative3
    simp only [hw, exact_combine, hr, mul_comm _ (3 : K)]
    rfl
  · unfold bezier2ndDerivative3 Bezier.evaluate2ndDerivative3
    simp only [hw, exact_combine, hsm, hr]
    rfl

end General

/-! ### Concrete cases -/

section Examples

/-- The control points `1`, `1`, `1 + 2⁻⁵²`. -/
def flatEnd : List (Fin 1 → ℚ) := [fun _ => 1, fun _ => 1, fun _ => 1 + 1 / 2 ^ 52]

theorem flatEnd_floats : Floats double flatEnd := by
  intro x hx i
  simp only [flatEnd, List.mem_cons, List.not_mem_nil, or_false] at hx
  unfold Rounding.IsFloat
  rcases hx with rfl | rfl | rfl <;> decide +kernel +revert

/-- **C113** refuted as a bound relative to the derivative for the class of degree two: at the middle
of the curve with the points `1`, `1`, `1 + 2⁻⁵²` the derivative is `2⁻⁵²`, which the generic class
computes exactly, and the class of degree two returns zero in double precision. -/
theorem C113_degree2_relative_refuted :
    Floats double flatEnd ∧
    (bezierDerivative2 double (fun _ _ => .none) { ctrl := flatEnd } (1 / 2) >>= fun q => ok (q 0)) = ok 0 ∧
    (bezierDerivative double (fun _ _ _ => .none) { ctrl := flatEnd } (1 / 2) >>= fun q => ok (q 0))
      = ok (1 / 2 ^ 52) ∧
    (Bezier.evaluateDerivative2 { ctrl := flatEnd } (1 / 2 : ℚ) >>= fun q => ok (q 0)) = ok (1 / 2 ^ 52) := by
  refine ⟨flatEnd_floats, by decide +kernel, by decide +kernel, by decide +kernel⟩

/-- The hypotheses of `C113_rational_second_error` in double precision. -/
example : someRational.init = ok someRational ∧ someRational.base.ctrl.length = 0 + 3 ∧
    (∀ x ∈ someRational.weights, tenth ≤ x ∧ x ≤ 2) ∧ (1 + double.unit) ^ (3 * (0 + 2)) < 2 ∧
    (∀ j ≤ 1, |((0 + 2 : ℕ) : ℚ) * (someRational.weights.getD (j + 1) 0
      - someRational.weights.getD j 0)| ≤ 2) ∧
    (∀ j ≤ 0, |((0 + 1 : ℕ) : ℚ) *
      (((0 + 2 : ℕ) : ℚ) * (someRational.weights.getD (j + 2) 0 - someRational.weights.getD (j + 1) 0)
        - ((0 + 2 : ℕ) : ℚ) * (someRational.weights.getD (j + 1) 0 - someRational.weights.getD j 0))|
      ≤ 1) := by
  refine ⟨RationalBezier.Sync.init ⟨rfl, rfl⟩, rfl, by decide +kernel, by decide +kernel, ?_, ?_⟩
  · intro j hj
    interval_cases j <;> decide +kernel
  · intro j hj
    interval_cases j
    decide +kernel

/-- A NURBS curve of degree two with three spans and weights from `0.1` to `2`. -/
def quadNurbs : NURBS ℚ (Fin 1 → ℚ) :=
  let b : BSpline ℚ (Fin 1 → ℚ) :=
    { ctrl := [fun _ => tenth, fun _ => 3, fun _ => -1 / 4, fun _ => 7, fun _ => 1],
      knots := [0, 0, 0, 1, 2, 4, 4, 4] }
  { base := b, weights := [tenth, 1, 2, 1 / 2, 1],
    hom := BSpline.mk (homog b.ctrl [tenth, 1, 2, 1 / 2, 1]) b.knots b.periodic b.sdeg }

/-- The hypotheses of `C113_bspline_second_error` and `C113_nurbs_second_error` in double precision. -/
example : quadNurbs.init = ok quadNurbs ∧ BSpline.WellFormed quadNurbs.base (0 + 2) ∧
    FlWide double quadNurbs.base 2 ∧ BSpline.FirstSpan quadNurbs.base 2 ∧
    (∀ x ∈ quadNurbs.weights, tenth ≤ x ∧ x ≤ 2) ∧ (growth double ^ 2 - 1) * (2 / tenth) < 1 ∧
    (∀ j, j + 2 < 5 → 1 ≤ knot quadNurbs.base.knots (j + 0 + 3) - knot quadNurbs.base.knots (j + 2)) ∧
    (∀ j, j + 1 < 5 → |firstQuot quadNurbs.base.knots 0 (fun j => quadNurbs.weights.getD j 0) j| ≤ 2) ∧
    (∀ j, j + 2 < 5 →
      |((0 + 1 : ℕ) : ℚ) * (firstQuot quadNurbs.base.knots 0 (fun j => quadNurbs.weights.getD j 0) (j + 1)
          - firstQuot quadNurbs.base.knots 0 (fun j => quadNurbs.weights.getD j 0) j)|
        ≤ 2 * (knot quadNurbs.base.knots (j + 0 + 3) - knot quadNurbs.base.knots (j + 2))) ∧
    (∀ j, j + 1 < 5 → |firstQuot quadNurbs.base.knots 0 (fun j => quadNurbs.base.ctrl.getD j 0 0) j| ≤ 10) ∧
    (∀ j, j + 2 < 5 →
      |((0 + 1 : ℕ) : ℚ) * (firstQuot quadNurbs.base.knots 0 (fun j => quadNurbs.base.ctrl.getD j 0 0) (j + 1)
          - firstQuot quadNurbs.base.knots 0 (fun j => quadNurbs.base.ctrl.getD j 0 0) j)|
        ≤ 10 * (knot quadNurbs.base.knots (j + 0 + 3) - knot quadNurbs.base.knots (j + 2))) := by
  refine ⟨NURBS.Sync.init ⟨rfl, rfl⟩, ⟨by decide, by decide, by decide, by decide +kernel,
    by decide +kernel⟩, ?_, by unfold BSpline.FirstSpan; decide +kernel, by decide +kernel,
    by decide +kernel, ?_, ?_, ?_, ?_, ?_⟩
  · intro i h1 h2 _
    have h2 : i < 5 := h2
    interval_cases i <;> decide +kernel
  all_goals
    intro j hj
    have : j < 4 := by omega
    interval_cases j <;> first | omega | decide +kernel

/-- On a parabola the generic class and the class of degree two differ in double precision, both
within the bounds of `C113_degree2`. -/
example : (∀ x ∈ flatEnd, |x 0| ≤ 2) ∧
    (bezierDerivative2 double (fun _ _ => .none) { ctrl := flatEnd } (1 / 2) >>= fun q => ok (q 0))
      ≠ (Bezier.evaluateDerivative2 { ctrl := flatEnd } (1 / 2 : ℚ) >>= fun q => ok (q 0)) ∧
    ((1 + double.unit) ^ 5 - 1) * (4 * 2) < 1 / 2 ^ 47 := by
  refine ⟨by decide +kernel, by decide +kernel, by decide +kernel⟩

/-- The bound vanishes in exact arithmetic. -/
example (M T S T2 S2 : ℚ) :
    deriv2Bound (Rounding.exact : Rounding ℚ) 0 M 0 T 0 S 0 T2 0 S2 0 = 0 := by
  simp [deriv2Bound, derivBound, Rounding.exact]

end Examples

end NS.Fl
