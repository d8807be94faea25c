import Verif.Proof.BSplineCurve
import Verif.Proof.InsertCurve

/-!
# How the polynomials of neighbouring spans join
-/

set_option linter.unusedSectionVars false

namespace NS

open Polynomial Finset Spec

variable {K V : Type} [Field K] [LinearOrder K] [IsStrictOrderedRing K] [FloorRing K]
  [AddCommGroup V] [Module K V]

/-- A functional vanishing on products of `q` linear factors vanishes on degree `q`. -/
theorem functional_zero {q : ℕ} (L : K[X] →ₗ[K] V) (h : ∀ ts : ℕ → K, L (lprod ts 0 q) = 0)
    (g : K[X]) (hg : g.natDegree ≤ q) : L g = 0 := by
  rw [g.as_sum_range' (q + 1) (by omega), map_sum]
  refine sum_eq_zero fun i hi => ?_
  have hi := mem_range.1 hi
  rw [← C_mul_X_pow_eq_monomial, ← smul_eq_C_mul, map_smul, ← lprod_steps q i (by omega), h,
    smul_zero]

/-- Two neighbouring spans with polynomials `Q1`, `Q2`, separated by a knot `τ` of multiplicity
`m ≤ p`: the polynomials agree on everything that contains `m` factors `τ`. -/
theorem repr_join {u : List K} (hs : u.Pairwise (· ≤ ·)) {P : ℕ → V} {p k m : ℕ} {τ : K}
    (hpk : p ≤ k) (hlen : k + m + p + 1 ≤ u.length) (hm : m ≤ p)
    (hlo : knot u k < τ) (hmid : ∀ i < m, knot u (k + 1 + i) = τ) (hhi : τ < knot u (k + m + 1))
    {Q1 Q2 : ℕ → V} (h1 : BSpline.Repr (knot u) P p k Q1)
    (h2 : BSpline.Repr (knot u) P p (k + m) Q2) (g : K[X]) (hg : g.natDegree ≤ p - m) :
    umb Q1 (lin τ ^ m * g) = umb Q2 (lin τ ^ m * g) := by
  set q := p - m with hq
  let v : ℕ → K := fun l => if l ≤ q then knot u (k - q + l) else knot u (k + m + (l - q))
  let L1 : K[X] →ₗ[K] V := (umb Q1).comp (LinearMap.mulLeft K (lin τ ^ m))
  let L2 : K[X] →ₗ[K] V := (umb Q2).comp (LinearMap.mulLeft K (lin τ ^ m))
  have hL1 : ∀ g, L1 g = umb Q1 (lin τ ^ m * g) := fun _ => rfl
  have hL2 : ∀ g, L2 g = umb Q2 (lin τ ^ m * g) := fun _ => rfl
  have hv : ∀ i j, 1 ≤ i → i ≤ j → j ≤ 2 * q → v i ≤ v j := by
    intro i j hi hij hj
    simp only [v]
    split <;> split
    · exact BSpline.knot_mono hs (by omega) (by omega)
    · exact BSpline.knot_mono hs (by omega) (by omega)
    · omega
    · exact BSpline.knot_mono hs (by omega) (by omega)
  have hvq : v q < v (q + 1) := by
    simp only [v]
    rw [if_pos le_rfl, if_neg (by omega), show k - q + q = k by omega,
      show k + m + (q + 1 - q) = k + m + 1 by omega]
    exact hlo.trans hhi
  have hprod : ∀ j ≤ q, lprod (knot u) (k - q + j + 1) p = lin τ ^ m * lprod v (j + 1) q := by
    intro j hj
    rw [lprod_split (knot u) (j := k - q + j + 1) (m := p) (a := q - j) (b := m + j)
        (j' := k + 1) (by omega) (by omega),
      lprod_split (knot u) (j := k + 1) (m := m + j) (a := m) (b := j) (j' := k + m + 1) rfl
        (by omega),
      lprod_split v (j := j + 1) (m := q) (a := q - j) (b := j) (j' := q + 1) (by omega) (by omega),
      lprod_const (v := knot u) (t := τ) hmid,
      lprod_congr (v := v) (w := knot u) (j := j + 1) (j' := k - q + j + 1) (m := q - j),
      lprod_congr (v := v) (w := knot u) (j := q + 1) (j' := k + m + 1) (m := j)]
    · ring
    · intro i hi
      simp only [v]
      rw [if_neg (by omega)]
      congr 1
      omega
    · intro i hi
      simp only [v]
      rw [if_pos (by omega)]
      congr 1
      omega
  have hts := functional_ext q v L1 L2 hv hvq (fun j hj => by
    rw [hL1, hL2, ← hprod j hj, ← h1 (k - q + j) (by omega) (by omega),
      ← h2 (k - q + j) (by omega) (by omega)])
  have := functional_zero (L1 - L2) (fun ts => by
    rw [LinearMap.sub_apply, hts, sub_self]) g hg
  rw [LinearMap.sub_apply, sub_eq_zero] at this
  exact this

theorem lin_shift (t τ : K) : lin t = lin τ + C (t - τ) * (X - 1) := by
  simp only [lin, map_sub, map_one]
  ring

theorem umb_sub (P Q : ℕ → V) (f : K[X]) : umb (fun i => P i - Q i) f = umb P f - umb Q f := by
  induction f using Polynomial.induction_on' with
  | add f g hf hg => simp only [map_add, hf, hg]; abel
  | monomial i a => simp only [umb_monomial, smul_sub]

/-- The difference of two polynomials that join at `τ` is divisible by `(t - τ)^(p - m + 1)`. -/
theorem umb_join {p m : ℕ} (hm : m ≤ p) {τ : K} {Q1 Q2 : ℕ → V}
    (h : ∀ g : K[X], g.natDegree ≤ p - m → umb Q1 (lin τ ^ m * g) = umb Q2 (lin τ ^ m * g)) :
    ∃ R : ℕ → V, ∀ t, umb Q2 (lin t ^ p)
      = umb Q1 (lin t ^ p) + (t - τ) ^ (p - m + 1) • ∑ j ∈ range m, (t - τ) ^ j • R j := by
  refine ⟨fun j => (p.choose (m - 1 - j) : K) •
    umb (fun i => Q2 i - Q1 i) (lin τ ^ (m - 1 - j) * (X - 1) ^ (p - (m - 1 - j))), fun t => ?_⟩
  rw [← sub_eq_iff_eq_add', ← umb_sub, lin_shift t τ, add_pow, map_sum]
  have hterm : ∀ i, umb (fun i => Q2 i - Q1 i)
      (lin τ ^ i * (C (t - τ) * (X - 1)) ^ (p - i) * ((p.choose i : ℕ) : K[X]))
      = ((t - τ) ^ (p - i) * (p.choose i : K)) •
          umb (fun i => Q2 i - Q1 i) (lin τ ^ i * (X - 1) ^ (p - i)) := by
    intro i
    rw [← umb_C_mul]
    congr 1
    rw [mul_pow, ← C_pow, map_mul, ← C_eq_natCast]
    ring
  simp only [hterm]
  have hsplit : range (p + 1) = range (m + (p + 1 - m)) := by congr 1; omega
  rw [hsplit, sum_range_add]
  have hzero : ∑ x ∈ range (p + 1 - m), ((t - τ) ^ (p - (m + x)) * (p.choose (m + x) : K)) •
      umb (fun i => Q2 i - Q1 i) (lin τ ^ (m + x) * (X - 1) ^ (p - (m + x))) = 0 := by
    refine sum_eq_zero fun x hx => ?_
    have hx := mem_range.1 hx
    rw [umb_sub, pow_add, mul_assoc, h, sub_self, smul_zero]
    refine natDegree_mul_le.trans ?_
    have e1 : (lin τ ^ x).natDegree ≤ x := by
      refine natDegree_pow_le.trans ?_
      have := natDegree_lin τ
      nlinarith
    have e2 : ((X - 1 : K[X]) ^ (p - (m + x))).natDegree ≤ p - (m + x) := by
      refine natDegree_pow_le.trans ?_
      have : (X - 1 : K[X]).natDegree ≤ 1 := by
        rw [← C_1]
        exact (natDegree_X_sub_C (1 : K)).le
      nlinarith
    omega
  rw [hzero, add_zero, smul_sum, ← sum_range_reflect]
  refine sum_congr rfl fun j hj => ?_
  have hj := mem_range.1 hj
  rw [smul_smul, smul_smul, ← pow_add]
  congr 2
  congr 1
  omega

/-- The spans on both sides of an interior knot. -/
theorem knot_block {c : BSpline K V} {p : ℕ} (hc : BSpline.WellFormed c p) {τ : K}
    (h1 : knot c.knots p < τ) (h2 : τ < knot c.knots c.ctrl.length) (hτ : τ ∈ c.knots) :
    ∃ k, p ≤ k ∧ k + c.knots.count τ < c.ctrl.length ∧ knot c.knots k < τ ∧
      (∀ i < c.knots.count τ, knot c.knots (k + 1 + i) = τ) ∧
      τ < knot c.knots (k + c.knots.count τ + 1) := by
  have hl := hc.len
  obtain ⟨j, hj, e⟩ := List.mem_iff_getElem.1 hτ
  have ej : knot c.knots j = τ := by
    rw [knot, List.getD_eq_getElem?_getD, List.getElem?_eq_getElem hj, Option.getD_some, e]
  obtain ⟨a, b, b1, b2, b3, b4, b5, b6, b7⟩ := BSpline.multiplicity_block c j hj
  have hcount := BSpline.multiplicity_count c hc.sorted j hj
  rw [b4, ej] at hcount
  rw [ej] at b5 b6 b7
  have hcount : b - a = c.knots.count τ := by simpa using hcount
  have hpa : p < a := by
    by_contra hno
    have := BSpline.knot_mono hc.sorted (i := a) (j := p) (by omega) (by omega)
    rw [b5 a le_rfl (by omega)] at this
    exact absurd h1 (not_lt.2 this)
  have hbn : b ≤ c.ctrl.length := by
    by_contra hno
    have := BSpline.knot_mono hc.sorted (i := c.ctrl.length) (j := b - 1) (by omega) (by omega)
    rw [b5 (b - 1) (by omega) (by omega)] at this
    exact absurd h2 (not_lt.2 this)
  refine ⟨a - 1, by omega, by omega, ?_, ?_, ?_⟩
  · rcases b6 with h | h
    · omega
    · refine lt_of_le_of_ne ?_ h
      have := BSpline.knot_mono hc.sorted (i := a - 1) (j := a) (by omega) (by omega)
      rwa [b5 a le_rfl (by omega)] at this
  · intro i hi
    exact b5 _ (by omega) (by omega)
  · rw [show a - 1 + c.knots.count τ + 1 = b by omega]
    rcases b7 with h | h
    · omega
    · refine lt_of_le_of_ne ?_ h.symm
      have := BSpline.knot_mono hc.sorted (i := b - 1) (j := b) (by omega) (by omega)
      rwa [b5 (b - 1) (by omega) (by omega)] at this

end NS
