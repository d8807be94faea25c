import Verif.Proof.LocateSpan
import Verif.Proof.Polar
import Verif.Proof.Curve

/-!
# Loop analysis of the B-spline evaluators
-/

set_option linter.unusedSectionVars false
set_option linter.unusedSimpArgs false

namespace NS

open Outcome

/-- Row `j` after `r` rounds of a triangular scheme combining neighbouring rows. -/
def tri {V : Type} (f : ℕ → ℕ → V → V → V) (P : ℕ → V) : ℕ → ℕ → V
  | 0, j => P j
  | r + 1, j => f (r + 1) j (tri f P r (j - 1)) (tri f P r j)

/-- In-place downward triangular scheme. -/
theorem tri_loop {V : Type} (f : ℕ → ℕ → V → V → V) (P : ℕ → V) (n d : ℕ)
    (B : ℕ → ℕ → List V → Outcome (List V))
    (hB : ∀ r j, 1 ≤ r → r ≤ j → j ≤ d → ∀ g h : ℕ → V,
      (∀ i < n, h i = if i = j then f r j (g (j - 1)) (g j) else g i) →
      B r j (arr n g) = ok (arr n h)) :
    forUp 1 (d + 1) (fun r c => forDown d r (B r) c) (arr n P)
      = ok (arr n (fun j => if j ≤ d then tri f P j j else P j)) := by
  have key := forUp_eq
    (S := fun r => arr n (fun j => if j ≤ d then tri f P (min (r - 1) j) j else P j))
    1 (d + 1) (by omega) (fun r c => forDown d r (B r) c) ?_
  · have h0 : arr n P = arr n (fun j => if j ≤ d then tri f P (min (1 - 1) j) j else P j) := by
      apply arr_congr; intro i _; simp [tri]
    rw [h0, key]
    congr 1
    apply arr_congr
    intro i _
    by_cases h : i ≤ d <;> simp [h]
  · intro r hr1 hr2
    obtain ⟨q, rfl⟩ : ∃ q, r = q + 1 := ⟨r - 1, by omega⟩
    have key2 := forDown_eq
      (S := fun k => arr n (fun j => if j ≤ d then
          (if d - k < j then tri f P (min (q + 1) j) j else tri f P (min q j) j) else P j))
      d (q + 1) (B (q + 1)) ?_
    · have h0 : arr n (fun j => if j ≤ d then tri f P (min (q + 1 - 1) j) j else P j)
          = arr n (fun j => if j ≤ d then
          (if d - 0 < j then tri f P (min (q + 1) j) j else tri f P (min q j) j) else P j) := by
        apply arr_congr; intro i _
        by_cases h : i ≤ d
        · have : ¬ d < i := by omega
          simp [h, this]
        · simp [h]
      rw [h0, key2]
      congr 1
      apply arr_congr
      intro i _
      by_cases h : i ≤ d
      · by_cases h2 : d - (d + 1 - (q + 1)) < i
        · simp only [h, h2, if_true, Nat.add_sub_cancel]
        · have e1 : min q i = i := by omega
          have e2 : min (q + 1) i = i := by omega
          simp only [h, h2, if_true, if_false, Nat.add_sub_cancel, e1, e2]
      · simp [h]
    · intro k hk
      apply hB (q + 1) (d - k) (by omega) (by omega) (by omega)
      intro i hi
      have a1 : d - k ≤ d := by omega
      have a2 : d - k - 1 ≤ d := by omega
      have a3 : ¬ (d - k < d - k) := by omega
      have a4 : ¬ (d - k < d - k - 1) := by omega
      have e1 : min q (d - k) = q := by omega
      have e2 : min q (d - k - 1) = q := by omega
      have e3 : min (q + 1) (d - k) = q + 1 := by omega
      by_cases hij : i = d - k
      · subst hij
        have a5 : d - (k + 1) < d - k := by omega
        simp only [a1, a2, a3, a4, a5, e1, e2, e3, if_true, if_false, tri]
      · simp only [hij, if_false]
        by_cases hi2 : i ≤ d
        · have : (d - (k + 1) < i) ↔ (d - k < i) := by omega
          simp only [hi2, if_true, this]
        · simp [hi2]

end NS

namespace NS.BSpline

open Outcome Spec Polynomial Finset

variable {K V : Type} [Field K] [LinearOrder K] [IsStrictOrderedRing K] [FloorRing K]
  [AddCommGroup V] [Module K V]

/-- Control point `i` of the object. -/
def ctrlAt (c : BSpline K V) (i : ℕ) : V := c.ctrl.getD i 0

theorem rd_ctrl {c : BSpline K V} {i : ℕ} (h : i < c.ctrl.length) :
    rd c.ctrl i = ok (ctrlAt c i) := by
  rw [rd_of_lt h]; simp [ctrlAt, h]

theorem rdI_knot {u : List K} {z : ℤ} {i : ℕ} (hz : z = i) (h : i < u.length) :
    rdI u z = ok (knot u i) := by
  rw [hz, rdI_natCast, rd_knot h]

theorem replicate_eq_arr' {α : Type} (n : ℕ) (a : α) :
    List.replicate n a = arr n (fun _ => a) := by
  apply eq_arr_of
  · simp
  · intro i hi; simp

theorem spanCtrl_eq (c : BSpline K V) (p k : ℕ) (hpk : p ≤ k) (hk : k < c.ctrl.length) :
    c.spanCtrl p k = ok (arr (p + 1) (fun i => ctrlAt c (k - p + i))) := by
  unfold spanCtrl
  rw [replicate_eq_arr']
  have key := loop_eq
    (S := fun i => arr (p + 1) (fun j => if j < i then ctrlAt c (k - p + j) else (0 : V)))
    (p + 1)
    (fun i q => do
      let idx : ℤ := (k : ℤ) - p + i
      Outcome.assert (idx ≥ 0)
      Outcome.assert (idx < c.ctrl.length)
      let a ← rdI c.ctrl idx
      wr q i a) ?_
  · have h0 : arr (p + 1) (fun _ => (0 : V))
        = arr (p + 1) (fun j => if j < 0 then ctrlAt c (k - p + j) else (0 : V)) := by
      apply arr_congr; intro i _; simp
    rw [h0, key]
    congr 1
    apply arr_congr
    intro i hi
    simp [hi]
  · intro i hi
    have e : (k : ℤ) - p + i = (k - p + i : ℕ) := by omega
    simp only [e]
    rw [assert_true (by omega), ok_bind, assert_true (by omega), ok_bind, rdI_natCast,
      rd_ctrl (by omega), ok_bind]
    apply wr_arr _ hi
    intro j hj
    by_cases h : j = i
    · simp [h]
    · have : j < i + 1 ↔ j < i := by omega
      simp [h, this]

/-- Local knots of span `k` for degree `p`. -/
def loc (u : ℕ → K) (k p : ℕ) (j : ℕ) : K := u (k - p + j)

/-- The guard `diff > 1e-16` is passed on a wide span. -/
theorem blossom_arr (u : List K) (m : ℕ) (ts : ℕ → K) (n p k : ℕ) (P : ℕ → V)
    (hn : p < n) (hm : p ≤ m) (hpk : p ≤ k) (hs : u.Pairwise (· ≤ ·)) (hk : k + p + 1 ≤ u.length)
    (hu : k + 1 < u.length)
    (hw : tiny K < knot u (k + 1) - knot u k) :
    blossom u (arr m ts) p k (arr n P) =
      ok (arr n (fun j => if j ≤ p then dB p (loc (knot u) k p) ts P j j else P j)) := by
  unfold blossom
  rw [assert_true (by simpa using hn), ok_bind]
  have hbody : ∀ r, 1 ≤ r → r < p + 1 → ∀ q : List V,
      (do
        let t ← rd (arr m ts) (r - 1)
        forDown p r (fun j q => do
          let a ← rdI u (j + k + 1 - r)
          let b ← rdI u (j + k - p)
          let diff := a - b
          let alpha := if diff > tiny K then (t - b) / diff else 0
          let x ← rd q (j - 1)
          let y ← rd q j
          wr q j ((1 - alpha) • x + alpha • y)) q)
      = forDown p r (fun j q => do
          let a ← rdI u (j + k + 1 - r)
          let b ← rdI u (j + k - p)
          let diff := a - b
          let alpha := if diff > tiny K then (ts (r - 1) - b) / diff else 0
          let x ← rd q (j - 1)
          let y ← rd q j
          wr q j ((1 - alpha) • x + alpha • y)) q := by
    intro r h1 h2 q
    rw [rd_arr (by omega), ok_bind]
  have hrew : ∀ s : List V, forUp 1 (p + 1) (fun r q => do
        let t ← rd (arr m ts) (r - 1)
        forDown p r (fun j q => do
          let a ← rdI u (j + k + 1 - r)
          let b ← rdI u (j + k - p)
          let diff := a - b
          let alpha := if diff > tiny K then (t - b) / diff else 0
          let x ← rd q (j - 1)
          let y ← rd q j
          wr q j ((1 - alpha) • x + alpha • y)) q) s
      = forUp 1 (p + 1) (fun r q => forDown p r (fun j q => do
          let a ← rdI u (j + k + 1 - r)
          let b ← rdI u (j + k - p)
          let diff := a - b
          let alpha := if diff > tiny K then (ts (r - 1) - b) / diff else 0
          let x ← rd q (j - 1)
          let y ← rd q j
          wr q j ((1 - alpha) • x + alpha • y)) q) s := by
    intro s
    unfold forUp
    apply loop_congr
    intro i hi s
    exact hbody (1 + i) (by omega) (by omega) s
  rw [hrew]
  rw [tri_loop (f := fun r j x y =>
      (1 - (ts (r - 1) - loc (knot u) k p j) /
        (loc (knot u) k p (p + j - (r - 1)) - loc (knot u) k p j)) • x
      + ((ts (r - 1) - loc (knot u) k p j) /
        (loc (knot u) k p (p + j - (r - 1)) - loc (knot u) k p j)) • y) P n p]
  · have : ∀ r j, tri (fun r j x y =>
      (1 - (ts (r - 1) - loc (knot u) k p j) /
        (loc (knot u) k p (p + j - (r - 1)) - loc (knot u) k p j)) • x
      + ((ts (r - 1) - loc (knot u) k p j) /
        (loc (knot u) k p (p + j - (r - 1)) - loc (knot u) k p j)) • y) P r j
        = dB p (loc (knot u) k p) ts P r j := by
      intro r
      induction r with
      | zero => intro j; rfl
      | succ r ih => intro j; simp only [tri, dB, ih, Nat.add_sub_cancel]
    simp only [this]
  · intro r j h1 h2 h3 g h hh
    have e1 : ((j : ℤ) + k + 1 - r) = (k - p + (p + j - (r - 1)) : ℕ) := by omega
    have e2 : ((j : ℤ) + k - p) = (k - p + j : ℕ) := by omega
    rw [rdI_knot e1 (by omega), ok_bind, rdI_knot e2 (by omega), ok_bind]
    have hd : knot u (k - p + (p + j - (r - 1))) - knot u (k - p + j) > tiny K := by
      have m1 := knot_mono hs (i := k - p + j) (j := k) (by omega) (by omega)
      have m2 := knot_mono hs (i := k + 1) (j := k - p + (p + j - (r - 1))) (by omega) (by omega)
      have : tiny K < knot u (k - p + (p + j - (r - 1))) - knot u (k - p + j) := by linarith
      exact this
    simp only [hd, if_true]
    rw [rd_arr (by omega), ok_bind, rd_arr (by omega), ok_bind]
    apply wr_arr _ (by omega)
    intro i hi
    rw [hh i hi]
    rfl

theorem deBoor_eq (c : BSpline K V) (t : K) (p n k : ℕ) (P : ℕ → V)
    (hn : p < n) (hdeg : p ≤ c.degree.toNat) (hpk : p ≤ k) (hs : c.knots.Pairwise (· ≤ ·))
    (hk : k + p + 1 ≤ c.knots.length) (hu : k + 1 < c.knots.length)
    (hw : tiny K < knot c.knots (k + 1) - knot c.knots k) :
    c.deBoor t p k (arr n P) = ok (dB p (loc (knot c.knots) k p) (fun _ => t) P p p) := by
  unfold deBoor
  by_cases hp : p > 0
  · simp only [hp, if_true]
    rw [replicate_eq_arr', blossom_arr c.knots _ _ n p k P hn hdeg hpk hs hk hu hw, ok_bind,
      rd_arr hn]
    simp
  · have : p = 0 := by omega
    subst this
    simp only [hp, if_false, ok_bind]
    rw [rd_arr hn]
    rfl

/-- `Q` is the polynomial (in Bézier form) of span `k`. -/
def Repr (u : ℕ → K) (P : ℕ → V) (p k : ℕ) (Q : ℕ → V) : Prop :=
  ∀ i, k - p ≤ i → i ≤ k → P i = umb Q (lprod u (i + 1) p)

theorem Repr.local {u : ℕ → K} {P : ℕ → V} {p k : ℕ} {Q : ℕ → V} (h : Repr u P p k Q)
    (hpk : p ≤ k) : ∀ j ≤ p, P (k - p + j) = umb Q (lprod (loc u k p) (j + 1) p) := by
  intro j hj
  rw [h _ (by omega) (by omega)]
  congr 1
  apply lprod_congr
  intro i _
  simp only [loc]
  congr 1
  omega

theorem loc_mono {u : List K} (hs : u.Pairwise (· ≤ ·)) {k p : ℕ} (hpk : p ≤ k)
    (hk : k + p + 1 ≤ u.length) :
    ∀ i j, 1 ≤ i → i ≤ j → j ≤ 2 * p → loc (knot u) k p i ≤ loc (knot u) k p j := by
  intro i j _ h1 h2
  exact knot_mono hs (by omega) (by omega)

theorem exists_repr {u : List K} (hs : u.Pairwise (· ≤ ·)) (P : ℕ → V) {k p : ℕ} (hpk : p ≤ k)
    (hk : k + p + 1 ≤ u.length) (hlt : knot u k < knot u (k + 1)) :
    ∃ Q, Repr (knot u) P p k Q := by
  obtain ⟨Q, hQ⟩ := exists_bezier p (loc (knot u) k p) (fun j => P (k - p + j))
    (loc_mono hs hpk hk) (by
      have e1 : k - p + p = k := by omega
      have e2 : k - p + (p + 1) = k + 1 := by omega
      simp only [loc, e1, e2]; exact hlt)
  refine ⟨Q, ?_⟩
  intro i h1 h2
  have := hQ (i - (k - p)) (by omega)
  rw [show k - p + (i - (k - p)) = i by omega] at this
  rw [this]
  congr 1
  apply lprod_congr
  intro l _
  simp only [loc]
  congr 1
  omega

/-- Value of the de Boor scheme on a span with a polynomial. -/
theorem dB_repr {u : List K} (hs : u.Pairwise (· ≤ ·)) {P : ℕ → V} {k p : ℕ} (hpk : p ≤ k)
    (hk : k + p + 1 ≤ u.length) (hlt : knot u k < knot u (k + 1)) {Q : ℕ → V}
    (hQ : Repr (knot u) P p k Q) (t : K) :
    dB p (loc (knot u) k p) (fun _ => t) (fun j => P (k - p + j)) p p = umb Q (lin t ^ p) := by
  rw [dB_final p _ _ _ (umb Q) (loc_mono hs hpk hk) (by
      have e1 : k - p + p = k := by omega
      have e2 : k - p + (p + 1) = k + 1 := by omega
      simp only [loc, e1, e2]; exact hlt) (hQ.local hpk)]
  rw [lprod_const (t := t) (fun _ _ => rfl)]

/-- Coefficient sequence of the derivative. -/
def diffQ (p : ℕ) (Q : ℕ → V) (m : ℕ) : V := (p : K) • (Q (m + 1) - Q m)

theorem umb_diffQ (p : ℕ) (Q : ℕ → V) (f : K[X]) :
    umb (diffQ (K := K) p Q) f = (p : K) • umb Q ((X - 1) * f) := by
  rw [sub_mul, one_mul, map_sub, umb_shift]
  induction f using Polynomial.induction_on' with
  | add f g hf hg => simp only [map_add, hf, hg, ← smul_add]; congr 1; abel
  | monomial i a => simp only [umb_monomial, diffQ]; module

theorem lin_sub (a b : K) : lin b - lin a = C (b - a) * (X - 1) := by
  simp only [lin, map_sub, map_one]
  ring

/-- Divided differences of control points represent the derivative polynomial. -/
theorem diff_ctrl (u : ℕ → K) (P : ℕ → V) (p i : ℕ) (Q : ℕ → V)
    (h1 : P i = umb Q (lprod u (i + 1) (p + 1)))
    (h2 : P (i + 1) = umb Q (lprod u (i + 2) (p + 1)))
    (hne : u (i + p + 2) - u (i + 1) ≠ 0) :
    (((p + 1 : ℕ) : K) / (u (i + p + 2) - u (i + 1))) • (P (i + 1) - P i)
      = umb (diffQ (K := K) (p + 1) Q) (lprod u (i + 2) p) := by
  rw [h1, h2, ← map_sub, lprod_succ' u (i + 1), lprod_succ u (i + 2),
    show i + 2 + p = i + p + 2 by omega, show i + 1 + 1 = i + 2 by omega]
  rw [mul_comm (lprod u (i + 2) p), ← sub_mul, lin_sub, mul_assoc, umb_C_mul, smul_smul, umb_diffQ]
  congr 1
  field_simp

theorem derivativeCoefficients_arr (c : BSpline K V) (n k N : ℕ) (P : ℕ → V)
    (hn : n < N) (hnk : n ≤ k) (hs : c.knots.Pairwise (· ≤ ·)) (hk : k + n + 1 ≤ c.knots.length)
    (hu : k + 1 < c.knots.length) (hlt : knot c.knots k < knot c.knots (k + 1)) :
    c.derivativeCoefficients n k (arr N P) = ok (arr N (fun i => if i < n then
      ((n : K) / (knot c.knots (i + k + 1) - knot c.knots (i + k + 1 - n))) • (P (i + 1) - P i)
      else P i)) := by
  unfold derivativeCoefficients
  have key := loop_eq
    (S := fun m => arr N (fun i => if i < m then
      ((n : K) / (knot c.knots (i + k + 1) - knot c.knots (i + k + 1 - n))) • (P (i + 1) - P i)
      else P i)) n
    (fun i q => do
      let a ← rdI c.knots (i + k + 1)
      let b ← rdI c.knots (i + k + 1 - n)
      let diff := a - b
      let alpha : K := if diff > 0 then (n : K) / diff else 0
      let x ← rd q (i + 1)
      let y ← rd q i
      wr q i (alpha • (x - y))) ?_
  · rw [← key]
    congr 1
  · intro i hi
    have e1 : ((i : ℤ) + k + 1) = (i + k + 1 : ℕ) := by omega
    have e2 : ((i : ℤ) + k + 1 - n) = (i + k + 1 - n : ℕ) := by omega
    rw [rdI_knot e1 (by omega), ok_bind, rdI_knot e2 (by omega), ok_bind]
    have hd : knot c.knots (i + k + 1) - knot c.knots (i + k + 1 - n) > 0 := by
      have m1 := knot_mono hs (i := i + k + 1 - n) (j := k) (by omega) (by omega)
      have m2 := knot_mono hs (i := k + 1) (j := i + k + 1) (by omega) (by omega)
      have : 0 < knot c.knots (i + k + 1) - knot c.knots (i + k + 1 - n) := by linarith
      exact this
    simp only [hd, if_true]
    rw [rd_arr (by omega), ok_bind, rd_arr (by omega), ok_bind]
    apply wr_arr _ (by omega)
    intro j hj
    by_cases h : j = i
    · subst h
      simp
    · have : j < i + 1 ↔ j < i := by omega
      simp [h, this]

end NS.BSpline
