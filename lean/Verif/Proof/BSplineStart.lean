import Verif.Proof.BSplineCurve

/-!
# Evaluation at the lower end of the domain when the first span is empty

`locate_span` then returns an empty span; the de Boor scheme still yields the right point as long
as the multiplicity of the end knot does not exceed the degree.
-/

set_option linter.unusedSectionVars false
set_option linter.unusedSimpArgs false

namespace NS.BSpline

open Outcome Spec Polynomial Finset

variable {K V : Type} [Field K] [LinearOrder K] [IsStrictOrderedRing K] [FloorRing K]
  [AddCommGroup V] [Module K V]

/-- Guarded coefficient of the scheme. -/
def galpha (u : ℕ → K) (t : K) (p k r j : ℕ) : K :=
  if u (j + k + 1 - r) - u (j + k - p) > tiny K then
    (t - u (j + k - p)) / (u (j + k + 1 - r) - u (j + k - p)) else 0

theorem deBoor_tri (c : BSpline K V) (t : K) (p n k : ℕ) (P : ℕ → V)
    (hn : p < n) (hdeg : p ≤ c.degree.toNat) (hpk : p ≤ k) (hk : k + p + 1 ≤ c.knots.length) :
    c.deBoor t p k (arr n P) = ok (tri (fun r j x y =>
      (1 - galpha (knot c.knots) t p k r j) • x + galpha (knot c.knots) t p k r j • y) P p p) := by
  unfold deBoor
  by_cases hp : p > 0
  · simp only [hp, if_true]
    rw [replicate_eq_arr']
    unfold blossom
    rw [assert_true (by simpa using hn), ok_bind]
    have hrew : ∀ s : List V, forUp 1 (p + 1) (fun r q => do
        let t ← rd (arr c.degree.toNat (fun _ => t)) (r - 1)
        forDown p r (fun j q => do
          let a ← rdI c.knots (j + k + 1 - r)
          let b ← rdI c.knots (j + k - p)
          let diff := a - b
          let alpha := if diff > tiny K then (t - b) / diff else 0
          let x ← rd q (j - 1)
          let y ← rd q j
          wr q j ((1 - alpha) • x + alpha • y)) q) s
      = forUp 1 (p + 1) (fun r q => forDown p r (fun j q => do
          let a ← rdI c.knots (j + k + 1 - r)
          let b ← rdI c.knots (j + k - p)
          let diff := a - b
          let alpha := if diff > tiny K then (t - b) / diff else 0
          let x ← rd q (j - 1)
          let y ← rd q j
          wr q j ((1 - alpha) • x + alpha • y)) q) s := by
      intro s
      unfold forUp
      apply loop_congr
      intro i hi s
      simp only []
      rw [rd_arr (by omega), ok_bind]
    rw [hrew, tri_loop (f := fun r j x y =>
      (1 - galpha (knot c.knots) t p k r j) • x + galpha (knot c.knots) t p k r j • y) P n p,
      ok_bind, rd_arr hn]
    · simp
    · intro r j h1 h2 h3 g h hh
      have e1 : ((j : ℤ) + k + 1 - r) = (j + k + 1 - r : ℕ) := by omega
      have e2 : ((j : ℤ) + k - p) = (j + k - p : ℕ) := by omega
      rw [rdI_knot e1 (by omega), ok_bind, rdI_knot e2 (by omega), ok_bind, rd_arr (by omega),
        ok_bind, rd_arr (by omega), ok_bind]
      apply wr_arr _ (by omega)
      intro i hi
      rw [hh i hi]
      rfl
  · have : p = 0 := by omega
    subst this
    simp only [hp, if_false, ok_bind]
    rw [rd_arr hn]
    rfl

/-- Knots below the domain are not within `1e-16` of its lower end. -/
def WideLow (c : BSpline K V) (p : ℕ) : Prop :=
  ∀ i < p, knot c.knots i < knot c.knots p → tiny K < knot c.knots p - knot c.knots i

theorem tri_start {u : List K} (hs : u.Pairwise (· ≤ ·)) {p m a : ℕ} {P Q : ℕ → V}
    (hlen : p + m + p + 1 ≤ u.length)
    (hQ : Repr (knot u) P p (p + m) Q) (ham : m + 1 ≤ a) (hap : a ≤ p)
    (hblock : ∀ i, a ≤ i → i ≤ p + m → knot u i = knot u p)
    (hbelow : tiny K < knot u p - knot u (a - 1)) :
    tri (fun r j x y => (1 - galpha (knot u) (knot u p) p p r j) • x
      + galpha (knot u) (knot u p) p p r j • y) P p p = umb Q (lin (knot u p) ^ p) := by
  set t := knot u p with ht
  set f : ℕ → ℕ → V → V → V := fun r j x y => (1 - galpha (knot u) t p p r j) • x
      + galpha (knot u) t p p r j • y with hf
  have tiny_pos : (0 : K) < tiny K := by unfold tiny; positivity
  -- rows from `a` on copy their predecessor
  have A : ∀ i ≤ p - (a - 1), tri f P p p = tri f P (p - i) (p - i) := by
    intro i
    induction i with
    | zero => intro _; rfl
    | succ i ih =>
      intro hi
      rw [ih (by omega)]
      obtain ⟨q, hq⟩ : ∃ q, p - i = q + 1 := ⟨p - i - 1, by omega⟩
      rw [hq, show p - (i + 1) = q by omega, tri]
      have : galpha (knot u) t p p (q + 1) (q + 1) = 0 := by
        unfold galpha
        rw [show q + 1 + p - p = q + 1 by omega, hblock (q + 1) (by omega) (by omega)]
        simp
      simp only [hf, this]
      simp
  -- row `a - 1` is constant in its last rounds
  have B : ∀ i ≤ m, tri f P (a - 1) (a - 1) = tri f P (a - 1 - i) (a - 1) := by
    intro i
    induction i with
    | zero => intro _; rfl
    | succ i ih =>
      intro hi
      rw [ih (by omega)]
      obtain ⟨q, hq⟩ : ∃ q, a - 1 - i = q + 1 := ⟨a - 1 - i - 1, by omega⟩
      rw [hq, show a - 1 - (i + 1) = q by omega, tri]
      have : galpha (knot u) t p p (q + 1) (a - 1) = 1 := by
        unfold galpha
        rw [show a - 1 + p - p = a - 1 by omega,
          hblock (a - 1 + p + 1 - (q + 1)) (by omega) (by omega), if_pos hbelow, div_self]
        have : 0 < t - knot u (a - 1) := by linarith
        exact this.ne'
      simp only [hf, this]
      simp
  -- the remaining part is the polynomial of the first non-empty span
  have C : ∀ r, r ≤ a - 1 - m → ∀ j, m + r ≤ j → j ≤ a - 1 →
      tri f P r j = umb Q (lin t ^ r * lprod (knot u) (j + 1) (p - r)) := by
    intro r
    induction r with
    | zero =>
      intro _ j h1 h2
      rw [tri, hQ j (by omega) (by omega), pow_zero, one_mul]
      rfl
    | succ r ih =>
      intro hr j h1 h2
      rw [tri, ih (by omega) (j - 1) (by omega) (by omega), ih (by omega) j (by omega) (by omega)]
      have m1 := knot_mono hs (i := j) (j := a - 1) (by omega) (by omega)
      have m2 := knot_mono hs (i := p) (j := j + p + 1 - (r + 1)) (by omega) (by omega)
      have hd : knot u (j + p + 1 - (r + 1)) - knot u j > tiny K := by
        have : tiny K < knot u (j + p + 1 - (r + 1)) - knot u j := by linarith
        exact this
      have hd0 : knot u (j + p + 1 - (r + 1)) - knot u j ≠ 0 := (tiny_pos.trans hd).ne'
      have ga : galpha (knot u) t p p (r + 1) j
          = (t - knot u j) / (knot u (j + p + 1 - (r + 1)) - knot u j) := by
        unfold galpha
        rw [show j + p - p = j by omega, if_pos hd]
      simp only [hf, ga]
      have e1 : lprod (knot u) (j - 1 + 1) (p - r)
          = lin (knot u j) * lprod (knot u) (j + 1) (p - (r + 1)) := by
        rw [show j - 1 + 1 = j by omega, show p - r = p - (r + 1) + 1 by omega, lprod_succ']
      have e2 : lprod (knot u) (j + 1) (p - r)
          = lprod (knot u) (j + 1) (p - (r + 1)) * lin (knot u (j + p + 1 - (r + 1))) := by
        rw [show p - r = p - (r + 1) + 1 by omega, lprod_succ]
        congr 3
        omega
      rw [e1, e2, ← umb_C_mul, ← umb_C_mul, ← map_add]
      congr 1
      rw [pow_succ, ← lin_combine (t := t) hd0]
      ring
  rw [A (p - (a - 1)) le_rfl, show p - (p - (a - 1)) = a - 1 by omega, B m le_rfl,
    C (a - 1 - m) le_rfl (a - 1) (by omega) le_rfl, lprod_const (t := t), ← pow_add]
  · congr 2
    omega
  · intro i hi
    exact hblock _ (by omega) (by omega)

/-- Evaluation at the lower end with an empty first span. -/
theorem evaluate_start {c : BSpline K V} {p : ℕ} (hc : WellFormed c p) (hw : WideLow c p)
    (hcount : c.knots.count (knot c.knots p) ≤ p) {t : K} (ht : c.wrap t = ok (knot c.knots p))
    (hfirst : ¬ FirstSpan c p) :
    c.evaluate t = ok (bsplinePoint p c.knots c.ctrl (knot c.knots p)) := by
  have hl := hc.len
  have hcl := hc.ctrl
  obtain ⟨a, b, c1, c2, c3, c4, c5, c6, c7⟩ := multiplicity_block c p (by omega)
  have := multiplicity_count c hc.sorted p (by omega)
  rw [c4] at this
  have e : b - a = c.knots.count (knot c.knots p) := by injection this
  have hp : 1 ≤ p := by omega
  have hb : b ≤ c.ctrl.length := by
    by_contra h
    have := c5 c.ctrl.length (by omega) (by omega)
    have hd := hc.dom
    rw [this] at hd
    exact lt_irrefl _ hd
  have hb1 : p + 1 < b := by
    by_contra h
    apply hfirst
    unfold FirstSpan
    have : b = p + 1 := by omega
    rcases c7 with c7 | c7
    · omega
    · rw [this] at c7
      exact lt_of_le_of_ne (knot_mono hc.sorted (by omega) (by omega)) c7.symm
  obtain ⟨m, hm⟩ : ∃ m, b = p + m + 1 := ⟨b - p - 1, by omega⟩
  have hlt : knot c.knots (p + m) < knot c.knots (p + m + 1) := by
    rw [c5 (p + m) (by omega) (by omega)]
    rcases c7 with c7 | c7
    · omega
    · rw [hm] at c7
      exact lt_of_le_of_ne (knot_mono hc.sorted (by omega) (by omega)) c7.symm
  have ha0 : a ≠ 0 := by omega
  have hbelow : knot c.knots (a - 1) < knot c.knots p := by
    rcases c6 with c6 | c6
    · omega
    · exact lt_of_le_of_ne (knot_mono hc.sorted (by omega) (by omega)) c6
  have hap : a ≤ p := c1
  obtain ⟨Q, hQ⟩ := exists_repr hc.sorted (fun i => c.ctrl.getD i 0) (k := p + m) (p := p)
    (by omega) (by omega) hlt
  have hin : InSpan (knot c.knots) (knot c.knots c.ctrl.length) (p + m) (knot c.knots p) := by
    unfold InSpan
    rw [if_neg hc.dom.ne]
    have := c5 (p + m) (by omega) (by omega)
    exact ⟨this.le, this ▸ hlt⟩
  rw [bsplinePoint_eq hc.sorted hl hin (by omega) (by omega) hQ]
  have hloc : c.locateSpan (knot c.knots p) = ok (p : ℤ) := by
    unfold locateSpan
    rw [assert_true (by omega), ok_bind, degree_eq hc]
    simp only [Int.toNat_natCast]
    rw [rd_knot (by omega), ok_bind, if_pos le_rfl]
  unfold evaluate
  rw [validate_ok hc, ok_bind, ht, ok_bind, hloc, ok_bind, degree_eq hc,
    assert_true (by omega), ok_bind]
  simp only [Int.toNat_natCast]
  rw [spanCtrl_eq c p p le_rfl (by omega), ok_bind,
    deBoor_tri c _ p (p + 1) p _ (by omega) (by rw [degree_eq hc]; simp) le_rfl (by omega)]
  congr 1
  have hsub : (fun i => ctrlAt c (p - p + i)) = (fun i => c.ctrl.getD i 0) := by
    funext i
    simp [ctrlAt]
  rw [hsub]
  exact tri_start hc.sorted (m := m) (a := a) (by omega) hQ (by omega) hap
    (fun i h1 h2 => c5 i h1 (by omega)) (hw (a - 1) (by omega) hbelow)

end NS.BSpline
