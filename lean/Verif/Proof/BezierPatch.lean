import Verif.Model.BezierPatch
import Verif.Proof.BezierEval
import Verif.Spec.Patch

/-! # Evaluation, derivatives and splitting of Bézier patches -/

set_option linter.unusedSectionVars false

namespace NS

open Outcome Polynomial Finset

section Umb

variable {K V : Type} [Field K] [AddCommGroup V] [Module K V]

theorem umb_smul_fun (a : K) (P : ℕ → V) (p : K[X]) :
    umb (fun i => a • P i) p = a • umb P p := by
  induction p using Polynomial.induction_on' with
  | add p q hp hq => simp only [map_add, hp, hq, smul_add]
  | monomial i b => rw [umb_monomial, umb_monomial, smul_comm]

theorem umb_add_fun (P Q : ℕ → V) (p : K[X]) :
    umb (fun i => P i + Q i) p = umb P p + umb Q p := by
  induction p using Polynomial.induction_on' with
  | add p q hp hq => simp only [map_add, hp, hq]; abel
  | monomial i b => simp only [umb_monomial, smul_add]

theorem umb_sub_fun (P Q : ℕ → V) (p : K[X]) :
    umb (fun i => P i - Q i) p = umb P p - umb Q p := by
  induction p using Polynomial.induction_on' with
  | add p q hp hq => simp only [map_add, hp, hq]; abel
  | monomial i b => simp only [umb_monomial, smul_sub]

theorem umb_zero_fun (p : K[X]) : umb (fun _ => (0 : V)) p = 0 := by
  induction p using Polynomial.induction_on' with
  | add p q hp hq => simp only [map_add, hp, hq, add_zero]
  | monomial i b => simp only [umb_monomial, smul_zero]

theorem umb_diff (P : ℕ → V) (p : K[X]) :
    umb (fun i => P (i + 1) - P i) p = umb P (p * (X - 1)) := by
  rw [umb_sub_fun, ← umb_shift, ← map_sub]
  congr 1
  ring

/-- Exchanging the two directions. -/
theorem umb_fubini (P : ℕ → ℕ → V) (p q : K[X]) :
    umb (fun i => umb (P i) q) p = umb (fun j => umb (fun i => P i j) p) q := by
  induction p using Polynomial.induction_on' with
  | add p p' hp hp' =>
    rw [map_add, hp, hp', ← umb_add_fun]
    simp only [map_add]
  | monomial i a =>
    rw [umb_monomial, ← umb_smul_fun]
    simp only [umb_monomial]

end Umb

section Derivs

variable {K V : Type} [Field K] [LinearOrder K] [IsStrictOrderedRing K] [FloorRing K]
  [AddCommGroup V] [Module K V]

theorem evaluateDerivative_umb (n : ℕ) (P : ℕ → V) (t : K) :
    Bezier.evaluateDerivative ({ ctrl := arr (n + 1) P } : Bezier V) t
      = ok ((n : K) • umb P (lin t ^ (n - 1) * (X - 1))) := by
  rcases n with _ | n
  · rw [Bezier.evaluateDerivative_arr1]; simp
  · rw [Bezier.evaluateDerivative_arr]; simp

theorem evaluate2ndDerivative_umb (n : ℕ) (P : ℕ → V) (t : K) :
    Bezier.evaluate2ndDerivative ({ ctrl := arr (n + 1) P } : Bezier V) t
      = ok (((n.descFactorial 2 : ℕ) : K) • umb P (lin t ^ (n - 2) * (X - 1) ^ 2)) := by
  rcases n with _ | _ | n
  · rw [Bezier.evaluate2ndDerivative_arr1]; simp [Nat.descFactorial]
  · rw [Bezier.evaluate2ndDerivative_arr2]; simp [Nat.descFactorial]
  · rw [Bezier.evaluate2ndDerivative_arr]
    congr 2
    simp [Nat.descFactorial]
    ring

end Derivs

namespace BezierPatch

variable {K V : Type} [Field K] [LinearOrder K] [IsStrictOrderedRing K] [FloorRing K]
  [AddCommGroup V] [Module K V]

/-- Degrees are set and the grid has the matching size: what `initialize` accepts. -/
structure WellFormed (p : BezierPatch V) (m n : ℕ) : Prop where
  degU : p.degU = m
  degV : p.degV = n
  len : p.grid.length = (m + 1) * (n + 1)

theorem WellFormed.degreeU {p : BezierPatch V} {m n : ℕ} (h : p.WellFormed m n) :
    p.degreeU = ok m := by
  unfold BezierPatch.degreeU
  rw [h.degU, assert_true (by omega)]
  simp

theorem WellFormed.degreeV {p : BezierPatch V} {m n : ℕ} (h : p.WellFormed m n) :
    p.degreeV = ok n := by
  unfold BezierPatch.degreeV
  rw [h.degV, assert_true (by omega)]
  simp

theorem WellFormed.numU {p : BezierPatch V} {m n : ℕ} (h : p.WellFormed m n) :
    p.numU = ok (m + 1) := by
  unfold BezierPatch.numU; rw [h.degreeU]; rfl

theorem WellFormed.numV {p : BezierPatch V} {m n : ℕ} (h : p.WellFormed m n) :
    p.numV = ok (n + 1) := by
  unfold BezierPatch.numV; rw [h.degreeV]; rfl

theorem init_iff (p : BezierPatch V) :
    p.init = ok () ↔ ∃ m n, p.WellFormed m n := by
  constructor
  · intro h
    unfold init at h
    obtain ⟨m, h1, h⟩ := bind_eq_ok.1 h
    obtain ⟨n, h2, h⟩ := bind_eq_ok.1 h
    unfold degreeU at h1
    unfold degreeV at h2
    obtain ⟨_, ha, h1⟩ := bind_eq_ok.1 h1
    obtain ⟨_, hb, h2⟩ := bind_eq_ok.1 h2
    have ha' : p.degU ≥ 0 := by
      by_contra hh; rw [assert_false hh] at ha; cases ha
    have hb' : p.degV ≥ 0 := by
      by_contra hh; rw [assert_false hh] at hb; cases hb
    have h1' : p.degU.toNat = m := by simpa using h1
    have h2' : p.degV.toNat = n := by simpa using h2
    refine ⟨m, n, by omega, by omega, ?_⟩
    by_contra hh
    rw [throwIf_true hh] at h
    cases h
  · rintro ⟨m, n, h⟩
    unfold init
    rw [h.degreeU, ok_bind, h.degreeV, ok_bind, throwIf_false (by simpa using h.len)]

theorem init_ok {p : BezierPatch V} {m n : ℕ} (h : p.WellFormed m n) : p.init = ok () :=
  (init_iff p).2 ⟨m, n, h⟩

/-- The points of the grid as a function of two indices. -/
def pts (p : BezierPatch V) (n : ℕ) (i j : ℕ) : V := Spec.gridPoint p.grid (n + 1) i j

theorem WellFormed.grid {p : BezierPatch V} {m n : ℕ} (h : p.WellFormed m n) :
    p.grid = gridOf (m + 1) (n + 1) (p.pts n) := exists_gridOf 0 h.len

theorem WellFormed.getControlPoint {p : BezierPatch V} {m n i j : ℕ} (h : p.WellFormed m n)
    (hi : i < m + 1) (hj : j < n + 1) : p.getControlPoint i j = ok (p.pts n i j) := by
  unfold BezierPatch.getControlPoint linearIndex
  rw [h.numV, ok_bind]
  conv_lhs => rw [h.grid]
  exact rd_gridOf _ hi hj

theorem WellFormed.isoCurvesV {p : BezierPatch V} {m n : ℕ} (h : p.WellFormed m n) :
    p.isoCurvesV = ok (arr (m + 1) (fun i =>
      { ctrl := arr (n + 1) (p.pts n i), periodic := p.perV })) := by
  unfold BezierPatch.isoCurvesV
  rw [h.numU, ok_bind, h.numV, ok_bind]
  apply tab_eq
  intro i hi
  rw [tab_eq (g := p.pts n i) (fun j hj => h.getControlPoint hi hj)]
  rfl

theorem WellFormed.isoCurvesU {p : BezierPatch V} {m n : ℕ} (h : p.WellFormed m n) :
    p.isoCurvesU = ok (arr (n + 1) (fun j =>
      { ctrl := arr (m + 1) (fun i => p.pts n i j), periodic := p.perU })) := by
  unfold BezierPatch.isoCurvesU
  rw [h.numU, ok_bind, h.numV, ok_bind]
  apply tab_eq
  intro j hj
  rw [tab_eq (g := fun i => p.pts n i j) (fun i hi => h.getControlPoint hi hj)]
  rfl

theorem evaluate_arr_wrap (n : ℕ) (P : ℕ → V) (per : Bool) {t t' : K}
    (ht : Bezier.wrap per t = ok t') :
    Bezier.evaluate ({ ctrl := arr (n + 1) P, periodic := per } : Bezier V) t
      = ok (umb P (lin t' ^ n)) := by
  rw [Bezier.evaluate_wrap]
  simp only [ht, ok_bind]
  exact Bezier.evaluate_arr n P t'

theorem WellFormed.isoCurveU {p : BezierPatch V} {m n : ℕ} (h : p.WellFormed m n) {v v' : K}
    (hv : Bezier.wrap p.perV v = ok v') :
    p.isoCurveU v = ok { ctrl := arr (m + 1) (fun i => umb (p.pts n i) (lin v' ^ n)),
                         periodic := p.perU } := by
  unfold BezierPatch.isoCurveU
  rw [h.numU, ok_bind, h.isoCurvesV, ok_bind,
    tab_eq (g := fun i => umb (p.pts n i) (lin v' ^ n))]
  · rfl
  · intro i hi
    rw [rd_arr hi, ok_bind, evaluate_arr_wrap n _ _ hv]

theorem WellFormed.isoCurveV {p : BezierPatch V} {m n : ℕ} (h : p.WellFormed m n) {u u' : K}
    (hu : Bezier.wrap p.perU u = ok u') :
    p.isoCurveV u = ok { ctrl := arr (n + 1) (fun j => umb (fun i => p.pts n i j) (lin u' ^ m)),
                         periodic := p.perV } := by
  unfold BezierPatch.isoCurveV
  rw [h.numV, ok_bind, h.isoCurvesU, ok_bind,
    tab_eq (g := fun j => umb (fun i => p.pts n i j) (lin u' ^ m))]
  · rfl
  · intro j hj
    rw [rd_arr hj, ok_bind, evaluate_arr_wrap m _ _ hu]

/-- Closed form of the partial derivative of order `a` in `u` and `b` in `v`. -/
noncomputable def part (m n : ℕ) (P : ℕ → ℕ → V) (a b : ℕ) (u v : K) : V :=
  ((m.descFactorial a : ℕ) : K) • ((n.descFactorial b : ℕ) : K) •
    umb (fun i => umb (P i) (lin v ^ (n - b) * (X - 1) ^ b)) (lin u ^ (m - a) * (X - 1) ^ a)

theorem part_zero (m n : ℕ) (P : ℕ → ℕ → V) (u v : K) :
    part m n P 0 0 u v = umb (fun i => umb (P i) (lin v ^ n)) (lin u ^ m) := by
  simp [part]

theorem part_swap (m n : ℕ) (P : ℕ → ℕ → V) (a b : ℕ) (u v : K) :
    part m n P a b u v = part n m (fun j i => P i j) b a v u := by
  unfold part
  rw [umb_fubini, smul_comm]

theorem part_eq_surface {p : BezierPatch V} (m n : ℕ) (u v : K) :
    part m n (p.pts n) 0 0 u v = Spec.bezierSurface m n p.grid u v := by
  rw [part_zero, umb_lin_pow]
  unfold Spec.bezierSurface
  apply sum_congr rfl
  intro i _
  rw [umb_lin_pow, smul_sum]
  apply sum_congr rfl
  intro j _
  rw [smul_smul]
  rfl

section

variable {p : BezierPatch V} {m n : ℕ} {u v u' v' : K}

theorem WellFormed.evaluateUV (h : p.WellFormed m n)
    (hu : Bezier.wrap p.perU u = ok u') (hv : Bezier.wrap p.perV v = ok v') :
    (do let c ← p.isoCurveU v; c.evaluate u) = ok (part m n (p.pts n) 0 0 u' v') := by
  rw [h.isoCurveU hv, ok_bind, evaluate_arr_wrap _ _ _ hu, part_zero]

theorem WellFormed.evaluateVU (h : p.WellFormed m n)
    (hu : Bezier.wrap p.perU u = ok u') (hv : Bezier.wrap p.perV v = ok v') :
    (do let c ← p.isoCurveV u; c.evaluate v) = ok (part m n (p.pts n) 0 0 u' v') := by
  rw [h.isoCurveV hu, ok_bind, evaluate_arr_wrap _ _ _ hv, part_zero, umb_fubini]

theorem WellFormed.evaluate (h : p.WellFormed m n)
    (hu : Bezier.wrap p.perU u = ok u') (hv : Bezier.wrap p.perV v = ok v') :
    p.evaluate u v = ok (part m n (p.pts n) 0 0 u' v') := by
  unfold BezierPatch.evaluate
  split
  · exact h.evaluateVU hu hv
  · exact h.evaluateUV hu hv

theorem WellFormed.derivU (h : p.WellFormed m n)
    (hu : Bezier.wrap p.perU u = ok u') (hv : Bezier.wrap p.perV v = ok v') :
    p.derivU u v = ok (part m n (p.pts n) 1 0 u' v') := by
  unfold BezierPatch.derivU
  rw [h.isoCurveU hv, ok_bind, Bezier.evaluateDerivative_wrap]
  simp only [hu, ok_bind]
  rw [evaluateDerivative_umb]
  simp [part]

theorem WellFormed.derivV (h : p.WellFormed m n)
    (hu : Bezier.wrap p.perU u = ok u') (hv : Bezier.wrap p.perV v = ok v') :
    p.derivV u v = ok (part m n (p.pts n) 0 1 u' v') := by
  unfold BezierPatch.derivV
  rw [h.isoCurveV hu, ok_bind, Bezier.evaluateDerivative_wrap]
  simp only [hv, ok_bind]
  rw [evaluateDerivative_umb, part_swap]
  simp [part]

theorem WellFormed.derivUU (h : p.WellFormed m n)
    (hu : Bezier.wrap p.perU u = ok u') (hv : Bezier.wrap p.perV v = ok v') :
    p.derivUU u v = ok (part m n (p.pts n) 2 0 u' v') := by
  unfold BezierPatch.derivUU
  rw [h.isoCurveU hv, ok_bind, Bezier.evaluate2ndDerivative_wrap]
  simp only [hu, ok_bind]
  rw [evaluate2ndDerivative_umb]
  simp [part]

theorem WellFormed.derivVV (h : p.WellFormed m n)
    (hu : Bezier.wrap p.perU u = ok u') (hv : Bezier.wrap p.perV v = ok v') :
    p.derivVV u v = ok (part m n (p.pts n) 0 2 u' v') := by
  unfold BezierPatch.derivVV
  rw [h.isoCurveV hu, ok_bind, Bezier.evaluate2ndDerivative_wrap]
  simp only [hv, ok_bind]
  rw [evaluate2ndDerivative_umb, part_swap]
  simp [part]

end

/-- A patch over the grid `Q` has the points `Q`. -/
theorem pts_gridOf {m n : ℕ} (Q : ℕ → ℕ → V) (q : BezierPatch V)
    (hg : q.grid = gridOf (m + 1) (n + 1) Q) {i j : ℕ} (hi : i < m + 1) (hj : j < n + 1) :
    q.pts n i j = Q i j := by
  unfold pts Spec.gridPoint
  rw [hg, List.getD_eq_getElem?_getD, gridOf_get Q hi hj, Option.getD_some]

theorem natDegree_factor (t : K) (n b : ℕ) (hb : b ≤ n) :
    (lin t ^ (n - b) * (X - 1) ^ b).natDegree ≤ n := by
  have h1 : (lin t ^ (n - b)).natDegree ≤ n - b := Bezier.natDegree_lin_pow t (n - b)
  have h2 : ((X - 1 : K[X]) ^ b).natDegree ≤ b := by
    refine natDegree_pow_le.trans ?_
    have : (X - 1 : K[X]).natDegree ≤ 1 := by
      have := natDegree_X_sub_C (1 : K)
      simp only [map_one] at this
      exact this.le
    calc b * _ ≤ b * 1 := Nat.mul_le_mul_left _ this
      _ = b := by simp
  exact natDegree_mul_le.trans (by omega)

theorem part_congr {m n : ℕ} {P Q : ℕ → ℕ → V}
    (h : ∀ i < m + 1, ∀ j < n + 1, P i j = Q i j) (a b : ℕ) (u v : K) :
    part m n P a b u v = part m n Q a b u v := by
  unfold part
  by_cases ha : a ≤ m
  · by_cases hb : b ≤ n
    · congr 2
      apply umb_congr _ _ _ m (natDegree_factor u m a ha)
      intro i hi
      exact umb_congr _ _ _ n (natDegree_factor v n b hb) (fun j hj => h i (by omega) j (by omega))
    · rw [Nat.descFactorial_of_lt (by omega : n < b)]; simp
  · rw [Nat.descFactorial_of_lt (by omega : m < a)]; simp

theorem evaluate_gridOf {q : BezierPatch V} {m n : ℕ} {Q : ℕ → ℕ → V}
    (hg : q.grid = gridOf (m + 1) (n + 1) Q) (hm : q.degU = m) (hn : q.degV = n)
    (hu : q.perU = false) (hv : q.perV = false) (u v : K) :
    q.evaluate u v = ok (part m n Q 0 0 u v) := by
  have hw : q.WellFormed m n := ⟨hm, hn, by rw [hg]; simp⟩
  rw [hw.evaluate (u' := u) (v' := v) (by rw [hu]; rfl) (by rw [hv]; rfl)]
  congr 1
  exact part_congr (fun i hi j hj => pts_gridOf Q q hg hi hj) 0 0 u v

theorem zeroPatch_eq : zeroPatch V = ok { grid := [0], degU := 0, degV := 0 } := by
  unfold zeroPatch
  have : WellFormed ({ grid := [0], degU := 0, degV := 0 } : BezierPatch V) 0 0 := ⟨rfl, rfl, rfl⟩
  have h := (init_iff _).2 ⟨0, 0, this⟩
  simp only [h, ok_bind]
  rfl

theorem zeroPatch_evaluate (u v : K) :
    evaluate ({ grid := [0], degU := 0, degV := 0 } : BezierPatch V) u v = ok 0 := by
  have : WellFormed ({ grid := [0], degU := 0, degV := 0 } : BezierPatch V) 0 0 := ⟨rfl, rfl, rfl⟩
  rw [this.evaluate (u' := u) (v' := v) rfl rfl, part_zero]
  simp [umb_one, pts, Spec.gridPoint]

/-- Filling a fresh grid in row order. -/
theorem fill_grid {m n : ℕ} {f : ℕ → ℕ → Outcome V} {Q : ℕ → ℕ → V}
    (hf : ∀ i < m, ∀ j < n, f i j = ok (Q i j)) :
    fill m n (fun i j => i * n + j) f (List.replicate (m * n) 0) = ok (gridOf m n Q) := by
  obtain ⟨g, e, l, H⟩ := fill_spec (N := m * n) (idx := fun i j => i * n + j) hf
    (fun i hi j hj => lin_lt hi hj)
    (fun i _ j hj i' _ j' hj' h => lin_inj hj hj' h) (g := List.replicate (m * n) (0 : V)) (by simp)
  rw [e, eq_gridOf l H]

theorem WellFormed.duvPatch {p : BezierPatch V} {m n : ℕ} (h : p.WellFormed (m + 1) (n + 1)) :
    p.duvPatch K = ok
      { grid := gridOf (m + 1) (n + 1) (fun i j => ((n + 1 : ℕ) : K) •
          (((m + 1 : ℕ) : K) • (p.pts (n + 1) (i + 1) (j + 1) - p.pts (n + 1) i (j + 1))
            - ((m + 1 : ℕ) : K) • (p.pts (n + 1) (i + 1) j - p.pts (n + 1) i j))),
        degU := m, degV := n, perU := p.perU, perV := p.perV } := by
  unfold BezierPatch.duvPatch
  rw [h.degreeU, ok_bind, h.degreeV, ok_bind, if_neg (by omega)]
  rw [fill_grid (Q := fun i j => ((n + 1 : ℕ) : K) •
          (((m + 1 : ℕ) : K) • (p.pts (n + 1) (i + 1) (j + 1) - p.pts (n + 1) i (j + 1))
            - ((m + 1 : ℕ) : K) • (p.pts (n + 1) (i + 1) j - p.pts (n + 1) i j)))]
  · rw [ok_bind]
    have e1 : (((m + 1 : ℕ) : ℤ) - 1) = m := by omega
    have e2 : (((n + 1 : ℕ) : ℤ) - 1) = n := by omega
    simp only [e1, e2]
    rw [init_ok (m := m) (n := n) ⟨rfl, rfl, by simp⟩]
    rfl
  · intro i hi j hj
    rw [h.getControlPoint (by omega) (by omega), ok_bind,
      h.getControlPoint (by omega) (by omega), ok_bind,
      h.getControlPoint (by omega) (by omega), ok_bind,
      h.getControlPoint (by omega) (by omega), ok_bind]
    rfl

theorem WellFormed.duPatch {p : BezierPatch V} {m n : ℕ} (h : p.WellFormed (m + 1) n) :
    p.duPatch K = ok
      { grid := gridOf (m + 1) (n + 1)
          (fun i j => ((m + 1 : ℕ) : K) • (p.pts n (i + 1) j - p.pts n i j)),
        degU := m, degV := n } := by
  unfold BezierPatch.duPatch
  rw [h.degreeU, ok_bind, h.degreeV, ok_bind, if_neg (by omega)]
  rw [fill_grid (Q := fun i j => ((m + 1 : ℕ) : K) • (p.pts n (i + 1) j - p.pts n i j))]
  · rw [ok_bind]
    have e1 : (((m + 1 : ℕ) : ℤ) - 1) = m := by omega
    simp only [e1]
    rw [init_ok (m := m) (n := n) ⟨rfl, rfl, by simp⟩]
    rfl
  · intro i hi j hj
    rw [h.getControlPoint (by omega) (by omega), ok_bind,
      h.getControlPoint (by omega) (by omega), ok_bind]
    rfl

theorem WellFormed.dvPatch {p : BezierPatch V} {m n : ℕ} (h : p.WellFormed m (n + 1)) :
    p.dvPatch K = ok
      { grid := gridOf (m + 1) (n + 1)
          (fun i j => ((n + 1 : ℕ) : K) • (p.pts (n + 1) i (j + 1) - p.pts (n + 1) i j)),
        degU := m, degV := n } := by
  unfold BezierPatch.dvPatch
  rw [h.degreeU, ok_bind, h.degreeV, ok_bind, if_neg (by omega)]
  rw [fill_grid (Q := fun i j => ((n + 1 : ℕ) : K) • (p.pts (n + 1) i (j + 1) - p.pts (n + 1) i j))]
  · rw [ok_bind]
    have e1 : (((n + 1 : ℕ) : ℤ) - 1) = n := by omega
    simp only [e1]
    rw [init_ok (m := m) (n := n) ⟨rfl, rfl, by simp⟩]
    rfl
  · intro i hi j hj
    rw [h.getControlPoint (by omega) (by omega), ok_bind,
      h.getControlPoint (by omega) (by omega), ok_bind]
    rfl

/-- The control points of the `u` derivative. -/
theorem part_du (m n : ℕ) (P : ℕ → ℕ → V) (u v : K) :
    part m n (fun i j => ((m + 1 : ℕ) : K) • (P (i + 1) j - P i j)) 0 0 u v
      = part (m + 1) n P 1 0 u v := by
  rw [part_zero]
  have e : ∀ i, umb (fun j => ((m + 1 : ℕ) : K) • (P (i + 1) j - P i j)) (lin v ^ n)
      = ((m + 1 : ℕ) : K) • (umb (P (i + 1)) (lin v ^ n) - umb (P i) (lin v ^ n)) := by
    intro i
    rw [umb_smul_fun, umb_sub_fun]
  simp only [e]
  rw [umb_smul_fun, umb_diff (fun i => umb (P i) (lin v ^ n))]
  simp [part]

theorem part_dv (m n : ℕ) (P : ℕ → ℕ → V) (u v : K) :
    part m n (fun i j => ((n + 1 : ℕ) : K) • (P i (j + 1) - P i j)) 0 0 u v
      = part m (n + 1) P 0 1 u v := by
  rw [part_swap, part_swap m (n + 1)]
  exact part_du n m (fun j i => P i j) v u

theorem part_duv (m n : ℕ) (P : ℕ → ℕ → V) (u v : K) :
    part m n (fun i j => ((n + 1 : ℕ) : K) • (((m + 1 : ℕ) : K) • (P (i + 1) (j + 1) - P i (j + 1))
        - ((m + 1 : ℕ) : K) • (P (i + 1) j - P i j))) 0 0 u v
      = part (m + 1) (n + 1) P 1 1 u v := by
  rw [part_dv m n (fun i j => ((m + 1 : ℕ) : K) • (P (i + 1) j - P i j))]
  unfold part
  have e : ∀ i, umb (fun j => ((m + 1 : ℕ) : K) • (P (i + 1) j - P i j))
        (lin v ^ (n + 1 - 1) * (X - 1) ^ 1)
      = ((m + 1 : ℕ) : K) • (umb (P (i + 1)) (lin v ^ (n + 1 - 1) * (X - 1) ^ 1)
        - umb (P i) (lin v ^ (n + 1 - 1) * (X - 1) ^ 1)) := by
    intro i
    rw [umb_smul_fun, umb_sub_fun]
  simp only [e]
  rw [umb_smul_fun, umb_diff (fun i => umb (P i) (lin v ^ (n + 1 - 1) * (X - 1) ^ 1))]
  simp [smul_smul]
  congr 1
  ring

theorem WellFormed.derivUV {p : BezierPatch V} {m n : ℕ} {u v u' v' : K} (h : p.WellFormed m n)
    (hu : Bezier.wrap p.perU u = ok u') (hv : Bezier.wrap p.perV v = ok v') :
    p.derivUV u v = ok (part m n (p.pts n) 1 1 u' v') := by
  unfold BezierPatch.derivUV
  by_cases h0 : m = 0 ∨ n = 0
  · have e : p.duvPatch K = zeroPatch V := by
      unfold BezierPatch.duvPatch
      rw [h.degreeU, ok_bind, h.degreeV, ok_bind, if_pos h0]
    rw [e, zeroPatch_eq, ok_bind, zeroPatch_evaluate]
    rcases h0 with rfl | rfl <;> simp [part]
  · obtain ⟨m, rfl⟩ := Nat.exists_eq_succ_of_ne_zero (fun e => h0 (Or.inl e))
    obtain ⟨n, rfl⟩ := Nat.exists_eq_succ_of_ne_zero (fun e => h0 (Or.inr e))
    obtain ⟨q, e, eg, eu, ev, pu, pv⟩ : ∃ q : BezierPatch V, p.duvPatch K = ok q ∧
        q.grid = gridOf (m + 1) (n + 1) (fun i j => ((n + 1 : ℕ) : K) •
          (((m + 1 : ℕ) : K) • (p.pts (n + 1) (i + 1) (j + 1) - p.pts (n + 1) i (j + 1))
            - ((m + 1 : ℕ) : K) • (p.pts (n + 1) (i + 1) j - p.pts (n + 1) i j))) ∧
        q.degU = m ∧ q.degV = n ∧ q.perU = p.perU ∧ q.perV = p.perV :=
      ⟨_, h.duvPatch, rfl, rfl, rfl, rfl, rfl⟩
    rw [e, ok_bind, WellFormed.evaluate (p := q) (m := m) (n := n) ⟨eu, ev, by rw [eg]; simp⟩
      (by rw [pu]; exact hu) (by rw [pv]; exact hv)]
    congr 1
    rw [← part_duv]
    apply part_congr
    intro i hi j hj
    exact pts_gridOf _ _ eg hi hj

/-! ### Splitting -/

/-- The columns (or rows) of both grids after splitting the iso-curves. -/
theorem splitLoop_spec {eps u : K} (he : 0 ≤ eps) (h0 : 0 < u) (h1 : u < 1) {N M L : ℕ}
    (C : ℕ → ℕ → V) (per : Bool) {idx : ℕ → ℕ → ℕ}
    (hidx : ∀ k < N, ∀ i < M, idx k i < L)
    (hinj : ∀ k < N, ∀ i < M, ∀ k' < N, ∀ i' < M, idx k i = idx k' i' → k = k' ∧ i = i')
    {g : List V} (hg : g.length = L) :
    ∃ g0 g1, loop N (fun k gs => do
        let iso ← rd (arr N (fun k => ({ ctrl := arr M (C k), periodic := per } : Bezier V))) k
        splitStep eps iso u M (idx k) gs) (g, g) = ok (g0, g1) ∧ g0.length = L ∧ g1.length = L ∧
      ∀ k < N, ∀ i < M, g0[idx k i]? = some (umb (C k) (lin u ^ i)) ∧
        g1[idx k i]? = some (umb (C k) (lin u ^ (M - 1 - i) * X ^ i)) := by
  have key := loop_inv (fun k (gs : List V × List V) => gs.1.length = L ∧ gs.2.length = L ∧
      ∀ a < k, ∀ i < M, gs.1[idx a i]? = some (umb (C a) (lin u ^ i)) ∧
        gs.2[idx a i]? = some (umb (C a) (lin u ^ (M - 1 - i) * X ^ i))) N
    (fun k gs => do
        let iso ← rd (arr N (fun k => ({ ctrl := arr M (C k), periodic := per } : Bezier V))) k
        splitStep eps iso u M (idx k) gs) (g, g) ⟨hg, hg, by simp⟩ (by
    rintro k hk ⟨a, b⟩ ⟨la, lb, H⟩
    simp only at la lb H
    have hd : Bezier.inDomain eps u = true := by
      simp [Bezier.inDomain]; constructor <;> linarith
    have hs : Bezier.freeSplit eps ({ ctrl := arr M (C k), periodic := per } : Bezier V) u
        = ok [{ ctrl := arr M (fun i => umb (C k) (lin u ^ i)) },
            { ctrl := arr M (fun i => umb (C k) (lin u ^ (M - 1 - i) * X ^ i)) }] := by
      rw [Bezier.freeSplit, throwIf_false (by simpa using hd), ok_bind, if_neg h0.ne', if_neg h1.ne,
        Bezier.split_arr _ _ _ _ h0 h1]
      simp [rd]
    obtain ⟨a', ea, la', ha1, ha2⟩ := copyTo_spec (n := M) (idx := idx k)
      (s := fun i => umb (C k) (lin u ^ i)) (hidx k hk)
      (fun i hi j hj e => (hinj k hk i hi k hk j hj e).2) la
    obtain ⟨b', eb, lb', hb1, hb2⟩ := copyTo_spec (n := M) (idx := idx k)
      (s := fun i => umb (C k) (lin u ^ (M - 1 - i) * X ^ i)) (hidx k hk)
      (fun i hi j hj e => (hinj k hk i hi k hk j hj e).2) lb
    refine ⟨(a', b'), ?_, la', lb', ?_⟩
    · rw [rd_arr hk, ok_bind]
      unfold splitStep
      rw [hs, ok_bind]
      simp only [rd, List.getElem?_cons_succ, List.getElem?_cons_zero, ok_bind]
      rw [ea, ok_bind, eb, ok_bind]
      rfl
    · intro c hc i hi
      rcases Nat.lt_succ_iff_lt_or_eq.mp hc with hc | hc
      · have hne : ∀ j < M, idx c i ≠ idx k j := fun j hj e => by
          have := (hinj c (by omega) i hi k hk j hj e).1; omega
        simp only
        rw [ha2 _ hne, hb2 _ hne]
        exact H c hc i hi
      · subst hc
        exact ⟨ha1 i hi, hb1 i hi⟩)
  obtain ⟨⟨g0, g1⟩, e, l0, l1, H⟩ := key
  exact ⟨g0, g1, e, l0, l1, H⟩

theorem isEndpoint_false {u : K} (h0 : 0 < u) (h1 : u < 1) : isEndpoint u = false := by
  simp [isEndpoint, h0.ne', h1.ne]

theorem WellFormed.splitU {p : BezierPatch V} {m n : ℕ} (h : p.WellFormed m n) {eps u : K}
    (he : 0 ≤ eps) (h0 : 0 < u) (h1 : u < 1) :
    p.splitU eps u = ok
      [ofGrid p.sU p.sV (gridOf (m + 1) (n + 1)
          (fun i j => umb (fun i => p.pts n i j) (lin u ^ i))),
       ofGrid p.sU p.sV (gridOf (m + 1) (n + 1)
          (fun i j => umb (fun i => p.pts n i j) (lin u ^ (m - i) * X ^ i)))] := by
  have hd : Bezier.inDomain eps u = true := by
    simp [Bezier.inDomain]; constructor <;> linarith
  unfold BezierPatch.splitU
  rw [throwIf_false (by simpa using hd), ok_bind, isEndpoint_false h0 h1]
  simp only [Bool.false_eq_true, if_false]
  rw [h.isoCurvesU, ok_bind, h.numU, ok_bind, h.numV, ok_bind]
  obtain ⟨g0, g1, e, l0, l1, H⟩ := splitLoop_spec he h0 h1 (N := n + 1) (M := m + 1)
    (L := (m + 1) * (n + 1)) (fun j i => p.pts n i j) p.perU
    (idx := fun vj ui => ui * (n + 1) + vj)
    (fun k hk i hi => lin_lt hi hk)
    (fun k hk i hi k' hk' i' hi' e => (lin_inj hk hk' e).symm)
    (g := List.replicate ((m + 1) * (n + 1)) 0) (by simp)
  rw [e, ok_bind]
  rw [eq_gridOf l0 (fun i hi j hj => (H j hj i hi).1),
    eq_gridOf l1 (fun i hi j hj => (H j hj i hi).2)]
  rfl

theorem WellFormed.splitV {p : BezierPatch V} {m n : ℕ} (h : p.WellFormed m n) {eps v : K}
    (he : 0 ≤ eps) (h0 : 0 < v) (h1 : v < 1) :
    p.splitV eps v = ok
      [ofGrid p.sU p.sV (gridOf (m + 1) (n + 1)
          (fun i j => umb (p.pts n i) (lin v ^ j))),
       ofGrid p.sU p.sV (gridOf (m + 1) (n + 1)
          (fun i j => umb (p.pts n i) (lin v ^ (n - j) * X ^ j)))] := by
  have hd : Bezier.inDomain eps v = true := by
    simp [Bezier.inDomain]; constructor <;> linarith
  unfold BezierPatch.splitV
  rw [throwIf_false (by simpa using hd), ok_bind, isEndpoint_false h0 h1]
  simp only [Bool.false_eq_true, if_false]
  rw [h.isoCurvesV, ok_bind, h.numU, ok_bind, h.numV, ok_bind]
  obtain ⟨g0, g1, e, l0, l1, H⟩ := splitLoop_spec he h0 h1 (N := m + 1) (M := n + 1)
    (L := (m + 1) * (n + 1)) (fun i j => p.pts n i j) p.perV
    (idx := fun ui vj => ui * (n + 1) + vj)
    (fun k hk i hi => lin_lt hk hi)
    (fun k hk i hi k' hk' i' hi' e => lin_inj hi hi' e)
    (g := List.replicate ((m + 1) * (n + 1)) 0) (by simp)
  rw [e, ok_bind]
  rw [eq_gridOf l0 (fun i hi j hj => (H i hi j hj).1),
    eq_gridOf l1 (fun i hi j hj => (H i hi j hj).2)]
  rfl

/-- Restriction of a Bézier form to `[a, b]`. -/
theorem umb_restrict (m : ℕ) (P : ℕ → V) (a b s : K) :
    umb (fun i => umb P (lin a ^ (m - i) * lin b ^ i)) (lin s ^ m)
      = umb P (lin (a + (b - a) * s) ^ m) := by
  rw [umb_lin_pow, umb_compose, lin_affine]
  congr 3
  ring

theorem part_restrictU (m n : ℕ) (P : ℕ → ℕ → V) (a b s v : K) :
    part m n (fun i j => umb (fun i => P i j) (lin a ^ (m - i) * lin b ^ i)) 0 0 s v
      = part m n P 0 0 (a + (b - a) * s) v := by
  rw [part_zero, part_zero, umb_fubini]
  simp only [umb_restrict]
  rw [← umb_fubini]

theorem part_restrictV (m n : ℕ) (P : ℕ → ℕ → V) (a b u s : K) :
    part m n (fun i j => umb (P i) (lin a ^ (n - j) * lin b ^ j)) 0 0 u s
      = part m n P 0 0 u (a + (b - a) * s) := by
  rw [part_swap, part_swap m n P]
  exact part_restrictU n m (fun j i => P i j) a b s u

end BezierPatch

end NS
