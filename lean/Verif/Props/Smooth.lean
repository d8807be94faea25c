import Mathlib.Analysis.Calculus.ContDiff.Operations
import Mathlib.Analysis.Calculus.ContDiff.Deriv
import Mathlib.Analysis.Calculus.Deriv.Slope
import Verif.Props.RationalDeriv
import Verif.Props.RationalNurbs
import Verif.Proof.Smooth

/-!
# C93: smoothness of B-spline curves

At a knot of multiplicity `m ≤ p` the pieces of a spline of degree `p` join with `p - m`
continuous derivatives.
-/

set_option linter.unusedSectionVars false

namespace NS.Props

open Outcome Spec Finset NS.BSpline

section Algebra

variable {K V : Type} [Field K] [LinearOrder K] [IsStrictOrderedRing K] [FloorRing K]
  [AddCommGroup V] [Module K V]

/-- The polynomials on both sides of an interior knot of multiplicity `m ≤ p`. -/
theorem knot_polys {c : BSpline K V} {p : ℕ} (hc : WellFormed c p) {τ : K}
    (h1 : knot c.knots p < τ) (h2 : τ < knot c.knots c.ctrl.length) (hτ : τ ∈ c.knots)
    (hm : c.knots.count τ ≤ p) :
    ∃ a b, knot c.knots p ≤ a ∧ a < τ ∧ τ < b ∧ b ≤ knot c.knots c.ctrl.length ∧
      ∃ P R : ℕ → V, ∀ t, a < t → t < b → bsplinePoint p c.knots c.ctrl t
        = ∑ j ∈ range (p + 1), bernstein p j t • P j
          + (if t < τ then 0 else (t - τ) ^ (p - c.knots.count τ + 1) •
              ∑ j ∈ range (c.knots.count τ), (t - τ) ^ j • R j) := by
  have hl := hc.len
  obtain ⟨k, k1, k2, k3, k4, k5⟩ := knot_block hc h1 h2 hτ
  have hpos : 0 < c.knots.count τ := List.count_pos_iff.2 hτ
  set m := c.knots.count τ with hmdef
  have e1 : knot c.knots (k + 1) = τ := k4 0 hpos
  have e2 : knot c.knots (k + m) = τ := by
    have := k4 (m - 1) (by omega)
    rwa [show k + 1 + (m - 1) = k + m by omega] at this
  obtain ⟨Q1, hQ1⟩ := exists_repr hc.sorted (fun i => c.ctrl.getD i 0) k1 (by omega)
    (by rw [e1]; exact k3)
  obtain ⟨Q2, hQ2⟩ := exists_repr hc.sorted (fun i => c.ctrl.getD i 0) (k := k + m) (p := p)
    (by omega) (by omega) (by rw [e2]; exact k5)
  obtain ⟨R, hR⟩ := umb_join (m := m) hm (fun g hg =>
    repr_join hc.sorted k1 (by omega) hm k3 k4 k5 hQ1 hQ2 g hg)
  have hhi := knot_mono hc.sorted (i := k + m + 1) (j := c.ctrl.length) (by omega) (by omega)
  refine ⟨knot c.knots k, knot c.knots (k + m + 1), knot_mono hc.sorted k1 (by omega), k3, k5, hhi,
    Q1, R, fun t ha hb => ?_⟩
  rw [← umb_lin_pow]
  have hne : t ≠ knot c.knots c.ctrl.length := (lt_of_lt_of_le hb hhi).ne
  by_cases ht : t < τ
  · rw [if_pos ht, add_zero]
    refine bsplinePoint_eq hc.sorted hl ?_ k1 (by omega) hQ1
    rw [InSpan, if_neg hne, e1]
    exact ⟨ha.le, ht⟩
  · rw [if_neg ht, ← hR]
    refine bsplinePoint_eq hc.sorted hl ?_ (by omega) k2 hQ2
    rw [InSpan, if_neg hne, e2]
    exact ⟨not_lt.1 ht, hb⟩

/-- C93 in any ordered field: near an interior knot `τ` of multiplicity `m ≤ p` the values of
`evaluate` are one polynomial of degree `p`, plus `(t - τ)^(p - m + 1)` times another polynomial
to the right of `τ`. -/
theorem C93_join {c : BSpline K V} {p : ℕ} (hc : WellFormed c p) (hw : Wide c p) {τ : K}
    (h1 : knot c.knots p < τ) (h2 : τ < knot c.knots c.ctrl.length) (hτ : τ ∈ c.knots)
    (hm : c.knots.count τ ≤ p) :
    ∃ a b, a < τ ∧ τ < b ∧ ∃ P R : ℕ → V, ∀ t, a < t → t < b → c.evaluate t
        = ok (∑ j ∈ range (p + 1), bernstein p j t • P j
          + (if t < τ then 0 else (t - τ) ^ (p - c.knots.count τ + 1) •
              ∑ j ∈ range (c.knots.count τ), (t - τ) ^ j • R j)) := by
  obtain ⟨a, b, g1, g2, g3, g4, P, R, h⟩ := knot_polys hc h1 h2 hτ hm
  refine ⟨a, b, g2, g3, P, R, fun t ha hb => ?_⟩
  rw [← h t ha hb]
  have t1 := lt_of_le_of_lt g1 ha
  have t2 := lt_of_lt_of_le hb g4
  exact evaluate_eq hc hw (wrap_of_mem hc t1.le (Or.inl t2)) (Or.inr t1) t1.le t2.le

/-- A knot of multiplicity 2 in a quadratic spline: the pieces join continuously. -/
example : ∃ a b, a < (1 / 2 : ℚ) ∧ (1 / 2 : ℚ) < b ∧ ∃ P R : ℕ → ℚ, ∀ t, a < t → t < b →
    exSpline.evaluate t = ok (∑ j ∈ range 3, bernstein 2 j t • P j
      + (if t < 1 / 2 then 0 else (t - 1 / 2) ^ 1 • ∑ j ∈ range 2, (t - 1 / 2) ^ j • R j)) := by
  have hcnt : exSpline.knots.count (1 / 2) = 2 := by decide +kernel
  have := C93_join exSpline_wf exSpline_wide (τ := 1 / 2) (by decide +kernel) (by decide +kernel)
    (by decide +kernel) (by rw [hcnt])
  rw [hcnt] at this
  exact this

end Algebra

section Analysis

variable {V : Type} [NormedAddCommGroup V] [NormedSpace ℝ V]

/-- Truncated powers. -/
noncomputable def trunc (τ : ℝ) (k : ℕ) (t : ℝ) : ℝ := if t < τ then 0 else (t - τ) ^ k

theorem trunc_eq_max (τ : ℝ) (k : ℕ) (t : ℝ) : trunc τ (k + 1) t = max (t - τ) 0 ^ (k + 1) := by
  unfold trunc
  split
  · rename_i h
    rw [max_eq_right (by linarith), zero_pow (by omega)]
  · rename_i h
    rw [max_eq_left (by linarith)]

theorem trunc_deriv (τ : ℝ) (k : ℕ) (t : ℝ) :
    HasDerivAt (trunc τ (k + 2)) ((k + 2 : ℕ) * trunc τ (k + 1) t) t := by
  have hp : ∀ s, HasDerivAt (fun s => (s - τ) ^ (k + 2)) ((k + 2 : ℕ) * (s - τ) ^ (k + 1)) s := by
    intro s
    have := ((hasDerivAt_id' s).sub_const τ).pow (k + 2)
    simp only [mul_one] at this
    exact this
  rcases lt_trichotomy t τ with h | h | h
  · have e : trunc τ (k + 1) t = 0 := by simp [trunc, h]
    rw [e, mul_zero]
    refine (hasDerivAt_const t (0 : ℝ)).congr_of_eventuallyEq ?_
    filter_upwards [Iio_mem_nhds h] with s hs
    simp only [trunc, if_pos (show s < τ from hs)]
  · subst h
    have e : ((k + 2 : ℕ) : ℝ) * trunc t (k + 1) t = 0 := by simp [trunc]
    have e' : ((k + 2 : ℕ) : ℝ) * (t - t) ^ (k + 1) = 0 := by simp
    rw [e]
    have hl : HasDerivWithinAt (trunc t (k + 2)) 0 (Set.Iic t) t := by
      refine (hasDerivAt_const t (0 : ℝ)).hasDerivWithinAt.congr (fun s hs => ?_) (by simp [trunc])
      rcases (show s ≤ t from hs).lt_or_eq with h | h
      · simp [trunc, h]
      · simp [trunc, h]
    have hr : HasDerivWithinAt (trunc t (k + 2)) 0 (Set.Ici t) t := by
      have := (hp t).hasDerivWithinAt (s := Set.Ici t)
      rw [e'] at this
      refine this.congr (fun s hs => ?_) (by simp [trunc])
      simp only [trunc, if_neg (not_lt.2 (show t ≤ s from hs))]
    have := hl.union hr
    rwa [Set.Iic_union_Ici, hasDerivWithinAt_univ] at this
  · have e : trunc τ (k + 1) t = (t - τ) ^ (k + 1) := by simp [trunc, not_lt.2 h.le]
    rw [e]
    refine (hp t).congr_of_eventuallyEq ?_
    filter_upwards [Ioi_mem_nhds h] with s hs
    simp only [trunc, if_neg (not_lt.2 (show τ < s from hs).le)]

theorem trunc_contDiff (τ : ℝ) : ∀ n k : ℕ, n < k → ContDiff ℝ n (trunc τ k)
  | 0, k + 1, _ => by
    have : trunc τ (k + 1) = fun t => max (t - τ) 0 ^ (k + 1) := funext fun t => trunc_eq_max τ k t
    rw [this]
    norm_cast
    rw [contDiff_zero]
    fun_prop
  | n + 1, k + 2, h => by
    have hd : deriv (trunc τ (k + 2)) = fun t => ((k + 2 : ℕ) : ℝ) * trunc τ (k + 1) t :=
      funext fun t => (trunc_deriv τ k t).deriv
    rw [show ((n + 1 : ℕ) : WithTop ℕ∞) = (n : WithTop ℕ∞) + 1 by push_cast; rfl,
      contDiff_succ_iff_deriv]
    refine ⟨fun t => (trunc_deriv τ k t).differentiableAt, by simp, ?_⟩
    rw [hd]
    exact contDiff_const.mul (trunc_contDiff τ n (k + 1) (by omega))

theorem bernstein_contDiff (p : ℕ) (P : ℕ → V) (n : WithTop ℕ∞) :
    ContDiff ℝ n (fun t : ℝ => ∑ j ∈ range (p + 1), bernstein p j t • P j) := by
  refine ContDiff.sum fun j _ => ?_
  refine ContDiff.smul ?_ contDiff_const
  unfold bernstein
  fun_prop

/-- The sum of the basis functions has `p - m` continuous derivatives. -/
theorem spline_contDiff {c : BSpline ℝ V} {p : ℕ} (hc : WellFormed c p) (hfst : FirstSpan c p)
    {m : ℕ} (hmp : m ≤ p)
    (hm : ∀ τ, knot c.knots p < τ → τ < knot c.knots c.ctrl.length → c.knots.count τ ≤ m) :
    ContDiffOn ℝ (p - m : ℕ) (bsplinePoint p c.knots c.ctrl)
      (Set.Icc (knot c.knots p) (knot c.knots c.ctrl.length)) := by
  have hl := hc.len
  set f := bsplinePoint p c.knots c.ctrl with hfdef
  intro t ht
  by_cases hτ : knot c.knots p < t ∧ t < knot c.knots c.ctrl.length ∧ t ∈ c.knots
  · obtain ⟨t1, t2, t3⟩ := hτ
    have hcm := hm t t1 t2
    have hpos : 0 < c.knots.count t := List.count_pos_iff.2 t3
    obtain ⟨a, b, g1, g2, g3, g4, P, R, h⟩ := knot_polys hc t1 t2 t3 (hcm.trans hmp)
    have hg : ContDiff ℝ (p - m : ℕ) (fun s => ∑ j ∈ range (p + 1), bernstein p j s • P j
        + ∑ j ∈ range (c.knots.count t), trunc t (p - c.knots.count t + 1 + j) s • R j) := by
      refine (bernstein_contDiff p P _).add (ContDiff.sum fun j _ => ?_)
      exact ContDiff.smul (trunc_contDiff t _ _ (by omega)) contDiff_const
    refine (hg.contDiffAt.congr_of_eventuallyEq (f₁ := f) ?_).contDiffWithinAt
    filter_upwards [Ioo_mem_nhds g2 g3] with s hs
    rw [hfdef, h s hs.1 hs.2]
    congr 1
    split
    · rename_i hlt
      refine (sum_eq_zero fun j _ => ?_).symm
      simp [trunc, hlt]
    · rename_i hlt
      rw [smul_sum]
      refine sum_congr rfl fun j _ => ?_
      simp only [trunc, if_neg hlt, smul_smul, ← pow_add]
  · obtain ⟨k, Q, hk, hin⟩ := exists_atSpan hc t (Or.inl hfst) ht.1 ht.2
    have hkle := hk.le
    have hklt := hk.lt
    have khi := knot_mono hc.sorted (i := k + 1) (j := c.ctrl.length) (by omega) (by omega)
    have hmemk : ∀ i, i < c.knots.length → knot c.knots i ∈ c.knots := by
      intro i hi
      rw [knot, List.getD_eq_getElem?_getD, List.getElem?_eq_getElem hi, Option.getD_some]
      exact List.getElem_mem hi
    have hev : f =ᶠ[nhdsWithin t (Set.Icc (knot c.knots p) (knot c.knots c.ctrl.length))]
        fun s => umb Q (lin s ^ p) := by
      have hspan : ∀ s, knot c.knots p ≤ s → s ≤ knot c.knots c.ctrl.length →
          InSpan (knot c.knots) (knot c.knots c.ctrl.length) k s → f s = umb Q (lin s ^ p) := by
        intro s s1 s2 hs
        exact bsplinePoint_eq hc.sorted hl hs hk.le hk.lt hk.repr
      have hself : ∀ s, knot c.knots k < s ∨ k = p → s < knot c.knots (k + 1) ∨
          knot c.knots (k + 1) = knot c.knots c.ctrl.length →
          knot c.knots p ≤ s → s ≤ knot c.knots c.ctrl.length → f s = umb Q (lin s ^ p) := by
        intro s s1 s2 s3 s4
        refine hspan s s3 s4 ?_
        unfold InSpan
        split
        · rename_i heq
          refine ⟨hk.ne, ?_⟩
          rcases s2 with s2 | s2
          · exact absurd s2 (not_lt.2 (by rw [heq]; exact khi))
          · exact s2
        · rename_i hne
          refine ⟨?_, ?_⟩
          · rcases s1 with s1 | s1
            · exact s1.le
            · rw [s1]; exact s3
          · rcases s2 with s2 | s2
            · exact s2
            · rw [s2]; exact lt_of_le_of_ne s4 hne
      by_cases hup : t = knot c.knots c.ctrl.length
      · have hin' := hin
        unfold InSpan at hin'
        rw [if_pos hup] at hin'
        have hkt : knot c.knots k < t := by rw [hup, ← hin'.2]; exact hin'.1
        filter_upwards [self_mem_nhdsWithin, nhdsWithin_le_nhds (Ioi_mem_nhds hkt)] with s hs hs'
        exact hself s (Or.inl hs') (Or.inr hin'.2) hs.1 hs.2
      · have hin' := hin
        unfold InSpan at hin'
        rw [if_neg hup] at hin'
        have hup' : t < knot c.knots c.ctrl.length := lt_of_le_of_ne ht.2 hup
        by_cases hlow : t = knot c.knots p
        · have hkp : k = p := by
            by_contra hne
            have := knot_mono hc.sorted (i := p + 1) (j := k) (by omega) (by omega)
            exact absurd hfst (not_lt.2 (by rw [← hlow]; exact this.trans hin'.1))
          filter_upwards [self_mem_nhdsWithin, nhdsWithin_le_nhds (Iio_mem_nhds hin'.2)] with s hs hs'
          exact hself s (Or.inr hkp) (Or.inl hs') hs.1 hs.2
        · have hlow' : knot c.knots p < t := lt_of_le_of_ne ht.1 (Ne.symm hlow)
          have hkt : knot c.knots k < t := by
            refine lt_of_le_of_ne hin'.1 fun he => hτ ⟨hlow', hup', ?_⟩
            rw [← he]
            exact hmemk k (by omega)
          filter_upwards [self_mem_nhdsWithin, nhdsWithin_le_nhds (Ioo_mem_nhds hkt hin'.2)]
            with s hs hs'
          exact hself s (Or.inl hs'.1) (Or.inl hs'.2) hs.1 hs.2
    have hpoly : ContDiff ℝ (p - m : ℕ) (fun s : ℝ => umb Q (lin s ^ p)) := by
      simp only [umb_lin_pow]
      exact bernstein_contDiff p Q _
    exact hpoly.contDiffAt.contDiffWithinAt.congr_of_eventuallyEq hev (hev.self_of_nhdsWithin ht)

/-- C93: if every interior knot has multiplicity at most `m ≤ p`, the curve has `p - m` continuous
derivatives on its closed domain. -/
theorem C93_contDiff {c : BSpline ℝ V} {p : ℕ} (hc : WellFormed c p) (hw : Wide c p)
    (hper : c.periodic = false) (hfst : FirstSpan c p) {m : ℕ} (hmp : m ≤ p)
    (hm : ∀ τ, knot c.knots p < τ → τ < knot c.knots c.ctrl.length → c.knots.count τ ≤ m)
    {f : ℝ → V} (hf : ∀ s, knot c.knots p ≤ s → s ≤ knot c.knots c.ctrl.length →
      c.evaluate s = ok (f s)) :
    ContDiffOn ℝ (p - m : ℕ) f (Set.Icc (knot c.knots p) (knot c.knots c.ctrl.length)) := by
  refine (spline_contDiff hc hfst hmp hm).congr fun s hs => ?_
  have := hf s hs.1 hs.2
  rw [evaluate_eq hc hw (wrap_nonperiodic hper s) (Or.inl hfst) hs.1 hs.2] at this
  exact (ok.inj this).symm

/-- C93: a spline without knots of multiplicity above its degree is continuous. -/
theorem C93_continuous {c : BSpline ℝ V} {p : ℕ} (hc : WellFormed c p) (hw : Wide c p)
    (hper : c.periodic = false) (hfst : FirstSpan c p)
    (hm : ∀ τ, knot c.knots p < τ → τ < knot c.knots c.ctrl.length → c.knots.count τ ≤ p)
    {f : ℝ → V} (hf : ∀ s, knot c.knots p ≤ s → s ≤ knot c.knots c.ctrl.length →
      c.evaluate s = ok (f s)) :
    ContinuousOn f (Set.Icc (knot c.knots p) (knot c.knots c.ctrl.length)) :=
  (C93_contDiff hc hw hper hfst le_rfl hm hf).continuousOn

/-- Right derivatives of a smooth function are two-sided derivatives. -/
theorem two_sided {f f' f'' : ℝ → V} {a b : ℝ} {N : ℕ} (hC : ContDiffOn ℝ N f (Set.Icc a b))
    (hD1 : ∀ s, a < s → s < b → HasDerivWithinAt f (f' s) (Set.Ici s) s)
    (hD2 : ∀ s, a < s → s < b → HasDerivWithinAt f' (f'' s) (Set.Ici s) s) {t : ℝ} (h1 : a < t)
    (h2 : t < b) : (1 ≤ N → HasDerivAt f (f' t) t) ∧ (2 ≤ N → HasDerivAt f' (f'' t) t) := by
  have hopen : ∀ s, a < s → s < b → ContDiffAt ℝ N f s := fun s s1 s2 =>
    (hC s ⟨s1.le, s2.le⟩).contDiffAt (Icc_mem_nhds s1 s2)
  have hone : 1 ≤ N → ∀ s, a < s → s < b → HasDerivAt f (f' s) s := by
    intro hN s s1 s2
    have hdiff : DifferentiableAt ℝ f s :=
      (hopen s s1 s2).differentiableAt (by
        have : N ≠ 0 := by omega
        exact_mod_cast this)
    have hu : UniqueDiffWithinAt ℝ (Set.Ici s) s := uniqueDiffOn_Ici s s Set.self_mem_Ici
    have := hu.eq_deriv _ (hD1 s s1 s2) hdiff.hasDerivAt.hasDerivWithinAt
    rw [this]
    exact hdiff.hasDerivAt
  refine ⟨fun hN => hone hN t h1 h2, fun hN => ?_⟩
  have hev : f' =ᶠ[nhds t] deriv f := by
    filter_upwards [Ioo_mem_nhds h1 h2] with s hs
    exact (hone (by omega) s hs.1 hs.2).deriv.symm
  have hdd : DifferentiableAt ℝ (deriv f) t := by
    have h3 : ContDiffAt ℝ (1 + 1) f t := (hopen t h1 h2).of_le (by
      have : (1 + 1 : ℕ) ≤ N := by omega
      exact_mod_cast this)
    have h4 := (h3.fderiv_right (m := 1) le_rfl).differentiableAt one_ne_zero
    exact h4.clm_apply (differentiableAt_const (1 : ℝ))
  have hdf : DifferentiableAt ℝ f' t := hdd.congr_of_eventuallyEq hev
  have hu : UniqueDiffWithinAt ℝ (Set.Ici t) t := uniqueDiffOn_Ici t t Set.self_mem_Ici
  have := hu.eq_deriv _ (hD2 t h1 h2) hdf.hasDerivAt.hasDerivWithinAt
  rw [this]
  exact hdf.hasDerivAt

/-- C93: with multiplicities below the degree, `evaluate_derivative` is the two-sided derivative at
every parameter inside the domain, knots included; with multiplicities below the degree minus one
so is `evaluate_2nd_derivative`. -/
theorem C93_derivatives {c : BSpline ℝ V} {p : ℕ} (hc : WellFormed c p) (hw : Wide c p)
    (hper : c.periodic = false) (hfst : FirstSpan c p) {m : ℕ} (hmp : m + 1 ≤ p)
    (hm : ∀ τ, knot c.knots p < τ → τ < knot c.knots c.ctrl.length → c.knots.count τ ≤ m)
    {f f' f'' : ℝ → V}
    (hf : ∀ s, knot c.knots p ≤ s → s ≤ knot c.knots c.ctrl.length → c.evaluate s = ok (f s))
    (hf' : ∀ s, knot c.knots p ≤ s → s ≤ knot c.knots c.ctrl.length →
      c.evaluateDerivative s = ok (f' s))
    (hf'' : ∀ s, knot c.knots p ≤ s → s ≤ knot c.knots c.ctrl.length →
      c.evaluate2ndDerivative s = ok (f'' s)) {t : ℝ} (h1 : knot c.knots p < t)
    (h2 : t < knot c.knots c.ctrl.length) :
    HasDerivAt f (f' t) t ∧ (m + 2 ≤ p → HasDerivAt f' (f'' t) t) := by
  have hC := C93_contDiff hc hw hper hfst (by omega : m ≤ p) hm hf
  have hD := C15_derivative_partial hc hw hper f f' f'' hf hf' hf''
  have h := two_sided hC (fun s s1 s2 => ((hD s s1.le s2.le (Or.inl hfst)).1 s2).1)
    (fun s s1 s2 => ((hD s s1.le s2.le (Or.inl hfst)).1 s2).2) h1 h2
  exact ⟨h.1 (by omega), fun hm2 => h.2 (by omega)⟩

/-- C93 for NURBS curves with positive weights. -/
theorem C93_nurbs {c : NURBS ℝ V} (hc : c.init = ok c) {p : ℕ} (hwf : WellFormed c.base p)
    (hw : Wide c.base p) (hfst : FirstSpan c.base p) (hper : c.base.periodic = false)
    (hpos : ∀ x ∈ c.weights, 0 < x) {m : ℕ} (hmp : m ≤ p)
    (hm : ∀ τ, knot c.base.knots p < τ → τ < knot c.base.knots c.base.ctrl.length →
      c.base.knots.count τ ≤ m)
    {f : ℝ → V} (hf : ∀ s, knot c.base.knots p ≤ s → s ≤ knot c.base.knots c.base.ctrl.length →
      c.evaluate s = ok (f s)) :
    ContDiffOn ℝ (p - m : ℕ) f
      (Set.Icc (knot c.base.knots p) (knot c.base.knots c.base.ctrl.length)) := by
  obtain ⟨S, -, -⟩ := (NURBS.init_iff _ _).1 hc
  have hhp : c.hom.periodic = false := by rw [S.per]; exact hper
  have hg := C93_contDiff (f := fun s => bsplinePoint p c.hom.knots c.hom.ctrl s) (S.wf.2 hwf)
    (S.wide.2 hw) hhp (S.first.2 hfst) hmp
    (by rw [S.knots, S.homLen]; exact hm)
    (fun s s1 s2 => evaluate_eq (S.wf.2 hwf) (S.wide.2 hw) (wrap_nonperiodic hhp s)
      (Or.inl (S.first.2 hfst)) s1 s2)
  rw [S.knots, S.homLen] at hg
  have hden : ∀ t ∈ Set.Icc (knot c.base.knots p) (knot c.base.knots c.base.ctrl.length),
      (bsplinePoint p c.base.knots c.hom.ctrl t).2 ≠ 0 := by
    intro t ht
    rw [S.ctrl, homog_bsplinePoint S.len]
    exact (ratBSplineDen_pos hwf hfst S.len hpos ht.1 ht.2).ne'
  refine ((hg.snd.inv hden).smul hg.fst).congr fun t ht => ?_
  have h1 := hf t ht.1 ht.2
  rw [S.evaluate hwf hw (wrap_nonperiodic hper t) (Or.inl hfst) ht.1 ht.2,
    if_neg (ratBSplineDen_pos hwf hfst S.len hpos ht.1 ht.2).ne'] at h1
  rw [← ok.inj h1]
  simp only [S.ctrl, homog_bsplinePoint S.len]
  rfl

/-- C93: the derivative evaluators of such a NURBS curve, knots included. -/
theorem C93_nurbs_derivatives {c : NURBS ℝ V} (hc : c.init = ok c) {p : ℕ}
    (hwf : WellFormed c.base p)
    (hw : Wide c.base p) (hfst : FirstSpan c.base p) (hper : c.base.periodic = false)
    (hpos : ∀ x ∈ c.weights, 0 < x) {m : ℕ} (hmp : m + 1 ≤ p)
    (hm : ∀ τ, knot c.base.knots p < τ → τ < knot c.base.knots c.base.ctrl.length →
      c.base.knots.count τ ≤ m) :
    ∃ f f' f'' : ℝ → V, ∀ t, knot c.base.knots p < t → t < knot c.base.knots c.base.ctrl.length →
      c.evaluate t = ok (f t) ∧ c.evaluateDerivative t = ok (f' t) ∧
      c.evaluate2ndDerivative t = ok (f'' t) ∧ HasDerivAt f (f' t) t ∧
      (m + 2 ≤ p → HasDerivAt f' (f'' t) t) := by
  obtain ⟨S, -, -⟩ := (NURBS.init_iff _ _).1 hc
  have hden : ∀ t, knot c.base.knots p ≤ t → t ≤ knot c.base.knots c.base.ctrl.length →
      ratBSplineDen p c.base.knots c.weights t ≠ 0 := fun t t1 t2 =>
    (ratBSplineDen_pos hwf hfst S.len hpos t1 t2).ne'
  obtain ⟨f, f', f'', h⟩ := C25_nurbs_partial hc hwf hw hfst hper
  have hC := C93_nurbs hc hwf hw hfst hper hpos (by omega : m ≤ p) hm
    (fun s s1 s2 => (h s s1 s2 (hden s s1 s2)).1)
  refine ⟨f, f', f'', fun t t1 t2 => ?_⟩
  have ht := h t t1.le t2.le (hden t t1.le t2.le)
  have := two_sided hC (fun s s1 s2 => ((h s s1.le s2.le (hden s s1.le s2.le)).2.2.2.1 s2).1)
    (fun s s1 s2 => ((h s s1.le s2.le (hden s s1.le s2.le)).2.2.2.1 s2).2) t1 t2
  exact ⟨ht.1, ht.2.1, ht.2.2.1, this.1 (by omega), fun hm2 => this.2 (by omega)⟩

/-- A quadratic spline with one simple interior knot. -/
noncomputable def bump : BSpline ℝ ℝ := { ctrl := [0, 1, 1, 0], knots := [0, 0, 0, 1, 2, 2, 2] }

theorem bump_wf : WellFormed bump 2 :=
  ⟨by simp [bump], Or.inl rfl, by simp [bump], by simp [bump], by simp [bump, knot]⟩

theorem bump_wide : Wide bump 2 := by
  intro i h1 h2 h3
  have h2' : i < 4 := h2
  interval_cases i <;> simp [bump, knot, BSpline.tiny] <;> norm_num

theorem bump_first : FirstSpan bump 2 := by simp [FirstSpan, bump, knot]

theorem bump_mult (τ : ℝ) (h1 : knot bump.knots 2 < τ) (h2 : τ < knot bump.knots bump.ctrl.length) :
    bump.knots.count τ ≤ 1 := by
  simp only [bump, knot, List.getD_cons_succ, List.getD_cons_zero, List.length_cons,
    List.length_nil] at h1 h2
  have e0 : (0 : ℝ) ≠ τ := h1.ne
  have e2 : (2 : ℝ) ≠ τ := h2.ne'
  simp only [bump, List.count_cons, List.count_nil, beq_iff_eq, e0, e2, if_false]
  split <;> simp

/-- It is continuously differentiable. -/
example {f : ℝ → ℝ} (hf : ∀ s, 0 ≤ s → s ≤ 2 → bump.evaluate s = ok (f s)) :
    ContDiffOn ℝ 1 f (Set.Icc 0 2) := by
  have := C93_contDiff bump_wf bump_wide rfl bump_first (by decide : 1 ≤ 2) bump_mult (f := f)
    (by simpa [bump, knot] using hf)
  simpa [bump, knot] using this

/-- Its derivative evaluator returns the derivative at the knot too. -/
example {f f' f'' : ℝ → ℝ} (hf : ∀ s, 0 ≤ s → s ≤ 2 → bump.evaluate s = ok (f s))
    (hf' : ∀ s, 0 ≤ s → s ≤ 2 → bump.evaluateDerivative s = ok (f' s))
    (hf'' : ∀ s, 0 ≤ s → s ≤ 2 → bump.evaluate2ndDerivative s = ok (f'' s)) :
    HasDerivAt f (f' 1) 1 :=
  (C93_derivatives bump_wf bump_wide rfl bump_first (by decide : 1 + 1 ≤ 2) bump_mult (f := f)
    (by simpa [bump, knot] using hf) (by simpa [bump, knot] using hf')
    (by simpa [bump, knot] using hf'') (by simp [bump, knot]) (by simp [bump, knot])).1

/-- The hypotheses of `C93_nurbs` for unequal weights. -/
example : ∃ c : NURBS ℝ ℝ, c.init = ok c ∧ c.base = bump ∧ c.weights = [1, 2, 1, 3] ∧
    (∀ x ∈ c.weights, 0 < x) := by
  refine ⟨⟨bump, [1, 2, 1, 3],
    ⟨homog bump.ctrl [1, 2, 1, 3], bump.knots, bump.periodic, bump.sdeg⟩⟩,
    (NURBS.init_iff _ _).2 ⟨⟨rfl, rfl⟩, rfl, rfl⟩, rfl, rfl, ?_⟩
  simp

/-- A tent of degree 1 with a simple interior knot. -/
noncomputable def tent : BSpline ℝ ℝ := { ctrl := [0, 1, 0], knots := [0, 0, 1, 2, 2] }

theorem tent_wf : WellFormed tent 1 :=
  ⟨by simp [tent], Or.inl rfl, by simp [tent], by simp [tent], by simp [tent, knot]⟩

theorem tent_wide : Wide tent 1 := by
  intro i h1 h2 h3
  have h2' : i < 3 := h2
  interval_cases i <;> simp [tent, knot, BSpline.tiny] <;> norm_num

theorem tent_first : FirstSpan tent 1 := by simp [FirstSpan, tent, knot]

/-- The bound on the multiplicity is sharp for derivatives: a knot of multiplicity `p` can be a
corner, so the number `p - m` of derivatives cannot be raised. -/
theorem C93_corner_refuted : ∃ c : BSpline ℝ ℝ, WellFormed c 1 ∧ Wide c 1 ∧ FirstSpan c 1 ∧
    c.periodic = false ∧ c.knots.count 1 = 1 ∧
    ∃ f : ℝ → ℝ, (∀ s, 0 ≤ s → s ≤ 2 → c.evaluate s = ok (f s)) ∧ ¬ DifferentiableAt ℝ f 1 := by
  refine ⟨tent, tent_wf, tent_wide, tent_first, rfl, by simp [tent],
    fun s => if s < 1 then s else 2 - s, fun s s1 s2 => ?_, fun hd => ?_⟩
  · rw [evaluate_eq tent_wf tent_wide (wrap_nonperiodic rfl s) (Or.inl tent_first)
      (by simpa [tent, knot] using s1) (by simpa [tent, knot] using s2)]
    congr 1
    rcases eq_or_lt_of_le s2 with h2 | h2
    · subst h2
      simp [bsplinePoint, tent, sum_range_succ, basis, InSpan, knot]
    · by_cases h1 : s < 1
      · simp [bsplinePoint, tent, sum_range_succ, basis, InSpan, knot, h2.ne, h1, s1, not_le.2 h1,
          not_lt.2 s1]
      · simp [bsplinePoint, tent, sum_range_succ, basis, InSpan, knot, h2.ne, h1, h2, not_lt.1 h1,
          not_le.2 h2]
        try norm_num
  · have hl : HasDerivWithinAt (fun s : ℝ => if s < 1 then s else 2 - s) 1 (Set.Iic 1) 1 := by
      refine (hasDerivAt_id' (1 : ℝ)).hasDerivWithinAt.congr (fun s hs => ?_) (by norm_num)
      rcases (show s ≤ 1 from hs).lt_or_eq with h | h
      · simp [h]
      · subst h; norm_num
    have hr : HasDerivWithinAt (fun s : ℝ => if s < 1 then s else 2 - s) (-1) (Set.Ici 1) 1 := by
      refine ((hasDerivAt_id' (1 : ℝ)).const_sub 2).hasDerivWithinAt.congr (fun s hs => ?_)
        (by norm_num)
      simp [not_lt.2 (show 1 ≤ s from hs)]
    have u1 : UniqueDiffWithinAt ℝ (Set.Iic (1 : ℝ)) 1 := uniqueDiffOn_Iic 1 1 Set.self_mem_Iic
    have u2 : UniqueDiffWithinAt ℝ (Set.Ici (1 : ℝ)) 1 := uniqueDiffOn_Ici 1 1 Set.self_mem_Ici
    have a := u1.eq_deriv _ hl hd.hasDerivAt.hasDerivWithinAt
    have b := u2.eq_deriv _ hr hd.hasDerivAt.hasDerivWithinAt
    linarith

/-- A spline of degree 1 whose interior knot has multiplicity 2. -/
noncomputable def step : BSpline ℝ ℝ := { ctrl := [0, 0, 1, 1], knots := [0, 0, 1, 1, 2, 2] }

theorem step_wf : WellFormed step 1 :=
  ⟨by simp [step], Or.inl rfl, by simp [step], by simp [step], by simp [step, knot]⟩

theorem step_wide : Wide step 1 := by
  intro i h1 h2 h3
  have h2' : i < 4 := h2
  interval_cases i <;> simp [step, knot, BSpline.tiny] at h3 ⊢ <;> norm_num

theorem step_first : FirstSpan step 1 := by simp [FirstSpan, step, knot]

/-- A knot of multiplicity `p + 1` is accepted, and the curve jumps there. -/
theorem C93_jump_refuted : ∃ c : BSpline ℝ ℝ, WellFormed c 1 ∧ Wide c 1 ∧ FirstSpan c 1 ∧
    c.periodic = false ∧ c.knots.count 1 = 2 ∧
    (∀ s, 0 ≤ s → s < 1 → c.evaluate s = ok 0) ∧ c.evaluate 1 = ok 1 := by
  have hev : ∀ s, 0 ≤ s → s ≤ 2 → step.evaluate s = ok (bsplinePoint 1 step.knots step.ctrl s) :=
    fun s s1 s2 => evaluate_eq step_wf step_wide (wrap_nonperiodic rfl s) (Or.inl step_first)
      (by simpa [step, knot] using s1) (by simpa [step, knot] using s2)
  refine ⟨step, step_wf, step_wide, step_first, rfl, by simp [step], fun s s1 s2 => ?_, ?_⟩
  · rw [hev s s1 (by linarith)]
    have h2 : s ≠ 2 := by linarith
    simp [bsplinePoint, step, sum_range_succ, basis, InSpan, knot, h2, s1, s2, not_le.2 s2]
  · rw [hev 1 (by norm_num) (by norm_num)]
    simp [bsplinePoint, step, sum_range_succ, basis, InSpan, knot]
    norm_num

end Analysis

end NS.Props
