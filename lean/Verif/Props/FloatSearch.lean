import Verif.Proof.FloatSearch
import Verif.Props.FloatWrap
import Verif.Model.Numeric

/-!
# Properties C86 and C87: parameters of samples, searches and clipped parameters in floating point
-/

set_option linter.unusedSectionVars false

namespace NS.Fl

open Outcome

section General

variable {K : Type} [Field K] [LinearOrder K] [IsStrictOrderedRing K] [FloorRing K]

/-- One more relative error. -/
theorem rel_step {u x y z : K} (hu : 0 ≤ u) (hx : 0 ≤ x) (k : ℕ) (h : |y - x| ≤ ((1 + u) ^ k - 1) * x)
    (h2 : |z - y| ≤ u * |y|) : |z - x| ≤ ((1 + u) ^ (k + 1) - 1) * x := by
  have h3 : |y| ≤ (1 + u) ^ k * x := by
    have := abs_add_le (y - x) x
    rw [sub_add_cancel, abs_of_nonneg hx] at this
    linarith
  have h4 := mul_le_mul_of_nonneg_left h3 hu
  have h5 := abs_add_le (z - y) (y - x)
  rw [sub_add_sub_cancel] at h5
  rw [pow_succ]
  linarith

/-! ### C86: `sample` -/

/-- C86: uniform sampling returns the requested number of parameters, starting with the lower end, in
order, none below the lower end, each within a few roundings of the exact one.  Missing: the last one
is the upper end, and none is above it, which is refuted below. -/
theorem C86_sample_partial (R : Rounding K) {num : ℕ} (hnum : 2 ≤ num)
    (hfl : ∀ i < num, R.IsFloat (i : K)) {a b M : K} (ha : R.IsFloat a) (hab : a ≤ b) (hA : |a| ≤ M)
    (hB : |b| ≤ M) :
    (uniformDomain R num a b).length = num ∧ (uniformDomain R num a b).head? = some a ∧
      (uniformDomain R num a b).Pairwise (· ≤ ·) ∧ (∀ t ∈ uniformDomain R num a b, a ≤ t) ∧
      ∀ i < num, |(uniformDomain R num a b).getD i 0 - (NS.uniformDomain num a b).getD i 0|
        ≤ ((1 + R.unit) ^ 4 - (1 + R.unit)) * (b - a) + R.unit * M := by
  have hu := R.unit_nonneg
  have hN0 : (0 : K) < ((num - 1 : ℕ) : K) := by exact_mod_cast (by omega : 0 < num - 1)
  have hN : R.rnd ((num - 1 : ℕ) : K) = ((num - 1 : ℕ) : K) := hfl _ (by omega)
  have hd : 0 ≤ R.rnd (b - a) := R.nonneg (by linarith)
  have ge : ∀ i, a ≤ sampleParam R a b num i := by
    intro i
    refine le_rnd ha (le_add_of_nonneg_right (R.nonneg (div_nonneg (R.nonneg (mul_nonneg hd
      (R.nonneg (Nat.cast_nonneg _)))) (R.nonneg hN0.le))))
  have mono : ∀ i j, i ≤ j → sampleParam R a b num i ≤ sampleParam R a b num j := by
    intro i j hij
    have h1 : R.rnd (i : K) ≤ R.rnd (j : K) := R.mono _ _ (by exact_mod_cast hij)
    exact R.mono _ _ (add_le_add_right (R.mono _ _ (div_le_div_of_nonneg_right
      (R.mono _ _ (mul_le_mul_of_nonneg_left h1 hd)) (R.nonneg hN0.le))) _)
  have z : sampleParam R a b num 0 = a := by
    simp [sampleParam, R.zero, show R.rnd a = a from ha]
  refine ⟨by simp [uniformDomain], ?_, ?_, ?_, ?_⟩
  · obtain ⟨n, rfl⟩ : ∃ n, num = n + 1 := ⟨num - 1, by omega⟩
    rw [uniformDomain, List.range_succ_eq_map, List.map_cons, List.head?_cons, z]
  · rw [uniformDomain, List.pairwise_map]
    exact List.Pairwise.imp (fun h => mono _ _ (le_of_lt h)) List.pairwise_lt_range
  · intro t ht
    rw [uniformDomain, List.mem_map] at ht
    obtain ⟨i, -, rfl⟩ := ht
    exact ge i
  · intro i hi
    have hi1 : (i : K) ≤ ((num - 1 : ℕ) : K) := by exact_mod_cast (by omega : i ≤ num - 1)
    have hi0 : (0 : K) ≤ i := Nat.cast_nonneg _
    rw [getD_of_lt _ (by simpa [uniformDomain] using hi),
      getD_of_lt _ (by simpa [NS.uniformDomain] using hi)]
    simp only [uniformDomain, NS.uniformDomain, List.getElem_map, List.getElem_range]
    unfold sampleParam
    rw [hN, show R.rnd (i : K) = i from hfl i hi]
    generalize ((num - 1 : ℕ) : K) = N at *
    have w : 0 ≤ b - a := by linarith
    have e1 := R.near (b - a)
    have e2 := R.near (R.rnd (b - a) * i)
    have e3 := R.near (R.rnd (R.rnd (b - a) * i) / N)
    have e4 := R.near (a + R.rnd (R.rnd (R.rnd (b - a) * i) / N))
    generalize R.rnd (a + R.rnd (R.rnd (R.rnd (b - a) * i) / N)) = S at *
    generalize R.rnd (R.rnd (R.rnd (b - a) * i) / N) = q at *
    generalize R.rnd (R.rnd (b - a) * i) = m at *
    generalize R.rnd (b - a) = d at *
    generalize R.unit = u at *
    have r0 : 0 ≤ (i : K) / N := div_nonneg hi0 hN0.le
    have r1 : (i : K) / N ≤ 1 := (div_le_one hN0).2 hi1
    set r := (i : K) / N with hr
    have er : (b - a) * (i : K) / N = (b - a) * r := by rw [hr]; ring
    -- the chain of relative errors
    have c1 : |d * r - (b - a) * r| ≤ u * ((b - a) * r) := by
      rw [← sub_mul, abs_mul, abs_of_nonneg r0]
      calc |d - (b - a)| * r ≤ u * |b - a| * r := mul_le_mul_of_nonneg_right e1 r0
        _ = _ := by rw [abs_of_nonneg w]; ring
    have c2 : |m / N - d * r| ≤ u * (d * r) := by
      have : m / N - d * r = (m - d * i) / N := by rw [hr]; field_simp
      rw [this, abs_div, abs_of_pos hN0, div_le_iff₀ hN0]
      calc |m - d * i| ≤ u * |d * i| := e2
        _ = u * (d * r) * N := by rw [abs_of_nonneg (mul_nonneg hd hi0), hr]; field_simp
    have c0 : 0 ≤ (b - a) * r := mul_nonneg w r0
    set x := (b - a) * r with hx
    have dr0 : 0 ≤ d * r := mul_nonneg hd r0
    have c12 : |q - x| ≤ ((1 + u) ^ 3 - 1) * x := by
      have k1 : |d * r - x| ≤ ((1 + u) ^ 1 - 1) * x := by rw [pow_one]; linarith
      have k2 := rel_step hu c0 1 k1 (by rwa [abs_of_nonneg dr0])
      exact rel_step hu c0 2 k2 e3
    have xle : x ≤ b - a := by nlinarith
    have hax : |a + x| ≤ M := by
      have h1 := abs_le.1 hA
      have h2 := abs_le.1 hB
      rw [abs_le]; constructor <;> linarith [h1.1, h2.2]
    have g0 : 0 ≤ (1 + u) ^ 3 - 1 := sub_nonneg.2 (one_le_pow₀ (by linarith))
    have c14 : |a + q| ≤ M + ((1 + u) ^ 3 - 1) * x := by
      calc |a + q| = |(a + x) + (q - x)| := by ring_nf
        _ ≤ |a + x| + |q - x| := abs_add_le _ _
        _ ≤ _ := add_le_add hax c12
    have c15 := mul_le_mul_of_nonneg_left c14 hu
    have c16 := mul_le_mul_of_nonneg_left xle (mul_nonneg (by linarith : 0 ≤ 1 + u) g0)
    rw [er]
    calc |S - (a + x)| = |(S - (a + q)) + (q - x)| := by ring_nf
      _ ≤ |S - (a + q)| + |q - x| := abs_add_le _ _
      _ ≤ u * (M + ((1 + u) ^ 3 - 1) * x) + ((1 + u) ^ 3 - 1) * x :=
        add_le_add (e4.trans c15) c12
      _ = (1 + u) * ((1 + u) ^ 3 - 1) * x + u * M := by ring
      _ ≤ (1 + u) * ((1 + u) ^ 3 - 1) * (b - a) + u * M := by linarith
      _ = _ := by ring

/-- C86: on the unit interval all samples are in the interval and the last one is one. -/
theorem C86_sample_unit (R : Rounding K) {num : ℕ} (hnum : 2 ≤ num)
    (hfl : ∀ i < num, R.IsFloat (i : K)) :
    (∀ t ∈ uniformDomain R num (0 : K) 1, 0 ≤ t ∧ t ≤ 1) ∧
      (uniformDomain R num (0 : K) 1).head? = some 0 ∧
      (uniformDomain R num (0 : K) 1).getLast? = some 1 := by
  have hN0 : (0 : K) < ((num - 1 : ℕ) : K) := by exact_mod_cast (by omega : 0 < num - 1)
  have hN : R.rnd ((num - 1 : ℕ) : K) = ((num - 1 : ℕ) : K) := hfl _ (by omega)
  have e : ∀ i < num, sampleParam R (0 : K) 1 num i = R.rnd ((i : K) / ((num - 1 : ℕ) : K)) := by
    intro i hi
    have h := hfl i hi
    unfold Rounding.IsFloat at h
    simp only [sampleParam, sub_zero, R.one, one_mul, h, hN, zero_add, R.idem]
  refine ⟨?_, ?_, ?_⟩
  · intro t ht
    rw [uniformDomain, List.mem_map] at ht
    obtain ⟨i, hi, rfl⟩ := ht
    rw [e i (List.mem_range.1 hi)]
    have hi1 : (i : K) ≤ ((num - 1 : ℕ) : K) := by
      exact_mod_cast (by have := List.mem_range.1 hi; omega : i ≤ num - 1)
    exact ⟨R.nonneg (div_nonneg (Nat.cast_nonneg _) hN0.le), R.le_one ((div_le_one hN0).2 hi1)⟩
  · exact (C86_sample_partial R hnum hfl (a := 0) (b := 1) (M := 1) R.zero zero_le_one (by simp)
      (by simp)).2.1
  · obtain ⟨n, rfl⟩ : ∃ n, num = n + 1 := ⟨num - 1, by omega⟩
    rw [uniformDomain, List.range_succ, List.map_append, List.map_singleton, List.getLast?_concat,
      e n (by omega)]
    simp only [Nat.add_sub_cancel] at hN0 ⊢
    rw [div_self hN0.ne', R.one]

/-! ### C86: closest points of curves -/

/-- C86: whatever the computed distances and Newton steps are, the parameter that the search of a
curve returns is not below the range and exceeds it by at most a few roundings.  Missing: it is not
above the range, which is refuted below. -/
theorem C86_curve_search_partial {R : Rounding K} (f : ℕ → ℕ → Fuse) {big : K} (tol : K)
    {dist : K → Outcome K} {g : K → Outcome (K × K)} {num : ℕ} (hn : 0 < num)
    (hb : ∀ t, ∃ d, dist t = ok d ∧ d < big) (hg : ∀ t, ∃ s, g t = ok s ∧ (s.2 = 0 → s.1 ≠ 0))
    (level : ℕ) {lower upper M : K} (h1 : R.IsFloat lower) (h2 : R.IsFloat upper) (h : lower ≤ upper)
    (hl : |lower| ≤ M) (hu : |upper| ≤ M) :
    ∃ r, curveSearch R f big tol dist g num level lower upper = ok r ∧ lower ≤ r ∧
      r ≤ upper + (3 * R.unit + 2 * R.unit ^ 2) * M := by
  obtain ⟨r, lo, hi, e, a1, a2, a3, a4, a5⟩ := curveSearch_mem (f := f) (tol := tol) hn hb hg level h1 h2 h
  have m1 : |lo| ≤ M := abs_le.2 ⟨by linarith [(abs_le.1 hl).1], by linarith [(abs_le.1 hu).2]⟩
  have m2 : |hi| ≤ M := abs_le.2 ⟨by linarith [(abs_le.1 hl).1], by linarith [(abs_le.1 hu).2]⟩
  have ht := top_le R m1 m2
  have hM : 0 ≤ M := (abs_nonneg _).trans m1
  have hun := R.unit_nonneg
  have hc : 0 ≤ (3 * R.unit + 2 * R.unit ^ 2) * M := by positivity
  exact ⟨r, e, a1.trans a4, a5.trans (max_le (by linarith) (by linarith))⟩

/-- C86: inside the unit interval, the domain of Bézier curves, the search never leaves the unit
interval in a binary format. -/
theorem C86_curve_search_unit {p : ℕ} (hp : 1 ≤ p) (hp2 : 2 ≤ p) (f : ℕ → ℕ → Fuse) {big : K} (tol : K)
    {dist : K → Outcome K} {g : K → Outcome (K × K)} {num : ℕ} (hn : 0 < num)
    (hb : ∀ t, ∃ d, dist t = ok d ∧ d < big) (hg : ∀ t, ∃ s, g t = ok s ∧ (s.2 = 0 → s.1 ≠ 0))
    (level : ℕ) {lower upper : K} (h1 : (binary p hp : Rounding K).IsFloat lower)
    (h2 : (binary p hp : Rounding K).IsFloat upper) (h0 : 0 ≤ lower) (h : lower ≤ upper)
    (hu : upper ≤ 1) :
    ∃ r, curveSearch (binary p hp) f big tol dist g num level lower upper = ok r ∧ lower ≤ r ∧
      r ≤ 1 := by
  obtain ⟨r, lo, hi, e, a1, a2, a3, a4, a5⟩ :=
    curveSearch_mem (f := f) (tol := tol) hn hb hg level h1 h2 h
  exact ⟨r, e, a1.trans a4, a5.trans (max_le (a3.trans hu)
    (top_one hp hp2 (h0.trans a1) a2 (a3.trans hu)))⟩

/-! ### C86: closest points of patches -/

/-- C86: whatever the computed distances and Newton steps are, the search of a patch for a closest
point runs without a failing assertion and returns a pair of parameters in the box. -/
theorem C86_patch_search {R : Rounding K} (big tol milli uR vR : K) {dist : K → K → Outcome K}
    {step : ℕ → K × K → Outcome (Option (Bool × K × K))} {nu nv : ℕ} (mu : Moderate R nu)
    (mv : Moderate R nv) (hd : ∀ u v, ∃ d, dist u v = ok d) (hs : ∀ n x, ∃ s, step n x = ok s)
    {minU maxU minV maxV : K} (u1 : R.IsFloat minU) (u2 : R.IsFloat maxU) (v1 : R.IsFloat minV)
    (v2 : R.IsFloat maxV) (hu : minU ≤ maxU) (hv : minV ≤ maxV) :
    (∀ level, ∃ r, patchSearch R big tol milli uR vR dist nu nv level minU maxU minV maxV = ok r ∧
      (minU ≤ r.1 ∧ r.1 ≤ maxU) ∧ minV ≤ r.2 ∧ r.2 ≤ maxV) ∧
    ∃ r, patchInverse R big tol milli uR vR dist step nu nv minU maxU minV maxV = ok r ∧
      (minU ≤ r.1 ∧ r.1 ≤ maxU) ∧ minV ≤ r.2 ∧ r.2 ≤ maxV := by
  constructor
  · intro level
    obtain ⟨r, e, ⟨-, a⟩, -, b⟩ := patchSearch_mem (big := big) (tol := tol) (milli := milli) (uR := uR)
      (vR := vR) mu mv hd level u1 u2 v1 v2 hu hv
    exact ⟨r, e, a, b⟩
  · obtain ⟨x, e, -⟩ := patchSearch_mem (big := big) (tol := tol) (milli := milli) (uR := uR)
      (vR := vR) mu mv hd 10 u1 u2 v1 v2 hu hv
    have hx : ∀ {lo hi y : K}, lo ≤ hi → lo ≤ PatchBase.clampTo lo hi y ∧
        PatchBase.clampTo lo hi y ≤ hi :=
      fun h => ⟨le_max_left _ _, max_le h (min_le_left _ _)⟩
    obtain ⟨r, er, r1, r2⟩ := newtonPatch_mem (R := R) hs hu hv 20
      (x := (PatchBase.clampTo minU maxU x.1, PatchBase.clampTo minV maxV x.2))
      (prev := (PatchBase.clampTo minU maxU x.1, PatchBase.clampTo minV maxV x.2))
      ⟨hx hu, hx hv⟩ ⟨hx hu, hx hv⟩
    refine ⟨r, ?_, r1, r2⟩
    rw [patchInverse, e, ok_bind]
    dsimp only
    rw [er, ok_bind, assert_true r1, ok_bind, assert_true r2, ok_bind]
    rfl

/-! ### C87: clipping periodic parameters -/

/-- C87: a parameter in or above the range, or at most one period below it, is clipped into the range
without a failing assertion; a parameter at most one period below a range as wide as the period is
moved by exactly one period and one rounding.  Missing: parameters more than one period below the
range, which is refuted below. -/
theorem C87_clip_partial (R : Rounding K) (hu1 : R.unit < 1) (f : Fuse) {t a b T : K}
    (ha : R.IsFloat a) (hT : R.IsFloat T) (ht : R.IsFloat t) (hT0 : 0 < T) (hab : a ≤ b)
    (h : a - t ≤ T) :
    ∃ r, clipPeriodic R f t a b T = ok r ∧ a ≤ r ∧ r ≤ b ∧
      (t < a → R.rnd (t + T) ≤ b → r = R.rnd (t + T)) := by
  have key : ∀ s : K, a ≤ s → ∃ r, (do
      Outcome.assert (s ≥ a)
      let t := if s > b then (if R.rnd (T - R.rnd (s - a)) < R.rnd (s - b) then a else b) else s
      Outcome.assert (t ≤ b)
      pure t : Outcome K) = ok r ∧ a ≤ r ∧ r ≤ b ∧ (s ≤ b → r = s) := by
    intro s hs
    rw [assert_true hs, ok_bind]
    simp only
    by_cases h1 : s > b
    · rw [if_pos h1]
      split
      · exact ⟨a, by rw [assert_true hab]; rfl, le_rfl, hab, fun h => absurd h (not_le.2 h1)⟩
      · exact ⟨b, by rw [assert_true le_rfl]; rfl, hab, le_rfl, fun h => absurd h (not_le.2 h1)⟩
    · rw [if_neg h1]
      exact ⟨s, by rw [assert_true (not_lt.1 h1)]; rfl, hs, not_lt.1 h1, fun _ => rfl⟩
  unfold clipPeriodic
  by_cases hlt : t < a
  · rw [if_pos hlt, if_neg hT0.ne', ok_bind]
    have hpos : ∀ x : K, 0 < x → 0 < R.rnd x := by
      intro x hx
      have := abs_le.1 (R.near x)
      rw [abs_of_pos hx] at this
      nlinarith [this.1]
    have q0 : 0 < R.rnd (R.rnd (a - t) / T) := hpos _ (div_pos (hpos _ (by linarith)) hT0)
    have q1 : R.rnd (R.rnd (a - t) / T) ≤ 1 := R.le_one ((div_le_one hT0).2 (rnd_le hT h))
    have hc : ⌈R.rnd (R.rnd (a - t) / T)⌉ = 1 := by
      rw [Int.ceil_eq_iff]; push_cast; exact ⟨by linarith, q1⟩
    have e : R.combine f ((⌈R.rnd (R.rnd (a - t) / T)⌉ : ℤ) : K) T 1 t = R.rnd (t + T) := by
      rw [hc]
      cases f <;> simp only [Rounding.combine, Int.cast_one, one_mul, show R.rnd T = T from hT,
        show R.rnd t = t from ht, add_comm]
    rw [e]
    obtain ⟨r, er, r1, r2, r3⟩ := key (R.rnd (t + T)) (le_rnd ha (by linarith))
    exact ⟨r, er, r1, r2, fun _ hb => r3 hb⟩
  · rw [if_neg hlt]
    have hx : 0 ≤ R.rnd (t - a) := R.nonneg (by linarith)
    have hm := (fmod_bounds (R.rnd (t - a)) hT0).2.2.1 hx
    unfold fmod
    rw [if_neg hT0.ne', ok_bind, ok_bind]
    generalize R.rnd (t - a) - T * (trunc (R.rnd (t - a) / T) : K) = m at *
    obtain ⟨r, er, r1, r2, -⟩ := key (R.rnd (a + m)) (le_rnd ha (by linarith))
    exact ⟨r, er, r1, r2, fun h => absurd h hlt⟩

/-- C87: azimuths lie in `[-π, π]`: with a range starting in the same interval no assertion can fail.
`pi` is the largest azimuth, `2 * pi` the period, both numbers of the format. -/
theorem C87_clip_azimuth (R : Rounding K) (hu1 : R.unit < 1) (f : Fuse) {t a b pi : K}
    (ha : R.IsFloat a) (hT : R.IsFloat (2 * pi)) (ht : R.IsFloat t) (h0 : 0 < pi) (hab : a ≤ b)
    (h1 : -pi ≤ t) (h2 : a ≤ pi) :
    ∃ r, clipPeriodic R f t a b (2 * pi) = ok r ∧ a ≤ r ∧ r ≤ b := by
  obtain ⟨r, e, r1, r2, -⟩ := C87_clip_partial R hu1 f (t := t) (a := a) (b := b) ha hT ht
    (by linarith) hab (by linarith)
  exact ⟨r, e, r1, r2⟩

end General

/-! ### Without rounding -/

section Exact

variable {K V : Type} [Field K] [LinearOrder K] [IsStrictOrderedRing K] [FloorRing K]
  [AddCommGroup V] [Module K V] [Geom K V]

theorem exact_rnd (x : K) : (Rounding.exact : Rounding K).rnd x = x := rfl

/-- C86: without rounding, and with the exact distances and Newton steps, the rounded sampling and
searches are those of the exact model. -/
theorem C86_exact_arithmetic (f : ℕ → ℕ → Fuse) (big tol : K) (c : CurveFn K V) (s : PatchFn K V) (p : V)
    (num nu nv level : ℕ) (uR vR : K) :
    (∀ a b : K, uniformDomain Rounding.exact num a b = NS.uniformDomain num a b) ∧
    (∀ lower upper : K, curveSearch Rounding.exact f big tol
        (fun t => do let q ← c.ev t; pure (sqNorm (p - q)))
        (fun t => do
          let d0 ← c.ev t
          let d1 ← c.d1 t
          let d2 ← c.d2 t
          pure (Geom.dot (p - d0) d1, Geom.dot (p - d0) d2 - sqNorm d1)) num level lower upper
      = NS.approxInverse big tol c p num level lower upper) ∧
    ((∀ x y : V, (sqNorm (x - y) : K) = sqNorm (y - x)) → ∀ minU maxU minV maxV : K,
      patchSearch Rounding.exact big tol (1 / 1000) uR vR
        (fun u v => do let q ← s.ev u v; pure (sqNorm (p - q))) nu nv level minU maxU minV maxV
      = PatchBase.approxInverse big tol uR vR s p nu nv level minU maxU minV maxV) := by
  have bassoc : ∀ {α β γ : Type} (x : Outcome α) (g : α → Outcome β) (h : β → Outcome γ),
      (x >>= g >>= h) = x >>= fun a => g a >>= h := by
    intro α β γ x g h; cases x <;> rfl
  refine ⟨fun a b => ?_, ?_, fun hs => ?_⟩
  · simp only [uniformDomain, NS.uniformDomain]
    rfl
  · have hsam : ∀ (f : ℕ → Fuse) (lower upper : K), closestSample Rounding.exact f big
        (fun t => do let q ← c.ev t; pure (sqNorm (p - q))) num lower upper
        = NS.closestSample big c p num lower upper := by
      intro f lower upper
      unfold closestSample NS.closestSample
      congr 1
      funext i s
      have e : searchParam Rounding.exact (f i) lower upper num i
          = lower + (i : K) / (num : K) * (upper - lower) := by
        unfold searchParam
        cases f i <;> simp only [Rounding.combine, exact_rnd, one_mul] <;> ring
      rw [e]
      dsimp only
      rw [bassoc]
      rfl
    have hnew : ∀ (lower upper : K) (n : ℕ) (t prevT prevErr : K),
        newtonCurve Rounding.exact (fun t => do
          let d0 ← c.ev t
          let d1 ← c.d1 t
          let d2 ← c.d2 t
          pure (Geom.dot (p - d0) d1, Geom.dot (p - d0) d2 - sqNorm d1)) tol lower upper n t prevT prevErr
        = NS.newtonCurve c p tol lower upper n t prevT prevErr := by
      intro lower upper n
      induction n with
      | zero => intro t _ _; rfl
      | succ n ih =>
        intro t prevT prevErr
        rw [newtonCurve, NS.newtonCurve]
        dsimp only
        simp only [bassoc]
        congr 1; funext d0
        congr 1; funext d1
        congr 1; funext d2
        rw [pure_eq, ok_bind]
        dsimp only
        simp only [exact_rnd, ih]
    induction level with
    | zero =>
      intro lower upper
      rw [curveSearch, NS.approxInverse]
      simp only [hsam, hnew, newtonRaphson]
    | succ level ih =>
      intro lower upper
      rw [curveSearch, NS.approxInverse]
      simp only [hsam, exact_rnd, ih]
  · have hbest : ∀ minU maxU minV maxV : K, bestSamples Rounding.exact big
        (fun u v => do let q ← s.ev u v; pure (sqNorm (p - q))) nu nv minU maxU minV maxV
        = PatchBase.bestSamples big s p nu nv minU maxU minV maxV := by
      intro minU maxU minV maxV
      unfold bestSamples PatchBase.bestSamples
      congr 1
      funext i b
      congr 1
      funext j b
      have e : ∀ (n : ℕ) (lo hi : K) (i : ℕ), gridParam Rounding.exact n lo hi i
          = PatchBase.samplePos n lo hi i := fun n lo hi i => rfl
      simp only [e, bassoc]
      rfl
    induction level with
    | zero =>
      intro minU maxU minV maxV
      rw [patchSearch, PatchBase.approxInverse]
      simp only [hbest]
    | succ level ih =>
      intro minU maxU minV maxV
      rw [patchSearch, PatchBase.approxInverse]
      have he : ∀ a b : K × K, onOpposite Rounding.exact tol uR vR a b
        = PatchBase.onOpposite tol uR vR a b := fun _ _ => rfl
      simp only [hbest, exact_rnd, ih, he, bassoc]
      congr 1; funext b
      congr 1; funext _
      by_cases hc : |b.dist - b.dist2| > b.dist * (1 / 1000) ∨
          PatchBase.onOpposite tol uR vR b.uv b.uv2 = false
      · rw [if_pos hc, if_pos hc]
      rw [if_neg hc, if_neg hc]
      · congr 1; funext c1
        congr 1; funext c2
        congr 1; funext q1
        rw [pure_eq, ok_bind]
        congr 1; funext q2
        rw [pure_eq, ok_bind, hs p q1, hs p q2]

/-- C87: without rounding, clipping is that of the exact model. -/
theorem C87_exact_arithmetic (f : Fuse) (t a b T : K) :
    clipPeriodic Rounding.exact f t a b T = PatchBase.clipPeriodic t a b T := by
  have e : ∀ n : K, (Rounding.exact : Rounding K).combine f n T 1 t = t + n * T := by
    intro n
    cases f <;> simp only [Rounding.combine, exact_rnd, one_mul] <;> ring
  unfold clipPeriodic PatchBase.clipPeriodic
  simp only [e]
  rfl

end Exact

/-! ### Refutations in double precision -/

/-- C86 refuted for `sample`: the last of five samples of `[-1, 3.9]` is above `3.9`. -/
theorem C86_sample_refuted :
    (uniformDomain double 5 (-1) (8782019273372467 / 2 ^ 51)).getLast?
      = some (8782019273372468 / 2 ^ 51) := by decide +kernel

/-- The line from `0` to `1`, a Bézier curve of degree one in dimension one. -/
def unitLine : Bezier (Fin 1 → ℚ) := { ctrl := [fun _ => 0, fun _ => 1] }

/-- The computed squared distance of `p` from `unitLine`, CurveBase.h:154-155. -/
def unitLineDist (p t : ℚ) : Outcome ℚ := do
  let q ← bezierEvaluate1 double (fun _ => .none) unitLine t
  let x := double.rnd (p - q 0)
  ok (double.rnd (x * x))

/-- The computed `f` and `df` of `unitLine`, CurveBase.h:184-188; the derivative is one (Bezier.h:
514-517) and the second derivative zero (519). -/
def unitLineStep (p t : ℚ) : Outcome (ℚ × ℚ) := do
  let q ← bezierEvaluate1 double (fun _ => .none) unitLine t
  let x := double.rnd (p - q 0)
  ok (double.rnd (x * 1), double.rnd (double.rnd (x * 0) - double.rnd (1 * 1)))

/-- C86 refuted for the search: the closest point query of a line for its point `1.1e-7` with the
range `[-1, 1.1e-7]` and the default recursion level returns more than `1.1e-7`. -/
theorem C86_curve_search_refuted :
    let x : ℚ := 519460313115661 / 2 ^ 72
    ∃ r, curveSearch double (fun _ _ => .none) (2 ^ 1023) (100 / 2 ^ 52) (unitLineDist x)
        (unitLineStep x) 4 3 (-1) x = ok r ∧ x < r := by
  intro x
  have h : (curveSearch double (fun _ _ => .none) (2 ^ 1023) (100 / 2 ^ 52) (unitLineDist x)
      (unitLineStep x) 4 3 (-1) x >>= fun r => ok (decide (x < r))) = ok true := by decide +kernel
  revert h
  cases curveSearch double (fun _ _ => .none) (2 ^ 1023) (100 / 2 ^ 52) (unitLineDist x)
      (unitLineStep x) 4 3 (-1) x with
  | ok r =>
    intro h
    rw [ok_bind, ok.injEq] at h
    exact ⟨r, rfl, of_decide_eq_true h⟩
  | throw e => intro h; cases h
  | ub => intro h; cases h

/-- C87 refuted more than one period below the range: in double precision the azimuth `-π/2` cannot be
clipped to a range starting at `11 π/2`, three turns later, however the compiler contracts. -/
theorem C87_clip_refuted :
    let t : ℚ := -884279719003555 / 2 ^ 49
    let a : ℚ := 4863538454519553 / 2 ^ 48
    let T : ℚ := 884279719003555 / 2 ^ 47
    double.IsFloat t ∧ double.IsFloat a ∧ double.IsFloat T ∧ a - t < 3 * T + 1 / 2 ^ 47 ∧
      ∀ (f : Fuse) (b : ℚ), clipPeriodic double f t a b T = ub := by
  intro t a T
  have hI : double.IsFloat t ∧ double.IsFloat a ∧ double.IsFloat T := by
    unfold Rounding.IsFloat; decide +kernel
  refine ⟨hI.1, hI.2.1, hI.2.2, by decide +kernel, fun f b => ?_⟩
  have hlt : t < a := by decide +kernel
  have hT : T ≠ 0 := by decide +kernel
  have hs : ¬ double.combine f ((⌈double.rnd (double.rnd (a - t) / T)⌉ : ℤ) : ℚ) T 1 t ≥ a := by
    cases f <;> decide +kernel
  unfold clipPeriodic
  rw [if_pos hlt, if_neg hT, ok_bind, assert_false hs]
  rfl

/-! ### Cases meeting the hypotheses -/

/-- Sample counts below `2 ^ 50` are moderate in double precision. -/
theorem moderate_double {n : ℕ} (h0 : 0 < n) (hn : n ≤ 2 ^ 50) : Moderate double n := by
  refine ⟨h0, ?_, fun i hi => natCast_isFloat _ (hi.trans (hn.trans (by norm_num)))⟩
  have e : (1 + double.unit) ^ 3 ≤ 1 + 1 / 2 ^ 50 := by decide +kernel
  have hn' : (n : ℚ) ≤ 2 ^ 50 := by exact_mod_cast hn
  have h1 : (1 : ℚ) ≤ n := by exact_mod_cast h0
  calc (1 + double.unit) ^ 3 * ((n : ℚ) - 1) ≤ (1 + 1 / 2 ^ 50) * ((n : ℚ) - 1) :=
        mul_le_mul_of_nonneg_right e (by linarith)
    _ ≤ n := by
      have : (1 : ℚ) / 2 ^ 50 * n ≤ 1 := by rw [div_mul_eq_mul_div, one_mul, div_le_one (by positivity)]; exact hn'
      nlinarith

/-- The hypotheses of `C86_patch_search`: a grid of 5 by 9 samples, any computed distances and steps,
the box `[-1, 0.1] × [0, 3]`. -/
example : Moderate double 5 ∧ Moderate double 9 ∧
    (∀ u v : ℚ, ∃ d, (fun u v : ℚ => (ok (double.rnd (u * v)) : Outcome ℚ)) u v = ok d) ∧
    (∀ (n : ℕ) (x : ℚ × ℚ), ∃ s, (fun _ (x : ℚ × ℚ) =>
      (ok (some (true, x.2, x.1)) : Outcome (Option (Bool × ℚ × ℚ)))) n x = ok s) ∧
    double.IsFloat (-1) ∧ double.IsFloat tenth ∧ double.IsFloat 0 ∧ double.IsFloat 3 := by
  have h : double.IsFloat (-1) ∧ double.IsFloat tenth ∧ double.IsFloat 0 ∧ double.IsFloat 3 := by
    unfold Rounding.IsFloat; decide +kernel
  exact ⟨moderate_double (by norm_num) (by norm_num), moderate_double (by norm_num) (by norm_num),
    fun u v => ⟨_, rfl⟩, fun n x => ⟨_, rfl⟩, h⟩

/-- The hypotheses of `C86_sample_partial` and `C86_sample_unit`: a hundred samples. -/
example : ∀ i < 100, double.IsFloat ((i : ℕ) : ℚ) :=
  fun i hi => natCast_isFloat _ (by omega)

/-- The hypothesis of `C86_exact_arithmetic`: squared distances on the line are symmetric. -/
example : ∃ _ : Geom ℚ ℚ, ∀ x y : ℚ, (sqNorm (x - y) : ℚ) = sqNorm (y - x) :=
  ⟨⟨fun x y => x * y, fun x => |x|⟩, fun x y => by unfold sqNorm; show (x - y) * (x - y) = (y - x) * (y - x); ring⟩

/-- The hypotheses of `C86_curve_search_partial` and `C86_curve_search_unit`: a search on
`[0.1, 1]` with the distances of a point outside the line, divided by a bound. -/
example : (∀ t : ℚ, ∃ d, (fun t : ℚ => (ok (min (double.rnd (t * t)) 7) : Outcome ℚ)) t = ok d ∧ d < 8) ∧
    (∀ t : ℚ, ∃ s, (fun t : ℚ => (ok (double.rnd (2 - t), -1) : Outcome (ℚ × ℚ))) t = ok s ∧
      (s.2 = 0 → s.1 ≠ 0)) ∧
    double.IsFloat tenth ∧ double.IsFloat 1 ∧ 0 ≤ tenth ∧ tenth ≤ 1 := by
  refine ⟨fun t => ⟨_, rfl, lt_of_le_of_lt (min_le_right _ _) (by norm_num)⟩,
    fun t => ⟨_, rfl, fun h => absurd h (by norm_num)⟩, ?_, ?_, by decide +kernel, by decide +kernel⟩ <;>
    (unfold Rounding.IsFloat; decide +kernel)

/-- The hypotheses of `C87_clip_partial` and `C87_clip_azimuth`: the azimuth `-π/2` and the range
`[0, 2 π]`. -/
example : double.unit < 1 ∧ double.IsFloat 0 ∧ double.IsFloat (2 * (884279719003555 / 2 ^ 48)) ∧
    double.IsFloat (-884279719003555 / 2 ^ 49) ∧
    -(884279719003555 / 2 ^ 48 : ℚ) ≤ -884279719003555 / 2 ^ 49 ∧
    (0 : ℚ) - (-884279719003555 / 2 ^ 49) ≤ 2 * (884279719003555 / 2 ^ 48) := by
  refine ⟨by decide +kernel, ?_, ?_, ?_, by norm_num, by norm_num⟩ <;>
    (unfold Rounding.IsFloat; decide +kernel)

end NS.Fl
