import Verif.Proof.NearOptimal

/-!
# Newton's iteration on straight curves and flat patches
-/

set_option linter.unusedSectionVars false

namespace NS

open Outcome Geom LawfulGeom Spec

variable {K V : Type} [Field K] [LinearOrder K] [IsStrictOrderedRing K] [FloorRing K]
  [AddCommGroup V] [Module K V] [Geom K V] [LawfulGeom K V]

namespace FlatInverse

open NearOptimal

/-- On a straight piece one step reaches the foot point or leaves the range at the closer end. -/
theorem newton_line {c : CurveFn K V} {p O A : V} {tol lo hi t x : K} {n : ℕ} (hn : 2 ≤ n)
    (htol : 0 < tol) (hA : (0 : K) < dot A A) (hlo : lo ≤ t) (hhi : t ≤ hi)
    (h0 : ∀ t, lo ≤ t → t ≤ hi → c.ev t = ok (O + t • A))
    (h1 : ∀ t, lo ≤ t → t ≤ hi → c.d1 t = ok A) (h2 : ∀ t, lo ≤ t → t ≤ hi → c.d2 t = ok 0)
    (hx : (dot (p - O) A : K) = x * dot A A) :
    ∃ r, newtonRaphson c p t n tol lo hi = ok r ∧
      (r = max lo (min hi x) ∨ (r = t ∧ |x - t| * dot A A < tol)) := by
  obtain ⟨n, rfl⟩ : ∃ m, n = m + 1 + 1 := ⟨n - 2, by omega⟩
  have hf : ∀ t : K, (dot (p - (O + t • A)) A : K) = (x - t) * dot A A := by
    intro t
    rw [show p - (O + t • A) = (p - O) + (-t) • A by rw [neg_smul]; abel, dot_add, dot_smul, hx]
    ring
  have hdf : ∀ t : K, (dot (p - (O + t • A)) (0 : V) : K) - sqNorm A = - dot A A := by
    intro t
    rw [dot_zero_right]; unfold sqNorm; ring
  have hstep : t - (x - t) * dot A A / (- dot A A) = x := by
    rw [mul_div_assoc, div_neg, div_self hA.ne']; ring
  unfold newtonRaphson
  rw [newtonCurve, h0 t hlo hhi, ok_bind, h1 t hlo hhi, ok_bind, h2 t hlo hhi, ok_bind]
  simp only [hf, hdf]
  by_cases hc : |(x - t) * (dot A A : K)| < tol
  · rw [if_pos hc]
    refine ⟨t, rfl, Or.inr ⟨rfl, ?_⟩⟩
    rwa [abs_mul, abs_of_pos hA] at hc
  rw [if_neg hc, if_neg (by rintro ⟨h, -⟩; linarith), if_neg (by linarith), hstep]
  by_cases g1 : x ≤ lo
  · rw [if_pos g1]
    exact ⟨lo, rfl, Or.inl (by rw [min_eq_right (g1.trans (hlo.trans hhi)), max_eq_left g1])⟩
  rw [if_neg g1]
  push Not at g1
  by_cases g2 : x ≥ hi
  · rw [if_pos g2]
    exact ⟨hi, rfl, Or.inl (by rw [min_eq_left g2, max_eq_right (hlo.trans hhi)])⟩
  rw [if_neg g2]
  push Not at g2
  rw [newtonCurve, h0 x g1.le g2.le, ok_bind, h1 x g1.le g2.le, ok_bind, h2 x g1.le g2.le, ok_bind]
  simp only [hf, hdf]
  rw [if_pos (by simpa using htol)]
  exact ⟨x, rfl, Or.inl (by rw [min_eq_right g2.le, max_eq_right g1.le])⟩

/-- On a straight curve the squared distance is a parabola. -/
theorem dist_line {p O A : V} {x : K} (hx : (dot (p - O) A : K) = x * dot A A) (s : K) :
    (sqNorm (p - (O + s • A)) : K)
      = sqNorm (p - (O + x • A)) + (s - x) * (s - x) * dot A A := by
  have e : p - (O + s • A) = (p - (O + x • A)) - (s - x) • A := by
    rw [sub_smul]; abel
  have h : (dot (p - (O + x • A)) A : K) = 0 := by
    rw [show p - (O + x • A) = (p - O) + (-x) • A by rw [neg_smul]; abel, dot_add, dot_smul, hx]
    ring
  rw [e, sqNorm_sub, dot_smul_right, h, sqNorm_smul]
  unfold sqNorm
  ring

theorem closer_of_dist {p O A : V} {x s t : K} (hA : (0 : K) < dot A A)
    (hx : (dot (p - O) A : K) = x * dot A A)
    (h : (sqNorm (p - (O + s • A)) : K) ≤ sqNorm (p - (O + t • A))) : |s - x| ≤ |t - x| := by
  rw [dist_line hx s, dist_line hx t] at h
  have : (s - x) * (s - x) ≤ (t - x) * (t - x) := by
    by_contra hc
    push Not at hc
    nlinarith
  rw [← abs_mul_abs_self (s - x), ← abs_mul_abs_self (t - x)] at this
  exact (mul_self_le_mul_self_iff (abs_nonneg _) (abs_nonneg _)).2 this

/-- The best sample is within a step of the closest parameter of the range. -/
theorem best_sample_near {num : ℕ} (hn : 0 < num) {lo hi x s : K} (h : lo ≤ hi) (hs1 : lo ≤ s)
    (hs2 : s ≤ hi) (hm : ∀ i ≤ num, |s - x| ≤ |sampleAt num lo hi i - x|) :
    |s - max lo (min hi x)| ≤ (hi - lo) / num := by
  have hn' : (0 : K) < num := by exact_mod_cast hn
  have hd : 0 ≤ (hi - lo) / num := div_nonneg (sub_nonneg.2 h) hn'.le
  rcases le_total x lo with h1 | h1
  · rw [min_eq_right (h1.trans h), max_eq_left h1]
    have := hm 0 (by omega)
    rw [sampleAt_zero, abs_of_nonneg (by linarith), abs_of_nonneg (by linarith)] at this
    have : s = lo := by linarith
    rw [this]; simpa using hd
  rcases le_total hi x with h2 | h2
  · rw [min_eq_left h2, max_eq_right h]
    have := hm num le_rfl
    have e : sampleAt num lo hi num = hi := by
      unfold sampleAt; rw [div_self hn'.ne']; ring
    rw [e, abs_of_nonpos (by linarith), abs_of_nonpos (by linarith)] at this
    have : s = hi := by linarith
    rw [this]; simpa using hd
  · rw [min_eq_right h2, max_eq_right h1]
    obtain ⟨i, hi', ei⟩ := near_sample (K := K) hn h1 h2
    have := hm i hi'
    rw [abs_sub_comm (sampleAt num lo hi i)] at this
    refine this.trans (ei.trans ?_)
    rw [show (hi - lo) / (2 * (num : K)) = (hi - lo) / num / 2 by field_simp]
    linarith

/-- The recursive sampling on a straight curve. -/
theorem approxInverse_line {big tol : K} {c : CurveFn K V} {p O A : V} {num : ℕ} (hn : 0 < num)
    (htol : 0 < tol) (hA : (0 : K) < dot A A) {x : K} (hx : (dot (p - O) A : K) = x * dot A A) :
    ∀ {level : ℕ} {lower upper : K}, lower ≤ upper →
    (∀ t, lower ≤ t → t ≤ upper → c.ev t = ok (O + t • A)) →
    (∀ t, lower ≤ t → t ≤ upper → c.d1 t = ok A) →
    (∀ t, lower ≤ t → t ≤ upper → c.d2 t = ok 0) →
    (∀ t, lower ≤ t → t ≤ upper → (sqNorm (p - (O + t • A)) : K) < big) →
    ∃ r, approxInverse big tol c p num level lower upper = ok r ∧ lower ≤ r ∧ r ≤ upper ∧
      (r = max lower (min upper x) ∨ |x - r| * dot A A < tol) := by
  intro level
  induction level with
  | zero =>
    intro lower upper h h0 h1 h2 hb
    obtain ⟨k, hk, e, hm⟩ := closestSample_spec (big := big) (c := c) (p := p) (num := num)
      (lower := lower) (upper := upper) (e0 := fun t => O + t • A)
      (fun i hi => h0 _ (sampleAt_mem hn h hi).1 (sampleAt_mem hn h hi).2)
      (fun i hi => hb _ (sampleAt_mem hn h hi).1 (sampleAt_mem hn h hi).2)
    obtain ⟨m1, m2⟩ := sampleAt_mem (K := K) hn h hk
    obtain ⟨r, er, hr⟩ := newton_line (n := 10) (by omega) htol hA m1 m2 h0 h1 h2 hx
    refine ⟨r, ?_, ?_⟩
    · rw [approxInverse, assert_true hn, ok_bind, e, ok_bind]
      exact er
    · rcases hr with rfl | ⟨rfl, hr⟩
      · exact ⟨le_max_left _ _, max_le h (min_le_left _ _), Or.inl rfl⟩
      · exact ⟨m1, m2, Or.inr hr⟩
  | succ level ih =>
    intro lower upper h h0 h1 h2 hb
    obtain ⟨k, hk, e, hm⟩ := closestSample_spec (big := big) (c := c) (p := p) (num := num)
      (lower := lower) (upper := upper) (e0 := fun t => O + t • A)
      (fun i hi => h0 _ (sampleAt_mem hn h hi).1 (sampleAt_mem hn h hi).2)
      (fun i hi => hb _ (sampleAt_mem hn h hi).1 (sampleAt_mem hn h hi).2)
    obtain ⟨m1, m2⟩ := sampleAt_mem (K := K) hn h hk
    obtain ⟨g1, g2, g3, -⟩ := next_range hn h hk _ _ rfl rfl
    have near := abs_le.1 (best_sample_near hn h m1 m2 (fun i hi => closer_of_dist hA hx (hm i hi)))
    obtain ⟨r, er, r1, r2, hr⟩ := ih g2 (fun t x y => h0 t (g1.trans x) (y.trans g3))
      (fun t x y => h1 t (g1.trans x) (y.trans g3)) (fun t x y => h2 t (g1.trans x) (y.trans g3))
      (fun t x y => hb t (g1.trans x) (y.trans g3))
    refine ⟨r, ?_, g1.trans r1, r2.trans g3, hr.imp (fun hr => ?_) id⟩
    · rw [approxInverse, assert_true hn, ok_bind, e, ok_bind]
      exact er
    · have hd : 0 ≤ (upper - lower) / (num : K) :=
        div_nonneg (sub_nonneg.2 h) (by exact_mod_cast hn.le)
      rw [hr]
      generalize sampleAt num lower upper k = s at *
      generalize (upper - lower) / (num : K) = δ at *
      have c1 : lower ≤ max lower (min upper x) := le_max_left _ _
      have c2 : max lower (min upper x) ≤ upper := max_le h (min_le_left _ _)
      have l1 : min (max (s - δ) lower) upper ≤ max lower (min upper x) := by
        rw [min_eq_left (max_le (by linarith) h)]
        exact max_le (by linarith) c1
      have l2 : max lower (min upper x) ≤ min (max (s + δ) lower) upper :=
        le_min ((by linarith : _ ≤ s + δ).trans (le_max_left _ _)) c2
      generalize min (max (s - δ) lower) upper = lo at *
      generalize min (max (s + δ) lower) upper = hi at *
      -- clamping to the smaller range gives the same point
      rcases le_total x lower with q | q
      · have e1 : max lower (min upper x) = lower := by rw [min_eq_right (q.trans h), max_eq_left q]
        rw [e1] at l1 l2 ⊢
        have : lo = lower := le_antisymm l1 g1
        rw [this, min_eq_right (q.trans l2), max_eq_left q]
      rcases le_total upper x with q' | q'
      · have e1 : max lower (min upper x) = upper := by rw [min_eq_left q', max_eq_right h]
        rw [e1] at l1 l2 ⊢
        have : hi = upper := le_antisymm g3 l2
        rw [this, min_eq_left q', max_eq_right l1]
      · have e1 : max lower (min upper x) = x := by rw [min_eq_right q', max_eq_right q]
        rw [e1] at l1 l2 ⊢
        rw [min_eq_right l2, max_eq_right l1]

end FlatInverse

namespace PatchBase

open NearOptimal

/-- On a flat patch one step reaches the foot point. -/
theorem newton_plane {s : PatchFn K V} {p O A B : V} {tol minU maxU minV maxV u v x y big : K}
    {prev : K × K} {n : ℕ} (hn : 2 ≤ n) (htol : 0 < tol)
    (hG : (dot A B : K) * dot A B < dot A A * dot B B)
    (hu : minU ≤ u ∧ u ≤ maxU) (hv : minV ≤ v ∧ v ≤ maxV) (hx : minU ≤ x ∧ x ≤ maxU)
    (hy : minV ≤ y ∧ y ≤ maxV)
    (h0 : ∀ u v, (minU ≤ u ∧ u ≤ maxU) ∧ (minV ≤ v ∧ v ≤ maxV) → s.ev u v = ok (O + u • A + v • B))
    (h1 : ∀ u v, (minU ≤ u ∧ u ≤ maxU) ∧ (minV ≤ v ∧ v ≤ maxV) →
      s.du u v = ok A ∧ s.dv u v = ok B ∧ s.duu u v = ok 0 ∧ s.dvv u v = ok 0 ∧ s.duv u v = ok 0)
    (hA : (dot (p - (O + x • A + y • B)) A : K) = 0)
    (hB : (dot (p - (O + x • A + y • B)) B : K) = 0)
    (hbig : (norm (O + u • A + v • B - p) : K) + tol ≤ big) :
    ∃ r, newtonPatch s p tol minU maxU minV maxV n u v prev big = ok (r, true) ∧
      (r = (x, y) ∨ (r = (u, v) ∧ ((norm (O + u • A + v • B - p) : K) < tol ∨
        (|(dot A (O + u • A + v • B - p) : K)| < tol ∧
          |(dot B (O + u • A + v • B - p) : K)| < tol)))) := by
  obtain ⟨n, rfl⟩ : ∃ m, n = m + 1 + 1 := ⟨n - 2, by omega⟩
  obtain ⟨d1, d2, d3, d4, d5⟩ := h1 u v ⟨hu, hv⟩
  have hN : ∀ a b : K, O + a • A + b • B - p
      = (a - x) • A + (b - y) • B + - (p - (O + x • A + y • B)) := by
    intro a b; rw [sub_smul, sub_smul]; abel
  set N := p - (O + x • A + y • B) with hNd
  have hA' : (dot (-N) A : K) = 0 := by
    have := dot_smul (-1 : K) N A
    rw [neg_one_smul] at this; rw [this, hA]; ring
  have hB' : (dot (-N) B : K) = 0 := by
    have := dot_smul (-1 : K) N B
    rw [neg_one_smul] at this; rw [this, hB]; ring
  have rA : ∀ a b : K, (dot (O + a • A + b • B - p) A : K) = (a - x) * dot A A + (b - y) * dot A B := by
    intro a b
    rw [hN a b, dot_add, dot_add, dot_smul, dot_smul, hA', dot_comm B A]; ring
  have rB : ∀ a b : K, (dot (O + a • A + b • B - p) B : K) = (a - x) * dot A B + (b - y) * dot B B := by
    intro a b
    rw [hN a b, dot_add, dot_add, dot_smul, dot_smul, hB']; ring
  rw [newtonPatch, h0 u v ⟨hu, hv⟩, ok_bind]
  simp only []
  set r := O + u • A + v • B - p with hr
  by_cases c1 : (norm r : K) < tol
  · rw [if_pos (Or.inl c1)]
    exact ⟨(u, v), rfl, Or.inr ⟨rfl, Or.inl c1⟩⟩
  have c2 : ¬ |(norm r : K) - big| < tol := by
    rw [abs_of_nonpos (by linarith)]; linarith
  rw [if_neg (by rintro (h | h); exacts [c1 h, c2 h]), if_neg (by linarith), d1, ok_bind, d2, ok_bind]
  by_cases c3 : |(dot A r : K)| < tol ∧ |(dot B r : K)| < tol
  · rw [if_pos c3]
    exact ⟨(u, v), rfl, Or.inr ⟨rfl, Or.inr c3⟩⟩
  rw [if_neg c3, d3, ok_bind, d4, ok_bind, d5, ok_bind]
  have z0 : (dot r (0 : V) : K) = 0 := dot_zero_right _
  have hAB : (dot B A : K) = dot A B := dot_comm _ _
  simp only [z0, add_zero, sqNorm, hAB]
  have hD : 0 < (dot A A : K) * dot B B - dot A B * dot A B := by linarith
  rw [if_neg (by linarith)]
  have e1 : u + (dot B B * -dot r A - dot A B * -dot r B) / (dot A A * dot B B - dot A B * dot A B)
      = x := by
    rw [hr, rA u v, rB u v, ← eq_sub_iff_add_eq', div_eq_iff hD.ne']; ring
  have e2 : v + (dot A A * -dot r B - dot A B * -dot r A) / (dot A A * dot B B - dot A B * dot A B)
      = y := by
    rw [hr, rA u v, rB u v, ← eq_sub_iff_add_eq', div_eq_iff hD.ne']; ring
  rw [e1, e2]
  have s1 : clampStep minU maxU x = x := by
    unfold clampStep
    rw [if_neg (not_lt.2 hx.1), if_neg (not_lt.2 hx.2)]
  have s2 : clampStep minV maxV y = y := by
    unfold clampStep
    rw [if_neg (not_lt.2 hy.1), if_neg (not_lt.2 hy.2)]
  rw [s1, s2, newtonPatch, h0 x y ⟨hx, hy⟩, ok_bind]
  simp only []
  refine ⟨(x, y), ?_, Or.inl rfl⟩
  split
  · rfl
  have hle : (norm (O + x • A + y • B - p) : K) ≤ norm r := by
    apply norm_le_of_sq
    rw [hr, hN u v, hN x y, sub_self, sub_self, zero_smul, zero_smul, zero_add, zero_add]
    have : (sqNorm ((u - x) • A + (v - y) • B + -N) : K)
        = sqNorm ((u - x) • A + (v - y) • B) + sqNorm (-N) := by
      rw [sqNorm_add, dot_add, dot_smul, dot_smul, dot_comm A, dot_comm B, hA', hB']; ring
    rw [this]
    have := sqNorm_nonneg (K := K) ((u - x) • A + (v - y) • B)
    linarith
  rw [if_neg (not_lt.2 hle)]
  obtain ⟨d1, d2, -⟩ := h1 x y ⟨hx, hy⟩
  rw [d1, ok_bind, d2, ok_bind, if_pos]
  have := rA x y
  have h2 := rB x y
  rw [dot_comm] at this h2
  rw [this, h2]
  simp [htol]

end PatchBase

end NS
