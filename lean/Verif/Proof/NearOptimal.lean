import Verif.Proof.Inverse
import Verif.Proof.SpanSearch
import Verif.Spec.Geom
import Verif.Spec.Seminorm

/-!
# How far from the optimum a search by sampling can end
-/

set_option linter.unusedSectionVars false

namespace NS

open Outcome Geom LawfulGeom Spec

variable {K V : Type} [Field K] [LinearOrder K] [IsStrictOrderedRing K] [FloorRing K]
  [AddCommGroup V] [Module K V] [Geom K V] [LawfulGeom K V]

namespace NearOptimal

/-- Cauchy and Schwarz. -/
theorem dot_sq_le (x y : V) : (dot x y : K) * dot x y ≤ dot x x * dot y y := by
  by_cases hy : y = 0
  · subst hy
    rw [dot_zero_right, dot_zero_right]
    simp
  have hp : (0 : K) < dot y y := dot_self y hy
  have h := sqNorm_nonneg (K := K) (x - ((dot x y : K) / dot y y) • y)
  rw [sqNorm_sub, dot_smul_right, sqNorm_smul] at h
  unfold sqNorm at h
  have e : (dot x x - 2 * (dot x y / dot y y * dot x y) +
      dot x y / dot y y * (dot x y / dot y y) * dot y y : K)
      = (dot x x * dot y y - dot x y * dot x y) / dot y y := by
    field_simp; ring
  rw [e] at h
  by_contra hc
  push Not at hc
  exact absurd (div_neg_of_neg_of_pos (sub_neg.2 hc) hp) (not_lt.2 h)

theorem dot_le_norm (x y : V) : (dot x y : K) ≤ norm x * norm y := by
  have h := dot_sq_le (K := K) x y
  rw [← norm_sq, ← norm_sq] at h
  have hx := norm_nonneg (K := K) x
  have hy := norm_nonneg (K := K) y
  by_contra hc
  push Not at hc
  have h0 : 0 ≤ (norm x * norm y : K) := mul_nonneg hx hy
  nlinarith

/-- The norm is a seminorm. -/
theorem norm_seminorm : IsSeminorm (Geom.norm : V → K) where
  tri a b := by
    have h : (norm (a + b) * norm (a + b) : K) ≤ (norm a + norm b) * (norm a + norm b) := by
      rw [norm_sq]
      have := sqNorm_add (K := K) a b
      unfold sqNorm at this
      rw [this, ← norm_sq, ← norm_sq]
      nlinarith [dot_le_norm (K := K) a b]
    exact (mul_self_le_mul_self_iff (LawfulGeom.norm_nonneg _)
      (add_nonneg (LawfulGeom.norm_nonneg a) (LawfulGeom.norm_nonneg b))).2 h
  smul a v := by
    have h : (norm (a • v) * norm (a • v) : K) = |a| * norm v * (|a| * norm v) := by
      rw [norm_sq, dot_smul, dot_smul_right, mul_mul_mul_comm, abs_mul_abs_self, norm_sq]; ring
    exact (mul_self_inj (LawfulGeom.norm_nonneg _)
      (mul_nonneg (abs_nonneg _) (LawfulGeom.norm_nonneg _))).1 h

theorem norm_le_of_sq {x y : V} (h : (sqNorm x : K) ≤ sqNorm y) : (norm x : K) ≤ norm y := by
  unfold sqNorm at h
  rw [← norm_sq, ← norm_sq] at h
  exact (mul_self_le_mul_self_iff (LawfulGeom.norm_nonneg x) (LawfulGeom.norm_nonneg y)).2 h

omit [Geom K V] [LawfulGeom K V] [AddCommGroup V] [Module K V] in
/-- Evenly spaced samples leave no parameter farther than half a step. -/
theorem near_sample {num : ℕ} (hn : 0 < num) {lo hi t : K} (h1 : lo ≤ t) (h2 : t ≤ hi) :
    ∃ i ≤ num, |t - sampleAt num lo hi i| ≤ (hi - lo) / (2 * num) := by
  have hn' : (0 : K) < num := by exact_mod_cast hn
  rcases eq_or_lt_of_le (h1.trans h2) with h | h
  · refine ⟨0, by omega, ?_⟩
    have : t = lo := le_antisymm (h ▸ h2) h1
    rw [sampleAt_zero, this, h]; simp
  have hw : 0 < hi - lo := sub_pos.2 h
  set x : K := (t - lo) / (hi - lo) * num with hx
  have hx0 : 0 ≤ x := mul_nonneg (div_nonneg (sub_nonneg.2 h1) hw.le) hn'.le
  have hx1 : x ≤ num := by
    have : (t - lo) / (hi - lo) ≤ 1 := by rw [div_le_one hw]; linarith
    nlinarith
  have hnn : 0 ≤ ⌊x + 1 / 2⌋ := Int.floor_nonneg.2 (by linarith)
  obtain ⟨i, hi'⟩ := Int.eq_ofNat_of_zero_le hnn
  have f1 : (i : K) ≤ x + 1 / 2 := by
    have := Int.floor_le (x + 1 / 2); rw [hi'] at this; exact_mod_cast this
  have f2 : x + 1 / 2 < i + 1 := by
    have := Int.lt_floor_add_one (x + 1 / 2); rw [hi'] at this; exact_mod_cast this
  refine ⟨i, ?_, ?_⟩
  · have : (i : K) < num + 1 := by linarith
    have : i < num + 1 := by exact_mod_cast this
    omega
  · have e : t - sampleAt num lo hi i = (x - i) * ((hi - lo) / num) := by
      unfold sampleAt; rw [hx]; field_simp; ring
    rw [e, abs_mul, abs_of_pos (div_pos hw hn')]
    have : |x - i| ≤ 1 / 2 := abs_le.2 ⟨by linarith, by linarith⟩
    calc |x - i| * ((hi - lo) / num) ≤ 1 / 2 * ((hi - lo) / num) :=
          mul_le_mul_of_nonneg_right this (div_pos hw hn').le
      _ = _ := by field_simp

/-- The recursive sampling of curves, with the width of the last range. -/
theorem approxInverse_width {big tol : K} {c : CurveFn K V} {p : V} {num : ℕ} (hn : 0 < num)
    {e0 : K → V} : ∀ {level : ℕ} {lower upper : K}, lower ≤ upper →
    (∀ t, lower ≤ t → t ≤ upper → c.ev t = ok (e0 t)) →
    (∀ t, lower ≤ t → t ≤ upper → (sqNorm (p - e0 t) : K) < big) →
    ∃ lo hi t', lower ≤ lo ∧ lo ≤ t' ∧ t' ≤ hi ∧ hi ≤ upper ∧
      hi - lo ≤ (upper - lower) * (2 / num) ^ level ∧
      approxInverse big tol c p num level lower upper = newtonRaphson c p t' 10 tol lo hi ∧
      (Even num ∨ level = 0 → ∀ i ≤ num, (sqNorm (p - e0 t') : K) ≤
        sqNorm (p - e0 (sampleAt num lower upper i))) := by
  intro level
  induction level with
  | zero =>
    intro lower upper h h0 hb
    obtain ⟨k, hk, e, hm⟩ := closestSample_spec (big := big) (c := c) (p := p) (num := num)
      (lower := lower) (upper := upper) (e0 := e0)
      (fun i hi => h0 _ (sampleAt_mem hn h hi).1 (sampleAt_mem hn h hi).2)
      (fun i hi => hb _ (sampleAt_mem hn h hi).1 (sampleAt_mem hn h hi).2)
    obtain ⟨h1, h2⟩ := sampleAt_mem (K := K) hn h hk
    refine ⟨lower, upper, sampleAt num lower upper k, le_rfl, h1, h2, le_rfl, by simp, ?_,
      fun _ => hm⟩
    rw [approxInverse, assert_true hn, ok_bind, e, ok_bind]
  | succ level ih =>
    intro lower upper h h0 hb
    obtain ⟨k, hk, e, hm⟩ := closestSample_spec (big := big) (c := c) (p := p) (num := num)
      (lower := lower) (upper := upper) (e0 := e0)
      (fun i hi => h0 _ (sampleAt_mem hn h hi).1 (sampleAt_mem hn h hi).2)
      (fun i hi => hb _ (sampleAt_mem hn h hi).1 (sampleAt_mem hn h hi).2)
    obtain ⟨g1, g2, g3, g4⟩ := next_range hn h hk _ _ rfl rfl
    obtain ⟨lo, hi, t', a1, a2, a3, a4, aw, a5, a6⟩ := ih g2
      (fun t x y => h0 t (g1.trans x) (y.trans g3)) (fun t x y => hb t (g1.trans x) (y.trans g3))
    refine ⟨lo, hi, t', g1.trans a1, a2, a3, a4.trans g3, ?_, ?_, ?_⟩
    · have hn' : (0 : K) < num := by exact_mod_cast hn
      obtain ⟨m1, m2⟩ := sampleAt_mem (K := K) hn h hk
      have hd : 0 ≤ (upper - lower) / num := div_nonneg (sub_nonneg.2 h) hn'.le
      have hw : min (max (sampleAt num lower upper k + (upper - lower) / num) lower) upper
          - min (max (sampleAt num lower upper k - (upper - lower) / num) lower) upper
          ≤ (upper - lower) * (2 / num) := by
        have b1 : min (max (sampleAt num lower upper k + (upper - lower) / num) lower) upper
            ≤ sampleAt num lower upper k + (upper - lower) / num :=
          (min_le_left _ _).trans (max_le le_rfl (by linarith))
        have b2 : sampleAt num lower upper k - (upper - lower) / num
            ≤ min (max (sampleAt num lower upper k - (upper - lower) / num) lower) upper :=
          le_min (le_max_left _ _) (by linarith)
        have : (upper - lower) * (2 / num) = 2 * ((upper - lower) / num) := by ring
        linarith
      refine aw.trans ?_
      rw [pow_succ' , ← mul_assoc]
      exact mul_le_mul_of_nonneg_right hw (by positivity)
    · rw [approxInverse, assert_true hn, ok_bind, e, ok_bind]
      exact a5
    · rintro (hev | h) i hi
      · obtain ⟨j, hj, ej⟩ := g4 hev
        have := a6 (Or.inl hev) j hj
        rw [ej] at this
        exact this.trans (hm i hi)
      · omega

end NearOptimal

namespace SpanSearch

open NearOptimal BSpline

variable {W : Type} [AddCommGroup W] [Module K W]

/-- Every parameter lies in a piece. -/
theorem exists_piece_at {knots : List K} {lower upper t : K} (hlt : lower < upper) (h1 : lower ≤ t)
    (h2 : t ≤ upper) : ∃ a b, Piece knots lower upper a b ∧ a ≤ t ∧ t ≤ b := by
  classical
  -- the last cut at or before `t`, but before `upper`
  set S := insert lower (knots.toFinset.filter (fun x => lower < x ∧ x ≤ t ∧ x < upper)) with hS
  have hne : S.Nonempty := ⟨lower, by simp [hS]⟩
  have ha := S.max'_mem hne
  set a := S.max' hne with haS
  have hmemS : ∀ x ∈ S, x = lower ∨ (x ∈ knots ∧ lower < x ∧ x ≤ t ∧ x < upper) := by
    intro x hx
    rw [hS, Finset.mem_insert, Finset.mem_filter, List.mem_toFinset] at hx
    exact hx
  have ha1 : lower ≤ a := S.le_max' lower (by simp [hS])
  have ha2 : a ≤ t ∧ a < upper := by
    rcases hmemS a ha with h | h
    · rw [h]; exact ⟨h1, hlt⟩
    · exact ⟨h.2.2.1, h.2.2.2⟩
  have hak : a = lower ∨ a ∈ knots := (hmemS a ha).imp id (fun h => h.1)
  -- the first cut after it
  set T := insert upper (knots.toFinset.filter (fun x => a < x ∧ x < upper)) with hT
  have hneT : T.Nonempty := ⟨upper, by simp [hT]⟩
  have hb := T.min'_mem hneT
  set b := T.min' hneT with hbT
  have hmemT : ∀ x ∈ T, x = upper ∨ (x ∈ knots ∧ a < x ∧ x < upper) := by
    intro x hx
    rw [hT, Finset.mem_insert, Finset.mem_filter, List.mem_toFinset] at hx
    exact hx
  have hb1 : b ≤ upper := T.min'_le upper (by simp [hT])
  have hb2 : a < b := by
    rcases hmemT b hb with h | h
    · rw [h]; exact ha2.2
    · exact h.2.1
  have hbk : b = upper ∨ b ∈ knots := (hmemT b hb).imp id (fun h => h.1)
  refine ⟨a, b, ⟨ha1, hb2, hb1, hak, hbk, ?_⟩, ha2.1, ?_⟩
  · rintro x hx ⟨g1, g2⟩
    have : x ∈ T := by
      rw [hT, Finset.mem_insert, Finset.mem_filter, List.mem_toFinset]
      exact Or.inr ⟨hx, g1, lt_of_lt_of_le g2 hb1⟩
    exact absurd (T.min'_le x this) (not_le.2 g2)
  · by_contra hc
    push Not at hc
    rcases hmemT b hb with h | h
    · exact absurd h2 (not_le.2 (h ▸ hc))
    · have : b ∈ S := by
        rw [hS, Finset.mem_insert, Finset.mem_filter, List.mem_toFinset]
        exact Or.inr ⟨h.1, lt_of_le_of_lt ha1 hb2, hc.le, h.2.2⟩
      exact absurd (S.le_max' b this) (not_le.2 hb2)

/-- The rounds put together, with the width of the last range. -/
theorem approxInverse_width {c : BSpline K W} {knots : List K} {d : ℕ} {f : CurveFn K V} {p : V}
    {big tol : K} {e0 : K → V} {fuel : ℕ} {A B : K}
    (hround : ∀ {lower upper : K}, lower < upper → A ≤ lower → upper ≤ B →
      (∀ t, lower ≤ t → t ≤ upper → f.ev t = ok (e0 t)) →
      (∀ t, lower ≤ t → t ≤ upper → (sqNorm (p - e0 t) : K) < big) →
      ∃ b, round fuel big c f p lower upper = ok b ∧
        (∃ a e, Piece knots lower upper a e ∧ ∃ j ≤ 2 * (d + 1),
          b = ⟨sqNorm (p - e0 (sampleAt (2 * (d + 1)) a e j)), sampleAt (2 * (d + 1)) a e j,
            (e - a) / ((2 * (d + 1) : ℕ) : K)⟩) ∧
        ∀ t, IsSample knots (2 * (d + 1)) lower upper t → b.dist ≤ sqNorm (p - e0 t)) :
    ∀ {level : ℕ} {lower upper : K}, lower < upper → A ≤ lower → upper ≤ B →
    (∀ t, lower ≤ t → t ≤ upper → f.ev t = ok (e0 t)) →
    (∀ t, lower ≤ t → t ≤ upper → (sqNorm (p - e0 t) : K) < big) →
    ∃ lo hi t', lower ≤ lo ∧ lo < hi ∧ hi ≤ upper ∧ lo ≤ t' ∧ t' ≤ hi ∧
      hi - lo ≤ (upper - lower) * (1 / (d + 1)) ^ level ∧
      approxInverse fuel big tol c f p level lower upper = newtonRaphson f p t' 10 tol lo hi ∧
      ∀ t, IsSample knots (2 * (d + 1)) lower upper t →
        (sqNorm (p - e0 t') : K) ≤ sqNorm (p - e0 t) := by
  have hn : 0 < 2 * (d + 1) := by omega
  intro level
  induction level with
  | zero =>
    intro lower upper hlt hlo hup h0 hb
    obtain ⟨b, e, ⟨a, x, hP, j, hj, rfl⟩, hm⟩ := hround hlt hlo hup h0 hb
    obtain ⟨g1, g2⟩ := sampleAt_mem (K := K) hn hP.lt.le hj
    refine ⟨lower, upper, sampleAt (2 * (d + 1)) a x j, le_rfl, hlt, le_rfl, hP.lo.trans g1,
      g2.trans hP.hi, by simp, ?_, hm⟩
    rw [approxInverse, e, ok_bind]
  | succ level ih =>
    intro lower upper hlt hlo hup h0 hb
    obtain ⟨b, e, ⟨a, x, hP, j, hj, rfl⟩, hm⟩ := hround hlt hlo hup h0 hb
    obtain ⟨g1, g2, g3, g4⟩ := next_sample hn ⟨d + 1, by ring⟩ hP hj _ _ rfl rfl
    obtain ⟨lo, hi, t', a1, a2, a3, a4, a5, aw, a6, a7⟩ := ih g2 (hlo.trans g1) (g3.trans hup)
      (fun t x y => h0 t (g1.trans x) (y.trans g3)) (fun t x y => hb t (g1.trans x) (y.trans g3))
    refine ⟨lo, hi, t', g1.trans a1, a2, a3.trans g3, a4, a5, ?_, ?_, ?_⟩
    · obtain ⟨s1, s2⟩ := sampleAt_mem (K := K) hn hP.lt.le hj
      refine aw.trans ?_
      rw [pow_succ', ← mul_assoc]
      refine mul_le_mul_of_nonneg_right ?_ (by positivity)
      have q1 := hP.lo
      have q2 := hP.hi
      have q3 := hP.lt
      have hd : 0 ≤ (x - a) / ((2 * (d + 1) : ℕ) : K) :=
        div_nonneg (sub_nonneg.2 q3.le) (by positivity)
      have b1 : min upper (max lower (sampleAt (2 * (d + 1)) a x j + (x - a) / ((2 * (d + 1) : ℕ) : K)))
          ≤ sampleAt (2 * (d + 1)) a x j + (x - a) / ((2 * (d + 1) : ℕ) : K) :=
        (min_le_right _ _).trans (max_le (by linarith) le_rfl)
      have b2 : sampleAt (2 * (d + 1)) a x j - (x - a) / ((2 * (d + 1) : ℕ) : K)
          ≤ min upper (max lower (sampleAt (2 * (d + 1)) a x j - (x - a) / ((2 * (d + 1) : ℕ) : K))) :=
        le_min (by linarith) (le_max_right _ _)
      have b3 : 2 * ((x - a) / ((2 * (d + 1) : ℕ) : K)) ≤ (upper - lower) * (1 / (d + 1)) := by
        have hd1 : (0 : K) < d + 1 := by positivity
        have : 2 * ((x - a) / ((2 * (d + 1) : ℕ) : K)) = (x - a) * (1 / (d + 1)) := by
          push_cast; field_simp
        rw [this]
        exact mul_le_mul_of_nonneg_right (by linarith) (by positivity)
      linarith
    · rw [approxInverse, e, ok_bind]
      exact a6
    · intro t ht
      exact (a7 _ g4).trans (hm t ht)

end SpanSearch

namespace PatchBase

open NearOptimal

/-- The recursive sampling of patches, whatever the sample counts. -/
theorem approxInverse_near {big tol uR vR : K} {s : PatchFn K V} {p : V} {nu nv : ℕ} (hnu : 2 < nu)
    (hnv : 2 < nv) {e0 : K → K → V} {Lu Lv : K} (hLu : 0 ≤ Lu) (hLv : 0 ≤ Lv) :
    ∀ {level : ℕ} {minU maxU minV maxV : K}, minU ≤ maxU →
    minV ≤ maxV → (∀ u v, InBox minU maxU minV maxV (u, v) → s.ev u v = ok (e0 u v)) →
    (∀ u v, InBox minU maxU minV maxV (u, v) → (sqNorm (p - e0 u v) : K) < big) →
    (∀ u v u' v', InBox minU maxU minV maxV (u, v) → InBox minU maxU minV maxV (u', v') →
      (norm (e0 u v - e0 u' v') : K) ≤ Lu * |u - u'| + Lv * |v - v'|) →
    ∃ r, approxInverse big tol uR vR s p nu nv level minU maxU minV maxV = ok r ∧
      InBox minU maxU minV maxV r ∧
      ∀ u v, InBox minU maxU minV maxV (u, v) → (norm (p - e0 r.1 r.2) : K) ≤ norm (p - e0 u v)
        + Lu * ((maxU - minU) / (2 * (nu - 2))) + Lv * ((maxV - minV) / (2 * (nv - 2))) := by
  have hn := norm_seminorm (K := K) (V := V)
  have hnu' : (2 : K) < nu := by exact_mod_cast hnu
  have hnv' : (2 : K) < nv := by exact_mod_cast hnv
  -- the best sample against any point
  have hfirst : ∀ {minU maxU minV maxV : K} {b : Best K}, minU ≤ maxU → minV ≤ maxV →
      (∀ u v u' v', InBox minU maxU minV maxV (u, v) → InBox minU maxU minV maxV (u', v') →
      (norm (e0 u v - e0 u' v') : K) ≤ Lu * |u - u'| + Lv * |v - v'|) →
      b.dist = sqNorm (p - e0 b.uv.1 b.uv.2) →
      (∀ i ≤ nu, ∀ j ≤ nv, b.dist ≤
        sqNorm (p - e0 (samplePos nu minU maxU i) (samplePos nv minV maxV j))) →
      ∀ u v, InBox minU maxU minV maxV (u, v) → (norm (p - e0 b.uv.1 b.uv.2) : K)
        ≤ norm (p - e0 u v) + Lu * ((maxU - minU) / (2 * nu)) + Lv * ((maxV - minV) / (2 * nv)) := by
    intro minU maxU minV maxV b hu hv hL i4 i5 u v hb
    obtain ⟨i, hi, ei⟩ := near_sample (K := K) (num := nu) (by omega) hb.1.1 hb.1.2
    obtain ⟨j, hj, ej⟩ := near_sample (K := K) (num := nv) (by omega) hb.2.1 hb.2.2
    rw [← samplePos_eq (by omega)] at ei ej
    have h1 := norm_le_of_sq (i4 ▸ i5 i hi j hj)
    have h2 := hL u v (samplePos nu minU maxU i) (samplePos nv minV maxV j) hb
      ⟨samplePos_mem hu hi, samplePos_mem hv hj⟩
    have h3 := hn.tri (p - e0 u v) (e0 u v - e0 (samplePos nu minU maxU i) (samplePos nv minV maxV j))
    rw [sub_add_sub_cancel] at h3
    have h4 := mul_le_mul_of_nonneg_left ei hLu
    have h5 := mul_le_mul_of_nonneg_left ej hLv
    simp only at h1 h2 h4 h5
    linarith
  intro level
  induction level with
  | zero =>
    intro minU maxU minV maxV hu hv h0 hb hL
    obtain ⟨b, e, i1, -, -, i4, i5⟩ := bestSamples_spec (nu := nu) (nv := nv) hu hv h0 hb
    refine ⟨b.uv, by rw [approxInverse, e, ok_bind]; rfl, i1, fun u v huv => ?_⟩
    refine (hfirst hu hv hL i4 i5 u v huv).trans ?_
    have g1 : (maxU - minU) / (2 * nu) ≤ (maxU - minU) / (2 * (nu - 2)) :=
      div_le_div_of_nonneg_left (sub_nonneg.2 hu) (by linarith) (by linarith)
    have g2 : (maxV - minV) / (2 * nv) ≤ (maxV - minV) / (2 * (nv - 2)) :=
      div_le_div_of_nonneg_left (sub_nonneg.2 hv) (by linarith) (by linarith)
    have := mul_le_mul_of_nonneg_left g1 hLu
    have := mul_le_mul_of_nonneg_left g2 hLv
    linarith
  | succ level ih =>
    intro minU maxU minV maxV hu hv h0 hb hL
    obtain ⟨b, e, i1, i2, -, i4, i5⟩ := bestSamples_spec (nu := nu) (nv := nv) hu hv h0 hb
    have hdu : 0 ≤ (maxU - minU) / (nu : K) := div_nonneg (sub_nonneg.2 hu) (by positivity)
    have hdv : 0 ≤ (maxV - minV) / (nv : K) := div_nonneg (sub_nonneg.2 hv) (by positivity)
    have hsub : ∀ x : K × K, InBox minU maxU minV maxV x → ∃ r,
        approxInverse big tol uR vR s p nu nv level (max (x.1 - (maxU - minU) / (nu : K)) minU)
        (min (x.1 + (maxU - minU) / (nu : K)) maxU) (max (x.2 - (maxV - minV) / (nv : K)) minV)
        (min (x.2 + (maxV - minV) / (nv : K)) maxV) = ok r ∧ InBox minU maxU minV maxV r ∧
        (norm (p - e0 r.1 r.2) : K) ≤ norm (p - e0 x.1 x.2)
          + Lu * (2 * ((maxU - minU) / nu) / (2 * (nu - 2)))
          + Lv * (2 * ((maxV - minV) / nv) / (2 * (nv - 2))) := by
      rintro ⟨u, v⟩ ⟨⟨h1, h2⟩, ⟨h3, h4⟩⟩
      simp only at h1 h2 h3 h4 ⊢
      have hsubset : ∀ y, InBox (max (u - (maxU - minU) / (nu : K)) minU)
          (min (u + (maxU - minU) / (nu : K)) maxU) (max (v - (maxV - minV) / (nv : K)) minV)
          (min (v + (maxV - minV) / (nv : K)) maxV) y → InBox minU maxU minV maxV y := by
        rintro y ⟨⟨a, b⟩, ⟨c, d⟩⟩
        exact ⟨⟨(le_max_right _ _).trans a, b.trans (min_le_right _ _)⟩,
          ⟨(le_max_right _ _).trans c, d.trans (min_le_right _ _)⟩⟩
      obtain ⟨r, er, hr, hd⟩ := ih (minU := max (u - (maxU - minU) / (nu : K)) minU)
        (maxU := min (u + (maxU - minU) / (nu : K)) maxU)
        (minV := max (v - (maxV - minV) / (nv : K)) minV)
        (maxV := min (v + (maxV - minV) / (nv : K)) maxV)
        (max_le (le_min (by linarith) (by linarith)) (le_min (by linarith) hu))
        (max_le (le_min (by linarith) (by linarith)) (le_min (by linarith) hv))
        (fun u v h => h0 u v (hsubset _ h)) (fun u v h => hb u v (hsubset _ h))
        (fun u v u' v' h h' => hL u v u' v' (hsubset _ h) (hsubset _ h'))
      refine ⟨r, er, hsubset _ hr, (hd u v ⟨⟨max_le (by linarith) h1, le_min (by linarith) h2⟩,
        ⟨max_le (by linarith) h3, le_min (by linarith) h4⟩⟩).trans ?_⟩
      have w1 : min (u + (maxU - minU) / (nu : K)) maxU - max (u - (maxU - minU) / (nu : K)) minU
          ≤ 2 * ((maxU - minU) / nu) := by
        have := min_le_left (u + (maxU - minU) / (nu : K)) maxU
        have := le_max_left (u - (maxU - minU) / (nu : K)) minU
        linarith
      have w2 : min (v + (maxV - minV) / (nv : K)) maxV - max (v - (maxV - minV) / (nv : K)) minV
          ≤ 2 * ((maxV - minV) / nv) := by
        have := min_le_left (v + (maxV - minV) / (nv : K)) maxV
        have := le_max_left (v - (maxV - minV) / (nv : K)) minV
        linarith
      have x1 := mul_le_mul_of_nonneg_left (div_le_div_of_nonneg_right w1
        (show (0 : K) ≤ 2 * (nu - 2) by linarith)) hLu
      have x2 := mul_le_mul_of_nonneg_left (div_le_div_of_nonneg_right w2
        (show (0 : K) ≤ 2 * (nv - 2) by linarith)) hLv
      linarith
    obtain ⟨r1, e1, hr1, d1⟩ := hsub b.uv i1
    obtain ⟨r2, e2, hr2, -⟩ := hsub b.uv2 i2
    have eu : (maxU - minU) / (2 * nu) + 2 * ((maxU - minU) / nu) / (2 * (nu - 2))
        = (maxU - minU) / (2 * ((nu : K) - 2)) := by
      have : (nu : K) - 2 ≠ 0 := by linarith
      have : (nu : K) ≠ 0 := by linarith
      field_simp; ring
    have ev : (maxV - minV) / (2 * nv) + 2 * ((maxV - minV) / nv) / (2 * (nv - 2))
        = (maxV - minV) / (2 * ((nv : K) - 2)) := by
      have : (nv : K) - 2 ≠ 0 := by linarith
      have : (nv : K) ≠ 0 := by linarith
      field_simp; ring
    have hfin : ∀ u v, InBox minU maxU minV maxV (u, v) → (norm (p - e0 r1.1 r1.2) : K)
        ≤ norm (p - e0 u v) + Lu * ((maxU - minU) / (2 * (nu - 2)))
          + Lv * ((maxV - minV) / (2 * (nv - 2))) := by
      intro u v huv
      have := hfirst hu hv hL i4 i5 u v huv
      rw [← eu, ← ev]
      linarith
    rw [approxInverse, e, ok_bind, assert_true ⟨by omega, by omega⟩, ok_bind]
    simp only
    split
    · exact ⟨r1, e1, hr1, hfin⟩
    · rw [e1, ok_bind, e2, ok_bind, h0 r1.1 r1.2 hr1, ok_bind, h0 r2.1 r2.2 hr2, ok_bind, pure_eq]
      refine ⟨_, rfl, ?_⟩
      split
      · exact ⟨hr1, hfin⟩
      · rename_i hlt
        refine ⟨hr2, fun u v huv => le_trans (norm_le_of_sq ?_) (hfin u v huv)⟩
        rw [sqNorm_sub_comm p, sqNorm_sub_comm p]
        exact not_lt.1 hlt

end PatchBase

end NS
