import Verif.Props.Circle
import Mathlib.Tactic.Positivity

/-!
# Inverse evaluation of ellipses (C67)
-/

set_option linter.unusedSectionVars false

namespace NS

open Outcome Geom LawfulGeom Real

variable {V : Type} [AddCommGroup V] [Module ℝ V] [Geom ℝ V] [LawfulGeom ℝ V]

namespace Ellipse

theorem quadrant_mem (t : ℝ) : 0 ≤ quadrant t ∧ quadrant t ≤ π / 2 := by
  have := Real.pi_pos
  unfold quadrant
  split
  · constructor <;> linarith
  · split <;> constructor <;> linarith

theorem closestGo_mem (tol : ℝ) (c : Ellipse V) (a1 a2 p2 : V) :
    ∀ (n : ℕ) (t dt r : ℝ), 0 ≤ t → t ≤ π / 2 → closestGo tol c a1 a2 p2 n t dt = ok r →
      0 ≤ r ∧ r ≤ π / 2 := by
  intro n
  induction n with
  | zero =>
    intro t dt r h0 h1 e
    rw [closestGo, ok.injEq] at e
    subst e; exact ⟨h0, h1⟩
  | succ n ih =>
    intro t dt r h0 h1 e
    rw [closestGo] at e
    split at e
    · obtain ⟨d, -, e⟩ := bind_eq_ok.1 e
      exact ih _ _ _ (quadrant_mem _).1 (quadrant_mem _).2 e
    · rw [ok.injEq] at e; subst e; exact ⟨h0, h1⟩

theorem raise_ge (lower : ℝ) : ∀ (fuel : ℕ) (x t : ℝ), raise lower fuel x = ok t → lower ≤ t := by
  intro fuel
  induction fuel with
  | zero =>
    intro x t hr
    rw [raise] at hr
    split at hr
    · cases hr
    · rename_i hx; rw [ok.injEq] at hr; subst hr; exact not_lt.1 hx
  | succ n ih =>
    intro x t hr
    rw [raise] at hr
    split at hr
    · exact ih _ _ hr
    · rename_i hx; rw [ok.injEq] at hr; subst hr; exact not_lt.1 hx

theorem reflectParam_mem (c : Ellipse V) (a1 a2 p : V) {t : ℝ} (h0 : 0 ≤ t) (h1 : t ≤ π / 2) :
    0 ≤ reflectParam c a1 a2 p t ∧ reflectParam c a1 a2 p t ≤ 2 * π := by
  have := Real.pi_pos
  unfold reflectParam
  simp only
  split <;> split <;> constructor <;> linarith

/-- C67, first part: whatever the frame, a value returned by the inverse evaluation of an ellipse lies
in the range. -/
theorem C67_ellipse_range (tol big : ℝ) (fuel : ℕ) (c : Ellipse V) (p : V) (lower upper t : ℝ)
    (h : c.approxInverse tol big fuel p lower upper = ok t) : lower ≤ t ∧ t ≤ upper := by
  unfold approxInverse at h
  obtain ⟨_, hlu, h⟩ := bind_eq_ok.1 h
  have hlu : lower ≤ upper := by
    by_contra hn
    rw [assert_false hn] at hlu; cases hlu
  obtain ⟨a1, -, h⟩ := bind_eq_ok.1 h
  obtain ⟨a2, -, h⟩ := bind_eq_ok.1 h
  obtain ⟨t0, -, h⟩ := bind_eq_ok.1 h
  obtain ⟨t1, hr, h⟩ := bind_eq_ok.1 h
  have hr' : lower ≤ t1 := raise_ge _ _ _ _ hr
  rw [pure_eq, ok.injEq] at h
  subst h
  split
  · split
    · exact ⟨le_refl _, hlu⟩
    · exact ⟨hlu, le_refl _⟩
  · rename_i h'; exact ⟨hr', not_lt.1 h'⟩

theorem axis_ok {e : V} (h : (dot e e : ℝ) = 1) : axis e = ok e := by
  have h1 : (norm e : ℝ) = 1 := by
    have h2 := norm_sq (K := ℝ) e
    have h3 := LawfulGeom.norm_nonneg (K := ℝ) e
    rw [h] at h2
    nlinarith
  unfold axis
  rw [if_neg (by rw [h1]; exact one_ne_zero), h1, div_one, one_smul]

/-- The squared speed. -/
noncomputable def speedSq (c : Ellipse V) (t : ℝ) : ℝ := c.major ^ 2 * sin t ^ 2 + c.minor ^ 2 * cos t ^ 2

theorem speedSq_bounds (c : Ellipse V) (hb : 0 < c.minor) (hab : c.minor ≤ c.major) (t : ℝ) :
    c.minor ^ 2 ≤ speedSq c t ∧ speedSq c t ≤ c.major ^ 2 := by
  have h := Real.sin_sq_add_cos_sq t
  have h1 : c.minor ^ 2 ≤ c.major ^ 2 := by nlinarith
  unfold speedSq
  constructor
  · nlinarith [sq_nonneg (sin t), mul_nonneg (sub_nonneg.2 h1) (sq_nonneg (sin t))]
  · nlinarith [mul_nonneg (sub_nonneg.2 h1) (sq_nonneg (cos t))]

/-- The curvature vector of an ellipse. -/
theorem curvature_eq (c : Ellipse V) (h : Ortho2 c.e0 c.e1) (hb : 0 < c.minor)
    (hab : c.minor ≤ c.major) (t : ℝ) :
    curvature (K := ℝ) (fun s => ok (c.evaluateDerivative s)) (fun s => ok (c.evaluate2ndDerivative s)) t =
      ok ((-(c.major * c.minor ^ 2 * cos t) / speedSq c t ^ 2) • c.e0 +
        (-(c.minor * c.major ^ 2 * sin t) / speedSq c t ^ 2) • c.e1) := by
  have hs : 0 < speedSq c t := lt_of_lt_of_le (by positivity) (speedSq_bounds c hb hab t).1
  have e1 : c.evaluateDerivative t = (-(c.major * sin t)) • c.e0 + (c.minor * cos t) • c.e1 := by
    unfold evaluateDerivative; module
  have e2 : c.evaluate2ndDerivative t = (-(c.major * cos t)) • c.e0 + (-(c.minor * sin t)) • c.e1 := by
    unfold evaluate2ndDerivative; module
  have hq : (sqNorm (c.evaluateDerivative t) : ℝ) = speedSq c t := by
    unfold sqNorm speedSq
    rw [e1]
    simp only [dot_add, dot_add_right, dot_smul, dot_smul_right, h.n0, h.n1, h.o01, h.o10]
    ring
  have hd : (dot (c.evaluateDerivative t) (c.evaluate2ndDerivative t) : ℝ) =
      (c.major ^ 2 - c.minor ^ 2) * sin t * cos t := by
    rw [e1, e2]
    simp only [dot_add, dot_add_right, dot_smul, dot_smul_right, h.n0, h.n1, h.o01, h.o10]
    ring
  unfold curvature
  rw [ok_bind, ok_bind]
  simp only
  rw [hq, if_neg hs.ne', hd, e1, e2, pure_eq, ok.injEq]
  match_scalars
  · have hs2 : speedSq c t ^ 2 ≠ 0 := pow_ne_zero _ hs.ne'
    field_simp
    unfold speedSq
    linear_combination (-c.major * c.minor ^ 2 * cos t) * Real.sin_sq_add_cos_sq t
  · have hs2 : speedSq c t ^ 2 ≠ 0 := pow_ne_zero _ hs.ne'
    field_simp
    unfold speedSq
    linear_combination (-c.major ^ 2 * sin t) * Real.sin_sq_add_cos_sq t

/-- One step of the iteration is defined. -/
theorem stepSize_ok (tol : ℝ) (c : Ellipse V) (h : Ortho2 c.e0 c.e1) (hb : 0 < c.minor)
    (hab : c.minor ≤ c.major) (ht : tol < (c.minor / c.major ^ 2) ^ 2) (p2 : V) (t : ℝ) :
    ∃ d, stepSize tol c c.e0 c.e1 p2 t = ok d := by
  have ha : 0 < c.major := lt_of_lt_of_le hb hab
  obtain ⟨hs1, hs2⟩ := speedSq_bounds c hb hab t
  have hs : 0 < speedSq c t := lt_of_lt_of_le (by positivity) hs1
  unfold stepSize
  rw [curvature_eq c h hb hab, ok_bind]
  simp only
  have hsn : (sqNorm ((-(c.major * c.minor ^ 2 * cos t) / speedSq c t ^ 2) • c.e0 +
        (-(c.minor * c.major ^ 2 * sin t) / speedSq c t ^ 2) • c.e1) : ℝ) =
      c.major ^ 2 * c.minor ^ 2 / speedSq c t ^ 3 := by
    unfold sqNorm
    simp only [dot_add, dot_add_right, dot_smul, dot_smul_right, h.n0, h.n1, h.o01, h.o10]
    field_simp
    unfold speedSq
    ring
  rw [assert_true]
  · rw [ok_bind]
    have hx : (dot (c.evaluate t - c.center) c.e0 : ℝ) = c.major * cos t := by
      rw [show c.evaluate t - c.center = (c.major * cos t) • c.e0 + (c.minor * sin t) • c.e1 by
        unfold evaluate; module, dot_add, dot_smul, dot_smul, h.n0, h.o10]; ring
    have hy : (dot (c.evaluate t - c.center) c.e1 : ℝ) = c.minor * sin t := by
      rw [show c.evaluate t - c.center = (c.major * cos t) • c.e0 + (c.minor * sin t) • c.e1 by
        unfold evaluate; module, dot_add, dot_smul, dot_smul, h.n1, h.o01]; ring
    rw [hx, hy, if_neg]
    · exact ⟨_, rfl⟩
    · rw [not_le]
      have : c.major * c.major + c.minor * c.minor - c.major * cos t * (c.major * cos t) -
          c.minor * sin t * (c.minor * sin t) = speedSq c t := by
        unfold speedSq
        linear_combination (-(c.major ^ 2 + c.minor ^ 2)) * Real.sin_sq_add_cos_sq t
      rw [this]; exact hs
  · rw [hsn]
    refine lt_of_lt_of_le ht ?_
    have h3 : speedSq c t ^ 3 ≤ (c.major ^ 2) ^ 3 := pow_le_pow_left₀ hs.le hs2 3
    rw [show (c.minor / c.major ^ 2) ^ 2 = c.major ^ 2 * c.minor ^ 2 / (c.major ^ 2) ^ 3 by
      field_simp]
    exact div_le_div_of_nonneg_left (by positivity) (pow_pos hs 3) h3

theorem closestGo_ok (tol : ℝ) (c : Ellipse V) (h : Ortho2 c.e0 c.e1) (hb : 0 < c.minor)
    (hab : c.minor ≤ c.major) (ht : tol < (c.minor / c.major ^ 2) ^ 2) (p2 : V) :
    ∀ (n : ℕ) (t dt : ℝ), ∃ r, closestGo tol c c.e0 c.e1 p2 n t dt = ok r := by
  intro n
  induction n with
  | zero => intro t dt; exact ⟨t, rfl⟩
  | succ n ih =>
    intro t dt
    rw [closestGo]
    split
    · obtain ⟨d, e⟩ := stepSize_ok tol c h hb hab ht p2 t
      rw [e, ok_bind]; exact ih _ _
    · exact ⟨t, rfl⟩

/-- C67, second part: for an orthonormal frame whose curvature exceeds the tolerance of the code's
assertion everywhere, inverse evaluation terminates normally, for every query and range, once the range
can be reached by full turns. -/
theorem C67_ellipse_defined (tol big : ℝ) (fuel : ℕ) (c : Ellipse V) (h : Ortho2 c.e0 c.e1)
    (hb : 0 < c.minor) (hab : c.minor ≤ c.major) (ht : tol < (c.minor / c.major ^ 2) ^ 2)
    (p : V) (lower upper : ℝ) (hlu : lower ≤ upper) (hf : lower ≤ fuel * (2 * π)) :
    ∃ t, c.approxInverse tol big fuel p lower upper = ok t := by
  have hpi := Real.pi_pos
  unfold approxInverse
  rw [assert_true hlu, ok_bind, axis_ok h.n0, ok_bind, axis_ok h.n1, ok_bind]
  obtain ⟨t0, e⟩ := closestGo_ok tol c h hb hab ht (reflectPoint c c.e0 c.e1 p) 100 (π / 4) big
  rw [e, ok_bind]
  have hm := closestGo_mem tol c _ _ _ _ _ _ _ (by linarith) (by linarith) e
  have hm2 := reflectParam_mem c c.e0 c.e1 p hm.1 hm.2
  obtain ⟨r, e2, -⟩ := raise_spec lower fuel (reflectParam c c.e0 c.e1 p t0) (by linarith)
  rw [e2, ok_bind]
  exact ⟨_, rfl⟩

/-- Squared distance of a point of the ellipse to a query, in coordinates. -/
theorem sqDist (c : Ellipse V) (h : Ortho2 c.e0 c.e1) (p : V) (t : ℝ) :
    (sqNorm (c.evaluate t - p) : ℝ) =
      (c.major * cos t - dot (p - c.center) c.e0) ^ 2 + (c.minor * sin t - dot (p - c.center) c.e1) ^ 2 +
      (sqNorm (p - c.center) - (dot (p - c.center) c.e0 : ℝ) ^ 2 - (dot (p - c.center) c.e1 : ℝ) ^ 2) := by
  have e : c.evaluate t - p =
      (c.major * cos t) • c.e0 + (c.minor * sin t) • c.e1 - (p - c.center) := by
    unfold evaluate; module
  rw [e, sqDist2 h]
  ring

theorem reflectPoint_coords (c : Ellipse V) (h : Ortho2 c.e0 c.e1) (p : V) :
    (dot (reflectPoint c c.e0 c.e1 p - c.center) c.e0 : ℝ) = |(dot (p - c.center) c.e0 : ℝ)| ∧
    (dot (reflectPoint c c.e0 c.e1 p - c.center) c.e1 : ℝ) = |(dot (p - c.center) c.e1 : ℝ)| := by
  have key : ∀ (x y : ℝ), (dot (p - x • c.e0 - y • c.e1 - c.center) c.e0 : ℝ) =
        dot (p - c.center) c.e0 - x ∧ (dot (p - x • c.e0 - y • c.e1 - c.center) c.e1 : ℝ) =
        dot (p - c.center) c.e1 - y := by
    intro x y
    rw [show p - x • c.e0 - y • c.e1 - c.center = (p - c.center) - x • c.e0 - y • c.e1 by abel]
    simp only [dot_sub_left, dot_smul, h.n0, h.n1, h.o01, h.o10]
    constructor <;> ring
  set x : ℝ := dot (p - c.center) c.e0
  set y : ℝ := dot (p - c.center) c.e1
  have e : reflectPoint c c.e0 c.e1 p = p - (if x < 0 then 2 * x else 0) • c.e0 -
      (if y < 0 then 2 * y else 0) • c.e1 := by
    unfold reflectPoint
    simp only
    split_ifs <;> first | rfl | (simp; rfl) | simp
  rw [e, (key _ _).1, (key _ _).2]
  constructor
  · split_ifs with hx
    · rw [abs_of_neg hx]; ring
    · rw [abs_of_nonneg (not_lt.1 hx)]; ring
  · split_ifs with hy
    · rw [abs_of_neg hy]; ring
    · rw [abs_of_nonneg (not_lt.1 hy)]; ring

/-- Undoing the reflection of the parameter. -/
theorem reflectParam_coords (c : Ellipse V) (a1 a2 p : V) {t : ℝ} :
    cos (reflectParam c a1 a2 p t) = (if (dot (p - c.center) a1 : ℝ) < 0 then -1 else 1) * cos t ∧
    sin (reflectParam c a1 a2 p t) = (if (dot (p - c.center) a2 : ℝ) < 0 then -1 else 1) * sin t := by
  unfold reflectParam
  simp only
  split_ifs <;>
    simp only [Real.cos_pi_sub, Real.sin_pi_sub, Real.cos_two_pi_sub, Real.sin_two_pi_sub, neg_mul,
      one_mul, and_self]

/-- C67, third part: the reduction to the first quadrant is right.  If the iteration has found the
parameter of the first quadrant closest to the reflected query, then on the full range `[0, 2π]` the
returned parameter is one of a closest point of the whole ellipse.

Full claim: the returned parameter is that of a closest point.  Missing: that 100 steps of the iteration
find the closest point of the quadrant, and ranges other than `[0, 2π]` (it fails for ranges starting
below 0, `C67_ellipse_inverse_refuted`). -/
theorem C67_ellipse_reflection_partial (tol big : ℝ) (fuel : ℕ) (c : Ellipse V)
    (h : Ortho2 c.e0 c.e1) (ha : 0 < c.major) (hb : 0 < c.minor) (p : V) (t0 : ℝ)
    (he : closestGo tol c c.e0 c.e1 (reflectPoint c c.e0 c.e1 p) 100 (π / 4) big = ok t0)
    (hbest : ∀ s, 0 ≤ s → s ≤ π / 2 →
      (sqNorm (c.evaluate t0 - reflectPoint c c.e0 c.e1 p) : ℝ) ≤
        sqNorm (c.evaluate s - reflectPoint c c.e0 c.e1 p)) :
    ∃ t, c.approxInverse tol big fuel p 0 (2 * π) = ok t ∧ 0 ≤ t ∧ t ≤ 2 * π ∧
      ∀ s, (sqNorm (c.evaluate t - p) : ℝ) ≤ sqNorm (c.evaluate s - p) := by
  have hpi := Real.pi_pos
  obtain ⟨m1, m2⟩ := closestGo_mem tol c _ _ _ _ _ _ _ (by linarith) (by linarith) he
  obtain ⟨r1, r2⟩ := reflectParam_mem c c.e0 c.e1 p m1 m2
  refine ⟨reflectParam c c.e0 c.e1 p t0, ?_, r1, r2, ?_⟩
  · unfold approxInverse
    rw [assert_true (by linarith), ok_bind, axis_ok h.n0, ok_bind, axis_ok h.n1, ok_bind, he, ok_bind]
    have : raise 0 fuel (reflectParam c c.e0 c.e1 p t0) = ok (reflectParam c c.e0 c.e1 p t0) := by
      cases fuel <;> rw [raise, if_neg (not_lt.2 r1)]
    rw [this, ok_bind, if_neg (not_lt.2 r2)]; rfl
  · intro s
    obtain ⟨q1, q2⟩ := reflectPoint_coords c h p
    obtain ⟨c1, c2⟩ := reflectParam_coords c c.e0 c.e1 p (t := t0)
    -- the parameter of the first quadrant with the same absolute coordinates as `s`
    obtain ⟨s', hs0, hs1, hsc, hss⟩ : ∃ s', 0 ≤ s' ∧ s' ≤ π / 2 ∧ cos s' = |cos s| ∧ sin s' = |sin s| := by
      refine ⟨Real.arcsin |sin s|, Real.arcsin_nonneg.2 (abs_nonneg _), Real.arcsin_le_pi_div_two _, ?_, ?_⟩
      · rw [Real.cos_arcsin, sq_abs, ← Real.sqrt_sq_eq_abs]
        congr 1
        linarith [Real.sin_sq_add_cos_sq s]
      · exact Real.sin_arcsin (by linarith [abs_nonneg (sin s)]) (Real.abs_sin_le_one s)
    have hb' := hbest s' hs0 hs1
    rw [sqDist c h, sqDist c h, q1, q2, hsc, hss] at hb'
    rw [sqDist c h p s, sqDist c h p (reflectParam c c.e0 c.e1 p t0), c1, c2]
    set x : ℝ := dot (p - c.center) c.e0
    set y : ℝ := dot (p - c.center) c.e1
    have flip : ∀ (m z g : ℝ), (m * ((if z < 0 then -1 else 1) * g) - z) ^ 2 = (m * g - |z|) ^ 2 := by
      intro m z g
      split_ifs with hz
      · rw [abs_of_neg hz]; ring
      · rw [abs_of_nonneg (not_lt.1 hz)]; ring
    have low : ∀ (m z g : ℝ), 0 < m → (m * |g| - |z|) ^ 2 ≤ (m * g - z) ^ 2 := by
      intro m z g hm
      have h1 : m * (g * z) ≤ m * (|g| * |z|) := by
        rw [← abs_mul]; exact mul_le_mul_of_nonneg_left (le_abs_self _) hm.le
      have h2 : (m * |g|) ^ 2 = (m * g) ^ 2 := by rw [mul_pow, sq_abs, mul_pow]
      nlinarith [sq_abs z]
    rw [flip, flip]
    have l1 := low c.major x (cos s) ha
    have l2 := low c.minor y (sin s) hb
    linarith

/-- C67 fails for ranges starting below 0: on the full ellipse parametrised by `[-π, π]` the inverse
evaluation of the point of parameter `-π/2` returns an end of the range, a different point. -/
theorem C67_ellipse_inverse_refuted (tol big : ℝ) (fuel : ℕ) (c : Ellipse V) (h : Ortho2 c.e0 c.e1)
    (hb : 0 < c.minor) (hab : c.minor ≤ c.major) (ht : tol < (c.minor / c.major ^ 2) ^ 2) :
    ∃ t, c.approxInverse tol big fuel (c.evaluate (-(π / 2))) (-π) π = ok t ∧
      c.evaluate t ≠ c.evaluate (-(π / 2)) := by
  have hpi := Real.pi_pos
  obtain ⟨t, e⟩ := C67_ellipse_defined tol big fuel c h hb hab ht (c.evaluate (-(π / 2))) (-π) π
    (by linarith) (by have : (0 : ℝ) ≤ fuel * (2 * π) := by positivity
                      linarith)
  refine ⟨t, e, ?_⟩
  have ev : ∀ s, c.evaluate s - c.center = (c.major * cos s) • c.e0 + (c.minor * sin s) • c.e1 := by
    intro s; unfold evaluate; module
  have hx : (dot (c.evaluate (-(π / 2)) - c.center) c.e0 : ℝ) = 0 := by
    rw [ev, dot_add, dot_smul, dot_smul, h.n0, h.o10, Real.cos_neg, Real.cos_pi_div_two]; ring
  have hy : (dot (c.evaluate (-(π / 2)) - c.center) c.e1 : ℝ) = -c.minor := by
    rw [ev, dot_add, dot_smul, dot_smul, h.n1, h.o01, Real.sin_neg, Real.sin_pi_div_two]; ring
  have hend : t = -π ∨ t = π := by
    unfold approxInverse at e
    rw [assert_true (by linarith), ok_bind, axis_ok h.n0, ok_bind, axis_ok h.n1, ok_bind] at e
    obtain ⟨t0, e0, e⟩ := bind_eq_ok.1 e
    obtain ⟨m1, m2⟩ := closestGo_mem tol c _ _ _ _ _ _ _ (by linarith) (by linarith) e0
    have hr : reflectParam c c.e0 c.e1 (c.evaluate (-(π / 2))) t0 = 2 * π - t0 := by
      unfold reflectParam
      simp only
      rw [hx, hy, if_neg (lt_irrefl _), if_pos (by linarith)]
    have hraise : raise (-π) fuel (2 * π - t0) = ok (2 * π - t0) := by
      cases fuel <;> rw [raise, if_neg (by linarith)]
    rw [hr, hraise, ok_bind, if_pos (by linarith : 2 * π - t0 > π), pure_eq, ok.injEq] at e
    split at e
    · exact Or.inl e.symm
    · exact Or.inr e.symm
  intro he
  have h1 := congrArg (fun q => (dot (q - c.center) c.e1 : ℝ)) he
  rw [hy, ev, dot_add, dot_smul, dot_smul, h.n1, h.o01] at h1
  have hs : sin t = 0 := by
    rcases hend with rfl | rfl
    · rw [Real.sin_neg, Real.sin_pi, neg_zero]
    · exact Real.sin_pi
  rw [hs] at h1
  linarith

/-- Concrete case: the ellipse with radii 2 and 1 in the complex plane and the tolerance 1/1000. -/
example : Ortho2 (V := ℂ) 1 Complex.I ∧ (0 : ℝ) < 1 ∧ (1 : ℝ) ≤ 2 ∧
    (1 / 1000 : ℝ) < (1 / 2 ^ 2) ^ 2 := by
  refine ⟨⟨?_, ?_, ?_⟩, by norm_num, by norm_num, by norm_num⟩ <;> simp [dot, Inner.inner]

/-- C67, fourth part: the iteration only comes to rest (inside the quadrant) at feet of normals: a step
of length zero means that the query minus the current point is orthogonal to the tangent. -/
theorem C67_ellipse_rest_partial (tol : ℝ) (c : Ellipse V) (h : Ortho2 c.e0 c.e1) (hb : 0 < c.minor)
    (hab : c.minor ≤ c.major) (p2 : V) (t : ℝ) (he : stepSize tol c c.e0 c.e1 p2 t = ok 0) :
    (dot (p2 - c.evaluate t) (c.evaluateDerivative t) : ℝ) = 0 := by
  have ha : 0 < c.major := lt_of_lt_of_le hb hab
  obtain ⟨hs1, hs2⟩ := speedSq_bounds c hb hab t
  have hs : 0 < speedSq c t := lt_of_lt_of_le (by positivity) hs1
  unfold stepSize at he
  rw [curvature_eq c h hb hab, ok_bind] at he
  simp only at he
  set k : V := (-(c.major * c.minor ^ 2 * cos t) / speedSq c t ^ 2) • c.e0 +
        (-(c.minor * c.major ^ 2 * sin t) / speedSq c t ^ 2) • c.e1 with hk
  have hsn : (sqNorm k : ℝ) = c.major ^ 2 * c.minor ^ 2 / speedSq c t ^ 3 := by
    rw [hk]
    unfold sqNorm
    simp only [dot_add, dot_add_right, dot_smul, dot_smul_right, h.n0, h.n1, h.o01, h.o10]
    field_simp
    unfold speedSq
    ring
  have hsn0 : (0 : ℝ) < sqNorm k := by rw [hsn]; positivity
  obtain ⟨_, -, he⟩ := bind_eq_ok.1 he
  split at he
  · cases he
  rename_i hrad
  rw [pure_eq, ok.injEq] at he
  rw [div_eq_zero_iff, mul_eq_zero] at he
  have hr0 := Real.sqrt_pos.2 (not_le.1 hrad)
  have hk0 : 1 / Real.sqrt (sqNorm k : ℝ) ≠ 0 := by
    have := Real.sqrt_pos.2 hsn0
    positivity
  have hth := (he.resolve_right hr0.ne').resolve_left hk0
  -- a zero angle means that the cross product vanishes
  obtain ⟨-, h2⟩ := atan2_polar
    ((dot (c.evaluate t - (c.evaluate t + (1 / (sqNorm k : ℝ)) • k)) c.e0 : ℝ) *
      dot (p2 - (c.evaluate t + (1 / (sqNorm k : ℝ)) • k)) c.e1 -
      (dot (c.evaluate t - (c.evaluate t + (1 / (sqNorm k : ℝ)) • k)) c.e1 : ℝ) *
      dot (p2 - (c.evaluate t + (1 / (sqNorm k : ℝ)) • k)) c.e0)
    ((dot (c.evaluate t - (c.evaluate t + (1 / (sqNorm k : ℝ)) • k)) c.e0 : ℝ) *
      dot (p2 - (c.evaluate t + (1 / (sqNorm k : ℝ)) • k)) c.e0 +
      (dot (c.evaluate t - (c.evaluate t + (1 / (sqNorm k : ℝ)) • k)) c.e1 : ℝ) *
      dot (p2 - (c.evaluate t + (1 / (sqNorm k : ℝ)) • k)) c.e1)
  rw [hth, Real.sin_zero, mul_zero] at h2
  have e1 : c.evaluateDerivative t = (-(c.major * sin t)) • c.e0 + (c.minor * cos t) • c.e1 := by
    unfold evaluateDerivative; module
  set g : ℝ := 1 / (sqNorm k : ℝ) with hg
  have hg0 : g ≠ 0 := by rw [hg]; positivity
  rw [show c.evaluate t - (c.evaluate t + g • k) = -(g • k) by abel,
    show p2 - (c.evaluate t + g • k) = (p2 - c.evaluate t) - g • k by abel] at h2
  simp only [dot_neg_left, dot_sub_left, dot_smul] at h2
  have hk1 : (dot k c.e0 : ℝ) = -(c.major * c.minor ^ 2 * cos t) / speedSq c t ^ 2 := by
    rw [hk, dot_add, dot_smul, dot_smul, h.n0, h.o10]; ring
  have hk2 : (dot k c.e1 : ℝ) = -(c.minor * c.major ^ 2 * sin t) / speedSq c t ^ 2 := by
    rw [hk, dot_add, dot_smul, dot_smul, h.n1, h.o01]; ring
  rw [hk1, hk2] at h2
  rw [e1, dot_add_right, dot_smul_right, dot_smul_right]
  rw [dot_sub_left, dot_sub_left]
  have h3 : g * c.major * c.minor / speedSq c t ^ 2 * (-(c.major * sin t) *
      (dot p2 c.e0 - dot (c.evaluate t) c.e0) +
      c.minor * cos t * (dot p2 c.e1 - dot (c.evaluate t) c.e1)) = 0 := by
    rw [← h2]; ring
  have h4 : g * c.major * c.minor / speedSq c t ^ 2 ≠ 0 := by positivity
  exact (mul_eq_zero.1 h3).resolve_left h4

end Ellipse

end NS
