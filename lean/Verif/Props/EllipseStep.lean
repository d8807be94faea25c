import Verif.Props.Ellipse

/-!
# C67: what a small step of the ellipse iteration implies
-/

set_option linter.unusedSectionVars false

namespace NS

open Outcome Geom LawfulGeom Real

variable {V : Type} [AddCommGroup V] [Module ℝ V] [Geom ℝ V] [LawfulGeom ℝ V]

namespace Ellipse

/-- A nearly orthogonal foot in the upper half of the ellipse, of a query in the upper half plane, is
nearly closest on the whole ellipse. -/
theorem near_opt {a b x y t : ℝ} (hb : 0 < b) (hab : b ≤ a) (hy : 0 ≤ y) (hs : 0 < sin t) (s : ℝ) :
    sin t * (((a * cos t - x) ^ 2 + (b * sin t - y) ^ 2) -
        ((a * cos s - x) ^ 2 + (b * sin s - y) ^ 2)) ≤
      4 * |-(a * sin t) * (x - a * cos t) + b * cos t * (y - b * sin t)| := by
  obtain ⟨l, hl⟩ : ∃ l : ℝ, y * b = sin t * (b ^ 2 + l) :=
    ⟨b * (y - b * sin t) / sin t, by field_simp; ring⟩
  have hl0 : 0 ≤ b ^ 2 + l := by
    have : 0 ≤ sin t * (b ^ 2 + l) := by rw [← hl]; positivity
    exact nonneg_of_mul_nonneg_right this hs
  have hl1 : 0 ≤ a ^ 2 + l := by nlinarith
  obtain ⟨G, hG⟩ : ∃ G : ℝ, a * x = G + cos t * (a ^ 2 + l) := ⟨a * x - cos t * (a ^ 2 + l), by ring⟩
  have hf : -(a * sin t) * (x - a * cos t) + b * cos t * (y - b * sin t) = -(sin t * G) := by
    linear_combination (-(sin t)) * hG + cos t * hl
  have h1 := Real.sin_sq_add_cos_sq t
  have h2 := Real.sin_sq_add_cos_sq s
  have hD : ((a * cos t - x) ^ 2 + (b * sin t - y) ^ 2) -
        ((a * cos s - x) ^ 2 + (b * sin s - y) ^ 2) =
      2 * G * (cos s - cos t) - (a ^ 2 + l) * (cos s - cos t) ^ 2 -
        (b ^ 2 + l) * (sin s - sin t) ^ 2 := by
    linear_combination (2 * (cos s - cos t)) * hG + (2 * (sin s - sin t)) * hl - l * h1 + l * h2
  rw [hf, abs_neg, abs_mul, abs_of_pos hs, hD]
  have h3 : 2 * G * (cos s - cos t) ≤ 4 * |G| := by
    have h4 : G * (cos s - cos t) ≤ |G| * |cos s - cos t| := by
      rw [← abs_mul]; exact le_abs_self _
    have h5 : |cos s - cos t| ≤ 2 := by
      rw [abs_le]
      constructor <;> linarith [Real.neg_one_le_cos s, Real.cos_le_one s, Real.neg_one_le_cos t,
        Real.cos_le_one t]
    have h6 : |G| * |cos s - cos t| ≤ |G| * 2 := mul_le_mul_of_nonneg_left h5 (abs_nonneg _)
    linarith
  have h7 : 2 * G * (cos s - cos t) - (a ^ 2 + l) * (cos s - cos t) ^ 2 -
        (b ^ 2 + l) * (sin s - sin t) ^ 2 ≤ 4 * |G| := by
    have := mul_nonneg hl1 (sq_nonneg (cos s - cos t))
    have := mul_nonneg hl0 (sq_nonneg (sin s - sin t))
    linarith
  calc _ ≤ sin t * (4 * |G|) := mul_le_mul_of_nonneg_left h7 hs.le
    _ = _ := by ring

/-- The derivative against the distance vector, in coordinates. -/
theorem foot_coords (c : Ellipse V) (h : Ortho2 c.e0 c.e1) (p : V) (t : ℝ) :
    (dot (p - c.evaluate t) (c.evaluateDerivative t) : ℝ) =
      -(c.major * sin t) * (dot (p - c.center) c.e0 - c.major * cos t) +
        c.minor * cos t * (dot (p - c.center) c.e1 - c.minor * sin t) := by
  have e1 : c.evaluateDerivative t = (-(c.major * sin t)) • c.e0 + (c.minor * cos t) • c.e1 := by
    unfold evaluateDerivative; module
  have e2 : p - c.evaluate t =
      (p - c.center) - (c.major * cos t) • c.e0 - (c.minor * sin t) • c.e1 := by
    unfold evaluate; module
  rw [e1, e2]
  simp only [dot_sub_left, dot_add_right, dot_smul, dot_smul_right, h.n0, h.n1, h.o01, h.o10]
  ring

/-- C67: a foot of a normal in the open upper half, of a query in the closed upper half plane, is
a closest point of the whole ellipse.  (The iteration works on the first quadrant, with the query
reflected into it.) -/
theorem C67_ellipse_foot_closest (c : Ellipse V) (h : Ortho2 c.e0 c.e1) (hb : 0 < c.minor)
    (hab : c.minor ≤ c.major) (p : V) (hy : 0 ≤ (dot (p - c.center) c.e1 : ℝ)) {t : ℝ}
    (ht : 0 < sin t) (he : (dot (p - c.evaluate t) (c.evaluateDerivative t) : ℝ) = 0) (s : ℝ) :
    (sqNorm (c.evaluate t - p) : ℝ) ≤ sqNorm (c.evaluate s - p) := by
  have := near_opt hb hab hy ht (x := dot (p - c.center) c.e0) s
  rw [foot_coords c h] at he
  rw [he, abs_zero, mul_zero] at this
  rw [sqDist c h, sqDist c h]
  have := nonpos_of_mul_nonpos_right this ht
  linarith

/-- The query minus the current centre of curvature is not longer than the query plus `a^2/b`. -/
theorem centre_bound {a b x y t : ℝ} (hb : 0 < b) (hab : b ≤ a) {P S : ℝ}
    (hS : S = a ^ 2 * sin t ^ 2 + b ^ 2 * cos t ^ 2) (hP : x ^ 2 + y ^ 2 = P ^ 2) (hP0 : 0 ≤ P) :
    b ^ 2 * ((x - (a * cos t - S * cos t / a)) ^ 2 + (y - (b * sin t - S * sin t / b)) ^ 2) ≤
      (b * P + a ^ 2) ^ 2 := by
  have ha : 0 < a := lt_of_lt_of_le hb hab
  have h1 := Real.sin_sq_add_cos_sq t
  set u := a * cos t - S * cos t / a with hu
  set v := b * sin t - S * sin t / b with hv
  have hu' : u * a = (a ^ 2 - b ^ 2) * cos t ^ 3 := by
    rw [hu, hS]; field_simp
    linear_combination (-(a ^ 2) * cos t) * h1
  have hv' : v * b = -((a ^ 2 - b ^ 2) * sin t ^ 3) := by
    rw [hv, hS]; field_simp
    linear_combination (-(b ^ 2) * sin t) * h1
  have hab2 : 0 ≤ a ^ 2 - b ^ 2 := by nlinarith
  have hc1 : cos t ^ 2 ≤ 1 := by nlinarith [sq_nonneg (sin t)]
  have hs1 : sin t ^ 2 ≤ 1 := by nlinarith [sq_nonneg (cos t)]
  -- the centre of curvature is within `a^2/b`
  have hN : b ^ 2 * (u ^ 2 + v ^ 2) ≤ (a ^ 2) ^ 2 := by
    have h2 : (v * b) ^ 2 ≤ (a ^ 2 - b ^ 2) ^ 2 * sin t ^ 2 := by
      rw [hv']
      have h5 : sin t ^ 6 ≤ sin t ^ 2 := by
        have h6 : sin t ^ 4 ≤ 1 := by nlinarith [sq_nonneg (sin t ^ 2)]
        nlinarith [sq_nonneg (sin t)]
      calc (-((a ^ 2 - b ^ 2) * sin t ^ 3)) ^ 2 = (a ^ 2 - b ^ 2) ^ 2 * sin t ^ 6 := by ring
        _ ≤ _ := mul_le_mul_of_nonneg_left h5 (sq_nonneg _)
    have h3 : (u * b) ^ 2 ≤ (a ^ 2 - b ^ 2) ^ 2 * cos t ^ 2 := by
      have h4 : (u * b) ^ 2 ≤ (u * a) ^ 2 := by
        rw [mul_pow, mul_pow]
        exact mul_le_mul_of_nonneg_left (by nlinarith) (sq_nonneg u)
      refine h4.trans ?_
      rw [hu']
      have h5 : cos t ^ 6 ≤ cos t ^ 2 := by
        have h6 : cos t ^ 4 ≤ 1 := by nlinarith [sq_nonneg (cos t ^ 2)]
        nlinarith [sq_nonneg (cos t)]
      calc ((a ^ 2 - b ^ 2) * cos t ^ 3) ^ 2 = (a ^ 2 - b ^ 2) ^ 2 * cos t ^ 6 := by ring
        _ ≤ _ := mul_le_mul_of_nonneg_left h5 (sq_nonneg _)
    calc b ^ 2 * (u ^ 2 + v ^ 2) = (u * b) ^ 2 + (v * b) ^ 2 := by ring
      _ ≤ (a ^ 2 - b ^ 2) ^ 2 * cos t ^ 2 + (a ^ 2 - b ^ 2) ^ 2 * sin t ^ 2 := add_le_add h3 h2
      _ = (a ^ 2 - b ^ 2) ^ 2 := by linear_combination ((a ^ 2 - b ^ 2) ^ 2) * h1
      _ ≤ (a ^ 2) ^ 2 := pow_le_pow_left₀ hab2 (by nlinarith) 2
  -- triangle inequality
  have hcs : (b * (x * u + y * v)) ^ 2 ≤ (P * a ^ 2) ^ 2 := by
    have h6 : (x * u + y * v) ^ 2 ≤ (x ^ 2 + y ^ 2) * (u ^ 2 + v ^ 2) := by
      nlinarith [sq_nonneg (x * v - y * u)]
    calc (b * (x * u + y * v)) ^ 2 = b ^ 2 * (x * u + y * v) ^ 2 := by ring
      _ ≤ b ^ 2 * ((x ^ 2 + y ^ 2) * (u ^ 2 + v ^ 2)) := mul_le_mul_of_nonneg_left h6 (sq_nonneg b)
      _ = P ^ 2 * (b ^ 2 * (u ^ 2 + v ^ 2)) := by rw [hP]; ring
      _ ≤ P ^ 2 * (a ^ 2) ^ 2 := mul_le_mul_of_nonneg_left hN (sq_nonneg P)
      _ = _ := by ring
  have h7 : -(b * (x * u + y * v)) ≤ P * a ^ 2 := by
    have := abs_le_of_sq_le_sq hcs (by positivity)
    linarith [neg_abs_le (b * (x * u + y * v))]
  have h8 : b * (-(b * (x * u + y * v))) ≤ b * (P * a ^ 2) := mul_le_mul_of_nonneg_left h7 hb.le
  calc b ^ 2 * ((x - u) ^ 2 + (y - v) ^ 2)
      = b ^ 2 * (x ^ 2 + y ^ 2) + 2 * (b * (-(b * (x * u + y * v)))) + b ^ 2 * (u ^ 2 + v ^ 2) := by
        ring
    _ ≤ b ^ 2 * P ^ 2 + 2 * (b * (P * a ^ 2)) + (a ^ 2) ^ 2 := by rw [hP]; linarith
    _ = _ := by ring

/-- The step in coordinates: `(px, py)` is the query relative to the centre of curvature. -/
theorem stepSize_coords (tol : ℝ) (c : Ellipse V) (h : Ortho2 c.e0 c.e1) (hb : 0 < c.minor)
    (hab : c.minor ≤ c.major) (p2 : V) (t d : ℝ) (he : stepSize tol c c.e0 c.e1 p2 t = ok d)
    (S px py : ℝ) (hSe : S = speedSq c t)
    (hpx : px = dot (p2 - c.center) c.e0 - (c.major * cos t - S * cos t / c.major))
    (hpy : py = dot (p2 - c.center) c.e1 - (c.minor * sin t - S * sin t / c.minor)) :
    d = Real.sqrt ((S * cos t / c.major) ^ 2 + (S * sin t / c.minor) ^ 2) *
      atan2 (S * cos t / c.major * py - S * sin t / c.minor * px)
        (S * cos t / c.major * px + S * sin t / c.minor * py) / Real.sqrt S := by
  subst hSe
  have ha : 0 < c.major := lt_of_lt_of_le hb hab
  obtain ⟨hs1, hs2⟩ := speedSq_bounds c hb hab t
  have hs : 0 < speedSq c t := lt_of_lt_of_le (by positivity) hs1
  unfold stepSize at he
  rw [curvature_eq c h hb hab, ok_bind] at he
  simp only at he
  set k : V := (-(c.major * c.minor ^ 2 * cos t) / speedSq c t ^ 2) • c.e0 +
        (-(c.minor * c.major ^ 2 * sin t) / speedSq c t ^ 2) • c.e1 with hk
  have hsn : (sqNorm k : ℝ) = c.major ^ 2 * c.minor ^ 2 / speedSq c t ^ 3 := by
    rw [hk]
    unfold sqNorm
    simp only [dot_add, dot_add_right, dot_smul, dot_smul_right, h.n0, h.n1, h.o01, h.o10]
    field_simp
    unfold speedSq
    ring
  obtain ⟨_, -, he⟩ := bind_eq_ok.1 he
  split at he
  · cases he
  rw [pure_eq, ok.injEq] at he
  have hk1 : (dot k c.e0 : ℝ) = -(c.major * c.minor ^ 2 * cos t) / speedSq c t ^ 2 := by
    rw [hk, dot_add, dot_smul, dot_smul, h.n0, h.o10]; ring
  have hk2 : (dot k c.e1 : ℝ) = -(c.minor * c.major ^ 2 * sin t) / speedSq c t ^ 2 := by
    rw [hk, dot_add, dot_smul, dot_smul, h.n1, h.o01]; ring
  have ev : ∀ s, c.evaluate s - c.center = (c.major * cos s) • c.e0 + (c.minor * sin s) • c.e1 := by
    intro s; unfold evaluate; module
  have hqx : (dot (c.evaluate t - c.center) c.e0 : ℝ) = c.major * cos t := by
    rw [ev, dot_add, dot_smul, dot_smul, h.n0, h.o10]; ring
  have hqy : (dot (c.evaluate t - c.center) c.e1 : ℝ) = c.minor * sin t := by
    rw [ev, dot_add, dot_smul, dot_smul, h.n1, h.o01]; ring
  set x : ℝ := dot (p2 - c.center) c.e0 with hx
  set y : ℝ := dot (p2 - c.center) c.e1 with hy
  set S := speedSq c t with hSdef
  have hg : 1 / (sqNorm k : ℝ) = S ^ 3 / (c.major ^ 2 * c.minor ^ 2) := by
    rw [hsn, one_div_div]
  have hQx : (dot (c.evaluate t - (c.evaluate t + (1 / (sqNorm k : ℝ)) • k)) c.e0 : ℝ) =
      S * cos t / c.major := by
    rw [show c.evaluate t - (c.evaluate t + (1 / (sqNorm k : ℝ)) • k) = -((1 / (sqNorm k : ℝ)) • k) by
      abel, dot_neg_left, dot_smul, hk1, hg]
    field_simp
  have hQy : (dot (c.evaluate t - (c.evaluate t + (1 / (sqNorm k : ℝ)) • k)) c.e1 : ℝ) =
      S * sin t / c.minor := by
    rw [show c.evaluate t - (c.evaluate t + (1 / (sqNorm k : ℝ)) • k) = -((1 / (sqNorm k : ℝ)) • k) by
      abel, dot_neg_left, dot_smul, hk2, hg]
    field_simp
  have hPx : (dot (p2 - (c.evaluate t + (1 / (sqNorm k : ℝ)) • k)) c.e0 : ℝ) =
      x - (c.major * cos t - S * cos t / c.major) := by
    rw [show p2 - (c.evaluate t + (1 / (sqNorm k : ℝ)) • k) = (p2 - c.center) -
      (c.evaluate t - c.center) + (c.evaluate t - (c.evaluate t + (1 / (sqNorm k : ℝ)) • k)) by abel,
      dot_add, dot_sub_left, hqx, hQx]
    ring
  have hPy : (dot (p2 - (c.evaluate t + (1 / (sqNorm k : ℝ)) • k)) c.e1 : ℝ) =
      y - (c.minor * sin t - S * sin t / c.minor) := by
    rw [show p2 - (c.evaluate t + (1 / (sqNorm k : ℝ)) • k) = (p2 - c.center) -
      (c.evaluate t - c.center) + (c.evaluate t - (c.evaluate t + (1 / (sqNorm k : ℝ)) • k)) by abel,
      dot_add, dot_sub_left, hqy, hQy]
    ring
  rw [hQx, hQy, hPx, hPy, hqx, hqy] at he
  rw [← hpx, ← hpy] at he
  have hrad : c.major * c.major + c.minor * c.minor - c.major * cos t * (c.major * cos t) -
      c.minor * sin t * (c.minor * sin t) = S := by
    rw [hSdef]; unfold speedSq
    linear_combination (-(c.major ^ 2 + c.minor ^ 2)) * Real.sin_sq_add_cos_sq t
  rw [hrad] at he
  have hr : (1 : ℝ) / Real.sqrt (sqNorm k) =
      Real.sqrt ((S * cos t / c.major) ^ 2 + (S * sin t / c.minor) ^ 2) := by
    rw [one_div, ← Real.sqrt_inv, hsn]
    congr 1
    rw [inv_div]
    field_simp
    rw [hSdef]; unfold speedSq; ring
  rw [← he, hr]

/-- C67: the length of a step bounds how far the current point is from being the foot of a normal
through the query. -/
theorem C67_ellipse_residual (tol : ℝ) (c : Ellipse V) (h : Ortho2 c.e0 c.e1) (hb : 0 < c.minor)
    (hab : c.minor ≤ c.major) (p2 : V) (t d P : ℝ)
    (hP : (dot (p2 - c.center) c.e0 : ℝ) ^ 2 + (dot (p2 - c.center) c.e1 : ℝ) ^ 2 = P ^ 2)
    (hP0 : 0 ≤ P) (he : stepSize tol c c.e0 c.e1 p2 t = ok d) :
    Real.sqrt (speedSq c t) * |(dot (p2 - c.evaluate t) (c.evaluateDerivative t) : ℝ)| ≤
      c.major * (c.minor * P + c.major ^ 2) * |d| := by
  have ha : 0 < c.major := lt_of_lt_of_le hb hab
  obtain ⟨hs1, hs2⟩ := speedSq_bounds c hb hab t
  have hs : 0 < speedSq c t := lt_of_lt_of_le (by positivity) hs1
  set x : ℝ := dot (p2 - c.center) c.e0 with hx
  set y : ℝ := dot (p2 - c.center) c.e1 with hy
  set S := speedSq c t with hSdef
  set px := x - (c.major * cos t - S * cos t / c.major) with hpx
  set py := y - (c.minor * sin t - S * sin t / c.minor) with hpy
  have he' := stepSize_coords tol c h hb hab p2 t d he S px py hSdef hpx hpy
  set X := S * cos t / c.major * px + S * sin t / c.minor * py with hX
  set Y := S * cos t / c.major * py - S * sin t / c.minor * px with hY
  have hpos := Real.sqrt_pos.2 hs
  have hsq := Real.sq_sqrt hs.le
  -- the cross product is the residual
  have hf := foot_coords c h p2 t
  rw [← hx, ← hy] at hf
  have hYf : c.major * c.minor * Y = S *
      (dot (p2 - c.evaluate t) (c.evaluateDerivative t) : ℝ) := by
    rw [hf, hY, hpx, hpy]
    field_simp
    ring
  -- the angle
  obtain ⟨-, h2⟩ := atan2_polar Y X
  have hhyp : hypot X Y = Real.sqrt ((S * cos t / c.major) ^ 2 + (S * sin t / c.minor) ^ 2) *
      Real.sqrt (px ^ 2 + py ^ 2) := by
    rw [← Real.sqrt_mul (by positivity)]
    unfold hypot
    congr 1
    rw [hX, hY]; ring
  set r := Real.sqrt ((S * cos t / c.major) ^ 2 + (S * sin t / c.minor) ^ 2) with hrdef
  set R := Real.sqrt (px ^ 2 + py ^ 2) with hR
  have hY1 : |Y| ≤ R * (|d| * Real.sqrt S) := by
    have h3 : r * atan2 Y X = d * Real.sqrt S := by
      rw [he']; field_simp
    have h4 : |Y| = r * R * |sin (atan2 Y X)| := by
      conv_lhs => rw [h2, hhyp]
      rw [abs_mul, abs_of_nonneg (by positivity)]
    rw [h4]
    calc r * R * |sin (atan2 Y X)| ≤ r * R * |atan2 Y X| :=
          mul_le_mul_of_nonneg_left Real.abs_sin_le_abs (by positivity)
      _ = R * |r * atan2 Y X| := by
          rw [abs_mul, abs_of_nonneg (Real.sqrt_nonneg _ : 0 ≤ r)]; ring
      _ = _ := by rw [h3, abs_mul, abs_of_pos hpos]
  have hRb : c.minor * R ≤ c.minor * P + c.major ^ 2 := by
    have h5 := centre_bound hb hab (t := t) (S := S) rfl hP hP0
    rw [← hpx, ← hpy] at h5
    refine (sq_le_sq₀ (by positivity) (by positivity)).1 ?_
    rw [mul_pow, hR, Real.sq_sqrt (by positivity)]
    exact h5
  set F : ℝ := dot (p2 - c.evaluate t) (c.evaluateDerivative t) with hF
  have h6 : S * |F| = c.major * c.minor * |Y| := by
    have h8 : |S * F| = S * |F| := by rw [abs_mul, abs_of_pos hs]
    rw [← h8, ← hYf, abs_mul, abs_of_pos (by positivity)]
  have h7 : Real.sqrt S * (Real.sqrt S * |F|) ≤
      Real.sqrt S * (c.major * (c.minor * P + c.major ^ 2) * |d|) := by
    calc Real.sqrt S * (Real.sqrt S * |F|) = S * |F| := by rw [← mul_assoc, ← sq, hsq]
      _ = c.major * c.minor * |Y| := h6
      _ ≤ c.major * c.minor * (R * (|d| * Real.sqrt S)) :=
          mul_le_mul_of_nonneg_left hY1 (by positivity)
      _ = c.major * |d| * Real.sqrt S * (c.minor * R) := by ring
      _ ≤ c.major * |d| * Real.sqrt S * (c.minor * P + c.major ^ 2) :=
          mul_le_mul_of_nonneg_left hRb (by positivity)
      _ = _ := by ring
  exact le_of_mul_le_mul_left h7 hpos

/-- C67: after a step of length `d` was computed at a parameter of the upper half, the point of that
parameter is closest up to an error proportional to `d`. -/
theorem C67_ellipse_step_error (tol : ℝ) (c : Ellipse V) (h : Ortho2 c.e0 c.e1) (hb : 0 < c.minor)
    (hab : c.minor ≤ c.major) (p2 : V) (t d P : ℝ)
    (hP : (dot (p2 - c.center) c.e0 : ℝ) ^ 2 + (dot (p2 - c.center) c.e1 : ℝ) ^ 2 = P ^ 2)
    (hP0 : 0 ≤ P) (hy : 0 ≤ (dot (p2 - c.center) c.e1 : ℝ)) (ht : 0 ≤ sin t)
    (he : stepSize tol c c.e0 c.e1 p2 t = ok d) (s : ℝ) :
    sin t ^ 2 * ((sqNorm (c.evaluate t - p2) : ℝ) - sqNorm (c.evaluate s - p2)) ≤
      4 * (c.minor * P + c.major ^ 2) * |d| := by
  have ha : 0 < c.major := lt_of_lt_of_le hb hab
  rcases ht.eq_or_lt with h0 | h0
  · rw [← h0]
    have : 0 ≤ 4 * (c.minor * P + c.major ^ 2) * |d| := by positivity
    simpa using this
  have h1 := near_opt hb hab hy h0 (x := dot (p2 - c.center) c.e0) s
  rw [← foot_coords c h] at h1
  have h2 := C67_ellipse_residual tol c h hb hab p2 t d P hP hP0 he
  have h3 : c.major * sin t ≤ Real.sqrt (speedSq c t) := by
    apply Real.le_sqrt_of_sq_le
    unfold speedSq
    nlinarith [mul_nonneg (sq_nonneg c.minor) (sq_nonneg (cos t))]
  have h4 := (mul_le_mul_of_nonneg_right h3 (abs_nonneg
    (dot (p2 - c.evaluate t) (c.evaluateDerivative t) : ℝ))).trans h2
  rw [mul_assoc, mul_assoc] at h4
  have h5 := le_of_mul_le_mul_left h4 ha
  rw [sqDist c h, sqDist c h]
  have h6 := mul_le_mul_of_nonneg_left h1 h0.le
  calc _ = sin t * (sin t * (((c.major * cos t - dot (p2 - c.center) c.e0) ^ 2 +
        (c.minor * sin t - dot (p2 - c.center) c.e1) ^ 2) -
        ((c.major * cos s - dot (p2 - c.center) c.e0) ^ 2 +
        (c.minor * sin s - dot (p2 - c.center) c.e1) ^ 2))) := by ring
    _ ≤ _ := h6
    _ = 4 * (sin t * |(dot (p2 - c.evaluate t) (c.evaluateDerivative t) : ℝ)|) := by ring
    _ ≤ 4 * ((c.minor * P + c.major ^ 2) * |d|) := by linarith
    _ = _ := by ring

/-- All `n` steps from `t0` were used up: each step but the last was longer than the tolerance. -/
def Exhausted (tol : ℝ) (c : Ellipse V) (p2 : V) (n : ℕ) (t0 : ℝ) : Prop :=
  ∃ τ δ : ℕ → ℝ, τ 0 = t0 ∧ (∀ i < n, stepSize tol c c.e0 c.e1 p2 (τ i) = ok (δ i) ∧
    τ (i + 1) = quadrant (τ i + δ i)) ∧ ∀ i, i + 1 < n → tol < |δ i|

theorem quadrant_near {t : ℝ} (h0 : 0 ≤ t) (h1 : t ≤ π / 2) (d : ℝ) : |quadrant (t + d) - t| ≤ |d| := by
  unfold quadrant
  split_ifs with h2 h3
  · rw [abs_le]; constructor <;> linarith [neg_abs_le d, le_abs_self d, abs_nonneg d]
  · rw [abs_le]; constructor <;> linarith [neg_abs_le d, le_abs_self d, abs_nonneg d]
  · rw [add_sub_cancel_left]

theorem closestGo_stop (tol : ℝ) (c : Ellipse V) (p2 : V) :
    ∀ (n : ℕ) (t dt r : ℝ), 0 ≤ t → t ≤ π / 2 → closestGo tol c c.e0 c.e1 p2 n t dt = ok r →
      (|dt| ≤ tol ∧ r = t) ∨ Exhausted tol c p2 n t ∨
      ∃ t1 d, 0 ≤ t1 ∧ t1 ≤ π / 2 ∧ stepSize tol c c.e0 c.e1 p2 t1 = ok d ∧ |d| ≤ tol ∧
        r = quadrant (t1 + d) := by
  intro n
  induction n with
  | zero =>
    intro t dt r h0 h1 he
    exact Or.inr (Or.inl ⟨fun _ => t, fun _ => 0, rfl, by omega, by omega⟩)
  | succ n ih =>
    intro t dt r h0 h1 he
    rw [closestGo] at he
    split at he
    · obtain ⟨d, e1, e2⟩ := bind_eq_ok.1 he
      obtain ⟨m1, m2⟩ := quadrant_mem (t + d)
      by_cases hd : |d| ≤ tol
      · refine Or.inr (Or.inr ⟨t, d, h0, h1, e1, hd, ?_⟩)
        cases n with
        | zero => rw [closestGo, ok.injEq] at e2; exact e2.symm
        | succ n => rw [closestGo, if_neg (not_lt.2 hd), ok.injEq] at e2; exact e2.symm
      · rcases ih _ _ _ m1 m2 e2 with h2 | ⟨τ, δ, a0, a1, a2⟩ | h2
        · exact absurd h2.1 hd
        · refine Or.inr (Or.inl ⟨fun i => if i = 0 then t else τ (i - 1),
            fun i => if i = 0 then d else δ (i - 1), rfl, ?_, ?_⟩)
          · intro i hi
            rcases i with _ | i
            · refine ⟨e1, ?_⟩
              simp [a0]
            · simpa using a1 i (by omega)
          · intro i hi
            rcases i with _ | i
            · simpa using hd
            · simpa using a2 i (by omega)
        · exact Or.inr (Or.inr h2)
    · rename_i h2
      rw [ok.injEq] at he
      exact Or.inl ⟨not_lt.1 h2, he.symm⟩

/-- C67: the answer on the full range `[0, 2π]`.  Unless all 100 steps were used up, the returned
parameter is within the tolerance of one whose point is closest to the query up to an error
proportional to the tolerance.

Full claim: the returned parameter is that of a closest point.  Missing: a bound of the number of steps,
and the error near the ends of the major axis, where `sin` is small. -/
theorem C67_ellipse_closest_partial (tol big : ℝ) (fuel : ℕ) (c : Ellipse V) (h : Ortho2 c.e0 c.e1)
    (hb : 0 < c.minor) (hab : c.minor ≤ c.major) (hbig : tol < |big|) (p : V) (t : ℝ)
    (he : c.approxInverse tol big fuel p 0 (2 * π) = ok t) :
    Exhausted tol c (reflectPoint c c.e0 c.e1 p) 100 (π / 4) ∨
    ∃ t1, |t - t1| ≤ tol ∧ ∀ s,
      sin t1 ^ 2 * ((sqNorm (c.evaluate t1 - p) : ℝ) - sqNorm (c.evaluate s - p)) ≤
        4 * (c.minor * Real.sqrt ((dot (p - c.center) c.e0 : ℝ) ^ 2 + (dot (p - c.center) c.e1 : ℝ) ^ 2) +
          c.major ^ 2) * tol := by
  have hpi := Real.pi_pos
  have ha : 0 < c.major := lt_of_lt_of_le hb hab
  unfold approxInverse at he
  rw [assert_true (by linarith), ok_bind, axis_ok h.n0, ok_bind, axis_ok h.n1, ok_bind] at he
  obtain ⟨r, e1, he⟩ := bind_eq_ok.1 he
  obtain ⟨m1, m2⟩ := closestGo_mem tol c _ _ _ _ _ _ _ (by linarith) (by linarith) e1
  obtain ⟨r1, r2⟩ := reflectParam_mem c c.e0 c.e1 p m1 m2
  have hraise : raise 0 fuel (reflectParam c c.e0 c.e1 p r) = ok (reflectParam c c.e0 c.e1 p r) := by
    cases fuel <;> rw [raise, if_neg (not_lt.2 r1)]
  rw [hraise, ok_bind, if_neg (not_lt.2 r2), pure_eq, ok.injEq] at he
  rcases closestGo_stop tol c _ _ _ _ _ (by linarith) (by linarith) e1 with h2 | h2 |
    ⟨t1, d, b0, b1, b2, b3, b4⟩
  · exact absurd h2.1 (not_le.2 hbig)
  · exact Or.inl h2
  · right
    refine ⟨reflectParam c c.e0 c.e1 p t1, ?_, ?_⟩
    · have h3 := (quadrant_near b0 b1 d).trans b3
      rw [← b4, abs_le] at h3
      rw [← he, abs_le]
      unfold reflectParam
      simp only
      split_ifs <;> constructor <;> linarith [h3.1, h3.2]
    · intro s
      obtain ⟨q1, q2⟩ := reflectPoint_coords c h p
      obtain ⟨c1, c2⟩ := reflectParam_coords c c.e0 c.e1 p (t := t1)
      obtain ⟨s', hsc, hss⟩ : ∃ s', cos s' = |cos s| ∧ sin s' = |sin s| := by
        refine ⟨Real.arcsin |sin s|, ?_, ?_⟩
        · rw [Real.cos_arcsin, sq_abs, ← Real.sqrt_sq_eq_abs]
          congr 1
          linarith [Real.sin_sq_add_cos_sq s]
        · exact Real.sin_arcsin (by linarith [abs_nonneg (sin s)]) (Real.abs_sin_le_one s)
      have h4 := C67_ellipse_step_error tol c h hb hab (reflectPoint c c.e0 c.e1 p) t1 d
        (Real.sqrt ((dot (p - c.center) c.e0 : ℝ) ^ 2 + (dot (p - c.center) c.e1 : ℝ) ^ 2))
        (by rw [q1, q2, sq_abs, sq_abs, Real.sq_sqrt (by positivity)]) (Real.sqrt_nonneg _)
        (by rw [q2]; exact abs_nonneg _) (Real.sin_nonneg_of_nonneg_of_le_pi b0 (by linarith)) b2 s'
      rw [sqDist c h, sqDist c h, q1, q2, hsc, hss] at h4
      rw [sqDist c h p s, sqDist c h p (reflectParam c c.e0 c.e1 p t1), c1, c2]
      set x : ℝ := dot (p - c.center) c.e0
      set y : ℝ := dot (p - c.center) c.e1
      have flip : ∀ (m z g : ℝ), (m * ((if z < 0 then -1 else 1) * g) - z) ^ 2 = (m * g - |z|) ^ 2 := by
        intro m z g
        split_ifs with hz
        · rw [abs_of_neg hz]; ring
        · rw [abs_of_nonneg (not_lt.1 hz)]; ring
      have low : ∀ (m z g : ℝ), 0 < m → (m * |g| - |z|) ^ 2 ≤ (m * g - z) ^ 2 := by
        intro m z g hm
        have h1 : m * (g * z) ≤ m * (|g| * |z|) := by
          rw [← abs_mul]; exact mul_le_mul_of_nonneg_left (le_abs_self _) hm.le
        have h2 : (m * |g|) ^ 2 = (m * g) ^ 2 := by rw [mul_pow, sq_abs, mul_pow]
        nlinarith [sq_abs z]
      have hsin : ((if y < 0 then -1 else 1) * sin t1) ^ 2 = sin t1 ^ 2 := by
        split_ifs <;> ring
      rw [flip, flip, hsin]
      have l1 := low c.major x (cos s) ha
      have l2 := low c.minor y (sin s) hb
      have hd : 4 * (c.minor * Real.sqrt (x ^ 2 + y ^ 2) + c.major ^ 2) * |d| ≤
          4 * (c.minor * Real.sqrt (x ^ 2 + y ^ 2) + c.major ^ 2) * tol :=
        mul_le_mul_of_nonneg_left b3 (by positivity)
      refine le_trans ?_ (h4.trans hd)
      apply mul_le_mul_of_nonneg_left _ (sq_nonneg _)
      linarith

/-- On a circle one step lands on the direction of the query. -/
theorem circle_step (tol : ℝ) (c : Ellipse V) (h : Ortho2 c.e0 c.e1) (hb : 0 < c.minor)
    (hab : c.minor = c.major) (p2 : V) (t d ρ : ℝ) (hρ : 0 < ρ)
    (hP : (dot (p2 - c.center) c.e0 : ℝ) ^ 2 + (dot (p2 - c.center) c.e1 : ℝ) ^ 2 = ρ ^ 2)
    (he : stepSize tol c c.e0 c.e1 p2 t = ok d) :
    (dot (p2 - c.center) c.e0 : ℝ) = ρ * cos (t + d) ∧ (dot (p2 - c.center) c.e1 : ℝ) = ρ * sin (t + d) ∧
      -π < d ∧ d ≤ π := by
  have ha : 0 < c.major := by rw [← hab]; exact hb
  have h1 := Real.sin_sq_add_cos_sq t
  have hS : speedSq c t = c.major ^ 2 := by
    unfold speedSq; rw [hab]; linear_combination (c.major ^ 2) * h1
  have h2 := stepSize_coords tol c h hb hab.le p2 t d he (c.major ^ 2) (dot (p2 - c.center) c.e0)
    (dot (p2 - c.center) c.e1) hS.symm (by field_simp; ring) (by rw [hab]; field_simp; ring)
  set x : ℝ := dot (p2 - c.center) c.e0
  set y : ℝ := dot (p2 - c.center) c.e1
  rw [hab] at h2
  have h3 : c.major ^ 2 * cos t / c.major = c.major * cos t := by field_simp
  have h4 : c.major ^ 2 * sin t / c.major = c.major * sin t := by field_simp
  rw [h3, h4, show (c.major * cos t) ^ 2 + (c.major * sin t) ^ 2 = c.major ^ 2 by
    linear_combination (c.major ^ 2) * h1, Real.sqrt_sq ha.le] at h2
  have h5 : d = atan2 (c.major * cos t * y - c.major * sin t * x)
      (c.major * cos t * x + c.major * sin t * y) := by rw [h2]; field_simp
  obtain ⟨g1, g2⟩ := atan2_polar (c.major * cos t * y - c.major * sin t * x)
      (c.major * cos t * x + c.major * sin t * y)
  have hh : hypot (c.major * cos t * x + c.major * sin t * y)
      (c.major * cos t * y - c.major * sin t * x) = c.major * ρ := by
    unfold hypot
    rw [show (c.major * cos t * x + c.major * sin t * y) * (c.major * cos t * x + c.major * sin t * y) +
      (c.major * cos t * y - c.major * sin t * x) * (c.major * cos t * y - c.major * sin t * x) =
      (c.major * ρ) ^ 2 by
      linear_combination (c.major ^ 2 * (x ^ 2 + y ^ 2)) * h1 + c.major ^ 2 * hP,
      Real.sqrt_sq (by positivity)]
  rw [hh, ← h5] at g1 g2
  have k1 : cos t * x + sin t * y = ρ * cos d := by
    apply mul_left_cancel₀ ha.ne'
    linear_combination g1
  have k2 : cos t * y - sin t * x = ρ * sin d := by
    apply mul_left_cancel₀ ha.ne'
    linear_combination g2
  refine ⟨?_, ?_, ?_, ?_⟩
  · rw [Real.cos_add]
    linear_combination cos t * k1 - sin t * k2 - x * h1
  · rw [Real.sin_add]
    linear_combination sin t * k1 + cos t * k2 - y * h1
  · rw [h5]; exact neg_pi_lt_atan2 _ _
  · rw [h5]; exact atan2_le_pi _ _

theorem circle_closestGo (tol : ℝ) (c : Ellipse V) (h : Ortho2 c.e0 c.e1) (hb : 0 < c.minor)
    (hab : c.minor = c.major) (p2 : V) (ρ : ℝ) (hρ : 0 < ρ)
    (hP : (dot (p2 - c.center) c.e0 : ℝ) ^ 2 + (dot (p2 - c.center) c.e1 : ℝ) ^ 2 = ρ ^ 2)
    (hx : 0 ≤ (dot (p2 - c.center) c.e0 : ℝ)) (hy : 0 ≤ (dot (p2 - c.center) c.e1 : ℝ)) :
    ∀ (n : ℕ) (t dt r : ℝ), 0 ≤ t → t ≤ π / 2 →
      (0 < n ∧ tol < |dt| ∨ (dot (p2 - c.center) c.e0 : ℝ) = ρ * cos t ∧
        (dot (p2 - c.center) c.e1 : ℝ) = ρ * sin t) →
      closestGo tol c c.e0 c.e1 p2 n t dt = ok r →
      (dot (p2 - c.center) c.e0 : ℝ) = ρ * cos r ∧ (dot (p2 - c.center) c.e1 : ℝ) = ρ * sin r := by
  intro n
  induction n with
  | zero =>
    intro t dt r h0 h1 h2 he
    rw [closestGo, ok.injEq] at he
    rcases h2 with h2 | h2
    · exact absurd h2.1 (lt_irrefl _)
    · rw [← he]; exact h2
  | succ n ih =>
    intro t dt r h0 h1 h2 he
    rw [closestGo] at he
    split at he
    · obtain ⟨d, e1, e2⟩ := bind_eq_ok.1 he
      obtain ⟨g1, g2, g3, g4⟩ := circle_step tol c h hb hab p2 t d ρ hρ hP e1
      have hc : 0 ≤ cos (t + d) := by
        rw [g1] at hx; exact nonneg_of_mul_nonneg_right hx hρ
      have hs : 0 ≤ sin (t + d) := by
        rw [g2] at hy; exact nonneg_of_mul_nonneg_right hy hρ
      have k0 : 0 ≤ t + d := by
        by_contra hn
        exact absurd (Real.sin_neg_of_neg_of_neg_pi_lt (not_le.1 hn) (by linarith)) (not_lt.2 hs)
      have k1 : t + d ≤ π / 2 := by
        by_contra hn
        rcases (show t + d ≤ π + π / 2 by linarith).lt_or_eq with h5 | h5
        · exact absurd (Real.cos_neg_of_pi_div_two_lt_of_lt (not_le.1 hn) h5) (not_lt.2 hc)
        · rw [h5, add_comm, Real.sin_add_pi, Real.sin_pi_div_two] at hs
          linarith
      have hq : quadrant (t + d) = t + d := by
        unfold quadrant
        rw [if_neg (not_lt.2 k0), if_neg (not_lt.2 k1)]
      rw [hq] at e2
      exact ih _ _ _ k0 k1 (Or.inr ⟨g1, g2⟩) e2
    · rename_i h3
      rw [ok.injEq] at he
      rcases h2 with h2 | h2
      · exact absurd h2.2 h3
      · rw [← he]; exact h2

/-- C67 in full for equal radii: on the range `[0, 2π]` the returned parameter is one of a closest
point, for every query and every tolerance below the squared curvature. -/
theorem C67_ellipse_circle (tol big : ℝ) (fuel : ℕ) (c : Ellipse V) (h : Ortho2 c.e0 c.e1)
    (hb : 0 < c.minor) (hab : c.minor = c.major) (ht : tol < 1 / c.major ^ 2) (hbig : tol < |big|)
    (p : V) :
    ∃ t, c.approxInverse tol big fuel p 0 (2 * π) = ok t ∧ 0 ≤ t ∧ t ≤ 2 * π ∧
      ∀ s, (sqNorm (c.evaluate t - p) : ℝ) ≤ sqNorm (c.evaluate s - p) := by
  have ha : 0 < c.major := by rw [← hab]; exact hb
  have hpi := Real.pi_pos
  obtain ⟨t0, e⟩ := closestGo_ok tol c h hb hab.le
    (by rw [hab]; refine lt_of_lt_of_eq ht ?_; field_simp) (reflectPoint c c.e0 c.e1 p) 100 (π / 4) big
  refine C67_ellipse_reflection_partial tol big fuel c h ha hb p t0 e ?_
  intro s _ _
  obtain ⟨q1, q2⟩ := reflectPoint_coords c h p
  rw [sqDist c h, sqDist c h, hab]
  by_cases h0 : (dot (p - c.center) c.e0 : ℝ) ^ 2 + (dot (p - c.center) c.e1 : ℝ) ^ 2 = 0
  · have hx : (dot (p - c.center) c.e0 : ℝ) = 0 := by
      nlinarith [sq_nonneg (dot (p - c.center) c.e0 : ℝ), sq_nonneg (dot (p - c.center) c.e1 : ℝ)]
    have hy : (dot (p - c.center) c.e1 : ℝ) = 0 := by
      nlinarith [sq_nonneg (dot (p - c.center) c.e0 : ℝ), sq_nonneg (dot (p - c.center) c.e1 : ℝ)]
    rw [q1, q2, hx, hy]
    apply le_of_eq
    linear_combination (c.major ^ 2) * Real.sin_sq_add_cos_sq t0 -
      (c.major ^ 2) * Real.sin_sq_add_cos_sq s
  · have hpos : 0 < (dot (p - c.center) c.e0 : ℝ) ^ 2 + (dot (p - c.center) c.e1 : ℝ) ^ 2 :=
      lt_of_le_of_ne (by positivity) (Ne.symm h0)
    set ρ := Real.sqrt ((dot (p - c.center) c.e0 : ℝ) ^ 2 + (dot (p - c.center) c.e1 : ℝ) ^ 2) with hρ
    have hρ0 : 0 < ρ := Real.sqrt_pos.2 hpos
    obtain ⟨g1, g2⟩ := circle_closestGo tol c h hb hab (reflectPoint c c.e0 c.e1 p) ρ hρ0
      (by rw [q1, q2, sq_abs, sq_abs, hρ, Real.sq_sqrt hpos.le]) (by rw [q1]; exact abs_nonneg _)
      (by rw [q2]; exact abs_nonneg _) 100 (π / 4) big t0 (by linarith) (by linarith)
      (Or.inl ⟨by norm_num, hbig⟩) e
    rw [g1, g2]
    have h5 : cos (t0 - s) ≤ 1 := Real.cos_le_one _
    rw [Real.cos_sub] at h5
    have h6 := mul_le_mul_of_nonneg_left h5 (mul_pos ha hρ0).le
    have h7 := Real.sin_sq_add_cos_sq t0
    have h8 := Real.sin_sq_add_cos_sq s
    have h9 : (c.major * cos t0 - ρ * cos t0) ^ 2 + (c.major * sin t0 - ρ * sin t0) ^ 2 =
        (c.major - ρ) ^ 2 := by linear_combination ((c.major - ρ) ^ 2) * h7
    have h10 : (c.major * cos s - ρ * cos t0) ^ 2 + (c.major * sin s - ρ * sin t0) ^ 2 =
        c.major ^ 2 + ρ ^ 2 - 2 * (c.major * ρ * (cos t0 * cos s + sin t0 * sin s)) := by
      linear_combination (c.major ^ 2) * h8 + ρ ^ 2 * h7
    rw [h9, h10]
    nlinarith

/-- Concrete case: with radii 2 and 1 and the tolerance 1/1000 the inverse evaluation of any point is
defined, so the hypothesis of `C67_ellipse_closest_partial` can be met. -/
example (c : Ellipse ℂ) (h : Ortho2 c.e0 c.e1) (h1 : c.minor = 1) (h2 : c.major = 2) (p : ℂ) :
    ∃ t, c.approxInverse (1 / 1000) 1000 0 p 0 (2 * π) = ok t :=
  C67_ellipse_defined _ _ _ c h (by rw [h1]; norm_num) (by rw [h1, h2]; norm_num)
    (by rw [h1, h2]; norm_num) p _ _ (by have := Real.pi_pos; linarith) (by simp)

end Ellipse

end NS
