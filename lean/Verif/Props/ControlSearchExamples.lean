import Verif.Props.ControlSearchRefuted
import Verif.Proof.Cross

/-!
# C76: concrete cases
-/

namespace NS.Props

open Outcome Spec ControlSearch BezierPatch

/-- A vector in space. -/
noncomputable def vec3 (a b c : ℝ) : E3 := !₂[a, b, c]

/-- The square `[0, 3] × [0, 3]` of the plane `z = 0` as a bicubic patch. -/
noncomputable def squarePatch : BezierPatch E3 :=
  ofGrid 3 3 (gridOf (3 + 1) (3 + 1) fun i j =>
    (0 : E3) + ((i : ℝ) / 3) • vec3 3 0 0 + ((j : ℝ) / 3) • vec3 0 3 0)

/-- Level 10 of the search of the square is within 3/1000 of the right parameters for every query
above or below the square. -/
example (u v z : ℝ) (hu : 0 ≤ u ∧ u ≤ 1) (hv : 0 ≤ v ∧ v ≤ 1) (hz : z ^ 2 < 100) :
    ∃ r, squarePatch.approxInverse (0 : ℝ) 1000 0
        ((0 : E3) + u • vec3 3 0 0 + v • vec3 0 3 0 + vec3 0 0 z) 5 5 10 ⟨0, 1, 0, 1⟩ = ok r ∧
      |r.1 - u| ≤ 3 / 1000 ∧ |r.2 - v| ≤ 3 / 1000 := by
  have hw : squarePatch.WellFormed 3 3 := ⟨rfl, rfl, by simp [squarePatch, ofGrid]⟩
  obtain ⟨r, e, h1, h2⟩ := C76_regular_bicubic_converges (eps := (0 : ℝ)) (big := 1000) (tol := 0)
    le_rfl (p := squarePatch) (init_ok hw) ⟨rfl, rfl⟩ rfl rfl rfl rfl (o := 0) (e₁ := vec3 3 0 0)
    (e₂ := vec3 0 3 0) (w := vec3 0 0 z) (by
      intro i j hi hj
      rw [hw.getControlPoint (Nat.lt_succ_of_le hi) (Nat.lt_succ_of_le hj)]
      congr 1
      exact pts_ofGrid 3 3 _ hi hj)
    (by rw [dot_e3]; simp [vec3]) (by rw [dot_e3]; simp [vec3]) (by rw [dot_e3]; simp [vec3])
    (by intro h; simpa [vec3] using congrFun (congrArg (fun x : E3 => x.ofLp) h) 0)
    (by intro h; simpa [vec3] using congrFun (congrArg (fun x : E3 => x.ofLp) h) 1)
    (by rw [dot_e3, dot_e3, dot_e3]; simp [vec3]; nlinarith)
    5 5 10 (b := ⟨0, 1, 0, 1⟩) (by norm_num) (by norm_num) (Or.inl rfl) (Or.inl rfl) hu hv
  refine ⟨r, e, h1.trans ?_, h2.trans ?_⟩ <;> norm_num

/-- A saddle of degree 4 by 3: the search returns at every level for every query and box in the
domain with some area. -/
example (x : ℚ) (level : ℕ) : ∃ r,
    (⟨[0, 1, 2, 3, 1, 3, 2, 0, 5, 1, 0, 2, 2, 2, 1, 1, 0, 4, 1, 7], 4, 3, false, false, 4, 3⟩ :
      BezierPatch ℚ).approxInverse (0 : ℚ) 1000 0 x 6 5 level ⟨1 / 4, 1 / 2, 0, 1⟩ = ok r ∧
      (1 / 4 ≤ r.1 ∧ r.1 ≤ 1 / 2) ∧ (0 ≤ r.2 ∧ r.2 ≤ 1) :=
  C76_bezier_total le_rfl (by decide +kernel) ⟨rfl, rfl⟩ rfl rfl (by decide) (by decide) x 6 5 level
    (by norm_num) (by norm_num) (by norm_num)

/-- A bicubic rational patch with two different weights. -/
def exRatSearch : RationalBezierPatch ℚ ℚ :=
  match RationalBezierPatch.init (K := ℚ) ⟨⟨[0, 1, 2, 3, 1, 3, 2, 0, 5, 1, 0, 2, 2, 2, 1, 1], 3, 3,
    false, false, 3, 3⟩, [1, 2, 1, 2, 1, 2, 1, 2, 1, 2, 1, 2, 1, 2, 1, 2],
    ⟨[], 3, 3, false, false, 3, 3⟩⟩ with
  | ok p => p
  | _ => ⟨⟨[], 3, 3, false, false, 3, 3⟩, [], ⟨[], 3, 3, false, false, 3, 3⟩⟩

example (x : ℚ) (level : ℕ) : ∃ r,
    exRatSearch.approxInverse (0 : ℚ) 1000 0 0 x 5 5 level ⟨0, 1, 0, 1⟩ = ok r ∧
      (0 ≤ r.1 ∧ r.1 ≤ 1) ∧ (0 ≤ r.2 ∧ r.2 ≤ 1) :=
  C76_rational_bezier_total le_rfl (by decide +kernel) ⟨by decide +kernel, by decide +kernel⟩
    (by decide +kernel) (by decide +kernel) (by decide +kernel) (by decide +kernel)
    (by decide +kernel) x 5 5 level (by norm_num) (by norm_num) (by norm_num)

example (x : ℚ) (level : ℕ) : ∃ r,
    uniformReady.approxInverse (0 : ℚ) 1000 0 0 x 5 5 level ⟨3, 7 / 2, 0, 10⟩ = ok r ∧
      (3 ≤ r.1 ∧ r.1 ≤ 7 / 2) ∧ (0 ≤ r.2 ∧ r.2 ≤ 10) := by
  have hv : uniformReady.Valid 4 4 3 3 := by
    refine ⟨⟨by decide +kernel, by decide +kernel, Or.inr (by decide +kernel), by decide,
      by decide +kernel, by decide +kernel⟩, ⟨by decide +kernel, by decide +kernel,
      Or.inr (by decide +kernel), by decide, by decide +kernel, by decide +kernel⟩,
      by decide +kernel⟩
  exact C76_bspline_total le_rfl hv (by decide +kernel) (by decide +kernel) (by decide +kernel)
    (by omega) (by omega) x 5 5 level (by norm_num) (by decide +kernel) (by decide +kernel)

/-- A bicubic NURBS patch with an interior knot in `u`. -/
def exNurbsSearch : NURBSPatch ℚ ℚ :=
  match NURBSPatch.init (K := ℚ) ⟨[0, 1, 2, 3, 1, 3, 2, 0, 5, 1, 0, 2, 2, 2, 1, 1, 0, 1, 0, 4],
    [1, 2, 1, 2, 1, 2, 1, 2, 1, 2, 1, 2, 1, 2, 1, 2, 1, 3, 3, 1], [0, 0, 0, 0, 1, 2, 2, 2, 2],
    [0, 0, 0, 0, 1, 1, 1, 1], 3, 3, false, false, 3, 3, ⟨[], [], [], 3, 3, false, false, 3, 3, [], []⟩⟩
    with
  | ok p => p
  | _ => ⟨[], [], [], [], 3, 3, false, false, 3, 3, ⟨[], [], [], 3, 3, false, false, 3, 3, [], []⟩⟩

example (x : ℚ) (level : ℕ) : ∃ r,
    exNurbsSearch.approxInverse (0 : ℚ) 1000 0 0 0 x 5 5 level ⟨0, 2, 0, 1⟩ = ok r ∧
      (0 ≤ r.1 ∧ r.1 ≤ 2) ∧ (0 ≤ r.2 ∧ r.2 ≤ 1) := by
  have hv : NValid exNurbsSearch 5 4 3 3 := by
    refine ⟨⟨by decide +kernel, by decide +kernel, Or.inr (by decide +kernel), by decide,
      by decide +kernel, by decide +kernel⟩, ⟨by decide +kernel, by decide +kernel,
      Or.inr (by decide +kernel), by decide, by decide +kernel, by decide +kernel⟩,
      by decide +kernel, by decide +kernel⟩
  exact C76_nurbs_total le_rfl hv (by decide +kernel) (by decide +kernel) (by decide +kernel)
    (by decide +kernel) (by omega) (by omega) x 5 5 level (by norm_num) (by decide +kernel)
    (by decide +kernel)

end NS.Props
