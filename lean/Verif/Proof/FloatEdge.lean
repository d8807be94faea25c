import Verif.Props.FloatPatchWrap

/-!
# Edges of patches in floating point: helper lemmas
-/

set_option linter.unusedSectionVars false

namespace NS.Fl

open Outcome Spec

variable {K ι : Type} [Field K] [LinearOrder K] [IsStrictOrderedRing K] [FloorRing K]

theorem combine_float (R : Rounding K) (f : Fuse) (s a r b : K) : R.IsFloat (R.combine f s a r b) := by
  cases f <;> exact R.idem _

theorem tri_float (R : Rounding K) {f : ℕ → ℕ → (ι → K) → (ι → K) → ι → K}
    (hf : ∀ r j x y i, R.IsFloat (f r j x y i)) {P : ℕ → ι → K} (hP : ∀ j i, R.IsFloat (P j i)) (r : ℕ) :
    ∀ j i, R.IsFloat (tri f P r j i) := by
  cases r with
  | zero => exact hP
  | succ r => intro j i; exact hf _ _ _ _ _

theorem tri_step_float (R : Rounding K) (F : ℕ → ℕ → ι → Fuse) (ts : ℕ → K) {P : ℕ → ι → K}
    (hP : ∀ j i, R.IsFloat (P j i)) (r j : ℕ) (i : ι) : R.IsFloat (tri (step R F ts) P r j i) :=
  tri_float R (fun _ _ _ _ _ => combine_float R _ _ _ _ _) hP r j i

/-- Evaluating a family of curves at a parameter where all of them return, and then the curve of the
results at a parameter where it returns one of its control points. -/
theorem pick_step {α A B C : Type} (n : ℕ) {l : ℕ → A} {c : List α → B} {e : ℕ → A → Outcome α}
    {r : B → Outcome C} {g : ℕ → α} {x : Outcome C} (h1 : ∀ i < n, e i (l i) = ok (g i))
    (h2 : r (c (arr n g)) = x) :
    (do
      let y ← (do
        let x ← tab n (fun i => do
          let a ← rd (arr n l) i
          e i a)
        pure (c x))
      r y) = x := by
  rw [tab_eq (g := g)]
  · rw [ok_bind, pure_eq, ok_bind, h2]
  · intro i hi
    rw [rd_arr hi, ok_bind, h1 i hi]

/-- The homogeneous points of a selection are the selection of the homogeneous points. -/
theorem homPts_pick (R : Rounding K) (P : List (ι → K)) (w : List K) (h : P.length = w.length) (m : ℕ)
    (f : ℕ → ℕ) :
    homPts R (arr m fun i => P.getD (f i) 0) (arr m fun i => w.getD (f i) 0)
      = arr m fun i => (homPts R P w).getD (f i) 0 := by
  refine List.ext_getElem (by simp [homPts]) fun i h1 h2 => ?_
  have hi : i < m := by simpa using h2
  funext o
  have e : ∀ (l : List (Option ι → K)) (hl : i < l.length), l[i] = l.getD i 0 := fun l hl => by
    simp [hl]
  rw [e _ h1, e _ h2, arr_getD _ _ _ _ hi]
  have hl : (arr m fun i => P.getD (f i) 0).length = (arr m fun i => w.getD (f i) 0).length := by simp
  cases o with
  | none => rw [homPts_none R _ _ hl, arr_getD _ _ _ _ hi, homPts_none R _ _ h]
  | some a =>
    rw [homPts_some R _ _ hl, arr_getD _ _ _ _ hi, arr_getD _ _ _ _ hi, homPts_some R _ _ h]

theorem homPts_floats (R : Rounding K) (P : List (ι → K)) (w : List K) (h : P.length = w.length)
    (hw : ∀ x ∈ w, R.IsFloat x) : Floats R (homPts R P w) := by
  intro x hx o
  obtain ⟨j, hj, rfl⟩ := List.mem_iff_getElem.1 hx
  have e : (homPts R P w)[j] = (homPts R P w).getD j 0 := by simp [hj]
  rw [e]
  cases o with
  | none =>
    rw [homPts_none R _ _ h]
    have hj' : j < w.length := by rw [homPts_length R _ _ h] at hj; omega
    rw [getD_of_lt _ hj']
    exact hw _ (List.getElem_mem hj')
  | some a => rw [homPts_some R _ _ h]; exact R.idem _

/-- A spline along an axis returns floating point numbers. -/
theorem axis_value (R : Rounding K) (F : ℕ → ℕ → ι → Fuse) {u : List K} {deg s : ℤ} {n p : ℕ}
    (h : BSplinePatch.Axis u deg s n p) (b : Bool) {t t' : K}
    (ht : dirWrap R b (knot u p) (knot u n) t = ok t') (hd : BSplinePatch.InDom u n p t') :
    ∃ g : (ℕ → ι → K) → ι → K, ∀ Q : ℕ → ι → K,
      bsplineEvaluate R F (BSpline.mk (arr n Q) u b (BSplinePatch.staticDeg s)) t = ok (g Q) ∧
      ((∀ j < n, ∀ i, R.IsFloat (Q j i)) → ∀ i, R.IsFloat (g Q i)) := by
  have key : ∀ Q : ℕ → ι → K, ∃ x : ι → K,
      bsplineEvaluate R F (BSpline.mk (arr n Q) u b (BSplinePatch.staticDeg s)) t = ok x ∧
      ((∀ j < n, ∀ i, R.IsFloat (Q j i)) → ∀ i, R.IsFloat (x i)) := by
    intro Q
    have hl : (arr n Q).length = n := by simp
    rw [axis_wrap_eval F h Q b ht]
    obtain ⟨k, -, -, -, -, e⟩ := bsplineEvaluate_eq R F (h.wf false hl) (t := t') (t' := t')
      (by simp [bsplineWrap]) hd.2.2 hd.1 (by simp only [hl]; exact hd.2.1)
    refine ⟨_, e, fun hQ => tri_float R (fun _ _ _ _ _ => combine_float R _ _ _ _ _) ?_ _ _⟩
    intro j i
    dsimp only
    by_cases hj : k - p + j < n
    · rw [arr_getD _ _ _ _ hj]
      exact hQ _ hj i
    · rw [getD_of_le _ (by simpa using hj)]
      exact R.zero
  choose g hg using key
  exact ⟨g, hg⟩

end NS.Fl
