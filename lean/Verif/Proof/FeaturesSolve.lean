import Verif.Proof.Features
import Verif.Props.Roots
import Verif.Spec.Features

/-!
# Solving for features
-/

set_option linter.unusedSectionVars false
set_option linter.unusedSimpArgs false

namespace NS
namespace Features

open Outcome Finset Spec

theorem tol_pos : 0 < tol := by unfold tol; norm_num

theorem mem_unique : ∀ (l : List ℝ) (x : ℝ), x ∈ unique l ↔ x ∈ l := by
  intro l
  induction l using unique.induct with
  | case1 => intro x; simp [unique]
  | case2 a => intro x; simp [unique]
  | case3 a l ih => intro x; rw [unique, if_pos rfl, ih]; simp
  | case4 a b l h ih => intro x; rw [unique, if_neg h, List.mem_cons, ih]; simp

theorem unique_increasing : ∀ (l : List ℝ), l.Pairwise (· ≤ ·) → (unique l).Pairwise (· < ·) := by
  intro l
  induction l using unique.induct with
  | case1 => intro _; simp [unique]
  | case2 a => intro _; simp [unique]
  | case3 a l ih =>
    intro h; rw [unique, if_pos rfl]; exact ih (List.pairwise_cons.1 h).2
  | case4 a b l hab ih =>
    intro h
    rw [unique, if_neg hab, List.pairwise_cons]
    obtain ⟨h1, h2⟩ := List.pairwise_cons.1 h
    refine ⟨fun x hx => ?_, ih h2⟩
    have hx := (mem_unique _ _).1 hx
    have hlt : a < b := lt_of_le_of_ne (h1 b (List.mem_cons_self)) hab
    rcases List.mem_cons.1 hx with rfl | hx
    · exact hlt
    · exact lt_of_lt_of_le hlt ((List.pairwise_cons.1 h2).1 x hx)

theorem mem_sortUnique (l : List ℝ) (x : ℝ) : x ∈ sortUnique l ↔ x ∈ l := by
  rw [sortUnique, mem_unique, List.mem_mergeSort]

theorem sortUnique_increasing (l : List ℝ) : (sortUnique l).Pairwise (· < ·) := by
  refine unique_increasing _ ?_
  have := List.pairwise_mergeSort (le := fun a b : ℝ => decide (a ≤ b))
    (fun a b c h1 h2 => by simp only [decide_eq_true_eq] at *; exact le_trans h1 h2)
    (fun a b => by simp only [Bool.or_eq_true, decide_eq_true_eq]; exact le_total a b) l
  exact this.imp fun h => by simpa using h

theorem polyVal_above {R : Type} [CommRing R] {c : ℕ → R} {e d : ℕ} (h : e ≤ d)
    (hz : ∀ i, e < i → c i = 0) (x : R) : Roots.polyVal c d x = Roots.polyVal c e x := by
  unfold Roots.polyVal
  symm
  refine sum_subset (range_mono (by omega)) fun i _ hi => ?_
  rw [hz i (by simp only [mem_range] at hi; omega), zero_mul]

variable {eig : ℕ → (ℕ → ℕ → ℝ) → List ℂ}

theorem solve_reports (hE : Roots.ExactEig eig) {co : List ℝ} {d e : ℕ} (hl : co.length = d + 1)
    {t0 t1 : ℝ} (ht : t0 < t1) (hw : WellPosed tol co e) :
    ∃ l, solve eig (some co) t0 t1 = ok l ∧
      Reports tol co t0 t1 (fun t => evalP co t = 0) (sortUnique l) ∧
      (e ≤ 2 → ∀ t ∈ l, evalP co t = 0) := by
  have hd : co.length - 1 = d := by omega
  obtain ⟨hdeg, hab, hdis⟩ := hw
  rw [hd] at hdeg
  have hc : co.getD e 0 ≠ 0 := by
    intro h
    have := hdeg.lead
    beta_reduce at this
    rw [h, abs_zero] at this
    exact absurd tol_pos (not_lt.2 this)
  have hev : ∀ t, Roots.polyVal (fun i => co.getD i 0) e t = evalP co t := by
    intro t
    rw [← evalP_polyVal hl, polyVal_above hdeg.le hab]
  have hcx : ∀ z : ℂ, Roots.polyVal (fun i => (co.getD i 0 : ℂ)) (co.length - 1) z =
      Roots.polyVal (fun i => (co.getD i 0 : ℂ)) e z := by
    intro z
    rw [hd, polyVal_above hdeg.le fun i hi => by rw [hab i hi]; simp]
  have hre : ∀ t : ℝ, Roots.polyVal (fun i => (co.getD i 0 : ℂ)) e (t : ℂ) =
      ((Roots.polyVal (fun i => co.getD i 0) e t : ℝ) : ℂ) := by
    intro t; unfold Roots.polyVal; push_cast; rfl
  simp only [solve, hd]
  by_cases h2 : e ≤ 2
  · obtain ⟨new, h, hm, -⟩ := Roots.C46_exact (eig := eig) (roots := []) d e (by omega) ht hdeg h2 hc hdis
    refine ⟨new, by simpa using h, ⟨sortUnique_increasing _, ?_, ?_, ?_⟩, ?_⟩
    · intro t h; have := (hm t).1 ((mem_sortUnique _ _).1 h); exact ⟨this.1, this.2.1⟩
    · intro t h1 h2 h3
      exact (mem_sortUnique _ _).2 ((hm t).2 ⟨h1, h2, by rw [hev]; exact h3⟩)
    · intro t h
      have := (hm t).1 ((mem_sortUnique _ _).1 h)
      refine ⟨t, ?_, Complex.ofReal_re t, ?_⟩
      · rw [hcx, hre, this.2.2]; simp
      · rw [Complex.norm_real, Real.norm_eq_abs, sub_self]; exact tol_pos.le
    · intro _ t h; rw [← hev]; exact ((hm t).1 h).2.2
  · obtain ⟨new, h, hm, hs, -⟩ := Roots.C46_eigen (roots := []) hE d e (by omega) ht hdeg (by omega) hc
      tol_pos.le
    refine ⟨new, by simpa using h, ⟨sortUnique_increasing _, ?_, ?_, ?_⟩, fun h => absurd h h2⟩
    · intro t h; have := hs t ((mem_sortUnique _ _).1 h); exact ⟨this.1, this.2.1⟩
    · intro t h1 h2 h3
      exact (mem_sortUnique _ _).2 (hm t h1 h2 (by rw [hev]; exact h3))
    · intro t h
      obtain ⟨-, -, z, hz, h1, h2⟩ := hs t ((mem_sortUnique _ _).1 h)
      exact ⟨z, by rw [hcx]; exact hz, h1, h2⟩

theorem solve_inRange {co : Option (List ℝ)} {t0 t1 : ℝ} {l : List ℝ}
    (h : solve eig co t0 t1 = ok l) : ∀ x ∈ l, t0 ≤ x ∧ x ≤ t1 := by
  cases co with
  | none => simp [solve] at h
  | some co =>
    obtain ⟨new, h1, h2⟩ := Roots.C46_in_interval _ _ h
    rw [h1]; simpa using h2

theorem solve_infinite {co : List ℝ} {d : ℕ} (hl : co.length = d + 1) {t0 t1 : ℝ} (ht : t0 < t1) :
    solve eig (some co) t0 t1 = Outcome.throw .infiniteRoot ↔ ∀ a ∈ co, |a| < tol := by
  rw [solve, Roots.C46_infinite_root _ (by omega) ht]
  constructor
  · intro h a ha
    obtain ⟨i, hi, rfl⟩ := List.mem_iff_getElem.1 ha
    have := h i (by omega)
    simpa [hi] using this
  · intro h i hi
    have hi' : i < co.length := by omega
    have := h co[i] (List.getElem_mem hi')
    simpa [hi'] using this

end Features
end NS
