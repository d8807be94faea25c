import Verif.Proof.FloatEdit
import Verif.Proof.Bezier

/-!
# Degree elevation of Bézier curves in floating point
-/

set_option linter.unusedSectionVars false

namespace NS.Fl

open Outcome Spec Finset Bezier

variable {K ι : Type} [Field K] [LinearOrder K] [IsStrictOrderedRing K] [FloorRing K]

/-- Interior control point of the rounded `elevate_degree`. -/
def elevated (R : Rounding K) (F : ℕ → ι → Fuse) (n : ℕ) (P : ℕ → ι → K) (i : ℕ) : ι → K :=
  fun l => R.combine (F i l) (R.rnd (1 - R.rnd (R.rnd (i : K) / R.rnd ((n + 1 : ℕ) : K)))) (P i l)
    (R.rnd (R.rnd (i : K) / R.rnd ((n + 1 : ℕ) : K))) (P (i - 1) l)

theorem bezierElevate_arr (R : Rounding K) (F : ℕ → ι → Fuse) (n : ℕ) (P : ℕ → ι → K) (per : Bool) :
    bezierElevate R F { ctrl := arr (n + 1) P, periodic := per }
      = ok { ctrl := arr (n + 2) (fun i => if i = 0 then P 0 else if i = n + 1 then P n else
              elevated R F n P i),
             periodic := per } := by
  unfold bezierElevate
  simp only [arr_length]
  rw [rd_arr (by omega), ok_bind, replicate_eq_arr,
    wr_arr (fun j => if j = 0 then P 0 else 0) (by omega) (by intro j _; rfl), ok_bind]
  have key := forUp_eq (S := fun k => arr (n + 1 + 1) (fun i => if i = 0 then P 0 else if i < k then
      elevated R F n P i else 0)) 1 (n + 1)
      (by omega)
      (fun i q => do
        let alpha := R.rnd (R.rnd (i : K) / R.rnd ((n + 1 : ℕ) : K))
        let a ← rd (arr (n + 1) P) i
        let b ← rd (arr (n + 1) P) (i - 1)
        wr q i (fun l => R.combine (F i l) (R.rnd (1 - alpha)) (a l) alpha (b l))) ?_
  · have e : arr (n + 1 + 1) (fun j => if j = 0 then P 0 else 0) =
      arr (n + 1 + 1) (fun i => if i = 0 then P 0 else if i < 1 then
      elevated R F n P i else 0) := by
      apply arr_congr
      intro i _
      by_cases h : i = 0
      · simp [h]
      · have : ¬ i < 1 := by omega
        simp [h]
    rw [e, key, ok_bind]
    have e2 : ((n + 1 : ℕ) : ℤ) - 1 = (n : ℤ) := by omega
    rw [e2, rdI_natCast, rd_arr (by omega), ok_bind]
    rw [wr_arr (fun i => if i = 0 then P 0 else if i = n + 1 then P n else
              elevated R F n P i) (by omega), ok_bind]
    · rfl
    · intro j hj
      by_cases h : j = 0
      · subst h; simp
      · by_cases h2 : j = n + 1
        · simp [h2]
        · have : j < n + 1 := by omega
          simp [h, h2, this]
  · intro i hi1 hi2
    rw [rd_arr (by omega)]
    simp only [ok_bind]
    rw [rd_arr (by omega), ok_bind]
    apply wr_arr _ (by omega)
    intro j hj
    by_cases h : j = i
    · subst h
      have : j ≠ 0 := by omega
      rw [if_pos rfl, if_neg this, if_pos (by omega)]
      rfl
    · by_cases h0 : j = 0
      · subst h0; simp [h]
      · by_cases h2 : j < i
        · simp [h, h0, h2, Nat.lt_succ_of_lt h2]
        · have : ¬ (j < i + 1) := by omega
          simp [h, h0, h2, this]

theorem elevated_err (R : Rounding K) (hu1 : R.unit < 1) (F : ℕ → ι → Fuse) (n : ℕ) (P : ℕ → ι → K)
    {i : ℕ} (hi : i ≤ n) {l : ι} {M : K} (hM : ∀ j, |P j l| ≤ M) :
    |elevated R F n P i l - ((1 - (i : K) / (n + 1)) * P i l + ((i : K) / (n + 1)) * P (i - 1) l)|
      ≤ (growth R - 1) * M := by
  have hM0 : 0 ≤ M := (abs_nonneg _).trans (hM 0)
  have hn : (0 : K) < ((n + 1 : ℕ) : K) := by positivity
  have hin : (i : K) ≤ ((n + 1 : ℕ) : K) := by exact_mod_cast (by omega : i ≤ n + 1)
  have hp := rnd_pos_of_unit R hu1 hn
  have hq := quo_err R hu1 (a := ((n + 1 : ℕ) : K)) (b := 0) (t := (i : K)) (by positivity) hin
    (by simpa using hn) (by simpa using hp)
  have hc := coefI_mem R (a := ((n + 1 : ℕ) : K)) (b := 0) (t := (i : K)) (by positivity) hin
  unfold coefI at hc
  simp only [sub_zero] at hq hc
  rw [if_pos hp] at hc
  have hu := R.unit_nonneg
  have key := blend_err R (F i l) (g := 1) hM0 le_rfl
    (e := (1 + R.unit) ^ 2 / (1 - R.unit) - 1)
    (by
      rw [sub_nonneg, le_div_iff₀ (by linarith)]
      nlinarith)
    hc.1 hc.2 (a0 := (i : K) / ((n + 1 : ℕ) : K)) (by positivity) (by rw [div_le_one hn]; exact hin) hq
    (x := P i l) (x0 := P i l) (by simp) (hM i) (y := P (i - 1) l) (y0 := P (i - 1) l) (by simp) (hM _)
  rw [one_mul] at key
  have e : ((n + 1 : ℕ) : K) = (n : K) + 1 := by push_cast; rfl
  unfold elevated growth
  rw [e] at key ⊢
  exact key

end NS.Fl
