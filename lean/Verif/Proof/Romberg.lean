import Mathlib.Tactic.Linarith
import Mathlib.Tactic.Positivity
import Mathlib.Tactic.FieldSimp
import Mathlib.Tactic.Ring
import Verif.Model.Numeric

/-!
# `romberg` on a constant speed: closed form of its table
-/

set_option linter.unusedSectionVars false
set_option linter.unusedSimpArgs false

namespace NS

open Outcome

variable {K : Type} [Field K] [LinearOrder K] [IsStrictOrderedRing K] [FloorRing K]

/-- Coefficients of the error of column `j` of the table. -/
def ra : ℕ → K
  | 0 => 1
  | j + 1 => (4 ^ (j + 1) - 2) / (4 ^ (j + 1) - 1) * ra j

def rb : ℕ → K
  | 0 => 0
  | j + 1 => ((4 ^ (j + 1) - 2) * rb j + 2 * ra j) / (4 ^ (j + 1) - 1)

/-- Entry `(i, j)` of the table for a constant speed with true length `S`. -/
def rv (S : K) (i j : ℕ) : K := S * (1 - 1 / 2 ^ i * (ra j * i + rb j))

theorem four_pow (j : ℕ) : (4 : K) ≤ 4 ^ (j + 1) := by
  have : (1 : K) ≤ 4 ^ j := one_le_pow₀ (by norm_num)
  rw [pow_succ]; linarith

theorem ra_pos : ∀ j, (0 : K) < ra j
  | 0 => one_pos
  | j + 1 => by
    have h := four_pow (K := K) j
    unfold ra
    exact mul_pos (div_pos (by linarith) (by linarith)) (ra_pos j)

theorem rb_nonneg : ∀ j, (0 : K) ≤ rb j
  | 0 => le_rfl
  | j + 1 => by
    have h := four_pow (K := K) j
    have := ra_pos (K := K) j
    have := rb_nonneg j
    unfold rb
    exact div_nonneg (add_nonneg (mul_nonneg (by linarith) this) (by linarith)) (by linarith)

theorem rv_lt {S : K} (hS : 0 < S) {i : ℕ} (hi : 0 < i) (j : ℕ) : rv S i j < S := by
  have h1 := ra_pos (K := K) j
  have h2 := rb_nonneg (K := K) j
  have hi' : (0 : K) < i := by exact_mod_cast hi
  have : (0 : K) < 1 / 2 ^ i * (ra j * i + rb j) := by positivity
  unfold rv
  nlinarith

/-- One extrapolation. -/
theorem rv_step (S : K) (i j : ℕ) :
    rv S (i + 1) j + (rv S (i + 1) j - rv S i j) / (4 ^ (j + 1) - 1) = rv S (i + 1) (j + 1) := by
  have h := four_pow (K := K) j
  have h1 : (4 ^ (j + 1) - 1 : K) ≠ 0 := by
    have : (0 : K) < 4 ^ (j + 1) - 1 := by linarith
    exact this.ne'
  have h2 : (2 : K) ^ i ≠ 0 := by positivity
  unfold rv
  rw [ra, rb]
  generalize (4 : K) ^ (j + 1) = q at *
  rw [pow_succ]
  push_cast
  field_simp
  ring

/-- The midpoint sum. -/
theorem rombergFirst_const (c t0 h above : K) (i : ℕ) :
    rombergFirst (fun _ => ok c) t0 h i above =
      ok (1 / 2 * above + ((2 ^ (i - 1) - 1 : ℕ) : K) * (c * h)) := by
  unfold rombergFirst
  obtain ⟨s, e, hs⟩ := loop_inv (fun n s => s = 1 / 2 * above + (n : K) * (c * h))
    (2 ^ (i - 1) - 1) (fun k r => do
      let s ← (fun _ : K => ok c) (t0 + ((2 * (k + 1) - 1 : ℕ) : K) * h)
      pure (r + s * h)) (1 / 2 * above) (by simp) (by
    intro n _ s hs
    refine ⟨_, rfl, ?_⟩
    rw [hs]; push_cast; ring)
  rw [e, hs]

theorem rv_first (c L : K) (i : ℕ) :
    1 / 2 * rv (c * L) i 0 + ((2 ^ i - 1 : ℕ) : K) * (c * (L / 2 ^ (i + 1))) =
      rv (c * L) (i + 1) 0 := by
  have h2 : (2 : K) ^ i ≠ 0 := by positivity
  have : ((2 ^ i - 1 : ℕ) : K) = 2 ^ i - 1 := by
    rw [Nat.cast_sub Nat.one_le_two_pow]; push_cast; ring
  rw [this]
  unfold rv ra rb
  rw [pow_succ]
  push_cast
  field_simp
  ring

theorem rombergRow_const (S : K) (i level : ℕ) (hi : i + 1 ≤ level) (R : List K)
    (hl : R.length = level + 1) (h0 : rd R 0 = ok (rv S (i + 1) 0))
    (hR : ∀ j, 1 ≤ j → j ≤ i → rd R j = ok (rv S i j)) :
    ∃ R' m x, rombergRow (i + 1) R (rv S i 0) = ok (R', m, x) ∧ R'.length = level + 1 ∧
      ∀ j ≤ i + 1, rd R' j = ok (rv S (i + 1) j) := by
  unfold rombergRow
  obtain ⟨s, e, h1, h2, -⟩ := loop_inv
    (fun n (s : List K × ℕ × K) => s.1.length = level + 1 ∧
      (∀ j ≤ n, rd s.1 j = ok (rv S (i + 1) j)) ∧
      (∀ j, n < j → j ≤ i → rd s.1 j = ok (rv S i j)) ∧ s.2.1 = 4 ^ n ∧
      (n ≤ i → s.2.2 = rv S i n)) (i + 1)
    (fun j0 s => do
      let j := j0 + 1
      let m := s.2.1 * 4
      let Rabove ← rd s.1 j
      let a ← rd s.1 (j - 1)
      let R ← wr s.1 j (a + (a - s.2.2) / ((m - 1 : ℕ) : K))
      pure (R, m, Rabove)) (R, 1, rv S i 0)
    ⟨hl, fun j hj => by
        have : j = 0 := by omega
        subst this; exact h0,
      fun j h h' => hR j h h', rfl, fun _ => rfl⟩ (by
    rintro n hn ⟨Q, m, x⟩ ⟨a1, a2, a3, a4, a5⟩
    simp only at a1 a2 a3 a4 a5 ⊢
    obtain ⟨y, hy⟩ : ∃ y, rd Q (n + 1) = ok y := ⟨_, rd_of_lt (by omega)⟩
    rw [hy, ok_bind, Nat.add_sub_cancel, a2 n le_rfl, ok_bind, wr_of_lt _ (by omega), ok_bind,
      pure_eq]
    refine ⟨_, rfl, ?_, ?_, ?_, ?_, ?_⟩
    · simp [a1]
    · intro j hj
      rcases Nat.lt_or_ge j (n + 1) with h | h
      · have := a2 j (by omega)
        simp only
        rw [rd_eq_ok] at this ⊢
        rw [List.getElem?_set_ne (by omega)]
        exact this
      · have : j = n + 1 := by omega
        subst this
        simp only
        rw [rd_eq_ok, List.getElem?_set_self (by omega), a4, a5 (by omega)]
        congr 1
        rw [← rv_step]
        congr 2
        have : 1 ≤ 4 ^ n * 4 := by
          have : 1 ≤ 4 ^ n := Nat.one_le_pow _ _ (by norm_num)
          omega
        rw [Nat.cast_sub this, pow_succ]; push_cast; ring
    · intro j h h'
      have := a3 j (by omega) h'
      simp only
      rw [rd_eq_ok] at this ⊢
      rw [List.getElem?_set_ne (by omega)]
      exact this
    · simp only; rw [a4, pow_succ]
    · intro h
      simp only
      have := a3 (n + 1) (by omega) h
      rw [hy, ok.injEq] at this
      exact this)
  obtain ⟨R', m, x⟩ := s
  exact ⟨R', m, x, e, h1, h2⟩

theorem rombergGo_const (c L t0 tol : K) (level : ℕ) : ∀ (n i : ℕ) (R : List K),
    n + i = level → (0 < i ∨ 0 < n) → R.length = level + 1 →
    (∀ j ≤ i, rd R j = ok (rv (c * L) i j)) →
    ∃ k, 1 ≤ k ∧ k ≤ level ∧
      rombergGo (fun _ => ok c) t0 tol level n (i + 1) (L / 2 ^ i) R = ok (rv (c * L) k k) := by
  intro n
  induction n with
  | zero =>
    intro i R h1 h2 h3 h4
    refine ⟨level, by omega, le_rfl, ?_⟩
    have : i = level := by omega
    subst this
    exact h4 i le_rfl
  | succ n ih =>
    intro i R h1 h2 h3 h4
    unfold rombergGo
    have hh : L / 2 ^ i / 2 = L / 2 ^ (i + 1) := by rw [pow_succ, div_div]
    simp only
    rw [h4 0 (by omega), ok_bind, rombergFirst_const, ok_bind, wr_of_lt _ (by omega), ok_bind, hh,
      Nat.add_sub_cancel, rv_first]
    obtain ⟨R', m, x, e, hl, hr⟩ := rombergRow_const (c * L) i level (by omega)
      (R.set 0 (rv (c * L) (i + 1) 0)) (by simp [h3])
      (by rw [rd_eq_ok, List.getElem?_set_self (by omega)])
      (by
        intro j ha hb
        have := h4 j hb
        rw [rd_eq_ok] at this ⊢
        rw [List.getElem?_set_ne (by omega)]
        exact this)
    rw [e, ok_bind]
    simp only
    rw [hr (i + 1) le_rfl, ok_bind, hr i (by omega), ok_bind]
    split
    · exact ⟨i + 1, by omega, by omega, rfl⟩
    · exact ih (i + 1) R' (by omega) (by omega) hl hr

theorem romberg_const (c t0 t1 tol : K) (level : ℕ) (hl : 1 ≤ level) :
    ∃ k, 1 ≤ k ∧ k ≤ level ∧
      romberg (fun _ => ok c) t0 t1 level tol = ok (rv (c * (t1 - t0)) k k) := by
  unfold romberg
  rw [ok_bind, ok_bind, wr_of_lt _ (by simp), ok_bind]
  have h := rombergGo_const c (t1 - t0) t0 tol level level 0
    ((List.replicate (level + 1) 0).set 0 (1 / 2 * (t1 - t0) * (c + c))) (by omega) (Or.inr hl)
    (by simp) (by
      intro j hj
      have : j = 0 := by omega
      subst this
      rw [rd_eq_ok, List.getElem?_set_self (by simp)]
      congr 1
      unfold rv ra rb
      simp
      ring)
  simpa using h

end NS
