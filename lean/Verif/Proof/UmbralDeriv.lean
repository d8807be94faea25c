import Mathlib.Analysis.Calculus.Deriv.Add
import Mathlib.Analysis.Calculus.Deriv.Mul
import Mathlib.Analysis.Calculus.Deriv.Pow
import Verif.Proof.Umbral

/-! # Derivatives of umbral powers -/

namespace NS

open Polynomial

variable {V : Type} [NormedAddCommGroup V] [NormedSpace ℝ V]

theorem hasDerivAt_umb (P : ℕ → V) (q : ℝ[X]) (n : ℕ) (t : ℝ) :
    HasDerivAt (fun t : ℝ => umb P (lin t ^ n * q))
      ((n : ℝ) • umb P (lin t ^ (n - 1) * (X - 1) * q)) t := by
  induction n generalizing q with
  | zero => simpa using hasDerivAt_const t (umb P q)
  | succ n ih =>
    have e : (fun t : ℝ => umb P (lin t ^ (n + 1) * q)) =
        fun t => (1 - t) • umb P (lin t ^ n * q) + t • umb P (lin t ^ n * (X * q)) := by
      funext s
      rw [pow_succ', mul_assoc, umb_lin_mul, mul_left_comm X]
    rw [e]
    have h1 : HasDerivAt (fun t : ℝ => 1 - t) (-1) t := by
      simpa using (hasDerivAt_id t).const_sub 1
    have := (h1.smul (ih q)).add ((hasDerivAt_id t).smul (ih (X * q)))
    have e2 : (n : ℝ) • umb P (lin t ^ n * (X - 1) * q)
        = (1 - t) • (n : ℝ) • umb P (lin t ^ (n - 1) * (X - 1) * q)
          + t • (n : ℝ) • umb P (lin t ^ (n - 1) * (X - 1) * (X * q)) := by
      rcases n with _ | n
      · simp
      · have : lin t ^ (n + 1) * (X - 1) * q = lin t * (lin t ^ n * (X - 1) * q) := by ring
        rw [this, umb_lin_mul, Nat.add_sub_cancel, mul_left_comm X]
        module
    have e3 : umb P (lin t ^ n * (X - 1) * q)
        = umb P (lin t ^ n * (X * q)) - umb P (lin t ^ n * q) := by
      rw [← map_sub]
      congr 1
      ring
    have e4 : ((n + 1 : ℕ) : ℝ) • umb P (lin t ^ (n + 1 - 1) * (X - 1) * q)
       = (n : ℝ) • umb P (lin t ^ n * (X - 1) * q) + umb P (lin t ^ n * (X - 1) * q) := by
      rw [Nat.add_sub_cancel]; push_cast; module
    have e5 : ((n + 1 : ℕ) : ℝ) • umb P (lin t ^ (n + 1 - 1) * (X - 1) * q)
       = (1 - t) • (n : ℝ) • umb P (lin t ^ (n - 1) * (X - 1) * q) + (-1 : ℝ) • umb P (lin t ^ n * q)
        + (id t • (n : ℝ) • umb P (lin t ^ (n - 1) * (X - 1) * (X * q))
          + (1 : ℝ) • umb P (lin t ^ n * (X * q))) := by
      rw [e4, e2, e3, id]
      module
    rw [e5]
    exact this

end NS
