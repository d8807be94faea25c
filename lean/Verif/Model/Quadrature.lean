import Verif.Basic.Outcome
import Mathlib.Analysis.Real.Sqrt

/-!
# Gauss-Legendre quadrature

include/nanospline/Quadrature.h.  The integrand may fail, so it returns an `Outcome`.
-/

namespace NS
namespace Quadrature

/-- `Quadrature<2>::integrate`, Quadrature.h:23-31. -/
noncomputable def integrate2 (f : ℝ → Outcome ℝ) (t0 t1 : ℝ) : Outcome ℝ := do
  let q0 := t0 + (t1 - t0) / 2 * (-1 / √3 + 1)
  let q1 := t0 + (t1 - t0) / 2 * (1 / √3 + 1)
  let val0 ← f q0
  let val1 ← f q1
  pure ((val0 + val1) * (t1 - t0) * (1 / 2))

/-- `Quadrature<3>::integrate`, Quadrature.h:38-54. -/
noncomputable def integrate3 (f : ℝ → Outcome ℝ) (t0 t1 : ℝ) : Outcome ℝ := do
  let q0 := 1 / 2 * (t0 + t1)
  let q1 := t0 + (t1 - t0) / 2 * (-√(3 / 5) + 1)
  let q2 := t0 + (t1 - t0) / 2 * (√(3 / 5) + 1)
  let val0 ← f q0
  let val1 ← f q1
  let val2 ← f q2
  let w0 := 8 / 9
  let w1 := 5 / 9
  let w2 := 5 / 9
  pure ((val0 * w0 + val1 * w1 + val2 * w2) * (t1 - t0) * (1 / 2))

/-- `Quadrature<4>::integrate`, Quadrature.h:61-81. -/
noncomputable def integrate4 (f : ℝ → Outcome ℝ) (t0 t1 : ℝ) : Outcome ℝ := do
  let r0 := √(3 / 7 - 2 / 7 * √(6 / 5))
  let r1 := √(3 / 7 + 2 / 7 * √(6 / 5))
  let q0 := t0 + (t1 - t0) / 2 * (-r0 + 1)
  let q1 := t0 + (t1 - t0) / 2 * (r0 + 1)
  let q2 := t0 + (t1 - t0) / 2 * (-r1 + 1)
  let q3 := t0 + (t1 - t0) / 2 * (r1 + 1)
  let val0 ← f q0
  let val1 ← f q1
  let val2 ← f q2
  let val3 ← f q3
  let w0 := (18 + √30) / 36
  let w1 := (18 - √30) / 36
  pure ((val0 * w0 + val1 * w0 + val2 * w1 + val3 * w1) * (t1 - t0) * (1 / 2))

/-- `Quadrature<5>::integrate`, Quadrature.h:88-111. -/
noncomputable def integrate5 (f : ℝ → Outcome ℝ) (t0 t1 : ℝ) : Outcome ℝ := do
  let r0 := √(5 - 2 * √(10 / 7)) / 3
  let r1 := √(5 + 2 * √(10 / 7)) / 3
  let q0 := 1 / 2 * (t0 + t1)
  let q1 := t0 + (t1 - t0) / 2 * (-r0 + 1)
  let q2 := t0 + (t1 - t0) / 2 * (r0 + 1)
  let q3 := t0 + (t1 - t0) / 2 * (-r1 + 1)
  let q4 := t0 + (t1 - t0) / 2 * (r1 + 1)
  let val0 ← f q0
  let val1 ← f q1
  let val2 ← f q2
  let val3 ← f q3
  let val4 ← f q4
  let w0 := 128 / 225
  let w1 := (322 + 13 * √70) / 900
  let w2 := (322 - 13 * √70) / 900
  pure ((val0 * w0 + val1 * w1 + val2 * w1 + val3 * w2 + val4 * w2) * (t1 - t0) * (1 / 2))

/-- `Quadrature<N>::integrate`: the specialisations above; the primary template throws,
Quadrature.h:7-16. -/
noncomputable def integrate (N : ℕ) (f : ℝ → Outcome ℝ) (t0 t1 : ℝ) : Outcome ℝ :=
  if N = 2 then integrate2 f t0 t1
  else if N = 3 then integrate3 f t0 t1
  else if N = 4 then integrate4 f t0 t1
  else if N = 5 then integrate5 f t0 t1
  else .throw .notImplemented

end Quadrature
end NS
