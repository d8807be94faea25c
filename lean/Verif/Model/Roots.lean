import Verif.Basic.Outcome
import Mathlib.Analysis.Real.Sqrt
import Mathlib.Data.Complex.Basic
import Mathlib.Analysis.Complex.Norm

/-!
# Real roots of polynomials

include/nanospline/PolynomialRootFinder.h.  `roots` is the vector the roots are appended to.

Division by a zero leading coefficient, possible only for a non-positive tolerance, gives infinities and
NaNs in C++.  In degrees one and two every comparison with the bounds then fails, and no root is
appended; in higher degrees the matrix handed to the eigenvalue solver is meaningless, `ub` here.
-/

namespace NS
namespace Roots

/-- `if (root >= t0 && root <= t1) roots.push_back(root)`. -/
noncomputable def push (t0 t1 : ℝ) (roots : List ℝ) (r : ℝ) : List ℝ :=
  if r ≥ t0 ∧ r ≤ t1 then roots ++ [r] else roots

/-- `PolynomialRootFinder<Scalar, 0>`, PolynomialRootFinder.h:139-149. -/
noncomputable def find0 (coeffs roots : List ℝ) (eps : ℝ) : Outcome (List ℝ) := do
  Outcome.assert (coeffs.length > 0)
  let c0 ← rd coeffs 0
  Outcome.throwIf (|c0| < eps) .infiniteRoot
  pure roots

/-- `PolynomialRootFinder<Scalar, 1>`, PolynomialRootFinder.h:111-132. -/
noncomputable def find1 (coeffs roots : List ℝ) (t0 t1 eps : ℝ) : Outcome (List ℝ) := do
  Outcome.assert (coeffs.length > 1)
  let a ← rd coeffs 1
  if |a| < eps then find0 coeffs roots eps
  else do
    let b ← rd coeffs 0
    if a = 0 then pure roots
    else pure (push t0 t1 roots (-b / a))

/-- `PolynomialRootFinder<Scalar, 2>`, PolynomialRootFinder.h:67-104. -/
noncomputable def find2 (coeffs roots : List ℝ) (t0 t1 eps : ℝ) : Outcome (List ℝ) := do
  Outcome.assert (coeffs.length > 2)
  let a ← rd coeffs 2
  if |a| < eps then find1 coeffs roots t0 t1 eps
  else do
    let b ← rd coeffs 1
    let c ← rd coeffs 0
    let discr := b * b - 4 * a * c
    if discr < 0 then pure roots
    else if a = 0 then pure roots
    else if |discr| < eps then pure (push t0 t1 roots (-b / (2 * a)))
    else
      let sqrtDiscr := √discr
      let roots := push t0 t1 roots ((-b - sqrtDiscr) / (2 * a))
      pure (push t0 t1 roots ((-b + sqrtDiscr) / (2 * a)))

/-- The companion matrix of PolynomialRootFinder.h:42-47, `n` being the degree: ones below the diagonal
and the negated normalised coefficients in the last column. -/
noncomputable def companion (n : ℕ) (c : ℕ → ℝ) (i j : ℕ) : ℝ :=
  if j + 1 = n then -c i / c n else if i = j + 1 then 1 else 0

/-- The loop of PolynomialRootFinder.h:52-59 over the computed eigenvalues. -/
noncomputable def select (t0 t1 eps : ℝ) (vals : List ℂ) (roots : List ℝ) : List ℝ :=
  vals.foldl (fun roots l =>
    if eps < |(‖l‖ - abs l.re)| then roots
    else push t0 t1 roots l.re) roots

/-- `find_real_roots_in_interval`, PolynomialRootFinder.h:19-60, by recursion on the degree.  `eig n M` is
Eigen's `EigenSolver`, the eigenvalues of the `n` by `n` matrix `M`. -/
noncomputable def find (eig : ℕ → (ℕ → ℕ → ℝ) → List ℂ) :
    ℕ → List ℝ → List ℝ → ℝ → ℝ → ℝ → Outcome (List ℝ)
  | 0, coeffs, roots, _, _, eps => find0 coeffs roots eps
  | 1, coeffs, roots, t0, t1, eps => find1 coeffs roots t0 t1 eps
  | 2, coeffs, roots, t0, t1, eps => find2 coeffs roots t0 t1 eps
  | n + 3, coeffs, roots, t0, t1, eps => do
    Outcome.assert (coeffs.length > n + 3)
    Outcome.assert (t0 < t1)
    let a ← rd coeffs (n + 3)
    if |a| < eps then find eig (n + 2) coeffs roots t0 t1 eps
    else if a = 0 then .ub
    else
      let vals := eig (n + 3) (companion (n + 3) (fun i => coeffs.getD i 0))
      pure (select t0 t1 eps vals roots)

end Roots
end NS
