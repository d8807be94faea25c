import Verif.Spec.Roots

/-!
# What the searches for inflections, singularities and tangents must report
-/

namespace NS
namespace Spec

/-- The planar cross product. -/
def cross {K : Type} [CommRing K] (v a : K × K) : K := v.1 * a.2 - v.2 * a.1

/-- The planar dot product. -/
def dot {K : Type} [CommRing K] (v a : K × K) : K := v.1 * a.1 + v.2 * a.2

/-- A list of parameters in `[lower, upper]`, strictly increasing, that contains every parameter of the
interval with the property `zero`.  Each entry is the real part of a root `z` of the polynomial
with the given coefficients, and `|z|` exceeds the entry by the tolerance at most. -/
structure Reports (tol : ℝ) (co : List ℝ) (lower upper : ℝ) (zero : ℝ → Prop) (l : List ℝ) : Prop where
  increasing : l.Pairwise (· < ·)
  inRange : ∀ t ∈ l, lower ≤ t ∧ t ≤ upper
  complete : ∀ t, lower ≤ t → t ≤ upper → zero t → t ∈ l
  sound : ∀ t ∈ l, ∃ z : ℂ, Roots.polyVal (fun i => (co.getD i 0 : ℂ)) (co.length - 1) z = 0 ∧
    z.re = t ∧ ‖z‖ - |t| ≤ tol

/-- The conditions under which the root finder is exact up to its tolerance: `e` is the degree, all
coefficients above it vanish, the leading one is not below the tolerance, and a positive discriminant of a
quadratic is not below the tolerance. -/
structure WellPosed (tol : ℝ) (co : List ℝ) (e : ℕ) : Prop where
  deg : Roots.DegreeUpTo tol (fun i => co.getD i 0) (co.length - 1) e
  above : ∀ i, e < i → co.getD i 0 = 0
  discr : e = 2 → co.getD 1 0 ^ 2 - 4 * co.getD 2 0 * co.getD 0 0 ≤ 0 ∨
    tol ≤ co.getD 1 0 ^ 2 - 4 * co.getD 2 0 * co.getD 0 0

end Spec
end NS
