import Mathlib.Algebra.Field.Defs
import Mathlib.Algebra.Module.Defs
import Mathlib.Data.Nat.Notation
import Mathlib.LinearAlgebra.Matrix.NonsingularInverse
import Verif.Basic.Grid

/-!
# Model of `include/nanospline/BezierSimplex.h`

A Bezier simplex of dimension `s` and degree `d` (template parameters, `uint8_t`) holds a list of
ordinates.  A matrix of multi-indices is a list of rows.  Simplifications: the `uint8_t`, `int`
and `size_t` arithmetic is over `ℕ` (no wrap-around: `s + d ≤ 255`, factorials and binomials in
range; see `Verif.Model.SimplexInt` for machine integers); the multi-index that `evaluate_bernstein_derivative` and `elevate_degree` modify and
restore in place is a modified copy; `cols() == 0` (dynamic ordinate dimension that was never set)
is not represented, the ordinates live in a vector space `V`.
-/

namespace NS
namespace Simplex

open Outcome

/-- `internal::choose` (BezierSimplex.h:20-29): multiply and divide by turns.  `n - r` is an `int`
in the source; for `r > n` both the comparison and the loop see a negative number, here `0`. -/
def choose (n r : ℕ) : ℕ :=
  let r := if n - r > r then n - r else r
  (List.range (n - r)).foldl (fun accum x => accum * (r + (x + 1)) / (x + 1)) 1

/-- `internal::factorial<N>` (BezierSimplex.h:34-43): the array `0!, ..., N!`. -/
def factorials (N : ℕ) : Outcome (List ℕ) := do
  let result := List.replicate (N + 1) 0
  let result ← wr result 0 1
  forUp 1 (N + 1) (fun i result => do
    let x ← rd result (i - 1)
    wr result i (x * i)) result

/-- `internal::generate_multi_indices` (BezierSimplex.h:52-79).  `g` is the matrix that is passed
in, with arbitrary content; the sub-matrix `layer` of columns `1, ..., simplex_dim` is cut out,
filled by the recursive call and put back. -/
def generateMultiIndices : ℕ → ℕ → List (List ℕ) → Outcome (List (List ℕ))
  | 0, degree, g => do
    Outcome.assert (g.length = choose (0 + degree) degree)
    pure (g.map fun _ => [degree])
  | s + 1, degree, g => do
    Outcome.assert (g.length = choose (s + 1 + degree) degree)
    let r ← loop (degree + 1) (fun d (st : ℕ × List (List ℕ)) => do
      let (count, g) := st
      let m := choose (s + 1 + d - 1) d
      let block ← seg g count m
      let layer ← generateMultiIndices s d (block.map List.tail)
      let g ← wrSeg g count (layer.map fun row => (degree - d) :: row)
      pure (count + layer.length, g)) (0, g)
    pure r.2

/-- `m_num_control_points` (BezierSimplex.h:115-116). -/
def numControlPoints (s d : ℕ) : ℕ := choose (d + s) s

/-- The local variable `MultiIndices multi_indices` of the member functions after
`generate_multi_indices` (e.g. BezierSimplex.h:271-272): an uninitialised matrix of
`m_num_control_points` rows, here with content `0`, is filled. -/
def multiIndices (s d : ℕ) : Outcome (List (List ℕ)) :=
  generateMultiIndices s d (List.replicate (numControlPoints s d) (List.replicate (s + 1) 0))

variable {K : Type} [Field K] {V : Type} [AddCommGroup V] [Module K V]

/-- `get_control_points` (BezierSimplex.h:149-158). -/
def getControlPoints (K : Type) [Field K] (s d : ℕ) : Outcome (List (List K)) :=
  if d = 0 then
    pure (List.replicate (numControlPoints s d) (List.replicate (s + 1) (0 : K)))
  else do
    let idx ← multiIndices s d
    pure (idx.map fun row => row.map fun a : ℕ => (a : K) / (d : K))

/-- `evaluate_bernstein` (BezierSimplex.h:360-370). -/
def evaluateBernstein (s d : ℕ) (idx : List ℕ) (b : List K) : Outcome K := do
  let fact ← factorials d
  let c ← rd fact d
  loop (s + 1) (fun j (coeff : K) => do
    let a ← rd idx j
    let f ← rd fact a
    let x ← rd b j
    pure (coeff / (f : K) * x ^ a)) (c : K)

/-- `evaluate_bernstein_derivative` (BezierSimplex.h:381-390). -/
def evaluateBernsteinDerivative (s d : ℕ) (idx : List ℕ) (b : List K) (axis : ℕ) : Outcome K := do
  let a ← rd idx axis
  if a = 0 then pure 0
  else do
    let idx ← wr idx axis (a - 1)
    evaluateBernstein s d idx b

/-- `evaluate` (BezierSimplex.h:265-283). -/
def evaluate (s d : ℕ) (ordinates : List V) (b : List K) : Outcome V := do
  throwIf (ordinates.length ≠ numControlPoints s d) .runtimeError
  let idx ← multiIndices s d
  loop (numControlPoints s d) (fun i (result : V) => do
    let row ← rd idx i
    let coeff ← evaluateBernstein s d row b
    let o ← rd ordinates i
    pure (result + coeff • o)) 0

/-- `evaluate_directional_derivative` (BezierSimplex.h:295-317). -/
def evaluateDirectionalDerivative (s d : ℕ) (ordinates : List V) (b dir : List K) : Outcome V := do
  throwIf (ordinates.length ≠ numControlPoints s d) .runtimeError
  let idx ← multiIndices s d
  loop (numControlPoints s d) (fun i (result : V) => do
    let row ← rd idx i
    let coeff ← loop (s + 1) (fun j (coeff : K) => do
      let e ← evaluateBernsteinDerivative s d row b j
      let x ← rd dir j
      pure (coeff + e * x)) 0
    let o ← rd ordinates i
    pure (result + coeff • o)) 0

/-- `elevate_degree` (BezierSimplex.h:210-254): the ordinates of the elevated simplex. -/
def elevateDegree (K : Type) [Field K] {V : Type} [AddCommGroup V] [Module K V] (s d : ℕ)
    (ordinates : List V) : Outcome (List V) := do
  let elevated ← multiIndices s (d + 1)
  let idx ← multiIndices s d
  tab (numControlPoints s (d + 1)) (fun i => do
    let e ← rd elevated i
    let o ← loop (numControlPoints s d) (fun j (o : V) => do
      let row ← rd idx j
      loop (s + 1) (fun k (o : V) => do
        let a ← rd row k
        let row ← wr row k (a + 1)
        if row = e then do
          let p ← rd ordinates j
          let c ← rd e k
          pure (o + (c : K) • p)
        else pure o) o) 0
    pure ((((d + 1 : ℕ) : K))⁻¹ • o))

/-- `compute_coeff_matrix` (BezierSimplex.h:332-350).  For degree 0 the division is `0 / 0`, the
matrix is not a number: no defined result. -/
def computeCoeffMatrix (K : Type) [Field K] (s d : ℕ) : Outcome (List (List K)) := do
  let idx ← multiIndices s d
  Outcome.assert (d ≠ 0)
  tab (numControlPoints s d) (fun i => do
    let row ← rd idx i
    let b := row.map fun a : ℕ => (a : K) / (d : K)
    tab (numControlPoints s d) (fun j => do
      let col ← rd idx j
      evaluateBernstein s d col b))

/-- The matrix with the given rows. -/
def toMatrix (n : ℕ) (M : List (List K)) : Matrix (Fin n) (Fin n) K :=
  Matrix.of fun i j => (M.getD i []).getD j 0

open Classical in
/-- `fit` (BezierSimplex.h:193-198).  Eigen's `M.inverse()` is Mathlib's matrix inverse; for a
singular matrix its entries are not finite and the `assert` fails.  A sample matrix of the wrong
size does not convert to `Ordinates`. -/
noncomputable def fit (K : Type) [Field K] {V : Type} [AddCommGroup V] [Module K V] (s d : ℕ)
    (samples : List V) : Outcome (List V) := do
  Outcome.assert (samples.length = numControlPoints s d)
  let M ← computeCoeffMatrix K s d
  let A := toMatrix (numControlPoints s d) M
  Outcome.assert (IsUnit A.det)
  pure (List.ofFn fun i => ∑ j, A⁻¹ i j • samples.getD j 0)

end Simplex
end NS
