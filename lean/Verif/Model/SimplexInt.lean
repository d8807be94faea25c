import Verif.Model.Simplex

/-!
# `include/nanospline/BezierSimplex.h` with machine integers

The functions of `Verif.Model.Simplex` with the integer types of the source: `uint8_t` for the
dimension, the degree and the entries of multi-indices, `size_t` of 64 bits for the number of
control points, `int` of 32 bits for the factorials.  Unsigned arithmetic wraps around; an `int`
overflow, which makes the constant expression `factorials` ill-formed, and a loop that does not end
are the outcome `ub`.
-/

namespace NS
namespace Simplex

open Outcome

/-- Conversion to `uint8_t` (parameters of BezierSimplex.h:20, 53-54, 60, 70). -/
def u8 (x : ℕ) : ℕ := x % 2 ^ 8

/-- Conversion to `size_t` (BezierSimplex.h:22, 25). -/
def u64 (x : ℕ) : ℕ := x % 2 ^ 64

/-- `internal::choose` (BezierSimplex.h:20-29): the parameters are converted to `uint8_t`, the
product wraps around at `2^64`.  `n - r` is an `int`: for `r > n` both the comparison and the loop
see a negative number, here `0`. -/
def chooseM (n r : ℕ) : ℕ :=
  let n := u8 n
  let r := u8 r
  let r := if n - r > r then n - r else r
  (List.range (n - r)).foldl (fun accum x => u64 (accum * (r + (x + 1))) / (x + 1)) 1

/-- `internal::factorial<N>` (BezierSimplex.h:34-43): a product that does not fit `int` has no
defined value. -/
def factorialsM (N : ℕ) : Outcome (List ℕ) := do
  let result := List.replicate (N + 1) 0
  let result ← wr result 0 1
  forUp 1 (N + 1) (fun i result => do
    let x ← rd result (i - 1)
    Outcome.assert (x * i < 2 ^ 31)
    wr result i (x * i)) result

/-- `internal::generate_multi_indices` (BezierSimplex.h:52-79).  The arguments of `choose` are
converted to `uint8_t`; the condition `d <= degree` of the loop over the `uint8_t` variable `d` is
always true for the degree 255, then the loop does not end. -/
def generateMultiIndicesM : ℕ → ℕ → List (List ℕ) → Outcome (List (List ℕ))
  | 0, degree, g => do
    Outcome.assert (g.length = chooseM (0 + degree) degree)
    pure (g.map fun _ => [degree])
  | s + 1, degree, g => do
    Outcome.assert (g.length = chooseM (s + 1 + degree) degree)
    Outcome.assert (degree < 255)
    let r ← loop (degree + 1) (fun d (st : ℕ × List (List ℕ)) => do
      let (count, g) := st
      let m := chooseM (u8 (s + 1 + d - 1)) d
      let block ← seg g count m
      let layer ← generateMultiIndicesM s d (block.map List.tail)
      let g ← wrSeg g count (layer.map fun row => u8 (degree - d) :: row)
      pure (u64 (count + layer.length), g)) (0, g)
    pure r.2

/-- `m_num_control_points` (BezierSimplex.h:115-116). -/
def numControlPointsM (s d : ℕ) : ℕ := chooseM (d + s) s

/-- The filled local variable `multi_indices` (e.g. BezierSimplex.h:271-272). -/
def multiIndicesM (s d : ℕ) : Outcome (List (List ℕ)) :=
  generateMultiIndicesM s d (List.replicate (numControlPointsM s d) (List.replicate (s + 1) 0))

variable {K : Type} [Field K] {V : Type} [AddCommGroup V] [Module K V]

/-- `get_control_points` (BezierSimplex.h:149-158). -/
def getControlPointsM (K : Type) [Field K] (s d : ℕ) : Outcome (List (List K)) :=
  if d = 0 then
    pure (List.replicate (numControlPointsM s d) (List.replicate (s + 1) (0 : K)))
  else do
    let idx ← multiIndicesM s d
    pure (idx.map fun row => row.map fun a : ℕ => (a : K) / (d : K))

/-- `evaluate_bernstein` (BezierSimplex.h:360-370). -/
def evaluateBernsteinM (s d : ℕ) (idx : List ℕ) (b : List K) : Outcome K := do
  let fact ← factorialsM d
  let c ← rd fact d
  loop (s + 1) (fun j (coeff : K) => do
    let a ← rd idx j
    let f ← rd fact a
    let x ← rd b j
    pure (coeff / (f : K) * x ^ a)) (c : K)

/-- `evaluate_bernstein_derivative` (BezierSimplex.h:381-390). -/
def evaluateBernsteinDerivativeM (s d : ℕ) (idx : List ℕ) (b : List K) (axis : ℕ) :
    Outcome K := do
  let a ← rd idx axis
  if a = 0 then pure 0
  else do
    let idx ← wr idx axis (a - 1)
    evaluateBernsteinM s d idx b

/-- `evaluate` (BezierSimplex.h:265-283). -/
def evaluateM (s d : ℕ) (ordinates : List V) (b : List K) : Outcome V := do
  throwIf (ordinates.length ≠ numControlPointsM s d) .runtimeError
  let idx ← multiIndicesM s d
  loop (numControlPointsM s d) (fun i (result : V) => do
    let row ← rd idx i
    let coeff ← evaluateBernsteinM s d row b
    let o ← rd ordinates i
    pure (result + coeff • o)) 0

/-- `evaluate_directional_derivative` (BezierSimplex.h:295-317). -/
def evaluateDirectionalDerivativeM (s d : ℕ) (ordinates : List V) (b dir : List K) :
    Outcome V := do
  throwIf (ordinates.length ≠ numControlPointsM s d) .runtimeError
  let idx ← multiIndicesM s d
  loop (numControlPointsM s d) (fun i (result : V) => do
    let row ← rd idx i
    let coeff ← loop (s + 1) (fun j (coeff : K) => do
      let e ← evaluateBernsteinDerivativeM s d row b j
      let x ← rd dir j
      pure (coeff + e * x)) 0
    let o ← rd ordinates i
    pure (result + coeff • o)) 0

/-- `elevate_degree` (BezierSimplex.h:210-254): `multi_index[k]++` wraps around. -/
def elevateDegreeM (K : Type) [Field K] {V : Type} [AddCommGroup V] [Module K V] (s d : ℕ)
    (ordinates : List V) : Outcome (List V) := do
  let elevated ← multiIndicesM s (d + 1)
  let idx ← multiIndicesM s d
  tab (numControlPointsM s (d + 1)) (fun i => do
    let e ← rd elevated i
    let o ← loop (numControlPointsM s d) (fun j (o : V) => do
      let row ← rd idx j
      loop (s + 1) (fun k (o : V) => do
        let a ← rd row k
        let row ← wr row k (u8 (a + 1))
        if row = e then do
          let p ← rd ordinates j
          let c ← rd e k
          pure (o + (c : K) • p)
        else pure o) o) 0
    pure ((((d + 1 : ℕ) : K))⁻¹ • o))

end Simplex
end NS
