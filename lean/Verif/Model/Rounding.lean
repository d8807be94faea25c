import Mathlib.Data.Int.Log
import Verif.Model.Curve

/-!
# Floating point arithmetic

The standard model of rounded arithmetic: an operation returns the rounded exact result.  A
rounding is monotone, odd and idempotent, fixes one, and has a relative error of at most `unit`.
Overflow, underflow, infinities and NaN are not modelled: the exponent range is unlimited.
`binaryRnd p` is rounding to nearest, ties to even, with `p` significant bits; `p = 53` and `p = 24`
are the `double` and `float` of the library's template argument `_Scalar`.
-/

set_option linter.unusedSectionVars false

namespace NS

/-- A rounding function with unit roundoff `unit`. -/
structure Rounding (K : Type) [Field K] [LinearOrder K] [IsStrictOrderedRing K] where
  rnd : K → K
  unit : K
  unit_nonneg : 0 ≤ unit
  near : ∀ x, |rnd x - x| ≤ unit * |x|
  mono : ∀ x y, x ≤ y → rnd x ≤ rnd y
  odd : ∀ x, rnd (-x) = -rnd x
  idem : ∀ x, rnd (rnd x) = rnd x
  one : rnd 1 = 1

/-- How the compiler evaluates `s * a + r * b`: with two products and a sum, or with the sum fused
with one of the products (floating point contraction). -/
inductive Fuse
  | none | first | second
  deriving DecidableEq, Repr

namespace Rounding

variable {K : Type} [Field K] [LinearOrder K] [IsStrictOrderedRing K]

/-- `s * a + r * b` in floating point. -/
def combine (R : Rounding K) (f : Fuse) (s a r b : K) : K :=
  match f with
  | .none => R.rnd (R.rnd (s * a) + R.rnd (r * b))
  | .first => R.rnd (s * a + R.rnd (r * b))
  | .second => R.rnd (R.rnd (s * a) + r * b)

/-- A number of the floating point format. -/
def IsFloat (R : Rounding K) (x : K) : Prop := R.rnd x = x

/-- Exact arithmetic as a rounding. -/
def exact : Rounding K where
  rnd x := x
  unit := 0
  unit_nonneg := le_rfl
  near x := by simp
  mono _ _ h := h
  odd _ := rfl
  idem _ := rfl
  one := rfl

end Rounding

/-! ### Binary formats -/

section Binary

variable {K : Type} [Field K] [LinearOrder K] [IsStrictOrderedRing K] [FloorRing K]

/-- Rounding to the nearest integer, ties to even. -/
def roundEven (x : K) : ℤ :=
  if x - ⌊x⌋ < 1 / 2 then ⌊x⌋
  else if 1 / 2 < x - ⌊x⌋ then ⌊x⌋ + 1
  else if ⌊x⌋ % 2 = 0 then ⌊x⌋ else ⌊x⌋ + 1

/-- The spacing of the `p`-bit numbers around `x ≠ 0`. -/
def ulp (p : ℕ) (x : K) : K := 2 ^ (Int.log 2 |x| - (p : ℤ) + 1)

/-- Rounding to `p` significant bits, ties to even. -/
def binaryRnd (p : ℕ) (x : K) : K := (roundEven (x / ulp p x) : K) * ulp p x

end Binary

end NS
