import Mathlib.Algebra.Ring.Defs
import Mathlib.Algebra.BigOperators.Group.List.Defs
import Mathlib.Data.Int.Cast.Basic

/-!
# The generated polynomials of `internal/auto_*.h` for rational Bezier curves

Transcribed from the headers by a script.  The long sums are tables: `pos c v` and `neg c v` are the
terms `+ c * ...` and `- c * ...`, with one hexadecimal digit of `v` for each factor (a `pow(w, k)` counts as
`k` factors): digits `1` to `5` are `cx0` to `cx4`, digits `6` to `a` are `cy0` to `cy4`, digits
`b` to `f` are `w0` to `w4`.
-/

namespace NS
namespace Features

/-- A term of a generated sum: coefficient and factors. -/
structure Term where
  c : ℤ
  v : ℕ

/-- The term `+ c * ...`. -/
def pos (c v : ℕ) : Term := ⟨c, v⟩

/-- The term `- c * ...`. -/
def neg (c v : ℕ) : Term := ⟨-c, v⟩

/-- The hexadecimal digits of `v`, last first; no table has more than eight. -/
def digits : ℕ → ℕ → List ℕ
  | 0, _ => []
  | f + 1, v => if v = 0 then [] else v % 16 :: digits f (v / 16)

section

variable {K : Type} [CommRing K]

/-- The variable of a digit. -/
def var (x y w : ℕ → K) (d : ℕ) : K :=
  if d ≤ 5 then x (d - 1) else if d ≤ 10 then y (d - 6) else w (d - 11)

/-- The value of a table. -/
def sum (x y w : ℕ → K) (l : List Term) : K :=
  (l.map fun m => (m.c : K) * ((digits 8 m.v).map (var x y w)).prod).sum

/-- `match_tangent_RationalBezier_degree_2`, auto_match_tangent_RationalBezier.h:18-33: the coefficients passed to the finder of degree 1. -/
def ratTangent2 (x y _w : ℕ → K) (tx ty : K) : List K :=
  [-2 * x 0 * tx + 2 * x 1 * tx - 2 * y 0 * ty + 2 * y 1 * ty,
   2 * x 0 * tx - 4 * x 1 * tx + 2 * x 2 * tx + 2 * y 0 * ty - 4 * y 1 * ty + 2 * y 2 * ty]

/-- `match_tangent_RationalBezier_degree_3`, auto_match_tangent_RationalBezier.h:41-57: the coefficients passed to the finder of degree 2. -/
def ratTangent3 (x y _w : ℕ → K) (tx ty : K) : List K :=
  [-3 * x 0 * tx + 3 * x 1 * tx - 3 * y 0 * ty + 3 * y 1 * ty,
   6 * x 0 * tx - 12 * x 1 * tx + 6 * x 2 * tx + 6 * y 0 * ty - 12 * y 1 * ty + 6 * y 2 * ty,
   -3 * x 0 * tx + 9 * x 1 * tx - 9 * x 2 * tx + 3 * x 3 * tx - 3 * y 0 * ty + 9 * y 1 * ty - 9 *
    y 2 * ty + 3 * y 3 * ty]

/-- `match_tangent_RationalBezier_degree_4`, auto_match_tangent_RationalBezier.h:65-82: the coefficients passed to the finder of degree 3. -/
def ratTangent4 (x y _w : ℕ → K) (tx ty : K) : List K :=
  [-4 * x 0 * tx + 4 * x 1 * tx - 4 * y 0 * ty + 4 * y 1 * ty,
   12 * x 0 * tx - 24 * x 1 * tx + 12 * x 2 * tx + 12 * y 0 * ty - 24 * y 1 * ty + 12 * y 2 * ty,
   -12 * x 0 * tx + 36 * x 1 * tx - 36 * x 2 * tx + 12 * x 3 * tx - 12 * y 0 * ty + 36 * y 1 * ty -
    36 * y 2 * ty + 12 * y 3 * ty,
   4 * x 0 * tx - 16 * x 1 * tx + 24 * x 2 * tx - 16 * x 3 * tx + 4 * x 4 * tx + 4 * y 0 * ty - 16
    * y 1 * ty + 24 * y 2 * ty - 16 * y 3 * ty + 4 * y 4 * ty]

/-- Coefficient 0 of `compute_RationalBezier_degree_2_inflections`, auto_inflection_RationalBezier.h:27. -/
def ratInflection2_0 : List Term :=
  [neg 4 0x17bbbcd, pos 4 0x18bbbcd, pos 4 0x26bbbcd, neg 4 0x28bbbcd, neg 4 0x36bbbcd,
   pos 4 0x37bbbcd]

/-- Coefficient 1 of `compute_RationalBezier_degree_2_inflections`, auto_inflection_RationalBezier.h:28. -/
def ratInflection2_1 : List Term :=
  [pos 16 0x17bbbcd, neg 16 0x17bbccd, neg 16 0x18bbbcd, pos 16 0x18bbccd, neg 16 0x26bbbcd,
   pos 16 0x26bbccd, pos 16 0x28bbbcd, neg 16 0x28bbccd, pos 16 0x36bbbcd, neg 16 0x36bbccd,
   neg 16 0x37bbbcd, pos 16 0x37bbccd]

/-- Coefficient 2 of `compute_RationalBezier_degree_2_inflections`, auto_inflection_RationalBezier.h:29. -/
def ratInflection2_2 : List Term :=
  [neg 24 0x17bbbcd, pos 48 0x17bbccd, neg 8 0x17bbcdd, neg 16 0x17bcccd, pos 24 0x18bbbcd,
   neg 48 0x18bbccd, pos 8 0x18bbcdd, pos 16 0x18bcccd, pos 24 0x26bbbcd, neg 48 0x26bbccd,
   pos 8 0x26bbcdd, pos 16 0x26bcccd, neg 24 0x28bbbcd, pos 48 0x28bbccd, neg 8 0x28bbcdd,
   neg 16 0x28bcccd, neg 24 0x36bbbcd, pos 48 0x36bbccd, neg 8 0x36bbcdd, neg 16 0x36bcccd,
   pos 24 0x37bbbcd, neg 48 0x37bbccd, pos 8 0x37bbcdd, pos 16 0x37bcccd]

/-- Coefficient 3 of `compute_RationalBezier_degree_2_inflections`, auto_inflection_RationalBezier.h:30. -/
def ratInflection2_3 : List Term :=
  [pos 16 0x17bbbcd, neg 48 0x17bbccd, pos 16 0x17bbcdd, pos 32 0x17bcccd, neg 16 0x17bccdd,
   neg 16 0x18bbbcd, pos 48 0x18bbccd, neg 16 0x18bbcdd, neg 32 0x18bcccd, pos 16 0x18bccdd,
   neg 16 0x26bbbcd, pos 48 0x26bbccd, neg 16 0x26bbcdd, neg 32 0x26bcccd, pos 16 0x26bccdd,
   pos 16 0x28bbbcd, neg 48 0x28bbccd, pos 16 0x28bbcdd, pos 32 0x28bcccd, neg 16 0x28bccdd,
   pos 16 0x36bbbcd, neg 48 0x36bbccd, pos 16 0x36bbcdd, pos 32 0x36bcccd, neg 16 0x36bccdd,
   neg 16 0x37bbbcd, pos 48 0x37bbccd, neg 16 0x37bbcdd, neg 32 0x37bcccd, pos 16 0x37bccdd]

/-- Coefficient 4 of `compute_RationalBezier_degree_2_inflections`, auto_inflection_RationalBezier.h:31. -/
def ratInflection2_4 : List Term :=
  [neg 4 0x17bbbcd, pos 16 0x17bbccd, neg 8 0x17bbcdd, neg 16 0x17bcccd, pos 16 0x17bccdd,
   neg 4 0x17bcddd, pos 4 0x18bbbcd, neg 16 0x18bbccd, pos 8 0x18bbcdd, pos 16 0x18bcccd,
   neg 16 0x18bccdd, pos 4 0x18bcddd, pos 4 0x26bbbcd, neg 16 0x26bbccd, pos 8 0x26bbcdd,
   pos 16 0x26bcccd, neg 16 0x26bccdd, pos 4 0x26bcddd, neg 4 0x28bbbcd, pos 16 0x28bbccd,
   neg 8 0x28bbcdd, neg 16 0x28bcccd, pos 16 0x28bccdd, neg 4 0x28bcddd, neg 4 0x36bbbcd,
   pos 16 0x36bbccd, neg 8 0x36bbcdd, neg 16 0x36bcccd, pos 16 0x36bccdd, neg 4 0x36bcddd,
   pos 4 0x37bbbcd, neg 16 0x37bbccd, pos 8 0x37bbcdd, pos 16 0x37bcccd, neg 16 0x37bccdd,
   pos 4 0x37bcddd]

/-- `compute_RationalBezier_degree_2_inflections`, auto_inflection_RationalBezier.h:18-32: the coefficients passed to the finder of degree 4. -/
def ratInflection2 (x y w : ℕ → K) : List K :=
  [ratInflection2_0, ratInflection2_1, ratInflection2_2, ratInflection2_3, ratInflection2_4].map fun l => sum x y w l

/-- Coefficient 0 of `compute_RationalBezier_degree_3_inflections`, auto_inflection_RationalBezier.h:49. -/
def ratInflection3_0 : List Term :=
  [neg 18 0x17bbbcd, pos 18 0x18bbbcd, pos 18 0x26bbbcd, neg 18 0x28bbbcd, neg 18 0x36bbbcd,
   pos 18 0x37bbbcd]

/-- Coefficient 1 of `compute_RationalBezier_degree_3_inflections`, auto_inflection_RationalBezier.h:50. -/
def ratInflection3_1 : List Term :=
  [pos 162 0x17bbbcd, neg 18 0x17bbbce, neg 108 0x17bbccd, neg 162 0x18bbbcd, pos 108 0x18bbccd,
   pos 18 0x19bbbce, neg 162 0x26bbbcd, pos 18 0x26bbbce, pos 108 0x26bbccd, pos 162 0x28bbbcd,
   neg 108 0x28bbccd, neg 18 0x29bbbce, pos 162 0x36bbbcd, neg 108 0x36bbccd, neg 162 0x37bbbcd,
   pos 108 0x37bbccd, neg 18 0x46bbbce, pos 18 0x47bbbce]

/-- Coefficient 2 of `compute_RationalBezier_degree_3_inflections`, auto_inflection_RationalBezier.h:51. -/
def ratInflection3_2 : List Term :=
  [neg 648 0x17bbbcd, pos 144 0x17bbbce, pos 864 0x17bbccd, neg 108 0x17bbcce, neg 108 0x17bbcdd,
   neg 162 0x17bcccd, pos 648 0x18bbbcd, neg 18 0x18bbbde, neg 864 0x18bbccd, pos 108 0x18bbcdd,
   pos 162 0x18bcccd, neg 144 0x19bbbce, pos 18 0x19bbbde, pos 108 0x19bbcce, pos 648 0x26bbbcd,
   neg 144 0x26bbbce, neg 864 0x26bbccd, pos 108 0x26bbcce, pos 108 0x26bbcdd, pos 162 0x26bcccd,
   neg 648 0x28bbbcd, pos 864 0x28bbccd, neg 108 0x28bbcdd, neg 162 0x28bcccd, pos 144 0x29bbbce,
   neg 108 0x29bbcce, neg 648 0x36bbbcd, pos 18 0x36bbbde, pos 864 0x36bbccd, neg 108 0x36bbcdd,
   neg 162 0x36bcccd, pos 648 0x37bbbcd, neg 864 0x37bbccd, pos 108 0x37bbcdd, pos 162 0x37bcccd,
   neg 18 0x39bbbde, pos 144 0x46bbbce, neg 18 0x46bbbde, neg 108 0x46bbcce, neg 144 0x47bbbce,
   pos 108 0x47bbcce, pos 18 0x48bbbde]

/-- Coefficient 3 of `compute_RationalBezier_degree_3_inflections`, auto_inflection_RationalBezier.h:52. -/
def ratInflection3_3 : List Term :=
  [pos 1512 0x17bbbcd, neg 504 0x17bbbce, neg 3024 0x17bbccd, pos 756 0x17bbcce, pos 756 0x17bbcdd,
   neg 144 0x17bbcde, pos 1134 0x17bcccd, neg 162 0x17bccce, neg 324 0x17bccdd, neg 1512 0x18bbbcd,
   pos 126 0x18bbbde, pos 3024 0x18bbccd, neg 756 0x18bbcdd, neg 72 0x18bbcde, neg 1134 0x18bcccd,
   pos 324 0x18bccdd, pos 504 0x19bbbce, neg 126 0x19bbbde, neg 756 0x19bbcce, pos 216 0x19bbcde,
   pos 162 0x19bccce, neg 1512 0x26bbbcd, pos 504 0x26bbbce, pos 3024 0x26bbccd, neg 756 0x26bbcce,
   neg 756 0x26bbcdd, pos 144 0x26bbcde, neg 1134 0x26bcccd, pos 162 0x26bccce, pos 324 0x26bccdd,
   pos 1512 0x28bbbcd, neg 3024 0x28bbccd, pos 756 0x28bbcdd, neg 54 0x28bbcde, pos 1134 0x28bcccd,
   neg 324 0x28bccdd, neg 504 0x29bbbce, pos 756 0x29bbcce, neg 90 0x29bbcde, neg 162 0x29bccce,
   pos 1512 0x36bbbcd, neg 126 0x36bbbde, neg 3024 0x36bbccd, pos 756 0x36bbcdd, pos 72 0x36bbcde,
   pos 1134 0x36bcccd, neg 324 0x36bccdd, neg 1512 0x37bbbcd, pos 3024 0x37bbccd,
   neg 756 0x37bbcdd, pos 54 0x37bbcde, neg 1134 0x37bcccd, pos 324 0x37bccdd, pos 126 0x39bbbde,
   neg 126 0x39bbcde, neg 504 0x46bbbce, pos 126 0x46bbbde, pos 756 0x46bbcce, neg 216 0x46bbcde,
   neg 162 0x46bccce, pos 504 0x47bbbce, neg 756 0x47bbcce, pos 90 0x47bbcde, pos 162 0x47bccce,
   neg 126 0x48bbbde, pos 126 0x48bbcde]

/-- Coefficient 4 of `compute_RationalBezier_degree_3_inflections`, auto_inflection_RationalBezier.h:53. -/
def ratInflection3_4 : List Term :=
  [neg 2268 0x17bbbcd, pos 1008 0x17bbbce, pos 6048 0x17bbccd, neg 2268 0x17bbcce,
   neg 2268 0x17bbcdd, pos 864 0x17bbcde, neg 36 0x17bbcee, neg 3402 0x17bcccd, pos 972 0x17bccce,
   pos 1944 0x17bccdd, neg 432 0x17bccde, neg 162 0x17bcddd, pos 2268 0x18bbbcd, neg 378 0x18bbbde,
   neg 6048 0x18bbccd, pos 2268 0x18bbcdd, pos 432 0x18bbcde, neg 108 0x18bbdde,
   pos 3402 0x18bcccd, neg 1944 0x18bccdd, neg 54 0x18bccde, pos 162 0x18bcddd, neg 1008 0x19bbbce,
   pos 378 0x19bbbde, pos 2268 0x19bbcce, neg 1296 0x19bbcde, pos 36 0x19bbcee, pos 108 0x19bbdde,
   neg 972 0x19bccce, pos 486 0x19bccde, pos 2268 0x26bbbcd, neg 1008 0x26bbbce,
   neg 6048 0x26bbccd, pos 2268 0x26bbcce, pos 2268 0x26bbcdd, neg 864 0x26bbcde, pos 36 0x26bbcee,
   pos 3402 0x26bcccd, neg 972 0x26bccce, neg 1944 0x26bccdd, pos 432 0x26bccde, pos 162 0x26bcddd,
   neg 2268 0x28bbbcd, pos 6048 0x28bbccd, neg 2268 0x28bbcdd, pos 324 0x28bbcde,
   neg 3402 0x28bcccd, pos 1944 0x28bccdd, neg 216 0x28bccde, neg 162 0x28bcddd,
   pos 1008 0x29bbbce, neg 2268 0x29bbcce, pos 540 0x29bbcde, neg 36 0x29bbcee, pos 972 0x29bccce,
   neg 216 0x29bccde, neg 2268 0x36bbbcd, pos 378 0x36bbbde, pos 6048 0x36bbccd,
   neg 2268 0x36bbcdd, neg 432 0x36bbcde, pos 108 0x36bbdde, neg 3402 0x36bcccd,
   pos 1944 0x36bccdd, pos 54 0x36bccde, neg 162 0x36bcddd, pos 2268 0x37bbbcd, neg 6048 0x37bbccd,
   pos 2268 0x37bbcdd, neg 324 0x37bbcde, pos 3402 0x37bcccd, neg 1944 0x37bccdd,
   pos 216 0x37bccde, pos 162 0x37bcddd, neg 378 0x39bbbde, pos 756 0x39bbcde, neg 108 0x39bbdde,
   neg 270 0x39bccde, pos 1008 0x46bbbce, neg 378 0x46bbbde, neg 2268 0x46bbcce,
   pos 1296 0x46bbcde, neg 36 0x46bbcee, neg 108 0x46bbdde, pos 972 0x46bccce, neg 486 0x46bccde,
   neg 1008 0x47bbbce, pos 2268 0x47bbcce, neg 540 0x47bbcde, pos 36 0x47bbcee, neg 972 0x47bccce,
   pos 216 0x47bccde, pos 378 0x48bbbde, neg 756 0x48bbcde, pos 108 0x48bbdde, pos 270 0x48bccde]

/-- Coefficient 5 of `compute_RationalBezier_degree_3_inflections`, auto_inflection_RationalBezier.h:54. -/
def ratInflection3_5 : List Term :=
  [pos 2268 0x17bbbcd, neg 1260 0x17bbbce, neg 7560 0x17bbccd, pos 3780 0x17bbcce,
   pos 3780 0x17bbcdd, neg 2160 0x17bbcde, pos 180 0x17bbcee, pos 5670 0x17bcccd,
   neg 2430 0x17bccce, neg 4860 0x17bccdd, pos 2160 0x17bccde, neg 108 0x17bccee,
   pos 810 0x17bcddd, neg 270 0x17bcdde, neg 2268 0x18bbbcd, pos 630 0x18bbbde, pos 7560 0x18bbccd,
   neg 3780 0x18bbcdd, neg 1080 0x18bbcde, pos 540 0x18bbdde, neg 36 0x18bbdee, neg 5670 0x18bcccd,
   pos 4860 0x18bccdd, pos 270 0x18bccde, neg 810 0x18bcddd, neg 216 0x18bcdde, pos 1260 0x19bbbce,
   neg 630 0x19bbbde, neg 3780 0x19bbcce, pos 3240 0x19bbcde, neg 180 0x19bbcee, neg 540 0x19bbdde,
   pos 36 0x19bbdee, pos 2430 0x19bccce, neg 2430 0x19bccde, pos 108 0x19bccee, pos 486 0x19bcdde,
   neg 2268 0x26bbbcd, pos 1260 0x26bbbce, pos 7560 0x26bbccd, neg 3780 0x26bbcce,
   neg 3780 0x26bbcdd, pos 2160 0x26bbcde, neg 180 0x26bbcee, neg 5670 0x26bcccd,
   pos 2430 0x26bccce, pos 4860 0x26bccdd, neg 2160 0x26bccde, pos 108 0x26bccee,
   neg 810 0x26bcddd, pos 270 0x26bcdde, pos 2268 0x28bbbcd, neg 7560 0x28bbccd,
   pos 3780 0x28bbcdd, neg 810 0x28bbcde, pos 5670 0x28bcccd, neg 4860 0x28bccdd,
   pos 1080 0x28bccde, pos 810 0x28bcddd, neg 216 0x28bcdde, neg 162 0x28cccde, neg 1260 0x29bbbce,
   pos 3780 0x29bbcce, neg 1350 0x29bbcde, pos 180 0x29bbcee, neg 2430 0x29bccce,
   pos 1080 0x29bccde, neg 108 0x29bccee, neg 54 0x29bcdde, pos 162 0x29cccde, pos 2268 0x36bbbcd,
   neg 630 0x36bbbde, neg 7560 0x36bbccd, pos 3780 0x36bbcdd, pos 1080 0x36bbcde,
   neg 540 0x36bbdde, pos 36 0x36bbdee, pos 5670 0x36bcccd, neg 4860 0x36bccdd, neg 270 0x36bccde,
   pos 810 0x36bcddd, pos 216 0x36bcdde, neg 2268 0x37bbbcd, pos 7560 0x37bbccd,
   neg 3780 0x37bbcdd, pos 810 0x37bbcde, neg 5670 0x37bcccd, pos 4860 0x37bccdd,
   neg 1080 0x37bccde, neg 810 0x37bcddd, pos 216 0x37bcdde, pos 162 0x37cccde, pos 630 0x39bbbde,
   neg 1890 0x39bbcde, pos 540 0x39bbdde, neg 36 0x39bbdee, pos 1350 0x39bccde, neg 432 0x39bcdde,
   neg 162 0x39cccde, neg 1260 0x46bbbce, pos 630 0x46bbbde, pos 3780 0x46bbcce,
   neg 3240 0x46bbcde, pos 180 0x46bbcee, pos 540 0x46bbdde, neg 36 0x46bbdee, neg 2430 0x46bccce,
   pos 2430 0x46bccde, neg 108 0x46bccee, neg 486 0x46bcdde, pos 1260 0x47bbbce,
   neg 3780 0x47bbcce, pos 1350 0x47bbcde, neg 180 0x47bbcee, pos 2430 0x47bccce,
   neg 1080 0x47bccde, pos 108 0x47bccee, pos 54 0x47bcdde, neg 162 0x47cccde, neg 630 0x48bbbde,
   pos 1890 0x48bbcde, neg 540 0x48bbdde, pos 36 0x48bbdee, neg 1350 0x48bccde, pos 432 0x48bcdde,
   pos 162 0x48cccde]

/-- Coefficient 6 of `compute_RationalBezier_degree_3_inflections`, auto_inflection_RationalBezier.h:55. -/
def ratInflection3_6 : List Term :=
  [neg 1512 0x17bbbcd, pos 1008 0x17bbbce, pos 6048 0x17bbccd, neg 3780 0x17bbcce,
   neg 3780 0x17bbcdd, pos 2880 0x17bbcde, neg 360 0x17bbcee, neg 5670 0x17bcccd,
   pos 3240 0x17bccce, pos 6480 0x17bccdd, neg 4320 0x17bccde, pos 432 0x17bccee,
   neg 1620 0x17bcddd, pos 1080 0x17bcdde, neg 126 0x17bcdee, pos 1512 0x18bbbcd,
   neg 630 0x18bbbde, neg 6048 0x18bbccd, pos 3780 0x18bbcdd, pos 1440 0x18bbcde,
   neg 1080 0x18bbdde, pos 144 0x18bbdee, pos 5670 0x18bcccd, neg 6480 0x18bccdd,
   neg 540 0x18bccde, pos 1620 0x18bcddd, pos 864 0x18bcdde, neg 90 0x18bcdee, neg 162 0x18bddde,
   neg 1008 0x19bbbce, pos 630 0x19bbbde, pos 3780 0x19bbcce, neg 4320 0x19bbcde,
   pos 360 0x19bbcee, pos 1080 0x19bbdde, neg 144 0x19bbdee, neg 3240 0x19bccce,
   pos 4860 0x19bccde, neg 432 0x19bccee, neg 1944 0x19bcdde, pos 216 0x19bcdee, pos 162 0x19bddde,
   pos 1512 0x26bbbcd, neg 1008 0x26bbbce, neg 6048 0x26bbccd, pos 3780 0x26bbcce,
   pos 3780 0x26bbcdd, neg 2880 0x26bbcde, pos 360 0x26bbcee, pos 5670 0x26bcccd,
   neg 3240 0x26bccce, neg 6480 0x26bccdd, pos 4320 0x26bccde, neg 432 0x26bccee,
   pos 1620 0x26bcddd, neg 1080 0x26bcdde, pos 126 0x26bcdee, neg 1512 0x28bbbcd,
   pos 6048 0x28bbccd, neg 3780 0x28bbcdd, pos 1080 0x28bbcde, neg 5670 0x28bcccd,
   pos 6480 0x28bccdd, neg 2160 0x28bccde, neg 1620 0x28bcddd, pos 864 0x28bcdde, neg 54 0x28bcdee,
   pos 648 0x28cccde, neg 324 0x28ccdde, pos 1008 0x29bbbce, neg 3780 0x29bbcce,
   pos 1800 0x29bbcde, neg 360 0x29bbcee, pos 3240 0x29bccce, neg 2160 0x29bccde,
   pos 432 0x29bccee, pos 216 0x29bcdde, neg 72 0x29bcdee, neg 648 0x29cccde, pos 324 0x29ccdde,
   neg 1512 0x36bbbcd, pos 630 0x36bbbde, pos 6048 0x36bbccd, neg 3780 0x36bbcdd,
   neg 1440 0x36bbcde, pos 1080 0x36bbdde, neg 144 0x36bbdee, neg 5670 0x36bcccd,
   pos 6480 0x36bccdd, pos 540 0x36bccde, neg 1620 0x36bcddd, neg 864 0x36bcdde, pos 90 0x36bcdee,
   pos 162 0x36bddde, pos 1512 0x37bbbcd, neg 6048 0x37bbccd, pos 3780 0x37bbcdd,
   neg 1080 0x37bbcde, pos 5670 0x37bcccd, neg 6480 0x37bccdd, pos 2160 0x37bccde,
   pos 1620 0x37bcddd, neg 864 0x37bcdde, pos 54 0x37bcdee, neg 648 0x37cccde, pos 324 0x37ccdde,
   neg 630 0x39bbbde, pos 2520 0x39bbcde, neg 1080 0x39bbdde, pos 144 0x39bbdee,
   neg 2700 0x39bccde, pos 1728 0x39bcdde, neg 144 0x39bcdee, neg 162 0x39bddde, pos 648 0x39cccde,
   neg 324 0x39ccdde, pos 1008 0x46bbbce, neg 630 0x46bbbde, neg 3780 0x46bbcce,
   pos 4320 0x46bbcde, neg 360 0x46bbcee, neg 1080 0x46bbdde, pos 144 0x46bbdee,
   pos 3240 0x46bccce, neg 4860 0x46bccde, pos 432 0x46bccee, pos 1944 0x46bcdde,
   neg 216 0x46bcdee, neg 162 0x46bddde, neg 1008 0x47bbbce, pos 3780 0x47bbcce,
   neg 1800 0x47bbcde, pos 360 0x47bbcee, neg 3240 0x47bccce, pos 2160 0x47bccde,
   neg 432 0x47bccee, neg 216 0x47bcdde, pos 72 0x47bcdee, pos 648 0x47cccde, neg 324 0x47ccdde,
   pos 630 0x48bbbde, neg 2520 0x48bbcde, pos 1080 0x48bbdde, neg 144 0x48bbdee,
   pos 2700 0x48bccde, neg 1728 0x48bcdde, pos 144 0x48bcdee, pos 162 0x48bddde, neg 648 0x48cccde,
   pos 324 0x48ccdde]

/-- Coefficient 7 of `compute_RationalBezier_degree_3_inflections`, auto_inflection_RationalBezier.h:56. -/
def ratInflection3_7 : List Term :=
  [pos 648 0x17bbbcd, neg 504 0x17bbbce, neg 3024 0x17bbccd, pos 2268 0x17bbcce,
   pos 2268 0x17bbcdd, neg 2160 0x17bbcde, pos 360 0x17bbcee, pos 3402 0x17bcccd,
   neg 2430 0x17bccce, neg 4860 0x17bccdd, pos 4320 0x17bccde, neg 648 0x17bccee,
   pos 1620 0x17bcddd, neg 1620 0x17bcdde, pos 378 0x17bcdee, neg 18 0x17bceee, neg 648 0x18bbbcd,
   pos 378 0x18bbbde, pos 3024 0x18bbccd, neg 2268 0x18bbcdd, neg 1080 0x18bbcde,
   pos 1080 0x18bbdde, neg 216 0x18bbdee, neg 3402 0x18bcccd, pos 4860 0x18bccdd,
   pos 540 0x18bccde, neg 1620 0x18bcddd, neg 1296 0x18bcdde, pos 270 0x18bcdee, pos 486 0x18bddde,
   neg 108 0x18bddee, pos 504 0x19bbbce, neg 378 0x19bbbde, neg 2268 0x19bbcce, pos 3240 0x19bbcde,
   neg 360 0x19bbcee, neg 1080 0x19bbdde, pos 216 0x19bbdee, pos 2430 0x19bccce,
   neg 4860 0x19bccde, pos 648 0x19bccee, pos 2916 0x19bcdde, neg 648 0x19bcdee, pos 18 0x19bceee,
   neg 486 0x19bddde, pos 108 0x19bddee, neg 648 0x26bbbcd, pos 504 0x26bbbce, pos 3024 0x26bbccd,
   neg 2268 0x26bbcce, neg 2268 0x26bbcdd, pos 2160 0x26bbcde, neg 360 0x26bbcee,
   neg 3402 0x26bcccd, pos 2430 0x26bccce, pos 4860 0x26bccdd, neg 4320 0x26bccde,
   pos 648 0x26bccee, neg 1620 0x26bcddd, pos 1620 0x26bcdde, neg 378 0x26bcdee, pos 18 0x26bceee,
   pos 648 0x28bbbcd, neg 3024 0x28bbccd, pos 2268 0x28bbcdd, neg 810 0x28bbcde,
   pos 3402 0x28bcccd, neg 4860 0x28bccdd, pos 2160 0x28bccde, pos 1620 0x28bcddd,
   neg 1296 0x28bcdde, pos 162 0x28bcdee, neg 972 0x28cccde, pos 972 0x28ccdde, neg 108 0x28ccdee,
   neg 162 0x28cddde, neg 504 0x29bbbce, pos 2268 0x29bbcce, neg 1350 0x29bbcde, pos 360 0x29bbcee,
   neg 2430 0x29bccce, pos 2160 0x29bccde, neg 648 0x29bccee, neg 324 0x29bcdde, pos 216 0x29bcdee,
   neg 18 0x29bceee, pos 972 0x29cccde, neg 972 0x29ccdde, pos 108 0x29ccdee, pos 162 0x29cddde,
   pos 648 0x36bbbcd, neg 378 0x36bbbde, neg 3024 0x36bbccd, pos 2268 0x36bbcdd,
   pos 1080 0x36bbcde, neg 1080 0x36bbdde, pos 216 0x36bbdee, pos 3402 0x36bcccd,
   neg 4860 0x36bccdd, neg 540 0x36bccde, pos 1620 0x36bcddd, pos 1296 0x36bcdde,
   neg 270 0x36bcdee, neg 486 0x36bddde, pos 108 0x36bddee, neg 648 0x37bbbcd, pos 3024 0x37bbccd,
   neg 2268 0x37bbcdd, pos 810 0x37bbcde, neg 3402 0x37bcccd, pos 4860 0x37bccdd,
   neg 2160 0x37bccde, neg 1620 0x37bcddd, pos 1296 0x37bcdde, neg 162 0x37bcdee,
   pos 972 0x37cccde, neg 972 0x37ccdde, pos 108 0x37ccdee, pos 162 0x37cddde, pos 378 0x39bbbde,
   neg 1890 0x39bbcde, pos 1080 0x39bbdde, neg 216 0x39bbdee, pos 2700 0x39bccde,
   neg 2592 0x39bcdde, pos 432 0x39bcdee, pos 486 0x39bddde, neg 108 0x39bddee, neg 972 0x39cccde,
   pos 972 0x39ccdde, neg 108 0x39ccdee, neg 162 0x39cddde, neg 504 0x46bbbce, pos 378 0x46bbbde,
   pos 2268 0x46bbcce, neg 3240 0x46bbcde, pos 360 0x46bbcee, pos 1080 0x46bbdde,
   neg 216 0x46bbdee, neg 2430 0x46bccce, pos 4860 0x46bccde, neg 648 0x46bccee,
   neg 2916 0x46bcdde, pos 648 0x46bcdee, neg 18 0x46bceee, pos 486 0x46bddde, neg 108 0x46bddee,
   pos 504 0x47bbbce, neg 2268 0x47bbcce, pos 1350 0x47bbcde, neg 360 0x47bbcee,
   pos 2430 0x47bccce, neg 2160 0x47bccde, pos 648 0x47bccee, pos 324 0x47bcdde, neg 216 0x47bcdee,
   pos 18 0x47bceee, neg 972 0x47cccde, pos 972 0x47ccdde, neg 108 0x47ccdee, neg 162 0x47cddde,
   neg 378 0x48bbbde, pos 1890 0x48bbcde, neg 1080 0x48bbdde, pos 216 0x48bbdee,
   neg 2700 0x48bccde, pos 2592 0x48bcdde, neg 432 0x48bcdee, neg 486 0x48bddde, pos 108 0x48bddee,
   pos 972 0x48cccde, neg 972 0x48ccdde, pos 108 0x48ccdee, pos 162 0x48cddde]

/-- Coefficient 8 of `compute_RationalBezier_degree_3_inflections`, auto_inflection_RationalBezier.h:57. -/
def ratInflection3_8 : List Term :=
  [neg 162 0x17bbbcd, pos 144 0x17bbbce, pos 864 0x17bbccd, neg 756 0x17bbcce, neg 756 0x17bbcdd,
   pos 864 0x17bbcde, neg 180 0x17bbcee, neg 1134 0x17bcccd, pos 972 0x17bccce, pos 1944 0x17bccdd,
   neg 2160 0x17bccde, pos 432 0x17bccee, neg 810 0x17bcddd, pos 1080 0x17bcdde, neg 378 0x17bcdee,
   pos 36 0x17bceee, pos 162 0x18bbbcd, neg 126 0x18bbbde, neg 864 0x18bbccd, pos 756 0x18bbcdd,
   pos 432 0x18bbcde, neg 540 0x18bbdde, pos 144 0x18bbdee, pos 1134 0x18bcccd, neg 1944 0x18bccdd,
   neg 270 0x18bccde, pos 810 0x18bcddd, pos 864 0x18bcdde, neg 270 0x18bcdee, neg 486 0x18bddde,
   pos 216 0x18bddee, neg 18 0x18bdeee, neg 144 0x19bbbce, pos 126 0x19bbbde, pos 756 0x19bbcce,
   neg 1296 0x19bbcde, pos 180 0x19bbcee, pos 540 0x19bbdde, neg 144 0x19bbdee, neg 972 0x19bccce,
   pos 2430 0x19bccde, neg 432 0x19bccee, neg 1944 0x19bcdde, pos 648 0x19bcdee, neg 36 0x19bceee,
   pos 486 0x19bddde, neg 216 0x19bddee, pos 18 0x19bdeee, pos 162 0x26bbbcd, neg 144 0x26bbbce,
   neg 864 0x26bbccd, pos 756 0x26bbcce, pos 756 0x26bbcdd, neg 864 0x26bbcde, pos 180 0x26bbcee,
   pos 1134 0x26bcccd, neg 972 0x26bccce, neg 1944 0x26bccdd, pos 2160 0x26bccde,
   neg 432 0x26bccee, pos 810 0x26bcddd, neg 1080 0x26bcdde, pos 378 0x26bcdee, neg 36 0x26bceee,
   neg 162 0x28bbbcd, pos 864 0x28bbccd, neg 756 0x28bbcdd, pos 324 0x28bbcde, neg 1134 0x28bcccd,
   pos 1944 0x28bccdd, neg 1080 0x28bccde, neg 810 0x28bcddd, pos 864 0x28bcdde, neg 162 0x28bcdee,
   pos 648 0x28cccde, neg 972 0x28ccdde, pos 216 0x28ccdee, pos 324 0x28cddde, neg 108 0x28cddee,
   pos 144 0x29bbbce, neg 756 0x29bbcce, pos 540 0x29bbcde, neg 180 0x29bbcee, pos 972 0x29bccce,
   neg 1080 0x29bccde, pos 432 0x29bccee, pos 216 0x29bcdde, neg 216 0x29bcdee, pos 36 0x29bceee,
   neg 648 0x29cccde, pos 972 0x29ccdde, neg 216 0x29ccdee, neg 324 0x29cddde, pos 108 0x29cddee,
   neg 162 0x36bbbcd, pos 126 0x36bbbde, pos 864 0x36bbccd, neg 756 0x36bbcdd, neg 432 0x36bbcde,
   pos 540 0x36bbdde, neg 144 0x36bbdee, neg 1134 0x36bcccd, pos 1944 0x36bccdd, pos 270 0x36bccde,
   neg 810 0x36bcddd, neg 864 0x36bcdde, pos 270 0x36bcdee, pos 486 0x36bddde, neg 216 0x36bddee,
   pos 18 0x36bdeee, pos 162 0x37bbbcd, neg 864 0x37bbccd, pos 756 0x37bbcdd, neg 324 0x37bbcde,
   pos 1134 0x37bcccd, neg 1944 0x37bccdd, pos 1080 0x37bccde, pos 810 0x37bcddd,
   neg 864 0x37bcdde, pos 162 0x37bcdee, neg 648 0x37cccde, pos 972 0x37ccdde, neg 216 0x37ccdee,
   neg 324 0x37cddde, pos 108 0x37cddee, neg 126 0x39bbbde, pos 756 0x39bbcde, neg 540 0x39bbdde,
   pos 144 0x39bbdee, neg 1350 0x39bccde, pos 1728 0x39bcdde, neg 432 0x39bcdee, neg 486 0x39bddde,
   pos 216 0x39bddee, neg 18 0x39bdeee, pos 648 0x39cccde, neg 972 0x39ccdde, pos 216 0x39ccdee,
   pos 324 0x39cddde, neg 108 0x39cddee, pos 144 0x46bbbce, neg 126 0x46bbbde, neg 756 0x46bbcce,
   pos 1296 0x46bbcde, neg 180 0x46bbcee, neg 540 0x46bbdde, pos 144 0x46bbdee, pos 972 0x46bccce,
   neg 2430 0x46bccde, pos 432 0x46bccee, pos 1944 0x46bcdde, neg 648 0x46bcdee, pos 36 0x46bceee,
   neg 486 0x46bddde, pos 216 0x46bddee, neg 18 0x46bdeee, neg 144 0x47bbbce, pos 756 0x47bbcce,
   neg 540 0x47bbcde, pos 180 0x47bbcee, neg 972 0x47bccce, pos 1080 0x47bccde, neg 432 0x47bccee,
   neg 216 0x47bcdde, pos 216 0x47bcdee, neg 36 0x47bceee, pos 648 0x47cccde, neg 972 0x47ccdde,
   pos 216 0x47ccdee, pos 324 0x47cddde, neg 108 0x47cddee, pos 126 0x48bbbde, neg 756 0x48bbcde,
   pos 540 0x48bbdde, neg 144 0x48bbdee, pos 1350 0x48bccde, neg 1728 0x48bcdde, pos 432 0x48bcdee,
   pos 486 0x48bddde, neg 216 0x48bddee, pos 18 0x48bdeee, neg 648 0x48cccde, pos 972 0x48ccdde,
   neg 216 0x48ccdee, neg 324 0x48cddde, pos 108 0x48cddee]

/-- Coefficient 9 of `compute_RationalBezier_degree_3_inflections`, auto_inflection_RationalBezier.h:58. -/
def ratInflection3_9 : List Term :=
  [pos 18 0x17bbbcd, neg 18 0x17bbbce, neg 108 0x17bbccd, pos 108 0x17bbcce, pos 108 0x17bbcdd,
   neg 144 0x17bbcde, pos 36 0x17bbcee, pos 162 0x17bcccd, neg 162 0x17bccce, neg 324 0x17bccdd,
   pos 432 0x17bccde, neg 108 0x17bccee, pos 162 0x17bcddd, neg 270 0x17bcdde, pos 126 0x17bcdee,
   neg 18 0x17bceee, neg 18 0x18bbbcd, pos 18 0x18bbbde, pos 108 0x18bbccd, neg 108 0x18bbcdd,
   neg 72 0x18bbcde, pos 108 0x18bbdde, neg 36 0x18bbdee, neg 162 0x18bcccd, pos 324 0x18bccdd,
   pos 54 0x18bccde, neg 162 0x18bcddd, neg 216 0x18bcdde, pos 90 0x18bcdee, pos 162 0x18bddde,
   neg 108 0x18bddee, pos 18 0x18bdeee, pos 18 0x19bbbce, neg 18 0x19bbbde, neg 108 0x19bbcce,
   pos 216 0x19bbcde, neg 36 0x19bbcee, neg 108 0x19bbdde, pos 36 0x19bbdee, pos 162 0x19bccce,
   neg 486 0x19bccde, pos 108 0x19bccee, pos 486 0x19bcdde, neg 216 0x19bcdee, pos 18 0x19bceee,
   neg 162 0x19bddde, pos 108 0x19bddee, neg 18 0x19bdeee, neg 18 0x26bbbcd, pos 18 0x26bbbce,
   pos 108 0x26bbccd, neg 108 0x26bbcce, neg 108 0x26bbcdd, pos 144 0x26bbcde, neg 36 0x26bbcee,
   neg 162 0x26bcccd, pos 162 0x26bccce, pos 324 0x26bccdd, neg 432 0x26bccde, pos 108 0x26bccee,
   neg 162 0x26bcddd, pos 270 0x26bcdde, neg 126 0x26bcdee, pos 18 0x26bceee, pos 18 0x28bbbcd,
   neg 108 0x28bbccd, pos 108 0x28bbcdd, neg 54 0x28bbcde, pos 162 0x28bcccd, neg 324 0x28bccdd,
   pos 216 0x28bccde, pos 162 0x28bcddd, neg 216 0x28bcdde, pos 54 0x28bcdee, neg 162 0x28cccde,
   pos 324 0x28ccdde, neg 108 0x28ccdee, neg 162 0x28cddde, pos 108 0x28cddee, neg 18 0x28cdeee,
   neg 18 0x29bbbce, pos 108 0x29bbcce, neg 90 0x29bbcde, pos 36 0x29bbcee, neg 162 0x29bccce,
   pos 216 0x29bccde, neg 108 0x29bccee, neg 54 0x29bcdde, pos 72 0x29bcdee, neg 18 0x29bceee,
   pos 162 0x29cccde, neg 324 0x29ccdde, pos 108 0x29ccdee, pos 162 0x29cddde, neg 108 0x29cddee,
   pos 18 0x29cdeee, pos 18 0x36bbbcd, neg 18 0x36bbbde, neg 108 0x36bbccd, pos 108 0x36bbcdd,
   pos 72 0x36bbcde, neg 108 0x36bbdde, pos 36 0x36bbdee, pos 162 0x36bcccd, neg 324 0x36bccdd,
   neg 54 0x36bccde, pos 162 0x36bcddd, pos 216 0x36bcdde, neg 90 0x36bcdee, neg 162 0x36bddde,
   pos 108 0x36bddee, neg 18 0x36bdeee, neg 18 0x37bbbcd, pos 108 0x37bbccd, neg 108 0x37bbcdd,
   pos 54 0x37bbcde, neg 162 0x37bcccd, pos 324 0x37bccdd, neg 216 0x37bccde, neg 162 0x37bcddd,
   pos 216 0x37bcdde, neg 54 0x37bcdee, pos 162 0x37cccde, neg 324 0x37ccdde, pos 108 0x37ccdee,
   pos 162 0x37cddde, neg 108 0x37cddee, pos 18 0x37cdeee, pos 18 0x39bbbde, neg 126 0x39bbcde,
   pos 108 0x39bbdde, neg 36 0x39bbdee, pos 270 0x39bccde, neg 432 0x39bcdde, pos 144 0x39bcdee,
   pos 162 0x39bddde, neg 108 0x39bddee, pos 18 0x39bdeee, neg 162 0x39cccde, pos 324 0x39ccdde,
   neg 108 0x39ccdee, neg 162 0x39cddde, pos 108 0x39cddee, neg 18 0x39cdeee, neg 18 0x46bbbce,
   pos 18 0x46bbbde, pos 108 0x46bbcce, neg 216 0x46bbcde, pos 36 0x46bbcee, pos 108 0x46bbdde,
   neg 36 0x46bbdee, neg 162 0x46bccce, pos 486 0x46bccde, neg 108 0x46bccee, neg 486 0x46bcdde,
   pos 216 0x46bcdee, neg 18 0x46bceee, pos 162 0x46bddde, neg 108 0x46bddee, pos 18 0x46bdeee,
   pos 18 0x47bbbce, neg 108 0x47bbcce, pos 90 0x47bbcde, neg 36 0x47bbcee, pos 162 0x47bccce,
   neg 216 0x47bccde, pos 108 0x47bccee, pos 54 0x47bcdde, neg 72 0x47bcdee, pos 18 0x47bceee,
   neg 162 0x47cccde, pos 324 0x47ccdde, neg 108 0x47ccdee, neg 162 0x47cddde, pos 108 0x47cddee,
   neg 18 0x47cdeee, neg 18 0x48bbbde, pos 126 0x48bbcde, neg 108 0x48bbdde, pos 36 0x48bbdee,
   neg 270 0x48bccde, pos 432 0x48bcdde, neg 144 0x48bcdee, neg 162 0x48bddde, pos 108 0x48bddee,
   neg 18 0x48bdeee, pos 162 0x48cccde, neg 324 0x48ccdde, pos 108 0x48ccdee, pos 162 0x48cddde,
   neg 108 0x48cddee, pos 18 0x48cdeee]

/-- `compute_RationalBezier_degree_3_inflections`, auto_inflection_RationalBezier.h:40-59: the coefficients passed to the finder of degree 9. -/
def ratInflection3 (x y w : ℕ → K) : List K :=
  [ratInflection3_0, ratInflection3_1, ratInflection3_2, ratInflection3_3, ratInflection3_4,
   ratInflection3_5, ratInflection3_6, ratInflection3_7, ratInflection3_8, ratInflection3_9].map fun l => sum x y w l

/-- Coefficient 0 of `compute_RationalBezier_degree_4_inflections`, auto_inflection_RationalBezier.h:76. -/
def ratInflection4_0 : List Term :=
  [neg 48 0x17bbbcd, pos 48 0x18bbbcd, pos 48 0x26bbbcd, neg 48 0x28bbbcd, neg 48 0x36bbbcd,
   pos 48 0x37bbbcd]

/-- Coefficient 1 of `compute_RationalBezier_degree_4_inflections`, auto_inflection_RationalBezier.h:77. -/
def ratInflection4_1 : List Term :=
  [pos 672 0x17bbbcd, neg 96 0x17bbbce, neg 384 0x17bbccd, neg 672 0x18bbbcd, pos 384 0x18bbccd,
   pos 96 0x19bbbce, neg 672 0x26bbbcd, pos 96 0x26bbbce, pos 384 0x26bbccd, pos 672 0x28bbbcd,
   neg 384 0x28bbccd, neg 96 0x29bbbce, pos 672 0x36bbbcd, neg 384 0x36bbccd, neg 672 0x37bbbcd,
   pos 384 0x37bbccd, neg 96 0x46bbbce, pos 96 0x47bbbce]

/-- Coefficient 2 of `compute_RationalBezier_degree_4_inflections`, auto_inflection_RationalBezier.h:78. -/
def ratInflection4_2 : List Term :=
  [neg 4368 0x17bbbcd, pos 1248 0x17bbbce, neg 48 0x17bbbcf, pos 4992 0x17bbccd, neg 768 0x17bbcce,
   neg 576 0x17bbcdd, neg 768 0x17bcccd, pos 4368 0x18bbbcd, neg 144 0x18bbbde, neg 4992 0x18bbccd,
   pos 576 0x18bbcdd, pos 768 0x18bcccd, neg 1248 0x19bbbce, pos 144 0x19bbbde, pos 768 0x19bbcce,
   pos 48 0x1abbbcf, pos 4368 0x26bbbcd, neg 1248 0x26bbbce, pos 48 0x26bbbcf, neg 4992 0x26bbccd,
   pos 768 0x26bbcce, pos 576 0x26bbcdd, pos 768 0x26bcccd, neg 4368 0x28bbbcd, pos 4992 0x28bbccd,
   neg 576 0x28bbcdd, neg 768 0x28bcccd, pos 1248 0x29bbbce, neg 768 0x29bbcce, neg 48 0x2abbbcf,
   neg 4368 0x36bbbcd, pos 144 0x36bbbde, pos 4992 0x36bbccd, neg 576 0x36bbcdd, neg 768 0x36bcccd,
   pos 4368 0x37bbbcd, neg 4992 0x37bbccd, pos 576 0x37bbcdd, pos 768 0x37bcccd, neg 144 0x39bbbde,
   pos 1248 0x46bbbce, neg 144 0x46bbbde, neg 768 0x46bbcce, neg 1248 0x47bbbce, pos 768 0x47bbcce,
   pos 144 0x48bbbde, neg 48 0x56bbbcf, pos 48 0x57bbbcf]

/-- Coefficient 3 of `compute_RationalBezier_degree_4_inflections`, auto_inflection_RationalBezier.h:79. -/
def ratInflection4_3 : List Term :=
  [pos 17472 0x17bbbcd, neg 7488 0x17bbbce, pos 576 0x17bbbcf, neg 29952 0x17bbccd,
   pos 9216 0x17bbcce, neg 384 0x17bbccf, pos 6912 0x17bbcdd, neg 1536 0x17bbcde,
   pos 9216 0x17bcccd, neg 1536 0x17bccce, neg 2304 0x17bccdd, neg 17472 0x18bbbcd,
   pos 1728 0x18bbbde, neg 96 0x18bbbdf, pos 29952 0x18bbccd, neg 6912 0x18bbcdd,
   neg 768 0x18bbcde, neg 9216 0x18bcccd, pos 2304 0x18bccdd, pos 7488 0x19bbbce,
   neg 1728 0x19bbbde, neg 9216 0x19bbcce, pos 2304 0x19bbcde, pos 1536 0x19bccce,
   neg 576 0x1abbbcf, pos 96 0x1abbbdf, pos 384 0x1abbccf, neg 17472 0x26bbbcd, pos 7488 0x26bbbce,
   neg 576 0x26bbbcf, pos 29952 0x26bbccd, neg 9216 0x26bbcce, pos 384 0x26bbccf,
   neg 6912 0x26bbcdd, pos 1536 0x26bbcde, neg 9216 0x26bcccd, pos 1536 0x26bccce,
   pos 2304 0x26bccdd, pos 17472 0x28bbbcd, neg 29952 0x28bbccd, pos 6912 0x28bbcdd,
   neg 576 0x28bbcde, pos 9216 0x28bcccd, neg 2304 0x28bccdd, neg 7488 0x29bbbce,
   pos 9216 0x29bbcce, neg 960 0x29bbcde, neg 1536 0x29bccce, pos 576 0x2abbbcf, neg 384 0x2abbccf,
   pos 17472 0x36bbbcd, neg 1728 0x36bbbde, pos 96 0x36bbbdf, neg 29952 0x36bbccd,
   pos 6912 0x36bbcdd, pos 768 0x36bbcde, pos 9216 0x36bcccd, neg 2304 0x36bccdd,
   neg 17472 0x37bbbcd, pos 29952 0x37bbccd, neg 6912 0x37bbcdd, pos 576 0x37bbcde,
   neg 9216 0x37bcccd, pos 2304 0x37bccdd, pos 1728 0x39bbbde, neg 1344 0x39bbcde,
   neg 96 0x3abbbdf, neg 7488 0x46bbbce, pos 1728 0x46bbbde, pos 9216 0x46bbcce,
   neg 2304 0x46bbcde, neg 1536 0x46bccce, pos 7488 0x47bbbce, neg 9216 0x47bbcce,
   pos 960 0x47bbcde, pos 1536 0x47bccce, neg 1728 0x48bbbde, pos 1344 0x48bbcde,
   pos 576 0x56bbbcf, neg 96 0x56bbbdf, neg 384 0x56bbccf, neg 576 0x57bbbcf, pos 384 0x57bbccf,
   pos 96 0x58bbbdf]

/-- Coefficient 4 of `compute_RationalBezier_degree_4_inflections`, auto_inflection_RationalBezier.h:80. -/
def ratInflection4_4 : List Term :=
  [neg 48048 0x17bbbcd, pos 27456 0x17bbbce, neg 3168 0x17bbbcf, pos 109824 0x17bbccd,
   neg 50688 0x17bbcce, pos 4224 0x17bbccf, neg 38016 0x17bbcdd, pos 16896 0x17bbcde,
   neg 672 0x17bbcdf, neg 768 0x17bbcee, neg 50688 0x17bcccd, pos 16896 0x17bccce,
   neg 768 0x17bcccf, pos 25344 0x17bccdd, neg 6144 0x17bccde, neg 1728 0x17bcddd,
   pos 48048 0x18bbbcd, neg 9504 0x18bbbde, pos 1056 0x18bbbdf, neg 109824 0x18bbccd,
   pos 38016 0x18bbcdd, pos 8448 0x18bbcde, neg 672 0x18bbcdf, neg 1728 0x18bbdde,
   pos 50688 0x18bcccd, neg 25344 0x18bccdd, neg 768 0x18bccde, pos 1728 0x18bcddd,
   neg 27456 0x19bbbce, pos 9504 0x19bbbde, neg 48 0x19bbbef, pos 50688 0x19bbcce,
   neg 25344 0x19bbcde, pos 768 0x19bbcee, pos 1728 0x19bbdde, neg 16896 0x19bccce,
   pos 6912 0x19bccde, pos 3168 0x1abbbcf, neg 1056 0x1abbbdf, pos 48 0x1abbbef,
   neg 4224 0x1abbccf, pos 1344 0x1abbcdf, pos 768 0x1abcccf, pos 48048 0x26bbbcd,
   neg 27456 0x26bbbce, pos 3168 0x26bbbcf, neg 109824 0x26bbccd, pos 50688 0x26bbcce,
   neg 4224 0x26bbccf, pos 38016 0x26bbcdd, neg 16896 0x26bbcde, pos 672 0x26bbcdf,
   pos 768 0x26bbcee, pos 50688 0x26bcccd, neg 16896 0x26bccce, pos 768 0x26bcccf,
   neg 25344 0x26bccdd, pos 6144 0x26bccde, pos 1728 0x26bcddd, neg 48048 0x28bbbcd,
   pos 109824 0x28bbccd, neg 38016 0x28bbcdd, pos 6336 0x28bbcde, neg 240 0x28bbcdf,
   neg 50688 0x28bcccd, pos 25344 0x28bccdd, neg 3072 0x28bccde, neg 1728 0x28bcddd,
   pos 27456 0x29bbbce, neg 50688 0x29bbcce, pos 10560 0x29bbcde, neg 768 0x29bbcee,
   pos 16896 0x29bccce, neg 3072 0x29bccde, neg 3168 0x2abbbcf, pos 4224 0x2abbccf,
   neg 432 0x2abbcdf, neg 768 0x2abcccf, neg 48048 0x36bbbcd, pos 9504 0x36bbbde,
   neg 1056 0x36bbbdf, pos 109824 0x36bbccd, neg 38016 0x36bbcdd, neg 8448 0x36bbcde,
   pos 672 0x36bbcdf, pos 1728 0x36bbdde, neg 50688 0x36bcccd, pos 25344 0x36bccdd,
   pos 768 0x36bccde, neg 1728 0x36bcddd, pos 48048 0x37bbbcd, neg 109824 0x37bbccd,
   pos 38016 0x37bbcdd, neg 6336 0x37bbcde, pos 240 0x37bbcdf, pos 50688 0x37bcccd,
   neg 25344 0x37bccdd, pos 3072 0x37bccde, pos 1728 0x37bcddd, neg 9504 0x39bbbde,
   pos 14784 0x39bbcde, neg 1728 0x39bbdde, neg 3840 0x39bccde, pos 1056 0x3abbbdf,
   neg 912 0x3abbcdf, pos 27456 0x46bbbce, neg 9504 0x46bbbde, pos 48 0x46bbbef,
   neg 50688 0x46bbcce, pos 25344 0x46bbcde, neg 768 0x46bbcee, neg 1728 0x46bbdde,
   pos 16896 0x46bccce, neg 6912 0x46bccde, neg 27456 0x47bbbce, pos 50688 0x47bbcce,
   neg 10560 0x47bbcde, pos 768 0x47bbcee, neg 16896 0x47bccce, pos 3072 0x47bccde,
   pos 9504 0x48bbbde, neg 14784 0x48bbcde, pos 1728 0x48bbdde, pos 3840 0x48bccde,
   neg 48 0x4abbbef, neg 3168 0x56bbbcf, pos 1056 0x56bbbdf, neg 48 0x56bbbef, pos 4224 0x56bbccf,
   neg 1344 0x56bbcdf, neg 768 0x56bcccf, pos 3168 0x57bbbcf, neg 4224 0x57bbccf,
   pos 432 0x57bbcdf, pos 768 0x57bcccf, neg 1056 0x58bbbdf, pos 912 0x58bbcdf, pos 48 0x59bbbef]

/-- Coefficient 5 of `compute_RationalBezier_degree_4_inflections`, auto_inflection_RationalBezier.h:81. -/
def ratInflection4_5 : List Term :=
  [pos 96096 0x17bbbcd, neg 68640 0x17bbbce, pos 10560 0x17bbbcf, neg 274560 0x17bbccd,
   pos 168960 0x17bbcce, neg 21120 0x17bbccf, pos 126720 0x17bbcdd, neg 84480 0x17bbcde,
   pos 6720 0x17bbcdf, pos 7680 0x17bbcee, neg 576 0x17bbcef, pos 168960 0x17bcccd,
   neg 84480 0x17bccce, pos 7680 0x17bcccf, neg 126720 0x17bccdd, pos 61440 0x17bccde,
   neg 2688 0x17bccdf, neg 3072 0x17bccee, pos 17280 0x17bcddd, neg 5760 0x17bcdde,
   neg 96096 0x18bbbcd, pos 31680 0x18bbbde, neg 5280 0x18bbbdf, pos 274560 0x18bbccd,
   neg 126720 0x18bbcdd, neg 42240 0x18bbcde, pos 6720 0x18bbcdf, pos 17280 0x18bbdde,
   neg 1152 0x18bbddf, neg 1152 0x18bbdee, neg 168960 0x18bcccd, pos 126720 0x18bccdd,
   pos 7680 0x18bccde, neg 1152 0x18bccdf, neg 17280 0x18bcddd, neg 4608 0x18bcdde,
   pos 68640 0x19bbbce, neg 31680 0x19bbbde, pos 480 0x19bbbef, neg 168960 0x19bbcce,
   pos 126720 0x19bbcde, neg 7680 0x19bbcee, neg 192 0x19bbcef, neg 17280 0x19bbdde,
   pos 1152 0x19bbdee, pos 84480 0x19bccce, neg 69120 0x19bccde, pos 3072 0x19bccee,
   pos 10368 0x19bcdde, neg 10560 0x1abbbcf, pos 5280 0x1abbbdf, neg 480 0x1abbbef,
   pos 21120 0x1abbccf, neg 13440 0x1abbcdf, pos 768 0x1abbcef, pos 1152 0x1abbddf,
   neg 7680 0x1abcccf, pos 3840 0x1abccdf, neg 96096 0x26bbbcd, pos 68640 0x26bbbce,
   neg 10560 0x26bbbcf, pos 274560 0x26bbccd, neg 168960 0x26bbcce, pos 21120 0x26bbccf,
   neg 126720 0x26bbcdd, pos 84480 0x26bbcde, neg 6720 0x26bbcdf, neg 7680 0x26bbcee,
   pos 576 0x26bbcef, neg 168960 0x26bcccd, pos 84480 0x26bccce, neg 7680 0x26bcccf,
   pos 126720 0x26bccdd, neg 61440 0x26bccde, pos 2688 0x26bccdf, pos 3072 0x26bccee,
   neg 17280 0x26bcddd, pos 5760 0x26bcdde, pos 96096 0x28bbbcd, neg 274560 0x28bbccd,
   pos 126720 0x28bbcdd, neg 31680 0x28bbcde, pos 2400 0x28bbcdf, pos 168960 0x28bcccd,
   neg 126720 0x28bccdd, pos 30720 0x28bccde, neg 1536 0x28bccdf, pos 17280 0x28bcddd,
   neg 4608 0x28bcdde, neg 3072 0x28cccde, neg 68640 0x29bbbce, pos 168960 0x29bbcce,
   neg 52800 0x29bbcde, pos 7680 0x29bbcee, neg 288 0x29bbcef, neg 84480 0x29bccce,
   pos 30720 0x29bccde, neg 3072 0x29bccee, neg 1152 0x29bcdde, pos 3072 0x29cccde,
   pos 10560 0x2abbbcf, neg 21120 0x2abbccf, pos 4320 0x2abbcdf, neg 288 0x2abbcef,
   pos 7680 0x2abcccf, neg 1152 0x2abccdf, pos 96096 0x36bbbcd, neg 31680 0x36bbbde,
   pos 5280 0x36bbbdf, neg 274560 0x36bbccd, pos 126720 0x36bbcdd, pos 42240 0x36bbcde,
   neg 6720 0x36bbcdf, neg 17280 0x36bbdde, pos 1152 0x36bbddf, pos 1152 0x36bbdee,
   pos 168960 0x36bcccd, neg 126720 0x36bccdd, neg 7680 0x36bccde, pos 1152 0x36bccdf,
   pos 17280 0x36bcddd, pos 4608 0x36bcdde, neg 96096 0x37bbbcd, pos 274560 0x37bbccd,
   neg 126720 0x37bbcdd, pos 31680 0x37bbcde, neg 2400 0x37bbcdf, neg 168960 0x37bcccd,
   pos 126720 0x37bccdd, neg 30720 0x37bccde, pos 1536 0x37bccdf, neg 17280 0x37bcddd,
   pos 4608 0x37bcdde, pos 3072 0x37cccde, pos 31680 0x39bbbde, neg 73920 0x39bbcde,
   pos 17280 0x39bbdde, neg 1152 0x39bbdee, pos 38400 0x39bccde, neg 9216 0x39bcdde,
   neg 3072 0x39cccde, neg 5280 0x3abbbdf, pos 9120 0x3abbcdf, neg 1152 0x3abbddf,
   neg 2688 0x3abccdf, neg 68640 0x46bbbce, pos 31680 0x46bbbde, neg 480 0x46bbbef,
   pos 168960 0x46bbcce, neg 126720 0x46bbcde, pos 7680 0x46bbcee, pos 192 0x46bbcef,
   pos 17280 0x46bbdde, neg 1152 0x46bbdee, neg 84480 0x46bccce, pos 69120 0x46bccde,
   neg 3072 0x46bccee, neg 10368 0x46bcdde, pos 68640 0x47bbbce, neg 168960 0x47bbcce,
   pos 52800 0x47bbcde, neg 7680 0x47bbcee, pos 288 0x47bbcef, pos 84480 0x47bccce,
   neg 30720 0x47bccde, pos 3072 0x47bccee, pos 1152 0x47bcdde, neg 3072 0x47cccde,
   neg 31680 0x48bbbde, pos 73920 0x48bbcde, neg 17280 0x48bbdde, pos 1152 0x48bbdee,
   neg 38400 0x48bccde, pos 9216 0x48bcdde, pos 3072 0x48cccde, pos 480 0x4abbbef,
   neg 480 0x4abbcef, pos 10560 0x56bbbcf, neg 5280 0x56bbbdf, pos 480 0x56bbbef,
   neg 21120 0x56bbccf, pos 13440 0x56bbcdf, neg 768 0x56bbcef, neg 1152 0x56bbddf,
   pos 7680 0x56bcccf, neg 3840 0x56bccdf, neg 10560 0x57bbbcf, pos 21120 0x57bbccf,
   neg 4320 0x57bbcdf, pos 288 0x57bbcef, neg 7680 0x57bcccf, pos 1152 0x57bccdf,
   pos 5280 0x58bbbdf, neg 9120 0x58bbcdf, pos 1152 0x58bbddf, pos 2688 0x58bccdf,
   neg 480 0x59bbbef, pos 480 0x59bbcef]

/-- Coefficient 6 of `compute_RationalBezier_degree_4_inflections`, auto_inflection_RationalBezier.h:82. -/
def ratInflection4_6 : List Term :=
  [neg 144144 0x17bbbcd, pos 123552 0x17bbbce, neg 23760 0x17bbbcf, pos 494208 0x17bbccd,
   neg 380160 0x17bbcce, pos 63360 0x17bbccf, neg 285120 0x17bbcdd, pos 253440 0x17bbcde,
   neg 30240 0x17bbcdf, neg 34560 0x17bbcee, pos 5184 0x17bbcef, neg 96 0x17bbcff,
   neg 380160 0x17bcccd, pos 253440 0x17bccce, neg 34560 0x17bcccf, pos 380160 0x17bccdd,
   neg 276480 0x17bccde, pos 24192 0x17bccdf, pos 27648 0x17bccee, neg 2304 0x17bccef,
   neg 77760 0x17bcddd, pos 51840 0x17bcdde, neg 2304 0x17bcddf, neg 5376 0x17bcdee,
   pos 144144 0x18bbbcd, neg 71280 0x18bbbde, pos 15840 0x18bbbdf, neg 494208 0x18bbccd,
   pos 285120 0x18bbcdd, pos 126720 0x18bbcde, neg 30240 0x18bbcdf, neg 77760 0x18bbdde,
   pos 10368 0x18bbddf, pos 10368 0x18bbdee, neg 1056 0x18bbdef, pos 380160 0x18bcccd,
   neg 380160 0x18bccdd, neg 34560 0x18bccde, pos 10368 0x18bccdf, pos 77760 0x18bcddd,
   pos 41472 0x18bcdde, neg 4032 0x18bcddf, neg 3840 0x18bcdee, neg 5184 0x18bddde,
   neg 123552 0x19bbbce, pos 71280 0x19bbbde, neg 2160 0x19bbbef, pos 380160 0x19bbcce,
   neg 380160 0x19bbcde, pos 34560 0x19bbcee, pos 1728 0x19bbcef, pos 77760 0x19bbdde,
   neg 10368 0x19bbdee, neg 288 0x19bbdef, neg 253440 0x19bccce, pos 311040 0x19bccde,
   neg 27648 0x19bccee, neg 93312 0x19bcdde, pos 9216 0x19bcdee, pos 5184 0x19bddde,
   pos 23760 0x1abbbcf, neg 15840 0x1abbbdf, pos 2160 0x1abbbef, neg 63360 0x1abbccf,
   pos 60480 0x1abbcdf, neg 6912 0x1abbcef, pos 96 0x1abbcff, neg 10368 0x1abbddf,
   pos 1344 0x1abbdef, pos 34560 0x1abcccf, neg 34560 0x1abccdf, pos 2304 0x1abccef,
   pos 6336 0x1abcddf, pos 144144 0x26bbbcd, neg 123552 0x26bbbce, pos 23760 0x26bbbcf,
   neg 494208 0x26bbccd, pos 380160 0x26bbcce, neg 63360 0x26bbccf, pos 285120 0x26bbcdd,
   neg 253440 0x26bbcde, pos 30240 0x26bbcdf, pos 34560 0x26bbcee, neg 5184 0x26bbcef,
   pos 96 0x26bbcff, pos 380160 0x26bcccd, neg 253440 0x26bccce, pos 34560 0x26bcccf,
   neg 380160 0x26bccdd, pos 276480 0x26bccde, neg 24192 0x26bccdf, neg 27648 0x26bccee,
   pos 2304 0x26bccef, pos 77760 0x26bcddd, neg 51840 0x26bcdde, pos 2304 0x26bcddf,
   pos 5376 0x26bcdee, neg 144144 0x28bbbcd, pos 494208 0x28bbccd, neg 285120 0x28bbcdd,
   pos 95040 0x28bbcde, neg 10800 0x28bbcdf, neg 380160 0x28bcccd, pos 380160 0x28bccdd,
   neg 138240 0x28bccde, pos 13824 0x28bccdf, neg 77760 0x28bcddd, pos 41472 0x28bcdde,
   neg 2304 0x28bcddf, neg 2304 0x28bcdee, pos 27648 0x28cccde, neg 2304 0x28cccdf,
   neg 9216 0x28ccdde, pos 123552 0x29bbbce, neg 380160 0x29bbcce, pos 158400 0x29bbcde,
   neg 34560 0x29bbcee, pos 2592 0x29bbcef, pos 253440 0x29bccce, neg 138240 0x29bccde,
   pos 27648 0x29bccee, neg 1536 0x29bccef, pos 10368 0x29bcdde, neg 3072 0x29bcdee,
   neg 27648 0x29cccde, pos 9216 0x29ccdde, neg 23760 0x2abbbcf, pos 63360 0x2abbccf,
   neg 19440 0x2abbcdf, pos 2592 0x2abbcef, neg 96 0x2abbcff, neg 34560 0x2abcccf,
   pos 10368 0x2abccdf, neg 768 0x2abccef, pos 2304 0x2acccdf, neg 144144 0x36bbbcd,
   pos 71280 0x36bbbde, neg 15840 0x36bbbdf, pos 494208 0x36bbccd, neg 285120 0x36bbcdd,
   neg 126720 0x36bbcde, pos 30240 0x36bbcdf, pos 77760 0x36bbdde, neg 10368 0x36bbddf,
   neg 10368 0x36bbdee, pos 1056 0x36bbdef, neg 380160 0x36bcccd, pos 380160 0x36bccdd,
   pos 34560 0x36bccde, neg 10368 0x36bccdf, neg 77760 0x36bcddd, neg 41472 0x36bcdde,
   pos 4032 0x36bcddf, pos 3840 0x36bcdee, pos 5184 0x36bddde, pos 144144 0x37bbbcd,
   neg 494208 0x37bbccd, pos 285120 0x37bbcdd, neg 95040 0x37bbcde, pos 10800 0x37bbcdf,
   pos 380160 0x37bcccd, neg 380160 0x37bccdd, pos 138240 0x37bccde, neg 13824 0x37bccdf,
   pos 77760 0x37bcddd, neg 41472 0x37bcdde, pos 2304 0x37bcddf, pos 2304 0x37bcdee,
   neg 27648 0x37cccde, pos 2304 0x37cccdf, pos 9216 0x37ccdde, neg 71280 0x39bbbde,
   pos 221760 0x39bbcde, neg 77760 0x39bbdde, pos 10368 0x39bbdee, neg 336 0x39bbdef,
   neg 172800 0x39bccde, pos 82944 0x39bcdde, neg 6144 0x39bcdee, neg 5184 0x39bddde,
   pos 27648 0x39cccde, neg 9216 0x39ccdde, pos 15840 0x3abbbdf, neg 41040 0x3abbcdf,
   pos 10368 0x3abbddf, neg 720 0x3abbdef, pos 24192 0x3abccdf, neg 6336 0x3abcddf,
   neg 2304 0x3acccdf, pos 123552 0x46bbbce, neg 71280 0x46bbbde, pos 2160 0x46bbbef,
   neg 380160 0x46bbcce, pos 380160 0x46bbcde, neg 34560 0x46bbcee, neg 1728 0x46bbcef,
   neg 77760 0x46bbdde, pos 10368 0x46bbdee, pos 288 0x46bbdef, pos 253440 0x46bccce,
   neg 311040 0x46bccde, pos 27648 0x46bccee, pos 93312 0x46bcdde, neg 9216 0x46bcdee,
   neg 5184 0x46bddde, neg 123552 0x47bbbce, pos 380160 0x47bbcce, neg 158400 0x47bbcde,
   pos 34560 0x47bbcee, neg 2592 0x47bbcef, neg 253440 0x47bccce, pos 138240 0x47bccde,
   neg 27648 0x47bccee, pos 1536 0x47bccef, neg 10368 0x47bcdde, pos 3072 0x47bcdee,
   pos 27648 0x47cccde, neg 9216 0x47ccdde, pos 71280 0x48bbbde, neg 221760 0x48bbcde,
   pos 77760 0x48bbdde, neg 10368 0x48bbdee, pos 336 0x48bbdef, pos 172800 0x48bccde,
   neg 82944 0x48bcdde, pos 6144 0x48bcdee, pos 5184 0x48bddde, neg 27648 0x48cccde,
   pos 9216 0x48ccdde, neg 2160 0x4abbbef, pos 4320 0x4abbcef, neg 624 0x4abbdef,
   neg 1536 0x4abccef, neg 23760 0x56bbbcf, pos 15840 0x56bbbdf, neg 2160 0x56bbbef,
   pos 63360 0x56bbccf, neg 60480 0x56bbcdf, pos 6912 0x56bbcef, neg 96 0x56bbcff,
   pos 10368 0x56bbddf, neg 1344 0x56bbdef, neg 34560 0x56bcccf, pos 34560 0x56bccdf,
   neg 2304 0x56bccef, neg 6336 0x56bcddf, pos 23760 0x57bbbcf, neg 63360 0x57bbccf,
   pos 19440 0x57bbcdf, neg 2592 0x57bbcef, pos 96 0x57bbcff, pos 34560 0x57bcccf,
   neg 10368 0x57bccdf, pos 768 0x57bccef, neg 2304 0x57cccdf, neg 15840 0x58bbbdf,
   pos 41040 0x58bbcdf, neg 10368 0x58bbddf, pos 720 0x58bbdef, neg 24192 0x58bccdf,
   pos 6336 0x58bcddf, pos 2304 0x58cccdf, pos 2160 0x59bbbef, neg 4320 0x59bbcef,
   pos 624 0x59bbdef, pos 1536 0x59bccef]

/-- Coefficient 7 of `compute_RationalBezier_degree_4_inflections`, auto_inflection_RationalBezier.h:83. -/
def ratInflection4_7 : List Term :=
  [pos 164736 0x17bbbcd, neg 164736 0x17bbbce, pos 38016 0x17bbbcf, neg 658944 0x17bbccd,
   pos 608256 0x17bbcce, neg 126720 0x17bbccf, pos 456192 0x17bbcdd, neg 506880 0x17bbcde,
   pos 80640 0x17bbcdf, pos 92160 0x17bbcee, neg 20736 0x17bbcef, pos 768 0x17bbcff,
   pos 608256 0x17bcccd, neg 506880 0x17bccce, pos 92160 0x17bcccf, neg 760320 0x17bccdd,
   pos 737280 0x17bccde, neg 96768 0x17bccdf, neg 110592 0x17bccee, pos 18432 0x17bccef,
   neg 384 0x17bccff, pos 207360 0x17bcddd, neg 207360 0x17bcdde, pos 18432 0x17bcddf,
   pos 43008 0x17bcdee, neg 3840 0x17bcdef, neg 1536 0x17bceee, neg 164736 0x18bbbcd,
   pos 114048 0x18bbbde, neg 31680 0x18bbbdf, pos 658944 0x18bbccd, neg 456192 0x18bbcdd,
   neg 253440 0x18bbcde, pos 80640 0x18bbcdf, pos 207360 0x18bbdde, neg 41472 0x18bbddf,
   neg 41472 0x18bbdee, pos 8448 0x18bbdef, neg 192 0x18bbdff, neg 608256 0x18bcccd,
   pos 760320 0x18bccdd, pos 92160 0x18bccde, neg 41472 0x18bccdf, neg 207360 0x18bcddd,
   neg 165888 0x18bcdde, pos 32256 0x18bcddf, pos 30720 0x18bcdee, neg 3840 0x18bcdef,
   pos 41472 0x18bddde, neg 3456 0x18bdddf, neg 6912 0x18bddee, pos 164736 0x19bbbce,
   neg 114048 0x19bbbde, pos 5760 0x19bbbef, neg 608256 0x19bbcce, pos 760320 0x19bbcde,
   neg 92160 0x19bbcee, neg 6912 0x19bbcef, neg 207360 0x19bbdde, pos 41472 0x19bbdee,
   pos 2304 0x19bbdef, neg 384 0x19bbeef, pos 506880 0x19bccce, neg 829440 0x19bccde,
   pos 110592 0x19bccee, pos 373248 0x19bcdde, neg 73728 0x19bcdee, pos 1536 0x19bceee,
   neg 41472 0x19bddde, pos 6912 0x19bddee, neg 38016 0x1abbbcf, pos 31680 0x1abbbdf,
   neg 5760 0x1abbbef, pos 126720 0x1abbccf, neg 161280 0x1abbcdf, pos 27648 0x1abbcef,
   neg 768 0x1abbcff, pos 41472 0x1abbddf, neg 10752 0x1abbdef, pos 192 0x1abbdff,
   pos 384 0x1abbeef, neg 92160 0x1abcccf, pos 138240 0x1abccdf, neg 18432 0x1abccef,
   pos 384 0x1abccff, neg 50688 0x1abcddf, pos 7680 0x1abcdef, pos 3456 0x1abdddf,
   neg 164736 0x26bbbcd, pos 164736 0x26bbbce, neg 38016 0x26bbbcf, pos 658944 0x26bbccd,
   neg 608256 0x26bbcce, pos 126720 0x26bbccf, neg 456192 0x26bbcdd, pos 506880 0x26bbcde,
   neg 80640 0x26bbcdf, neg 92160 0x26bbcee, pos 20736 0x26bbcef, neg 768 0x26bbcff,
   neg 608256 0x26bcccd, pos 506880 0x26bccce, neg 92160 0x26bcccf, pos 760320 0x26bccdd,
   neg 737280 0x26bccde, pos 96768 0x26bccdf, pos 110592 0x26bccee, neg 18432 0x26bccef,
   pos 384 0x26bccff, neg 207360 0x26bcddd, pos 207360 0x26bcdde, neg 18432 0x26bcddf,
   neg 43008 0x26bcdee, pos 3840 0x26bcdef, pos 1536 0x26bceee, pos 164736 0x28bbbcd,
   neg 658944 0x28bbccd, pos 456192 0x28bbcdd, neg 190080 0x28bbcde, pos 28800 0x28bbcdf,
   pos 608256 0x28bcccd, neg 760320 0x28bccdd, pos 368640 0x28bccde, neg 55296 0x28bccdf,
   pos 207360 0x28bcddd, neg 165888 0x28bcdde, pos 18432 0x28bcddf, pos 18432 0x28bcdee,
   neg 1920 0x28bcdef, neg 110592 0x28cccde, pos 18432 0x28cccdf, pos 73728 0x28ccdde,
   neg 6912 0x28ccddf, neg 6144 0x28ccdee, neg 6912 0x28cddde, neg 164736 0x29bbbce,
   pos 608256 0x29bbcce, neg 316800 0x29bbcde, pos 92160 0x29bbcee, neg 10368 0x29bbcef,
   neg 506880 0x29bccce, pos 368640 0x29bccde, neg 110592 0x29bccee, pos 12288 0x29bccef,
   neg 41472 0x29bcdde, pos 24576 0x29bcdee, neg 1920 0x29bcdef, neg 1536 0x29bceee,
   pos 110592 0x29cccde, neg 1536 0x29cccef, neg 73728 0x29ccdde, pos 6144 0x29ccdee,
   pos 6912 0x29cddde, pos 38016 0x2abbbcf, neg 126720 0x2abbccf, pos 51840 0x2abbcdf,
   neg 10368 0x2abbcef, pos 768 0x2abbcff, pos 92160 0x2abcccf, neg 41472 0x2abccdf,
   pos 6144 0x2abccef, neg 384 0x2abccff, neg 18432 0x2acccdf, pos 1536 0x2acccef,
   pos 6912 0x2accddf, pos 164736 0x36bbbcd, neg 114048 0x36bbbde, pos 31680 0x36bbbdf,
   neg 658944 0x36bbccd, pos 456192 0x36bbcdd, pos 253440 0x36bbcde, neg 80640 0x36bbcdf,
   neg 207360 0x36bbdde, pos 41472 0x36bbddf, pos 41472 0x36bbdee, neg 8448 0x36bbdef,
   pos 192 0x36bbdff, pos 608256 0x36bcccd, neg 760320 0x36bccdd, neg 92160 0x36bccde,
   pos 41472 0x36bccdf, pos 207360 0x36bcddd, pos 165888 0x36bcdde, neg 32256 0x36bcddf,
   neg 30720 0x36bcdee, pos 3840 0x36bcdef, neg 41472 0x36bddde, pos 3456 0x36bdddf,
   pos 6912 0x36bddee, neg 164736 0x37bbbcd, pos 658944 0x37bbccd, neg 456192 0x37bbcdd,
   pos 190080 0x37bbcde, neg 28800 0x37bbcdf, neg 608256 0x37bcccd, pos 760320 0x37bccdd,
   neg 368640 0x37bccde, pos 55296 0x37bccdf, neg 207360 0x37bcddd, pos 165888 0x37bcdde,
   neg 18432 0x37bcddf, neg 18432 0x37bcdee, pos 1920 0x37bcdef, pos 110592 0x37cccde,
   neg 18432 0x37cccdf, neg 73728 0x37ccdde, pos 6912 0x37ccddf, pos 6144 0x37ccdee,
   pos 6912 0x37cddde, pos 114048 0x39bbbde, neg 443520 0x39bbcde, pos 207360 0x39bbdde,
   neg 41472 0x39bbdee, pos 2688 0x39bbdef, pos 460800 0x39bccde, neg 331776 0x39bcdde,
   pos 49152 0x39bcdee, neg 1920 0x39bcdef, pos 41472 0x39bddde, neg 6912 0x39bddee,
   neg 110592 0x39cccde, pos 73728 0x39ccdde, neg 6144 0x39ccdee, neg 6912 0x39cddde,
   neg 31680 0x3abbbdf, pos 109440 0x3abbcdf, neg 41472 0x3abbddf, pos 5760 0x3abbdef,
   neg 192 0x3abbdff, neg 96768 0x3abccdf, pos 50688 0x3abcddf, neg 3840 0x3abcdef,
   neg 3456 0x3abdddf, pos 18432 0x3acccdf, neg 6912 0x3accddf, neg 164736 0x46bbbce,
   pos 114048 0x46bbbde, neg 5760 0x46bbbef, pos 608256 0x46bbcce, neg 760320 0x46bbcde,
   pos 92160 0x46bbcee, pos 6912 0x46bbcef, pos 207360 0x46bbdde, neg 41472 0x46bbdee,
   neg 2304 0x46bbdef, pos 384 0x46bbeef, neg 506880 0x46bccce, pos 829440 0x46bccde,
   neg 110592 0x46bccee, neg 373248 0x46bcdde, pos 73728 0x46bcdee, neg 1536 0x46bceee,
   pos 41472 0x46bddde, neg 6912 0x46bddee, pos 164736 0x47bbbce, neg 608256 0x47bbcce,
   pos 316800 0x47bbcde, neg 92160 0x47bbcee, pos 10368 0x47bbcef, pos 506880 0x47bccce,
   neg 368640 0x47bccde, pos 110592 0x47bccee, neg 12288 0x47bccef, pos 41472 0x47bcdde,
   neg 24576 0x47bcdee, pos 1920 0x47bcdef, pos 1536 0x47bceee, neg 110592 0x47cccde,
   pos 1536 0x47cccef, pos 73728 0x47ccdde, neg 6144 0x47ccdee, neg 6912 0x47cddde,
   neg 114048 0x48bbbde, pos 443520 0x48bbcde, neg 207360 0x48bbdde, pos 41472 0x48bbdee,
   neg 2688 0x48bbdef, neg 460800 0x48bccde, pos 331776 0x48bcdde, neg 49152 0x48bcdee,
   pos 1920 0x48bcdef, neg 41472 0x48bddde, pos 6912 0x48bddee, pos 110592 0x48cccde,
   neg 73728 0x48ccdde, pos 6144 0x48ccdee, pos 6912 0x48cddde, pos 5760 0x4abbbef,
   neg 17280 0x4abbcef, pos 4992 0x4abbdef, neg 384 0x4abbeef, pos 12288 0x4abccef,
   neg 3840 0x4abcdef, neg 1536 0x4acccef, pos 38016 0x56bbbcf, neg 31680 0x56bbbdf,
   pos 5760 0x56bbbef, neg 126720 0x56bbccf, pos 161280 0x56bbcdf, neg 27648 0x56bbcef,
   pos 768 0x56bbcff, neg 41472 0x56bbddf, pos 10752 0x56bbdef, neg 192 0x56bbdff,
   neg 384 0x56bbeef, pos 92160 0x56bcccf, neg 138240 0x56bccdf, pos 18432 0x56bccef,
   neg 384 0x56bccff, pos 50688 0x56bcddf, neg 7680 0x56bcdef, neg 3456 0x56bdddf,
   neg 38016 0x57bbbcf, pos 126720 0x57bbccf, neg 51840 0x57bbcdf, pos 10368 0x57bbcef,
   neg 768 0x57bbcff, neg 92160 0x57bcccf, pos 41472 0x57bccdf, neg 6144 0x57bccef,
   pos 384 0x57bccff, pos 18432 0x57cccdf, neg 1536 0x57cccef, neg 6912 0x57ccddf,
   pos 31680 0x58bbbdf, neg 109440 0x58bbcdf, pos 41472 0x58bbddf, neg 5760 0x58bbdef,
   pos 192 0x58bbdff, pos 96768 0x58bccdf, neg 50688 0x58bcddf, pos 3840 0x58bcdef,
   pos 3456 0x58bdddf, neg 18432 0x58cccdf, pos 6912 0x58ccddf, neg 5760 0x59bbbef,
   pos 17280 0x59bbcef, neg 4992 0x59bbdef, pos 384 0x59bbeef, neg 12288 0x59bccef,
   pos 3840 0x59bcdef, pos 1536 0x59cccef]

/-- Coefficient 8 of `compute_RationalBezier_degree_4_inflections`, auto_inflection_RationalBezier.h:84. -/
def ratInflection4_8 : List Term :=
  [neg 144144 0x17bbbcd, pos 164736 0x17bbbce, neg 44352 0x17bbbcf, pos 658944 0x17bbccd,
   neg 709632 0x17bbcce, pos 177408 0x17bbccf, neg 532224 0x17bbcdd, pos 709632 0x17bbcde,
   neg 141120 0x17bbcdf, neg 161280 0x17bbcee, pos 48384 0x17bbcef, neg 2688 0x17bbcff,
   neg 709632 0x17bcccd, pos 709632 0x17bccce, neg 161280 0x17bcccf, pos 1064448 0x17bccdd,
   neg 1290240 0x17bccde, pos 225792 0x17bccdf, pos 258048 0x17bccee, neg 64512 0x17bccef,
   pos 2688 0x17bccff, neg 362880 0x17bcddd, pos 483840 0x17bcdde, neg 64512 0x17bcddf,
   neg 150528 0x17bcdee, pos 26880 0x17bcdef, neg 624 0x17bcdff, pos 10752 0x17bceee,
   neg 1536 0x17bceef, pos 144144 0x18bbbcd, neg 133056 0x18bbbde, pos 44352 0x18bbbdf,
   neg 658944 0x18bbccd, pos 532224 0x18bbcdd, pos 354816 0x18bbcde, neg 141120 0x18bbcdf,
   neg 362880 0x18bbdde, pos 96768 0x18bbddf, pos 96768 0x18bbdee, neg 29568 0x18bbdef,
   pos 1344 0x18bbdff, pos 709632 0x18bcccd, neg 1064448 0x18bccdd, neg 161280 0x18bccde,
   pos 96768 0x18bccdf, pos 362880 0x18bcddd, pos 387072 0x18bcdde, neg 112896 0x18bcddf,
   neg 107520 0x18bcdee, pos 26880 0x18bcdef, neg 720 0x18bcdff, neg 145152 0x18bddde,
   pos 24192 0x18bdddf, pos 48384 0x18bddee, neg 6336 0x18bddef, neg 2304 0x18bdeee,
   neg 164736 0x19bbbce, pos 133056 0x19bbbde, neg 10080 0x19bbbef, pos 709632 0x19bbcce,
   neg 1064448 0x19bbcde, pos 161280 0x19bbcee, pos 16128 0x19bbcef, pos 362880 0x19bbdde,
   neg 96768 0x19bbdee, neg 8064 0x19bbdef, pos 2688 0x19bbeef, neg 96 0x19bbeff,
   neg 709632 0x19bccce, pos 1451520 0x19bccde, neg 258048 0x19bccee, neg 870912 0x19bcdde,
   pos 258048 0x19bcdee, neg 10752 0x19bceee, neg 768 0x19bceef, pos 145152 0x19bddde,
   neg 48384 0x19bddee, pos 2304 0x19bdeee, pos 44352 0x1abbbcf, neg 44352 0x1abbbdf,
   pos 10080 0x1abbbef, neg 177408 0x1abbccf, pos 282240 0x1abbcdf, neg 64512 0x1abbcef,
   pos 2688 0x1abbcff, neg 96768 0x1abbddf, pos 37632 0x1abbdef, neg 1344 0x1abbdff,
   neg 2688 0x1abbeef, pos 96 0x1abbeff, pos 161280 0x1abcccf, neg 322560 0x1abccdf,
   pos 64512 0x1abccef, neg 2688 0x1abccff, pos 177408 0x1abcddf, neg 53760 0x1abcdef,
   pos 1344 0x1abcdff, pos 2304 0x1abceef, neg 24192 0x1abdddf, pos 6336 0x1abddef,
   pos 144144 0x26bbbcd, neg 164736 0x26bbbce, pos 44352 0x26bbbcf, neg 658944 0x26bbccd,
   pos 709632 0x26bbcce, neg 177408 0x26bbccf, pos 532224 0x26bbcdd, neg 709632 0x26bbcde,
   pos 141120 0x26bbcdf, pos 161280 0x26bbcee, neg 48384 0x26bbcef, pos 2688 0x26bbcff,
   pos 709632 0x26bcccd, neg 709632 0x26bccce, pos 161280 0x26bcccf, neg 1064448 0x26bccdd,
   pos 1290240 0x26bccde, neg 225792 0x26bccdf, neg 258048 0x26bccee, pos 64512 0x26bccef,
   neg 2688 0x26bccff, pos 362880 0x26bcddd, neg 483840 0x26bcdde, pos 64512 0x26bcddf,
   pos 150528 0x26bcdee, neg 26880 0x26bcdef, pos 624 0x26bcdff, neg 10752 0x26bceee,
   pos 1536 0x26bceef, neg 144144 0x28bbbcd, pos 658944 0x28bbccd, neg 532224 0x28bbcdd,
   pos 266112 0x28bbcde, neg 50400 0x28bbcdf, neg 709632 0x28bcccd, pos 1064448 0x28bccdd,
   neg 645120 0x28bccde, pos 129024 0x28bccdf, neg 362880 0x28bcddd, pos 387072 0x28bcdde,
   neg 64512 0x28bcddf, neg 64512 0x28bcdee, pos 13440 0x28bcdef, neg 336 0x28bcdff,
   pos 258048 0x28cccde, neg 64512 0x28cccdf, neg 258048 0x28ccdde, pos 48384 0x28ccddf,
   pos 43008 0x28ccdee, neg 6144 0x28ccdef, pos 48384 0x28cddde, neg 5184 0x28cdddf,
   neg 9216 0x28cddee, pos 164736 0x29bbbce, neg 709632 0x29bbcce, pos 443520 0x29bbcde,
   neg 161280 0x29bbcee, pos 24192 0x29bbcef, pos 709632 0x29bccce, neg 645120 0x29bccde,
   pos 258048 0x29bccee, neg 43008 0x29bccef, pos 96768 0x29bcdde, neg 86016 0x29bcdee,
   pos 13440 0x29bcdef, pos 10752 0x29bceee, neg 1536 0x29bceef, neg 258048 0x29cccde,
   pos 10752 0x29cccef, pos 258048 0x29ccdde, neg 43008 0x29ccdee, neg 3072 0x29ccdef,
   neg 48384 0x29cddde, pos 9216 0x29cddee, neg 44352 0x2abbbcf, pos 177408 0x2abbccf,
   neg 90720 0x2abbcdf, pos 24192 0x2abbcef, neg 2688 0x2abbcff, neg 161280 0x2abcccf,
   pos 96768 0x2abccdf, neg 21504 0x2abccef, pos 2688 0x2abccff, neg 288 0x2abcdff,
   pos 64512 0x2acccdf, neg 10752 0x2acccef, neg 48384 0x2accddf, pos 9216 0x2accdef,
   pos 5184 0x2acdddf, neg 144144 0x36bbbcd, pos 133056 0x36bbbde, neg 44352 0x36bbbdf,
   pos 658944 0x36bbccd, neg 532224 0x36bbcdd, neg 354816 0x36bbcde, pos 141120 0x36bbcdf,
   pos 362880 0x36bbdde, neg 96768 0x36bbddf, neg 96768 0x36bbdee, pos 29568 0x36bbdef,
   neg 1344 0x36bbdff, neg 709632 0x36bcccd, pos 1064448 0x36bccdd, pos 161280 0x36bccde,
   neg 96768 0x36bccdf, neg 362880 0x36bcddd, neg 387072 0x36bcdde, pos 112896 0x36bcddf,
   pos 107520 0x36bcdee, neg 26880 0x36bcdef, pos 720 0x36bcdff, pos 145152 0x36bddde,
   neg 24192 0x36bdddf, neg 48384 0x36bddee, pos 6336 0x36bddef, pos 2304 0x36bdeee,
   pos 144144 0x37bbbcd, neg 658944 0x37bbccd, pos 532224 0x37bbcdd, neg 266112 0x37bbcde,
   pos 50400 0x37bbcdf, pos 709632 0x37bcccd, neg 1064448 0x37bccdd, pos 645120 0x37bccde,
   neg 129024 0x37bccdf, pos 362880 0x37bcddd, neg 387072 0x37bcdde, pos 64512 0x37bcddf,
   pos 64512 0x37bcdee, neg 13440 0x37bcdef, pos 336 0x37bcdff, neg 258048 0x37cccde,
   pos 64512 0x37cccdf, pos 258048 0x37ccdde, neg 48384 0x37ccddf, neg 43008 0x37ccdee,
   pos 6144 0x37ccdef, neg 48384 0x37cddde, pos 5184 0x37cdddf, pos 9216 0x37cddee,
   neg 133056 0x39bbbde, pos 620928 0x39bbcde, neg 362880 0x39bbdde, pos 96768 0x39bbdee,
   neg 9408 0x39bbdef, neg 806400 0x39bccde, pos 774144 0x39bcdde, neg 172032 0x39bcdee,
   pos 13440 0x39bcdef, neg 145152 0x39bddde, pos 48384 0x39bddee, neg 2304 0x39bddef,
   neg 2304 0x39bdeee, pos 258048 0x39cccde, neg 258048 0x39ccdde, pos 43008 0x39ccdee,
   neg 2304 0x39ccdef, pos 48384 0x39cddde, neg 9216 0x39cddee, pos 44352 0x3abbbdf,
   neg 191520 0x3abbcdf, pos 96768 0x3abbddf, neg 20160 0x3abbdef, pos 1344 0x3abbdff,
   pos 225792 0x3abccdf, neg 177408 0x3abcddf, pos 26880 0x3abcdef, neg 1056 0x3abcdff,
   pos 24192 0x3abdddf, neg 4032 0x3abddef, neg 64512 0x3acccdf, pos 48384 0x3accddf,
   neg 3840 0x3accdef, neg 5184 0x3acdddf, pos 164736 0x46bbbce, neg 133056 0x46bbbde,
   pos 10080 0x46bbbef, neg 709632 0x46bbcce, pos 1064448 0x46bbcde, neg 161280 0x46bbcee,
   neg 16128 0x46bbcef, neg 362880 0x46bbdde, pos 96768 0x46bbdee, pos 8064 0x46bbdef,
   neg 2688 0x46bbeef, pos 96 0x46bbeff, pos 709632 0x46bccce, neg 1451520 0x46bccde,
   pos 258048 0x46bccee, pos 870912 0x46bcdde, neg 258048 0x46bcdee, pos 10752 0x46bceee,
   pos 768 0x46bceef, neg 145152 0x46bddde, pos 48384 0x46bddee, neg 2304 0x46bdeee,
   neg 164736 0x47bbbce, pos 709632 0x47bbcce, neg 443520 0x47bbcde, pos 161280 0x47bbcee,
   neg 24192 0x47bbcef, neg 709632 0x47bccce, pos 645120 0x47bccde, neg 258048 0x47bccee,
   pos 43008 0x47bccef, neg 96768 0x47bcdde, pos 86016 0x47bcdee, neg 13440 0x47bcdef,
   neg 10752 0x47bceee, pos 1536 0x47bceef, pos 258048 0x47cccde, neg 10752 0x47cccef,
   neg 258048 0x47ccdde, pos 43008 0x47ccdee, pos 3072 0x47ccdef, pos 48384 0x47cddde,
   neg 9216 0x47cddee, pos 133056 0x48bbbde, neg 620928 0x48bbcde, pos 362880 0x48bbdde,
   neg 96768 0x48bbdee, pos 9408 0x48bbdef, pos 806400 0x48bccde, neg 774144 0x48bcdde,
   pos 172032 0x48bcdee, neg 13440 0x48bcdef, pos 145152 0x48bddde, neg 48384 0x48bddee,
   pos 2304 0x48bddef, pos 2304 0x48bdeee, neg 258048 0x48cccde, pos 258048 0x48ccdde,
   neg 43008 0x48ccdee, pos 2304 0x48ccdef, neg 48384 0x48cddde, pos 9216 0x48cddee,
   neg 10080 0x4abbbef, pos 40320 0x4abbcef, neg 17472 0x4abbdef, pos 2688 0x4abbeef,
   neg 96 0x4abbeff, neg 43008 0x4abccef, pos 26880 0x4abcdef, neg 2304 0x4abceef,
   neg 2304 0x4abddef, pos 10752 0x4acccef, neg 5376 0x4accdef, neg 44352 0x56bbbcf,
   pos 44352 0x56bbbdf, neg 10080 0x56bbbef, pos 177408 0x56bbccf, neg 282240 0x56bbcdf,
   pos 64512 0x56bbcef, neg 2688 0x56bbcff, pos 96768 0x56bbddf, neg 37632 0x56bbdef,
   pos 1344 0x56bbdff, pos 2688 0x56bbeef, neg 96 0x56bbeff, neg 161280 0x56bcccf,
   pos 322560 0x56bccdf, neg 64512 0x56bccef, pos 2688 0x56bccff, neg 177408 0x56bcddf,
   pos 53760 0x56bcdef, neg 1344 0x56bcdff, neg 2304 0x56bceef, pos 24192 0x56bdddf,
   neg 6336 0x56bddef, pos 44352 0x57bbbcf, neg 177408 0x57bbccf, pos 90720 0x57bbcdf,
   neg 24192 0x57bbcef, pos 2688 0x57bbcff, pos 161280 0x57bcccf, neg 96768 0x57bccdf,
   pos 21504 0x57bccef, neg 2688 0x57bccff, pos 288 0x57bcdff, neg 64512 0x57cccdf,
   pos 10752 0x57cccef, pos 48384 0x57ccddf, neg 9216 0x57ccdef, neg 5184 0x57cdddf,
   neg 44352 0x58bbbdf, pos 191520 0x58bbcdf, neg 96768 0x58bbddf, pos 20160 0x58bbdef,
   neg 1344 0x58bbdff, neg 225792 0x58bccdf, pos 177408 0x58bcddf, neg 26880 0x58bcdef,
   pos 1056 0x58bcdff, neg 24192 0x58bdddf, pos 4032 0x58bddef, pos 64512 0x58cccdf,
   neg 48384 0x58ccddf, pos 3840 0x58ccdef, pos 5184 0x58cdddf, pos 10080 0x59bbbef,
   neg 40320 0x59bbcef, pos 17472 0x59bbdef, neg 2688 0x59bbeef, pos 96 0x59bbeff,
   pos 43008 0x59bccef, neg 26880 0x59bcdef, pos 2304 0x59bceef, pos 2304 0x59bddef,
   neg 10752 0x59cccef, pos 5376 0x59ccdef]

/-- Coefficient 9 of `compute_RationalBezier_degree_4_inflections`, auto_inflection_RationalBezier.h:85. -/
def ratInflection4_9 : List Term :=
  [pos 96096 0x17bbbcd, neg 123552 0x17bbbce, pos 38016 0x17bbbcf, neg 494208 0x17bbccd,
   pos 608256 0x17bbcce, neg 177408 0x17bbccf, pos 456192 0x17bbcdd, neg 709632 0x17bbcde,
   pos 169344 0x17bbcdf, pos 193536 0x17bbcee, neg 72576 0x17bbcef, pos 5376 0x17bbcff,
   pos 608256 0x17bcccd, neg 709632 0x17bccce, pos 193536 0x17bcccf, neg 1064448 0x17bccdd,
   pos 1548288 0x17bccde, neg 338688 0x17bccdf, neg 387072 0x17bccee, pos 129024 0x17bccef,
   neg 8064 0x17bccff, pos 435456 0x17bcddd, neg 725760 0x17bcdde, pos 129024 0x17bcddf,
   pos 301056 0x17bcdee, neg 80640 0x17bcdef, pos 3744 0x17bcdff, neg 32256 0x17bceee,
   pos 9216 0x17bceef, neg 480 0x17bceff, neg 96096 0x18bbbcd, pos 114048 0x18bbbde,
   neg 44352 0x18bbbdf, pos 494208 0x18bbccd, neg 456192 0x18bbcdd, neg 354816 0x18bbcde,
   pos 169344 0x18bbcdf, pos 435456 0x18bbdde, neg 145152 0x18bbddf, neg 145152 0x18bbdee,
   pos 59136 0x18bbdef, neg 4032 0x18bbdff, neg 608256 0x18bcccd, pos 1064448 0x18bccdd,
   pos 193536 0x18bccde, neg 145152 0x18bccdf, neg 435456 0x18bcddd, neg 580608 0x18bcdde,
   pos 225792 0x18bcddf, pos 215040 0x18bcdee, neg 80640 0x18bcdef, pos 4320 0x18bcdff,
   pos 290304 0x18bddde, neg 72576 0x18bdddf, neg 145152 0x18bddee, pos 38016 0x18bddef,
   neg 1152 0x18bddff, pos 13824 0x18bdeee, neg 2688 0x18bdeef, pos 123552 0x19bbbce,
   neg 114048 0x19bbbde, pos 12096 0x19bbbef, neg 608256 0x19bbcce, pos 1064448 0x19bbcde,
   neg 193536 0x19bbcee, neg 24192 0x19bbcef, neg 435456 0x19bbdde, pos 145152 0x19bbdee,
   pos 16128 0x19bbdef, neg 8064 0x19bbeef, pos 576 0x19bbeff, pos 709632 0x19bccce,
   neg 1741824 0x19bccde, pos 387072 0x19bccee, pos 1306368 0x19bcdde, neg 516096 0x19bcdee,
   pos 32256 0x19bceee, pos 4608 0x19bceef, neg 288 0x19bceff, neg 290304 0x19bddde,
   pos 145152 0x19bddee, neg 13824 0x19bdeee, neg 1152 0x19bdeef, neg 38016 0x1abbbcf,
   pos 44352 0x1abbbdf, neg 12096 0x1abbbef, pos 177408 0x1abbccf, neg 338688 0x1abbcdf,
   pos 96768 0x1abbcef, neg 5376 0x1abbcff, pos 145152 0x1abbddf, neg 75264 0x1abbdef,
   pos 4032 0x1abbdff, pos 8064 0x1abbeef, neg 576 0x1abbeff, neg 193536 0x1abcccf,
   pos 483840 0x1abccdf, neg 129024 0x1abccef, pos 8064 0x1abccff, neg 354816 0x1abcddf,
   pos 161280 0x1abcdef, neg 8064 0x1abcdff, neg 13824 0x1abceef, pos 768 0x1abceff,
   pos 72576 0x1abdddf, neg 38016 0x1abddef, pos 1152 0x1abddff, pos 3840 0x1abdeef,
   neg 96096 0x26bbbcd, pos 123552 0x26bbbce, neg 38016 0x26bbbcf, pos 494208 0x26bbccd,
   neg 608256 0x26bbcce, pos 177408 0x26bbccf, neg 456192 0x26bbcdd, pos 709632 0x26bbcde,
   neg 169344 0x26bbcdf, neg 193536 0x26bbcee, pos 72576 0x26bbcef, neg 5376 0x26bbcff,
   neg 608256 0x26bcccd, pos 709632 0x26bccce, neg 193536 0x26bcccf, pos 1064448 0x26bccdd,
   neg 1548288 0x26bccde, pos 338688 0x26bccdf, pos 387072 0x26bccee, neg 129024 0x26bccef,
   pos 8064 0x26bccff, neg 435456 0x26bcddd, pos 725760 0x26bcdde, neg 129024 0x26bcddf,
   neg 301056 0x26bcdee, pos 80640 0x26bcdef, neg 3744 0x26bcdff, pos 32256 0x26bceee,
   neg 9216 0x26bceef, pos 480 0x26bceff, pos 96096 0x28bbbcd, neg 494208 0x28bbccd,
   pos 456192 0x28bbcdd, neg 266112 0x28bbcde, pos 60480 0x28bbcdf, pos 608256 0x28bcccd,
   neg 1064448 0x28bccdd, pos 774144 0x28bccde, neg 193536 0x28bccdf, pos 435456 0x28bcddd,
   neg 580608 0x28bcdde, pos 129024 0x28bcddf, pos 129024 0x28bcdee, neg 40320 0x28bcdef,
   pos 2016 0x28bcdff, neg 387072 0x28cccde, pos 129024 0x28cccdf, pos 516096 0x28ccdde,
   neg 145152 0x28ccddf, neg 129024 0x28ccdee, pos 36864 0x28ccdef, neg 1152 0x28ccdff,
   neg 145152 0x28cddde, pos 31104 0x28cdddf, pos 55296 0x28cddee, neg 9216 0x28cddef,
   neg 3072 0x28cdeee, neg 123552 0x29bbbce, pos 608256 0x29bbcce, neg 443520 0x29bbcde,
   pos 193536 0x29bbcee, neg 36288 0x29bbcef, neg 709632 0x29bccce, pos 774144 0x29bccde,
   neg 387072 0x29bccee, pos 86016 0x29bccef, neg 145152 0x29bcdde, pos 172032 0x29bcdee,
   neg 40320 0x29bcdef, neg 32256 0x29bceee, pos 9216 0x29bceef, neg 288 0x29bceff,
   pos 387072 0x29cccde, neg 32256 0x29cccef, neg 516096 0x29ccdde, pos 129024 0x29ccdee,
   pos 18432 0x29ccdef, neg 3072 0x29cceef, pos 145152 0x29cddde, neg 55296 0x29cddee,
   neg 1152 0x29cddef, pos 3072 0x29cdeee, pos 38016 0x2abbbcf, neg 177408 0x2abbccf,
   pos 108864 0x2abbcdf, neg 36288 0x2abbcef, pos 5376 0x2abbcff, pos 193536 0x2abcccf,
   neg 145152 0x2abccdf, pos 43008 0x2abccef, neg 8064 0x2abccff, pos 1728 0x2abcdff,
   neg 192 0x2abceff, neg 129024 0x2acccdf, pos 32256 0x2acccef, pos 145152 0x2accddf,
   neg 55296 0x2accdef, pos 1152 0x2accdff, pos 3072 0x2acceef, neg 31104 0x2acdddf,
   pos 10368 0x2acddef, pos 96096 0x36bbbcd, neg 114048 0x36bbbde, pos 44352 0x36bbbdf,
   neg 494208 0x36bbccd, pos 456192 0x36bbcdd, pos 354816 0x36bbcde, neg 169344 0x36bbcdf,
   neg 435456 0x36bbdde, pos 145152 0x36bbddf, pos 145152 0x36bbdee, neg 59136 0x36bbdef,
   pos 4032 0x36bbdff, pos 608256 0x36bcccd, neg 1064448 0x36bccdd, neg 193536 0x36bccde,
   pos 145152 0x36bccdf, pos 435456 0x36bcddd, pos 580608 0x36bcdde, neg 225792 0x36bcddf,
   neg 215040 0x36bcdee, pos 80640 0x36bcdef, neg 4320 0x36bcdff, neg 290304 0x36bddde,
   pos 72576 0x36bdddf, pos 145152 0x36bddee, neg 38016 0x36bddef, pos 1152 0x36bddff,
   neg 13824 0x36bdeee, pos 2688 0x36bdeef, neg 96096 0x37bbbcd, pos 494208 0x37bbccd,
   neg 456192 0x37bbcdd, pos 266112 0x37bbcde, neg 60480 0x37bbcdf, neg 608256 0x37bcccd,
   pos 1064448 0x37bccdd, neg 774144 0x37bccde, pos 193536 0x37bccdf, neg 435456 0x37bcddd,
   pos 580608 0x37bcdde, neg 129024 0x37bcddf, neg 129024 0x37bcdee, pos 40320 0x37bcdef,
   neg 2016 0x37bcdff, pos 387072 0x37cccde, neg 129024 0x37cccdf, neg 516096 0x37ccdde,
   pos 145152 0x37ccddf, pos 129024 0x37ccdee, neg 36864 0x37ccdef, pos 1152 0x37ccdff,
   pos 145152 0x37cddde, neg 31104 0x37cdddf, neg 55296 0x37cddee, pos 9216 0x37cddef,
   pos 3072 0x37cdeee, pos 114048 0x39bbbde, neg 620928 0x39bbcde, pos 435456 0x39bbdde,
   neg 145152 0x39bbdee, pos 18816 0x39bbdef, pos 967680 0x39bccde, neg 1161216 0x39bcdde,
   pos 344064 0x39bcdee, neg 40320 0x39bcdef, pos 290304 0x39bddde, neg 145152 0x39bddee,
   pos 13824 0x39bddef, pos 13824 0x39bdeee, neg 1536 0x39bdeef, neg 387072 0x39cccde,
   pos 516096 0x39ccdde, neg 129024 0x39ccdee, pos 13824 0x39ccdef, neg 145152 0x39cddde,
   pos 55296 0x39cddee, neg 4608 0x39cddef, neg 3072 0x39cdeee, neg 44352 0x3abbbdf,
   pos 229824 0x3abbcdf, neg 145152 0x3abbddf, pos 40320 0x3abbdef, neg 4032 0x3abbdff,
   neg 338688 0x3abccdf, pos 354816 0x3abcddf, neg 80640 0x3abcdef, pos 6336 0x3abcdff,
   neg 72576 0x3abdddf, pos 24192 0x3abddef, neg 1152 0x3abddff, neg 1152 0x3abdeef,
   pos 129024 0x3acccdf, neg 145152 0x3accddf, pos 23040 0x3accdef, neg 1152 0x3accdff,
   pos 31104 0x3acdddf, neg 4608 0x3acddef, neg 123552 0x46bbbce, pos 114048 0x46bbbde,
   neg 12096 0x46bbbef, pos 608256 0x46bbcce, neg 1064448 0x46bbcde, pos 193536 0x46bbcee,
   pos 24192 0x46bbcef, pos 435456 0x46bbdde, neg 145152 0x46bbdee, neg 16128 0x46bbdef,
   pos 8064 0x46bbeef, neg 576 0x46bbeff, neg 709632 0x46bccce, pos 1741824 0x46bccde,
   neg 387072 0x46bccee, neg 1306368 0x46bcdde, pos 516096 0x46bcdee, neg 32256 0x46bceee,
   neg 4608 0x46bceef, pos 288 0x46bceff, pos 290304 0x46bddde, neg 145152 0x46bddee,
   pos 13824 0x46bdeee, pos 1152 0x46bdeef, pos 123552 0x47bbbce, neg 608256 0x47bbcce,
   pos 443520 0x47bbcde, neg 193536 0x47bbcee, pos 36288 0x47bbcef, pos 709632 0x47bccce,
   neg 774144 0x47bccde, pos 387072 0x47bccee, neg 86016 0x47bccef, pos 145152 0x47bcdde,
   neg 172032 0x47bcdee, pos 40320 0x47bcdef, pos 32256 0x47bceee, neg 9216 0x47bceef,
   pos 288 0x47bceff, neg 387072 0x47cccde, pos 32256 0x47cccef, pos 516096 0x47ccdde,
   neg 129024 0x47ccdee, neg 18432 0x47ccdef, pos 3072 0x47cceef, neg 145152 0x47cddde,
   pos 55296 0x47cddee, pos 1152 0x47cddef, neg 3072 0x47cdeee, neg 114048 0x48bbbde,
   pos 620928 0x48bbcde, neg 435456 0x48bbdde, pos 145152 0x48bbdee, neg 18816 0x48bbdef,
   neg 967680 0x48bccde, pos 1161216 0x48bcdde, neg 344064 0x48bcdee, pos 40320 0x48bcdef,
   neg 290304 0x48bddde, pos 145152 0x48bddee, neg 13824 0x48bddef, neg 13824 0x48bdeee,
   pos 1536 0x48bdeef, pos 387072 0x48cccde, neg 516096 0x48ccdde, pos 129024 0x48ccdee,
   neg 13824 0x48ccdef, pos 145152 0x48cddde, neg 55296 0x48cddee, pos 4608 0x48cddef,
   pos 3072 0x48cdeee, pos 12096 0x4abbbef, neg 60480 0x4abbcef, pos 34944 0x4abbdef,
   neg 8064 0x4abbeef, pos 576 0x4abbeff, pos 86016 0x4abccef, neg 80640 0x4abcdef,
   pos 13824 0x4abceef, neg 576 0x4abceff, pos 13824 0x4abddef, neg 2688 0x4abdeef,
   neg 32256 0x4acccef, pos 32256 0x4accdef, neg 3072 0x4acceef, neg 5760 0x4acddef,
   pos 38016 0x56bbbcf, neg 44352 0x56bbbdf, pos 12096 0x56bbbef, neg 177408 0x56bbccf,
   pos 338688 0x56bbcdf, neg 96768 0x56bbcef, pos 5376 0x56bbcff, neg 145152 0x56bbddf,
   pos 75264 0x56bbdef, neg 4032 0x56bbdff, neg 8064 0x56bbeef, pos 576 0x56bbeff,
   pos 193536 0x56bcccf, neg 483840 0x56bccdf, pos 129024 0x56bccef, neg 8064 0x56bccff,
   pos 354816 0x56bcddf, neg 161280 0x56bcdef, pos 8064 0x56bcdff, pos 13824 0x56bceef,
   neg 768 0x56bceff, neg 72576 0x56bdddf, pos 38016 0x56bddef, neg 1152 0x56bddff,
   neg 3840 0x56bdeef, neg 38016 0x57bbbcf, pos 177408 0x57bbccf, neg 108864 0x57bbcdf,
   pos 36288 0x57bbcef, neg 5376 0x57bbcff, neg 193536 0x57bcccf, pos 145152 0x57bccdf,
   neg 43008 0x57bccef, pos 8064 0x57bccff, neg 1728 0x57bcdff, pos 192 0x57bceff,
   pos 129024 0x57cccdf, neg 32256 0x57cccef, neg 145152 0x57ccddf, pos 55296 0x57ccdef,
   neg 1152 0x57ccdff, neg 3072 0x57cceef, pos 31104 0x57cdddf, neg 10368 0x57cddef,
   pos 44352 0x58bbbdf, neg 229824 0x58bbcdf, pos 145152 0x58bbddf, neg 40320 0x58bbdef,
   pos 4032 0x58bbdff, pos 338688 0x58bccdf, neg 354816 0x58bcddf, pos 80640 0x58bcdef,
   neg 6336 0x58bcdff, pos 72576 0x58bdddf, neg 24192 0x58bddef, pos 1152 0x58bddff,
   pos 1152 0x58bdeef, neg 129024 0x58cccdf, pos 145152 0x58ccddf, neg 23040 0x58ccdef,
   pos 1152 0x58ccdff, neg 31104 0x58cdddf, pos 4608 0x58cddef, neg 12096 0x59bbbef,
   pos 60480 0x59bbcef, neg 34944 0x59bbdef, pos 8064 0x59bbeef, neg 576 0x59bbeff,
   neg 86016 0x59bccef, pos 80640 0x59bcdef, neg 13824 0x59bceef, pos 576 0x59bceff,
   neg 13824 0x59bddef, pos 2688 0x59bdeef, pos 32256 0x59cccef, neg 32256 0x59ccdef,
   pos 3072 0x59cceef, pos 5760 0x59cddef]

/-- Coefficient 10 of `compute_RationalBezier_degree_4_inflections`, auto_inflection_RationalBezier.h:86. -/
def ratInflection4_10 : List Term :=
  [neg 48048 0x17bbbcd, pos 68640 0x17bbbce, neg 23760 0x17bbbcf, pos 274560 0x17bbccd,
   neg 380160 0x17bbcce, pos 126720 0x17bbccf, neg 285120 0x17bbcdd, pos 506880 0x17bbcde,
   neg 141120 0x17bbcdf, neg 161280 0x17bbcee, pos 72576 0x17bbcef, neg 6720 0x17bbcff,
   neg 380160 0x17bcccd, pos 506880 0x17bccce, neg 161280 0x17bcccf, pos 760320 0x17bccdd,
   neg 1290240 0x17bccde, pos 338688 0x17bccdf, pos 387072 0x17bccee, neg 161280 0x17bccef,
   pos 13440 0x17bccff, neg 362880 0x17bcddd, pos 725760 0x17bcdde, neg 161280 0x17bcddf,
   neg 376320 0x17bcdee, pos 134400 0x17bcdef, neg 9360 0x17bcdff, pos 53760 0x17bceee,
   neg 23040 0x17bceef, pos 2400 0x17bceff, neg 48 0x17bcfff, pos 48048 0x18bbbcd,
   neg 71280 0x18bbbde, pos 31680 0x18bbbdf, neg 274560 0x18bbccd, pos 285120 0x18bbcdd,
   pos 253440 0x18bbcde, neg 141120 0x18bbcdf, neg 362880 0x18bbdde, pos 145152 0x18bbddf,
   pos 145152 0x18bbdee, neg 73920 0x18bbdef, pos 6720 0x18bbdff, pos 380160 0x18bcccd,
   neg 760320 0x18bccdd, neg 161280 0x18bccde, pos 145152 0x18bccdf, pos 362880 0x18bcddd,
   pos 580608 0x18bcdde, neg 282240 0x18bcddf, neg 268800 0x18bcdee, pos 134400 0x18bcdef,
   neg 10800 0x18bcdff, neg 362880 0x18bddde, pos 120960 0x18bdddf, pos 241920 0x18bddee,
   neg 95040 0x18bddef, pos 5760 0x18bddff, neg 34560 0x18bdeee, pos 13440 0x18bdeef,
   neg 912 0x18bdeff, neg 68640 0x19bbbce, pos 71280 0x19bbbde, neg 10080 0x19bbbef,
   pos 380160 0x19bbcce, neg 760320 0x19bbcde, pos 161280 0x19bbcee, pos 24192 0x19bbcef,
   pos 362880 0x19bbdde, neg 145152 0x19bbdee, neg 20160 0x19bbdef, pos 13440 0x19bbeef,
   neg 1440 0x19bbeff, neg 506880 0x19bccce, pos 1451520 0x19bccde, neg 387072 0x19bccee,
   neg 1306368 0x19bcdde, pos 645120 0x19bcdee, neg 53760 0x19bceee, neg 11520 0x19bceef,
   pos 1440 0x19bceff, pos 362880 0x19bddde, neg 241920 0x19bddee, pos 34560 0x19bdeee,
   pos 5760 0x19bdeef, neg 432 0x19bdeff, neg 768 0x19beeef, pos 23760 0x1abbbcf,
   neg 31680 0x1abbbdf, pos 10080 0x1abbbef, neg 126720 0x1abbccf, pos 282240 0x1abbcdf,
   neg 96768 0x1abbcef, pos 6720 0x1abbcff, neg 145152 0x1abbddf, pos 94080 0x1abbdef,
   neg 6720 0x1abbdff, neg 13440 0x1abbeef, pos 1440 0x1abbeff, pos 161280 0x1abcccf,
   neg 483840 0x1abccdf, pos 161280 0x1abccef, neg 13440 0x1abccff, pos 443520 0x1abcddf,
   neg 268800 0x1abcdef, pos 20160 0x1abcdff, pos 34560 0x1abceef, neg 3840 0x1abceff,
   pos 48 0x1abcfff, neg 120960 0x1abdddf, pos 95040 0x1abddef, neg 5760 0x1abddff,
   neg 19200 0x1abdeef, pos 1344 0x1abdeff, pos 768 0x1abeeef, pos 48048 0x26bbbcd,
   neg 68640 0x26bbbce, pos 23760 0x26bbbcf, neg 274560 0x26bbccd, pos 380160 0x26bbcce,
   neg 126720 0x26bbccf, pos 285120 0x26bbcdd, neg 506880 0x26bbcde, pos 141120 0x26bbcdf,
   pos 161280 0x26bbcee, neg 72576 0x26bbcef, pos 6720 0x26bbcff, pos 380160 0x26bcccd,
   neg 506880 0x26bccce, pos 161280 0x26bcccf, neg 760320 0x26bccdd, pos 1290240 0x26bccde,
   neg 338688 0x26bccdf, neg 387072 0x26bccee, pos 161280 0x26bccef, neg 13440 0x26bccff,
   pos 362880 0x26bcddd, neg 725760 0x26bcdde, pos 161280 0x26bcddf, pos 376320 0x26bcdee,
   neg 134400 0x26bcdef, pos 9360 0x26bcdff, neg 53760 0x26bceee, pos 23040 0x26bceef,
   neg 2400 0x26bceff, pos 48 0x26bcfff, neg 48048 0x28bbbcd, pos 274560 0x28bbccd,
   neg 285120 0x28bbcdd, pos 190080 0x28bbcde, neg 50400 0x28bbcdf, neg 380160 0x28bcccd,
   pos 760320 0x28bccdd, neg 645120 0x28bccde, pos 193536 0x28bccdf, neg 362880 0x28bcddd,
   pos 580608 0x28bcdde, neg 161280 0x28bcddf, neg 161280 0x28bcdee, pos 67200 0x28bcdef,
   neg 5040 0x28bcdff, pos 387072 0x28cccde, neg 161280 0x28cccdf, neg 645120 0x28ccdde,
   pos 241920 0x28ccddf, pos 215040 0x28ccdee, neg 92160 0x28ccdef, pos 5760 0x28ccdff,
   pos 241920 0x28cddde, neg 77760 0x28cdddf, neg 138240 0x28cddee, pos 46080 0x28cddef,
   neg 1728 0x28cddff, pos 15360 0x28cdeee, neg 3840 0x28cdeef, pos 68640 0x29bbbce,
   neg 380160 0x29bbcce, pos 316800 0x29bbcde, neg 161280 0x29bbcee, pos 36288 0x29bbcef,
   pos 506880 0x29bccce, neg 645120 0x29bccde, pos 387072 0x29bccee, neg 107520 0x29bccef,
   pos 145152 0x29bcdde, neg 215040 0x29bcdee, pos 67200 0x29bcdef, pos 53760 0x29bceee,
   neg 23040 0x29bceef, pos 1440 0x29bceff, neg 387072 0x29cccde, pos 53760 0x29cccef,
   pos 645120 0x29ccdde, neg 215040 0x29ccdee, neg 46080 0x29ccdef, pos 15360 0x29cceef,
   neg 768 0x29cceff, neg 241920 0x29cddde, pos 138240 0x29cddee, pos 5760 0x29cddef,
   neg 15360 0x29cdeee, neg 3072 0x29cdeef, neg 23760 0x2abbbcf, pos 126720 0x2abbccf,
   neg 90720 0x2abbcdf, pos 36288 0x2abbcef, neg 6720 0x2abbcff, neg 161280 0x2abcccf,
   pos 145152 0x2abccdf, neg 53760 0x2abccef, pos 13440 0x2abccff, neg 4320 0x2abcdff,
   pos 960 0x2abceff, neg 48 0x2abcfff, pos 161280 0x2acccdf, neg 53760 0x2acccef,
   neg 241920 0x2accddf, pos 138240 0x2accdef, neg 5760 0x2accdff, neg 15360 0x2acceef,
   pos 768 0x2acceff, pos 77760 0x2acdddf, neg 51840 0x2acddef, pos 1728 0x2acddff,
   pos 6912 0x2acdeef, neg 48048 0x36bbbcd, pos 71280 0x36bbbde, neg 31680 0x36bbbdf,
   pos 274560 0x36bbccd, neg 285120 0x36bbcdd, neg 253440 0x36bbcde, pos 141120 0x36bbcdf,
   pos 362880 0x36bbdde, neg 145152 0x36bbddf, neg 145152 0x36bbdee, pos 73920 0x36bbdef,
   neg 6720 0x36bbdff, neg 380160 0x36bcccd, pos 760320 0x36bccdd, pos 161280 0x36bccde,
   neg 145152 0x36bccdf, neg 362880 0x36bcddd, neg 580608 0x36bcdde, pos 282240 0x36bcddf,
   pos 268800 0x36bcdee, neg 134400 0x36bcdef, pos 10800 0x36bcdff, pos 362880 0x36bddde,
   neg 120960 0x36bdddf, neg 241920 0x36bddee, pos 95040 0x36bddef, neg 5760 0x36bddff,
   pos 34560 0x36bdeee, neg 13440 0x36bdeef, pos 912 0x36bdeff, pos 48048 0x37bbbcd,
   neg 274560 0x37bbccd, pos 285120 0x37bbcdd, neg 190080 0x37bbcde, pos 50400 0x37bbcdf,
   pos 380160 0x37bcccd, neg 760320 0x37bccdd, pos 645120 0x37bccde, neg 193536 0x37bccdf,
   pos 362880 0x37bcddd, neg 580608 0x37bcdde, pos 161280 0x37bcddf, pos 161280 0x37bcdee,
   neg 67200 0x37bcdef, pos 5040 0x37bcdff, neg 387072 0x37cccde, pos 161280 0x37cccdf,
   pos 645120 0x37ccdde, neg 241920 0x37ccddf, neg 215040 0x37ccdee, pos 92160 0x37ccdef,
   neg 5760 0x37ccdff, neg 241920 0x37cddde, pos 77760 0x37cdddf, pos 138240 0x37cddee,
   neg 46080 0x37cddef, pos 1728 0x37cddff, neg 15360 0x37cdeee, pos 3840 0x37cdeef,
   neg 71280 0x39bbbde, pos 443520 0x39bbcde, neg 362880 0x39bbdde, pos 145152 0x39bbdee,
   neg 23520 0x39bbdef, neg 806400 0x39bccde, pos 1161216 0x39bcdde, neg 430080 0x39bcdee,
   pos 67200 0x39bcdef, neg 362880 0x39bddde, pos 241920 0x39bddee, neg 34560 0x39bddef,
   neg 34560 0x39bdeee, pos 7680 0x39bdeef, neg 240 0x39bdeff, pos 387072 0x39cccde,
   neg 645120 0x39ccdde, pos 215040 0x39ccdee, neg 34560 0x39ccdef, pos 241920 0x39cddde,
   neg 138240 0x39cddee, pos 23040 0x39cddef, pos 15360 0x39cdeee, neg 3072 0x39cdeef,
   neg 1728 0x39dddef, pos 31680 0x3abbbdf, neg 191520 0x3abbcdf, pos 145152 0x3abbddf,
   neg 50400 0x3abbdef, pos 6720 0x3abbdff, pos 338688 0x3abccdf, neg 443520 0x3abcddf,
   pos 134400 0x3abcdef, neg 15840 0x3abcdff, pos 120960 0x3abdddf, neg 60480 0x3abddef,
   pos 5760 0x3abddff, pos 5760 0x3abdeef, neg 672 0x3abdeff, neg 161280 0x3acccdf,
   pos 241920 0x3accddf, neg 57600 0x3accdef, pos 5760 0x3accdff, neg 77760 0x3acdddf,
   pos 23040 0x3acddef, neg 1728 0x3acddff, neg 768 0x3acdeef, pos 1728 0x3adddef,
   pos 68640 0x46bbbce, neg 71280 0x46bbbde, pos 10080 0x46bbbef, neg 380160 0x46bbcce,
   pos 760320 0x46bbcde, neg 161280 0x46bbcee, neg 24192 0x46bbcef, neg 362880 0x46bbdde,
   pos 145152 0x46bbdee, pos 20160 0x46bbdef, neg 13440 0x46bbeef, pos 1440 0x46bbeff,
   pos 506880 0x46bccce, neg 1451520 0x46bccde, pos 387072 0x46bccee, pos 1306368 0x46bcdde,
   neg 645120 0x46bcdee, pos 53760 0x46bceee, pos 11520 0x46bceef, neg 1440 0x46bceff,
   neg 362880 0x46bddde, pos 241920 0x46bddee, neg 34560 0x46bdeee, neg 5760 0x46bdeef,
   pos 432 0x46bdeff, pos 768 0x46beeef, neg 68640 0x47bbbce, pos 380160 0x47bbcce,
   neg 316800 0x47bbcde, pos 161280 0x47bbcee, neg 36288 0x47bbcef, neg 506880 0x47bccce,
   pos 645120 0x47bccde, neg 387072 0x47bccee, pos 107520 0x47bccef, neg 145152 0x47bcdde,
   pos 215040 0x47bcdee, neg 67200 0x47bcdef, neg 53760 0x47bceee, pos 23040 0x47bceef,
   neg 1440 0x47bceff, pos 387072 0x47cccde, neg 53760 0x47cccef, neg 645120 0x47ccdde,
   pos 215040 0x47ccdee, pos 46080 0x47ccdef, neg 15360 0x47cceef, pos 768 0x47cceff,
   pos 241920 0x47cddde, neg 138240 0x47cddee, neg 5760 0x47cddef, pos 15360 0x47cdeee,
   pos 3072 0x47cdeef, pos 71280 0x48bbbde, neg 443520 0x48bbcde, pos 362880 0x48bbdde,
   neg 145152 0x48bbdee, pos 23520 0x48bbdef, pos 806400 0x48bccde, neg 1161216 0x48bcdde,
   pos 430080 0x48bcdee, neg 67200 0x48bcdef, pos 362880 0x48bddde, neg 241920 0x48bddee,
   pos 34560 0x48bddef, pos 34560 0x48bdeee, neg 7680 0x48bdeef, pos 240 0x48bdeff,
   neg 387072 0x48cccde, pos 645120 0x48ccdde, neg 215040 0x48ccdee, pos 34560 0x48ccdef,
   neg 241920 0x48cddde, pos 138240 0x48cddee, neg 23040 0x48cddef, neg 15360 0x48cdeee,
   pos 3072 0x48cdeef, pos 1728 0x48dddef, neg 10080 0x4abbbef, pos 60480 0x4abbcef,
   neg 43680 0x4abbdef, pos 13440 0x4abbeef, neg 1440 0x4abbeff, neg 107520 0x4abccef,
   pos 134400 0x4abcdef, neg 34560 0x4abceef, pos 2880 0x4abceff, neg 34560 0x4abddef,
   pos 13440 0x4abdeef, neg 672 0x4abdeff, neg 768 0x4abeeef, pos 53760 0x4acccef,
   neg 80640 0x4accdef, pos 15360 0x4acceef, neg 768 0x4acceff, pos 28800 0x4acddef,
   neg 6144 0x4acdeef, neg 1728 0x4adddef, neg 23760 0x56bbbcf, pos 31680 0x56bbbdf,
   neg 10080 0x56bbbef, pos 126720 0x56bbccf, neg 282240 0x56bbcdf, pos 96768 0x56bbcef,
   neg 6720 0x56bbcff, pos 145152 0x56bbddf, neg 94080 0x56bbdef, pos 6720 0x56bbdff,
   pos 13440 0x56bbeef, neg 1440 0x56bbeff, neg 161280 0x56bcccf, pos 483840 0x56bccdf,
   neg 161280 0x56bccef, pos 13440 0x56bccff, neg 443520 0x56bcddf, pos 268800 0x56bcdef,
   neg 20160 0x56bcdff, neg 34560 0x56bceef, pos 3840 0x56bceff, neg 48 0x56bcfff,
   pos 120960 0x56bdddf, neg 95040 0x56bddef, pos 5760 0x56bddff, pos 19200 0x56bdeef,
   neg 1344 0x56bdeff, neg 768 0x56beeef, pos 23760 0x57bbbcf, neg 126720 0x57bbccf,
   pos 90720 0x57bbcdf, neg 36288 0x57bbcef, pos 6720 0x57bbcff, pos 161280 0x57bcccf,
   neg 145152 0x57bccdf, pos 53760 0x57bccef, neg 13440 0x57bccff, pos 4320 0x57bcdff,
   neg 960 0x57bceff, pos 48 0x57bcfff, neg 161280 0x57cccdf, pos 53760 0x57cccef,
   pos 241920 0x57ccddf, neg 138240 0x57ccdef, pos 5760 0x57ccdff, pos 15360 0x57cceef,
   neg 768 0x57cceff, neg 77760 0x57cdddf, pos 51840 0x57cddef, neg 1728 0x57cddff,
   neg 6912 0x57cdeef, neg 31680 0x58bbbdf, pos 191520 0x58bbcdf, neg 145152 0x58bbddf,
   pos 50400 0x58bbdef, neg 6720 0x58bbdff, neg 338688 0x58bccdf, pos 443520 0x58bcddf,
   neg 134400 0x58bcdef, pos 15840 0x58bcdff, neg 120960 0x58bdddf, pos 60480 0x58bddef,
   neg 5760 0x58bddff, neg 5760 0x58bdeef, pos 672 0x58bdeff, pos 161280 0x58cccdf,
   neg 241920 0x58ccddf, pos 57600 0x58ccdef, neg 5760 0x58ccdff, pos 77760 0x58cdddf,
   neg 23040 0x58cddef, pos 1728 0x58cddff, pos 768 0x58cdeef, neg 1728 0x58dddef,
   pos 10080 0x59bbbef, neg 60480 0x59bbcef, pos 43680 0x59bbdef, neg 13440 0x59bbeef,
   pos 1440 0x59bbeff, pos 107520 0x59bccef, neg 134400 0x59bcdef, pos 34560 0x59bceef,
   neg 2880 0x59bceff, pos 34560 0x59bddef, neg 13440 0x59bdeef, pos 672 0x59bdeff,
   pos 768 0x59beeef, neg 53760 0x59cccef, pos 80640 0x59ccdef, neg 15360 0x59cceef,
   pos 768 0x59cceff, neg 28800 0x59cddef, pos 6144 0x59cdeef, pos 1728 0x59dddef]

/-- Coefficient 11 of `compute_RationalBezier_degree_4_inflections`, auto_inflection_RationalBezier.h:87. -/
def ratInflection4_11 : List Term :=
  [pos 17472 0x17bbbcd, neg 27456 0x17bbbce, pos 10560 0x17bbbcf, neg 109824 0x17bbccd,
   pos 168960 0x17bbcce, neg 63360 0x17bbccf, pos 126720 0x17bbcdd, neg 253440 0x17bbcde,
   pos 80640 0x17bbcdf, pos 92160 0x17bbcee, neg 48384 0x17bbcef, pos 5376 0x17bbcff,
   pos 168960 0x17bcccd, neg 253440 0x17bccce, pos 92160 0x17bcccf, neg 380160 0x17bccdd,
   pos 737280 0x17bccde, neg 225792 0x17bccdf, neg 258048 0x17bccee, pos 129024 0x17bccef,
   neg 13440 0x17bccff, pos 207360 0x17bcddd, neg 483840 0x17bcdde, pos 129024 0x17bcddf,
   pos 301056 0x17bcdee, neg 134400 0x17bcdef, pos 12480 0x17bcdff, neg 53760 0x17bceee,
   pos 30720 0x17bceef, neg 4800 0x17bceff, pos 192 0x17bcfff, neg 17472 0x18bbbcd,
   pos 31680 0x18bbbde, neg 15840 0x18bbbdf, pos 109824 0x18bbccd, neg 126720 0x18bbcdd,
   neg 126720 0x18bbcde, pos 80640 0x18bbcdf, pos 207360 0x18bbdde, neg 96768 0x18bbddf,
   neg 96768 0x18bbdee, pos 59136 0x18bbdef, neg 6720 0x18bbdff, neg 168960 0x18bcccd,
   pos 380160 0x18bccdd, pos 92160 0x18bccde, neg 96768 0x18bccdf, neg 207360 0x18bcddd,
   neg 387072 0x18bcdde, pos 225792 0x18bcddf, pos 215040 0x18bcdee, neg 134400 0x18bcdef,
   pos 14400 0x18bcdff, pos 290304 0x18bddde, neg 120960 0x18bdddf, neg 241920 0x18bddee,
   pos 126720 0x18bddef, neg 11520 0x18bddff, pos 46080 0x18bdeee, neg 26880 0x18bdeef,
   pos 3648 0x18bdeff, neg 96 0x18bdfff, pos 27456 0x19bbbce, neg 31680 0x19bbbde,
   pos 5760 0x19bbbef, neg 168960 0x19bbcce, pos 380160 0x19bbcde, neg 92160 0x19bbcee,
   neg 16128 0x19bbcef, neg 207360 0x19bbdde, pos 96768 0x19bbdee, pos 16128 0x19bbdef,
   neg 13440 0x19bbeef, pos 1920 0x19bbeff, pos 253440 0x19bccce, neg 829440 0x19bccde,
   pos 258048 0x19bccee, pos 870912 0x19bcdde, neg 516096 0x19bcdee, pos 53760 0x19bceee,
   pos 15360 0x19bceef, neg 2880 0x19bceff, neg 290304 0x19bddde, pos 241920 0x19bddee,
   neg 46080 0x19bdeee, neg 11520 0x19bdeef, pos 1728 0x19bdeff, pos 3072 0x19beeef,
   neg 384 0x19beeff, neg 10560 0x1abbbcf, pos 15840 0x1abbbdf, neg 5760 0x1abbbef,
   pos 63360 0x1abbccf, neg 161280 0x1abbcdf, pos 64512 0x1abbcef, neg 5376 0x1abbcff,
   pos 96768 0x1abbddf, neg 75264 0x1abbdef, pos 6720 0x1abbdff, pos 13440 0x1abbeef,
   neg 1920 0x1abbeff, neg 92160 0x1abcccf, pos 322560 0x1abccdf, neg 129024 0x1abccef,
   pos 13440 0x1abccff, neg 354816 0x1abcddf, pos 268800 0x1abcdef, neg 26880 0x1abcdff,
   neg 46080 0x1abceef, pos 7680 0x1abceff, neg 192 0x1abcfff, pos 120960 0x1abdddf,
   neg 126720 0x1abddef, pos 11520 0x1abddff, pos 38400 0x1abdeef, neg 5376 0x1abdeff,
   pos 96 0x1abdfff, neg 3072 0x1abeeef, pos 384 0x1abeeff, neg 17472 0x26bbbcd,
   pos 27456 0x26bbbce, neg 10560 0x26bbbcf, pos 109824 0x26bbccd, neg 168960 0x26bbcce,
   pos 63360 0x26bbccf, neg 126720 0x26bbcdd, pos 253440 0x26bbcde, neg 80640 0x26bbcdf,
   neg 92160 0x26bbcee, pos 48384 0x26bbcef, neg 5376 0x26bbcff, neg 168960 0x26bcccd,
   pos 253440 0x26bccce, neg 92160 0x26bcccf, pos 380160 0x26bccdd, neg 737280 0x26bccde,
   pos 225792 0x26bccdf, pos 258048 0x26bccee, neg 129024 0x26bccef, pos 13440 0x26bccff,
   neg 207360 0x26bcddd, pos 483840 0x26bcdde, neg 129024 0x26bcddf, neg 301056 0x26bcdee,
   pos 134400 0x26bcdef, neg 12480 0x26bcdff, pos 53760 0x26bceee, neg 30720 0x26bceef,
   pos 4800 0x26bceff, neg 192 0x26bcfff, pos 17472 0x28bbbcd, neg 109824 0x28bbccd,
   pos 126720 0x28bbcdd, neg 95040 0x28bbcde, pos 28800 0x28bbcdf, pos 168960 0x28bcccd,
   neg 380160 0x28bccdd, pos 368640 0x28bccde, neg 129024 0x28bccdf, pos 207360 0x28bcddd,
   neg 387072 0x28bcdde, pos 129024 0x28bcddf, pos 129024 0x28bcdee, neg 67200 0x28bcdef,
   pos 6720 0x28bcdff, neg 258048 0x28cccde, pos 129024 0x28cccdf, pos 516096 0x28ccdde,
   neg 241920 0x28ccddf, neg 215040 0x28ccdee, pos 122880 0x28ccdef, neg 11520 0x28ccdff,
   neg 241920 0x28cddde, pos 103680 0x28cdddf, pos 184320 0x28cddee, neg 92160 0x28cddef,
   pos 6912 0x28cddff, neg 30720 0x28cdeee, pos 15360 0x28cdeef, neg 1344 0x28cdeff,
   neg 27456 0x29bbbce, pos 168960 0x29bbcce, neg 158400 0x29bbcde, pos 92160 0x29bbcee,
   neg 24192 0x29bbcef, neg 253440 0x29bccce, pos 368640 0x29bccde, neg 258048 0x29bccee,
   pos 86016 0x29bccef, neg 96768 0x29bcdde, pos 172032 0x29bcdee, neg 67200 0x29bcdef,
   neg 53760 0x29bceee, pos 30720 0x29bceef, neg 2880 0x29bceff, pos 258048 0x29cccde,
   neg 53760 0x29cccef, neg 516096 0x29ccdde, pos 215040 0x29ccdee, pos 61440 0x29ccdef,
   neg 30720 0x29cceef, pos 3072 0x29cceff, pos 241920 0x29cddde, neg 184320 0x29cddee,
   neg 11520 0x29cddef, pos 30720 0x29cdeee, pos 12288 0x29cdeef, neg 960 0x29cdeff,
   neg 1536 0x29ceeef, pos 10560 0x2abbbcf, neg 63360 0x2abbccf, pos 51840 0x2abbcdf,
   neg 24192 0x2abbcef, pos 5376 0x2abbcff, pos 92160 0x2abcccf, neg 96768 0x2abccdf,
   pos 43008 0x2abccef, neg 13440 0x2abccff, pos 5760 0x2abcdff, neg 1920 0x2abceff,
   pos 192 0x2abcfff, neg 129024 0x2acccdf, pos 53760 0x2acccef, pos 241920 0x2accddf,
   neg 184320 0x2accdef, pos 11520 0x2accdff, pos 30720 0x2acceef, neg 3072 0x2acceff,
   neg 103680 0x2acdddf, pos 103680 0x2acddef, neg 6912 0x2acddff, neg 27648 0x2acdeef,
   pos 2304 0x2acdeff, pos 1536 0x2aceeef, pos 17472 0x36bbbcd, neg 31680 0x36bbbde,
   pos 15840 0x36bbbdf, neg 109824 0x36bbccd, pos 126720 0x36bbcdd, pos 126720 0x36bbcde,
   neg 80640 0x36bbcdf, neg 207360 0x36bbdde, pos 96768 0x36bbddf, pos 96768 0x36bbdee,
   neg 59136 0x36bbdef, pos 6720 0x36bbdff, pos 168960 0x36bcccd, neg 380160 0x36bccdd,
   neg 92160 0x36bccde, pos 96768 0x36bccdf, pos 207360 0x36bcddd, pos 387072 0x36bcdde,
   neg 225792 0x36bcddf, neg 215040 0x36bcdee, pos 134400 0x36bcdef, neg 14400 0x36bcdff,
   neg 290304 0x36bddde, pos 120960 0x36bdddf, pos 241920 0x36bddee, neg 126720 0x36bddef,
   pos 11520 0x36bddff, neg 46080 0x36bdeee, pos 26880 0x36bdeef, neg 3648 0x36bdeff,
   pos 96 0x36bdfff, neg 17472 0x37bbbcd, pos 109824 0x37bbccd, neg 126720 0x37bbcdd,
   pos 95040 0x37bbcde, neg 28800 0x37bbcdf, neg 168960 0x37bcccd, pos 380160 0x37bccdd,
   neg 368640 0x37bccde, pos 129024 0x37bccdf, neg 207360 0x37bcddd, pos 387072 0x37bcdde,
   neg 129024 0x37bcddf, neg 129024 0x37bcdee, pos 67200 0x37bcdef, neg 6720 0x37bcdff,
   pos 258048 0x37cccde, neg 129024 0x37cccdf, neg 516096 0x37ccdde, pos 241920 0x37ccddf,
   pos 215040 0x37ccdee, neg 122880 0x37ccdef, pos 11520 0x37ccdff, pos 241920 0x37cddde,
   neg 103680 0x37cdddf, neg 184320 0x37cddee, pos 92160 0x37cddef, neg 6912 0x37cddff,
   pos 30720 0x37cdeee, neg 15360 0x37cdeef, pos 1344 0x37cdeff, pos 31680 0x39bbbde,
   neg 221760 0x39bbcde, pos 207360 0x39bbdde, neg 96768 0x39bbdee, pos 18816 0x39bbdef,
   pos 460800 0x39bccde, neg 774144 0x39bcdde, pos 344064 0x39bcdee, neg 67200 0x39bcdef,
   pos 290304 0x39bddde, neg 241920 0x39bddee, pos 46080 0x39bddef, pos 46080 0x39bdeee,
   neg 15360 0x39bdeef, pos 960 0x39bdeff, neg 258048 0x39cccde, pos 516096 0x39ccdde,
   neg 215040 0x39ccdee, pos 46080 0x39ccdef, neg 241920 0x39cddde, pos 184320 0x39cddee,
   neg 46080 0x39cddef, neg 30720 0x39cdeee, pos 12288 0x39cdeef, neg 576 0x39cdeff,
   pos 6912 0x39dddef, neg 2304 0x39ddeef, neg 15840 0x3abbbdf, pos 109440 0x3abbcdf,
   neg 96768 0x3abbddf, pos 40320 0x3abbdef, neg 6720 0x3abbdff, neg 225792 0x3abccdf,
   pos 354816 0x3abcddf, neg 134400 0x3abcdef, pos 21120 0x3abcdff, neg 120960 0x3abdddf,
   pos 80640 0x3abddef, neg 11520 0x3abddff, neg 11520 0x3abdeef, pos 2688 0x3abdeff,
   neg 96 0x3abdfff, pos 129024 0x3acccdf, neg 241920 0x3accddf, pos 76800 0x3accdef,
   neg 11520 0x3accdff, pos 103680 0x3acdddf, neg 46080 0x3acddef, pos 6912 0x3acddff,
   pos 3072 0x3acdeef, neg 768 0x3acdeff, neg 6912 0x3adddef, pos 2304 0x3addeef,
   neg 27456 0x46bbbce, pos 31680 0x46bbbde, neg 5760 0x46bbbef, pos 168960 0x46bbcce,
   neg 380160 0x46bbcde, pos 92160 0x46bbcee, pos 16128 0x46bbcef, pos 207360 0x46bbdde,
   neg 96768 0x46bbdee, neg 16128 0x46bbdef, pos 13440 0x46bbeef, neg 1920 0x46bbeff,
   neg 253440 0x46bccce, pos 829440 0x46bccde, neg 258048 0x46bccee, neg 870912 0x46bcdde,
   pos 516096 0x46bcdee, neg 53760 0x46bceee, neg 15360 0x46bceef, pos 2880 0x46bceff,
   pos 290304 0x46bddde, neg 241920 0x46bddee, pos 46080 0x46bdeee, pos 11520 0x46bdeef,
   neg 1728 0x46bdeff, neg 3072 0x46beeef, pos 384 0x46beeff, pos 27456 0x47bbbce,
   neg 168960 0x47bbcce, pos 158400 0x47bbcde, neg 92160 0x47bbcee, pos 24192 0x47bbcef,
   pos 253440 0x47bccce, neg 368640 0x47bccde, pos 258048 0x47bccee, neg 86016 0x47bccef,
   pos 96768 0x47bcdde, neg 172032 0x47bcdee, pos 67200 0x47bcdef, pos 53760 0x47bceee,
   neg 30720 0x47bceef, pos 2880 0x47bceff, neg 258048 0x47cccde, pos 53760 0x47cccef,
   pos 516096 0x47ccdde, neg 215040 0x47ccdee, neg 61440 0x47ccdef, pos 30720 0x47cceef,
   neg 3072 0x47cceff, neg 241920 0x47cddde, pos 184320 0x47cddee, pos 11520 0x47cddef,
   neg 30720 0x47cdeee, neg 12288 0x47cdeef, pos 960 0x47cdeff, pos 1536 0x47ceeef,
   neg 31680 0x48bbbde, pos 221760 0x48bbcde, neg 207360 0x48bbdde, pos 96768 0x48bbdee,
   neg 18816 0x48bbdef, neg 460800 0x48bccde, pos 774144 0x48bcdde, neg 344064 0x48bcdee,
   pos 67200 0x48bcdef, neg 290304 0x48bddde, pos 241920 0x48bddee, neg 46080 0x48bddef,
   neg 46080 0x48bdeee, pos 15360 0x48bdeef, neg 960 0x48bdeff, pos 258048 0x48cccde,
   neg 516096 0x48ccdde, pos 215040 0x48ccdee, neg 46080 0x48ccdef, pos 241920 0x48cddde,
   neg 184320 0x48cddee, pos 46080 0x48cddef, pos 30720 0x48cdeee, neg 12288 0x48cdeef,
   pos 576 0x48cdeff, neg 6912 0x48dddef, pos 2304 0x48ddeef, pos 5760 0x4abbbef,
   neg 40320 0x4abbcef, pos 34944 0x4abbdef, neg 13440 0x4abbeef, pos 1920 0x4abbeff,
   pos 86016 0x4abccef, neg 134400 0x4abcdef, pos 46080 0x4abceef, neg 5760 0x4abceff,
   pos 46080 0x4abddef, neg 26880 0x4abdeef, pos 2688 0x4abdeff, pos 3072 0x4abeeef,
   neg 384 0x4abeeff, neg 53760 0x4acccef, pos 107520 0x4accdef, neg 30720 0x4acceef,
   pos 3072 0x4acceff, neg 57600 0x4acddef, pos 24576 0x4acdeef, neg 1536 0x4acdeff,
   neg 1536 0x4aceeef, pos 6912 0x4adddef, neg 2304 0x4addeef, pos 10560 0x56bbbcf,
   neg 15840 0x56bbbdf, pos 5760 0x56bbbef, neg 63360 0x56bbccf, pos 161280 0x56bbcdf,
   neg 64512 0x56bbcef, pos 5376 0x56bbcff, neg 96768 0x56bbddf, pos 75264 0x56bbdef,
   neg 6720 0x56bbdff, neg 13440 0x56bbeef, pos 1920 0x56bbeff, pos 92160 0x56bcccf,
   neg 322560 0x56bccdf, pos 129024 0x56bccef, neg 13440 0x56bccff, pos 354816 0x56bcddf,
   neg 268800 0x56bcdef, pos 26880 0x56bcdff, pos 46080 0x56bceef, neg 7680 0x56bceff,
   pos 192 0x56bcfff, neg 120960 0x56bdddf, pos 126720 0x56bddef, neg 11520 0x56bddff,
   neg 38400 0x56bdeef, pos 5376 0x56bdeff, neg 96 0x56bdfff, pos 3072 0x56beeef,
   neg 384 0x56beeff, neg 10560 0x57bbbcf, pos 63360 0x57bbccf, neg 51840 0x57bbcdf,
   pos 24192 0x57bbcef, neg 5376 0x57bbcff, neg 92160 0x57bcccf, pos 96768 0x57bccdf,
   neg 43008 0x57bccef, pos 13440 0x57bccff, neg 5760 0x57bcdff, pos 1920 0x57bceff,
   neg 192 0x57bcfff, pos 129024 0x57cccdf, neg 53760 0x57cccef, neg 241920 0x57ccddf,
   pos 184320 0x57ccdef, neg 11520 0x57ccdff, neg 30720 0x57cceef, pos 3072 0x57cceff,
   pos 103680 0x57cdddf, neg 103680 0x57cddef, pos 6912 0x57cddff, pos 27648 0x57cdeef,
   neg 2304 0x57cdeff, neg 1536 0x57ceeef, pos 15840 0x58bbbdf, neg 109440 0x58bbcdf,
   pos 96768 0x58bbddf, neg 40320 0x58bbdef, pos 6720 0x58bbdff, pos 225792 0x58bccdf,
   neg 354816 0x58bcddf, pos 134400 0x58bcdef, neg 21120 0x58bcdff, pos 120960 0x58bdddf,
   neg 80640 0x58bddef, pos 11520 0x58bddff, pos 11520 0x58bdeef, neg 2688 0x58bdeff,
   pos 96 0x58bdfff, neg 129024 0x58cccdf, pos 241920 0x58ccddf, neg 76800 0x58ccdef,
   pos 11520 0x58ccdff, neg 103680 0x58cdddf, pos 46080 0x58cddef, neg 6912 0x58cddff,
   neg 3072 0x58cdeef, pos 768 0x58cdeff, pos 6912 0x58dddef, neg 2304 0x58ddeef,
   neg 5760 0x59bbbef, pos 40320 0x59bbcef, neg 34944 0x59bbdef, pos 13440 0x59bbeef,
   neg 1920 0x59bbeff, neg 86016 0x59bccef, pos 134400 0x59bcdef, neg 46080 0x59bceef,
   pos 5760 0x59bceff, neg 46080 0x59bddef, pos 26880 0x59bdeef, neg 2688 0x59bdeff,
   neg 3072 0x59beeef, pos 384 0x59beeff, pos 53760 0x59cccef, neg 107520 0x59ccdef,
   pos 30720 0x59cceef, neg 3072 0x59cceff, pos 57600 0x59cddef, neg 24576 0x59cdeef,
   pos 1536 0x59cdeff, pos 1536 0x59ceeef, neg 6912 0x59dddef, pos 2304 0x59ddeef]

/-- Coefficient 12 of `compute_RationalBezier_degree_4_inflections`, auto_inflection_RationalBezier.h:88. -/
def ratInflection4_12 : List Term :=
  [neg 4368 0x17bbbcd, pos 7488 0x17bbbce, neg 3168 0x17bbbcf, pos 29952 0x17bbccd,
   neg 50688 0x17bbcce, pos 21120 0x17bbccf, neg 38016 0x17bbcdd, pos 84480 0x17bbcde,
   neg 30240 0x17bbcdf, neg 34560 0x17bbcee, pos 20736 0x17bbcef, neg 2688 0x17bbcff,
   neg 50688 0x17bcccd, pos 84480 0x17bccce, neg 34560 0x17bcccf, pos 126720 0x17bccdd,
   neg 276480 0x17bccde, pos 96768 0x17bccdf, pos 110592 0x17bccee, neg 64512 0x17bccef,
   pos 8064 0x17bccff, neg 77760 0x17bcddd, pos 207360 0x17bcdde, neg 64512 0x17bcddf,
   neg 150528 0x17bcdee, pos 80640 0x17bcdef, neg 9360 0x17bcdff, pos 32256 0x17bceee,
   neg 23040 0x17bceef, pos 4800 0x17bceff, neg 288 0x17bcfff, pos 4368 0x18bbbcd,
   neg 9504 0x18bbbde, pos 5280 0x18bbbdf, neg 29952 0x18bbccd, pos 38016 0x18bbcdd,
   pos 42240 0x18bbcde, neg 30240 0x18bbcdf, neg 77760 0x18bbdde, pos 41472 0x18bbddf,
   pos 41472 0x18bbdee, neg 29568 0x18bbdef, pos 4032 0x18bbdff, pos 50688 0x18bcccd,
   neg 126720 0x18bccdd, neg 34560 0x18bccde, pos 41472 0x18bccdf, pos 77760 0x18bcddd,
   pos 165888 0x18bcdde, neg 112896 0x18bcddf, neg 107520 0x18bcdee, pos 80640 0x18bcdef,
   neg 10800 0x18bcdff, neg 145152 0x18bddde, pos 72576 0x18bdddf, pos 145152 0x18bddee,
   neg 95040 0x18bddef, pos 11520 0x18bddff, neg 34560 0x18bdeee, pos 26880 0x18bdeef,
   neg 5472 0x18bdeff, pos 288 0x18bdfff, neg 7488 0x19bbbce, pos 9504 0x19bbbde,
   neg 2160 0x19bbbef, pos 50688 0x19bbcce, neg 126720 0x19bbcde, pos 34560 0x19bbcee,
   pos 6912 0x19bbcef, pos 77760 0x19bbdde, neg 41472 0x19bbdee, neg 8064 0x19bbdef,
   pos 8064 0x19bbeef, neg 1440 0x19bbeff, neg 84480 0x19bccce, pos 311040 0x19bccde,
   neg 110592 0x19bccee, neg 373248 0x19bcdde, pos 258048 0x19bcdee, neg 32256 0x19bceee,
   neg 11520 0x19bceef, pos 2880 0x19bceff, pos 145152 0x19bddde, neg 145152 0x19bddee,
   pos 34560 0x19bdeee, pos 11520 0x19bdeef, neg 2592 0x19bdeff, neg 4608 0x19beeef,
   pos 1152 0x19beeff, neg 48 0x19befff, pos 3168 0x1abbbcf, neg 5280 0x1abbbdf,
   pos 2160 0x1abbbef, neg 21120 0x1abbccf, pos 60480 0x1abbcdf, neg 27648 0x1abbcef,
   pos 2688 0x1abbcff, neg 41472 0x1abbddf, pos 37632 0x1abbdef, neg 4032 0x1abbdff,
   neg 8064 0x1abbeef, pos 1440 0x1abbeff, pos 34560 0x1abcccf, neg 138240 0x1abccdf,
   pos 64512 0x1abccef, neg 8064 0x1abccff, pos 177408 0x1abcddf, neg 161280 0x1abcdef,
   pos 20160 0x1abcdff, pos 34560 0x1abceef, neg 7680 0x1abceff, pos 288 0x1abcfff,
   neg 72576 0x1abdddf, pos 95040 0x1abddef, neg 11520 0x1abddff, neg 38400 0x1abdeef,
   pos 8064 0x1abdeff, neg 288 0x1abdfff, pos 4608 0x1abeeef, neg 1152 0x1abeeff, pos 48 0x1abefff,
   pos 4368 0x26bbbcd, neg 7488 0x26bbbce, pos 3168 0x26bbbcf, neg 29952 0x26bbccd,
   pos 50688 0x26bbcce, neg 21120 0x26bbccf, pos 38016 0x26bbcdd, neg 84480 0x26bbcde,
   pos 30240 0x26bbcdf, pos 34560 0x26bbcee, neg 20736 0x26bbcef, pos 2688 0x26bbcff,
   pos 50688 0x26bcccd, neg 84480 0x26bccce, pos 34560 0x26bcccf, neg 126720 0x26bccdd,
   pos 276480 0x26bccde, neg 96768 0x26bccdf, neg 110592 0x26bccee, pos 64512 0x26bccef,
   neg 8064 0x26bccff, pos 77760 0x26bcddd, neg 207360 0x26bcdde, pos 64512 0x26bcddf,
   pos 150528 0x26bcdee, neg 80640 0x26bcdef, pos 9360 0x26bcdff, neg 32256 0x26bceee,
   pos 23040 0x26bceef, neg 4800 0x26bceff, pos 288 0x26bcfff, neg 4368 0x28bbbcd,
   pos 29952 0x28bbccd, neg 38016 0x28bbcdd, pos 31680 0x28bbcde, neg 10800 0x28bbcdf,
   neg 50688 0x28bcccd, pos 126720 0x28bccdd, neg 138240 0x28bccde, pos 55296 0x28bccdf,
   neg 77760 0x28bcddd, pos 165888 0x28bcdde, neg 64512 0x28bcddf, neg 64512 0x28bcdee,
   pos 40320 0x28bcdef, neg 5040 0x28bcdff, pos 110592 0x28cccde, neg 64512 0x28cccdf,
   neg 258048 0x28ccdde, pos 145152 0x28ccddf, pos 129024 0x28ccdee, neg 92160 0x28ccdef,
   pos 11520 0x28ccdff, pos 145152 0x28cddde, neg 77760 0x28cdddf, neg 138240 0x28cddee,
   pos 92160 0x28cddef, neg 10368 0x28cddff, pos 30720 0x28cdeee, neg 23040 0x28cdeef,
   pos 4032 0x28cdeff, neg 144 0x28cdfff, pos 7488 0x29bbbce, neg 50688 0x29bbcce,
   pos 52800 0x29bbcde, neg 34560 0x29bbcee, pos 10368 0x29bbcef, pos 84480 0x29bccce,
   neg 138240 0x29bccde, pos 110592 0x29bccee, neg 43008 0x29bccef, pos 41472 0x29bcdde,
   neg 86016 0x29bcdee, pos 40320 0x29bcdef, pos 32256 0x29bceee, neg 23040 0x29bceef,
   pos 2880 0x29bceff, neg 110592 0x29cccde, pos 32256 0x29cccef, pos 258048 0x29ccdde,
   neg 129024 0x29ccdee, neg 46080 0x29ccdef, pos 30720 0x29cceef, neg 4608 0x29cceff,
   neg 145152 0x29cddde, pos 138240 0x29cddee, pos 11520 0x29cddef, neg 30720 0x29cdeee,
   neg 18432 0x29cdeef, pos 2880 0x29cdeff, pos 4608 0x29ceeef, neg 768 0x29ceeff,
   neg 3168 0x2abbbcf, pos 21120 0x2abbccf, neg 19440 0x2abbcdf, pos 10368 0x2abbcef,
   neg 2688 0x2abbcff, neg 34560 0x2abcccf, pos 41472 0x2abccdf, neg 21504 0x2abccef,
   pos 8064 0x2abccff, neg 4320 0x2abcdff, pos 1920 0x2abceff, neg 288 0x2abcfff,
   pos 64512 0x2acccdf, neg 32256 0x2acccef, neg 145152 0x2accddf, pos 138240 0x2accdef,
   neg 11520 0x2accdff, neg 30720 0x2acceef, pos 4608 0x2acceff, pos 77760 0x2acdddf,
   neg 103680 0x2acddef, pos 10368 0x2acddff, pos 41472 0x2acdeef, neg 6912 0x2acdeff,
   pos 144 0x2acdfff, neg 4608 0x2aceeef, pos 768 0x2aceeff, neg 4368 0x36bbbcd,
   pos 9504 0x36bbbde, neg 5280 0x36bbbdf, pos 29952 0x36bbccd, neg 38016 0x36bbcdd,
   neg 42240 0x36bbcde, pos 30240 0x36bbcdf, pos 77760 0x36bbdde, neg 41472 0x36bbddf,
   neg 41472 0x36bbdee, pos 29568 0x36bbdef, neg 4032 0x36bbdff, neg 50688 0x36bcccd,
   pos 126720 0x36bccdd, pos 34560 0x36bccde, neg 41472 0x36bccdf, neg 77760 0x36bcddd,
   neg 165888 0x36bcdde, pos 112896 0x36bcddf, pos 107520 0x36bcdee, neg 80640 0x36bcdef,
   pos 10800 0x36bcdff, pos 145152 0x36bddde, neg 72576 0x36bdddf, neg 145152 0x36bddee,
   pos 95040 0x36bddef, neg 11520 0x36bddff, pos 34560 0x36bdeee, neg 26880 0x36bdeef,
   pos 5472 0x36bdeff, neg 288 0x36bdfff, pos 4368 0x37bbbcd, neg 29952 0x37bbccd,
   pos 38016 0x37bbcdd, neg 31680 0x37bbcde, pos 10800 0x37bbcdf, pos 50688 0x37bcccd,
   neg 126720 0x37bccdd, pos 138240 0x37bccde, neg 55296 0x37bccdf, pos 77760 0x37bcddd,
   neg 165888 0x37bcdde, pos 64512 0x37bcddf, pos 64512 0x37bcdee, neg 40320 0x37bcdef,
   pos 5040 0x37bcdff, neg 110592 0x37cccde, pos 64512 0x37cccdf, pos 258048 0x37ccdde,
   neg 145152 0x37ccddf, neg 129024 0x37ccdee, pos 92160 0x37ccdef, neg 11520 0x37ccdff,
   neg 145152 0x37cddde, pos 77760 0x37cdddf, pos 138240 0x37cddee, neg 92160 0x37cddef,
   pos 10368 0x37cddff, neg 30720 0x37cdeee, pos 23040 0x37cdeef, neg 4032 0x37cdeff,
   pos 144 0x37cdfff, neg 9504 0x39bbbde, pos 73920 0x39bbcde, neg 77760 0x39bbdde,
   pos 41472 0x39bbdee, neg 9408 0x39bbdef, neg 172800 0x39bccde, pos 331776 0x39bcdde,
   neg 172032 0x39bcdee, pos 40320 0x39bcdef, neg 145152 0x39bddde, pos 145152 0x39bddee,
   neg 34560 0x39bddef, neg 34560 0x39bdeee, pos 15360 0x39bdeef, neg 1440 0x39bdeff,
   pos 110592 0x39cccde, neg 258048 0x39ccdde, pos 129024 0x39ccdee, neg 34560 0x39ccdef,
   pos 145152 0x39cddde, neg 138240 0x39cddee, pos 46080 0x39cddef, pos 30720 0x39cdeee,
   neg 18432 0x39cdeef, pos 1728 0x39cdeff, neg 10368 0x39dddef, pos 6912 0x39ddeef,
   neg 576 0x39ddeff, neg 768 0x39deeef, pos 5280 0x3abbbdf, neg 41040 0x3abbcdf,
   pos 41472 0x3abbddf, neg 20160 0x3abbdef, pos 4032 0x3abbdff, pos 96768 0x3abccdf,
   neg 177408 0x3abcddf, pos 80640 0x3abcdef, neg 15840 0x3abcdff, pos 72576 0x3abdddf,
   neg 60480 0x3abddef, pos 11520 0x3abddff, pos 11520 0x3abdeef, neg 4032 0x3abdeff,
   pos 288 0x3abdfff, neg 64512 0x3acccdf, pos 145152 0x3accddf, neg 57600 0x3accdef,
   pos 11520 0x3accdff, neg 77760 0x3acdddf, pos 46080 0x3acddef, neg 10368 0x3acddff,
   neg 4608 0x3acdeef, pos 2304 0x3acdeff, neg 144 0x3acdfff, pos 10368 0x3adddef,
   neg 6912 0x3addeef, pos 576 0x3addeff, pos 768 0x3adeeef, pos 7488 0x46bbbce,
   neg 9504 0x46bbbde, pos 2160 0x46bbbef, neg 50688 0x46bbcce, pos 126720 0x46bbcde,
   neg 34560 0x46bbcee, neg 6912 0x46bbcef, neg 77760 0x46bbdde, pos 41472 0x46bbdee,
   pos 8064 0x46bbdef, neg 8064 0x46bbeef, pos 1440 0x46bbeff, pos 84480 0x46bccce,
   neg 311040 0x46bccde, pos 110592 0x46bccee, pos 373248 0x46bcdde, neg 258048 0x46bcdee,
   pos 32256 0x46bceee, pos 11520 0x46bceef, neg 2880 0x46bceff, neg 145152 0x46bddde,
   pos 145152 0x46bddee, neg 34560 0x46bdeee, neg 11520 0x46bdeef, pos 2592 0x46bdeff,
   pos 4608 0x46beeef, neg 1152 0x46beeff, pos 48 0x46befff, neg 7488 0x47bbbce,
   pos 50688 0x47bbcce, neg 52800 0x47bbcde, pos 34560 0x47bbcee, neg 10368 0x47bbcef,
   neg 84480 0x47bccce, pos 138240 0x47bccde, neg 110592 0x47bccee, pos 43008 0x47bccef,
   neg 41472 0x47bcdde, pos 86016 0x47bcdee, neg 40320 0x47bcdef, neg 32256 0x47bceee,
   pos 23040 0x47bceef, neg 2880 0x47bceff, pos 110592 0x47cccde, neg 32256 0x47cccef,
   neg 258048 0x47ccdde, pos 129024 0x47ccdee, pos 46080 0x47ccdef, neg 30720 0x47cceef,
   pos 4608 0x47cceff, pos 145152 0x47cddde, neg 138240 0x47cddee, neg 11520 0x47cddef,
   pos 30720 0x47cdeee, pos 18432 0x47cdeef, neg 2880 0x47cdeff, neg 4608 0x47ceeef,
   pos 768 0x47ceeff, pos 9504 0x48bbbde, neg 73920 0x48bbcde, pos 77760 0x48bbdde,
   neg 41472 0x48bbdee, pos 9408 0x48bbdef, pos 172800 0x48bccde, neg 331776 0x48bcdde,
   pos 172032 0x48bcdee, neg 40320 0x48bcdef, pos 145152 0x48bddde, neg 145152 0x48bddee,
   pos 34560 0x48bddef, pos 34560 0x48bdeee, neg 15360 0x48bdeef, pos 1440 0x48bdeff,
   neg 110592 0x48cccde, pos 258048 0x48ccdde, neg 129024 0x48ccdee, pos 34560 0x48ccdef,
   neg 145152 0x48cddde, pos 138240 0x48cddee, neg 46080 0x48cddef, neg 30720 0x48cdeee,
   pos 18432 0x48cdeef, neg 1728 0x48cdeff, pos 10368 0x48dddef, neg 6912 0x48ddeef,
   pos 576 0x48ddeff, pos 768 0x48deeef, neg 2160 0x4abbbef, pos 17280 0x4abbcef,
   neg 17472 0x4abbdef, pos 8064 0x4abbeef, neg 1440 0x4abbeff, neg 43008 0x4abccef,
   pos 80640 0x4abcdef, neg 34560 0x4abceef, pos 5760 0x4abceff, neg 34560 0x4abddef,
   pos 26880 0x4abdeef, neg 4032 0x4abdeff, neg 4608 0x4abeeef, pos 1152 0x4abeeff,
   neg 48 0x4abefff, pos 32256 0x4acccef, neg 80640 0x4accdef, pos 30720 0x4acceef,
   neg 4608 0x4acceff, pos 57600 0x4acddef, neg 36864 0x4acdeef, pos 4608 0x4acdeff,
   pos 4608 0x4aceeef, neg 768 0x4aceeff, neg 10368 0x4adddef, pos 6912 0x4addeef,
   neg 576 0x4addeff, neg 768 0x4adeeef, neg 3168 0x56bbbcf, pos 5280 0x56bbbdf,
   neg 2160 0x56bbbef, pos 21120 0x56bbccf, neg 60480 0x56bbcdf, pos 27648 0x56bbcef,
   neg 2688 0x56bbcff, pos 41472 0x56bbddf, neg 37632 0x56bbdef, pos 4032 0x56bbdff,
   pos 8064 0x56bbeef, neg 1440 0x56bbeff, neg 34560 0x56bcccf, pos 138240 0x56bccdf,
   neg 64512 0x56bccef, pos 8064 0x56bccff, neg 177408 0x56bcddf, pos 161280 0x56bcdef,
   neg 20160 0x56bcdff, neg 34560 0x56bceef, pos 7680 0x56bceff, neg 288 0x56bcfff,
   pos 72576 0x56bdddf, neg 95040 0x56bddef, pos 11520 0x56bddff, pos 38400 0x56bdeef,
   neg 8064 0x56bdeff, pos 288 0x56bdfff, neg 4608 0x56beeef, pos 1152 0x56beeff, neg 48 0x56befff,
   pos 3168 0x57bbbcf, neg 21120 0x57bbccf, pos 19440 0x57bbcdf, neg 10368 0x57bbcef,
   pos 2688 0x57bbcff, pos 34560 0x57bcccf, neg 41472 0x57bccdf, pos 21504 0x57bccef,
   neg 8064 0x57bccff, pos 4320 0x57bcdff, neg 1920 0x57bceff, pos 288 0x57bcfff,
   neg 64512 0x57cccdf, pos 32256 0x57cccef, pos 145152 0x57ccddf, neg 138240 0x57ccdef,
   pos 11520 0x57ccdff, pos 30720 0x57cceef, neg 4608 0x57cceff, neg 77760 0x57cdddf,
   pos 103680 0x57cddef, neg 10368 0x57cddff, neg 41472 0x57cdeef, pos 6912 0x57cdeff,
   neg 144 0x57cdfff, pos 4608 0x57ceeef, neg 768 0x57ceeff, neg 5280 0x58bbbdf,
   pos 41040 0x58bbcdf, neg 41472 0x58bbddf, pos 20160 0x58bbdef, neg 4032 0x58bbdff,
   neg 96768 0x58bccdf, pos 177408 0x58bcddf, neg 80640 0x58bcdef, pos 15840 0x58bcdff,
   neg 72576 0x58bdddf, pos 60480 0x58bddef, neg 11520 0x58bddff, neg 11520 0x58bdeef,
   pos 4032 0x58bdeff, neg 288 0x58bdfff, pos 64512 0x58cccdf, neg 145152 0x58ccddf,
   pos 57600 0x58ccdef, neg 11520 0x58ccdff, pos 77760 0x58cdddf, neg 46080 0x58cddef,
   pos 10368 0x58cddff, pos 4608 0x58cdeef, neg 2304 0x58cdeff, pos 144 0x58cdfff,
   neg 10368 0x58dddef, pos 6912 0x58ddeef, neg 576 0x58ddeff, neg 768 0x58deeef,
   pos 2160 0x59bbbef, neg 17280 0x59bbcef, pos 17472 0x59bbdef, neg 8064 0x59bbeef,
   pos 1440 0x59bbeff, pos 43008 0x59bccef, neg 80640 0x59bcdef, pos 34560 0x59bceef,
   neg 5760 0x59bceff, pos 34560 0x59bddef, neg 26880 0x59bdeef, pos 4032 0x59bdeff,
   pos 4608 0x59beeef, neg 1152 0x59beeff, pos 48 0x59befff, neg 32256 0x59cccef,
   pos 80640 0x59ccdef, neg 30720 0x59cceef, pos 4608 0x59cceff, neg 57600 0x59cddef,
   pos 36864 0x59cdeef, neg 4608 0x59cdeff, neg 4608 0x59ceeef, pos 768 0x59ceeff,
   pos 10368 0x59dddef, neg 6912 0x59ddeef, pos 576 0x59ddeff, pos 768 0x59deeef]

/-- Coefficient 13 of `compute_RationalBezier_degree_4_inflections`, auto_inflection_RationalBezier.h:89. -/
def ratInflection4_13 : List Term :=
  [pos 672 0x17bbbcd, neg 1248 0x17bbbce, pos 576 0x17bbbcf, neg 4992 0x17bbccd,
   pos 9216 0x17bbcce, neg 4224 0x17bbccf, pos 6912 0x17bbcdd, neg 16896 0x17bbcde,
   pos 6720 0x17bbcdf, pos 7680 0x17bbcee, neg 5184 0x17bbcef, pos 768 0x17bbcff,
   pos 9216 0x17bcccd, neg 16896 0x17bccce, pos 7680 0x17bcccf, neg 25344 0x17bccdd,
   pos 61440 0x17bccde, neg 24192 0x17bccdf, neg 27648 0x17bccee, pos 18432 0x17bccef,
   neg 2688 0x17bccff, pos 17280 0x17bcddd, neg 51840 0x17bcdde, pos 18432 0x17bcddf,
   pos 43008 0x17bcdee, neg 26880 0x17bcdef, pos 3744 0x17bcdff, neg 10752 0x17bceee,
   pos 9216 0x17bceef, neg 2400 0x17bceff, pos 192 0x17bcfff, neg 672 0x18bbbcd,
   pos 1728 0x18bbbde, neg 1056 0x18bbbdf, pos 4992 0x18bbccd, neg 6912 0x18bbcdd,
   neg 8448 0x18bbcde, pos 6720 0x18bbcdf, pos 17280 0x18bbdde, neg 10368 0x18bbddf,
   neg 10368 0x18bbdee, pos 8448 0x18bbdef, neg 1344 0x18bbdff, neg 9216 0x18bcccd,
   pos 25344 0x18bccdd, pos 7680 0x18bccde, neg 10368 0x18bccdf, neg 17280 0x18bcddd,
   neg 41472 0x18bcdde, pos 32256 0x18bcddf, pos 30720 0x18bcdee, neg 26880 0x18bcdef,
   pos 4320 0x18bcdff, pos 41472 0x18bddde, neg 24192 0x18bdddf, neg 48384 0x18bddee,
   pos 38016 0x18bddef, neg 5760 0x18bddff, pos 13824 0x18bdeee, neg 13440 0x18bdeef,
   pos 3648 0x18bdeff, neg 288 0x18bdfff, pos 1248 0x19bbbce, neg 1728 0x19bbbde,
   pos 480 0x19bbbef, neg 9216 0x19bbcce, pos 25344 0x19bbcde, neg 7680 0x19bbcee,
   neg 1728 0x19bbcef, neg 17280 0x19bbdde, pos 10368 0x19bbdee, pos 2304 0x19bbdef,
   neg 2688 0x19bbeef, pos 576 0x19bbeff, pos 16896 0x19bccce, neg 69120 0x19bccde,
   pos 27648 0x19bccee, pos 93312 0x19bcdde, neg 73728 0x19bcdee, pos 10752 0x19bceee,
   pos 4608 0x19bceef, neg 1440 0x19bceff, neg 41472 0x19bddde, pos 48384 0x19bddee,
   neg 13824 0x19bdeee, neg 5760 0x19bdeef, pos 1728 0x19bdeff, pos 3072 0x19beeef,
   neg 1152 0x19beeff, pos 96 0x19befff, neg 576 0x1abbbcf, pos 1056 0x1abbbdf, neg 480 0x1abbbef,
   pos 4224 0x1abbccf, neg 13440 0x1abbcdf, pos 6912 0x1abbcef, neg 768 0x1abbcff,
   pos 10368 0x1abbddf, neg 10752 0x1abbdef, pos 1344 0x1abbdff, pos 2688 0x1abbeef,
   neg 576 0x1abbeff, neg 7680 0x1abcccf, pos 34560 0x1abccdf, neg 18432 0x1abccef,
   pos 2688 0x1abccff, neg 50688 0x1abcddf, pos 53760 0x1abcdef, neg 8064 0x1abcdff,
   neg 13824 0x1abceef, pos 3840 0x1abceff, neg 192 0x1abcfff, pos 24192 0x1abdddf,
   neg 38016 0x1abddef, pos 5760 0x1abddff, pos 19200 0x1abdeef, neg 5376 0x1abdeff,
   pos 288 0x1abdfff, neg 3072 0x1abeeef, pos 1152 0x1abeeff, neg 96 0x1abefff, neg 672 0x26bbbcd,
   pos 1248 0x26bbbce, neg 576 0x26bbbcf, pos 4992 0x26bbccd, neg 9216 0x26bbcce,
   pos 4224 0x26bbccf, neg 6912 0x26bbcdd, pos 16896 0x26bbcde, neg 6720 0x26bbcdf,
   neg 7680 0x26bbcee, pos 5184 0x26bbcef, neg 768 0x26bbcff, neg 9216 0x26bcccd,
   pos 16896 0x26bccce, neg 7680 0x26bcccf, pos 25344 0x26bccdd, neg 61440 0x26bccde,
   pos 24192 0x26bccdf, pos 27648 0x26bccee, neg 18432 0x26bccef, pos 2688 0x26bccff,
   neg 17280 0x26bcddd, pos 51840 0x26bcdde, neg 18432 0x26bcddf, neg 43008 0x26bcdee,
   pos 26880 0x26bcdef, neg 3744 0x26bcdff, pos 10752 0x26bceee, neg 9216 0x26bceef,
   pos 2400 0x26bceff, neg 192 0x26bcfff, pos 672 0x28bbbcd, neg 4992 0x28bbccd,
   pos 6912 0x28bbcdd, neg 6336 0x28bbcde, pos 2400 0x28bbcdf, pos 9216 0x28bcccd,
   neg 25344 0x28bccdd, pos 30720 0x28bccde, neg 13824 0x28bccdf, pos 17280 0x28bcddd,
   neg 41472 0x28bcdde, pos 18432 0x28bcddf, pos 18432 0x28bcdee, neg 13440 0x28bcdef,
   pos 2016 0x28bcdff, neg 27648 0x28cccde, pos 18432 0x28cccdf, pos 73728 0x28ccdde,
   neg 48384 0x28ccddf, neg 43008 0x28ccdee, pos 36864 0x28ccdef, neg 5760 0x28ccdff,
   neg 48384 0x28cddde, pos 31104 0x28cdddf, pos 55296 0x28cddee, neg 46080 0x28cddef,
   pos 6912 0x28cddff, neg 15360 0x28cdeee, pos 15360 0x28cdeef, neg 4032 0x28cdeff,
   pos 288 0x28cdfff, neg 1248 0x29bbbce, pos 9216 0x29bbcce, neg 10560 0x29bbcde,
   pos 7680 0x29bbcee, neg 2592 0x29bbcef, neg 16896 0x29bccce, pos 30720 0x29bccde,
   neg 27648 0x29bccee, pos 12288 0x29bccef, neg 10368 0x29bcdde, pos 24576 0x29bcdee,
   neg 13440 0x29bcdef, neg 10752 0x29bceee, pos 9216 0x29bceef, neg 1440 0x29bceff,
   pos 27648 0x29cccde, neg 10752 0x29cccef, neg 73728 0x29ccdde, pos 43008 0x29ccdee,
   pos 18432 0x29ccdef, neg 15360 0x29cceef, pos 3072 0x29cceff, pos 48384 0x29cddde,
   neg 55296 0x29cddee, neg 5760 0x29cddef, pos 15360 0x29cdeee, pos 12288 0x29cdeef,
   neg 2880 0x29cdeff, neg 4608 0x29ceeef, pos 1536 0x29ceeff, neg 96 0x29cefff, pos 576 0x2abbbcf,
   neg 4224 0x2abbccf, pos 4320 0x2abbcdf, neg 2592 0x2abbcef, pos 768 0x2abbcff,
   pos 7680 0x2abcccf, neg 10368 0x2abccdf, pos 6144 0x2abccef, neg 2688 0x2abccff,
   pos 1728 0x2abcdff, neg 960 0x2abceff, pos 192 0x2abcfff, neg 18432 0x2acccdf,
   pos 10752 0x2acccef, pos 48384 0x2accddf, neg 55296 0x2accdef, pos 5760 0x2accdff,
   pos 15360 0x2acceef, neg 3072 0x2acceff, neg 31104 0x2acdddf, pos 51840 0x2acddef,
   neg 6912 0x2acddff, neg 27648 0x2acdeef, pos 6912 0x2acdeff, neg 288 0x2acdfff,
   pos 4608 0x2aceeef, neg 1536 0x2aceeff, pos 96 0x2acefff, pos 672 0x36bbbcd, neg 1728 0x36bbbde,
   pos 1056 0x36bbbdf, neg 4992 0x36bbccd, pos 6912 0x36bbcdd, pos 8448 0x36bbcde,
   neg 6720 0x36bbcdf, neg 17280 0x36bbdde, pos 10368 0x36bbddf, pos 10368 0x36bbdee,
   neg 8448 0x36bbdef, pos 1344 0x36bbdff, pos 9216 0x36bcccd, neg 25344 0x36bccdd,
   neg 7680 0x36bccde, pos 10368 0x36bccdf, pos 17280 0x36bcddd, pos 41472 0x36bcdde,
   neg 32256 0x36bcddf, neg 30720 0x36bcdee, pos 26880 0x36bcdef, neg 4320 0x36bcdff,
   neg 41472 0x36bddde, pos 24192 0x36bdddf, pos 48384 0x36bddee, neg 38016 0x36bddef,
   pos 5760 0x36bddff, neg 13824 0x36bdeee, pos 13440 0x36bdeef, neg 3648 0x36bdeff,
   pos 288 0x36bdfff, neg 672 0x37bbbcd, pos 4992 0x37bbccd, neg 6912 0x37bbcdd,
   pos 6336 0x37bbcde, neg 2400 0x37bbcdf, neg 9216 0x37bcccd, pos 25344 0x37bccdd,
   neg 30720 0x37bccde, pos 13824 0x37bccdf, neg 17280 0x37bcddd, pos 41472 0x37bcdde,
   neg 18432 0x37bcddf, neg 18432 0x37bcdee, pos 13440 0x37bcdef, neg 2016 0x37bcdff,
   pos 27648 0x37cccde, neg 18432 0x37cccdf, neg 73728 0x37ccdde, pos 48384 0x37ccddf,
   pos 43008 0x37ccdee, neg 36864 0x37ccdef, pos 5760 0x37ccdff, pos 48384 0x37cddde,
   neg 31104 0x37cdddf, neg 55296 0x37cddee, pos 46080 0x37cddef, neg 6912 0x37cddff,
   pos 15360 0x37cdeee, neg 15360 0x37cdeef, pos 4032 0x37cdeff, neg 288 0x37cdfff,
   pos 1728 0x39bbbde, neg 14784 0x39bbcde, pos 17280 0x39bbdde, neg 10368 0x39bbdee,
   pos 2688 0x39bbdef, pos 38400 0x39bccde, neg 82944 0x39bcdde, pos 49152 0x39bcdee,
   neg 13440 0x39bcdef, pos 41472 0x39bddde, neg 48384 0x39bddee, pos 13824 0x39bddef,
   pos 13824 0x39bdeee, neg 7680 0x39bdeef, pos 960 0x39bdeff, neg 27648 0x39cccde,
   pos 73728 0x39ccdde, neg 43008 0x39ccdee, pos 13824 0x39ccdef, neg 48384 0x39cddde,
   pos 55296 0x39cddee, neg 23040 0x39cddef, neg 15360 0x39cdeee, pos 12288 0x39cdeef,
   neg 1728 0x39cdeff, pos 6912 0x39dddef, neg 6912 0x39ddeef, pos 1152 0x39ddeff,
   pos 1536 0x39deeef, neg 384 0x39deeff, neg 1056 0x3abbbdf, pos 9120 0x3abbcdf,
   neg 10368 0x3abbddf, pos 5760 0x3abbdef, neg 1344 0x3abbdff, neg 24192 0x3abccdf,
   pos 50688 0x3abcddf, neg 26880 0x3abcdef, pos 6336 0x3abcdff, neg 24192 0x3abdddf,
   pos 24192 0x3abddef, neg 5760 0x3abddff, neg 5760 0x3abdeef, pos 2688 0x3abdeff,
   neg 288 0x3abdfff, pos 18432 0x3acccdf, neg 48384 0x3accddf, pos 23040 0x3accdef,
   neg 5760 0x3accdff, pos 31104 0x3acdddf, neg 23040 0x3acddef, pos 6912 0x3acddff,
   pos 3072 0x3acdeef, neg 2304 0x3acdeff, pos 288 0x3acdfff, neg 6912 0x3adddef,
   pos 6912 0x3addeef, neg 1152 0x3addeff, neg 1536 0x3adeeef, pos 384 0x3adeeff,
   neg 1248 0x46bbbce, pos 1728 0x46bbbde, neg 480 0x46bbbef, pos 9216 0x46bbcce,
   neg 25344 0x46bbcde, pos 7680 0x46bbcee, pos 1728 0x46bbcef, pos 17280 0x46bbdde,
   neg 10368 0x46bbdee, neg 2304 0x46bbdef, pos 2688 0x46bbeef, neg 576 0x46bbeff,
   neg 16896 0x46bccce, pos 69120 0x46bccde, neg 27648 0x46bccee, neg 93312 0x46bcdde,
   pos 73728 0x46bcdee, neg 10752 0x46bceee, neg 4608 0x46bceef, pos 1440 0x46bceff,
   pos 41472 0x46bddde, neg 48384 0x46bddee, pos 13824 0x46bdeee, pos 5760 0x46bdeef,
   neg 1728 0x46bdeff, neg 3072 0x46beeef, pos 1152 0x46beeff, neg 96 0x46befff,
   pos 1248 0x47bbbce, neg 9216 0x47bbcce, pos 10560 0x47bbcde, neg 7680 0x47bbcee,
   pos 2592 0x47bbcef, pos 16896 0x47bccce, neg 30720 0x47bccde, pos 27648 0x47bccee,
   neg 12288 0x47bccef, pos 10368 0x47bcdde, neg 24576 0x47bcdee, pos 13440 0x47bcdef,
   pos 10752 0x47bceee, neg 9216 0x47bceef, pos 1440 0x47bceff, neg 27648 0x47cccde,
   pos 10752 0x47cccef, pos 73728 0x47ccdde, neg 43008 0x47ccdee, neg 18432 0x47ccdef,
   pos 15360 0x47cceef, neg 3072 0x47cceff, neg 48384 0x47cddde, pos 55296 0x47cddee,
   pos 5760 0x47cddef, neg 15360 0x47cdeee, neg 12288 0x47cdeef, pos 2880 0x47cdeff,
   pos 4608 0x47ceeef, neg 1536 0x47ceeff, pos 96 0x47cefff, neg 1728 0x48bbbde,
   pos 14784 0x48bbcde, neg 17280 0x48bbdde, pos 10368 0x48bbdee, neg 2688 0x48bbdef,
   neg 38400 0x48bccde, pos 82944 0x48bcdde, neg 49152 0x48bcdee, pos 13440 0x48bcdef,
   neg 41472 0x48bddde, pos 48384 0x48bddee, neg 13824 0x48bddef, neg 13824 0x48bdeee,
   pos 7680 0x48bdeef, neg 960 0x48bdeff, pos 27648 0x48cccde, neg 73728 0x48ccdde,
   pos 43008 0x48ccdee, neg 13824 0x48ccdef, pos 48384 0x48cddde, neg 55296 0x48cddee,
   pos 23040 0x48cddef, pos 15360 0x48cdeee, neg 12288 0x48cdeef, pos 1728 0x48cdeff,
   neg 6912 0x48dddef, pos 6912 0x48ddeef, neg 1152 0x48ddeff, neg 1536 0x48deeef,
   pos 384 0x48deeff, pos 480 0x4abbbef, neg 4320 0x4abbcef, pos 4992 0x4abbdef,
   neg 2688 0x4abbeef, pos 576 0x4abbeff, pos 12288 0x4abccef, neg 26880 0x4abcdef,
   pos 13824 0x4abceef, neg 2880 0x4abceff, pos 13824 0x4abddef, neg 13440 0x4abdeef,
   pos 2688 0x4abdeff, pos 3072 0x4abeeef, neg 1152 0x4abeeff, pos 96 0x4abefff,
   neg 10752 0x4acccef, pos 32256 0x4accdef, neg 15360 0x4acceef, pos 3072 0x4acceff,
   neg 28800 0x4acddef, pos 24576 0x4acdeef, neg 4608 0x4acdeff, neg 4608 0x4aceeef,
   pos 1536 0x4aceeff, neg 96 0x4acefff, pos 6912 0x4adddef, neg 6912 0x4addeef,
   pos 1152 0x4addeff, pos 1536 0x4adeeef, neg 384 0x4adeeff, pos 576 0x56bbbcf,
   neg 1056 0x56bbbdf, pos 480 0x56bbbef, neg 4224 0x56bbccf, pos 13440 0x56bbcdf,
   neg 6912 0x56bbcef, pos 768 0x56bbcff, neg 10368 0x56bbddf, pos 10752 0x56bbdef,
   neg 1344 0x56bbdff, neg 2688 0x56bbeef, pos 576 0x56bbeff, pos 7680 0x56bcccf,
   neg 34560 0x56bccdf, pos 18432 0x56bccef, neg 2688 0x56bccff, pos 50688 0x56bcddf,
   neg 53760 0x56bcdef, pos 8064 0x56bcdff, pos 13824 0x56bceef, neg 3840 0x56bceff,
   pos 192 0x56bcfff, neg 24192 0x56bdddf, pos 38016 0x56bddef, neg 5760 0x56bddff,
   neg 19200 0x56bdeef, pos 5376 0x56bdeff, neg 288 0x56bdfff, pos 3072 0x56beeef,
   neg 1152 0x56beeff, pos 96 0x56befff, neg 576 0x57bbbcf, pos 4224 0x57bbccf, neg 4320 0x57bbcdf,
   pos 2592 0x57bbcef, neg 768 0x57bbcff, neg 7680 0x57bcccf, pos 10368 0x57bccdf,
   neg 6144 0x57bccef, pos 2688 0x57bccff, neg 1728 0x57bcdff, pos 960 0x57bceff,
   neg 192 0x57bcfff, pos 18432 0x57cccdf, neg 10752 0x57cccef, neg 48384 0x57ccddf,
   pos 55296 0x57ccdef, neg 5760 0x57ccdff, neg 15360 0x57cceef, pos 3072 0x57cceff,
   pos 31104 0x57cdddf, neg 51840 0x57cddef, pos 6912 0x57cddff, pos 27648 0x57cdeef,
   neg 6912 0x57cdeff, pos 288 0x57cdfff, neg 4608 0x57ceeef, pos 1536 0x57ceeff, neg 96 0x57cefff,
   pos 1056 0x58bbbdf, neg 9120 0x58bbcdf, pos 10368 0x58bbddf, neg 5760 0x58bbdef,
   pos 1344 0x58bbdff, pos 24192 0x58bccdf, neg 50688 0x58bcddf, pos 26880 0x58bcdef,
   neg 6336 0x58bcdff, pos 24192 0x58bdddf, neg 24192 0x58bddef, pos 5760 0x58bddff,
   pos 5760 0x58bdeef, neg 2688 0x58bdeff, pos 288 0x58bdfff, neg 18432 0x58cccdf,
   pos 48384 0x58ccddf, neg 23040 0x58ccdef, pos 5760 0x58ccdff, neg 31104 0x58cdddf,
   pos 23040 0x58cddef, neg 6912 0x58cddff, neg 3072 0x58cdeef, pos 2304 0x58cdeff,
   neg 288 0x58cdfff, pos 6912 0x58dddef, neg 6912 0x58ddeef, pos 1152 0x58ddeff,
   pos 1536 0x58deeef, neg 384 0x58deeff, neg 480 0x59bbbef, pos 4320 0x59bbcef,
   neg 4992 0x59bbdef, pos 2688 0x59bbeef, neg 576 0x59bbeff, neg 12288 0x59bccef,
   pos 26880 0x59bcdef, neg 13824 0x59bceef, pos 2880 0x59bceff, neg 13824 0x59bddef,
   pos 13440 0x59bdeef, neg 2688 0x59bdeff, neg 3072 0x59beeef, pos 1152 0x59beeff,
   neg 96 0x59befff, pos 10752 0x59cccef, neg 32256 0x59ccdef, pos 15360 0x59cceef,
   neg 3072 0x59cceff, pos 28800 0x59cddef, neg 24576 0x59cdeef, pos 4608 0x59cdeff,
   pos 4608 0x59ceeef, neg 1536 0x59ceeff, pos 96 0x59cefff, neg 6912 0x59dddef,
   pos 6912 0x59ddeef, neg 1152 0x59ddeff, neg 1536 0x59deeef, pos 384 0x59deeff]

/-- Coefficient 14 of `compute_RationalBezier_degree_4_inflections`, auto_inflection_RationalBezier.h:90. -/
def ratInflection4_14 : List Term :=
  [neg 48 0x17bbbcd, pos 96 0x17bbbce, neg 48 0x17bbbcf, pos 384 0x17bbccd, neg 768 0x17bbcce,
   pos 384 0x17bbccf, neg 576 0x17bbcdd, pos 1536 0x17bbcde, neg 672 0x17bbcdf, neg 768 0x17bbcee,
   pos 576 0x17bbcef, neg 96 0x17bbcff, neg 768 0x17bcccd, pos 1536 0x17bccce, neg 768 0x17bcccf,
   pos 2304 0x17bccdd, neg 6144 0x17bccde, pos 2688 0x17bccdf, pos 3072 0x17bccee,
   neg 2304 0x17bccef, pos 384 0x17bccff, neg 1728 0x17bcddd, pos 5760 0x17bcdde,
   neg 2304 0x17bcddf, neg 5376 0x17bcdee, pos 3840 0x17bcdef, neg 624 0x17bcdff,
   pos 1536 0x17bceee, neg 1536 0x17bceef, pos 480 0x17bceff, neg 48 0x17bcfff, pos 48 0x18bbbcd,
   neg 144 0x18bbbde, pos 96 0x18bbbdf, neg 384 0x18bbccd, pos 576 0x18bbcdd, pos 768 0x18bbcde,
   neg 672 0x18bbcdf, neg 1728 0x18bbdde, pos 1152 0x18bbddf, pos 1152 0x18bbdee,
   neg 1056 0x18bbdef, pos 192 0x18bbdff, pos 768 0x18bcccd, neg 2304 0x18bccdd, neg 768 0x18bccde,
   pos 1152 0x18bccdf, pos 1728 0x18bcddd, pos 4608 0x18bcdde, neg 4032 0x18bcddf,
   neg 3840 0x18bcdee, pos 3840 0x18bcdef, neg 720 0x18bcdff, neg 5184 0x18bddde,
   pos 3456 0x18bdddf, pos 6912 0x18bddee, neg 6336 0x18bddef, pos 1152 0x18bddff,
   neg 2304 0x18bdeee, pos 2688 0x18bdeef, neg 912 0x18bdeff, pos 96 0x18bdfff, neg 96 0x19bbbce,
   pos 144 0x19bbbde, neg 48 0x19bbbef, pos 768 0x19bbcce, neg 2304 0x19bbcde, pos 768 0x19bbcee,
   pos 192 0x19bbcef, pos 1728 0x19bbdde, neg 1152 0x19bbdee, neg 288 0x19bbdef, pos 384 0x19bbeef,
   neg 96 0x19bbeff, neg 1536 0x19bccce, pos 6912 0x19bccde, neg 3072 0x19bccee,
   neg 10368 0x19bcdde, pos 9216 0x19bcdee, neg 1536 0x19bceee, neg 768 0x19bceef,
   pos 288 0x19bceff, pos 5184 0x19bddde, neg 6912 0x19bddee, pos 2304 0x19bdeee,
   pos 1152 0x19bdeef, neg 432 0x19bdeff, neg 768 0x19beeef, pos 384 0x19beeff, neg 48 0x19befff,
   pos 48 0x1abbbcf, neg 96 0x1abbbdf, pos 48 0x1abbbef, neg 384 0x1abbccf, pos 1344 0x1abbcdf,
   neg 768 0x1abbcef, pos 96 0x1abbcff, neg 1152 0x1abbddf, pos 1344 0x1abbdef, neg 192 0x1abbdff,
   neg 384 0x1abbeef, pos 96 0x1abbeff, pos 768 0x1abcccf, neg 3840 0x1abccdf, pos 2304 0x1abccef,
   neg 384 0x1abccff, pos 6336 0x1abcddf, neg 7680 0x1abcdef, pos 1344 0x1abcdff,
   pos 2304 0x1abceef, neg 768 0x1abceff, pos 48 0x1abcfff, neg 3456 0x1abdddf, pos 6336 0x1abddef,
   neg 1152 0x1abddff, neg 3840 0x1abdeef, pos 1344 0x1abdeff, neg 96 0x1abdfff, pos 768 0x1abeeef,
   neg 384 0x1abeeff, pos 48 0x1abefff, pos 48 0x26bbbcd, neg 96 0x26bbbce, pos 48 0x26bbbcf,
   neg 384 0x26bbccd, pos 768 0x26bbcce, neg 384 0x26bbccf, pos 576 0x26bbcdd, neg 1536 0x26bbcde,
   pos 672 0x26bbcdf, pos 768 0x26bbcee, neg 576 0x26bbcef, pos 96 0x26bbcff, pos 768 0x26bcccd,
   neg 1536 0x26bccce, pos 768 0x26bcccf, neg 2304 0x26bccdd, pos 6144 0x26bccde,
   neg 2688 0x26bccdf, neg 3072 0x26bccee, pos 2304 0x26bccef, neg 384 0x26bccff,
   pos 1728 0x26bcddd, neg 5760 0x26bcdde, pos 2304 0x26bcddf, pos 5376 0x26bcdee,
   neg 3840 0x26bcdef, pos 624 0x26bcdff, neg 1536 0x26bceee, pos 1536 0x26bceef,
   neg 480 0x26bceff, pos 48 0x26bcfff, neg 48 0x28bbbcd, pos 384 0x28bbccd, neg 576 0x28bbcdd,
   pos 576 0x28bbcde, neg 240 0x28bbcdf, neg 768 0x28bcccd, pos 2304 0x28bccdd, neg 3072 0x28bccde,
   pos 1536 0x28bccdf, neg 1728 0x28bcddd, pos 4608 0x28bcdde, neg 2304 0x28bcddf,
   neg 2304 0x28bcdee, pos 1920 0x28bcdef, neg 336 0x28bcdff, pos 3072 0x28cccde,
   neg 2304 0x28cccdf, neg 9216 0x28ccdde, pos 6912 0x28ccddf, pos 6144 0x28ccdee,
   neg 6144 0x28ccdef, pos 1152 0x28ccdff, pos 6912 0x28cddde, neg 5184 0x28cdddf,
   neg 9216 0x28cddee, pos 9216 0x28cddef, neg 1728 0x28cddff, pos 3072 0x28cdeee,
   neg 3840 0x28cdeef, pos 1344 0x28cdeff, neg 144 0x28cdfff, pos 96 0x29bbbce, neg 768 0x29bbcce,
   pos 960 0x29bbcde, neg 768 0x29bbcee, pos 288 0x29bbcef, pos 1536 0x29bccce, neg 3072 0x29bccde,
   pos 3072 0x29bccee, neg 1536 0x29bccef, pos 1152 0x29bcdde, neg 3072 0x29bcdee,
   pos 1920 0x29bcdef, pos 1536 0x29bceee, neg 1536 0x29bceef, pos 288 0x29bceff,
   neg 3072 0x29cccde, pos 1536 0x29cccef, pos 9216 0x29ccdde, neg 6144 0x29ccdee,
   neg 3072 0x29ccdef, pos 3072 0x29cceef, neg 768 0x29cceff, neg 6912 0x29cddde,
   pos 9216 0x29cddee, pos 1152 0x29cddef, neg 3072 0x29cdeee, neg 3072 0x29cdeef,
   pos 960 0x29cdeff, pos 1536 0x29ceeef, neg 768 0x29ceeff, pos 96 0x29cefff, neg 48 0x2abbbcf,
   pos 384 0x2abbccf, neg 432 0x2abbcdf, pos 288 0x2abbcef, neg 96 0x2abbcff, neg 768 0x2abcccf,
   pos 1152 0x2abccdf, neg 768 0x2abccef, pos 384 0x2abccff, neg 288 0x2abcdff, pos 192 0x2abceff,
   neg 48 0x2abcfff, pos 2304 0x2acccdf, neg 1536 0x2acccef, neg 6912 0x2accddf,
   pos 9216 0x2accdef, neg 1152 0x2accdff, neg 3072 0x2acceef, pos 768 0x2acceff,
   pos 5184 0x2acdddf, neg 10368 0x2acddef, pos 1728 0x2acddff, pos 6912 0x2acdeef,
   neg 2304 0x2acdeff, pos 144 0x2acdfff, neg 1536 0x2aceeef, pos 768 0x2aceeff, neg 96 0x2acefff,
   neg 48 0x36bbbcd, pos 144 0x36bbbde, neg 96 0x36bbbdf, pos 384 0x36bbccd, neg 576 0x36bbcdd,
   neg 768 0x36bbcde, pos 672 0x36bbcdf, pos 1728 0x36bbdde, neg 1152 0x36bbddf,
   neg 1152 0x36bbdee, pos 1056 0x36bbdef, neg 192 0x36bbdff, neg 768 0x36bcccd,
   pos 2304 0x36bccdd, pos 768 0x36bccde, neg 1152 0x36bccdf, neg 1728 0x36bcddd,
   neg 4608 0x36bcdde, pos 4032 0x36bcddf, pos 3840 0x36bcdee, neg 3840 0x36bcdef,
   pos 720 0x36bcdff, pos 5184 0x36bddde, neg 3456 0x36bdddf, neg 6912 0x36bddee,
   pos 6336 0x36bddef, neg 1152 0x36bddff, pos 2304 0x36bdeee, neg 2688 0x36bdeef,
   pos 912 0x36bdeff, neg 96 0x36bdfff, pos 48 0x37bbbcd, neg 384 0x37bbccd, pos 576 0x37bbcdd,
   neg 576 0x37bbcde, pos 240 0x37bbcdf, pos 768 0x37bcccd, neg 2304 0x37bccdd, pos 3072 0x37bccde,
   neg 1536 0x37bccdf, pos 1728 0x37bcddd, neg 4608 0x37bcdde, pos 2304 0x37bcddf,
   pos 2304 0x37bcdee, neg 1920 0x37bcdef, pos 336 0x37bcdff, neg 3072 0x37cccde,
   pos 2304 0x37cccdf, pos 9216 0x37ccdde, neg 6912 0x37ccddf, neg 6144 0x37ccdee,
   pos 6144 0x37ccdef, neg 1152 0x37ccdff, neg 6912 0x37cddde, pos 5184 0x37cdddf,
   pos 9216 0x37cddee, neg 9216 0x37cddef, pos 1728 0x37cddff, neg 3072 0x37cdeee,
   pos 3840 0x37cdeef, neg 1344 0x37cdeff, pos 144 0x37cdfff, neg 144 0x39bbbde,
   pos 1344 0x39bbcde, neg 1728 0x39bbdde, pos 1152 0x39bbdee, neg 336 0x39bbdef,
   neg 3840 0x39bccde, pos 9216 0x39bcdde, neg 6144 0x39bcdee, pos 1920 0x39bcdef,
   neg 5184 0x39bddde, pos 6912 0x39bddee, neg 2304 0x39bddef, neg 2304 0x39bdeee,
   pos 1536 0x39bdeef, neg 240 0x39bdeff, pos 3072 0x39cccde, neg 9216 0x39ccdde,
   pos 6144 0x39ccdee, neg 2304 0x39ccdef, pos 6912 0x39cddde, neg 9216 0x39cddee,
   pos 4608 0x39cddef, pos 3072 0x39cdeee, neg 3072 0x39cdeef, pos 576 0x39cdeff,
   neg 1728 0x39dddef, pos 2304 0x39ddeef, neg 576 0x39ddeff, neg 768 0x39deeef, pos 384 0x39deeff,
   neg 48 0x39defff, pos 96 0x3abbbdf, neg 912 0x3abbcdf, pos 1152 0x3abbddf, neg 720 0x3abbdef,
   pos 192 0x3abbdff, pos 2688 0x3abccdf, neg 6336 0x3abcddf, pos 3840 0x3abcdef,
   neg 1056 0x3abcdff, pos 3456 0x3abdddf, neg 4032 0x3abddef, pos 1152 0x3abddff,
   pos 1152 0x3abdeef, neg 672 0x3abdeff, pos 96 0x3abdfff, neg 2304 0x3acccdf, pos 6912 0x3accddf,
   neg 3840 0x3accdef, pos 1152 0x3accdff, neg 5184 0x3acdddf, pos 4608 0x3acddef,
   neg 1728 0x3acddff, neg 768 0x3acdeef, pos 768 0x3acdeff, neg 144 0x3acdfff, pos 1728 0x3adddef,
   neg 2304 0x3addeef, pos 576 0x3addeff, pos 768 0x3adeeef, neg 384 0x3adeeff, pos 48 0x3adefff,
   pos 96 0x46bbbce, neg 144 0x46bbbde, pos 48 0x46bbbef, neg 768 0x46bbcce, pos 2304 0x46bbcde,
   neg 768 0x46bbcee, neg 192 0x46bbcef, neg 1728 0x46bbdde, pos 1152 0x46bbdee, pos 288 0x46bbdef,
   neg 384 0x46bbeef, pos 96 0x46bbeff, pos 1536 0x46bccce, neg 6912 0x46bccde, pos 3072 0x46bccee,
   pos 10368 0x46bcdde, neg 9216 0x46bcdee, pos 1536 0x46bceee, pos 768 0x46bceef,
   neg 288 0x46bceff, neg 5184 0x46bddde, pos 6912 0x46bddee, neg 2304 0x46bdeee,
   neg 1152 0x46bdeef, pos 432 0x46bdeff, pos 768 0x46beeef, neg 384 0x46beeff, pos 48 0x46befff,
   neg 96 0x47bbbce, pos 768 0x47bbcce, neg 960 0x47bbcde, pos 768 0x47bbcee, neg 288 0x47bbcef,
   neg 1536 0x47bccce, pos 3072 0x47bccde, neg 3072 0x47bccee, pos 1536 0x47bccef,
   neg 1152 0x47bcdde, pos 3072 0x47bcdee, neg 1920 0x47bcdef, neg 1536 0x47bceee,
   pos 1536 0x47bceef, neg 288 0x47bceff, pos 3072 0x47cccde, neg 1536 0x47cccef,
   neg 9216 0x47ccdde, pos 6144 0x47ccdee, pos 3072 0x47ccdef, neg 3072 0x47cceef,
   pos 768 0x47cceff, pos 6912 0x47cddde, neg 9216 0x47cddee, neg 1152 0x47cddef,
   pos 3072 0x47cdeee, pos 3072 0x47cdeef, neg 960 0x47cdeff, neg 1536 0x47ceeef,
   pos 768 0x47ceeff, neg 96 0x47cefff, pos 144 0x48bbbde, neg 1344 0x48bbcde, pos 1728 0x48bbdde,
   neg 1152 0x48bbdee, pos 336 0x48bbdef, pos 3840 0x48bccde, neg 9216 0x48bcdde,
   pos 6144 0x48bcdee, neg 1920 0x48bcdef, pos 5184 0x48bddde, neg 6912 0x48bddee,
   pos 2304 0x48bddef, pos 2304 0x48bdeee, neg 1536 0x48bdeef, pos 240 0x48bdeff,
   neg 3072 0x48cccde, pos 9216 0x48ccdde, neg 6144 0x48ccdee, pos 2304 0x48ccdef,
   neg 6912 0x48cddde, pos 9216 0x48cddee, neg 4608 0x48cddef, neg 3072 0x48cdeee,
   pos 3072 0x48cdeef, neg 576 0x48cdeff, pos 1728 0x48dddef, neg 2304 0x48ddeef,
   pos 576 0x48ddeff, pos 768 0x48deeef, neg 384 0x48deeff, pos 48 0x48defff, neg 48 0x4abbbef,
   pos 480 0x4abbcef, neg 624 0x4abbdef, pos 384 0x4abbeef, neg 96 0x4abbeff, neg 1536 0x4abccef,
   pos 3840 0x4abcdef, neg 2304 0x4abceef, pos 576 0x4abceff, neg 2304 0x4abddef,
   pos 2688 0x4abdeef, neg 672 0x4abdeff, neg 768 0x4abeeef, pos 384 0x4abeeff, neg 48 0x4abefff,
   pos 1536 0x4acccef, neg 5376 0x4accdef, pos 3072 0x4acceef, neg 768 0x4acceff,
   pos 5760 0x4acddef, neg 6144 0x4acdeef, pos 1536 0x4acdeff, pos 1536 0x4aceeef,
   neg 768 0x4aceeff, pos 96 0x4acefff, neg 1728 0x4adddef, pos 2304 0x4addeef, neg 576 0x4addeff,
   neg 768 0x4adeeef, pos 384 0x4adeeff, neg 48 0x4adefff, neg 48 0x56bbbcf, pos 96 0x56bbbdf,
   neg 48 0x56bbbef, pos 384 0x56bbccf, neg 1344 0x56bbcdf, pos 768 0x56bbcef, neg 96 0x56bbcff,
   pos 1152 0x56bbddf, neg 1344 0x56bbdef, pos 192 0x56bbdff, pos 384 0x56bbeef, neg 96 0x56bbeff,
   neg 768 0x56bcccf, pos 3840 0x56bccdf, neg 2304 0x56bccef, pos 384 0x56bccff,
   neg 6336 0x56bcddf, pos 7680 0x56bcdef, neg 1344 0x56bcdff, neg 2304 0x56bceef,
   pos 768 0x56bceff, neg 48 0x56bcfff, pos 3456 0x56bdddf, neg 6336 0x56bddef, pos 1152 0x56bddff,
   pos 3840 0x56bdeef, neg 1344 0x56bdeff, pos 96 0x56bdfff, neg 768 0x56beeef, pos 384 0x56beeff,
   neg 48 0x56befff, pos 48 0x57bbbcf, neg 384 0x57bbccf, pos 432 0x57bbcdf, neg 288 0x57bbcef,
   pos 96 0x57bbcff, pos 768 0x57bcccf, neg 1152 0x57bccdf, pos 768 0x57bccef, neg 384 0x57bccff,
   pos 288 0x57bcdff, neg 192 0x57bceff, pos 48 0x57bcfff, neg 2304 0x57cccdf, pos 1536 0x57cccef,
   pos 6912 0x57ccddf, neg 9216 0x57ccdef, pos 1152 0x57ccdff, pos 3072 0x57cceef,
   neg 768 0x57cceff, neg 5184 0x57cdddf, pos 10368 0x57cddef, neg 1728 0x57cddff,
   neg 6912 0x57cdeef, pos 2304 0x57cdeff, neg 144 0x57cdfff, pos 1536 0x57ceeef,
   neg 768 0x57ceeff, pos 96 0x57cefff, neg 96 0x58bbbdf, pos 912 0x58bbcdf, neg 1152 0x58bbddf,
   pos 720 0x58bbdef, neg 192 0x58bbdff, neg 2688 0x58bccdf, pos 6336 0x58bcddf,
   neg 3840 0x58bcdef, pos 1056 0x58bcdff, neg 3456 0x58bdddf, pos 4032 0x58bddef,
   neg 1152 0x58bddff, neg 1152 0x58bdeef, pos 672 0x58bdeff, neg 96 0x58bdfff, pos 2304 0x58cccdf,
   neg 6912 0x58ccddf, pos 3840 0x58ccdef, neg 1152 0x58ccdff, pos 5184 0x58cdddf,
   neg 4608 0x58cddef, pos 1728 0x58cddff, pos 768 0x58cdeef, neg 768 0x58cdeff, pos 144 0x58cdfff,
   neg 1728 0x58dddef, pos 2304 0x58ddeef, neg 576 0x58ddeff, neg 768 0x58deeef, pos 384 0x58deeff,
   neg 48 0x58defff, pos 48 0x59bbbef, neg 480 0x59bbcef, pos 624 0x59bbdef, neg 384 0x59bbeef,
   pos 96 0x59bbeff, pos 1536 0x59bccef, neg 3840 0x59bcdef, pos 2304 0x59bceef, neg 576 0x59bceff,
   pos 2304 0x59bddef, neg 2688 0x59bdeef, pos 672 0x59bdeff, pos 768 0x59beeef, neg 384 0x59beeff,
   pos 48 0x59befff, neg 1536 0x59cccef, pos 5376 0x59ccdef, neg 3072 0x59cceef, pos 768 0x59cceff,
   neg 5760 0x59cddef, pos 6144 0x59cdeef, neg 1536 0x59cdeff, neg 1536 0x59ceeef,
   pos 768 0x59ceeff, neg 96 0x59cefff, pos 1728 0x59dddef, neg 2304 0x59ddeef, pos 576 0x59ddeff,
   pos 768 0x59deeef, neg 384 0x59deeff, pos 48 0x59defff]

/-- `compute_RationalBezier_degree_4_inflections`, auto_inflection_RationalBezier.h:67-91: the coefficients passed to the finder of degree 14. -/
def ratInflection4 (x y w : ℕ → K) : List K :=
  [ratInflection4_0, ratInflection4_1, ratInflection4_2, ratInflection4_3, ratInflection4_4,
   ratInflection4_5, ratInflection4_6, ratInflection4_7, ratInflection4_8, ratInflection4_9,
   ratInflection4_10, ratInflection4_11, ratInflection4_12, ratInflection4_13, ratInflection4_14].map fun l => sum x y w l

/-- Coefficient 0 of `compute_RationalBezier_degree_2_singularities`, auto_singularity_RationalBezier.h:27. -/
def ratSingularity2_0 : List Term :=
  [pos 4 0x11bbcc, neg 8 0x12bbcc, pos 4 0x22bbcc, pos 4 0x66bbcc, neg 8 0x67bbcc, pos 4 0x77bbcc]

/-- Coefficient 1 of `compute_RationalBezier_degree_2_singularities`, auto_singularity_RationalBezier.h:28. -/
def ratSingularity2_1 : List Term :=
  [neg 16 0x11bbcc, pos 8 0x11bbcd, pos 32 0x12bbcc, neg 8 0x12bbcd, neg 8 0x13bbcd,
   neg 16 0x22bbcc, pos 8 0x23bbcd, neg 16 0x66bbcc, pos 8 0x66bbcd, pos 32 0x67bbcc,
   neg 8 0x67bbcd, neg 8 0x68bbcd, neg 16 0x77bbcc, pos 8 0x78bbcd]

/-- Coefficient 2 of `compute_RationalBezier_degree_2_singularities`, auto_singularity_RationalBezier.h:29. -/
def ratSingularity2_2 : List Term :=
  [pos 24 0x11bbcc, neg 24 0x11bbcd, pos 4 0x11bbdd, neg 48 0x12bbcc, pos 24 0x12bbcd,
   pos 8 0x12bccd, pos 24 0x13bbcd, neg 8 0x13bbdd, neg 8 0x13bccd, pos 24 0x22bbcc,
   neg 8 0x22bccd, neg 24 0x23bbcd, pos 8 0x23bccd, pos 4 0x33bbdd, pos 24 0x66bbcc,
   neg 24 0x66bbcd, pos 4 0x66bbdd, neg 48 0x67bbcc, pos 24 0x67bbcd, pos 8 0x67bccd,
   pos 24 0x68bbcd, neg 8 0x68bbdd, neg 8 0x68bccd, pos 24 0x77bbcc, neg 8 0x77bccd,
   neg 24 0x78bbcd, pos 8 0x78bccd, pos 4 0x88bbdd]

/-- Coefficient 3 of `compute_RationalBezier_degree_2_singularities`, auto_singularity_RationalBezier.h:30. -/
def ratSingularity2_3 : List Term :=
  [neg 16 0x11bbcc, pos 24 0x11bbcd, neg 8 0x11bbdd, pos 32 0x12bbcc, neg 24 0x12bbcd,
   neg 16 0x12bccd, pos 8 0x12bcdd, neg 24 0x13bbcd, pos 16 0x13bbdd, pos 16 0x13bccd,
   neg 8 0x13bcdd, neg 16 0x22bbcc, pos 16 0x22bccd, pos 24 0x23bbcd, neg 16 0x23bccd,
   neg 8 0x23bcdd, neg 8 0x33bbdd, pos 8 0x33bcdd, neg 16 0x66bbcc, pos 24 0x66bbcd,
   neg 8 0x66bbdd, pos 32 0x67bbcc, neg 24 0x67bbcd, neg 16 0x67bccd, pos 8 0x67bcdd,
   neg 24 0x68bbcd, pos 16 0x68bbdd, pos 16 0x68bccd, neg 8 0x68bcdd, neg 16 0x77bbcc,
   pos 16 0x77bccd, pos 24 0x78bbcd, neg 16 0x78bccd, neg 8 0x78bcdd, neg 8 0x88bbdd,
   pos 8 0x88bcdd]

/-- Coefficient 4 of `compute_RationalBezier_degree_2_singularities`, auto_singularity_RationalBezier.h:31. -/
def ratSingularity2_4 : List Term :=
  [pos 4 0x11bbcc, neg 8 0x11bbcd, pos 4 0x11bbdd, neg 8 0x12bbcc, pos 8 0x12bbcd, pos 8 0x12bccd,
   neg 8 0x12bcdd, pos 8 0x13bbcd, neg 8 0x13bbdd, neg 8 0x13bccd, pos 8 0x13bcdd, pos 4 0x22bbcc,
   neg 8 0x22bccd, pos 4 0x22ccdd, neg 8 0x23bbcd, pos 8 0x23bccd, pos 8 0x23bcdd, neg 8 0x23ccdd,
   pos 4 0x33bbdd, neg 8 0x33bcdd, pos 4 0x33ccdd, pos 4 0x66bbcc, neg 8 0x66bbcd, pos 4 0x66bbdd,
   neg 8 0x67bbcc, pos 8 0x67bbcd, pos 8 0x67bccd, neg 8 0x67bcdd, pos 8 0x68bbcd, neg 8 0x68bbdd,
   neg 8 0x68bccd, pos 8 0x68bcdd, pos 4 0x77bbcc, neg 8 0x77bccd, pos 4 0x77ccdd, neg 8 0x78bbcd,
   pos 8 0x78bccd, pos 8 0x78bcdd, neg 8 0x78ccdd, pos 4 0x88bbdd, neg 8 0x88bcdd, pos 4 0x88ccdd]

/-- `compute_RationalBezier_degree_2_singularities`, auto_singularity_RationalBezier.h:18-32: the coefficients passed to the finder of degree 4. -/
def ratSingularity2 (x y w : ℕ → K) : List K :=
  [ratSingularity2_0, ratSingularity2_1, ratSingularity2_2, ratSingularity2_3, ratSingularity2_4].map fun l => sum x y w l

/-- Coefficient 0 of `compute_RationalBezier_degree_3_singularities`, auto_singularity_RationalBezier.h:49. -/
def ratSingularity3_0 : List Term :=
  [pos 9 0x11bbcc, neg 18 0x12bbcc, pos 9 0x22bbcc, pos 9 0x66bbcc, neg 18 0x67bbcc, pos 9 0x77bbcc]

/-- Coefficient 1 of `compute_RationalBezier_degree_3_singularities`, auto_singularity_RationalBezier.h:50. -/
def ratSingularity3_1 : List Term :=
  [neg 72 0x11bbcc, pos 36 0x11bbcd, pos 144 0x12bbcc, neg 36 0x12bbcd, neg 36 0x13bbcd,
   neg 72 0x22bbcc, pos 36 0x23bbcd, neg 72 0x66bbcc, pos 36 0x66bbcd, pos 144 0x67bbcc,
   neg 36 0x67bbcd, neg 36 0x68bbcd, neg 72 0x77bbcc, pos 36 0x78bbcd]

/-- Coefficient 2 of `compute_RationalBezier_degree_3_singularities`, auto_singularity_RationalBezier.h:51. -/
def ratSingularity3_2 : List Term :=
  [pos 252 0x11bbcc, neg 252 0x11bbcd, pos 18 0x11bbce, pos 36 0x11bbdd, neg 504 0x12bbcc,
   pos 252 0x12bbcd, neg 18 0x12bbce, pos 54 0x12bccd, pos 252 0x13bbcd, neg 72 0x13bbdd,
   neg 54 0x13bccd, neg 18 0x14bbce, pos 252 0x22bbcc, neg 54 0x22bccd, neg 252 0x23bbcd,
   pos 54 0x23bccd, pos 18 0x24bbce, pos 36 0x33bbdd, pos 252 0x66bbcc, neg 252 0x66bbcd,
   pos 18 0x66bbce, pos 36 0x66bbdd, neg 504 0x67bbcc, pos 252 0x67bbcd, neg 18 0x67bbce,
   pos 54 0x67bccd, pos 252 0x68bbcd, neg 72 0x68bbdd, neg 54 0x68bccd, neg 18 0x69bbce,
   pos 252 0x77bbcc, neg 54 0x77bccd, neg 252 0x78bbcd, pos 54 0x78bccd, pos 18 0x79bbce,
   pos 36 0x88bbdd]

/-- Coefficient 3 of `compute_RationalBezier_degree_3_singularities`, auto_singularity_RationalBezier.h:52. -/
def ratSingularity3_3 : List Term :=
  [neg 504 0x11bbcc, pos 756 0x11bbcd, neg 108 0x11bbce, neg 216 0x11bbdd, pos 36 0x11bbde,
   pos 1008 0x12bbcc, neg 756 0x12bbcd, pos 108 0x12bbce, neg 324 0x12bccd, pos 36 0x12bcce,
   pos 108 0x12bcdd, neg 756 0x13bbcd, pos 432 0x13bbdd, neg 36 0x13bbde, pos 324 0x13bccd,
   neg 108 0x13bcdd, pos 108 0x14bbce, neg 36 0x14bbde, neg 36 0x14bcce, neg 504 0x22bbcc,
   pos 324 0x22bccd, neg 36 0x22bcce, pos 756 0x23bbcd, neg 324 0x23bccd, neg 108 0x23bcdd,
   neg 108 0x24bbce, pos 36 0x24bcce, neg 216 0x33bbdd, pos 108 0x33bcdd, pos 36 0x34bbde,
   neg 504 0x66bbcc, pos 756 0x66bbcd, neg 108 0x66bbce, neg 216 0x66bbdd, pos 36 0x66bbde,
   pos 1008 0x67bbcc, neg 756 0x67bbcd, pos 108 0x67bbce, neg 324 0x67bccd, pos 36 0x67bcce,
   pos 108 0x67bcdd, neg 756 0x68bbcd, pos 432 0x68bbdd, neg 36 0x68bbde, pos 324 0x68bccd,
   neg 108 0x68bcdd, pos 108 0x69bbce, neg 36 0x69bbde, neg 36 0x69bcce, neg 504 0x77bbcc,
   pos 324 0x77bccd, neg 36 0x77bcce, pos 756 0x78bbcd, neg 324 0x78bccd, neg 108 0x78bcdd,
   neg 108 0x79bbce, pos 36 0x79bcce, neg 216 0x88bbdd, pos 108 0x88bcdd, pos 36 0x89bbde]

/-- Coefficient 4 of `compute_RationalBezier_degree_3_singularities`, auto_singularity_RationalBezier.h:53. -/
def ratSingularity3_4 : List Term :=
  [pos 630 0x11bbcc, neg 1260 0x11bbcd, pos 270 0x11bbce, pos 540 0x11bbdd, neg 180 0x11bbde,
   pos 9 0x11bbee, neg 1260 0x12bbcc, pos 1260 0x12bbcd, neg 270 0x12bbce, pos 810 0x12bccd,
   neg 180 0x12bcce, neg 540 0x12bcdd, pos 126 0x12bcde, pos 1260 0x13bbcd, neg 1080 0x13bbdd,
   pos 180 0x13bbde, neg 810 0x13bccd, pos 540 0x13bcdd, neg 36 0x13bcde, neg 270 0x14bbce,
   pos 180 0x14bbde, neg 18 0x14bbee, pos 180 0x14bcce, neg 90 0x14bcde, pos 630 0x22bbcc,
   neg 810 0x22bccd, pos 180 0x22bcce, pos 81 0x22ccdd, neg 1260 0x23bbcd, pos 810 0x23bccd,
   pos 540 0x23bcdd, neg 90 0x23bcde, neg 162 0x23ccdd, pos 270 0x24bbce, neg 180 0x24bcce,
   neg 36 0x24bcde, pos 540 0x33bbdd, neg 540 0x33bcdd, pos 81 0x33ccdd, neg 180 0x34bbde,
   pos 126 0x34bcde, pos 9 0x44bbee, pos 630 0x66bbcc, neg 1260 0x66bbcd, pos 270 0x66bbce,
   pos 540 0x66bbdd, neg 180 0x66bbde, pos 9 0x66bbee, neg 1260 0x67bbcc, pos 1260 0x67bbcd,
   neg 270 0x67bbce, pos 810 0x67bccd, neg 180 0x67bcce, neg 540 0x67bcdd, pos 126 0x67bcde,
   pos 1260 0x68bbcd, neg 1080 0x68bbdd, pos 180 0x68bbde, neg 810 0x68bccd, pos 540 0x68bcdd,
   neg 36 0x68bcde, neg 270 0x69bbce, pos 180 0x69bbde, neg 18 0x69bbee, pos 180 0x69bcce,
   neg 90 0x69bcde, pos 630 0x77bbcc, neg 810 0x77bccd, pos 180 0x77bcce, pos 81 0x77ccdd,
   neg 1260 0x78bbcd, pos 810 0x78bccd, pos 540 0x78bcdd, neg 90 0x78bcde, neg 162 0x78ccdd,
   pos 270 0x79bbce, neg 180 0x79bcce, neg 36 0x79bcde, pos 540 0x88bbdd, neg 540 0x88bcdd,
   pos 81 0x88ccdd, neg 180 0x89bbde, pos 126 0x89bcde, pos 9 0x99bbee]

/-- Coefficient 5 of `compute_RationalBezier_degree_3_singularities`, auto_singularity_RationalBezier.h:54. -/
def ratSingularity3_5 : List Term :=
  [neg 504 0x11bbcc, pos 1260 0x11bbcd, neg 360 0x11bbce, neg 720 0x11bbdd, pos 360 0x11bbde,
   neg 36 0x11bbee, pos 1008 0x12bbcc, neg 1260 0x12bbcd, pos 360 0x12bbce, neg 1080 0x12bccd,
   pos 360 0x12bcce, pos 1080 0x12bcdd, neg 504 0x12bcde, pos 36 0x12bcee, neg 1260 0x13bbcd,
   pos 1440 0x13bbdd, neg 360 0x13bbde, pos 1080 0x13bccd, neg 1080 0x13bcdd, pos 144 0x13bcde,
   pos 36 0x13bdde, pos 360 0x14bbce, neg 360 0x14bbde, pos 72 0x14bbee, neg 360 0x14bcce,
   pos 360 0x14bcde, neg 36 0x14bcee, neg 36 0x14bdde, neg 504 0x22bbcc, pos 1080 0x22bccd,
   neg 360 0x22bcce, neg 324 0x22ccdd, pos 108 0x22ccde, pos 1260 0x23bbcd, neg 1080 0x23bccd,
   neg 1080 0x23bcdd, pos 360 0x23bcde, pos 648 0x23ccdd, neg 108 0x23ccde, neg 360 0x24bbce,
   pos 360 0x24bcce, pos 144 0x24bcde, neg 36 0x24bcee, neg 108 0x24ccde, neg 720 0x33bbdd,
   pos 1080 0x33bcdd, neg 36 0x33bdde, neg 324 0x33ccdd, pos 360 0x34bbde, neg 504 0x34bcde,
   pos 36 0x34bdde, pos 108 0x34ccde, neg 36 0x44bbee, pos 36 0x44bcee, neg 504 0x66bbcc,
   pos 1260 0x66bbcd, neg 360 0x66bbce, neg 720 0x66bbdd, pos 360 0x66bbde, neg 36 0x66bbee,
   pos 1008 0x67bbcc, neg 1260 0x67bbcd, pos 360 0x67bbce, neg 1080 0x67bccd, pos 360 0x67bcce,
   pos 1080 0x67bcdd, neg 504 0x67bcde, pos 36 0x67bcee, neg 1260 0x68bbcd, pos 1440 0x68bbdd,
   neg 360 0x68bbde, pos 1080 0x68bccd, neg 1080 0x68bcdd, pos 144 0x68bcde, pos 36 0x68bdde,
   pos 360 0x69bbce, neg 360 0x69bbde, pos 72 0x69bbee, neg 360 0x69bcce, pos 360 0x69bcde,
   neg 36 0x69bcee, neg 36 0x69bdde, neg 504 0x77bbcc, pos 1080 0x77bccd, neg 360 0x77bcce,
   neg 324 0x77ccdd, pos 108 0x77ccde, pos 1260 0x78bbcd, neg 1080 0x78bccd, neg 1080 0x78bcdd,
   pos 360 0x78bcde, pos 648 0x78ccdd, neg 108 0x78ccde, neg 360 0x79bbce, pos 360 0x79bcce,
   pos 144 0x79bcde, neg 36 0x79bcee, neg 108 0x79ccde, neg 720 0x88bbdd, pos 1080 0x88bcdd,
   neg 36 0x88bdde, neg 324 0x88ccdd, pos 360 0x89bbde, neg 504 0x89bcde, pos 36 0x89bdde,
   pos 108 0x89ccde, neg 36 0x99bbee, pos 36 0x99bcee]

/-- Coefficient 6 of `compute_RationalBezier_degree_3_singularities`, auto_singularity_RationalBezier.h:55. -/
def ratSingularity3_6 : List Term :=
  [pos 252 0x11bbcc, neg 756 0x11bbcd, pos 270 0x11bbce, pos 540 0x11bbdd, neg 360 0x11bbde,
   pos 54 0x11bbee, neg 504 0x12bbcc, pos 756 0x12bbcd, neg 270 0x12bbce, pos 810 0x12bccd,
   neg 360 0x12bcce, neg 1080 0x12bcdd, pos 756 0x12bcde, neg 108 0x12bcee, pos 756 0x13bbcd,
   neg 1080 0x13bbdd, pos 360 0x13bbde, neg 810 0x13bccd, pos 1080 0x13bcdd, neg 216 0x13bcde,
   neg 108 0x13bdde, pos 18 0x13bdee, neg 270 0x14bbce, pos 360 0x14bbde, neg 108 0x14bbee,
   pos 360 0x14bcce, neg 540 0x14bcde, pos 108 0x14bcee, pos 108 0x14bdde, neg 18 0x14bdee,
   pos 252 0x22bbcc, neg 810 0x22bccd, pos 360 0x22bcce, pos 486 0x22ccdd, neg 324 0x22ccde,
   pos 36 0x22ccee, neg 756 0x23bbcd, pos 810 0x23bccd, pos 1080 0x23bcdd, neg 540 0x23bcde,
   neg 972 0x23ccdd, pos 324 0x23ccde, pos 54 0x23cdde, pos 270 0x24bbce, neg 360 0x24bcce,
   neg 216 0x24bcde, pos 108 0x24bcee, pos 324 0x24ccde, neg 72 0x24ccee, neg 54 0x24cdde,
   pos 540 0x33bbdd, neg 1080 0x33bcdd, pos 108 0x33bdde, pos 486 0x33ccdd, neg 54 0x33cdde,
   neg 360 0x34bbde, pos 756 0x34bcde, neg 108 0x34bdde, neg 18 0x34bdee, neg 324 0x34ccde,
   pos 54 0x34cdde, pos 54 0x44bbee, neg 108 0x44bcee, pos 18 0x44bdee, pos 36 0x44ccee,
   pos 252 0x66bbcc, neg 756 0x66bbcd, pos 270 0x66bbce, pos 540 0x66bbdd, neg 360 0x66bbde,
   pos 54 0x66bbee, neg 504 0x67bbcc, pos 756 0x67bbcd, neg 270 0x67bbce, pos 810 0x67bccd,
   neg 360 0x67bcce, neg 1080 0x67bcdd, pos 756 0x67bcde, neg 108 0x67bcee, pos 756 0x68bbcd,
   neg 1080 0x68bbdd, pos 360 0x68bbde, neg 810 0x68bccd, pos 1080 0x68bcdd, neg 216 0x68bcde,
   neg 108 0x68bdde, pos 18 0x68bdee, neg 270 0x69bbce, pos 360 0x69bbde, neg 108 0x69bbee,
   pos 360 0x69bcce, neg 540 0x69bcde, pos 108 0x69bcee, pos 108 0x69bdde, neg 18 0x69bdee,
   pos 252 0x77bbcc, neg 810 0x77bccd, pos 360 0x77bcce, pos 486 0x77ccdd, neg 324 0x77ccde,
   pos 36 0x77ccee, neg 756 0x78bbcd, pos 810 0x78bccd, pos 1080 0x78bcdd, neg 540 0x78bcde,
   neg 972 0x78ccdd, pos 324 0x78ccde, pos 54 0x78cdde, pos 270 0x79bbce, neg 360 0x79bcce,
   neg 216 0x79bcde, pos 108 0x79bcee, pos 324 0x79ccde, neg 72 0x79ccee, neg 54 0x79cdde,
   pos 540 0x88bbdd, neg 1080 0x88bcdd, pos 108 0x88bdde, pos 486 0x88ccdd, neg 54 0x88cdde,
   neg 360 0x89bbde, pos 756 0x89bcde, neg 108 0x89bdde, neg 18 0x89bdee, neg 324 0x89ccde,
   pos 54 0x89cdde, pos 54 0x99bbee, neg 108 0x99bcee, pos 18 0x99bdee, pos 36 0x99ccee]

/-- Coefficient 7 of `compute_RationalBezier_degree_3_singularities`, auto_singularity_RationalBezier.h:56. -/
def ratSingularity3_7 : List Term :=
  [neg 72 0x11bbcc, pos 252 0x11bbcd, neg 108 0x11bbce, neg 216 0x11bbdd, pos 180 0x11bbde,
   neg 36 0x11bbee, pos 144 0x12bbcc, neg 252 0x12bbcd, pos 108 0x12bbce, neg 324 0x12bccd,
   pos 180 0x12bcce, pos 540 0x12bcdd, neg 504 0x12bcde, pos 108 0x12bcee, neg 252 0x13bbcd,
   pos 432 0x13bbdd, neg 180 0x13bbde, pos 324 0x13bccd, neg 540 0x13bcdd, pos 144 0x13bcde,
   pos 108 0x13bdde, neg 36 0x13bdee, pos 108 0x14bbce, neg 180 0x14bbde, pos 72 0x14bbee,
   neg 180 0x14bcce, pos 360 0x14bcde, neg 108 0x14bcee, neg 108 0x14bdde, pos 36 0x14bdee,
   neg 72 0x22bbcc, pos 324 0x22bccd, neg 180 0x22bcce, neg 324 0x22ccdd, pos 324 0x22ccde,
   neg 72 0x22ccee, pos 252 0x23bbcd, neg 324 0x23bccd, neg 540 0x23bcdd, pos 360 0x23bcde,
   pos 648 0x23ccdd, neg 324 0x23ccde, neg 108 0x23cdde, pos 36 0x23cdee, neg 108 0x24bbce,
   pos 180 0x24bcce, pos 144 0x24bcde, neg 108 0x24bcee, neg 324 0x24ccde, pos 144 0x24ccee,
   pos 108 0x24cdde, neg 36 0x24cdee, neg 216 0x33bbdd, pos 540 0x33bcdd, neg 108 0x33bdde,
   neg 324 0x33ccdd, pos 108 0x33cdde, pos 180 0x34bbde, neg 504 0x34bcde, pos 108 0x34bdde,
   pos 36 0x34bdee, pos 324 0x34ccde, neg 108 0x34cdde, neg 36 0x34cdee, neg 36 0x44bbee,
   pos 108 0x44bcee, neg 36 0x44bdee, neg 72 0x44ccee, pos 36 0x44cdee, neg 72 0x66bbcc,
   pos 252 0x66bbcd, neg 108 0x66bbce, neg 216 0x66bbdd, pos 180 0x66bbde, neg 36 0x66bbee,
   pos 144 0x67bbcc, neg 252 0x67bbcd, pos 108 0x67bbce, neg 324 0x67bccd, pos 180 0x67bcce,
   pos 540 0x67bcdd, neg 504 0x67bcde, pos 108 0x67bcee, neg 252 0x68bbcd, pos 432 0x68bbdd,
   neg 180 0x68bbde, pos 324 0x68bccd, neg 540 0x68bcdd, pos 144 0x68bcde, pos 108 0x68bdde,
   neg 36 0x68bdee, pos 108 0x69bbce, neg 180 0x69bbde, pos 72 0x69bbee, neg 180 0x69bcce,
   pos 360 0x69bcde, neg 108 0x69bcee, neg 108 0x69bdde, pos 36 0x69bdee, neg 72 0x77bbcc,
   pos 324 0x77bccd, neg 180 0x77bcce, neg 324 0x77ccdd, pos 324 0x77ccde, neg 72 0x77ccee,
   pos 252 0x78bbcd, neg 324 0x78bccd, neg 540 0x78bcdd, pos 360 0x78bcde, pos 648 0x78ccdd,
   neg 324 0x78ccde, neg 108 0x78cdde, pos 36 0x78cdee, neg 108 0x79bbce, pos 180 0x79bcce,
   pos 144 0x79bcde, neg 108 0x79bcee, neg 324 0x79ccde, pos 144 0x79ccee, pos 108 0x79cdde,
   neg 36 0x79cdee, neg 216 0x88bbdd, pos 540 0x88bcdd, neg 108 0x88bdde, neg 324 0x88ccdd,
   pos 108 0x88cdde, pos 180 0x89bbde, neg 504 0x89bcde, pos 108 0x89bdde, pos 36 0x89bdee,
   pos 324 0x89ccde, neg 108 0x89cdde, neg 36 0x89cdee, neg 36 0x99bbee, pos 108 0x99bcee,
   neg 36 0x99bdee, neg 72 0x99ccee, pos 36 0x99cdee]

/-- Coefficient 8 of `compute_RationalBezier_degree_3_singularities`, auto_singularity_RationalBezier.h:57. -/
def ratSingularity3_8 : List Term :=
  [pos 9 0x11bbcc, neg 36 0x11bbcd, pos 18 0x11bbce, pos 36 0x11bbdd, neg 36 0x11bbde,
   pos 9 0x11bbee, neg 18 0x12bbcc, pos 36 0x12bbcd, neg 18 0x12bbce, pos 54 0x12bccd,
   neg 36 0x12bcce, neg 108 0x12bcdd, pos 126 0x12bcde, neg 36 0x12bcee, pos 36 0x13bbcd,
   neg 72 0x13bbdd, pos 36 0x13bbde, neg 54 0x13bccd, pos 108 0x13bcdd, neg 36 0x13bcde,
   neg 36 0x13bdde, pos 18 0x13bdee, neg 18 0x14bbce, pos 36 0x14bbde, neg 18 0x14bbee,
   pos 36 0x14bcce, neg 90 0x14bcde, pos 36 0x14bcee, pos 36 0x14bdde, neg 18 0x14bdee,
   pos 9 0x22bbcc, neg 54 0x22bccd, pos 36 0x22bcce, pos 81 0x22ccdd, neg 108 0x22ccde,
   pos 36 0x22ccee, neg 36 0x23bbcd, pos 54 0x23bccd, pos 108 0x23bcdd, neg 90 0x23bcde,
   neg 162 0x23ccdd, pos 108 0x23ccde, pos 54 0x23cdde, neg 36 0x23cdee, pos 18 0x24bbce,
   neg 36 0x24bcce, neg 36 0x24bcde, pos 36 0x24bcee, pos 108 0x24ccde, neg 72 0x24ccee,
   neg 54 0x24cdde, pos 36 0x24cdee, pos 36 0x33bbdd, neg 108 0x33bcdd, pos 36 0x33bdde,
   pos 81 0x33ccdd, neg 54 0x33cdde, pos 9 0x33ddee, neg 36 0x34bbde, pos 126 0x34bcde,
   neg 36 0x34bdde, neg 18 0x34bdee, neg 108 0x34ccde, pos 54 0x34cdde, pos 36 0x34cdee,
   neg 18 0x34ddee, pos 9 0x44bbee, neg 36 0x44bcee, pos 18 0x44bdee, pos 36 0x44ccee,
   neg 36 0x44cdee, pos 9 0x44ddee, pos 9 0x66bbcc, neg 36 0x66bbcd, pos 18 0x66bbce,
   pos 36 0x66bbdd, neg 36 0x66bbde, pos 9 0x66bbee, neg 18 0x67bbcc, pos 36 0x67bbcd,
   neg 18 0x67bbce, pos 54 0x67bccd, neg 36 0x67bcce, neg 108 0x67bcdd, pos 126 0x67bcde,
   neg 36 0x67bcee, pos 36 0x68bbcd, neg 72 0x68bbdd, pos 36 0x68bbde, neg 54 0x68bccd,
   pos 108 0x68bcdd, neg 36 0x68bcde, neg 36 0x68bdde, pos 18 0x68bdee, neg 18 0x69bbce,
   pos 36 0x69bbde, neg 18 0x69bbee, pos 36 0x69bcce, neg 90 0x69bcde, pos 36 0x69bcee,
   pos 36 0x69bdde, neg 18 0x69bdee, pos 9 0x77bbcc, neg 54 0x77bccd, pos 36 0x77bcce,
   pos 81 0x77ccdd, neg 108 0x77ccde, pos 36 0x77ccee, neg 36 0x78bbcd, pos 54 0x78bccd,
   pos 108 0x78bcdd, neg 90 0x78bcde, neg 162 0x78ccdd, pos 108 0x78ccde, pos 54 0x78cdde,
   neg 36 0x78cdee, pos 18 0x79bbce, neg 36 0x79bcce, neg 36 0x79bcde, pos 36 0x79bcee,
   pos 108 0x79ccde, neg 72 0x79ccee, neg 54 0x79cdde, pos 36 0x79cdee, pos 36 0x88bbdd,
   neg 108 0x88bcdd, pos 36 0x88bdde, pos 81 0x88ccdd, neg 54 0x88cdde, pos 9 0x88ddee,
   neg 36 0x89bbde, pos 126 0x89bcde, neg 36 0x89bdde, neg 18 0x89bdee, neg 108 0x89ccde,
   pos 54 0x89cdde, pos 36 0x89cdee, neg 18 0x89ddee, pos 9 0x99bbee, neg 36 0x99bcee,
   pos 18 0x99bdee, pos 36 0x99ccee, neg 36 0x99cdee, pos 9 0x99ddee]

/-- `compute_RationalBezier_degree_3_singularities`, auto_singularity_RationalBezier.h:40-58: the coefficients passed to the finder of degree 8. -/
def ratSingularity3 (x y w : ℕ → K) : List K :=
  [ratSingularity3_0, ratSingularity3_1, ratSingularity3_2, ratSingularity3_3, ratSingularity3_4,
   ratSingularity3_5, ratSingularity3_6, ratSingularity3_7, ratSingularity3_8].map fun l => sum x y w l

end

end Features
end NS
