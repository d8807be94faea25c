import Mathlib.Algebra.Ring.Defs

/-!
# The generated polynomials of `internal/auto_*.h` for Bezier curves

Transcribed from the headers by a script: `cxi`, `cyi`, `wi` become `x i`, `y i`, `w i`, the
components `tcutxp`, `tcutyp` of the direction become `tx`, `ty`.
-/

namespace NS
namespace Features

variable {K : Type} [CommRing K]

/-- `compute_Bezier_degree_2_inflections`, auto_inflection_Bezier.h:18-27: the coefficients passed to the finder of degree 0. -/
def inflection2 (x y : ℕ → K) : List K :=
  [-4 * x 0 * y 1 + 4 * x 0 * y 2 + 4 * x 1 * y 0 - 4 * x 1 * y 2 - 4 * x 2 * y 0 + 4 * x 2 * y 1]

/-- `compute_Bezier_degree_3_inflections`, auto_inflection_Bezier.h:35-46: the coefficients passed to the finder of degree 2. -/
def inflection3 (x y : ℕ → K) : List K :=
  [-18 * x 0 * y 1 + 18 * x 0 * y 2 + 18 * x 1 * y 0 - 18 * x 1 * y 2 - 18 * x 2 * y 0 + 18 * x 2 *
    y 1,
   36 * x 0 * y 1 - 54 * x 0 * y 2 + 18 * x 0 * y 3 - 36 * x 1 * y 0 + 54 * x 1 * y 2 - 18 * x 1 *
    y 3 + 54 * x 2 * y 0 - 54 * x 2 * y 1 - 18 * x 3 * y 0 + 18 * x 3 * y 1,
   -18 * x 0 * y 1 + 36 * x 0 * y 2 - 18 * x 0 * y 3 + 18 * x 1 * y 0 - 54 * x 1 * y 2 + 36 * x 1 *
    y 3 - 36 * x 2 * y 0 + 54 * x 2 * y 1 - 18 * x 2 * y 3 + 18 * x 3 * y 0 - 36 * x 3 * y 1 + 18 *
    x 3 * y 2]

/-- `compute_Bezier_degree_4_inflections`, auto_inflection_Bezier.h:54-67: the coefficients passed to the finder of degree 4. -/
def inflection4 (x y : ℕ → K) : List K :=
  [-48 * x 0 * y 1 + 48 * x 0 * y 2 + 48 * x 1 * y 0 - 48 * x 1 * y 2 - 48 * x 2 * y 0 + 48 * x 2 *
    y 1,
   192 * x 0 * y 1 - 288 * x 0 * y 2 + 96 * x 0 * y 3 - 192 * x 1 * y 0 + 288 * x 1 * y 2 - 96 *
    x 1 * y 3 + 288 * x 2 * y 0 - 288 * x 2 * y 1 - 96 * x 3 * y 0 + 96 * x 3 * y 1,
   -288 * x 0 * y 1 + 576 * x 0 * y 2 - 336 * x 0 * y 3 + 48 * x 0 * y 4 + 288 * x 1 * y 0 - 720 *
    x 1 * y 2 + 480 * x 1 * y 3 - 48 * x 1 * y 4 - 576 * x 2 * y 0 + 720 * x 2 * y 1 - 144 * x 2 *
    y 3 + 336 * x 3 * y 0 - 480 * x 3 * y 1 + 144 * x 3 * y 2 - 48 * x 4 * y 0 + 48 * x 4 * y 1,
   192 * x 0 * y 1 - 480 * x 0 * y 2 + 384 * x 0 * y 3 - 96 * x 0 * y 4 - 192 * x 1 * y 0 + 768 *
    x 1 * y 2 - 768 * x 1 * y 3 + 192 * x 1 * y 4 + 480 * x 2 * y 0 - 768 * x 2 * y 1 + 384 * x 2 *
    y 3 - 96 * x 2 * y 4 - 384 * x 3 * y 0 + 768 * x 3 * y 1 - 384 * x 3 * y 2 + 96 * x 4 * y 0 -
    192 * x 4 * y 1 + 96 * x 4 * y 2,
   -48 * x 0 * y 1 + 144 * x 0 * y 2 - 144 * x 0 * y 3 + 48 * x 0 * y 4 + 48 * x 1 * y 0 - 288 *
    x 1 * y 2 + 384 * x 1 * y 3 - 144 * x 1 * y 4 - 144 * x 2 * y 0 + 288 * x 2 * y 1 - 288 * x 2 *
    y 3 + 144 * x 2 * y 4 + 144 * x 3 * y 0 - 384 * x 3 * y 1 + 288 * x 3 * y 2 - 48 * x 3 * y 4 -
    48 * x 4 * y 0 + 144 * x 4 * y 1 - 144 * x 4 * y 2 + 48 * x 4 * y 3]

/-- `compute_Bezier_degree_5_inflections`, auto_inflection_Bezier.h:75-90: the coefficients passed to the finder of degree 6. -/
def inflection5 (x y : ℕ → K) : List K :=
  [-100 * x 0 * y 1 + 100 * x 0 * y 2 + 100 * x 1 * y 0 - 100 * x 1 * y 2 - 100 * x 2 * y 0 + 100 *
    x 2 * y 1,
   600 * x 0 * y 1 - 900 * x 0 * y 2 + 300 * x 0 * y 3 - 600 * x 1 * y 0 + 900 * x 1 * y 2 - 300 *
    x 1 * y 3 + 900 * x 2 * y 0 - 900 * x 2 * y 1 - 300 * x 3 * y 0 + 300 * x 3 * y 1,
   -1500 * x 0 * y 1 + 3000 * x 0 * y 2 - 1800 * x 0 * y 3 + 300 * x 0 * y 4 + 1500 * x 1 * y 0 -
    3600 * x 1 * y 2 + 2400 * x 1 * y 3 - 300 * x 1 * y 4 - 3000 * x 2 * y 0 + 3600 * x 2 * y 1 -
    600 * x 2 * y 3 + 1800 * x 3 * y 0 - 2400 * x 3 * y 1 + 600 * x 3 * y 2 - 300 * x 4 * y 0 + 300
    * x 4 * y 1,
   2000 * x 0 * y 1 - 5000 * x 0 * y 2 + 4200 * x 0 * y 3 - 1300 * x 0 * y 4 + 100 * x 0 * y 5 -
    2000 * x 1 * y 0 + 7400 * x 1 * y 2 - 7400 * x 1 * y 3 + 2100 * x 1 * y 4 - 100 * x 1 * y 5 +
    5000 * x 2 * y 0 - 7400 * x 2 * y 1 + 3200 * x 2 * y 3 - 800 * x 2 * y 4 - 4200 * x 3 * y 0 +
    7400 * x 3 * y 1 - 3200 * x 3 * y 2 + 1300 * x 4 * y 0 - 2100 * x 4 * y 1 + 800 * x 4 * y 2 -
    100 * x 5 * y 0 + 100 * x 5 * y 1,
   -1500 * x 0 * y 1 + 4500 * x 0 * y 2 - 4800 * x 0 * y 3 + 2100 * x 0 * y 4 - 300 * x 0 * y 5 +
    1500 * x 1 * y 0 - 8100 * x 1 * y 2 + 10800 * x 1 * y 3 - 4800 * x 1 * y 4 + 600 * x 1 * y 5 -
    4500 * x 2 * y 0 + 8100 * x 2 * y 1 - 6600 * x 2 * y 3 + 3300 * x 2 * y 4 - 300 * x 2 * y 5 +
    4800 * x 3 * y 0 - 10800 * x 3 * y 1 + 6600 * x 3 * y 2 - 600 * x 3 * y 4 - 2100 * x 4 * y 0 +
    4800 * x 4 * y 1 - 3300 * x 4 * y 2 + 600 * x 4 * y 3 + 300 * x 5 * y 0 - 600 * x 5 * y 1 + 300
    * x 5 * y 2,
   600 * x 0 * y 1 - 2100 * x 0 * y 2 + 2700 * x 0 * y 3 - 1500 * x 0 * y 4 + 300 * x 0 * y 5 - 600
    * x 1 * y 0 + 4500 * x 1 * y 2 - 7500 * x 1 * y 3 + 4500 * x 1 * y 4 - 900 * x 1 * y 5 + 2100 *
    x 2 * y 0 - 4500 * x 2 * y 1 + 6000 * x 2 * y 3 - 4500 * x 2 * y 4 + 900 * x 2 * y 5 - 2700 *
    x 3 * y 0 + 7500 * x 3 * y 1 - 6000 * x 3 * y 2 + 1500 * x 3 * y 4 - 300 * x 3 * y 5 + 1500 *
    x 4 * y 0 - 4500 * x 4 * y 1 + 4500 * x 4 * y 2 - 1500 * x 4 * y 3 - 300 * x 5 * y 0 + 900 * x 5
    * y 1 - 900 * x 5 * y 2 + 300 * x 5 * y 3,
   -100 * x 0 * y 1 + 400 * x 0 * y 2 - 600 * x 0 * y 3 + 400 * x 0 * y 4 - 100 * x 0 * y 5 + 100 *
    x 1 * y 0 - 1000 * x 1 * y 2 + 2000 * x 1 * y 3 - 1500 * x 1 * y 4 + 400 * x 1 * y 5 - 400 * x 2
    * y 0 + 1000 * x 2 * y 1 - 2000 * x 2 * y 3 + 2000 * x 2 * y 4 - 600 * x 2 * y 5 + 600 * x 3 *
    y 0 - 2000 * x 3 * y 1 + 2000 * x 3 * y 2 - 1000 * x 3 * y 4 + 400 * x 3 * y 5 - 400 * x 4 * y 0
    + 1500 * x 4 * y 1 - 2000 * x 4 * y 2 + 1000 * x 4 * y 3 - 100 * x 4 * y 5 + 100 * x 5 * y 0 -
    400 * x 5 * y 1 + 600 * x 5 * y 2 - 400 * x 5 * y 3 + 100 * x 5 * y 4]

/-- Coefficient 0 of `compute_Bezier_degree_6_inflections`, auto_inflection_Bezier.h:106. -/
def inflection6_0 (x y : ℕ → K) : K :=
    -180 * x 0 * y 1 + 180 * x 0 * y 2 + 180 * x 1 * y 0 - 180 * x 1 * y 2 - 180 * x 2 * y 0 + 180 *
    x 2 * y 1

/-- Coefficient 1 of `compute_Bezier_degree_6_inflections`, auto_inflection_Bezier.h:107. -/
def inflection6_1 (x y : ℕ → K) : K :=
    1440 * x 0 * y 1 - 2160 * x 0 * y 2 + 720 * x 0 * y 3 - 1440 * x 1 * y 0 + 2160 * x 1 * y 2 -
    720 * x 1 * y 3 + 2160 * x 2 * y 0 - 2160 * x 2 * y 1 - 720 * x 3 * y 0 + 720 * x 3 * y 1

/-- Coefficient 2 of `compute_Bezier_degree_6_inflections`, auto_inflection_Bezier.h:108. -/
def inflection6_2 (x y : ℕ → K) : K :=
    -5040 * x 0 * y 1 + 10080 * x 0 * y 2 - 6120 * x 0 * y 3 + 1080 * x 0 * y 4 + 5040 * x 1 * y 0 -
    11880 * x 1 * y 2 + 7920 * x 1 * y 3 - 1080 * x 1 * y 4 - 10080 * x 2 * y 0 + 11880 * x 2 * y 1
    - 1800 * x 2 * y 3 + 6120 * x 3 * y 0 - 7920 * x 3 * y 1 + 1800 * x 3 * y 2 - 1080 * x 4 * y 0 +
    1080 * x 4 * y 1

/-- Coefficient 3 of `compute_Bezier_degree_6_inflections`, auto_inflection_Bezier.h:109. -/
def inflection6_3 (x y : ℕ → K) : K :=
    10080 * x 0 * y 1 - 25200 * x 0 * y 2 + 21600 * x 0 * y 3 - 7200 * x 0 * y 4 + 720 * x 0 * y 5 -
    10080 * x 1 * y 0 + 36000 * x 1 * y 2 - 36000 * x 1 * y 3 + 10800 * x 1 * y 4 - 720 * x 1 * y 5
    + 25200 * x 2 * y 0 - 36000 * x 2 * y 1 + 14400 * x 2 * y 3 - 3600 * x 2 * y 4 - 21600 * x 3 *
    y 0 + 36000 * x 3 * y 1 - 14400 * x 3 * y 2 + 7200 * x 4 * y 0 - 10800 * x 4 * y 1 + 3600 * x 4
    * y 2 - 720 * x 5 * y 0 + 720 * x 5 * y 1

/-- Coefficient 4 of `compute_Bezier_degree_6_inflections`, auto_inflection_Bezier.h:110. -/
def inflection6_4 (x y : ℕ → K) : K :=
    -12600 * x 0 * y 1 + 37800 * x 0 * y 2 - 41400 * x 0 * y 3 + 19800 * x 0 * y 4 - 3780 * x 0 *
    y 5 + 180 * x 0 * y 6 + 12600 * x 1 * y 0 - 64800 * x 1 * y 2 + 86400 * x 1 * y 3 - 40500 * x 1
    * y 4 + 6480 * x 1 * y 5 - 180 * x 1 * y 6 - 37800 * x 2 * y 0 + 64800 * x 2 * y 1 - 48600 * x 2
    * y 3 + 24300 * x 2 * y 4 - 2700 * x 2 * y 5 + 41400 * x 3 * y 0 - 86400 * x 3 * y 1 + 48600 *
    x 3 * y 2 - 3600 * x 3 * y 4 - 19800 * x 4 * y 0 + 40500 * x 4 * y 1 - 24300 * x 4 * y 2 + 3600
    * x 4 * y 3 + 3780 * x 5 * y 0 - 6480 * x 5 * y 1 + 2700 * x 5 * y 2 - 180 * x 6 * y 0 + 180 *
    x 6 * y 1

/-- Coefficient 5 of `compute_Bezier_degree_6_inflections`, auto_inflection_Bezier.h:111. -/
def inflection6_5 (x y : ℕ → K) : K :=
    10080 * x 0 * y 1 - 35280 * x 0 * y 2 + 46800 * x 0 * y 3 - 28800 * x 0 * y 4 + 7920 * x 0 * y 5
    - 720 * x 0 * y 6 - 10080 * x 1 * y 0 + 71280 * x 1 * y 2 - 118800 * x 1 * y 3 + 75600 * x 1 *
    y 4 - 19440 * x 1 * y 5 + 1440 * x 1 * y 6 + 35280 * x 2 * y 0 - 71280 * x 2 * y 1 + 86400 * x 2
    * y 3 - 64800 * x 2 * y 4 + 15120 * x 2 * y 5 - 720 * x 2 * y 6 - 46800 * x 3 * y 0 + 118800 *
    x 3 * y 1 - 86400 * x 3 * y 2 + 18000 * x 3 * y 4 - 3600 * x 3 * y 5 + 28800 * x 4 * y 0 - 75600
    * x 4 * y 1 + 64800 * x 4 * y 2 - 18000 * x 4 * y 3 - 7920 * x 5 * y 0 + 19440 * x 5 * y 1 -
    15120 * x 5 * y 2 + 3600 * x 5 * y 3 + 720 * x 6 * y 0 - 1440 * x 6 * y 1 + 720 * x 6 * y 2

/-- Coefficient 6 of `compute_Bezier_degree_6_inflections`, auto_inflection_Bezier.h:112. -/
def inflection6_6 (x y : ℕ → K) : K :=
    -5040 * x 0 * y 1 + 20160 * x 0 * y 2 - 31320 * x 0 * y 3 + 23400 * x 0 * y 4 - 8280 * x 0 * y 5
    + 1080 * x 0 * y 6 + 5040 * x 1 * y 0 - 47160 * x 1 * y 2 + 94320 * x 1 * y 3 - 75600 * x 1 *
    y 4 + 26640 * x 1 * y 5 - 3240 * x 1 * y 6 - 20160 * x 2 * y 0 + 47160 * x 2 * y 1 - 84600 * x 2
    * y 3 + 84600 * x 2 * y 4 - 30240 * x 2 * y 5 + 3240 * x 2 * y 6 + 31320 * x 3 * y 0 - 94320 *
    x 3 * y 1 + 84600 * x 3 * y 2 - 34200 * x 3 * y 4 + 13680 * x 3 * y 5 - 1080 * x 3 * y 6 - 23400
    * x 4 * y 0 + 75600 * x 4 * y 1 - 84600 * x 4 * y 2 + 34200 * x 4 * y 3 - 1800 * x 4 * y 5 +
    8280 * x 5 * y 0 - 26640 * x 5 * y 1 + 30240 * x 5 * y 2 - 13680 * x 5 * y 3 + 1800 * x 5 * y 4
    - 1080 * x 6 * y 0 + 3240 * x 6 * y 1 - 3240 * x 6 * y 2 + 1080 * x 6 * y 3

/-- Coefficient 7 of `compute_Bezier_degree_6_inflections`, auto_inflection_Bezier.h:113. -/
def inflection6_7 (x y : ℕ → K) : K :=
    1440 * x 0 * y 1 - 6480 * x 0 * y 2 + 11520 * x 0 * y 3 - 10080 * x 0 * y 4 + 4320 * x 0 * y 5 -
    720 * x 0 * y 6 - 1440 * x 1 * y 0 + 17280 * x 1 * y 2 - 40320 * x 1 * y 3 + 38880 * x 1 * y 4 -
    17280 * x 1 * y 5 + 2880 * x 1 * y 6 + 6480 * x 2 * y 0 - 17280 * x 2 * y 1 + 43200 * x 2 * y 3
    - 54000 * x 2 * y 4 + 25920 * x 2 * y 5 - 4320 * x 2 * y 6 - 11520 * x 3 * y 0 + 40320 * x 3 *
    y 1 - 43200 * x 3 * y 2 + 28800 * x 3 * y 4 - 17280 * x 3 * y 5 + 2880 * x 3 * y 6 + 10080 * x 4
    * y 0 - 38880 * x 4 * y 1 + 54000 * x 4 * y 2 - 28800 * x 4 * y 3 + 4320 * x 4 * y 5 - 720 * x 4
    * y 6 - 4320 * x 5 * y 0 + 17280 * x 5 * y 1 - 25920 * x 5 * y 2 + 17280 * x 5 * y 3 - 4320 *
    x 5 * y 4 + 720 * x 6 * y 0 - 2880 * x 6 * y 1 + 4320 * x 6 * y 2 - 2880 * x 6 * y 3 + 720 * x 6
    * y 4

/-- Coefficient 8 of `compute_Bezier_degree_6_inflections`, auto_inflection_Bezier.h:114. -/
def inflection6_8 (x y : ℕ → K) : K :=
    -180 * x 0 * y 1 + 900 * x 0 * y 2 - 1800 * x 0 * y 3 + 1800 * x 0 * y 4 - 900 * x 0 * y 5 + 180
    * x 0 * y 6 + 180 * x 1 * y 0 - 2700 * x 1 * y 2 + 7200 * x 1 * y 3 - 8100 * x 1 * y 4 + 4320 *
    x 1 * y 5 - 900 * x 1 * y 6 - 900 * x 2 * y 0 + 2700 * x 2 * y 1 - 9000 * x 2 * y 3 + 13500 *
    x 2 * y 4 - 8100 * x 2 * y 5 + 1800 * x 2 * y 6 + 1800 * x 3 * y 0 - 7200 * x 3 * y 1 + 9000 *
    x 3 * y 2 - 9000 * x 3 * y 4 + 7200 * x 3 * y 5 - 1800 * x 3 * y 6 - 1800 * x 4 * y 0 + 8100 *
    x 4 * y 1 - 13500 * x 4 * y 2 + 9000 * x 4 * y 3 - 2700 * x 4 * y 5 + 900 * x 4 * y 6 + 900 *
    x 5 * y 0 - 4320 * x 5 * y 1 + 8100 * x 5 * y 2 - 7200 * x 5 * y 3 + 2700 * x 5 * y 4 - 180 *
    x 5 * y 6 - 180 * x 6 * y 0 + 900 * x 6 * y 1 - 1800 * x 6 * y 2 + 1800 * x 6 * y 3 - 900 * x 6
    * y 4 + 180 * x 6 * y 5

/-- `compute_Bezier_degree_6_inflections`, auto_inflection_Bezier.h:98-115: the coefficients passed to the finder of degree 8. -/
def inflection6 (x y : ℕ → K) : List K :=
  [inflection6_0 x y,
   inflection6_1 x y,
   inflection6_2 x y,
   inflection6_3 x y,
   inflection6_4 x y,
   inflection6_5 x y,
   inflection6_6 x y,
   inflection6_7 x y,
   inflection6_8 x y]

/-- Coefficient 0 of `compute_Bezier_degree_7_inflections`, auto_inflection_Bezier.h:131. -/
def inflection7_0 (x y : ℕ → K) : K :=
    -294 * x 0 * y 1 + 294 * x 0 * y 2 + 294 * x 1 * y 0 - 294 * x 1 * y 2 - 294 * x 2 * y 0 + 294 *
    x 2 * y 1

/-- Coefficient 1 of `compute_Bezier_degree_7_inflections`, auto_inflection_Bezier.h:132. -/
def inflection7_1 (x y : ℕ → K) : K :=
    2940 * x 0 * y 1 - 4410 * x 0 * y 2 + 1470 * x 0 * y 3 - 2940 * x 1 * y 0 + 4410 * x 1 * y 2 -
    1470 * x 1 * y 3 + 4410 * x 2 * y 0 - 4410 * x 2 * y 1 - 1470 * x 3 * y 0 + 1470 * x 3 * y 1

/-- Coefficient 2 of `compute_Bezier_degree_7_inflections`, auto_inflection_Bezier.h:133. -/
def inflection7_2 (x y : ℕ → K) : K :=
    -13230 * x 0 * y 1 + 26460 * x 0 * y 2 - 16170 * x 0 * y 3 + 2940 * x 0 * y 4 + 13230 * x 1 *
    y 0 - 30870 * x 1 * y 2 + 20580 * x 1 * y 3 - 2940 * x 1 * y 4 - 26460 * x 2 * y 0 + 30870 * x 2
    * y 1 - 4410 * x 2 * y 3 + 16170 * x 3 * y 0 - 20580 * x 3 * y 1 + 4410 * x 3 * y 2 - 2940 * x 4
    * y 0 + 2940 * x 4 * y 1

/-- Coefficient 3 of `compute_Bezier_degree_7_inflections`, auto_inflection_Bezier.h:134. -/
def inflection7_3 (x y : ℕ → K) : K :=
    35280 * x 0 * y 1 - 88200 * x 0 * y 2 + 76440 * x 0 * y 3 - 26460 * x 0 * y 4 + 2940 * x 0 * y 5
    - 35280 * x 1 * y 0 + 123480 * x 1 * y 2 - 123480 * x 1 * y 3 + 38220 * x 1 * y 4 - 2940 * x 1 *
    y 5 + 88200 * x 2 * y 0 - 123480 * x 2 * y 1 + 47040 * x 2 * y 3 - 11760 * x 2 * y 4 - 76440 *
    x 3 * y 0 + 123480 * x 3 * y 1 - 47040 * x 3 * y 2 + 26460 * x 4 * y 0 - 38220 * x 4 * y 1 +
    11760 * x 4 * y 2 - 2940 * x 5 * y 0 + 2940 * x 5 * y 1

/-- Coefficient 4 of `compute_Bezier_degree_7_inflections`, auto_inflection_Bezier.h:135. -/
def inflection7_4 (x y : ℕ → K) : K :=
    -61740 * x 0 * y 1 + 185220 * x 0 * y 2 - 205800 * x 0 * y 3 + 102900 * x 0 * y 4 - 22050 * x 0
    * y 5 + 1470 * x 0 * y 6 + 61740 * x 1 * y 0 - 308700 * x 1 * y 2 + 411600 * x 1 * y 3 - 198450
    * x 1 * y 4 + 35280 * x 1 * y 5 - 1470 * x 1 * y 6 - 185220 * x 2 * y 0 + 308700 * x 2 * y 1 -
    220500 * x 2 * y 3 + 110250 * x 2 * y 4 - 13230 * x 2 * y 5 + 205800 * x 3 * y 0 - 411600 * x 3
    * y 1 + 220500 * x 3 * y 2 - 14700 * x 3 * y 4 - 102900 * x 4 * y 0 + 198450 * x 4 * y 1 -
    110250 * x 4 * y 2 + 14700 * x 4 * y 3 + 22050 * x 5 * y 0 - 35280 * x 5 * y 1 + 13230 * x 5 *
    y 2 - 1470 * x 6 * y 0 + 1470 * x 6 * y 1

/-- Coefficient 5 of `compute_Bezier_degree_7_inflections`, auto_inflection_Bezier.h:136. -/
def inflection7_5 (x y : ℕ → K) : K :=
    74088 * x 0 * y 1 - 259308 * x 0 * y 2 + 349860 * x 0 * y 3 - 226380 * x 0 * y 4 + 70560 * x 0 *
    y 5 - 9114 * x 0 * y 6 + 294 * x 0 * y 7 - 74088 * x 1 * y 0 + 506268 * x 1 * y 2 - 843780 * x 1
    * y 3 + 552720 * x 1 * y 4 - 156996 * x 1 * y 5 + 16170 * x 1 * y 6 - 294 * x 1 * y 7 + 259308 *
    x 2 * y 0 - 506268 * x 2 * y 1 + 582120 * x 2 * y 3 - 436590 * x 2 * y 4 + 108486 * x 2 * y 5 -
    7056 * x 2 * y 6 - 349860 * x 3 * y 0 + 843780 * x 3 * y 1 - 582120 * x 3 * y 2 + 110250 * x 3 *
    y 4 - 22050 * x 3 * y 5 + 226380 * x 4 * y 0 - 552720 * x 4 * y 1 + 436590 * x 4 * y 2 - 110250
    * x 4 * y 3 - 70560 * x 5 * y 0 + 156996 * x 5 * y 1 - 108486 * x 5 * y 2 + 22050 * x 5 * y 3 +
    9114 * x 6 * y 0 - 16170 * x 6 * y 1 + 7056 * x 6 * y 2 - 294 * x 7 * y 0 + 294 * x 7 * y 1

/-- Coefficient 6 of `compute_Bezier_degree_7_inflections`, auto_inflection_Bezier.h:137. -/
def inflection7_6 (x y : ℕ → K) : K :=
    -61740 * x 0 * y 1 + 246960 * x 0 * y 2 - 391020 * x 0 * y 3 + 308700 * x 0 * y 4 - 124950 * x 0
    * y 5 + 23520 * x 0 * y 6 - 1470 * x 0 * y 7 + 61740 * x 1 * y 0 - 555660 * x 1 * y 2 + 1111320
    * x 1 * y 3 - 918750 * x 1 * y 4 + 358680 * x 1 * y 5 - 60270 * x 1 * y 6 + 2940 * x 1 * y 7 -
    246960 * x 2 * y 0 + 555660 * x 2 * y 1 - 940800 * x 2 * y 3 + 940800 * x 2 * y 4 - 357210 * x 2
    * y 5 + 49980 * x 2 * y 6 - 1470 * x 2 * y 7 + 391020 * x 3 * y 0 - 1111320 * x 3 * y 1 + 940800
    * x 3 * y 2 - 345450 * x 3 * y 4 + 138180 * x 3 * y 5 - 13230 * x 3 * y 6 - 308700 * x 4 * y 0 +
    918750 * x 4 * y 1 - 940800 * x 4 * y 2 + 345450 * x 4 * y 3 - 14700 * x 4 * y 5 + 124950 * x 5
    * y 0 - 358680 * x 5 * y 1 + 357210 * x 5 * y 2 - 138180 * x 5 * y 3 + 14700 * x 5 * y 4 - 23520
    * x 6 * y 0 + 60270 * x 6 * y 1 - 49980 * x 6 * y 2 + 13230 * x 6 * y 3 + 1470 * x 7 * y 0 -
    2940 * x 7 * y 1 + 1470 * x 7 * y 2

/-- Coefficient 7 of `compute_Bezier_degree_7_inflections`, auto_inflection_Bezier.h:138. -/
def inflection7_7 (x y : ℕ → K) : K :=
    35280 * x 0 * y 1 - 158760 * x 0 * y 2 + 288120 * x 0 * y 3 - 267540 * x 0 * y 4 + 132300 * x 0
    * y 5 - 32340 * x 0 * y 6 + 2940 * x 0 * y 7 - 35280 * x 1 * y 0 + 405720 * x 1 * y 2 - 946680 *
    x 1 * y 3 + 943740 * x 1 * y 4 - 467460 * x 1 * y 5 + 108780 * x 1 * y 6 - 8820 * x 1 * y 7 +
    158760 * x 2 * y 0 - 405720 * x 2 * y 1 + 952560 * x 2 * y 3 - 1190700 * x 2 * y 4 + 608580 *
    x 2 * y 5 - 132300 * x 2 * y 6 + 8820 * x 2 * y 7 - 288120 * x 3 * y 0 + 946680 * x 3 * y 1 -
    952560 * x 3 * y 2 + 573300 * x 3 * y 4 - 343980 * x 3 * y 5 + 67620 * x 3 * y 6 - 2940 * x 3 *
    y 7 + 267540 * x 4 * y 0 - 943740 * x 4 * y 1 + 1190700 * x 4 * y 2 - 573300 * x 4 * y 3 + 70560
    * x 4 * y 5 - 11760 * x 4 * y 6 - 132300 * x 5 * y 0 + 467460 * x 5 * y 1 - 608580 * x 5 * y 2 +
    343980 * x 5 * y 3 - 70560 * x 5 * y 4 + 32340 * x 6 * y 0 - 108780 * x 6 * y 1 + 132300 * x 6 *
    y 2 - 67620 * x 6 * y 3 + 11760 * x 6 * y 4 - 2940 * x 7 * y 0 + 8820 * x 7 * y 1 - 8820 * x 7 *
    y 2 + 2940 * x 7 * y 3

/-- Coefficient 8 of `compute_Bezier_degree_7_inflections`, auto_inflection_Bezier.h:139. -/
def inflection7_8 (x y : ℕ → K) : K :=
    -13230 * x 0 * y 1 + 66150 * x 0 * y 2 - 135240 * x 0 * y 3 + 144060 * x 0 * y 4 - 83790 * x 0 *
    y 5 + 24990 * x 0 * y 6 - 2940 * x 0 * y 7 + 13230 * x 1 * y 0 - 189630 * x 1 * y 2 + 505680 *
    x 1 * y 3 - 589470 * x 1 * y 4 + 352800 * x 1 * y 5 - 104370 * x 1 * y 6 + 11760 * x 1 * y 7 -
    66150 * x 2 * y 0 + 189630 * x 2 * y 1 - 590940 * x 2 * y 3 + 886410 * x 2 * y 4 - 568890 * x 2
    * y 5 + 167580 * x 2 * y 6 - 17640 * x 2 * y 7 + 135240 * x 3 * y 0 - 505680 * x 3 * y 1 +
    590940 * x 3 * y 2 - 529200 * x 3 * y 4 + 423360 * x 3 * y 5 - 126420 * x 3 * y 6 + 11760 * x 3
    * y 7 - 144060 * x 4 * y 0 + 589470 * x 4 * y 1 - 886410 * x 4 * y 2 + 529200 * x 4 * y 3 -
    127890 * x 4 * y 5 + 42630 * x 4 * y 6 - 2940 * x 4 * y 7 + 83790 * x 5 * y 0 - 352800 * x 5 *
    y 1 + 568890 * x 5 * y 2 - 423360 * x 5 * y 3 + 127890 * x 5 * y 4 - 4410 * x 5 * y 6 - 24990 *
    x 6 * y 0 + 104370 * x 6 * y 1 - 167580 * x 6 * y 2 + 126420 * x 6 * y 3 - 42630 * x 6 * y 4 +
    4410 * x 6 * y 5 + 2940 * x 7 * y 0 - 11760 * x 7 * y 1 + 17640 * x 7 * y 2 - 11760 * x 7 * y 3
    + 2940 * x 7 * y 4

/-- Coefficient 9 of `compute_Bezier_degree_7_inflections`, auto_inflection_Bezier.h:140. -/
def inflection7_9 (x y : ℕ → K) : K :=
    2940 * x 0 * y 1 - 16170 * x 0 * y 2 + 36750 * x 0 * y 3 - 44100 * x 0 * y 4 + 29400 * x 0 * y 5
    - 10290 * x 0 * y 6 + 1470 * x 0 * y 7 - 2940 * x 1 * y 0 + 51450 * x 1 * y 2 - 154350 * x 1 *
    y 3 + 205800 * x 1 * y 4 - 144060 * x 1 * y 5 + 51450 * x 1 * y 6 - 7350 * x 1 * y 7 + 16170 *
    x 2 * y 0 - 51450 * x 2 * y 1 + 205800 * x 2 * y 3 - 360150 * x 2 * y 4 + 277830 * x 2 * y 5 -
    102900 * x 2 * y 6 + 14700 * x 2 * y 7 - 36750 * x 3 * y 0 + 154350 * x 3 * y 1 - 205800 * x 3 *
    y 2 + 257250 * x 3 * y 4 - 257250 * x 3 * y 5 + 102900 * x 3 * y 6 - 14700 * x 3 * y 7 + 44100 *
    x 4 * y 0 - 205800 * x 4 * y 1 + 360150 * x 4 * y 2 - 257250 * x 4 * y 3 + 102900 * x 4 * y 5 -
    51450 * x 4 * y 6 + 7350 * x 4 * y 7 - 29400 * x 5 * y 0 + 144060 * x 5 * y 1 - 277830 * x 5 *
    y 2 + 257250 * x 5 * y 3 - 102900 * x 5 * y 4 + 10290 * x 5 * y 6 - 1470 * x 5 * y 7 + 10290 *
    x 6 * y 0 - 51450 * x 6 * y 1 + 102900 * x 6 * y 2 - 102900 * x 6 * y 3 + 51450 * x 6 * y 4 -
    10290 * x 6 * y 5 - 1470 * x 7 * y 0 + 7350 * x 7 * y 1 - 14700 * x 7 * y 2 + 14700 * x 7 * y 3
    - 7350 * x 7 * y 4 + 1470 * x 7 * y 5

/-- Coefficient 10 of `compute_Bezier_degree_7_inflections`, auto_inflection_Bezier.h:141. -/
def inflection7_10 (x y : ℕ → K) : K :=
    -294 * x 0 * y 1 + 1764 * x 0 * y 2 - 4410 * x 0 * y 3 + 5880 * x 0 * y 4 - 4410 * x 0 * y 5 +
    1764 * x 0 * y 6 - 294 * x 0 * y 7 + 294 * x 1 * y 0 - 6174 * x 1 * y 2 + 20580 * x 1 * y 3 -
    30870 * x 1 * y 4 + 24696 * x 1 * y 5 - 10290 * x 1 * y 6 + 1764 * x 1 * y 7 - 1764 * x 2 * y 0
    + 6174 * x 2 * y 1 - 30870 * x 2 * y 3 + 61740 * x 2 * y 4 - 55566 * x 2 * y 5 + 24696 * x 2 *
    y 6 - 4410 * x 2 * y 7 + 4410 * x 3 * y 0 - 20580 * x 3 * y 1 + 30870 * x 3 * y 2 - 51450 * x 3
    * y 4 + 61740 * x 3 * y 5 - 30870 * x 3 * y 6 + 5880 * x 3 * y 7 - 5880 * x 4 * y 0 + 30870 *
    x 4 * y 1 - 61740 * x 4 * y 2 + 51450 * x 4 * y 3 - 30870 * x 4 * y 5 + 20580 * x 4 * y 6 - 4410
    * x 4 * y 7 + 4410 * x 5 * y 0 - 24696 * x 5 * y 1 + 55566 * x 5 * y 2 - 61740 * x 5 * y 3 +
    30870 * x 5 * y 4 - 6174 * x 5 * y 6 + 1764 * x 5 * y 7 - 1764 * x 6 * y 0 + 10290 * x 6 * y 1 -
    24696 * x 6 * y 2 + 30870 * x 6 * y 3 - 20580 * x 6 * y 4 + 6174 * x 6 * y 5 - 294 * x 6 * y 7 +
    294 * x 7 * y 0 - 1764 * x 7 * y 1 + 4410 * x 7 * y 2 - 5880 * x 7 * y 3 + 4410 * x 7 * y 4 -
    1764 * x 7 * y 5 + 294 * x 7 * y 6

/-- `compute_Bezier_degree_7_inflections`, auto_inflection_Bezier.h:123-142: the coefficients passed to the finder of degree 10. -/
def inflection7 (x y : ℕ → K) : List K :=
  [inflection7_0 x y,
   inflection7_1 x y,
   inflection7_2 x y,
   inflection7_3 x y,
   inflection7_4 x y,
   inflection7_5 x y,
   inflection7_6 x y,
   inflection7_7 x y,
   inflection7_8 x y,
   inflection7_9 x y,
   inflection7_10 x y]

/-- Coefficient 0 of `compute_Bezier_degree_8_inflections`, auto_inflection_Bezier.h:158. -/
def inflection8_0 (x y : ℕ → K) : K :=
    -448 * x 0 * y 1 + 448 * x 0 * y 2 + 448 * x 1 * y 0 - 448 * x 1 * y 2 - 448 * x 2 * y 0 + 448 *
    x 2 * y 1

/-- Coefficient 1 of `compute_Bezier_degree_8_inflections`, auto_inflection_Bezier.h:159. -/
def inflection8_1 (x y : ℕ → K) : K :=
    5376 * x 0 * y 1 - 8064 * x 0 * y 2 + 2688 * x 0 * y 3 - 5376 * x 1 * y 0 + 8064 * x 1 * y 2 -
    2688 * x 1 * y 3 + 8064 * x 2 * y 0 - 8064 * x 2 * y 1 - 2688 * x 3 * y 0 + 2688 * x 3 * y 1

/-- Coefficient 2 of `compute_Bezier_degree_8_inflections`, auto_inflection_Bezier.h:160. -/
def inflection8_2 (x y : ℕ → K) : K :=
    -29568 * x 0 * y 1 + 59136 * x 0 * y 2 - 36288 * x 0 * y 3 + 6720 * x 0 * y 4 + 29568 * x 1 *
    y 0 - 68544 * x 1 * y 2 + 45696 * x 1 * y 3 - 6720 * x 1 * y 4 - 59136 * x 2 * y 0 + 68544 * x 2
    * y 1 - 9408 * x 2 * y 3 + 36288 * x 3 * y 0 - 45696 * x 3 * y 1 + 9408 * x 3 * y 2 - 6720 * x 4
    * y 0 + 6720 * x 4 * y 1

/-- Coefficient 3 of `compute_Bezier_degree_8_inflections`, auto_inflection_Bezier.h:161. -/
def inflection8_3 (x y : ℕ → K) : K :=
    98560 * x 0 * y 1 - 246400 * x 0 * y 2 + 215040 * x 0 * y 3 - 76160 * x 0 * y 4 + 8960 * x 0 *
    y 5 - 98560 * x 1 * y 0 + 340480 * x 1 * y 2 - 340480 * x 1 * y 3 + 107520 * x 1 * y 4 - 8960 *
    x 1 * y 5 + 246400 * x 2 * y 0 - 340480 * x 2 * y 1 + 125440 * x 2 * y 3 - 31360 * x 2 * y 4 -
    215040 * x 3 * y 0 + 340480 * x 3 * y 1 - 125440 * x 3 * y 2 + 76160 * x 4 * y 0 - 107520 * x 4
    * y 1 + 31360 * x 4 * y 2 - 8960 * x 5 * y 0 + 8960 * x 5 * y 1

/-- Coefficient 4 of `compute_Bezier_degree_8_inflections`, auto_inflection_Bezier.h:162. -/
def inflection8_4 (x y : ℕ → K) : K :=
    -221760 * x 0 * y 1 + 665280 * x 0 * y 2 - 745920 * x 0 * y 3 + 383040 * x 0 * y 4 - 87360 * x 0
    * y 5 + 6720 * x 0 * y 6 + 221760 * x 1 * y 0 - 1088640 * x 1 * y 2 + 1451520 * x 1 * y 3 -
    712320 * x 1 * y 4 + 134400 * x 1 * y 5 - 6720 * x 1 * y 6 - 665280 * x 2 * y 0 + 1088640 * x 2
    * y 1 - 752640 * x 2 * y 3 + 376320 * x 2 * y 4 - 47040 * x 2 * y 5 + 745920 * x 3 * y 0 -
    1451520 * x 3 * y 1 + 752640 * x 3 * y 2 - 47040 * x 3 * y 4 - 383040 * x 4 * y 0 + 712320 * x 4
    * y 1 - 376320 * x 4 * y 2 + 47040 * x 4 * y 3 + 87360 * x 5 * y 0 - 134400 * x 5 * y 1 + 47040
    * x 5 * y 2 - 6720 * x 6 * y 0 + 6720 * x 6 * y 1

/-- Coefficient 5 of `compute_Bezier_degree_8_inflections`, auto_inflection_Bezier.h:163. -/
def inflection8_5 (x y : ℕ → K) : K :=
    354816 * x 0 * y 1 - 1241856 * x 0 * y 2 + 1693440 * x 0 * y 3 - 1128960 * x 0 * y 4 + 376320 *
    x 0 * y 5 - 56448 * x 0 * y 6 + 2688 * x 0 * y 7 - 354816 * x 1 * y 0 + 2370816 * x 1 * y 2 -
    3951360 * x 1 * y 3 + 2634240 * x 1 * y 4 - 790272 * x 1 * y 5 + 94080 * x 1 * y 6 - 2688 * x 1
    * y 7 + 1241856 * x 2 * y 0 - 2370816 * x 2 * y 1 + 2634240 * x 2 * y 3 - 1975680 * x 2 * y 4 +
    508032 * x 2 * y 5 - 37632 * x 2 * y 6 - 1693440 * x 3 * y 0 + 3951360 * x 3 * y 1 - 2634240 *
    x 3 * y 2 + 470400 * x 3 * y 4 - 94080 * x 3 * y 5 + 1128960 * x 4 * y 0 - 2634240 * x 4 * y 1 +
    1975680 * x 4 * y 2 - 470400 * x 4 * y 3 - 376320 * x 5 * y 0 + 790272 * x 5 * y 1 - 508032 *
    x 5 * y 2 + 94080 * x 5 * y 3 + 56448 * x 6 * y 0 - 94080 * x 6 * y 1 + 37632 * x 6 * y 2 - 2688
    * x 7 * y 0 + 2688 * x 7 * y 1

/-- Coefficient 6 of `compute_Bezier_degree_8_inflections`, auto_inflection_Bezier.h:164. -/
def inflection8_6 (x y : ℕ → K) : K :=
    -413952 * x 0 * y 1 + 1655808 * x 0 * y 2 - 2653056 * x 0 * y 3 + 2163840 * x 0 * y 4 - 940800 *
    x 0 * y 5 + 206976 * x 0 * y 6 - 19264 * x 0 * y 7 + 448 * x 0 * y 8 + 413952 * x 1 * y 0 -
    3631488 * x 1 * y 2 + 7262976 * x 1 * y 3 - 6115200 * x 1 * y 4 + 2521344 * x 1 * y 5 - 486080 *
    x 1 * y 6 + 34944 * x 1 * y 7 - 448 * x 1 * y 8 - 1655808 * x 2 * y 0 + 3631488 * x 2 * y 1 -
    5927040 * x 2 * y 3 + 5927040 * x 2 * y 4 - 2323776 * x 2 * y 5 + 363776 * x 2 * y 6 - 15680 *
    x 2 * y 7 + 2653056 * x 3 * y 0 - 7262976 * x 3 * y 1 + 5927040 * x 3 * y 2 - 2054080 * x 3 *
    y 4 + 821632 * x 3 * y 5 - 84672 * x 3 * y 6 - 2163840 * x 4 * y 0 + 6115200 * x 4 * y 1 -
    5927040 * x 4 * y 2 + 2054080 * x 4 * y 3 - 78400 * x 4 * y 5 + 940800 * x 5 * y 0 - 2521344 *
    x 5 * y 1 + 2323776 * x 5 * y 2 - 821632 * x 5 * y 3 + 78400 * x 5 * y 4 - 206976 * x 6 * y 0 +
    486080 * x 6 * y 1 - 363776 * x 6 * y 2 + 84672 * x 6 * y 3 + 19264 * x 7 * y 0 - 34944 * x 7 *
    y 1 + 15680 * x 7 * y 2 - 448 * x 8 * y 0 + 448 * x 8 * y 1

/-- Coefficient 7 of `compute_Bezier_degree_8_inflections`, auto_inflection_Bezier.h:165. -/
def inflection8_7 (x y : ℕ → K) : K :=
    354816 * x 0 * y 1 - 1596672 * x 0 * y 2 + 2935296 * x 0 * y 3 - 2822400 * x 0 * y 4 + 1505280 *
    x 0 * y 5 - 432768 * x 0 * y 6 + 59136 * x 0 * y 7 - 2688 * x 0 * y 8 - 354816 * x 1 * y 0 +
    3967488 * x 1 * y 2 - 9257472 * x 1 * y 3 + 9408000 * x 1 * y 4 - 4929792 * x 1 * y 5 + 1317120
    * x 1 * y 6 - 155904 * x 1 * y 7 + 5376 * x 1 * y 8 + 1596672 * x 2 * y 0 - 3967488 * x 2 * y 1
    + 8956416 * x 2 * y 3 - 11195520 * x 2 * y 4 + 5908224 * x 2 * y 5 - 1430016 * x 2 * y 6 +
    134400 * x 2 * y 7 - 2688 * x 2 * y 8 - 2935296 * x 3 * y 0 + 9257472 * x 3 * y 1 - 8956416 *
    x 3 * y 2 + 5080320 * x 3 * y 4 - 3048192 * x 3 * y 5 + 639744 * x 3 * y 6 - 37632 * x 3 * y 7 +
    2822400 * x 4 * y 0 - 9408000 * x 4 * y 1 + 11195520 * x 4 * y 2 - 5080320 * x 4 * y 3 + 564480
    * x 4 * y 5 - 94080 * x 4 * y 6 - 1505280 * x 5 * y 0 + 4929792 * x 5 * y 1 - 5908224 * x 5 *
    y 2 + 3048192 * x 5 * y 3 - 564480 * x 5 * y 4 + 432768 * x 6 * y 0 - 1317120 * x 6 * y 1 +
    1430016 * x 6 * y 2 - 639744 * x 6 * y 3 + 94080 * x 6 * y 4 - 59136 * x 7 * y 0 + 155904 * x 7
    * y 1 - 134400 * x 7 * y 2 + 37632 * x 7 * y 3 + 2688 * x 8 * y 0 - 5376 * x 8 * y 1 + 2688 *
    x 8 * y 2

/-- Coefficient 8 of `compute_Bezier_degree_8_inflections`, auto_inflection_Bezier.h:166. -/
def inflection8_8 (x y : ℕ → K) : K :=
    -221760 * x 0 * y 1 + 1108800 * x 0 * y 2 - 2298240 * x 0 * y 3 + 2540160 * x 0 * y 4 - 1599360
    * x 0 * y 5 + 564480 * x 0 * y 6 - 100800 * x 0 * y 7 + 6720 * x 0 * y 8 + 221760 * x 1 * y 0 -
    3084480 * x 1 * y 2 + 8225280 * x 1 * y 3 - 9784320 * x 1 * y 4 + 6209280 * x 1 * y 5 - 2116800
    * x 1 * y 6 + 349440 * x 1 * y 7 - 20160 * x 1 * y 8 - 1108800 * x 2 * y 0 + 3084480 * x 2 * y 1
    - 9219840 * x 2 * y 3 + 13829760 * x 2 * y 4 - 9172800 * x 2 * y 5 + 3010560 * x 2 * y 6 -
    443520 * x 2 * y 7 + 20160 * x 2 * y 8 + 2298240 * x 3 * y 0 - 8225280 * x 3 * y 1 + 9219840 *
    x 3 * y 2 - 7761600 * x 3 * y 4 + 6209280 * x 3 * y 5 - 1975680 * x 3 * y 6 + 241920 * x 3 * y 7
    - 6720 * x 3 * y 8 - 2540160 * x 4 * y 0 + 9784320 * x 4 * y 1 - 13829760 * x 4 * y 2 + 7761600
    * x 4 * y 3 - 1693440 * x 4 * y 5 + 564480 * x 4 * y 6 - 47040 * x 4 * y 7 + 1599360 * x 5 * y 0
    - 6209280 * x 5 * y 1 + 9172800 * x 5 * y 2 - 6209280 * x 5 * y 3 + 1693440 * x 5 * y 4 - 47040
    * x 5 * y 6 - 564480 * x 6 * y 0 + 2116800 * x 6 * y 1 - 3010560 * x 6 * y 2 + 1975680 * x 6 *
    y 3 - 564480 * x 6 * y 4 + 47040 * x 6 * y 5 + 100800 * x 7 * y 0 - 349440 * x 7 * y 1 + 443520
    * x 7 * y 2 - 241920 * x 7 * y 3 + 47040 * x 7 * y 4 - 6720 * x 8 * y 0 + 20160 * x 8 * y 1 -
    20160 * x 8 * y 2 + 6720 * x 8 * y 3

/-- Coefficient 9 of `compute_Bezier_degree_8_inflections`, auto_inflection_Bezier.h:167. -/
def inflection8_9 (x y : ℕ → K) : K :=
    98560 * x 0 * y 1 - 542080 * x 0 * y 2 + 1249920 * x 0 * y 3 - 1559040 * x 0 * y 4 + 1128960 *
    x 0 * y 5 - 470400 * x 0 * y 6 + 103040 * x 0 * y 7 - 8960 * x 0 * y 8 - 98560 * x 1 * y 0 +
    1671040 * x 1 * y 2 - 5013120 * x 1 * y 3 + 6827520 * x 1 * y 4 - 5080320 * x 1 * y 5 + 2101120
    * x 1 * y 6 - 443520 * x 1 * y 7 + 35840 * x 1 * y 8 + 542080 * x 2 * y 0 - 1671040 * x 2 * y 1
    + 6397440 * x 2 * y 3 - 11195520 * x 2 * y 4 + 8937600 * x 2 * y 5 - 3700480 * x 2 * y 6 +
    743680 * x 2 * y 7 - 53760 * x 2 * y 8 - 1249920 * x 3 * y 0 + 5013120 * x 3 * y 1 - 6397440 *
    x 3 * y 2 + 7495040 * x 3 * y 4 - 7495040 * x 3 * y 5 + 3198720 * x 3 * y 6 - 600320 * x 3 * y 7
    + 35840 * x 3 * y 8 + 1559040 * x 4 * y 0 - 6827520 * x 4 * y 1 + 11195520 * x 4 * y 2 - 7495040
    * x 4 * y 3 + 2696960 * x 4 * y 5 - 1348480 * x 4 * y 6 + 228480 * x 4 * y 7 - 8960 * x 4 * y 8
    - 1128960 * x 5 * y 0 + 5080320 * x 5 * y 1 - 8937600 * x 5 * y 2 + 7495040 * x 5 * y 3 -
    2696960 * x 5 * y 4 + 219520 * x 5 * y 6 - 31360 * x 5 * y 7 + 470400 * x 6 * y 0 - 2101120 *
    x 6 * y 1 + 3700480 * x 6 * y 2 - 3198720 * x 6 * y 3 + 1348480 * x 6 * y 4 - 219520 * x 6 * y 5
    - 103040 * x 7 * y 0 + 443520 * x 7 * y 1 - 743680 * x 7 * y 2 + 600320 * x 7 * y 3 - 228480 *
    x 7 * y 4 + 31360 * x 7 * y 5 + 8960 * x 8 * y 0 - 35840 * x 8 * y 1 + 53760 * x 8 * y 2 - 35840
    * x 8 * y 3 + 8960 * x 8 * y 4

/-- Coefficient 10 of `compute_Bezier_degree_8_inflections`, auto_inflection_Bezier.h:168. -/
def inflection8_10 (x y : ℕ → K) : K :=
    -29568 * x 0 * y 1 + 177408 * x 0 * y 2 - 450240 * x 0 * y 3 + 624960 * x 0 * y 4 - 510720 * x 0
    * y 5 + 244608 * x 0 * y 6 - 63168 * x 0 * y 7 + 6720 * x 0 * y 8 + 29568 * x 1 * y 0 - 600768 *
    x 1 * y 2 + 2002560 * x 1 * y 3 - 3071040 * x 1 * y 4 + 2618112 * x 1 * y 5 - 1270080 * x 1 *
    y 6 + 325248 * x 1 * y 7 - 33600 * x 1 * y 8 - 177408 * x 2 * y 0 + 600768 * x 2 * y 1 - 2869440
    * x 2 * y 3 + 5738880 * x 2 * y 4 - 5353152 * x 2 * y 5 + 2671872 * x 2 * y 6 - 678720 * x 2 *
    y 7 + 67200 * x 2 * y 8 + 450240 * x 3 * y 0 - 2002560 * x 3 * y 1 + 2869440 * x 3 * y 2 -
    4468800 * x 3 * y 4 + 5362560 * x 3 * y 5 - 2869440 * x 3 * y 6 + 725760 * x 3 * y 7 - 67200 *
    x 3 * y 8 - 624960 * x 4 * y 0 + 3071040 * x 4 * y 1 - 5738880 * x 4 * y 2 + 4468800 * x 4 * y 3
    - 2399040 * x 4 * y 5 + 1599360 * x 4 * y 6 - 409920 * x 4 * y 7 + 33600 * x 4 * y 8 + 510720 *
    x 5 * y 0 - 2618112 * x 5 * y 1 + 5353152 * x 5 * y 2 - 5362560 * x 5 * y 3 + 2399040 * x 5 *
    y 4 - 385728 * x 5 * y 6 + 110208 * x 5 * y 7 - 6720 * x 5 * y 8 - 244608 * x 6 * y 0 + 1270080
    * x 6 * y 1 - 2671872 * x 6 * y 2 + 2869440 * x 6 * y 3 - 1599360 * x 6 * y 4 + 385728 * x 6 *
    y 5 - 9408 * x 6 * y 7 + 63168 * x 7 * y 0 - 325248 * x 7 * y 1 + 678720 * x 7 * y 2 - 725760 *
    x 7 * y 3 + 409920 * x 7 * y 4 - 110208 * x 7 * y 5 + 9408 * x 7 * y 6 - 6720 * x 8 * y 0 +
    33600 * x 8 * y 1 - 67200 * x 8 * y 2 + 67200 * x 8 * y 3 - 33600 * x 8 * y 4 + 6720 * x 8 * y 5

/-- Coefficient 11 of `compute_Bezier_degree_8_inflections`, auto_inflection_Bezier.h:169. -/
def inflection8_11 (x y : ℕ → K) : K :=
    5376 * x 0 * y 1 - 34944 * x 0 * y 2 + 96768 * x 0 * y 3 - 147840 * x 0 * y 4 + 134400 * x 0 *
    y 5 - 72576 * x 0 * y 6 + 21504 * x 0 * y 7 - 2688 * x 0 * y 8 - 5376 * x 1 * y 0 + 129024 * x 1
    * y 2 - 473088 * x 1 * y 3 + 806400 * x 1 * y 4 - 774144 * x 1 * y 5 + 430080 * x 1 * y 6 -
    129024 * x 1 * y 7 + 16128 * x 1 * y 8 + 34944 * x 2 * y 0 - 129024 * x 2 * y 1 + 752640 * x 2 *
    y 3 - 1693440 * x 2 * y 4 + 1806336 * x 2 * y 5 - 1053696 * x 2 * y 6 + 322560 * x 2 * y 7 -
    40320 * x 2 * y 8 - 96768 * x 3 * y 0 + 473088 * x 3 * y 1 - 752640 * x 3 * y 2 + 1505280 * x 3
    * y 4 - 2107392 * x 3 * y 5 + 1354752 * x 3 * y 6 - 430080 * x 3 * y 7 + 53760 * x 3 * y 8 +
    147840 * x 4 * y 0 - 806400 * x 4 * y 1 + 1693440 * x 4 * y 2 - 1505280 * x 4 * y 3 + 1128960 *
    x 4 * y 5 - 940800 * x 4 * y 6 + 322560 * x 4 * y 7 - 40320 * x 4 * y 8 - 134400 * x 5 * y 0 +
    774144 * x 5 * y 1 - 1806336 * x 5 * y 2 + 2107392 * x 5 * y 3 - 1128960 * x 5 * y 4 + 301056 *
    x 5 * y 6 - 129024 * x 5 * y 7 + 16128 * x 5 * y 8 + 72576 * x 6 * y 0 - 430080 * x 6 * y 1 +
    1053696 * x 6 * y 2 - 1354752 * x 6 * y 3 + 940800 * x 6 * y 4 - 301056 * x 6 * y 5 + 21504 *
    x 6 * y 7 - 2688 * x 6 * y 8 - 21504 * x 7 * y 0 + 129024 * x 7 * y 1 - 322560 * x 7 * y 2 +
    430080 * x 7 * y 3 - 322560 * x 7 * y 4 + 129024 * x 7 * y 5 - 21504 * x 7 * y 6 + 2688 * x 8 *
    y 0 - 16128 * x 8 * y 1 + 40320 * x 8 * y 2 - 53760 * x 8 * y 3 + 40320 * x 8 * y 4 - 16128 *
    x 8 * y 5 + 2688 * x 8 * y 6

/-- Coefficient 12 of `compute_Bezier_degree_8_inflections`, auto_inflection_Bezier.h:170. -/
def inflection8_12 (x y : ℕ → K) : K :=
    -448 * x 0 * y 1 + 3136 * x 0 * y 2 - 9408 * x 0 * y 3 + 15680 * x 0 * y 4 - 15680 * x 0 * y 5 +
    9408 * x 0 * y 6 - 3136 * x 0 * y 7 + 448 * x 0 * y 8 + 448 * x 1 * y 0 - 12544 * x 1 * y 2 +
    50176 * x 1 * y 3 - 94080 * x 1 * y 4 + 100352 * x 1 * y 5 - 62720 * x 1 * y 6 + 21504 * x 1 *
    y 7 - 3136 * x 1 * y 8 - 3136 * x 2 * y 0 + 12544 * x 2 * y 1 - 87808 * x 2 * y 3 + 219520 * x 2
    * y 4 - 263424 * x 2 * y 5 + 175616 * x 2 * y 6 - 62720 * x 2 * y 7 + 9408 * x 2 * y 8 + 9408 *
    x 3 * y 0 - 50176 * x 3 * y 1 + 87808 * x 3 * y 2 - 219520 * x 3 * y 4 + 351232 * x 3 * y 5 -
    263424 * x 3 * y 6 + 100352 * x 3 * y 7 - 15680 * x 3 * y 8 - 15680 * x 4 * y 0 + 94080 * x 4 *
    y 1 - 219520 * x 4 * y 2 + 219520 * x 4 * y 3 - 219520 * x 4 * y 5 + 219520 * x 4 * y 6 - 94080
    * x 4 * y 7 + 15680 * x 4 * y 8 + 15680 * x 5 * y 0 - 100352 * x 5 * y 1 + 263424 * x 5 * y 2 -
    351232 * x 5 * y 3 + 219520 * x 5 * y 4 - 87808 * x 5 * y 6 + 50176 * x 5 * y 7 - 9408 * x 5 *
    y 8 - 9408 * x 6 * y 0 + 62720 * x 6 * y 1 - 175616 * x 6 * y 2 + 263424 * x 6 * y 3 - 219520 *
    x 6 * y 4 + 87808 * x 6 * y 5 - 12544 * x 6 * y 7 + 3136 * x 6 * y 8 + 3136 * x 7 * y 0 - 21504
    * x 7 * y 1 + 62720 * x 7 * y 2 - 100352 * x 7 * y 3 + 94080 * x 7 * y 4 - 50176 * x 7 * y 5 +
    12544 * x 7 * y 6 - 448 * x 7 * y 8 - 448 * x 8 * y 0 + 3136 * x 8 * y 1 - 9408 * x 8 * y 2 +
    15680 * x 8 * y 3 - 15680 * x 8 * y 4 + 9408 * x 8 * y 5 - 3136 * x 8 * y 6 + 448 * x 8 * y 7

/-- `compute_Bezier_degree_8_inflections`, auto_inflection_Bezier.h:150-171: the coefficients passed to the finder of degree 12. -/
def inflection8 (x y : ℕ → K) : List K :=
  [inflection8_0 x y,
   inflection8_1 x y,
   inflection8_2 x y,
   inflection8_3 x y,
   inflection8_4 x y,
   inflection8_5 x y,
   inflection8_6 x y,
   inflection8_7 x y,
   inflection8_8 x y,
   inflection8_9 x y,
   inflection8_10 x y,
   inflection8_11 x y,
   inflection8_12 x y]

/-- Coefficient 0 of `compute_Bezier_degree_9_inflections`, auto_inflection_Bezier.h:187. -/
def inflection9_0 (x y : ℕ → K) : K :=
    -648 * x 0 * y 1 + 648 * x 0 * y 2 + 648 * x 1 * y 0 - 648 * x 1 * y 2 - 648 * x 2 * y 0 + 648 *
    x 2 * y 1

/-- Coefficient 1 of `compute_Bezier_degree_9_inflections`, auto_inflection_Bezier.h:188. -/
def inflection9_1 (x y : ℕ → K) : K :=
    9072 * x 0 * y 1 - 13608 * x 0 * y 2 + 4536 * x 0 * y 3 - 9072 * x 1 * y 0 + 13608 * x 1 * y 2 -
    4536 * x 1 * y 3 + 13608 * x 2 * y 0 - 13608 * x 2 * y 1 - 4536 * x 3 * y 0 + 4536 * x 3 * y 1

/-- Coefficient 2 of `compute_Bezier_degree_9_inflections`, auto_inflection_Bezier.h:189. -/
def inflection9_2 (x y : ℕ → K) : K :=
    -58968 * x 0 * y 1 + 117936 * x 0 * y 2 - 72576 * x 0 * y 3 + 13608 * x 0 * y 4 + 58968 * x 1 *
    y 0 - 136080 * x 1 * y 2 + 90720 * x 1 * y 3 - 13608 * x 1 * y 4 - 117936 * x 2 * y 0 + 136080 *
    x 2 * y 1 - 18144 * x 2 * y 3 + 72576 * x 3 * y 0 - 90720 * x 3 * y 1 + 18144 * x 3 * y 2 -
    13608 * x 4 * y 0 + 13608 * x 4 * y 1

/-- Coefficient 3 of `compute_Bezier_degree_9_inflections`, auto_inflection_Bezier.h:190. -/
def inflection9_3 (x y : ℕ → K) : K :=
    235872 * x 0 * y 1 - 589680 * x 0 * y 2 + 517104 * x 0 * y 3 - 185976 * x 0 * y 4 + 22680 * x 0
    * y 5 - 235872 * x 1 * y 0 + 807408 * x 1 * y 2 - 807408 * x 1 * y 3 + 258552 * x 1 * y 4 -
    22680 * x 1 * y 5 + 589680 * x 2 * y 0 - 807408 * x 2 * y 1 + 290304 * x 2 * y 3 - 72576 * x 2 *
    y 4 - 517104 * x 3 * y 0 + 807408 * x 3 * y 1 - 290304 * x 3 * y 2 + 185976 * x 4 * y 0 - 258552
    * x 4 * y 1 + 72576 * x 4 * y 2 - 22680 * x 5 * y 0 + 22680 * x 5 * y 1

/-- Coefficient 4 of `compute_Bezier_degree_9_inflections`, auto_inflection_Bezier.h:191. -/
def inflection9_4 (x y : ℕ → K) : K :=
    -648648 * x 0 * y 1 + 1945944 * x 0 * y 2 - 2195424 * x 0 * y 3 + 1147608 * x 0 * y 4 - 272160 *
    x 0 * y 5 + 22680 * x 0 * y 6 + 648648 * x 1 * y 0 - 3143448 * x 1 * y 2 + 4191264 * x 1 * y 3 -
    2082024 * x 1 * y 4 + 408240 * x 1 * y 5 - 22680 * x 1 * y 6 - 1945944 * x 2 * y 0 + 3143448 *
    x 2 * y 1 - 2122848 * x 2 * y 3 + 1061424 * x 2 * y 4 - 136080 * x 2 * y 5 + 2195424 * x 3 * y 0
    - 4191264 * x 3 * y 1 + 2122848 * x 3 * y 2 - 127008 * x 3 * y 4 - 1147608 * x 4 * y 0 + 2082024
    * x 4 * y 1 - 1061424 * x 4 * y 2 + 127008 * x 4 * y 3 + 272160 * x 5 * y 0 - 408240 * x 5 * y 1
    + 136080 * x 5 * y 2 - 22680 * x 6 * y 0 + 22680 * x 6 * y 1

/-- Coefficient 5 of `compute_Bezier_degree_9_inflections`, auto_inflection_Bezier.h:192. -/
def inflection9_5 (x y : ℕ → K) : K :=
    1297296 * x 0 * y 1 - 4540536 * x 0 * y 2 + 6237000 * x 0 * y 3 - 4241160 * x 0 * y 4 + 1474200
    * x 0 * y 5 - 240408 * x 0 * y 6 + 13608 * x 0 * y 7 - 1297296 * x 1 * y 0 + 8532216 * x 1 * y 2
    - 14220360 * x 1 * y 3 + 9593640 * x 1 * y 4 - 2980152 * x 1 * y 5 + 385560 * x 1 * y 6 - 13608
    * x 1 * y 7 + 4540536 * x 2 * y 0 - 8532216 * x 2 * y 1 + 9253440 * x 2 * y 3 - 6940080 * x 2 *
    y 4 + 1823472 * x 2 * y 5 - 145152 * x 2 * y 6 - 6237000 * x 3 * y 0 + 14220360 * x 3 * y 1 -
    9253440 * x 3 * y 2 + 1587600 * x 3 * y 4 - 317520 * x 3 * y 5 + 4241160 * x 4 * y 0 - 9593640 *
    x 4 * y 1 + 6940080 * x 4 * y 2 - 1587600 * x 4 * y 3 - 1474200 * x 5 * y 0 + 2980152 * x 5 *
    y 1 - 1823472 * x 5 * y 2 + 317520 * x 5 * y 3 + 240408 * x 6 * y 0 - 385560 * x 6 * y 1 +
    145152 * x 6 * y 2 - 13608 * x 7 * y 0 + 13608 * x 7 * y 1

/-- Coefficient 6 of `compute_Bezier_degree_9_inflections`, auto_inflection_Bezier.h:193. -/
def inflection9_6 (x y : ℕ → K) : K :=
    -1945944 * x 0 * y 1 + 7783776 * x 0 * y 2 - 12573792 * x 0 * y 3 + 10478160 * x 0 * y 4 -
    4762800 * x 0 * y 5 + 1143072 * x 0 * y 6 - 127008 * x 0 * y 7 + 4536 * x 0 * y 8 + 1945944 *
    x 1 * y 0 - 16765056 * x 1 * y 2 + 33530112 * x 1 * y 3 - 28576800 * x 1 * y 4 + 12192768 * x 1
    * y 5 - 2540160 * x 1 * y 6 + 217728 * x 1 * y 7 - 4536 * x 1 * y 8 - 7783776 * x 2 * y 0 +
    16765056 * x 2 * y 1 - 26671680 * x 2 * y 3 + 26671680 * x 2 * y 4 - 10668672 * x 2 * y 5 +
    1778112 * x 2 * y 6 - 90720 * x 2 * y 7 + 12573792 * x 3 * y 0 - 33530112 * x 3 * y 1 + 26671680
    * x 3 * y 2 - 8890560 * x 3 * y 4 + 3556224 * x 3 * y 5 - 381024 * x 3 * y 6 - 10478160 * x 4 *
    y 0 + 28576800 * x 4 * y 1 - 26671680 * x 4 * y 2 + 8890560 * x 4 * y 3 - 317520 * x 4 * y 5 +
    4762800 * x 5 * y 0 - 12192768 * x 5 * y 1 + 10668672 * x 5 * y 2 - 3556224 * x 5 * y 3 + 317520
    * x 5 * y 4 - 1143072 * x 6 * y 0 + 2540160 * x 6 * y 1 - 1778112 * x 6 * y 2 + 381024 * x 6 *
    y 3 + 127008 * x 7 * y 0 - 217728 * x 7 * y 1 + 90720 * x 7 * y 2 - 4536 * x 8 * y 0 + 4536 *
    x 8 * y 1

/-- Coefficient 7 of `compute_Bezier_degree_9_inflections`, auto_inflection_Bezier.h:194. -/
def inflection9_7 (x y : ℕ → K) : K :=
    2223936 * x 0 * y 1 - 10007712 * x 0 * y 2 + 18561312 * x 0 * y 3 - 18261936 * x 0 * y 4 +
    10206000 * x 0 * y 5 - 3211488 * x 0 * y 6 + 526176 * x 0 * y 7 - 36936 * x 0 * y 8 + 648 * x 0
    * y 9 - 2223936 * x 1 * y 0 + 24377760 * x 1 * y 2 - 56881440 * x 1 * y 3 + 58541616 * x 1 * y 4
    - 31761072 * x 1 * y 5 + 9162720 * x 1 * y 6 - 1283040 * x 1 * y 7 + 68040 * x 1 * y 8 - 648 *
    x 1 * y 9 + 10007712 * x 2 * y 0 - 24377760 * x 2 * y 1 + 53561088 * x 2 * y 3 - 66951360 * x 2
    * y 4 + 36033984 * x 2 * y 5 - 9253440 * x 2 * y 6 + 1010880 * x 2 * y 7 - 31104 * x 2 * y 8 -
    18561312 * x 3 * y 0 + 56881440 * x 3 * y 1 - 53561088 * x 3 * y 2 + 29211840 * x 3 * y 4 -
    17527104 * x 3 * y 5 + 3810240 * x 3 * y 6 - 254016 * x 3 * y 7 + 18261936 * x 4 * y 0 -
    58541616 * x 4 * y 1 + 66951360 * x 4 * y 2 - 29211840 * x 4 * y 3 + 3048192 * x 4 * y 5 -
    508032 * x 4 * y 6 - 10206000 * x 5 * y 0 + 31761072 * x 5 * y 1 - 36033984 * x 5 * y 2 +
    17527104 * x 5 * y 3 - 3048192 * x 5 * y 4 + 3211488 * x 6 * y 0 - 9162720 * x 6 * y 1 + 9253440
    * x 6 * y 2 - 3810240 * x 6 * y 3 + 508032 * x 6 * y 4 - 526176 * x 7 * y 0 + 1283040 * x 7 *
    y 1 - 1010880 * x 7 * y 2 + 254016 * x 7 * y 3 + 36936 * x 8 * y 0 - 68040 * x 8 * y 1 + 31104 *
    x 8 * y 2 - 648 * x 9 * y 0 + 648 * x 9 * y 1

/-- Coefficient 8 of `compute_Bezier_degree_9_inflections`, auto_inflection_Bezier.h:195. -/
def inflection9_8 (x y : ℕ → K) : K :=
    -1945944 * x 0 * y 1 + 9729720 * x 0 * y 2 - 20357568 * x 0 * y 3 + 23051952 * x 0 * y 4 -
    15240960 * x 0 * y 5 + 5905872 * x 0 * y 6 - 1270080 * x 0 * y 7 + 131544 * x 0 * y 8 - 4536 *
    x 0 * y 9 + 1945944 * x 1 * y 0 - 26494776 * x 1 * y 2 + 70652736 * x 1 * y 3 - 85158864 * x 1 *
    y 4 + 56010528 * x 1 * y 5 - 20638800 * x 1 * y 6 + 4027968 * x 1 * y 7 - 353808 * x 1 * y 8 +
    9072 * x 1 * y 9 - 9729720 * x 2 * y 0 + 26494776 * x 2 * y 1 - 76966848 * x 2 * y 3 + 115450272
    * x 2 * y 4 - 78109920 * x 2 * y 5 + 27179712 * x 2 * y 6 - 4626720 * x 2 * y 7 + 312984 * x 2 *
    y 8 - 4536 * x 2 * y 9 + 20357568 * x 3 * y 0 - 70652736 * x 3 * y 1 + 76966848 * x 3 * y 2 -
    62233920 * x 3 * y 4 + 49787136 * x 3 * y 5 - 16384032 * x 3 * y 6 + 2249856 * x 3 * y 7 - 90720
    * x 3 * y 8 - 23051952 * x 4 * y 0 + 85158864 * x 4 * y 1 - 115450272 * x 4 * y 2 + 62233920 *
    x 4 * y 3 - 12764304 * x 4 * y 5 + 4254768 * x 4 * y 6 - 381024 * x 4 * y 7 + 15240960 * x 5 *
    y 0 - 56010528 * x 5 * y 1 + 78109920 * x 5 * y 2 - 49787136 * x 5 * y 3 + 12764304 * x 5 * y 4
    - 317520 * x 5 * y 6 - 5905872 * x 6 * y 0 + 20638800 * x 6 * y 1 - 27179712 * x 6 * y 2 +
    16384032 * x 6 * y 3 - 4254768 * x 6 * y 4 + 317520 * x 6 * y 5 + 1270080 * x 7 * y 0 - 4027968
    * x 7 * y 1 + 4626720 * x 7 * y 2 - 2249856 * x 7 * y 3 + 381024 * x 7 * y 4 - 131544 * x 8 *
    y 0 + 353808 * x 8 * y 1 - 312984 * x 8 * y 2 + 90720 * x 8 * y 3 + 4536 * x 9 * y 0 - 9072 *
    x 9 * y 1 + 4536 * x 9 * y 2

/-- Coefficient 9 of `compute_Bezier_degree_9_inflections`, auto_inflection_Bezier.h:196. -/
def inflection9_9 (x y : ℕ → K) : K :=
    1297296 * x 0 * y 1 - 7135128 * x 0 * y 2 + 16615368 * x 0 * y 3 - 21255696 * x 0 * y 4 +
    16193520 * x 0 * y 5 - 7429968 * x 0 * y 6 + 1968624 * x 0 * y 7 - 267624 * x 0 * y 8 + 13608 *
    x 0 * y 9 - 1297296 * x 1 * y 0 + 21505176 * x 1 * y 2 - 64515528 * x 1 * y 3 + 89077968 * x 1 *
    y 4 - 68774832 * x 1 * y 5 + 30799440 * x 1 * y 6 - 7702128 * x 1 * y 7 + 948024 * x 1 * y 8 -
    40824 * x 1 * y 9 + 7135128 * x 2 * y 0 - 21505176 * x 2 * y 1 + 79906176 * x 2 * y 3 -
    139835808 * x 2 * y 4 + 113926176 * x 2 * y 5 - 50041152 * x 2 * y 6 + 11612160 * x 2 * y 7 -
    1238328 * x 2 * y 8 + 40824 * x 2 * y 9 - 16615368 * x 3 * y 0 + 64515528 * x 3 * y 1 - 79906176
    * x 3 * y 2 + 89794656 * x 3 * y 4 - 89794656 * x 3 * y 5 + 39626496 * x 3 * y 6 - 8309952 * x 3
    * y 7 + 703080 * x 3 * y 8 - 13608 * x 3 * y 9 + 21255696 * x 4 * y 0 - 89077968 * x 4 * y 1 +
    139835808 * x 4 * y 2 - 89794656 * x 4 * y 3 + 30354912 * x 4 * y 5 - 15177456 * x 4 * y 6 +
    2748816 * x 4 * y 7 - 145152 * x 4 * y 8 - 16193520 * x 5 * y 0 + 68774832 * x 5 * y 1 -
    113926176 * x 5 * y 2 + 89794656 * x 5 * y 3 - 30354912 * x 5 * y 4 + 2222640 * x 5 * y 6 -
    317520 * x 5 * y 7 + 7429968 * x 6 * y 0 - 30799440 * x 6 * y 1 + 50041152 * x 6 * y 2 -
    39626496 * x 6 * y 3 + 15177456 * x 6 * y 4 - 2222640 * x 6 * y 5 - 1968624 * x 7 * y 0 +
    7702128 * x 7 * y 1 - 11612160 * x 7 * y 2 + 8309952 * x 7 * y 3 - 2748816 * x 7 * y 4 + 317520
    * x 7 * y 5 + 267624 * x 8 * y 0 - 948024 * x 8 * y 1 + 1238328 * x 8 * y 2 - 703080 * x 8 * y 3
    + 145152 * x 8 * y 4 - 13608 * x 9 * y 0 + 40824 * x 9 * y 1 - 40824 * x 9 * y 2 + 13608 * x 9 *
    y 3

/-- Coefficient 10 of `compute_Bezier_degree_9_inflections`, auto_inflection_Bezier.h:197. -/
def inflection9_10 (x y : ℕ → K) : K :=
    -648648 * x 0 * y 1 + 3891888 * x 0 * y 2 - 9979200 * x 0 * y 3 + 14220360 * x 0 * y 4 -
    12247200 * x 0 * y 5 + 6477408 * x 0 * y 6 - 2032128 * x 0 * y 7 + 340200 * x 0 * y 8 - 22680 *
    x 0 * y 9 + 648648 * x 1 * y 0 - 12873168 * x 1 * y 2 + 42910560 * x 1 * y 3 - 66747240 * x 1 *
    y 4 + 59113152 * x 1 * y 5 - 31116960 * x 1 * y 6 + 9471168 * x 1 * y 7 - 1496880 * x 1 * y 8 +
    90720 * x 1 * y 9 - 3891888 * x 2 * y 0 + 12873168 * x 2 * y 1 - 59603040 * x 2 * y 3 +
    119206080 * x 2 * y 4 - 113545152 * x 2 * y 5 + 60201792 * x 2 * y 6 - 17690400 * x 2 * y 7 +
    2585520 * x 2 * y 8 - 136080 * x 2 * y 9 + 9979200 * x 3 * y 0 - 42910560 * x 3 * y 1 + 59603040
    * x 3 * y 2 - 88905600 * x 3 * y 4 + 106686720 * x 3 * y 5 - 59058720 * x 3 * y 6 + 16692480 *
    x 3 * y 7 - 2177280 * x 3 * y 8 + 90720 * x 3 * y 9 - 14220360 * x 4 * y 0 + 66747240 * x 4 *
    y 1 - 119206080 * x 4 * y 2 + 88905600 * x 4 * y 3 - 44770320 * x 4 * y 5 + 29846880 * x 4 * y 6
    - 8164800 * x 4 * y 7 + 884520 * x 4 * y 8 - 22680 * x 4 * y 9 + 12247200 * x 5 * y 0 - 59113152
    * x 5 * y 1 + 113545152 * x 5 * y 2 - 106686720 * x 5 * y 3 + 44770320 * x 5 * y 4 - 6477408 *
    x 5 * y 6 + 1850688 * x 5 * y 7 - 136080 * x 5 * y 8 - 6477408 * x 6 * y 0 + 31116960 * x 6 *
    y 1 - 60201792 * x 6 * y 2 + 59058720 * x 6 * y 3 - 29846880 * x 6 * y 4 + 6477408 * x 6 * y 5 -
    127008 * x 6 * y 7 + 2032128 * x 7 * y 0 - 9471168 * x 7 * y 1 + 17690400 * x 7 * y 2 - 16692480
    * x 7 * y 3 + 8164800 * x 7 * y 4 - 1850688 * x 7 * y 5 + 127008 * x 7 * y 6 - 340200 * x 8 *
    y 0 + 1496880 * x 8 * y 1 - 2585520 * x 8 * y 2 + 2177280 * x 8 * y 3 - 884520 * x 8 * y 4 +
    136080 * x 8 * y 5 + 22680 * x 9 * y 0 - 90720 * x 9 * y 1 + 136080 * x 9 * y 2 - 90720 * x 9 *
    y 3 + 22680 * x 9 * y 4

/-- Coefficient 11 of `compute_Bezier_degree_9_inflections`, auto_inflection_Bezier.h:198. -/
def inflection9_11 (x y : ℕ → K) : K :=
    235872 * x 0 * y 1 - 1533168 * x 0 * y 2 + 4291056 * x 0 * y 3 - 6735960 * x 0 * y 4 + 6463800 *
    x 0 * y 5 - 3864672 * x 0 * y 6 + 1397088 * x 0 * y 7 - 276696 * x 0 * y 8 + 22680 * x 0 * y 9 -
    235872 * x 1 * y 0 + 5524848 * x 1 * y 2 - 20257776 * x 1 * y 3 + 35040600 * x 1 * y 4 -
    34986168 * x 1 * y 5 + 21137760 * x 1 * y 6 - 7566048 * x 1 * y 7 + 1456056 * x 1 * y 8 - 113400
    * x 1 * y 9 + 1533168 * x 2 * y 0 - 5524848 * x 2 * y 1 + 31207680 * x 2 * y 3 - 70217280 * x 2
    * y 4 + 76531392 * x 2 * y 5 - 47500992 * x 2 * y 6 + 16873920 * x 2 * y 7 - 3129840 * x 2 * y 8
    + 226800 * x 2 * y 9 - 4291056 * x 3 * y 0 + 20257776 * x 3 * y 1 - 31207680 * x 3 * y 2 +
    59693760 * x 3 * y 4 - 83571264 * x 3 * y 5 + 55629504 * x 3 * y 6 - 19776960 * x 3 * y 7 +
    3492720 * x 3 * y 8 - 226800 * x 3 * y 9 + 6735960 * x 4 * y 0 - 35040600 * x 4 * y 1 + 70217280
    * x 4 * y 2 - 59693760 * x 4 * y 3 + 41912640 * x 4 * y 5 - 34927200 * x 4 * y 6 + 12791520 *
    x 4 * y 7 - 2109240 * x 4 * y 8 + 113400 * x 4 * y 9 - 6463800 * x 5 * y 0 + 34986168 * x 5 *
    y 1 - 76531392 * x 5 * y 2 + 83571264 * x 5 * y 3 - 41912640 * x 5 * y 4 + 10033632 * x 5 * y 6
    - 4300128 * x 5 * y 7 + 639576 * x 5 * y 8 - 22680 * x 5 * y 9 + 3864672 * x 6 * y 0 - 21137760
    * x 6 * y 1 + 47500992 * x 6 * y 2 - 55629504 * x 6 * y 3 + 34927200 * x 6 * y 4 - 10033632 *
    x 6 * y 5 + 580608 * x 6 * y 7 - 72576 * x 6 * y 8 - 1397088 * x 7 * y 0 + 7566048 * x 7 * y 1 -
    16873920 * x 7 * y 2 + 19776960 * x 7 * y 3 - 12791520 * x 7 * y 4 + 4300128 * x 7 * y 5 -
    580608 * x 7 * y 6 + 276696 * x 8 * y 0 - 1456056 * x 8 * y 1 + 3129840 * x 8 * y 2 - 3492720 *
    x 8 * y 3 + 2109240 * x 8 * y 4 - 639576 * x 8 * y 5 + 72576 * x 8 * y 6 - 22680 * x 9 * y 0 +
    113400 * x 9 * y 1 - 226800 * x 9 * y 2 + 226800 * x 9 * y 3 - 113400 * x 9 * y 4 + 22680 * x 9
    * y 5

/-- Coefficient 12 of `compute_Bezier_degree_9_inflections`, auto_inflection_Bezier.h:199. -/
def inflection9_12 (x y : ℕ → K) : K :=
    -58968 * x 0 * y 1 + 412776 * x 0 * y 2 - 1251936 * x 0 * y 3 + 2145528 * x 0 * y 4 - 2268000 *
    x 0 * y 5 + 1510488 * x 0 * y 6 - 616896 * x 0 * y 7 + 140616 * x 0 * y 8 - 13608 * x 0 * y 9 +
    58968 * x 1 * y 0 - 1610280 * x 1 * y 2 + 6441120 * x 1 * y 3 - 12260808 * x 1 * y 4 + 13617072
    * x 1 * y 5 - 9276120 * x 1 * y 6 + 3810240 * x 1 * y 7 - 861840 * x 1 * y 8 + 81648 * x 1 * y 9
    - 412776 * x 2 * y 0 + 1610280 * x 2 * y 1 - 10904544 * x 2 * y 3 + 27261360 * x 2 * y 4 -
    33448464 * x 2 * y 5 + 23768640 * x 2 * y 6 - 9888480 * x 2 * y 7 + 2218104 * x 2 * y 8 - 204120
    * x 2 * y 9 + 1251936 * x 3 * y 0 - 6441120 * x 3 * y 1 + 10904544 * x 3 * y 2 - 26036640 * x 3
    * y 4 + 41658624 * x 3 * y 5 - 32387040 * x 3 * y 6 + 13862016 * x 3 * y 7 - 3084480 * x 3 * y 8
    + 272160 * x 3 * y 9 - 2145528 * x 4 * y 0 + 12260808 * x 4 * y 1 - 27261360 * x 4 * y 2 +
    26036640 * x 4 * y 3 - 24322032 * x 4 * y 5 + 24322032 * x 4 * y 6 - 11158560 * x 4 * y 7 +
    2472120 * x 4 * y 8 - 204120 * x 4 * y 9 + 2268000 * x 5 * y 0 - 13617072 * x 5 * y 1 + 33448464
    * x 5 * y 2 - 41658624 * x 5 * y 3 + 24322032 * x 5 * y 4 - 8700048 * x 5 * y 6 + 4971456 * x 5
    * y 7 - 1115856 * x 5 * y 8 + 81648 * x 5 * y 9 - 1510488 * x 6 * y 0 + 9276120 * x 6 * y 1 -
    23768640 * x 6 * y 2 + 32387040 * x 6 * y 3 - 24322032 * x 6 * y 4 + 8700048 * x 6 * y 5 -
    997920 * x 6 * y 7 + 249480 * x 6 * y 8 - 13608 * x 6 * y 9 + 616896 * x 7 * y 0 - 3810240 * x 7
    * y 1 + 9888480 * x 7 * y 2 - 13862016 * x 7 * y 3 + 11158560 * x 7 * y 4 - 4971456 * x 7 * y 5
    + 997920 * x 7 * y 6 - 18144 * x 7 * y 8 - 140616 * x 8 * y 0 + 861840 * x 8 * y 1 - 2218104 *
    x 8 * y 2 + 3084480 * x 8 * y 3 - 2472120 * x 8 * y 4 + 1115856 * x 8 * y 5 - 249480 * x 8 * y 6
    + 18144 * x 8 * y 7 + 13608 * x 9 * y 0 - 81648 * x 9 * y 1 + 204120 * x 9 * y 2 - 272160 * x 9
    * y 3 + 204120 * x 9 * y 4 - 81648 * x 9 * y 5 + 13608 * x 9 * y 6

/-- Coefficient 13 of `compute_Bezier_degree_9_inflections`, auto_inflection_Bezier.h:200. -/
def inflection9_13 (x y : ℕ → K) : K :=
    9072 * x 0 * y 1 - 68040 * x 0 * y 2 + 222264 * x 0 * y 3 - 412776 * x 0 * y 4 + 476280 * x 0 *
    y 5 - 349272 * x 0 * y 6 + 158760 * x 0 * y 7 - 40824 * x 0 * y 8 + 4536 * x 0 * y 9 - 9072 *
    x 1 * y 0 + 285768 * x 1 * y 2 - 1238328 * x 1 * y 3 + 2571912 * x 1 * y 4 - 3143448 * x 1 * y 5
    + 2381400 * x 1 * y 6 - 1102248 * x 1 * y 7 + 285768 * x 1 * y 8 - 31752 * x 1 * y 9 + 68040 *
    x 2 * y 0 - 285768 * x 2 * y 1 + 2286144 * x 2 * y 3 - 6286896 * x 2 * y 4 + 8573040 * x 2 * y 5
    - 6858432 * x 2 * y 6 + 3265920 * x 2 * y 7 - 857304 * x 2 * y 8 + 95256 * x 2 * y 9 - 222264 *
    x 3 * y 0 + 1238328 * x 3 * y 1 - 2286144 * x 3 * y 2 + 6667920 * x 3 * y 4 - 12002256 * x 3 *
    y 5 + 10668672 * x 3 * y 6 - 5334336 * x 3 * y 7 + 1428840 * x 3 * y 8 - 158760 * x 3 * y 9 +
    412776 * x 4 * y 0 - 2571912 * x 4 * y 1 + 6286896 * x 4 * y 2 - 6667920 * x 4 * y 3 + 8001504 *
    x 4 * y 5 - 9335088 * x 4 * y 6 + 5143824 * x 4 * y 7 - 1428840 * x 4 * y 8 + 158760 * x 4 * y 9
    - 476280 * x 5 * y 0 + 3143448 * x 5 * y 1 - 8573040 * x 5 * y 2 + 12002256 * x 5 * y 3 -
    8001504 * x 5 * y 4 + 4000752 * x 5 * y 6 - 2857680 * x 5 * y 7 + 857304 * x 5 * y 8 - 95256 *
    x 5 * y 9 + 349272 * x 6 * y 0 - 2381400 * x 6 * y 1 + 6858432 * x 6 * y 2 - 10668672 * x 6 *
    y 3 + 9335088 * x 6 * y 4 - 4000752 * x 6 * y 5 + 762048 * x 6 * y 7 - 285768 * x 6 * y 8 +
    31752 * x 6 * y 9 - 158760 * x 7 * y 0 + 1102248 * x 7 * y 1 - 3265920 * x 7 * y 2 + 5334336 *
    x 7 * y 3 - 5143824 * x 7 * y 4 + 2857680 * x 7 * y 5 - 762048 * x 7 * y 6 + 40824 * x 7 * y 8 -
    4536 * x 7 * y 9 + 40824 * x 8 * y 0 - 285768 * x 8 * y 1 + 857304 * x 8 * y 2 - 1428840 * x 8 *
    y 3 + 1428840 * x 8 * y 4 - 857304 * x 8 * y 5 + 285768 * x 8 * y 6 - 40824 * x 8 * y 7 - 4536 *
    x 9 * y 0 + 31752 * x 9 * y 1 - 95256 * x 9 * y 2 + 158760 * x 9 * y 3 - 158760 * x 9 * y 4 +
    95256 * x 9 * y 5 - 31752 * x 9 * y 6 + 4536 * x 9 * y 7

/-- Coefficient 14 of `compute_Bezier_degree_9_inflections`, auto_inflection_Bezier.h:201. -/
def inflection9_14 (x y : ℕ → K) : K :=
    -648 * x 0 * y 1 + 5184 * x 0 * y 2 - 18144 * x 0 * y 3 + 36288 * x 0 * y 4 - 45360 * x 0 * y 5
    + 36288 * x 0 * y 6 - 18144 * x 0 * y 7 + 5184 * x 0 * y 8 - 648 * x 0 * y 9 + 648 * x 1 * y 0 -
    23328 * x 1 * y 2 + 108864 * x 1 * y 3 - 244944 * x 1 * y 4 + 326592 * x 1 * y 5 - 272160 * x 1
    * y 6 + 139968 * x 1 * y 7 - 40824 * x 1 * y 8 + 5184 * x 1 * y 9 - 5184 * x 2 * y 0 + 23328 *
    x 2 * y 1 - 217728 * x 2 * y 3 + 653184 * x 2 * y 4 - 979776 * x 2 * y 5 + 870912 * x 2 * y 6 -
    466560 * x 2 * y 7 + 139968 * x 2 * y 8 - 18144 * x 2 * y 9 + 18144 * x 3 * y 0 - 108864 * x 3 *
    y 1 + 217728 * x 3 * y 2 - 762048 * x 3 * y 4 + 1524096 * x 3 * y 5 - 1524096 * x 3 * y 6 +
    870912 * x 3 * y 7 - 272160 * x 3 * y 8 + 36288 * x 3 * y 9 - 36288 * x 4 * y 0 + 244944 * x 4 *
    y 1 - 653184 * x 4 * y 2 + 762048 * x 4 * y 3 - 1143072 * x 4 * y 5 + 1524096 * x 4 * y 6 -
    979776 * x 4 * y 7 + 326592 * x 4 * y 8 - 45360 * x 4 * y 9 + 45360 * x 5 * y 0 - 326592 * x 5 *
    y 1 + 979776 * x 5 * y 2 - 1524096 * x 5 * y 3 + 1143072 * x 5 * y 4 - 762048 * x 5 * y 6 +
    653184 * x 5 * y 7 - 244944 * x 5 * y 8 + 36288 * x 5 * y 9 - 36288 * x 6 * y 0 + 272160 * x 6 *
    y 1 - 870912 * x 6 * y 2 + 1524096 * x 6 * y 3 - 1524096 * x 6 * y 4 + 762048 * x 6 * y 5 -
    217728 * x 6 * y 7 + 108864 * x 6 * y 8 - 18144 * x 6 * y 9 + 18144 * x 7 * y 0 - 139968 * x 7 *
    y 1 + 466560 * x 7 * y 2 - 870912 * x 7 * y 3 + 979776 * x 7 * y 4 - 653184 * x 7 * y 5 + 217728
    * x 7 * y 6 - 23328 * x 7 * y 8 + 5184 * x 7 * y 9 - 5184 * x 8 * y 0 + 40824 * x 8 * y 1 -
    139968 * x 8 * y 2 + 272160 * x 8 * y 3 - 326592 * x 8 * y 4 + 244944 * x 8 * y 5 - 108864 * x 8
    * y 6 + 23328 * x 8 * y 7 - 648 * x 8 * y 9 + 648 * x 9 * y 0 - 5184 * x 9 * y 1 + 18144 * x 9 *
    y 2 - 36288 * x 9 * y 3 + 45360 * x 9 * y 4 - 36288 * x 9 * y 5 + 18144 * x 9 * y 6 - 5184 * x 9
    * y 7 + 648 * x 9 * y 8

/-- `compute_Bezier_degree_9_inflections`, auto_inflection_Bezier.h:179-202: the coefficients passed to the finder of degree 14. -/
def inflection9 (x y : ℕ → K) : List K :=
  [inflection9_0 x y,
   inflection9_1 x y,
   inflection9_2 x y,
   inflection9_3 x y,
   inflection9_4 x y,
   inflection9_5 x y,
   inflection9_6 x y,
   inflection9_7 x y,
   inflection9_8 x y,
   inflection9_9 x y,
   inflection9_10 x y,
   inflection9_11 x y,
   inflection9_12 x y,
   inflection9_13 x y,
   inflection9_14 x y]

/-- Coefficient 0 of `compute_Bezier_degree_10_inflections`, auto_inflection_Bezier.h:218. -/
def inflection10_0 (x y : ℕ → K) : K :=
    -900 * x 0 * y 1 + 900 * x 0 * y 2 + 900 * x 1 * y 0 - 900 * x 1 * y 2 - 900 * x 2 * y 0 + 900 *
    x 2 * y 1

/-- Coefficient 1 of `compute_Bezier_degree_10_inflections`, auto_inflection_Bezier.h:219. -/
def inflection10_1 (x y : ℕ → K) : K :=
    14400 * x 0 * y 1 - 21600 * x 0 * y 2 + 7200 * x 0 * y 3 - 14400 * x 1 * y 0 + 21600 * x 1 * y 2
    - 7200 * x 1 * y 3 + 21600 * x 2 * y 0 - 21600 * x 2 * y 1 - 7200 * x 3 * y 0 + 7200 * x 3 * y 1

/-- Coefficient 2 of `compute_Bezier_degree_10_inflections`, auto_inflection_Bezier.h:220. -/
def inflection10_2 (x y : ℕ → K) : K :=
    -108000 * x 0 * y 1 + 216000 * x 0 * y 2 - 133200 * x 0 * y 3 + 25200 * x 0 * y 4 + 108000 * x 1
    * y 0 - 248400 * x 1 * y 2 + 165600 * x 1 * y 3 - 25200 * x 1 * y 4 - 216000 * x 2 * y 0 +
    248400 * x 2 * y 1 - 32400 * x 2 * y 3 + 133200 * x 3 * y 0 - 165600 * x 3 * y 1 + 32400 * x 3 *
    y 2 - 25200 * x 4 * y 0 + 25200 * x 4 * y 1

/-- Coefficient 3 of `compute_Bezier_degree_10_inflections`, auto_inflection_Bezier.h:221. -/
def inflection10_3 (x y : ℕ → K) : K :=
    504000 * x 0 * y 1 - 1260000 * x 0 * y 2 + 1108800 * x 0 * y 3 - 403200 * x 0 * y 4 + 50400 *
    x 0 * y 5 - 504000 * x 1 * y 0 + 1713600 * x 1 * y 2 - 1713600 * x 1 * y 3 + 554400 * x 1 * y 4
    - 50400 * x 1 * y 5 + 1260000 * x 2 * y 0 - 1713600 * x 2 * y 1 + 604800 * x 2 * y 3 - 151200 *
    x 2 * y 4 - 1108800 * x 3 * y 0 + 1713600 * x 3 * y 1 - 604800 * x 3 * y 2 + 403200 * x 4 * y 0
    - 554400 * x 4 * y 1 + 151200 * x 4 * y 2 - 50400 * x 5 * y 0 + 50400 * x 5 * y 1

/-- Coefficient 4 of `compute_Bezier_degree_10_inflections`, auto_inflection_Bezier.h:222. -/
def inflection10_4 (x y : ℕ → K) : K :=
    -1638000 * x 0 * y 1 + 4914000 * x 0 * y 2 - 5569200 * x 0 * y 3 + 2948400 * x 0 * y 4 - 718200
    * x 0 * y 5 + 63000 * x 0 * y 6 + 1638000 * x 1 * y 0 - 7862400 * x 1 * y 2 + 10483200 * x 1 *
    y 3 - 5254200 * x 1 * y 4 + 1058400 * x 1 * y 5 - 63000 * x 1 * y 6 - 4914000 * x 2 * y 0 +
    7862400 * x 2 * y 1 - 5216400 * x 2 * y 3 + 2608200 * x 2 * y 4 - 340200 * x 2 * y 5 + 5569200 *
    x 3 * y 0 - 10483200 * x 3 * y 1 + 5216400 * x 3 * y 2 - 302400 * x 3 * y 4 - 2948400 * x 4 *
    y 0 + 5254200 * x 4 * y 1 - 2608200 * x 4 * y 2 + 302400 * x 4 * y 3 + 718200 * x 5 * y 0 -
    1058400 * x 5 * y 1 + 340200 * x 5 * y 2 - 63000 * x 6 * y 0 + 63000 * x 6 * y 1

/-- Coefficient 5 of `compute_Bezier_degree_10_inflections`, auto_inflection_Bezier.h:223. -/
def inflection10_5 (x y : ℕ → K) : K :=
    3931200 * x 0 * y 1 - 13759200 * x 0 * y 2 + 19000800 * x 0 * y 3 - 13104000 * x 0 * y 4 +
    4687200 * x 0 * y 5 - 806400 * x 0 * y 6 + 50400 * x 0 * y 7 - 3931200 * x 1 * y 0 + 25552800 *
    x 1 * y 2 - 42588000 * x 1 * y 3 + 28980000 * x 1 * y 4 - 9223200 * x 1 * y 5 + 1260000 * x 1 *
    y 6 - 50400 * x 1 * y 7 + 13759200 * x 2 * y 0 - 25552800 * x 2 * y 1 + 27216000 * x 2 * y 3 -
    20412000 * x 2 * y 4 + 5443200 * x 2 * y 5 - 453600 * x 2 * y 6 - 19000800 * x 3 * y 0 +
    42588000 * x 3 * y 1 - 27216000 * x 3 * y 2 + 4536000 * x 3 * y 4 - 907200 * x 3 * y 5 +
    13104000 * x 4 * y 0 - 28980000 * x 4 * y 1 + 20412000 * x 4 * y 2 - 4536000 * x 4 * y 3 -
    4687200 * x 5 * y 0 + 9223200 * x 5 * y 1 - 5443200 * x 5 * y 2 + 907200 * x 5 * y 3 + 806400 *
    x 6 * y 0 - 1260000 * x 6 * y 1 + 453600 * x 6 * y 2 - 50400 * x 7 * y 0 + 50400 * x 7 * y 1

/-- Coefficient 6 of `compute_Bezier_degree_10_inflections`, auto_inflection_Bezier.h:224. -/
def inflection10_6 (x y : ℕ → K) : K :=
    -7207200 * x 0 * y 1 + 28828800 * x 0 * y 2 - 46846800 * x 0 * y 3 + 39639600 * x 0 * y 4 -
    18572400 * x 0 * y 5 + 4712400 * x 0 * y 6 - 579600 * x 0 * y 7 + 25200 * x 0 * y 8 + 7207200 *
    x 1 * y 0 - 61261200 * x 1 * y 2 + 122522400 * x 1 * y 3 - 105336000 * x 1 * y 4 + 46015200 *
    x 1 * y 5 - 10080000 * x 1 * y 6 + 957600 * x 1 * y 7 - 25200 * x 1 * y 8 - 28828800 * x 2 * y 0
    + 61261200 * x 2 * y 1 - 95634000 * x 2 * y 3 + 95634000 * x 2 * y 4 - 38782800 * x 2 * y 5 +
    6728400 * x 2 * y 6 - 378000 * x 2 * y 7 + 46846800 * x 3 * y 0 - 122522400 * x 3 * y 1 +
    95634000 * x 3 * y 2 - 30996000 * x 3 * y 4 + 12398400 * x 3 * y 5 - 1360800 * x 3 * y 6 -
    39639600 * x 4 * y 0 + 105336000 * x 4 * y 1 - 95634000 * x 4 * y 2 + 30996000 * x 4 * y 3 -
    1058400 * x 4 * y 5 + 18572400 * x 5 * y 0 - 46015200 * x 5 * y 1 + 38782800 * x 5 * y 2 -
    12398400 * x 5 * y 3 + 1058400 * x 5 * y 4 - 4712400 * x 6 * y 0 + 10080000 * x 6 * y 1 -
    6728400 * x 6 * y 2 + 1360800 * x 6 * y 3 + 579600 * x 7 * y 0 - 957600 * x 7 * y 1 + 378000 *
    x 7 * y 2 - 25200 * x 8 * y 0 + 25200 * x 8 * y 1

/-- Coefficient 7 of `compute_Bezier_degree_10_inflections`, auto_inflection_Bezier.h:225. -/
def inflection10_7 (x y : ℕ → K) : K :=
    10296000 * x 0 * y 1 - 46332000 * x 0 * y 2 + 86486400 * x 0 * y 3 - 86486400 * x 0 * y 4 +
    49896000 * x 0 * y 5 - 16632000 * x 0 * y 6 + 3024000 * x 0 * y 7 - 259200 * x 0 * y 8 + 7200 *
    x 0 * y 9 - 10296000 * x 1 * y 0 + 111196800 * x 1 * y 2 - 259459200 * x 1 * y 3 + 269438400 *
    x 1 * y 4 - 149688000 * x 1 * y 5 + 45360000 * x 1 * y 6 - 6998400 * x 1 * y 7 + 453600 * x 1 *
    y 8 - 7200 * x 1 * y 9 + 46332000 * x 2 * y 0 - 111196800 * x 2 * y 1 + 239500800 * x 2 * y 3 -
    299376000 * x 2 * y 4 + 163296000 * x 2 * y 5 - 43545600 * x 2 * y 6 + 5184000 * x 2 * y 7 -
    194400 * x 2 * y 8 - 86486400 * x 3 * y 0 + 259459200 * x 3 * y 1 - 239500800 * x 3 * y 2 +
    127008000 * x 3 * y 4 - 76204800 * x 3 * y 5 + 16934400 * x 3 * y 6 - 1209600 * x 3 * y 7 +
    86486400 * x 4 * y 0 - 269438400 * x 4 * y 1 + 299376000 * x 4 * y 2 - 127008000 * x 4 * y 3 +
    12700800 * x 4 * y 5 - 2116800 * x 4 * y 6 - 49896000 * x 5 * y 0 + 149688000 * x 5 * y 1 -
    163296000 * x 5 * y 2 + 76204800 * x 5 * y 3 - 12700800 * x 5 * y 4 + 16632000 * x 6 * y 0 -
    45360000 * x 6 * y 1 + 43545600 * x 6 * y 2 - 16934400 * x 6 * y 3 + 2116800 * x 6 * y 4 -
    3024000 * x 7 * y 0 + 6998400 * x 7 * y 1 - 5184000 * x 7 * y 2 + 1209600 * x 7 * y 3 + 259200 *
    x 8 * y 0 - 453600 * x 8 * y 1 + 194400 * x 8 * y 2 - 7200 * x 9 * y 0 + 7200 * x 9 * y 1

/-- Coefficient 8 of `compute_Bezier_degree_10_inflections`, auto_inflection_Bezier.h:226. -/
def inflection10_8 (x y : ℕ → K) : K :=
    -11583000 * x 0 * y 1 + 900 * x 0 * y 10 + 57915000 * x 0 * y 2 - 122007600 * x 0 * y 3 +
    140540400 * x 0 * y 4 - 96049800 * x 0 * y 5 + 39501000 * x 0 * y 6 - 9450000 * x 0 * y 7 +
    1198800 * x 0 * y 8 - 65700 * x 0 * y 9 + 11583000 * x 1 * y 0 - 900 * x 1 * y 10 - 155212200 *
    x 1 * y 2 + 413899200 * x 1 * y 3 - 503533800 * x 1 * y 4 + 339292800 * x 1 * y 5 - 131355000 *
    x 1 * y 6 + 28209600 * x 1 * y 7 - 3005100 * x 1 * y 8 + 122400 * x 1 * y 9 - 900 * x 10 * y 0 +
    900 * x 10 * y 1 - 57915000 * x 2 * y 0 + 155212200 * x 2 * y 1 - 441579600 * x 2 * y 3 +
    662369400 * x 2 * y 4 - 454167000 * x 2 * y 5 + 163976400 * x 2 * y 6 - 30294000 * x 2 * y 7 +
    2454300 * x 2 * y 8 - 56700 * x 2 * y 9 + 122007600 * x 3 * y 0 - 413899200 * x 3 * y 1 +
    441579600 * x 3 * y 2 - 347004000 * x 3 * y 4 + 277603200 * x 3 * y 5 - 93290400 * x 3 * y 6 +
    13651200 * x 3 * y 7 - 648000 * x 3 * y 8 - 140540400 * x 4 * y 0 + 503533800 * x 4 * y 1 -
    662369400 * x 4 * y 2 + 347004000 * x 4 * y 3 - 68266800 * x 4 * y 5 + 22755600 * x 4 * y 6 -
    2116800 * x 4 * y 7 + 96049800 * x 5 * y 0 - 339292800 * x 5 * y 1 + 454167000 * x 5 * y 2 -
    277603200 * x 5 * y 3 + 68266800 * x 5 * y 4 - 1587600 * x 5 * y 6 - 39501000 * x 6 * y 0 +
    131355000 * x 6 * y 1 - 163976400 * x 6 * y 2 + 93290400 * x 6 * y 3 - 22755600 * x 6 * y 4 +
    1587600 * x 6 * y 5 + 9450000 * x 7 * y 0 - 28209600 * x 7 * y 1 + 30294000 * x 7 * y 2 -
    13651200 * x 7 * y 3 + 2116800 * x 7 * y 4 - 1198800 * x 8 * y 0 + 3005100 * x 8 * y 1 - 2454300
    * x 8 * y 2 + 648000 * x 8 * y 3 + 65700 * x 9 * y 0 - 122400 * x 9 * y 1 + 56700 * x 9 * y 2

/-- Coefficient 9 of `compute_Bezier_degree_10_inflections`, auto_inflection_Bezier.h:227. -/
def inflection10_9 (x y : ℕ → K) : K :=
    10296000 * x 0 * y 1 - 7200 * x 0 * y 10 - 56628000 * x 0 * y 2 + 132818400 * x 0 * y 3 -
    172972800 * x 0 * y 4 + 136382400 * x 0 * y 5 - 66528000 * x 0 * y 6 + 19656000 * x 0 * y 7 -
    3283200 * x 0 * y 8 + 266400 * x 0 * y 9 - 10296000 * x 1 * y 0 + 14400 * x 1 * y 10 + 167824800
    * x 1 * y 2 - 503474400 * x 1 * y 3 + 701870400 * x 1 * y 4 - 555508800 * x 1 * y 5 + 261576000
    * x 1 * y 6 - 72014400 * x 1 * y 7 + 10735200 * x 1 * y 8 - 727200 * x 1 * y 9 + 7200 * x 10 *
    y 0 - 14400 * x 10 * y 1 + 7200 * x 10 * y 2 + 56628000 * x 2 * y 0 - 167824800 * x 2 * y 1 -
    7200 * x 2 * y 10 + 610156800 * x 2 * y 3 - 1067774400 * x 2 * y 4 + 881798400 * x 2 * y 5 -
    401889600 * x 2 * y 6 + 101088000 * x 2 * y 7 - 12830400 * x 2 * y 8 + 655200 * x 2 * y 9 -
    132818400 * x 3 * y 0 + 503474400 * x 3 * y 1 - 610156800 * x 3 * y 2 + 665884800 * x 3 * y 4 -
    665884800 * x 3 * y 5 + 299980800 * x 3 * y 6 - 66873600 * x 3 * y 7 + 6588000 * x 3 * y 8 -
    194400 * x 3 * y 9 + 172972800 * x 4 * y 0 - 701870400 * x 4 * y 1 + 1067774400 * x 4 * y 2 -
    665884800 * x 4 * y 3 + 215913600 * x 4 * y 5 - 107956800 * x 4 * y 6 + 20260800 * x 4 * y 7 -
    1209600 * x 4 * y 8 - 136382400 * x 5 * y 0 + 555508800 * x 5 * y 1 - 881798400 * x 5 * y 2 +
    665884800 * x 5 * y 3 - 215913600 * x 5 * y 4 + 14817600 * x 5 * y 6 - 2116800 * x 5 * y 7 +
    66528000 * x 6 * y 0 - 261576000 * x 6 * y 1 + 401889600 * x 6 * y 2 - 299980800 * x 6 * y 3 +
    107956800 * x 6 * y 4 - 14817600 * x 6 * y 5 - 19656000 * x 7 * y 0 + 72014400 * x 7 * y 1 -
    101088000 * x 7 * y 2 + 66873600 * x 7 * y 3 - 20260800 * x 7 * y 4 + 2116800 * x 7 * y 5 +
    3283200 * x 8 * y 0 - 10735200 * x 8 * y 1 + 12830400 * x 8 * y 2 - 6588000 * x 8 * y 3 +
    1209600 * x 8 * y 4 - 266400 * x 9 * y 0 + 727200 * x 9 * y 1 - 655200 * x 9 * y 2 + 194400 *
    x 9 * y 3

/-- Coefficient 10 of `compute_Bezier_degree_10_inflections`, auto_inflection_Bezier.h:228. -/
def inflection10_10 (x y : ℕ → K) : K :=
    -7207200 * x 0 * y 1 + 25200 * x 0 * y 10 + 43243200 * x 0 * y 2 - 111711600 * x 0 * y 3 +
    162162000 * x 0 * y 4 - 144698400 * x 0 * y 5 + 81496800 * x 0 * y 6 - 28576800 * x 0 * y 7 +
    5896800 * x 0 * y 8 - 630000 * x 0 * y 9 + 7207200 * x 1 * y 0 - 75600 * x 1 * y 10 - 140540400
    * x 1 * y 2 + 468468000 * x 1 * y 3 - 735966000 * x 1 * y 4 + 668606400 * x 1 * y 5 - 370440000
    * x 1 * y 6 + 124286400 * x 1 * y 7 - 23814000 * x 1 * y 8 + 2268000 * x 1 * y 9 - 25200 * x 10
    * y 0 + 75600 * x 10 * y 1 - 75600 * x 10 * y 2 + 25200 * x 10 * y 3 - 43243200 * x 2 * y 0 +
    140540400 * x 2 * y 1 + 75600 * x 2 * y 10 - 636174000 * x 2 * y 3 + 1272348000 * x 2 * y 4 -
    1228802400 * x 2 * y 5 + 676317600 * x 2 * y 6 - 215460000 * x 2 * y 7 + 37422000 * x 2 * y 8 -
    3024000 * x 2 * y 9 + 111711600 * x 3 * y 0 - 468468000 * x 3 * y 1 - 25200 * x 3 * y 10 +
    636174000 * x 3 * y 2 - 920808000 * x 3 * y 4 + 1104969600 * x 3 * y 5 - 624456000 * x 3 * y 6 +
    187488000 * x 3 * y 7 - 28350000 * x 3 * y 8 + 1764000 * x 3 * y 9 - 162162000 * x 4 * y 0 +
    735966000 * x 4 * y 1 - 1272348000 * x 4 * y 2 + 920808000 * x 4 * y 3 - 444528000 * x 4 * y 5 +
    296352000 * x 4 * y 6 - 83916000 * x 4 * y 7 + 10206000 * x 4 * y 8 - 378000 * x 4 * y 9 +
    144698400 * x 5 * y 0 - 668606400 * x 5 * y 1 + 1228802400 * x 5 * y 2 - 1104969600 * x 5 * y 3
    + 444528000 * x 5 * y 4 - 60328800 * x 5 * y 6 + 17236800 * x 5 * y 7 - 1360800 * x 5 * y 8 -
    81496800 * x 6 * y 0 + 370440000 * x 6 * y 1 - 676317600 * x 6 * y 2 + 624456000 * x 6 * y 3 -
    296352000 * x 6 * y 4 + 60328800 * x 6 * y 5 - 1058400 * x 6 * y 7 + 28576800 * x 7 * y 0 -
    124286400 * x 7 * y 1 + 215460000 * x 7 * y 2 - 187488000 * x 7 * y 3 + 83916000 * x 7 * y 4 -
    17236800 * x 7 * y 5 + 1058400 * x 7 * y 6 - 5896800 * x 8 * y 0 + 23814000 * x 8 * y 1 -
    37422000 * x 8 * y 2 + 28350000 * x 8 * y 3 - 10206000 * x 8 * y 4 + 1360800 * x 8 * y 5 +
    630000 * x 9 * y 0 - 2268000 * x 9 * y 1 + 3024000 * x 9 * y 2 - 1764000 * x 9 * y 3 + 378000 *
    x 9 * y 4

/-- Coefficient 11 of `compute_Bezier_degree_10_inflections`, auto_inflection_Bezier.h:229. -/
def inflection10_11 (x y : ℕ → K) : K :=
    3931200 * x 0 * y 1 - 50400 * x 0 * y 10 - 25552800 * x 0 * y 2 + 72072000 * x 0 * y 3 -
    115315200 * x 0 * y 4 + 114760800 * x 0 * y 5 - 73180800 * x 0 * y 6 + 29635200 * x 0 * y 7 -
    7257600 * x 0 * y 8 + 957600 * x 0 * y 9 - 3931200 * x 1 * y 0 + 201600 * x 1 * y 10 + 90417600
    * x 1 * y 2 - 331531200 * x 1 * y 3 + 579348000 * x 1 * y 4 - 593762400 * x 1 * y 5 + 378000000
    * x 1 * y 6 - 149385600 * x 1 * y 7 + 34927200 * x 1 * y 8 - 4284000 * x 1 * y 9 + 50400 * x 10
    * y 0 - 201600 * x 10 * y 1 + 302400 * x 10 * y 2 - 201600 * x 10 * y 3 + 50400 * x 10 * y 4 +
    25552800 * x 2 * y 0 - 90417600 * x 2 * y 1 - 302400 * x 2 * y 10 + 498960000 * x 2 * y 3 -
    1122660000 * x 2 * y 4 + 1241049600 * x 2 * y 5 - 800150400 * x 2 * y 6 + 308448000 * x 2 * y 7
    - 68040000 * x 2 * y 8 + 7560000 * x 2 * y 9 - 72072000 * x 3 * y 0 + 331531200 * x 3 * y 1 +
    201600 * x 3 * y 10 - 498960000 * x 3 * y 2 + 925344000 * x 3 * y 4 - 1295481600 * x 3 * y 5 +
    880588800 * x 3 * y 6 - 332640000 * x 3 * y 7 + 68040000 * x 3 * y 8 - 6552000 * x 3 * y 9 +
    115315200 * x 4 * y 0 - 579348000 * x 4 * y 1 - 50400 * x 4 * y 10 + 1122660000 * x 4 * y 2 -
    925344000 * x 4 * y 3 + 622339200 * x 4 * y 5 - 518616000 * x 4 * y 6 + 196560000 * x 4 * y 7 -
    36288000 * x 4 * y 8 + 2772000 * x 4 * y 9 - 114760800 * x 5 * y 0 + 593762400 * x 5 * y 1 -
    1241049600 * x 5 * y 2 + 1295481600 * x 5 * y 3 - 622339200 * x 5 * y 4 + 139708800 * x 5 * y 6
    - 59875200 * x 5 * y 7 + 9525600 * x 5 * y 8 - 453600 * x 5 * y 9 + 73180800 * x 6 * y 0 -
    378000000 * x 6 * y 1 + 800150400 * x 6 * y 2 - 880588800 * x 6 * y 3 + 518616000 * x 6 * y 4 -
    139708800 * x 6 * y 5 + 7257600 * x 6 * y 7 - 907200 * x 6 * y 8 - 29635200 * x 7 * y 0 +
    149385600 * x 7 * y 1 - 308448000 * x 7 * y 2 + 332640000 * x 7 * y 3 - 196560000 * x 7 * y 4 +
    59875200 * x 7 * y 5 - 7257600 * x 7 * y 6 + 7257600 * x 8 * y 0 - 34927200 * x 8 * y 1 +
    68040000 * x 8 * y 2 - 68040000 * x 8 * y 3 + 36288000 * x 8 * y 4 - 9525600 * x 8 * y 5 +
    907200 * x 8 * y 6 - 957600 * x 9 * y 0 + 4284000 * x 9 * y 1 - 7560000 * x 9 * y 2 + 6552000 *
    x 9 * y 3 - 2772000 * x 9 * y 4 + 453600 * x 9 * y 5

/-- Coefficient 12 of `compute_Bezier_degree_10_inflections`, auto_inflection_Bezier.h:230. -/
def inflection10_12 (x y : ℕ → K) : K :=
    -1638000 * x 0 * y 1 + 63000 * x 0 * y 10 + 11466000 * x 0 * y 2 - 35053200 * x 0 * y 3 +
    61261200 * x 0 * y 4 - 67221000 * x 0 * y 5 + 47817000 * x 0 * y 6 - 21924000 * x 0 * y 7 +
    6199200 * x 0 * y 8 - 970200 * x 0 * y 9 + 1638000 * x 1 * y 0 - 315000 * x 1 * y 10 - 43898400
    * x 1 * y 2 + 175593600 * x 1 * y 3 - 337768200 * x 1 * y 4 + 385308000 * x 1 * y 5 - 276885000
    * x 1 * y 6 + 125798400 * x 1 * y 7 - 34662600 * x 1 * y 8 + 5191200 * x 1 * y 9 - 63000 * x 10
    * y 0 + 315000 * x 10 * y 1 - 630000 * x 10 * y 2 + 630000 * x 10 * y 3 - 315000 * x 10 * y 4 +
    63000 * x 10 * y 5 - 11466000 * x 2 * y 0 + 43898400 * x 2 * y 1 + 630000 * x 2 * y 10 -
    290228400 * x 2 * y 3 + 725571000 * x 2 * y 4 - 903231000 * x 2 * y 5 + 667245600 * x 2 * y 6 -
    301644000 * x 2 * y 7 + 80627400 * x 2 * y 8 - 11403000 * x 2 * y 9 + 35053200 * x 3 * y 0 -
    175593600 * x 3 * y 1 - 630000 * x 3 * y 10 + 290228400 * x 3 * y 2 - 671328000 * x 3 * y 4 +
    1074124800 * x 3 * y 5 - 853070400 * x 3 * y 6 + 388281600 * x 3 * y 7 - 100170000 * x 3 * y 8 +
    13104000 * x 3 * y 9 - 61261200 * x 4 * y 0 + 337768200 * x 4 * y 1 + 315000 * x 4 * y 10 -
    725571000 * x 4 * y 2 + 671328000 * x 4 * y 3 - 600112800 * x 4 * y 5 + 600112800 * x 4 * y 6 -
    285012000 * x 4 * y 7 + 70686000 * x 4 * y 8 - 8253000 * x 4 * y 9 + 67221000 * x 5 * y 0 -
    385308000 * x 5 * y 1 - 63000 * x 5 * y 10 + 903231000 * x 5 * y 2 - 1074124800 * x 5 * y 3 +
    600112800 * x 5 * y 4 - 201096000 * x 5 * y 6 + 114912000 * x 5 * y 7 - 27556200 * x 5 * y 8 +
    2671200 * x 5 * y 9 - 47817000 * x 6 * y 0 + 276885000 * x 6 * y 1 - 667245600 * x 6 * y 2 +
    853070400 * x 6 * y 3 - 600112800 * x 6 * y 4 + 201096000 * x 6 * y 5 - 20714400 * x 6 * y 7 +
    5178600 * x 6 * y 8 - 340200 * x 6 * y 9 + 21924000 * x 7 * y 0 - 125798400 * x 7 * y 1 +
    301644000 * x 7 * y 2 - 388281600 * x 7 * y 3 + 285012000 * x 7 * y 4 - 114912000 * x 7 * y 5 +
    20714400 * x 7 * y 6 - 302400 * x 7 * y 8 - 6199200 * x 8 * y 0 + 34662600 * x 8 * y 1 -
    80627400 * x 8 * y 2 + 100170000 * x 8 * y 3 - 70686000 * x 8 * y 4 + 27556200 * x 8 * y 5 -
    5178600 * x 8 * y 6 + 302400 * x 8 * y 7 + 970200 * x 9 * y 0 - 5191200 * x 9 * y 1 + 11403000 *
    x 9 * y 2 - 13104000 * x 9 * y 3 + 8253000 * x 9 * y 4 - 2671200 * x 9 * y 5 + 340200 * x 9 *
    y 6

/-- Coefficient 13 of `compute_Bezier_degree_10_inflections`, auto_inflection_Bezier.h:231. -/
def inflection10_13 (x y : ℕ → K) : K :=
    504000 * x 0 * y 1 - 50400 * x 0 * y 10 - 3780000 * x 0 * y 2 + 12448800 * x 0 * y 3 - 23587200
    * x 0 * y 4 + 28274400 * x 0 * y 5 - 22176000 * x 0 * y 6 + 11340000 * x 0 * y 7 - 3628800 * x 0
    * y 8 + 655200 * x 0 * y 9 - 504000 * x 1 * y 0 + 302400 * x 1 * y 10 + 15573600 * x 1 * y 2 -
    67485600 * x 1 * y 3 + 141674400 * x 1 * y 4 - 177962400 * x 1 * y 5 + 142380000 * x 1 * y 6 -
    73029600 * x 1 * y 7 + 23133600 * x 1 * y 8 - 4082400 * x 1 * y 9 + 50400 * x 10 * y 0 - 302400
    * x 10 * y 1 + 756000 * x 10 * y 2 - 1008000 * x 10 * y 3 + 756000 * x 10 * y 4 - 302400 * x 10
    * y 5 + 50400 * x 10 * y 6 + 3780000 * x 2 * y 0 - 15573600 * x 2 * y 1 - 756000 * x 2 * y 10 +
    121564800 * x 2 * y 3 - 334303200 * x 2 * y 4 + 462672000 * x 2 * y 5 - 385106400 * x 2 * y 6 +
    199584000 * x 2 * y 7 - 62596800 * x 2 * y 8 + 10735200 * x 2 * y 9 - 12448800 * x 3 * y 0 +
    67485600 * x 3 * y 1 + 1008000 * x 3 * y 10 - 121564800 * x 3 * y 2 + 343224000 * x 3 * y 4 -
    617803200 * x 3 * y 5 + 561254400 * x 3 * y 6 - 298771200 * x 3 * y 7 + 92988000 * x 3 * y 8 -
    15372000 * x 3 * y 9 + 23587200 * x 4 * y 0 - 141674400 * x 4 * y 1 - 756000 * x 4 * y 10 +
    334303200 * x 4 * y 2 - 343224000 * x 4 * y 3 + 393724800 * x 4 * y 5 - 459345600 * x 4 * y 6 +
    262180800 * x 4 * y 7 - 81648000 * x 4 * y 8 + 12852000 * x 4 * y 9 - 28274400 * x 5 * y 0 +
    177962400 * x 5 * y 1 + 302400 * x 5 * y 10 - 462672000 * x 5 * y 2 + 617803200 * x 5 * y 3 -
    393724800 * x 5 * y 4 + 184161600 * x 5 * y 6 - 131544000 * x 5 * y 7 + 42184800 * x 5 * y 8 -
    6199200 * x 5 * y 9 + 22176000 * x 6 * y 0 - 142380000 * x 6 * y 1 - 50400 * x 6 * y 10 +
    385106400 * x 6 * y 2 - 561254400 * x 6 * y 3 + 459345600 * x 6 * y 4 - 184161600 * x 6 * y 5 +
    31449600 * x 6 * y 7 - 11793600 * x 6 * y 8 + 1562400 * x 6 * y 9 - 11340000 * x 7 * y 0 +
    73029600 * x 7 * y 1 - 199584000 * x 7 * y 2 + 298771200 * x 7 * y 3 - 262180800 * x 7 * y 4 +
    131544000 * x 7 * y 5 - 31449600 * x 7 * y 6 + 1360800 * x 7 * y 8 - 151200 * x 7 * y 9 +
    3628800 * x 8 * y 0 - 23133600 * x 8 * y 1 + 62596800 * x 8 * y 2 - 92988000 * x 8 * y 3 +
    81648000 * x 8 * y 4 - 42184800 * x 8 * y 5 + 11793600 * x 8 * y 6 - 1360800 * x 8 * y 7 -
    655200 * x 9 * y 0 + 4082400 * x 9 * y 1 - 10735200 * x 9 * y 2 + 15372000 * x 9 * y 3 -
    12852000 * x 9 * y 4 + 6199200 * x 9 * y 5 - 1562400 * x 9 * y 6 + 151200 * x 9 * y 7

/-- Coefficient 14 of `compute_Bezier_degree_10_inflections`, auto_inflection_Bezier.h:232. -/
def inflection10_14 (x y : ℕ → K) : K :=
    -108000 * x 0 * y 1 + 25200 * x 0 * y 10 + 864000 * x 0 * y 2 - 3049200 * x 0 * y 3 + 6224400 *
    x 0 * y 4 - 8089200 * x 0 * y 5 + 6930000 * x 0 * y 6 - 3906000 * x 0 * y 7 + 1393200 * x 0 *
    y 8 - 284400 * x 0 * y 9 + 108000 * x 1 * y 0 - 176400 * x 1 * y 10 - 3812400 * x 1 * y 2 +
    17791200 * x 1 * y 3 - 40471200 * x 1 * y 4 + 55490400 * x 1 * y 5 - 48888000 * x 1 * y 6 +
    27914400 * x 1 * y 7 - 9979200 * x 1 * y 8 + 2023200 * x 1 * y 9 - 25200 * x 10 * y 0 + 176400 *
    x 10 * y 1 - 529200 * x 10 * y 2 + 882000 * x 10 * y 3 - 882000 * x 10 * y 4 + 529200 * x 10 *
    y 5 - 176400 * x 10 * y 6 + 25200 * x 10 * y 7 - 864000 * x 2 * y 0 + 3812400 * x 2 * y 1 +
    529200 * x 2 * y 10 - 34700400 * x 2 * y 3 + 104101200 * x 2 * y 4 - 158533200 * x 2 * y 5 +
    146739600 * x 2 * y 6 - 85698000 * x 2 * y 7 + 30812400 * x 2 * y 8 - 6199200 * x 2 * y 9 +
    3049200 * x 3 * y 0 - 17791200 * x 3 * y 1 - 882000 * x 3 * y 10 + 34700400 * x 3 * y 2 -
    117482400 * x 3 * y 4 + 234964800 * x 3 * y 5 - 240256800 * x 3 * y 6 + 146361600 * x 3 * y 7 -
    53298000 * x 3 * y 8 + 10634400 * x 3 * y 9 - 6224400 * x 4 * y 0 + 40471200 * x 4 * y 1 +
    882000 * x 4 * y 10 - 104101200 * x 4 * y 2 + 117482400 * x 4 * y 3 - 168285600 * x 4 * y 5 +
    224380800 * x 4 * y 6 - 149536800 * x 4 * y 7 + 56019600 * x 4 * y 8 - 11088000 * x 4 * y 9 +
    8089200 * x 5 * y 0 - 55490400 * x 5 * y 1 - 529200 * x 5 * y 10 + 158533200 * x 5 * y 2 -
    234964800 * x 5 * y 3 + 168285600 * x 5 * y 4 - 104781600 * x 5 * y 6 + 89812800 * x 5 * y 7 -
    36061200 * x 5 * y 8 + 7106400 * x 5 * y 9 - 6930000 * x 6 * y 0 + 48888000 * x 6 * y 1 + 176400
    * x 6 * y 10 - 146739600 * x 6 * y 2 + 240256800 * x 6 * y 3 - 224380800 * x 6 * y 4 + 104781600
    * x 6 * y 5 - 26762400 * x 6 * y 7 + 13381200 * x 6 * y 8 - 2671200 * x 6 * y 9 + 3906000 * x 7
    * y 0 - 27914400 * x 7 * y 1 - 25200 * x 7 * y 10 + 85698000 * x 7 * y 2 - 146361600 * x 7 * y 3
    + 149536800 * x 7 * y 4 - 89812800 * x 7 * y 5 + 26762400 * x 7 * y 6 - 2300400 * x 7 * y 8 +
    511200 * x 7 * y 9 - 1393200 * x 8 * y 0 + 9979200 * x 8 * y 1 - 30812400 * x 8 * y 2 + 53298000
    * x 8 * y 3 - 56019600 * x 8 * y 4 + 36061200 * x 8 * y 5 - 13381200 * x 8 * y 6 + 2300400 * x 8
    * y 7 - 32400 * x 8 * y 9 + 284400 * x 9 * y 0 - 2023200 * x 9 * y 1 + 6199200 * x 9 * y 2 -
    10634400 * x 9 * y 3 + 11088000 * x 9 * y 4 - 7106400 * x 9 * y 5 + 2671200 * x 9 * y 6 - 511200
    * x 9 * y 7 + 32400 * x 9 * y 8

/-- Coefficient 15 of `compute_Bezier_degree_10_inflections`, auto_inflection_Bezier.h:233. -/
def inflection10_15 (x y : ℕ → K) : K :=
    14400 * x 0 * y 1 - 7200 * x 0 * y 10 - 122400 * x 0 * y 2 + 460800 * x 0 * y 3 - 1008000 * x 0
    * y 4 + 1411200 * x 0 * y 5 - 1310400 * x 0 * y 6 + 806400 * x 0 * y 7 - 316800 * x 0 * y 8 +
    72000 * x 0 * y 9 - 14400 * x 1 * y 0 + 57600 * x 1 * y 10 + 576000 * x 1 * y 2 - 2880000 * x 1
    * y 3 + 7056000 * x 1 * y 4 - 10483200 * x 1 * y 5 + 10080000 * x 1 * y 6 - 6336000 * x 1 * y 7
    + 2520000 * x 1 * y 8 - 576000 * x 1 * y 9 + 7200 * x 10 * y 0 - 57600 * x 10 * y 1 + 201600 *
    x 10 * y 2 - 403200 * x 10 * y 3 + 504000 * x 10 * y 4 - 403200 * x 10 * y 5 + 201600 * x 10 *
    y 6 - 57600 * x 10 * y 7 + 7200 * x 10 * y 8 + 122400 * x 2 * y 0 - 576000 * x 2 * y 1 - 201600
    * x 2 * y 10 + 6048000 * x 2 * y 3 - 19656000 * x 2 * y 4 + 32659200 * x 2 * y 5 - 33264000 *
    x 2 * y 6 + 21600000 * x 2 * y 7 - 8748000 * x 2 * y 8 + 2016000 * x 2 * y 9 - 460800 * x 3 *
    y 0 + 2880000 * x 3 * y 1 + 403200 * x 3 * y 10 - 6048000 * x 3 * y 2 + 24192000 * x 3 * y 4 -
    53222400 * x 3 * y 5 + 60480000 * x 3 * y 6 - 41472000 * x 3 * y 7 + 17280000 * x 3 * y 8 -
    4032000 * x 3 * y 9 + 1008000 * x 4 * y 0 - 7056000 * x 4 * y 1 - 504000 * x 4 * y 10 + 19656000
    * x 4 * y 2 - 24192000 * x 4 * y 3 + 42336000 * x 4 * y 5 - 63504000 * x 4 * y 6 + 48384000 *
    x 4 * y 7 - 21168000 * x 4 * y 8 + 5040000 * x 4 * y 9 - 1411200 * x 5 * y 0 + 10483200 * x 5 *
    y 1 + 403200 * x 5 * y 10 - 32659200 * x 5 * y 2 + 53222400 * x 5 * y 3 - 42336000 * x 5 * y 4 +
    33868800 * x 5 * y 6 - 33868800 * x 5 * y 7 + 16329600 * x 5 * y 8 - 4032000 * x 5 * y 9 +
    1310400 * x 6 * y 0 - 10080000 * x 6 * y 1 - 201600 * x 6 * y 10 + 33264000 * x 6 * y 2 -
    60480000 * x 6 * y 3 + 63504000 * x 6 * y 4 - 33868800 * x 6 * y 5 + 12096000 * x 6 * y 7 -
    7560000 * x 6 * y 8 + 2016000 * x 6 * y 9 - 806400 * x 7 * y 0 + 6336000 * x 7 * y 1 + 57600 *
    x 7 * y 10 - 21600000 * x 7 * y 2 + 41472000 * x 7 * y 3 - 48384000 * x 7 * y 4 + 33868800 * x 7
    * y 5 - 12096000 * x 7 * y 6 + 1728000 * x 7 * y 8 - 576000 * x 7 * y 9 + 316800 * x 8 * y 0 -
    2520000 * x 8 * y 1 - 7200 * x 8 * y 10 + 8748000 * x 8 * y 2 - 17280000 * x 8 * y 3 + 21168000
    * x 8 * y 4 - 16329600 * x 8 * y 5 + 7560000 * x 8 * y 6 - 1728000 * x 8 * y 7 + 72000 * x 8 *
    y 9 - 72000 * x 9 * y 0 + 576000 * x 9 * y 1 - 2016000 * x 9 * y 2 + 4032000 * x 9 * y 3 -
    5040000 * x 9 * y 4 + 4032000 * x 9 * y 5 - 2016000 * x 9 * y 6 + 576000 * x 9 * y 7 - 72000 *
    x 9 * y 8

/-- Coefficient 16 of `compute_Bezier_degree_10_inflections`, auto_inflection_Bezier.h:234. -/
def inflection10_16 (x y : ℕ → K) : K :=
    -900 * x 0 * y 1 + 900 * x 0 * y 10 + 8100 * x 0 * y 2 - 32400 * x 0 * y 3 + 75600 * x 0 * y 4 -
    113400 * x 0 * y 5 + 113400 * x 0 * y 6 - 75600 * x 0 * y 7 + 32400 * x 0 * y 8 - 8100 * x 0 *
    y 9 + 900 * x 1 * y 0 - 8100 * x 1 * y 10 - 40500 * x 1 * y 2 + 216000 * x 1 * y 3 - 567000 *
    x 1 * y 4 + 907200 * x 1 * y 5 - 945000 * x 1 * y 6 + 648000 * x 1 * y 7 - 283500 * x 1 * y 8 +
    72000 * x 1 * y 9 - 900 * x 10 * y 0 + 8100 * x 10 * y 1 - 32400 * x 10 * y 2 + 75600 * x 10 *
    y 3 - 113400 * x 10 * y 4 + 113400 * x 10 * y 5 - 75600 * x 10 * y 6 + 32400 * x 10 * y 7 - 8100
    * x 10 * y 8 + 900 * x 10 * y 9 - 8100 * x 2 * y 0 + 40500 * x 2 * y 1 + 32400 * x 2 * y 10 -
    486000 * x 2 * y 3 + 1701000 * x 2 * y 4 - 3061800 * x 2 * y 5 + 3402000 * x 2 * y 6 - 2430000 *
    x 2 * y 7 + 1093500 * x 2 * y 8 - 283500 * x 2 * y 9 + 32400 * x 3 * y 0 - 216000 * x 3 * y 1 -
    75600 * x 3 * y 10 + 486000 * x 3 * y 2 - 2268000 * x 3 * y 4 + 5443200 * x 3 * y 5 - 6804000 *
    x 3 * y 6 + 5184000 * x 3 * y 7 - 2430000 * x 3 * y 8 + 648000 * x 3 * y 9 - 75600 * x 4 * y 0 +
    567000 * x 4 * y 1 + 113400 * x 4 * y 10 - 1701000 * x 4 * y 2 + 2268000 * x 4 * y 3 - 4762800 *
    x 4 * y 5 + 7938000 * x 4 * y 6 - 6804000 * x 4 * y 7 + 3402000 * x 4 * y 8 - 945000 * x 4 * y 9
    + 113400 * x 5 * y 0 - 907200 * x 5 * y 1 - 113400 * x 5 * y 10 + 3061800 * x 5 * y 2 - 5443200
    * x 5 * y 3 + 4762800 * x 5 * y 4 - 4762800 * x 5 * y 6 + 5443200 * x 5 * y 7 - 3061800 * x 5 *
    y 8 + 907200 * x 5 * y 9 - 113400 * x 6 * y 0 + 945000 * x 6 * y 1 + 75600 * x 6 * y 10 -
    3402000 * x 6 * y 2 + 6804000 * x 6 * y 3 - 7938000 * x 6 * y 4 + 4762800 * x 6 * y 5 - 2268000
    * x 6 * y 7 + 1701000 * x 6 * y 8 - 567000 * x 6 * y 9 + 75600 * x 7 * y 0 - 648000 * x 7 * y 1
    - 32400 * x 7 * y 10 + 2430000 * x 7 * y 2 - 5184000 * x 7 * y 3 + 6804000 * x 7 * y 4 - 5443200
    * x 7 * y 5 + 2268000 * x 7 * y 6 - 486000 * x 7 * y 8 + 216000 * x 7 * y 9 - 32400 * x 8 * y 0
    + 283500 * x 8 * y 1 + 8100 * x 8 * y 10 - 1093500 * x 8 * y 2 + 2430000 * x 8 * y 3 - 3402000 *
    x 8 * y 4 + 3061800 * x 8 * y 5 - 1701000 * x 8 * y 6 + 486000 * x 8 * y 7 - 40500 * x 8 * y 9 +
    8100 * x 9 * y 0 - 72000 * x 9 * y 1 - 900 * x 9 * y 10 + 283500 * x 9 * y 2 - 648000 * x 9 *
    y 3 + 945000 * x 9 * y 4 - 907200 * x 9 * y 5 + 567000 * x 9 * y 6 - 216000 * x 9 * y 7 + 40500
    * x 9 * y 8

/-- `compute_Bezier_degree_10_inflections`, auto_inflection_Bezier.h:210-235: the coefficients passed to the finder of degree 16. -/
def inflection10 (x y : ℕ → K) : List K :=
  [inflection10_0 x y,
   inflection10_1 x y,
   inflection10_2 x y,
   inflection10_3 x y,
   inflection10_4 x y,
   inflection10_5 x y,
   inflection10_6 x y,
   inflection10_7 x y,
   inflection10_8 x y,
   inflection10_9 x y,
   inflection10_10 x y,
   inflection10_11 x y,
   inflection10_12 x y,
   inflection10_13 x y,
   inflection10_14 x y,
   inflection10_15 x y,
   inflection10_16 x y]

/-- `match_tangent_Bezier_degree_2`, auto_match_tangent_Bezier.h:18-32: the coefficients passed to the finder of degree 1. -/
def tangent2 (x y : ℕ → K) (tx ty : K) : List K :=
  [-2 * x 0 * tx + 2 * x 1 * tx - 2 * y 0 * ty + 2 * y 1 * ty,
   2 * x 0 * tx - 4 * x 1 * tx + 2 * x 2 * tx + 2 * y 0 * ty - 4 * y 1 * ty + 2 * y 2 * ty]

/-- `match_tangent_Bezier_degree_3`, auto_match_tangent_Bezier.h:40-55: the coefficients passed to the finder of degree 2. -/
def tangent3 (x y : ℕ → K) (tx ty : K) : List K :=
  [-3 * x 0 * tx + 3 * x 1 * tx - 3 * y 0 * ty + 3 * y 1 * ty,
   6 * x 0 * tx - 12 * x 1 * tx + 6 * x 2 * tx + 6 * y 0 * ty - 12 * y 1 * ty + 6 * y 2 * ty,
   -3 * x 0 * tx + 9 * x 1 * tx - 9 * x 2 * tx + 3 * x 3 * tx - 3 * y 0 * ty + 9 * y 1 * ty - 9 *
    y 2 * ty + 3 * y 3 * ty]

/-- `match_tangent_Bezier_degree_4`, auto_match_tangent_Bezier.h:63-79: the coefficients passed to the finder of degree 3. -/
def tangent4 (x y : ℕ → K) (tx ty : K) : List K :=
  [-4 * x 0 * tx + 4 * x 1 * tx - 4 * y 0 * ty + 4 * y 1 * ty,
   12 * x 0 * tx - 24 * x 1 * tx + 12 * x 2 * tx + 12 * y 0 * ty - 24 * y 1 * ty + 12 * y 2 * ty,
   -12 * x 0 * tx + 36 * x 1 * tx - 36 * x 2 * tx + 12 * x 3 * tx - 12 * y 0 * ty + 36 * y 1 * ty -
    36 * y 2 * ty + 12 * y 3 * ty,
   4 * x 0 * tx - 16 * x 1 * tx + 24 * x 2 * tx - 16 * x 3 * tx + 4 * x 4 * tx + 4 * y 0 * ty - 16
    * y 1 * ty + 24 * y 2 * ty - 16 * y 3 * ty + 4 * y 4 * ty]

/-- `match_tangent_Bezier_degree_5`, auto_match_tangent_Bezier.h:87-104: the coefficients passed to the finder of degree 4. -/
def tangent5 (x y : ℕ → K) (tx ty : K) : List K :=
  [-5 * x 0 * tx + 5 * x 1 * tx - 5 * y 0 * ty + 5 * y 1 * ty,
   20 * x 0 * tx - 40 * x 1 * tx + 20 * x 2 * tx + 20 * y 0 * ty - 40 * y 1 * ty + 20 * y 2 * ty,
   -30 * x 0 * tx + 90 * x 1 * tx - 90 * x 2 * tx + 30 * x 3 * tx - 30 * y 0 * ty + 90 * y 1 * ty -
    90 * y 2 * ty + 30 * y 3 * ty,
   20 * x 0 * tx - 80 * x 1 * tx + 120 * x 2 * tx - 80 * x 3 * tx + 20 * x 4 * tx + 20 * y 0 * ty -
    80 * y 1 * ty + 120 * y 2 * ty - 80 * y 3 * ty + 20 * y 4 * ty,
   -5 * x 0 * tx + 25 * x 1 * tx - 50 * x 2 * tx + 50 * x 3 * tx - 25 * x 4 * tx + 5 * x 5 * tx - 5
    * y 0 * ty + 25 * y 1 * ty - 50 * y 2 * ty + 50 * y 3 * ty - 25 * y 4 * ty + 5 * y 5 * ty]

/-- `match_tangent_Bezier_degree_6`, auto_match_tangent_Bezier.h:112-130: the coefficients passed to the finder of degree 5. -/
def tangent6 (x y : ℕ → K) (tx ty : K) : List K :=
  [-6 * x 0 * tx + 6 * x 1 * tx - 6 * y 0 * ty + 6 * y 1 * ty,
   30 * x 0 * tx - 60 * x 1 * tx + 30 * x 2 * tx + 30 * y 0 * ty - 60 * y 1 * ty + 30 * y 2 * ty,
   -60 * x 0 * tx + 180 * x 1 * tx - 180 * x 2 * tx + 60 * x 3 * tx - 60 * y 0 * ty + 180 * y 1 *
    ty - 180 * y 2 * ty + 60 * y 3 * ty,
   60 * x 0 * tx - 240 * x 1 * tx + 360 * x 2 * tx - 240 * x 3 * tx + 60 * x 4 * tx + 60 * y 0 * ty
    - 240 * y 1 * ty + 360 * y 2 * ty - 240 * y 3 * ty + 60 * y 4 * ty,
   -30 * x 0 * tx + 150 * x 1 * tx - 300 * x 2 * tx + 300 * x 3 * tx - 150 * x 4 * tx + 30 * x 5 *
    tx - 30 * y 0 * ty + 150 * y 1 * ty - 300 * y 2 * ty + 300 * y 3 * ty - 150 * y 4 * ty + 30 *
    y 5 * ty,
   6 * x 0 * tx - 36 * x 1 * tx + 90 * x 2 * tx - 120 * x 3 * tx + 90 * x 4 * tx - 36 * x 5 * tx +
    6 * x 6 * tx + 6 * y 0 * ty - 36 * y 1 * ty + 90 * y 2 * ty - 120 * y 3 * ty + 90 * y 4 * ty -
    36 * y 5 * ty + 6 * y 6 * ty]

/-- `match_tangent_Bezier_degree_7`, auto_match_tangent_Bezier.h:138-157: the coefficients passed to the finder of degree 6. -/
def tangent7 (x y : ℕ → K) (tx ty : K) : List K :=
  [-7 * x 0 * tx + 7 * x 1 * tx - 7 * y 0 * ty + 7 * y 1 * ty,
   42 * x 0 * tx - 84 * x 1 * tx + 42 * x 2 * tx + 42 * y 0 * ty - 84 * y 1 * ty + 42 * y 2 * ty,
   -105 * x 0 * tx + 315 * x 1 * tx - 315 * x 2 * tx + 105 * x 3 * tx - 105 * y 0 * ty + 315 * y 1
    * ty - 315 * y 2 * ty + 105 * y 3 * ty,
   140 * x 0 * tx - 560 * x 1 * tx + 840 * x 2 * tx - 560 * x 3 * tx + 140 * x 4 * tx + 140 * y 0 *
    ty - 560 * y 1 * ty + 840 * y 2 * ty - 560 * y 3 * ty + 140 * y 4 * ty,
   -105 * x 0 * tx + 525 * x 1 * tx - 1050 * x 2 * tx + 1050 * x 3 * tx - 525 * x 4 * tx + 105 *
    x 5 * tx - 105 * y 0 * ty + 525 * y 1 * ty - 1050 * y 2 * ty + 1050 * y 3 * ty - 525 * y 4 * ty
    + 105 * y 5 * ty,
   42 * x 0 * tx - 252 * x 1 * tx + 630 * x 2 * tx - 840 * x 3 * tx + 630 * x 4 * tx - 252 * x 5 *
    tx + 42 * x 6 * tx + 42 * y 0 * ty - 252 * y 1 * ty + 630 * y 2 * ty - 840 * y 3 * ty + 630 *
    y 4 * ty - 252 * y 5 * ty + 42 * y 6 * ty,
   -7 * x 0 * tx + 49 * x 1 * tx - 147 * x 2 * tx + 245 * x 3 * tx - 245 * x 4 * tx + 147 * x 5 *
    tx - 49 * x 6 * tx + 7 * x 7 * tx - 7 * y 0 * ty + 49 * y 1 * ty - 147 * y 2 * ty + 245 * y 3 *
    ty - 245 * y 4 * ty + 147 * y 5 * ty - 49 * y 6 * ty + 7 * y 7 * ty]

/-- `match_tangent_Bezier_degree_8`, auto_match_tangent_Bezier.h:165-185: the coefficients passed to the finder of degree 7. -/
def tangent8 (x y : ℕ → K) (tx ty : K) : List K :=
  [-8 * x 0 * tx + 8 * x 1 * tx - 8 * y 0 * ty + 8 * y 1 * ty,
   56 * x 0 * tx - 112 * x 1 * tx + 56 * x 2 * tx + 56 * y 0 * ty - 112 * y 1 * ty + 56 * y 2 * ty,
   -168 * x 0 * tx + 504 * x 1 * tx - 504 * x 2 * tx + 168 * x 3 * tx - 168 * y 0 * ty + 504 * y 1
    * ty - 504 * y 2 * ty + 168 * y 3 * ty,
   280 * x 0 * tx - 1120 * x 1 * tx + 1680 * x 2 * tx - 1120 * x 3 * tx + 280 * x 4 * tx + 280 *
    y 0 * ty - 1120 * y 1 * ty + 1680 * y 2 * ty - 1120 * y 3 * ty + 280 * y 4 * ty,
   -280 * x 0 * tx + 1400 * x 1 * tx - 2800 * x 2 * tx + 2800 * x 3 * tx - 1400 * x 4 * tx + 280 *
    x 5 * tx - 280 * y 0 * ty + 1400 * y 1 * ty - 2800 * y 2 * ty + 2800 * y 3 * ty - 1400 * y 4 *
    ty + 280 * y 5 * ty,
   168 * x 0 * tx - 1008 * x 1 * tx + 2520 * x 2 * tx - 3360 * x 3 * tx + 2520 * x 4 * tx - 1008 *
    x 5 * tx + 168 * x 6 * tx + 168 * y 0 * ty - 1008 * y 1 * ty + 2520 * y 2 * ty - 3360 * y 3 * ty
    + 2520 * y 4 * ty - 1008 * y 5 * ty + 168 * y 6 * ty,
   -56 * x 0 * tx + 392 * x 1 * tx - 1176 * x 2 * tx + 1960 * x 3 * tx - 1960 * x 4 * tx + 1176 *
    x 5 * tx - 392 * x 6 * tx + 56 * x 7 * tx - 56 * y 0 * ty + 392 * y 1 * ty - 1176 * y 2 * ty +
    1960 * y 3 * ty - 1960 * y 4 * ty + 1176 * y 5 * ty - 392 * y 6 * ty + 56 * y 7 * ty,
   8 * x 0 * tx - 64 * x 1 * tx + 224 * x 2 * tx - 448 * x 3 * tx + 560 * x 4 * tx - 448 * x 5 * tx
    + 224 * x 6 * tx - 64 * x 7 * tx + 8 * x 8 * tx + 8 * y 0 * ty - 64 * y 1 * ty + 224 * y 2 * ty
    - 448 * y 3 * ty + 560 * y 4 * ty - 448 * y 5 * ty + 224 * y 6 * ty - 64 * y 7 * ty + 8 * y 8 *
    ty]

/-- `match_tangent_Bezier_degree_9`, auto_match_tangent_Bezier.h:193-214: the coefficients passed to the finder of degree 8. -/
def tangent9 (x y : ℕ → K) (tx ty : K) : List K :=
  [-9 * x 0 * tx + 9 * x 1 * tx - 9 * y 0 * ty + 9 * y 1 * ty,
   72 * x 0 * tx - 144 * x 1 * tx + 72 * x 2 * tx + 72 * y 0 * ty - 144 * y 1 * ty + 72 * y 2 * ty,
   -252 * x 0 * tx + 756 * x 1 * tx - 756 * x 2 * tx + 252 * x 3 * tx - 252 * y 0 * ty + 756 * y 1
    * ty - 756 * y 2 * ty + 252 * y 3 * ty,
   504 * x 0 * tx - 2016 * x 1 * tx + 3024 * x 2 * tx - 2016 * x 3 * tx + 504 * x 4 * tx + 504 *
    y 0 * ty - 2016 * y 1 * ty + 3024 * y 2 * ty - 2016 * y 3 * ty + 504 * y 4 * ty,
   -630 * x 0 * tx + 3150 * x 1 * tx - 6300 * x 2 * tx + 6300 * x 3 * tx - 3150 * x 4 * tx + 630 *
    x 5 * tx - 630 * y 0 * ty + 3150 * y 1 * ty - 6300 * y 2 * ty + 6300 * y 3 * ty - 3150 * y 4 *
    ty + 630 * y 5 * ty,
   504 * x 0 * tx - 3024 * x 1 * tx + 7560 * x 2 * tx - 10080 * x 3 * tx + 7560 * x 4 * tx - 3024 *
    x 5 * tx + 504 * x 6 * tx + 504 * y 0 * ty - 3024 * y 1 * ty + 7560 * y 2 * ty - 10080 * y 3 *
    ty + 7560 * y 4 * ty - 3024 * y 5 * ty + 504 * y 6 * ty,
   -252 * x 0 * tx + 1764 * x 1 * tx - 5292 * x 2 * tx + 8820 * x 3 * tx - 8820 * x 4 * tx + 5292 *
    x 5 * tx - 1764 * x 6 * tx + 252 * x 7 * tx - 252 * y 0 * ty + 1764 * y 1 * ty - 5292 * y 2 * ty
    + 8820 * y 3 * ty - 8820 * y 4 * ty + 5292 * y 5 * ty - 1764 * y 6 * ty + 252 * y 7 * ty,
   72 * x 0 * tx - 576 * x 1 * tx + 2016 * x 2 * tx - 4032 * x 3 * tx + 5040 * x 4 * tx - 4032 *
    x 5 * tx + 2016 * x 6 * tx - 576 * x 7 * tx + 72 * x 8 * tx + 72 * y 0 * ty - 576 * y 1 * ty +
    2016 * y 2 * ty - 4032 * y 3 * ty + 5040 * y 4 * ty - 4032 * y 5 * ty + 2016 * y 6 * ty - 576 *
    y 7 * ty + 72 * y 8 * ty,
   -9 * x 0 * tx + 81 * x 1 * tx - 324 * x 2 * tx + 756 * x 3 * tx - 1134 * x 4 * tx + 1134 * x 5 *
    tx - 756 * x 6 * tx + 324 * x 7 * tx - 81 * x 8 * tx + 9 * x 9 * tx - 9 * y 0 * ty + 81 * y 1 *
    ty - 324 * y 2 * ty + 756 * y 3 * ty - 1134 * y 4 * ty + 1134 * y 5 * ty - 756 * y 6 * ty + 324
    * y 7 * ty - 81 * y 8 * ty + 9 * y 9 * ty]

/-- `match_tangent_Bezier_degree_10`, auto_match_tangent_Bezier.h:222-244: the coefficients passed to the finder of degree 9. -/
def tangent10 (x y : ℕ → K) (tx ty : K) : List K :=
  [-10 * x 0 * tx + 10 * x 1 * tx - 10 * y 0 * ty + 10 * y 1 * ty,
   90 * x 0 * tx - 180 * x 1 * tx + 90 * x 2 * tx + 90 * y 0 * ty - 180 * y 1 * ty + 90 * y 2 * ty,
   -360 * x 0 * tx + 1080 * x 1 * tx - 1080 * x 2 * tx + 360 * x 3 * tx - 360 * y 0 * ty + 1080 *
    y 1 * ty - 1080 * y 2 * ty + 360 * y 3 * ty,
   840 * x 0 * tx - 3360 * x 1 * tx + 5040 * x 2 * tx - 3360 * x 3 * tx + 840 * x 4 * tx + 840 *
    y 0 * ty - 3360 * y 1 * ty + 5040 * y 2 * ty - 3360 * y 3 * ty + 840 * y 4 * ty,
   -1260 * x 0 * tx + 6300 * x 1 * tx - 12600 * x 2 * tx + 12600 * x 3 * tx - 6300 * x 4 * tx +
    1260 * x 5 * tx - 1260 * y 0 * ty + 6300 * y 1 * ty - 12600 * y 2 * ty + 12600 * y 3 * ty - 6300
    * y 4 * ty + 1260 * y 5 * ty,
   1260 * x 0 * tx - 7560 * x 1 * tx + 18900 * x 2 * tx - 25200 * x 3 * tx + 18900 * x 4 * tx -
    7560 * x 5 * tx + 1260 * x 6 * tx + 1260 * y 0 * ty - 7560 * y 1 * ty + 18900 * y 2 * ty - 25200
    * y 3 * ty + 18900 * y 4 * ty - 7560 * y 5 * ty + 1260 * y 6 * ty,
   -840 * x 0 * tx + 5880 * x 1 * tx - 17640 * x 2 * tx + 29400 * x 3 * tx - 29400 * x 4 * tx +
    17640 * x 5 * tx - 5880 * x 6 * tx + 840 * x 7 * tx - 840 * y 0 * ty + 5880 * y 1 * ty - 17640 *
    y 2 * ty + 29400 * y 3 * ty - 29400 * y 4 * ty + 17640 * y 5 * ty - 5880 * y 6 * ty + 840 * y 7
    * ty,
   360 * x 0 * tx - 2880 * x 1 * tx + 10080 * x 2 * tx - 20160 * x 3 * tx + 25200 * x 4 * tx -
    20160 * x 5 * tx + 10080 * x 6 * tx - 2880 * x 7 * tx + 360 * x 8 * tx + 360 * y 0 * ty - 2880 *
    y 1 * ty + 10080 * y 2 * ty - 20160 * y 3 * ty + 25200 * y 4 * ty - 20160 * y 5 * ty + 10080 *
    y 6 * ty - 2880 * y 7 * ty + 360 * y 8 * ty,
   -90 * x 0 * tx + 810 * x 1 * tx - 3240 * x 2 * tx + 7560 * x 3 * tx - 11340 * x 4 * tx + 11340 *
    x 5 * tx - 7560 * x 6 * tx + 3240 * x 7 * tx - 810 * x 8 * tx + 90 * x 9 * tx - 90 * y 0 * ty +
    810 * y 1 * ty - 3240 * y 2 * ty + 7560 * y 3 * ty - 11340 * y 4 * ty + 11340 * y 5 * ty - 7560
    * y 6 * ty + 3240 * y 7 * ty - 810 * y 8 * ty + 90 * y 9 * ty,
   10 * x 0 * tx - 100 * x 1 * tx + 10 * x 10 * tx + 450 * x 2 * tx - 1200 * x 3 * tx + 2100 * x 4
    * tx - 2520 * x 5 * tx + 2100 * x 6 * tx - 1200 * x 7 * tx + 450 * x 8 * tx - 100 * x 9 * tx +
    10 * y 0 * ty - 100 * y 1 * ty + 10 * y 10 * ty + 450 * y 2 * ty - 1200 * y 3 * ty + 2100 * y 4
    * ty - 2520 * y 5 * ty + 2100 * y 6 * ty - 1200 * y 7 * ty + 450 * y 8 * ty - 100 * y 9 * ty]

/-- `compute_Bezier_degree_2_singularities`, auto_singularity_Bezier.h:18-29: the coefficients passed to the finder of degree 2. -/
def singularity2 (x y : ℕ → K) : List K :=
  [4 * x 0 * x 0 - 8 * x 0 * x 1 + 4 * x 1 * x 1 + 4 * y 0 * y 0 - 8 * y 0 * y 1 + 4 * y 1 * y 1,
   -8 * x 0 * x 0 + 24 * x 0 * x 1 - 8 * x 0 * x 2 - 16 * x 1 * x 1 + 8 * x 1 * x 2 - 8 * y 0 * y 0
    + 24 * y 0 * y 1 - 8 * y 0 * y 2 - 16 * y 1 * y 1 + 8 * y 1 * y 2,
   4 * x 0 * x 0 - 16 * x 0 * x 1 + 8 * x 0 * x 2 + 16 * x 1 * x 1 - 16 * x 1 * x 2 + 4 * x 2 * x 2
    + 4 * y 0 * y 0 - 16 * y 0 * y 1 + 8 * y 0 * y 2 + 16 * y 1 * y 1 - 16 * y 1 * y 2 + 4 * y 2 *
    y 2]

/-- `compute_Bezier_degree_3_singularities`, auto_singularity_Bezier.h:37-50: the coefficients passed to the finder of degree 4. -/
def singularity3 (x y : ℕ → K) : List K :=
  [9 * x 0 * x 0 - 18 * x 0 * x 1 + 9 * x 1 * x 1 + 9 * y 0 * y 0 - 18 * y 0 * y 1 + 9 * y 1 * y 1,
   -36 * x 0 * x 0 + 108 * x 0 * x 1 - 36 * x 0 * x 2 - 72 * x 1 * x 1 + 36 * x 1 * x 2 - 36 * y 0
    * y 0 + 108 * y 0 * y 1 - 36 * y 0 * y 2 - 72 * y 1 * y 1 + 36 * y 1 * y 2,
   54 * x 0 * x 0 - 216 * x 0 * x 1 + 126 * x 0 * x 2 - 18 * x 0 * x 3 + 198 * x 1 * x 1 - 198 *
    x 1 * x 2 + 18 * x 1 * x 3 + 36 * x 2 * x 2 + 54 * y 0 * y 0 - 216 * y 0 * y 1 + 126 * y 0 * y 2
    - 18 * y 0 * y 3 + 198 * y 1 * y 1 - 198 * y 1 * y 2 + 18 * y 1 * y 3 + 36 * y 2 * y 2,
   -36 * x 0 * x 0 + 180 * x 0 * x 1 - 144 * x 0 * x 2 + 36 * x 0 * x 3 - 216 * x 1 * x 1 + 324 *
    x 1 * x 2 - 72 * x 1 * x 3 - 108 * x 2 * x 2 + 36 * x 2 * x 3 - 36 * y 0 * y 0 + 180 * y 0 * y 1
    - 144 * y 0 * y 2 + 36 * y 0 * y 3 - 216 * y 1 * y 1 + 324 * y 1 * y 2 - 72 * y 1 * y 3 - 108 *
    y 2 * y 2 + 36 * y 2 * y 3,
   9 * x 0 * x 0 - 54 * x 0 * x 1 + 54 * x 0 * x 2 - 18 * x 0 * x 3 + 81 * x 1 * x 1 - 162 * x 1 *
    x 2 + 54 * x 1 * x 3 + 81 * x 2 * x 2 - 54 * x 2 * x 3 + 9 * x 3 * x 3 + 9 * y 0 * y 0 - 54 *
    y 0 * y 1 + 54 * y 0 * y 2 - 18 * y 0 * y 3 + 81 * y 1 * y 1 - 162 * y 1 * y 2 + 54 * y 1 * y 3
    + 81 * y 2 * y 2 - 54 * y 2 * y 3 + 9 * y 3 * y 3]

/-- `compute_Bezier_degree_4_singularities`, auto_singularity_Bezier.h:58-73: the coefficients passed to the finder of degree 6. -/
def singularity4 (x y : ℕ → K) : List K :=
  [16 * x 0 * x 0 - 32 * x 0 * x 1 + 16 * x 1 * x 1 + 16 * y 0 * y 0 - 32 * y 0 * y 1 + 16 * y 1 *
    y 1,
   -96 * x 0 * x 0 + 288 * x 0 * x 1 - 96 * x 0 * x 2 - 192 * x 1 * x 1 + 96 * x 1 * x 2 - 96 * y 0
    * y 0 + 288 * y 0 * y 1 - 96 * y 0 * y 2 - 192 * y 1 * y 1 + 96 * y 1 * y 2,
   240 * x 0 * x 0 - 960 * x 0 * x 1 + 576 * x 0 * x 2 - 96 * x 0 * x 3 + 864 * x 1 * x 1 - 864 *
    x 1 * x 2 + 96 * x 1 * x 3 + 144 * x 2 * x 2 + 240 * y 0 * y 0 - 960 * y 0 * y 1 + 576 * y 0 *
    y 2 - 96 * y 0 * y 3 + 864 * y 1 * y 1 - 864 * y 1 * y 2 + 96 * y 1 * y 3 + 144 * y 2 * y 2,
   -320 * x 0 * x 0 + 1600 * x 0 * x 1 - 1344 * x 0 * x 2 + 416 * x 0 * x 3 - 32 * x 0 * x 4 - 1856
    * x 1 * x 1 + 2784 * x 1 * x 2 - 704 * x 1 * x 3 + 32 * x 1 * x 4 - 864 * x 2 * x 2 + 288 * x 2
    * x 3 - 320 * y 0 * y 0 + 1600 * y 0 * y 1 - 1344 * y 0 * y 2 + 416 * y 0 * y 3 - 32 * y 0 * y 4
    - 1856 * y 1 * y 1 + 2784 * y 1 * y 2 - 704 * y 1 * y 3 + 32 * y 1 * y 4 - 864 * y 2 * y 2 + 288
    * y 2 * y 3,
   240 * x 0 * x 0 - 1440 * x 0 * x 1 + 1536 * x 0 * x 2 - 672 * x 0 * x 3 + 96 * x 0 * x 4 + 2064
    * x 1 * x 1 - 4128 * x 1 * x 2 + 1632 * x 1 * x 3 - 192 * x 1 * x 4 + 1872 * x 2 * x 2 - 1248 *
    x 2 * x 3 + 96 * x 2 * x 4 + 144 * x 3 * x 3 + 240 * y 0 * y 0 - 1440 * y 0 * y 1 + 1536 * y 0 *
    y 2 - 672 * y 0 * y 3 + 96 * y 0 * y 4 + 2064 * y 1 * y 1 - 4128 * y 1 * y 2 + 1632 * y 1 * y 3
    - 192 * y 1 * y 4 + 1872 * y 2 * y 2 - 1248 * y 2 * y 3 + 96 * y 2 * y 4 + 144 * y 3 * y 3,
   -96 * x 0 * x 0 + 672 * x 0 * x 1 - 864 * x 0 * x 2 + 480 * x 0 * x 3 - 96 * x 0 * x 4 - 1152 *
    x 1 * x 1 + 2880 * x 1 * x 2 - 1536 * x 1 * x 3 + 288 * x 1 * x 4 - 1728 * x 2 * x 2 + 1728 *
    x 2 * x 3 - 288 * x 2 * x 4 - 384 * x 3 * x 3 + 96 * x 3 * x 4 - 96 * y 0 * y 0 + 672 * y 0 *
    y 1 - 864 * y 0 * y 2 + 480 * y 0 * y 3 - 96 * y 0 * y 4 - 1152 * y 1 * y 1 + 2880 * y 1 * y 2 -
    1536 * y 1 * y 3 + 288 * y 1 * y 4 - 1728 * y 2 * y 2 + 1728 * y 2 * y 3 - 288 * y 2 * y 4 - 384
    * y 3 * y 3 + 96 * y 3 * y 4,
   16 * x 0 * x 0 - 128 * x 0 * x 1 + 192 * x 0 * x 2 - 128 * x 0 * x 3 + 32 * x 0 * x 4 + 256 *
    x 1 * x 1 - 768 * x 1 * x 2 + 512 * x 1 * x 3 - 128 * x 1 * x 4 + 576 * x 2 * x 2 - 768 * x 2 *
    x 3 + 192 * x 2 * x 4 + 256 * x 3 * x 3 - 128 * x 3 * x 4 + 16 * x 4 * x 4 + 16 * y 0 * y 0 -
    128 * y 0 * y 1 + 192 * y 0 * y 2 - 128 * y 0 * y 3 + 32 * y 0 * y 4 + 256 * y 1 * y 1 - 768 *
    y 1 * y 2 + 512 * y 1 * y 3 - 128 * y 1 * y 4 + 576 * y 2 * y 2 - 768 * y 2 * y 3 + 192 * y 2 *
    y 4 + 256 * y 3 * y 3 - 128 * y 3 * y 4 + 16 * y 4 * y 4]

/-- Coefficient 0 of `compute_Bezier_degree_5_singularities`, auto_singularity_Bezier.h:89. -/
def singularity5_0 (x y : ℕ → K) : K :=
    25 * x 0 * x 0 - 50 * x 0 * x 1 + 25 * x 1 * x 1 + 25 * y 0 * y 0 - 50 * y 0 * y 1 + 25 * y 1 *
    y 1

/-- Coefficient 1 of `compute_Bezier_degree_5_singularities`, auto_singularity_Bezier.h:90. -/
def singularity5_1 (x y : ℕ → K) : K :=
    -200 * x 0 * x 0 + 600 * x 0 * x 1 - 200 * x 0 * x 2 - 400 * x 1 * x 1 + 200 * x 1 * x 2 - 200 *
    y 0 * y 0 + 600 * y 0 * y 1 - 200 * y 0 * y 2 - 400 * y 1 * y 1 + 200 * y 1 * y 2

/-- Coefficient 2 of `compute_Bezier_degree_5_singularities`, auto_singularity_Bezier.h:91. -/
def singularity5_2 (x y : ℕ → K) : K :=
    700 * x 0 * x 0 - 2800 * x 0 * x 1 + 1700 * x 0 * x 2 - 300 * x 0 * x 3 + 2500 * x 1 * x 1 -
    2500 * x 1 * x 2 + 300 * x 1 * x 3 + 400 * x 2 * x 2 + 700 * y 0 * y 0 - 2800 * y 0 * y 1 + 1700
    * y 0 * y 2 - 300 * y 0 * y 3 + 2500 * y 1 * y 1 - 2500 * y 1 * y 2 + 300 * y 1 * y 3 + 400 *
    y 2 * y 2

/-- Coefficient 3 of `compute_Bezier_degree_5_singularities`, auto_singularity_Bezier.h:92. -/
def singularity5_3 (x y : ℕ → K) : K :=
    -1400 * x 0 * x 0 + 7000 * x 0 * x 1 - 6000 * x 0 * x 2 + 2000 * x 0 * x 3 - 200 * x 0 * x 4 -
    8000 * x 1 * x 1 + 12000 * x 1 * x 2 - 3200 * x 1 * x 3 + 200 * x 1 * x 4 - 3600 * x 2 * x 2 +
    1200 * x 2 * x 3 - 1400 * y 0 * y 0 + 7000 * y 0 * y 1 - 6000 * y 0 * y 2 + 2000 * y 0 * y 3 -
    200 * y 0 * y 4 - 8000 * y 1 * y 1 + 12000 * y 1 * y 2 - 3200 * y 1 * y 3 + 200 * y 1 * y 4 -
    3600 * y 2 * y 2 + 1200 * y 2 * y 3

/-- Coefficient 4 of `compute_Bezier_degree_5_singularities`, auto_singularity_Bezier.h:93. -/
def singularity5_4 (x y : ℕ → K) : K :=
    1750 * x 0 * x 0 - 10500 * x 0 * x 1 + 11500 * x 0 * x 2 - 5500 * x 0 * x 3 + 1050 * x 0 * x 4 -
    50 * x 0 * x 5 + 14750 * x 1 * x 1 - 29500 * x 1 * x 2 + 12300 * x 1 * x 3 - 1850 * x 1 * x 4 +
    50 * x 1 * x 5 + 12900 * x 2 * x 2 - 8600 * x 2 * x 3 + 800 * x 2 * x 4 + 900 * x 3 * x 3 + 1750
    * y 0 * y 0 - 10500 * y 0 * y 1 + 11500 * y 0 * y 2 - 5500 * y 0 * y 3 + 1050 * y 0 * y 4 - 50 *
    y 0 * y 5 + 14750 * y 1 * y 1 - 29500 * y 1 * y 2 + 12300 * y 1 * y 3 - 1850 * y 1 * y 4 + 50 *
    y 1 * y 5 + 12900 * y 2 * y 2 - 8600 * y 2 * y 3 + 800 * y 2 * y 4 + 900 * y 3 * y 3

/-- Coefficient 5 of `compute_Bezier_degree_5_singularities`, auto_singularity_Bezier.h:94. -/
def singularity5_5 (x y : ℕ → K) : K :=
    -1400 * x 0 * x 0 + 9800 * x 0 * x 1 - 13000 * x 0 * x 2 + 8000 * x 0 * x 3 - 2200 * x 0 * x 4 +
    200 * x 0 * x 5 - 16400 * x 1 * x 1 + 41000 * x 1 * x 2 - 23200 * x 1 * x 3 + 5600 * x 1 * x 4 -
    400 * x 1 * x 5 - 23600 * x 2 * x 2 + 23600 * x 2 * x 3 - 4600 * x 2 * x 4 + 200 * x 2 * x 5 -
    4800 * x 3 * x 3 + 1200 * x 3 * x 4 - 1400 * y 0 * y 0 + 9800 * y 0 * y 1 - 13000 * y 0 * y 2 +
    8000 * y 0 * y 3 - 2200 * y 0 * y 4 + 200 * y 0 * y 5 - 16400 * y 1 * y 1 + 41000 * y 1 * y 2 -
    23200 * y 1 * y 3 + 5600 * y 1 * y 4 - 400 * y 1 * y 5 - 23600 * y 2 * y 2 + 23600 * y 2 * y 3 -
    4600 * y 2 * y 4 + 200 * y 2 * y 5 - 4800 * y 3 * y 3 + 1200 * y 3 * y 4

/-- Coefficient 6 of `compute_Bezier_degree_5_singularities`, auto_singularity_Bezier.h:95. -/
def singularity5_6 (x y : ℕ → K) : K :=
    700 * x 0 * x 0 - 5600 * x 0 * x 1 + 8700 * x 0 * x 2 - 6500 * x 0 * x 3 + 2300 * x 0 * x 4 -
    300 * x 0 * x 5 + 10900 * x 1 * x 1 - 32700 * x 1 * x 2 + 23300 * x 1 * x 3 - 7700 * x 1 * x 4 +
    900 * x 1 * x 5 + 23400 * x 2 * x 2 - 31200 * x 2 * x 3 + 9300 * x 2 * x 4 - 900 * x 2 * x 5 +
    9400 * x 3 * x 3 - 4700 * x 3 * x 4 + 300 * x 3 * x 5 + 400 * x 4 * x 4 + 700 * y 0 * y 0 - 5600
    * y 0 * y 1 + 8700 * y 0 * y 2 - 6500 * y 0 * y 3 + 2300 * y 0 * y 4 - 300 * y 0 * y 5 + 10900 *
    y 1 * y 1 - 32700 * y 1 * y 2 + 23300 * y 1 * y 3 - 7700 * y 1 * y 4 + 900 * y 1 * y 5 + 23400 *
    y 2 * y 2 - 31200 * y 2 * y 3 + 9300 * y 2 * y 4 - 900 * y 2 * y 5 + 9400 * y 3 * y 3 - 4700 *
    y 3 * y 4 + 300 * y 3 * y 5 + 400 * y 4 * y 4

/-- Coefficient 7 of `compute_Bezier_degree_5_singularities`, auto_singularity_Bezier.h:96. -/
def singularity5_7 (x y : ℕ → K) : K :=
    -200 * x 0 * x 0 + 1800 * x 0 * x 1 - 3200 * x 0 * x 2 + 2800 * x 0 * x 3 - 1200 * x 0 * x 4 +
    200 * x 0 * x 5 - 4000 * x 1 * x 1 + 14000 * x 1 * x 2 - 12000 * x 1 * x 3 + 5000 * x 1 * x 4 -
    800 * x 1 * x 5 - 12000 * x 2 * x 2 + 20000 * x 2 * x 3 - 8000 * x 2 * x 4 + 1200 * x 2 * x 5 -
    8000 * x 3 * x 3 + 6000 * x 3 * x 4 - 800 * x 3 * x 5 - 1000 * x 4 * x 4 + 200 * x 4 * x 5 - 200
    * y 0 * y 0 + 1800 * y 0 * y 1 - 3200 * y 0 * y 2 + 2800 * y 0 * y 3 - 1200 * y 0 * y 4 + 200 *
    y 0 * y 5 - 4000 * y 1 * y 1 + 14000 * y 1 * y 2 - 12000 * y 1 * y 3 + 5000 * y 1 * y 4 - 800 *
    y 1 * y 5 - 12000 * y 2 * y 2 + 20000 * y 2 * y 3 - 8000 * y 2 * y 4 + 1200 * y 2 * y 5 - 8000 *
    y 3 * y 3 + 6000 * y 3 * y 4 - 800 * y 3 * y 5 - 1000 * y 4 * y 4 + 200 * y 4 * y 5

/-- Coefficient 8 of `compute_Bezier_degree_5_singularities`, auto_singularity_Bezier.h:97. -/
def singularity5_8 (x y : ℕ → K) : K :=
    25 * x 0 * x 0 - 250 * x 0 * x 1 + 500 * x 0 * x 2 - 500 * x 0 * x 3 + 250 * x 0 * x 4 - 50 *
    x 0 * x 5 + 625 * x 1 * x 1 - 2500 * x 1 * x 2 + 2500 * x 1 * x 3 - 1250 * x 1 * x 4 + 250 * x 1
    * x 5 + 2500 * x 2 * x 2 - 5000 * x 2 * x 3 + 2500 * x 2 * x 4 - 500 * x 2 * x 5 + 2500 * x 3 *
    x 3 - 2500 * x 3 * x 4 + 500 * x 3 * x 5 + 625 * x 4 * x 4 - 250 * x 4 * x 5 + 25 * x 5 * x 5 +
    25 * y 0 * y 0 - 250 * y 0 * y 1 + 500 * y 0 * y 2 - 500 * y 0 * y 3 + 250 * y 0 * y 4 - 50 *
    y 0 * y 5 + 625 * y 1 * y 1 - 2500 * y 1 * y 2 + 2500 * y 1 * y 3 - 1250 * y 1 * y 4 + 250 * y 1
    * y 5 + 2500 * y 2 * y 2 - 5000 * y 2 * y 3 + 2500 * y 2 * y 4 - 500 * y 2 * y 5 + 2500 * y 3 *
    y 3 - 2500 * y 3 * y 4 + 500 * y 3 * y 5 + 625 * y 4 * y 4 - 250 * y 4 * y 5 + 25 * y 5 * y 5

/-- `compute_Bezier_degree_5_singularities`, auto_singularity_Bezier.h:81-98: the coefficients passed to the finder of degree 8. -/
def singularity5 (x y : ℕ → K) : List K :=
  [singularity5_0 x y,
   singularity5_1 x y,
   singularity5_2 x y,
   singularity5_3 x y,
   singularity5_4 x y,
   singularity5_5 x y,
   singularity5_6 x y,
   singularity5_7 x y,
   singularity5_8 x y]

/-- Coefficient 0 of `compute_Bezier_degree_6_singularities`, auto_singularity_Bezier.h:114. -/
def singularity6_0 (x y : ℕ → K) : K :=
    36 * x 0 * x 0 - 72 * x 0 * x 1 + 36 * x 1 * x 1 + 36 * y 0 * y 0 - 72 * y 0 * y 1 + 36 * y 1 *
    y 1

/-- Coefficient 1 of `compute_Bezier_degree_6_singularities`, auto_singularity_Bezier.h:115. -/
def singularity6_1 (x y : ℕ → K) : K :=
    -360 * x 0 * x 0 + 1080 * x 0 * x 1 - 360 * x 0 * x 2 - 720 * x 1 * x 1 + 360 * x 1 * x 2 - 360
    * y 0 * y 0 + 1080 * y 0 * y 1 - 360 * y 0 * y 2 - 720 * y 1 * y 1 + 360 * y 1 * y 2

/-- Coefficient 2 of `compute_Bezier_degree_6_singularities`, auto_singularity_Bezier.h:116. -/
def singularity6_2 (x y : ℕ → K) : K :=
    1620 * x 0 * x 0 - 6480 * x 0 * x 1 + 3960 * x 0 * x 2 - 720 * x 0 * x 3 + 5760 * x 1 * x 1 -
    5760 * x 1 * x 2 + 720 * x 1 * x 3 + 900 * x 2 * x 2 + 1620 * y 0 * y 0 - 6480 * y 0 * y 1 +
    3960 * y 0 * y 2 - 720 * y 0 * y 3 + 5760 * y 1 * y 1 - 5760 * y 1 * y 2 + 720 * y 1 * y 3 + 900
    * y 2 * y 2

/-- Coefficient 3 of `compute_Bezier_degree_6_singularities`, auto_singularity_Bezier.h:117. -/
def singularity6_3 (x y : ℕ → K) : K :=
    -4320 * x 0 * x 0 + 21600 * x 0 * x 1 - 18720 * x 0 * x 2 + 6480 * x 0 * x 3 - 720 * x 0 * x 4 -
    24480 * x 1 * x 1 + 36720 * x 1 * x 2 - 10080 * x 1 * x 3 + 720 * x 1 * x 4 - 10800 * x 2 * x 2
    + 3600 * x 2 * x 3 - 4320 * y 0 * y 0 + 21600 * y 0 * y 1 - 18720 * y 0 * y 2 + 6480 * y 0 * y 3
    - 720 * y 0 * y 4 - 24480 * y 1 * y 1 + 36720 * y 1 * y 2 - 10080 * y 1 * y 3 + 720 * y 1 * y 4
    - 10800 * y 2 * y 2 + 3600 * y 2 * y 3

/-- Coefficient 4 of `compute_Bezier_degree_6_singularities`, auto_singularity_Bezier.h:118. -/
def singularity6_4 (x y : ℕ → K) : K :=
    7560 * x 0 * x 0 - 45360 * x 0 * x 1 + 50400 * x 0 * x 2 - 25200 * x 0 * x 3 + 5400 * x 0 * x 4
    - 360 * x 0 * x 5 + 63000 * x 1 * x 1 - 126000 * x 1 * x 2 + 54000 * x 1 * x 3 - 9000 * x 1 *
    x 4 + 360 * x 1 * x 5 + 54000 * x 2 * x 2 - 36000 * x 2 * x 3 + 3600 * x 2 * x 4 + 3600 * x 3 *
    x 3 + 7560 * y 0 * y 0 - 45360 * y 0 * y 1 + 50400 * y 0 * y 2 - 25200 * y 0 * y 3 + 5400 * y 0
    * y 4 - 360 * y 0 * y 5 + 63000 * y 1 * y 1 - 126000 * y 1 * y 2 + 54000 * y 1 * y 3 - 9000 *
    y 1 * y 4 + 360 * y 1 * y 5 + 54000 * y 2 * y 2 - 36000 * y 2 * y 3 + 3600 * y 2 * y 4 + 3600 *
    y 3 * y 3

/-- Coefficient 5 of `compute_Bezier_degree_6_singularities`, auto_singularity_Bezier.h:119. -/
def singularity6_5 (x y : ℕ → K) : K :=
    -9072 * x 0 * x 0 + 63504 * x 0 * x 1 - 85680 * x 0 * x 2 + 55440 * x 0 * x 3 - 17280 * x 0 *
    x 4 + 2232 * x 0 * x 5 - 72 * x 0 * x 6 - 104832 * x 1 * x 1 + 262080 * x 1 * x 2 - 152640 * x 1
    * x 3 + 40680 * x 1 * x 4 - 4032 * x 1 * x 5 + 72 * x 1 * x 6 - 147600 * x 2 * x 2 + 147600 *
    x 2 * x 3 - 30600 * x 2 * x 4 + 1800 * x 2 * x 5 - 28800 * x 3 * x 3 + 7200 * x 3 * x 4 - 9072 *
    y 0 * y 0 + 63504 * y 0 * y 1 - 85680 * y 0 * y 2 + 55440 * y 0 * y 3 - 17280 * y 0 * y 4 + 2232
    * y 0 * y 5 - 72 * y 0 * y 6 - 104832 * y 1 * y 1 + 262080 * y 1 * y 2 - 152640 * y 1 * y 3 +
    40680 * y 1 * y 4 - 4032 * y 1 * y 5 + 72 * y 1 * y 6 - 147600 * y 2 * y 2 + 147600 * y 2 * y 3
    - 30600 * y 2 * y 4 + 1800 * y 2 * y 5 - 28800 * y 3 * y 3 + 7200 * y 3 * y 4

/-- Coefficient 6 of `compute_Bezier_degree_6_singularities`, auto_singularity_Bezier.h:120. -/
def singularity6_6 (x y : ℕ → K) : K :=
    7560 * x 0 * x 0 - 60480 * x 0 * x 1 + 95760 * x 0 * x 2 - 75600 * x 0 * x 3 + 30600 * x 0 * x 4
    - 5760 * x 0 * x 5 + 360 * x 0 * x 6 + 115920 * x 1 * x 1 - 347760 * x 1 * x 2 + 255600 * x 1 *
    x 3 - 93600 * x 1 * x 4 + 15120 * x 1 * x 5 - 720 * x 1 * x 6 + 243000 * x 2 * x 2 - 324000 *
    x 2 * x 3 + 102600 * x 2 * x 4 - 12960 * x 2 * x 5 + 360 * x 2 * x 6 + 93600 * x 3 * x 3 - 46800
    * x 3 * x 4 + 3600 * x 3 * x 5 + 3600 * x 4 * x 4 + 7560 * y 0 * y 0 - 60480 * y 0 * y 1 + 95760
    * y 0 * y 2 - 75600 * y 0 * y 3 + 30600 * y 0 * y 4 - 5760 * y 0 * y 5 + 360 * y 0 * y 6 +
    115920 * y 1 * y 1 - 347760 * y 1 * y 2 + 255600 * y 1 * y 3 - 93600 * y 1 * y 4 + 15120 * y 1 *
    y 5 - 720 * y 1 * y 6 + 243000 * y 2 * y 2 - 324000 * y 2 * y 3 + 102600 * y 2 * y 4 - 12960 *
    y 2 * y 5 + 360 * y 2 * y 6 + 93600 * y 3 * y 3 - 46800 * y 3 * y 4 + 3600 * y 3 * y 5 + 3600 *
    y 4 * y 4

/-- Coefficient 7 of `compute_Bezier_degree_6_singularities`, auto_singularity_Bezier.h:121. -/
def singularity6_7 (x y : ℕ → K) : K :=
    -4320 * x 0 * x 0 + 38880 * x 0 * x 1 - 70560 * x 0 * x 2 + 65520 * x 0 * x 3 - 32400 * x 0 *
    x 4 + 7920 * x 0 * x 5 - 720 * x 0 * x 6 - 84960 * x 1 * x 1 + 297360 * x 1 * x 2 - 263520 * x 1
    * x 3 + 122400 * x 1 * x 4 - 27360 * x 1 * x 5 + 2160 * x 1 * x 6 - 248400 * x 2 * x 2 + 414000
    * x 2 * x 3 - 176400 * x 2 * x 4 + 34560 * x 2 * x 5 - 2160 * x 2 * x 6 - 158400 * x 3 * x 3 +
    118800 * x 3 * x 4 - 18720 * x 3 * x 5 + 720 * x 3 * x 6 - 18000 * x 4 * x 4 + 3600 * x 4 * x 5
    - 4320 * y 0 * y 0 + 38880 * y 0 * y 1 - 70560 * y 0 * y 2 + 65520 * y 0 * y 3 - 32400 * y 0 *
    y 4 + 7920 * y 0 * y 5 - 720 * y 0 * y 6 - 84960 * y 1 * y 1 + 297360 * y 1 * y 2 - 263520 * y 1
    * y 3 + 122400 * y 1 * y 4 - 27360 * y 1 * y 5 + 2160 * y 1 * y 6 - 248400 * y 2 * y 2 + 414000
    * y 2 * y 3 - 176400 * y 2 * y 4 + 34560 * y 2 * y 5 - 2160 * y 2 * y 6 - 158400 * y 3 * y 3 +
    118800 * y 3 * y 4 - 18720 * y 3 * y 5 + 720 * y 3 * y 6 - 18000 * y 4 * y 4 + 3600 * y 4 * y 5

/-- Coefficient 8 of `compute_Bezier_degree_6_singularities`, auto_singularity_Bezier.h:122. -/
def singularity6_8 (x y : ℕ → K) : K :=
    1620 * x 0 * x 0 - 16200 * x 0 * x 1 + 33120 * x 0 * x 2 - 35280 * x 0 * x 3 + 20520 * x 0 * x 4
    - 6120 * x 0 * x 5 + 720 * x 0 * x 6 + 39780 * x 1 * x 1 - 159120 * x 1 * x 2 + 164880 * x 1 *
    x 3 - 92520 * x 1 * x 4 + 26280 * x 1 * x 5 - 2880 * x 1 * x 6 + 154800 * x 2 * x 2 - 309600 *
    x 2 * x 3 + 165600 * x 2 * x 4 - 43920 * x 2 * x 5 + 4320 * x 2 * x 6 + 147600 * x 3 * x 3 -
    147600 * x 3 * x 4 + 35280 * x 3 * x 5 - 2880 * x 3 * x 6 + 33300 * x 4 * x 4 - 13320 * x 4 *
    x 5 + 720 * x 4 * x 6 + 900 * x 5 * x 5 + 1620 * y 0 * y 0 - 16200 * y 0 * y 1 + 33120 * y 0 *
    y 2 - 35280 * y 0 * y 3 + 20520 * y 0 * y 4 - 6120 * y 0 * y 5 + 720 * y 0 * y 6 + 39780 * y 1 *
    y 1 - 159120 * y 1 * y 2 + 164880 * y 1 * y 3 - 92520 * y 1 * y 4 + 26280 * y 1 * y 5 - 2880 *
    y 1 * y 6 + 154800 * y 2 * y 2 - 309600 * y 2 * y 3 + 165600 * y 2 * y 4 - 43920 * y 2 * y 5 +
    4320 * y 2 * y 6 + 147600 * y 3 * y 3 - 147600 * y 3 * y 4 + 35280 * y 3 * y 5 - 2880 * y 3 *
    y 6 + 33300 * y 4 * y 4 - 13320 * y 4 * y 5 + 720 * y 4 * y 6 + 900 * y 5 * y 5

/-- Coefficient 9 of `compute_Bezier_degree_6_singularities`, auto_singularity_Bezier.h:123. -/
def singularity6_9 (x y : ℕ → K) : K :=
    -360 * x 0 * x 0 + 3960 * x 0 * x 1 - 9000 * x 0 * x 2 + 10800 * x 0 * x 3 - 7200 * x 0 * x 4 +
    2520 * x 0 * x 5 - 360 * x 0 * x 6 - 10800 * x 1 * x 1 + 48600 * x 1 * x 2 - 57600 * x 1 * x 3 +
    37800 * x 1 * x 4 - 12960 * x 1 * x 5 + 1800 * x 1 * x 6 - 54000 * x 2 * x 2 + 126000 * x 2 *
    x 3 - 81000 * x 2 * x 4 + 27000 * x 2 * x 5 - 3600 * x 2 * x 6 - 72000 * x 3 * x 3 + 90000 * x 3
    * x 4 - 28800 * x 3 * x 5 + 3600 * x 3 * x 6 - 27000 * x 4 * x 4 + 16200 * x 4 * x 5 - 1800 *
    x 4 * x 6 - 2160 * x 5 * x 5 + 360 * x 5 * x 6 - 360 * y 0 * y 0 + 3960 * y 0 * y 1 - 9000 * y 0
    * y 2 + 10800 * y 0 * y 3 - 7200 * y 0 * y 4 + 2520 * y 0 * y 5 - 360 * y 0 * y 6 - 10800 * y 1
    * y 1 + 48600 * y 1 * y 2 - 57600 * y 1 * y 3 + 37800 * y 1 * y 4 - 12960 * y 1 * y 5 + 1800 *
    y 1 * y 6 - 54000 * y 2 * y 2 + 126000 * y 2 * y 3 - 81000 * y 2 * y 4 + 27000 * y 2 * y 5 -
    3600 * y 2 * y 6 - 72000 * y 3 * y 3 + 90000 * y 3 * y 4 - 28800 * y 3 * y 5 + 3600 * y 3 * y 6
    - 27000 * y 4 * y 4 + 16200 * y 4 * y 5 - 1800 * y 4 * y 6 - 2160 * y 5 * y 5 + 360 * y 5 * y 6

/-- Coefficient 10 of `compute_Bezier_degree_6_singularities`, auto_singularity_Bezier.h:124. -/
def singularity6_10 (x y : ℕ → K) : K :=
    36 * x 0 * x 0 - 432 * x 0 * x 1 + 1080 * x 0 * x 2 - 1440 * x 0 * x 3 + 1080 * x 0 * x 4 - 432
    * x 0 * x 5 + 72 * x 0 * x 6 + 1296 * x 1 * x 1 - 6480 * x 1 * x 2 + 8640 * x 1 * x 3 - 6480 *
    x 1 * x 4 + 2592 * x 1 * x 5 - 432 * x 1 * x 6 + 8100 * x 2 * x 2 - 21600 * x 2 * x 3 + 16200 *
    x 2 * x 4 - 6480 * x 2 * x 5 + 1080 * x 2 * x 6 + 14400 * x 3 * x 3 - 21600 * x 3 * x 4 + 8640 *
    x 3 * x 5 - 1440 * x 3 * x 6 + 8100 * x 4 * x 4 - 6480 * x 4 * x 5 + 1080 * x 4 * x 6 + 1296 *
    x 5 * x 5 - 432 * x 5 * x 6 + 36 * x 6 * x 6 + 36 * y 0 * y 0 - 432 * y 0 * y 1 + 1080 * y 0 *
    y 2 - 1440 * y 0 * y 3 + 1080 * y 0 * y 4 - 432 * y 0 * y 5 + 72 * y 0 * y 6 + 1296 * y 1 * y 1
    - 6480 * y 1 * y 2 + 8640 * y 1 * y 3 - 6480 * y 1 * y 4 + 2592 * y 1 * y 5 - 432 * y 1 * y 6 +
    8100 * y 2 * y 2 - 21600 * y 2 * y 3 + 16200 * y 2 * y 4 - 6480 * y 2 * y 5 + 1080 * y 2 * y 6 +
    14400 * y 3 * y 3 - 21600 * y 3 * y 4 + 8640 * y 3 * y 5 - 1440 * y 3 * y 6 + 8100 * y 4 * y 4 -
    6480 * y 4 * y 5 + 1080 * y 4 * y 6 + 1296 * y 5 * y 5 - 432 * y 5 * y 6 + 36 * y 6 * y 6

/-- `compute_Bezier_degree_6_singularities`, auto_singularity_Bezier.h:106-125: the coefficients passed to the finder of degree 10. -/
def singularity6 (x y : ℕ → K) : List K :=
  [singularity6_0 x y,
   singularity6_1 x y,
   singularity6_2 x y,
   singularity6_3 x y,
   singularity6_4 x y,
   singularity6_5 x y,
   singularity6_6 x y,
   singularity6_7 x y,
   singularity6_8 x y,
   singularity6_9 x y,
   singularity6_10 x y]

end Features
end NS
