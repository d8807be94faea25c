import Verif.Proof.PowerBasis
import Verif.Model.Generated

/-!
# The generated polynomials of Bezier curves, coefficient by coefficient

Written by a script; every equation is checked by `ring`.
-/

set_option linter.unusedSimpArgs false
set_option linter.unusedTactic false
set_option linter.unreachableTactic false

namespace NS
namespace Features

variable {K : Type} [CommRing K]

theorem fwd0 (x : ℕ → K) : fwd x 0 = x 0 := by
  simp only [fwd, Finset.sum_range_succ, Finset.sum_range_zero]
  norm_num [Nat.choose]
  try ring

theorem fwd1 (x : ℕ → K) : fwd x 1 = x 1 - x 0 := by
  simp only [fwd, Finset.sum_range_succ, Finset.sum_range_zero]
  norm_num [Nat.choose]
  try ring

theorem fwd2 (x : ℕ → K) : fwd x 2 = x 2 - 2 * x 1 + x 0 := by
  simp only [fwd, Finset.sum_range_succ, Finset.sum_range_zero]
  norm_num [Nat.choose]
  try ring

theorem fwd3 (x : ℕ → K) : fwd x 3 = x 3 - 3 * x 2 + 3 * x 1 - x 0 := by
  simp only [fwd, Finset.sum_range_succ, Finset.sum_range_zero]
  norm_num [Nat.choose]
  try ring

theorem fwd4 (x : ℕ → K) : fwd x 4 = x 4 - 4 * x 3 + 6 * x 2 - 4 * x 1 + x 0 := by
  simp only [fwd, Finset.sum_range_succ, Finset.sum_range_zero]
  norm_num [Nat.choose]
  try ring

theorem fwd5 (x : ℕ → K) : fwd x 5 = x 5 - 5 * x 4 + 10 * x 3 - 10 * x 2 + 5 * x 1 - x 0 := by
  simp only [fwd, Finset.sum_range_succ, Finset.sum_range_zero]
  norm_num [Nat.choose]
  try ring

theorem fwd6 (x : ℕ → K) : fwd x 6 = x 6 - 6 * x 5 + 15 * x 4 - 20 * x 3 + 15 * x 2 - 6 * x 1 + x 0 := by
  simp only [fwd, Finset.sum_range_succ, Finset.sum_range_zero]
  norm_num [Nat.choose]
  try ring

theorem fwd7 (x : ℕ → K) : fwd x 7 = x 7 - 7 * x 6 + 21 * x 5 - 35 * x 4 + 35 * x 3 - 21 * x 2 + 7 * x 1 - x 0 := by
  simp only [fwd, Finset.sum_range_succ, Finset.sum_range_zero]
  norm_num [Nat.choose]
  try ring

theorem fwd8 (x : ℕ → K) : fwd x 8 = x 8 - 8 * x 7 + 28 * x 6 - 56 * x 5 + 70 * x 4 - 56 * x 3 + 28 * x 2 - 8 * x 1 + x 0 := by
  simp only [fwd, Finset.sum_range_succ, Finset.sum_range_zero]
  norm_num [Nat.choose]
  try ring

theorem fwd9 (x : ℕ → K) : fwd x 9 = x 9 - 9 * x 8 + 36 * x 7 - 84 * x 6 + 126 * x 5 - 126 * x 4 + 84 * x 3 - 36 * x 2 + 9 * x 1 - x 0 := by
  simp only [fwd, Finset.sum_range_succ, Finset.sum_range_zero]
  norm_num [Nat.choose]
  try ring

theorem fwd10 (x : ℕ → K) : fwd x 10 = x 10 - 10 * x 9 + 45 * x 8 - 120 * x 7 + 210 * x 6 - 252 * x 5 + 210 * x 4 - 120 * x 3 + 45 * x 2 - 10 * x 1 + x 0 := by
  simp only [fwd, Finset.sum_range_succ, Finset.sum_range_zero]
  norm_num [Nat.choose]
  try ring

theorem hodo_2_0_2 (x : ℕ → K) : hodo 2 0 2 x = [2 * fwd x 2] := by
  simp only [hodo, List.range_succ, List.range_zero, List.map_append, List.map_cons, List.map_nil,
    List.nil_append, List.cons_append]
  norm_num [Nat.choose]

theorem hodo_2_1_1 (x : ℕ → K) : hodo 2 1 1 x = [2 * fwd x 1, 2 * fwd x 2] := by
  simp only [hodo, List.range_succ, List.range_zero, List.map_append, List.map_cons, List.map_nil,
    List.nil_append, List.cons_append]
  norm_num [Nat.choose]

theorem hodo_3_2_1 (x : ℕ → K) : hodo 3 2 1 x = [3 * fwd x 1, 6 * fwd x 2, 3 * fwd x 3] := by
  simp only [hodo, List.range_succ, List.range_zero, List.map_append, List.map_cons, List.map_nil,
    List.nil_append, List.cons_append]
  norm_num [Nat.choose]

theorem hodo_4_3_1 (x : ℕ → K) : hodo 4 3 1 x = [4 * fwd x 1, 12 * fwd x 2, 12 * fwd x 3, 4 * fwd x 4] := by
  simp only [hodo, List.range_succ, List.range_zero, List.map_append, List.map_cons, List.map_nil,
    List.nil_append, List.cons_append]
  norm_num [Nat.choose]

theorem hodo_5_4_1 (x : ℕ → K) : hodo 5 4 1 x = [5 * fwd x 1, 20 * fwd x 2, 30 * fwd x 3, 20 * fwd x 4, 5 * fwd x 5] := by
  simp only [hodo, List.range_succ, List.range_zero, List.map_append, List.map_cons, List.map_nil,
    List.nil_append, List.cons_append]
  norm_num [Nat.choose]

theorem hodo_6_1_2 (x : ℕ → K) : hodo 6 1 2 x = [6 * fwd x 2, 6 * fwd x 3] := by
  simp only [hodo, List.range_succ, List.range_zero, List.map_append, List.map_cons, List.map_nil,
    List.nil_append, List.cons_append]
  norm_num [Nat.choose]

theorem hodo_6_5_1 (x : ℕ → K) : hodo 6 5 1 x = [6 * fwd x 1, 30 * fwd x 2, 60 * fwd x 3, 60 * fwd x 4, 30 * fwd x 5, 6 * fwd x 6] := by
  simp only [hodo, List.range_succ, List.range_zero, List.map_append, List.map_cons, List.map_nil,
    List.nil_append, List.cons_append]
  norm_num [Nat.choose]

theorem hodo_7_6_1 (x : ℕ → K) : hodo 7 6 1 x = [7 * fwd x 1, 42 * fwd x 2, 105 * fwd x 3, 140 * fwd x 4, 105 * fwd x 5, 42 * fwd x 6, 7 * fwd x 7] := by
  simp only [hodo, List.range_succ, List.range_zero, List.map_append, List.map_cons, List.map_nil,
    List.nil_append, List.cons_append]
  norm_num [Nat.choose]

theorem hodo_8_7_1 (x : ℕ → K) : hodo 8 7 1 x = [8 * fwd x 1, 56 * fwd x 2, 168 * fwd x 3, 280 * fwd x 4, 280 * fwd x 5, 168 * fwd x 6, 56 * fwd x 7, 8 * fwd x 8] := by
  simp only [hodo, List.range_succ, List.range_zero, List.map_append, List.map_cons, List.map_nil,
    List.nil_append, List.cons_append]
  norm_num [Nat.choose]

theorem hodo_9_8_1 (x : ℕ → K) : hodo 9 8 1 x = [9 * fwd x 1, 72 * fwd x 2, 252 * fwd x 3, 504 * fwd x 4, 630 * fwd x 5, 504 * fwd x 6, 252 * fwd x 7, 72 * fwd x 8, 9 * fwd x 9] := by
  simp only [hodo, List.range_succ, List.range_zero, List.map_append, List.map_cons, List.map_nil,
    List.nil_append, List.cons_append]
  norm_num [Nat.choose]

theorem hodo_10_9_1 (x : ℕ → K) : hodo 10 9 1 x = [10 * fwd x 1, 90 * fwd x 2, 360 * fwd x 3, 840 * fwd x 4, 1260 * fwd x 5, 1260 * fwd x 6, 840 * fwd x 7, 360 * fwd x 8, 90 * fwd x 9, 10 * fwd x 10] := by
  simp only [hodo, List.range_succ, List.range_zero, List.map_append, List.map_cons, List.map_nil,
    List.nil_append, List.cons_append]
  norm_num [Nat.choose]

theorem hodo_12_2_2 (x : ℕ → K) : hodo 12 2 2 x = [12 * fwd x 2, 24 * fwd x 3, 12 * fwd x 4] := by
  simp only [hodo, List.range_succ, List.range_zero, List.map_append, List.map_cons, List.map_nil,
    List.nil_append, List.cons_append]
  norm_num [Nat.choose]

theorem hodo_20_3_2 (x : ℕ → K) : hodo 20 3 2 x = [20 * fwd x 2, 60 * fwd x 3, 60 * fwd x 4, 20 * fwd x 5] := by
  simp only [hodo, List.range_succ, List.range_zero, List.map_append, List.map_cons, List.map_nil,
    List.nil_append, List.cons_append]
  norm_num [Nat.choose]

theorem hodo_30_4_2 (x : ℕ → K) : hodo 30 4 2 x = [30 * fwd x 2, 120 * fwd x 3, 180 * fwd x 4, 120 * fwd x 5, 30 * fwd x 6] := by
  simp only [hodo, List.range_succ, List.range_zero, List.map_append, List.map_cons, List.map_nil,
    List.nil_append, List.cons_append]
  norm_num [Nat.choose]

theorem hodo_42_5_2 (x : ℕ → K) : hodo 42 5 2 x = [42 * fwd x 2, 210 * fwd x 3, 420 * fwd x 4, 420 * fwd x 5, 210 * fwd x 6, 42 * fwd x 7] := by
  simp only [hodo, List.range_succ, List.range_zero, List.map_append, List.map_cons, List.map_nil,
    List.nil_append, List.cons_append]
  norm_num [Nat.choose]

theorem hodo_56_6_2 (x : ℕ → K) : hodo 56 6 2 x = [56 * fwd x 2, 336 * fwd x 3, 840 * fwd x 4, 1120 * fwd x 5, 840 * fwd x 6, 336 * fwd x 7, 56 * fwd x 8] := by
  simp only [hodo, List.range_succ, List.range_zero, List.map_append, List.map_cons, List.map_nil,
    List.nil_append, List.cons_append]
  norm_num [Nat.choose]

theorem hodo_72_7_2 (x : ℕ → K) : hodo 72 7 2 x = [72 * fwd x 2, 504 * fwd x 3, 1512 * fwd x 4, 2520 * fwd x 5, 2520 * fwd x 6, 1512 * fwd x 7, 504 * fwd x 8, 72 * fwd x 9] := by
  simp only [hodo, List.range_succ, List.range_zero, List.map_append, List.map_cons, List.map_nil,
    List.nil_append, List.cons_append]
  norm_num [Nat.choose]

theorem hodo_90_8_2 (x : ℕ → K) : hodo 90 8 2 x = [90 * fwd x 2, 720 * fwd x 3, 2520 * fwd x 4, 5040 * fwd x 5, 6300 * fwd x 6, 5040 * fwd x 7, 2520 * fwd x 8, 720 * fwd x 9, 90 * fwd x 10] := by
  simp only [hodo, List.range_succ, List.range_zero, List.map_append, List.map_cons, List.map_nil,
    List.nil_append, List.cons_append]
  norm_num [Nat.choose]

theorem inflection2_eq (x y : ℕ → K) : inflection2 x y ++ [0] =
    addP (mulP (hodo 2 1 1 y) (hodo 2 0 2 x)) (smulP (-1) (mulP (hodo 2 1 1 x) (hodo 2 0 2 y))) := by
  rw [hodo_2_1_1 x, hodo_2_1_1 y, hodo_2_0_2 x, hodo_2_0_2 y]
  simp only [inflection2, List.cons_append, List.nil_append, mulP, addP, smulP]
  refine List.cons_eq_cons.2 ⟨?_, List.cons_eq_cons.2 ⟨?_, rfl⟩⟩
  · simp only [fwd1, fwd2]; ring
  · simp only [fwd1, fwd2]; ring

theorem inflection3_eq (x y : ℕ → K) : inflection3 x y ++ [0] =
    addP (mulP (hodo 3 2 1 y) (hodo 6 1 2 x)) (smulP (-1) (mulP (hodo 3 2 1 x) (hodo 6 1 2 y))) := by
  rw [hodo_3_2_1 x, hodo_3_2_1 y, hodo_6_1_2 x, hodo_6_1_2 y]
  simp only [inflection3, List.cons_append, List.nil_append, mulP, addP, smulP]
  refine List.cons_eq_cons.2 ⟨?_, List.cons_eq_cons.2 ⟨?_, List.cons_eq_cons.2 ⟨?_, List.cons_eq_cons.2 ⟨?_, rfl⟩⟩⟩⟩
  · simp only [fwd1, fwd2, fwd3]; ring
  · simp only [fwd1, fwd2, fwd3]; ring
  · simp only [fwd1, fwd2, fwd3]; ring
  · simp only [fwd1, fwd2, fwd3]; ring

theorem inflection4_eq (x y : ℕ → K) : inflection4 x y ++ [0] =
    addP (mulP (hodo 4 3 1 y) (hodo 12 2 2 x)) (smulP (-1) (mulP (hodo 4 3 1 x) (hodo 12 2 2 y))) := by
  rw [hodo_4_3_1 x, hodo_4_3_1 y, hodo_12_2_2 x, hodo_12_2_2 y]
  simp only [inflection4, List.cons_append, List.nil_append, mulP, addP, smulP]
  refine List.cons_eq_cons.2 ⟨?_, List.cons_eq_cons.2 ⟨?_, List.cons_eq_cons.2 ⟨?_, List.cons_eq_cons.2 ⟨?_, List.cons_eq_cons.2 ⟨?_, List.cons_eq_cons.2 ⟨?_, rfl⟩⟩⟩⟩⟩⟩
  · simp only [fwd1, fwd2, fwd3, fwd4]; ring
  · simp only [fwd1, fwd2, fwd3, fwd4]; ring
  · simp only [fwd1, fwd2, fwd3, fwd4]; ring
  · simp only [fwd1, fwd2, fwd3, fwd4]; ring
  · simp only [fwd1, fwd2, fwd3, fwd4]; ring
  · simp only [fwd1, fwd2, fwd3, fwd4]; ring

theorem inflection5_eq (x y : ℕ → K) : inflection5 x y ++ [0] =
    addP (mulP (hodo 5 4 1 y) (hodo 20 3 2 x)) (smulP (-1) (mulP (hodo 5 4 1 x) (hodo 20 3 2 y))) := by
  rw [hodo_5_4_1 x, hodo_5_4_1 y, hodo_20_3_2 x, hodo_20_3_2 y]
  simp only [inflection5, List.cons_append, List.nil_append, mulP, addP, smulP]
  refine List.cons_eq_cons.2 ⟨?_, List.cons_eq_cons.2 ⟨?_, List.cons_eq_cons.2 ⟨?_, List.cons_eq_cons.2 ⟨?_, List.cons_eq_cons.2 ⟨?_, List.cons_eq_cons.2 ⟨?_, List.cons_eq_cons.2 ⟨?_, List.cons_eq_cons.2 ⟨?_, rfl⟩⟩⟩⟩⟩⟩⟩⟩
  · simp only [fwd1, fwd2, fwd3, fwd4, fwd5]; ring
  · simp only [fwd1, fwd2, fwd3, fwd4, fwd5]; ring
  · simp only [fwd1, fwd2, fwd3, fwd4, fwd5]; ring
  · simp only [fwd1, fwd2, fwd3, fwd4, fwd5]; ring
  · simp only [fwd1, fwd2, fwd3, fwd4, fwd5]; ring
  · simp only [fwd1, fwd2, fwd3, fwd4, fwd5]; ring
  · simp only [fwd1, fwd2, fwd3, fwd4, fwd5]; ring
  · simp only [fwd1, fwd2, fwd3, fwd4, fwd5]; ring

theorem inflection6_eq (x y : ℕ → K) : inflection6 x y ++ [0] =
    addP (mulP (hodo 6 5 1 y) (hodo 30 4 2 x)) (smulP (-1) (mulP (hodo 6 5 1 x) (hodo 30 4 2 y))) := by
  rw [hodo_6_5_1 x, hodo_6_5_1 y, hodo_30_4_2 x, hodo_30_4_2 y]
  simp only [inflection6, List.cons_append, List.nil_append, mulP, addP, smulP]
  refine List.cons_eq_cons.2 ⟨?_, List.cons_eq_cons.2 ⟨?_, List.cons_eq_cons.2 ⟨?_, List.cons_eq_cons.2 ⟨?_, List.cons_eq_cons.2 ⟨?_, List.cons_eq_cons.2 ⟨?_, List.cons_eq_cons.2 ⟨?_, List.cons_eq_cons.2 ⟨?_, List.cons_eq_cons.2 ⟨?_, List.cons_eq_cons.2 ⟨?_, rfl⟩⟩⟩⟩⟩⟩⟩⟩⟩⟩
  · simp only [inflection6_0, fwd1, fwd2, fwd3, fwd4, fwd5, fwd6]; ring
  · simp only [inflection6_1, fwd1, fwd2, fwd3, fwd4, fwd5, fwd6]; ring
  · simp only [inflection6_2, fwd1, fwd2, fwd3, fwd4, fwd5, fwd6]; ring
  · simp only [inflection6_3, fwd1, fwd2, fwd3, fwd4, fwd5, fwd6]; ring
  · simp only [inflection6_4, fwd1, fwd2, fwd3, fwd4, fwd5, fwd6]; ring
  · simp only [inflection6_5, fwd1, fwd2, fwd3, fwd4, fwd5, fwd6]; ring
  · simp only [inflection6_6, fwd1, fwd2, fwd3, fwd4, fwd5, fwd6]; ring
  · simp only [inflection6_7, fwd1, fwd2, fwd3, fwd4, fwd5, fwd6]; ring
  · simp only [inflection6_8, fwd1, fwd2, fwd3, fwd4, fwd5, fwd6]; ring
  · simp only [fwd1, fwd2, fwd3, fwd4, fwd5, fwd6]; ring

theorem inflection7_eq (x y : ℕ → K) : inflection7 x y ++ [0] =
    addP (mulP (hodo 7 6 1 y) (hodo 42 5 2 x)) (smulP (-1) (mulP (hodo 7 6 1 x) (hodo 42 5 2 y))) := by
  rw [hodo_7_6_1 x, hodo_7_6_1 y, hodo_42_5_2 x, hodo_42_5_2 y]
  simp only [inflection7, List.cons_append, List.nil_append, mulP, addP, smulP]
  refine List.cons_eq_cons.2 ⟨?_, List.cons_eq_cons.2 ⟨?_, List.cons_eq_cons.2 ⟨?_, List.cons_eq_cons.2 ⟨?_, List.cons_eq_cons.2 ⟨?_, List.cons_eq_cons.2 ⟨?_, List.cons_eq_cons.2 ⟨?_, List.cons_eq_cons.2 ⟨?_, List.cons_eq_cons.2 ⟨?_, List.cons_eq_cons.2 ⟨?_, List.cons_eq_cons.2 ⟨?_, List.cons_eq_cons.2 ⟨?_, rfl⟩⟩⟩⟩⟩⟩⟩⟩⟩⟩⟩⟩
  · simp only [inflection7_0, fwd1, fwd2, fwd3, fwd4, fwd5, fwd6, fwd7]; ring
  · simp only [inflection7_1, fwd1, fwd2, fwd3, fwd4, fwd5, fwd6, fwd7]; ring
  · simp only [inflection7_2, fwd1, fwd2, fwd3, fwd4, fwd5, fwd6, fwd7]; ring
  · simp only [inflection7_3, fwd1, fwd2, fwd3, fwd4, fwd5, fwd6, fwd7]; ring
  · simp only [inflection7_4, fwd1, fwd2, fwd3, fwd4, fwd5, fwd6, fwd7]; ring
  · simp only [inflection7_5, fwd1, fwd2, fwd3, fwd4, fwd5, fwd6, fwd7]; ring
  · simp only [inflection7_6, fwd1, fwd2, fwd3, fwd4, fwd5, fwd6, fwd7]; ring
  · simp only [inflection7_7, fwd1, fwd2, fwd3, fwd4, fwd5, fwd6, fwd7]; ring
  · simp only [inflection7_8, fwd1, fwd2, fwd3, fwd4, fwd5, fwd6, fwd7]; ring
  · simp only [inflection7_9, fwd1, fwd2, fwd3, fwd4, fwd5, fwd6, fwd7]; ring
  · simp only [inflection7_10, fwd1, fwd2, fwd3, fwd4, fwd5, fwd6, fwd7]; ring
  · simp only [fwd1, fwd2, fwd3, fwd4, fwd5, fwd6, fwd7]; ring

theorem tangent2_eq (x y : ℕ → K) (tx ty : K) : tangent2 x y tx ty =
    addP (smulP tx (hodo 2 1 1 x)) (smulP ty (hodo 2 1 1 y)) := by
  rw [hodo_2_1_1 x, hodo_2_1_1 y]
  simp only [tangent2, mulP, addP, smulP]
  refine List.cons_eq_cons.2 ⟨?_, List.cons_eq_cons.2 ⟨?_, rfl⟩⟩
  · simp only [fwd1, fwd2]; ring
  · simp only [fwd1, fwd2]; ring

theorem tangent3_eq (x y : ℕ → K) (tx ty : K) : tangent3 x y tx ty =
    addP (smulP tx (hodo 3 2 1 x)) (smulP ty (hodo 3 2 1 y)) := by
  rw [hodo_3_2_1 x, hodo_3_2_1 y]
  simp only [tangent3, mulP, addP, smulP]
  refine List.cons_eq_cons.2 ⟨?_, List.cons_eq_cons.2 ⟨?_, List.cons_eq_cons.2 ⟨?_, rfl⟩⟩⟩
  · simp only [fwd1, fwd2, fwd3]; ring
  · simp only [fwd1, fwd2, fwd3]; ring
  · simp only [fwd1, fwd2, fwd3]; ring

theorem tangent4_eq (x y : ℕ → K) (tx ty : K) : tangent4 x y tx ty =
    addP (smulP tx (hodo 4 3 1 x)) (smulP ty (hodo 4 3 1 y)) := by
  rw [hodo_4_3_1 x, hodo_4_3_1 y]
  simp only [tangent4, mulP, addP, smulP]
  refine List.cons_eq_cons.2 ⟨?_, List.cons_eq_cons.2 ⟨?_, List.cons_eq_cons.2 ⟨?_, List.cons_eq_cons.2 ⟨?_, rfl⟩⟩⟩⟩
  · simp only [fwd1, fwd2, fwd3, fwd4]; ring
  · simp only [fwd1, fwd2, fwd3, fwd4]; ring
  · simp only [fwd1, fwd2, fwd3, fwd4]; ring
  · simp only [fwd1, fwd2, fwd3, fwd4]; ring

theorem tangent5_eq (x y : ℕ → K) (tx ty : K) : tangent5 x y tx ty =
    addP (smulP tx (hodo 5 4 1 x)) (smulP ty (hodo 5 4 1 y)) := by
  rw [hodo_5_4_1 x, hodo_5_4_1 y]
  simp only [tangent5, mulP, addP, smulP]
  refine List.cons_eq_cons.2 ⟨?_, List.cons_eq_cons.2 ⟨?_, List.cons_eq_cons.2 ⟨?_, List.cons_eq_cons.2 ⟨?_, List.cons_eq_cons.2 ⟨?_, rfl⟩⟩⟩⟩⟩
  · simp only [fwd1, fwd2, fwd3, fwd4, fwd5]; ring
  · simp only [fwd1, fwd2, fwd3, fwd4, fwd5]; ring
  · simp only [fwd1, fwd2, fwd3, fwd4, fwd5]; ring
  · simp only [fwd1, fwd2, fwd3, fwd4, fwd5]; ring
  · simp only [fwd1, fwd2, fwd3, fwd4, fwd5]; ring

theorem tangent6_eq (x y : ℕ → K) (tx ty : K) : tangent6 x y tx ty =
    addP (smulP tx (hodo 6 5 1 x)) (smulP ty (hodo 6 5 1 y)) := by
  rw [hodo_6_5_1 x, hodo_6_5_1 y]
  simp only [tangent6, mulP, addP, smulP]
  refine List.cons_eq_cons.2 ⟨?_, List.cons_eq_cons.2 ⟨?_, List.cons_eq_cons.2 ⟨?_, List.cons_eq_cons.2 ⟨?_, List.cons_eq_cons.2 ⟨?_, List.cons_eq_cons.2 ⟨?_, rfl⟩⟩⟩⟩⟩⟩
  · simp only [fwd1, fwd2, fwd3, fwd4, fwd5, fwd6]; ring
  · simp only [fwd1, fwd2, fwd3, fwd4, fwd5, fwd6]; ring
  · simp only [fwd1, fwd2, fwd3, fwd4, fwd5, fwd6]; ring
  · simp only [fwd1, fwd2, fwd3, fwd4, fwd5, fwd6]; ring
  · simp only [fwd1, fwd2, fwd3, fwd4, fwd5, fwd6]; ring
  · simp only [fwd1, fwd2, fwd3, fwd4, fwd5, fwd6]; ring

theorem tangent7_eq (x y : ℕ → K) (tx ty : K) : tangent7 x y tx ty =
    addP (smulP tx (hodo 7 6 1 x)) (smulP ty (hodo 7 6 1 y)) := by
  rw [hodo_7_6_1 x, hodo_7_6_1 y]
  simp only [tangent7, mulP, addP, smulP]
  refine List.cons_eq_cons.2 ⟨?_, List.cons_eq_cons.2 ⟨?_, List.cons_eq_cons.2 ⟨?_, List.cons_eq_cons.2 ⟨?_, List.cons_eq_cons.2 ⟨?_, List.cons_eq_cons.2 ⟨?_, List.cons_eq_cons.2 ⟨?_, rfl⟩⟩⟩⟩⟩⟩⟩
  · simp only [fwd1, fwd2, fwd3, fwd4, fwd5, fwd6, fwd7]; ring
  · simp only [fwd1, fwd2, fwd3, fwd4, fwd5, fwd6, fwd7]; ring
  · simp only [fwd1, fwd2, fwd3, fwd4, fwd5, fwd6, fwd7]; ring
  · simp only [fwd1, fwd2, fwd3, fwd4, fwd5, fwd6, fwd7]; ring
  · simp only [fwd1, fwd2, fwd3, fwd4, fwd5, fwd6, fwd7]; ring
  · simp only [fwd1, fwd2, fwd3, fwd4, fwd5, fwd6, fwd7]; ring
  · simp only [fwd1, fwd2, fwd3, fwd4, fwd5, fwd6, fwd7]; ring

theorem singularity2_eq (x y : ℕ → K) : singularity2 x y =
    addP (mulP (hodo 2 1 1 x) (hodo 2 1 1 x)) (mulP (hodo 2 1 1 y) (hodo 2 1 1 y)) := by
  rw [hodo_2_1_1 x, hodo_2_1_1 y]
  simp only [singularity2, mulP, addP, smulP]
  refine List.cons_eq_cons.2 ⟨?_, List.cons_eq_cons.2 ⟨?_, List.cons_eq_cons.2 ⟨?_, rfl⟩⟩⟩
  · simp only [fwd1, fwd2]; ring
  · simp only [fwd1, fwd2]; ring
  · simp only [fwd1, fwd2]; ring

theorem singularity3_eq (x y : ℕ → K) : singularity3 x y =
    addP (mulP (hodo 3 2 1 x) (hodo 3 2 1 x)) (mulP (hodo 3 2 1 y) (hodo 3 2 1 y)) := by
  rw [hodo_3_2_1 x, hodo_3_2_1 y]
  simp only [singularity3, mulP, addP, smulP]
  refine List.cons_eq_cons.2 ⟨?_, List.cons_eq_cons.2 ⟨?_, List.cons_eq_cons.2 ⟨?_, List.cons_eq_cons.2 ⟨?_, List.cons_eq_cons.2 ⟨?_, rfl⟩⟩⟩⟩⟩
  · simp only [fwd1, fwd2, fwd3]; ring
  · simp only [fwd1, fwd2, fwd3]; ring
  · simp only [fwd1, fwd2, fwd3]; ring
  · simp only [fwd1, fwd2, fwd3]; ring
  · simp only [fwd1, fwd2, fwd3]; ring

theorem singularity4_eq (x y : ℕ → K) : singularity4 x y =
    addP (mulP (hodo 4 3 1 x) (hodo 4 3 1 x)) (mulP (hodo 4 3 1 y) (hodo 4 3 1 y)) := by
  rw [hodo_4_3_1 x, hodo_4_3_1 y]
  simp only [singularity4, mulP, addP, smulP]
  refine List.cons_eq_cons.2 ⟨?_, List.cons_eq_cons.2 ⟨?_, List.cons_eq_cons.2 ⟨?_, List.cons_eq_cons.2 ⟨?_, List.cons_eq_cons.2 ⟨?_, List.cons_eq_cons.2 ⟨?_, List.cons_eq_cons.2 ⟨?_, rfl⟩⟩⟩⟩⟩⟩⟩
  · simp only [fwd1, fwd2, fwd3, fwd4]; ring
  · simp only [fwd1, fwd2, fwd3, fwd4]; ring
  · simp only [fwd1, fwd2, fwd3, fwd4]; ring
  · simp only [fwd1, fwd2, fwd3, fwd4]; ring
  · simp only [fwd1, fwd2, fwd3, fwd4]; ring
  · simp only [fwd1, fwd2, fwd3, fwd4]; ring
  · simp only [fwd1, fwd2, fwd3, fwd4]; ring

theorem singularity5_eq (x y : ℕ → K) : singularity5 x y =
    addP (mulP (hodo 5 4 1 x) (hodo 5 4 1 x)) (mulP (hodo 5 4 1 y) (hodo 5 4 1 y)) := by
  rw [hodo_5_4_1 x, hodo_5_4_1 y]
  simp only [singularity5, mulP, addP, smulP]
  refine List.cons_eq_cons.2 ⟨?_, List.cons_eq_cons.2 ⟨?_, List.cons_eq_cons.2 ⟨?_, List.cons_eq_cons.2 ⟨?_, List.cons_eq_cons.2 ⟨?_, List.cons_eq_cons.2 ⟨?_, List.cons_eq_cons.2 ⟨?_, List.cons_eq_cons.2 ⟨?_, List.cons_eq_cons.2 ⟨?_, rfl⟩⟩⟩⟩⟩⟩⟩⟩⟩
  · simp only [singularity5_0, fwd1, fwd2, fwd3, fwd4, fwd5]; ring
  · simp only [singularity5_1, fwd1, fwd2, fwd3, fwd4, fwd5]; ring
  · simp only [singularity5_2, fwd1, fwd2, fwd3, fwd4, fwd5]; ring
  · simp only [singularity5_3, fwd1, fwd2, fwd3, fwd4, fwd5]; ring
  · simp only [singularity5_4, fwd1, fwd2, fwd3, fwd4, fwd5]; ring
  · simp only [singularity5_5, fwd1, fwd2, fwd3, fwd4, fwd5]; ring
  · simp only [singularity5_6, fwd1, fwd2, fwd3, fwd4, fwd5]; ring
  · simp only [singularity5_7, fwd1, fwd2, fwd3, fwd4, fwd5]; ring
  · simp only [singularity5_8, fwd1, fwd2, fwd3, fwd4, fwd5]; ring

theorem singularity6_eq (x y : ℕ → K) : singularity6 x y =
    addP (mulP (hodo 6 5 1 x) (hodo 6 5 1 x)) (mulP (hodo 6 5 1 y) (hodo 6 5 1 y)) := by
  rw [hodo_6_5_1 x, hodo_6_5_1 y]
  simp only [singularity6, mulP, addP, smulP]
  refine List.cons_eq_cons.2 ⟨?_, List.cons_eq_cons.2 ⟨?_, List.cons_eq_cons.2 ⟨?_, List.cons_eq_cons.2 ⟨?_, List.cons_eq_cons.2 ⟨?_, List.cons_eq_cons.2 ⟨?_, List.cons_eq_cons.2 ⟨?_, List.cons_eq_cons.2 ⟨?_, List.cons_eq_cons.2 ⟨?_, List.cons_eq_cons.2 ⟨?_, List.cons_eq_cons.2 ⟨?_, rfl⟩⟩⟩⟩⟩⟩⟩⟩⟩⟩⟩
  · simp only [singularity6_0, fwd1, fwd2, fwd3, fwd4, fwd5, fwd6]; ring
  · simp only [singularity6_1, fwd1, fwd2, fwd3, fwd4, fwd5, fwd6]; ring
  · simp only [singularity6_2, fwd1, fwd2, fwd3, fwd4, fwd5, fwd6]; ring
  · simp only [singularity6_3, fwd1, fwd2, fwd3, fwd4, fwd5, fwd6]; ring
  · simp only [singularity6_4, fwd1, fwd2, fwd3, fwd4, fwd5, fwd6]; ring
  · simp only [singularity6_5, fwd1, fwd2, fwd3, fwd4, fwd5, fwd6]; ring
  · simp only [singularity6_6, fwd1, fwd2, fwd3, fwd4, fwd5, fwd6]; ring
  · simp only [singularity6_7, fwd1, fwd2, fwd3, fwd4, fwd5, fwd6]; ring
  · simp only [singularity6_8, fwd1, fwd2, fwd3, fwd4, fwd5, fwd6]; ring
  · simp only [singularity6_9, fwd1, fwd2, fwd3, fwd4, fwd5, fwd6]; ring
  · simp only [singularity6_10, fwd1, fwd2, fwd3, fwd4, fwd5, fwd6]; ring

end Features
end NS
