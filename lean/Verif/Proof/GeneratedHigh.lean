import Verif.Proof.Generated

/-!
# The generated polynomials of Bezier curves, coefficient by coefficient

Written by a script; every equation is checked by `ring`.
-/

set_option linter.unusedSimpArgs false
set_option linter.unusedTactic false
set_option linter.unreachableTactic false

namespace NS
namespace Features

variable {K : Type} [CommRing K]

theorem inflection8_eq (x y : ℕ → K) : inflection8 x y ++ [0] =
    addP (mulP (hodo 8 7 1 y) (hodo 56 6 2 x)) (smulP (-1) (mulP (hodo 8 7 1 x) (hodo 56 6 2 y))) := by
  rw [hodo_8_7_1 x, hodo_8_7_1 y, hodo_56_6_2 x, hodo_56_6_2 y]
  simp only [inflection8, List.cons_append, List.nil_append, mulP, addP, smulP]
  refine List.cons_eq_cons.2 ⟨?_, List.cons_eq_cons.2 ⟨?_, List.cons_eq_cons.2 ⟨?_, List.cons_eq_cons.2 ⟨?_, List.cons_eq_cons.2 ⟨?_, List.cons_eq_cons.2 ⟨?_, List.cons_eq_cons.2 ⟨?_, List.cons_eq_cons.2 ⟨?_, List.cons_eq_cons.2 ⟨?_, List.cons_eq_cons.2 ⟨?_, List.cons_eq_cons.2 ⟨?_, List.cons_eq_cons.2 ⟨?_, List.cons_eq_cons.2 ⟨?_, List.cons_eq_cons.2 ⟨?_, rfl⟩⟩⟩⟩⟩⟩⟩⟩⟩⟩⟩⟩⟩⟩
  · simp only [inflection8_0, fwd1, fwd2, fwd3, fwd4, fwd5, fwd6, fwd7, fwd8]; ring
  · simp only [inflection8_1, fwd1, fwd2, fwd3, fwd4, fwd5, fwd6, fwd7, fwd8]; ring
  · simp only [inflection8_2, fwd1, fwd2, fwd3, fwd4, fwd5, fwd6, fwd7, fwd8]; ring
  · simp only [inflection8_3, fwd1, fwd2, fwd3, fwd4, fwd5, fwd6, fwd7, fwd8]; ring
  · simp only [inflection8_4, fwd1, fwd2, fwd3, fwd4, fwd5, fwd6, fwd7, fwd8]; ring
  · simp only [inflection8_5, fwd1, fwd2, fwd3, fwd4, fwd5, fwd6, fwd7, fwd8]; ring
  · simp only [inflection8_6, fwd1, fwd2, fwd3, fwd4, fwd5, fwd6, fwd7, fwd8]; ring
  · simp only [inflection8_7, fwd1, fwd2, fwd3, fwd4, fwd5, fwd6, fwd7, fwd8]; ring
  · simp only [inflection8_8, fwd1, fwd2, fwd3, fwd4, fwd5, fwd6, fwd7, fwd8]; ring
  · simp only [inflection8_9, fwd1, fwd2, fwd3, fwd4, fwd5, fwd6, fwd7, fwd8]; ring
  · simp only [inflection8_10, fwd1, fwd2, fwd3, fwd4, fwd5, fwd6, fwd7, fwd8]; ring
  · simp only [inflection8_11, fwd1, fwd2, fwd3, fwd4, fwd5, fwd6, fwd7, fwd8]; ring
  · simp only [inflection8_12, fwd1, fwd2, fwd3, fwd4, fwd5, fwd6, fwd7, fwd8]; ring
  · simp only [fwd1, fwd2, fwd3, fwd4, fwd5, fwd6, fwd7, fwd8]; ring

theorem inflection9_eq (x y : ℕ → K) : inflection9 x y ++ [0] =
    addP (mulP (hodo 9 8 1 y) (hodo 72 7 2 x)) (smulP (-1) (mulP (hodo 9 8 1 x) (hodo 72 7 2 y))) := by
  rw [hodo_9_8_1 x, hodo_9_8_1 y, hodo_72_7_2 x, hodo_72_7_2 y]
  simp only [inflection9, List.cons_append, List.nil_append, mulP, addP, smulP]
  refine List.cons_eq_cons.2 ⟨?_, List.cons_eq_cons.2 ⟨?_, List.cons_eq_cons.2 ⟨?_, List.cons_eq_cons.2 ⟨?_, List.cons_eq_cons.2 ⟨?_, List.cons_eq_cons.2 ⟨?_, List.cons_eq_cons.2 ⟨?_, List.cons_eq_cons.2 ⟨?_, List.cons_eq_cons.2 ⟨?_, List.cons_eq_cons.2 ⟨?_, List.cons_eq_cons.2 ⟨?_, List.cons_eq_cons.2 ⟨?_, List.cons_eq_cons.2 ⟨?_, List.cons_eq_cons.2 ⟨?_, List.cons_eq_cons.2 ⟨?_, List.cons_eq_cons.2 ⟨?_, rfl⟩⟩⟩⟩⟩⟩⟩⟩⟩⟩⟩⟩⟩⟩⟩⟩
  · simp only [inflection9_0, fwd1, fwd2, fwd3, fwd4, fwd5, fwd6, fwd7, fwd8, fwd9]; ring
  · simp only [inflection9_1, fwd1, fwd2, fwd3, fwd4, fwd5, fwd6, fwd7, fwd8, fwd9]; ring
  · simp only [inflection9_2, fwd1, fwd2, fwd3, fwd4, fwd5, fwd6, fwd7, fwd8, fwd9]; ring
  · simp only [inflection9_3, fwd1, fwd2, fwd3, fwd4, fwd5, fwd6, fwd7, fwd8, fwd9]; ring
  · simp only [inflection9_4, fwd1, fwd2, fwd3, fwd4, fwd5, fwd6, fwd7, fwd8, fwd9]; ring
  · simp only [inflection9_5, fwd1, fwd2, fwd3, fwd4, fwd5, fwd6, fwd7, fwd8, fwd9]; ring
  · simp only [inflection9_6, fwd1, fwd2, fwd3, fwd4, fwd5, fwd6, fwd7, fwd8, fwd9]; ring
  · simp only [inflection9_7, fwd1, fwd2, fwd3, fwd4, fwd5, fwd6, fwd7, fwd8, fwd9]; ring
  · simp only [inflection9_8, fwd1, fwd2, fwd3, fwd4, fwd5, fwd6, fwd7, fwd8, fwd9]; ring
  · simp only [inflection9_9, fwd1, fwd2, fwd3, fwd4, fwd5, fwd6, fwd7, fwd8, fwd9]; ring
  · simp only [inflection9_10, fwd1, fwd2, fwd3, fwd4, fwd5, fwd6, fwd7, fwd8, fwd9]; ring
  · simp only [inflection9_11, fwd1, fwd2, fwd3, fwd4, fwd5, fwd6, fwd7, fwd8, fwd9]; ring
  · simp only [inflection9_12, fwd1, fwd2, fwd3, fwd4, fwd5, fwd6, fwd7, fwd8, fwd9]; ring
  · simp only [inflection9_13, fwd1, fwd2, fwd3, fwd4, fwd5, fwd6, fwd7, fwd8, fwd9]; ring
  · simp only [inflection9_14, fwd1, fwd2, fwd3, fwd4, fwd5, fwd6, fwd7, fwd8, fwd9]; ring
  · simp only [fwd1, fwd2, fwd3, fwd4, fwd5, fwd6, fwd7, fwd8, fwd9]; ring

theorem inflection10_eq (x y : ℕ → K) : inflection10 x y ++ [0] =
    addP (mulP (hodo 10 9 1 y) (hodo 90 8 2 x)) (smulP (-1) (mulP (hodo 10 9 1 x) (hodo 90 8 2 y))) := by
  rw [hodo_10_9_1 x, hodo_10_9_1 y, hodo_90_8_2 x, hodo_90_8_2 y]
  simp only [inflection10, List.cons_append, List.nil_append, mulP, addP, smulP]
  refine List.cons_eq_cons.2 ⟨?_, List.cons_eq_cons.2 ⟨?_, List.cons_eq_cons.2 ⟨?_, List.cons_eq_cons.2 ⟨?_, List.cons_eq_cons.2 ⟨?_, List.cons_eq_cons.2 ⟨?_, List.cons_eq_cons.2 ⟨?_, List.cons_eq_cons.2 ⟨?_, List.cons_eq_cons.2 ⟨?_, List.cons_eq_cons.2 ⟨?_, List.cons_eq_cons.2 ⟨?_, List.cons_eq_cons.2 ⟨?_, List.cons_eq_cons.2 ⟨?_, List.cons_eq_cons.2 ⟨?_, List.cons_eq_cons.2 ⟨?_, List.cons_eq_cons.2 ⟨?_, List.cons_eq_cons.2 ⟨?_, List.cons_eq_cons.2 ⟨?_, rfl⟩⟩⟩⟩⟩⟩⟩⟩⟩⟩⟩⟩⟩⟩⟩⟩⟩⟩
  · simp only [inflection10_0, fwd1, fwd2, fwd3, fwd4, fwd5, fwd6, fwd7, fwd8, fwd9, fwd10]; ring
  · simp only [inflection10_1, fwd1, fwd2, fwd3, fwd4, fwd5, fwd6, fwd7, fwd8, fwd9, fwd10]; ring
  · simp only [inflection10_2, fwd1, fwd2, fwd3, fwd4, fwd5, fwd6, fwd7, fwd8, fwd9, fwd10]; ring
  · simp only [inflection10_3, fwd1, fwd2, fwd3, fwd4, fwd5, fwd6, fwd7, fwd8, fwd9, fwd10]; ring
  · simp only [inflection10_4, fwd1, fwd2, fwd3, fwd4, fwd5, fwd6, fwd7, fwd8, fwd9, fwd10]; ring
  · simp only [inflection10_5, fwd1, fwd2, fwd3, fwd4, fwd5, fwd6, fwd7, fwd8, fwd9, fwd10]; ring
  · simp only [inflection10_6, fwd1, fwd2, fwd3, fwd4, fwd5, fwd6, fwd7, fwd8, fwd9, fwd10]; ring
  · simp only [inflection10_7, fwd1, fwd2, fwd3, fwd4, fwd5, fwd6, fwd7, fwd8, fwd9, fwd10]; ring
  · simp only [inflection10_8, fwd1, fwd2, fwd3, fwd4, fwd5, fwd6, fwd7, fwd8, fwd9, fwd10]; ring
  · simp only [inflection10_9, fwd1, fwd2, fwd3, fwd4, fwd5, fwd6, fwd7, fwd8, fwd9, fwd10]; ring
  · simp only [inflection10_10, fwd1, fwd2, fwd3, fwd4, fwd5, fwd6, fwd7, fwd8, fwd9, fwd10]; ring
  · simp only [inflection10_11, fwd1, fwd2, fwd3, fwd4, fwd5, fwd6, fwd7, fwd8, fwd9, fwd10]; ring
  · simp only [inflection10_12, fwd1, fwd2, fwd3, fwd4, fwd5, fwd6, fwd7, fwd8, fwd9, fwd10]; ring
  · simp only [inflection10_13, fwd1, fwd2, fwd3, fwd4, fwd5, fwd6, fwd7, fwd8, fwd9, fwd10]; ring
  · simp only [inflection10_14, fwd1, fwd2, fwd3, fwd4, fwd5, fwd6, fwd7, fwd8, fwd9, fwd10]; ring
  · simp only [inflection10_15, fwd1, fwd2, fwd3, fwd4, fwd5, fwd6, fwd7, fwd8, fwd9, fwd10]; ring
  · simp only [inflection10_16, fwd1, fwd2, fwd3, fwd4, fwd5, fwd6, fwd7, fwd8, fwd9, fwd10]; ring
  · simp only [fwd1, fwd2, fwd3, fwd4, fwd5, fwd6, fwd7, fwd8, fwd9, fwd10]; ring

theorem tangent8_eq (x y : ℕ → K) (tx ty : K) : tangent8 x y tx ty =
    addP (smulP tx (hodo 8 7 1 x)) (smulP ty (hodo 8 7 1 y)) := by
  rw [hodo_8_7_1 x, hodo_8_7_1 y]
  simp only [tangent8, mulP, addP, smulP]
  refine List.cons_eq_cons.2 ⟨?_, List.cons_eq_cons.2 ⟨?_, List.cons_eq_cons.2 ⟨?_, List.cons_eq_cons.2 ⟨?_, List.cons_eq_cons.2 ⟨?_, List.cons_eq_cons.2 ⟨?_, List.cons_eq_cons.2 ⟨?_, List.cons_eq_cons.2 ⟨?_, rfl⟩⟩⟩⟩⟩⟩⟩⟩
  · simp only [fwd1, fwd2, fwd3, fwd4, fwd5, fwd6, fwd7, fwd8]; ring
  · simp only [fwd1, fwd2, fwd3, fwd4, fwd5, fwd6, fwd7, fwd8]; ring
  · simp only [fwd1, fwd2, fwd3, fwd4, fwd5, fwd6, fwd7, fwd8]; ring
  · simp only [fwd1, fwd2, fwd3, fwd4, fwd5, fwd6, fwd7, fwd8]; ring
  · simp only [fwd1, fwd2, fwd3, fwd4, fwd5, fwd6, fwd7, fwd8]; ring
  · simp only [fwd1, fwd2, fwd3, fwd4, fwd5, fwd6, fwd7, fwd8]; ring
  · simp only [fwd1, fwd2, fwd3, fwd4, fwd5, fwd6, fwd7, fwd8]; ring
  · simp only [fwd1, fwd2, fwd3, fwd4, fwd5, fwd6, fwd7, fwd8]; ring

theorem tangent9_eq (x y : ℕ → K) (tx ty : K) : tangent9 x y tx ty =
    addP (smulP tx (hodo 9 8 1 x)) (smulP ty (hodo 9 8 1 y)) := by
  rw [hodo_9_8_1 x, hodo_9_8_1 y]
  simp only [tangent9, mulP, addP, smulP]
  refine List.cons_eq_cons.2 ⟨?_, List.cons_eq_cons.2 ⟨?_, List.cons_eq_cons.2 ⟨?_, List.cons_eq_cons.2 ⟨?_, List.cons_eq_cons.2 ⟨?_, List.cons_eq_cons.2 ⟨?_, List.cons_eq_cons.2 ⟨?_, List.cons_eq_cons.2 ⟨?_, List.cons_eq_cons.2 ⟨?_, rfl⟩⟩⟩⟩⟩⟩⟩⟩⟩
  · simp only [fwd1, fwd2, fwd3, fwd4, fwd5, fwd6, fwd7, fwd8, fwd9]; ring
  · simp only [fwd1, fwd2, fwd3, fwd4, fwd5, fwd6, fwd7, fwd8, fwd9]; ring
  · simp only [fwd1, fwd2, fwd3, fwd4, fwd5, fwd6, fwd7, fwd8, fwd9]; ring
  · simp only [fwd1, fwd2, fwd3, fwd4, fwd5, fwd6, fwd7, fwd8, fwd9]; ring
  · simp only [fwd1, fwd2, fwd3, fwd4, fwd5, fwd6, fwd7, fwd8, fwd9]; ring
  · simp only [fwd1, fwd2, fwd3, fwd4, fwd5, fwd6, fwd7, fwd8, fwd9]; ring
  · simp only [fwd1, fwd2, fwd3, fwd4, fwd5, fwd6, fwd7, fwd8, fwd9]; ring
  · simp only [fwd1, fwd2, fwd3, fwd4, fwd5, fwd6, fwd7, fwd8, fwd9]; ring
  · simp only [fwd1, fwd2, fwd3, fwd4, fwd5, fwd6, fwd7, fwd8, fwd9]; ring

theorem tangent10_eq (x y : ℕ → K) (tx ty : K) : tangent10 x y tx ty =
    addP (smulP tx (hodo 10 9 1 x)) (smulP ty (hodo 10 9 1 y)) := by
  rw [hodo_10_9_1 x, hodo_10_9_1 y]
  simp only [tangent10, mulP, addP, smulP]
  refine List.cons_eq_cons.2 ⟨?_, List.cons_eq_cons.2 ⟨?_, List.cons_eq_cons.2 ⟨?_, List.cons_eq_cons.2 ⟨?_, List.cons_eq_cons.2 ⟨?_, List.cons_eq_cons.2 ⟨?_, List.cons_eq_cons.2 ⟨?_, List.cons_eq_cons.2 ⟨?_, List.cons_eq_cons.2 ⟨?_, List.cons_eq_cons.2 ⟨?_, rfl⟩⟩⟩⟩⟩⟩⟩⟩⟩⟩
  · simp only [fwd1, fwd2, fwd3, fwd4, fwd5, fwd6, fwd7, fwd8, fwd9, fwd10]; ring
  · simp only [fwd1, fwd2, fwd3, fwd4, fwd5, fwd6, fwd7, fwd8, fwd9, fwd10]; ring
  · simp only [fwd1, fwd2, fwd3, fwd4, fwd5, fwd6, fwd7, fwd8, fwd9, fwd10]; ring
  · simp only [fwd1, fwd2, fwd3, fwd4, fwd5, fwd6, fwd7, fwd8, fwd9, fwd10]; ring
  · simp only [fwd1, fwd2, fwd3, fwd4, fwd5, fwd6, fwd7, fwd8, fwd9, fwd10]; ring
  · simp only [fwd1, fwd2, fwd3, fwd4, fwd5, fwd6, fwd7, fwd8, fwd9, fwd10]; ring
  · simp only [fwd1, fwd2, fwd3, fwd4, fwd5, fwd6, fwd7, fwd8, fwd9, fwd10]; ring
  · simp only [fwd1, fwd2, fwd3, fwd4, fwd5, fwd6, fwd7, fwd8, fwd9, fwd10]; ring
  · simp only [fwd1, fwd2, fwd3, fwd4, fwd5, fwd6, fwd7, fwd8, fwd9, fwd10]; ring
  · simp only [fwd1, fwd2, fwd3, fwd4, fwd5, fwd6, fwd7, fwd8, fwd9, fwd10]; ring

end Features
end NS
