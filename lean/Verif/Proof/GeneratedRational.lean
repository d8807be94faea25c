import Verif.Proof.PolyReflect

/-!
# The generated polynomials of rational Bezier curves

With `X = Σ B_j w_j x_j`, `Y = Σ B_j w_j y_j` and `W = Σ B_j w_j` the inflection polynomials are
`-W² det ((X, Y, W), (X', Y', W'), (X'', Y'', W''))`, the singularity polynomials are
`(X' W - X W')² + (Y' W - Y W')²`.  The identities are checked by computation on normal forms.
-/

namespace NS
namespace Features

open Finset

section

variable {K : Type} [CommRing K]

theorem fwd_congr {x x' : ℕ → K} {i : ℕ} (h : ∀ j ≤ i, x j = x' j) : fwd x i = fwd x' i := by
  refine sum_congr rfl fun j hj => ?_
  rw [h j (by have := mem_range.1 hj; omega)]

theorem hodo_congr {a n k : ℕ} {x x' : ℕ → K} (h : ∀ j ≤ n + k, x j = x' j) :
    hodo a n k x = hodo a n k x' := by
  refine List.map_congr_left fun i hi => ?_
  rw [fwd_congr fun j hj => h j (by have := List.mem_range.1 hi; omega)]

/-- The monomials of `w_j x_j`, `w_j y_j` and `w_j`. -/
def fX (j : ℕ) : ℕ := prime (11 + j) * prime (1 + j)
def fY (j : ℕ) : ℕ := prime (11 + j) * prime (6 + j)
def fW (j : ℕ) : ℕ := prime (11 + j)

theorem chi_fX (x y w : ℕ → K) {j : ℕ} (h : j ≤ 4) : chi (var x y w) (fX j) = w j * x j := by
  rw [fX, chi_mul, chi_prime _ (by omega) (by omega), chi_prime _ (by omega) (by omega)]
  interval_cases j <;> simp [var]

theorem chi_fY (x y w : ℕ → K) {j : ℕ} (h : j ≤ 4) : chi (var x y w) (fY j) = w j * y j := by
  rw [fY, chi_mul, chi_prime _ (by omega) (by omega), chi_prime _ (by omega) (by omega)]
  interval_cases j <;> simp [var]

theorem chi_fW (x y w : ℕ → K) {j : ℕ} (h : j ≤ 4) : chi (var x y w) (fW j) = w j := by
  rw [fW, chi_prime _ (by omega) (by omega)]
  interval_cases j <;> simp [var]

/-- Difference. -/
def subU (p q : UPoly) : UPoly := addU p (smulU [(1, -1)] q)

theorem evalP_addU (r : ℕ → K) (p q : UPoly) (t : K) :
    evalP (evalU r (addU p q)) t = evalP (evalU r p) t + evalP (evalU r q) t := by
  rw [evalU_addU, evalP_addP]

theorem evalP_mulU (r : ℕ → K) (p q : UPoly) (t : K) :
    evalP (evalU r (mulU p q)) t = evalP (evalU r p) t * evalP (evalU r q) t := by
  rw [evalU_mulU, evalP_mulP]

theorem evalP_subU (r : ℕ → K) (p q : UPoly) (t : K) :
    evalP (evalU r (subU p q)) t = evalP (evalU r p) t - evalP (evalU r q) t := by
  rw [subU, evalP_addU, evalU_smulU, evalP_smulP, evalPoly_cons, evalPoly_nil, chi_one]
  push_cast; ring

/-- `-W² det (H, H', H'')` in degree `n + 2`. -/
def inflU (n : ℕ) : UPoly :=
  let X := hodoU 1 (n + 2) 0 fX
  let Y := hodoU 1 (n + 2) 0 fY
  let W := hodoU 1 (n + 2) 0 fW
  let X1 := hodoU (n + 2) (n + 1) 1 fX
  let Y1 := hodoU (n + 2) (n + 1) 1 fY
  let W1 := hodoU (n + 2) (n + 1) 1 fW
  let X2 := hodoU ((n + 2) * (n + 1)) n 2 fX
  let Y2 := hodoU ((n + 2) * (n + 1)) n 2 fY
  let W2 := hodoU ((n + 2) * (n + 1)) n 2 fW
  mulU (mulU W W) (addU (mulU X (subU (mulU W1 Y2) (mulU Y1 W2)))
    (addU (mulU Y (subU (mulU X1 W2) (mulU W1 X2))) (mulU W (subU (mulU Y1 X2) (mulU X1 Y2)))))

/-- `(X' W - X W')² + (Y' W - Y W')²` in degree `n + 1`. -/
def singU (n : ℕ) : UPoly :=
  let X := hodoU 1 (n + 1) 0 fX
  let Y := hodoU 1 (n + 1) 0 fY
  let W := hodoU 1 (n + 1) 0 fW
  let X1 := hodoU (n + 1) n 1 fX
  let Y1 := hodoU (n + 1) n 1 fY
  let W1 := hodoU (n + 1) n 1 fW
  let A := subU (mulU X1 W) (mulU X W1)
  let B := subU (mulU Y1 W) (mulU Y W1)
  addU (mulU A A) (mulU B B)

theorem evalP_inflU (x y w : ℕ → K) {n : ℕ} (hn : n ≤ 2) (t : K) :
    evalP (evalU (var x y w) (inflU n)) t =
      let h (a m k : ℕ) (z : ℕ → K) : K := evalP (hodo a m k z) t
      let X := fun j => w j * x j
      let Y := fun j => w j * y j
      h 1 (n + 2) 0 w ^ 2 *
        (h 1 (n + 2) 0 X * (h (n + 2) (n + 1) 1 w * h ((n + 2) * (n + 1)) n 2 Y -
            h (n + 2) (n + 1) 1 Y * h ((n + 2) * (n + 1)) n 2 w) +
          (h 1 (n + 2) 0 Y * (h (n + 2) (n + 1) 1 X * h ((n + 2) * (n + 1)) n 2 w -
            h (n + 2) (n + 1) 1 w * h ((n + 2) * (n + 1)) n 2 X) +
          h 1 (n + 2) 0 w * (h (n + 2) (n + 1) 1 Y * h ((n + 2) * (n + 1)) n 2 X -
            h (n + 2) (n + 1) 1 X * h ((n + 2) * (n + 1)) n 2 Y))) := by
  have hX : ∀ a m k : ℕ, m + k ≤ 4 → evalU (var x y w) (hodoU a m k fX) =
      hodo a m k fun j => w j * x j := fun a m k h => by
    rw [evalU_hodoU]; exact hodo_congr fun j hj => chi_fX x y w (by omega)
  have hY : ∀ a m k : ℕ, m + k ≤ 4 → evalU (var x y w) (hodoU a m k fY) =
      hodo a m k fun j => w j * y j := fun a m k h => by
    rw [evalU_hodoU]; exact hodo_congr fun j hj => chi_fY x y w (by omega)
  have hW : ∀ a m k : ℕ, m + k ≤ 4 → evalU (var x y w) (hodoU a m k fW) =
      hodo a m k w := fun a m k h => by
    rw [evalU_hodoU]; exact hodo_congr fun j hj => chi_fW x y w (by omega)
  simp only [inflU, evalP_mulU, evalP_addU, evalP_subU]
  rw [hX _ _ _ (by omega), hX _ _ _ (by omega), hX _ _ _ (by omega), hY _ _ _ (by omega),
    hY _ _ _ (by omega), hY _ _ _ (by omega), hW _ _ _ (by omega), hW _ _ _ (by omega),
    hW _ _ _ (by omega)]
  ring

theorem evalP_singU (x y w : ℕ → K) {n : ℕ} (hn : n ≤ 3) (t : K) :
    evalP (evalU (var x y w) (singU n)) t =
      let h (a m k : ℕ) (z : ℕ → K) : K := evalP (hodo a m k z) t
      let X := fun j => w j * x j
      let Y := fun j => w j * y j
      (h (n + 1) n 1 X * h 1 (n + 1) 0 w - h 1 (n + 1) 0 X * h (n + 1) n 1 w) ^ 2 +
        (h (n + 1) n 1 Y * h 1 (n + 1) 0 w - h 1 (n + 1) 0 Y * h (n + 1) n 1 w) ^ 2 := by
  have hX : ∀ a m k : ℕ, m + k ≤ 4 → evalU (var x y w) (hodoU a m k fX) =
      hodo a m k fun j => w j * x j := fun a m k h => by
    rw [evalU_hodoU]; exact hodo_congr fun j hj => chi_fX x y w (by omega)
  have hY : ∀ a m k : ℕ, m + k ≤ 4 → evalU (var x y w) (hodoU a m k fY) =
      hodo a m k fun j => w j * y j := fun a m k h => by
    rw [evalU_hodoU]; exact hodo_congr fun j hj => chi_fY x y w (by omega)
  have hW : ∀ a m k : ℕ, m + k ≤ 4 → evalU (var x y w) (hodoU a m k fW) =
      hodo a m k w := fun a m k h => by
    rw [evalU_hodoU]; exact hodo_congr fun j hj => chi_fW x y w (by omega)
  simp only [singU, evalP_mulU, evalP_addU, evalP_subU]
  rw [hX _ _ _ (by omega), hX _ _ _ (by omega), hY _ _ _ (by omega), hY _ _ _ (by omega),
    hW _ _ _ (by omega), hW _ _ _ (by omega)]
  ring

/-- Tables that agree with the normal form, up to vanishing leading coefficients. -/
theorem evalP_tables (x y w : ℕ → K) {L : List (List Term)} {u : UPoly} {z : ℕ}
    (hT : L.all Table = true)
    (h : beqU u (L.map ofTable ++ List.replicate z []) = true) (t : K) :
    evalP (L.map fun l => sum x y w l) t = evalP (evalU (var x y w) u) t := by
  rw [eq_of_beqU _ _ h]
  have : evalU (var x y w) (L.map ofTable ++ List.replicate z [])
      = (L.map fun l => sum x y w l) ++ List.replicate z 0 := by
    rw [evalU, List.map_append, List.map_map, List.map_replicate, evalPoly_nil]
    congr 1
    refine List.map_congr_left fun l hl => ?_
    rw [Function.comp_apply, evalPoly_ofTable x y w l (List.all_eq_true.1 hT l hl)]
  rw [this]
  exact (evalP_append_zero _ _ _).symm

theorem ratInflection2_eq (x y w : ℕ → K) (t : K) :
    evalP (ratInflection2 x y w) t = evalP (evalU (var x y w) (inflU 0)) t :=
  evalP_tables x y w (L := [ratInflection2_0, ratInflection2_1, ratInflection2_2, ratInflection2_3,
      ratInflection2_4])
    (z := 3) (by decide +kernel) (by decide +kernel) t

theorem ratInflection3_eq (x y w : ℕ → K) (t : K) :
    evalP (ratInflection3 x y w) t = evalP (evalU (var x y w) (inflU 1)) t :=
  evalP_tables x y w (L := [ratInflection3_0, ratInflection3_1, ratInflection3_2, ratInflection3_3,
      ratInflection3_4, ratInflection3_5, ratInflection3_6, ratInflection3_7,
      ratInflection3_8, ratInflection3_9])
    (z := 3) (by decide +kernel) (by decide +kernel) t

theorem ratInflection4_eq (x y w : ℕ → K) (t : K) :
    evalP (ratInflection4 x y w) t = evalP (evalU (var x y w) (inflU 2)) t :=
  evalP_tables x y w (L := [ratInflection4_0, ratInflection4_1, ratInflection4_2, ratInflection4_3,
      ratInflection4_4, ratInflection4_5, ratInflection4_6, ratInflection4_7,
      ratInflection4_8, ratInflection4_9, ratInflection4_10, ratInflection4_11,
      ratInflection4_12, ratInflection4_13, ratInflection4_14])
    (z := 3) (by decide +kernel) (by decide +kernel) t

theorem ratSingularity2_eq (x y w : ℕ → K) (t : K) :
    evalP (ratSingularity2 x y w) t = evalP (evalU (var x y w) (singU 1)) t :=
  evalP_tables x y w (L := [ratSingularity2_0, ratSingularity2_1, ratSingularity2_2, ratSingularity2_3,
      ratSingularity2_4])
    (z := 2) (by decide +kernel) (by decide +kernel) t

theorem ratSingularity3_eq (x y w : ℕ → K) (t : K) :
    evalP (ratSingularity3 x y w) t = evalP (evalU (var x y w) (singU 2)) t :=
  evalP_tables x y w (L := [ratSingularity3_0, ratSingularity3_1, ratSingularity3_2, ratSingularity3_3,
      ratSingularity3_4, ratSingularity3_5, ratSingularity3_6, ratSingularity3_7,
      ratSingularity3_8])
    (z := 2) (by decide +kernel) (by decide +kernel) t

end

end Features
end NS
