import Mathlib.Data.Nat.Factorization.Basic
import Mathlib.Tactic.Ring
import Mathlib.Tactic.IntervalCases
import Mathlib.Tactic.NormNum.Prime
import Verif.Proof.PowerBasis
import Verif.Model.GeneratedRational

/-!
# Deciding polynomial identities by computation

Polynomials with integer coefficients are lists of pairs of a monomial and a coefficient, a monomial being the
product of the primes standing for its variables.
-/

namespace NS
namespace Features

open Finset

variable {K : Type} [CommRing K]

/-- The prime of a digit. -/
def prime (d : ℕ) : ℕ := [1, 2, 3, 5, 7, 11, 13, 17, 19, 23, 29, 31, 37, 41, 43, 47].getD d 1

/-- The digit of a prime. -/
def digit (p : ℕ) : ℕ := [1, 2, 3, 5, 7, 11, 13, 17, 19, 23, 29, 31, 37, 41, 43, 47].idxOf p

/-- The monomial of a number under a valuation of the digits. -/
noncomputable def chi (r : ℕ → K) (k : ℕ) : K :=
  if k = 0 then 0 else k.factorization.prod fun p e => r (digit p) ^ e

theorem chi_mul (r : ℕ → K) (a b : ℕ) : chi r (a * b) = chi r a * chi r b := by
  unfold chi
  by_cases ha : a = 0
  · simp [ha]
  by_cases hb : b = 0
  · simp [hb]
  rw [if_neg (Nat.mul_ne_zero ha hb), if_neg ha, if_neg hb, Nat.factorization_mul ha hb,
    Finsupp.prod_add_index']
  · intro p; simp
  · intro p m n; exact pow_add _ _ _

theorem chi_one (r : ℕ → K) : chi r 1 = 1 := by
  simp [chi]

theorem chi_prime (r : ℕ → K) {d : ℕ} (h0 : 0 < d) (h : d < 16) : chi r (prime d) = r d := by
  have hp : (prime d).Prime := by
    interval_cases d <;> (unfold prime; norm_num)
  have hd : digit (prime d) = d := by
    interval_cases d <;> decide
  unfold chi
  rw [if_neg hp.ne_zero, hp.factorization, Finsupp.prod_single_index (by simp), hd, pow_one]

/-- Polynomials. -/
abbrev Poly := List (ℕ × ℤ)

noncomputable def evalPoly (r : ℕ → K) (p : Poly) : K :=
  (p.map fun m => (m.2 : K) * chi r m.1).sum

@[simp] theorem evalPoly_nil (r : ℕ → K) : evalPoly r [] = 0 := rfl
@[simp] theorem evalPoly_cons (r : ℕ → K) (m : ℕ × ℤ) (p : Poly) :
    evalPoly r (m :: p) = (m.2 : K) * chi r m.1 + evalPoly r p := by
  simp [evalPoly]

/-- Prepend unless zero. -/
def cons' (k : ℕ) (a : ℤ) (p : Poly) : Poly := bif a == 0 then p else (k, a) :: p

theorem evalPoly_cons' (r : ℕ → K) (k : ℕ) (a : ℤ) (p : Poly) :
    evalPoly r (cons' k a p) = (a : K) * chi r k + evalPoly r p := by
  unfold cons'
  by_cases h : a = 0
  · simp [h]
  · rw [show (a == 0) = false by simpa using h]; simp

def mergeAux (k : ℕ) (a : ℤ) (f : Poly → Poly) : Poly → Poly
  | [] => (k, a) :: f []
  | (l, b) :: q =>
    bif Nat.blt k l then (k, a) :: f ((l, b) :: q)
    else bif Nat.blt l k then (l, b) :: mergeAux k a f q
    else cons' k (a + b) (f q)

/-- Sum. -/
def merge : Poly → Poly → Poly
  | [] => fun q => q
  | (k, a) :: p => mergeAux k a (merge p)

theorem evalPoly_merge (r : ℕ → K) : ∀ p q : Poly,
    evalPoly r (merge p q) = evalPoly r p + evalPoly r q
  | [], q => by simp [merge]
  | (k, a) :: p, q => by
    have ih := evalPoly_merge r p
    rw [merge]
    induction q with
    | nil => rw [mergeAux, evalPoly_cons, ih]; simp
    | cons m q ihq =>
      obtain ⟨l, b⟩ := m
      rw [mergeAux]
      rcases Nat.lt_trichotomy k l with h | h | h
      · rw [show Nat.blt k l = true by simpa using h, cond_true, evalPoly_cons, ih]
        simp only [evalPoly_cons]; ring
      · subst h
        rw [show Nat.blt k k = false by rw [Bool.eq_false_iff, ne_eq, Nat.blt_eq]; omega, cond_false, cond_false,
          evalPoly_cons', ih]
        simp only [evalPoly_cons]; push_cast; ring
      · rw [show Nat.blt k l = false by rw [Bool.eq_false_iff, ne_eq, Nat.blt_eq]; omega,
          show Nat.blt l k = true by simpa using h, cond_false, cond_true, evalPoly_cons, ihq]
        simp only [evalPoly_cons]; ring

/-- Product with a monomial. -/
def mulMono (k : ℕ) (a : ℤ) : Poly → Poly
  | [] => []
  | (l, b) :: q => cons' (k * l) (a * b) (mulMono k a q)

theorem evalPoly_mulMono (r : ℕ → K) (k : ℕ) (a : ℤ) : ∀ p : Poly,
    evalPoly r (mulMono k a p) = (a : K) * chi r k * evalPoly r p
  | [] => by simp [mulMono]
  | (l, b) :: q => by
    rw [mulMono, evalPoly_cons', evalPoly_mulMono r k a q, evalPoly_cons, chi_mul]
    push_cast; ring

/-- Product. -/
def mulPoly : Poly → Poly → Poly
  | [], _ => []
  | (k, a) :: p, q => merge (mulMono k a q) (mulPoly p q)

theorem evalPoly_mulPoly (r : ℕ → K) : ∀ p q : Poly,
    evalPoly r (mulPoly p q) = evalPoly r p * evalPoly r q
  | [], q => by simp [mulPoly]
  | (k, a) :: p, q => by
    rw [mulPoly, evalPoly_merge, evalPoly_mulMono, evalPoly_mulPoly r p q, evalPoly_cons]; ring

/-- Polynomials in `t`, lowest power first. -/
abbrev UPoly := List Poly

noncomputable def evalU (r : ℕ → K) (p : UPoly) : List K := p.map (evalPoly r)

def addU : UPoly → UPoly → UPoly
  | [], q => q
  | p, [] => p
  | a :: p, b :: q => merge a b :: addU p q

def smulU (a : Poly) : UPoly → UPoly
  | [] => []
  | b :: q => mulPoly a b :: smulU a q

def mulU : UPoly → UPoly → UPoly
  | [], _ => []
  | a :: p, q => addU (smulU a q) ([] :: mulU p q)

theorem evalU_addU (r : ℕ → K) : ∀ p q : UPoly, evalU r (addU p q) = addP (evalU r p) (evalU r q)
  | [], q => by simp [addU, addP, evalU]
  | a :: p, [] => by simp [addU, addP, evalU]
  | a :: p, b :: q => by
    have := evalU_addU r p q
    simp only [evalU] at this
    simp [addU, addP, evalU, this, evalPoly_merge]

theorem evalU_smulU (r : ℕ → K) (a : Poly) : ∀ p : UPoly,
    evalU r (smulU a p) = smulP (evalPoly r a) (evalU r p)
  | [] => by simp [smulU, smulP, evalU]
  | b :: q => by
    have := evalU_smulU r a q
    simp only [evalU] at this
    simp [smulU, smulP, evalU, this, evalPoly_mulPoly]

theorem evalU_mulU (r : ℕ → K) : ∀ p q : UPoly, evalU r (mulU p q) = mulP (evalU r p) (evalU r q)
  | [], q => by simp [mulU, mulP, evalU]
  | a :: p, q => by
    have h := evalU_mulU r p q
    rw [mulU, evalU_addU, evalU_smulU]
    simp only [evalU, List.map_cons, evalPoly_nil] at h ⊢
    rw [mulP, h]

/-- The forward differences of the variables `f 0, f 1, ...`. -/
def fwdPoly (f : ℕ → ℕ) (i : ℕ) : Poly :=
  (List.range (i + 1)).foldr (fun j p =>
    merge [(f j, if (i - j) % 2 = 0 then (i.choose j : ℤ) else -(i.choose j : ℤ))] p) []

theorem evalPoly_fwdPoly (r : ℕ → K) (f : ℕ → ℕ) (i : ℕ) :
    evalPoly r (fwdPoly f i) = fwd (fun j => chi r (f j)) i := by
  have h : ∀ l : List ℕ, evalPoly r (l.foldr (fun j p =>
      merge [(f j, if (i - j) % 2 = 0 then (i.choose j : ℤ) else -(i.choose j : ℤ))] p) [])
      = (l.map fun j => (-1) ^ (i - j) * (i.choose j : K) * chi r (f j)).sum := by
    intro l
    induction l with
    | nil => simp
    | cons j l ih =>
      rw [List.foldr_cons, evalPoly_merge, ih, List.map_cons, List.sum_cons]
      congr 1
      rw [evalPoly_cons, evalPoly_nil, add_zero]
      congr 1
      by_cases hj : (i - j) % 2 = 0
      · rw [if_pos hj, Even.neg_one_pow (Nat.even_iff.2 hj)]; simp
      · rw [if_neg hj, Odd.neg_one_pow (Nat.odd_iff.2 (by omega))]; simp
  rw [fwdPoly, h, fwd]
  rfl

/-- `hodo` on variables. -/
def hodoU (a n k : ℕ) (f : ℕ → ℕ) : UPoly :=
  (List.range (n + 1)).map fun i => mulMono 1 ((a * n.choose i : ℕ) : ℤ) (fwdPoly f (i + k))

theorem evalU_hodoU (r : ℕ → K) (a n k : ℕ) (f : ℕ → ℕ) :
    evalU r (hodoU a n k f) = hodo a n k (fun j => chi r (f j)) := by
  unfold evalU hodoU hodo
  rw [List.map_map]
  refine List.map_congr_left fun i _ => ?_
  rw [Function.comp_apply, evalPoly_mulMono, evalPoly_fwdPoly, chi_one]
  push_cast; ring

/-! ### Tables -/

/-- The monomial of a table entry. -/
def key (v : ℕ) : ℕ := (digits 8 v).foldr (fun d k => prime d * k) 1

/-- Sum of a list of polynomials, in rounds of pairwise sums. -/
def pairs : List Poly → List Poly
  | p :: q :: l => merge p q :: pairs l
  | l => l

def mergeAll : ℕ → List Poly → Poly
  | 0, l => l.foldr merge []
  | _ + 1, [p] => p
  | n + 1, l => mergeAll n (pairs l)

theorem evalPoly_foldr (r : ℕ → K) : ∀ l : List Poly,
    evalPoly r (l.foldr merge []) = (l.map (evalPoly r)).sum
  | [] => by simp
  | p :: l => by rw [List.foldr_cons, evalPoly_merge, evalPoly_foldr r l]; simp

theorem evalPoly_pairs (r : ℕ → K) : ∀ l : List Poly,
    ((pairs l).map (evalPoly r)).sum = (l.map (evalPoly r)).sum
  | [] => by simp [pairs]
  | [p] => by simp [pairs]
  | p :: q :: l => by
    rw [pairs, List.map_cons, List.sum_cons, evalPoly_pairs r l, evalPoly_merge]
    simp [add_assoc]

theorem evalPoly_mergeAll (r : ℕ → K) : ∀ (n : ℕ) (l : List Poly),
    evalPoly r (mergeAll n l) = (l.map (evalPoly r)).sum
  | 0, l => by rw [mergeAll, evalPoly_foldr]
  | n + 1, [] => by rw [mergeAll, evalPoly_mergeAll r n, evalPoly_pairs]; simp
  | n + 1, [p] => by simp [mergeAll]
  | n + 1, p :: q :: l => by rw [mergeAll, evalPoly_mergeAll r n, evalPoly_pairs]; simp

/-- A table as a polynomial. -/
def ofTable (l : List Term) : Poly := mergeAll 12 (l.map fun m => [(key m.v, m.c)])

theorem digits_lt : ∀ (f v : ℕ), ∀ d ∈ digits f v, d < 16
  | 0, _, d, h => by simp [digits] at h
  | f + 1, v, d, h => by
    rw [digits] at h
    split at h
    · simp at h
    · rcases List.mem_cons.1 h with rfl | h
      · exact Nat.mod_lt _ (by omega)
      · exact digits_lt f _ d h

/-- No digit of the table is zero. -/
def Table (l : List Term) : Bool := l.all fun m => (digits 8 m.v).all fun d => Nat.blt 0 d

theorem evalPoly_ofTable (x y w : ℕ → K) (l : List Term) (h : Table l = true) :
    evalPoly (var x y w) (ofTable l) = sum x y w l := by
  rw [ofTable, evalPoly_mergeAll, List.map_map, sum]
  congr 1
  refine List.map_congr_left fun m hm => ?_
  have hm := List.all_eq_true.1 h m hm
  have hk : ∀ ds : List ℕ, (∀ d ∈ ds, 0 < d ∧ d < 16) →
      chi (var x y w) (ds.foldr (fun d k => prime d * k) 1) = (ds.map (var x y w)).prod := by
    intro ds
    induction ds with
    | nil => intro _; simp [chi_one]
    | cons d ds ih =>
      intro hd
      obtain ⟨h0, h1⟩ := hd d (List.mem_cons_self)
      rw [List.foldr_cons, chi_mul, ih fun e he => hd e (List.mem_cons_of_mem _ he),
        chi_prime _ h0 h1, List.map_cons, List.prod_cons]
  rw [Function.comp_apply, evalPoly_cons, evalPoly_nil, add_zero, key, hk]
  intro d hd
  refine ⟨?_, digits_lt 8 _ d hd⟩
  have := List.all_eq_true.1 hm d hd
  simpa using this

/-- Equality of polynomials, by comparing normal forms. -/
def beqPoly : Poly → Poly → Bool
  | [], [] => true
  | (k, a) :: p, (l, b) :: q => Nat.beq k l && (a == b) && beqPoly p q
  | _, _ => false

theorem eq_of_beqPoly : ∀ p q : Poly, beqPoly p q = true → p = q
  | [], [], _ => rfl
  | [], _ :: _, h => by simp [beqPoly] at h
  | _ :: _, [], h => by simp [beqPoly] at h
  | (k, a) :: p, (l, b) :: q, h => by
    rw [beqPoly, Bool.and_eq_true, Bool.and_eq_true] at h
    rw [Nat.eq_of_beq_eq_true h.1.1, eq_of_beq h.1.2, eq_of_beqPoly p q h.2]

def beqU : UPoly → UPoly → Bool
  | [], [] => true
  | p :: u, q :: v => beqPoly p q && beqU u v
  | _, _ => false

theorem eq_of_beqU : ∀ p q : UPoly, beqU p q = true → p = q
  | [], [], _ => rfl
  | [], _ :: _, h => by simp [beqU] at h
  | _ :: _, [], h => by simp [beqU] at h
  | p :: u, q :: v, h => by
    rw [beqU, Bool.and_eq_true] at h
    rw [eq_of_beqPoly p q h.1, eq_of_beqU u v h.2]

end Features
end NS
