import Verif.Props.IeeeSigns
import Mathlib.Order.WithBotTop

/-!
# C104, C105: comparisons of infinities, and the sign of the error in the search

Comparisons against the extended line `WithBot (WithTop K)`; the iteration of the search looks at the size of the
error only.
-/

set_option linter.unusedSectionVars false

namespace NS.Ieee

open Outcome

variable {K ι : Type} [Field K] [LinearOrder K] [IsStrictOrderedRing K] [FloorRing K]

/-- The extended number of a datum that is not NaN. -/
def line : Num K → Option (WithBot (WithTop K))
  | .fin x => some ((x : WithTop K) : WithBot (WithTop K))
  | .inf true => some ⊥
  | .inf false => some ((⊤ : WithTop K) : WithBot (WithTop K))
  | .nan => none

/-- **C104** (comparisons): `<=` and `<` are those of the extended line and false for NaN. -/
theorem C104_order (a b : Num K) :
    (a.le b = true ↔ ∃ x y, line a = some x ∧ line b = some y ∧ x ≤ y) ∧
    (a.lt b = true ↔ ∃ x y, line a = some x ∧ line b = some y ∧ x < y) := by
  rcases a with x | (_ | _) | _ <;> rcases b with y | (_ | _) | _ <;> simp [Num.le, Num.lt, line]
  exact WithBot.coe_lt_coe.2 (WithTop.coe_lt_top _)

example : Num.le (.inf true : Num ℚ) (.inf true) = true ∧ Num.lt (.inf true : Num ℚ) (.inf false) = true ∧
    Num.le (.nan : Num ℚ) .nan = false := by
  refine ⟨((C104_order _ _).1).2 ⟨_, _, rfl, rfl, le_rfl⟩, ((C104_order _ _).2).2 ⟨_, _, rfl, rfl, ?_⟩, rfl⟩
  exact WithBot.bot_lt_coe _

/-- **C105** (the error): the iteration on curves depends on the size of the error only, infinite errors included. -/
theorem C105_error_sign (A : Format K) (g g' : Num K → Outcome (Num K × Num K)) (tol lower upper : Num K)
    (h : ∀ t, g' t = g t ∨ ∃ e s, g t = ok (e, s) ∧ g' t = ok (Num.neg e, s)) (n : ℕ) (t prevT prevErr : Num K) :
    newtonCurve A g' tol lower upper n t prevT prevErr = newtonCurve A g tol lower upper n t prevT prevErr := by
  have ha : ∀ e : Num K, (Num.neg e).abs = e.abs := by
    rintro (x | (_ | _) | _) <;> simp [Num.neg, Num.abs]
  induction n generalizing t prevT prevErr with
  | zero => rfl
  | succ n ih =>
    rcases h t with e | ⟨x, s, e, e'⟩
    · simp only [newtonCurve, e, ih]
    · simp only [newtonCurve, e, e', ok_bind, ha, ih]

/-- Reflecting the error at the parameters below a third. -/
example (A : Format ℚ) := C105_error_sign A (fun t => ok (t, .fin (1 / 3)))
  (fun t => ok (if t.lt (.fin (1 / 3)) then Num.neg t else t, .fin (1 / 3))) (.fin (1 / 1000)) (.fin 0) (.fin 1) (by
    intro t
    by_cases h : t.lt (.fin (1 / 3)) = true
    · exact Or.inr ⟨_, _, rfl, by simp only [h, if_true]⟩
    · exact Or.inl (by simp only [h]; rfl)) 10 (.fin (1 / 4)) (.fin (1 / 4)) (.fin (-1))

/-- **C105** (the error): an error of minus infinity is not small. -/
theorem C105_infinite_error (A : Format K) (g : Num K → Outcome (Num K × Num K)) {tol : Num K} (lower upper : Num K)
    {t : Num K} {s : Bool} {d : Num K} (h : g t = ok (.inf s, d)) (n : ℕ) (prevT : Num K) {e : K} (he : e ≤ 0) :
    newtonCurve A g tol lower upper (n + 1) t prevT (.fin e) =
      if (A.sub t d).le lower then ok lower else if upper.le (A.sub t d) then ok upper
      else newtonCurve A g tol lower upper n (A.sub t d) t (.inf false) := by
  have h1 : (Num.inf false : Num K).lt tol = false := by
    rcases tol with x | (_ | _) | _ <;> simp [Num.lt]
  have h2 : Num.lt (.fin 0) (.fin e) = false := by simp [Num.lt, he]
  simp only [newtonCurve, h, ok_bind, Num.abs, h1, h2, Bool.false_and, Bool.false_eq_true, if_false]

example (A : Format ℚ) := C105_infinite_error A (fun _ => ok (.inf true, .fin (1 / 4))) (tol := .fin (1 / 1000))
  (.fin 0) (.fin 1) (t := .fin (1 / 2)) rfl 9 (.fin (1 / 2)) (e := -1) (by norm_num)

end NS.Ieee
