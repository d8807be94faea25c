import Verif.Props.Ieee
import Verif.Proof.IeeeSearch
import Verif.Spec.Geom

/-!
# Exact arithmetic with a large range: helper lemmas

A format without rounding errors, and statements that hold as soon as its range is large enough.
-/

set_option linter.unusedSectionVars false

namespace NS.Ieee

open Outcome Geom

variable {K ι : Type} [Field K] [LinearOrder K] [IsStrictOrderedRing K] [FloorRing K]

/-- The format with all numbers up to `b`. -/
def exactFormat (b : K) (hb : 1 ≤ b) : Format K where
  rnd x := x
  unit := 0
  eta := 0
  big := b
  unit_nonneg := le_rfl
  eta_nonneg := le_rfl
  near x := by simp
  sum_near x y _ _ := by simp
  mono _ _ h := h
  odd _ := rfl
  idem _ := rfl
  one := rfl
  big_float := rfl
  one_le_big := hb

/-- `P` holds in every exact format whose range is large enough. -/
def Eventually (P : Format K → Prop) : Prop := ∃ B, ∀ b hb, B ≤ b → P (exactFormat b hb)

namespace Eventually

theorem of {P : Format K → Prop} (h : ∀ A, P A) : Eventually P := ⟨0, fun _ _ _ => h _⟩

theorem mono {P Q : Format K → Prop} (h : Eventually P)
    (hPQ : ∀ b hb, P (exactFormat b hb) → Q (exactFormat b hb)) : Eventually Q := by
  obtain ⟨B, hB⟩ := h
  exact ⟨B, fun b hb h => hPQ _ _ (hB b hb h)⟩

theorem and {P Q : Format K → Prop} (h : Eventually P) (h' : Eventually Q) :
    Eventually fun A => P A ∧ Q A := by
  obtain ⟨B, hB⟩ := h
  obtain ⟨C, hC⟩ := h'
  exact ⟨max B C, fun b hb h => ⟨hB b hb ((le_max_left _ _).trans h),
    hC b hb ((le_max_right _ _).trans h)⟩⟩

theorem le (x : K) : Eventually fun A : Format K => x ≤ A.big := ⟨x, fun _ _ h => h⟩

theorem lt (x : K) : Eventually fun A : Format K => x < A.big :=
  ⟨x + 1, fun b _ h => by change x < b; linarith⟩

theorem round (x : K) : Eventually fun A : Format K => A.round (.fin x) = .fin x :=
  (le |x|).mono fun _ _ h => if_pos h

theorem sub (x y : K) : Eventually fun A : Format K => A.sub (.fin x) (.fin y) = .fin (x - y) :=
  (round (x - y)).mono fun _ _ h => by rw [Format.sub_fin_fin, h]

theorem compl (x : K) : Eventually fun A : Format K => A.compl (.fin x) = .fin (1 - x) :=
  (sub 1 x).mono fun _ _ h => h

theorem forall_mem {α : Type} {P : α → Format K → Prop} (l : List α) (h : ∀ a, Eventually (P a)) :
    Eventually fun A => ∀ a ∈ l, P a A := by
  induction l with
  | nil => exact of fun _ a h => by simp at h
  | cons a l ih =>
    refine ((h a).and ih).mono fun b hb h a' ha => ?_
    rcases List.mem_cons.1 ha with rfl | ha
    · exact h.1
    · exact h.2 _ ha

theorem all [Fintype ι] {P : ι → Format K → Prop} (h : ∀ i, Eventually (P i)) :
    Eventually fun A => ∀ i, P i A := by
  have := forall_mem (Finset.univ : Finset ι).toList h
  exact this.mono fun _ _ h i => h i (by simp)

theorem combine (s a r b : K) : Eventually fun A : Format K => ∀ f,
    A.combine f (.fin s) (.fin a) (.fin r) (.fin b) = .fin (s * a + r * b) := by
  refine ((round (s * a)).and ((round (r * b)).and (round (s * a + r * b)))).mono ?_
  rintro b' hb ⟨h1, h2, h3⟩ f
  cases f <;> simp only [Format.combine, Num.mul, h1, h2, Num.add, h3]

theorem div (x : K) {y : K} (hy : y ≠ 0) : Eventually fun A : Format K =>
    A.round (Num.div (.fin x) (.fin y)) = .fin (x / y) :=
  (round (x / y)).mono fun _ _ h => by rw [Num.div, if_neg hy, h]

theorem mul (x y : K) : Eventually fun A : Format K =>
    A.round (Num.mul (.fin x) (.fin y)) = .fin (x * y) := round _

theorem add (x y : K) : Eventually fun A : Format K =>
    A.round (Num.add (.fin x) (.fin y)) = .fin (x + y) := round _

end Eventually

/-- In every exact format with a large enough range, `f` computes the image under `e` of the outcome
of `g`, which does not depend on the range any more. -/
def Settles {α β : Type} (e : β → α) (f : Format K → Outcome α) (g : Format K → Outcome β) : Prop :=
  ∃ r : Outcome β, Eventually fun A => f A = e <$> r ∧ g A = r

theorem map_bind {α β γ : Type} (e : β → α) (r : Outcome β) (F : α → Outcome γ) :
    (e <$> r >>= F) = r >>= fun x => F (e x) := by
  cases r <;> rfl

namespace Settles

variable {α β γ δ : Type} {e : β → α} {e' : δ → γ}

theorem ok' {f : Format K → Outcome α} (y : β) (h : Eventually fun A => f A = ok (e y)) :
    Settles e f fun _ => ok y := ⟨ok y, h.mono fun _ _ h => ⟨h, rfl⟩⟩

theorem const (e : β → α) (r : Outcome β) : Settles (K := K) e (fun _ => e <$> r) fun _ => r :=
  ⟨r, .of fun _ => ⟨rfl, rfl⟩⟩

theorem bind {f : Format K → Outcome α} {g : Format K → Outcome β} (h : Settles e f g)
    {F : Format K → α → Outcome γ} {G : Format K → β → Outcome δ}
    (hF : ∀ y, Settles e' (fun A => F A (e y)) (fun A => G A y)) :
    Settles e' (fun A => f A >>= F A) (fun A => g A >>= G A) := by
  obtain ⟨r, hr⟩ := h
  cases r with
  | ok y =>
    obtain ⟨r', hr'⟩ := hF y
    refine ⟨r', (hr.and hr').mono ?_⟩
    rintro b hb ⟨⟨h1, h2⟩, h3, h4⟩
    constructor
    · beta_reduce; rw [h1]; exact h3
    · beta_reduce; rw [h2]; exact h4
  | throw err => exact ⟨throw err, hr.mono fun b hb h => by
      beta_reduce; rw [h.1, h.2]; exact ⟨rfl, rfl⟩⟩
  | ub => exact ⟨ub, hr.mono fun b hb h => by
      beta_reduce; rw [h.1, h.2]; exact ⟨rfl, rfl⟩⟩

theorem congr {f f' : Format K → Outcome α} {g g' : Format K → Outcome β} (h : Settles e f' g')
    (hf : Eventually fun A => f A = f' A ∧ g A = g' A) : Settles e f g := by
  obtain ⟨r, hr⟩ := h
  refine ⟨r, (hr.and hf).mono ?_⟩
  rintro b hb ⟨⟨h1, h2⟩, h3, h4⟩
  exact ⟨Eq.trans h3 h1, Eq.trans h4 h2⟩

theorem loop {F : Format K → ℕ → α → Outcome α} {G : Format K → ℕ → β → Outcome β}
    (h : ∀ i y, Settles e (fun A => F A i (e y)) (fun A => G A i y)) (n : ℕ) (y : β) :
    Settles e (fun A => NS.loop n (F A) (e y)) (fun A => NS.loop n (G A) y) := by
  induction n with
  | zero => exact const e (ok y)
  | succ n ih => exact ih.bind fun z => h n z

theorem forUp {F : Format K → ℕ → α → Outcome α} {G : Format K → ℕ → β → Outcome β}
    (h : ∀ i y, Settles e (fun A => F A i (e y)) (fun A => G A i y)) (lo hi : ℕ) (y : β) :
    Settles e (fun A => NS.forUp lo hi (F A) (e y)) (fun A => NS.forUp lo hi (G A) y) :=
  loop (fun i y => h (lo + i) y) _ _

theorem forDown {F : Format K → ℕ → α → Outcome α} {G : Format K → ℕ → β → Outcome β}
    (h : ∀ i y, Settles e (fun A => F A i (e y)) (fun A => G A i y)) (hi lo : ℕ) (y : β) :
    Settles e (fun A => NS.forDown hi lo (F A) (e y)) (fun A => NS.forDown hi lo (G A) y) :=
  loop (fun i y => h (hi - i) y) _ _

theorem tab {F : Format K → ℕ → Outcome α} {G : Format K → ℕ → Outcome β}
    (h : ∀ i, Settles e (fun A => F A i) (fun A => G A i)) (n : ℕ) :
    Settles (List.map e) (fun A => NS.tab n (F A)) (fun A => NS.tab n (G A)) := by
  induction n with
  | zero => exact const (List.map e) (ok [])
  | succ n ih =>
    refine ih.bind fun l => (h n).bind fun a => ⟨ok (l ++ [a]), .of fun _ => ⟨?_, rfl⟩⟩
    rw [map_ok, List.map_append]
    rfl

theorem self (r : Outcome β) : Settles (K := K) id (fun _ => r) fun _ => r :=
  ⟨r, .of fun _ => ⟨by cases r <;> rfl, rfl⟩⟩

/-- The result for a given outcome of the reference. -/
theorem result {f : Format K → Outcome α} {r : Outcome β} (h : Settles e f fun _ => r) :
    Eventually fun A => f A = e <$> r := by
  obtain ⟨r', h⟩ := h
  have : r = r' := by
    obtain ⟨B, hB⟩ := h
    exact (hB (max B 1) (le_max_right _ _) (le_max_left _ _)).2
  subst this
  exact h.mono fun _ _ h => h.1

theorem rd (e : β → α) (l : List β) (i : ℕ) :
    Settles (K := K) e (fun _ => NS.rd (l.map e) i) fun _ => NS.rd l i := by
  refine ⟨NS.rd l i, .of fun _ => ⟨?_, rfl⟩⟩
  unfold NS.rd
  rw [List.getElem?_map]
  cases l[i]? <;> rfl

theorem rdI (e : β → α) (l : List β) (i : ℤ) :
    Settles (K := K) e (fun _ => NS.rdI (l.map e) i) fun _ => NS.rdI l i := by
  unfold NS.rdI
  split_ifs
  · exact ⟨ub, .of fun _ => ⟨rfl, rfl⟩⟩
  · exact rd e l _

theorem wr (l : List β) (i : ℕ) {x : Format K → α} {y : β}
    (h : Eventually fun A => x A = e y) :
    Settles (List.map e) (fun A => NS.wr (l.map e) i (x A)) fun _ => NS.wr l i y := by
  refine ⟨NS.wr l i y, h.mono fun b hb h => ⟨?_, rfl⟩⟩
  unfold NS.wr
  rw [List.length_map]
  split_ifs
  · beta_reduce
    rw [map_ok, h, ← List.map_set]
  · rfl

theorem assert {P : Format K → Prop} [∀ A, Decidable (P A)] {Q : Prop} [Decidable Q]
    (h : Eventually fun A => (P A ↔ Q)) :
    Settles id (fun A => Outcome.assert (P A)) fun _ => Outcome.assert Q := by
  refine ⟨Outcome.assert Q, h.mono fun b hb h => ⟨?_, rfl⟩⟩
  beta_reduce
  unfold Outcome.assert
  by_cases hQ : Q
  · rw [if_pos (h.2 hQ), if_pos hQ]; rfl
  · rw [if_neg (mt h.1 hQ), if_neg hQ]; rfl

end Settles

end NS.Ieee
