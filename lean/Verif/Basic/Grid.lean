import Mathlib.Data.Nat.Notation
import Mathlib.Tactic.Ring
import Verif.Basic.Outcome

/-!
# Tables and grids

`tab` models loops that push one element per round (or fill the rows of a fresh matrix in order);
`copyTo` copies a list into given rows of a grid.
-/

namespace NS

open Outcome

/-- `for (i = 0; i < n; i++) out.push_back(f(i));` -/
def tab {α : Type} : ℕ → (ℕ → Outcome α) → Outcome (List α)
  | 0, _ => ok []
  | n + 1, f => do
    let l ← tab n f
    let a ← f n
    pure (l ++ [a])

/-- `for (k = 0; k < n; k++) g.row(idx(k)) = src.row(k);` -/
def copyTo {α : Type} (n : ℕ) (idx : ℕ → ℕ) (src : List α) (g : List α) : Outcome (List α) :=
  loop n (fun k g => do
    let x ← rd src k
    wr g (idx k) x) g

/-- `for (i < m) for (j < n) g.row(idx(i, j)) = f(i, j);` -/
def fill {α : Type} (m n : ℕ) (idx : ℕ → ℕ → ℕ) (f : ℕ → ℕ → Outcome α) (g : List α) :
    Outcome (List α) :=
  loop m (fun i g => loop n (fun j g => do
    let x ← f i j
    wr g (idx i j) x) g) g

theorem tab_eq {α : Type} {n : ℕ} {f : ℕ → Outcome α} {g : ℕ → α} (h : ∀ i < n, f i = ok (g i)) :
    tab n f = ok (arr n g) := by
  induction n with
  | zero => rfl
  | succ n ih =>
    rw [tab, ih (fun i hi => h i (by omega)), ok_bind, h n (by omega), ok_bind]
    simp [arr, List.range_succ]

theorem tab_inv {α : Type} {n : ℕ} {f : ℕ → Outcome α} {l : List α} (h : tab n f = ok l) :
    l.length = n ∧ ∀ i < n, ∃ a, f i = ok a ∧ l[i]? = some a := by
  induction n generalizing l with
  | zero => cases h; simp
  | succ n ih =>
    rw [tab] at h
    obtain ⟨l', h1, h2⟩ := bind_eq_ok.1 h
    obtain ⟨a, h3, h4⟩ := bind_eq_ok.1 h2
    cases h4
    obtain ⟨e, H⟩ := ih h1
    refine ⟨by simp [e], fun i hi => ?_⟩
    rcases Nat.lt_succ_iff_lt_or_eq.mp hi with h' | h'
    · obtain ⟨b, hb, hb'⟩ := H i h'
      exact ⟨b, hb, by rw [List.getElem?_append_left (by omega), hb']⟩
    · subst h'
      exact ⟨a, h3, by rw [List.getElem?_append_right (by omega)]; simp [e]⟩

/-- Filling a row of positions: later positions and those outside stay. -/
theorem loop_wr_spec {α : Type} {n N : ℕ} {idx : ℕ → ℕ} {f : ℕ → Outcome α} {s : ℕ → α}
    (hf : ∀ k < n, f k = ok (s k)) (hidx : ∀ k < n, idx k < N)
    (hinj : ∀ a < n, ∀ b < n, idx a = idx b → a = b) {g : List α} (hg : g.length = N) :
    ∃ g', loop n (fun k g => do
        let x ← f k
        wr g (idx k) x) g = ok g' ∧ g'.length = N ∧
      (∀ k < n, g'[idx k]? = some (s k)) ∧
      ∀ r, (∀ k < n, r ≠ idx k) → g'[r]? = g[r]? := by
  induction n with
  | zero => exact ⟨g, rfl, hg, by simp, by simp⟩
  | succ n ih =>
    obtain ⟨g1, e, l, h1, h2⟩ := ih (fun k hk => hf k (by omega)) (fun k hk => hidx k (by omega))
      (fun a ha b hb => hinj a (by omega) b (by omega))
    refine ⟨g1.set (idx n) (s n), ?_, by simp [l], ?_, ?_⟩
    · rw [loop_succ, e, ok_bind, hf n (by omega), ok_bind,
        wr_of_lt _ (by rw [l]; exact hidx n (by omega))]
    · intro k hk
      by_cases hkn : k = n
      · subst hkn
        rw [List.getElem?_set_self (by rw [l]; exact hidx k hk)]
      · rw [List.getElem?_set_ne (fun h => hkn (hinj k hk n (by omega) h.symm))]
        exact h1 k (by omega)
    · intro r hr
      rw [List.getElem?_set_ne (fun h => hr n (by omega) h.symm)]
      exact h2 r (fun k hk => hr k (by omega))

theorem copyTo_spec {α : Type} {n N : ℕ} {idx : ℕ → ℕ} {s : ℕ → α}
    (hidx : ∀ k < n, idx k < N) (hinj : ∀ a < n, ∀ b < n, idx a = idx b → a = b)
    {g : List α} (hg : g.length = N) :
    ∃ g', copyTo n idx (arr n s) g = ok g' ∧ g'.length = N ∧
      (∀ k < n, g'[idx k]? = some (s k)) ∧
      ∀ r, (∀ k < n, r ≠ idx k) → g'[r]? = g[r]? :=
  loop_wr_spec (fun k hk => by rw [rd_arr hk]) hidx hinj hg

/-- Filling the whole grid, whatever the order, if the positions are a bijection. -/
theorem fill_spec {α : Type} {m n N : ℕ} {idx : ℕ → ℕ → ℕ} {f : ℕ → ℕ → Outcome α} {s : ℕ → ℕ → α}
    (hf : ∀ i < m, ∀ j < n, f i j = ok (s i j)) (hidx : ∀ i < m, ∀ j < n, idx i j < N)
    (hinj : ∀ i < m, ∀ j < n, ∀ i' < m, ∀ j' < n, idx i j = idx i' j' → i = i' ∧ j = j')
    {g : List α} (hg : g.length = N) :
    ∃ g', fill m n idx f g = ok g' ∧ g'.length = N ∧
      ∀ i < m, ∀ j < n, g'[idx i j]? = some (s i j) := by
  unfold fill
  have key := loop_inv (fun i (g' : List α) => g'.length = N ∧
      ∀ a < i, ∀ b < n, g'[idx a b]? = some (s a b)) m
    (fun i g => loop n (fun j g => do
      let x ← f i j
      wr g (idx i j) x) g) g ⟨hg, by simp⟩ (by
    rintro i hi g1 ⟨l, H⟩
    obtain ⟨g2, e, l2, h1, h2⟩ := loop_wr_spec (f := f i) (idx := idx i) (s := s i)
      (fun j hj => hf i hi j hj) (fun j hj => hidx i hi j hj)
      (fun a ha b hb h => (hinj i hi a ha i hi b hb h).2) l
    refine ⟨g2, e, l2, ?_⟩
    intro a ha b hb
    rcases Nat.lt_succ_iff_lt_or_eq.mp ha with h | h
    · rw [h2]
      · exact H a h b hb
      · intro k hk h'
        have := (hinj a (by omega) b hb i hi k hk h').1
        omega
    · subst h
      exact h1 b hb)
  obtain ⟨g', e, l, H⟩ := key
  exact ⟨g', e, l, H⟩

theorem lin_lt {m n i j : ℕ} (hi : i < m) (hj : j < n) : i * n + j < m * n := by
  calc i * n + j < i * n + n := by omega
    _ = (i + 1) * n := by ring
    _ ≤ m * n := Nat.mul_le_mul_right n hi

theorem lin_inj {n i j i' j' : ℕ} (hj : j < n) (hj' : j' < n) (h : i * n + j = i' * n + j') :
    i = i' ∧ j = j' := by
  have h1 : (i * n + j) / n = i := by
    rw [Nat.mul_comm, Nat.mul_add_div (by omega), Nat.div_eq_of_lt hj, Nat.add_zero]
  have h2 : (i' * n + j') / n = i' := by
    rw [Nat.mul_comm, Nat.mul_add_div (by omega), Nat.div_eq_of_lt hj', Nat.add_zero]
  have : i = i' := by rw [← h1, ← h2, h]
  subst this
  exact ⟨rfl, by omega⟩

theorem lin_surj {m n k : ℕ} (h : k < m * n) : k / n < m ∧ k % n < n ∧ k = k / n * n + k % n := by
  have hn : 0 < n := by
    rcases Nat.eq_zero_or_pos n with h0 | h0
    · subst h0; simp at h
    · exact h0
  refine ⟨Nat.div_lt_of_lt_mul (by rw [Nat.mul_comm]; exact h), Nat.mod_lt _ hn, ?_⟩
  rw [Nat.mul_comm]
  exact (Nat.div_add_mod k n).symm

/-- The list whose entry `i * n + j` is `P i j`. -/
def gridOf {α : Type} (m n : ℕ) (P : ℕ → ℕ → α) : List α := arr (m * n) (fun k => P (k / n) (k % n))

@[simp] theorem gridOf_length {α : Type} (m n : ℕ) (P : ℕ → ℕ → α) :
    (gridOf m n P).length = m * n := by simp [gridOf]

theorem gridOf_get {α : Type} {m n i j : ℕ} (P : ℕ → ℕ → α) (hi : i < m) (hj : j < n) :
    (gridOf m n P)[i * n + j]? = some (P i j) := by
  have hl := lin_lt hi hj
  unfold gridOf
  rw [List.getElem?_eq_getElem (by simpa using hl), arr_getElem]
  congr 1
  have h1 : (i * n + j) / n = i := by
    rw [Nat.mul_comm, Nat.mul_add_div (by omega), Nat.div_eq_of_lt hj, Nat.add_zero]
  have h2 : (i * n + j) % n = j := by
    rw [Nat.mul_comm, Nat.mul_add_mod, Nat.mod_eq_of_lt hj]
  rw [h1, h2]

theorem rd_gridOf {α : Type} {m n i j : ℕ} (P : ℕ → ℕ → α) (hi : i < m) (hj : j < n) :
    rd (gridOf m n P) (i * n + j) = ok (P i j) := by
  rw [rd_eq_ok]; exact gridOf_get P hi hj

theorem eq_gridOf {α : Type} {m n : ℕ} {P : ℕ → ℕ → α} {g : List α} (hl : g.length = m * n)
    (h : ∀ i < m, ∀ j < n, g[i * n + j]? = some (P i j)) : g = gridOf m n P := by
  apply List.ext_getElem?
  intro k
  by_cases hk : k < m * n
  · obtain ⟨h1, h2, h3⟩ := lin_surj hk
    have e1 := h _ h1 _ h2
    have e2 := gridOf_get P h1 h2
    rw [← h3] at e1 e2
    rw [e1, e2]
  · rw [List.getElem?_eq_none (by omega), List.getElem?_eq_none (by simp; omega)]

theorem exists_gridOf {α : Type} {m n : ℕ} {g : List α} (d : α) (hl : g.length = m * n) :
    g = gridOf m n (fun i j => g.getD (i * n + j) d) := by
  apply eq_gridOf hl
  intro i hi j hj
  have := lin_lt hi hj
  rw [List.getD_eq_getElem?_getD, List.getElem?_eq_getElem (by omega), Option.getD_some]

theorem gridOf_congr {α : Type} {m n : ℕ} {P Q : ℕ → ℕ → α}
    (h : ∀ i < m, ∀ j < n, P i j = Q i j) : gridOf m n P = gridOf m n Q := by
  apply eq_gridOf (by simp)
  intro i hi j hj
  rw [gridOf_get P hi hj, h i hi j hj]

end NS
