import Verif.Model.PatchBase

/-! # The closest control point search -/

set_option linter.unusedSectionVars false

namespace NS.PatchBase

open Outcome

variable {K V : Type} [Field K] [LinearOrder K] [AddCommGroup V]

theorem findClosest_spec (big : K) (sq : V → K) {m n : ℕ} {get : ℕ → ℕ → Outcome V}
    {P : ℕ → ℕ → V} (hget : ∀ i < m, ∀ j < n, get i j = ok (P i j)) (p : V) :
    ∃ i j, findClosest big sq m n get p = ok (i, j) ∧
      ((i < m ∧ j < n ∧ sq (p - P i j) < big ∧
          ∀ a < m, ∀ b < n, sq (p - P i j) ≤ sq (p - P a b)) ∨
        (i = 0 ∧ j = 0 ∧ ∀ a < m, ∀ b < n, big ≤ sq (p - P a b))) := by
  -- the invariant over the pairs `(a, b)` seen so far
  let I : (ℕ → ℕ → Prop) → K × ℕ × ℕ → Prop := fun D s =>
    (s.2.1 < m ∧ s.2.2 < n ∧ s.1 = sq (p - P s.2.1 s.2.2) ∧ s.1 < big ∧
        ∀ a b, D a b → s.1 ≤ sq (p - P a b)) ∨
      (s = (big, 0, 0) ∧ ∀ a b, D a b → big ≤ sq (p - P a b))
  have step : ∀ i < m, ∀ j < n, ∀ D s, I D s →
      I (fun a b => D a b ∨ (a = i ∧ b = j))
        (if sq (p - P i j) < s.1 then (sq (p - P i j), i, j) else s) := by
    intro i hi j hj D s hs
    by_cases h : sq (p - P i j) < s.1
    · rw [if_pos h]
      left
      refine ⟨hi, hj, rfl, ?_, ?_⟩
      · rcases hs with ⟨_, _, _, hb, _⟩ | ⟨rfl, _⟩
        · exact lt_trans h hb
        · exact h
      · rintro a b (hD | ⟨rfl, rfl⟩)
        · rcases hs with ⟨_, _, _, _, hm⟩ | ⟨rfl, hm⟩
          · exact (lt_of_lt_of_le h (hm a b hD)).le
          · exact (lt_of_lt_of_le h (hm a b hD)).le
        · exact le_rfl
    · rw [if_neg h]
      rcases hs with ⟨h1, h2, h3, hb, hm⟩ | ⟨rfl, hm⟩
      · left
        refine ⟨h1, h2, h3, hb, ?_⟩
        rintro a b (hD | ⟨rfl, rfl⟩)
        · exact hm a b hD
        · exact not_lt.1 h
      · right
        refine ⟨rfl, ?_⟩
        rintro a b (hD | ⟨rfl, rfl⟩)
        · exact hm a b hD
        · exact not_lt.1 h
  have mono : ∀ {D D' : ℕ → ℕ → Prop} {s}, I D s → (∀ a b, D' a b → D a b) → I D' s := by
    intro D D' s h hD
    rcases h with ⟨h1, h2, h3, hb, hm⟩ | ⟨h1, hm⟩
    · exact Or.inl ⟨h1, h2, h3, hb, fun a b h => hm a b (hD a b h)⟩
    · exact Or.inr ⟨h1, fun a b h => hm a b (hD a b h)⟩
  obtain ⟨s, e, hs⟩ := loop_inv
    (fun i s => I (fun a b => a < i ∧ b < n) s) m
    (fun ui s => loop n (fun vj s => do
      let c ← get ui vj
      let dist := sq (p - c)
      pure (if dist < s.1 then (dist, ui, vj) else s)) s) ((big, 0, 0) : K × ℕ × ℕ)
    (Or.inr ⟨rfl, fun a b h => absurd h.1 (by omega)⟩) (by
      intro i hi s hs
      obtain ⟨s', e', hs'⟩ := loop_inv
        (fun j s => I (fun a b => (a < i ∧ b < n) ∨ (a = i ∧ b < j)) s) n
        (fun vj s => do
          let c ← get i vj
          let dist := sq (p - c)
          pure (if dist < s.1 then (dist, i, vj) else s)) s
        (mono hs (fun a b h => h.resolve_right (by omega))) (by
          intro j hj s hs
          refine ⟨_, by rw [hget i hi j hj, ok_bind]; rfl, ?_⟩
          exact mono (step i hi j hj _ s hs) (fun a b h => by omega))
      exact ⟨s', e', mono hs' (fun a b h => by omega)⟩)
  refine ⟨s.2.1, s.2.2, ?_, ?_⟩
  · unfold findClosest
    rw [e, ok_bind]
    rfl
  · rcases hs with ⟨h1, h2, h3, hb, hm⟩ | ⟨rfl, hm⟩
    · left
      rw [h3] at hb hm
      exact ⟨h1, h2, hb, fun a ha b hb => hm a b ⟨ha, hb⟩⟩
    · exact Or.inr ⟨rfl, rfl, fun a ha b hb => hm a b ⟨ha, hb⟩⟩

end NS.PatchBase
