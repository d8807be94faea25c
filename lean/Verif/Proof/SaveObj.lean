import Mathlib.Tactic.Linarith
import Mathlib.Tactic.NormNum
import Verif.Spec.Obj

/-! # Lemmas about OBJ export -/

set_option linter.unusedSectionVars false
set_option linter.unusedSimpArgs false

namespace NS

open Outcome

variable {K V : Type} [Field K]

theorem ownBlock_v_false (ps : List V) (rest : List (ObjRec V)) (lo hi : ℕ) :
    OwnBlock false lo hi (ps.map ObjRec.v ++ rest) ↔ OwnBlock false lo (hi + ps.length) rest := by
  induction ps generalizing hi with
  | nil => simp
  | cons p ps ih =>
    simp only [List.map_cons, List.cons_append, OwnBlock, Bool.false_eq_true, if_false]
    rw [ih, List.length_cons, Nat.add_assoc, Nat.add_comm 1]

theorem ownBlock_v (ps : List V) (rest : List (ObjRec V)) (lo hi : ℕ) (hp : ps ≠ []) :
    OwnBlock true lo hi (ps.map ObjRec.v ++ rest) ↔ OwnBlock false hi (hi + ps.length) rest := by
  cases ps with
  | nil => exact absurd rfl hp
  | cons p ps =>
    simp only [List.map_cons, List.cons_append, OwnBlock, if_true]
    rw [ownBlock_v_false, List.length_cons, Nat.add_assoc, Nat.add_comm 1]

/-- A record that is not a vertex. -/
def ObjRec.isElem : ObjRec V → Prop
  | .v _ => False
  | _ => True

theorem ownBlock_elem (L rest : List (ObjRec V)) (b : Bool) (lo hi : ℕ) (hL : L ≠ [])
    (he : ∀ r ∈ L, r.isElem) :
    OwnBlock b lo hi (L ++ rest) ↔
      (∀ r ∈ L, ∀ i ∈ r.idx, lo < i ∧ i ≤ hi) ∧ OwnBlock true lo hi rest := by
  induction L generalizing b with
  | nil => exact absurd rfl hL
  | cons r L ih =>
    have key : ∀ b', OwnBlock b' lo hi (r :: (L ++ rest)) ↔
        (∀ i ∈ r.idx, lo < i ∧ i ≤ hi) ∧ OwnBlock true lo hi (L ++ rest) := by
      intro b'
      cases r with
      | v p => exact absurd (he _ (List.mem_cons_self)) id
      | l a b => simp only [OwnBlock, ObjRec.idx]
      | f a b c d => simp only [OwnBlock, ObjRec.idx]
    rw [List.cons_append, key]
    by_cases hn : L = []
    · subst hn; simp
    · rw [ih true hn (fun r hr => he r (List.mem_cons_of_mem _ hr))]
      simp only [List.forall_mem_cons]
      tauto

/-- What the list savers need to know about the export of one object with `M` vertices. -/
def ExSpec {C : Type} (ex : C → ℕ → Outcome (List (ObjRec V) × ℕ)) (M : ℕ) : Prop :=
  ∀ c off r, ex c off = ok r → r.2 = off + M ∧ ∃ (ps : List V) (L : List (ObjRec V)),
    r.1 = ps.map ObjRec.v ++ L ∧ ps.length = M ∧ L ≠ [] ∧ (∀ x ∈ L, x.isElem) ∧
    ∀ h, (∀ x ∈ L, ∀ i ∈ x.idx, h < i ∧ i ≤ h + M) ↔ off = h

theorem exSpec_own {C : Type} {ex : C → ℕ → Outcome (List (ObjRec V) × ℕ)} {M : ℕ}
    (H : ExSpec ex M) (hM : 0 < M) {c : C} {off : ℕ} {r : List (ObjRec V) × ℕ}
    (hr : ex c off = ok r) (rest : List (ObjRec V)) (lo h : ℕ) :
    OwnBlock true lo h (r.1 ++ rest) ↔ off = h ∧ OwnBlock true h (h + M) rest := by
  obtain ⟨-, ps, L, e, hl, hL, he, hi⟩ := H c off r hr
  have hp : ps ≠ [] := by intro h; rw [h] at hl; simp at hl; omega
  rw [e, List.append_assoc, ownBlock_v _ _ _ _ hp, ownBlock_elem _ _ _ _ _ hL he, hl, hi h]

theorem exportAll_file {C : Type} {ex : C → ℕ → Outcome (List (ObjRec V) × ℕ)} (cs : List C)
    {s s' : List (ObjRec V) × ℕ} (h : exportAll ex cs s = ok s') :
    ∃ rest, s'.1 = s.1 ++ rest ∧ ∀ f, exportAll ex cs (f, s.2) = ok (f ++ rest, s'.2) := by
  induction cs generalizing s with
  | nil => cases h; exact ⟨[], by simp, by simp [exportAll]⟩
  | cons c cs ih =>
    rw [exportAll] at h
    obtain ⟨r, h1, h2⟩ := bind_eq_ok.1 h
    obtain ⟨rest, e, H⟩ := ih h2
    refine ⟨r.1 ++ rest, by rw [e]; simp, fun f => ?_⟩
    rw [exportAll, h1, ok_bind]
    simp only at H ⊢
    rw [H, List.append_assoc]

/-- The records written for the remaining objects refer to their own blocks iff the running count is
right for every one of them. -/
theorem exportAll_own {C : Type} {ex : C → ℕ → Outcome (List (ObjRec V) × ℕ)} {M : ℕ}
    (H : ExSpec ex M) (hM : 0 < M) (cs : List C) (cnt : ℕ) {s' : List (ObjRec V) × ℕ}
    (h : exportAll ex cs ([], cnt) = ok s') (lo hi : ℕ) :
    OwnBlock true lo hi s'.1 ↔ cs = [] ∨ (cnt = hi ∧ (cs.length = 1 ∨ cnt = 0 ∧ cs.length ≤ 2)) := by
  induction cs generalizing cnt s' lo hi with
  | nil => cases h; simp [OwnBlock]
  | cons c cs ih =>
    rw [exportAll] at h
    obtain ⟨r, h1, h2⟩ := bind_eq_ok.1 h
    simp only [List.nil_append] at h2
    obtain ⟨rest, e, hf⟩ := exportAll_file cs h2
    have h3 := hf []
    simp only [List.nil_append] at h3 e
    rw [e, exSpec_own H hM h1]
    have := ih _ h3 hi (hi + M)
    simp only at this
    rw [this, (H c cnt r h1).1]
    simp only [reduceCtorEq, false_or, List.length_cons]
    constructor
    · rintro ⟨rfl, rfl | ⟨h4, h5⟩⟩
      · exact ⟨rfl, Or.inl rfl⟩
      · have : cnt = 0 := by omega
        refine ⟨rfl, Or.inr ⟨this, ?_⟩⟩
        omega
    · rintro ⟨rfl, h4 | ⟨h4, h5⟩⟩
      · exact ⟨rfl, Or.inl (List.length_eq_zero_iff.1 (by omega))⟩
      · refine ⟨rfl, ?_⟩
        by_cases hc : cs = []
        · exact Or.inl hc
        · have := List.length_pos_iff.2 hc
          right
          refine ⟨by omega, Or.inl (by omega)⟩

theorem tab_map {α β : Type} {n : ℕ} {f : ℕ → Outcome α} {g : α → β} {l : List β}
    (h : tab n (fun i => do
      let a ← f i
      pure (g a)) = ok l) : ∃ as, tab n f = ok as ∧ l = as.map g := by
  induction n generalizing l with
  | zero => cases h; exact ⟨[], rfl, rfl⟩
  | succ n ih =>
    rw [tab] at h
    obtain ⟨l', h1, h2⟩ := bind_eq_ok.1 h
    obtain ⟨b, h3, h4⟩ := bind_eq_ok.1 h2
    obtain ⟨a, h5, h6⟩ := bind_eq_ok.1 h3
    cases h4; cases h6
    obtain ⟨as, e, rfl⟩ := ih h1
    exact ⟨as ++ [a], by rw [tab, e, ok_bind, h5, ok_bind, pure_eq], by simp⟩

/-- The file of one curve. -/
theorem exportObj_inv {ev : K → Outcome V} {N off : ℕ} {r : List (ObjRec V) × ℕ}
    (h : exportObj ev N off = ok r) : r.2 = off + N ∧ ∃ ps : List V,
      tab N (fun i => ev ((i : K) / (N : K))) = ok ps ∧
      r.1 = ps.map ObjRec.v ++ arr (N - 1) (fun i => ObjRec.l (i + off + 1) (i + off + 2)) := by
  rw [exportObj] at h
  obtain ⟨vs, h1, h2⟩ := bind_eq_ok.1 h
  obtain ⟨ls, h3, h4⟩ := bind_eq_ok.1 h2
  cases h4
  obtain ⟨ps, h5, rfl⟩ := tab_map h1
  replace h3 := (tab_eq (g := fun i => ObjRec.l (i + off + 1) (i + off + 2)) (fun i _ => rfl)).symm.trans
    h3
  rw [ok.injEq] at h3
  exact ⟨rfl, ps, h5, by rw [← h3]⟩

theorem mem_arr {α : Type} {n : ℕ} {g : ℕ → α} {x : α} : x ∈ arr n g ↔ ∃ i < n, g i = x := by
  simp [arr]

theorem exSpec_curve {N : ℕ} (hN : 2 ≤ N) :
    ExSpec (fun (c : K → Outcome V) => exportObj c N) N := by
  intro c off r h
  obtain ⟨e, ps, h1, h2⟩ := exportObj_inv h
  refine ⟨e, ps, _, h2, (tab_inv h1).1, ?_, ?_, ?_⟩
  · intro hn
    have := congrArg List.length hn
    simp [arr] at this; omega
  · intro x hx
    obtain ⟨i, _, rfl⟩ := mem_arr.1 hx
    trivial
  · intro h
    constructor
    · intro H
      have h1 := H _ (mem_arr.2 ⟨0, by omega, rfl⟩) _ (List.mem_cons_self)
      have h2 := H _ (mem_arr.2 ⟨N - 2, by omega, rfl⟩) _
        (List.mem_cons_of_mem _ (List.mem_cons_self))
      omega
    · rintro rfl x hx i hi
      obtain ⟨k, hk, rfl⟩ := mem_arr.1 hx
      simp only [ObjRec.idx, List.mem_cons, List.not_mem_nil, or_false] at hi
      omega

/-- The points of a grid of samples, row by row. -/
theorem tab_tab_map {α β : Type} {m n : ℕ} {f : ℕ → ℕ → Outcome α} {g : α → β} {l : List (List β)}
    (h : tab m (fun i => tab n (fun j => do
      let a ← f i j
      pure (g a))) = ok l) : ∃ as, tab m (fun i => tab n (f i)) = ok as ∧ l = as.map (List.map g) := by
  induction m generalizing l with
  | zero => cases h; exact ⟨[], rfl, rfl⟩
  | succ m ih =>
    rw [tab] at h
    obtain ⟨l', h1, h2⟩ := bind_eq_ok.1 h
    obtain ⟨b, h3, h4⟩ := bind_eq_ok.1 h2
    cases h4
    obtain ⟨as, e, rfl⟩ := ih h1
    obtain ⟨a, h5, rfl⟩ := tab_map h3
    exact ⟨as ++ [a], by rw [tab, e, ok_bind, h5, ok_bind, pure_eq], by simp⟩

theorem tab_tab_length {α : Type} {m n : ℕ} {f : ℕ → ℕ → Outcome α} {l : List (List α)}
    (h : tab m (fun i => tab n (f i)) = ok l) : l.flatten.length = m * n := by
  induction m generalizing l with
  | zero => cases h; simp
  | succ m ih =>
    rw [tab] at h
    obtain ⟨l', h1, h2⟩ := bind_eq_ok.1 h
    obtain ⟨b, h3, h4⟩ := bind_eq_ok.1 h2
    cases h4
    rw [List.flatten_append, List.length_append, ih h1]
    simp only [List.flatten_cons, List.flatten_nil, List.append_nil, (tab_inv h3).1]
    ring

theorem tab_tab_get {α : Type} {m n : ℕ} {f : ℕ → ℕ → Outcome α} {l : List (List α)}
    (h : tab m (fun i => tab n (f i)) = ok l) {i j : ℕ} (hi : i < m) (hj : j < n) :
    ∃ a, f i j = ok a ∧ l.flatten[i * n + j]? = some a := by
  induction m generalizing l with
  | zero => omega
  | succ m ih =>
    rw [tab] at h
    obtain ⟨l', h1, h2⟩ := bind_eq_ok.1 h
    obtain ⟨b, h3, h4⟩ := bind_eq_ok.1 h2
    cases h4
    have hl := tab_tab_length h1
    rw [List.flatten_append]
    by_cases him : i < m
    · obtain ⟨a, e1, e2⟩ := ih h1 him
      refine ⟨a, e1, ?_⟩
      rw [List.getElem?_append_left, e2]
      rw [hl]
      nlinarith [Nat.mul_le_mul_right n (show i + 1 ≤ m by omega)]
    · have : i = m := by omega
      subst this
      obtain ⟨a, e1, e2⟩ := (tab_inv h3).2 j hj
      refine ⟨a, e1, ?_⟩
      rw [List.getElem?_append_right (by rw [hl]; omega), hl]
      simp [e2]

/-- The face of cell `(i, j)`. -/
def faceOf (V : Type) (n off i j : ℕ) : ObjRec V :=
  .f (i * n + j + off + 1) ((i + 1) * n + j + off + 1) ((i + 1) * n + j + 1 + off + 1)
    (i * n + j + 1 + off + 1)

theorem exportPatchObj_inv {p : ObjPatch K V} {m n off : ℕ} {r : List (ObjRec V) × ℕ}
    (h : exportPatchObj p m n off = ok r) : r.2 = off + m * n ∧ ∃ ps : List (List V),
      tab m (fun ui => tab n (fun vi => do
        Outcome.assert (m ≠ 1 ∧ n ≠ 1)
        p.eval (p.uLo + (p.uHi - p.uLo) * ((ui : K) / ((m : K) - 1)))
          (p.vLo + (p.vHi - p.vLo) * ((vi : K) / ((n : K) - 1))))) = ok ps ∧
      r.1 = ps.flatten.map ObjRec.v ++
        (arr (m - 1) (fun i => arr (n - 1) (fun j => faceOf V n off i j))).flatten := by
  rw [exportPatchObj] at h
  obtain ⟨vs, h1, h2⟩ := bind_eq_ok.1 h
  obtain ⟨fs, h3, h4⟩ := bind_eq_ok.1 h2
  cases h4
  have h1' : tab m (fun ui => tab n (fun vi => do
      let x ← (do
        Outcome.assert (m ≠ 1 ∧ n ≠ 1)
        p.eval (p.uLo + (p.uHi - p.uLo) * ((ui : K) / ((m : K) - 1)))
          (p.vLo + (p.vHi - p.vLo) * ((vi : K) / ((n : K) - 1))))
      pure (ObjRec.v x))) = ok vs := by
    simpa only [bind_assoc] using h1
  obtain ⟨ps, h5, rfl⟩ := tab_tab_map h1'
  replace h3 := (tab_eq (g := fun i => arr (n - 1) (fun j => faceOf V n off i j))
    (fun i _ => tab_eq (fun j _ => rfl))).symm.trans h3
  rw [ok.injEq] at h3
  exact ⟨rfl, ps, h5, by rw [← h3]; simp [List.map_flatten]⟩

theorem mem_faces {m n off : ℕ} {x : ObjRec V} :
    x ∈ (arr (m - 1) (fun i => arr (n - 1) (fun j => faceOf V n off i j))).flatten ↔
      ∃ i j, i + 1 < m ∧ j + 1 < n ∧ x = faceOf V n off i j := by
  rw [List.mem_flatten]
  constructor
  · rintro ⟨l, hl, hx⟩
    obtain ⟨i, hi, rfl⟩ := mem_arr.1 hl
    obtain ⟨j, hj, rfl⟩ := mem_arr.1 hx
    exact ⟨i, j, by omega, by omega, rfl⟩
  · rintro ⟨i, j, hi, hj, rfl⟩
    exact ⟨_, mem_arr.2 ⟨i, by omega, rfl⟩, mem_arr.2 ⟨j, by omega, rfl⟩⟩

theorem face_range {m n off i j : ℕ} (hi : i + 1 < m) (hj : j + 1 < n) :
    ∀ k ∈ (faceOf V n off i j).idx, off < k ∧ k ≤ off + m * n := by
  intro k hk
  have h1 : (i + 1) * n + n ≤ m * n := by
    have := Nat.mul_le_mul_right n (show i + 1 + 1 ≤ m by omega)
    rw [Nat.add_mul (i + 1) 1 n, Nat.one_mul] at this
    exact this
  have h2 : i * n ≤ (i + 1) * n := Nat.mul_le_mul_right n (by omega)
  simp only [faceOf, ObjRec.idx, List.mem_cons, List.not_mem_nil, or_false] at hk
  omega

theorem exSpec_patch {m n : ℕ} (hm : 2 ≤ m) (hn : 2 ≤ n) :
    ExSpec (fun (p : ObjPatch K V) => exportPatchObj p m n) (m * n) := by
  intro c off r h
  obtain ⟨e, ps, h1, h2⟩ := exportPatchObj_inv h
  refine ⟨e, ps.flatten, _, h2, tab_tab_length h1, ?_, ?_, ?_⟩
  · intro hc
    have : faceOf V n off 0 0 ∈ ([] : List (ObjRec V)) := by
      rw [← hc]; exact mem_faces.2 ⟨0, 0, by omega, by omega, rfl⟩
    simp at this
  · intro x hx
    obtain ⟨i, j, _, _, rfl⟩ := mem_faces.1 hx
    trivial
  · intro h
    constructor
    · intro H
      have h1 := H _ (mem_faces.2 ⟨0, 0, by omega, by omega, rfl⟩) (0 * n + 0 + off + 1)
        (by simp [faceOf, ObjRec.idx])
      have h2 := H _ (mem_faces.2 ⟨m - 2, n - 2, by omega, by omega, rfl⟩)
        ((m - 2 + 1) * n + (n - 2) + 1 + off + 1) (by simp [faceOf, ObjRec.idx])
      have h3 : (m - 2 + 1) * n + n = m * n := by
        have : m = m - 2 + 1 + 1 := by omega
        rw [this, Nat.add_mul (m - 2 + 1) 1 n, Nat.one_mul]
        simp
      omega
    · rintro rfl x hx i hi
      obtain ⟨a, b, ha, hb, rfl⟩ := mem_faces.1 hx
      exact face_range ha hb i hi

theorem objVertices_append (ps : List V) (L : List (ObjRec V)) (he : ∀ x ∈ L, x.isElem) :
    objVertices (ps.map ObjRec.v ++ L) = ps := by
  induction ps with
  | nil =>
    simp only [List.map_nil, List.nil_append]
    induction L with
    | nil => rfl
    | cons r L ih =>
      have h1 := he r List.mem_cons_self
      cases r with
      | v p => exact absurd h1 id
      | l a b => exact ih (fun x hx => he x (List.mem_cons_of_mem _ hx))
      | f a b c d => exact ih (fun x hx => he x (List.mem_cons_of_mem _ hx))
  | cons p ps ih => simp only [List.map_cons, List.cons_append, objVertices, ih]

end NS
