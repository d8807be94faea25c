/-!
# Outcomes of C++ calls

A call of the modelled library ends in one of three ways: it returns a value, it
throws one of the library's exceptions, or it performs an operation whose result
the C++ code does not define (out-of-range element access, failed `assert`).
-/

namespace NS

/-- Exceptions thrown by the library: `include/nanospline/Exceptions.h` and
`std::runtime_error`.  Messages are not modelled. -/
inductive Err where
  | invalidSetting
  | notImplemented
  | infiniteRoot
  | runtimeError
  deriving DecidableEq, Repr

/-- Result of a C++ call. `ub` stands for an out-of-range access or a failed
`assert` (asserts are compiled out in release builds). -/
inductive Outcome (α : Type) where
  | ok (a : α)
  | throw (e : Err)
  | ub
  deriving DecidableEq, Repr

namespace Outcome

variable {α β : Type}

protected def bind (x : Outcome α) (f : α → Outcome β) : Outcome β :=
  match x with
  | ok a => f a
  | throw e => throw e
  | ub => ub

instance : Monad Outcome where
  pure := ok
  bind := Outcome.bind

@[simp] theorem pure_eq {α : Type} (a : α) : (pure a : Outcome α) = ok a := rfl

@[simp] theorem ok_bind {α β : Type} (a : α) (f : α → Outcome β) : (ok a >>= f) = f a := rfl

@[simp] theorem throw_bind {α β : Type} (e : Err) (f : α → Outcome β) :
    ((throw e : Outcome α) >>= f) = throw e := rfl

@[simp] theorem ub_bind {α β : Type} (f : α → Outcome β) :
    ((ub : Outcome α) >>= f) = ub := rfl

@[simp] theorem map_ok {α β : Type} (a : α) (f : α → β) :
    (f <$> (ok a : Outcome α)) = ok (f a) := rfl

instance : LawfulMonad Outcome := LawfulMonad.mk'
  (id_map := fun x => by cases x <;> rfl)
  (pure_bind := fun _ _ => rfl)
  (bind_assoc := fun x _ _ => by cases x <;> rfl)

/-- The call returned normally. -/
def isOk : Outcome α → Bool
  | ok _ => true
  | _ => false

@[simp] theorem isOk_ok (a : α) : (ok a).isOk = true := rfl
@[simp] theorem isOk_throw (e : Err) : (throw e : Outcome α).isOk = false := rfl
@[simp] theorem isOk_ub : (ub : Outcome α).isOk = false := rfl

theorem bind_eq_ok {α β : Type} {x : Outcome α} {f : α → Outcome β} {b : β} :
    (x >>= f) = ok b ↔ ∃ a, x = ok a ∧ f a = ok b := by
  cases x with
  | ok a => simp
  | throw e => simp
  | ub => simp

/-- C++ `assert(c)`. -/
def assert (c : Prop) [Decidable c] : Outcome Unit := if c then ok () else ub

@[simp] theorem assert_true {c : Prop} [Decidable c] (h : c) : assert c = ok () := by
  simp [assert, h]

@[simp] theorem assert_false {c : Prop} [Decidable c] (h : ¬ c) : assert c = ub := by
  simp [assert, h]

/-- `if (c) throw e;` -/
def throwIf (c : Prop) [Decidable c] (e : Err) : Outcome Unit := if c then throw e else ok ()

@[simp] theorem throwIf_true {c : Prop} [Decidable c] {e : Err} (h : c) :
    throwIf c e = throw e := by simp [throwIf, h]

@[simp] theorem throwIf_false {c : Prop} [Decidable c] {e : Err} (h : ¬ c) :
    throwIf c e = ok () := by simp [throwIf, h]

end Outcome

open Outcome

/-- `for (int i = 0; i < n; i++) s = body(i, s);` -/
def loop {σ : Type} : Nat → (Nat → σ → Outcome σ) → σ → Outcome σ
  | 0, _, s => ok s
  | n + 1, f, s => loop n f s >>= f n

/-- `for (int i = lo; i < hi; i++) s = body(i, s);` -/
def forUp {σ : Type} (lo hi : Nat) (body : Nat → σ → Outcome σ) (s : σ) : Outcome σ :=
  loop (hi - lo) (fun k => body (lo + k)) s

/-- `for (int i = hi; i >= lo; i--) s = body(i, s);` -/
def forDown {σ : Type} (hi lo : Nat) (body : Nat → σ → Outcome σ) (s : σ) : Outcome σ :=
  loop (hi + 1 - lo) (fun k => body (hi - k)) s

@[simp] theorem loop_zero {σ : Type} (f : Nat → σ → Outcome σ) (s : σ) : loop 0 f s = ok s := rfl

theorem loop_succ {σ : Type} (n : Nat) (f : Nat → σ → Outcome σ) (s : σ) :
    loop (n + 1) f s = (loop n f s >>= f n) := rfl

/-- Execution of a loop along a given sequence of states. -/
theorem loop_eq {σ : Type} (S : Nat → σ) (n : Nat) (f : Nat → σ → Outcome σ)
    (h : ∀ i < n, f i (S i) = ok (S (i + 1))) : loop n f (S 0) = ok (S n) := by
  induction n with
  | zero => rfl
  | succ n ih =>
    rw [loop_succ, ih (fun i hi => h i (by omega))]
    exact h n (by omega)

/-- Loop invariant rule. -/
theorem loop_inv {σ : Type} (P : Nat → σ → Prop) (n : Nat) (f : Nat → σ → Outcome σ) (s : σ)
    (h0 : P 0 s) (hs : ∀ i < n, ∀ s, P i s → ∃ s', f i s = ok s' ∧ P (i + 1) s') :
    ∃ s', loop n f s = ok s' ∧ P n s' := by
  induction n with
  | zero => exact ⟨s, rfl, h0⟩
  | succ n ih =>
    obtain ⟨s', h1, h2⟩ := ih (fun i hi => hs i (by omega))
    obtain ⟨s'', h3, h4⟩ := hs n (by omega) s' h2
    exact ⟨s'', by rw [loop_succ, h1]; exact h3, h4⟩

/-- Partial-correctness rule: if the loop returns, the invariant holds. -/
theorem loop_inv_of_ok {σ : Type} (P : Nat → σ → Prop) (n : Nat) (f : Nat → σ → Outcome σ) (s : σ)
    (h0 : P 0 s) (hs : ∀ i < n, ∀ s s', P i s → f i s = ok s' → P (i + 1) s') :
    ∀ s', loop n f s = ok s' → P n s' := by
  induction n with
  | zero => intro s' h; cases h; exact h0
  | succ n ih =>
    intro s' h
    rw [loop_succ, bind_eq_ok] at h
    obtain ⟨a, h1, h2⟩ := h
    exact hs n (by omega) a s' (ih (fun i hi => hs i (by omega)) a h1) h2

theorem loop_congr {σ : Type} (n : Nat) {f g : Nat → σ → Outcome σ} (s : σ)
    (h : ∀ i < n, ∀ s, f i s = g i s) : loop n f s = loop n g s := by
  induction n with
  | zero => rfl
  | succ n ih =>
    rw [loop_succ, loop_succ, ih (fun i hi => h i (by omega))]
    congr 1
    funext s
    exact h n (by omega) s

theorem forUp_eq {σ : Type} (S : Nat → σ) (lo hi : Nat) (hle : lo ≤ hi)
    (f : Nat → σ → Outcome σ)
    (h : ∀ i, lo ≤ i → i < hi → f i (S i) = ok (S (i + 1))) : forUp lo hi f (S lo) = ok (S hi) := by
  have := loop_eq (fun k => S (lo + k)) (hi - lo) (fun k => f (lo + k))
    (fun i hi' => h (lo + i) (by omega) (by omega))
  simpa [forUp, Nat.add_sub_cancel' hle] using this

theorem forUp_inv {σ : Type} (P : Nat → σ → Prop) (lo hi : Nat) (hle : lo ≤ hi)
    (f : Nat → σ → Outcome σ) (s : σ) (h0 : P lo s)
    (hs : ∀ i, lo ≤ i → i < hi → ∀ s, P i s → ∃ s', f i s = ok s' ∧ P (i + 1) s') :
    ∃ s', forUp lo hi f s = ok s' ∧ P hi s' := by
  have := loop_inv (fun k => P (lo + k)) (hi - lo) (fun k => f (lo + k)) s (by simpa using h0)
    (fun i hi' s hP => hs (lo + i) (by omega) (by omega) s hP)
  simpa [forUp, Nat.add_sub_cancel' hle] using this

/-- Downward loop: `S k` is the state after `k` iterations. -/
theorem forDown_eq {σ : Type} (S : Nat → σ) (hi lo : Nat)
    (f : Nat → σ → Outcome σ)
    (h : ∀ k, k < hi + 1 - lo → f (hi - k) (S k) = ok (S (k + 1))) :
    forDown hi lo f (S 0) = ok (S (hi + 1 - lo)) :=
  loop_eq S (hi + 1 - lo) (fun k => f (hi - k)) h

/-! ### Checked array access -/

/-- Element read; out of range is undefined. -/
def rd {α : Type} (l : List α) (i : Nat) : Outcome α :=
  match l[i]? with
  | some a => ok a
  | none => ub

/-- Element write; out of range is undefined. -/
def wr {α : Type} (l : List α) (i : Nat) (a : α) : Outcome (List α) :=
  if i < l.length then ok (l.set i a) else ub

/-- Element read with a C++ `int` index. -/
def rdI {α : Type} (l : List α) (i : Int) : Outcome α :=
  if i < 0 then ub else rd l i.toNat

/-- Element write with a C++ `int` index. -/
def wrI {α : Type} (l : List α) (i : Int) (a : α) : Outcome (List α) :=
  if i < 0 then ub else wr l i.toNat a

theorem rd_eq_ok {α : Type} {l : List α} {i : Nat} {a : α} : rd l i = ok a ↔ l[i]? = some a := by
  unfold rd; split <;> simp_all

theorem rd_of_lt {α : Type} {l : List α} {i : Nat} (h : i < l.length) : rd l i = ok l[i] := by
  simp [rd_eq_ok, h]

theorem rd_ub {α : Type} {l : List α} {i : Nat} (h : l.length ≤ i) : rd l i = ub := by
  simp [rd, h]

theorem rdI_natCast {α : Type} (l : List α) (i : Nat) : rdI l (i : Int) = rd l i := by
  have : ¬ ((i : Int) < 0) := by omega
  simp [rdI, this]

theorem wrI_natCast {α : Type} (l : List α) (i : Nat) (a : α) : wrI l (i : Int) a = wr l i a := by
  have : ¬ ((i : Int) < 0) := by omega
  simp [wrI, this]

theorem rdI_neg {α : Type} (l : List α) {i : Int} (h : i < 0) : rdI l i = ub := by
  simp [rdI, h]

theorem wr_of_lt {α : Type} {l : List α} {i : Nat} (a : α) (h : i < l.length) :
    wr l i a = ok (l.set i a) := by simp [wr, h]

theorem wr_ub {α : Type} {l : List α} {i : Nat} (a : α) (h : l.length ≤ i) :
    wr l i a = ub := by simp [wr, Nat.not_lt.mpr h]

/-! ### Arrays as functions -/

/-- The array `[g 0, ..., g (n-1)]`. -/
def arr {α : Type} (n : Nat) (g : Nat → α) : List α := (List.range n).map g

@[simp] theorem arr_length {α : Type} (n : Nat) (g : Nat → α) : (arr n g).length = n := by
  simp [arr]

theorem arr_getElem? {α : Type} (n : Nat) (g : Nat → α) (i : Nat) :
    (arr n g)[i]? = if i < n then some (g i) else none := by
  unfold arr
  by_cases h : i < n
  · simp [h]
  · simp [h]

@[simp] theorem arr_getElem {α : Type} (n : Nat) (g : Nat → α) (i : Nat)
    (h : i < (arr n g).length) : (arr n g)[i] = g i := by
  simp [arr]

theorem arr_getD {α : Type} (n : Nat) (g : Nat → α) (i : Nat) (d : α) (h : i < n) :
    (arr n g).getD i d = g i := by
  rw [List.getD_eq_getElem?_getD, arr_getElem?]; simp [h]

theorem rd_arr {α : Type} {n : Nat} {g : Nat → α} {i : Nat} (h : i < n) :
    rd (arr n g) i = ok (g i) := by
  rw [rd_eq_ok, arr_getElem?]; simp [h]

theorem arr_congr {α : Type} {n : Nat} {g h : Nat → α} (H : ∀ i < n, g i = h i) :
    arr n g = arr n h := by
  unfold arr
  apply List.map_congr_left
  intro i hi
  exact H i (by simpa using hi)

theorem arr_set {α : Type} {n : Nat} {g h : Nat → α} {i : Nat} {a : α}
    (H : ∀ j < n, h j = if j = i then a else g j) : (arr n g).set i a = arr n h := by
  apply List.ext_getElem
  · simp
  · intro j h1 h2
    rw [List.getElem_set]
    have hj : j < n := by simpa using h2
    rw [arr_getElem, arr_getElem, H j hj]
    by_cases hij : i = j
    · simp [hij]
    · have : ¬ j = i := fun h => hij h.symm
      simp [hij, this]

theorem wr_arr {α : Type} {n : Nat} {g : Nat → α} {i : Nat} {a : α} (h : Nat → α) (hi : i < n)
    (H : ∀ j < n, h j = if j = i then a else g j) : wr (arr n g) i a = ok (arr n h) := by
  rw [wr_of_lt _ (by simpa using hi), arr_set H]

theorem eq_arr {α : Type} (l : List α) (d : α) : l = arr l.length (fun i => l.getD i d) := by
  apply List.ext_getElem
  · simp
  · intro i h1 h2
    simp [h1]

/-! ### Contiguous blocks -/

/-- Right-hand side `l.segment(a, len)` / `l.block` of Eigen (rows `a, ..., a+len-1`); a block
that does not fit is undefined (Eigen assertion). -/
def seg {α : Type} (l : List α) (a len : Nat) : Outcome (List α) :=
  if a + len ≤ l.length then ok ((l.drop a).take len) else ub

/-- Assignment to `l.segment(a, xs.size())`. -/
def wrSeg {α : Type} (l : List α) (a : Nat) (xs : List α) : Outcome (List α) :=
  if a + xs.length ≤ l.length then ok (l.take a ++ xs ++ l.drop (a + xs.length)) else ub

theorem arr_getElem?_of_lt {α : Type} {n : Nat} {g : Nat → α} {i : Nat} (h : i < n) :
    (arr n g)[i]? = some (g i) := by
  rw [arr_getElem?]; simp [h]

theorem eq_arr_of {α : Type} {l : List α} {n : Nat} {g : Nat → α} (hl : l.length = n)
    (h : ∀ i (hi : i < l.length), l[i] = g i) : l = arr n g := by
  apply List.ext_getElem
  · simpa using hl
  · intro i h1 h2
    rw [arr_getElem]
    exact h i h1

theorem seg_arr {α : Type} {n : Nat} {g : Nat → α} {a len : Nat} (h : a + len ≤ n) :
    seg (arr n g) a len = ok (arr len (fun i => g (a + i))) := by
  unfold seg
  rw [if_pos (by simpa using h)]
  congr 1
  apply eq_arr_of
  · simp; omega
  · intro i hi
    simp

theorem wrSeg_arr {α : Type} {n : Nat} {g : Nat → α} {a len : Nat} {x : Nat → α} (f : Nat → α)
    (h : a + len ≤ n)
    (H : ∀ i < n, f i = if a ≤ i ∧ i < a + len then x (i - a) else g i) :
    wrSeg (arr n g) a (arr len x) = ok (arr n f) := by
  unfold wrSeg
  rw [if_pos (by simpa using h)]
  congr 1
  apply eq_arr_of
  · simp; omega
  · intro i hi
    have hin : i < n := by
      simp at hi; omega
    rw [H i hin]
    by_cases h1 : i < a
    · rw [List.getElem_append_left (by simp; omega), List.getElem_append_left (by simp; omega)]
      have : ¬ (a ≤ i ∧ i < a + len) := by omega
      simp [this]
    · by_cases h2 : i < a + len
      · rw [List.getElem_append_left (by simp; omega),
          List.getElem_append_right (by simp; omega)]
        have h3 : a ≤ i ∧ i < a + len := by omega
        have h4 : min a n = a := by omega
        simp [h3, h4]
      · rw [List.getElem_append_right (by simp; omega)]
        have h3 : ¬ (a ≤ i ∧ i < a + len) := by omega
        have h4 : min a n = a := by omega
        rw [if_neg h3]
        simp [h4]
        congr 1
        omega

end NS
