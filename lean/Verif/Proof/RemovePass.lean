import Mathlib.Tactic.Module
import Verif.Model.RemoveKnot
import Verif.Proof.InsertKnot

/-!
# One pass of `remove_knot`
-/

set_option linter.unusedSectionVars false
set_option linter.unusedSimpArgs false

namespace NS.BSpline

open Outcome Spec

variable {K V : Type} [Field K] [LinearOrder K] [IsStrictOrderedRing K] [FloorRing K]
  [AddCommGroup V] [Module K V]

theorem rdI_of {α : Type} {l : List α} {i : ℤ} (n : ℕ) (h : i = n) : rdI l i = rd l n := by
  subst h; exact rdI_natCast l n

theorem wrI_of {α : Type} {l : List α} {i : ℤ} {a : α} (n : ℕ) (h : i = n) :
    wrI l i a = wr l n a := by
  subst h; exact wrI_natCast l n a

/-- Ratio used in pass `k`. -/
def remA (u : ℕ → K) (t : K) (p k i : ℕ) : K := (t - u i) / (u (i + p + 1 + k) - u i)

/-- Values solved from the left; `lft x` is the new point `f - 1 + x`. -/
def lft (al : ℕ → K) (D : ℕ → V) (f : ℕ) : ℕ → V
  | 0 => D (f - 1)
  | x + 1 => (1 / al (f + x)) • (D (f + x) - (1 - al (f + x)) • lft al D f x)

/-- Values solved from the right; `rgt y` is the new point `g - y`. -/
def rgt (al : ℕ → K) (D : ℕ → V) (g : ℕ) : ℕ → V
  | 0 => D (g + 1)
  | y + 1 => (1 / (1 - al (g - y))) • (D (g - y) - al (g - y) • rgt al D g y)

/-- One knot less: how the old points follow from the new ones. -/
def boehm (al : ℕ → K) (f g : ℕ) (D : ℕ → V) (i : ℕ) : V :=
  if i < f then D i else if i ≤ g then al i • D i + (1 - al i) • D (i - 1) else D (i - 1)

/-- What the test of a pass measures. -/
def resid (al : ℕ → K) (D : ℕ → V) (f g e : ℕ) : V :=
  if g + 1 = f + 2 * e then lft al D f e - rgt al D g e
  else D (f + e) - (al (f + e) • rgt al D g e + (1 - al (f + e)) • lft al D f e)

/-- Control points after a successful pass. -/
def passP (al : ℕ → K) (D : ℕ → V) (f g e k : ℕ) (P : ℕ → V) (i : ℕ) : V :=
  if f ≤ i ∧ i < f + e then lft al D f (i + 1 - f)
  else if g + k < i + e ∧ i ≤ g + k then rgt al D g (g + k + 1 - i)
  else P i

section

variable {u : List K} {t : K} {p k f g e N : ℕ} {D P : ℕ → V}

theorem quot_of {a b : K} (h : b ≠ 0) : quot a b = ok (a / b) := by
  unfold quot; rw [assert_true h]; rfl

theorem alphaL_eq {i : ℕ} (h : i + p + 1 + k < u.length)
    (hd : knot u (i + p + 1 + k) - knot u i ≠ 0) {x : ℤ} (hx : x = i) :
    alphaL u t (p : ℤ) (k : ℤ) x = ok (remA (knot u) t p k i) := by
  unfold alphaL
  rw [rdI_of i hx, rdI_of (i + p + 1 + k) (by omega), rd_knot (by omega), rd_knot (by omega)]
  simp only [ok_bind]
  rw [quot_of hd]; rfl

theorem alphaR_eq {i : ℕ} (h : i + p + 1 + k < u.length)
    (hd : knot u (i + p + 1 + k) - knot u i ≠ 0) {x : ℤ} (hx : x = ((i + k : ℕ) : ℤ)) :
    alphaR u t (p : ℤ) (k : ℤ) x = ok (remA (knot u) t p k i) := by
  unfold alphaR
  rw [rdI_of i (by omega), rdI_of (i + p + 1 + k) (by omega), rd_knot (by omega),
    rd_knot (by omega)]
  simp only [ok_bind]
  rw [quot_of hd]; rfl

/-- Side conditions of pass `k`. -/
structure PassOk (u : List K) (t : K) (p k f g e N : ℕ) : Prop where
  len : u.length = N + p + 1
  pos : 1 ≤ f
  top : g + k + 1 < N
  par : g + 1 = f + 2 * e ∨ g = f + 2 * e
  den : ∀ i, f ≤ i → i ≤ g → knot u (i + p + 1 + k) - knot u i ≠ 0
  lo : ∀ i, f ≤ i → i ≤ g → 0 < remA (knot u) t p k i
  hi : ∀ i, f ≤ i → i ≤ g → 0 < 1 - remA (knot u) t p k i

/-- The control points hold `D`, up to the gap. -/
structure Holds (k f g e N : ℕ) (D P : ℕ → V) : Prop where
  left : ∀ i, i < f + e → P i = D i
  mid : g = f + 2 * e → P (f + e) = D (f + e)
  right : ∀ j, j < N → g + k + 1 ≤ j + e → P j = D (j - k)

/-- Content of the temporary array after `x` steps. -/
def TempAt (al : ℕ → K) (D : ℕ → V) (k f g : ℕ) (x : ℕ) (τ : ℕ → V) : Prop :=
  ∀ y ≤ x, τ y = lft al D f y ∧ τ (g + k + 2 - f - y) = rgt al D g y

theorem solveLoop_eq (h : PassOk u t p k f g e N) (H : Holds k f g e N D P) :
    ∀ m x w τ, x + m = e → m ≤ w → TempAt (remA (knot u) t p k) D k f g x τ →
      ∃ τ', solveLoop u (arr N P) t (p : ℤ) (k : ℤ) w ((f + x : ℕ) : ℤ)
          ((g : ℤ) + k - x) ((1 + x : ℕ) : ℤ) ((g : ℤ) + k + 1 - f - x) (arr N τ)
        = ok (((f + e : ℕ) : ℤ), (g : ℤ) + k - e, ((1 + e : ℕ) : ℤ), (g : ℤ) + k + 1 - f - e,
            arr N τ') ∧ TempAt (remA (knot u) t p k) D k f g e τ' := by
  have hlen := h.len
  have hpos := h.pos
  have htop := h.top
  intro m
  induction m with
  | zero =>
    intro x w τ hx hw hτ
    have hx : x = e := by omega
    subst hx
    refine ⟨τ, ?_, hτ⟩
    unfold solveLoop
    rw [if_neg (by rcases h.par with h | h <;> omega)]
  | succ m ih =>
    intro x w τ hx hw hτ
    obtain ⟨w, rfl⟩ : ∃ w', w = w' + 1 := ⟨w - 1, by omega⟩
    set al := remA (knot u) t p k with hal
    have hpar : f + 2 * e ≤ g + 1 := by rcases h.par with h | h <;> omega
    have hxe : x < e := by omega
    have d1 := h.den (f + x) (by omega) (by omega)
    have d2 := h.den (g - x) (by omega) (by omega)
    have l1 := (h.lo (f + x) (by omega) (by omega)).ne'
    have l2 := (h.hi (g - x) (by omega) (by omega)).ne'
    unfold solveLoop
    rw [if_pos (by push_cast; omega)]
    simp only []
    rw [alphaL_eq (i := f + x) (by omega) d1 rfl, ok_bind,
      alphaR_eq (i := g - x) (by omega) d2 (by omega), ok_bind,
      rdI_of (f + x) rfl, rd_arr (by omega), ok_bind, H.left _ (by omega),
      rdI_of x (by push_cast; omega), rd_arr (by omega), ok_bind, (hτ x le_rfl).1,
      quot_of l1, ok_bind, wrI_of (1 + x) rfl,
      wr_arr (fun y => if y = 1 + x then lft al D f (x + 1) else τ y) (by omega)
        (by intro y hy; simp only [lft]; rfl), ok_bind,
      rdI_of (g + k - x) (by omega), rd_arr (by omega), ok_bind,
      H.right _ (by omega) (by omega), rdI_of (g + k + 2 - f - x) (by omega),
      rd_arr (by omega), ok_bind, if_neg (by omega), (hτ x le_rfl).2, quot_of l2, ok_bind,
      wrI_of (g + k + 1 - f - x) (by omega),
      wr_arr (fun y => if y = g + k + 1 - f - x then rgt al D g (x + 1)
        else if y = 1 + x then lft al D f (x + 1) else τ y) (by omega)
        (by
          intro y hy
          simp only [rgt]
          rw [show g + k - x - k = g - x by omega]), ok_bind]
    obtain ⟨τ', e1, e2⟩ := ih (x + 1) w (fun y => if y = g + k + 1 - f - x then rgt al D g (x + 1)
        else if y = 1 + x then lft al D f (x + 1) else τ y) (by omega) (by omega) (by
      intro y hy
      constructor
      · dsimp only
        rw [if_neg (by omega)]
        by_cases hy' : y = 1 + x
        · rw [if_pos hy', hy', Nat.add_comm]
        · rw [if_neg hy']
          exact (hτ y (by omega)).1
      · dsimp only
        by_cases hy' : y = x + 1
        · rw [if_pos (by omega), hy']
        · rw [if_neg (by omega), if_neg (by omega)]
          exact (hτ y (by omega)).2)
    refine ⟨τ', ?_, e2⟩
    rw [← e1]
    congr 1 <;> (push_cast; ring)

theorem residual_eq (h : PassOk u t p k f g e N) (H : Holds k f g e N D P) {τ : ℕ → V}
    (hτ : TempAt (remA (knot u) t p k) D k f g e τ) :
    residual u (arr N P) (arr N τ) t (p : ℤ) (k : ℤ) ((f + e : ℕ) : ℤ) ((g : ℤ) + k - e)
        ((1 + e : ℕ) : ℤ) ((g : ℤ) + k + 1 - f - e)
      = ok (resid (remA (knot u) t p k) D f g e) := by
  have hlen := h.len
  have hpos := h.pos
  have htop := h.top
  have hpar : f + 2 * e ≤ g + 1 := by rcases h.par with h | h <;> omega
  unfold residual resid
  by_cases hc : g + 1 = f + 2 * e
  · rw [if_pos (by push_cast; omega), if_pos hc, rdI_of e (by push_cast; omega), rd_arr (by omega),
      ok_bind, rdI_of (g + k + 2 - f - e) (by omega), rd_arr (by omega), ok_bind, (hτ e le_rfl).1,
      (hτ e le_rfl).2]
    rfl
  · have hg : g = f + 2 * e := by rcases h.par with h | h <;> omega
    rw [if_neg (by push_cast; omega), if_neg hc,
      alphaL_eq (i := f + e) (by omega) (h.den _ (by omega) (by omega)) rfl, ok_bind,
      rdI_of (f + e) rfl, rd_arr (by omega), ok_bind, H.mid hg,
      rdI_of (g + k + 2 - f - e) (by push_cast; omega), rd_arr (by omega), ok_bind,
      rdI_of e (by push_cast; omega), rd_arr (by omega), ok_bind, (hτ e le_rfl).1,
      (hτ e le_rfl).2]
    rfl

theorem storeLoop_eq (h : PassOk u t p k f g e N) {τ : ℕ → V}
    (hτ : TempAt (remA (knot u) t p k) D k f g e τ) :
    ∀ m x w, x + m = e → m ≤ w →
      storeLoop (arr N τ) (k : ℤ) ((f : ℤ) - 1) w ((f + x : ℕ) : ℤ) ((g : ℤ) + k - x)
          (arr N (passP (remA (knot u) t p k) D f g x k P))
        = ok (arr N (passP (remA (knot u) t p k) D f g e k P)) := by
  have hlen := h.len
  have hpos := h.pos
  have htop := h.top
  intro m
  induction m with
  | zero =>
    intro x w hx hw
    have hx : x = e := by omega
    subst hx
    unfold storeLoop
    rw [if_neg (by rcases h.par with h | h <;> omega)]
  | succ m ih =>
    intro x w hx hw
    obtain ⟨w, rfl⟩ : ∃ w', w = w' + 1 := ⟨w - 1, by omega⟩
    set al := remA (knot u) t p k with hal
    have hpar : f + 2 * e ≤ g + 1 := by rcases h.par with h | h <;> omega
    unfold storeLoop
    rw [if_pos (by push_cast; omega)]
    simp only []
    rw [rdI_of (x + 1) (by push_cast; omega), rd_arr (by omega), ok_bind, (hτ (x + 1) (by omega)).1,
      wrI_of (f + x) rfl, wr_arr (fun i => if i = f + x then lft al D f (x + 1)
        else passP al D f g x k P i) (by omega) (by intro y hy; rfl), ok_bind,
      rdI_of (g + k + 2 - f - (x + 1)) (by omega), rd_arr (by omega), ok_bind,
      (hτ (x + 1) (by omega)).2, wrI_of (g + k - x) (by omega),
      wr_arr (passP al D f g (x + 1) k P) (by omega) (by
        intro y hy
        unfold passP
        by_cases h1 : y = g + k - x
        · rw [if_pos h1, if_neg (by omega), if_pos (by omega)]
          congr 1; omega
        · rw [if_neg h1]
          by_cases h2 : y = f + x
          · rw [if_pos h2, if_pos (by omega)]
            congr 1; omega
          · rw [if_neg h2]
            by_cases h3 : f ≤ y ∧ y < f + x
            · rw [if_pos h3, if_pos (by omega)]
            · rw [if_neg h3, if_neg (by omega)]
              by_cases h4 : g + k < y + x ∧ y ≤ g + k
              · rw [if_pos h4, if_pos (by omega)]
              · rw [if_neg h4, if_neg (by omega)]), ok_bind]
    rw [← ih (x + 1) w (by omega) (by omega)]
    congr 1 <;> (push_cast; ring)

/-- One pass of the loop. -/
theorem removeLoop_succ (nrm : V → K) (tol : K) (w : ℕ) (h : PassOk u t p k f g e N)
    (H : Holds k f g e N D P) (τ : ℕ → V) :
    ∃ τ', removeLoop nrm u t tol (p : ℤ) (w + 1) k (f : ℤ) ((g : ℤ) + k) (arr N P) (arr N τ)
      = if nrm (resid (remA (knot u) t p k) D f g e) > tol then ok (k, arr N P)
        else removeLoop nrm u t tol (p : ℤ) w (k + 1) ((f : ℤ) - 1) ((g : ℤ) + k + 1)
          (arr N (passP (remA (knot u) t p k) D f g e k P)) (arr N τ') := by
  have hlen := h.len
  have hpos := h.pos
  have htop := h.top
  set al := remA (knot u) t p k with hal
  have hpar : f + 2 * e ≤ g + 1 := by rcases h.par with h | h <;> omega
  obtain ⟨τ', e1, e2⟩ := solveLoop_eq h H e 0 (((g : ℤ) + k - f).toNat + 1)
    (fun y => if y = g + k + 2 - f then D (g + 1) else if y = 0 then D (f - 1) else τ y)
    (by omega) (by omega) (by
      intro y hy
      have : y = 0 := by omega
      subst this
      dsimp only
      constructor
      · rw [if_neg (by omega), if_pos rfl]; rfl
      · rw [if_pos (by omega)]; rfl)
  refine ⟨τ', ?_⟩
  rw [removeLoop]
  simp only []
  rw [rdI_of (f - 1) (by omega), rd_arr (by omega), ok_bind, H.left _ (by omega),
    wrI_of 0 (by simp), wr_arr (fun y => if y = 0 then D (f - 1) else τ y) (by omega)
      (by intro y hy; rfl), ok_bind, rdI_of (g + k + 1) (by push_cast; rfl), rd_arr (by omega),
    ok_bind, H.right _ (by omega) (by omega), wrI_of (g + k + 2 - f) (by omega),
    wr_arr (fun y => if y = g + k + 2 - f then D (g + 1) else if y = 0 then D (f - 1) else τ y)
      (by omega) (by
        intro y hy
        rw [show g + k + 1 - k = g + 1 by omega]), ok_bind]
  have a1 : ((f + 0 : ℕ) : ℤ) = (f : ℤ) := by simp
  have a2 : (g : ℤ) + k - ((0 : ℕ) : ℤ) = (g : ℤ) + k := by simp
  have a3 : ((1 + 0 : ℕ) : ℤ) = 1 := by simp
  have a4 : (g : ℤ) + k + 1 - f - ((0 : ℕ) : ℤ) = (g : ℤ) + k - ((f : ℤ) - 1) := by push_cast; ring
  rw [a1, a2, a3, a4] at e1
  rw [e1, ok_bind, residual_eq h H e2, ok_bind]
  by_cases hn : nrm (resid al D f g e) > tol
  · rw [if_pos hn, if_pos hn]
  · rw [if_neg hn, if_neg hn]
    have := storeLoop_eq (P := P) h e2 e 0 (((g : ℤ) + k - f).toNat + 1) (by omega) (by omega)
    rw [a1, a2, show passP (remA (knot u) t p k) D f g 0 k P = P by
      funext i; unfold passP; rw [if_neg (by omega), if_neg (by omega)]] at this
    rw [this, ok_bind]

/-! ### Meaning of a pass -/

/-- The two solutions, glued at `q`. -/
def glue (k q : ℕ) (P : ℕ → V) (i : ℕ) : V := if i < q then P i else P (i + k)

theorem passP_left (h : PassOk u t p k f g e N) (H : Holds k f g e N D P) {i : ℕ}
    (hi : i < f + e) :
    passP (remA (knot u) t p k) D f g e k P i
      = if i < f then D i else lft (remA (knot u) t p k) D f (i + 1 - f) := by
  have hpar : f + 2 * e ≤ g + 1 := by rcases h.par with h | h <;> omega
  unfold passP
  by_cases h1 : i < f
  · rw [if_neg (by omega), if_pos h1, if_neg (by omega), H.left i hi]
  · rw [if_pos (by omega), if_neg h1]

theorem passP_right (h : PassOk u t p k f g e N) (H : Holds k f g e N D P) {i : ℕ}
    (hi : g ≤ i + e) (hN : i + k + 1 < N) :
    passP (remA (knot u) t p k) D f g e k P (i + k + 1)
      = if g ≤ i then D (i + 1) else rgt (remA (knot u) t p k) D g (g - i) := by
  have hpar : f + 2 * e ≤ g + 1 := by rcases h.par with h | h <;> omega
  unfold passP
  by_cases h1 : g ≤ i
  · rw [if_neg (by omega), if_neg (by omega), if_pos h1, H.right _ hN (by omega)]
    congr 1; omega
  · rw [if_neg (by omega), if_pos (by omega), if_neg h1]
    congr 1; omega

theorem lft_solve (h : PassOk u t p k f g e N) {x : ℕ} (hx : f + x ≤ g) :
    D (f + x) = remA (knot u) t p k (f + x) • lft (remA (knot u) t p k) D f (x + 1)
      + (1 - remA (knot u) t p k (f + x)) • lft (remA (knot u) t p k) D f x := by
  have := (h.lo (f + x) (by omega) hx).ne'
  rw [lft, smul_smul, mul_one_div_cancel this, one_smul]
  abel

theorem rgt_solve (h : PassOk u t p k f g e N) {y : ℕ} (hy : f + y ≤ g) :
    D (g - y) = remA (knot u) t p k (g - y) • rgt (remA (knot u) t p k) D g y
      + (1 - remA (knot u) t p k (g - y)) • rgt (remA (knot u) t p k) D g (y + 1) := by
  have := (h.hi (g - y) (by omega) (by omega)).ne'
  rw [rgt, smul_smul, mul_one_div_cancel this, one_smul]
  abel

/-- The old points follow from the new ones by one insertion, except at one point where a part of
the measured vector is missing. -/
theorem pass_near (h : PassOk u t p k f g e N) (H : Holds k f g e N D P) {q : ℕ}
    (hq1 : g ≤ q + e) (hq2 : q ≤ f + e) :
    ∃ i0 : ℕ, ∃ θ : K, |θ| ≤ 1 ∧ ∀ i, i + k < N →
      D i = boehm (remA (knot u) t p k) f g
          (glue (k + 1) q (passP (remA (knot u) t p k) D f g e k P)) i
        + (if i = i0 then θ else 0) • resid (remA (knot u) t p k) D f g e := by
  have hpos := h.pos
  have htop := h.top
  set al := remA (knot u) t p k with hal
  set D' := glue (k + 1) q (passP al D f g e k P) with hD'
  have hpar : f + 2 * e ≤ g + 1 := by rcases h.par with h | h <;> omega
  have dL : ∀ i, i < q → D' i = if i < f then D i else lft al D f (i + 1 - f) := by
    intro i hi
    rw [hD', glue, if_pos hi, passP_left h H (by omega)]
  have dR : ∀ i, q ≤ i → i + k + 1 < N → D' i = if g ≤ i then D (i + 1) else rgt al D g (g - i) := by
    intro i hi hN
    rw [hD', glue, if_neg (by omega)]
    exact passP_right h H (by omega) hN
  have dL' : ∀ x, 1 ≤ f → f - 1 + x < q → D' (f - 1 + x) = lft al D f x := by
    intro x hf hx
    rw [dL _ hx]
    rcases Nat.eq_zero_or_pos x with rfl | hx0
    · rw [if_pos (by omega)]; rfl
    · rw [if_neg (by omega)]
      congr 1; omega
  have dR' : ∀ y ≤ g, q + y ≤ g → D' (g - y) = rgt al D g y := by
    intro y hy hx
    rw [dR _ (by omega) (by omega)]
    rcases Nat.eq_zero_or_pos y with rfl | hx0
    · rw [if_pos (by omega)]; rfl
    · rw [if_neg (by omega)]
      congr 1; omega
  -- equations away from the gluing point
  have low : ∀ i, i < q → i < f → D i = boehm al f g D' i := by
    intro i h1 h2
    rw [boehm, if_pos h2, dL i h1, if_pos h2]
  have left : ∀ i, i < q → f ≤ i → i ≤ g → D i = boehm al f g D' i := by
    intro i h1 h2 h3
    obtain ⟨x, rfl⟩ : ∃ x, i = f + x := ⟨i - f, by omega⟩
    rw [boehm, if_neg (by omega), if_pos h3, show f + x - 1 = f - 1 + x by omega,
      dL' x hpos (by omega)]
    conv_rhs => rw [show D' (f + x) = lft al D f (x + 1) by
      rw [← dL' (x + 1) hpos (by omega)]; congr 1; omega]
    exact lft_solve h h3
  have right : ∀ i, q < i → f ≤ i → i ≤ g → D i = boehm al f g D' i := by
    intro i h1 h2 h3
    obtain ⟨y, rfl, hy⟩ : ∃ y, i = g - y ∧ y ≤ g := ⟨g - i, by omega, by omega⟩
    rw [boehm, if_neg (by omega), if_pos h3, show g - y - 1 = g - (y + 1) by omega,
      dR' y hy (by omega), dR' (y + 1) (by omega) (by omega)]
    exact rgt_solve h (by omega)
  have high : ∀ i, q < i → g < i → f ≤ i → i + k < N → D i = boehm al f g D' i := by
    intro i h1 h2 h3 h4
    rw [boehm, if_neg (by omega), if_neg (by omega), dR (i - 1) (by omega) (by omega),
      if_pos (by omega)]
    congr 1; omega
  have away : ∀ i, i ≠ q → i + k < N → D i = boehm al f g D' i := by
    intro i hi hN
    rcases Nat.lt_or_gt_of_ne hi with h1 | h1
    · rcases Nat.lt_or_ge i f with h2 | h2
      · exact low i h1 h2
      · exact left i h1 h2 (by omega)
    · rcases Nat.lt_or_ge g i with h2 | h2
      · exact high i h1 h2 (by omega) hN
      · exact right i h1 (by omega) h2
  -- the gluing point
  suffices hs : ∃ θ : K, |θ| ≤ 1 ∧ D q = boehm al f g D' q + θ • resid al D f g e by
    obtain ⟨θ, h1, h2⟩ := hs
    refine ⟨q, θ, h1, ?_⟩
    intro i hi
    by_cases hiq : i = q
    · rw [if_pos hiq, hiq]; exact h2
    · rw [if_neg hiq, zero_smul, add_zero]; exact away i hiq hi
  have le1 : ∀ i, f ≤ i → i ≤ g → |al i| ≤ 1 := by
    intro i h1 h2
    have a := h.lo i h1 h2
    have b := h.hi i h1 h2
    rw [abs_of_pos a]; linarith
  have le2 : ∀ i, f ≤ i → i ≤ g → |1 - al i| ≤ 1 := by
    intro i h1 h2
    have a := h.lo i h1 h2
    have b := h.hi i h1 h2
    rw [abs_of_pos b]; linarith
  by_cases hodd : g + 1 = f + 2 * e
  · have hres : resid al D f g e = lft al D f e - rgt al D g e := by rw [resid, if_pos hodd]
    by_cases hqe : q = f + e
    · -- the left solution is taken
      have hl : D' (q - 1) = lft al D f e := by
        rw [show q - 1 = f - 1 + e by omega, dL' e hpos (by omega)]
      rcases Nat.eq_zero_or_pos e with he | he
      · refine ⟨-1, by simp, ?_⟩
        rw [boehm, if_neg (by omega), if_neg (by omega), hl, hres, he, rgt,
          show q = g + 1 by omega]
        module
      · refine ⟨-(1 - al q), by rw [abs_neg]; exact le2 q (by omega) (by omega), ?_⟩
        rw [boehm, if_neg (by omega), if_pos (by omega), hl, hres]
        have e1 := rgt_solve (D := D) h (y := e - 1) (by omega)
        rw [show g - (e - 1) = q by omega, show e - 1 + 1 = e by omega,
          ← dR' (e - 1) (by omega) (by omega), show g - (e - 1) = q by omega] at e1
        rw [e1]
        module
    · have hqe : q + 1 = f + e := by omega
      have hr : D' q = rgt al D g e := by
        rw [← dR' e (by omega) (by omega)]; congr 1; omega
      rcases Nat.eq_zero_or_pos e with he | he
      · refine ⟨1, by simp, ?_⟩
        rw [boehm, if_pos (by omega), hr, hres, he, lft, show q = f - 1 by omega]
        module
      · refine ⟨al q, le1 q (by omega) (by omega), ?_⟩
        rw [boehm, if_neg (by omega), if_pos (by omega), hr, hres]
        have e1 := lft_solve (D := D) h (x := e - 1) (by omega)
        rw [show f + (e - 1) = q by omega, show e - 1 + 1 = e by omega,
          ← dL' (e - 1) hpos (by omega), show f - 1 + (e - 1) = q - 1 by omega] at e1
        rw [e1]
        module
  · have hg : g = f + 2 * e := by rcases h.par with h | h <;> omega
    have hq : q = f + e := by omega
    refine ⟨1, by simp, ?_⟩
    rw [boehm, if_neg (by omega), if_pos (by omega), resid, if_neg hodd,
      show D' q = rgt al D g e by rw [← dR' e (by omega) (by omega)]; congr 1; omega,
      show D' (q - 1) = lft al D f e by rw [← dL' e hpos (by omega)]; congr 1; omega, hq]
    module

/-- If the old points do follow from points `E` by one insertion, the pass finds `E`. -/
theorem pass_exact (h : PassOk u t p k f g e N) (H : Holds k f g e N D P) {E : ℕ → V}
    (hE : ∀ i, i + k < N → D i = boehm (remA (knot u) t p k) f g E i) :
    resid (remA (knot u) t p k) D f g e = 0 ∧
    (∀ i, i < f + e → passP (remA (knot u) t p k) D f g e k P i = E i) ∧
    (∀ i, g ≤ i + e → i + k + 1 < N →
      passP (remA (knot u) t p k) D f g e k P (i + k + 1) = E i) := by
  have hpos := h.pos
  have htop := h.top
  set al := remA (knot u) t p k with hal
  have hpar : f + 2 * e ≤ g + 1 := by rcases h.par with h | h <;> omega
  have hL : ∀ x, x ≤ e → lft al D f x = E (f - 1 + x) := by
    intro x
    induction x with
    | zero =>
      intro _
      rw [lft, hE _ (by omega), boehm, if_pos (by omega)]; rfl
    | succ x ih =>
      intro hx
      have a := h.lo (f + x) (by omega) (by omega)
      rw [lft, hE _ (by omega), boehm, if_neg (by omega), if_pos (by omega), ih (by omega),
        show f + x - 1 = f - 1 + x by omega, add_sub_cancel_right, smul_smul,
        one_div_mul_cancel a.ne', one_smul]
      congr 1; omega
  have hR : ∀ y, y ≤ e → rgt al D g y = E (g - y) := by
    intro y
    induction y with
    | zero =>
      intro _
      rw [rgt, hE _ (by omega), boehm, if_neg (by omega), if_neg (by omega)]; rfl
    | succ y ih =>
      intro hx
      have a := h.hi (g - y) (by omega) (by omega)
      rw [rgt, hE _ (by omega), boehm, if_neg (by omega), if_pos (by omega), ih (by omega),
        show g - y - 1 = g - (y + 1) by omega, add_sub_cancel_left, smul_smul,
        one_div_mul_cancel a.ne', one_smul]
  refine ⟨?_, ?_, ?_⟩
  · unfold resid
    split_ifs with hodd
    · rw [hL e le_rfl, hR e le_rfl, sub_eq_zero]
      congr 1; omega
    · have hg : g = f + 2 * e := by rcases h.par with h | h <;> omega
      rw [hE _ (by omega), boehm, if_neg (by omega), if_pos (by omega), hL e le_rfl, hR e le_rfl,
        show g - e = f + e by omega, show f + e - 1 = f - 1 + e by omega, sub_self]
  · intro i hi
    rw [passP_left h H hi]
    split_ifs with hf
    · rw [hE _ (by omega), boehm, if_pos hf]
    · rw [hL _ (by omega)]
      congr 1; omega
  · intro i hi hN
    rw [passP_right h H hi hN]
    split_ifs with hf
    · rw [hE _ (by omega), boehm, if_neg (by omega), if_neg (by omega)]; rfl
    · rw [hR _ (by omega)]
      congr 1; omega

end

end NS.BSpline
