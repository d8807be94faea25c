import Verif.Model.IeeeSearch
import Verif.Proof.Ieee
import Verif.Proof.IeeeFormat
import Verif.Proof.FloatSearch

/-!
# Closest point searches on IEEE numbers
-/

set_option linter.unusedSectionVars false

namespace NS.Ieee

open Outcome

variable {K ι : Type} [Field K] [LinearOrder K] [IsStrictOrderedRing K] [FloorRing K]

/-- A finite number of the format between two bounds. -/
def Num.In (A : Format K) (lo hi : K) (x : Num K) : Prop :=
  ∃ y, x = .fin y ∧ A.rnd y = y ∧ lo ≤ y ∧ y ≤ hi

namespace Format

variable (A : Format K)

theorem le_rnd {a x : K} (ha : A.rnd a = a) (h : a ≤ x) : a ≤ A.rnd x := by
  have := A.mono _ _ h
  rwa [ha] at this

theorem rnd_le {a x : K} (ha : A.rnd a = a) (h : x ≤ a) : A.rnd x ≤ a := by
  have := A.mono _ _ h
  rwa [ha] at this

theorem rnd_min {a b : K} (ha : A.rnd a = a) (hb : A.rnd b = b) : A.rnd (min a b) = min a b := by
  rcases min_choice a b with h | h <;> rw [h] <;> assumption

theorem rnd_max {a b : K} (ha : A.rnd a = a) (hb : A.rnd b = b) : A.rnd (max a b) = max a b := by
  rcases max_choice a b with h | h <;> rw [h] <;> assumption

theorem neg_rnd {a : K} (ha : A.rnd a = a) : A.rnd (-a) = -a := by rw [A.odd, ha]

/-- A rounded number beyond the largest one has the sign of the number. -/
theorem round_pos {x : K} (h : A.big < A.rnd x) : A.round (.fin x) = .inf false := by
  have hx : 0 ≤ x := by
    by_contra hx
    have := A.mono x 0 (not_le.1 hx).le
    rw [A.zero] at this
    linarith [A.big_pos]
  simp only [round]
  rw [if_neg (by rw [not_le]; exact h.trans_le (le_abs_self _))]
  simp [not_lt.2 hx]

theorem round_neg {x : K} (h : A.rnd x < -A.big) : A.round (.fin x) = .inf true := by
  have hx : x < 0 := by
    by_contra hx
    have := A.nonneg (not_lt.1 hx)
    linarith [A.big_pos]
  simp only [round]
  rw [if_neg (by rw [not_le]; exact lt_of_lt_of_le (by linarith) (neg_le_abs _))]
  simp [hx]

theorem sub_fin_fin (x y : K) : A.sub (.fin x) (.fin y) = A.round (.fin (x - y)) := by
  simp [sub, Num.neg, Num.add, sub_eq_add_neg]

theorem round_ne_nan (x : K) : A.round (.fin x) ≠ .nan := by
  simp only [round]
  split <;> simp

end Format

/-! ### `std::min` and `std::max` -/

theorem stdMin_fin (a b : K) : Num.stdMin (.fin a) (.fin b) = Num.fin (min a b) := by
  unfold Num.stdMin Num.lt
  by_cases h : b < a
  · simp [h, min_eq_right h.le]
  · simp [h, min_eq_left (not_lt.1 h)]

theorem stdMax_fin (a b : K) : Num.stdMax (.fin a) (.fin b) = Num.fin (max a b) := by
  unfold Num.stdMax Num.lt
  by_cases h : a < b
  · simp [h, max_eq_right h.le]
  · simp [h, max_eq_left (not_lt.1 h)]

/-- Clamping hides an overflow. -/
theorem clamp_round (A : Format K) {lo hi : K} (x : K) (h : lo ≤ hi) (h1 : -A.big ≤ lo)
    (h2 : hi ≤ A.big) :
    Num.stdMin (Num.stdMax (A.round (.fin x)) (.fin lo)) (.fin hi)
      = .fin (min (max (A.rnd x) lo) hi) := by
  by_cases c1 : A.big < A.rnd x
  · rw [A.round_pos c1, min_eq_right (h2.trans (c1.le.trans (le_max_left _ _)))]
    simp [Num.stdMax, Num.stdMin, Num.lt]
  by_cases c2 : A.rnd x < -A.big
  · rw [A.round_neg c2, max_eq_right (c2.le.trans h1), min_eq_left h]
    simp [Num.stdMax, Num.stdMin, Num.lt, not_lt.2 h]
  · rw [A.round_fin (abs_le.2 ⟨not_lt.1 c2, not_lt.1 c1⟩), stdMax_fin, stdMin_fin]

theorem max_round (A : Format K) {lo : K} (x : K) (h1 : -A.big ≤ lo) (h2 : A.rnd x ≤ A.big) :
    Num.stdMax (A.round (.fin x)) (.fin lo) = .fin (max (A.rnd x) lo) := by
  by_cases c2 : A.rnd x < -A.big
  · rw [A.round_neg c2, max_eq_right (c2.le.trans h1)]
    simp [Num.stdMax, Num.lt]
  · rw [A.round_fin (abs_le.2 ⟨not_lt.1 c2, h2⟩), stdMax_fin]

theorem min_round (A : Format K) {hi : K} (x : K) (h1 : hi ≤ A.big) (h2 : -A.big ≤ A.rnd x) :
    Num.stdMin (A.round (.fin x)) (.fin hi) = .fin (min (A.rnd x) hi) := by
  by_cases c1 : A.big < A.rnd x
  · rw [A.round_pos c1, min_eq_right (h1.trans c1.le)]
    simp [Num.stdMin, Num.lt]
  · rw [A.round_fin (abs_le.2 ⟨h2, not_lt.1 c1⟩), stdMin_fin]

/-! ### Sampling of curves -/

/-- The computed upper end of a range. -/
def top (A : Format K) (lo hi : K) : K := A.rnd (lo + A.rnd (hi - lo))

/-- A range of the format that does not overflow, not even by rounding. -/
structure Range (A : Format K) (lo hi : K) : Prop where
  flo : A.rnd lo = lo
  fhi : A.rnd hi = hi
  le : lo ≤ hi
  neg_big : -A.big ≤ lo
  width : hi - lo ≤ A.big
  reach : hi + A.unit * (hi - lo) ≤ A.big

theorem Range.le_big {A : Format K} {lo hi : K} (h : Range A lo hi) : hi ≤ A.big := by
  have := mul_nonneg A.unit_nonneg (sub_nonneg.2 h.le)
  linarith [h.reach]

theorem Range.sub {A : Format K} {lo hi a b : K} (h : Range A lo hi) (fa : A.rnd a = a)
    (fb : A.rnd b = b) (h1 : lo ≤ a) (h2 : a ≤ b) (h3 : b ≤ hi) : Range A a b := by
  have := mul_le_mul_of_nonneg_left (by linarith : b - a ≤ hi - lo) A.unit_nonneg
  exact ⟨fa, fb, h2, h.neg_big.trans h1, by linarith [h.width], by linarith [h.reach]⟩

theorem Range.width_near {A : Format K} {lo hi : K} (h : Range A lo hi) :
    A.rnd (hi - lo) ≤ (hi - lo) + A.unit * (hi - lo) := by
  have := A.sum_near hi (-lo) h.fhi (A.neg_rnd h.flo)
  rw [← sub_eq_add_neg, abs_of_nonneg (sub_nonneg.2 h.le)] at this
  linarith [(abs_le.1 this).2]

theorem Range.width_fin {A : Format K} {lo hi : K} (h : Range A lo hi) :
    A.sub (.fin hi) (.fin lo) = .fin (A.rnd (hi - lo)) :=
  A.sub_fin (by rw [abs_of_nonneg (sub_nonneg.2 h.le)]; exact h.width)

/-- Small counts are converted without overflow. -/
theorem cast_fin (A : Format K) {n : ℕ} (h : (n : K) ≤ A.big) :
    A.round (.fin (n : K)) = .fin (A.rnd (n : K)) :=
  A.round_fin (A.abs_le_big (by rwa [abs_of_nonneg (Nat.cast_nonneg _)]))

theorem cast_pos (A : Format K) {n : ℕ} (h : 0 < n) : 0 < A.rnd (n : K) :=
  lt_of_lt_of_le one_pos (A.le_rnd A.one (by exact_mod_cast h))

theorem abs_le_of_mem {A : Format K} {x : K} (h0 : 0 ≤ x) (h1 : x ≤ A.big) : |x| ≤ A.big := by
  rwa [abs_of_nonneg h0]

theorem searchParam_mem {A : Format K} (f : Fuse) {lo hi : K} (h : Range A lo hi) {num i : ℕ}
    (hn : 0 < num) (hb : (num : K) ≤ A.big) (hi' : i ≤ num) :
    Num.In A lo (top A lo hi) (searchParam A f (.fin lo) (.fin hi) num i) := by
  have hiK : (0 : K) ≤ A.rnd (i : K) := A.nonneg (Nat.cast_nonneg _)
  have hnK := cast_pos A hn
  have hle : A.rnd (i : K) ≤ A.rnd (num : K) := A.mono _ _ (by exact_mod_cast hi')
  have s0 : 0 ≤ A.rnd (i : K) / A.rnd (num : K) := div_nonneg hiK hnK.le
  have s1 : A.rnd (i : K) / A.rnd (num : K) ≤ 1 := div_le_one_of_le₀ hle hnK.le
  have r0 := A.nonneg s0
  have r1 := A.le_one s1
  have hd : A.rnd (A.rnd (hi - lo)) = A.rnd (hi - lo) := A.idem _
  have d0 : 0 ≤ A.rnd (hi - lo) := A.nonneg (sub_nonneg.2 h.le)
  have dn := h.width_near
  have dB : A.rnd (hi - lo) ≤ A.big := A.rnd_le A.big_float h.width
  unfold searchParam
  rw [cast_fin A ((Nat.cast_le.2 hi').trans hb), cast_fin A hb, h.width_fin]
  simp only [Num.div]
  rw [if_neg hnK.ne', A.round_fin (A.abs_le_big (abs_le_of_mem s0 (s1.trans A.one_le_big)))]
  unfold top
  generalize A.rnd (A.rnd (i : K) / A.rnd (num : K)) = s at *
  generalize A.rnd (hi - lo) = d at *
  have p0 : 0 ≤ s * d := mul_nonneg r0 d0
  have p1 : s * d ≤ d := by nlinarith
  have q0 : 0 ≤ A.rnd (s * d) := A.nonneg p0
  have q1 : A.rnd (s * d) ≤ d := A.rnd_le hd p1
  have eP : A.round (.fin (s * d)) = .fin (A.rnd (s * d)) :=
    A.round_fin (A.abs_le_big (abs_le_of_mem p0 (p1.trans dB)))
  have eL : A.round (.fin lo) = .fin lo :=
    A.round_float h.flo (abs_le.2 ⟨h.neg_big, h.le.trans h.le_big⟩)
  have fin : ∀ x, 0 ≤ x → x ≤ d → A.round (.fin (x + lo)) = .fin (A.rnd (x + lo)) ∧
      A.rnd (A.rnd (x + lo)) = A.rnd (x + lo) ∧ lo ≤ A.rnd (x + lo) ∧
      A.rnd (x + lo) ≤ A.rnd (lo + d) := by
    intro x x0 x1
    refine ⟨A.round_fin (A.abs_le_big (abs_le.2 ⟨?_, ?_⟩)), A.idem _,
      A.le_rnd h.flo (by linarith), A.mono _ _ (by linarith)⟩
    · linarith [h.neg_big]
    · linarith [h.reach]
  cases f <;> simp only [Format.combine, Num.mul, Num.add, one_mul, eL, eP]
  · exact ⟨_, fin _ q0 q1⟩
  · exact ⟨_, fin _ p0 p1⟩
  · exact ⟨_, fin _ q0 q1⟩

/-- The closest sample is a sample, or `0.0` if no distance is below the largest number. -/
theorem closestSample_mem {A : Format K} {f : ℕ → Fuse} {dist : Num K → Outcome (Num K)} {num : ℕ}
    {lo hi : K} (h : Range A lo hi) (hn : 0 < num) (hb : (num : K) ≤ A.big) {z : Prop}
    (hz : (∀ t d, dist t = ok d → d.lt (.fin A.big)) ∨ z) {s : Num K × Num K}
    (e : closestSample A f dist num (.fin lo) (.fin hi) = ok s) :
    (z ∧ s.2 = .fin 0) ∨ Num.In A lo (top A lo hi) s.2 := by
  unfold closestSample at e
  have := loop_inv_of_ok (fun n (s : Num K × Num K) =>
    ((n = 0 ∨ z) ∧ s = (.fin A.big, .fin 0)) ∨ Num.In A lo (top A lo hi) s.2) (num + 1)
    (fun i s => do
      let t := searchParam A (f i) (.fin lo) (.fin hi) num i
      let d ← dist t
      pure (if d.lt s.1 then (d, t) else s)) (.fin A.big, .fin 0) (Or.inl ⟨Or.inl rfl, rfl⟩) (by
    intro i hi' s s' hs hs'
    dsimp only at hs'
    rw [bind_eq_ok] at hs'
    obtain ⟨d, ed, hs'⟩ := hs'
    rw [pure_eq, ok.injEq] at hs'
    subst hs'
    have hm := searchParam_mem (f i) h hn hb (by omega : i ≤ num)
    rcases hs with ⟨h0, rfl⟩ | hs
    · by_cases c : d.lt (.fin A.big)
      · rw [if_pos c]; exact Or.inr hm
      · rw [if_neg c]
        rcases hz with hz | hz
        · exact absurd (hz _ _ ed) c
        · exact Or.inl ⟨Or.inr hz, rfl⟩
    · split
      · exact Or.inr hm
      · exact Or.inr hs) s e
  rcases this with ⟨h0 | h0, rfl⟩ | h0
  · omega
  · exact Or.inl ⟨h0, rfl⟩
  · exact Or.inr h0

/-! ### Newton's method on curves -/

/-- NaN, or a finite number with a property. -/
def Num.NanOr (P : K → Prop) (x : Num K) : Prop := x = .nan ∨ ∃ y, x = .fin y ∧ P y

theorem newtonCurve_mem {A : Format K} {g : Num K → Outcome (Num K × Num K)} {tol : Num K}
    {lower upper : K} {P : K → Prop} (hlu : lower ≤ upper) (hP : ∀ y, lower ≤ y → y ≤ upper → P y)
    (n : ℕ) : ∀ {t prevT prevErr r : Num K},
      newtonCurve A g tol (.fin lower) (.fin upper) n t prevT prevErr = ok r →
      t.NanOr P → prevT.NanOr P → r.NanOr P := by
  induction n with
  | zero =>
    intro t prevT prevErr r h h1 _
    rw [newtonCurve, ok.injEq] at h
    exact h ▸ h1
  | succ n ih =>
    intro t prevT prevErr r h h1 h2
    rw [newtonCurve, bind_eq_ok] at h
    obtain ⟨s, -, h⟩ := h
    dsimp only at h
    generalize A.sub t s.2 = t' at h
    split at h
    · rw [ok.injEq] at h; exact h ▸ h1
    split at h
    · rw [ok.injEq] at h; exact h ▸ h2
    split at h
    · rw [ok.injEq] at h; exact h ▸ Or.inr ⟨_, rfl, hP _ le_rfl hlu⟩
    split at h
    · rw [ok.injEq] at h; exact h ▸ Or.inr ⟨_, rfl, hP _ hlu le_rfl⟩
    rename_i a b
    refine ih h ?_ h1
    cases t' with
    | nan => exact Or.inl rfl
    | fin y =>
      simp only [Num.le, decide_eq_true_eq, not_le] at a b
      exact Or.inr ⟨y, rfl, hP _ a.le b.le⟩
    | inf s => cases s <;> simp [Num.le] at a b

theorem newtonCurve_total {A : Format K} {g : Num K → Outcome (Num K × Num K)} {tol lower upper : Num K}
    (hg : ∀ t, ∃ s, g t = ok s) (n : ℕ) :
    ∀ t prevT prevErr, ∃ r, newtonCurve A g tol lower upper n t prevT prevErr = ok r := by
  induction n with
  | zero => intro t _ _; exact ⟨t, rfl⟩
  | succ n ih =>
    intro t prevT prevErr
    obtain ⟨s, e⟩ := hg t
    rw [newtonCurve, e, ok_bind]
    dsimp only
    split_ifs
    all_goals first | exact ⟨_, rfl⟩ | exact ih _ _ _

/-- The bound of a result: the range it was found in. -/
def Found (A : Format K) (z : Prop) (lo hi y : K) : Prop :=
  (z ∧ y = 0) ∨ ∃ a b, Range A a b ∧ lo ≤ a ∧ b ≤ hi ∧ a ≤ y ∧ y ≤ max b (top A a b)

theorem next_range {A : Format K} {lo hi x d : K} (h : Range A lo hi) (hd : 0 ≤ d) :
    ∃ a b, Num.stdMin (Num.stdMax (A.sub (.fin x) (.fin d)) (.fin lo)) (.fin hi) = .fin a ∧
      Num.stdMin (Num.stdMax (A.round (Num.add (.fin x) (.fin d))) (.fin lo)) (.fin hi) = .fin b ∧
      Range A a b ∧ lo ≤ a ∧ b ≤ hi := by
  refine ⟨_, _, by rw [A.sub_fin_fin]; exact clamp_round A _ h.le h.neg_big h.le_big,
    clamp_round A (x + d) h.le h.neg_big h.le_big, h.sub
      (A.rnd_min (A.rnd_max (A.idem _) h.flo) h.fhi) (A.rnd_min (A.rnd_max (A.idem _) h.flo) h.fhi)
      (le_min (le_max_right _ _) h.le) ?_ (min_le_right _ _), le_min (le_max_right _ _) h.le,
    min_le_right _ _⟩
  exact min_le_min_right _ (max_le_max_right _ (A.mono _ _ (by linarith)))

theorem step_fin {A : Format K} {lo hi : K} (h : Range A lo hi) {num : ℕ} (hn : 0 < num)
    (hb : (num : K) ≤ A.big) :
    ∃ d, A.round (Num.div (A.sub (.fin hi) (.fin lo)) (A.round (.fin (num : K)))) = .fin d ∧ 0 ≤ d ∧
      d ≤ A.rnd (hi - lo) ∧ A.rnd d = d := by
  have hnK := cast_pos A hn
  have hn1 : 1 ≤ A.rnd (num : K) := A.le_rnd A.one (by exact_mod_cast hn)
  have d0 : 0 ≤ A.rnd (hi - lo) := A.nonneg (sub_nonneg.2 h.le)
  have q0 : 0 ≤ A.rnd (hi - lo) / A.rnd (num : K) := div_nonneg d0 hnK.le
  have q1 : A.rnd (hi - lo) / A.rnd (num : K) ≤ A.rnd (hi - lo) := div_le_self d0 hn1
  refine ⟨_, ?_, A.nonneg q0, A.rnd_le (A.idem _) q1, A.idem _⟩
  rw [h.width_fin, cast_fin A hb]
  simp only [Num.div]
  rw [if_neg hnK.ne']
  exact A.round_fin (A.abs_le_big (abs_le_of_mem q0 (q1.trans (A.rnd_le A.big_float h.width))))

theorem curveSearch_mem {A : Format K} {f : ℕ → ℕ → Fuse} {tol : Num K}
    {dist : Num K → Outcome (Num K)} {g : Num K → Outcome (Num K × Num K)} {num : ℕ} (hn : 0 < num)
    (hb : (num : K) ≤ A.big) {z : Prop}
    (hz : (∀ t d, dist t = ok d → d.lt (.fin A.big)) ∨ z) (level : ℕ) :
    ∀ {lo hi : K} {r : Num K}, Range A lo hi →
      curveSearch A f tol dist g num level (.fin lo) (.fin hi) = ok r → r.NanOr (Found A z lo hi) := by
  induction level with
  | zero =>
    intro lo hi r h e
    rw [curveSearch, assert_true hn, ok_bind, bind_eq_ok] at e
    obtain ⟨s, es, e⟩ := e
    have hs := closestSample_mem h hn hb hz es
    have hP : s.2.NanOr (Found A z lo hi) := by
      rcases hs with ⟨hz, e0⟩ | ⟨y, ey, -, y1, y2⟩
      · exact Or.inr ⟨0, e0, Or.inl ⟨hz, rfl⟩⟩
      · exact Or.inr ⟨y, ey, Or.inr ⟨lo, hi, h, le_rfl, le_rfl, y1, y2.trans (le_max_right _ _)⟩⟩
    exact newtonCurve_mem h.le (fun y y1 y2 =>
      Or.inr ⟨lo, hi, h, le_rfl, le_rfl, y1, y2.trans (le_max_left _ _)⟩) 10 e hP hP
  | succ level ih =>
    intro lo hi r h e
    rw [curveSearch, assert_true hn, ok_bind] at e
    dsimp only at e
    rw [bind_eq_ok] at e
    obtain ⟨s, es, e⟩ := e
    obtain ⟨x, ex⟩ : ∃ x, s.2 = .fin x := by
      rcases closestSample_mem h hn hb hz es with ⟨-, e0⟩ | ⟨y, ey, -⟩
      · exact ⟨_, e0⟩
      · exact ⟨_, ey⟩
    obtain ⟨d, ed, d0, -⟩ := step_fin h hn hb
    obtain ⟨a, b, ea, eb, hab, h1, h2⟩ := next_range (x := x) h d0
    rw [ed, ex, ea, eb] at e
    rcases ih hab e with hr | ⟨y, ey, hy⟩
    · exact Or.inl hr
    · refine Or.inr ⟨y, ey, hy.imp_right ?_⟩
      rintro ⟨a', b', k, k1, k2, k3⟩
      exact ⟨a', b', k, h1.trans k1, k2.trans h2, k3⟩

theorem curveSearch_total {A : Format K} {f : ℕ → ℕ → Fuse} {tol : Num K}
    {dist : Num K → Outcome (Num K)} {g : Num K → Outcome (Num K × Num K)} {num : ℕ} (hn : 0 < num)
    (hd : ∀ t, ∃ d, dist t = ok d) (hg : ∀ t, ∃ s, g t = ok s) (level : ℕ) :
    ∀ lo hi : Num K, ∃ r, curveSearch A f tol dist g num level lo hi = ok r := by
  have hs : ∀ f lo hi, ∃ s, closestSample A f dist num lo hi = ok s := by
    intro f lo hi
    unfold closestSample
    obtain ⟨s, e, -⟩ := loop_inv (fun _ _ => True) (num + 1)
      (fun i s => do
        let t := searchParam A (f i) lo hi num i
        let d ← dist t
        pure (if d.lt s.1 then (d, t) else s)) (.fin A.big, .fin 0) trivial (by
      intro i _ s _
      obtain ⟨d, e⟩ := hd (searchParam A (f i) lo hi num i)
      dsimp only
      rw [e, ok_bind]
      exact ⟨_, rfl, trivial⟩)
    exact ⟨s, e⟩
  induction level with
  | zero =>
    intro lo hi
    obtain ⟨s, e⟩ := hs (f 0) lo hi
    rw [curveSearch, assert_true hn, ok_bind, e, ok_bind]
    exact newtonCurve_total hg 10 _ _ _
  | succ level ih =>
    intro lo hi
    obtain ⟨s, e⟩ := hs (f (level + 1)) lo hi
    rw [curveSearch, assert_true hn, ok_bind]
    dsimp only
    rw [e, ok_bind]
    exact ih _ _

/-- The computed upper end is close to the upper end. -/
theorem top_le {A : Format K} {lo hi M : K} (h : Range A lo hi) (h1 : |lo| ≤ M) (h2 : |hi| ≤ M) :
    top A lo hi ≤ hi + (3 * A.unit + 2 * A.unit ^ 2) * M := by
  have hu := A.unit_nonneg
  have dn := h.width_near
  have d0 : 0 ≤ A.rnd (hi - lo) := A.nonneg (sub_nonneg.2 h.le)
  have e2 := (abs_le.1 (A.sum_near lo (A.rnd (hi - lo)) h.flo (A.idem _))).2
  have w : hi - lo ≤ 2 * M := by linarith [(abs_le.1 h1).1, (abs_le.1 h2).2]
  have w' := mul_le_mul_of_nonneg_left w hu
  have e3 : |lo + A.rnd (hi - lo)| ≤ M + A.unit * (2 * M) := by
    rw [abs_le]
    have a1 := (abs_le.1 h1).1
    have a2 := (abs_le.1 h2).2
    have a3 : 0 ≤ A.unit * (2 * M) := mul_nonneg hu (by linarith [h.le])
    constructor <;> linarith
  have e4 := mul_le_mul_of_nonneg_left e3 hu
  unfold top
  nlinarith

/-! ### Binary formats -/

/-- Sums and products that are multiples of the smallest number have a relative error. -/
theorem rndSub_mult (p : ℕ) (e k : ℤ) :
    |rndSub p e ((k : K) * 2 ^ e) - k * 2 ^ e| ≤ (1 / 2) ^ p * |(k : K) * 2 ^ e| := by
  unfold rndSub
  split_ifs
  · rw [rnd_mult, sub_self, abs_zero]
    positivity
  · exact binaryRnd_near _ _

theorem natCast_float {p : ℕ} (hp : 1 ≤ p) {e : ℤ} (he : e ≤ 0) {n : ℕ} (hn : n ≤ 2 ^ p) :
    rndSub p e (n : K) = n := by
  have := rndSub_fix (K := K) hp (e := e) (j := 0) (k := n) he (by
    rw [abs_of_nonneg (by positivity)]; exact_mod_cast hn)
  simpa using this

/-- The tie after one is rounded to one. -/
theorem rndSub_one_add {p : ℕ} (hp : 2 ≤ p) {e : ℤ} (he : e + p ≤ 1) :
    rndSub p e (1 + (1 / 2 : K) ^ p) = 1 := by
  have h0 : (0 : K) < (1 / 2) ^ p := by positivity
  unfold rndSub
  rw [if_neg]
  · exact binary_one_add (by omega) hp
  · rw [not_lt, abs_of_pos (by linarith)]
    have : (2 : K) ^ (e + p - 1) ≤ 2 ^ (0 : ℤ) := zpow_le_zpow_right₀ (by norm_num) (by omega)
    rw [zpow_zero] at this
    linarith

theorem top_one {p : ℕ} {e q : ℤ} (hp : 1 ≤ p) (he : e ≤ 0) (hq : 0 ≤ q) (hp2 : 2 ≤ p)
    (hep : e + p ≤ 1) {lo hi : K} (h : Range (binary p e q hp he hq) lo hi) (h0 : 0 ≤ lo)
    (h1 : hi ≤ 1) : top (binary p e q hp he hq) lo hi ≤ 1 := by
  have e1 := h.width_near
  have hu : (binary p e q hp he hq : Format K).unit = (1 / 2) ^ p := rfl
  have h2 : (0 : K) ≤ (1 / 2) ^ p := by positivity
  have h3 := h.le
  rw [hu] at e1
  have e2 : ((1 : K) / 2) ^ p * (hi - lo) ≤ (1 / 2) ^ p * 1 :=
    mul_le_mul_of_nonneg_left (by linarith) h2
  unfold top
  calc _ ≤ (binary p e q hp he hq : Format K).rnd (1 + (1 / 2) ^ p) :=
        (binary p e q hp he hq : Format K).mono _ _ (by linarith)
    _ = 1 := rndSub_one_add hp2 hep

/-- A sample count for which the samples stay below the upper end. -/
structure Moderate (A : Format K) (num : ℕ) : Prop where
  pos : 0 < num
  le_big : (num : K) ≤ A.big
  exact : ∀ i ≤ num, A.rnd (i : K) = i
  below : ∀ {lo hi : K}, A.rnd lo = lo → A.rnd hi = hi → lo ≤ hi → ∀ i < num,
    A.rnd (A.rnd ((i : K) * A.rnd (hi - lo)) / num) ≤ hi - lo

theorem pow_le_big {p : ℕ} (hp : 2 ≤ p) {q : ℤ} (hq : 0 ≤ q) {n : ℕ} (hn : n ≤ 2 ^ (p - 1)) :
    (n : K) ≤ ((2 ^ p - 1 : ℤ) : K) * 2 ^ q := by
  have h1 : (n : ℤ) ≤ 2 ^ p - 1 := by
    have h2 : (n : ℤ) ≤ 2 ^ (p - 1) := by exact_mod_cast hn
    have h3 : (2 : ℤ) ^ p = 2 * 2 ^ (p - 1) := by
      rw [← pow_succ']; congr 1; omega
    have h4 : (1 : ℤ) ≤ 2 ^ (p - 1) := one_le_pow₀ (by norm_num)
    omega
  have h5 : (n : K) ≤ ((2 ^ p - 1 : ℤ) : K) := by exact_mod_cast h1
  have h3 : (1 : K) ≤ 2 ^ q := one_le_zpow₀ (by norm_num) hq
  have h6 : (0 : K) ≤ n := Nat.cast_nonneg _
  nlinarith

theorem cube_le {u i num : K} (hu0 : 0 < u) (hus : u ≤ 1 / 8) (hu : u * num ≤ 1 / 8) (hi0 : 0 ≤ i)
    (hi1 : i + 1 ≤ num) : (1 + u) ^ 3 * i + u * num ≤ num := by
  have h2 : u * u ≤ u * (1 / 8) := mul_le_mul_of_nonneg_left hus hu0.le
  have h3 : u * u * u ≤ u * u * (1 / 8) := mul_le_mul_of_nonneg_left hus (mul_pos hu0 hu0).le
  have b4 : (1 + u) ^ 3 ≤ 1 + 4 * u := by
    have : (1 + u) ^ 3 = 1 + 3 * u + 3 * (u * u) + u * u * u := by ring
    linarith
  have h4 := mul_le_mul_of_nonneg_right b4 hi0
  have h5 := mul_le_mul_of_nonneg_left hi1 hu0.le
  linarith

theorem moderate_binary {p : ℕ} {e q : ℤ} (hp : 1 ≤ p) (he : e ≤ 0) (hq : 0 ≤ q) (hp3 : 3 ≤ p)
    {num : ℕ} (h0 : 0 < num) (hn : num ≤ 2 ^ (p - 3)) :
    Moderate (binary p e q hp he hq : Format K) num := by
  have hle : num ≤ 2 ^ (p - 1) := hn.trans (Nat.pow_le_pow_right (by norm_num) (by omega))
  refine ⟨h0, pow_le_big (by omega) hq hle, fun i hi => natCast_float hp he
    (hi.trans (hle.trans (Nat.pow_le_pow_right (by norm_num) (by omega)))), ?_⟩
  intro lo hi flo fhi h i hi'
  change rndSub p e lo = lo at flo
  change rndSub p e hi = hi at fhi
  change rndSub p e (rndSub p e ((i : K) * rndSub p e (hi - lo)) / num) ≤ hi - lo
  have hw : 0 ≤ hi - lo := by linarith
  have w1 := rndSub_sum p e hi (-lo) fhi (by rw [rndSub_neg, flo])
  rw [← sub_eq_add_neg, abs_of_nonneg hw] at w1
  obtain ⟨k, hk⟩ := exists_mult (rndSub_idem hp e (hi - lo))
  have w2 := rndSub_mult (K := K) p e (i * k)
  have e2 : (((i : ℤ) * k : ℤ) : K) * 2 ^ e = (i : K) * rndSub p e (hi - lo) := by
    rw [hk]; push_cast; ring
  rw [e2] at w2
  have wf : hi - lo < 2 ^ (e + p - 1) → rndSub p e (hi - lo) = hi - lo := by
    intro hs
    obtain ⟨a, ha⟩ := exists_mult flo
    obtain ⟨b, hb⟩ := exists_mult fhi
    unfold rndSub
    rw [if_pos (by rwa [abs_of_nonneg hw]), ha, hb, ← sub_mul, ← Int.cast_sub, rnd_mult]
  have big : ¬ hi - lo < 2 ^ (e + p - 1) → (2 : K) ^ e / 2 ≤ (1 / 2) ^ p * (hi - lo) := by
    intro hs
    have h1 := mul_le_mul_of_nonneg_left (not_lt.1 hs) (by positivity : (0 : K) ≤ (1 / 2) ^ p)
    refine le_trans (le_of_eq ?_) h1
    rw [show e + (p : ℤ) - 1 = e + p + (-1) by ring, zpow_add₀ two_ne_zero, zpow_add₀ two_ne_zero,
      zpow_natCast, zpow_neg_one, one_div, inv_pow]
    field_simp
  have hu : ((1 : K) / 2) ^ p * num ≤ 1 / 8 := by
    have h1 : (num : K) ≤ 2 ^ (p - 3) := by exact_mod_cast hn
    have h2 : ((1 : K) / 2) ^ p * 2 ^ (p - 3) = 1 / 8 := by
      obtain ⟨m, rfl⟩ : ∃ m, p = m + 3 := ⟨p - 3, by omega⟩
      rw [Nat.add_sub_cancel, pow_add, mul_right_comm, ← mul_pow]
      norm_num
    rw [← h2]
    exact mul_le_mul_of_nonneg_left h1 (by positivity)
  have hu0 : (0 : K) < (1 / 2) ^ p := by positivity
  have hnear := rndSub_near p e (rndSub p e ((i : K) * rndSub p e (hi - lo)) / num)
  have hmono := rndSub_mono (K := K) hp e (x := rndSub p e ((i : K) * rndSub p e (hi - lo)) / num)
    (y := hi - lo)
  have hn0 : (0 : K) < num := by exact_mod_cast h0
  have hn1 : (1 : K) ≤ num := by exact_mod_cast h0
  have hi1 : (i : K) + 1 ≤ num := by exact_mod_cast hi'
  have hi0 : (0 : K) ≤ i := Nat.cast_nonneg _
  have d0 : 0 ≤ rndSub p e (hi - lo) := (binary p e q hp he hq : Format K).nonneg hw
  have x0 : 0 ≤ rndSub p e ((i : K) * rndSub p e (hi - lo)) :=
    (binary p e q hp he hq : Format K).nonneg (mul_nonneg hi0 d0)
  rw [abs_of_nonneg (mul_nonneg hi0 d0)] at w2
  rw [abs_of_nonneg (div_nonneg x0 hn0.le)] at hnear
  generalize ((1 : K) / 2) ^ p = u at *
  generalize hi - lo = w at *
  generalize rndSub p e w = W at *
  generalize rndSub p e ((i : K) * W) = X at *
  have hus : u ≤ 1 / 8 := (le_mul_of_one_le_right hu0.le hn1).trans hu
  have b1 : W ≤ (1 + u) * w := by linarith [(abs_le.1 w1).2]
  have b2 : X ≤ (1 + u) * (i * W) := by linarith [(abs_le.1 w2).2]
  have b3 : X ≤ (1 + u) ^ 2 * i * w := by
    calc X ≤ (1 + u) * (i * W) := b2
      _ ≤ (1 + u) * (i * ((1 + u) * w)) :=
        mul_le_mul_of_nonneg_left (mul_le_mul_of_nonneg_left b1 hi0) (by linarith)
      _ = _ := by ring
  have b5 : (1 + u) ^ 3 * i + u * num ≤ num := cube_le hu0 hus hu hi0 hi1
  by_cases hs : w < 2 ^ (e + p - 1)
  · rw [wf hs] at hmono
    refine (hmono ?_).trans le_rfl
    rw [div_le_iff₀ hn0]
    have : (1 + u) ^ 2 * i ≤ (1 + u) ^ 3 * i := by
      apply mul_le_mul_of_nonneg_right _ hi0
      nlinarith [sq_nonneg (1 + u)]
    have : (1 + u) ^ 2 * i * w ≤ num * w :=
      mul_le_mul_of_nonneg_right (by linarith [mul_nonneg hu0.le hn0.le]) hw
    linarith
  · have h1 := (abs_le.1 hnear).2
    have h2 := big hs
    have h3 : (1 + u) * (X / num) + u * w ≤ w := by
      have h4 : (1 + u) * (X / num) ≤ (1 + u) * ((1 + u) ^ 2 * i * w / num) :=
        mul_le_mul_of_nonneg_left (div_le_div_of_nonneg_right b3 hn0.le) (by linarith)
      have h5 : (1 + u) * ((1 + u) ^ 2 * i * w / num) + u * w
          = ((1 + u) ^ 3 * i + u * num) * w / num := by field_simp
      have h6 : ((1 + u) ^ 3 * i + u * num) * w / num ≤ w := by
        rw [div_le_iff₀ hn0, mul_comm w]
        exact mul_le_mul_of_nonneg_right b5 hw
      linarith
    linarith

/-! ### Patches -/

/-- A range of the format whose products with the sample count do not overflow. -/
structure PRange (A : Format K) (num : ℕ) (lo hi : K) : Prop where
  flo : A.rnd lo = lo
  fhi : A.rnd hi = hi
  le : lo ≤ hi
  neg_big : -A.big ≤ lo
  le_big : hi ≤ A.big
  product : (num : K) * ((1 + A.unit) * (hi - lo)) ≤ A.big

theorem PRange.sub {A : Format K} {num : ℕ} {lo hi a b : K} (h : PRange A num lo hi)
    (fa : A.rnd a = a) (fb : A.rnd b = b) (h1 : lo ≤ a) (h2 : a ≤ b) (h3 : b ≤ hi) :
    PRange A num a b := by
  have hu := A.unit_nonneg
  have := mul_le_mul_of_nonneg_left (mul_le_mul_of_nonneg_left (by linarith : b - a ≤ hi - lo)
    (by linarith : 0 ≤ 1 + A.unit)) (Nat.cast_nonneg num : (0 : K) ≤ num)
  exact ⟨fa, fb, h2, h.neg_big.trans h1, h3.trans h.le_big, by linarith [h.product]⟩

theorem PRange.width_le {A : Format K} {num : ℕ} {lo hi : K} (h : PRange A num lo hi)
    (hn : 0 < num) : hi - lo ≤ A.big := by
  have hu := A.unit_nonneg
  have hw : 0 ≤ hi - lo := sub_nonneg.2 h.le
  have h1 : (1 : K) ≤ num := by exact_mod_cast hn
  have h2 : hi - lo ≤ (1 + A.unit) * (hi - lo) := by nlinarith
  have h3 : (1 + A.unit) * (hi - lo) ≤ num * ((1 + A.unit) * (hi - lo)) :=
    le_mul_of_one_le_left (hw.trans h2) h1
  linarith [h.product]

theorem PRange.width_near {A : Format K} {num : ℕ} {lo hi : K} (h : PRange A num lo hi) :
    A.rnd (hi - lo) ≤ (1 + A.unit) * (hi - lo) := by
  have := A.sum_near hi (-lo) h.fhi (A.neg_rnd h.flo)
  rw [← sub_eq_add_neg, abs_of_nonneg (sub_nonneg.2 h.le)] at this
  linarith [(abs_le.1 this).2]

theorem PRange.width_fin {A : Format K} {num : ℕ} {lo hi : K} (h : PRange A num lo hi)
    (hn : 0 < num) : A.sub (.fin hi) (.fin lo) = .fin (A.rnd (hi - lo)) :=
  A.sub_fin (abs_le_of_mem (sub_nonneg.2 h.le) (h.width_le hn))

theorem gridParam_mem {A : Format K} {num : ℕ} (m : Moderate A num) {lo hi : K}
    (h : PRange A num lo hi) {i : ℕ} (hi' : i ≤ num) :
    Num.In A lo hi (gridParam A num (.fin lo) (.fin hi) i) := by
  unfold gridParam
  split_ifs with hin
  · exact ⟨hi, rfl, h.fhi, h.le, le_rfl⟩
  have hlt : i < num := by omega
  have hn0 : (0 : K) < num := by exact_mod_cast m.pos
  have hi0 : (0 : K) ≤ i := Nat.cast_nonneg _
  have d0 : 0 ≤ A.rnd (hi - lo) := A.nonneg (sub_nonneg.2 h.le)
  rw [cast_fin A ((Nat.cast_le.2 hi').trans m.le_big), cast_fin A m.le_big, m.exact i hi',
    m.exact num le_rfl, h.width_fin m.pos]
  have hb := m.below h.flo h.fhi h.le i hlt
  have p0 : 0 ≤ (i : K) * A.rnd (hi - lo) := mul_nonneg hi0 d0
  have p1 : (i : K) * A.rnd (hi - lo) ≤ A.big := by
    calc _ ≤ (num : K) * ((1 + A.unit) * (hi - lo)) :=
          mul_le_mul (Nat.cast_le.2 hi') h.width_near d0 hn0.le
      _ ≤ _ := h.product
  have x0 := A.nonneg p0
  have x1 := A.rnd_le A.big_float p1
  have q0 : 0 ≤ A.rnd ((i : K) * A.rnd (hi - lo)) / num := div_nonneg x0 hn0.le
  have q1 : A.rnd ((i : K) * A.rnd (hi - lo)) / num ≤ A.big :=
    (div_le_self x0 (by exact_mod_cast m.pos)).trans x1
  simp only [Num.mul]
  rw [A.round_fin (A.abs_le_big (abs_le_of_mem p0 p1))]
  simp only [Num.div]
  rw [if_neg hn0.ne', A.round_fin (A.abs_le_big (abs_le_of_mem q0 q1))]
  have r0 := A.nonneg q0
  have r1 := hb
  generalize A.rnd (A.rnd ((i : K) * A.rnd (hi - lo)) / num) = x at *
  simp only [Num.add]
  refine ⟨A.rnd (x + lo), A.round_fin (A.abs_le_big (abs_le.2 ⟨?_, ?_⟩)), A.idem _,
    A.le_rnd h.flo (by linarith), A.rnd_le h.fhi (by linarith)⟩
  · linarith [h.neg_big]
  · linarith [h.le_big]

/-- A pair of numbers of the format in a box. -/
def Box (A : Format K) (minU maxU minV maxV : K) (x : Num K × Num K) : Prop :=
  x.1.In A minU maxU ∧ x.2.In A minV maxV

theorem Num.In.mono {A : Format K} {lo hi a b : K} {x : Num K} (h : x.In A a b) (h1 : lo ≤ a)
    (h2 : b ≤ hi) : x.In A lo hi := by
  obtain ⟨y, e, f, y1, y2⟩ := h
  exact ⟨y, e, f, h1.trans y1, y2.trans h2⟩

theorem Box.update {A : Format K} {minU maxU minV maxV : K} {b : PatchBase.Best (Num K)}
    (h1 : Box A minU maxU minV maxV b.uv) (h2 : Box A minU maxU minV maxV b.uv2) (d : Num K)
    {x : Num K × Num K} (hx : Box A minU maxU minV maxV x) :
    Box A minU maxU minV maxV (update b d x).uv ∧ Box A minU maxU minV maxV (update b d x).uv2 := by
  unfold Ieee.update
  split_ifs
  · exact ⟨hx, h1⟩
  · exact ⟨h1, hx⟩
  · exact ⟨h1, h2⟩

theorem bestSamples_mem {A : Format K} {dist : Num K → Num K → Outcome (Num K)} {nu nv : ℕ}
    (mu : Moderate A nu) (mv : Moderate A nv) {minU maxU minV maxV : K}
    (hu : PRange A nu minU maxU) (hv : PRange A nv minV maxV) {b : PatchBase.Best (Num K)}
    (e : bestSamples A dist nu nv (.fin minU) (.fin maxU) (.fin minV) (.fin maxV) = ok b) :
    Box A minU maxU minV maxV b.uv ∧ Box A minU maxU minV maxV b.uv2 := by
  have h0 : Box A minU maxU minV maxV (.fin minU, .fin minV) :=
    ⟨⟨_, rfl, hu.flo, le_rfl, hu.le⟩, ⟨_, rfl, hv.flo, le_rfl, hv.le⟩⟩
  unfold bestSamples at e
  refine loop_inv_of_ok (fun _ (b : PatchBase.Best (Num K)) => Box A minU maxU minV maxV b.uv ∧
      Box A minU maxU minV maxV b.uv2) (nu + 1) _ _ ⟨h0, h0⟩ ?_ b e
  intro i hi b b' hb e'
  refine loop_inv_of_ok (fun _ (b : PatchBase.Best (Num K)) => Box A minU maxU minV maxV b.uv ∧
      Box A minU maxU minV maxV b.uv2) (nv + 1) _ _ hb ?_ b' e'
  intro j hj c c' hc ec
  dsimp only at ec
  rw [bind_eq_ok] at ec
  obtain ⟨d, -, ec⟩ := ec
  rw [pure_eq, ok.injEq] at ec
  rw [← ec]
  exact Box.update hc.1 hc.2 d ⟨gridParam_mem mu hu (by omega), gridParam_mem mv hv (by omega)⟩

theorem bestSamples_total {A : Format K} {dist : Num K → Num K → Outcome (Num K)} {nu nv : ℕ}
    (hd : ∀ u v, ∃ d, dist u v = ok d) (minU maxU minV maxV : Num K) :
    ∃ b, bestSamples A dist nu nv minU maxU minV maxV = ok b := by
  unfold bestSamples
  obtain ⟨b, e, -⟩ := loop_inv (fun _ (_ : PatchBase.Best (Num K)) => True) (nu + 1)
    (fun i b => loop (nv + 1) (fun j b => do
      let u := gridParam A nu minU maxU i
      let v := gridParam A nv minV maxV j
      let d ← dist u v
      pure (update b d (u, v))) b) ⟨.fin A.big, (minU, minV), .fin A.big, (minU, minV)⟩ trivial (by
    intro i _ b _
    refine loop_inv (fun _ (_ : PatchBase.Best (Num K)) => True) (nv + 1) _ b trivial ?_
    intro j _ c _
    obtain ⟨d, ed⟩ := hd (gridParam A nu minU maxU i) (gridParam A nv minV maxV j)
    dsimp only
    rw [ed, ok_bind]
    exact ⟨_, rfl, trivial⟩)
  exact ⟨b, e⟩

theorem pstep_fin {A : Format K} {num : ℕ} (m : Moderate A num) {lo hi : K} (h : PRange A num lo hi) :
    ∃ d, A.round (Num.div (A.sub (.fin hi) (.fin lo)) (A.round (.fin (num : K)))) = .fin d ∧ 0 ≤ d := by
  have hn0 : (0 : K) < num := by exact_mod_cast m.pos
  have d0 : 0 ≤ A.rnd (hi - lo) := A.nonneg (sub_nonneg.2 h.le)
  have q0 : 0 ≤ A.rnd (hi - lo) / num := div_nonneg d0 hn0.le
  have q1 : A.rnd (hi - lo) / num ≤ A.big :=
    (div_le_self d0 (by exact_mod_cast m.pos)).trans (A.rnd_le A.big_float (h.width_le m.pos))
  refine ⟨_, ?_, A.nonneg q0⟩
  rw [h.width_fin m.pos, cast_fin A m.le_big, m.exact num le_rfl]
  simp only [Num.div]
  rw [if_neg hn0.ne']
  exact A.round_fin (A.abs_le_big (abs_le_of_mem q0 q1))

theorem pnext_range {A : Format K} {num : ℕ} {lo hi x d : K} (h : PRange A num lo hi) (hd : 0 ≤ d)
    (h1 : lo ≤ x) (h2 : x ≤ hi) :
    ∃ a b, Num.stdMax (A.sub (.fin x) (.fin d)) (.fin lo) = .fin a ∧
      Num.stdMin (A.round (Num.add (.fin x) (.fin d))) (.fin hi) = .fin b ∧
      PRange A num a b ∧ lo ≤ a ∧ b ≤ hi := by
  have k1 : A.rnd (x - d) ≤ hi := A.rnd_le h.fhi (by linarith)
  have k2 : lo ≤ A.rnd (x + d) := A.le_rnd h.flo (by linarith)
  refine ⟨_, _, by rw [A.sub_fin_fin]; exact max_round A _ h.neg_big (k1.trans h.le_big),
    min_round A (x + d) h.le_big (h.neg_big.trans k2), h.sub (A.rnd_max (A.idem _) h.flo)
      (A.rnd_min (A.idem _) h.fhi) (le_max_right _ _) ?_ (min_le_right _ _), le_max_right _ _,
    min_le_right _ _⟩
  exact max_le (le_min (A.mono _ _ (by linarith)) k1) (le_min k2 h.le)

theorem patchSearch_mem {A : Format K} {tol milli uR vR : Num K}
    {dist : Num K → Num K → Outcome (Num K)} {nu nv : ℕ} (mu : Moderate A nu) (mv : Moderate A nv)
    (level : ℕ) : ∀ {minU maxU minV maxV : K} {r : Num K × Num K}, PRange A nu minU maxU →
      PRange A nv minV maxV → patchSearch A tol milli uR vR dist nu nv level (.fin minU) (.fin maxU)
        (.fin minV) (.fin maxV) = ok r → Box A minU maxU minV maxV r := by
  induction level with
  | zero =>
    intro minU maxU minV maxV r hu hv e
    rw [patchSearch, bind_eq_ok] at e
    obtain ⟨b, eb, e⟩ := e
    rw [pure_eq, ok.injEq] at e
    exact e ▸ (bestSamples_mem mu mv hu hv eb).1
  | succ level ih =>
    intro minU maxU minV maxV r hu hv e
    rw [patchSearch, bind_eq_ok] at e
    obtain ⟨b, eb, e⟩ := e
    obtain ⟨b1, b2⟩ := bestSamples_mem mu mv hu hv eb
    obtain ⟨du, edu, du0⟩ := pstep_fin mu hu
    obtain ⟨dv, edv, dv0⟩ := pstep_fin mv hv
    dsimp only at e
    rw [edu, edv] at e
    have hsub : ∀ {x r : Num K × Num K}, Box A minU maxU minV maxV x →
        patchSearch A tol milli uR vR dist nu nv level
          (Num.stdMax (A.sub x.1 (.fin du)) (.fin minU))
          (Num.stdMin (A.round (Num.add x.1 (.fin du))) (.fin maxU))
          (Num.stdMax (A.sub x.2 (.fin dv)) (.fin minV))
          (Num.stdMin (A.round (Num.add x.2 (.fin dv))) (.fin maxV)) = ok r →
        Box A minU maxU minV maxV r := by
      rintro ⟨x, y⟩ r ⟨⟨u, rfl, -, u1, u2⟩, ⟨v, rfl, -, v1, v2⟩⟩ er
      obtain ⟨a, b, ea, eb, hab, h1, h2⟩ := pnext_range hu du0 u1 u2
      obtain ⟨c, d, ec, ed, hcd, h3, h4⟩ := pnext_range hv dv0 v1 v2
      dsimp only at er
      rw [ea, eb, ec, ed] at er
      have := ih hab hcd er
      exact ⟨this.1.mono h1 h2, this.2.mono h3 h4⟩
    split at e
    · exact hsub b1 e
    · rw [bind_eq_ok] at e
      obtain ⟨c1, e1, e⟩ := e
      rw [bind_eq_ok] at e
      obtain ⟨c2, e2, e⟩ := e
      rw [bind_eq_ok] at e
      obtain ⟨d1, -, e⟩ := e
      rw [bind_eq_ok] at e
      obtain ⟨d2, -, e⟩ := e
      rw [pure_eq, ok.injEq] at e
      rw [← e]
      split
      · exact hsub b1 e1
      · exact hsub b2 e2

theorem patchSearch_total {A : Format K} {tol milli uR vR : Num K}
    {dist : Num K → Num K → Outcome (Num K)} {nu nv : ℕ} (hd : ∀ u v, ∃ d, dist u v = ok d)
    (level : ℕ) : ∀ minU maxU minV maxV : Num K,
      ∃ r, patchSearch A tol milli uR vR dist nu nv level minU maxU minV maxV = ok r := by
  induction level with
  | zero =>
    intro minU maxU minV maxV
    obtain ⟨b, e⟩ := bestSamples_total (A := A) (nu := nu) (nv := nv) hd minU maxU minV maxV
    rw [patchSearch, e, ok_bind]
    exact ⟨_, rfl⟩
  | succ level ih =>
    intro minU maxU minV maxV
    obtain ⟨b, e⟩ := bestSamples_total (A := A) (nu := nu) (nv := nv) hd minU maxU minV maxV
    rw [patchSearch, e, ok_bind]
    dsimp only
    split
    · exact ih _ _ _ _
    · obtain ⟨c1, e1⟩ := ih
        (Num.stdMax (A.sub b.uv.1 (A.round (Num.div (A.sub maxU minU) (A.round (.fin (nu : K)))))) minU)
        (Num.stdMin (A.round (Num.add b.uv.1 (A.round (Num.div (A.sub maxU minU)
          (A.round (.fin (nu : K))))))) maxU)
        (Num.stdMax (A.sub b.uv.2 (A.round (Num.div (A.sub maxV minV) (A.round (.fin (nv : K)))))) minV)
        (Num.stdMin (A.round (Num.add b.uv.2 (A.round (Num.div (A.sub maxV minV)
          (A.round (.fin (nv : K))))))) maxV)
      obtain ⟨c2, e2⟩ := ih
        (Num.stdMax (A.sub b.uv2.1 (A.round (Num.div (A.sub maxU minU) (A.round (.fin (nu : K)))))) minU)
        (Num.stdMin (A.round (Num.add b.uv2.1 (A.round (Num.div (A.sub maxU minU)
          (A.round (.fin (nu : K))))))) maxU)
        (Num.stdMax (A.sub b.uv2.2 (A.round (Num.div (A.sub maxV minV) (A.round (.fin (nv : K)))))) minV)
        (Num.stdMin (A.round (Num.add b.uv2.2 (A.round (Num.div (A.sub maxV minV)
          (A.round (.fin (nv : K))))))) maxV)
      obtain ⟨d1, k1⟩ := hd c1.1 c1.2
      obtain ⟨d2, k2⟩ := hd c2.1 c2.2
      rw [e1, ok_bind, e2, ok_bind, k1, ok_bind, k2, ok_bind]
      exact ⟨_, rfl⟩

/-- Clamping an initial guess gives a number of the range, even for an infinity or NaN. -/
theorem clampTo_mem {lo hi : K} (h : lo ≤ hi) (x : Num K) :
    ∃ y, clampTo (.fin lo) (.fin hi) x = .fin y ∧ lo ≤ y ∧ y ≤ hi := by
  unfold clampTo
  cases x with
  | nan => exact ⟨hi, by simp [Num.stdMin, Num.stdMax, Num.lt]; intro h'; exact le_antisymm h' h |>.symm ▸ rfl, h, le_rfl⟩
  | inf s =>
    cases s
    · exact ⟨max lo hi, by simp [Num.stdMin, Num.stdMax, Num.lt, h]; intro h'; exact le_antisymm h h', le_max_left _ _, max_le h le_rfl⟩
    · exact ⟨lo, by simp [Num.stdMin, Num.stdMax, Num.lt], le_rfl, h⟩
  | fin x =>
    rw [stdMin_fin, stdMax_fin]
    exact ⟨_, rfl, le_max_left _ _, max_le h (min_le_left _ _)⟩

theorem clampStep_mem {lo hi : K} (h : lo ≤ hi) (x : Num K) :
    (clampStep (.fin lo) (.fin hi) x).NanOr (fun y => lo ≤ y ∧ y ≤ hi) := by
  unfold clampStep
  cases x with
  | nan => exact Or.inl rfl
  | inf s =>
    cases s
    · exact Or.inr ⟨hi, by simp [Num.lt], h, le_rfl⟩
    · exact Or.inr ⟨lo, by simp [Num.lt, not_lt.2 h], le_rfl, h⟩
  | fin x =>
    simp only [Num.lt, decide_eq_true_eq]
    split_ifs with h1 h2 h2
    · exact Or.inr ⟨_, rfl, h, le_rfl⟩
    · exact Or.inr ⟨_, rfl, le_rfl, h⟩
    · exact Or.inr ⟨_, rfl, h, le_rfl⟩
    · simp only [decide_eq_true_eq] at h2
      exact Or.inr ⟨_, rfl, not_lt.1 h1, not_lt.1 h2⟩

/-- Each coordinate is NaN or in its range. -/
def NanBox (minU maxU minV maxV : K) (x : Num K × Num K) : Prop :=
  x.1.NanOr (fun y => minU ≤ y ∧ y ≤ maxU) ∧ x.2.NanOr (fun y => minV ≤ y ∧ y ≤ maxV)

theorem newtonPatch_mem {A : Format K} {E : EigenOps K ι} {s : PatchFn (Num K) (ι → Num K)}
    {p : ι → Num K} {tol : Num K} {minU maxU minV maxV : K} (hu : minU ≤ maxU) (hv : minV ≤ maxV)
    (n : ℕ) : ∀ {u v : Num K} {prev : Num K × Num K} {pd : Num K} {r : (Num K × Num K) × Bool},
      newtonPatch A E s p tol (.fin minU) (.fin maxU) (.fin minV) (.fin maxV) n u v prev pd = ok r →
      NanBox minU maxU minV maxV (u, v) → NanBox minU maxU minV maxV prev →
      NanBox minU maxU minV maxV r.1 := by
  induction n with
  | zero =>
    intro u v prev pd r h h1 _
    rw [newtonPatch, ok.injEq] at h
    exact h ▸ h1
  | succ n ih =>
    intro u v prev pd r h h1 h2
    rw [newtonPatch, bind_eq_ok] at h
    obtain ⟨q, -, h⟩ := h
    dsimp only at h
    split at h
    · rw [ok.injEq] at h; exact h ▸ h1
    split at h
    · rw [ok.injEq] at h; exact h ▸ h2
    rw [bind_eq_ok] at h
    obtain ⟨su, -, h⟩ := h
    rw [bind_eq_ok] at h
    obtain ⟨sv, -, h⟩ := h
    split at h
    · rw [ok.injEq] at h; exact h ▸ h1
    rw [bind_eq_ok] at h
    obtain ⟨suu, -, h⟩ := h
    rw [bind_eq_ok] at h
    obtain ⟨svv, -, h⟩ := h
    rw [bind_eq_ok] at h
    obtain ⟨suv, -, h⟩ := h
    split at h
    · rw [ok.injEq] at h; exact h ▸ h1
    exact ih h ⟨clampStep_mem hu _, clampStep_mem hv _⟩ h1

end NS.Ieee
