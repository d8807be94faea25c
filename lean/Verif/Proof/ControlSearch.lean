import Verif.Model.ControlSearch
import Verif.Proof.Inverse

/-!
# The searches guided by control points: box of the result
-/

namespace NS

open Outcome

set_option linter.unusedSectionVars false

variable {K V α : Type} [Field K] [LinearOrder K] [IsStrictOrderedRing K] [FloorRing K]
  [AddCommGroup V] [Module K V] [Geom K V]

namespace PatchBase

/-- Whatever the evaluators do: the best samples are in the box. -/
theorem bestSamples_inBox {big : K} {s : PatchFn K V} {p : V} {nu nv : ℕ}
    {minU maxU minV maxV : K} (hu : minU ≤ maxU) (hv : minV ≤ maxV) {b : Best K}
    (h : bestSamples big s p nu nv minU maxU minV maxV = ok b) :
    InBox minU maxU minV maxV b.uv ∧ InBox minU maxU minV maxV b.uv2 := by
  unfold bestSamples at h
  refine loop_inv_of_ok (fun _ b => InBox minU maxU minV maxV b.uv ∧
    InBox minU maxU minV maxV b.uv2) _ _ _ ⟨⟨⟨le_rfl, hu⟩, le_rfl, hv⟩, ⟨le_rfl, hu⟩, le_rfl, hv⟩
    ?_ b h
  intro i hi b b' hb h'
  refine loop_inv_of_ok (fun _ b => InBox minU maxU minV maxV b.uv ∧
    InBox minU maxU minV maxV b.uv2) _ _ _ hb ?_ b' h'
  intro j hj c c' hc e
  dsimp only at e
  rw [bind_eq_ok] at e
  obtain ⟨q, -, e⟩ := e
  rw [pure_eq, ok.injEq] at e
  subst e
  have hx : InBox minU maxU minV maxV (samplePos nu minU maxU i, samplePos nv minV maxV j) :=
    ⟨samplePos_mem hu (by omega), samplePos_mem hv (by omega)⟩
  unfold Best.update
  split
  · exact ⟨hx, hc.1⟩
  · split
    · exact ⟨hc.1, hx⟩
    · exact hc

/-- Whatever the evaluators do: a returned guess of the base class is in the box. -/
theorem approxInverse_inBox {big tol uR vR : K} {s : PatchFn K V} {p : V} {nu nv : ℕ} :
    ∀ {level : ℕ} {minU maxU minV maxV : K}, minU ≤ maxU → minV ≤ maxV → ∀ {r : K × K},
    approxInverse big tol uR vR s p nu nv level minU maxU minV maxV = ok r →
      InBox minU maxU minV maxV r := by
  intro level
  induction level with
  | zero =>
    intro minU maxU minV maxV hu hv r h
    rw [approxInverse, bind_eq_ok] at h
    obtain ⟨b, e, h⟩ := h
    rw [pure_eq, ok.injEq] at h
    exact h ▸ (bestSamples_inBox hu hv e).1
  | succ level ih =>
    intro minU maxU minV maxV hu hv r h
    rw [approxInverse, bind_eq_ok] at h
    obtain ⟨b, e, h⟩ := h
    obtain ⟨b1, b2⟩ := bestSamples_inBox hu hv e
    rw [bind_eq_ok] at h
    obtain ⟨-, ha, h⟩ := h
    have hsub : ∀ x : K × K, InBox minU maxU minV maxV x → ∀ {r : K × K},
        approxInverse big tol uR vR s p nu nv level (max (x.1 - (maxU - minU) / (nu : K)) minU)
        (min (x.1 + (maxU - minU) / (nu : K)) maxU) (max (x.2 - (maxV - minV) / (nv : K)) minV)
        (min (x.2 + (maxV - minV) / (nv : K)) maxV) = ok r → InBox minU maxU minV maxV r := by
      rintro ⟨u, v⟩ ⟨⟨h1, h2⟩, ⟨h3, h4⟩⟩ r hr
      simp only at h1 h2 h3 h4 hr
      have hdu : 0 ≤ (maxU - minU) / (nu : K) := div_nonneg (sub_nonneg.2 hu) (Nat.cast_nonneg _)
      have hdv : 0 ≤ (maxV - minV) / (nv : K) := div_nonneg (sub_nonneg.2 hv) (Nat.cast_nonneg _)
      obtain ⟨⟨a, b⟩, ⟨c, d⟩⟩ := ih
        (max_le (le_min (by linarith) (by linarith)) (le_min (by linarith) hu))
        (max_le (le_min (by linarith) (by linarith)) (le_min (by linarith) hv)) hr
      exact ⟨⟨(le_max_right _ _).trans a, b.trans (min_le_right _ _)⟩,
        ⟨(le_max_right _ _).trans c, d.trans (min_le_right _ _)⟩⟩
    dsimp only at h
    split at h
    · exact hsub _ b1 h
    · rw [bind_eq_ok] at h
      obtain ⟨c1, e1, h⟩ := h
      rw [bind_eq_ok] at h
      obtain ⟨c2, e2, h⟩ := h
      rw [bind_eq_ok] at h
      obtain ⟨q1, -, h⟩ := h
      rw [bind_eq_ok] at h
      obtain ⟨q2, -, h⟩ := h
      rw [pure_eq, ok.injEq] at h
      subst h
      split
      · exact hsub _ b1 e1
      · exact hsub _ b2 e2

end PatchBase

namespace ControlSearch

/-- A pair of parameters lies in a box. -/
def Box.Mem (b : Box K) (x : K × K) : Prop := PatchBase.InBox b.minU b.maxU b.minV b.maxV x

/-- The ends of a box are in order. -/
def Box.Ordered (b : Box K) : Prop := b.minU ≤ b.maxU ∧ b.minV ≤ b.maxV

theorem clampBox_mem {b : Box K} (h : b.Ordered) (x : K × K) : b.Mem (clampBox b x) :=
  ⟨⟨le_min (le_max_right _ _) h.1, min_le_right _ _⟩,
    ⟨le_min (le_max_right _ _) h.2, min_le_right _ _⟩⟩

theorem clampBox_mono {b : Box K} {x y : K × K} (h : x.1 ≤ y.1 ∧ x.2 ≤ y.2) :
    (clampBox b x).1 ≤ (clampBox b y).1 ∧ (clampBox b x).2 ≤ (clampBox b y).2 :=
  ⟨min_le_min_right _ (max_le_max_right _ h.1), min_le_min_right _ (max_le_max_right _ h.2)⟩

theorem unitBox_ordered : (unitBox : Box K).Ordered := ⟨zero_le_one, zero_le_one⟩

theorem remap_mem {b : Box K} (h : b.Ordered) {x : K × K} (hx : (unitBox : Box K).Mem x) :
    b.Mem (remap b x) := by
  obtain ⟨⟨h1, h2⟩, h3, h4⟩ := hx
  simp only [unitBox] at h1 h2 h3 h4
  have hu := sub_nonneg.2 h.1
  have hv := sub_nonneg.2 h.2
  refine ⟨⟨?_, ?_⟩, ?_, ?_⟩ <;> simp only [remap]
  · nlinarith
  · nlinarith
  · nlinarith
  · nlinarith

/-- What is known of the members the search calls: `Inv` holds of every object reached, a
subpatch returned for a trimmed range had an ordered range, the preimages of neighbours are in order and the search of the base
class stays in its box. -/
structure Sane (o : Ops K α) (Inv : α → Prop) : Prop where
  sub : ∀ s l b t r, Inv s → fallback o l s = ok none → trim o s b = ok t →
    o.subpatch s t = ok r → t.Ordered ∧ Inv r
  order : ∀ s i j i' j' x y, Inv s → i ≤ i' → j ≤ j' → o.preimage s i j = ok x →
    o.preimage s i' j' = ok y → x.1 ≤ y.1 ∧ x.2 ≤ y.2
  base : ∀ s l b x, Inv s → b.Ordered → o.base s l b = ok x → b.Mem x

theorem trim_eq {o : Ops K α} {s : α} {b t : Box K} (h : trim o s b = ok t) :
    b.minU ≤ t.minU ∧ t.maxU ≤ b.maxU ∧ b.minV ≤ t.minV ∧ t.maxV ≤ b.maxV := by
  unfold trim at h
  simp only [bind_eq_ok, pure_eq, ok.injEq] at h
  obtain ⟨_, -, _, -, _, -, _, -, rfl⟩ := h
  exact ⟨le_max_left _ _, min_le_left _ _, le_max_left _ _, min_le_left _ _⟩

theorem Box.Mem.mono {b t : Box K} {x : K × K}
    (h : b.minU ≤ t.minU ∧ t.maxU ≤ b.maxU ∧ b.minV ≤ t.minV ∧ t.maxV ≤ b.maxV)
    (hx : t.Mem x) : b.Mem x :=
  ⟨⟨h.1.trans hx.1.1, hx.1.2.trans h.2.1⟩, h.2.2.1.trans hx.2.1, hx.2.2.trans h.2.2.2⟩

theorem neighbours_order {o : Ops K α} {Inv : α → Prop} (S : Sane o Inv) {s r : α} (hr : Inv r)
    {i j : ℕ} {d : (K × K) × (K × K)} (h : neighbours o s r i j = ok d) :
    d.1.1 ≤ d.2.1 ∧ d.1.2 ≤ d.2.2 := by
  unfold neighbours at h
  simp only [bind_eq_ok, pure_eq, ok.injEq] at h
  obtain ⟨lo, e1, m, -, n, -, hi, e2, rfl⟩ := h
  refine S.order _ _ _ _ _ _ _ hr ?_ ?_ e1 e2
  · split <;> split <;> omega
  · split <;> split <;> omega

/-- What no test of `fallback` holding means. -/
theorem fallback_none {o : Ops K α} {l : ℕ} {s : α} (h : fallback o l s = ok none) :
    o.periodic s = false ∧ ∃ du dv m n, o.degreeU s = ok du ∧ o.degreeV s = ok dv ∧
      o.numU s = ok m ∧ o.numV s = ok n ∧ 2 ≤ du ∧ 2 ≤ dv ∧ 4 ≤ m ∧ 4 ≤ n := by
  unfold fallback at h
  split at h
  · simp at h
  · rename_i hp
    rw [bind_eq_ok] at h
    obtain ⟨du, e1, h⟩ := h
    split at h
    · simp at h
    · rw [bind_eq_ok] at h
      obtain ⟨dv, e2, h⟩ := h
      split at h
      · simp at h
      · rw [bind_eq_ok] at h
        obtain ⟨m, e3, h⟩ := h
        split at h
        · simp at h
        · rw [bind_eq_ok] at h
          obtain ⟨n, e4, h⟩ := h
          split at h
          · simp at h
          · exact ⟨by simpa using hp, du, dv, m, n, e1, e2, e3, e4, by omega, by omega, by omega,
              by omega⟩

theorem fallback_of {o : Ops K α} {l : ℕ} {s : α} {du dv m n : ℕ} (hp : o.periodic s = false)
    (e1 : o.degreeU s = ok du) (e2 : o.degreeV s = ok dv) (e3 : o.numU s = ok m)
    (e4 : o.numV s = ok n) (h1 : 2 ≤ du) (h2 : 2 ≤ dv) (h3 : 4 ≤ m) (h4 : 4 ≤ n) :
    fallback o l s = ok none := by
  unfold fallback
  rw [hp, if_neg (by simp), e1, ok_bind, if_neg (by omega), e2, ok_bind, if_neg (by omega), e3,
    ok_bind, if_neg (by omega), e4, ok_bind, if_neg (by omega)]

/-- A result of the search on the unit square is in the box. -/
theorem unitSearch_mem {o : Ops K α} {Inv : α → Prop} (S : Sane o Inv) :
    ∀ {level : ℕ} {s : α} {b : Box K} {x : K × K}, Inv s → b.Ordered →
      unitSearch o level s b = ok x → b.Mem x := by
  intro level
  induction level with
  | zero =>
    intro s b x hs hb h
    rw [unitSearch, bind_eq_ok] at h
    obtain ⟨f, ef, h⟩ := h
    cases f with
    | some l => exact S.base _ _ _ _ hs hb h
    | none =>
      simp only [bind_eq_ok, pure_eq, ok.injEq] at h
      obtain ⟨t, et, r, er, c, -, uv, -, rfl⟩ := h
      have ho := (S.sub _ _ _ _ _ hs ef et er).1
      exact (remap_mem ho (clampBox_mem unitBox_ordered _)).mono (trim_eq et)
  | succ level ih =>
    intro s b x hs hb h
    rw [unitSearch, bind_eq_ok] at h
    obtain ⟨f, ef, h⟩ := h
    cases f with
    | some l => exact S.base _ _ _ _ hs hb h
    | none =>
      simp only [bind_eq_ok, pure_eq, ok.injEq] at h
      obtain ⟨t, et, r, er, c, -, d, ed, uv, euv, rfl⟩ := h
      obtain ⟨ho, hr⟩ := S.sub _ _ _ _ _ hs ef et er
      refine (remap_mem ho ?_).mono (trim_eq et)
      have hd := clampBox_mono (b := unitBox) (neighbours_order S hr ed)
      have h1 := clampBox_mem (unitBox_ordered (K := K)) d.1
      have h2 := clampBox_mem (unitBox_ordered (K := K)) d.2
      have := ih hr ⟨hd.1, hd.2⟩ euv
      exact this.mono ⟨h1.1.1, h2.1.2, h1.2.1, h2.2.2⟩

/-- A result of the search on knots is in the box. -/
theorem knotSearch_mem {o : Ops K α} {low : ℕ → ℕ} {Inv : α → Prop} (S : Sane o Inv) :
    ∀ {level : ℕ} {s : α} {b : Box K} {x : K × K}, Inv s → b.Ordered →
      knotSearch o low level s b = ok x → b.Mem x := by
  intro level
  induction level with
  | zero =>
    intro s b x hs hb h
    rw [knotSearch, bind_eq_ok] at h
    obtain ⟨f, ef, h⟩ := h
    cases f with
    | some l => exact S.base _ _ _ _ hs hb h
    | none =>
      simp only [bind_eq_ok, pure_eq, ok.injEq] at h
      obtain ⟨t, et, r, er, c, -, uv, -, rfl⟩ := h
      have ho := (S.sub _ _ _ _ _ hs ef et er).1
      exact (clampBox_mem ho _).mono (trim_eq et)
  | succ level ih =>
    intro s b x hs hb h
    rw [knotSearch, bind_eq_ok] at h
    obtain ⟨f, ef, h⟩ := h
    cases f with
    | some l => exact S.base _ _ _ _ hs hb h
    | none =>
      simp only [bind_eq_ok] at h
      obtain ⟨t, et, r, er, c, -, d, ed, euv⟩ := h
      obtain ⟨ho, hr⟩ := S.sub _ _ _ _ _ hs ef et er
      refine Box.Mem.mono (t := t) (trim_eq et) ?_
      have hd := clampBox_mono (b := t) (neighbours_order S hr ed)
      have h1 := clampBox_mem ho d.1
      have h2 := clampBox_mem ho d.2
      have := ih hr ⟨hd.1, hd.2⟩ euv
      exact this.mono ⟨h1.1.1, h2.1.2, h1.2.1, h2.2.2⟩

/-- The box of the next round: the neighbours' parameters clamped to a box. -/
def nextBox (t : Box K) (d : (K × K) × (K × K)) : Box K :=
  ⟨(clampBox t d.1).1, (clampBox t d.2).1, (clampBox t d.1).2, (clampBox t d.2).2⟩

/-- Every round of the search succeeds on the objects and boxes it reaches; `clamp` gives the
box of clamping from the trimmed range. -/
def Runs (o : Ops K α) (Inv : α → Prop) (Fits : α → Box K → Prop) (clamp : Box K → Box K) : Prop :=
  ∀ s b, Inv s → Fits s b → (∀ l, fallback o l s = ok none) ∧ ∃ t r c uv d,
    trim o s b = ok t ∧ o.subpatch s t = ok r ∧ o.closest r = ok c ∧
    o.preimage r c.1 c.2 = ok uv ∧ neighbours o s r c.1 c.2 = ok d ∧ Inv r ∧
    Fits r (nextBox (clamp t) d)

theorem unitSearch_runs {o : Ops K α} {Inv : α → Prop} {Fits : α → Box K → Prop}
    (R : Runs o Inv Fits (fun _ => unitBox)) : ∀ (level : ℕ) {s : α} {b : Box K}, Inv s → Fits s b →
      ∃ x, unitSearch o level s b = ok x := by
  intro level
  induction level with
  | zero =>
    intro s b hs hb
    obtain ⟨hf, t, r, c, uv, d, e1, e2, e3, e4, -⟩ := R s b hs hb
    rw [unitSearch, hf, ok_bind]
    simp only
    rw [e1, ok_bind, e2, ok_bind, e3, ok_bind, e4, ok_bind]
    exact ⟨_, rfl⟩
  | succ level ih =>
    intro s b hs hb
    obtain ⟨hf, t, r, c, uv, d, e1, e2, e3, -, e5, hr, hn⟩ := R s b hs hb
    obtain ⟨x, e⟩ := ih hr hn
    rw [unitSearch, hf, ok_bind]
    simp only
    rw [e1, ok_bind, e2, ok_bind, e3, ok_bind, e5, ok_bind]
    unfold nextBox at e
    rw [e, ok_bind]
    exact ⟨_, rfl⟩

theorem knotSearch_runs {o : Ops K α} {low : ℕ → ℕ} {Inv : α → Prop} {Fits : α → Box K → Prop}
    (R : Runs o Inv Fits id) : ∀ (level : ℕ) {s : α} {b : Box K}, Inv s → Fits s b →
      ∃ x, knotSearch o low level s b = ok x := by
  intro level
  induction level with
  | zero =>
    intro s b hs hb
    obtain ⟨hf, t, r, c, uv, d, e1, e2, e3, e4, -⟩ := R s b hs hb
    rw [knotSearch, hf, ok_bind]
    simp only
    rw [e1, ok_bind, e2, ok_bind, e3, ok_bind, e4, ok_bind]
    exact ⟨_, rfl⟩
  | succ level ih =>
    intro s b hs hb
    obtain ⟨hf, t, r, c, uv, d, e1, e2, e3, -, e5, hr, hn⟩ := R s b hs hb
    obtain ⟨x, e⟩ := ih hr hn
    rw [knotSearch, hf, ok_bind]
    simp only
    rw [e1, ok_bind, e2, ok_bind, e3, ok_bind, e5, ok_bind]
    exact ⟨x, e⟩

end ControlSearch

end NS
