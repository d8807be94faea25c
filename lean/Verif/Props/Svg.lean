import Verif.Model.Svg
import Verif.Spec.PostScript
import Verif.Props.Bezier
import Verif.Props.BSpline
import Verif.Props.Rational
import Verif.Props.RationalNurbs

/-!
# C78, C79: SVG and EPS export
-/

set_option linter.unusedSectionVars false
set_option linter.unusedSimpArgs false

namespace NS.Props

open NS Outcome Spec

variable {K : Type} [Field K] [LinearOrder K] [IsStrictOrderedRing K]

/-! ### The path -/

theorem drawParam_eq (c : DrawnCurve K) (h : c.lo ≤ c.hi) {n i : ℕ} (hn : 0 < n) (hi : i ≤ n) :
    drawParam c n i = c.lo + (i : K) / (n : K) * (c.hi - c.lo) ∧
      c.lo ≤ drawParam c n i ∧ drawParam c n i ≤ c.hi := by
  have hn' : (0 : K) < n := by exact_mod_cast hn
  have h1 : (0 : K) ≤ (i : K) / n := by positivity
  have h2 : (i : K) / n ≤ 1 := by
    rw [div_le_one hn']; exact_mod_cast hi
  have e : drawParam c n i = c.lo + (i : K) / (n : K) * (c.hi - c.lo) := by
    unfold drawParam
    rw [if_neg (by omega), min_eq_right (by nlinarith), max_eq_right (by nlinarith)]
  refine ⟨e, ?_, ?_⟩ <;> rw [e] <;> nlinarith

/-- **C78** (path).  For a curve that can be evaluated on its domain, `to_svg` with `n > 0` samples writes
a path of `n + 1` vertices; the first, and only the first, is a move; vertex `i` is the image of the curve
point at `lo + i / n (hi - lo)`, so the path starts and ends at the ends of the curve; and there is one
circle per control point, unless they are not wanted. -/
theorem C78_path (c : DrawnCurve K) (hdom : c.lo ≤ c.hi)
    (hev : ∀ t, c.lo ≤ t → t ≤ c.hi → ∃ p, c.ev t = ok p) (o : K × K) (s r : K) (b : Bool) (n : ℕ)
    (hn : 0 < n) :
    ∃ x, toSvg c o s b r n = ok x ∧ x.path.length = n + 1 ∧
      (∀ i ≤ n, ∃ p t, c.ev t = ok p ∧ t = c.lo + (i : K) / (n : K) * (c.hi - c.lo) ∧
        x.path[i]? = some (decide (i = 0), ((p.1 + o.1) * s, (p.2 + o.2) * s))) ∧
      (∃ p, c.ev c.lo = ok p ∧ x.path.head? = some (true, ((p.1 + o.1) * s, (p.2 + o.2) * s))) ∧
      (∃ p, c.ev c.hi = ok p ∧ x.path.getLast? = some (false, ((p.1 + o.1) * s, (p.2 + o.2) * s))) ∧
      (b = false → x.circles = none) ∧
      (b = true → x.circles = some (c.ctrl.map fun q => (((q.1 + o.1) * s, (q.2 + o.2) * s), r * s))) := by
  choose! f hf using hev
  have hpt : ∀ i ≤ n, c.ev (drawParam c n i) = ok (f (drawParam c n i)) := fun i hi =>
    hf _ (drawParam_eq c hdom hn hi).2.1 (drawParam_eq c hdom hn hi).2.2
  have hp : tab (n + 1) (fun i => do
      let p ← c.ev (drawParam c n i)
      pure (decide (i = 0), place o s p)) =
      ok (arr (n + 1) fun i => (decide (i = 0), place o s (f (drawParam c n i)))) := by
    apply tab_eq
    intro i hi
    rw [hpt i (by omega), ok_bind, pure_eq]
  have hx : toSvg c o s b r n = ok ⟨arr (n + 1) fun i =>
      (decide (i = 0), place o s (f (drawParam c n i))), if b then some (c.ctrl.map fun q =>
        (((q.1 + o.1) * s, (q.2 + o.2) * s), r * s)) else none⟩ := by
    unfold toSvg
    rw [hp, ok_bind]
    cases b <;> rfl
  have hget : ∀ i ≤ n, (arr (n + 1) fun i => (decide (i = 0), place o s (f (drawParam c n i))))[i]? =
      some (decide (i = 0), place o s (f (drawParam c n i))) := by
    intro i hi
    simp [arr, Nat.lt_succ_of_le hi]
  have h0 : drawParam c n 0 = c.lo := by
    rw [(drawParam_eq c hdom hn (Nat.zero_le n)).1]; simp
  have hN : drawParam c n n = c.hi := by
    rw [(drawParam_eq c hdom hn le_rfl).1, div_self (by exact_mod_cast hn.ne')]; ring
  refine ⟨_, hx, by simp [arr], fun i hi => ⟨f (drawParam c n i), drawParam c n i, hpt i hi,
    (drawParam_eq c hdom hn hi).1, hget i hi⟩, ⟨f c.lo, hf _ le_rfl hdom, ?_⟩,
    ⟨f c.hi, hf _ hdom le_rfl, ?_⟩, ?_, ?_⟩
  · rw [List.head?_eq_getElem?, hget 0 (Nat.zero_le n), h0]; rfl
  · rw [List.getLast?_eq_getElem?]
    have : (arr (n + 1) fun i => (decide (i = 0), place o s (f (drawParam c n i)))).length - 1 = n := by
      simp [arr]
    rw [this, hget n le_rfl, hN, decide_eq_false (by omega)]; rfl
  · rintro rfl; rfl
  · rintro rfl; rfl

/-! ### The page -/

theorem colMin_spec {l : List (K × K)} (hl : l ≠ []) :
    ∃ m, colMin l = ok m ∧ (∀ p ∈ l, m.1 ≤ p.1 ∧ m.2 ≤ p.2) ∧ (∃ p ∈ l, p.1 = m.1) ∧
      ∃ p ∈ l, p.2 = m.2 := by
  obtain ⟨a, l, rfl⟩ := List.exists_cons_of_ne_nil hl
  refine ⟨_, rfl, ?_⟩
  clear hl
  induction l generalizing a with
  | nil => exact ⟨fun p hp => by simp at hp; simp [hp], ⟨a, by simp, rfl⟩, ⟨a, by simp, rfl⟩⟩
  | cons b l ih =>
    obtain ⟨h1, ⟨p, hp, e⟩, ⟨q, hq, e'⟩⟩ := ih (min a.1 b.1, min a.2 b.2)
    rw [List.foldl_cons]
    have h0 := h1 _ (List.mem_cons_self)
    refine ⟨fun r hr => ?_, ?_, ?_⟩
    · rcases List.mem_cons.1 hr with rfl | hr
      · exact ⟨h0.1.trans (min_le_left _ _), h0.2.trans (min_le_left _ _)⟩
      · rcases List.mem_cons.1 hr with rfl | hr
        · exact ⟨h0.1.trans (min_le_right _ _), h0.2.trans (min_le_right _ _)⟩
        · exact h1 r (List.mem_cons_of_mem _ hr)
    · rcases List.mem_cons.1 hp with rfl | hp
      · rcases min_choice a.1 b.1 with h | h
        · exact ⟨a, by simp, by rw [← e]; exact h.symm⟩
        · exact ⟨b, by simp, by rw [← e]; exact h.symm⟩
      · exact ⟨p, by simp [hp], e⟩
    · rcases List.mem_cons.1 hq with rfl | hq
      · rcases min_choice a.2 b.2 with h | h
        · exact ⟨a, by simp, by rw [← e']; exact h.symm⟩
        · exact ⟨b, by simp, by rw [← e']; exact h.symm⟩
      · exact ⟨q, by simp [hq], e'⟩

theorem colMax_spec {l : List (K × K)} (hl : l ≠ []) :
    ∃ m, colMax l = ok m ∧ (∀ p ∈ l, p.1 ≤ m.1 ∧ p.2 ≤ m.2) ∧ (∃ p ∈ l, p.1 = m.1) ∧
      ∃ p ∈ l, p.2 = m.2 := by
  obtain ⟨a, l, rfl⟩ := List.exists_cons_of_ne_nil hl
  refine ⟨_, rfl, ?_⟩
  clear hl
  induction l generalizing a with
  | nil => exact ⟨fun p hp => by simp at hp; simp [hp], ⟨a, by simp, rfl⟩, ⟨a, by simp, rfl⟩⟩
  | cons b l ih =>
    obtain ⟨h1, ⟨p, hp, e⟩, ⟨q, hq, e'⟩⟩ := ih (max a.1 b.1, max a.2 b.2)
    rw [List.foldl_cons]
    have h0 := h1 _ (List.mem_cons_self)
    refine ⟨fun r hr => ?_, ?_, ?_⟩
    · rcases List.mem_cons.1 hr with rfl | hr
      · exact ⟨(le_max_left _ _).trans h0.1, (le_max_left _ _).trans h0.2⟩
      · rcases List.mem_cons.1 hr with rfl | hr
        · exact ⟨(le_max_right _ _).trans h0.1, (le_max_right _ _).trans h0.2⟩
        · exact h1 r (List.mem_cons_of_mem _ hr)
    · rcases List.mem_cons.1 hp with rfl | hp
      · rcases max_choice a.1 b.1 with h | h
        · exact ⟨a, by simp, by rw [← e]; exact h.symm⟩
        · exact ⟨b, by simp, by rw [← e]; exact h.symm⟩
      · exact ⟨p, by simp [hp], e⟩
    · rcases List.mem_cons.1 hq with rfl | hq
      · rcases max_choice a.2 b.2 with h | h
        · exact ⟨a, by simp, by rw [← e']; exact h.symm⟩
        · exact ⟨b, by simp, by rw [← e']; exact h.symm⟩
      · exact ⟨q, by simp [hq], e'⟩

/-- The drawing stays on the page: path vertices and centres keep a distance of 100 from its border and
the discs lie on it. -/
def OnPage (box : K × K) (x : SvgShape K) : Prop :=
  (∀ v ∈ x.path, (100 ≤ v.2.1 ∧ v.2.1 ≤ box.1 - 100) ∧ 100 ≤ v.2.2 ∧ v.2.2 ≤ box.2 - 100) ∧
  ∃ l, x.circles = some l ∧ ∀ d ∈ l, (100 ≤ d.1.1 ∧ d.1.1 ≤ box.1 - 100) ∧
    (100 ≤ d.1.2 ∧ d.1.2 ≤ box.2 - 100) ∧ 0 ≤ d.2 ∧ d.2 ≤ 100

/-- A curve that is defined on its domain and stays in the convex hull of its control points. -/
structure Hulled (c : DrawnCurve K) : Prop where
  dom : c.lo ≤ c.hi
  ne : c.ctrl ≠ []
  hull : ∀ t, c.lo ≤ t → t ≤ c.hi → ∃ p, c.ev t = ok p ∧ p ∈ convexHull K {x | x ∈ c.ctrl}

theorem Hulled.between {c : DrawnCurve K} {mn mx : K × K}
    (h1 : ∀ p ∈ c.ctrl, (mn.1 ≤ p.1 ∧ mn.2 ≤ p.2) ∧ p.1 ≤ mx.1 ∧ p.2 ≤ mx.2) {p : K × K}
    (hp : p ∈ convexHull K {x | x ∈ c.ctrl}) :
    (mn.1 ≤ p.1 ∧ mn.2 ≤ p.2) ∧ p.1 ≤ mx.1 ∧ p.2 ≤ mx.2 := by
  have l1 : IsLinearMap K (fun p : K × K => p.1) := (LinearMap.fst K K K).isLinear
  have l2 : IsLinearMap K (fun p : K × K => p.2) := (LinearMap.snd K K K).isLinear
  have hc : Convex K {p : K × K | (mn.1 ≤ p.1 ∧ mn.2 ≤ p.2) ∧ p.1 ≤ mx.1 ∧ p.2 ≤ mx.2} := by
    have := (((convex_halfSpace_ge l1 mn.1).inter (convex_halfSpace_ge l2 mn.2)).inter
      ((convex_halfSpace_le l1 mx.1).inter (convex_halfSpace_le l2 mx.2)))
    exact this
  exact convexHull_min (fun x hx => h1 x hx) hc hp

/-- Everything `save_svg` writes for a bounding box containing the control points. -/
theorem svgPage_spec (hyp : K → K → K) (hh : ∀ a b, 0 ≤ a → 0 ≤ b → 0 ≤ hyp a b ∧ hyp a b ≤ a + b)
    (mn mx : K × K) (cs : List (DrawnCurve K)) (hcs : ∀ c ∈ cs, Hulled c)
    (hin : ∀ c ∈ cs, ∀ p ∈ c.ctrl, (mn.1 ≤ p.1 ∧ mn.2 ≤ p.2) ∧ p.1 ≤ mx.1 ∧ p.2 ≤ mx.2)
    (hle : mn.1 ≤ mx.1 ∧ mn.2 ≤ mx.2) (hlt : mn.1 < mx.1 ∨ mn.2 < mx.2) :
    ∃ d, svgPage hyp mn mx cs = ok d ∧ d.frame = d.viewBox ∧ max d.viewBox.1 d.viewBox.2 = 1200 ∧
      200 ≤ d.viewBox.1 ∧ 200 ≤ d.viewBox.2 ∧ d.shapes.length = cs.length ∧
      ∃ (o : K × K) (s : K), 0 < s ∧ ∀ i (hi : i < cs.length), ∃ x r, d.shapes[i]? = some x ∧
        toSvg cs[i] o s true r 1000 = ok x ∧ OnPage d.viewBox x := by
  obtain ⟨mn1, mn2⟩ := mn
  obtain ⟨mx1, mx2⟩ := mx
  dsimp only at hle hlt hin
  obtain ⟨a, ha⟩ : ∃ a, a = mx1 - mn1 := ⟨_, rfl⟩
  obtain ⟨b, hb⟩ : ∃ b, b = mx2 - mn2 := ⟨_, rfl⟩
  have ha0 : 0 ≤ a := by rw [ha]; linarith [hle.1]
  have hb0 : 0 ≤ b := by rw [hb]; linarith [hle.2]
  obtain ⟨S, hS⟩ : ∃ S, S = max a b := ⟨_, rfl⟩
  have hSa : a ≤ S := hS ▸ le_max_left _ _
  have hSb : b ≤ S := hS ▸ le_max_right _ _
  have hS0 : 0 < S := by
    rcases hlt with h | h
    · exact lt_of_lt_of_le (by rw [ha]; linarith) hSa
    · exact lt_of_lt_of_le (by rw [hb]; linarith) hSb
  have hs : 0 < 1000 / S := by positivity
  have hm : S / 10 * (1000 / S) = 100 := by field_simp; norm_num
  have key : ∀ c ∈ cs, ∃ x, toSvg c (-mn1 + S / 10, -mn2 + S / 10) (1000 / S) true (hyp a b / 100) 1000 =
      ok x ∧ OnPage ((a + 2 * (S / 10)) * (1000 / S), (b + 2 * (S / 10)) * (1000 / S)) x := by
    intro c hc
    have H := hcs c hc
    have hpt : ∀ p : K × K, (mn1 ≤ p.1 ∧ mn2 ≤ p.2) ∧ p.1 ≤ mx1 ∧ p.2 ≤ mx2 →
        (100 ≤ (p.1 + (-mn1 + S / 10)) * (1000 / S) ∧
          (p.1 + (-mn1 + S / 10)) * (1000 / S) ≤ (a + 2 * (S / 10)) * (1000 / S) - 100) ∧
        100 ≤ (p.2 + (-mn2 + S / 10)) * (1000 / S) ∧
          (p.2 + (-mn2 + S / 10)) * (1000 / S) ≤ (b + 2 * (S / 10)) * (1000 / S) - 100 := by
      rintro p ⟨⟨h1, h2⟩, h3, h4⟩
      rw [ha, hb]
      refine ⟨⟨?_, ?_⟩, ?_, ?_⟩ <;> nlinarith
    obtain ⟨x, e, hlen, hv, -, -, -, hci⟩ := C78_path c H.dom (fun t h1 h2 => by
      obtain ⟨p, h, -⟩ := H.hull t h1 h2; exact ⟨p, h⟩) (-mn1 + S / 10, -mn2 + S / 10) (1000 / S)
      (hyp a b / 100) true 1000 (by norm_num)
    refine ⟨x, e, ?_, _, hci rfl, ?_⟩
    · intro v hvm
      obtain ⟨i, hi, rfl⟩ := List.getElem_of_mem hvm
      obtain ⟨p, t, hp, ht, hg⟩ := hv i (by omega)
      rw [List.getElem?_eq_getElem hi, Option.some.injEq] at hg
      rw [hg]
      have hin' : c.lo ≤ t ∧ t ≤ c.hi := by
        have := drawParam_eq c H.dom (n := 1000) (i := i) (by norm_num) (by omega)
        rw [this.1, ← ht] at this
        exact this.2
      obtain ⟨q, hq, hqh⟩ := H.hull t hin'.1 hin'.2
      rw [hp, ok.injEq] at hq
      subst hq
      exact hpt _ (Hulled.between (mn := (mn1, mn2)) (mx := (mx1, mx2)) (hin c hc) hqh)
    · intro d hd
      obtain ⟨q, hq, rfl⟩ := List.mem_map.1 hd
      have := hpt q (hin c hc q hq)
      have hr := hh a b ha0 hb0
      refine ⟨this.1, this.2, by have := hr.1; positivity, ?_⟩
      calc hyp a b / 100 * (1000 / S) ≤ (2 * S) / 100 * (1000 / S) := by
            apply mul_le_mul_of_nonneg_right _ hs.le
            linarith [hr.2]
        _ = 20 := by field_simp; norm_num
        _ ≤ 100 := by norm_num
  have : Nonempty (SvgShape K) := ⟨⟨[], none⟩⟩
  choose! g hg1 hg2 using key
  have ht : tab cs.length (fun i => do
      let c ← rd cs i
      toSvg c (-mn1 + S / 10, -mn2 + S / 10) (1000 / S) true (hyp a b / 100) 1000) =
      ok (arr cs.length fun i => if h : i < cs.length then g cs[i] else ⟨[], none⟩) := by
    apply tab_eq
    intro i hi
    rw [rd_of_lt hi, ok_bind, dif_pos hi, hg1 _ (List.getElem_mem hi)]
  have e : svgPage hyp (mn1, mn2) (mx1, mx2) cs =
      ok ⟨((a + 2 * (S / 10)) * (1000 / S), (b + 2 * (S / 10)) * (1000 / S)),
        ((a + 2 * (S / 10)) * (1000 / S), (b + 2 * (S / 10)) * (1000 / S)),
        arr cs.length fun i => if h : i < cs.length then g cs[i] else ⟨[], none⟩⟩ := by
    unfold svgPage
    dsimp only
    rw [← ha, ← hb, ← hS, assert_true hS0.ne', ok_bind, ht, ok_bind, pure_eq]
  refine ⟨_, e, rfl, ?_, ?_, ?_, by simp [arr], (-mn1 + S / 10, -mn2 + S / 10), 1000 / S, hs, ?_⟩
  · dsimp only
    rw [← max_mul_of_nonneg _ _ hs.le, max_add_add_right, ← hS]
    field_simp
    norm_num
  · dsimp only
    nlinarith [mul_nonneg ha0 hs.le]
  · dsimp only
    nlinarith [mul_nonneg hb0 hs.le]
  · intro i hi
    refine ⟨g cs[i], hyp a b / 100, ?_, hg1 _ (List.getElem_mem hi), hg2 _ (List.getElem_mem hi)⟩
    simp [arr, hi]

/-- **C78** (one curve).  A curve that stays in the hull of its control points, two of which differ, is
exported; the page is 1200 units in its larger and at least 200 in its smaller dimension, and everything
drawn stays on it. -/
theorem C78_save (hyp : K → K → K) (hh : ∀ a b, 0 ≤ a → 0 ≤ b → 0 ≤ hyp a b ∧ hyp a b ≤ a + b)
    (c : DrawnCurve K) (hc : Hulled c) (hne : ∃ p ∈ c.ctrl, ∃ q ∈ c.ctrl, p ≠ q) :
    ∃ d x, saveSvg hyp c = ok d ∧ d.frame = d.viewBox ∧ max d.viewBox.1 d.viewBox.2 = 1200 ∧
      200 ≤ d.viewBox.1 ∧ 200 ≤ d.viewBox.2 ∧ d.shapes = [x] ∧ OnPage d.viewBox x ∧
      ∃ (o : K × K) (s r : K), 0 < s ∧ toSvg c o s true r 1000 = ok x := by
  obtain ⟨mn, e1, a1, -, -⟩ := colMin_spec hc.ne
  obtain ⟨mx, e2, b1, -, -⟩ := colMax_spec hc.ne
  obtain ⟨p, hp, q, hq, hpq⟩ := hne
  have h1 := a1 p hp
  have h2 := b1 p hp
  have h3 := a1 q hq
  have h4 := b1 q hq
  obtain ⟨d, e, f1, f2, f3, f4, f5, o, s, hs, f6⟩ := svgPage_spec hyp hh mn mx [c]
    (fun x hx => by rw [List.mem_singleton.1 hx]; exact hc)
    (fun x hx r hr => by rw [List.mem_singleton.1 hx] at hr; exact ⟨a1 r hr, b1 r hr⟩)
    ⟨h1.1.trans h2.1, h1.2.trans h2.2⟩ (by
      by_contra hcon
      push Not at hcon
      apply hpq
      apply Prod.ext <;> linarith [hcon.1, hcon.2, h1.1, h1.2, h2.1, h2.2, h3.1, h3.2, h4.1, h4.2])
  obtain ⟨x, r, g1, g2, g3⟩ := f6 0 (by simp)
  refine ⟨d, x, ?_, f1, f2, f3, f4, ?_, g3, o, s, r, hs, g2⟩
  · unfold saveSvg
    rw [e1, ok_bind, e2, ok_bind, e]
  · have hl : d.shapes.length = 1 := f5
    obtain ⟨y, hy⟩ := List.length_eq_one_iff.1 hl
    rw [hy] at g1 ⊢
    simpa using g1

theorem growBox_spec : ∀ (cs : List (DrawnCurve K)) (b : (K × K) × (K × K)),
    (∀ c ∈ cs, c.ctrl ≠ []) → ∃ b', growBox cs b = ok b' ∧
      (b'.1.1 ≤ b.1.1 ∧ b'.1.2 ≤ b.1.2 ∧ b.2.1 ≤ b'.2.1 ∧ b.2.2 ≤ b'.2.2) ∧
      ∀ c ∈ cs, ∀ p ∈ c.ctrl, (b'.1.1 ≤ p.1 ∧ b'.1.2 ≤ p.2) ∧ p.1 ≤ b'.2.1 ∧ p.2 ≤ b'.2.2 := by
  intro cs
  induction cs with
  | nil => intro b _; exact ⟨b, rfl, ⟨le_rfl, le_rfl, le_rfl, le_rfl⟩, by simp⟩
  | cons c cs ih =>
    intro b h
    obtain ⟨mn, e1, a1, -, -⟩ := colMin_spec (h c (by simp))
    obtain ⟨mx, e2, b1, -, -⟩ := colMax_spec (h c (by simp))
    obtain ⟨b', e, ⟨h1, h2, h3, h4⟩, h5⟩ := ih
      ((min b.1.1 mn.1, min b.1.2 mn.2), (max b.2.1 mx.1, max b.2.2 mx.2)) (fun x hx => h x (by simp [hx]))
    refine ⟨b', ?_, ⟨h1.trans (min_le_left _ _), h2.trans (min_le_left _ _),
      (le_max_left _ _).trans h3, (le_max_left _ _).trans h4⟩, ?_⟩
    · rw [growBox, e1, ok_bind, e2, ok_bind, e]
    · intro x hx p hp
      rcases List.mem_cons.1 hx with rfl | hx
      · have q1 := a1 p hp
        have q2 := b1 p hp
        exact ⟨⟨h1.trans ((min_le_right _ _).trans q1.1), h2.trans ((min_le_right _ _).trans q1.2)⟩,
          q2.1.trans ((le_max_right _ _).trans h3), q2.2.trans ((le_max_right _ _).trans h4)⟩
      · exact h5 x hx p hp

/-- **C78** (several curves).  All curves of the list are drawn with the same map, in order, and stay on
the page. -/
theorem C78_save_list (hyp : K → K → K) (hh : ∀ a b, 0 ≤ a → 0 ≤ b → 0 ≤ hyp a b ∧ hyp a b ≤ a + b)
    (big : K) (cs : List (DrawnCurve K)) (hcs : ∀ c ∈ cs, Hulled c)
    (hne : ∃ c ∈ cs, ∃ p ∈ c.ctrl, ∃ c' ∈ cs, ∃ q ∈ c'.ctrl, p ≠ q) :
    ∃ d, saveSvgs hyp big cs = ok d ∧ d.frame = d.viewBox ∧ max d.viewBox.1 d.viewBox.2 = 1200 ∧
      200 ≤ d.viewBox.1 ∧ 200 ≤ d.viewBox.2 ∧ d.shapes.length = cs.length ∧
      ∃ (o : K × K) (s : K), 0 < s ∧ ∀ i (hi : i < cs.length), ∃ x r, d.shapes[i]? = some x ∧
        toSvg cs[i] o s true r 1000 = ok x ∧ OnPage d.viewBox x := by
  obtain ⟨b, e, -, hb⟩ := growBox_spec cs ((big, big), (-big, -big)) (fun c hc => (hcs c hc).ne)
  obtain ⟨c, hc, p, hp, c', hc', q, hq, hpq⟩ := hne
  have h1 := hb c hc p hp
  have h2 := hb c' hc' q hq
  obtain ⟨d, ed, rest⟩ := svgPage_spec hyp hh b.1 b.2 cs hcs hb
    ⟨h1.1.1.trans h1.2.1, h1.1.2.trans h1.2.2⟩ (by
      by_contra hcon
      push Not at hcon
      apply hpq
      apply Prod.ext <;> linarith [hcon.1, hcon.2, h1.1.1, h1.1.2, h2.1.1, h2.1.2, h1.2.1, h1.2.2,
        h2.2.1, h2.2.2])
  refine ⟨d, ?_, rest⟩
  unfold saveSvgs
  rw [e, ok_bind, ed]

/-- **C78**: false when all control points coincide: the scale divides by zero. -/
theorem C78_point_refuted (hyp : K → K → K) (c : DrawnCurve K) (p : K × K) (n : ℕ)
    (h : c.ctrl = List.replicate (n + 1) p) : saveSvg hyp c = ub := by
  obtain ⟨mn, e1, -, ⟨q1, a1, a2⟩, ⟨q2, a3, a4⟩⟩ := colMin_spec (l := c.ctrl) (by rw [h]; simp)
  obtain ⟨mx, e2, -, ⟨q3, b1, b2⟩, ⟨q4, b3, b4⟩⟩ := colMax_spec (l := c.ctrl) (by rw [h]; simp)
  rw [h] at a1 a3 b1 b3
  have := List.eq_of_mem_replicate a1
  have := List.eq_of_mem_replicate a3
  have := List.eq_of_mem_replicate b1
  have := List.eq_of_mem_replicate b3
  subst_vars
  unfold saveSvg
  rw [e1, ok_bind, e2, ok_bind]
  unfold svgPage
  dsimp only
  rw [← a2, ← a4, ← b2, ← b4, assert_false (by simp)]
  rfl

/-! ### The curve classes -/

section Classes

open BSpline

variable [FloorRing K]

/-- **C78** (Bezier curves).  Every Bezier curve with a control point stays in their hull. -/
theorem C78_bezier (c : Bezier (K × K)) (hc : c.ctrl ≠ []) : Hulled (K := K) ⟨c.ctrl, c.evaluate, 0, 1⟩ :=
  ⟨zero_le_one, hc, fun t h0 h1 => C03_convex_hull c hc t h0 h1⟩

/-- **C78** (B-splines). -/
theorem C78_bspline {c : BSpline K (K × K)} {p : ℕ} (hc : WellFormed c p) (hw : Wide c p)
    (hper : c.periodic = false) (hf : FirstSpan c p) :
    ∃ lo hi, c.lower = ok lo ∧ c.upper = ok hi ∧ Hulled ⟨c.ctrl, c.evaluate, lo, hi⟩ := by
  refine ⟨_, _, lower_eq hc, upper_eq hc, hc.dom.le, ?_, fun t h0 h1 => ?_⟩
  · intro h
    have := hc.ctrl
    rw [show c.ctrl = [] from h] at this
    simp at this
  · obtain ⟨k, x, hk, hk2, -, -, e, hx⟩ := C14_convex_hull hc hw hper t (Or.inl hf) h0 h1
    refine ⟨x, e, convexHull_mono ?_ hx⟩
    rintro P ⟨i, -, hi, rfl⟩
    have : i < c.ctrl.length := by omega
    simp [List.getD, this]

/-- **C78** (rational Bezier curves with positive weights). -/
theorem C78_rational_bezier {c : RationalBezier K (K × K)} (hc : c.init = ok c)
    (hne : c.base.ctrl ≠ []) (hw : ∀ x ∈ c.weights, 0 < x) :
    Hulled ⟨c.base.ctrl, c.evaluate, 0, 1⟩ :=
  ⟨zero_le_one, hne, fun t h0 h1 => C24_rational_bezier_positive hc hne hw t (Or.inr ⟨h0, h1⟩)⟩

/-- **C78** (NURBS curves with positive weights). -/
theorem C78_nurbs {c : NURBS K (K × K)} (hc : c.init = ok c) {p : ℕ} (hwf : WellFormed c.base p)
    (hw : Wide c.base p) (hfst : FirstSpan c.base p) (hpos : ∀ x ∈ c.weights, 0 < x) :
    ∃ lo hi, c.base.lower = ok lo ∧ c.base.upper = ok hi ∧ Hulled ⟨c.base.ctrl, c.evaluate, lo, hi⟩ := by
  refine ⟨_, _, lower_eq hwf, upper_eq hwf, hwf.dom.le, ?_, fun t h0 h1 => ?_⟩
  · intro h
    have := hwf.ctrl
    rw [show c.base.ctrl = [] from h] at this
    simp at this
  · exact C24_nurbs_positive hc hwf hw hfst hpos t (Or.inr ⟨h0, h1⟩)

end Classes

/-- A rational parabola with a negative middle weight. -/
def negWeight : RationalBezier ℚ (ℚ × ℚ) :=
  ⟨⟨[(0, 0), (1, 1), (2, 0)], false⟩, [1, -1 / 2, 1],
    ⟨[((0, 0), 1), ((-1 / 2, -1 / 2), -1 / 2), ((2, 0), 1)], false⟩⟩

/-- **C78**: false for rational curves with a weight of the other sign, which leave the hull of their
control points and here also the page. -/
theorem C78_negative_weight_refuted :
    ∃ (c : RationalBezier ℚ (ℚ × ℚ)) (d : SvgDoc ℚ), c.init = ok c ∧
      saveSvg (fun a b => a + b) ⟨c.base.ctrl, c.evaluate, 0, 1⟩ = ok d ∧
      ∃ x ∈ d.shapes, ∃ v ∈ x.path, v.2.2 < 0 := by
  have h : (match saveSvg (fun a b => a + b) ⟨negWeight.base.ctrl, negWeight.evaluate, 0, 1⟩ with
      | ok d => d.shapes.any fun x => x.path.any fun v => decide (v.2.2 < 0)
      | _ => false) = true := by decide +kernel
  split at h
  · rename_i d hd
    obtain ⟨x, hx, h⟩ := List.any_eq_true.1 h
    obtain ⟨v, hv, h⟩ := List.any_eq_true.1 h
    exact ⟨negWeight, d, by decide +kernel, hd, x, hx, v, hv, of_decide_eq_true h⟩
  · cases h

/-! ### EPS -/

theorem psRun_append (s : PsState K) (a b : List (PsTok K)) :
    psRun s (a ++ b) = (psRun s a).bind (fun s' => psRun s' b) := by
  induction a generalizing s with
  | nil => rfl
  | cons t a ih =>
    rw [List.cons_append, psRun, psRun]
    cases psStep s t with
    | none => rfl
    | some s' => exact ih s'

theorem psRun_path (g : ℕ → K × K) (n : ℕ) :
    psRun psStart ((arr (n + 1) fun i => psPoint (g i) ++
      [PsTok.name (if i = 0 then "moveto" else "lineto")]).flatten) =
      some ⟨[], [arr (n + 1) g], [], [], []⟩ := by
  induction n with
  | zero => rfl
  | succ n ih =>
    have e : ∀ {α : Type} (h : ℕ → α), arr (n + 1 + 1) h = arr (n + 1) h ++ [h (n + 1)] := by
      intro α h; simp [arr, List.range_succ]
    rw [e, e, List.flatten_append, psRun_append, ih, Option.bind_some, if_neg (by omega)]
    simp [psPoint, psRun, psStep]

/-- **C79** (path).  For a curve that can be evaluated on its domain the program written by `to_eps` is a
part that leaves the polyline of the `n + 1` samples as the current path, with no operand left over,
followed by a rest. -/
theorem C79_path_partial (c : DrawnCurve K) (hdom : c.lo ≤ c.hi)
    (hev : ∀ t, c.lo ≤ t → t ≤ c.hi → ∃ p, c.ev t = ok p) (o : K × K) (s w r : K) (b : Bool)
    (col ccol : K × K × K) (n : ℕ) (hn : 0 < n) :
    ∃ prog rest path, toEps c o s b col w ccol r n = ok (prog ++ rest) ∧
      psRun psStart prog = some ⟨[], [path], [], [], []⟩ ∧ path.length = n + 1 ∧
      ∀ i ≤ n, ∃ p, c.ev (c.lo + (i : K) / (n : K) * (c.hi - c.lo)) = ok p ∧
        path[i]? = some ((p.1 + o.1) * s, (p.2 + o.2) * s) := by
  choose! f hf using hev
  have hpt : ∀ i ≤ n, c.ev (drawParam c n i) = ok (f (drawParam c n i)) := fun i hi =>
    hf _ (drawParam_eq c hdom hn hi).2.1 (drawParam_eq c hdom hn hi).2.2
  have hp : tab (n + 1) (fun i => do
      let p ← c.ev (drawParam c n i)
      pure (psPoint (place o s p) ++ [PsTok.name (if i = 0 then "moveto" else "lineto")])) =
      ok (arr (n + 1) fun i => psPoint (place o s (f (drawParam c n i))) ++
        [PsTok.name (if i = 0 then "moveto" else "lineto")]) := by
    apply tab_eq
    intro i hi
    rw [hpt i (by omega), ok_bind, pure_eq]
  have hrun : psRun psStart ([.num col.1, .num col.2.1, .num col.2.2, .name "setrgbcolor",
      .num w, .name "setlinewidth"] ++ (arr (n + 1) fun i => psPoint (place o s (f (drawParam c n i))) ++
        [PsTok.name (if i = 0 then "moveto" else "lineto")]).flatten) =
      some ⟨[], [arr (n + 1) fun i => place o s (f (drawParam c n i))], [], [], []⟩ := by
    rw [psRun_append]
    have : psRun psStart [.num col.1, .num col.2.1, .num col.2.2, .name "setrgbcolor",
      .num w, .name "setlinewidth"] = some psStart := rfl
    rw [this, Option.bind_some, psRun_path (fun i => place o s (f (drawParam c n i)))]
  refine ⟨_, if b then [.name "stoke"] ++ ([.num ccol.1, .num ccol.2.1, .num ccol.2.2,
      .name "setrgbcolor"] ++ (c.ctrl.map (fun p => psPoint (place o s p) ++
      [.num (r * s), .num 0, .num 360])).flatten ++ [.name "fill"]) else [.name "stoke"], _, ?_, hrun,
      by simp [arr], fun i hi => ⟨f (drawParam c n i), ?_, ?_⟩⟩
  · unfold toEps
    rw [hp, ok_bind]
    cases b with
    | false => rfl
    | true => simp [List.append_assoc, pure_eq]
  · rw [← (drawParam_eq c hdom hn hi).1]; exact hpt i hi
  · simp [arr, Nat.lt_succ_of_le hi, place]

/-- **C79**: false for every curve and all arguments: the program ends with an error (the name `stoke` is
not an operator), the path is not stroked, and no circle is ever drawn. -/
theorem C79_program_refuted (c : DrawnCurve K) (o : K × K) (s w r : K) (b : Bool)
    (col ccol : K × K × K) (n : ℕ) (prog : List (PsTok K))
    (h : toEps c o s b col w ccol r n = ok prog) :
    psRun psStart prog = none ∧ PsTok.name "stroke" ∉ prog ∧ PsTok.name "arc" ∉ prog := by
  have bad : ∀ (s : PsState K) (a b : List (PsTok K)),
      psRun s (a ++ (PsTok.name "stoke" :: b)) = none := by
    intro s a b
    rw [psRun_append]
    cases psRun s a with
    | none => rfl
    | some s' => rfl
  unfold toEps at h
  obtain ⟨path, hp, h⟩ := bind_eq_ok.1 h
  have hmem : ∀ x ∈ path.flatten, x ≠ PsTok.name "stroke" ∧ x ≠ PsTok.name "arc" := by
    intro x hx
    obtain ⟨l, hl, hxl⟩ := List.mem_flatten.1 hx
    obtain ⟨i, hi, rfl⟩ := List.getElem_of_mem hl
    obtain ⟨hlen, hf⟩ := tab_inv hp
    obtain ⟨a, ha, hg⟩ := hf i (by omega)
    rw [List.getElem?_eq_getElem hi, Option.some.injEq] at hg
    rw [hg] at hxl
    obtain ⟨p, -, ha⟩ := bind_eq_ok.1 ha
    rw [pure_eq, ok.injEq] at ha
    rw [← ha] at hxl
    split at hxl <;> simp [psPoint] at hxl <;> rcases hxl with rfl | rfl | rfl <;> simp
  have hc : ∀ x ∈ (c.ctrl.map (fun p => psPoint (place o s p) ++
      [PsTok.num (r * s), .num 0, .num 360])).flatten, x ≠ PsTok.name "stroke" ∧ x ≠ PsTok.name "arc" := by
    intro x hx
    obtain ⟨l, hl, hxl⟩ := List.mem_flatten.1 hx
    obtain ⟨p, -, rfl⟩ := List.mem_map.1 hl
    simp [psPoint] at hxl
    rcases hxl with rfl | rfl | rfl | rfl | rfl <;> simp
  dsimp only at h
  split at h
  · rw [pure_eq, ok.injEq] at h
    subst h
    refine ⟨bad _ _ _, fun hm => ?_, fun hm => ?_⟩
    · simp only [List.mem_append] at hm
      rcases hm with (hm | hm) | hm
      · simp at hm
      · exact (hmem _ hm).1 rfl
      · simp at hm
    · simp only [List.mem_append] at hm
      rcases hm with (hm | hm) | hm
      · simp at hm
      · exact (hmem _ hm).2 rfl
      · simp at hm
  · rw [pure_eq, ok.injEq] at h
    subst h
    refine ⟨?_, fun hm => ?_, fun hm => ?_⟩
    · simp only [List.append_assoc, List.singleton_append]
      rw [← List.append_assoc]
      exact bad _ _ _
    · simp only [List.mem_append] at hm
      rcases hm with ((((hm | hm) | hm) | hm) | hm) | hm
      · simp at hm
      · exact (hmem _ hm).1 rfl
      · simp at hm
      · simp at hm
      · exact (hc _ hm).1 rfl
      · simp at hm
    · simp only [List.mem_append] at hm
      rcases hm with ((((hm | hm) | hm) | hm) | hm) | hm
      · simp at hm
      · exact (hmem _ hm).2 rfl
      · simp at hm
      · simp at hm
      · exact (hc _ hm).2 rfl
      · simp at hm

/-! ### Concrete cases -/

/-- A cubic; its export and the page it is drawn on. -/
def exDrawn : Bezier (ℚ × ℚ) := ⟨[(0, 0), (1, 2), (3, 2), (4, -1)], false⟩

example : ∃ d x, saveSvg (fun a b => max a b) (⟨exDrawn.ctrl, exDrawn.evaluate, 0, 1⟩ : DrawnCurve ℚ) =
    ok d ∧ d.shapes = [x] ∧ OnPage d.viewBox x := by
  obtain ⟨d, x, e, -, -, -, -, h1, h2, -⟩ := C78_save (K := ℚ) (fun a b => max a b)
    (fun a b ha hb => ⟨ha.trans (le_max_left _ _), max_le (by linarith) (by linarith)⟩) _
    (C78_bezier exDrawn (by decide +kernel)) ⟨(0, 0), by decide +kernel, (4, -1), by decide +kernel,
      by decide +kernel⟩
  exact ⟨d, x, e, h1, h2⟩

example : saveSvg (K := ℚ) max ⟨[(1, 2), (1, 2)], fun _ => ok (1, 2), 0, 1⟩ = ub :=
  C78_point_refuted _ _ (1, 2) 1 rfl

example : ∃ d, saveSvgs (K := ℚ) max (10 ^ 9) [⟨exDrawn.ctrl, exDrawn.evaluate, 0, 1⟩,
    ⟨[(7, 7)], fun _ => ok (7, 7), 0, 1⟩] = ok d ∧ d.shapes.length = 2 := by
  obtain ⟨d, e, -, -, -, -, h, -⟩ := C78_save_list (K := ℚ) max
    (fun a b ha hb => ⟨ha.trans (le_max_left _ _), max_le (by linarith) (by linarith)⟩) (10 ^ 9)
    [⟨exDrawn.ctrl, exDrawn.evaluate, 0, 1⟩, ⟨[(7, 7)], fun _ => ok (7, 7), 0, 1⟩] (by
      intro c hc
      rcases List.mem_cons.1 hc with rfl | hc
      · exact C78_bezier exDrawn (by decide +kernel)
      · rw [List.mem_singleton.1 hc]
        exact ⟨zero_le_one, by simp, fun t _ _ => ⟨_, rfl, subset_convexHull _ _ (by simp)⟩⟩)
    ⟨_, List.mem_cons_self, (0, 0), by decide +kernel, _, List.mem_cons_self, (4, -1), by decide +kernel,
      by decide +kernel⟩
  exact ⟨d, e, h⟩

example : ∃ prog, toEps (⟨exDrawn.ctrl, exDrawn.evaluate, 0, 1⟩ : DrawnCurve ℚ) (0, 0) 1 true (255, 0, 0)
    (1 / 5) (88, 88, 88) 1 2 = ok prog ∧ psRun psStart prog = none := by
  obtain ⟨p, q, -, e, -⟩ := C79_path_partial (⟨exDrawn.ctrl, exDrawn.evaluate, 0, 1⟩ : DrawnCurve ℚ)
    zero_le_one (fun t h0 h1 => by
      obtain ⟨x, e, -⟩ := (C78_bezier exDrawn (by decide +kernel)).hull t h0 h1; exact ⟨x, e⟩)
    (0, 0) 1 (1 / 5) 1 true (255, 0, 0) (88, 88, 88) 2 (by norm_num)
  exact ⟨_, e, (C79_program_refuted _ _ _ _ _ _ _ _ _ _ e).1⟩

end NS.Props
