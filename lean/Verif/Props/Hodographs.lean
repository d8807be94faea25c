import Verif.Props.Compose
import Mathlib.Tactic.Module

/-!
# Taking the derivative curve commutes with editing (C112)
-/

set_option linter.unusedSectionVars false
set_option linter.unusedSimpArgs false

namespace NS.Props

open Outcome Spec Finset Polynomial

variable {K V : Type} [Field K] [LinearOrder K] [IsStrictOrderedRing K] [FloorRing K]
  [AddCommGroup V] [Module K V]

/-- The curve with all control points multiplied by `k`. -/
def scaleBezier (k : K) (c : Bezier V) : Bezier V := { c with ctrl := c.ctrl.map (k • ·) }

theorem hodograph_arr (nrm : V → K) (eps : K) (n : ℕ) (P : ℕ → V) :
    Bezier.hodograph nrm eps { ctrl := arr (n + 2) P }
      = ok { ctrl := arr (n + 1) fun i => ((n + 1 : ℕ) : K) • (P (i + 1) - P i) } := by
  unfold Bezier.hodograph
  simp only [arr_length, Nat.add_sub_cancel]
  rw [if_neg (by omega), if_neg (by omega), show n + 2 - 1 = n + 1 by omega,
    Bezier.hodograph_ctrl (n + 1) P (fun _ => ((n + 1 : ℕ) : K))]
  simp

theorem hodograph_one (nrm : V → K) (eps : K) (c : Bezier V) (h : c.ctrl.length = 1) :
    Bezier.hodograph nrm eps c = ok { ctrl := [0] } := by
  unfold Bezier.hodograph
  simp only [h]
  rfl

theorem umb_diff (P : ℕ → V) (k : K) (q : K[X]) :
    umb (fun i => k • (P (i + 1) - P i)) q = k • umb P ((X - 1) * q) := by
  rw [sub_mul, one_mul, map_sub, umb_shift]
  induction q using Polynomial.induction_on' with
  | add p q hp hq => simp only [map_add, hp, hq]; module
  | monomial n a => simp only [umb_monomial]; module

/-- **C112**: the derivative curve of a restriction is the restriction of the derivative curve, times the length of the
range. -/
theorem C112_subcurve (nrm : V → K) (eps : K) (c : Bezier V) (hc : c.ctrl ≠ []) (hp : c.periodic = false) {a b : K}
    (h0 : 0 ≤ a) (h1 : a ≤ b) (h2 : b ≤ 1) :
    ∃ S H T, Bezier.subcurve c a b = ok S ∧ Bezier.hodograph nrm eps c = ok H ∧ Bezier.subcurve H a b = ok T ∧
      Bezier.hodograph nrm eps S = ok (scaleBezier (b - a) T) := by
  obtain ⟨n, P, e⟩ := Bezier.exists_arr c.ctrl hc
  have ec : c = { ctrl := arr (n + 1) P, periodic := false } := by
    cases c; simp_all
  subst ec
  rcases n with _ | n
  · refine ⟨_, { ctrl := arr 1 fun _ => 0 }, _, Bezier.subcurve_arr 0 P a b false h1 h0 h2, ?_,
      Bezier.subcurve_arr 0 (fun _ => 0) a b false h1 h0 h2, ?_⟩
    · rw [hodograph_one _ _ _ (by simp)]; rfl
    · rw [hodograph_one _ _ _ (by simp)]
      simp [scaleBezier, arr, umb_one]
  · refine ⟨_, _, _, Bezier.subcurve_arr (n + 1) P a b false h1 h0 h2, hodograph_arr nrm eps n P,
      Bezier.subcurve_arr n _ a b false h1 h0 h2, ?_⟩
    rw [hodograph_arr]
    unfold scaleBezier
    congr 2
    unfold arr
    rw [List.map_map]
    refine List.map_congr_left fun i hi => ?_
    have hi' : i < n + 1 := List.mem_range.1 hi
    have e1 : n + 1 - i = (n - i) + 1 := by omega
    have e2 : n + 1 - (i + 1) = n - i := by omega
    simp only [Function.comp]
    rw [umb_diff, e1, e2, smul_comm, ← umb_C_mul, ← map_sub]
    congr 2
    simp only [lin, map_sub, map_one]
    ring

/-- **C112**: the derivative curves of the two parts of a split are the parts of the derivative curve, times the
lengths of the parts. -/
theorem C112_split (nrm : V → K) (eps : K) (c : Bezier V) (hc : c.ctrl ≠ []) (hp : c.periodic = false) {t : K}
    (h0 : 0 < t) (h1 : t < 1) :
    ∃ A B H A' B', Bezier.split c t = ok [A, B] ∧ Bezier.hodograph nrm eps c = ok H ∧ Bezier.split H t = ok [A', B'] ∧
      Bezier.hodograph nrm eps A = ok (scaleBezier t A') ∧
      Bezier.hodograph nrm eps B = ok (scaleBezier (1 - t) B') := by
  obtain ⟨S, H, T, e1, e2, e3, e4⟩ := C112_subcurve nrm eps c hc hp le_rfl h0.le h1.le
  obtain ⟨S', H', T', f1, f2, f3, f4⟩ := C112_subcurve nrm eps c hc hp h0.le h1.le le_rfl
  rw [e2] at f2
  injection f2 with f2
  subst f2
  obtain ⟨H', g1, -, g3, -⟩ := C06_hodograph nrm eps c hc hp
  rw [e2] at g1
  injection g1 with g1
  subst g1
  have hH : H.ctrl ≠ [] := by
    intro h; rw [h] at g3; simp at g3; omega
  refine ⟨S, S', H, T, T', ?_, e2, ?_, by rw [e4, sub_zero], f4⟩
  · rw [C92_split_subcurve c hc h0 h1, e1, f1]; rfl
  · rw [C92_split_subcurve H hH h0 h1, e3, f3]; rfl

theorem elevate_uniform (n : ℕ) (P : ℕ → V) (per : Bool) :
    Bezier.elevateDegree K ({ ctrl := arr (n + 1) P, periodic := per } : Bezier V)
      = ok { ctrl := arr (n + 2) (fun i => (1 - (i : K) / (n + 1)) • P i + ((i : K) / (n + 1)) • P (i - 1)),
             periodic := per } := by
  rw [Bezier.elevateDegree_arr]
  congr 2
  refine arr_congr fun i hi => ?_
  split
  · rename_i h; subst h; simp
  · split
    · rename_i h; subst h
      have : ((n : K) + 1) ≠ 0 := by positivity
      push_cast
      rw [div_self this]
      simp
    · rfl

/-- **C112**: elevating the degree and taking the derivative curve can be done in either order. -/
theorem C112_elevate (nrm : V → K) (eps : K) (c : Bezier V) (hc : 2 ≤ c.ctrl.length) (hp : c.periodic = false) :
    ∃ E H, Bezier.elevateDegree K c = ok E ∧ Bezier.hodograph nrm eps c = ok H ∧
      Bezier.hodograph nrm eps E = Bezier.elevateDegree K H := by
  have hne : c.ctrl ≠ [] := by rintro h; simp [h] at hc
  obtain ⟨n, P, e⟩ := Bezier.exists_arr c.ctrl hne
  have ec : c = { ctrl := arr (n + 1) P, periodic := false } := by
    cases c; simp_all
  subst ec
  obtain ⟨n, rfl⟩ : ∃ k, n = k + 1 := ⟨n - 1, by simp at hc; omega⟩
  refine ⟨_, _, elevate_uniform (n + 1) P false, hodograph_arr nrm eps n P, ?_⟩
  rw [hodograph_arr, elevate_uniform]
  congr 2
  refine arr_congr fun i hi => ?_
  have h1 : ((n : K) + 1) ≠ 0 := by positivity
  have h2 : ((n : K) + 1 + 1) ≠ 0 := by positivity
  rcases i with _ | i
  · simp only [Nat.cast_zero, zero_div, sub_zero, one_smul, zero_smul, add_zero, zero_add]
    push_cast
    match_scalars <;> field_simp <;> ring
  · simp only [Nat.add_sub_cancel]
    push_cast
    match_scalars <;> field_simp <;> ring

/-! ### B-splines -/

/-- Like `ctrl_of_points`, from the inside of the domain only. -/
theorem ctrl_of_points_open {a b : BSpline K V} {p : ℕ} (ha : BSpline.WellFormed a p)
    (hk : a.knots = b.knots) (hl : a.ctrl.length = b.ctrl.length)
    (h : ∀ x, knot a.knots p < x → x < knot a.knots a.ctrl.length →
      bsplinePoint p a.knots a.ctrl x = bsplinePoint p b.knots b.ctrl x) :
    ∀ i, Seen a.knots p a.ctrl.length i → a.ctrl.getD i 0 = b.ctrl.getD i 0 := by
  have hlen := ha.len
  rintro i ⟨k, h1, h2, h3, h4, h5⟩
  obtain ⟨hinf, hin⟩ := span_infinite (n := a.ctrl.length) h5 ha.sorted h2 (by omega)
  refine bsplinePoint_unique ha.sorted hlen hl h1 h2 hinf hin (fun t ht => ?_) i (by omega) h3
  conv_rhs => rw [hk]
  exact h t (lt_of_le_of_lt (BSpline.knot_mono ha.sorted h1 (by omega)) ht.1)
    (lt_of_lt_of_le ht.2 (BSpline.knot_mono ha.sorted (by omega) (by omega)))

/-- Splines that agree inside their common domain have derivative curves that agree there. -/
theorem hodograph_points {c d hc hd : BSpline K V} {p : ℕ} (wc : BSpline.WellFormed c (p + 1))
    (wd : BSpline.WellFormed d (p + 1)) (Hc : BSpline.IsHodograph c hc p)
    (Hd : BSpline.IsHodograph d hd p)
    (hlo : knot d.knots (p + 1) = knot c.knots (p + 1))
    (hup : knot d.knots d.ctrl.length = knot c.knots c.ctrl.length)
    (h : ∀ x, knot c.knots (p + 1) ≤ x → x ≤ knot c.knots c.ctrl.length →
      bsplinePoint (p + 1) d.knots d.ctrl x = bsplinePoint (p + 1) c.knots c.ctrl x) :
    ∀ x, knot c.knots (p + 1) < x → x < knot c.knots c.ctrl.length →
      bsplinePoint p hd.knots hd.ctrl x = bsplinePoint p hc.knots hc.ctrl x := by
  intro x h1 h2
  have lc := wc.len
  have ld := wd.len
  obtain ⟨k, Q, A, I⟩ := BSpline.exists_atSpan wc x (Or.inr h1) h1.le h2.le
  obtain ⟨l, R, B, J⟩ := BSpline.exists_atSpan wd x (Or.inr (hlo ▸ h1)) (hlo ▸ h1.le)
    (hup ▸ h2.le)
  obtain ⟨a1, a2, a3, a4⟩ := Hc.span x k Q A.le A.lt I A.repr
  obtain ⟨b1, b2, b3, b4⟩ := Hd.span x l R B.le B.lt J B.repr
  have wHc := Hc.wf
  have wHd := Hd.wf
  rw [BSpline.bsplinePoint_eq wHc.sorted wHc.len a3 a1 a2 a4,
    BSpline.bsplinePoint_eq wHd.sorted wHd.len b3 b1 b2 b4]
  have I' := I
  have J' := J
  rw [InSpan, if_neg h2.ne] at I'
  rw [InSpan, if_neg (by rw [hup]; exact h2.ne)] at J'
  have hlt : x < min (knot c.knots (k + 1)) (knot d.knots (l + 1)) := lt_min I'.2 J'.2
  have hu := umb_unique (n := p + 1) (P := R) (Q := Q) (Set.Ioo_infinite hlt) fun t ht => by
    have t1 := lt_of_lt_of_le ht.2 (min_le_left _ _)
    have t2 := lt_of_lt_of_le ht.2 (min_le_right _ _)
    have m1 := BSpline.knot_mono wc.sorted (i := k + 1) (j := c.ctrl.length) (by have := A.lt; omega)
      (by omega)
    have i1 : InSpan (knot c.knots) (knot c.knots c.ctrl.length) k t := by
      rw [InSpan, if_neg (by intro e; rw [e] at t1; linarith)]
      exact ⟨I'.1.trans ht.1.le, t1⟩
    have i2 : InSpan (knot d.knots) (knot d.knots d.ctrl.length) l t := by
      rw [InSpan, if_neg (by intro e; rw [e, hup] at t1; linarith)]
      exact ⟨J'.1.trans ht.1.le, t2⟩
    rw [← BSpline.bsplinePoint_eq wc.sorted wc.len i1 A.le A.lt A.repr,
      ← BSpline.bsplinePoint_eq wd.sorted wd.len i2 B.le B.lt B.repr]
    exact h t (h1.trans ht.1).le (by linarith)
  refine umb_congr _ _ _ p (Bezier.natDegree_lin_pow x p) fun i hi => ?_
  simp only [BSpline.diffQ]
  rw [hu i (by omega), hu (i + 1) (by omega)]

theorem exists_ends {l : List K} (h : 2 ≤ l.length) : ∃ a mid b, l = a :: (mid ++ [b]) := by
  rcases l with _ | ⟨a, l⟩
  · simp at h
  · have hl : l ≠ [] := by rintro rfl; simp at h
    exact ⟨a, l.dropLast, l.getLast hl, by rw [List.dropLast_append_getLast hl]⟩

/-- Adding knots inside leaves the two outer knots alone. -/
theorem inner_perm {l l' : List K} {t : K} {m : ℕ} (hs : l.Pairwise (· ≤ ·))
    (hs' : l'.Pairwise (· ≤ ·)) (hp : l'.Perm (List.replicate m t ++ l)) (h2 : 2 ≤ l.length)
    (ha : ∀ a ∈ l.head?, a ≤ t) (hb : ∀ b ∈ l.getLast?, t ≤ b) :
    l'.tail.dropLast.Perm (List.replicate m t ++ l.tail.dropLast) := by
  obtain ⟨a, M, b, rfl⟩ := exists_ends h2
  obtain ⟨a', M', b', rfl⟩ := exists_ends (l := l') (by
    rw [hp.length_eq]; simp only [List.length_append]; omega)
  simp only [List.head?_cons, Option.mem_some, forall_eq'] at ha
  have hb : t ≤ b := hb b (by simp [List.getLast?_cons, List.getLast?_append])
  have lo : ∀ y ∈ a :: (M ++ [b]), a ≤ y := by
    intro y hy
    rcases List.mem_cons.1 hy with rfl | hy
    · exact le_rfl
    · exact (List.pairwise_cons.1 hs).1 y hy
  have lo' : ∀ y ∈ a' :: (M' ++ [b']), a' ≤ y := by
    intro y hy
    rcases List.mem_cons.1 hy with rfl | hy
    · exact le_rfl
    · exact (List.pairwise_cons.1 hs').1 y hy
  have hi : ∀ y ∈ a :: (M ++ [b]), y ≤ b := by
    intro y hy
    rw [← List.cons_append] at hy hs
    rcases List.mem_append.1 hy with hy | hy
    · exact (List.pairwise_append.1 hs).2.2 y hy b (by simp)
    · simp at hy; exact hy.le
  have hi' : ∀ y ∈ a' :: (M' ++ [b']), y ≤ b' := by
    intro y hy
    rw [← List.cons_append] at hy hs'
    rcases List.mem_append.1 hy with hy | hy
    · exact (List.pairwise_append.1 hs').2.2 y hy b' (by simp)
    · simp at hy; exact hy.le
  have ea : a' = a := by
    refine le_antisymm (lo' a (hp.mem_iff.2 (by simp))) ?_
    have : a' ∈ List.replicate m t ++ (a :: (M ++ [b])) := hp.mem_iff.1 (by simp)
    rcases List.mem_append.1 this with h | h
    · rw [List.eq_of_mem_replicate h]; exact ha
    · exact lo _ h
  have eb : b' = b := by
    refine le_antisymm ?_ (hi' b (hp.mem_iff.2 (by simp)))
    have : b' ∈ List.replicate m t ++ (a :: (M ++ [b])) := hp.mem_iff.1 (by simp)
    rcases List.mem_append.1 this with h | h
    · rw [List.eq_of_mem_replicate h]; exact hb
    · exact hi _ h
  subst ea eb
  have := (hp.trans List.perm_middle).cons_inv
  rw [← List.append_assoc, List.perm_append_right_iff] at this
  simpa using this

theorem inner_eq (l : List K) :
    arr (l.length - 2) (fun i => knot l (1 + i)) = l.tail.dropLast := by
  refine List.ext_getElem (by simp; omega) fun i h1 h2 => ?_
  simp only [arr_length] at h1
  simp only [arr_getElem, List.getElem_dropLast, List.getElem_tail, knot]
  rw [List.getD_eq_getElem?_getD, List.getElem?_eq_getElem (by omega), Option.getD_some]
  congr 1
  omega

/-- **C112**: inserting a knot and taking the derivative curve can be done in either order: same
knots, same number of control points, same flags, and the same control points wherever they matter
to the curve. -/
theorem C112_insert_knot (nrm : V → K) {eps : K} (heps : 0 ≤ eps) {c : BSpline K V} {p : ℕ}
    (hc : BSpline.WellFormed c (p + 1)) (hper : c.periodic = false) {t : K}
    (h1 : knot c.knots (p + 1) < t) (h2 : t < knot c.knots c.ctrl.length) {m : ℕ} (hm : 1 ≤ m)
    (hmul : m + c.knots.count t ≤ p) :
    ∃ c' h h' g, c.insertKnot eps t m = ok c' ∧ c.hodograph nrm eps = ok h ∧
      h.insertKnot eps t m = ok h' ∧ c'.hodograph nrm eps = ok g ∧
      g.knots = h'.knots ∧ g.ctrl.length = h'.ctrl.length ∧ g.periodic = h'.periodic ∧
      g.sdeg = h'.sdeg ∧
      ∀ i, Seen g.knots p g.ctrl.length i → g.ctrl.getD i 0 = h'.ctrl.getD i 0 := by
  have hl := hc.len
  have hcl := hc.ctrl
  obtain ⟨c', e1, S⟩ := C17_insert_knot_partial heps hc (Or.inr h1) h1.le h2.le hm
    (by rw [if_neg h2.ne]; omega)
  have hper' : c'.periodic = false := by rw [S.periodic, hper]
  have q : c.hodographPeriodic nrm eps = ok false := by
    unfold BSpline.hodographPeriodic; rw [hper]; rfl
  have q' : c'.hodographPeriodic nrm eps = ok false := by
    unfold BSpline.hodographPeriodic; rw [hper']; rfl
  have H := BSpline.hodograph_isHodograph hc false
  have H' := BSpline.hodograph_isHodograph S.wf false
  have e2 := BSpline.hodograph_succ hc nrm eps q
  have e3 := BSpline.hodograph_succ S.wf nrm eps q'
  generalize hh : ({ ctrl := _, knots := _, periodic := _, sdeg := _ } : BSpline K V) = h at H e2
  generalize hg : ({ ctrl := _, knots := _, periodic := _, sdeg := _ } : BSpline K V) = g at H' e3
  have kh : h.knots = c.knots.tail.dropLast := by rw [← hh]; exact inner_eq _
  have kg : g.knots = c'.knots.tail.dropLast := by rw [← hg]; exact inner_eq _
  have cnt : h.knots.count t ≤ c.knots.count t := by
    rw [kh]
    exact ((List.dropLast_sublist _).trans (List.tail_sublist _)).count_le _
  obtain ⟨h', e4, S'⟩ := C17_insert_knot_partial (p := p) heps H.wf (t := t)
    (Or.inr (by rw [H.lower]; exact h1))
    (by rw [H.lower]; exact h1.le) (by rw [H.upper]; exact h2.le) hm
    (by rw [H.upper, if_neg h2.ne]; omega)
  have hkn : g.knots = h'.knots := by
    refine sorted_unique ?_ H'.wf.sorted S'.wf.sorted
    refine (kg ▸ inner_perm hc.sorted S.wf.sorted S.knots (by omega) ?_ ?_ : g.knots.Perm _).trans
      (kh ▸ S'.knots.symm)
    · intro a ha
      have : a = knot c.knots 0 := by
        rw [List.head?_eq_getElem?] at ha
        simp [knot, List.getD_eq_getElem?_getD, Option.mem_def.1 ha]
      rw [this]
      exact (BSpline.knot_mono hc.sorted (Nat.zero_le _) (by omega)).trans h1.le
    · intro b hb
      have : b = knot c.knots (c.knots.length - 1) := by
        rw [List.getLast?_eq_getElem?] at hb
        simp [knot, List.getD_eq_getElem?_getD, Option.mem_def.1 hb]
      rw [this]
      exact h2.le.trans (BSpline.knot_mono hc.sorted (by omega) (by omega))
  have hlen : g.ctrl.length = h'.ctrl.length := by
    have a1 := H'.wf.len
    have a2 := S'.wf.len
    rw [hkn] at a1
    omega
  refine ⟨c', h, h', g, e1, e2, e4, e3, hkn, hlen, ?_, ?_, ?_⟩
  · rw [S'.periodic, ← hg, ← hh]
  · rw [S'.sdeg, ← hg, ← hh]
    simp only [S.sdeg]
  · refine ctrl_of_points_open H'.wf hkn hlen fun x x1 x2 => ?_
    rw [H'.lower, S.lower] at x1
    rw [H'.upper, S.upper] at x2
    rw [hodograph_points hc S.wf H H' S.lower S.upper S.point x x1 x2]
    exact (S'.point x (by rw [H.lower]; exact x1.le) (by rw [H.upper]; exact x2.le)).symm

private def cub : Bezier (ℚ × ℚ) := { ctrl := [(0, 0), (1, 2), (3, 2), (4, 0)] }

example := C112_subcurve (fun v : ℚ × ℚ => |v.1| + |v.2|) 0 cub (by decide) rfl (a := 1 / 4) (b := 2 / 3)
  (by norm_num) (by norm_num) (by norm_num)
example := C112_split (fun v : ℚ × ℚ => |v.1| + |v.2|) 0 cub (by decide) rfl (t := 1 / 4) (by norm_num)
  (by norm_num)
example := C112_elevate (fun v : ℚ × ℚ => |v.1| + |v.2|) 0 cub (by decide) rfl


private def spl : BSpline ℚ (ℚ × ℚ) :=
  { ctrl := [(0, 0), (1, 2), (3, 2), (4, 0), (5, 1)], knots := [0, 0, 0, 0, 1, 3, 3, 3, 3] }

example := C112_insert_knot (fun v : ℚ × ℚ => |v.1| + |v.2|) (eps := 0) le_rfl (c := spl) (p := 2)
  ⟨by decide, Or.inl rfl, by decide, by decide +kernel, by decide +kernel⟩ rfl (t := 1) (m := 1)
  (by decide +kernel) (by decide +kernel) (by decide) (by decide +kernel)

end NS.Props
