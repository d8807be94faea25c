import Mathlib.Algebra.Order.Ring.Rat
import Mathlib.Data.Rat.Floor
import Verif.Props.BSplinePatch
import Verif.Props.BezierPatch
import Verif.Props.BSpline
import Verif.Proof.Unique

/-!
# C91: the curve determines its control points

The converse of "control points determine the curve": two objects of the same type, degree and
knots that look the same have the same control points, so that nothing a user can set is ignored by
evaluation.  A control point of a spline is seen exactly if its support meets a non-empty span of
the domain.
-/

set_option linter.unusedSectionVars false

namespace NS.Props

open Outcome Spec Finset

variable {K V : Type} [Field K] [LinearOrder K] [IsStrictOrderedRing K] [FloorRing K]
  [AddCommGroup V] [Module K V]

/-- C91 for Bézier curves with any flags: equal values at infinitely many parameters in `[0, 1)`,
for instance along any interval, force equal control points. -/
theorem C91_bezier {A B : Bezier V} (hl : A.ctrl.length = B.ctrl.length) {S : Set K}
    (hS : S.Infinite) (hd : ∀ t ∈ S, 0 ≤ t ∧ t < 1)
    (h : ∀ t ∈ S, Bezier.evaluate A t = Bezier.evaluate B t) : A.ctrl = B.ctrl := by
  by_cases hA : A.ctrl = []
  · rw [hA] at hl ⊢
    simpa using hl.symm
  have hB : B.ctrl ≠ [] := by
    intro hB
    rw [hB] at hl
    exact hA (by simpa using hl)
  refine bezierPoint_unique hl hS fun t ht => ?_
  have w : ∀ b, Bezier.wrap b t = ok t := by
    intro b
    cases b
    · rfl
    · exact unwrapParameter_of_mem 0 1 _ (hd t ht).1 (hd t ht).2
  have := h t ht
  rw [Bezier.evaluate_wrap A, Bezier.evaluate_wrap B, w, w, ok_bind, ok_bind,
    Bezier.evaluate_eq _ hA, Bezier.evaluate_eq _ hB] at this
  exact ok.inj this

/-- Repeated calls of `elevate_degree`. -/
def elevations (K : Type) [Field K] {V : Type} [AddCommGroup V] [Module K V] :
    ℕ → Bezier V → Outcome (Bezier V)
  | 0, c => ok c
  | m + 1, c => Bezier.elevateDegree K c >>= elevations K m

/-- Repeated elevation preserves every value. -/
theorem elevations_spec : ∀ (m : ℕ) (c : Bezier V), c.ctrl ≠ [] →
    ∃ c', elevations K m c = ok c' ∧ c'.ctrl.length = c.ctrl.length + m ∧
      c'.periodic = c.periodic ∧ ∀ t : K, Bezier.evaluate c' t = Bezier.evaluate c t
  | 0, c, _ => ⟨c, rfl, rfl, rfl, fun _ => rfl⟩
  | m + 1, c, hc => by
    obtain ⟨d, e, h1, h2, h3⟩ := C10_elevate (K := K) c hc
    have hd : d.ctrl ≠ [] := by
      intro hd
      rw [hd] at h1
      simp at h1
    obtain ⟨c', e', g1, g2, g3⟩ := elevations_spec m d hd
    exact ⟨c', by rw [elevations, e, ok_bind, e'], by omega, by rw [g2, h2],
      fun t => by rw [g3, h3]⟩

/-- C91: if a curve of higher degree runs through the same points, its control points are those
`elevate_degree` computes. -/
theorem C91_bezier_degree {A B : Bezier V} (hA : A.ctrl ≠ []) {m : ℕ}
    (hl : B.ctrl.length = A.ctrl.length + m) {S : Set K}
    (hS : S.Infinite) (hd : ∀ t ∈ S, 0 ≤ t ∧ t < 1)
    (h : ∀ t ∈ S, Bezier.evaluate A t = Bezier.evaluate B t) :
    elevations K m A = ok { ctrl := B.ctrl, periodic := A.periodic } := by
  obtain ⟨c, e, h1, h2, h3⟩ := elevations_spec (K := K) m A hA
  have := C91_bezier (A := c) (B := B) (by omega) hS hd fun t ht => by rw [h3, h t ht]
  rw [e, ← this, ← h2]

/-! ### B-splines -/

/-- Control point `i` is in reach of a non-empty span of the domain. -/
def Seen (knots : List K) (p n i : ℕ) : Prop :=
  ∃ k, p ≤ k ∧ k < n ∧ i ≤ k ∧ k ≤ i + p ∧ knot knots k < knot knots (k + 1)

theorem span_infinite {u : List K} {k n : ℕ} (hlt : knot u k < knot u (k + 1))
    (hs : u.Pairwise (· ≤ ·)) (hk : k < n) (hn : n < u.length) :
    (Set.Ioo (knot u k) (knot u (k + 1))).Infinite ∧
      ∀ t ∈ Set.Ioo (knot u k) (knot u (k + 1)), InSpan (knot u) (knot u n) k t := by
  refine ⟨Set.Ioo_infinite hlt, fun t ht => ?_⟩
  have : knot u (k + 1) ≤ knot u n := BSpline.knot_mono hs (by omega) hn
  rw [InSpan, if_neg (by have := ht.2; intro h; rw [h] at this; linarith)]
  exact ⟨ht.1.le, ht.2⟩

/-- C91 for B-splines over the same knots: equal values inside the domain force every seen control
point to be equal. -/
theorem C91_bspline {c c' : BSpline K V} {p : ℕ} (hc : BSpline.WellFormed c p)
    (hw : BSpline.Wide c p) (hkn : c'.knots = c.knots) (hsd : c'.sdeg = c.sdeg)
    (hlen : c'.ctrl.length = c.ctrl.length)
    (h : ∀ t, knot c.knots p < t → t < knot c.knots c.ctrl.length →
      c'.evaluate t = c.evaluate t) :
    ∀ i, Seen c.knots p c.ctrl.length i → c'.ctrl.getD i 0 = c.ctrl.getD i 0 := by
  have hl := hc.len
  have hc' : BSpline.WellFormed c' p :=
    ⟨by rw [hkn, hlen]; exact hl, by rw [hsd]; exact hc.sdeg, by rw [hlen]; exact hc.ctrl,
      by rw [hkn]; exact hc.sorted, by rw [hkn, hlen]; exact hc.dom⟩
  have hw' : BSpline.Wide c' p := by
    intro i a b
    rw [hkn]
    exact hw i a (by omega)
  rintro i ⟨k, h1, h2, h3, h4, h5⟩
  obtain ⟨hinf, hin⟩ := span_infinite (n := c.ctrl.length) h5 hc.sorted h2 (by omega)
  refine (bsplinePoint_unique hc.sorted hl hlen.symm h1 h2 hinf hin (fun t ht => ?_) i
    (by omega) h3).symm
  have a1 : knot c.knots p < t :=
    lt_of_le_of_lt (BSpline.knot_mono hc.sorted h1 (by omega)) ht.1
  have a2 : t < knot c.knots c.ctrl.length :=
    lt_of_lt_of_le ht.2 (BSpline.knot_mono hc.sorted (by omega) (by omega))
  have := h t a1 a2
  rw [BSpline.evaluate_eq hc hw (BSpline.wrap_of_mem hc a1.le (Or.inl a2)) (Or.inr a1) a1.le a2.le,
    BSpline.evaluate_eq hc' hw' (BSpline.wrap_of_mem hc' (by rw [hkn]; exact a1.le)
      (Or.inl (by rw [hkn, hlen]; exact a2))) (Or.inr (by rw [hkn]; exact a1))
      (by rw [hkn]; exact a1.le) (by rw [hkn, hlen]; exact a2.le), hkn] at this
  exact (ok.inj this).symm

/-- C91: if every control point is seen, the splines are the same. -/
theorem C91_bspline_all {c c' : BSpline K V} {p : ℕ} (hc : BSpline.WellFormed c p)
    (hw : BSpline.Wide c p) (hkn : c'.knots = c.knots) (hsd : c'.sdeg = c.sdeg)
    (hlen : c'.ctrl.length = c.ctrl.length)
    (hseen : ∀ i < c.ctrl.length, Seen c.knots p c.ctrl.length i)
    (h : ∀ t, knot c.knots p < t → t < knot c.knots c.ctrl.length →
      c'.evaluate t = c.evaluate t) : c'.ctrl = c.ctrl := by
  rw [eq_arr c'.ctrl (0 : V), eq_arr c.ctrl (0 : V), hlen]
  unfold arr
  exact List.map_congr_left fun i hi =>
    C91_bspline hc hw hkn hsd hlen h i (hseen i (List.mem_range.1 hi))

/-- C91: moving one control point changes the curve if and only if the point is seen. -/
theorem C91_bspline_iff {c : BSpline K V} {p : ℕ} (hc : BSpline.WellFormed c p)
    (hw : BSpline.Wide c p) {i : ℕ} (hi : i < c.ctrl.length) {x : V} (hx : x ≠ c.ctrl.getD i 0) :
    (∃ t, knot c.knots p < t ∧ t < knot c.knots c.ctrl.length ∧
      ({ c with ctrl := c.ctrl.set i x } : BSpline K V).evaluate t ≠ c.evaluate t) ↔
    Seen c.knots p c.ctrl.length i := by
  have hl := hc.len
  constructor
  · rintro ⟨t, h1, h2, h3⟩
    by_contra hn
    obtain ⟨k, Q, hk, hin⟩ := BSpline.exists_atSpan hc t (Or.inr h1) h1.le h2.le
    have hkp := hk.le
    have hkl := hk.lt
    refine h3 (C14_local_control (c' := { c with ctrl := c.ctrl.set i x }) hc hw hk.le hk.lt rfl rfl (by simp) ?_ t hin.bounds.1 ?_
      (Or.inr h1))
    · intro j hj1 hj2
      simp only [List.getD_eq_getElem?_getD, List.getElem?_set]
      split
      · rename_i hij
        subst hij
        exact absurd ⟨k, hk.le, hk.lt, hj2, by omega, hk.ne⟩ hn
      · rfl
    · rw [InSpan, if_neg h2.ne] at hin
      exact hin.2
  · intro hs
    by_contra hn
    push Not at hn
    refine hx ?_
    have := C91_bspline (c' := { c with ctrl := c.ctrl.set i x }) hc hw rfl rfl (by simp) hn i hs
    rw [← this]
    simp [List.getD_eq_getElem?_getD, hi]

/-- Knots of multiplicity at most `p + 1` leave every control point in sight, provided the first
and the last control point are. -/
theorem seen_of_lt {u : List K} (hs : u.Pairwise (· ≤ ·)) {p n i : ℕ} (hn : n + p < u.length)
    (hi : i < n) (hlt : knot u (max i p) < knot u (min (i + p + 1) n)) :
    Seen u p n i := by
  by_contra hno
  have hall : ∀ k, max i p ≤ k → k < min (i + p + 1) n → knot u (k + 1) ≤ knot u k := by
    intro k h1 h2
    by_contra hk
    exact hno ⟨k, by omega, by omega, by omega, by omega, not_le.1 hk⟩
  have : ∀ k, max i p ≤ k → k ≤ min (i + p + 1) n → knot u k ≤ knot u (max i p) := by
    intro k h1
    induction k, h1 using Nat.le_induction with
    | base => intro _; exact le_rfl
    | succ k hk ih =>
      intro h2
      exact (hall k hk (by omega)).trans (ih (by omega))
  by_cases hle : max i p ≤ min (i + p + 1) n
  · exact absurd (this _ hle le_rfl) (not_le.2 hlt)
  · exact absurd (BSpline.knot_mono hs (by omega : min (i + p + 1) n ≤ max i p) (by omega))
      (not_le.2 hlt)

/-- `Seen` in terms of knots: the support of control point `i` and the domain overlap. -/
theorem C91_seen_iff {u : List K} (hs : u.Pairwise (· ≤ ·)) {p n i : ℕ} (hn : n + p < u.length)
    (hi : i < n) :
    Seen u p n i ↔ knot u (max i p) < knot u (min (i + p + 1) n) := by
  refine ⟨?_, seen_of_lt hs hn hi⟩
  rintro ⟨k, h1, h2, h3, h4, h5⟩
  exact lt_of_le_of_lt (BSpline.knot_mono hs (by omega) (by omega))
    (lt_of_lt_of_le h5 (BSpline.knot_mono hs (by omega) (by omega)))

/-! ### Rational Bézier curves -/

theorem folded_eq {b : Bool} {a e t t' : K} (h0 : a ≤ t) (h1 : t < e) (hf : Folded b a e t t') :
    t' = t := by
  unfold Folded at hf
  split at hf
  · obtain ⟨g1, g2, z, g3⟩ := hf
    have hd : 0 < e - a := by linarith
    have hz : z = 0 := by
      have a1 : (z : K) < 1 := by
        by_contra hz
        have := mul_le_mul_of_nonneg_right (not_lt.1 hz) hd.le
        linarith
      have a2 : (-1 : K) < z := by
        by_contra hz
        have := mul_le_mul_of_nonneg_right (not_lt.1 hz) hd.le
        linarith
      have b1 : z < 1 := by exact_mod_cast a1
      have b2 : -1 < z := by exact_mod_cast a2
      omega
    rw [g3, hz]
    simp
  · exact hf


/-- C91 for rational Bézier curves with the same non-zero weights. -/
theorem C91_rational {A B : RationalBezier K V} (hA : A.init = ok A) (hB : B.init = ok B)
    (hw : A.weights = B.weights) (hl : A.base.ctrl.length = B.base.ctrl.length)
    (hne : A.base.ctrl ≠ []) (hnz : ∀ x ∈ A.weights, x ≠ 0)
    (h : ∀ t : K, 0 ≤ t → t < 1 → A.evaluate t = B.evaluate t) : A.base.ctrl = B.base.ctrl := by
  have hneB : B.base.ctrl ≠ [] := by
    intro hB
    rw [hB] at hl
    exact hne (by simpa using hl)
  obtain ⟨SA, -, -⟩ := (RationalBezier.init_iff _ _).1 hA
  have hlw : A.weights.length = A.base.ctrl.length := SA.len.symm
  obtain ⟨n, hn⟩ : ∃ n, A.base.ctrl.length = n + 1 :=
    ⟨A.base.ctrl.length - 1, by have : A.base.ctrl.length ≠ 0 := by simpa using hne
                                omega⟩
  -- the denominator vanishes at finitely many parameters only
  have hfin : {t : K | t ∈ Set.Ico 0 1 ∧ ratBezierDen A.weights t = 0}.Finite := by
    by_contra hinf
    have := bernstein_zero (n := n) (r := fun i => A.weights.getD i 0) hinf (fun t ht => by
      have := ht.2
      rwa [ratBezierDen, hlw, hn, Nat.add_sub_cancel] at this) 0 (Nat.zero_le _)
    have h0 : 0 < A.weights.length := by omega
    refine hnz (A.weights.getD 0 0) ?_ this
    rw [List.getD_eq_getElem?_getD, List.getElem?_eq_getElem h0, Option.getD_some]
    exact List.getElem_mem h0
  have hinf : (Set.Ico (0 : K) 1 \ {t | t ∈ Set.Ico 0 1 ∧ ratBezierDen A.weights t = 0}).Infinite :=
    (Set.Ico_infinite zero_lt_one).sdiff hfin
  have hu := umb_unique (n := n) (P := fun i => A.weights.getD i 0 • A.base.ctrl.getD i 0)
    (Q := fun i => A.weights.getD i 0 • B.base.ctrl.getD i 0) hinf fun t ht => by
      obtain ⟨⟨h0, h1⟩, h2⟩ := ht
      have hden : ratBezierDen A.weights t ≠ 0 := fun h3 => h2 ⟨⟨h0, h1⟩, h3⟩
      obtain ⟨ta, fa, ea, -⟩ := C24_rational_bezier hA hne t
      obtain ⟨tb, fb, eb, -⟩ := C24_rational_bezier hB hneB t
      have e1 := folded_eq h0 h1 fa
      have e2 := folded_eq h0 h1 fb
      subst e1
      subst e2
      have := h _ h0 h1
      rw [ea hden, eb (by rwa [← hw])] at this
      have := ok.inj this
      rw [ratBezierPoint, ratBezierPoint, ← hw, ← hl, hn, Nat.add_sub_cancel] at this
      have := smul_right_injective V (inv_ne_zero hden) this
      rw [umb_lin_pow, umb_lin_pow]
      simpa only [smul_smul] using this
  rw [eq_arr A.base.ctrl (0 : V), eq_arr B.base.ctrl (0 : V), ← hl]
  unfold arr
  refine List.map_congr_left fun i hi => ?_
  have hi := List.mem_range.1 hi
  have hi' : i < A.weights.length := by omega
  refine smul_right_injective V (hnz (A.weights.getD i 0) ?_) (hu i (by omega))
  rw [List.getD_eq_getElem?_getD, List.getElem?_eq_getElem hi', Option.getD_some]
  exact List.getElem_mem hi'

/-! ### Patches -/

/-- A grid is determined by its points. -/
theorem grid_ext {G H : List V} {m n : ℕ} (hG : G.length = m * n) (hH : H.length = m * n)
    (h : ∀ i < m, ∀ j < n, gridPoint G n i j = gridPoint H n i j) : G = H := by
  rw [eq_arr G (0 : V), eq_arr H (0 : V), hG, hH]
  unfold arr
  refine List.map_congr_left fun k hk => ?_
  have hk := List.mem_range.1 hk
  have hn : 0 < n := Nat.pos_of_ne_zero fun h0 => by simp [h0] at hk
  have h1 : k / n < m := Nat.div_lt_of_lt_mul (by rwa [Nat.mul_comm] at hk)
  have := h (k / n) h1 (k % n) (Nat.mod_lt _ hn)
  simpa only [gridPoint, Nat.div_add_mod'] using this

/-- C91 for Bézier patches of the same degrees, with any flags. -/
theorem C91_bezier_patch {A B : BezierPatch V} (hA : A.init = ok ()) (hB : B.init = ok ())
    (hu : A.degU = B.degU) (hv : A.degV = B.degV)
    (h : ∀ u v : K, 0 ≤ u → u < 1 → 0 ≤ v → v < 1 → A.evaluate u v = B.evaluate u v) :
    A.grid = B.grid := by
  have hwA := wf_of_init hA
  have hwB := wf_of_init hB
  rw [← hu, ← hv] at hwB
  refine grid_ext hwA.len hwB.len ?_
  have hpt : ∀ u ∈ Set.Ico (0 : K) 1, ∀ v ∈ Set.Ico (0 : K) 1,
      bezierSurface A.degU.toNat A.degV.toNat A.grid u v
        = bezierSurface A.degU.toNat A.degV.toNat B.grid u v := by
    intro u hu' v hv'
    obtain ⟨ua, va, fu, fv, ea⟩ := C28_evaluate hA u v
    obtain ⟨ub, vb, gu, gv, eb⟩ := C28_evaluate hB u v
    have e1 := folded_eq hu'.1 hu'.2 fu
    have e2 := folded_eq hv'.1 hv'.2 fv
    have e3 := folded_eq hu'.1 hu'.2 gu
    have e4 := folded_eq hv'.1 hv'.2 gv
    subst e1 e2 e3 e4
    have := h _ _ hu'.1 hu'.2 hv'.1 hv'.2
    rw [ea, eb, ← hu, ← hv] at this
    exact ok.inj this
  have hsum : ∀ (G : List V) (m n : ℕ) (u v : K), bezierSurface m n G u v
      = umb (fun i => umb (fun j => gridPoint G (n + 1) i j) (lin v ^ n)) (lin u ^ m) := by
    intro G m n u v
    simp only [bezierSurface, umb_lin_pow, smul_sum, smul_smul]
  intro i hi j hj
  have hinf : (Set.Ico (0 : K) 1).Infinite := Set.Ico_infinite zero_lt_one
  refine umb_unique (n := A.degV.toNat) (P := fun j => gridPoint A.grid _ i j)
    (Q := fun j => gridPoint B.grid _ i j) hinf (fun v hv' => ?_) j (by omega)
  refine umb_unique (n := A.degU.toNat)
    (P := fun i => umb (fun j => gridPoint A.grid (A.degV.toNat + 1) i j) (lin v ^ A.degV.toNat))
    (Q := fun i => umb (fun j => gridPoint B.grid (A.degV.toNat + 1) i j) (lin v ^ A.degV.toNat))
    hinf (fun u hu' => ?_) i (by omega)
  rw [← hsum, ← hsum]
  exact hpt u hu' v hv'

/-- C91 for B-spline patches over the same knots: equal values inside the domain force equal
control points wherever both indices are seen. -/
theorem C91_bspline_patch {A B : BSplinePatch K V} {m n du dv : ℕ} (hA : A.Valid m n du dv)
    (hB : B.Valid m n du dv) (iA : A.init = ok A) (iB : B.init = ok B)
    (hwu : BSplinePatch.WideOn A.knotsU m du) (hwv : BSplinePatch.WideOn A.knotsV n dv)
    (hu : A.knotsU = B.knotsU) (hv : A.knotsV = B.knotsV)
    (h : ∀ u v : K, knot A.knotsU du < u → u < knot A.knotsU m → knot A.knotsV dv < v →
      v < knot A.knotsV n → A.evaluate u v = B.evaluate u v) :
    ∀ i < m, ∀ j < n, Seen A.knotsU du m i → Seen A.knotsV dv n j →
      A.getControlPoint i j = B.getControlPoint i j := by
  have hpt : ∀ u v : K, knot A.knotsU du < u → u < knot A.knotsU m → knot A.knotsV dv < v →
      v < knot A.knotsV n →
      bsplineSurface du dv m n A.knotsU A.knotsV A.grid u v
        = bsplineSurface du dv m n A.knotsU A.knotsV B.grid u v := by
    intro u v h1 h2 h3 h4
    have := h u v h1 h2 h3 h4
    rw [C31_evaluate_domain hA iA hwu hwv ⟨h1.le, h2.le, Or.inr h1⟩ ⟨h3.le, h4.le, Or.inr h3⟩
      (Or.inl h2) (Or.inl h4),
      C31_evaluate_domain hB iB (hu ▸ hwu) (hv ▸ hwv) (hu ▸ ⟨h1.le, h2.le, Or.inr h1⟩)
        (hv ▸ ⟨h3.le, h4.le, Or.inr h3⟩) (Or.inl (hu ▸ h2)) (Or.inl (hv ▸ h4)), ← hu, ← hv] at this
    exact ok.inj this
  have hsum : ∀ (G : List V) (u v : K), bsplineSurface du dv m n A.knotsU A.knotsV G u v
      = bsplinePoint du A.knotsU (arr m fun i => bsplinePoint dv A.knotsV
          (arr n fun j => gridPoint G n i j) v) u := by
    intro G u v
    simp only [bsplineSurface, bsplinePoint, arr_length]
    refine sum_congr rfl fun i hi => ?_
    rw [arr_getD _ _ _ _ (mem_range.1 hi), smul_sum]
    refine sum_congr rfl fun j hj => ?_
    rw [arr_getD _ _ _ _ (mem_range.1 hj), smul_smul]
  have hlu := hA.u.len
  have hlv := hA.v.len
  rintro i hi j hj ⟨k, k1, k2, k3, k4, k5⟩ ⟨l, l1, l2, l3, l4, l5⟩
  obtain ⟨infu, inu⟩ := span_infinite (n := m) k5 hA.u.sorted k2 (by omega)
  obtain ⟨infv, inv⟩ := span_infinite (n := n) l5 hA.v.sorted l2 (by omega)
  have key := bsplinePoint_unique (A := arr n fun j => gridPoint A.grid n i j)
    (B := arr n fun j => gridPoint B.grid n i j) hA.v.sorted (by simpa using hlv) (by simp) l1
    (by simpa using l2) infv (by simpa using inv) (fun v hv' => by
      have := bsplinePoint_unique
        (A := arr m fun i => bsplinePoint dv A.knotsV (arr n fun j => gridPoint A.grid n i j) v)
        (B := arr m fun i => bsplinePoint dv A.knotsV (arr n fun j => gridPoint B.grid n i j) v)
        hA.u.sorted (by simpa using hlu) (by simp) k1 (by simpa using k2) infu (by simpa using inu)
        (fun u hu' => by
          rw [← hsum, ← hsum]
          exact hpt u v (lt_of_le_of_lt (BSpline.knot_mono hA.u.sorted k1 (by omega)) hu'.1)
            (lt_of_lt_of_le hu'.2 (BSpline.knot_mono hA.u.sorted (by omega) (by omega)))
            (lt_of_le_of_lt (BSpline.knot_mono hA.v.sorted l1 (by omega)) hv'.1)
            (lt_of_lt_of_le hv'.2 (BSpline.knot_mono hA.v.sorted (by omega) (by omega))))
        i (by omega) k3
      rwa [arr_getD _ _ _ _ hi, arr_getD _ _ _ _ hi] at this)
    j (by omega) l3
  rw [arr_getD _ _ _ _ hj, arr_getD _ _ _ _ hj] at key
  rw [hA.getControlPoint hi hj, hB.getControlPoint hi hj]
  exact congrArg ok key

/-! ### Witnesses -/

/-- The hypotheses are met: every control point of the example is seen, and moving the last one
changes the curve. -/
example : ∃ t, knot exSpline.knots 2 < t ∧ t < knot exSpline.knots exSpline.ctrl.length ∧
    ({ exSpline with ctrl := exSpline.ctrl.set 3 100 } : BSpline ℚ ℚ).evaluate t
      ≠ exSpline.evaluate t :=
  (C91_bspline_iff exSpline_wf exSpline_wide (by decide) (by decide +kernel)).2
    ((C91_seen_iff exSpline_wf.sorted (by decide) (by decide)).2 (by decide +kernel))

/-- A control point that is not seen: a knot of multiplicity `p + 2`. -/
example :
    let c : BSpline ℚ ℚ := { ctrl := [0, 1, 2, 3, 4], knots := [0, 0, 1, 1, 1, 2, 2] }
    ¬ Seen c.knots 1 c.ctrl.length 2 := by
  intro c h
  rw [C91_seen_iff (by decide +kernel) (by decide) (by decide)] at h
  revert h
  decide +kernel

/-- A weight of zero hides its control point: the hypothesis on the weights is needed. -/
theorem C91_zero_weight_refuted :
    let A : RationalBezier ℚ ℚ :=
      { base := { ctrl := [0, 1, 2] }, weights := [1, 0, 1],
        hom := { ctrl := [(0, 1), (0, 0), (2, 1)] } }
    let B : RationalBezier ℚ ℚ :=
      { base := { ctrl := [0, 5, 2] }, weights := [1, 0, 1],
        hom := { ctrl := [(0, 1), (0, 0), (2, 1)] } }
    A.init = ok A ∧ B.init = ok B ∧ A.base.ctrl ≠ B.base.ctrl ∧
      ∀ t, A.evaluate t = B.evaluate t :=
  ⟨by decide +kernel, by decide +kernel, by decide +kernel, fun _ => rfl⟩

example : elevations ℚ 2 ({ ctrl := [0, 6] } : Bezier ℚ) = ok { ctrl := [0, 2, 4, 6] } := by
  decide +kernel

end NS.Props
