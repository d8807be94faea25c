import Verif.Spec.Seminorm
import Verif.Proof.RemoveCurve
import Verif.Props.RationalOps

/-!
# Properties: knot removal (C18)
-/

set_option linter.unusedSectionVars false
set_option linter.unusedSimpArgs false

namespace NS.Props

open Outcome Spec BSpline Finset

variable {K V : Type} [Field K] [LinearOrder K] [IsStrictOrderedRing K] [FloorRing K]
  [AddCommGroup V] [Module K V]

/-- C18: if `t` is not a knot strictly inside the domain, 0 is returned and nothing changes. -/
theorem C18_not_interior {eps : K} {c : BSpline K V} {p : ℕ} (hc : WellFormed c p) {t : K}
    (h1 : knot c.knots p - eps ≤ t) (h2 : t ≤ knot c.knots c.ctrl.length + eps)
    (ht : t ∉ c.knots ∨ t ≤ knot c.knots p ∨ knot c.knots c.ctrl.length ≤ t)
    (nrm : V → K) (extent : List V → K) {num : ℕ} (hnum : 1 ≤ num) (tol : K) :
    c.removeKnot nrm extent eps t num tol = ok (c, 0) := by
  have hl := hc.len
  have hcl := hc.ctrl
  have hdom : c.inDomain eps t = ok true := by
    unfold inDomain
    rw [lower_eq hc, upper_eq hc]
    simp only [ok_bind, pure_eq]
    congr 1
    simp only [Bool.and_eq_true, decide_eq_true_eq]
    exact ⟨h1, h2⟩
  have key : ∃ k s : ℕ, c.locateSpan t = ok (k : ℤ) ∧ c.multAt t (k : ℤ) = ok s ∧
      (s = 0 ∨ k ≤ p) := by
    by_cases h : knot c.knots p < t
    · obtain ⟨k, a1, a2, a3, a4, a5, -, a7⟩ := locateSpan_spec hc t (Or.inr h)
      refine ⟨k, _, a1, multAt_eq c hc.sorted t k (by omega), Or.inl ?_⟩
      rw [if_neg]
      intro e
      rcases ht with ht | ht | ht
      · apply ht
        rw [e]
        have : k < c.knots.length := by omega
        simp [knot, this]
      · exact absurd h (not_lt.mpr ht)
      · have := a7 ht
        rw [this] at a4
        rw [← e] at a4
        exact absurd a4 (not_lt.mpr ht)
    · refine ⟨p, _, ?_, multAt_eq c hc.sorted t p (by omega), Or.inr le_rfl⟩
      unfold locateSpan
      simp only [degree_eq hc, Int.toNat_natCast]
      rw [assert_true (by omega), ok_bind, rd_knot (by omega), ok_bind, if_pos (not_lt.mp h)]
  obtain ⟨k, s, e1, e2, e3⟩ := key
  unfold BSpline.removeKnot
  rw [assert_true hnum, ok_bind, hdom, ok_bind, assert_true rfl, ok_bind, validate_ok hc, ok_bind,
    e1, ok_bind, e2, ok_bind, degree_eq hc]
  by_cases hs : s = 0
  · rw [if_pos hs]
  · rw [if_neg hs, if_pos (Or.inl (by omega))]

/-- C18: removal at an interior knot never fails, removes some number `n ≤ num` of copies of `t`
and as many control points, and leaves a valid spline with the same domain and flags. -/
theorem C18_bookkeeping_partial {eps : K} (heps : 0 ≤ eps) {c : BSpline K V} {p : ℕ}
    (hc : WellFormed c p) {t : K} (h1 : knot c.knots p < t)
    (h2 : t < knot c.knots c.ctrl.length) (hm : t ∈ c.knots) (hcount : c.knots.count t ≤ p + 1)
    (nrm : V → K) (extent : List V → K) {num : ℕ} (hnum : 1 ≤ num)
    (hle : num ≤ c.knots.count t) (tol : K) :
    ∃ c' n, c.removeKnot nrm extent eps t num tol = ok (c', n) ∧ n ≤ num ∧ WellFormed c' p ∧
      c'.ctrl.length + n = c.ctrl.length ∧ c.knots.Perm (List.replicate n t ++ c'.knots) ∧
      knot c'.knots p = knot c.knots p ∧
      knot c'.knots c'.ctrl.length = knot c.knots c.ctrl.length ∧
      c'.periodic = c.periodic ∧ c'.sdeg = c.sdeg ∧ (n = 0 → c' = c) := by
  obtain ⟨r, a1, a2, a3, a4⟩ := remOk_of hc h1 h2 hm hcount
  obtain ⟨n, D, e, hn, hC⟩ := removeKnot_chain heps hc h1 h2 a1 a2 a3 nrm extent hnum hle tol
  have A : RemAt c p r t := ⟨hc, a3, a4⟩
  have g3 := a3.lo
  have g4 := a3.hi
  refine ⟨_, n, e, hn, A.wf_remC (by omega) D, ?_, A.perm (by omega) D, A.lower (by omega),
    A.upper (by omega), rfl, rfl, ?_⟩
  · rw [remC_ctrl_length]; omega
  · intro hz
    subst hz
    cases hC with
    | zero D h => exact remC_zero c r D h

/-- One control point moved by `θ v`. -/
theorem point_move {nrm : V → K} (hn : IsSeminorm nrm) {tol : K} {u : List K}
    (hs : u.Pairwise (· ≤ ·)) {p n : ℕ} (hlen : u.length = n + p + 1) {x : K}
    (hdom : knot u p < knot u n) (hpn : p ≤ n) (h1 : knot u p ≤ x) (h2 : x ≤ knot u n)
    {D D' : ℕ → V} {i0 : ℕ} {θ : K} {v : V} (hθ : |θ| ≤ 1) (hv : nrm v ≤ tol) (htol : 0 ≤ tol)
    (h : ∀ i < n, D i = D' i + (if i = i0 then θ else 0) • v) :
    nrm (bsplinePoint p u (arr n D) x - bsplinePoint p u (arr n D') x) ≤ tol := by
  obtain ⟨k, b1, b2, hin⟩ := exists_inSpan (u := knot u) (p := p) (n := n) hdom hpn h1 h2
    (fun i j hij hj => knot_mono hs hij (by omega))
  obtain ⟨c1, c2, c3⟩ := C14_basis hs hlen b1 b2 hin
  have hN : ∀ i < n, basis (knot u) (knot u n) p i x ≤ 1 := by
    intro i hi
    rw [← c3]
    exact single_le_sum (f := fun i => basis (knot u) (knot u n) p i x)
      (fun j hj => c1 j (by simpa using hj)) (by simpa using hi)
  have e : bsplinePoint p u (arr n D) x - bsplinePoint p u (arr n D') x
      = ((if i0 < n then basis (knot u) (knot u n) p i0 x else 0) * θ) • v := by
    unfold bsplinePoint
    rw [arr_length, arr_length, ← sum_sub_distrib]
    have : ∀ i ∈ range n, basis (knot u) (knot u n) p i x • (arr n D).getD i 0
        - basis (knot u) (knot u n) p i x • (arr n D').getD i 0
        = if i = i0 then (basis (knot u) (knot u n) p i0 x * θ) • v else 0 := by
      intro i hi
      have hi : i < n := by simpa using hi
      rw [arr_getD _ _ _ _ hi, arr_getD _ _ _ _ hi, h i hi]
      split_ifs with e
      · rw [e]; module
      · module
    rw [sum_congr rfl this, sum_ite_eq']
    simp only [mem_range]
    split_ifs with hi
    · rfl
    · rw [zero_mul, zero_smul]
  rw [e, hn.smul]
  have hb : |(if i0 < n then basis (knot u) (knot u n) p i0 x else 0)| ≤ 1 := by
    split_ifs with hi
    · rw [abs_of_nonneg (c1 i0 hi)]; exact hN i0 hi
    · simp
  have : |(if i0 < n then basis (knot u) (knot u n) p i0 x else 0) * θ| ≤ 1 := by
    rw [abs_mul]
    exact mul_le_one₀ hb (abs_nonneg _) hθ
  calc _ ≤ |(if i0 < n then basis (knot u) (knot u n) p i0 x else 0) * θ| * tol :=
        mul_le_mul_of_nonneg_left hv (abs_nonneg _)
    _ ≤ 1 * tol := mul_le_mul_of_nonneg_right this htol
    _ = tol := one_mul tol

theorem chain_point {nrm : V → K} (hn : IsSeminorm nrm) {tol : K} (htol : 0 ≤ tol)
    {c : BSpline K V} {p r : ℕ} {t : K} (A : RemAt c p r t) (hcount : c.knots.count t ≤ p)
    {n : ℕ} {D : ℕ → V}
    (hC : Chain nrm tol c.knots t p r (c.knots.count t) c.ctrl.length (fun i => c.ctrl.getD i 0)
      n D) : n ≤ c.knots.count t → ∀ x, knot c.knots p ≤ x → x ≤ knot c.knots c.ctrl.length →
      nrm (bsplinePoint p c.knots c.ctrl x
        - bsplinePoint p (remC c r n D).knots (remC c r n D).ctrl x) ≤ n * tol := by
  have hz : nrm 0 = 0 := by
    have := hn.smul 0 0
    simpa using this
  induction hC with
  | zero D h =>
    intro _ x _ _
    rw [remC_zero c r D h, sub_self, hz]
    simp
  | succ k D D' hC hN ih =>
    intro hk x h1 h2
    have g1 := A.set.len
    have g3 := A.set.lo
    have g4 := A.set.hi
    set s := c.knots.count t with hs
    have wf1 := A.wf_remC (n := k) (by omega) D
    have hlo := A.lower (n := k) (by omega) (D := D)
    have hup := A.upper (n := k) (by omega) (D := D)
    rw [remC_ctrl_length] at hup
    obtain ⟨i0, θ, v, hθ, hv, hD⟩ := hN
    have m1 := point_move (p := p) (n := c.ctrl.length - k) hn wf1.sorted
      (by rw [remC_knots_length]; omega) (x := x)
      (by rw [hlo, hup]; exact A.wf.dom) (by omega) (by rw [hlo]; exact h1)
      (by rw [hup]; exact h2) hθ hv htol (fun i hi => hD i (by omega))
    have ins := remAt_insert A (le_refl (0 : K)) (k := k) (by omega) (by omega) D'
    have wf2 := A.wf_remC (n := k + 1) hk D'
    have hlo2 := A.lower (n := k + 1) hk (D := D')
    have hup2 := A.upper (n := k + 1) hk (D := D')
    have hpt : knot c.knots p < t :=
      lt_of_le_of_lt (knot_mono A.set.sorted (by omega) (by omega)) A.set.below
    have htn : t < knot c.knots c.ctrl.length :=
      lt_of_lt_of_le A.set.above (knot_mono A.set.sorted (by omega) (by omega))
    obtain ⟨c2, e2, I⟩ := (insertKnot_inserted (le_refl (0 : K)) wf2 (t := t) (r := 1)
      (Or.inr (by rw [hlo2]; exact hpt)) (by rw [hlo2]; exact hpt.le)
      (by rw [hup2]; exact htn.le) le_rfl).2
      (by rw [hup2, if_neg htn.ne, A.count hk]; omega)
    rw [ins, ok.injEq] at e2
    subst e2
    have pt := I.point x (by rw [hlo2]; exact h1) (by rw [hup2]; exact h2)
    have ih' := ih (by omega) x h1 h2
    have e3 : bsplinePoint p (remC c r k D).knots (arr (c.ctrl.length - k)
        (boehm (remA (knot c.knots) t p k) (r - p - k) (r - s) D')) x
        = bsplinePoint p (remC c r (k + 1) D').knots (remC c r (k + 1) D').ctrl x := pt
    rw [e3] at m1
    have e4 : bsplinePoint p (remC c r k D).knots (arr (c.ctrl.length - k) D) x
        = bsplinePoint p (remC c r k D).knots (remC c r k D).ctrl x := rfl
    rw [e4] at m1
    have := hn.tri (bsplinePoint p c.knots c.ctrl x
        - bsplinePoint p (remC c r k D).knots (remC c r k D).ctrl x)
      (bsplinePoint p (remC c r k D).knots (remC c r k D).ctrl x
        - bsplinePoint p (remC c r (k + 1) D').knots (remC c r (k + 1) D').ctrl x)
    rw [sub_add_sub_cancel] at this
    push_cast
    linarith

/-- C18: every removed knot moves the curve by at most the tolerance. -/
theorem C18_deviation_partial {eps : K} (heps : 0 ≤ eps) {c : BSpline K V} {p : ℕ}
    (hc : WellFormed c p) {t : K} (h1 : knot c.knots p < t)
    (h2 : t < knot c.knots c.ctrl.length) (hm : t ∈ c.knots) (hcount : c.knots.count t ≤ p)
    {nrm : V → K} (hn : IsSeminorm nrm) (extent : List V → K) {num : ℕ} (hnum : 1 ≤ num)
    (hle : num ≤ c.knots.count t) {tol : K} (htol : 0 ≤ tol) {c' : BSpline K V} {n : ℕ}
    (hR : c.removeKnot nrm extent eps t num tol = ok (c', n)) {x : K}
    (hx1 : knot c.knots p ≤ x) (hx2 : x ≤ knot c.knots c.ctrl.length) :
    nrm (bsplinePoint p c.knots c.ctrl x - bsplinePoint p c'.knots c'.ctrl x) ≤ n * tol := by
  obtain ⟨r, a1, a2, a3, a4⟩ := remOk_of hc h1 h2 hm (by omega)
  obtain ⟨n', D, e, hle', hC⟩ := removeKnot_chain heps hc h1 h2 a1 a2 a3 nrm extent hnum hle tol
  rw [e, ok.injEq, Prod.mk.injEq] at hR
  obtain ⟨rfl, rfl⟩ := hR
  have : effTol extent c tol = tol := by unfold effTol; rw [if_neg (not_lt.mpr htol)]
  rw [this] at hC
  exact chain_point hn htol ⟨hc, a3, a4⟩ hcount hC (by omega) x hx1 hx2

/-- C18: with tolerance 0 what is removed was superfluous: inserting it again gives the same
curve. -/
theorem C18_zero_tolerance_partial {eps : K} (heps : 0 ≤ eps) {c : BSpline K V} {p : ℕ}
    (hc : WellFormed c p) {t : K} (h1 : knot c.knots p < t)
    (h2 : t < knot c.knots c.ctrl.length) (hm : t ∈ c.knots) (hcount : c.knots.count t ≤ p)
    {nrm : V → K} (hn : IsSeminorm nrm) (hdef : ∀ v, nrm v ≤ 0 → v = 0)
    (extent : List V → K) {num : ℕ} (hnum : 1 ≤ num) (hle : num ≤ c.knots.count t) :
    ∃ c' n, c.removeKnot nrm extent eps t num 0 = ok (c', n) ∧ n ≤ num ∧ WellFormed c' p ∧
      SameCurve c' c p (List.replicate n t) := by
  obtain ⟨c', n, e, b1, b2, b3, b4, b5, b6, b7, b8, -⟩ := C18_bookkeeping_partial heps hc h1 h2 hm
    (by omega) nrm extent hnum hle 0
  refine ⟨c', n, e, b1, b2, hc, by simpa using b3.symm, b4, b5.symm, b6.symm, b7.symm, b8.symm, ?_⟩
  intro x hx1 hx2
  have := C18_deviation_partial heps hc h1 h2 hm hcount hn extent hnum hle le_rfl e
    (x := x) (by rw [← b5]; exact hx1) (by rw [← b6]; exact hx2)
  rw [mul_zero] at this
  exact sub_eq_zero.mp (hdef _ this)

/-- C18: removing what was just inserted strictly inside the domain gives back the curve. -/
theorem C18_inverse_partial {eps : K} (heps : 0 ≤ eps) {c : BSpline K V} {p : ℕ}
    (hc : WellFormed c p) {t : K} (h1 : knot c.knots p < t)
    (h2 : t < knot c.knots c.ctrl.length) {m : ℕ} (hm : 1 ≤ m) {c' : BSpline K V}
    (hI : c.insertKnot eps t m = ok c') {nrm : V → K} (hn : nrm 0 = 0) (extent : List V → K)
    {tol : K} (htol : 0 ≤ tol) :
    c'.removeKnot nrm extent eps t m tol = ok (c, m) := by
  have hl := hc.len
  obtain ⟨κ, a1, a2, a3, a4, a5, -, -⟩ := locateSpan_spec hc t (Or.inr h1)
  obtain ⟨b1, b2⟩ := a5 h1.le h2
  set s := if t = knot c.knots κ then c.knots.count t else 0 with hs
  have hin := insertKnot_inserted heps hc (t := t) (r := m) (Or.inr h1) h1.le h2.le hm
  simp only [] at hin
  rw [if_neg h2.ne] at hin
  have hms : m + c.knots.count t ≤ p := by
    by_contra hlt
    rw [hin.1 (by omega)] at hI
    cases hI
  obtain ⟨c'', e'', I⟩ := hin.2 hms
  rw [hI, ok.injEq] at e''
  subst e''
  have hcs : c.knots.count t = s := by
    rw [hs]
    split_ifs with e
    · rfl
    · rw [List.count_eq_zero]
      intro hmem
      obtain ⟨i, hi, hit⟩ := List.mem_iff_getElem.mp hmem
      have hki : knot c.knots i = t := by simp [knot, hi, hit]
      rcases Nat.lt_or_ge κ i with h | h
      · have := knot_mono hc.sorted (i := κ + 1) (j := i) (by omega) hi
        rw [hki] at this
        exact absurd b2 (not_lt.mpr this)
      · have := knot_mono hc.sorted (i := i) (j := κ) h (by omega)
        rw [hki] at this
        exact e (le_antisymm this b1)
  have hcount : c'.knots.count t = s + m := by
    have := I.perm.count_eq t
    rw [List.count_append, List.count_replicate_self, hcs] at this
    omega
  -- control points after each number of insertions
  have hG : ∀ j : ℕ, ∃ G : ℕ → V, j + s ≤ p →
      InsCtrl (knot c.knots) t κ p j s c.ctrl.length (fun i => c.ctrl.getD i 0) G ∧
      (1 ≤ j → c.insertKnot eps t j = ok { c with
        ctrl := arr (c.ctrl.length + j) G
        knots := arr (c.knots.length + j) (insU (knot c.knots) t κ j) }) ∧
      (j = 0 → G = fun i => c.ctrl.getD i 0) := by
    intro j
    by_cases hj : 1 ≤ j ∧ j + s ≤ p
    · obtain ⟨g, e1, e2⟩ := (insertKnot_eq heps hc h1.le h2.le a1 a2 a3 a4 hs hj.1).2 hj.2
      exact ⟨g, fun _ => ⟨e2, fun _ => e1, fun h => by omega⟩⟩
    · refine ⟨fun i => c.ctrl.getD i 0, fun h => ?_⟩
      have : j = 0 := by omega
      subst this
      exact ⟨insCtrl_zero, fun h => by omega, fun _ => rfl⟩
  choose G hG using hG
  obtain ⟨-, em, -⟩ := hG m (by omega)
  have ec := em hm
  rw [hI, ok.injEq] at ec
  have ck : ∀ i, i < c.knots.length + m → knot c'.knots i = insU (knot c.knots) t κ m i := by
    intro i hi
    rw [ec]
    exact knot_arr hi
  have hlow : knot c'.knots p < t := by rw [I.lower]; exact h1
  have hupp : t < knot c'.knots c'.ctrl.length := by rw [I.upper]; exact h2
  have hmem : t ∈ c'.knots := by
    rw [← List.count_pos_iff, hcount]; omega
  obtain ⟨r, d1, d2, d3, d4⟩ := remOk_of I.wf hlow hupp hmem (by omega)
  have hN : c'.ctrl.length = c.ctrl.length + m := I.ctrl
  have hM : c'.knots.length = c.knots.length + m := by
    rw [ec]; simp
  have g4 := d3.hi
  have g3 := d3.lo
  have hr : r = κ + m := by
    have hab := d3.above
    have hle := d2
    rw [ck _ (by omega)] at hab hle
    unfold insU at hab hle
    by_contra hne
    rcases Nat.lt_or_gt_of_ne hne with h | h
    · by_cases hk : r + 1 ≤ κ
      · rw [if_pos hk] at hab
        exact absurd (hab.trans_le (knot_mono hc.sorted hk (by omega))) (not_lt.mpr b1)
      · rw [if_neg hk, if_pos (by omega)] at hab
        exact lt_irrefl _ hab
    · rw [if_neg (by omega), if_neg (by omega)] at hle
      have := knot_mono hc.sorted (i := κ + 1) (j := r - m) (by omega) (by omega)
      rw [hle] at this
      exact absurd b2 (not_lt.mpr this)
  have hE := removeKnot_exact heps I.wf hlow hupp d1 d2 d3 nrm extent hm (by omega)
    (tol := tol) (by unfold effTol; rw [if_neg (not_lt.mpr htol), hn]; exact htol)
    (fun k => G (m - k)) (by
      intro i hi
      rw [ec]
      exact arr_getD _ _ _ _ (by omega)) (by
      intro k hk i hi
      have hst := insCtrl_step (i := i) (m := m) (k := k) a2 (by omega) (by omega)
        (hG (m - (k + 1)) (by omega)).1
        (by
          have := (hG (m - (k + 1) + 1) (by omega)).1
          exact this) (by omega)
      rw [show m - (k + 1) + 1 = m - k by omega] at hst
      rw [hst, hcount, hr, show κ - p + (m - (k + 1)) + 1 = κ + m - p - k by omega,
        show κ + m - (s + m) = κ - s by omega]
      unfold boehm
      split_ifs with q1 q2
      · rfl
      · rw [show remA (insU (knot c.knots) t κ m) t p k i = remA (knot c'.knots) t p k i by
          unfold remA
          rw [ck _ (by omega), ck _ (by omega)]]
      · rfl)
  rw [hE]
  congr 1
  rw [Prod.mk.injEq]
  refine ⟨?_, rfl⟩
  have q1 : arr (c'.ctrl.length - m) (G (m - m)) = c.ctrl := by
    rw [Nat.sub_self, (hG 0 (by omega)).2.2 rfl, hN, Nat.add_sub_cancel]
    exact (eq_arr c.ctrl 0).symm
  have q2 : arr (c'.knots.length - m) (remU (knot c'.knots) r m) = c.knots := by
    rw [hM, Nat.add_sub_cancel]
    conv_rhs => rw [eq_arr c.knots 0]
    apply arr_congr
    intro i hi
    unfold remU
    by_cases hi2 : i ≤ κ
    · rw [if_pos (by omega), ck _ (by omega), insU, if_pos hi2]; rfl
    · rw [if_neg (by omega), ck _ (by omega), insU, if_neg (by omega), if_neg (by omega),
        Nat.add_sub_cancel]
      rfl
  unfold remC
  rw [q1, q2]
  have e1 := I.periodic
  have e2 := I.sdeg
  cases c
  simp_all

/-- C18: with the conditions of C13 the same in terms of evaluation: within `n` times the
tolerance. -/
theorem C18_evaluate_partial {eps : K} (heps : 0 ≤ eps) {c : BSpline K V} {p : ℕ}
    (hc : WellFormed c p) {t : K} (h1 : knot c.knots p < t)
    (h2 : t < knot c.knots c.ctrl.length) (hm : t ∈ c.knots) (hcount : c.knots.count t ≤ p)
    {nrm : V → K} (hn : IsSeminorm nrm) (extent : List V → K) {num : ℕ} (hnum : 1 ≤ num)
    (hle : num ≤ c.knots.count t) {tol : K} (htol : 0 ≤ tol) {c' : BSpline K V} {n : ℕ}
    (hR : c.removeKnot nrm extent eps t num tol = ok (c', n)) (hw : Wide c p) (hw' : Wide c' p)
    (hper : c.periodic = false) {x : K} (hx1 : knot c.knots p < x)
    (hx2 : x ≤ knot c.knots c.ctrl.length) :
    ∃ P P', c.evaluate x = ok P ∧ c'.evaluate x = ok P' ∧ nrm (P - P') ≤ n * tol := by
  obtain ⟨c'', n', e, -, b2, -, -, b5, b6, b7, -⟩ := C18_bookkeeping_partial heps hc h1 h2 hm
    (by omega) nrm extent hnum hle tol
  rw [hR, ok.injEq, Prod.mk.injEq] at e
  obtain ⟨rfl, rfl⟩ := e
  refine ⟨_, _, C13_evaluate_partial hc hw hper x (Or.inr hx1) hx1.le hx2,
    C13_evaluate_partial b2 hw' (by rw [b7, hper]) x (Or.inr (by rw [b5]; exact hx1))
      (by rw [b5]; exact hx1.le) (by rw [b6]; exact hx2), ?_⟩
  exact C18_deviation_partial heps hc h1 h2 hm hcount hn extent hnum hle htol hR hx1.le hx2

/-- C18 for NURBS: removal undoes the insertion of knots, control points and weights. -/
theorem C18_nurbs_inverse_partial {eps : K} (heps : 0 ≤ eps) {c : NURBS K V}
    (hc : c.init = ok c) {p : ℕ} (hwf : WellFormed c.base p) (hw : ∀ x ∈ c.weights, x ≠ 0)
    {t : K} (h1 : knot c.base.knots p < t) (h2 : t < knot c.base.knots c.base.ctrl.length)
    {m : ℕ} (hm : 1 ≤ m) {c' : NURBS K V} (hI : c.insertKnot eps t m = ok c')
    {nrm : V × K → K} (hn : nrm 0 = 0) (extent : List (V × K) → K) {tol : K} (htol : 0 ≤ tol) :
    c'.removeKnot nrm extent eps t m tol = ok (c, m) := by
  obtain ⟨S, -, -⟩ := (NURBS.init_iff _ _).1 hc
  unfold NURBS.insertKnot at hI
  rw [S.validate, NURBS.wf_validate hwf, ok_bind, bind_eq_ok] at hI
  obtain ⟨h, e1, e2⟩ := hI
  have hinv := C18_inverse_partial heps (S.wf.2 hwf) (by rw [S.knots]; exact h1)
    (by rw [S.knots, S.homLen]; exact h2) hm e1 hn extent htol
  unfold NURBS.ofHomogeneous at e2
  rw [bind_eq_ok] at e2
  obtain ⟨P, -, e2⟩ := e2
  simp only [bind_eq_ok] at e2
  obtain ⟨⟨⟩, e3, e4⟩ := e2
  rw [pure_eq, ok.injEq] at e4
  rw [e4] at e3
  have eh : c'.hom = h := by rw [← e4]
  unfold NURBS.removeKnot
  rw [e3, ok_bind, eh, hinv, ok_bind]
  have back : NURBS.ofHomogeneous c.hom = ok c := by
    unfold NURBS.ofHomogeneous
    rw [S.ctrl, dehomogenize_homog S.len hw, ok_bind]
    simp only []
    rw [map_snd_homog S.len, S.knots, S.per]
    have e5 : c.hom.sdeg = c.base.sdeg := by rw [S.hom]
    rw [e5]
    have hv : c.validate = ok () := by rw [S.validate, NURBS.wf_validate hwf]
    have e6 : NURBS.mk (BSpline.mk c.base.ctrl c.base.knots c.base.periodic c.base.sdeg) c.weights
        c.hom = c := rfl
    rw [e6, hv]
    rfl
  dsimp only
  rw [back]
  rfl

/-- C18 fails for more copies than there are: with a constant polygon the call for two copies of
the simple knot 2 also removes the knot 1. -/
theorem C18_excess_refuted :
    let c : BSpline ℚ ℚ := { ctrl := [1, 1, 1, 1, 1], knots := [0, 0, 1, 2, 3, 4, 4] }
    WellFormed c 1 ∧
      c.removeKnot (fun x => |x|) (fun _ => 0) 0 2 2 0
        = ok ({ ctrl := [1, 1, 1], knots := [0, 0, 3, 4, 4] }, 2) :=
  ⟨⟨by decide, Or.inl rfl, by decide, by decide +kernel, by decide +kernel⟩, by decide +kernel⟩

/-- C18 fails for more copies than there are: at the first interior knot row -1 is read. -/
theorem C18_excess_ub_refuted :
    let c : BSpline ℚ ℚ := { ctrl := [1, 1, 1, 1], knots := [0, 0, 1, 2, 3, 3] }
    c.removeKnot (fun x => |x|) (fun _ => 0) 0 1 2 0 = ub := by
  decide +kernel

/-- C18 fails at the ends of the domain of an unclamped spline: knots inserted there are not
removed. -/
theorem C18_domain_end_refuted :
    let c : BSpline ℚ ℚ := { ctrl := [5, 7, 9], knots := [0, 1, 2, 3, 4, 5] }
    ∃ c', WellFormed c 2 ∧ c.insertKnot 0 2 1 = ok c' ∧
      c'.removeKnot (fun x => |x|) (fun _ => 0) 0 2 1 0 = ok (c', 0) :=
  ⟨{ ctrl := [5, 6, 7, 9], knots := [0, 1, 2, 2, 3, 4, 5] },
    ⟨by decide, Or.inl rfl, by decide, by decide +kernel, by decide +kernel⟩, by decide +kernel,
    by decide +kernel⟩

theorem abs_seminorm : IsSeminorm (fun x : ℚ => |x|) :=
  ⟨fun a b => abs_add_le a b, fun a v => by simp [abs_mul]⟩

example : exSpline.removeKnot (fun x => |x|) (fun _ => 0) 0 (1 / 3) 2 0 = ok (exSpline, 0) :=
  C18_not_interior exSpline_wf (by decide +kernel) (by decide +kernel)
    (Or.inl (by decide +kernel)) _ _ (by norm_num) _

/-- Two copies of 1/2 of which one is superfluous up to 1/10. -/
def exRemovable : BSpline ℚ ℚ :=
  { ctrl := [0, 1, 1 + 21 / 20, 3, 5], knots := [0, 0, 0, 1 / 2, 1 / 2, 1, 1, 1] }

theorem exRemovable_wf : WellFormed exRemovable 2 :=
  ⟨by decide, Or.inl rfl, by decide, by decide +kernel, by decide +kernel⟩

example : exRemovable.removeKnot (fun x => |x|) (fun _ => 0) 0 (1 / 2) 2 (1 / 10)
    = ok ({ ctrl := [0, 1, 3, 5], knots := [0, 0, 0, 1 / 2, 1, 1, 1] }, 1) := by
  decide +kernel

example (x : ℚ) (hx1 : 0 ≤ x) (hx2 : x ≤ 1) :
    |bsplinePoint 2 exRemovable.knots exRemovable.ctrl x
      - bsplinePoint 2 [0, 0, 0, 1 / 2, 1, 1, 1] [0, 1, 3, 5] x| ≤ (1 : ℕ) * (1 / 10) :=
  C18_deviation_partial (eps := 0) le_rfl exRemovable_wf (t := 1 / 2) (by decide +kernel)
    (by decide +kernel) (by decide +kernel) (by decide +kernel) abs_seminorm (fun _ => 0)
    (num := 2) (by norm_num) (by decide +kernel) (tol := 1 / 10) (by norm_num)
    (c' := { ctrl := [0, 1, 3, 5], knots := [0, 0, 0, 1 / 2, 1, 1, 1] }) (n := 1)
    (by decide +kernel) (x := x)
    (by rw [show knot exRemovable.knots 2 = 0 by decide +kernel]; exact hx1)
    (by rw [show knot exRemovable.knots exRemovable.ctrl.length = 1 by decide +kernel]; exact hx2)

example : ∃ c', exSpline.insertKnot 0 (1 / 4) 2 = ok c' ∧
    c'.removeKnot (fun x => |x|) (fun _ => 0) 0 (1 / 4) 2 (1 / 1000) = ok (exSpline, 2) := by
  obtain ⟨c', e, -⟩ := C17_insert_knot_partial (eps := (0 : ℚ)) le_rfl exSpline_wf (t := 1 / 4)
    (m := 2) (Or.inl exSpline_first) (by decide +kernel) (by decide +kernel) (by norm_num)
    (by decide +kernel)
  exact ⟨c', e, C18_inverse_partial le_rfl exSpline_wf (by decide +kernel) (by decide +kernel)
    (by norm_num) e (by simp) _ (by norm_num)⟩

example : ∃ c', exNurbs.insertKnot 0 (1 / 2) 2 = ok c' ∧
    c'.removeKnot (fun x => |x.1.1| + |x.1.2| + |x.2|) (fun _ => 0) 0 (1 / 2) 2 0
      = ok (exNurbs, 2) := by
  obtain ⟨c', e, -⟩ := C62_insert_knot_partial (eps := (0 : ℚ)) le_rfl exNurbs_init (p := 2)
    (t := 1 / 2) (m := 2)
    ⟨by decide, Or.inl rfl, by decide, by decide +kernel, by decide +kernel⟩
    (by unfold FirstSpan; decide +kernel) (by decide +kernel) (by decide +kernel)
    (by decide +kernel) (by norm_num) (by decide +kernel)
  exact ⟨c', e, C18_nurbs_inverse_partial le_rfl exNurbs_init (p := 2)
    ⟨by decide, Or.inl rfl, by decide, by decide +kernel, by decide +kernel⟩ (by decide +kernel)
    (by decide +kernel) (by decide +kernel) (by norm_num) e (by simp) _ le_rfl⟩

end NS.Props
