import Verif.Props.PeriodicDeriv
import Verif.Props.NurbsPatch

/-!
# Derivatives of NURBS patches, periodic or not in either direction (C63)
-/

set_option linter.unusedSectionVars false
set_option linter.unusedSimpArgs false

namespace NS.Props

open Outcome Spec Finset BSpline BSplinePatch Filter Topology

variable {V : Type} [NormedAddCommGroup V] [NormedSpace ℝ V]

theorem Allowed.of_near {u : List ℝ} {n d : ℕ} {t : ℝ} (h1 : knot u d ≤ t) (h2 : t < knot u n) :
    ∀ᶠ s in 𝓝[≥] t, knot u d ≤ s ∧ s ≤ knot u n := by
  filter_upwards [Ico_mem_nhdsGE h2] with s hs
  exact ⟨h1.trans hs.1, hs.2.le⟩

theorem DerivDir.congr {per : Bool} {u : List ℝ} {n d : ℕ} (hn : n < u.length)
    (hlt : knot u d < knot u n) {f f' g g' : ℝ → V} (H : DerivDir per u n d f f')
    (e : ∀ t, Allowed per u n d t → g t = f t) (e' : ∀ t, Allowed per u n d t → g' t = f' t) :
    DerivDir per u n d g g' := by
  constructor
  · intro hp
    have a : g = f := funext fun t => e t (Or.inl hp)
    have b : g' = f' := funext fun t => e' t (Or.inl hp)
    rw [a, b]
    exact H.1 hp
  · intro hp t h1 h2
    obtain ⟨a, b, c⟩ := H.2 hp t h1 h2
    have ht := e t (Or.inr ⟨h1, h2⟩)
    rw [e' t (Or.inr ⟨h1, h2⟩)]
    refine ⟨fun h => (a h).congr_of_eventuallyEq ?_ ht, fun h => (b h).congr_of_eventuallyEq ?_ ht,
      fun h hm => (c h hm).congr_of_eventuallyEq ?_⟩
    · filter_upwards [Ico_mem_nhdsGE h] with s hs
      exact e s (Or.inr ⟨h1.trans hs.1, hs.2.le⟩)
    · filter_upwards [Ioc_mem_nhdsLE (by rw [h]; exact hlt : knot u d < t)] with s hs
      exact e s (Or.inr ⟨hs.1.le, hs.2.trans h2⟩)
    · have hne : t ≠ knot u n := fun h => hm (h ▸ knot_mem hn)
      filter_upwards [Ioo_mem_nhds h (lt_of_le_of_ne h2 hne)] with s hs
      exact e s (Or.inr ⟨hs.1.le, hs.2.le⟩)

/-- Differentiability at one admissible parameter in the sense of `DerivDir`. -/
def DerivDirAt (per : Bool) (u : List ℝ) (n d : ℕ) (f f' : ℝ → V) (t : ℝ) : Prop :=
  (per = true → HasDerivWithinAt f (f' t) (Set.Ici t) t ∧
    ((∀ z : ℤ, t + z * (knot u n - knot u d) ∉ u) → HasDerivAt f (f' t) t)) ∧
  (per = false → DerivAtPt u n d f f' t)

theorem dir_q0 {per : Bool} {k : List ℝ} {n d : ℕ} {g g' : ℝ → V × ℝ}
    (H : DerivDir per k n d g g') {t : ℝ} (ha : Allowed per k n d t) (h0 : (g t).2 ≠ 0) :
    DerivDirAt per k n d (fun t => q0 (g t)) (fun t => q1 (g t) (g' t)) t := by
  refine ⟨fun hp => ?_, fun hp => ?_⟩
  · obtain ⟨a, b⟩ := H.1 hp t
    exact ⟨hasDeriv_q0 a h0, fun hz => atQ0 (b hz) h0⟩
  · obtain ⟨h1, h2⟩ := ha.resolve_left (by simp [hp])
    exact pt_q0 (H.2 hp) h1 h2 h0

theorem dir_q1 {per : Bool} {k : List ℝ} {n d : ℕ} {g g' g'' : ℝ → V × ℝ}
    (H : DerivDir per k n d g g') (H' : DerivDir per k n d g' g'') {t : ℝ}
    (ha : Allowed per k n d t) (h0 : (g t).2 ≠ 0) :
    DerivDirAt per k n d (fun t => q1 (g t) (g' t)) (fun t => q2 (g t) (g' t) (g'' t)) t := by
  refine ⟨fun hp => ?_, fun hp => ?_⟩
  · obtain ⟨a, b⟩ := H.1 hp t
    obtain ⟨a', b'⟩ := H'.1 hp t
    exact ⟨hasDeriv_q1 a a' h0, fun hz => atQ1 (b hz) (b' hz) h0⟩
  · obtain ⟨h1, h2⟩ := ha.resolve_left (by simp [hp])
    exact pt_q1 (H.2 hp) (H'.2 hp) h1 h2 h0

theorem dir_qm {per : Bool} {k : List ℝ} {n d : ℕ} {g gu gv guv : ℝ → V × ℝ}
    (H : DerivDir per k n d g gv) (H' : DerivDir per k n d gu guv) {t : ℝ}
    (ha : Allowed per k n d t) (h0 : (g t).2 ≠ 0) :
    DerivDirAt per k n d (fun t => q1 (g t) (gu t)) (fun t => qm (g t) (gu t) (gv t) (guv t)) t := by
  refine ⟨fun hp => ?_, fun hp => ?_⟩
  · obtain ⟨a, b⟩ := H.1 hp t
    obtain ⟨a', b'⟩ := H'.1 hp t
    exact ⟨hasDeriv_qm a a' h0, fun hz => atQm (b hz) (b' hz) h0⟩
  · obtain ⟨h1, h2⟩ := ha.resolve_left (by simp [hp])
    exact pt_qm (H.2 hp) (H'.2 hp) h1 h2 h0

variable {p : NURBSPatch ℝ V} {m n du dv : ℕ}

/-- Data of a NURBS patch over the reals, periodic or not, with spans wide enough for the guard in
the evaluator and a nonempty first span in both directions. -/
structure NRegularAny (p : NURBSPatch ℝ V) (m n du dv : ℕ) : Prop where
  valid : NValid p m n du dv
  init : p.init = ok p
  wideU : WideOn p.knotsU m du
  wideV : WideOn p.knotsV n dv
  firstU : knot p.knotsU du < knot p.knotsU (du + 1)
  firstV : knot p.knotsV dv < knot p.knotsV (dv + 1)

theorem NRegularAny.hom (h : NRegularAny p m n du dv) : RegularAny p.hom m n du dv := by
  have S := (sync_of_init h.init).1
  exact ⟨h.valid.hom S, S.init,
    by rw [S.knotsU]; exact h.wideU, by rw [S.knotsV]; exact h.wideV,
    by rw [S.knotsU]; exact h.firstU, by rw [S.knotsV]; exact h.firstV⟩

/-- Admissible parameter pairs. -/
def InBoxAny (p : NURBSPatch ℝ V) (m n du dv : ℕ) (u v : ℝ) : Prop :=
  Allowed p.perU p.knotsU m du u ∧ Allowed p.perV p.knotsV n dv v

/-- C63: derivatives of a NURBS patch, periodic or not.  `W` is the denominator at the folded
parameters.  Where it is not zero the evaluators return `f fu fv`, and where it exceeds the
tolerance also `fuu fvv`; these are one-sided derivatives, two-sided off the knots.  Missing: narrow
spans and degenerate first spans. -/
theorem C63_nurbs_derivatives_any_partial {tol : ℝ} (h0 : 0 ≤ tol) (h : NRegularAny p m n du dv) :
    ∃ (W : ℝ → ℝ → ℝ) (f fu fv fuu fvv : ℝ → ℝ → V), ∀ u v, InBoxAny p m n du dv u v →
      (∃ u' v', Folded p.perU (knot p.knotsU du) (knot p.knotsU m) u u' ∧
        Folded p.perV (knot p.knotsV dv) (knot p.knotsV n) v v' ∧
        W u v = ratBSplineSurfaceDen du dv m n p.knotsU p.knotsV p.weights u' v') ∧
      (W u v ≠ 0 →
        p.evaluate u v = ok (f u v) ∧ p.derivU u v = ok (fu u v) ∧ p.derivV u v = ok (fv u v) ∧
        DerivDirAt p.perU p.knotsU m du (fun s => f s v) (fun s => fu s v) u ∧
        DerivDirAt p.perU p.knotsU m du (fun s => fu s v) (fun s => fuu s v) u ∧
        DerivDirAt p.perV p.knotsV n dv (fun s => f u s) (fun s => fv u s) v ∧
        DerivDirAt p.perV p.knotsV n dv (fun s => fv u s) (fun s => fvv u s) v) ∧
      (tol < W u v →
        p.derivUU tol u v = ok (fuu u v) ∧ p.derivVV tol u v = ok (fvv u v)) := by
  have S := (sync_of_init h.init).1
  have R := h.hom
  have conv : ∀ u v, InBoxAny p m n du dv u v →
      Allowed p.hom.perU p.hom.knotsU m du u ∧ Allowed p.hom.perV p.hom.knotsV n dv v := by
    intro u v hb; rw [S.perU, S.perV, S.knotsU, S.knotsV]; exact hb
  have key : ∀ u v, ∃ x xu xv xuu xvv : V × ℝ, InBoxAny p m n du dv u v →
      p.hom.evaluate u v = ok x ∧ p.hom.derivU u v = ok xu ∧ p.hom.derivV u v = ok xv ∧
      p.hom.derivUU u v = ok xuu ∧ p.hom.derivVV u v = ok xvv := by
    intro u v
    by_cases hb : InBoxAny p m n du dv u v
    · obtain ⟨c1, c2⟩ := conv u v hb
      obtain ⟨f, f', f'', E, -⟩ := C64_u_any_partial R c2
      obtain ⟨k, k', k'', E', -⟩ := C64_v_any_partial R c1
      obtain ⟨a, b, c⟩ := E u c1
      obtain ⟨-, b', c'⟩ := E' v c2
      exact ⟨_, _, _, _, _, fun _ => ⟨a, b, b', c, c'⟩⟩
    · exact ⟨0, 0, 0, 0, 0, fun h => absurd h hb⟩
  choose g gu gv guu gvv E using key
  have lu := R.valid.u.len
  have lv := R.valid.v.len
  rw [S.knotsU] at lu
  rw [S.knotsV] at lv
  have domu := R.valid.u.dom
  have domv := R.valid.v.dom
  rw [S.knotsU] at domu
  rw [S.knotsV] at domv
  refine ⟨fun u v => (g u v).2, fun u v => q0 (g u v), fun u v => q1 (g u v) (gu u v),
    fun u v => q1 (g u v) (gv u v), fun u v => q2 (g u v) (gu u v) (guu u v),
    fun u v => q2 (g u v) (gv u v) (gvv u v), ?_⟩
  intro u v hb
  obtain ⟨e, eu, ev, euu, evv⟩ := E u v hb
  obtain ⟨c1, c2⟩ := conv u v hb
  have DU : DerivDir p.perU p.knotsU m du (fun s => g s v) (fun s => gu s v) ∧
      DerivDir p.perU p.knotsU m du (fun s => gu s v) (fun s => guu s v) := by
    obtain ⟨f, f', f'', F, d1, d2⟩ := C64_u_any_partial R c2
    rw [S.perU, S.knotsU] at d1 d2 F
    have eq : ∀ s, Allowed p.perU p.knotsU m du s → g s v = f s ∧ gu s v = f' s ∧ guu s v = f'' s := by
      intro s hs
      obtain ⟨a, b, -, c, -⟩ := E s v ⟨hs, hb.2⟩
      obtain ⟨a', b', c'⟩ := F s hs
      rw [a, ok.injEq] at a'; rw [b, ok.injEq] at b'; rw [c, ok.injEq] at c'
      exact ⟨a', b', c'⟩
    exact ⟨d1.congr (by omega) domu (fun s hs => (eq s hs).1) (fun s hs => (eq s hs).2.1),
      d2.congr (by omega) domu (fun s hs => (eq s hs).2.1) (fun s hs => (eq s hs).2.2)⟩
  have DV : DerivDir p.perV p.knotsV n dv (fun s => g u s) (fun s => gv u s) ∧
      DerivDir p.perV p.knotsV n dv (fun s => gv u s) (fun s => gvv u s) := by
    obtain ⟨f, f', f'', F, d1, d2⟩ := C64_v_any_partial R c1
    rw [S.perV, S.knotsV] at d1 d2 F
    have eq : ∀ s, Allowed p.perV p.knotsV n dv s → g u s = f s ∧ gv u s = f' s ∧ gvv u s = f'' s := by
      intro s hs
      obtain ⟨a, -, b, -, c⟩ := E u s ⟨hb.1, hs⟩
      obtain ⟨a', b', c'⟩ := F s hs
      rw [a, ok.injEq] at a'; rw [b, ok.injEq] at b'; rw [c, ok.injEq] at c'
      exact ⟨a', b', c'⟩
    exact ⟨d1.congr (by omega) domv (fun s hs => (eq s hs).1) (fun s hs => (eq s hs).2.1),
      d2.congr (by omega) domv (fun s hs => (eq s hs).2.1) (fun s hs => (eq s hs).2.2)⟩
  refine ⟨?_, fun hw => ⟨?_, ?_, ?_, dir_q0 DU.1 hb.1 hw, dir_q1 DU.1 DU.2 hb.1 hw,
    dir_q0 DV.1 hb.2 hw, dir_q1 DV.1 DV.2 hb.2 hw⟩, fun hw => ⟨?_, ?_⟩⟩
  · obtain ⟨u', a1, f1⟩ := axis_folded R.valid.u p.hom.perU u
    obtain ⟨v', a2, f2⟩ := axis_folded R.valid.v p.hom.perV v
    obtain ⟨u'', b1, i1⟩ := c1.fold R.valid.u R.firstU
    obtain ⟨v'', b2, i2⟩ := c2.fold R.valid.v R.firstV
    rw [a1, ok.injEq] at b1
    rw [a2, ok.injEq] at b2
    subst b1 b2
    have := (R.valid.ready R.init).evaluate R.wideU R.wideV a1 i1 a2 i2
    rw [tsum_eq, e, ok.injEq, S.knotsU, S.knotsV, S.grid,
      homog_bsplineSurface S.len.symm] at this
    rw [S.perU, S.knotsU] at f1
    rw [S.perV, S.knotsV] at f2
    exact ⟨u', v', f1, f2, by simp only [this]⟩
  · unfold NURBSPatch.evaluate
    rw [S.validate, ok_bind, e, ok_bind, quot0_eq hw]
  · unfold NURBSPatch.derivU
    rw [S.validate, ok_bind, e, ok_bind, eu, ok_bind, quot1_eq hw]
  · unfold NURBSPatch.derivV
    rw [S.validate, ok_bind, e, ok_bind, ev, ok_bind, quot1_eq hw]
  · unfold NURBSPatch.derivUU
    rw [S.validate, ok_bind, e, ok_bind, eu, ok_bind, euu, ok_bind, quotSame_eq h0 hw]
  · unfold NURBSPatch.derivVV
    rw [S.validate, ok_bind, e, ok_bind, ev, ok_bind, evv, ok_bind, quotSame_eq h0 hw]

/-- C63: the mixed derivative of a NURBS patch of positive degrees, periodic or not, is the
`v`-derivative of `evaluate_derivative_u`. -/
theorem C63_nurbs_mixed_any_partial {tol : ℝ} (h0 : 0 ≤ tol) (bad : V × ℝ)
    (h : NRegularAny p m n (du + 1) (dv + 1)) :
    ∃ (W : ℝ → ℝ → ℝ) (fu fuv : ℝ → ℝ → V), ∀ u v, InBoxAny p m n (du + 1) (dv + 1) u v →
      (∃ u' v', Folded p.perU (knot p.knotsU (du + 1)) (knot p.knotsU m) u u' ∧
        Folded p.perV (knot p.knotsV (dv + 1)) (knot p.knotsV n) v v' ∧
        W u v = ratBSplineSurfaceDen (du + 1) (dv + 1) m n p.knotsU p.knotsV p.weights u' v') ∧
      (tol < W u v →
        p.derivU u v = ok (fu u v) ∧ p.derivUV tol bad u v = ok (fuv u v) ∧
        DerivDirAt p.perV p.knotsV n (dv + 1) (fun s => fu u s) (fun s => fuv u s) v) := by
  have S := (sync_of_init h.init).1
  have R := h.hom
  have conv : ∀ u v, InBoxAny p m n (du + 1) (dv + 1) u v →
      Allowed p.hom.perU p.hom.knotsU m (du + 1) u ∧
      Allowed p.hom.perV p.hom.knotsV n (dv + 1) v := by
    intro u v hb; rw [S.perU, S.perV, S.knotsU, S.knotsV]; exact hb
  have key : ∀ u v, ∃ x xu xv xuv : V × ℝ, InBoxAny p m n (du + 1) (dv + 1) u v →
      p.hom.evaluate u v = ok x ∧ p.hom.derivU u v = ok xu ∧ p.hom.derivV u v = ok xv ∧
      p.hom.derivUV bad u v = ok xuv := by
    intro u v
    by_cases hb : InBoxAny p m n (du + 1) (dv + 1) u v
    · obtain ⟨c1, c2⟩ := conv u v hb
      obtain ⟨k, k', k'', E', -⟩ := C64_v_any_partial R c1
      obtain ⟨l, l', E'', -⟩ := C64_uv_any_partial bad R c1
      obtain ⟨a', b', c'⟩ := E' v c2
      obtain ⟨a, b⟩ := E'' v c2
      exact ⟨_, _, _, _, fun _ => ⟨a', a, b', b⟩⟩
    · exact ⟨0, 0, 0, 0, fun h => absurd h hb⟩
  choose g gu gv guv E using key
  have lv := R.valid.v.len
  rw [S.knotsV] at lv
  have domv := R.valid.v.dom
  rw [S.knotsV] at domv
  refine ⟨fun u v => (g u v).2, fun u v => q1 (g u v) (gu u v),
    fun u v => qm (g u v) (gu u v) (gv u v) (guv u v), ?_⟩
  intro u v hb
  obtain ⟨e, eu, ev, euv⟩ := E u v hb
  obtain ⟨c1, c2⟩ := conv u v hb
  have DV : DerivDir p.perV p.knotsV n (dv + 1) (fun s => g u s) (fun s => gv u s) := by
    obtain ⟨f, f', f'', F, d1, -⟩ := C64_v_any_partial R c1
    rw [S.perV, S.knotsV] at d1 F
    have eq : ∀ s, Allowed p.perV p.knotsV n (dv + 1) s → g u s = f s ∧ gv u s = f' s := by
      intro s hs
      obtain ⟨a, -, b, -⟩ := E u s ⟨hb.1, hs⟩
      obtain ⟨a', b', -⟩ := F s hs
      rw [a, ok.injEq] at a'; rw [b, ok.injEq] at b'
      exact ⟨a', b'⟩
    exact d1.congr (by omega) domv (fun s hs => (eq s hs).1) (fun s hs => (eq s hs).2)
  have DM : DerivDir p.perV p.knotsV n (dv + 1) (fun s => gu u s) (fun s => guv u s) := by
    obtain ⟨f, f', F, d1⟩ := C64_uv_any_partial bad R c1
    rw [S.perV, S.knotsV] at d1 F
    have eq : ∀ s, Allowed p.perV p.knotsV n (dv + 1) s → gu u s = f s ∧ guv u s = f' s := by
      intro s hs
      obtain ⟨-, a, -, b⟩ := E u s ⟨hb.1, hs⟩
      obtain ⟨a', b'⟩ := F s hs
      rw [a, ok.injEq] at a'; rw [b, ok.injEq] at b'
      exact ⟨a', b'⟩
    exact d1.congr (by omega) domv (fun s hs => (eq s hs).1) (fun s hs => (eq s hs).2)
  refine ⟨?_, fun hw => ?_⟩
  · obtain ⟨u', a1, f1⟩ := axis_folded R.valid.u p.hom.perU u
    obtain ⟨v', a2, f2⟩ := axis_folded R.valid.v p.hom.perV v
    obtain ⟨u'', b1, i1⟩ := c1.fold R.valid.u R.firstU
    obtain ⟨v'', b2, i2⟩ := c2.fold R.valid.v R.firstV
    rw [a1, ok.injEq] at b1
    rw [a2, ok.injEq] at b2
    subst b1 b2
    have := (R.valid.ready R.init).evaluate R.wideU R.wideV a1 i1 a2 i2
    rw [tsum_eq, e, ok.injEq, S.knotsU, S.knotsV, S.grid,
      homog_bsplineSurface S.len.symm] at this
    rw [S.perU, S.knotsU] at f1
    rw [S.perV, S.knotsV] at f2
    exact ⟨u', v', f1, f2, by simp only [this]⟩
  · have hw0 : (g u v).2 ≠ 0 := (h0.trans_lt hw).ne'
    refine ⟨?_, ?_, dir_qm DV DM hb.2 hw0⟩
    · unfold NURBSPatch.derivU
      rw [S.validate, ok_bind, e, ok_bind, eu, ok_bind, quot1_eq hw0]
    · unfold NURBSPatch.derivUV
      rw [S.validate, ok_bind, e, ok_bind, eu, ok_bind, ev, ok_bind, euv, ok_bind,
        quotMixed_eq h0 hw]

/-- A NURBS patch periodic in `u`, with weights of both signs. -/
example : ∃ q : NURBSPatch ℝ ℝ, NRegularAny q 2 2 1 1 ∧ q.weights = [1, 2, -1, 3] ∧
    q.perU = true ∧ InBoxAny q 2 2 1 1 17 (1/2) := by
  have ha : Axis ([0, 0, 1, 1] : List ℝ) 1 (-1) 2 1 :=
    ⟨rfl, rfl, Or.inl (by decide), le_rfl, by simp, by simp [knot]⟩
  have hw : WideOn ([0, 0, 1, 1] : List ℝ) 2 1 := by
    intro i h1 h2 h3
    have : i = 1 := by omega
    subst this
    simp [knot, BSpline.tiny]; norm_num
  let r : NURBSPatch ℝ ℝ := NURBSPatch.mk [0, 1, 3, 2] [1, 2, -1, 3] [0, 0, 1, 1] [0, 0, 1, 1] 1 1
    true false (-1) (-1) (BSplinePatch.mk [] [] [] 0 0 false false (-1) (-1) [] [])
  have hv : NValid r 2 2 1 1 := ⟨ha, ha, rfl, rfl⟩
  obtain ⟨q, -, e, hq⟩ := C63_nurbs_init hv
  have hv' : NValid q 2 2 1 1 := by rw [hq]; exact ⟨ha, ha, rfl, rfl⟩
  have k1 : q.knotsU = [0, 0, 1, 1] := by rw [hq]
  have k2 : q.knotsV = [0, 0, 1, 1] := by rw [hq]
  have pu : q.perU = true := by rw [hq]
  refine ⟨q, ⟨hv', e, by rw [k1]; exact hw, by rw [k2]; exact hw, by rw [k1]; simp [knot],
    by rw [k2]; simp [knot]⟩, by rw [hq], pu, Or.inl pu, Or.inr ?_⟩
  rw [k2]; simp [knot]; norm_num

end NS.Props
