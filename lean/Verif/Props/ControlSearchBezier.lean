import Verif.Props.ControlSearchRuns

/-!
# C76: the search of Bézier patches
-/

set_option linter.unusedSectionVars false
set_option linter.unusedSimpArgs false

namespace NS.Props

open Outcome Spec ControlSearch BezierPatch
open BSpline (HullOf)

variable {K V : Type} [Field K] [LinearOrder K] [IsStrictOrderedRing K] [FloorRing K]
  [AddCommGroup V] [Module K V]

/-- `subpatch` keeps what both splits keep. -/
theorem bezier_subpatch_good {eps : K} (he : 0 ≤ eps) {Good : BezierPatch V → Prop}
    (hgu : ∀ q, Good q → ∀ x : K, 0 < x → x < 1 → ∃ A B, q.splitU eps x = ok [A, B] ∧ Good A ∧
      Good B ∧ ∀ s t, A.evaluate s t = q.evaluate (x * s) t ∧
        B.evaluate s t = q.evaluate (x + (1 - x) * s) t)
    (hgv : ∀ q, Good q → ∀ x : K, 0 < x → x < 1 → ∃ A B, q.splitV eps x = ok [A, B] ∧ Good A ∧
      Good B ∧ ∀ s t, A.evaluate s t = q.evaluate s (x * t) ∧
        B.evaluate s t = q.evaluate s (x + (1 - x) * t))
    {p : BezierPatch V} (hp : Good p) {a b c d : K}
    (a0 : 0 ≤ a) (a1 : a < 1) (ab : a ≤ b) (b0 : 0 < b) (b1 : b ≤ 1)
    (c0 : 0 ≤ c) (c1 : c < 1) (cd : c ≤ d) (d0 : 0 < d) (d1 : d ≤ 1) :
    ∃ S, p.subpatch eps a b c d = ok S ∧ Good S ∧
      ∀ s t : K, S.evaluate s t
        = p.evaluate (a + (actualEnd a b - a) * s) (c + (actualEnd c d - c) * t) := by
  obtain ⟨q, r, e1, e2, gr, H1⟩ := cut_spec (f := fun q => q.splitU eps)
    (ev := fun q => q.evaluate) (Good := Good) (p := p) hgu hp a0 a1 b0 b1
  obtain ⟨q', r', e3, e4, gr', H2⟩ := cut_spec (f := fun q => q.splitV eps)
    (ev := fun q t s => q.evaluate s t) (Good := Good) (p := r) (by
      intro q gq x x0 x1
      obtain ⟨A, B, e, oA, oB, H⟩ := hgv q gq x x0 x1
      exact ⟨A, B, e, oA, oB, fun s t => H t s⟩) gr c0 c1 d0 d1
  refine ⟨r', ?_, gr', fun s t => ?_⟩
  · have dm : ∀ x : K, 0 ≤ x → x ≤ 1 → Bezier.inDomain eps x = true := by
      intro x h0 h1
      simp [Bezier.inDomain]; constructor <;> linarith
    unfold subpatch
    rw [throwIf_false (not_lt.2 ab), ok_bind,
      throwIf_false (by simp [dm a a0 a1.le, dm b b0.le b1]), ok_bind,
      throwIf_false (not_lt.2 cd), ok_bind,
      throwIf_false (by simp [dm c c0 c1.le, dm d d0.le d1]), ok_bind,
      e1, ok_bind, e2, ok_bind, e3, ok_bind, e4]
  · rw [H2, H1]

theorem hull_trans {a b c : List V} (h : HullOf K a b) (h' : HullOf K b c) : HullOf K a c :=
  h.trans h'

/-- A piece of a fixed-degree patch with control points in the convex hull of those of the patch. -/
def HullPiece (K : Type) [Field K] [LinearOrder K] [IsStrictOrderedRing K] {V : Type}
    [AddCommGroup V] [Module K V] (p q : BezierPatch V) : Prop :=
  PieceOk p q ∧ HullOf K p.grid q.grid

theorem pieceOk_trans {p q A : BezierPatch V} (h1 : PieceOk p q) (h2 : PieceOk q A) :
    PieceOk p A :=
  ⟨h2.1, h2.2.1.trans h1.2.1, h2.2.2.1.trans h1.2.2.1, h2.2.2.2⟩

theorem pieceOk_self {p : BezierPatch V} (h : p.init = ok ()) (hs : Static p)
    (hpu : p.perU = false) (hpv : p.perV = false) : PieceOk p p := ⟨h, rfl, rfl, hs, hpu, hpv⟩

theorem bezier_subpatch_hull {eps : K} (he : 0 ≤ eps) {p : BezierPatch V} (h : p.init = ok ())
    (hs : Static p) (hpu : p.perU = false) (hpv : p.perV = false) {a b c d : K}
    (a0 : 0 ≤ a) (a1 : a < 1) (ab : a ≤ b) (b0 : 0 < b) (b1 : b ≤ 1)
    (c0 : 0 ≤ c) (c1 : c < 1) (cd : c ≤ d) (d0 : 0 < d) (d1 : d ≤ 1) :
    ∃ S, p.subpatch eps a b c d = ok S ∧ HullPiece K p S := by
  obtain ⟨S, e, g, -⟩ := bezier_subpatch_good he (Good := HullPiece K p) (by
      rintro q ⟨gq, hq⟩ x x0 x1
      obtain ⟨A, B, e, oA, oB, H⟩ := C30_split_u_partial he gq.1 gq.2.2.2.1 x0 x1
      rw [flat_piece gq] at H
      obtain ⟨hA, hB⟩ := splitU_hull gq.1 he x0 x1 e
      exact ⟨A, B, e, ⟨pieceOk_trans gq oA, hq.trans hA⟩, ⟨pieceOk_trans gq oB, hq.trans hB⟩, H⟩)
    (by
      rintro q ⟨gq, hq⟩ x x0 x1
      obtain ⟨A, B, e, oA, oB, H⟩ := C30_split_v_partial he gq.1 gq.2.2.2.1 x0 x1
      rw [flat_piece gq] at H
      obtain ⟨hA, hB⟩ := splitV_hull gq.1 he x0 x1 e
      exact ⟨A, B, e, ⟨pieceOk_trans gq oA, hq.trans hA⟩, ⟨pieceOk_trans gq oB, hq.trans hB⟩, H⟩)
    (p := p) ⟨pieceOk_self h hs hpu hpv, HullOf.refl _⟩ a0 a1 ab b0 b1 c0 c1 cd d0 d1
  exact ⟨S, e, g⟩

/-- A range in the unit interval that `subpatch` of a Bézier patch accepts after trimming. -/
def FitsUnit (lo hi : K) : Prop := max lo 0 < 1 ∧ max lo 0 ≤ min hi 1 ∧ 0 < min hi 1

theorem fitsUnit_next {d i : ℕ} (hd : 1 ≤ d) (hi : i ≤ d) :
    FitsUnit (min (max ((((if i > 0 then i - 1 else i) : ℕ) : K) / (d : K)) 0) 1)
      (min (max ((((if i + 1 < d + 1 then i + 1 else i) : ℕ) : K) / (d : K)) 0) 1) := by
  have dp : (0 : K) < d := by exact_mod_cast hd
  have l1 : (((if i > 0 then i - 1 else i) : ℕ) : K) / (d : K) < 1 := by
    rw [div_lt_one dp]
    have : (if i > 0 then i - 1 else i) < d := by split <;> omega
    exact_mod_cast this
  have l0 : (0 : K) ≤ (((if i > 0 then i - 1 else i) : ℕ) : K) / (d : K) := by positivity
  have h0 : (0 : K) < (((if i + 1 < d + 1 then i + 1 else i) : ℕ) : K) / (d : K) := by
    apply div_pos _ dp
    have : 0 < (if i + 1 < d + 1 then i + 1 else i) := by split <;> omega
    exact_mod_cast this
  have h1 : (((if i + 1 < d + 1 then i + 1 else i) : ℕ) : K) / (d : K) ≤ 1 := by
    rw [div_le_one dp]
    have : (if i + 1 < d + 1 then i + 1 else i) ≤ d := by split <;> omega
    exact_mod_cast this
  have hle : (((if i > 0 then i - 1 else i) : ℕ) : K) / (d : K)
      ≤ (((if i + 1 < d + 1 then i + 1 else i) : ℕ) : K) / (d : K) := by
    apply div_le_div_of_nonneg_right _ dp.le
    have : (if i > 0 then i - 1 else i) ≤ (if i + 1 < d + 1 then i + 1 else i) := by
      split <;> split <;> omega
    exact_mod_cast this
  rw [max_eq_left l0, min_eq_left l1.le, max_eq_left h0.le, min_eq_left h1]
  refine ⟨?_, ?_, ?_⟩
  · rw [max_eq_left l0]; exact l1
  · rw [max_eq_left l0, min_eq_left h1]; exact hle
  · rw [min_eq_left h1]; exact h0

theorem bezier_preimage_ok {p : BezierPatch V} {m n : ℕ} (hw : p.WellFormed m n) (hm : 1 ≤ m)
    (hn : 1 ≤ n) (i j : ℕ) : p.preimage i j = ok ((i : K) / (m : K), (j : K) / (n : K)) := by
  unfold BezierPatch.preimage
  rw [hw.degreeU, ok_bind, hw.degreeV, ok_bind, assert_true (by omega), ok_bind]
  rfl

/-- One round of the search on the unit square. -/
theorem round_unit {α W : Type} [AddCommGroup W] [Module K W] {o : Ops K α} {s r : α}
    {p q : BezierPatch W} {m n : ℕ} (hp : p.WellFormed m n) (hq : q.WellFormed m n) {b : Box K}
    {i j : ℕ} (lo : o.lowerU s = ok 0) (hi : o.upperU s = ok 1) (lv : o.lowerV s = ok 0)
    (hv : o.upperV s = ok 1) (nu : o.numU s = p.numU) (nv : o.numV s = p.numV)
    (pre : ∀ i j, o.preimage r i j = q.preimage i j) (hm : 1 ≤ m) (hn : 1 ≤ n) :
    ∃ d, trim o s b = ok ⟨max b.minU 0, min b.maxU 1, max b.minV 0, min b.maxV 1⟩ ∧
      o.preimage r i j = ok ((i : K) / (m : K), (j : K) / (n : K)) ∧
      neighbours o s r i j = ok d ∧
      nextBox unitBox d = ⟨min (max ((((if i > 0 then i - 1 else i) : ℕ) : K) / (m : K)) 0) 1,
        min (max ((((if i + 1 < m + 1 then i + 1 else i) : ℕ) : K) / (m : K)) 0) 1,
        min (max ((((if j > 0 then j - 1 else j) : ℕ) : K) / (n : K)) 0) 1,
        min (max ((((if j + 1 < n + 1 then j + 1 else j) : ℕ) : K) / (n : K)) 0) 1⟩ := by
  refine ⟨(((((if i > 0 then i - 1 else i) : ℕ) : K) / (m : K),
    (((if j > 0 then j - 1 else j) : ℕ) : K) / (n : K)),
    ((((if i + 1 < m + 1 then i + 1 else i) : ℕ) : K) / (m : K),
    (((if j + 1 < n + 1 then j + 1 else j) : ℕ) : K) / (n : K))), ?_, ?_, ?_, ?_⟩
  · unfold trim
    rw [lo, hi, lv, hv]
    rfl
  · rw [pre, bezier_preimage_ok hq hm hn]
  · unfold neighbours
    rw [pre, bezier_preimage_ok hq hm hn, ok_bind, nu, hp.numU, ok_bind, nv, hp.numV, ok_bind, pre,
      bezier_preimage_ok hq hm hn, ok_bind]
    rfl
  · rfl

variable [Geom K V]

/-- C76: on a Bézier patch of fixed degrees at least 3 without periodic directions the search
returns for every query, level and box that overlaps the unit square, and the guess is in the box.
With degree 2 the search is the one of the base class, see C35; for dynamic degrees see
`C76_dynamic_refuted`. -/
theorem C76_bezier_total {eps big tol : K} (he : 0 ≤ eps) {p : BezierPatch V} (h : p.init = ok ())
    (hs : Static p) (hpu : p.perU = false) (hpv : p.perV = false) (hdu : 3 ≤ p.degU)
    (hdv : 3 ≤ p.degV) (x : V) (nu nv level : ℕ) {b : Box K}
    (hb : b.minU ≤ b.maxU ∧ b.minV ≤ b.maxV) (hu : b.minU < 1 ∧ 0 < b.maxU)
    (hv : b.minV < 1 ∧ 0 < b.maxV) :
    ∃ r, p.approxInverse eps big tol x nu nv level b = ok r ∧
      (b.minU ≤ r.1 ∧ r.1 ≤ b.maxU) ∧ (b.minV ≤ r.2 ∧ r.2 ≤ b.maxV) := by
  have fits : ∀ {lo hi : K}, lo ≤ hi → lo < 1 → 0 < hi → FitsUnit lo hi := fun h1 h2 h3 =>
    ⟨max_lt h2 zero_lt_one, max_le (le_min h1 h2.le) (le_min h3.le zero_le_one),
      lt_min h3 zero_lt_one⟩
  have R : Runs (BezierPatch.ops eps big tol x nu nv) (fun q => PieceOk p q)
      (fun _ b => FitsUnit b.minU b.maxU ∧ FitsUnit b.minV b.maxV) (fun _ => unitBox) := by
    rintro s b hs ⟨⟨f1, f2, f3⟩, f4, f5, f6⟩
    obtain ⟨si, sdu, sdv, sst, su, sv⟩ := hs
    have hw := wf_of_init si
    have hm : 3 ≤ s.degU.toNat := by rw [sdu]; omega
    have hn : 3 ≤ s.degV.toNat := by rw [sdv]; omega
    refine ⟨fun l => fallback_of (by simp [BezierPatch.ops, su, sv]) hw.degreeU hw.degreeV hw.numU
      hw.numV (by omega) (by omega) (by omega) (by omega), ?_⟩
    obtain ⟨S, eS, P, -⟩ := bezier_subpatch_hull he si sst su sv (le_max_right _ _) f1 f2 f3
      (min_le_right _ _) (le_max_right _ _) f4 f5 f6 (min_le_right _ _)
    obtain ⟨i, j, ec, hi, hj⟩ := C59_in_range big (sqNorm : V → K) P.1 x
    have hwS := wf_of_init P.1
    rw [P.2.1, P.2.2.1] at hwS
    rw [P.2.1] at hi
    rw [P.2.2.1] at hj
    obtain ⟨d, e1, e2, e3, e4⟩ := round_unit (o := BezierPatch.ops eps big tol x nu nv) (s := s)
      (r := S) (b := b) hw hwS rfl rfl rfl rfl rfl rfl (fun _ _ => rfl) (by omega) (by omega)
    refine ⟨_, S, (i, j), _, d, e1, eS, ec, e2, e3, pieceOk_trans ⟨si, sdu, sdv, sst, su, sv⟩ P, ?_⟩
    rw [e4]
    exact ⟨fitsUnit_next (by omega) hi, fitsUnit_next (by omega) hj⟩
  obtain ⟨r, e⟩ := unitSearch_runs R level (s := p) (b := b) (pieceOk_self h hs hpu hpv)
    ⟨fits hb.1 hu.1 hu.2, fits hb.2 hv.1 hv.2⟩
  exact ⟨r, e, C76_bezier_in_box hb e⟩

/-- C76: the same for rational Bézier patches with positive weights. -/
theorem C76_rational_bezier_total {eps big tol small : K} (he : 0 ≤ eps)
    {p : RationalBezierPatch K V} (h : p.init = ok p) (hs : Static p.base)
    (hw : ∀ y ∈ p.weights, 0 < y) (hpu : p.base.perU = false) (hpv : p.base.perV = false)
    (hdu : 3 ≤ p.base.degU) (hdv : 3 ≤ p.base.degV) (x : V) (nu nv level : ℕ) {b : Box K}
    (hb : b.minU ≤ b.maxU ∧ b.minV ≤ b.maxV) (hu : b.minU < 1 ∧ 0 < b.maxU)
    (hv : b.minV < 1 ∧ 0 < b.maxV) :
    ∃ r, p.approxInverse eps big tol small x nu nv level b = ok r ∧
      (b.minU ≤ r.1 ∧ r.1 ≤ b.maxU) ∧ (b.minV ≤ r.2 ∧ r.2 ≤ b.maxV) := by
  have fits : ∀ {lo hi : K}, lo ≤ hi → lo < 1 → 0 < hi → FitsUnit lo hi := fun h1 h2 h3 =>
    ⟨max_lt h2 zero_lt_one, max_le (le_min h1 h2.le) (le_min h3.le zero_le_one),
      lt_min h3 zero_lt_one⟩
  have R : Runs (RationalBezierPatch.ops eps big tol small x nu nv)
      (fun q => q.init = ok q ∧ Static q.base ∧ (∀ y ∈ q.weights, 0 < y) ∧ q.base.perU = false ∧
        q.base.perV = false ∧ 3 ≤ q.base.degU ∧ 3 ≤ q.base.degV)
      (fun _ b => FitsUnit b.minU b.maxU ∧ FitsUnit b.minV b.maxV) (fun _ => unitBox) := by
    rintro s b ⟨si, sst, sw, su, sv, sdu, sdv⟩ ⟨⟨f1, f2, f3⟩, f4, f5, f6⟩
    obtain ⟨Y, -, -⟩ := (RationalBezierPatch.init_iff _ _).1 si
    obtain ⟨m, n, hwb, hwh⟩ := Y.wf
    have hm : 3 ≤ m := by have := hwb.degU; omega
    have hn : 3 ≤ n := by have := hwb.degV; omega
    refine ⟨fun l => fallback_of (by simp [RationalBezierPatch.ops, su, sv]) hwb.degreeU hwb.degreeV
      hwh.numU hwh.numV (by omega) (by omega) (by omega) (by omega), ?_⟩
    obtain ⟨S, eS, P, hH⟩ := bezier_subpatch_hull he (init_hom si) (static_hom si sst)
      (by rw [Y.hom]; exact su) (by rw [Y.hom]; exact sv) (le_max_right _ _) f1 f2 f3
      (min_le_right _ _) (le_max_right _ _) f4 f5 f6 (min_le_right _ _)
    have pos : ∀ y ∈ S.grid, 0 < y.2 := hull_pos hH (hom_grid_pos si sw)
    obtain ⟨A, eA, T, eh⟩ := RationalBezierPatch.ofHomogeneous_eq P.1 P.2.2.2.1
      (fun q hq => (pos q hq).ne')
    have Ai : A.init = ok A := (RationalBezierPatch.init_iff _ _).2 ⟨T, rfl, rfl⟩
    have hwS := wf_of_init P.1
    have dS : S.degU.toNat = m ∧ S.degV.toNat = n := by
      rw [P.2.1, P.2.2.1, hwh.degU, hwh.degV]; simp
    rw [dS.1, dS.2] at hwS
    obtain ⟨m', n', hA, hAh⟩ := T.wf
    have hmn : m' = m ∧ n' = n := by
      have h1 := hAh.degU
      have h2 := hAh.degV
      rw [eh, hwS.degU] at h1
      rw [eh, hwS.degV] at h2
      omega
    obtain ⟨rfl, rfl⟩ := hmn
    obtain ⟨i, j, ec, H⟩ := PatchBase.findClosest_spec big (sqNorm : V → K) (m := m' + 1)
      (n := n' + 1) (get := A.getControlPoint) (P := fun i j => A.base.pts n' i j) (by
        intro i hi j hj
        have := hA.getControlPoint hi hj
        unfold RationalBezierPatch.getControlPoint RationalBezierPatch.linearIndex
        unfold BezierPatch.getControlPoint at this
        rw [← this]
        unfold BezierPatch.linearIndex
        rw [hA.numV, hAh.numV]) x
    have hij : i ≤ m' ∧ j ≤ n' := by
      rcases H with ⟨hi, hj, _⟩ | ⟨rfl, rfl, _⟩ <;> omega
    obtain ⟨d, e1, e2, e3, e4⟩ := round_unit
      (o := RationalBezierPatch.ops eps big tol small x nu nv) (s := s)
      (r := A) (b := b) hwh hwS rfl rfl rfl rfl rfl rfl
      (fun _ _ => by simp only [RationalBezierPatch.ops]; rw [eh]) (by omega) (by omega)
    refine ⟨_, A, (i, j), _, d, e1, ?_, ?_, e2, e3, ⟨Ai, ?_, ?_, ?_, ?_, ?_, ?_⟩, ?_⟩
    · simp only [RationalBezierPatch.ops, RationalBezierPatch.subpatch]
      rw [eS, ok_bind, eA]
    · simp only [RationalBezierPatch.ops]
      rw [eh, hwS.numU, ok_bind, hwS.numV, ok_bind, ec]
    · have := P.2.2.2.1
      rw [← eh, T.hom] at this
      exact this
    · intro y hy
      have : y ∈ A.hom.grid.map Prod.snd := by rw [T.hom, map_snd_homog T.len]; exact hy
      obtain ⟨q, hq, rfl⟩ := List.mem_map.1 this
      exact pos q (eh ▸ hq)
    · have := P.2.2.2.2.1
      rw [← eh, T.hom] at this
      exact this
    · have := P.2.2.2.2.2
      rw [← eh, T.hom] at this
      exact this
    · have := hA.degU; omega
    · have := hA.degV; omega
    · rw [e4]
      exact ⟨fitsUnit_next (by omega) hij.1, fitsUnit_next (by omega) hij.2⟩
  obtain ⟨r, e⟩ := unitSearch_runs R level (s := p) (b := b) ⟨h, hs, hw, hpu, hpv, hdu, hdv⟩
    ⟨fits hb.1 hu.1 hu.2, fits hb.2 hv.1 hv.2⟩
  exact ⟨r, e, C76_rational_bezier_in_box hb e⟩

end NS.Props
