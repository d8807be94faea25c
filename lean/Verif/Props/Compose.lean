import Verif.Props.Unique

/-!
# C92: editing operations compose

Splitting, restricting, elevating, inserting knots and converting can be combined in any order that
describes the same curve; the resulting objects have the same control points, not only the same
values.
-/

set_option linter.unusedSectionVars false

namespace NS.Props

open Outcome Spec Finset

variable {K V : Type} [Field K] [LinearOrder K] [IsStrictOrderedRing K] [FloorRing K]
  [AddCommGroup V] [Module K V]

/-! ### Bézier curves -/

theorem unit_infinite : (Set.Ico (0 : K) 1).Infinite := Set.Ico_infinite zero_lt_one

/-- `subcurve` in terms of the points of the curve (any flag). -/
theorem subcurve_points (c : Bezier V) (hc : c.ctrl ≠ []) {a b : K} (h0 : 0 ≤ a) (h1 : a ≤ b)
    (h2 : b ≤ 1) :
    ∃ S, Bezier.subcurve c a b = ok S ∧ S.periodic = false ∧ S.ctrl.length = c.ctrl.length ∧
      ∀ s, bezierPoint S.ctrl s = bezierPoint c.ctrl (a + (b - a) * s) := by
  obtain ⟨n, P, e⟩ := Bezier.exists_arr c.ctrl hc
  have ec : c = { ctrl := arr (n + 1) P, periodic := c.periodic } := by
    cases c; simp_all
  have hS := Bezier.subcurve_arr n P a b c.periodic h1 h0 h2
  rw [← ec] at hS
  refine ⟨_, hS, rfl, by simp [e], fun s => ?_⟩
  rw [e, Bezier.arr_bezierPoint, Bezier.arr_bezierPoint, umb_lin_pow, umb_compose P (lin a) (lin b) n s,
    lin_affine]
  congr 2
  ring_nf

theorem ctrl_ne_nil {A B : Bezier V} (h : A.ctrl.length = B.ctrl.length) (hB : B.ctrl ≠ []) :
    A.ctrl ≠ [] := by
  intro hA
  rw [hA] at h
  exact hB (by simpa using h.symm)

theorem bezier_ext {A B : Bezier V} (hA : A.periodic = false) (hB : B.periodic = false)
    (hl : A.ctrl.length = B.ctrl.length)
    (h : ∀ t : K, bezierPoint A.ctrl t = bezierPoint B.ctrl t) : A = B := by
  have := bezierPoint_unique hl unit_infinite fun t _ => h t
  cases A
  cases B
  simp_all

/-- C92: a subcurve of a subcurve is the subcurve of the composed range. -/
theorem C92_subcurve_subcurve (c : Bezier V) (hc : c.ctrl ≠ []) {a b s t : K}
    (h0 : 0 ≤ a) (h1 : a ≤ b) (h2 : b ≤ 1) (g0 : 0 ≤ s) (g1 : s ≤ t) (g2 : t ≤ 1) :
    (Bezier.subcurve c a b >>= fun d => Bezier.subcurve d s t)
      = Bezier.subcurve c (a + (b - a) * s) (a + (b - a) * t) := by
  have hba : 0 ≤ b - a := by linarith
  have k0 : 0 ≤ a + (b - a) * s := by positivity
  have k1 : a + (b - a) * s ≤ a + (b - a) * t := by
    have := mul_le_mul_of_nonneg_left g1 hba
    linarith
  have k2 : a + (b - a) * t ≤ 1 := by
    have := mul_le_mul_of_nonneg_left g2 hba
    linarith
  obtain ⟨S, eS, pS, lS, vS⟩ := subcurve_points c hc h0 h1 h2
  obtain ⟨T, eT, pT, lT, vT⟩ := subcurve_points S (ctrl_ne_nil lS hc) g0 g1 g2
  obtain ⟨U, eU, pU, lU, vU⟩ := subcurve_points c hc k0 k1 k2
  rw [eS, ok_bind, eT, eU]
  refine congrArg ok (bezier_ext (K := K) pT pU (by omega) fun x => ?_)
  rw [vT, vS, vU]
  congr 1
  ring

/-- C92: the subcurve over the whole domain is the curve. -/
theorem C92_subcurve_full (c : Bezier V) (hc : c.ctrl ≠ []) (hp : c.periodic = false) :
    Bezier.subcurve c (0 : K) 1 = ok c := by
  obtain ⟨S, eS, pS, lS, vS⟩ := subcurve_points (K := K) c hc le_rfl zero_le_one le_rfl
  rw [eS]
  refine congrArg ok (bezier_ext (K := K) pS hp lS fun x => ?_)
  rw [vS]
  congr 1
  ring

/-- C92: `split` and `subcurve` agree. -/
theorem C92_split_subcurve (c : Bezier V) (hc : c.ctrl ≠ []) {t : K} (h0 : 0 < t) (h1 : t < 1) :
    Bezier.split c t = (do
      let A ← Bezier.subcurve c 0 t
      let B ← Bezier.subcurve c t 1
      pure [A, B]) := by
  obtain ⟨n, P, e⟩ := Bezier.exists_arr c.ctrl hc
  have ec : c = { ctrl := arr (n + 1) P, periodic := c.periodic } := by
    cases c; simp_all
  rw [ec, Bezier.split_arr _ P _ t h0 h1, Bezier.subcurve_arr n P 0 t _ h0.le le_rfl h1.le,
    Bezier.subcurve_arr n P t 1 _ h1.le h0.le le_rfl, ok_bind, ok_bind, lin_zero, lin_one]
  simp only [one_pow, one_mul, Nat.add_sub_cancel]
  rfl

theorem elevate_points (c : Bezier V) (hc : c.ctrl ≠ []) :
    ∃ E, Bezier.elevateDegree K c = ok E ∧ E.periodic = c.periodic ∧
      E.ctrl.length = c.ctrl.length + 1 ∧ ∀ t : K, bezierPoint E.ctrl t = bezierPoint c.ctrl t := by
  obtain ⟨n, P, e⟩ := Bezier.exists_arr c.ctrl hc
  have ec : c = { ctrl := arr (n + 1) P, periodic := c.periodic } := by
    cases c; simp_all
  have hE := Bezier.elevateDegree_arr (K := K) n P c.periodic
  rw [← ec] at hE
  refine ⟨_, hE, rfl, by simp [e], fun t => ?_⟩
  rw [e, Bezier.arr_bezierPoint, Bezier.arr_bezierPoint, umb_lin_pow, umb_lin_pow,
    Bezier.elevate_sum]

/-- C92: elevation and restriction commute. -/
theorem C92_elevate_subcurve (c : Bezier V) (hc : c.ctrl ≠ []) {a b : K} (h0 : 0 ≤ a) (h1 : a ≤ b)
    (h2 : b ≤ 1) :
    (Bezier.elevateDegree K c >>= fun d => Bezier.subcurve d a b)
      = (Bezier.subcurve c a b >>= fun d => Bezier.elevateDegree K d) := by
  obtain ⟨E, eE, pE, lE, vE⟩ := elevate_points (K := K) c hc
  have hE : E.ctrl ≠ [] := by
    intro h
    rw [h] at lE
    simp at lE
  obtain ⟨S, eS, pS, lS, vS⟩ := subcurve_points c hc h0 h1 h2
  obtain ⟨F, eF, pF, lF, vF⟩ := elevate_points (K := K) S (ctrl_ne_nil lS hc)
  obtain ⟨T, eT, pT, lT, vT⟩ := subcurve_points E hE h0 h1 h2
  rw [eE, ok_bind, eT, eS, ok_bind, eF]
  refine congrArg ok (bezier_ext (K := K) pT (by rw [pF, pS]) (by omega) fun x => ?_)
  rw [vT, vE, vF, vS]

/-- C92: elevation and splitting commute. -/
theorem C92_elevate_split (c : Bezier V) (hc : c.ctrl ≠ []) {t : K} (h0 : 0 < t) (h1 : t < 1) :
    (Bezier.elevateDegree K c >>= fun d => Bezier.split d t)
      = (Bezier.split c t >>= fun l => l.mapM (Bezier.elevateDegree K)) := by
  have hA := C92_elevate_subcurve c hc le_rfl h0.le h1.le
  have hB := C92_elevate_subcurve c hc h0.le h1.le le_rfl
  obtain ⟨E, eE, pE, lE, vE⟩ := elevate_points (K := K) c hc
  have hE : E.ctrl ≠ [] := by
    intro h
    rw [h] at lE
    simp at lE
  obtain ⟨S, eS, -, lS, -⟩ := subcurve_points c hc le_rfl h0.le h1.le
  obtain ⟨T, eT, -, lT, -⟩ := subcurve_points c hc h0.le h1.le le_rfl
  rw [eE, ok_bind] at hA hB
  rw [eS, ok_bind] at hA
  rw [eT, ok_bind] at hB
  rw [eE, ok_bind, C92_split_subcurve E hE h0 h1, C92_split_subcurve c hc h0 h1, eS, ok_bind, eT,
    ok_bind, hA, hB, pure_eq, ok_bind]
  simp [List.mapM_cons]

/-- C92: three pieces do not depend on the order of the cuts. -/
theorem C92_split_order (c : Bezier V) (hc : c.ctrl ≠ []) {r s : K} (h0 : 0 < r) (h1 : r < s)
    (h2 : s < 1) :
    ∃ A B C L R, Bezier.split c s = ok [L, C] ∧ Bezier.split L (r / s) = ok [A, B] ∧
      Bezier.split c r = ok [A, R] ∧ Bezier.split R ((s - r) / (1 - r)) = ok [B, C] := by
  have hs : 0 < s := h0.trans h1
  have hr : 0 < 1 - r := by linarith
  have q0 : 0 < r / s := div_pos h0 hs
  have q1 : r / s < 1 := (div_lt_one hs).2 h1
  have w0 : 0 < (s - r) / (1 - r) := div_pos (by linarith) hr
  have w1 : (s - r) / (1 - r) < 1 := (div_lt_one hr).2 (by linarith)
  obtain ⟨L, eL, -, lL, -⟩ := subcurve_points c hc le_rfl hs.le h2.le
  obtain ⟨R, eR, -, lR, -⟩ := subcurve_points c hc h0.le (h1.trans h2).le le_rfl
  obtain ⟨A, eA, -⟩ := subcurve_points c hc le_rfl h0.le (h1.trans h2).le
  obtain ⟨B, eB, -⟩ := subcurve_points c hc h0.le h1.le h2.le
  obtain ⟨C, eC, -⟩ := subcurve_points c hc hs.le h2.le le_rfl
  refine ⟨A, B, C, L, R, ?_, ?_, ?_, ?_⟩
  · rw [C92_split_subcurve c hc hs h2, eL, ok_bind, eC]; rfl
  · have a1 := C92_subcurve_subcurve c hc le_rfl hs.le h2.le le_rfl q0.le q1.le
    have a2 := C92_subcurve_subcurve c hc le_rfl hs.le h2.le q0.le q1.le le_rfl
    have e1 : (0 : K) + (s - 0) * (r / s) = r := by field_simp; ring
    have e2 : (0 : K) + (s - 0) * 0 = 0 := by ring
    have e3 : (0 : K) + (s - 0) * 1 = s := by ring
    rw [eL, ok_bind, e1, e2, eA] at a1
    rw [eL, ok_bind, e1, e3, eB] at a2
    rw [C92_split_subcurve L (ctrl_ne_nil lL hc) q0 q1, a1, ok_bind, a2]; rfl
  · rw [C92_split_subcurve c hc h0 (h1.trans h2), eA, ok_bind, eR]; rfl
  · have a1 := C92_subcurve_subcurve c hc h0.le (h1.trans h2).le le_rfl le_rfl w0.le w1.le
    have a2 := C92_subcurve_subcurve c hc h0.le (h1.trans h2).le le_rfl w0.le w1.le le_rfl
    have e1 : r + (1 - r) * ((s - r) / (1 - r)) = s := by field_simp; ring
    have e2 : r + (1 - r) * 0 = r := by ring
    have e3 : r + (1 - r) * 1 = 1 := by ring
    rw [eR, ok_bind, e1, e2, eB] at a1
    rw [eR, ok_bind, e1, e3, eC] at a2
    rw [C92_split_subcurve R (ctrl_ne_nil lR hc) w0 w1, a1, ok_bind, a2]; rfl

/-! ### B-splines -/

theorem sorted_unique {l l' : List K} (hp : l.Perm l') (h : l.Pairwise (· ≤ ·))
    (h' : l'.Pairwise (· ≤ ·)) : l = l' :=
  hp.eq_of_pairwise (fun _ _ _ _ => le_antisymm) h h'

/-- Splines over the same knots that agree on the domain have the same seen control points. -/
theorem ctrl_of_points {a b : BSpline K V} {p : ℕ} (ha : BSpline.WellFormed a p)
    (hk : a.knots = b.knots) (hl : a.ctrl.length = b.ctrl.length)
    (h : ∀ x, knot a.knots p ≤ x → x ≤ knot a.knots a.ctrl.length →
      bsplinePoint p a.knots a.ctrl x = bsplinePoint p b.knots b.ctrl x) :
    ∀ i, Seen a.knots p a.ctrl.length i → a.ctrl.getD i 0 = b.ctrl.getD i 0 := by
  have hlen := ha.len
  rintro i ⟨k, h1, h2, h3, h4, h5⟩
  obtain ⟨hinf, hin⟩ := span_infinite (n := a.ctrl.length) h5 ha.sorted h2 (by omega)
  refine bsplinePoint_unique ha.sorted hlen hl h1 h2 hinf hin (fun t ht => ?_) i (by omega) h3
  conv_rhs => rw [hk]
  exact h t ((BSpline.knot_mono ha.sorted h1 (by omega)).trans ht.1.le)
    (ht.2.le.trans (BSpline.knot_mono ha.sorted (by omega) (by omega)))

/-- C92: two sequences of knot insertions that add the same knots, in any order and grouping, end
with the same knots and the same control points (those that matter to the curve at all). -/
theorem C92_insertion_order {eps : K} (heps : 0 ≤ eps) {c : BSpline K V} {p : ℕ}
    (hc : BSpline.WellFormed c p) {ops ops' : List (K × ℕ)}
    (ho : ∀ op ∈ ops, knot c.knots p < op.1 ∧ op.1 ≤ knot c.knots c.ctrl.length ∧ 1 ≤ op.2)
    (ho' : ∀ op ∈ ops', knot c.knots p < op.1 ∧ op.1 ≤ knot c.knots c.ctrl.length ∧ 1 ≤ op.2)
    (hperm : (ops.flatMap fun op => List.replicate op.2 op.1).Perm
      (ops'.flatMap fun op => List.replicate op.2 op.1)) {a b : BSpline K V}
    (ha : ops.foldlM (fun c op => c.insertKnot eps op.1 op.2) c = ok a)
    (hb : ops'.foldlM (fun c op => c.insertKnot eps op.1 op.2) c = ok b) :
    a.knots = b.knots ∧ a.ctrl.length = b.ctrl.length ∧ a.periodic = b.periodic ∧
      a.sdeg = b.sdeg ∧
      ∀ i, Seen a.knots p a.ctrl.length i → a.ctrl.getD i 0 = b.ctrl.getD i 0 := by
  rcases C17_sequence_partial heps ops hc ho with h | ⟨a', la, ea, pa, Sa⟩
  · rw [ha] at h; cases h
  rcases C17_sequence_partial heps ops' hc ho' with h | ⟨b', lb, eb, pb, Sb⟩
  · rw [hb] at h; cases h
  rw [ha] at ea
  rw [hb] at eb
  cases ea
  cases eb
  have hlab : la.Perm lb := pa.trans (hperm.trans pb.symm)
  have hk : a.knots = b.knots :=
    sorted_unique (Sa.knots.trans ((hlab.append_right _).trans Sb.knots.symm)) Sa.wf.sorted
      Sb.wf.sorted
  have hl : a.ctrl.length = b.ctrl.length := by rw [Sa.ctrl, Sb.ctrl, hlab.length_eq]
  refine ⟨hk, hl, by rw [Sa.periodic, Sb.periodic], by rw [Sa.sdeg, Sb.sdeg],
    ctrl_of_points Sa.wf hk hl fun x h1 h2 => ?_⟩
  rw [Sa.lower] at h1
  rw [Sa.upper] at h2
  rw [Sa.point x h1 h2, Sb.point x h1 h2]

/-- C92: if no control point of the result is hidden, the two sequences give the same object. -/
theorem C92_insertion_order_eq {eps : K} (heps : 0 ≤ eps) {c : BSpline K V} {p : ℕ}
    (hc : BSpline.WellFormed c p) {ops ops' : List (K × ℕ)}
    (ho : ∀ op ∈ ops, knot c.knots p < op.1 ∧ op.1 ≤ knot c.knots c.ctrl.length ∧ 1 ≤ op.2)
    (ho' : ∀ op ∈ ops', knot c.knots p < op.1 ∧ op.1 ≤ knot c.knots c.ctrl.length ∧ 1 ≤ op.2)
    (hperm : (ops.flatMap fun op => List.replicate op.2 op.1).Perm
      (ops'.flatMap fun op => List.replicate op.2 op.1)) {a b : BSpline K V}
    (ha : ops.foldlM (fun c op => c.insertKnot eps op.1 op.2) c = ok a)
    (hb : ops'.foldlM (fun c op => c.insertKnot eps op.1 op.2) c = ok b)
    (hseen : ∀ i < a.ctrl.length, Seen a.knots p a.ctrl.length i) : a = b := by
  obtain ⟨h1, h2, h3, h4, h5⟩ := C92_insertion_order heps hc ho ho' hperm ha hb
  have h6 : a.ctrl = b.ctrl := by
    rw [eq_arr a.ctrl (0 : V), eq_arr b.ctrl (0 : V), ← h2]
    unfold arr
    exact List.map_congr_left fun i hi => h5 i (hseen i (List.mem_range.1 hi))
  cases a
  cases b
  simp_all

/-- The pieces of two splines over the same breakpoints agree. -/
theorem pieces_eq {c d : BSpline K V} {p : ℕ} {tMax lo : K}
    (h : ∀ x, lo ≤ x → x < tMax → bsplinePoint p c.knots c.ctrl x = bsplinePoint p d.knots d.ctrl x)
    (hm : ∀ y, lo ≤ y → y ≤ tMax → (y ∈ c.knots ↔ y ∈ d.knots)) :
    ∀ (ss : List (Bezier V)) (bs : List K) (ss' : List (Bezier V)) (bs' : List K) (cur : K),
      lo ≤ cur → BSpline.Pieces tMax (BSpline.PieceOf c p) cur ss bs →
      BSpline.Pieces tMax (BSpline.PieceOf d p) cur ss' bs' → ss = ss' ∧ bs = bs'
  | [], [], [], [], _, _, _, _ => ⟨rfl, rfl⟩
  | [], _ :: _, _, _, _, _, H, _ => H.elim
  | _ :: _, [], _, _, _, _, H, _ => H.elim
  | _, _, [], _ :: _, _, _, _, H => H.elim
  | _, _, _ :: _, [], _, _, _, H => H.elim
  | [], [], s :: ss', b :: bs', cur, _, H, H' => by
    obtain ⟨g1, g2, g3⟩ := H'
    have := (pieces_index _ _ _ g3).2.2.2.1 b (by simp)
    have H : cur = tMax := H
    exact absurd (H ▸ g1) (not_lt.2 this)
  | s :: ss, b :: bs, [], [], cur, _, H, H' => by
    obtain ⟨g1, g2, g3⟩ := H
    have := (pieces_index _ _ _ g3).2.2.2.1 b (by simp)
    have H' : cur = tMax := H'
    exact absurd (H' ▸ g1) (not_lt.2 this)
  | s :: ss, b :: bs, s' :: ss', b' :: bs', cur, hlo, ⟨h1, h2, h3⟩, ⟨g1, g2, g3⟩ => by
    have kb := (pieces_index _ _ _ h3).2.2.2.1 b (by simp)
    have kb' := (pieces_index _ _ _ g3).2.2.2.1 b' (by simp)
    have hb : b = b' := by
      rcases lt_trichotomy b b' with e | e | e
      · exact absurd ⟨h1, e⟩ (g2.gap b ((hm b (hlo.trans h1.le) kb).1 h2.bmem))
      · exact e
      · exact absurd ⟨g1, e⟩ (h2.gap b' ((hm b' (hlo.trans g1.le) kb').2 g2.bmem))
    subst hb
    have hs : s = s' := by
      have hc : s.ctrl = s'.ctrl := by
        refine C91_bezier (K := K) (by rw [h2.len, g2.len]) unit_infinite (fun t ht => ht) fun t ht => ?_
        rw [h2.value t ht.1 ht.2.le (Or.inl ht.2), g2.value t ht.1 ht.2.le (Or.inl ht.2)]
        have e1 : 0 ≤ t * (b - cur) := mul_nonneg ht.1 (by linarith)
        have e2 : 0 < (1 - t) * (b - cur) := mul_pos (by linarith [ht.2]) (by linarith)
        rw [h _ (by linarith) (by linarith)]
      have hp : s.periodic = s'.periodic := by rw [h2.periodic, g2.periodic]
      cases s
      cases s'
      simp_all
    obtain ⟨i1, i2⟩ := pieces_eq h hm ss bs ss' bs' b (hlo.trans h1.le) h3 g3
    exact ⟨by rw [hs, i1], by rw [i2]⟩

/-- C92: `convert_to_Bezier` depends on the curve and its breakpoints only, not on the
multiplicities of the knots. -/
theorem C92_toBezier_congr {eps : K} (heps : 0 ≤ eps) {c d : BSpline K V} {p : ℕ}
    (hc : BSpline.WellFormed c p) (hd : BSpline.WellFormed d p)
    (hfc : BSpline.FirstSpan c p ∨ p ≤ c.knots.count (knot c.knots p))
    (hfd : BSpline.FirstSpan d p ∨ p ≤ d.knots.count (knot d.knots p))
    (hlo : knot c.knots p = knot d.knots p)
    (hhi : knot c.knots c.ctrl.length = knot d.knots d.ctrl.length)
    (hm : ∀ y, knot c.knots p ≤ y → y ≤ knot c.knots c.ctrl.length → (y ∈ c.knots ↔ y ∈ d.knots))
    (h : ∀ x, knot c.knots p ≤ x → x < knot c.knots c.ctrl.length →
      bsplinePoint p c.knots c.ctrl x = bsplinePoint p d.knots d.ctrl x) :
    c.toBezier eps = d.toBezier eps := by
  obtain ⟨ss, bs, e, P⟩ := BSpline.toBezier_spec heps hc hfc
  obtain ⟨ss', bs', e', P'⟩ := BSpline.toBezier_spec heps hd hfd
  rw [← hlo, ← hhi] at P'
  obtain ⟨h1, h2⟩ := pieces_eq h hm ss bs ss' bs' _ le_rfl P P'
  rw [e, e', h1, h2, hlo]

/-- Indices of the knots that do not exceed a value. -/
theorem knot_le_iff {u : List K} (hs : u.Pairwise (· ≤ ·)) {j : ℕ} (hj : j < u.length) (x : K) :
    knot u j ≤ x ↔ j < u.countP (· ≤ x) := by
  constructor
  · intro h
    have h1 : (u.take (j + 1)).countP (· ≤ x) = (u.take (j + 1)).length := by
      rw [List.countP_eq_length]
      intro y hy
      obtain ⟨i, hi, rfl⟩ := List.mem_iff_getElem.1 hy
      have hi' : i < j + 1 := by simp at hi; omega
      have := BSpline.knot_mono hs (i := i) (j := j) (by omega) hj
      rw [List.getElem_take]
      have e : knot u i = u[i]'(by omega) := by
        rw [knot, List.getD_eq_getElem?_getD, List.getElem?_eq_getElem (by omega), Option.getD_some]
      rw [← e]
      simpa using this.trans h
    have h2 := (List.take_sublist (j + 1) u).countP_le (p := fun y => decide (y ≤ x))
    rw [h1, List.length_take] at h2
    omega
  · intro h
    by_contra hno
    have h1 : (u.drop j).countP (· ≤ x) = 0 := by
      rw [List.countP_eq_zero]
      intro y hy
      obtain ⟨i, hi, rfl⟩ := List.mem_iff_getElem.1 hy
      have hi' : j + i < u.length := by simp at hi; omega
      have := BSpline.knot_mono hs (i := j) (j := j + i) (by omega) hi'
      rw [List.getElem_drop]
      have e : knot u (j + i) = u[j + i]'hi' := by
        rw [knot, List.getD_eq_getElem?_getD, List.getElem?_eq_getElem hi', Option.getD_some]
      rw [← e]
      simpa using lt_of_lt_of_le (not_le.1 hno) this
    have h2 : u.countP (· ≤ x) = (u.take j).countP (· ≤ x) + (u.drop j).countP (· ≤ x) := by
      rw [← List.countP_append, List.take_append_drop]
    have h3 := List.countP_le_length (p := fun y => decide (y ≤ x)) (l := u.take j)
    rw [List.length_take] at h3
    omega

/-- Insertions above the lower bound keep the first span non-empty. -/
theorem SameCurve.first {c d : BSpline K V} {p : ℕ} {added : List K} (S : SameCurve c d p added)
    (hc : BSpline.WellFormed c p) (hf : BSpline.FirstSpan c p)
    (ha : ∀ y ∈ added, knot c.knots p < y) : BSpline.FirstSpan d p := by
  have hl := hc.len
  have hl' := S.wf.len
  have hcl := hc.ctrl
  have hcl' := S.wf.ctrl
  unfold BSpline.FirstSpan at hf ⊢
  by_contra hno
  have hno := not_lt.1 hno
  rw [S.lower, knot_le_iff S.wf.sorted (by omega), S.knots.countP_eq, List.countP_append,
    List.countP_eq_zero.2 (fun y hy => by simpa using ha y hy), zero_add,
    ← knot_le_iff hc.sorted (by omega)] at hno
  exact absurd hf (not_lt.2 hno)

/-- C92: inserting further copies of interior knots first does not change the Bézier curves that
`convert_to_Bezier` returns. -/
theorem C92_insert_toBezier {eps : K} (heps : 0 ≤ eps) {c : BSpline K V} {p : ℕ}
    (hc : BSpline.WellFormed c p) (hf : BSpline.FirstSpan c p)
    {t : K} (h1 : knot c.knots p < t) (h2 : t < knot c.knots c.ctrl.length) (ht : t ∈ c.knots)
    {m : ℕ} {d : BSpline K V} (hd : c.insertKnot eps t m = ok d) (hm : 1 ≤ m) :
    d.toBezier eps = c.toBezier eps := by
  by_cases hmul : m + (if t = knot c.knots c.ctrl.length then 0 else c.knots.count t) ≤ p
  · obtain ⟨d', e, S⟩ := C17_insert_knot_partial heps hc (Or.inr h1) h1.le h2.le hm hmul
    rw [hd] at e
    cases e
    have hmem : ∀ y, y ∈ d.knots ↔ y ∈ c.knots := by
      intro y
      rw [S.knots.mem_iff, List.mem_append, List.mem_replicate]
      constructor
      · rintro (⟨-, rfl⟩ | h)
        · exact ht
        · exact h
      · exact Or.inr
    have hfd : BSpline.FirstSpan d p := S.first hc hf fun y hy => by
      rw [(List.mem_replicate.1 hy).2]; exact h1
    exact (C92_toBezier_congr heps hc S.wf (Or.inl hf) (Or.inl hfd) S.lower.symm S.upper.symm
      (fun y _ _ => (hmem y).symm) fun x a b => (S.point x a b.le).symm).symm
  · rw [C17_bound heps hc (Or.inr h1) h1.le h2.le hm (not_le.1 hmul)] at hd
    cases hd

/-- C92: a Bézier curve converted to a B-spline and back is unchanged. -/
theorem C92_ofBezier_toBezier {eps : K} (heps : 0 ≤ eps) (c : Bezier V) {p : ℕ}
    (hp : c.ctrl.length = p + 1) (hper : c.periodic = false) :
    (BSpline.ofBezier K c).toBezier eps = ok ([c], [0, 1]) := by
  obtain ⟨hwf, -, hlo, hhi, hev⟩ := C21_ofBezier (K := K) c hp
  rw [BSpline.lower_eq hwf] at hlo
  rw [BSpline.upper_eq hwf] at hhi
  have hlo := ok.inj hlo
  have hhi := ok.inj hhi
  have hfirst := BSpline.ofBezier_first (K := K) c hp
  have hmem : ∀ y ∈ (BSpline.ofBezier K c).knots, y = 0 ∨ y = 1 := by
    intro y hy
    rcases List.mem_append.1 hy with h | h
    · exact Or.inl (List.eq_of_mem_replicate h)
    · exact Or.inr (List.eq_of_mem_replicate h)
  obtain ⟨ss, bs, e, P⟩ := BSpline.toBezier_spec heps hwf (Or.inl hfirst)
  rw [hlo, hhi] at P
  rw [hlo] at e
  rw [e]
  have hlast : ∀ ss bs, BSpline.Pieces (1 : K) (BSpline.PieceOf (BSpline.ofBezier K c) p) 1 ss bs →
      ss = [] ∧ bs = [] := by
    intro ss bs H
    match ss, bs, H with
    | [], [], _ => exact ⟨rfl, rfl⟩
    | s :: ss, b :: bs, ⟨h1, _, h3⟩ =>
      exact absurd h1 (not_lt.2 ((pieces_index _ _ _ h3).2.2.2.1 b (by simp)))
  match ss, bs, P with
  | [], [], H => exact absurd H (zero_ne_one (α := K))
  | s :: ss, b :: bs, ⟨h1, h2, h3⟩ =>
    have hb : b = 1 := (hmem b h2.bmem).resolve_left h1.ne'
    subst hb
    obtain ⟨rfl, rfl⟩ := hlast ss bs h3
    have hs : s = c := by
      have hctrl : s.ctrl = c.ctrl := by
        refine C91_bezier (K := K) (by rw [h2.len, hp]) unit_infinite (fun t ht => ht) fun t ht => ?_
        rw [h2.value t ht.1 ht.2.le (Or.inl ht.2)]
        have e1 : (1 - t) * 0 + t * 1 = t := by ring
        rw [e1, ← BSpline.evaluate_eq hwf (BSpline.ofBezier_wide c hp)
          (BSpline.wrap_nonperiodic rfl t) (Or.inl hfirst) (by rw [hlo]; exact ht.1)
          (by rw [hhi]; exact ht.2.le), hev]
        cases c
        simp_all
      have hp := h2.periodic
      cases s
      cases c
      simp_all
    rw [hs]

/-! ### Witnesses -/

example : (Bezier.subcurve ({ ctrl := [0, 1, 3, 2] } : Bezier ℚ) (1 / 4 : ℚ) (3 / 4) >>= fun d =>
      Bezier.subcurve d (1 / 2 : ℚ) 1)
    = Bezier.subcurve ({ ctrl := [0, 1, 3, 2] } : Bezier ℚ) (1 / 2 : ℚ) (3 / 4) := by
  have := C92_subcurve_subcurve ({ ctrl := [0, 1, 3, 2] } : Bezier ℚ) (by decide) (a := (1 / 4 : ℚ))
    (b := 3 / 4) (s := 1 / 2) (t := 1) (by norm_num) (by norm_num) (by norm_num) (by norm_num)
    (by norm_num) (by norm_num)
  norm_num at this
  exact this

/-- A quadratic with a double knot after three insertions. -/
def exInserted : BSpline ℚ ℚ :=
  { ctrl := [0, 1 / 2, 5 / 4, 2, 3, 5 / 2, 7 / 2, 5],
    knots := [0, 0, 0, 1 / 4, 1 / 4, 1 / 2, 1 / 2, 3 / 4, 1, 1, 1] }

/-- Both orders succeed, and no control point of the result is hidden. -/
example (b : BSpline ℚ ℚ) (hb : ([(3 / 4, 1), (1 / 4, 2)] : List (ℚ × ℕ)).foldlM
      (fun c op => c.insertKnot 0 op.1 op.2) exSpline = ok b) : exInserted = b := by
  refine C92_insertion_order_eq le_rfl exSpline_wf (ops := [(1 / 4, 1), (3 / 4, 1), (1 / 4, 1)])
    (by decide +kernel) (by decide +kernel) (by decide +kernel) (by decide +kernel) hb ?_
  intro i hi
  refine (C91_seen_iff (by decide +kernel) (by decide) hi).2 ?_
  revert hi
  revert i
  decide +kernel

example : ([(3 / 4, 1), (1 / 4, 2)] : List (ℚ × ℕ)).foldlM
    (fun c op => c.insertKnot 0 op.1 op.2) exSpline = ok exInserted := by decide +kernel

end NS.Props
