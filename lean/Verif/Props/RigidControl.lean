import Verif.Proof.SubpatchMap
import Verif.Props.Rigid
import Verif.Props.ControlSearch
import Verif.Props.ControlSearchBezier

/-!
# The searches guided by control points do not depend on the position of the patch (C110)
-/

set_option linter.unusedSectionVars false
set_option linter.unusedVariables false

namespace NS.Props

open Outcome ControlSearch Spec
open BSpline (HullOf)

section Generic

variable {K α β : Type} [Field K] [LinearOrder K] [IsStrictOrderedRing K] [FloorRing K]

/-- Two classes whose members answer alike on related objects. -/
structure SameOps (R : α → β → Prop) (o : Ops K α) (o' : Ops K β) : Prop where
  periodic : ∀ s s', R s s' → o'.periodic s' = o.periodic s
  degreeU : ∀ s s', R s s' → o'.degreeU s' = o.degreeU s
  degreeV : ∀ s s', R s s' → o'.degreeV s' = o.degreeV s
  numU : ∀ s s', R s s' → o'.numU s' = o.numU s
  numV : ∀ s s', R s s' → o'.numV s' = o.numV s
  lowerU : ∀ s s', R s s' → o'.lowerU s' = o.lowerU s
  upperU : ∀ s s', R s s' → o'.upperU s' = o.upperU s
  lowerV : ∀ s s', R s s' → o'.lowerV s' = o.lowerV s
  upperV : ∀ s s', R s s' → o'.upperV s' = o.upperV s
  closest : ∀ s s', R s s' → o'.closest s' = o.closest s
  preimage : ∀ s s', R s s' → ∀ i j, o'.preimage s' i j = o.preimage s i j
  base : ∀ s s', R s s' → ∀ l b, o'.base s' l b = o.base s l b
  subpatch : ∀ s s', R s s' → ∀ low b t, fallback o low s = ok none → trim o s b = ok t →
    ORel R (o.subpatch s t) (o'.subpatch s' t)

variable {R : α → β → Prop} {o : Ops K α} {o' : Ops K β}

theorem SameOps.fallback (h : SameOps R o o') {s : α} {s' : β} (r : R s s') (low : ℕ) :
    ControlSearch.fallback o' low s' = ControlSearch.fallback o low s := by
  unfold ControlSearch.fallback
  rw [h.periodic _ _ r, h.degreeU _ _ r, h.degreeV _ _ r, h.numU _ _ r, h.numV _ _ r]

theorem SameOps.trim (h : SameOps R o o') {s : α} {s' : β} (r : R s s') (b : Box K) :
    ControlSearch.trim o' s' b = ControlSearch.trim o s b := by
  unfold ControlSearch.trim
  rw [h.lowerU _ _ r, h.upperU _ _ r, h.lowerV _ _ r, h.upperV _ _ r]

theorem SameOps.neighbours (h : SameOps R o o') {s q : α} {s' q' : β} (r : R s s') (r' : R q q') (i j : ℕ) :
    ControlSearch.neighbours o' s' q' i j = ControlSearch.neighbours o s q i j := by
  unfold ControlSearch.neighbours
  simp only [h.numU _ _ r, h.numV _ _ r, h.preimage _ _ r']

theorem bind_same {γ δ : Type} (x : Outcome γ) {g g' : γ → Outcome δ} (h : ∀ a, x = ok a → g a = g' a) :
    (x >>= g) = (x >>= g') := by
  cases x with
  | ok a => exact h a rfl
  | throw e => rfl
  | ub => rfl

theorem ORel.bind_eq {γ : Type} {x : Outcome α} {y : Outcome β} {g : α → Outcome γ} {g' : β → Outcome γ}
    (h : ORel R x y) (hg : ∀ a b, R a b → g' b = g a) : (y >>= g') = (x >>= g) := by
  cases x <;> cases y <;> simp only [ORel] at h
  · exact hg _ _ h
  · subst h; rfl
  · rfl

theorem SameOps.unitSearch (h : SameOps R o o') (level : ℕ) {s : α} {s' : β} (r : R s s') (b : Box K) :
    ControlSearch.unitSearch o' level s' b = ControlSearch.unitSearch o level s b := by
  induction level generalizing s s' b with
  | zero =>
    unfold ControlSearch.unitSearch
    rw [h.fallback r]
    refine bind_same _ fun f hf => ?_
    cases f with
    | some l => exact h.base _ _ r l b
    | none =>
      dsimp only
      rw [h.trim r]
      refine bind_same _ fun t ht => ORel.bind_eq (h.subpatch _ _ r _ b t hf ht) fun q q' r' => ?_
      simp only [h.closest _ _ r', h.preimage _ _ r']
  | succ level ih =>
    unfold ControlSearch.unitSearch
    rw [h.fallback r]
    refine bind_same _ fun f hf => ?_
    cases f with
    | some l => exact h.base _ _ r l b
    | none =>
      dsimp only
      rw [h.trim r]
      refine bind_same _ fun t ht => ORel.bind_eq (h.subpatch _ _ r _ b t hf ht) fun q q' r' => ?_
      simp only [h.closest _ _ r', h.neighbours r r', ih r']

theorem SameOps.knotSearch (h : SameOps R o o') (low : ℕ → ℕ) (level : ℕ) {s : α} {s' : β} (r : R s s') (b : Box K) :
    ControlSearch.knotSearch o' low level s' b = ControlSearch.knotSearch o low level s b := by
  induction level generalizing s s' b with
  | zero =>
    unfold ControlSearch.knotSearch
    rw [h.fallback r]
    refine bind_same _ fun f hf => ?_
    cases f with
    | some l => exact h.base _ _ r l b
    | none =>
      dsimp only
      rw [h.trim r]
      refine bind_same _ fun t ht => ORel.bind_eq (h.subpatch _ _ r _ b t hf ht) fun q q' r' => ?_
      simp only [h.closest _ _ r', h.preimage _ _ r']
  | succ level ih =>
    unfold ControlSearch.knotSearch
    rw [h.fallback r]
    refine bind_same _ fun f hf => ?_
    cases f with
    | some l => exact h.base _ _ r l b
    | none =>
      dsimp only
      rw [h.trim r]
      refine bind_same _ fun t ht => ORel.bind_eq (h.subpatch _ _ r _ b t hf ht) fun q q' r' => ?_
      simp only [h.closest _ _ r', h.neighbours r r', ih r']

/-- What the tests passed say about the patch. -/
theorem fallback_none {low : ℕ} {s : α} (h : ControlSearch.fallback o low s = ok none) :
    o.periodic s = false ∧ (∃ d, o.degreeU s = ok d ∧ 2 ≤ d) ∧ ∃ d, o.degreeV s = ok d ∧ 2 ≤ d := by
  unfold ControlSearch.fallback at h
  split_ifs at h with h1
  · simp at h
  rw [bind_eq_ok] at h
  obtain ⟨d, e, h⟩ := h
  split_ifs at h with h2
  · simp at h
  rw [bind_eq_ok] at h
  obtain ⟨d', e', h⟩ := h
  split_ifs at h with h3
  · simp at h
  exact ⟨by simpa using h1, ⟨d, e, by omega⟩, d', e', by omega⟩

end Generic

section Classes

variable {K V W : Type} [Field K] [LinearOrder K] [IsStrictOrderedRing K] [FloorRing K]
  [AddCommGroup V] [Module K V] [AddCommGroup W] [Module K W]

/-- Points as homogeneous points of weight one. -/
def lift (K V : Type) [Field K] [AddCommGroup V] [Module K V] (x : V) : V × K := (x, 1)

/-- The linear map that does to `lift x` what the affine map does to `x`. -/
def drop (f : V →ᵃ[K] W) : (V × K) →ₗ[K] W := (LinearMap.fst K W K).comp (homMap f)

theorem drop_of_one (f : V →ᵃ[K] W) {x : V × K} (h : x.2 = 1) : drop f x = f x.1 := by
  change f.linear x.1 + x.2 • f 0 = _
  rw [h, one_smul, ← affine_eq]

theorem map_drop (f : V →ᵃ[K] W) (l : List (V × K)) (h : ∀ x ∈ l, x.2 = 1) :
    l.map (drop f) = (l.map (LinearMap.fst K V K)).map f := by
  rw [List.map_map]
  exact List.map_congr_left fun x hx => drop_of_one f (h x hx)

theorem map_drop_lift (f : V →ᵃ[K] W) (l : List V) : (l.map (lift K V)).map (drop f) = l.map f := by
  rw [List.map_map]
  exact List.map_congr_left fun x _ => drop_of_one f rfl

theorem map_fst_lift (l : List V) : (l.map (lift K V)).map (LinearMap.fst K V K) = l := by
  rw [List.map_map]
  conv_rhs => rw [← List.map_id l]
  exact List.map_congr_left fun x _ => rfl

theorem hull_one {l l' : List (V × K)} (h : HullOf K l l') (h1 : ∀ x ∈ l, x.2 = 1) : ∀ x ∈ l', x.2 = 1 := by
  refine h {x | x.2 = 1} ?_ h1
  intro x hx y hy a b _ _ hab
  simp only [Set.mem_ofPred_eq] at hx hy ⊢
  simp [hx, hy, hab]

/-! ### Bézier patches -/

theorem cut_hull {p q r : BezierPatch V} {g : K → Outcome (List (BezierPatch V))} {u : K} {i : ℕ} (u0 : 0 ≤ u)
    (u1 : u ≤ 1) (hq : PieceOk p q ∧ HullOf K p.grid q.grid ∨ q = p)
    (hg : ∀ x, 0 < x → x < 1 → ∃ A B, g x = ok [A, B] ∧ (PieceOk p A ∧ HullOf K p.grid A.grid) ∧
      PieceOk p B ∧ HullOf K p.grid B.grid) (h : BezierPatch.cut g u i q = ok r) :
    PieceOk p r ∧ HullOf K p.grid r.grid ∨ r = p := by
  unfold BezierPatch.cut at h
  split_ifs at h with he
  · rw [pure_eq, ok.injEq] at h
    exact h ▸ hq
  · simp only [BezierPatch.isEndpoint, Bool.or_eq_true, decide_eq_true_eq, not_or] at he
    obtain ⟨A, B, e, hA, hB⟩ := hg u (lt_of_le_of_ne u0 (Ne.symm he.1)) (lt_of_le_of_ne u1 he.2)
    rw [e, ok_bind] at h
    match i, h with
    | 0, h => rw [rd, ] at h; simp at h; exact Or.inl (h ▸ hA)
    | 1, h => rw [rd] at h; simp at h; exact Or.inl (h ▸ hB)
    | i + 2, h => simp [rd] at h

/-- The piece cut out of an initialised patch of fixed degrees. -/
theorem subpatch_piece {eps : K} (he : 0 ≤ eps) {p r : BezierPatch V} (h : p.init = ok ()) (hs : Static p)
    {a b c d : K} (a0 : 0 ≤ a) (b1 : b ≤ 1) (c0 : 0 ≤ c) (d1 : d ≤ 1)
    (e : p.subpatch eps a b c d = ok r) : PieceOk p r ∧ HullOf K p.grid r.grid ∨ r = p := by
  have o := bezier_subpatch_ordered (t := ⟨a, b, c, d⟩) e
  have ab : a ≤ b := o.1
  have cd : c ≤ d := o.2
  have gu : ∀ q, (PieceOk p q ∧ HullOf K p.grid q.grid ∨ q = p) → ∀ x : K, 0 < x → x < 1 →
      ∃ A B, q.splitU eps x = ok [A, B] ∧ (PieceOk p A ∧ HullOf K p.grid A.grid) ∧
        PieceOk p B ∧ HullOf K p.grid B.grid := by
    rintro q (⟨gq, hq⟩ | rfl) x x0 x1
    · obtain ⟨A, B, e, oA, oB, -⟩ := C30_split_u_partial he gq.1 gq.2.2.2.1 x0 x1
      obtain ⟨hA, hB⟩ := splitU_hull gq.1 he x0 x1 e
      exact ⟨A, B, e, ⟨pieceOk_trans gq oA, hq.trans hA⟩, pieceOk_trans gq oB, hq.trans hB⟩
    · obtain ⟨A, B, e, oA, oB, -⟩ := C30_split_u_partial he h hs x0 x1
      obtain ⟨hA, hB⟩ := splitU_hull h he x0 x1 e
      exact ⟨A, B, e, ⟨oA, hA⟩, oB, hB⟩
  have gv : ∀ q, (PieceOk p q ∧ HullOf K p.grid q.grid ∨ q = p) → ∀ x : K, 0 < x → x < 1 →
      ∃ A B, q.splitV eps x = ok [A, B] ∧ (PieceOk p A ∧ HullOf K p.grid A.grid) ∧
        PieceOk p B ∧ HullOf K p.grid B.grid := by
    rintro q (⟨gq, hq⟩ | rfl) x x0 x1
    · obtain ⟨A, B, e, oA, oB, -⟩ := C30_split_v_partial he gq.1 gq.2.2.2.1 x0 x1
      obtain ⟨hA, hB⟩ := splitV_hull gq.1 he x0 x1 e
      exact ⟨A, B, e, ⟨pieceOk_trans gq oA, hq.trans hA⟩, pieceOk_trans gq oB, hq.trans hB⟩
    · obtain ⟨A, B, e, oA, oB, -⟩ := C30_split_v_partial he h hs x0 x1
      obtain ⟨hA, hB⟩ := splitV_hull h he x0 x1 e
      exact ⟨A, B, e, ⟨oA, hA⟩, oB, hB⟩
  unfold BezierPatch.subpatch at e
  simp only [bind_eq_ok] at e
  obtain ⟨_, -, _, dm, _, -, _, dm', p1, e1, p2, e2, p3, e3, e4⟩ := e
  have h1 := cut_hull a0 (ab.trans b1) (Or.inr rfl) (gu p (Or.inr rfl)) e1
  have h2 := cut_hull (a0.trans ab) b1 h1 (gu p1 h1) e2
  have h3 := cut_hull c0 (cd.trans d1) h2 (gv p2 h2) e3
  exact cut_hull (c0.trans cd) d1 h3 (gv p3 h3) e4

theorem bezier_image_static {f : V → W} {p : BezierPatch V} (h : Static p) : Static (BezierPatch.image f p) := h

theorem bezier_image_init (f : V → W) (p : BezierPatch V) : (BezierPatch.image f p).init = p.init := by
  unfold BezierPatch.init
  rw [show (BezierPatch.image f p).grid.length = p.grid.length by simp [BezierPatch.image]]
  rfl

/-- Sub-patches of the moved patch are the moved sub-patches. -/
theorem bezier_subpatch_moved (f : V →ᵃ[K] W) {eps : K} (he : 0 ≤ eps) {p : BezierPatch V} (h : p.init = ok ())
    (hs : Static p) {a b c d : K} (a0 : 0 ≤ a) (b1 : b ≤ 1) (c0 : 0 ≤ c) (d1 : d ≤ 1) :
    ORel (fun s s' : BezierPatch _ => (s.init = ok () ∧ Static s) ∧ s' = BezierPatch.image f s)
      (p.subpatch eps a b c d) ((BezierPatch.image f p).subpatch eps a b c d) := by
  have e1 : BezierPatch.image (LinearMap.fst K V K) (BezierPatch.image (lift K V) p) = p := by
    simp only [BezierPatch.image, map_fst_lift]
  have e2 : BezierPatch.image (drop f) (BezierPatch.image (lift K V) p) = BezierPatch.image f p := by
    simp only [BezierPatch.image, map_drop_lift]
  have g1 := BezierPatch.subpatch_image (LinearMap.fst K V K) (BezierPatch.image (lift K V) p) eps a b c d
  have g2 := BezierPatch.subpatch_image (drop f) (BezierPatch.image (lift K V) p) eps a b c d
  rw [e1] at g1
  rw [e2] at g2
  have hi : (BezierPatch.image (lift K V) p).init = ok () := (bezier_image_init _ _).trans h
  have hs' : Static (BezierPatch.image (lift K V) p) := hs
  rw [g1, g2]
  cases e : (BezierPatch.image (lift K V) p).subpatch eps a b c d with
  | throw x => exact rfl
  | ub => exact trivial
  | ok r =>
    have one : ∀ x ∈ r.grid, x.2 = 1 := by
      have o : ∀ x ∈ (BezierPatch.image (lift K V) p).grid, x.2 = 1 := by
        intro x hx
        obtain ⟨y, -, rfl⟩ := List.mem_map.1 hx
        rfl
      rcases subpatch_piece he hi hs' a0 b1 c0 d1 e with ⟨-, hH⟩ | rfl
      · exact hull_one hH o
      · exact o
    have ok1 : r.init = ok () ∧ Static r := by
      rcases subpatch_piece he hi hs' a0 b1 c0 d1 e with ⟨P, -⟩ | rfl
      · exact ⟨P.1, P.2.2.2.1⟩
      · exact ⟨hi, hs'⟩
    refine ⟨⟨(bezier_image_init _ _).trans ok1.1, ok1.2⟩, ?_⟩
    change BezierPatch.image (drop f) r = _
    simp only [BezierPatch.image, map_drop f _ one]

/-! ### B-spline patches: sub-patches -/

theorem imageBP_valid {g : V → W} {p : BSplinePatch K V} {m n du dv : ℕ} (h : p.Valid m n du dv) :
    (imageBP g p).Valid m n du dv := ⟨h.u, h.v, by simpa [imageBP] using h.grid⟩

theorem imageBP_init_ok {g : V → W} {p : BSplinePatch K V} (h : p.init = ok p) :
    (imageBP g p).init = ok (imageBP g p) := by
  have := imageBP_init g p (imageBP g p).isoU (imageBP g p).isoV
  rw [h] at this
  exact this

theorem imageBP_ready {g : V → W} {p : BSplinePatch K V} {m n du dv : ℕ} (h : p.Ready m n du dv) :
    (imageBP g p).Ready m n du dv := (imageBP_valid h.toValid).ready (imageBP_init_ok (ready_init h))

/-- An initialised patch is determined by its data without the caches. -/
theorem init_ext {p q : BSplinePatch K W} (hp : p.init = ok p) (hq : q.init = ok q) (h1 : p.grid = q.grid)
    (h2 : p.knotsU = q.knotsU) (h3 : p.knotsV = q.knotsV) (h4 : p.degU = q.degU) (h5 : p.degV = q.degV)
    (h6 : p.perU = q.perU) (h7 : p.perV = q.perV) (h8 : p.sU = q.sU) (h9 : p.sV = q.sV) : p = q := by
  have e := imageBP_init id p q.isoU q.isoV
  have e' := imageBP_init id p p.isoU p.isoV
  rw [List.map_id] at e e'
  have : p.init = q.init := by
    rw [show q.init = BSplinePatch.init (BSplinePatch.mk p.grid p.knotsU p.knotsV p.degU p.degV p.perU p.perV p.sU p.sV
      q.isoU q.isoV) by rw [h1, h2, h3, h4, h5, h6, h7, h8, h9], e, ← e']
  rw [hp, hq, ok.injEq] at this
  exact this

theorem bspline_subpatch_moved (f : V →ᵃ[K] W) {eps : K} (he : 0 ≤ eps) {p : BSplinePatch K V} {m n du dv : ℕ}
    (h : p.Ready m n du dv) (hpu : p.perU = false) (hpv : p.perV = false) (hdu : 1 ≤ du) (hdv : 1 ≤ dv) {a b c d : K}
    (h1 : knot p.knotsU du ≤ a) (h3 : b ≤ knot p.knotsU m) (h4 : knot p.knotsV dv ≤ c) (h6 : d ≤ knot p.knotsV n) :
    ORel (fun s s' : BSplinePatch K _ => Current s ∧ s' = imageBP f s)
      (p.subpatch eps a b c d) ((imageBP f p).subpatch eps a b c d) := by
  have hl := imageBP_ready (g := lift K V) h
  have e1 : BSplinePatch.image (LinearMap.fst K V K) (imageBP (lift K V) p) = p := by
    refine init_ext ?_ (ready_init h) (map_fst_lift _) rfl rfl rfl rfl rfl rfl rfl rfl
    exact imageBP_init_ok (imageBP_init_ok (ready_init h))
  have e2 : BSplinePatch.image (drop f) (imageBP (lift K V) p) = imageBP f p := by
    refine init_ext ?_ (imageBP_init_ok (ready_init h)) (map_drop_lift f _) rfl rfl rfl rfl rfl rfl rfl rfl
    exact imageBP_init_ok (imageBP_init_ok (ready_init h))
  have g1 := BSplinePatch.subpatch_image (LinearMap.fst K V K) (imageBP (lift K V) p) eps a b c d
  have g2 := BSplinePatch.subpatch_image (drop f) (imageBP (lift K V) p) eps a b c d
  rw [e1] at g1
  rw [e2] at g2
  rw [g1, g2]
  cases e : (imageBP (lift K V) p).subpatch eps a b c d with
  | throw x => exact rfl
  | ub => exact trivial
  | ok r =>
    have o := bspline_subpatch_ordered (t := ⟨a, b, c, d⟩) e
    obtain ⟨q, eq, _, _, _, _, _, _, F, -⟩ := subpatch_flat he hl hpu hpv hdu hdv h1 o.1 h3 h4 o.2 h6
    rw [e, ok.injEq] at eq
    subst eq
    obtain ⟨m', n', P⟩ := F.piece
    have one : ∀ x ∈ r.grid, x.2 = 1 := by
      refine hull_one P.hull fun x hx => ?_
      obtain ⟨y, -, rfl⟩ := List.mem_map.1 hx
      rfl
    have hr := imageBP_ready (g := LinearMap.fst K V K) P.ready
    refine ⟨⟨_, _, _, _, hr⟩, ?_⟩
    refine init_ext (ready_init (imageBP_ready (g := drop f) P.ready)) (imageBP_init_ok (ready_init hr))
      (map_drop f _ one) rfl rfl rfl rfl rfl rfl rfl rfl

variable [Geom K V] [LawfulGeom K V] [Geom K W] [LawfulGeom K W] {f : V →ᵃ[K] W}

/-- The closest control point of moved control points. -/
theorem findClosest_moved (hA : Rigid f) (big : K) (m n : ℕ) {get : ℕ → ℕ → Outcome V} {get' : ℕ → ℕ → Outcome W}
    (h : ∀ i j, get' i j = f <$> get i j) (x : V) :
    PatchBase.findClosest big sqNorm m n get' (f x) = PatchBase.findClosest big sqNorm m n get x := by
  unfold PatchBase.findClosest
  refine congrArg (· >>= _) ?_
  refine loop_congr _ _ fun i _ q => loop_congr _ _ fun j _ q => ?_
  rw [h]
  refine bind_moved fun c _ => ?_
  simp only [diff_moved, hA.sq]

theorem bezier_ops_same (hA : Rigid f) {eps : K} (he : 0 ≤ eps) (big tol : K) (x : V) (nu nv : ℕ) :
    SameOps (fun s s' : BezierPatch _ => (s.init = ok () ∧ Static s) ∧ s' = BezierPatch.image f s)
      (BezierPatch.ops eps big tol x nu nv) (BezierPatch.ops eps big tol (f x) nu nv) where
  periodic := by rintro s _ ⟨-, rfl⟩; rfl
  degreeU := by rintro s _ ⟨-, rfl⟩; rfl
  degreeV := by rintro s _ ⟨-, rfl⟩; rfl
  numU := by rintro s _ ⟨-, rfl⟩; rfl
  numV := by rintro s _ ⟨-, rfl⟩; rfl
  lowerU _ _ _ := rfl
  upperU _ _ _ := rfl
  lowerV _ _ _ := rfl
  upperV _ _ _ := rfl
  closest := by
    rintro s _ ⟨-, rfl⟩
    refine bind_same (BezierPatch.numU s) fun m _ => bind_same (BezierPatch.numV s) fun n _ => ?_
    exact findClosest_moved hA big m n (fun i j => bind_map_same fun k _ => rd_map f _ _) x
  preimage := by rintro s _ ⟨-, rfl⟩ i j; rfl
  base := by
    rintro s _ ⟨-, rfl⟩ l b
    exact patchSearch_moved hA (C110_bezier_patch f s) big tol 1 1 x nu nv l _ _ _ _
  subpatch := by
    rintro s _ ⟨⟨h, hs⟩, rfl⟩ low b t - ht
    change ok _ = ok t at ht
    rw [ok.injEq] at ht
    subst ht
    exact bezier_subpatch_moved f he h hs (le_max_right _ _) (min_le_right _ _) (le_max_right _ _) (min_le_right _ _)

/-- **C110** (Bézier patches of fixed degrees): the search guided by control points and `inverse_evaluate` return the
same parameters for the moved patch and query. -/
theorem C110_bezier_patch_inverse (hA : Rigid f) {eps : K} (he : 0 ≤ eps) {p : BezierPatch V} (h : p.init = ok ())
    (hs : Static p) (big tol tol' : K) (x : V) (nu nv level : ℕ) (b : Box K) :
    BezierPatch.approxInverse eps big tol
        (BezierPatch.mk (p.grid.map f) p.degU p.degV p.perU p.perV p.sU p.sV) (f x) nu nv level b
      = p.approxInverse eps big tol x nu nv level b ∧
    BezierPatch.inverseEvaluate eps big tol tol'
        (BezierPatch.mk (p.grid.map f) p.degU p.degV p.perU p.perV p.sU p.sV) (f x) b
      = p.inverseEvaluate eps big tol tol' x b := by
  have key : ∀ nu nv level, BezierPatch.approxInverse eps big tol
        (BezierPatch.mk (p.grid.map f) p.degU p.degV p.perU p.perV p.sU p.sV) (f x) nu nv level b
      = p.approxInverse eps big tol x nu nv level b := fun nu nv level =>
    (bezier_ops_same hA he big tol x nu nv).unitSearch level ⟨⟨h, hs⟩, rfl⟩ b
  refine ⟨key nu nv level, ?_⟩
  unfold BezierPatch.inverseEvaluate
  refine bind_same p.numU fun m _ => bind_same p.numV fun n _ => ?_
  rw [key]
  refine bind_same _ fun uv _ => ?_
  exact C110_patch_from hA (C110_bezier_patch f p) big x _ _ _ _ _ _ _ _

/-! ### B-spline patches -/

theorem bspline_base_moved (hA : Rigid f) (big tol : K) (bad x : V) (nu nv : ℕ) (p : BSplinePatch K V) (l : ℕ)
    (b : Box K) : BSplinePatch.baseSearch big tol (f.linear bad) (f x) nu nv (imageBP f p) l b
      = BSplinePatch.baseSearch big tol bad x nu nv p l b := by
  unfold BSplinePatch.baseSearch
  refine bind_same p.lowerU fun ul _ => bind_same p.upperU fun uh _ => bind_same p.lowerV fun vl _ =>
    bind_same p.upperV fun vh _ => ?_
  exact patchSearch_moved hA (imageBP_moved f bad p) big tol _ _ x nu nv l _ _ _ _

theorem bspline_ops_same (hA : Rigid f) {eps : K} (he : 0 ≤ eps) (big tol : K) (bad x : V) (nu nv : ℕ) :
    SameOps (fun s s' : BSplinePatch K _ => Current s ∧ s' = imageBP f s)
      (BSplinePatch.ops eps big tol bad x nu nv) (BSplinePatch.ops eps big tol (f.linear bad) (f x) nu nv) where
  periodic := by rintro s _ ⟨-, rfl⟩; rfl
  degreeU := by rintro s _ ⟨-, rfl⟩; rfl
  degreeV := by rintro s _ ⟨-, rfl⟩; rfl
  numU := by rintro s _ ⟨-, rfl⟩; rfl
  numV := by rintro s _ ⟨-, rfl⟩; rfl
  lowerU := by rintro s _ ⟨-, rfl⟩; rfl
  upperU := by rintro s _ ⟨-, rfl⟩; rfl
  lowerV := by rintro s _ ⟨-, rfl⟩; rfl
  upperV := by rintro s _ ⟨-, rfl⟩; rfl
  closest := by
    rintro s _ ⟨-, rfl⟩
    refine bind_same (BSplinePatch.numU s) fun m _ => bind_same (BSplinePatch.numV s) fun n _ => ?_
    exact findClosest_moved hA big m n (fun i j => bind_map_same fun k _ => rd_map f _ _) x
  preimage := by rintro s _ ⟨-, rfl⟩ i j; rfl
  base := by
    rintro s _ ⟨-, rfl⟩ l b
    exact bspline_base_moved hA big tol bad x nu nv s l b
  subpatch := by
    rintro s _ ⟨⟨m, n, du, dv, h⟩, rfl⟩ low b t hf ht
    obtain ⟨hp, ⟨d1, e1, l1⟩, d2, e2, l2⟩ := fallback_none hf
    change s.degreeU = _ at e1
    change s.degreeV = _ at e2
    change (s.perU || s.perV) = false at hp
    rw [Bool.or_eq_false_iff] at hp
    rw [h.toValid.degreeU, ok.injEq] at e1
    rw [h.toValid.degreeV, ok.injEq] at e2
    unfold ControlSearch.trim at ht
    dsimp only [BSplinePatch.ops] at ht
    rw [h.toValid.lowerU, ok_bind, h.toValid.upperU, ok_bind, h.toValid.lowerV, ok_bind, h.toValid.upperV, ok_bind,
      pure_eq, ok.injEq] at ht
    subst ht
    exact bspline_subpatch_moved f he h hp.1 hp.2 (by omega) (by omega) (le_max_right _ _) (min_le_right _ _)
      (le_max_right _ _) (min_le_right _ _)

/-- **C110** (B-spline patches): the search guided by control points and `inverse_evaluate`. -/
theorem C110_bspline_patch_inverse (hA : Rigid f) {eps : K} (he : 0 ≤ eps) {p q : BSplinePatch K V} {m n du dv : ℕ}
    (hv : p.Valid m n du dv) (hq : p.init = ok q) (iu iv : List (BSpline K W)) :
    ∃ q', BSplinePatch.init (BSplinePatch.mk (p.grid.map f) p.knotsU p.knotsV p.degU p.degV p.perU p.perV p.sU p.sV
        iu iv) = ok q' ∧
      ∀ (big tol tol' : K) (bad x : V) (nu nv level : ℕ) (b : Box K),
        q'.approxInverse eps big tol (f.linear bad) (f x) nu nv level b
          = q.approxInverse eps big tol bad x nu nv level b ∧
        q'.inverseEvaluate eps big tol tol' (f.linear bad) (f x) b
          = q.inverseEvaluate eps big tol tol' bad x b := by
  refine ⟨imageBP f q, by rw [imageBP_init, hq]; rfl, fun big tol tol' bad x nu nv level b => ?_⟩
  have key : ∀ nu nv level, (imageBP f q).approxInverse eps big tol (f.linear bad) (f x) nu nv level b
      = q.approxInverse eps big tol bad x nu nv level b := fun nu nv level =>
    (bspline_ops_same hA he big tol bad x nu nv).knotSearch id level ⟨⟨_, _, _, _, hv.ready hq⟩, rfl⟩ b
  refine ⟨key nu nv level, ?_⟩
  unfold BSplinePatch.inverseEvaluate
  refine bind_same q.numU fun m _ => bind_same q.numV fun n _ => ?_
  rw [key]
  refine bind_same _ fun uv _ => ?_
  exact C110_patch_from hA (imageBP_moved f bad q) big x _ _ _ _ _ _ _ _

/-! ### Rational patches -/

theorem dehomogenize_moved (f : V →ᵃ[K] W) (Q : List (V × K)) :
    dehomogenize (Q.map (homMap f)) = List.map f <$> dehomogenize Q := by
  unfold dehomogenize
  by_cases h : ∀ q ∈ Q, q.2 ≠ 0
  · rw [assert_true h, assert_true (by
      intro q hq
      obtain ⟨y, hy, rfl⟩ := List.mem_map.1 hq
      exact h y hy)]
    simp only [ok_bind, pure_eq, map_ok, List.map_map]
    refine congrArg ok (List.map_congr_left fun x hx => ?_)
    have := quot0_affine f x
    unfold quot0 at this
    rw [assert_true (h x hx), assert_true (show (homMap f x).2 ≠ 0 from h x hx)] at this
    simpa using this
  · rw [assert_false h, assert_false (by
      intro h'
      exact h fun q hq => h' _ (List.mem_map.2 ⟨q, hq, rfl⟩))]
    rfl

theorem rational_validate_moved (f : V →ᵃ[K] W) (q : RationalBezierPatch K V) :
    RationalBezierPatch.validate (moveRP f q) = RationalBezierPatch.validate q := by
  simp [RationalBezierPatch.validate, BezierPatch.degreeU, BezierPatch.degreeV, moveRP]
  congr

theorem ofHomogeneous_moved (f : V →ᵃ[K] W) (h : BezierPatch (V × K)) :
    RationalBezierPatch.ofHomogeneous (BezierPatch.image (homMap f) h) = moveRP f <$> RationalBezierPatch.ofHomogeneous h := by
  unfold RationalBezierPatch.ofHomogeneous
  refine bind_map_rel (dehomogenize_moved f h.grid) fun g _ => ?_
  have e : (⟨⟨g.map f, h.sU, h.sV, h.perU, h.perV, h.sU, h.sV⟩, (h.grid.map (homMap f)).map Prod.snd,
      BezierPatch.image (homMap f) h⟩ : RationalBezierPatch K W)
      = moveRP f ⟨⟨g, h.sU, h.sV, h.perU, h.perV, h.sU, h.sV⟩, h.grid.map Prod.snd, h⟩ := by
    simp only [moveRP, BezierPatch.image, List.map_map]
    rfl
  change (do RationalBezierPatch.validate (⟨⟨g.map f, h.sU, h.sV, h.perU, h.perV, h.sU, h.sV⟩, (h.grid.map (homMap f)).map Prod.snd,
      BezierPatch.image (homMap f) h⟩ : RationalBezierPatch K W); pure _) = _
  rw [e, rational_validate_moved]
  exact bind_map_same fun _ _ => congrArg ok e

theorem rational_ops_same (hA : Rigid f) (eps big tol small : K) (x : V) (nu nv : ℕ) :
    SameOps (fun s s' : RationalBezierPatch K _ => s' = moveRP f s)
      (RationalBezierPatch.ops eps big tol small x nu nv) (RationalBezierPatch.ops eps big tol small (f x) nu nv) where
  periodic := by rintro s _ rfl; rfl
  degreeU := by rintro s _ rfl; rfl
  degreeV := by rintro s _ rfl; rfl
  numU := by rintro s _ rfl; rfl
  numV := by rintro s _ rfl; rfl
  lowerU _ _ _ := rfl
  upperU _ _ _ := rfl
  lowerV _ _ _ := rfl
  upperV _ _ _ := rfl
  closest := by
    rintro s _ rfl
    refine bind_same (BezierPatch.numU s.hom) fun m _ => bind_same (BezierPatch.numV s.hom) fun n _ => ?_
    exact findClosest_moved hA big m n (fun i j => bind_map_same fun k _ => rd_map f _ _) x
  preimage := by rintro s _ rfl i j; rfl
  base := by
    rintro s _ rfl l b
    exact patchSearch_moved hA (moveRP_moved f small s) big tol 1 1 x nu nv l _ _ _ _
  subpatch := by
    rintro s _ rfl low b t - -
    refine ORel.of_map ?_
    change RationalBezierPatch.subpatch eps _ _ _ _ _ = _ <$> RationalBezierPatch.subpatch eps _ _ _ _ _
    unfold RationalBezierPatch.subpatch
    exact bind_map_rel (BezierPatch.subpatch_image (homMap f) s.hom eps _ _ _ _) fun c _ => ofHomogeneous_moved f c

/-- **C110** (rational Bézier patches, of any degrees, weights and stored homogeneous patch). -/
theorem C110_rational_patch_inverse (hA : Rigid f) (q : RationalBezierPatch K V) (eps big tol tol' small : K) (x : V)
    (nu nv level : ℕ) (b : Box K) :
    (moveRP f q).approxInverse eps big tol small (f x) nu nv level b
      = q.approxInverse eps big tol small x nu nv level b ∧
    (moveRP f q).inverseEvaluate eps big tol tol' small (f x) b
      = q.inverseEvaluate eps big tol tol' small x b := by
  have key : ∀ nu nv level, (moveRP f q).approxInverse eps big tol small (f x) nu nv level b
      = q.approxInverse eps big tol small x nu nv level b := fun nu nv level =>
    (rational_ops_same hA eps big tol small x nu nv).unitSearch level rfl b
  refine ⟨key nu nv level, ?_⟩
  unfold RationalBezierPatch.inverseEvaluate
  refine bind_same q.hom.numU fun m _ => bind_same q.hom.numV fun n _ => ?_
  rw [key]
  refine bind_same _ fun uv _ => ?_
  exact C110_patch_from hA (moveRP_moved f small q) big x _ _ _ _ _ _ _ _

/-- `initialize` of the moved data gives the moved patch. -/
theorem C110_rational_patch_init (p : BezierPatch V) (w : List K) (h : BezierPatch (V × K))
    (h' : BezierPatch (W × K)) :
    RationalBezierPatch.init ⟨⟨p.grid.map f, p.degU, p.degV, p.perU, p.perV, p.sU, p.sV⟩, w, h'⟩
      = moveRP f <$> RationalBezierPatch.init ⟨p, w, h⟩ := by
  unfold RationalBezierPatch.init
  refine bind_map_rel (homogenize_affine f p.grid w) fun Q _ => ?_
  refine bind_map_same fun du _ => bind_map_same fun dv _ => ?_
  have hi : BezierPatch.init (⟨Q.map (homMap f), du, dv, p.perU, p.perV, p.sU, p.sV⟩ :
      BezierPatch (W × K)) = BezierPatch.init (⟨Q, du, dv, p.perU, p.perV, p.sU, p.sV⟩ :
      BezierPatch (V × K)) := by
    unfold BezierPatch.init
    simp only [List.length_map]
    rfl
  simp only [hi]
  exact bind_map_same fun _ _ => rfl

theorem nurbs_validate_moved (f : V →ᵃ[K] W) (q : NURBSPatch K V) :
    NURBSPatch.validate (moveNP f q) = NURBSPatch.validate q := by
  unfold NURBSPatch.validate
  simp only [moveNP, imageBP, List.length_map]
  congr

theorem nurbs_ofHomogeneous_moved (f : V →ᵃ[K] W) (h : BSplinePatch K (V × K)) :
    NURBSPatch.ofHomogeneous (BSplinePatch.image (homMap f) h) = moveNP f <$> NURBSPatch.ofHomogeneous h := by
  unfold NURBSPatch.ofHomogeneous
  refine bind_map_rel (dehomogenize_moved f h.grid) fun g _ => ?_
  refine bind_map_same fun du _ => bind_map_same fun dv _ => ?_
  have e : (⟨g.map f, (h.grid.map (homMap f)).map Prod.snd, h.knotsU, h.knotsV, du, dv, h.perU, h.perV, h.sU, h.sV,
      BSplinePatch.image (homMap f) h⟩ : NURBSPatch K W)
      = moveNP f ⟨g, h.grid.map Prod.snd, h.knotsU, h.knotsV, du, dv, h.perU, h.perV, h.sU, h.sV, h⟩ := by
    simp only [moveNP, BSplinePatch.image, imageBP, List.map_map]
    rfl
  change (do NURBSPatch.validate (⟨g.map f, (h.grid.map (homMap f)).map Prod.snd, h.knotsU, h.knotsV, du, dv, h.perU, h.perV, h.sU, h.sV,
      BSplinePatch.image (homMap f) h⟩ : NURBSPatch K W); pure _) = _
  rw [e, nurbs_validate_moved]
  exact bind_map_same fun _ _ => congrArg ok e

theorem nurbs_ops_same (hA : Rigid f) (eps big tol small : K) (bad : V × K) (x : V) (nu nv : ℕ) :
    SameOps (fun s s' : NURBSPatch K _ => s' = moveNP f s)
      (NURBSPatch.ops eps big tol small bad x nu nv)
      (NURBSPatch.ops eps big tol small (homMap f bad) (f x) nu nv) where
  periodic := by rintro s _ rfl; rfl
  degreeU := by rintro s _ rfl; rfl
  degreeV := by rintro s _ rfl; rfl
  numU := by rintro s _ rfl; rfl
  numV := by rintro s _ rfl; rfl
  lowerU := by rintro s _ rfl; rfl
  upperU := by rintro s _ rfl; rfl
  lowerV := by rintro s _ rfl; rfl
  upperV := by rintro s _ rfl; rfl
  closest := by
    rintro s _ rfl
    refine bind_same (BSplinePatch.numU s.hom) fun m _ => bind_same (BSplinePatch.numV s.hom) fun n _ => ?_
    exact findClosest_moved hA big m n (fun i j => bind_map_same fun k _ => rd_map f _ _) x
  preimage := by rintro s _ rfl i j; rfl
  base := by
    rintro s _ rfl l b
    refine bind_same s.hom.lowerU fun ul _ => bind_same s.hom.upperU fun uh _ => bind_same s.hom.lowerV fun vl _ =>
      bind_same s.hom.upperV fun vh _ => ?_
    exact patchSearch_moved hA (moveNP_moved f small bad s) big tol _ _ x nu nv l _ _ _ _
  subpatch := by
    rintro s _ rfl low b t - -
    refine ORel.of_map ?_
    change NURBSPatch.subpatch eps _ _ _ _ _ = _ <$> NURBSPatch.subpatch eps _ _ _ _ _
    unfold NURBSPatch.subpatch
    exact bind_map_rel (BSplinePatch.subpatch_image (homMap f) s.hom eps _ _ _ _) fun c _ => nurbs_ofHomogeneous_moved f c

/-- **C110** (NURBS patches, of any degrees, knots, weights and stored homogeneous patch). -/
theorem C110_nurbs_patch_inverse (hA : Rigid f) (q : NURBSPatch K V) (eps big tol tol' small : K) (bad : V × K) (x : V)
    (nu nv level : ℕ) (b : Box K) :
    (moveNP f q).approxInverse eps big tol small (homMap f bad) (f x) nu nv level b
      = q.approxInverse eps big tol small bad x nu nv level b ∧
    (moveNP f q).inverseEvaluate eps big tol tol' small (homMap f bad) (f x) b
      = q.inverseEvaluate eps big tol tol' small bad x b := by
  have key : ∀ nu nv level, (moveNP f q).approxInverse eps big tol small (homMap f bad) (f x) nu nv level b
      = q.approxInverse eps big tol small bad x nu nv level b := fun nu nv level =>
    (nurbs_ops_same hA eps big tol small bad x nu nv).knotSearch _ level rfl b
  refine ⟨key nu nv level, ?_⟩
  unfold NURBSPatch.inverseEvaluate
  refine bind_same q.hom.numU fun m _ => bind_same q.hom.numV fun n _ => ?_
  rw [key]
  refine bind_same _ fun uv _ => ?_
  exact C110_patch_from hA (moveNP_moved f small bad q) big x _ _ _ _ _ _ _ _

/-- `initialize` of the moved data gives the moved patch. -/
theorem C110_nurbs_patch_init (p : NURBSPatch K V) (h' : BSplinePatch K (W × K)) :
    NURBSPatch.init ⟨p.grid.map f, p.weights, p.knotsU, p.knotsV, p.degU, p.degV, p.perU, p.perV, p.sU, p.sV, h'⟩
      = moveNP f <$> p.init := by
  unfold NURBSPatch.init
  simp only [List.length_map]
  refine bind_map_same fun _ _ => ?_
  refine bind_map_rel (homogenize_affine f p.grid p.weights) fun Q _ => ?_
  refine bind_map_same fun du _ => bind_map_same fun dv _ => ?_
  exact bind_map_rel (imageBP_init (homMap f) (BSplinePatch.mk Q p.knotsU p.knotsV du dv p.perU
    p.perV p.sU p.sV p.hom.isoU p.hom.isoV) h'.isoU h'.isoV) fun X _ => rfl

end Classes

/-! ### Non-vacuity -/

/-- A bicubic patch of fixed degrees. -/
def exBicubic : BezierPatch ℚ := BezierPatch.mk [0, 1, 3, 2, 5, 7, 6, 9, 8, 10, 13, 12, 15, 14, 17, 20] 3 3 false false 3 3

example : exBicubic.init = ok () ∧ Static exBicubic := ⟨by decide +kernel, rfl, rfl⟩

/-- The search is the one guided by control points and it succeeds. -/
example : fallback (BezierPatch.ops (1 / 10 ^ 9 : ℚ) (10 ^ 300) (1 / 10 ^ 13) (9 : ℚ) 5 5) 3 exBicubic = ok none ∧
    exBicubic.approxInverse (1 / 10 ^ 9 : ℚ) (10 ^ 300) (1 / 10 ^ 13) 9 5 5 2 ⟨0, 1, 0, 1⟩ = ok (10 / 27, 8 / 9) := by
  decide +kernel

example := C110_bezier_patch_inverse exFlip_rigid (eps := (1 / 10 ^ 9 : ℚ)) (by norm_num)
  (p := exBicubic) (by decide +kernel) ⟨rfl, rfl⟩ (10 ^ 300) (1 / 10 ^ 13) (1 / 10 ^ 12) 9 5 5 2 ⟨0, 1, 0, 1⟩

/-- A biquadratic B-spline patch with one interior knot in each direction. -/
def exBiquadratic : BSplinePatch ℚ ℚ := BSplinePatch.mk [0, 1, 3, 2, 5, 7, 6, 9, 8, 10, 13, 12, 15, 14, 17, 20]
  [0, 0, 0, 1, 2, 2, 2] [0, 0, 0, 1, 3, 3, 3] 2 2 false false 2 2 [] []

theorem exBiquadratic_valid : exBiquadratic.Valid 4 4 2 2 := by
  refine ⟨⟨rfl, rfl, Or.inr rfl, by decide, by decide, by decide⟩, ⟨rfl, rfl, Or.inr rfl, by decide, by decide, by decide⟩, rfl⟩

example : (do
    let q ← exBiquadratic.init
    q.approxInverse (1 / 10 ^ 9 : ℚ) (10 ^ 300) (1 / 10 ^ 13) 0 9 5 5 2 ⟨0, 2, 0, 3⟩) = ok (193 / 250, 327 / 125) := by
  decide +kernel

example : ∃ q q', exBiquadratic.init = ok q ∧
    BSplinePatch.init (BSplinePatch.mk (exBiquadratic.grid.map exFlip) [0, 0, 0, 1, 2, 2, 2] [0, 0, 0, 1, 3, 3, 3] 2 2
      false false 2 2 [] []) = ok q' ∧
    q'.approxInverse (1 / 10 ^ 9 : ℚ) (10 ^ 300) (1 / 10 ^ 13) (exFlip.linear 0) (exFlip 9) 5 5 2 ⟨0, 2, 0, 3⟩
      = q.approxInverse (1 / 10 ^ 9 : ℚ) (10 ^ 300) (1 / 10 ^ 13) 0 9 5 5 2 ⟨0, 2, 0, 3⟩ := by
  obtain ⟨q, e, -⟩ := exBiquadratic_valid.init_ready
  obtain ⟨q', e', H⟩ := C110_bspline_patch_inverse exFlip_rigid (eps := (1 / 10 ^ 9 : ℚ)) (by norm_num)
    exBiquadratic_valid e [] []
  exact ⟨q, q', e, e', (H _ _ 0 _ _ _ _ _ _).1⟩

/-- Rational patches whose search succeeds. -/
example : (do
    let q ← RationalBezierPatch.init (⟨exBicubic, [1, 2, 1, 1, 1, 3, 1, 1, 2, 2, 1, 1, 1, 1, 1, 1],
      ⟨[], 0, 0, false, false, 0, 0⟩⟩ : RationalBezierPatch ℚ ℚ)
    q.approxInverse (1 / 10 ^ 9 : ℚ) (10 ^ 300) (1 / 10 ^ 13) (1 / 10 ^ 9) 9 5 5 2 ⟨0, 1, 0, 1⟩) = ok (14 / 27, 2 / 3) := by
  decide +kernel

example : (do
    let q ← NURBSPatch.init (⟨exBiquadratic.grid, [1, 2, 1, 1, 1, 3, 1, 1, 2, 2, 1, 1, 1, 1, 1, 1],
      [0, 0, 0, 1, 2, 2, 2], [0, 0, 0, 1, 3, 3, 3], 2, 2, false, false, 2, 2,
      ⟨[], [], [], 0, 0, false, false, 0, 0, [], []⟩⟩ : NURBSPatch ℚ ℚ)
    q.approxInverse (1 / 10 ^ 9 : ℚ) (10 ^ 300) (1 / 10 ^ 13) (1 / 10 ^ 9) 0 9 5 5 2 ⟨0, 2, 0, 3⟩)
      = ok (89 / 125, 717 / 250) := by
  decide +kernel

end NS.Props
