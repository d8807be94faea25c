import Verif.Props.NurbsPatch

/-!
# C63: setters of NURBS patches

The homogeneous copy follows every setter, so `initialize` afterwards only rebuilds the cached
iso-curves.
-/

set_option linter.unusedSectionVars false
set_option linter.unusedSimpArgs false

namespace NS.Props

open Outcome Spec Finset

section General

variable {K V : Type} [Field K] [LinearOrder K] [IsStrictOrderedRing K] [FloorRing K]
  [AddCommGroup V] [Module K V]

/-- The calls that change a NURBS patch. -/
inductive NEdit (K V : Type) where
  | point (i j : ℕ) (x : V)
  | weight (i j : ℕ) (x : K)
  | knotU (i : ℕ) (x : K)
  | knotV (i : ℕ) (x : K)
  | initialize_
  deriving Repr

/-- Effect of one call. -/
def NEdit.run (p : NURBSPatch K V) : NEdit K V → Outcome (NURBSPatch K V)
  | .point i j x => p.setControlPoint i j x
  | .weight i j x => p.setWeight i j x
  | .knotU i x => p.setKnotU i x
  | .knotV i x => p.setKnotV i x
  | .initialize_ => p.init

/-- Effect of a history of calls. -/
def nrunAll (p : NURBSPatch K V) : List (NEdit K V) → Outcome (NURBSPatch K V)
  | [] => ok p
  | e :: r => do
    let q ← e.run p
    nrunAll q r

/-- Column of the grid a call writes to. -/
def NEdit.column : NEdit K V → ℕ
  | .point _ j _ => j
  | .weight _ j _ => j
  | _ => 0

/-- Value at `(i, j)` after a call, `d` before. -/
def NEdit.onPoint (i j : ℕ) (d : V) : NEdit K V → V
  | .point a b x => if a = i ∧ b = j then x else d
  | _ => d

/-- Weight at `(i, j)` after a call, `d` before. -/
def NEdit.onWeight (i j : ℕ) (d : K) : NEdit K V → K
  | .weight a b x => if a = i ∧ b = j then x else d
  | _ => d

/-- `u`-knot at `i` after a call, `d` before. -/
def NEdit.onKnotU (i : ℕ) (d : K) : NEdit K V → K
  | .knotU a x => if a = i then x else d
  | _ => d

/-- `v`-knot at `i` after a call, `d` before. -/
def NEdit.onKnotV (i : ℕ) (d : K) : NEdit K V → K
  | .knotV a x => if a = i then x else d
  | _ => d

/-- The homogeneous copy has the data of the patch; nothing is said about the caches. -/
structure InStep (p : NURBSPatch K V) : Prop where
  len : p.weights.length = p.grid.length
  degU : 0 ≤ p.degU
  degV : 0 ≤ p.degV
  grid : p.hom.grid = homog p.grid p.weights
  knotsU : p.hom.knotsU = p.knotsU
  knotsV : p.hom.knotsV = p.knotsV
  hdegU : p.hom.degU = p.degU
  hdegV : p.hom.degV = p.degV
  perU : p.hom.perU = p.perU
  perV : p.hom.perV = p.perV
  sU : p.hom.sU = p.sU
  sV : p.hom.sV = p.sV

theorem inStep_of_sync {p : NURBSPatch K V} (S : p.Sync) : InStep p :=
  ⟨S.len, S.degU, S.degV, S.grid, S.knotsU, S.knotsV, S.hdegU, S.hdegV, S.perU, S.perV, S.sU, S.sV⟩

/-- What every call keeps. -/
structure NSameShape (p q : NURBSPatch K V) : Prop where
  grid : q.grid.length = p.grid.length
  weights : q.weights.length = p.weights.length
  ku : q.knotsU.length = p.knotsU.length
  kv : q.knotsV.length = p.knotsV.length
  degU : q.degU = p.degU
  degV : q.degV = p.degV
  perU : q.perU = p.perU
  perV : q.perV = p.perV
  sU : q.sU = p.sU
  sV : q.sV = p.sV

theorem rd_getD {α : Type} {l : List α} {i : ℕ} {x : α} (d : α) (h : rd l i = ok x) :
    i < l.length ∧ l.getD i d = x := by
  by_cases hi : i < l.length
  · rw [rd_of_lt hi, ok.injEq] at h
    exact ⟨hi, by rw [← h]; simp [List.getD, hi]⟩
  · rw [rd_ub (by omega)] at h
    cases h

theorem homog_set {P : List V} {w : List K} (h : w.length = P.length) (k : ℕ) (x : V)
    (a : K) : (homog P w).set k (a • x, a) = homog (P.set k x) (w.set k a) := by
  apply List.ext_getElem
  · simp [homog, h]
  · intro i h1 h2
    simp only [homog, List.length_set, List.length_zipWith] at h1
    by_cases e : k = i
    · subst e
      simp [homog]
    · simp [homog, List.getElem_set, e]

theorem set_getD_self {α : Type} {l : List α} {k : ℕ} (d : α) (hk : k < l.length) :
    l.set k (l.getD k d) = l := by
  apply List.ext_getElem
  · simp
  · intro i h1 h2
    by_cases e : k = i
    · subst e; simp [List.getD, hk]
    · simp [List.getElem_set, e]

theorem nedit_spec {p q : NURBSPatch K V} {n : ℕ} (S : InStep p) {e : NEdit K V}
    (h : e.run p = ok q) (hn : p.hom.numV = ok n) (hc : e.column < n ∨ n = 0) :
    InStep q ∧ NSameShape p q ∧ q.hom.numV = ok n ∧
      (∀ i j, j < n → gridPoint q.grid n i j = e.onPoint i j (gridPoint p.grid n i j)) ∧
      (∀ i j, j < n → q.weights.getD (i * n + j) 0 = e.onWeight i j (p.weights.getD (i * n + j) 0)) ∧
      (∀ i, knot q.knotsU i = e.onKnotU i (knot p.knotsU i)) ∧
      (∀ i, knot q.knotsV i = e.onKnotV i (knot p.knotsV i)) := by
  have lin : ∀ i j, p.hom.linearIndex i j = ok (i * n + j) := fun i j => by
    unfold BSplinePatch.linearIndex; rw [hn]; rfl
  cases e with
  | point a b x =>
    have h : p.setControlPoint a b x = ok q := h
    unfold NURBSPatch.setControlPoint NURBSPatch.linearIndex BSplinePatch.getControlPoint
      BSplinePatch.setControlPoint at h
    rw [lin] at h
    simp only [ok_bind] at h
    obtain ⟨g, hg, h⟩ := bind_eq_ok.1 h
    obtain ⟨y, hy, h⟩ := bind_eq_ok.1 h
    obtain ⟨w, hw, h⟩ := bind_eq_ok.1 h
    obtain ⟨k, hk, h⟩ := bind_eq_ok.1 h
    obtain ⟨g', hg', hk⟩ := bind_eq_ok.1 hk
    rw [pure_eq, ok.injEq] at h hk
    obtain ⟨hl, rfl⟩ := wr_set hg
    obtain ⟨-, rfl⟩ := wr_set hg'
    obtain ⟨hlw, hw⟩ := rd_getD (0 : K) hw
    have ey : y.2 = w := by
      have := (rd_getD (0 : V × K) hy).2
      rw [S.grid] at this
      rw [← this, ← hw]
      simp [homog, List.getD, hl, hlw]
    subst hk h
    refine ⟨⟨by simp [S.len], S.degU, S.degV, ?_, S.knotsU, S.knotsV, S.hdegU, S.hdegV, S.perU,
      S.perV, S.sU, S.sV⟩, ⟨by simp, rfl, rfl, rfl, rfl, rfl, rfl, rfl, rfl, rfl⟩, hn, ?_,
      fun i j _ => rfl, fun i => rfl, fun i => rfl⟩
    · change p.hom.grid.set (a * n + b) (w • x, y.2) = homog (p.grid.set (a * n + b) x) p.weights
      rw [ey, S.grid, homog_set S.len, ← hw, set_getD_self _ hlw]
    · intro i j hj
      have hb : b < n := hc.resolve_right (by omega)
      unfold gridPoint
      simp only [NEdit.onPoint]
      rw [getD_set _ _ _ _ _ hl]
      by_cases e : a = i ∧ b = j
      · rw [if_pos e, if_pos (by rw [e.1, e.2])]
      · rw [if_neg e, if_neg]
        intro e'
        exact e (lin_inj hb hj e')
  | weight a b x =>
    have h : p.setWeight a b x = ok q := h
    unfold NURBSPatch.setWeight NURBSPatch.linearIndex BSplinePatch.getControlPoint
      BSplinePatch.setControlPoint at h
    rw [lin] at h
    simp only [ok_bind] at h
    obtain ⟨ws, hws, h⟩ := bind_eq_ok.1 h
    obtain ⟨_, -, h⟩ := bind_eq_ok.1 h
    obtain ⟨y, hy, h⟩ := bind_eq_ok.1 h
    obtain ⟨k, hk, h⟩ := bind_eq_ok.1 h
    obtain ⟨g', hg', hk⟩ := bind_eq_ok.1 hk
    rw [pure_eq, ok.injEq] at h hk
    obtain ⟨hl, rfl⟩ := wr_set hws
    obtain ⟨-, rfl⟩ := wr_set hg'
    obtain ⟨hlg, hy⟩ := rd_getD (0 : V) hy
    subst hk h
    refine ⟨⟨by simp [S.len], S.degU, S.degV, ?_, S.knotsU, S.knotsV, S.hdegU, S.hdegV, S.perU,
      S.perV, S.sU, S.sV⟩, ⟨rfl, by simp, rfl, rfl, rfl, rfl, rfl, rfl, rfl, rfl⟩, hn,
      fun i j _ => rfl, ?_, fun i => rfl, fun i => rfl⟩
    · change p.hom.grid.set (a * n + b) (x • y, x) = homog p.grid (p.weights.set (a * n + b) x)
      rw [S.grid, homog_set S.len, ← hy, set_getD_self _ hlg]
    · intro i j hj
      have hb : b < n := hc.resolve_right (by omega)
      simp only [NEdit.onWeight]
      rw [getD_set _ _ _ _ _ hl]
      by_cases e : a = i ∧ b = j
      · rw [if_pos e, if_pos (by rw [e.1, e.2])]
      · rw [if_neg e, if_neg]
        intro e'
        exact e (lin_inj hb hj e')
  | knotU a x =>
    have h : p.setKnotU a x = ok q := h
    unfold NURBSPatch.setKnotU BSplinePatch.setKnotU at h
    obtain ⟨g, hg, h⟩ := bind_eq_ok.1 h
    obtain ⟨k, hk, h⟩ := bind_eq_ok.1 h
    obtain ⟨g', hg', hk⟩ := bind_eq_ok.1 hk
    rw [pure_eq, ok.injEq] at h hk
    obtain ⟨hl, rfl⟩ := wr_set hg
    obtain ⟨-, rfl⟩ := wr_set hg'
    subst hk h
    refine ⟨⟨S.len, S.degU, S.degV, S.grid, ?_, S.knotsV, S.hdegU, S.hdegV, S.perU,
      S.perV, S.sU, S.sV⟩, ⟨rfl, rfl, by simp, rfl, rfl, rfl, rfl, rfl, rfl, rfl⟩, hn,
      fun i j _ => rfl, fun i j _ => rfl, ?_, fun i => rfl⟩
    · change p.hom.knotsU.set a x = p.knotsU.set a x
      rw [S.knotsU]
    · intro i
      unfold knot
      simp only [NEdit.onKnotU]
      rw [getD_set _ _ _ _ _ hl]
  | knotV a x =>
    have h : p.setKnotV a x = ok q := h
    unfold NURBSPatch.setKnotV BSplinePatch.setKnotV at h
    obtain ⟨g, hg, h⟩ := bind_eq_ok.1 h
    obtain ⟨k, hk, h⟩ := bind_eq_ok.1 h
    obtain ⟨g', hg', hk⟩ := bind_eq_ok.1 hk
    rw [pure_eq, ok.injEq] at h hk
    obtain ⟨hl, rfl⟩ := wr_set hg
    obtain ⟨-, rfl⟩ := wr_set hg'
    subst hk h
    refine ⟨⟨S.len, S.degU, S.degV, S.grid, S.knotsU, ?_, S.hdegU, S.hdegV, S.perU,
      S.perV, S.sU, S.sV⟩, ⟨rfl, rfl, rfl, by simp, rfl, rfl, rfl, rfl, rfl, rfl⟩, ?_,
      fun i j _ => rfl, fun i j _ => rfl, fun i => rfl, ?_⟩
    · change p.hom.knotsV.set a x = p.knotsV.set a x
      rw [S.knotsV]
    · rw [← hn]
      unfold BSplinePatch.numV BSplinePatch.degreeV
      simp
    · intro i
      unfold knot
      simp only [NEdit.onKnotV]
      rw [getD_set _ _ _ _ _ hl]
  | initialize_ =>
    have h : p.init = ok q := h
    obtain ⟨T, e⟩ := sync_of_init h
    have e1 : q.knotsV = p.knotsV := by rw [e]
    have e2 : q.degV = p.degV := by rw [e]
    refine ⟨inStep_of_sync T, ?_, ?_, ?_⟩
    · rw [e]; exact ⟨rfl, rfl, rfl, rfl, rfl, rfl, rfl, rfl, rfl, rfl⟩
    · rw [← hn]
      unfold BSplinePatch.numV BSplinePatch.degreeV
      rw [T.knotsV, T.hdegV, S.knotsV, S.hdegV, e1, e2]
    · rw [e]
      exact ⟨fun i j _ => rfl, fun i j _ => rfl, fun i => rfl, fun i => rfl⟩

/-- C63: after any history of setter and `initialize` calls on an initialised NURBS patch the data
are the last ones written and the homogeneous copy has the same. -/
theorem C63_nurbs_history (ws : List (NEdit K V)) :
    ∀ {p q : NURBSPatch K V} {n : ℕ}, InStep p → nrunAll p ws = ok q → p.hom.numV = ok n →
      (∀ e ∈ ws, e.column < n ∨ n = 0) →
    InStep q ∧ NSameShape p q ∧
      (∀ i j, j < n → gridPoint q.grid n i j
        = ws.foldl (fun d e => e.onPoint i j d) (gridPoint p.grid n i j)) ∧
      (∀ i j, j < n → q.weights.getD (i * n + j) 0
        = ws.foldl (fun d e => e.onWeight i j d) (p.weights.getD (i * n + j) 0)) ∧
      (∀ i, knot q.knotsU i = ws.foldl (fun d e => e.onKnotU i d) (knot p.knotsU i)) ∧
      (∀ i, knot q.knotsV i = ws.foldl (fun d e => e.onKnotV i d) (knot p.knotsV i)) := by
  induction ws with
  | nil =>
    intro p q n S h _ _
    rw [nrunAll, ok.injEq] at h
    subst h
    exact ⟨S, ⟨rfl, rfl, rfl, rfl, rfl, rfl, rfl, rfl, rfl, rfl⟩, fun _ _ _ => rfl,
      fun _ _ _ => rfl, fun _ => rfl, fun _ => rfl⟩
  | cons e r ih =>
    intro p q n S h hn hb
    rw [nrunAll] at h
    obtain ⟨s, hs, h⟩ := bind_eq_ok.1 h
    obtain ⟨S1, N1, n1, a1, b1, c1, d1⟩ := nedit_spec S hs hn (hb e (by simp))
    obtain ⟨S2, N2, a2, b2, c2, d2⟩ := ih S1 h n1 (fun e' he' => hb e' (by simp [he']))
    refine ⟨S2, ⟨N2.grid.trans N1.grid, N2.weights.trans N1.weights, N2.ku.trans N1.ku,
      N2.kv.trans N1.kv, N2.degU.trans N1.degU, N2.degV.trans N1.degV, N2.perU.trans N1.perU,
      N2.perV.trans N1.perV, N2.sU.trans N1.sU, N2.sV.trans N1.sV⟩, ?_, ?_, ?_, ?_⟩
    · intro i j hj
      rw [List.foldl_cons, ← a1 i j hj]; exact a2 i j hj
    · intro i j hj
      rw [List.foldl_cons, ← b1 i j hj]; exact b2 i j hj
    · intro i
      rw [List.foldl_cons, ← c1 i]; exact c2 i
    · intro i
      rw [List.foldl_cons, ← d1 i]; exact d2 i

/-- C63: the setters leave nothing but the cached iso-curves to `initialize`. -/
theorem C63_nurbs_init_after_setters (ws : List (NEdit K V)) {p q r : NURBSPatch K V} {n : ℕ}
    (hi : p.init = ok p) (hq : nrunAll p ws = ok q) (hn : p.hom.numV = ok n)
    (hb : ∀ e ∈ ws, e.column < n ∨ n = 0) (hr : q.init = ok r) :
    r = { q with hom := { q.hom with isoU := r.hom.isoU, isoV := r.hom.isoV } } := by
  have S := (C63_nurbs_history ws (inStep_of_sync (sync_of_init hi).1) hq hn hb).1
  obtain ⟨T, e⟩ := sync_of_init hr
  have key : r.hom = { q.hom with isoU := r.hom.isoU, isoV := r.hom.isoV } := by
    have h1 : r.grid = q.grid := by rw [e]
    have h2 : r.weights = q.weights := by rw [e]
    have h3 : r.knotsU = q.knotsU := by rw [e]
    have h4 : r.knotsV = q.knotsV := by rw [e]
    have h5 : r.degU = q.degU := by rw [e]
    have h6 : r.degV = q.degV := by rw [e]
    have h7 : r.perU = q.perU := by rw [e]
    have h8 : r.perV = q.perV := by rw [e]
    have h9 : r.sU = q.sU := by rw [e]
    have h0 : r.sV = q.sV := by rw [e]
    dsimp only
    rw [S.grid, ← h1, ← h2, ← T.grid, S.knotsU, ← h3, ← T.knotsU, S.knotsV, ← h4, ← T.knotsV,
      S.hdegU, ← h5, ← T.hdegU, S.hdegV, ← h6, ← T.hdegV, S.perU, ← h7, ← T.perU, S.perV, ← h8,
      ← T.perV, S.sU, ← h9, ← T.sU, S.sV, ← h0, ← T.sV]
  rw [← key]
  exact e

end General

/-- A history of all four setters that ends in an `initialize`d patch. -/
def exEdits : List (NEdit ℚ ℚ) :=
  [.point 0 0 100, .weight 1 1 5, .knotU 3 (1/3), .knotV 2 2, .knotV 3 2, .point 0 0 50]

example : ∃ p q r, exNPRaw.init = ok p ∧ nrunAll p exEdits = ok q ∧ q.init = ok r ∧
    p.hom.numV = ok 2 ∧ (∀ e ∈ exEdits, e.column < 2 ∨ 2 = 0) ∧
    r.getControlPoint 0 0 = ok 50 ∧ r.getWeight 1 1 = ok 5 ∧ q ≠ r := by
  have run : ∀ o : Outcome (NURBSPatch ℚ ℚ), (match o with | .ok _ => true | _ => false) = true →
      ∃ p, o = ok p := by
    intro o ho
    cases o with
    | ok p => exact ⟨p, rfl⟩
    | throw e => cases ho
    | ub => cases ho
  obtain ⟨p, hp⟩ := run exNPRaw.init (by decide +kernel)
  obtain ⟨q, hq⟩ := run (do let p ← exNPRaw.init; nrunAll p exEdits) (by decide +kernel)
  obtain ⟨r, hr⟩ := run (do let p ← exNPRaw.init; let q ← nrunAll p exEdits; q.init)
    (by decide +kernel)
  have h1 : (do let p ← exNPRaw.init; p.hom.numV) = ok 2 := by decide +kernel
  have h2 : (do let p ← exNPRaw.init; let q ← nrunAll p exEdits; let r ← q.init
                r.getControlPoint 0 0) = ok 50 := by decide +kernel
  have h3 : (do let p ← exNPRaw.init; let q ← nrunAll p exEdits; let r ← q.init
                r.getWeight 1 1) = ok 5 := by decide +kernel
  have h4 : (do let p ← exNPRaw.init; let q ← nrunAll p exEdits; let r ← q.init
                pure (decide (q = r))) = ok false := by decide +kernel
  rw [hp, ok_bind] at hq hr h1 h2 h3 h4
  rw [hq, ok_bind] at hr h2 h3 h4
  rw [hr, ok_bind] at h2 h3 h4
  refine ⟨p, q, r, hp, hq, hr, h1, by decide, h2, h3, ?_⟩
  rw [pure_eq, ok.injEq, decide_eq_false_iff_not] at h4
  exact h4

end NS.Props
