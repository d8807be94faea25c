import Mathlib.Data.List.Forall2
import Mathlib.Data.List.Infix
import Mathlib.Tactic.Linarith
import Mathlib.Tactic.NormNum
import Verif.Spec.Msh

/-! # Lemmas about the sampled mesh -/

set_option linter.unusedSectionVars false
set_option linter.unusedSimpArgs false

namespace NS

open Outcome

variable {K V : Type} [Field K]

theorem tab_choose {α : Type} {n : ℕ} {f : ℕ → Outcome α} {l : List α} (hn : 0 < n)
    (h : tab n f = ok l) : ∃ g : ℕ → α, (∀ i < n, f i = ok (g i)) ∧ l = arr n g := by
  obtain ⟨hl, H⟩ := tab_inv h
  obtain ⟨a0, -, -⟩ := H 0 hn
  classical
  let g : ℕ → α := fun i => if hi : i < n then (H i hi).choose else a0
  have hg : ∀ i < n, f i = ok (g i) := by
    intro i hi
    simp only [g, dif_pos hi]
    exact (H i hi).choose_spec.1
  refine ⟨g, hg, ?_⟩
  have := tab_eq hg
  rw [h, ok.injEq] at this
  exact this

theorem arr_succ {α : Type} (n : ℕ) (g : ℕ → α) : arr (n + 1) g = arr n g ++ [g n] := by
  simp [arr, List.range_succ]

theorem arr_map {α β : Type} (n : ℕ) (g : ℕ → α) (f : α → β) :
    (arr n g).map f = arr n (fun i => f (g i)) := by
  simp [arr]

theorem arr_range' (n o : ℕ) : arr n (fun i => o + i) = List.range' o n := by
  simp [arr, List.range'_eq_map_range]

theorem arr_arr_range' (m n o : ℕ) :
    (arr m (fun i => arr n (fun j => o + i * n + j))).flatten = List.range' o (m * n) := by
  induction m with
  | zero => simp [arr]
  | succ m ih =>
    rw [arr_succ, List.flatten_append, ih]
    simp only [List.flatten_cons, List.flatten_nil, List.append_nil]
    rw [arr_range', show (m + 1) * n = m * n + n by ring, ← List.range'_append_1]

theorem rowsOf_flatten {k : ℕ} (L : List (List ℕ)) (h : ∀ r ∈ L, r.length = k) (rest : List ℕ) :
    rowsOf k L.length (L.flatten ++ rest) = L := by
  induction L with
  | nil => rfl
  | cons r L ih =>
    have hr := h r List.mem_cons_self
    rw [List.flatten_cons, List.length_cons, rowsOf, List.append_assoc, ← hr, List.take_left,
      List.drop_left]
    rw [hr, ih (fun r hr => h r (List.mem_cons_of_mem _ hr))]

theorem flatten_length {α : Type} {k : ℕ} (L : List (List α)) (h : ∀ r ∈ L, r.length = k) :
    L.flatten.length = L.length * k := by
  induction L with
  | nil => simp
  | cons r L ih =>
    rw [List.flatten_cons, List.length_append, ih (fun r hr => h r (List.mem_cons_of_mem _ hr)),
      h r List.mem_cons_self, List.length_cons]
    ring

/-- Appending one entity to a consistent mesh. -/
theorem MeshOk.append {m : Mesh K} (h : MeshOk m) {nb : NodeBlock K} {eb : ElemBlock}
    {vs : List DataView} (k : ℕ) (hE : EntityOk nb eb)
    (hn : nb.tags = List.range' (m.maxNode + 1) nb.count)
    (he : eb.elemTags = List.range' (m.maxElem + 1) eb.count)
    (hv : vs.flatMap DataView.entries =
      m.views.flatMap DataView.entries ++ eb.elemTags.map (fun t => (t, eb.tag)))
    (hc : ∀ d ∈ vs, d.count = d.entries.length) :
    MeshOk { m with
      nodeBlocks := m.nodeBlocks ++ [nb], numNodeBlocks := m.numNodeBlocks + 1,
      numNodes := m.numNodes + nb.count, minNode := k, maxNode := m.maxNode + nb.count,
      elemBlocks := m.elemBlocks ++ [eb], numElemBlocks := m.numElemBlocks + 1,
      numElems := m.numElems + eb.count, minElem := 1, maxElem := m.maxElem + eb.count,
      views := vs } where
  nodeTags := by
    simp only [List.flatMap_append, List.flatMap_cons, List.flatMap_nil, List.append_nil]
    rw [h.nodeTags, hn, Nat.add_comm m.maxNode 1, List.range'_append_1]
  numNodes := by simp only [h.numNodes]
  numNodeBlocks := by simp [h.numNodeBlocks]
  elemTags := by
    simp only [List.flatMap_append, List.flatMap_cons, List.flatMap_nil, List.append_nil]
    rw [h.elemTags, he, Nat.add_comm m.maxElem 1, List.range'_append_1]
  numElems := by simp only [h.numElems]
  numElemBlocks := by simp [h.numElemBlocks]
  minElem := fun _ => rfl
  entities := List.rel_append h.entities (List.Forall₂.cons hE List.Forall₂.nil)
  views := by
    simp only [List.flatMap_append, List.flatMap_cons, List.flatMap_nil, List.append_nil]
    rw [hv, h.views]
  viewCounts := hc

theorem pushEntries_spec {vs vs' : List DataView} {es : List (ℕ × ℕ)}
    (h : pushEntries vs es = ok vs') :
    vs'.flatMap DataView.entries = vs.flatMap DataView.entries ++ es ∧
      ((∀ d ∈ vs, d.count = d.entries.length) → ∀ d ∈ vs', d.count = d.entries.length) ∧
      vs'.map DataView.ofCurves = vs.map DataView.ofCurves := by
  rw [pushEntries] at h
  cases hg : vs.getLast? with
  | none => rw [hg] at h; cases h
  | some d =>
    rw [hg] at h
    simp only [ok.injEq] at h
    subst h
    obtain ⟨hne, hd⟩ : ∃ h, vs.getLast h = d := by
      rw [List.getLast?_eq_some_iff] at hg
      obtain ⟨l, rfl⟩ := hg
      exact ⟨by simp, by simp⟩
    have hvs := List.dropLast_append_getLast hne
    rw [hd] at hvs
    refine ⟨?_, ?_, ?_⟩
    · conv_rhs => rw [← hvs]
      simp [List.flatMap_append]
    · intro H x hx
      rw [List.mem_append, List.mem_singleton] at hx
      rcases hx with hx | rfl
      · exact H x (List.mem_of_mem_dropLast hx)
      · have := H d (by rw [← hd]; exact List.getLast_mem hne)
        simp [this]
    · conv_rhs => rw [← hvs]
      simp

theorem pushEntries_ok {vs : List DataView} (hv : vs ≠ []) (es : List (ℕ × ℕ)) :
    ∃ vs', pushEntries vs es = ok vs' := by
  rw [pushEntries, List.getLast?_eq_some_getLast hv]
  exact ⟨_, rfl⟩

/-- The parameter of node `i`. -/
def mshParam (lo hi : K) (N i : ℕ) : K := lo * (1 - (i : K) / (N : K)) + hi * ((i : K) / (N : K))

/-- The blocks that `add_curve_sampled` appends. -/
theorem addCurveSampled_inv {coord : V → ℕ → K} {dim : ℕ} {m m' : Mesh K} {c : MshCurveIn K V}
    {N tag : ℕ} (h : addCurveSampled coord dim m c N tag = ok m') :
    N ≠ 0 ∧ ∃ (ps : ℕ → V) (vs : List DataView),
      (∀ i ≤ N, c.eval (mshParam c.lo c.hi N i) = ok (ps i)) ∧
      pushEntries (if m.views = [] then m.views ++ [⟨true, 0, []⟩] else m.views)
        (arr N (fun i => (m.maxElem + i + 1, tag))) = ok vs ∧
      m' = { m with
        nodeBlocks := m.nodeBlocks ++ [⟨1, tag, N + 1, arr (N + 1) (fun i => m.maxNode + i + 1),
          (arr (N + 1) (fun i => mshCoords coord dim (ps i) ++ [mshParam c.lo c.hi N i])).flatten⟩],
        numNodeBlocks := m.numNodeBlocks + 1, numNodes := m.numNodes + (N + 1), minNode := tag,
        maxNode := m.maxNode + (N + 1),
        elemBlocks := m.elemBlocks ++ [⟨1, tag, 1, N,
          (arr N (fun i => [m.maxElem + i + 1, m.maxNode + i + 1, m.maxNode + i + 2])).flatten⟩],
        numElemBlocks := m.numElemBlocks + 1, numElems := m.numElems + N, minElem := 1,
        maxElem := m.maxElem + N, views := vs } := by
  rw [addCurveSampled] at h
  obtain ⟨rounds, h1, h⟩ := bind_eq_ok.1 h
  obtain ⟨vs, h2, h3⟩ := bind_eq_ok.1 h
  obtain ⟨g, hg, rfl⟩ := tab_choose (by omega) h1
  have hN : N ≠ 0 := by
    intro h0
    have := hg 0 (by omega)
    rw [assert_false (by simp [h0])] at this
    cases this
  have hg' : ∀ i < N + 1, ∃ p, c.eval (mshParam c.lo c.hi N i) = ok p ∧
      g i = (m.maxNode + i + 1, mshCoords coord dim p ++ [mshParam c.lo c.hi N i],
        if i ≠ N then [m.maxElem + i + 1, m.maxNode + i + 1, m.maxNode + i + 2] else []) := by
    intro i hi
    have := hg i hi
    rw [assert_true hN, ok_bind] at this
    obtain ⟨p, e1, e2⟩ := bind_eq_ok.1 this
    rw [pure_eq, ok.injEq] at e2
    exact ⟨p, e1, e2.symm⟩
  obtain ⟨p0, -, -⟩ := hg' 0 (by omega)
  classical
  let ps : ℕ → V := fun i => if hi : i < N + 1 then (hg' i hi).choose else p0
  have hps : ∀ i < N + 1, c.eval (mshParam c.lo c.hi N i) = ok (ps i) ∧
      g i = (m.maxNode + i + 1, mshCoords coord dim (ps i) ++ [mshParam c.lo c.hi N i],
        if i ≠ N then [m.maxElem + i + 1, m.maxNode + i + 1, m.maxNode + i + 2] else []) := by
    intro i hi
    simp only [ps, dif_pos hi]
    exact (hg' i hi).choose_spec
  refine ⟨hN, ps, vs, fun i hi => (hps i (by omega)).1, h2, ?_⟩
  rw [pure_eq, ok.injEq] at h3
  rw [← h3]
  have e1 : (arr (N + 1) g).map (fun x => x.1) = arr (N + 1) (fun i => m.maxNode + i + 1) := by
    rw [arr_map]; exact arr_congr (fun i hi => by rw [(hps i hi).2])
  have e2 : (arr (N + 1) g).map (fun x => x.2.1) =
      arr (N + 1) (fun i => mshCoords coord dim (ps i) ++ [mshParam c.lo c.hi N i]) := by
    rw [arr_map]; exact arr_congr (fun i hi => by rw [(hps i hi).2])
  have e3 : ((arr (N + 1) g).map (fun x => x.2.2)).flatten =
      (arr N (fun i => [m.maxElem + i + 1, m.maxNode + i + 1, m.maxNode + i + 2])).flatten := by
    rw [arr_map, arr_succ, List.flatten_append, (hps N (by omega)).2]
    simp only [ne_eq, not_true_eq_false, if_false, List.flatten_cons, List.flatten_nil,
      List.append_nil]
    congr 1
    exact arr_congr (fun i hi => by rw [(hps i (by omega)).2, if_pos (by omega)])
  rw [e1, e2, e3]

theorem curveEntityOk (no eo N tag : ℕ) (data : List K) (hd : data.length = (N + 1) * 4) :
    EntityOk (⟨1, tag, N + 1, arr (N + 1) (fun i => no + i + 1), data⟩ : NodeBlock K)
      ⟨1, tag, 1, N, (arr N (fun i => [eo + i + 1, no + i + 1, no + i + 2])).flatten⟩ ∧
    (⟨1, tag, 1, N, (arr N (fun i => [eo + i + 1, no + i + 1, no + i + 2])).flatten⟩ :
      ElemBlock).rows = arr N (fun i => [eo + i + 1, no + i + 1, no + i + 2]) := by
  have hL : ∀ r ∈ arr N (fun i => [eo + i + 1, no + i + 1, no + i + 2]), r.length = 3 := by
    intro r hr
    simp only [arr, List.mem_map] at hr
    obtain ⟨i, _, rfl⟩ := hr
    rfl
  have hrows : (⟨1, tag, 1, N, (arr N (fun i => [eo + i + 1, no + i + 1, no + i + 2])).flatten⟩ :
      ElemBlock).rows = arr N (fun i => [eo + i + 1, no + i + 1, no + i + 2]) := by
    have := rowsOf_flatten _ hL []
    simp only [arr, List.length_map, List.length_range, List.append_nil] at this
    exact this
  refine ⟨⟨rfl, rfl, rfl, Or.inl rfl, by simp [arr], by simpa using hd, ?_, ?_, ?_⟩, hrows⟩
  · show (arr N (fun i => [eo + i + 1, no + i + 1, no + i + 2])).flatten.length = N * 3
    rw [flatten_length _ hL]
    simp [arr]
  · intro r hr t ht
    rw [hrows] at hr
    simp only [arr, List.mem_map, List.mem_range] at hr ⊢
    obtain ⟨i, hi, rfl⟩ := hr
    simp only [List.tail_cons, List.mem_cons, List.not_mem_nil, or_false] at ht
    rcases ht with rfl | rfl
    · exact ⟨i, by omega, rfl⟩
    · exact ⟨i + 1, by omega, by omega⟩
  · intro r hr
    rw [hrows] at hr
    simp only [arr, List.mem_map, List.mem_range] at hr
    obtain ⟨i, hi, rfl⟩ := hr
    simp

theorem addCurveSampled_ok {coord : V → ℕ → K} {dim : ℕ} {m m' : Mesh K} {c : MshCurveIn K V}
    {N tag : ℕ} (hm : MeshOk m) (h : addCurveSampled coord dim m c N tag = ok m') : MeshOk m' := by
  obtain ⟨hN, ps, vs, -, hv, rfl⟩ := addCurveSampled_inv h
  obtain ⟨hE, hrows⟩ := curveEntityOk m.maxNode m.maxElem N tag
    (arr (N + 1) (fun i => mshCoords coord dim (ps i) ++ [mshParam c.lo c.hi N i])).flatten (by
      rw [flatten_length (k := 4)]
      · simp [arr]
      · intro r hr
        simp only [arr, List.mem_map] at hr
        obtain ⟨i, _, rfl⟩ := hr
        simp [mshCoords])
  obtain ⟨hv1, hv2, -⟩ := pushEntries_spec hv
  have htags : (⟨1, tag, 1, N,
      (arr N (fun i => [m.maxElem + i + 1, m.maxNode + i + 1, m.maxNode + i + 2])).flatten⟩ :
      ElemBlock).elemTags = arr N (fun i => m.maxElem + 1 + i) := by
    rw [ElemBlock.elemTags, hrows, arr_map]
    exact arr_congr (fun i _ => by simp; omega)
  refine hm.append tag hE ?_ ?_ ?_ ?_
  · simp only
    rw [← arr_range']
    exact arr_congr (fun i _ => by omega)
  · rw [htags, arr_range']
  · rw [hv1, htags, arr_map]
    congr 1
    · by_cases hm0 : m.views = []
      · simp [hm0]
      · rw [if_neg hm0]
    · exact arr_congr (fun i _ => by simp; omega)
  · apply hv2
    intro d hd
    by_cases hm0 : m.views = []
    · rw [if_pos hm0, hm0] at hd
      simp only [List.nil_append, List.mem_singleton] at hd
      subst hd; rfl
    · rw [if_neg hm0] at hd
      exact hm.viewCounts d hd

/-- Row of element data of cell `(i, j)`. -/
def quadRow (no eo nv i j : ℕ) : List ℕ :=
  [eo + i * nv + j + 1, no + i * (nv + 1) + j + 1, no + (i + 1) * (nv + 1) + j + 1,
    no + (i + 1) * (nv + 1) + j + 2, no + i * (nv + 1) + j + 2]

theorem flatten_arr_if (nu nv : ℕ) (R : ℕ → ℕ → List ℕ) :
    ((arr (nu + 1) (fun i => arr (nv + 1) (fun j => if i ≠ nu ∧ j ≠ nv then R i j else []))).flatten).flatten
      = ((arr nu (fun i => arr nv (fun j => R i j))).flatten).flatten := by
  have hrow : ∀ i, i ≠ nu → (arr (nv + 1) (fun j => if i ≠ nu ∧ j ≠ nv then R i j else [])).flatten =
      (arr nv (fun j => R i j)).flatten := by
    intro i hi
    rw [arr_succ, List.flatten_append]
    simp only [ne_eq, not_true_eq_false, and_false, if_false, List.flatten_cons, List.flatten_nil,
      List.append_nil]
    congr 1
    exact arr_congr (fun j hj => if_pos ⟨hi, by omega⟩)
  have hlast : (arr (nv + 1) (fun j => if nu ≠ nu ∧ j ≠ nv then R nu j else [])).flatten = [] := by
    rw [List.flatten_eq_nil_iff]
    intro l hl
    simp only [arr, List.mem_map] at hl
    obtain ⟨j, _, rfl⟩ := hl
    simp
  rw [arr_succ, List.flatten_append, List.flatten_append]
  simp only [List.flatten_cons, List.flatten_nil, List.append_nil]
  rw [hlast, List.append_nil, List.flatten_flatten, List.flatten_flatten, arr_map, arr_map]
  congr 1
  exact arr_congr (fun i hi => hrow i (by omega))

/-- The blocks that `add_patch_sampled` appends. -/
theorem addPatchSampled_inv {coord : V → ℕ → K} {dim : ℕ} {m m' : Mesh K} {c : MshPatchIn K V}
    {nu nv tag : ℕ} (h : addPatchSampled coord dim m c nu nv tag = ok m') :
    nu ≠ 0 ∧ nv ≠ 0 ∧ ∃ (ps : ℕ → ℕ → V) (vs : List DataView),
      (∀ i ≤ nu, ∀ j ≤ nv,
        c.eval (mshParam c.uLo c.uHi nu i) (mshParam c.vLo c.vHi nv j) = ok (ps i j)) ∧
      pushEntries (if m.views.length ≤ 1 then m.views ++ [⟨false, 0, []⟩] else m.views)
        (arr (nu * nv) (fun i => (m.maxElem + i + 1, tag))) = ok vs ∧
      m' = { m with
        nodeBlocks := m.nodeBlocks ++ [⟨2, tag, (nu + 1) * (nv + 1),
          (arr (nu + 1) (fun i => arr (nv + 1) (fun j => m.maxNode + i * (nv + 1) + j + 1))).flatten,
          ((arr (nu + 1) (fun i => arr (nv + 1) (fun j => mshCoords coord dim (ps i j) ++
            [mshParam c.uLo c.uHi nu i, mshParam c.vLo c.vHi nv j]))).flatten).flatten⟩],
        numNodeBlocks := m.numNodeBlocks + 1, numNodes := m.numNodes + (nu + 1) * (nv + 1),
        minNode := 1, maxNode := m.maxNode + (nu + 1) * (nv + 1),
        elemBlocks := m.elemBlocks ++ [⟨2, tag, 3, nu * nv,
          ((arr nu (fun i => arr nv (fun j => quadRow m.maxNode m.maxElem nv i j))).flatten).flatten⟩],
        numElemBlocks := m.numElemBlocks + 1, numElems := m.numElems + nu * nv, minElem := 1,
        maxElem := m.maxElem + nu * nv, views := vs } := by
  rw [addPatchSampled] at h
  obtain ⟨rounds, h1, h⟩ := bind_eq_ok.1 h
  obtain ⟨vs, h2, h3⟩ := bind_eq_ok.1 h
  obtain ⟨g, hg, rfl⟩ := tab_choose (by omega) h1
  have hN : nu ≠ 0 ∧ nv ≠ 0 := by
    by_contra h0
    have := hg 0 (by omega)
    obtain ⟨g', hg', -⟩ := tab_choose (by omega) this
    have := hg' 0 (by omega)
    rw [assert_false h0] at this
    cases this
  let T : ℕ → ℕ → V → ℕ × List K × List ℕ := fun i j p =>
    (m.maxNode + i * (nv + 1) + j + 1, mshCoords coord dim p ++
      [mshParam c.uLo c.uHi nu i, mshParam c.vLo c.vHi nv j],
      if i ≠ nu ∧ j ≠ nv then quadRow m.maxNode m.maxElem nv i j else [])
  have hg' : ∀ i < nu + 1, ∃ q : ℕ → V, g i = arr (nv + 1) (fun j => T i j (q j)) ∧
      ∀ j < nv + 1, c.eval (mshParam c.uLo c.uHi nu i) (mshParam c.vLo c.vHi nv j) = ok (q j) := by
    intro i hi
    obtain ⟨r, hr, e⟩ := tab_choose (by omega) (hg i hi)
    have hr' : ∀ j < nv + 1, ∃ p,
        c.eval (mshParam c.uLo c.uHi nu i) (mshParam c.vLo c.vHi nv j) = ok p ∧ r j = T i j p := by
      intro j hj
      have := hr j hj
      rw [assert_true hN, ok_bind] at this
      obtain ⟨p, e1, e2⟩ := bind_eq_ok.1 this
      rw [pure_eq, ok.injEq] at e2
      exact ⟨p, e1, e2.symm⟩
    obtain ⟨p0, -, -⟩ := hr' 0 (by omega)
    classical
    refine ⟨fun j => if hj : j < nv + 1 then (hr' j hj).choose else p0, ?_, ?_⟩
    · rw [e]
      exact arr_congr (fun j hj => by simp only [dif_pos hj]; exact (hr' j hj).choose_spec.2)
    · intro j hj
      simp only [dif_pos hj]
      exact (hr' j hj).choose_spec.1
  obtain ⟨q0, -, -⟩ := hg' 0 (by omega)
  classical
  let ps : ℕ → ℕ → V := fun i => if hi : i < nu + 1 then (hg' i hi).choose else q0
  have hps : ∀ i < nu + 1, g i = arr (nv + 1) (fun j => T i j (ps i j)) ∧
      ∀ j < nv + 1, c.eval (mshParam c.uLo c.uHi nu i) (mshParam c.vLo c.vHi nv j) = ok (ps i j) := by
    intro i hi
    simp only [ps, dif_pos hi]
    exact (hg' i hi).choose_spec
  refine ⟨hN.1, hN.2, ps, vs, fun i hi j hj => (hps i (by omega)).2 j (by omega), h2, ?_⟩
  rw [pure_eq, ok.injEq] at h3
  rw [← h3]
  have e0 : arr (nu + 1) g = arr (nu + 1) (fun i => arr (nv + 1) (fun j => T i j (ps i j))) :=
    arr_congr (fun i hi => (hps i hi).1)
  have emap : ∀ {β : Type} (f : ℕ × List K × List ℕ → β), (arr (nu + 1) g).flatten.map f =
      (arr (nu + 1) (fun i => arr (nv + 1) (fun j => f (T i j (ps i j))))).flatten := by
    intro β f
    rw [e0, List.map_flatten, arr_map]
    simp only [arr_map]
  rw [emap, emap, emap]
  have e3 := flatten_arr_if nu nv (fun i j => quadRow m.maxNode m.maxElem nv i j)
  simp only [T]
  rw [e3]

theorem patchEntityOk (no eo nu nv tag : ℕ) (data : List K)
    (hd : data.length = (nu + 1) * (nv + 1) * 5) :
    EntityOk (⟨2, tag, (nu + 1) * (nv + 1),
        (arr (nu + 1) (fun i => arr (nv + 1) (fun j => no + i * (nv + 1) + j + 1))).flatten, data⟩ :
        NodeBlock K)
      ⟨2, tag, 3, nu * nv, ((arr nu (fun i => arr nv (fun j => quadRow no eo nv i j))).flatten).flatten⟩ ∧
    (⟨2, tag, 3, nu * nv, ((arr nu (fun i => arr nv (fun j => quadRow no eo nv i j))).flatten).flatten⟩ :
      ElemBlock).rows = (arr nu (fun i => arr nv (fun j => quadRow no eo nv i j))).flatten ∧
    (arr (nu + 1) (fun i => arr (nv + 1) (fun j => no + i * (nv + 1) + j + 1))).flatten =
      List.range' (no + 1) ((nu + 1) * (nv + 1)) := by
  have hmem : ∀ r, r ∈ (arr nu (fun i => arr nv (fun j => quadRow no eo nv i j))).flatten →
      ∃ i < nu, ∃ j < nv, r = quadRow no eo nv i j := by
    intro r hr
    simp only [arr, List.mem_flatten, List.mem_map, List.mem_range] at hr
    obtain ⟨l, ⟨i, hi, rfl⟩, hr⟩ := hr
    simp only [List.mem_map, List.mem_range] at hr
    obtain ⟨j, hj, rfl⟩ := hr
    exact ⟨i, hi, j, hj, rfl⟩
  have hL : ∀ r ∈ (arr nu (fun i => arr nv (fun j => quadRow no eo nv i j))).flatten,
      r.length = 5 := by
    intro r hr
    obtain ⟨i, _, j, _, rfl⟩ := hmem r hr
    rfl
  have hlen : (arr nu (fun i => arr nv (fun j => quadRow no eo nv i j))).flatten.length = nu * nv := by
    rw [flatten_length (k := nv)]
    · simp [arr]
    · intro r hr
      simp only [arr, List.mem_map] at hr
      obtain ⟨i, _, rfl⟩ := hr
      simp
  have hrows : (⟨2, tag, 3, nu * nv,
      ((arr nu (fun i => arr nv (fun j => quadRow no eo nv i j))).flatten).flatten⟩ :
      ElemBlock).rows = (arr nu (fun i => arr nv (fun j => quadRow no eo nv i j))).flatten := by
    have := rowsOf_flatten _ hL []
    rw [hlen, List.append_nil] at this
    exact this
  have htags : (arr (nu + 1) (fun i => arr (nv + 1) (fun j => no + i * (nv + 1) + j + 1))).flatten =
      List.range' (no + 1) ((nu + 1) * (nv + 1)) := by
    rw [← arr_arr_range']
    congr 1
    exact arr_congr (fun i _ => arr_congr (fun j _ => by omega))
  refine ⟨⟨rfl, rfl, rfl, Or.inr rfl, ?_, by simpa using hd, ?_, ?_, ?_⟩, hrows, htags⟩
  · simp only
    rw [htags, List.length_range']
  · show (((arr nu (fun i => arr nv (fun j => quadRow no eo nv i j))).flatten).flatten).length =
      nu * nv * 5
    rw [flatten_length _ hL, hlen]
  · intro r hr t ht
    rw [hrows] at hr
    obtain ⟨i, hi, j, hj, rfl⟩ := hmem r hr
    simp only
    rw [htags, List.mem_range'_1]
    have h1 : (i + 1) * (nv + 1) + (nv + 1) ≤ (nu + 1) * (nv + 1) := by
      have := Nat.mul_le_mul_right (nv + 1) (show i + 1 + 1 ≤ nu + 1 by omega)
      rw [Nat.add_mul (i + 1) 1, Nat.one_mul] at this
      exact this
    have h2 : i * (nv + 1) ≤ (i + 1) * (nv + 1) := Nat.mul_le_mul_right _ (by omega)
    simp only [quadRow, List.tail_cons, List.mem_cons, List.not_mem_nil, or_false] at ht
    omega
  · intro r hr
    rw [hrows] at hr
    obtain ⟨i, hi, j, hj, rfl⟩ := hmem r hr
    have h2 : i * (nv + 1) + (nv + 1) = (i + 1) * (nv + 1) := by ring
    simp only [quadRow, List.tail_cons, List.nodup_cons, List.mem_cons, List.not_mem_nil, or_false,
      not_false_eq_true, List.nodup_nil, and_true, not_or]
    omega

theorem addPatchSampled_ok {coord : V → ℕ → K} {dim : ℕ} {m m' : Mesh K} {c : MshPatchIn K V}
    {nu nv tag : ℕ} (hm : MeshOk m) (h : addPatchSampled coord dim m c nu nv tag = ok m') :
    MeshOk m' := by
  obtain ⟨hu, hv0, ps, vs, -, hv, rfl⟩ := addPatchSampled_inv h
  obtain ⟨hE, hrows, htags⟩ := patchEntityOk m.maxNode m.maxElem nu nv tag
    ((arr (nu + 1) (fun i => arr (nv + 1) (fun j => mshCoords coord dim (ps i j) ++
      [mshParam c.uLo c.uHi nu i, mshParam c.vLo c.vHi nv j]))).flatten).flatten (by
      rw [flatten_length (k := 5), flatten_length (k := nv + 1)]
      · simp [arr]
      · intro r hr
        simp only [arr, List.mem_map] at hr
        obtain ⟨i, _, rfl⟩ := hr
        simp
      · intro r hr
        simp only [arr, List.mem_flatten, List.mem_map, List.mem_range] at hr
        obtain ⟨l, ⟨i, hi, rfl⟩, hr⟩ := hr
        simp only [List.mem_map, List.mem_range] at hr
        obtain ⟨j, hj, rfl⟩ := hr
        simp [mshCoords])
  obtain ⟨hv1, hv2, -⟩ := pushEntries_spec hv
  have helem : (⟨2, tag, 3, nu * nv,
      ((arr nu (fun i => arr nv (fun j => quadRow m.maxNode m.maxElem nv i j))).flatten).flatten⟩ :
      ElemBlock).elemTags = List.range' (m.maxElem + 1) (nu * nv) := by
    rw [ElemBlock.elemTags, hrows, List.map_flatten, arr_map, ← arr_arr_range']
    congr 1
    refine arr_congr (fun i _ => ?_)
    rw [arr_map]
    exact arr_congr (fun j _ => by simp [quadRow]; omega)
  refine hm.append 1 hE ?_ ?_ ?_ ?_
  · exact htags
  · exact helem
  · rw [hv1, helem, ← arr_range', arr_map]
    congr 1
    · by_cases hm0 : m.views.length ≤ 1
      · rw [if_pos hm0]; simp
      · rw [if_neg hm0]
    · exact arr_congr (fun i _ => by simp; omega)
  · apply hv2
    intro d hd
    by_cases hm0 : m.views.length ≤ 1
    · rw [if_pos hm0, List.mem_append, List.mem_singleton] at hd
      rcases hd with hd | rfl
      · exact hm.viewCounts d hd
      · rfl
    · rw [if_neg hm0] at hd
      exact hm.viewCounts d hd

theorem emptyMesh_ok : MeshOk ({} : Mesh K) where
  nodeTags := rfl
  numNodes := rfl
  numNodeBlocks := rfl
  elemTags := rfl
  numElems := rfl
  numElemBlocks := rfl
  minElem := fun h => absurd rfl h
  entities := List.Forall₂.nil
  views := rfl
  viewCounts := by simp

end NS
