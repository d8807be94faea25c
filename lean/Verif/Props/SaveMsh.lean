import Mathlib.Algebra.Order.Ring.Rat
import Mathlib.Algebra.Field.Rat
import Mathlib.Data.List.Nodup
import Mathlib.Tactic.FieldSimp
import Verif.Proof.SaveMsh

/-!
# C52, C70, C71: the sampled mesh of `save_msh`

`MeshOk` (Spec/Msh.lean) is a statement about the finished mesh: tags, counts, references and entity data.
-/

set_option linter.unusedSectionVars false
set_option linter.unusedSimpArgs false

namespace NS

open Outcome

variable {K V : Type} [Field K]

/-- A call of one of the two functions that add a sampled entity. -/
inductive MshOp (K V : Type) where
  | curve (c : MshCurveIn K V) (N tag : ℕ)
  | patch (p : MshPatchIn K V) (nu nv tag : ℕ)

/-- Executing a sequence of calls. -/
def runMsh (coord : V → ℕ → K) (dim : ℕ) : List (MshOp K V) → Mesh K → Outcome (Mesh K)
  | [], m => ok m
  | .curve c N tag :: ops, m => do
    let m ← addCurveSampled coord dim m c N tag
    runMsh coord dim ops m
  | .patch p nu nv tag :: ops, m => do
    let m ← addPatchSampled coord dim m p nu nv tag
    runMsh coord dim ops m

theorem runMsh_ok {coord : V → ℕ → K} {dim : ℕ} (ops : List (MshOp K V)) {m m' : Mesh K}
    (hm : MeshOk m) (h : runMsh coord dim ops m = ok m') : MeshOk m' := by
  induction ops generalizing m with
  | nil => cases h; exact hm
  | cons op ops ih =>
    cases op with
    | curve c N tag =>
      rw [runMsh] at h
      obtain ⟨m1, h1, h2⟩ := bind_eq_ok.1 h
      exact ih (addCurveSampled_ok hm h1) h2
    | patch p nu nv tag =>
      rw [runMsh] at h
      obtain ⟨m1, h1, h2⟩ := bind_eq_ok.1 h
      exact ih (addPatchSampled_ok hm h1) h2

/-- C52, proved part: after any sequence of calls, with any curves, patches, sample counts and entity
tags, the mesh is consistent.  Missing: the header field `min_node_tag`, see `C52_min_node_refuted`. -/
theorem C52_mesh_partial {coord : V → ℕ → K} {dim : ℕ} (ops : List (MshOp K V)) {m : Mesh K}
    (h : runMsh coord dim ops {} = ok m) : MeshOk m :=
  runMsh_ok ops emptyMesh_ok h

/-- C52: the calls only fail if a sample count is zero or an evaluation fails. -/
theorem C52_total {coord : V → ℕ → K} {dim : ℕ} (ops : List (MshOp K V))
    (H : ∀ op ∈ ops, match op with
      | .curve c N _ => N ≠ 0 ∧ ∀ t, ∃ p, c.eval t = ok p
      | .patch p nu nv _ => nu ≠ 0 ∧ nv ≠ 0 ∧ ∀ u v, ∃ x, p.eval u v = ok x) (m : Mesh K) :
    ∃ m', runMsh coord dim ops m = ok m' := by
  induction ops generalizing m with
  | nil => exact ⟨m, rfl⟩
  | cons op ops ih =>
    have H' := H op List.mem_cons_self
    have ih' := fun m => ih (fun o ho => H o (List.mem_cons_of_mem _ ho)) m
    cases op with
    | curve c N tag =>
      obtain ⟨hN, he⟩ := H'
      choose e he using he
      rw [runMsh, addCurveSampled]
      rw [tab_eq (g := fun i : ℕ => (m.maxNode + i + 1,
        mshCoords coord dim (e (mshParam c.lo c.hi N i)) ++ [mshParam c.lo c.hi N i],
        if i ≠ N then [m.maxElem + i + 1, m.maxNode + i + 1, m.maxNode + i + 2] else []))
        (by intro i _
            rw [assert_true hN, ok_bind]
            simp only [he, ok_bind]
            rfl)]
      obtain ⟨vs, hvs⟩ := pushEntries_ok
        (vs := if m.views = [] then m.views ++ [⟨true, 0, []⟩] else m.views)
        (by split <;> simp_all) ((List.range N).map (fun i : ℕ => (m.maxElem + i + 1, tag)))
      simp only [ok_bind, hvs, pure_eq]
      exact ih' _
    | patch p nu nv tag =>
      obtain ⟨hu, hv, he⟩ := H'
      choose e he using he
      rw [runMsh, addPatchSampled]
      rw [tab_eq (g := fun i : ℕ => arr (nv + 1) (fun j : ℕ => (m.maxNode + i * (nv + 1) + j + 1,
        mshCoords coord dim (e (mshParam p.uLo p.uHi nu i) (mshParam p.vLo p.vHi nv j)) ++
          [mshParam p.uLo p.uHi nu i, mshParam p.vLo p.vHi nv j],
        if i ≠ nu ∧ j ≠ nv then quadRow m.maxNode m.maxElem nv i j else [])))
        (by intro i _
            apply tab_eq
            intro j _
            rw [assert_true ⟨hu, hv⟩, ok_bind]
            simp only [he, ok_bind]
            rfl)]
      obtain ⟨vs, hvs⟩ := pushEntries_ok
        (vs := if m.views.length ≤ 1 then m.views ++ [⟨false, 0, []⟩] else m.views)
        (by
          split
          · simp
          · rename_i hlen
            intro h0
            exact hlen (by rw [h0]; simp))
        ((List.range (nu * nv)).map (fun i : ℕ => (m.maxElem + i + 1, tag)))
      simp only [ok_bind, hvs, pure_eq]
      exact ih' _

theorem saveCurves_min {coord : V → ℕ → K} {dim : ℕ} (cs : List (MshCurveIn K V)) {tag : ℕ}
    {m m' : Mesh K} (h : saveCurves coord dim cs tag m = ok m') (hne : cs ≠ []) :
    m'.minNode = tag + (cs.length - 1) := by
  induction cs generalizing tag m with
  | nil => exact absurd rfl hne
  | cons c cs ih =>
    rw [saveCurves] at h
    obtain ⟨m1, h1, h2⟩ := bind_eq_ok.1 h
    by_cases hc : cs = []
    · subst hc
      cases h2
      obtain ⟨_, ps, vs, -, -, rfl⟩ := addCurveSampled_inv h1
      simp
    · rw [ih h2 hc, List.length_cons]
      have := List.length_pos_iff.2 hc
      omega

theorem savePatches_min {coord : V → ℕ → K} {dim : ℕ} (ps : List (MshPatchIn K V × ℕ × ℕ)) {tag : ℕ}
    {m m' : Mesh K} (h : savePatches coord dim ps tag m = ok m') (hne : ps ≠ []) : m'.minNode = 1 := by
  induction ps generalizing tag m with
  | nil => exact absurd rfl hne
  | cons p ps ih =>
    rw [savePatches] at h
    obtain ⟨m1, h1, h2⟩ := bind_eq_ok.1 h
    by_cases hc : ps = []
    · subst hc
      cases h2
      obtain ⟨_, _, ps, vs, -, -, rfl⟩ := addPatchSampled_inv h1
      rfl
    · exact ih h2 hc

theorem saveCurves_ok {coord : V → ℕ → K} {dim : ℕ} (cs : List (MshCurveIn K V)) {tag : ℕ}
    {m m' : Mesh K} (hm : MeshOk m) (h : saveCurves coord dim cs tag m = ok m') : MeshOk m' := by
  induction cs generalizing tag m with
  | nil => cases h; exact hm
  | cons c cs ih =>
    rw [saveCurves] at h
    obtain ⟨m1, h1, h2⟩ := bind_eq_ok.1 h
    exact ih (addCurveSampled_ok hm h1) h2

theorem savePatches_ok {coord : V → ℕ → K} {dim : ℕ} (ps : List (MshPatchIn K V × ℕ × ℕ)) {tag : ℕ}
    {m m' : Mesh K} (hm : MeshOk m) (h : savePatches coord dim ps tag m = ok m') : MeshOk m' := by
  induction ps generalizing tag m with
  | nil => cases h; exact hm
  | cons p ps ih =>
    rw [savePatches] at h
    obtain ⟨m1, h1, h2⟩ := bind_eq_ok.1 h
    exact ih (addPatchSampled_ok hm h1) h2

/-- C52, proved part, for `save_msh`: with at least one patch, or exactly one curve, the header field
`min_node_tag` is right as well. -/
theorem C52_save_partial {coord : V → ℕ → K} {dim : ℕ} {cs : List (MshCurveIn K V)}
    {ps : List (MshPatchIn K V × ℕ × ℕ)} {m : Mesh K} (h : saveSampled coord dim cs ps = ok m) :
    MeshOk m ∧ (ps ≠ [] ∨ cs.length = 1 → m.minNode = 1) := by
  rw [saveSampled] at h
  obtain ⟨m1, h1, h2⟩ := bind_eq_ok.1 h
  refine ⟨savePatches_ok ps (saveCurves_ok cs emptyMesh_ok h1) h2, fun hc => ?_⟩
  by_cases hp : ps = []
  · subst hp
    cases h2
    have hl : cs.length = 1 := by
      rcases hc with hc | hc
      · exact absurd rfl hc
      · exact hc
    rw [saveCurves_min cs h1 (by intro h0; simp [h0] at hl), hl]
  · exact savePatches_min ps h2 hp

/-- C52 is false for every list of two or more curves without patches: the smallest node tag is 1, but
`min_node_tag` is the number of curves. -/
theorem C52_min_node_refuted {coord : V → ℕ → K} {dim : ℕ} {cs : List (MshCurveIn K V)} {m : Mesh K}
    (h : saveSampled coord dim cs [] = ok m) (hl : 2 ≤ cs.length) :
    1 ∈ m.nodeBlocks.flatMap NodeBlock.tags ∧ m.minNode = cs.length ∧ m.minNode ≠ 1 := by
  have hok := (C52_save_partial h).1
  rw [saveSampled] at h
  obtain ⟨m1, h1, h2⟩ := bind_eq_ok.1 h
  cases h2
  have hne : cs ≠ [] := by intro h0; simp [h0] at hl
  have hmin := saveCurves_min cs h1 hne
  refine ⟨?_, by omega, by omega⟩
  cases cs with
  | nil => exact absurd rfl hne
  | cons c cs =>
    rw [saveCurves] at h1
    obtain ⟨m0, h3, h4⟩ := bind_eq_ok.1 h1
    have hmono : ∀ (cs : List (MshCurveIn K V)) (tag : ℕ) (a b : Mesh K),
        saveCurves coord dim cs tag a = ok b → a.maxNode ≤ b.maxNode := by
      intro cs
      induction cs with
      | nil => intro tag a b hab; cases hab; exact le_rfl
      | cons c cs ih =>
        intro tag a b hab
        rw [saveCurves] at hab
        obtain ⟨a1, e1, e2⟩ := bind_eq_ok.1 hab
        have := ih _ _ _ e2
        obtain ⟨_, ps, vs, -, -, rfl⟩ := addCurveSampled_inv e1
        simp only at this
        omega
    have := hmono _ _ _ _ h4
    obtain ⟨_, ps, vs, -, -, rfl⟩ := addCurveSampled_inv h3
    rw [hok.nodeTags, List.mem_range'_1]
    simp only at this
    omega

/-- C70: the nodes written for a curve are its points at `N + 1` equidistant parameters from the lower to
the upper bound, each stored with its parameter, and element `i` joins nodes `i` and `i + 1`. -/
theorem C70_curve_samples [CharZero K] {coord : V → ℕ → K} {dim : ℕ} {m m' : Mesh K}
    {c : MshCurveIn K V} {N tag : ℕ} (h : addCurveSampled coord dim m c N tag = ok m') :
    ∃ (t : ℕ → K) (p : ℕ → V) (nb : NodeBlock K) (eb : ElemBlock),
      m'.nodeBlocks = m.nodeBlocks ++ [nb] ∧ m'.elemBlocks = m.elemBlocks ++ [eb] ∧
      t 0 = c.lo ∧ t N = c.hi ∧ (∀ i, t (i + 1) - t i = (c.hi - c.lo) / N) ∧
      (∀ i ≤ N, c.eval (t i) = ok (p i)) ∧
      nb.data = (arr (N + 1) (fun i => [coord (p i) 0, coord (p i) 1,
        if dim = 2 then 0 else coord (p i) 2, t i])).flatten ∧
      eb.rows = arr N (fun i => [m.maxElem + i + 1, m.maxNode + i + 1, m.maxNode + i + 2]) := by
  obtain ⟨hN, ps, vs, he, -, rfl⟩ := addCurveSampled_inv h
  have hN' : (N : K) ≠ 0 := Nat.cast_ne_zero.2 hN
  refine ⟨mshParam c.lo c.hi N, ps, _, _, rfl, rfl, by simp [mshParam], ?_, ?_, he, rfl, ?_⟩
  · simp [mshParam, div_self hN']
  · intro i
    simp only [mshParam]
    push_cast
    field_simp
    ring
  · exact (curveEntityOk (K := K) m.maxNode m.maxElem N tag (List.replicate ((N + 1) * 4) 0)
      (by simp)).2

/-- C70: the nodes written for a patch are its points on the grid of equidistant parameters covering the
domain, stored with both parameters; each element is one grid cell. -/
theorem C70_patch_samples [CharZero K] {coord : V → ℕ → K} {dim : ℕ} {m m' : Mesh K}
    {c : MshPatchIn K V} {nu nv tag : ℕ} (h : addPatchSampled coord dim m c nu nv tag = ok m') :
    ∃ (s t : ℕ → K) (p : ℕ → ℕ → V) (nb : NodeBlock K) (eb : ElemBlock),
      m'.nodeBlocks = m.nodeBlocks ++ [nb] ∧ m'.elemBlocks = m.elemBlocks ++ [eb] ∧
      s 0 = c.uLo ∧ s nu = c.uHi ∧ t 0 = c.vLo ∧ t nv = c.vHi ∧
      (∀ i, s (i + 1) - s i = (c.uHi - c.uLo) / nu) ∧ (∀ i, t (i + 1) - t i = (c.vHi - c.vLo) / nv) ∧
      (∀ i ≤ nu, ∀ j ≤ nv, c.eval (s i) (t j) = ok (p i j)) ∧
      nb.data = ((arr (nu + 1) (fun i => arr (nv + 1) (fun j => [coord (p i j) 0, coord (p i j) 1,
        if dim = 2 then 0 else coord (p i j) 2, s i, t j]))).flatten).flatten ∧
      (∀ r, r ∈ eb.rows ↔ ∃ i < nu, ∃ j < nv, r = [m.maxElem + i * nv + j + 1,
        m.maxNode + (i * (nv + 1) + j) + 1, m.maxNode + ((i + 1) * (nv + 1) + j) + 1,
        m.maxNode + ((i + 1) * (nv + 1) + (j + 1)) + 1,
        m.maxNode + (i * (nv + 1) + (j + 1)) + 1]) := by
  obtain ⟨hu, hv, ps, vs, he, -, rfl⟩ := addPatchSampled_inv h
  have hu' : (nu : K) ≠ 0 := Nat.cast_ne_zero.2 hu
  have hv' : (nv : K) ≠ 0 := Nat.cast_ne_zero.2 hv
  refine ⟨mshParam c.uLo c.uHi nu, mshParam c.vLo c.vHi nv, ps, _, _, rfl, rfl, by simp [mshParam],
    by simp [mshParam, div_self hu'], by simp [mshParam], by simp [mshParam, div_self hv'], ?_, ?_, he,
    rfl, ?_⟩
  · intro i
    simp only [mshParam]
    push_cast
    field_simp
    ring
  · intro i
    simp only [mshParam]
    push_cast
    field_simp
    ring
  · have hrows := (patchEntityOk (K := K) m.maxNode m.maxElem nu nv tag
      (List.replicate ((nu + 1) * (nv + 1) * 5) 0) (by simp)).2.1
    intro r
    rw [hrows]
    simp only [arr, List.mem_flatten, List.mem_map, List.mem_range]
    constructor
    · rintro ⟨l, ⟨i, hi, rfl⟩, hr⟩
      simp only [List.mem_map, List.mem_range] at hr
      obtain ⟨j, hj, rfl⟩ := hr
      refine ⟨i, hi, j, hj, ?_⟩
      simp only [quadRow, List.cons.injEq, and_true, true_and]
      omega
    · rintro ⟨i, hi, j, hj, rfl⟩
      refine ⟨_, ⟨i, hi, rfl⟩, ?_⟩
      simp only [List.mem_map, List.mem_range]
      refine ⟨j, hj, ?_⟩
      simp only [quadRow, List.cons.injEq, and_true, true_and]
      omega

/-! ## Entity data views -/

theorem pushEntries_append (l : List DataView) (d : DataView) (es : List (ℕ × ℕ)) :
    pushEntries (l ++ [d]) es =
      ok (l ++ [{ d with count := d.count + es.length, entries := d.entries ++ es }]) := by
  simp [pushEntries]

/-- The pairs of element tag and entity tag of the blocks of dimension `d`. -/
def entitiesOfDim {K : Type} (m : Mesh K) (d : ℕ) : List (ℕ × ℕ) :=
  (m.elemBlocks.filter (fun b => b.dim = d)).flatMap (fun b => b.elemTags.map (fun t => (t, b.tag)))

theorem addCurveSampled_views {coord : V → ℕ → K} {dim : ℕ} {m m' : Mesh K} {c : MshCurveIn K V}
    {N tag : ℕ} (h : addCurveSampled coord dim m c N tag = ok m') :
    ∃ es, entitiesOfDim m' 1 = entitiesOfDim m 1 ++ es ∧ entitiesOfDim m' 2 = entitiesOfDim m 2 ∧
      pushEntries (if m.views = [] then m.views ++ [⟨true, 0, []⟩] else m.views) es = ok m'.views := by
  obtain ⟨hN, ps, vs, -, hv, rfl⟩ := addCurveSampled_inv h
  refine ⟨_, ?_, ?_, hv⟩
  · have hrows := (curveEntityOk (K := K) m.maxNode m.maxElem N tag
      (List.replicate ((N + 1) * 4) 0) (by simp)).2
    simp only [entitiesOfDim, List.filter_append, List.flatMap_append]
    congr 1
    simp only [List.filter_cons, decide_true, if_true, List.filter_nil, List.flatMap_cons,
      List.flatMap_nil, List.append_nil]
    rw [ElemBlock.elemTags, hrows, arr_map, arr_map]
    exact arr_congr (fun i _ => by simp)
  · simp [entitiesOfDim, List.filter_append, List.flatMap_append]

theorem addPatchSampled_views {coord : V → ℕ → K} {dim : ℕ} {m m' : Mesh K} {c : MshPatchIn K V}
    {nu nv tag : ℕ} (h : addPatchSampled coord dim m c nu nv tag = ok m') :
    ∃ es, entitiesOfDim m' 2 = entitiesOfDim m 2 ++ es ∧ entitiesOfDim m' 1 = entitiesOfDim m 1 ∧
      pushEntries (if m.views.length ≤ 1 then m.views ++ [⟨false, 0, []⟩] else m.views) es =
        ok m'.views := by
  obtain ⟨hu, hv0, ps, vs, -, hv, rfl⟩ := addPatchSampled_inv h
  refine ⟨_, ?_, ?_, hv⟩
  · have hrows := (patchEntityOk (K := K) m.maxNode m.maxElem nu nv tag
      (List.replicate ((nu + 1) * (nv + 1) * 5) 0) (by simp)).2.1
    simp only [entitiesOfDim, List.filter_append, List.flatMap_append]
    congr 1
    simp only [List.filter_cons, decide_true, if_true, List.filter_nil, List.flatMap_cons,
      List.flatMap_nil, List.append_nil]
    rw [ElemBlock.elemTags, hrows, List.map_flatten, arr_map]
    simp only [arr_map]
    have : (arr nu (fun i => arr nv (fun j => (quadRow m.maxNode m.maxElem nv i j).headD 0))).flatten =
        List.range' (m.maxElem + 1) (nu * nv) := by
      rw [← arr_arr_range']
      congr 1
      exact arr_congr (fun i _ => arr_congr (fun j _ => by simp [quadRow]; omega))
    rw [this, ← arr_range', arr_map]
    exact arr_congr (fun i _ => by simp; omega)
  · simp [entitiesOfDim, List.filter_append, List.flatMap_append]

theorem saveCurves_views {coord : V → ℕ → K} {dim : ℕ} (cs : List (MshCurveIn K V)) {tag : ℕ}
    {m m' : Mesh K} (h : saveCurves coord dim cs tag m = ok m') (h2 : entitiesOfDim m 2 = [])
    (hv : (m.views = [] ∧ entitiesOfDim m 1 = []) ∨ ∃ k, m.views = [⟨true, k, entitiesOfDim m 1⟩]) :
    entitiesOfDim m' 2 = [] ∧ ((m' = m ∧ cs = []) ∨
      ∃ k, m'.views = [⟨true, k, entitiesOfDim m' 1⟩]) := by
  induction cs generalizing tag m with
  | nil => cases h; exact ⟨h2, Or.inl ⟨rfl, rfl⟩⟩
  | cons c cs ih =>
    rw [saveCurves] at h
    obtain ⟨m1, h1, h3⟩ := bind_eq_ok.1 h
    obtain ⟨es, e1, e2, e3⟩ := addCurveSampled_views h1
    have hk : ∃ k, m1.views = [⟨true, k, entitiesOfDim m1 1⟩] := by
      rcases hv with ⟨hv, hv'⟩ | ⟨k, hv⟩
      · rw [hv, if_pos rfl, pushEntries_append, ok.injEq] at e3
        exact ⟨_, by rw [← e3, e1, hv']; rfl⟩
      · rw [hv, if_neg (by simp), show [(⟨true, k, entitiesOfDim m 1⟩ : DataView)] =
          [] ++ [⟨true, k, entitiesOfDim m 1⟩] by rfl, pushEntries_append, ok.injEq] at e3
        exact ⟨_, by rw [← e3, e1]; rfl⟩
    obtain ⟨h4, h5⟩ := ih h3 (by rw [e2, h2]) (Or.inr hk)
    refine ⟨h4, Or.inr ?_⟩
    rcases h5 with ⟨rfl, -⟩ | h5
    · exact hk
    · exact h5

theorem savePatches_views {coord : V → ℕ → K} {dim : ℕ} (ps : List (MshPatchIn K V × ℕ × ℕ))
    {tag : ℕ} {m m' : Mesh K} (h : savePatches coord dim ps tag m = ok m')
    (hv : ∃ a b, m.views = [⟨true, a, entitiesOfDim m 1⟩, ⟨false, b, entitiesOfDim m 2⟩]) :
    ∃ a b, m'.views = [⟨true, a, entitiesOfDim m' 1⟩, ⟨false, b, entitiesOfDim m' 2⟩] := by
  induction ps generalizing tag m with
  | nil => cases h; exact hv
  | cons p ps ih =>
    rw [savePatches] at h
    obtain ⟨m1, h1, h3⟩ := bind_eq_ok.1 h
    obtain ⟨es, e1, e2, e3⟩ := addPatchSampled_views h1
    apply ih h3
    obtain ⟨a, b, hv⟩ := hv
    rw [hv, if_neg (by simp), show [(⟨true, a, entitiesOfDim m 1⟩ : DataView),
      ⟨false, b, entitiesOfDim m 2⟩] = [⟨true, a, entitiesOfDim m 1⟩] ++ [⟨false, b, entitiesOfDim m 2⟩]
      by rfl, pushEntries_append, ok.injEq] at e3
    exact ⟨a, _, by rw [← e3, e1, e2]; rfl⟩

/-- C71, proved part: with at least one curve, `save_msh` writes at most one view per kind, and the view of
the curves (patches) lists exactly the elements of the curves (patches), each with the tag of its
entity.  Missing: files without curves, see `C71_views_refuted`. -/
theorem C71_views_partial {coord : V → ℕ → K} {dim : ℕ} {cs : List (MshCurveIn K V)}
    {ps : List (MshPatchIn K V × ℕ × ℕ)} {m : Mesh K} (h : saveSampled coord dim cs ps = ok m)
    (hc : cs ≠ []) :
    (m.views.map DataView.ofCurves).Nodup ∧
      ∀ d ∈ m.views, d.entries = entitiesOfDim m (if d.ofCurves then 1 else 2) := by
  rw [saveSampled] at h
  obtain ⟨m1, h1, h2⟩ := bind_eq_ok.1 h
  obtain ⟨h3, h4⟩ := saveCurves_views cs h1 rfl (Or.inl ⟨rfl, rfl⟩)
  obtain ⟨k, hk⟩ : ∃ k, m1.views = [⟨true, k, entitiesOfDim m1 1⟩] := by
    rcases h4 with ⟨-, h4⟩ | h4
    · exact absurd h4 hc
    · exact h4
  cases ps with
  | nil => cases h2; rw [hk]; simp
  | cons p ps =>
    rw [savePatches] at h2
    obtain ⟨m2, h5, h6⟩ := bind_eq_ok.1 h2
    obtain ⟨es, e1, e2, e3⟩ := addPatchSampled_views h5
    rw [hk, if_pos (by simp), pushEntries_append, ok.injEq] at e3
    obtain ⟨a, b, hv⟩ := savePatches_views ps h6
      ⟨k, _, by rw [← e3, e1, e2, h3]; rfl⟩
    rw [hv]
    simp

/-- C71 is false for every file with no curves and two or more patches: the elements of the first patch
and those of the others end up in two views of the same name. -/
theorem C71_views_refuted {coord : V → ℕ → K} {dim : ℕ} {p q : MshPatchIn K V × ℕ × ℕ}
    {m : Mesh K} (ps : List (MshPatchIn K V × ℕ × ℕ))
    (h : saveSampled coord dim [] (p :: q :: ps) = ok m) :
    m.views.map DataView.ofCurves = [false, false] := by
  have hstay : ∀ (ps : List (MshPatchIn K V × ℕ × ℕ)) (tag : ℕ) (a b : Mesh K),
      savePatches coord dim ps tag a = ok b → a.views.map DataView.ofCurves = [false, false] →
      b.views.map DataView.ofCurves = [false, false] := by
    intro ps
    induction ps with
    | nil => intro tag a b hab; cases hab; exact id
    | cons p ps ih =>
      intro tag a b hab ha
      rw [savePatches] at hab
      obtain ⟨m1, h1, h2⟩ := bind_eq_ok.1 hab
      obtain ⟨es, -, -, e3⟩ := addPatchSampled_views h1
      refine ih _ _ _ h2 ?_
      rw [(pushEntries_spec e3).2.2, if_neg, ha]
      have := congrArg List.length ha
      simp at this
      omega
  rw [saveSampled, saveCurves, ok_bind, savePatches] at h
  obtain ⟨m1, h1, h⟩ := bind_eq_ok.1 h
  rw [savePatches] at h
  obtain ⟨m2, h2, h⟩ := bind_eq_ok.1 h
  obtain ⟨es, -, -, e3⟩ := addPatchSampled_views h1
  obtain ⟨es', -, -, e4⟩ := addPatchSampled_views h2
  have hm1 : m1.views.map DataView.ofCurves = [false] := by
    rw [(pushEntries_spec e3).2.2, if_pos (by simp)]
    rfl
  refine hstay ps _ _ _ h ?_
  rw [(pushEntries_spec e4).2.2, if_pos]
  · rw [List.map_append, hm1]; rfl
  · have := congrArg List.length hm1
    simp at this
    omega

/-! ## Entities -/

theorem saveCurves_blocks {coord : V → ℕ → K} {dim : ℕ} (cs : List (MshCurveIn K V)) {tag : ℕ}
    {m m' : Mesh K} (h : saveCurves coord dim cs tag m = ok m') :
    m'.nodeBlocks.map (fun b => (b.dim, b.tag, b.count)) =
        m.nodeBlocks.map (fun b => (b.dim, b.tag, b.count)) ++
          (cs.zipIdx tag).map (fun c => (1, c.2, 101)) ∧
      m'.elemBlocks.map (fun b => (b.dim, b.tag, b.etype, b.count)) =
        m.elemBlocks.map (fun b => (b.dim, b.tag, b.etype, b.count)) ++
          (cs.zipIdx tag).map (fun c => (1, c.2, 1, 100)) := by
  induction cs generalizing tag m with
  | nil => cases h; simp
  | cons c cs ih =>
    rw [saveCurves] at h
    obtain ⟨m1, h1, h2⟩ := bind_eq_ok.1 h
    obtain ⟨a, b⟩ := ih h2
    obtain ⟨-, q, vs, -, -, rfl⟩ := addCurveSampled_inv h1
    rw [a, b]
    simp [List.zipIdx_cons]

theorem savePatches_blocks {coord : V → ℕ → K} {dim : ℕ} (ps : List (MshPatchIn K V × ℕ × ℕ))
    {tag : ℕ} {m m' : Mesh K} (h : savePatches coord dim ps tag m = ok m') :
    m'.nodeBlocks.map (fun b => (b.dim, b.tag, b.count)) =
        m.nodeBlocks.map (fun b => (b.dim, b.tag, b.count)) ++
          (ps.zipIdx tag).map (fun p => (2, p.2, (p.1.2.1 * 2 + 1) * (p.1.2.2 * 2 + 1))) ∧
      m'.elemBlocks.map (fun b => (b.dim, b.tag, b.etype, b.count)) =
        m.elemBlocks.map (fun b => (b.dim, b.tag, b.etype, b.count)) ++
          (ps.zipIdx tag).map (fun p => (2, p.2, 3, (p.1.2.1 * 2) * (p.1.2.2 * 2))) := by
  induction ps generalizing tag m with
  | nil => cases h; simp
  | cons p ps ih =>
    rw [savePatches] at h
    obtain ⟨m1, h1, h2⟩ := bind_eq_ok.1 h
    obtain ⟨a, b⟩ := ih h2
    obtain ⟨-, -, q, vs, -, -, rfl⟩ := addPatchSampled_inv h1
    rw [a, b]
    simp [List.zipIdx_cons]

/-- C52: the saved file has one block of nodes and one of elements per entity: the curves, numbered from
one, as lines with 100 elements, then the patches, again numbered from one, as quadrangles with four times
the recommended number of cells.  In particular entities of one dimension have different tags. -/
theorem C52_entities {coord : V → ℕ → K} {dim : ℕ} {cs : List (MshCurveIn K V)}
    {ps : List (MshPatchIn K V × ℕ × ℕ)} {m : Mesh K} (h : saveSampled coord dim cs ps = ok m) :
    m.nodeBlocks.map (fun b => (b.dim, b.tag, b.count)) =
        (cs.zipIdx 1).map (fun c => (1, c.2, 101)) ++
          (ps.zipIdx 1).map (fun p => (2, p.2, (p.1.2.1 * 2 + 1) * (p.1.2.2 * 2 + 1))) ∧
      m.elemBlocks.map (fun b => (b.dim, b.tag, b.etype, b.count)) =
        (cs.zipIdx 1).map (fun c => (1, c.2, 1, 100)) ++
          (ps.zipIdx 1).map (fun p => (2, p.2, 3, 4 * (p.1.2.1 * p.1.2.2))) ∧
      (m.elemBlocks.map (fun b => (b.dim, b.tag))).Nodup ∧
      (m.nodeBlocks.map (fun b => (b.dim, b.tag))).Nodup := by
  rw [saveSampled] at h
  obtain ⟨m1, h1, h2⟩ := bind_eq_ok.1 h
  obtain ⟨a1, b1⟩ := saveCurves_blocks cs h1
  obtain ⟨a2, b2⟩ := savePatches_blocks ps h2
  rw [a1] at a2
  rw [b1] at b2
  have nd : ((cs.zipIdx 1).map (fun c => (1, c.2)) ++
      (ps.zipIdx 1).map (fun p => (2, p.2)) : List (ℕ × ℕ)).Nodup := by
    have e : ∀ {α : Type} (l : List α) (k : ℕ),
        (l.zipIdx 1).map (fun c => (k, c.2)) = (List.range' 1 l.length).map (fun i => (k, i)) := by
      intro α l k
      rw [show (fun c : α × ℕ => (k, c.2)) = (fun i => (k, i)) ∘ Prod.snd from rfl, ← List.map_map,
        List.zipIdx_map_snd]
    rw [e, e, List.nodup_append]
    refine ⟨List.Nodup.map (fun a b h => (Prod.mk.inj h).2) List.nodup_range',
      List.Nodup.map (fun a b h => (Prod.mk.inj h).2) List.nodup_range', ?_⟩
    intro x hx y hy hxy
    obtain ⟨_, _, rfl⟩ := List.mem_map.1 hx
    obtain ⟨_, _, rfl⟩ := List.mem_map.1 hy
    cases (Prod.mk.inj hxy).1
  refine ⟨a2, ?_, ?_, ?_⟩
  · rw [b2]
    simp only [List.map_nil, List.nil_append]
    congr 1
    refine List.map_congr_left fun p _ => ?_
    rw [show p.1.2.1 * 2 * (p.1.2.2 * 2) = 4 * (p.1.2.1 * p.1.2.2) by ring]
  · have := congrArg (List.map fun x : ℕ × ℕ × ℕ × ℕ => (x.1, x.2.1)) b2
    simp only [List.map_append, List.map_map, List.map_nil, List.nil_append] at this
    exact this ▸ nd
  · have := congrArg (List.map fun x : ℕ × ℕ × ℕ => (x.1, x.2.1)) a2
    simp only [List.map_append, List.map_map, List.map_nil, List.nil_append] at this
    exact this ▸ nd

/-- A concrete mesh: the segment with two elements after a one-cell patch, written out. -/
example : runMsh (fun (x : ℚ) _ => x) 3
    [.patch ⟨fun u v => ok (u + v), 0, 1, 0, 1⟩ 1 1 1, .curve ⟨fun t => ok t, 0, 2⟩ 2 7] {} =
    ok { nodeBlocks :=
          [⟨2, 1, 4, [1, 2, 3, 4], [0, 0, 0, 0, 0, 1, 1, 1, 0, 1, 1, 1, 1, 1, 0, 2, 2, 2, 1, 1]⟩,
           ⟨1, 7, 3, [5, 6, 7], [0, 0, 0, 0, 1, 1, 1, 1, 2, 2, 2, 2]⟩],
         numNodeBlocks := 2, numNodes := 7, minNode := 7, maxNode := 7,
         elemBlocks := [⟨2, 1, 3, 1, [1, 1, 3, 4, 2]⟩, ⟨1, 7, 1, 2, [2, 5, 6, 3, 6, 7]⟩],
         numElemBlocks := 2, numElems := 3, minElem := 1, maxElem := 3,
         views := [⟨false, 3, [(1, 1), (2, 7), (3, 7)]⟩] } := by
  decide +kernel

/-- The refutations apply to files that exist. -/
example : (∃ m, saveSampled (fun (x : ℚ) _ => x) 3 [⟨fun t => ok t, 0, 1⟩, ⟨fun t => ok (2 * t), 0, 1⟩]
      [] = ok m) ∧
    ∃ m, saveSampled (fun (x : ℚ) _ => x) 3 []
      [(⟨fun u v => ok (u + v), 0, 1, 0, 1⟩, 1, 1), (⟨fun u v => ok (u * v), 0, 1, 0, 1⟩, 1, 2)] =
        ok m := by
  constructor
  · obtain ⟨m, h⟩ := C52_total (coord := fun (x : ℚ) _ => x) (dim := 3)
      [.curve ⟨fun t : ℚ => ok t, 0, 1⟩ 100 1, .curve ⟨fun t => ok (2 * t), 0, 1⟩ 100 2] (by
        intro op hop
        simp only [List.mem_cons, List.not_mem_nil, or_false] at hop
        rcases hop with rfl | rfl <;> exact ⟨by norm_num, fun t => ⟨_, rfl⟩⟩) {}
    exact ⟨m, by simpa only [runMsh, saveSampled, saveCurves, savePatches, bind_assoc, ok_bind] using h⟩
  · obtain ⟨m, h⟩ := C52_total (coord := fun (x : ℚ) _ => x) (dim := 3)
      [.patch ⟨fun u v : ℚ => ok (u + v), 0, 1, 0, 1⟩ 2 2 1,
        .patch ⟨fun u v => ok (u * v), 0, 1, 0, 1⟩ 2 4 2] (by
        intro op hop
        simp only [List.mem_cons, List.not_mem_nil, or_false] at hop
        rcases hop with rfl | rfl <;> exact ⟨by norm_num, by norm_num, fun u v => ⟨_, rfl⟩⟩) {}
    exact ⟨m, by simpa only [runMsh, saveSampled, saveCurves, savePatches, bind_assoc, ok_bind] using h⟩

end NS
