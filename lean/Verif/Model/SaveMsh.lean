import Mathlib.Algebra.Field.Basic
import Verif.Basic.Grid

/-!
# Model of the sampled mesh written by `save_msh.h`

The mesh is the `nodes`, `elements` and `element_data` part of `mshio::MshSpec`; its counters start at
zero.  Curves and patches are represented by what the code uses of them: `evaluate`, the bounds and the
dimension.  Tags and counters are natural numbers (overflow is not modelled).  Writing the specification to
a file (`mshio::save_msh`) is outside the model.
-/

namespace NS

open Outcome

variable {K V : Type} [Field K]

/-- `mshio::NodeBlock`, as filled in save_msh.h:31-35 and 155-160. -/
structure NodeBlock (K : Type) where
  dim : ℕ
  tag : ℕ
  count : ℕ
  tags : List ℕ
  data : List K
  deriving DecidableEq, Repr

/-- `mshio::ElementBlock`, as filled in save_msh.h:43-47 and 168-173. -/
structure ElemBlock where
  dim : ℕ
  tag : ℕ
  etype : ℕ
  count : ℕ
  data : List ℕ
  deriving DecidableEq, Repr

/-- `mshio::Data`: whether its name is `"curve_entity"` (otherwise `"patch_entity"`), `int_tags[2]`, and
the pairs of element tag and entity tag, save_msh.h:74-92 and 210-229. -/
structure DataView where
  ofCurves : Bool
  count : ℕ
  entries : List (ℕ × ℕ)
  deriving DecidableEq, Repr

/-- The parts of `mshio::MshSpec` used for sampled curves and patches. -/
structure Mesh (K : Type) where
  nodeBlocks : List (NodeBlock K) := []
  numNodeBlocks : ℕ := 0
  numNodes : ℕ := 0
  minNode : ℕ := 0
  maxNode : ℕ := 0
  elemBlocks : List ElemBlock := []
  numElemBlocks : ℕ := 0
  numElems : ℕ := 0
  minElem : ℕ := 0
  maxElem : ℕ := 0
  views : List DataView := []
  deriving DecidableEq, Repr

/-- What `add_curve_sampled` uses of a curve; `coord p k` is `p[k]`. -/
structure MshCurveIn (K V : Type) where
  eval : K → Outcome V
  lo : K
  hi : K

/-- What `add_patch_sampled` uses of a patch. -/
structure MshPatchIn (K V : Type) where
  eval : K → K → Outcome V
  uLo : K
  uHi : K
  vLo : K
  vHi : K

/-- The three coordinates pushed for a point, save_msh.h:59-65 and 189-195; `dim` is `get_dim()`. -/
def mshCoords (coord : V → ℕ → K) (dim : ℕ) (p : V) : List K :=
  [coord p 0, coord p 1, if dim = 2 then 0 else coord p 2]

/-- `element_data.back()` gets `M` more entries, save_msh.h:85-92 and 221-229. -/
def pushEntries (vs : List DataView) (entries : List (ℕ × ℕ)) : Outcome (List DataView) :=
  match vs.getLast? with
  | none => ub
  | some d => ok (vs.dropLast ++
      [{ d with count := d.count + entries.length, entries := d.entries ++ entries }])

/-- `internal::add_curve_sampled`, save_msh.h:18-93.  The `push_back` calls of round `i` are collected per
round: node tag, node data, element data.  With `N = 0` the code evaluates at NaN; that is undefined
here. -/
def addCurveSampled (coord : V → ℕ → K) (dim : ℕ) (m : Mesh K) (c : MshCurveIn K V) (N tag : ℕ) :
    Outcome (Mesh K) := do
  let no := m.maxNode
  let eo := m.maxElem
  let rounds ← tab (N + 1) (fun i => do
    Outcome.assert (N ≠ 0)
    let r : K := (i : K) / (N : K)
    let t : K := c.lo * (1 - r) + c.hi * r
    let p ← c.eval t
    pure (no + i + 1, mshCoords coord dim p ++ [t],
      if i ≠ N then [eo + i + 1, no + i + 1, no + i + 2] else []))
  let vs := if m.views = [] then m.views ++ [⟨true, 0, []⟩] else m.views
  let vs ← pushEntries vs ((List.range N).map (fun i : ℕ => (eo + i + 1, tag)))
  pure { m with
    nodeBlocks := m.nodeBlocks ++
      [⟨1, tag, N + 1, rounds.map (fun x => x.1), (rounds.map (fun x => x.2.1)).flatten⟩],
    numNodeBlocks := m.numNodeBlocks + 1,
    numNodes := m.numNodes + (N + 1),
    minNode := tag,
    maxNode := m.maxNode + (N + 1),
    elemBlocks := m.elemBlocks ++ [⟨1, tag, 1, N, (rounds.map (fun x => x.2.2)).flatten⟩],
    numElemBlocks := m.numElemBlocks + 1,
    numElems := m.numElems + N,
    minElem := 1,
    maxElem := m.maxElem + N,
    views := vs }

/-- `internal::add_patch_sampled`, save_msh.h:135-230.  With no samples in a direction the code evaluates
at NaN; that is undefined here. -/
def addPatchSampled (coord : V → ℕ → K) (dim : ℕ) (m : Mesh K) (c : MshPatchIn K V) (nu nv tag : ℕ) :
    Outcome (Mesh K) := do
  let no := m.maxNode
  let eo := m.maxElem
  let N := (nu + 1) * (nv + 1)
  let M := nu * nv
  let rounds ← tab (nu + 1) (fun i => tab (nv + 1) (fun j => do
    Outcome.assert (nu ≠ 0 ∧ nv ≠ 0)
    let ru : K := (i : K) / (nu : K)
    let u : K := c.uLo * (1 - ru) + c.uHi * ru
    let rv : K := (j : K) / (nv : K)
    let v : K := c.vLo * (1 - rv) + c.vHi * rv
    let p ← c.eval u v
    pure (no + i * (nv + 1) + j + 1, mshCoords coord dim p ++ [u, v],
      if i ≠ nu ∧ j ≠ nv then
        [eo + i * nv + j + 1, no + i * (nv + 1) + j + 1, no + (i + 1) * (nv + 1) + j + 1,
          no + (i + 1) * (nv + 1) + j + 2, no + i * (nv + 1) + j + 2]
      else [])))
  let rounds := rounds.flatten
  let vs := if m.views.length ≤ 1 then m.views ++ [⟨false, 0, []⟩] else m.views
  let vs ← pushEntries vs ((List.range M).map (fun i : ℕ => (eo + i + 1, tag)))
  pure { m with
    nodeBlocks := m.nodeBlocks ++
      [⟨2, tag, N, rounds.map (fun x => x.1), (rounds.map (fun x => x.2.1)).flatten⟩],
    numNodeBlocks := m.numNodeBlocks + 1,
    numNodes := m.numNodes + N,
    minNode := 1,
    maxNode := m.maxNode + N,
    elemBlocks := m.elemBlocks ++ [⟨2, tag, 3, M, (rounds.map (fun x => x.2.2)).flatten⟩],
    numElemBlocks := m.numElemBlocks + 1,
    numElems := m.numElems + M,
    minElem := 1,
    maxElem := m.maxElem + M,
    views := vs }

/-- The loop over the curves of `save_msh` (sampled part), save_msh.h:305-312, starting at `tag`. -/
def saveCurves (coord : V → ℕ → K) (dim : ℕ) : List (MshCurveIn K V) → ℕ → Mesh K → Outcome (Mesh K)
  | [], _, m => ok m
  | c :: cs, tag, m => do
    let m ← addCurveSampled coord dim m c 100 tag
    saveCurves coord dim cs (tag + 1) m

/-- The loop over the patches of `save_msh` (sampled part), save_msh.h:314-323.  Each patch comes with the
two values of `num_recommended_samples_u/v()`. -/
def savePatches (coord : V → ℕ → K) (dim : ℕ) :
    List (MshPatchIn K V × ℕ × ℕ) → ℕ → Mesh K → Outcome (Mesh K)
  | [], _, m => ok m
  | p :: ps, tag, m => do
    let m ← addPatchSampled coord dim m p.1 (p.2.1 * 2) (p.2.2 * 2) tag
    savePatches coord dim ps (tag + 1) m

/-- The mesh built by `save_msh` with `save_sampled`, save_msh.h:292-326. -/
def saveSampled (coord : V → ℕ → K) (dim : ℕ) (cs : List (MshCurveIn K V))
    (ps : List (MshPatchIn K V × ℕ × ℕ)) : Outcome (Mesh K) := do
  let m ← saveCurves coord dim cs 1 {}
  savePatches coord dim ps 1 m

end NS
