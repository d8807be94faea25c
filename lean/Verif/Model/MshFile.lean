import Verif.Model.MshRecord
import Verif.Model.Numeric

/-!
# Model of the list level of `save_msh` and `load_msh`, and of the short overload of `sample`

The reading and writing of the records by the MshIO library is not part of the repository; it is taken to
give back the records.
-/

namespace NS

open Outcome

variable {K V : Type} [Field K] [LinearOrder K] [IsStrictOrderedRing K] [FloorRing K]
  [AddCommGroup V] [Module K V]

/-- The loop over the curves of `save_msh`, save_msh.h:306-313, without the sampled mesh (see
`Verif.Model.SaveMsh`), from the given tag.  The curves enter through their virtual functions. -/
def saveCurveRecords : List (CurveApi K) → ℕ → Outcome (List (MshCurve K))
  | [], _ => ok []
  | c :: cs, tag => do
    let s ← addCurve c tag
    let rest ← saveCurveRecords cs (tag + 1)
    pure (s :: rest)

/-- The loop over the patches of `save_msh`, save_msh.h:315-324. -/
def savePatchRecords : List (PatchApi K) → ℕ → Outcome (List (MshPatch K))
  | [], _ => ok []
  | p :: ps, tag => do
    let s ← addPatch p tag
    let rest ← savePatchRecords ps (tag + 1)
    pure (s :: rest)

/-- The curve and patch records of the file written by `save_msh`, save_msh.h:293-327. -/
def saveMshRecords (cs : List (CurveApi K)) (ps : List (PatchApi K)) :
    Outcome (List (MshCurve K) × List (MshPatch K)) := do
  let a ← saveCurveRecords cs 1
  let b ← savePatchRecords ps 1
  pure (a, b)

/-- `internal::load_curves`, load_msh.h:268-280. -/
def loadCurves : List (MshCurve K) → Outcome (List (AnyCurve K (P3 K)))
  | [] => ok []
  | s :: ss => do
    let c ← loadCurve s
    let rest ← loadCurves ss
    pure (c :: rest)

/-- `internal::load_patches`, load_msh.h:282-295. -/
def loadPatches : List (MshPatch K) → Outcome (List (AnyPatch K (P3 K)))
  | [] => ok []
  | s :: ss => do
    let c ← loadPatch s
    let rest ← loadPatches ss
    pure (c :: rest)

/-- `load_msh`, load_msh.h:299-308. -/
def loadMsh (f : List (MshCurve K) × List (MshPatch K)) :
    Outcome (List (AnyCurve K (P3 K)) × List (AnyPatch K (P3 K))) := do
  let cs ← loadCurves f.1
  let ps ← loadPatches f.2
  pure (cs, ps)

/-- The overload of `sample` without a range, sample.h:78-86; `lower` and `upper` are the domain bounds of
the curve. -/
def sampleCurve [Geom K V] (fuel : ℕ) (len : K → K → Outcome K) (inv : K → Outcome K) (ev : K → Outcome V)
    (lower upper : Outcome K) (num : ℕ) (m : SampleMethod) : Outcome (List K) := do
  let tMin ← lower
  let tMax ← upper
  sample fuel len inv ev num tMin tMax m

end NS
