import Mathlib.Algebra.Field.Basic
import Verif.Basic.Grid

/-!
# Model of `save_obj.h`

A file is the list of its records.  A curve (patch) is represented by its `evaluate` function, the only
part the exporter uses (a patch also by its bounds).  Text formatting of numbers is not modelled.  Record
indices are natural numbers (`int` overflow is not modelled).
-/

namespace NS

open Outcome

variable {K V : Type} [Field K]

/-- One line of an OBJ file: `v x y ...`, `l a b` or `f a b c d`. -/
inductive ObjRec (V : Type) where
  | v (p : V)
  | l (a b : ℕ)
  | f (a b c d : ℕ)
  deriving DecidableEq, Repr

/-- `internal::export_obj`, save_obj.h:9-30: the records appended to the file and the returned number.
For `N = 0` nothing is evaluated. -/
def exportObj (eval : K → Outcome V) (N offset : ℕ) : Outcome (List (ObjRec V) × ℕ) := do
  let vs ← tab N (fun i => do
    let p ← eval ((i : K) / (N : K))
    pure (ObjRec.v p))
  let ls ← tab (N - 1) (fun i => pure (ObjRec.l (i + offset + 1) (i + offset + 2)))
  pure (vs ++ ls, offset + N)

/-- The parts of a patch used by the exporter. -/
structure ObjPatch (K V : Type) where
  eval : K → K → Outcome V
  uLo : K
  uHi : K
  vLo : K
  vHi : K

/-- `internal::export_patch_obj`, save_obj.h:32-69.  With a single sample in a direction the code
evaluates at NaN; that is undefined here. -/
def exportPatchObj (p : ObjPatch K V) (m n offset : ℕ) : Outcome (List (ObjRec V) × ℕ) := do
  let vs ← tab m (fun ui => tab n (fun vi => do
    Outcome.assert (m ≠ 1 ∧ n ≠ 1)
    let x ← p.eval (p.uLo + (p.uHi - p.uLo) * ((ui : K) / ((m : K) - 1)))
      (p.vLo + (p.vHi - p.vLo) * ((vi : K) / ((n : K) - 1)))
    pure (ObjRec.v x)))
  let fs ← tab (m - 1) (fun ui => tab (n - 1) (fun vi =>
    let c0 := ui * n + vi
    let c1 := (ui + 1) * n + vi
    let c2 := (ui + 1) * n + vi + 1
    let c3 := ui * n + vi + 1
    pure (ObjRec.f (c0 + offset + 1) (c1 + offset + 1) (c2 + offset + 1) (c3 + offset + 1))))
  pure (vs.flatten ++ fs.flatten, offset + m * n)

/-- The loops `for (c : list) count += export(fout, c, count);`, save_obj.h:84-87 and 107-109: the file
written so far and `count`. -/
def exportAll {C : Type} (ex : C → ℕ → Outcome (List (ObjRec V) × ℕ)) :
    List C → List (ObjRec V) × ℕ → Outcome (List (ObjRec V) × ℕ)
  | [], s => ok s
  | c :: cs, s => do
    let r ← ex c s.2
    exportAll ex cs (s.1 ++ r.1, s.2 + r.2)

/-- `save_obj(filename, curve)`, save_obj.h:73-79. -/
def saveObj (c : K → Outcome V) : Outcome (List (ObjRec V)) := do
  let r ← exportObj c 100 0
  pure r.1

/-- `save_obj(filename, curves)`, save_obj.h:81-90. -/
def saveObjs (cs : List (K → Outcome V)) : Outcome (List (ObjRec V)) := do
  let r ← exportAll (fun c => exportObj c 100) cs ([], 0)
  pure r.1

/-- `save_patch_obj(filename, patch, m, n)`, save_obj.h:92-101. -/
def savePatchObj (p : ObjPatch K V) (m n : ℕ) : Outcome (List (ObjRec V)) := do
  let r ← exportPatchObj p m n 0
  pure r.1

/-- `save_patch_obj(filename, patches)`, save_obj.h:103-112. -/
def savePatchObjs (ps : List (ObjPatch K V)) : Outcome (List (ObjRec V)) := do
  let r ← exportAll (fun p => exportPatchObj p 100 100) ps ([], 0)
  pure r.1

end NS
