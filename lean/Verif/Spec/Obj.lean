import Verif.Model.SaveObj

/-!
# Specification of OBJ files

A polyline or face record belongs to the block of consecutive `v` records that precedes it.  `OwnBlock`
says that all its indices point into that block; it only looks at the file.
-/

namespace NS

variable {V : Type}

/-- The vertices of a file, in order; index `k` of a record refers to entry `k - 1`. -/
def objVertices : List (ObjRec V) → List V
  | [] => []
  | .v p :: rs => p :: objVertices rs
  | _ :: rs => objVertices rs

/-- The vertex indices of a record. -/
def ObjRec.idx : ObjRec V → List ℕ
  | .v _ => []
  | .l a b => [a, b]
  | .f a b c d => [a, b, c, d]

/-- `OwnBlock fresh lo hi rs`: `hi` vertices have been read, the current block consists of the vertices
`lo + 1, ..., hi`, and the next `v` record opens a new block if `fresh`. -/
def OwnBlock : Bool → ℕ → ℕ → List (ObjRec V) → Prop
  | _, _, _, [] => True
  | fresh, lo, hi, .v _ :: rs => OwnBlock false (if fresh then hi else lo) (hi + 1) rs
  | _, lo, hi, .l a b :: rs =>
      (∀ i ∈ [a, b], lo < i ∧ i ≤ hi) ∧ OwnBlock true lo hi rs
  | _, lo, hi, .f a b c d :: rs =>
      (∀ i ∈ [a, b, c, d], lo < i ∧ i ≤ hi) ∧ OwnBlock true lo hi rs

/-- Every index of the file refers to a vertex of the block its record belongs to. -/
def ValidObj (rs : List (ObjRec V)) : Prop := OwnBlock true 0 0 rs

end NS
