import Verif.Basic.Grid
import Mathlib.Algebra.Order.Field.Basic
import Mathlib.Algebra.Module.Basic

/-!
# Model of the class independent parts of `PatchBase.h`
-/

namespace NS

open Outcome

namespace PatchBase

variable {K V : Type} [Field K] [LinearOrder K] [AddCommGroup V]

/-- `find_closest_control_point`, PatchBase.h:373-390: `m`, `n` are the numbers of control points,
`get` reads one, `sq` is `squaredNorm` and `big` the largest scalar. State: `min_dist`, `i_min`,
`j_min`. -/
def findClosest (big : K) (sq : V → K) (m n : ℕ) (get : ℕ → ℕ → Outcome V) (p : V) :
    Outcome (ℕ × ℕ) := do
  let s ← loop m (fun ui s => loop n (fun vj s => do
    let c ← get ui vj
    let dist := sq (p - c)
    pure (if dist < s.1 then (dist, ui, vj) else s)) s) (big, 0, 0)
  pure (s.2.1, s.2.2)

end PatchBase

end NS
