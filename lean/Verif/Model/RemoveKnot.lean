import Verif.Model.Rational

/-!
# Model: knot removal

`remove_knot` of BSplineBase.h:191-286 and NURBS.h:126-132.  Indices are C++ `int`s; reading or
writing outside an array is `ub`.  A division by zero is `ub` too (the code would go on with an
infinity or NaN, which the model has not).  The norm of a point difference and the extent of the
bounding box (only used for a negative tolerance) are parameters, because points are elements of
any module.
-/

namespace NS.BSpline

open Outcome

variable {K V : Type} [Field K] [LinearOrder K] [AddCommGroup V] [Module K V]

/-- Division in `remove_knot`, BSplineBase.h:231-234, 246; a zero divisor is `ub`. -/
def quot (a b : K) : Outcome K := do
  Outcome.assert (b ≠ 0)
  pure (a / b)

/-- `alpha_i`, BSplineBase.h:231 and 246. -/
def alphaL (u : List K) (t : K) (p k i : ℤ) : Outcome K := do
  let a ← rdI u i
  let b ← rdI u (i + (p + 1) + k)
  quot (t - a) (b - a)

/-- `alpha_j`, BSplineBase.h:232. -/
def alphaR (u : List K) (t : K) (p k j : ℤ) : Outcome K := do
  let a ← rdI u (j - k)
  let b ← rdI u (j + (p + 1))
  quot (t - a) (b - a)

/-- First `while` loop of a pass, BSplineBase.h:230-239; `w` is the counter of the recursion, the
variables are those of the code. -/
def solveLoop (u : List K) (P : List V) (t : K) (p k : ℤ) :
    ℕ → (i j ii jj : ℤ) → List V → Outcome (ℤ × ℤ × ℤ × ℤ × List V)
  | w, i, j, ii, jj, temp =>
    if j - i > k then
      match w with
      | 0 => ub
      | w + 1 => do
        let ai ← alphaL u t p k i
        let aj ← alphaR u t p k j
        let x ← rdI P i
        let y ← rdI temp (ii - 1)
        let q ← quot 1 ai
        let temp ← wrI temp ii (q • (x - (1 - ai) • y))
        let x ← rdI P j
        let y ← rdI temp (jj + 1)
        let q ← quot 1 (1 - aj)
        let temp ← wrI temp jj (q • (x - aj • y))
        solveLoop u P t p k w (i + 1) (j - 1) (ii + 1) (jj - 1) temp
    else ok (i, j, ii, jj, temp)

/-- The vector whose norm is compared with the tolerance, BSplineBase.h:241-252. -/
def residual (u : List K) (P temp : List V) (t : K) (p k i j ii jj : ℤ) : Outcome V :=
  if j - i < k then do
    let x ← rdI temp (ii - 1)
    let y ← rdI temp (jj + 1)
    pure (x - y)
  else do
    let ai ← alphaL u t p k i
    let z ← rdI P i
    let x ← rdI temp (ii + k + 1)
    let y ← rdI temp (ii - 1)
    pure (z - (ai • x + (1 - ai) • y))

/-- Second `while` loop of a pass, BSplineBase.h:254-261. -/
def storeLoop (temp : List V) (k off : ℤ) : ℕ → (i j : ℤ) → List V → Outcome (List V)
  | w, i, j, P =>
    if j - i > k then
      match w with
      | 0 => ub
      | w + 1 => do
        let x ← rdI temp (i - off)
        let P ← wrI P i x
        let x ← rdI temp (j - off)
        let P ← wrI P j x
        storeLoop temp k off w (i + 1) (j - 1) P
    else ok P

/-- The passes, BSplineBase.h:223-264: `w` passes are still allowed, `k` (also the `count` of the
code) are done. -/
def removeLoop (nrm : V → K) (u : List K) (t tol : K) (p : ℤ) :
    ℕ → ℕ → (first last : ℤ) → (P temp : List V) → Outcome (ℕ × List V)
  | 0, k, _, _, P, _ => ok (k, P)
  | w + 1, k, first, last, P, temp => do
    let off := first - 1
    let x ← rdI P off
    let temp ← wrI temp 0 x
    let x ← rdI P (last + 1)
    let temp ← wrI temp (last + 1 - off) x
    let fuel := (last - first).toNat + 1
    let (i, j, ii, jj, temp) ← solveLoop u P t p k fuel first last 1 (last - off) temp
    let v ← residual u P temp t p k i j ii jj
    if nrm v > tol then ok (k, P)
    else do
      let P ← storeLoop temp k off fuel first last P
      removeLoop nrm u t tol p w (k + 1) (first - 1) (last + 1) P temp

/-- Knots after the removal of `count` copies ending at index `r`, BSplineBase.h:267-270. -/
def removedKnots (u : List K) (r : ℤ) (count : ℕ) : Outcome (List K) := do
  let M := u.length
  let u ← loop (M - (r + 1).toNat) (fun x u => do
    let a ← rdI u (r + 1 + x)
    wrI u (r + 1 + x - count) a) u
  seg u 0 (M - count)

/-- Position of the gap, BSplineBase.h:271-278. -/
def gap (fout : ℤ) (count : ℕ) : ℤ × ℤ :=
  (List.range (count - 1)).foldl
    (fun (ji : ℤ × ℤ) x => if (x + 1) % 2 = 1 then (ji.1, ji.2 + 1) else (ji.1 - 1, ji.2))
    (fout, fout)

/-- Control points after closing the gap, BSplineBase.h:279-283. -/
def closeGap (P : List V) (j i : ℤ) : Outcome (List V) := do
  let N := P.length
  let P ← loop (N - (i + 1).toNat) (fun x P => do
    let a ← rdI P (i + 1 + x)
    wrI P (j + x) a) P
  let j := j + ((N - (i + 1).toNat : ℕ) : ℤ)
  Outcome.assert (0 ≤ j)
  seg P 0 j.toNat

/-- `remove_knot`, BSplineBase.h:191-286; returns the curve and the number of knots removed.
`extent` is the largest coordinate range of the control points (line 198-200), `eps` the machine
epsilon of `in_domain`. -/
def removeKnot (nrm : V → K) (extent : List V → K) (eps : K) (c : BSpline K V) (t : K)
    (num : ℕ) (tol : K) : Outcome (BSpline K V × ℕ) := do
  Outcome.assert (num ≥ 1)
  let dom ← c.inDomain eps t
  Outcome.assert (dom = true)
  c.validate
  let tol := if tol < 0 then extent c.ctrl * (1 / 10 ^ 6) else tol
  let p := c.degree
  let r ← c.locateSpan t
  let s ← c.multAt t r
  let m : ℤ := (c.knots.length : ℤ) - 1
  if s = 0 then ok (c, 0)
  else if r ≤ p ∨ r ≥ m - p then ok (c, 0)
  else do
    Outcome.assert (r ≥ p)
    let a ← rdI c.knots (r + 1)
    let b ← rdI c.knots r
    Outcome.assert (a ≠ b)
    let fout := Int.tdiv (2 * r - s - p) 2
    let temp := List.replicate c.ctrl.length (0 : V)
    let (count, P) ← removeLoop nrm c.knots t tol p num 0 (r - p) (r - s) c.ctrl temp
    if count = 0 then ok ({ c with ctrl := P }, 0)
    else do
      let w ← removedKnots c.knots r count
      let ji := gap fout count
      let q ← closeGap P ji.1 ji.2
      pure ({ c with ctrl := q, knots := w }, count)

end NS.BSpline

namespace NS.NURBS

open Outcome

variable {K V : Type} [Field K] [LinearOrder K] [AddCommGroup V] [Module K V]

/-- `NURBS::remove_knot`, NURBS.h:126-132. -/
def removeKnot (nrm : V × K → K) (extent : List (V × K) → K) (eps : K) (c : NURBS K V) (t : K)
    (num : ℕ) (tol : K) : Outcome (NURBS K V × ℕ) := do
  c.validate
  let (h, r) ← c.hom.removeKnot nrm extent eps t num tol
  let c ← ofHomogeneous h
  pure (c, r)

end NS.NURBS
