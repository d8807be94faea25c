import Verif.Model.Svg

/-!
# What a PostScript interpreter does with the operators the EPS exporter needs
-/

namespace NS.Spec

/-- The state of the interpreter: operands (last first), the current path as a list of polylines and
circles, and what has been painted. -/
structure PsState (K : Type) where
  stack : List K
  path : List (List (K × K))
  circles : List ((K × K) × K)
  stroked : List (List (List (K × K)))
  filled : List (List (List (K × K)) × List ((K × K) × K))
  deriving DecidableEq

variable {K : Type}

/-- One token; `none` is an error (undefined name, missing operand, no current point). -/
def psStep (s : PsState K) : PsTok K → Option (PsState K)
  | .num x => some { s with stack := x :: s.stack }
  | .name n =>
    if n = "setrgbcolor" then
      match s.stack with
      | _ :: _ :: _ :: r => some { s with stack := r }
      | _ => none
    else if n = "setlinewidth" then
      match s.stack with
      | _ :: r => some { s with stack := r }
      | _ => none
    else if n = "moveto" then
      match s.stack with
      | y :: x :: r => some { s with stack := r, path := s.path ++ [[(x, y)]] }
      | _ => none
    else if n = "lineto" then
      match s.stack, s.path.getLast? with
      | y :: x :: r, some l => some { s with stack := r, path := s.path.dropLast ++ [l ++ [(x, y)]] }
      | _, _ => none
    else if n = "arc" then
      match s.stack with
      | _ :: _ :: r :: y :: x :: q => some { s with stack := q, circles := s.circles ++ [((x, y), r)] }
      | _ => none
    else if n = "stroke" then
      some { s with path := [], circles := [], stroked := s.stroked ++ [s.path] }
    else if n = "fill" then
      some { s with path := [], circles := [], filled := s.filled ++ [(s.path, s.circles)] }
    else none

/-- A program, from a state. -/
def psRun : PsState K → List (PsTok K) → Option (PsState K)
  | s, [] => some s
  | s, t :: ts => (psStep s t).bind (fun s' => psRun s' ts)

/-- The state at the start of a page. -/
def psStart : PsState K := ⟨[], [], [], [], []⟩

end NS.Spec
