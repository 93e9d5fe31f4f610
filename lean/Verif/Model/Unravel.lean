/-!
# `my_unravel_index`

bathygrid/algorithms.py:291-304.  It is compiled with numba: integers are python integers here (int64 there), `//` and `%` are those of python, division by zero raises.
-/

namespace Bathy

/-- what goes wrong in bathygrid/algorithms.py:291-304: division by 0 raises ZeroDivisionError; `sizes[-1]` of an empty array is a write out of bounds, which
compiled code does not check (undefined behaviour, kept apart from every result) -/
inductive UnravelErr
  | zeroDivision | outOfBounds
  deriving DecidableEq, Repr

/-- bathygrid/algorithms.py:296-299: `sizes[-1] = 1`, `sizes[i] = sizes[i + 1] * shape[i + 1]` -/
def strides : List Int → List Int
  | [] => []
  | [_] => [1]
  | _ :: t :: ss =>
    match strides (t :: ss) with
    | [] => []
    | n :: ns => n * t :: n :: ns

/-- bathygrid/algorithms.py:300-303 -/
def unravelLoop : Int → List Int → Except UnravelErr (List Int)
  | _, [] => .ok []
  | rem, n :: ns =>
    if n = 0 then .error .zeroDivision else
    match unravelLoop (rem.fmod n) ns with
    | .ok r => .ok (rem.fdiv n :: r)
    | .error e => .error e

/-- bathygrid/algorithms.py:291-304 `my_unravel_index`; with an empty shape `sizes[-1]` is out of bounds -/
def myUnravel (index : Int) (shape : List Int) : Except UnravelErr (List Int) :=
  if shape = [] then .error .outOfBounds else unravelLoop index (strides shape)

end Bathy
