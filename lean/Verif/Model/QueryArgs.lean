import Verif.Model.Layers

/-!
# The location arguments of `layer_values_at_xy`

`_validate_layer_query` and the branch of `layer_values_at_xy` for a single location.
-/

namespace Bathy

/-- a location argument of `layer_values_at_xy` (bathygrid/bgrid.py:1797-1814): a number, or a list, tuple or array of numbers.  Simplification: arrays have one dimension. -/
inductive LocArg where
  | number (v : ℚ)
  | array (l : List ℚ)
  | list (l : List ℚ)
  | tuple (l : List ℚ)
  deriving DecidableEq

namespace LocArg

/-- bathygrid/bgrid.py:1803-1804: lists and tuples become arrays -/
def fixX : LocArg → LocArg
  | .list l => .array l
  | .tuple l => .array l
  | a => a

/-- bathygrid/bgrid.py:1805-1806: lists become arrays, tuples do not -/
def fixY : LocArg → LocArg
  | .list l => .array l
  | a => a

/-- `float(x_loc)` (bathygrid/bgrid.py:1811-1812); an array with one element is a number, everything else raises -/
def toFloat : LocArg → Option ℚ
  | .number v => some v
  | .array [v] => some v
  | _ => none

end LocArg

/-- what `_validate_layer_query` returns for the locations: `asarrays` with two arrays, `asarrays` with y still a tuple, or two numbers -/
inductive LocQuery where
  | arrays (xs ys : List ℚ)
  | tupleY (xs ys : List ℚ)
  | single (x y : ℚ)
  deriving DecidableEq

/-- bathygrid/bgrid.py:1797-1815 -/
def validateLocs (x y : LocArg) : Except Err LocQuery :=
  let x := x.fixX
  let y := y.fixY
  match x, y with
  | .array xs, .array ys => if xs.length ≠ ys.length then .error .valueError else .ok (.arrays xs ys)
  | .array xs, .tuple ys => .ok (.tupleY xs ys)
  | x, y =>
    match x.toFloat, y.toFloat with
    | some a, some b => .ok (.single a b)
    | _, _ => .error .valueError

/-- the answer is a number or an array of numbers -/
inductive LocAnswer where
  | single (v : Option ℚ)
  | many (vs : List (Option ℚ))
  deriving DecidableEq

namespace Grid
variable {τ : Type} [LayerLike τ]

/-- bathygrid/bgrid.py:1867-1898 with `asarrays` false: `continue` for a location that is out of bounds, otherwise `layer_values` becomes the value of the cell -/
def valueLoop (env : Env) (layer : Layer) (nodata : Option ℚ) (p : ℚ × ℚ) : List ℚ → Grid τ → Option ℚ → Grid τ × Except Err (Option ℚ)
  | [], g, v => (g, .ok v)
  | r :: rs, g, v =>
    if isUnset nodata v then
      match g.returnSurf env [layer] (some r) true nodata with
      | (g, .error e) => (g, .error e)
      | (g, .ok s) =>
        match surfAt s p with
        | .error e => (g, .error e)
        | .ok none => valueLoop env layer nodata p rs g v
        | .ok (some w) => valueLoop env layer nodata p rs g w
    else (g, .ok v)

/-- bathygrid/bgrid.py:1867-1879 with a tuple for y: `y_loc[no_values_yet]` raises TypeError in the first round -/
def tupleLoop (env : Env) (layer : Layer) (nodata : Option ℚ) (g : Grid τ) (vals : List (Option ℚ)) : List ℚ → Grid τ × Except Err (List (Option ℚ))
  | [] => (g, .ok vals)
  | r :: _ =>
    if vals.any (isUnset nodata) then
      match g.returnSurf env [layer] (some r) true nodata with
      | (g, .error e) => (g, .error e)
      | (g, .ok _) => (g, .error .typeError)
    else (g, .ok vals)

/-- bathygrid/bgrid.py:1828-1898 `layer_values_at_xy` with its arguments as given -/
def layerValuesAt (env : Env) (g : Grid τ) (x y : LocArg) (layer : Layer) (res : Option ℚ) (nodata : Option ℚ) : Grid τ × Except Err LocAnswer :=
  match validateLocs x y with
  | .error e => (g, .error e)
  | .ok (.arrays xs ys) =>
    match g.layerValuesAtXY env (xs.zip ys) layer res nodata with
    | (g, .error e) => (g, .error e)
    | (g, .ok vs) => (g, .ok (.many vs))
  | .ok (.tupleY xs _) =>
    match tupleLoop env layer nodata g (xs.map (fun _ => nodata)) (g.queryList res) with
    | (g, .error e) => (g, .error e)
    | (g, .ok vs) => (g, .ok (.many vs))
  | .ok (.single a b) =>
    match valueLoop env layer nodata (a, b) (g.queryList res) g nodata with
    | (g, .error e) => (g, .error e)
    | (g, .ok v) => (g, .ok (.single v))

end Grid
end Bathy
