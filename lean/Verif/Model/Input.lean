import Verif.Model.Grid

/-!
# The data given to `add_points`

`OperationalGrid._validate_input_data` and `_convert_dataset` (bathygrid/bgrid.py:2115-2148) in front of `add_points` (bathygrid/bgrid.py:665-706).
-/

namespace Bathy

/-- a variable of an xarray Dataset: no dimension, one dimension, or more.  Simplification: the sizes of more dimensions are left out. -/
inductive Var where
  | scalar (v : ℚ)
  | vec (l : List ℚ)
  | multi
  deriving DecidableEq

/-- what is given as `data` (bathygrid/bgrid.py:2136-2148): an array without names, a structured array as a list of named columns (all of one length), an xarray Dataset, or another
object.  A dask array is the array it computes to (bathygrid/bgrid.py:696-697). -/
inductive Input where
  | bare
  | records (cols : Dict String (List ℚ))
  | dataset (vars : Dict String Var)
  | other
  deriving DecidableEq

namespace Input

/-- `allowed_vars` (bathygrid/bgrid.py:2123) -/
def allowedVars : List String := ["x", "y", "z", "tvu", "thu"]

/-- `empty_struct[varname] = self.data[varname].values` (bathygrid/bgrid.py:2126-2127): numpy repeats a single value; simplification: more dimensions never fit -/
def spread (n : Nat) : Var → Except Err (List ℚ)
  | .scalar v => .ok (List.replicate n v)
  | .vec l => if l.length = n then .ok l else
      match l with
      | [v] => .ok (List.replicate n v)
      | _ => .error .valueError
  | .multi => .error .valueError

/-- the loop of lines 2126-2127 over the allowed variables that are there -/
def convertFrom (n : Nat) (vars : Dict String Var) : List String → Except Err (Dict String (List ℚ))
  | [] => .ok []
  | k :: ks =>
    match vars.get? k with
    | none => convertFrom n vars ks
    | some v =>
      match spread n v with
      | .error e => .error e
      | .ok l =>
        match convertFrom n vars ks with
        | .error e => .error e
        | .ok o => .ok ((k, l) :: o)

/-- bathygrid/bgrid.py:2115-2128 `_convert_dataset`.  `len` of a variable without dimension is a TypeError; of a variable with more dimensions it is the size of the first, and
the assignment then fails. -/
def convertDataset (vars : Dict String Var) : Except Err (Dict String (List ℚ)) :=
  match vars.get? "x" with
  | none => .error .keyError
  | some (.scalar _) => .error .typeError
  | some (.vec l) => convertFrom l.length vars allowedVars
  | some .multi => .error .valueError

/-- bathygrid/bgrid.py:2130-2148 `_validate_input_data` -/
def validate : Input → Except Err (Dict String (List ℚ))
  | .bare => .error .valueError
  | .records cols => if cols = [] then .error .valueError else if !cols.has "x" || !cols.has "y" then .error .valueError else .ok cols
  | .dataset vars =>
    if !vars.has "x" then .error .valueError
    else
      match vars.get? "z" with
      | none => .error .keyError
      | some .multi => .error .valueError
      | some _ => convertDataset vars
  | .other => .error .valueError

end Input

/-- value of a column in a row; a field that is not there is written as 0 -/
def colAt (cols : Dict String (List ℚ)) (k : String) (i : Nat) : ℚ := ((cols.get? k).bind (fun l => l[i]?)).getD 0

/-- the rows of a structured array -/
def rowsOf (cols : Dict String (List ℚ)) : List Pt :=
  (List.range (((cols.get? "x").getD []).length)).map (fun i => ⟨colAt cols "x" i, colAt cols "y" i, colAt cols "z" i, colAt cols "tvu" i, colAt cols "thu" i⟩)

/-- the names that matter -/
def fieldsOf (cols : Dict String (List ℚ)) : Fields := { hasTvu := cols.has "tvu", hasThu := cols.has "thu" }

namespace Grid
variable {τ : Type}

/-- `add_points` from line 702 on, for a structured array with 'x' that may lack 'y' or 'z' (bathygrid/bgrid.py:702-706).  Without 'y' the first access is in `_update_base_grid` (line 580 or
585, a grid that can grow), after the metadata.  Without 'z' the first access is after the points are in the tiles; `noZ` is what then happens (see `addWithoutZ` for single resolution). -/
def addColumns [TileLike τ] (noZ : Grid τ → PtArr → String → AddArgs → Res (Grid τ)) (g : Grid τ) (cols : Dict String (List ℚ)) (c : String) (a : AddArgs) : Res (Grid τ) :=
  if !cols.has "y" then
    let r := g.info.update c a
    match r.err with
    | some e => .fail { g with info := r.st } e
    | none => .fail { g with info := r.st } .valueError
  else if cols.has "z" then addPoints g ⟨fieldsOf cols, rowsOf cols⟩ c a
  else noZ g ⟨fieldsOf cols, rowsOf cols⟩ c a

/-- single resolution, data without 'z': the tiles take the points as they are, the first access to 'z' is in `_update_mean_depth` (bathygrid/bgrid.py:408).  The points in the tiles then have no
z, here written 0. -/
def addWithoutZ (g : Grid Tile) (d : PtArr) (c : String) (a : AddArgs) : Res (Grid Tile) :=
  let r := addPoints g d c a
  match r.err with
  | some e => .fail r.st e
  | none => .fail { r.st with meanDepth := g.meanDepth } .valueError

/-- bathygrid/bgrid.py:665-706 `add_points` with its data argument as given -/
def addInput [TileLike τ] (noZ : Grid τ → PtArr → String → AddArgs → Res (Grid τ)) (g : Grid τ) (d : Input) (c : String) (a : AddArgs) : Res (Grid τ) :=
  if g.info.container.has c then .fail g .valueError
  else
    match d.validate with
    | .error e => .fail g e
    | .ok cols => addColumns noZ g cols c a

end Grid
end Bathy
