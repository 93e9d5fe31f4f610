import Verif.Basic.Np
import Verif.Basic.Arr2

/-!
# Soundings, layers, algorithms and the environment (external functions)
-/

namespace Bathy

/-- One sounding of the structured array given to `add_points` (bathygrid/bgrid.py:665-706, README).
`tvu`, `thu` are only meaningful when the dtype of the array has these fields, see `PtArr`. -/
structure Pt where
  x : ℚ
  y : ℚ
  z : ℚ
  tvu : ℚ := 0
  thu : ℚ := 0
  deriving DecidableEq, Repr

/-- The optional fields of the numpy structured dtype ('x', 'y', 'z' are always present in the model). -/
structure Fields where
  hasTvu : Bool := false
  hasThu : Bool := false
  deriving DecidableEq, Repr

/-- A numpy structured array of soundings. -/
structure PtArr where
  fields : Fields
  pts : List Pt
  deriving DecidableEq, Repr

/-- Names of the arrays held in `tile.cells[resolution]` (bathygrid/tile.py:338-351, 383-384, 532).
Simplification: a container query layer `cells[res][name]` is a separate constructor, so container names that coincide
with built in layer names are outside the model. -/
inductive Layer
  | depth | intensity | density | vertical | horizontal | hypCount | totalUnc | hypRatio | xSlope | ySlope
  | cont (c : String) | contDensity (c : String)
  deriving DecidableEq, Repr

/-- gridding algorithms (bathygrid/tile.py:762-767); `other` is any other string -/
inductive Alg
  | mean | shoalest | cube | other
  deriving DecidableEq, Repr

/-- `auto_resolution_mode` (bathygrid/tile.py:716-722) -/
inductive AutoMode
  | depth | density | other
  deriving DecidableEq, Repr

/-- `regrid_option` (bathygrid/bgrid.py:1312) -/
inductive RegridOption
  | full | update
  deriving DecidableEq, Repr

/-- the attribute `grid_resolution` of a grid: the resolution asked for, or 'AUTO_…' (bathygrid/bgrid.py:1500, 1509) -/
inductive GridRes
  | unset | value (r : ℚ) | auto (m : AutoMode)
  deriving DecidableEq, Repr

/-- the `grid_parameters` dict, only used by CUBE (bathygrid/tile.py:478-494) -/
structure GridParams where
  method : Option String := none
  ihoOrder : Option String := none
  varianceSelection : Option String := none
  deriving DecidableEq, Repr

/-- a gridded layer, `none` is NaN -/
abbrev LayerArr := Arr2 (Option ℚ)

/-- `np.argsort`: *any* function returning a permutation that sorts its argument (numpy's default sort is not stable, so the
model does not fix the order of ties). -/
structure Argsort (α : Type) [LE α] where
  run : List α → List Nat
  perm : ∀ l, (run l).Perm (List.range l.length)
  sorted : ∀ l, ((run l).filterMap (fun i => l[i]?)).Pairwise (· ≤ ·)

/-- Arguments of the external `bathycube.run_cube_gridding` (bathygrid/algorithms.py:202-205). -/
structure CubeArgs where
  depth : List ℚ
  thu : List ℚ
  tvu : List ℚ
  x : List ℚ
  y : List ℚ
  numcols : Nat
  numrows : Nat
  minEasting : ℚ
  maxNorthing : ℚ
  method : String
  ihoOrder : String
  res : ℚ
  variance : String
  deriving DecidableEq, Repr

/-- Result of `run_cube_gridding`: depth, uncertainty, ratio, number of hypotheses. -/
structure CubeOut where
  depth : LayerArr
  unc : LayerArr
  ratio : LayerArr
  numhyp : LayerArr

/-- External functions used by the code: numpy sorting, the CUBE package, least squares and square root.  All theorems hold for
every environment. -/
structure Env where
  argsort : Argsort Int
  argsortQ : Argsort ℚ
  cube : CubeArgs → CubeOut
  /-- slopes (a, b) of the least squares plane through the points (bathygrid/algorithms.py:269-278) -/
  plane : List (ℚ × ℚ × ℚ) → ℚ × ℚ
  sqrt : ℚ → ℚ

end Bathy
