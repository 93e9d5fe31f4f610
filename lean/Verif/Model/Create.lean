import Verif.Model.Files
import Verif.Model.Grid

/-!
# Creation of grids (bathygrid/convenience.py:105-149)
-/

namespace Bathy

/-- the objects that `create_grid` returns -/
inductive AnyGrid
  | single (g : Grid Tile)
  | variable (g : Grid (Grid Tile))

/-- bathygrid/maingrid.py:6-36 and 63-94, the constructors of the four classes, with the default origin (0, 0) and without a folder -/
def construct (c : GridClass) (tileSize subtileSize : ℚ) (isBackscatter : Bool) : Except Err AnyGrid :=
  match c with
  | .srGrid => (Grid.newSR 0 0 tileSize isBackscatter).map .single
  | .srGridZarr => (Grid.newSR 0 0 tileSize isBackscatter).map (fun g => .single { g with name := "SRGridZarr_Root" })
  | .vrGridTile => (Grid.newVR 0 0 tileSize subtileSize isBackscatter).map .variable
  | .vrGridTileZarr => (Grid.newVR 0 0 tileSize subtileSize isBackscatter).map (fun g => .variable { g with name := "VRGridTileZarr_Root" })

/-- bathygrid/convenience.py:105-149 `create_grid` without a folder -/
def create (gridType gridBackend : String) (tileSize subtileSize : ℚ) (isBackscatter : Bool) : Except Err AnyGrid :=
  match createClass gridType gridBackend tileSize subtileSize with
  | .error e => .error e
  | .ok c => construct c tileSize subtileSize isBackscatter

end Bathy
