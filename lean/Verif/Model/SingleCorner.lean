import Verif.Model.Boundaries
import Verif.Model.Layers

/-!
# Corners in single precision

`np.float32` of the corners of tiles and grids, which `Model/Layers.lean` and `Model/Boundaries.lean` leave out.  `sto` is the rounding to float32, `rnd` that of the sums of coordinates.
-/

namespace Bathy

/-- bathygrid/grids.py:304-312 `get_geotransform` of a tile, with `np.float32` of the corner -/
def Tile.geo32 (sto : ℚ → ℚ) (t : Tile) (res : ℚ) : Option Geo := if t.cells.has res then some ⟨sto t.minX, res, sto t.maxY⟩ else none

/-- bathygrid/bgrid.py:335-343 `get_geotransform` of a grid, with `np.float32` of the corner -/
def Grid.geo32 {τ : Type} (sto : ℚ → ℚ) (g : Grid τ) (res : ℚ) : Option Geo := g.extents.map (fun e => ⟨sto e.minX, res, sto e.maxY⟩)

/-- bathygrid/bgrid.py:871-882: the five points drawn for an edge point, calculated in float64 and put into arrays of float32 -/
def boxAround32 (rnd sto : ℚ → ℚ) (size x y : ℚ) : List (ℚ × ℚ) :=
  [(sto x, sto y), (sto (rnd (x + size)), sto y), (sto (rnd (x + size)), sto (rnd (y + size))), (sto x, sto (rnd (y + size))), (sto x, sto y)]

/-- bathygrid/bgrid.py:870-886: the points of one row; the sum for the last one is calculated in float32 -/
def boundaryRow32 (rnd sto : ℚ → ℚ) (size : ℚ) (xs : List ℚ) (y : ℚ) : List (ℚ × ℚ) :=
  xs.flatMap (fun x => boxAround32 rnd sto size x y) ++ [(sto (xs.getLastD 0), sto (sto y + size))]

/-- bathygrid/bgrid.py:855-890 `get_tile_boundaries`, see `Grid.tileBoundaries` -/
def Grid.tileBoundaries32 {τ : Type} (rnd sto : ℚ → ℚ) (g : Grid τ) : Except Err (List (ℚ × ℚ)) :=
  match g.extents with
  | none => .error .typeError
  | some e =>
    if g.edgesX = [] ∨ g.edgesY = [] then .error .typeError
    else .ok ((g.edgesY.flatMap (boundaryRow32 rnd sto g.tileSize g.edgesX)).dropLast ++ [(sto (g.edgesX.getLastD 0), sto e.maxY)])

end Bathy
