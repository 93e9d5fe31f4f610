import Verif.Model.Layers

/-!
# The tile generator (bathygrid/bgrid.py:756-791)
-/

namespace Bathy

/-- what `get_tiles_by_resolution` yields for a tile, in this order: the geotransform, "the column index", "the row index", the number of cells in a
row, the layers -/
structure TileYield where
  geo : Option Geo
  dataCol : Nat
  dataRow : Nat
  cells : Nat
  data : Dict Layer LayerArr
  deriving DecidableEq

namespace Grid
variable {τ : Type} [LayerLike τ]

/-- bathygrid/bgrid.py:787-791: one round of the loop; bathygrid/grids.py:184-202 `_tile_idx_to_row_col` is `divmod` by the number of columns -/
def yieldStep (env : Env) (res : ℚ) (layers : List Layer) (nodata : Option ℚ) (zUp : Bool) (s : Grid τ × List TileYield) (k : Nat) : Res (Grid τ × List TileYield) :=
  match s.1.tile? k with
  | some (some _) =>
    match s.1.getTileData env (k / s.1.txs.length) (k % s.1.txs.length) res layers nodata zUp with
    | (g, .error e) => .fail (g, s.2) e
    | (g, .ok d) => .ok (g, s.2 ++ [⟨d.geo, d.row0, d.col0, d.cells, d.data⟩])
  | _ => .ok s

/-- bathygrid/bgrid.py:756-791 `get_tiles_by_resolution`, with what was yielded before a possible exception.  The resolution is looked at before
`no_grid` here. -/
def tilesByResolution (env : Env) (g : Grid τ) (res : Option ℚ) (layers : List Layer) (nodata : Option ℚ) (zUp : Bool) : Res (Grid τ × List TileYield) :=
  match g.queryRes res with
  | .error e => .fail (g, []) e
  | .ok r =>
    match g.noGrid with
    | .error e => .fail (g, []) e
    | .ok true => .fail (g, []) .valueError
    | .ok false => Res.forEach (List.range g.slots) (g, []) (yieldStep env r layers nodata zUp)

end Grid

end Bathy
