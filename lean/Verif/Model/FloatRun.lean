import Verif.Model.FloatMean
import Verif.Model.GridRun

/-!
# Grids whose tiles are gridded in floating point arithmetic

The grids of `Model/GridRun.lean` with `Arith.gridAt` in place of `Tile.gridAt`.  Everything a grid does with its tiles apart from the numbers in the layers is
the same text; `FTile A` is the type of a tile on a machine with arithmetic `A`.
-/

namespace Bathy

/-- bathygrid/tile.py:686-769 `grid`, see `Tile.grid`; returns the tile and the resolution used.
Simplification: a resolution that is not given is looked up from the mean depth, or worked out from the density, in exact arithmetic. -/
def Arith.grid (A : Arith) (env : Env) (t : Tile) (alg : Alg) (res : Option ℚ) (clear : Bool) (mode : AutoMode) (params : Option GridParams)
    (border : Option PtArr) : Res Tile × Option ℚ :=
  match Tile.chooseResolution env t res mode with
  | .error e => (.fail t e, none)
  | .ok r =>
    let out := A.gridAt env t alg r clear params border
    (out, if out.err = none then some r else none)

/-- bathygrid/tile.py:11-62: an `SRTile` on a machine with arithmetic `A` -/
def FTile (_ : Arith) : Type := Tile

instance floatTileLike (A : Arith) : TileLike (FTile A) := inferInstanceAs (TileLike Tile)

/-- bathygrid/bgrid.py:1296-1360: what a grid asks of its tiles when gridding, see `GridLike Tile` -/
instance floatGridLike (A : Arith) : GridLike (FTile A) where
  isLeaf := true
  grid env t a :=
    let r := A.grid env t a.alg a.res a.clear a.mode a.params a.border
    (r.1, r.2.toList)
  pointCountChanged := Tile.pointCountChanged
  resolutions := Tile.resolutions
  width t := some (Tile.width t)
  resolutionByDensity env t := Tile.resolutionByDensity env t none
  sidePoints := Tile.sidePoints

end Bathy
