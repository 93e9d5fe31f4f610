import Verif.Model.GridRun

/-!
# Statistics of the cells (bathygrid/tile.py, bathygrid/bgrid.py)

The properties of `BathyGrid` that walk over the tiles of a grid (subgrids included) and collect the numbers of their cells.
-/

namespace Bathy

namespace Tile

/-- one resolution of `density_count_vs_depth` (bathygrid/tile.py:157-171): the cells with a positive density, with the density divided by `area`.
The layer asked for is always 'depth', also for backscatter tiles.  NaN depths stay in the list. -/
def densityDepth (area : ℚ) (ls : Dict Layer LayerArr) : Except Err (List (ℚ × Option ℚ)) :=
  match ls.get? .density, ls.get? .depth with
  | some n, some d =>
    if n.rows = d.rows ∧ n.cols = d.cols then
      .ok ((n.flat.zip d.flat).filterMap (fun q => match q.1 with | some v => if v > 0 then some (v / area, q.2) else none | none => none))
    else .error .indexError
  | _, _ => .error .valueError

/-- the loop over the resolutions of `density_count_vs_depth` and `density_per_square_meter_vs_depth`, as the list of pairs (the code returns two lists) -/
def vsDepth (area : ℚ → ℚ) (t : Tile) : Except Err (List (ℚ × Option ℚ)) :=
  match t.cells.mapM (fun p => densityDepth (area p.1) p.2) with
  | .ok l => .ok l.flatten
  | .error e => .error e

/-- bathygrid/tile.py:144-171 `density_count_vs_depth` -/
def densityCountVsDepth (t : Tile) : Except Err (List (ℚ × Option ℚ)) := t.vsDepth (fun _ => 1)

/-- bathygrid/tile.py:173-200 `density_per_square_meter_vs_depth` -/
def densityPerSquareMeterVsDepth (t : Tile) : Except Err (List (ℚ × Option ℚ)) := t.vsDepth (fun r => r ^ 2)

end Tile

/-- what `BathyGrid` collects from its tiles, which are tiles or grids -/
class HasStats (τ : Type) where
  cellCount : τ → Except Err (Dict ℚ Nat)
  densityCount : τ → Except Err (List ℚ)
  densityPerSquareMeter : τ → Except Err (List ℚ)
  densityCountVsDepth : τ → Except Err (List (ℚ × Option ℚ))
  densityPerSquareMeterVsDepth : τ → Except Err (List (ℚ × Option ℚ))
  coverageArea : τ → Except Err ℚ
  /-- bathygrid/tile.py:223-234, bathygrid/bgrid.py:300-311 `coverage_area_square_nm` -/
  coverageAreaNm : τ → Except Err ℚ
  layerValues : τ → Layer → Except Err (List ℚ)

instance : HasStats Tile where
  cellCount t := match t.cellCount with | some d => .ok d | none => .error .indexError
  densityCount := Tile.densityCount
  densityPerSquareMeter := Tile.densityPerSquareMeter
  densityCountVsDepth := Tile.densityCountVsDepth
  densityPerSquareMeterVsDepth := Tile.densityPerSquareMeterVsDepth
  coverageArea := Tile.coverageArea
  coverageAreaNm t := match t.coverageArea with | .ok a => .ok (a / (3434290012 / 1000)) | .error e => .error e
  layerValues := Tile.layerValues

/-- bathygrid/bgrid.py:219-224: add the counts of a tile to those collected -/
def addCounts (acc : Dict ℚ Nat) (d : Dict ℚ Nat) : Dict ℚ Nat :=
  d.foldl (fun acc p => match acc.get? p.1 with | some n => acc.set p.1 (n + p.2) | none => acc.set p.1 p.2) acc

namespace Grid
variable {τ : Type}

/-- the loop `for tile in self.tiles.flat: if tile: values.extend(tile.f)`; nothing is done when there are no tiles -/
def extendAll {β : Type} (f : τ → Except Err (List β)) (g : Grid τ) : Except Err (List β) :=
  match g.present.mapM f with
  | .ok l => .ok l.flatten
  | .error e => .error e

/-- the loop `for tile in self.tiles.flat: if tile: area += tile.f` -/
def addAll (f : τ → Except Err ℚ) (g : Grid τ) : Except Err ℚ :=
  match g.present.mapM f with
  | .ok l => .ok l.sum
  | .error e => .error e

/-- bathygrid/bgrid.py:209-225 `cell_count` -/
def cellCount [HasStats τ] (g : Grid τ) : Except Err (Dict ℚ Nat) :=
  match g.present.mapM HasStats.cellCount with
  | .ok l => .ok (l.foldl addCounts [])
  | .error e => .error e

end Grid

/-- bathygrid/bgrid.py:227-311, 1900-1919: `density_count`, `density_per_square_meter`, `density_count_vs_depth`,
`density_per_square_meter_vs_depth`, `coverage_area_square_meters`, `coverage_area_square_nm`, `return_layer_values` -/
instance {τ : Type} [HasStats τ] : HasStats (Grid τ) where
  cellCount := Grid.cellCount
  densityCount := Grid.extendAll HasStats.densityCount
  densityPerSquareMeter := Grid.extendAll HasStats.densityPerSquareMeter
  densityCountVsDepth := Grid.extendAll HasStats.densityCountVsDepth
  densityPerSquareMeterVsDepth := Grid.extendAll HasStats.densityPerSquareMeterVsDepth
  coverageArea := Grid.addAll HasStats.coverageArea
  coverageAreaNm := Grid.addAll HasStats.coverageAreaNm
  layerValues g layer := g.extendAll (fun t => HasStats.layerValues t layer)

end Bathy
