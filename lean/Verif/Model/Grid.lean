import Verif.Model.Tile
import Verif.Model.Meta

/-!
# BaseGrid (bathygrid/grids.py) and the point handling of BathyGrid (bathygrid/bgrid.py)

`Grid τ` is a grid whose tiles are of type `τ`.  `Grid Tile` is the single resolution grid (`SRGrid`), and also a tile of the variable
resolution grid (`VRGridTile`), which is `Grid (Grid Tile)`.  This file covers in memory grids (no output folder).
-/

namespace Bathy

/-- what a grid uses of its tiles when points are added or removed (bathygrid/bgrid.py:615-754) -/
class TileLike (τ : Type) where
  /-- `_build_tile` with the tile size, subtile size and backscatter flag of the grid -/
  build : (tileSize subtileSize : ℚ) → (isBackscatter : Bool) → (x y : ℚ) → Except Err τ
  addPoints : τ → PtArr → String → Res τ
  removePoints : τ → String → Res τ
  isEmpty : τ → Bool
  pointsCount : τ → Nat

/-- `min_x`, `max_x`, `min_y`, `max_y` of a grid -/
structure Extents where
  minX : ℚ
  maxX : ℚ
  minY : ℚ
  maxY : ℚ
  deriving DecidableEq, Repr

/-- `BathyGrid` (bathygrid/grids.py:24-47, bathygrid/bgrid.py:31-60).
Simplifications: `tile_x_origin`, `tile_y_origin` are meshgrids of `txs` and `tys`; the attribute `data` only lives during `add_points`
and is left out; `name` of the tiles is a formatted copy of their origin and is left out. -/
structure Grid (τ : Type) where
  name : String
  canGrow : Bool
  originX : ℚ
  originY : ℚ
  tileSize : ℚ
  subtileSize : ℚ
  isBackscatter : Bool
  extents : Option Extents
  txs : List ℚ
  tys : List ℚ
  edgesX : List ℚ
  edgesY : List ℚ
  width : Option ℚ
  height : Option ℚ
  maximumTiles : Option Nat
  mask : Option (Arr2 Bool)
  tiles : Option (Arr2 (Option τ))
  numberOfTiles : Option Int
  info : Meta
  meanDepth : ℚ
  resolutions : List ℚ
  gridAlgorithm : Option Alg
  gridResolution : GridRes
  gridParams : Option GridParams
  deriving DecidableEq

namespace Grid
variable {τ : Type}

/-- the attributes shared by all constructors -/
def blank (name : String) (canGrow : Bool) (x y tileSize subtileSize : ℚ) (isBackscatter : Bool) (extents : Option Extents) : Grid τ :=
  { name := name, canGrow := canGrow, originX := x, originY := y, tileSize := tileSize, subtileSize := subtileSize,
    isBackscatter := isBackscatter, extents := extents, txs := [], tys := [], edgesX := [], edgesY := [], width := none, height := none,
    maximumTiles := none, mask := none, tiles := none, numberOfTiles := none, info := {}, meanDepth := 0, resolutions := [],
    gridAlgorithm := none, gridResolution := .unset, gridParams := none }

/-- bathygrid/maingrid.py:6-19 `SRGrid.__init__`; bathygrid/grids.py:45-47: the tile size has to be a power of two -/
def newSR (x y tileSize : ℚ) (isBackscatter : Bool) : Except Err (Grid τ) :=
  if isPowerOfTwo tileSize then .ok (blank "SRGrid_Root" true x y tileSize 0 isBackscatter none) else .error .valueError

/-- bathygrid/maingrid.py:29-35 `VRGridTile.__init__`.  The subtile size is only checked when the first subgrid is built. -/
def newVR (x y tileSize subtileSize : ℚ) (isBackscatter : Bool) : Except Err (Grid τ) :=
  if isPowerOfTwo tileSize then .ok (blank "VRGridTile_Root" true x y tileSize subtileSize isBackscatter none) else .error .valueError

/-- bathygrid/maingrid.py:59-61: a subgrid of a `VRGridTile`: fixed extents, can not grow, `is_backscatter` is not passed on -/
def newSub (x y size tileSize : ℚ) : Except Err (Grid τ) :=
  if isPowerOfTwo tileSize then
    .ok (blank "" false x y tileSize 0 false (some ⟨x, x + size, y, y + size⟩))
  else .error .valueError

/-- bathygrid/grids.py:49-58 `is_empty` -/
def isEmpty (g : Grid τ) : Bool :=
  match g.tiles with
  | none => true
  | some t => !t.flat.any Option.isSome

/-- bathygrid/grids.py:60-68 `points_count` -/
def pointsCount [TileLike τ] (g : Grid τ) : Nat :=
  if g.isEmpty then 0
  else
    match g.tiles with
    | none => 0
    | some t => (t.flat.map (fun o => match o with | some x => TileLike.pointsCount x | none => 0)).sum

/-- bathygrid/grids.py:94-97: one pair of bounds, extended to multiples of the tile size -/
def adjust (lo hi origin size : ℚ) : ℚ × ℚ :=
  let l := (⌊(lo - origin) / size⌋ : ℚ) * size
  let h := (⌈(hi - origin) / size⌉ : ℚ) * size
  (l, if h = hi then h + size else h)

/-- bathygrid/grids.py:89-103 `_adjust_extents` -/
def adjustExtents (g : Grid τ) (e : Extents) : Extents :=
  if g.canGrow then
    let x := adjust e.minX e.maxX g.originX g.tileSize
    let y := adjust e.minY e.maxY g.originY g.tileSize
    ⟨x.1, x.2, y.1, y.2⟩
  else e

/-- bathygrid/grids.py:122-128: the mask of the tiles that exist already, in the new grid.  `none` is the IndexError of `argwhere(…)[0]`
when the old corner is not an origin of the new grid (or of `tile_x_origin[0][0]`). -/
def existingMask (oldXs oldYs xs ys : List ℚ) : Option (Arr2 Bool) :=
  match oldXs.head?, oldYs.head? with
  | some x0, some y0 =>
    let yc := ys.findIdx (fun y => decide (y = y0))
    let xc := xs.findIdx (fun x => decide (x = x0))
    if yc < ys.length ∧ xc < xs.length then
      some (Arr2.ofFn ys.length xs.length (fun r c =>
        decide (yc ≤ r ∧ r < yc + oldYs.length) && decide (xc ≤ c ∧ c < xc + oldXs.length)))
    else none
  | _, _ => none

/-- bathygrid/grids.py:105-138 `_build_grid` for the extents `e` just assigned.
Simplification: if the IndexError for an empty range of origins is raised, the state left behind has the new extents only. -/
def buildGrid (g : Grid τ) (e : Extents) : Res (Grid τ) :=
  let e := g.adjustExtents e
  let g := { g with extents := some e }
  let xs := arange e.minX e.maxX g.tileSize
  let ys := arange e.minY e.maxY g.tileSize
  let finish := fun (g : Grid τ) =>
    match appendEdge xs g.tileSize, appendEdge ys g.tileSize with
    | some ex, some ey =>
      Res.ok { g with txs := xs, tys := ys, edgesX := ex, edgesY := ey, width := some (e.maxX - e.minX), height := some (e.maxY - e.minY),
                      maximumTiles := some (xs.length * ys.length) }
    | _, _ => .fail g .indexError
  if !g.isEmpty && g.canGrow then
    match existingMask g.txs g.tys xs ys with
    | some m => finish { g with mask := some m }
    | none => .fail g .indexError
  else finish g

/-- least element; `none` is numpy's ValueError for an empty array -/
def listMin (l : List ℚ) : Option ℚ := reduce1 min l
/-- greatest element -/
def listMax (l : List ℚ) : Option ℚ := reduce1 max l

/-- bathygrid/bgrid.py:569-588 `_update_base_grid`, with bathygrid/grids.py:140-182 `_init_from_extents`, `_update_extents` -/
def updateBase (g : Grid τ) (pts : List Pt) : Res (Grid τ) :=
  if g.isEmpty then
    if g.canGrow then
      match listMin (pts.map Pt.x), listMax (pts.map Pt.x), listMin (pts.map Pt.y), listMax (pts.map Pt.y) with
      | some x0, some x1, some y0, some y1 => g.buildGrid ⟨x0, x1, y0, y1⟩
      | _, _, _, _ => .fail g .valueError
    else
      match g.extents with
      | some e => g.buildGrid e
      | none => .fail g .valueError
  else if g.canGrow then
    match listMin (pts.map Pt.x), listMax (pts.map Pt.x), listMin (pts.map Pt.y), listMax (pts.map Pt.y), g.extents with
    | some x0, some x1, some y0, some y1, some e => g.buildGrid ⟨min x0 e.minX, max x1 e.maxX, min y0 e.minY, max y1 e.maxY⟩
    | _, _, _, _, none => .fail g .typeError
    | _, _, _, _, _ => .fail g .valueError
  else .ok g

/-- bathygrid/bgrid.py:605-612: put the existing tiles in their place in the new grid.
Simplification: numpy would broadcast a single tile to several True entries of the mask; the mask always has as many True entries as
there are tiles. -/
def placeTiles (g : Grid τ) : Res (Grid τ) :=
  let none2 : Arr2 (Option τ) := Arr2.fill g.tys.length g.txs.length none
  if g.isEmpty then .ok { g with tiles := some none2 }
  else if g.canGrow then
    match g.tiles, g.mask with
    | some t, some m =>
      match assignMask none2.flat m.flat t.flat with
      | some l => .ok { g with tiles := some ⟨none2.rows, none2.cols, l⟩ }
      | none => .fail g .valueError
    | _, _ => .fail g .indexError
  else .ok g

/-- bathygrid/grids.py:204-223: the origin of the tile with flat index `k` -/
def tileOrigin (g : Grid τ) (k : Nat) : Option (ℚ × ℚ) :=
  match g.txs[k % g.txs.length]?, g.tys[k / g.txs.length]? with
  | some x, some y => some (x, y)
  | _, _ => none

/-- replace the tile with flat index `k` -/
def setTile (g : Grid τ) (k : Nat) (o : Option τ) : Grid τ :=
  match g.tiles with
  | some t => { g with tiles := some (t.setFlat k o) }
  | none => g

/-- the tile with flat index `k`; `none` is IndexError -/
def tile? (g : Grid τ) (k : Nat) : Option (Option τ) := g.tiles.bind (fun t => t.flat[k]?)

/-- bathygrid/bgrid.py:648-658: one round of the loop of `_add_points_to_tiles`, for the tile with flat index `k` -/
def addToTile [TileLike τ] (fields : Fields) (pts : List Pt) (bins : List Nat) (c : String) (g : Grid τ) (k : Nat) : Res (Grid τ) :=
  let sel := boolIndex pts (bins.map (fun b => decide (b = k)))
  let old : Except Err τ :=
    match g.tile? k with
    | none => .error .indexError
    | some (some t) => .ok t
    | some none =>
      match g.tileOrigin k with
      | some (x, y) => TileLike.build g.tileSize g.subtileSize g.isBackscatter x y
      | none => .error .indexError
  match old with
  | .error e => .fail g e
  | .ok t =>
    let r := TileLike.addPoints t ⟨fields, sel⟩ c
    match r.err with
    | some e => .fail (g.setTile k (some r.st)) e
    | none => .ok (g.setTile k (if TileLike.isEmpty r.st then none else some r.st))

/-- number of tile objects (bathygrid/bgrid.py:663) -/
def countTiles (g : Grid τ) : Nat := match g.tiles with | some t => t.flat.countP Option.isSome | none => 0

/-- bathygrid/bgrid.py:615-663 `_add_points_to_tiles` -/
def addToTiles [TileLike τ] (g : Grid τ) (d : PtArr) (c : String) : Res (Grid τ) :=
  match bin2d [d.pts.map Pt.x] [d.pts.map Pt.y] g.edgesX g.edgesY with
  | .error e => .fail g e
  | .ok bins =>
    (Res.forEach (npUnique bins) g (addToTile d.fields d.pts bins c)).andThen (fun g =>
      .ok { g with numberOfTiles := some (g.countTiles : Int) })

/-- bathygrid/bgrid.py:403-411 `_update_mean_depth`; `np.round(_, 3)` -/
def meanDepthOf (pts : List Pt) : ℚ :=
  if pts.any (fun p => decide (p.z ≠ 0)) then round3 ((pts.map Pt.z).sum / (pts.length : ℚ)) else 0

/-- bathygrid/bgrid.py:665-706 `add_points`.  Simplification: the data is a structured array with 'x', 'y', 'z' (`_validate_input_data`
accepts it). -/
def addPoints [TileLike τ] (g : Grid τ) (d : PtArr) (c : String) (a : AddArgs) : Res (Grid τ) :=
  if g.info.container.has c then .fail g .valueError
  else
    let r := g.info.update c a
    match r.err with
    | some e => .fail { g with info := r.st } e
    | none =>
      (updateBase { g with info := r.st } d.pts).andThen (fun g =>
        (placeTiles g).andThen (fun g =>
          (addToTiles g d c).andThen (fun g =>
            .ok { g with meanDepth := meanDepthOf d.pts })))

/-- bathygrid/bgrid.py:708-719 `_remove_tile` -/
def removeTile (g : Grid τ) (k : Nat) : Res (Grid τ) :=
  match g.tile? k with
  | some (some _) =>
    let r : Res (Grid τ) :=
      match g.mask with
      | some m => if m.flat.any id then (if k < m.flat.length then .ok { g with mask := some (m.setFlat k false) } else .fail g .indexError) else .ok g
      | none => .ok g
    r.andThen (fun g =>
      match g.numberOfTiles with
      | some n => .ok ({ g with numberOfTiles := some (n - 1) }.setTile k none)
      | none => .fail g .typeError)
  | _ => .ok g

/-- bathygrid/bgrid.py:741-748: one round of the loop of `remove_points` -/
def removeFromTile [TileLike τ] (c : String) (g : Grid τ) (k : Nat) : Res (Grid τ) :=
  match g.tile? k with
  | some (some t) =>
    let r := TileLike.removePoints t c
    let g := g.setTile k (some r.st)
    match r.err with
    | some e => .fail g e
    | none => if TileLike.isEmpty r.st then g.removeTile k else .ok g
  | _ => .ok g

/-- number of tile slots -/
def slots (g : Grid τ) : Nat := match g.tiles with | some t => t.flat.length | none => 0

/-- bathygrid/bgrid.py:721-754 `remove_points` -/
def removePoints [TileLike τ] (g : Grid τ) (c : String) : Res (Grid τ) :=
  if g.info.container.has c then
    let g := { g with info := { g.info with container := g.info.container.pop c } }
    let r := if g.isEmpty then .ok g else Res.forEach (List.range g.slots) g (removeFromTile c)
    r.andThen (fun g => .ok (if g.isEmpty then { g with tiles := none } else g))
  else .ok g

end Grid

/-- bathygrid/bgrid.py:461-479 `_build_tile` of the single resolution grid, and the tile methods -/
instance : TileLike Tile where
  build size _ bs x y := .ok (Tile.new x y size bs)
  addPoints := Tile.addPoints
  removePoints := Tile.removePoints
  isEmpty := Tile.isEmpty
  pointsCount := Tile.pointsCount

/-- bathygrid/maingrid.py:37-61 and 95-119 `_build_tile` of the variable resolution grid, and the grid methods as they are called on a subgrid
(bathygrid/bgrid.py:655, 745: no metadata arguments) -/
instance {τ : Type} [TileLike τ] : TileLike (Grid τ) where
  build size sub _ x y := Grid.newSub x y size sub
  addPoints g d c := g.addPoints d c {}
  removePoints := Grid.removePoints
  isEmpty := Grid.isEmpty
  pointsCount := Grid.pointsCount

end Bathy
