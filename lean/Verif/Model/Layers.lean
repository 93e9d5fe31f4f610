import Verif.Model.GridRun
import Mathlib.Data.List.Sort

/-!
# Reading layers of a grid (bathygrid/bgrid.py:104-128, 326-343, 488-516, 793-853, 1189-1277, 1747-1898)

Every function that reads layers also returns the grid, because the tiles keep the slope and container layers they were asked for.
`layer` is always a list (a single name is made a list by the code).
-/

namespace Bathy

/-- the geotransform `[x0, res, 0, y0, 0, -res]`.  Simplification: `np.float32` of the corner is the corner, see C109. -/
structure Geo where
  x0 : ℚ
  res : ℚ
  y0 : ℚ
  deriving DecidableEq, Repr

/-- what a grid uses of its tiles when layers are read -/
class LayerLike (τ : Type) where
  /-- `bool(tile.cells)`; a grid has no attribute `cells` -/
  hasCells : τ → Except Err Bool
  /-- what `no_grid` looks at for the tile (bathygrid/bgrid.py:119-126) -/
  probe : τ → Except Err Bool
  /-- `tile.get_layers_by_name(layer, resolution, …)`, for a subgrid the first entry of the list -/
  getLayer : Env → τ → Layer → ℚ → Option ℚ → Bool → τ × Except Err (Option LayerArr)
  /-- `tile.get_geotransform(resolution)` -/
  geo : τ → ℚ → Option Geo

/-- bathygrid/grids.py:304-312 `get_geotransform` of a tile -/
def Tile.geo (t : Tile) (res : ℚ) : Option Geo := if t.cells.has res then some ⟨t.minX, res, t.maxY⟩ else none

instance : LayerLike Tile where
  hasCells t := .ok (!t.cells.isEmpty)
  probe t := .ok (!t.cells.isEmpty)
  getLayer env t layer res nodata zUp := t.getLayer env layer (some res) nodata zUp
  geo := Tile.geo

/-- `x / res` with the assertion that it is an integer (bathygrid/bgrid.py:512-515, 838-840); a negative number of cells is refused by numpy.
Simplification: the resolution is not 0 (ZeroDivisionError). -/
def cellsAlong (x res : ℚ) : Except Err Nat :=
  if (x / res).den = 1 then (if x / res < 0 then .error .valueError else .ok (x / res).num.toNat) else .error .assertion

/-- `a[r0:r0 + n, c0:c0 + n] = b`.  Simplification: numpy would also stretch an array with a single row or column. -/
def paste (a : LayerArr) (r0 c0 n : Nat) (b : LayerArr) : Except Err LayerArr :=
  if b.rows = min n (a.rows - r0) ∧ b.cols = min n (a.cols - c0) then
    .ok (Arr2.ofFn a.rows a.cols (fun r c =>
      if r0 ≤ r ∧ r < r0 + n ∧ c0 ≤ c ∧ c < c0 + n then (b.get? (r - r0) (c - c0)).join else (a.get? r c).join))
  else .error .valueError

/-- bathygrid/bgrid.py:1228-1230: the arrays found for a tile go into the arrays of the result, in the order in which they were found -/
def pasteAll (r0 c0 n : Nat) : List LayerArr → List (Layer × LayerArr) → Except Err (List LayerArr)
  | ds, [] => .ok ds
  | [], _ :: _ => .error .indexError
  | d :: ds, p :: ps =>
    match paste d r0 c0 n p.2 with
    | .error e => .error e
    | .ok d' =>
      match pasteAll r0 c0 n ds ps with
      | .error e => .error e
      | .ok ds' => .ok (d' :: ds')

/-- bathygrid/bgrid.py:845-852: the loop over the layers in `get_tile_data`; a layer for which the tile returns None is left out -/
def tileLayersFrom {τ : Type} [LayerLike τ] (env : Env) (res : ℚ) (nodata : Option ℚ) (zUp : Bool) :
    τ → Dict Layer LayerArr → List Layer → τ × Except Err (Dict Layer LayerArr)
  | t, d, [] => (t, .ok d)
  | t, d, l :: ls =>
    match LayerLike.getLayer env t l res nodata zUp with
    | (t', .error e) => (t', .error e)
    | (t', .ok none) => tileLayersFrom env res nodata zUp t' d ls
    | (t', .ok (some a)) => tileLayersFrom env res nodata zUp t' (d.set l a) ls

/-- what `get_tile_data` returns, without the tile -/
structure TileData where
  data : Dict Layer LayerArr
  geo : Option Geo
  /-- first row of the tile in the layer array (`data_col` in the code) -/
  row0 : Nat
  /-- first column of the tile in the layer array (`data_row` in the code) -/
  col0 : Nat
  cells : Nat

/-- state of the loop of `get_layers_by_name` -/
structure MosaicState (τ : Type) where
  grid : Grid τ
  data : List LayerArr
  empty : Bool

/-- does row `r` of the array hold a value? -/
def rowHas (a : LayerArr) (r : Nat) : Bool := (List.range a.cols).any (fun c => ((a.get? r c).join).isSome)
/-- does column `c` of the array hold a value? -/
def colHas (a : LayerArr) (c : Nat) : Bool := (List.range a.rows).any (fun r => ((a.get? r c).join).isSome)

/-- `a[r0:r1, c0:c1]` for indices inside the array -/
def crop (a : LayerArr) (r0 r1 c0 c1 : Nat) : LayerArr := Arr2.ofFn (r1 - r0) (c1 - c0) (fun r c => (a.get? (r0 + r) (c0 + c)).join)

/-- result of `get_layers_trimmed`: the arrays, `[rmin, cmin]` and `[rmax, cmax]` -/
structure Trimmed where
  data : List LayerArr
  rmin : Nat
  cmin : Nat
  rmax : Nat
  cmax : Nat
  deriving DecidableEq

/-- bathygrid/bgrid.py:1262-1277: trim to the rows and columns between the first and the last value of the first layer.  `None[0]` is a
TypeError; without any value `np.where(rows)[0][[0, -1]]` is an IndexError. -/
def trim (data : Option (List LayerArr)) : Except Err Trimmed :=
  match data with
  | none => .error .typeError
  | some [] => .error .indexError
  | some (d :: ds) =>
    let rows := (List.range d.rows).filter (rowHas d)
    let cols := (List.range d.cols).filter (colHas d)
    match rows.head?, rows.getLast?, cols.head?, cols.getLast? with
    | some r0, some r1, some c0, some c1 =>
      .ok { data := (d :: ds).map (fun a => crop a r0 (r1 + 1) c0 (c1 + 1)), rmin := r0, cmin := c0, rmax := r1 + 1, cmax := c1 + 1 }
    | _, _, _, _ => .error .indexError

/-- result of `return_surf_xyz` -/
structure Surf where
  xs : List ℚ
  ys : List ℚ
  trimmed : Trimmed
  deriving DecidableEq

/-- bathygrid/bgrid.py:1868-1871: has the location no value yet? -/
def isUnset (nodata v : Option ℚ) : Bool := match nodata with | none => v.isNone | some d => decide (v = some d)

/-- bathygrid/bgrid.py:1884-1898: the value at one location; `ok none` for a location that is out of bounds -/
def surfAt (s : Surf) (p : ℚ × ℚ) : Except Err (Option (Option ℚ)) :=
  let dx := searchsortedRight s.xs p.1
  let dy := searchsortedRight s.ys p.2
  if dx = 0 ∨ dy = 0 ∨ dx = s.xs.length ∨ dy = s.ys.length then .ok none
  else
    match s.trimmed.data with
    | [] => .error .indexError
    | a :: _ =>
      match a.get? (dy - 1) (dx - 1) with
      | none => .error .indexError
      | some v => .ok (some v)

/-- the new value at one location (bathygrid/bgrid.py:1875-1898) -/
def surfUpdate (nodata : Option ℚ) (s : Surf) (pv : (ℚ × ℚ) × Option ℚ) : Except Err (Option ℚ) :=
  if isUnset nodata pv.2 then
    match surfAt s pv.1 with
    | .error e => .error e
    | .ok none => .ok pv.2
    | .ok (some v) => .ok v
  else .ok pv.2

namespace Grid
variable {τ : Type} [LayerLike τ]

/-- bathygrid/bgrid.py:104-128 `no_grid`; `return None` at the end counts as False -/
def noGrid (g : Grid τ) : Except Err Bool :=
  match g.tiles with
  | none => .ok true
  | some _ =>
    match g.present.head? with
    | none => .ok false
    | some t => (LayerLike.probe t).map (!·)

omit [LayerLike τ] in
/-- bathygrid/bgrid.py:326-333 `positive_up` -/
def positiveUp (g : Grid τ) : Bool := match g.info.vref with | some s => contains s "height (h)\",up" | none => false

omit [LayerLike τ] in
/-- bathygrid/bgrid.py:1218-1221, 1781-1784: the resolution of a query; 0 counts as missing -/
def queryRes (g : Grid τ) (res : Option ℚ) : Except Err ℚ :=
  let first : Except Err ℚ := if g.resolutions.length > 1 then .error .valueError else match g.resolutions with | [] => .error .indexError | r :: _ => .ok r
  match res with
  | none => first
  | some r => if r = 0 then first else .ok r

omit [LayerLike τ] in
/-- bathygrid/bgrid.py:488-516 `_build_layer_grid` -/
def buildLayerGrid (g : Grid τ) (res : ℚ) (nodata : Option ℚ) (layer : Layer) : Except Err LayerArr :=
  match g.height, g.width with
  | some h, some w =>
    match cellsAlong h res, cellsAlong w res with
    | .ok ny, .ok nx => .ok (Arr2.fill ny nx (Tile.nodataFor layer nodata))
    | .error e, _ => .error e
    | _, .error e => .error e
  | _, _ => .error .typeError

/-- bathygrid/bgrid.py:793-853 `get_tile_data` -/
def getTileData (env : Env) (g : Grid τ) (row col : Nat) (res : ℚ) (layers : List Layer) (nodata : Option ℚ) (zUp : Bool) : Grid τ × Except Err TileData :=
  let zUp := if g.positiveUp then !zUp else zUp
  match g.tiles with
  | none => (g, .error .typeError)
  | some T =>
    match T.get? row col with
    | none => (g, .error .indexError)
    | some o =>
      match cellsAlong g.tileSize res with
      | .error e => (g, .error e)
      | .ok n =>
        match o with
        | none => (g, .error .attributeError)
        | some t =>
          let r := tileLayersFrom env res nodata zUp t [] layers
          let g := g.setTile (row * T.cols + col) (some r.1)
          match r.2 with
          | .error e => (g, .error e)
          | .ok d => (g, .ok ⟨d, LayerLike.geo t res, row * n, col * n, n⟩)

/-- bathygrid/bgrid.py:1223-1230: one round of the loop of `get_layers_by_name` -/
def mosaicStep (env : Env) (res : ℚ) (layers : List Layer) (nodata : Option ℚ) (zUp : Bool) (s : MosaicState τ) (k : Nat) : Res (MosaicState τ) :=
  match s.grid.tile? k with
  | some (some _) =>
    match s.grid.getTileData env (k / s.grid.txs.length) (k % s.grid.txs.length) res layers nodata zUp with
    | (g, .error e) => .fail { s with grid := g } e
    | (g, .ok d) =>
      match pasteAll d.row0 d.col0 d.cells s.data d.data with
      | .error e => .fail { s with grid := g } e
      | .ok data => .ok ⟨g, data, s.empty && d.data.isEmpty⟩
  | _ => .ok s

/-- bathygrid/bgrid.py:1189-1233 `get_layers_by_name` -/
def getLayersByName (env : Env) (g : Grid τ) (layers : List Layer) (res : Option ℚ) (nodata : Option ℚ) (zUp : Bool) :
    Grid τ × Except Err (Option (List LayerArr)) :=
  match g.noGrid with
  | .error e => (g, .error e)
  | .ok true => (g, .error .valueError)
  | .ok false =>
    match g.queryRes res with
    | .error e => (g, .error e)
    | .ok r =>
      match layers.mapM (g.buildLayerGrid r nodata) with
      | .error e => (g, .error e)
      | .ok data =>
        let out := Res.forEach (List.range g.slots) (⟨g, data, true⟩ : MosaicState τ) (mosaicStep env r layers nodata zUp)
        match out.err with
        | some e => (out.st.grid, .error e)
        | none => (out.st.grid, .ok (if out.st.empty then none else some out.st.data))

/-- bathygrid/bgrid.py:1235-1277 `get_layers_trimmed` -/
def getLayersTrimmed (env : Env) (g : Grid τ) (layers : List Layer) (res : Option ℚ) (nodata : Option ℚ) (zUp : Bool) : Grid τ × Except Err Trimmed :=
  match g.getLayersByName env layers res nodata zUp with
  | (g, .error e) => (g, .error e)
  | (g, .ok data) => (g, trim data)

/-- bathygrid/bgrid.py:1747-1795 `return_surf_xyz`; `np.arange(None, …)` is a TypeError -/
def returnSurf (env : Env) (g : Grid τ) (layers : List Layer) (res : Option ℚ) (boundaries : Bool) (nodata : Option ℚ) : Grid τ × Except Err Surf :=
  match g.noGrid with
  | .error e => (g, .error e)
  | .ok true => (g, .error .valueError)
  | .ok false =>
    match g.queryRes res with
    | .error e => (g, .error e)
    | .ok r =>
      match g.getLayersTrimmed env layers (some r) nodata false with
      | (g, .error e) => (g, .error e)
      | (g, .ok s) =>
        match g.extents with
        | none => (g, .error .typeError)
        | some e =>
          let xs := arange e.minX e.maxX r
          let ys := arange e.minY e.maxY r
          if boundaries then (g, .ok ⟨Tile.slice xs s.cmin (s.cmax + 1), Tile.slice ys s.rmin (s.rmax + 1), s⟩)
          else (g, .ok ⟨Tile.slice (xs.map (· + r / 2)) s.cmin s.cmax, Tile.slice (ys.map (· + r / 2)) s.rmin s.rmax, s⟩)

/-- bathygrid/bgrid.py:1867-1898: the loop over the resolutions in `layer_values_at_xy` -/
def valuesLoop (env : Env) (layer : Layer) (nodata : Option ℚ) (locs : List (ℚ × ℚ)) : List ℚ → Grid τ → List (Option ℚ) → Grid τ × Except Err (List (Option ℚ))
  | [], g, vals => (g, .ok vals)
  | r :: rs, g, vals =>
    if vals.any (isUnset nodata) then
      match g.returnSurf env [layer] (some r) true nodata with
      | (g, .error e) => (g, .error e)
      | (g, .ok s) =>
        match (locs.zip vals).mapM (surfUpdate nodata s) with
        | .error e => (g, .error e)
        | .ok vals => valuesLoop env layer nodata locs rs g vals
    else (g, .ok vals)

omit [LayerLike τ] in
/-- bathygrid/bgrid.py:1821-1825: the resolutions to go through -/
def queryList (g : Grid τ) (res : Option ℚ) : List ℚ :=
  match res with
  | none => g.resolutions.insertionSort (· ≤ ·)
  | some r => if r = 0 then g.resolutions.insertionSort (· ≤ ·) else [r]

/-- bathygrid/bgrid.py:1828-1898 `layer_values_at_xy` for arrays of locations (not for single numbers) -/
def layerValuesAtXY (env : Env) (g : Grid τ) (locs : List (ℚ × ℚ)) (layer : Layer) (res : Option ℚ) (nodata : Option ℚ) :
    Grid τ × Except Err (List (Option ℚ)) :=
  valuesLoop env layer nodata locs (g.queryList res) g (locs.map (fun _ => nodata))

/-- the subgrid of a variable resolution grid as a tile: the first entry of the list that `get_layers_by_name` returns
(bathygrid/bgrid.py:847-851) -/
def getLayer (env : Env) (g : Grid τ) (layer : Layer) (res : ℚ) (nodata : Option ℚ) (zUp : Bool) : Grid τ × Except Err (Option LayerArr) :=
  match g.getLayersByName env [layer] (some res) nodata zUp with
  | (g, .error e) => (g, .error e)
  | (g, .ok none) => (g, .ok none)
  | (g, .ok (some [])) => (g, .error .indexError)
  | (g, .ok (some (a :: _))) => (g, .ok (some a))

/-- bathygrid/bgrid.py:119-126: `no_grid` of the parent looks at the last tile of the subgrid (the loop has no break) -/
def probe (g : Grid τ) : Except Err Bool := match g.present.getLast? with | none => .error .attributeError | some t => LayerLike.hasCells t

omit [LayerLike τ] in
/-- bathygrid/bgrid.py:335-343 `get_geotransform` of a grid -/
def geo (g : Grid τ) (res : ℚ) : Option Geo := g.extents.map (fun e => ⟨e.minX, res, e.maxY⟩)

end Grid

instance {τ : Type} [LayerLike τ] : LayerLike (Grid τ) where
  hasCells _ := .error .attributeError
  probe := Grid.probe
  getLayer := Grid.getLayer
  geo := Grid.geo

end Bathy
