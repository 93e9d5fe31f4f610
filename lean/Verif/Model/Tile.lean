import Verif.Model.Algorithms
import Verif.Model.Utilities

/-!
# bathygrid/tile.py and TileGrid of bathygrid/grids.py — the single resolution tile
-/

namespace Bathy

/-- `SRTile` (bathygrid/tile.py:41-51, bathygrid/grids.py:226-245).  `data = none` is python `None`.
Simplifications: the tile name (a formatted copy of the origin) is left out; `cells`, `cell_edges_*`, `cell_indices` are always in
memory (numpy, not dask). -/
structure Tile where
  minX : ℚ
  maxX : ℚ
  minY : ℚ
  maxY : ℚ
  width : ℚ
  height : ℚ
  isBackscatter : Bool
  data : Option PtArr
  container : Dict String (Nat × Nat)
  cells : Dict ℚ (Dict Layer LayerArr)
  edgesX : Dict ℚ (List ℚ)
  edgesY : Dict ℚ (List ℚ)
  cellIdx : Dict ℚ (List Int)
  algorithm : Option Alg
  gridParams : Option GridParams
  pointCountChanged : Bool
  deriving DecidableEq

namespace Tile

/-- bathygrid/tile.py:48-51, bathygrid/grids.py:281-302 `_init_from_size` -/
def new (x y size : ℚ) (isBackscatter : Bool) : Tile :=
  { minX := x, maxX := x + size, minY := y, maxY := y + size, width := size, height := size,
    isBackscatter := isBackscatter, data := none, container := [], cells := [], edgesX := [], edgesY := [], cellIdx := [],
    algorithm := none, gridParams := none, pointCountChanged := false }

/-- the soundings of the tile, empty for `data = None` -/
def pts (t : Tile) : List Pt := match t.data with | none => [] | some d => d.pts

/-- bathygrid/grids.py:254-263 `points_count` -/
def pointsCount (t : Tile) : Nat := match t.data with | some d => d.pts.length | none => 0

/-- bathygrid/grids.py:244-252 `is_empty` -/
def isEmpty (t : Tile) : Bool := t.pointsCount == 0

/-- bathygrid/grids.py:274-279 `resolutions` -/
def resolutions (t : Tile) : List ℚ := t.cells.keys

/-- bathygrid/grids.py:265-272 `layer_names` -/
def layerNames (t : Tile) : List Layer := match t.cells with | [] => [] | p :: _ => p.2.keys

/-- bathygrid/tile.py:53-67 `depth_key` -/
def depthKey (t : Tile) : Layer := if t.isBackscatter then .intensity else .depth

/-- bathygrid/tile.py:22-29 `clear_grid` (keeps `cell_indices`) -/
def clearGrid (t : Tile) : Tile := { t with cells := [], edgesX := [], edgesY := [] }

/-- bathygrid/tile.py:31-38 `clear_points` -/
def clearPoints (t : Tile) : Tile := { t with data := none, container := [], cellIdx := [] }

/-- bathygrid/tile.py:353-362 `_clear_temp_data` -/
def clearTemp (t : Tile) (res : ℚ) : Tile :=
  match t.cells.get? res with
  | some ls => { t with cells := t.cells.set res ((ls.pop .xSlope).pop .ySlope) }
  | none => t

/-- the boolean mask of bathygrid/tile.py:303-304: False on `[s, e)`, True elsewhere -/
def removeMask (n s e : Nat) : List Bool := (List.range n).map (fun i => !(decide (s ≤ i) && decide (i < e)))

/-- bathygrid/tile.py:289-314 `remove_points`.
Simplifications: container offsets are natural numbers (truncated subtraction; they never go below zero on the states the
class reaches); when numpy raises because a cell index array has the wrong length, none of these arrays is updated. -/
def removePoints (t : Tile) (c : String) : Res Tile :=
  match t.container.get? c with
  | none => .ok t
  | some (s, e) =>
    match t.data with
    | none => .fail t .attributeError
    | some d =>
      let n := d.pts.length
      let msk := removeMask n s e
      let chunk := min e n - min s n
      let t1 := { t with container := t.container.mapVals (fun _ v => if v.1 ≥ e then (v.1 - chunk, v.2 - chunk) else v) }
      if t1.cellIdx.all (fun p => p.2.length == n) then
        let t2 := { t1 with cellIdx := t1.cellIdx.mapVals (fun _ l => boolIndex l msk) }
        let t3 := (t2.cellIdx.keys).foldl clearTemp t2
        .ok { t3 with data := some { d with pts := boolIndex d.pts msk }, container := t3.container.pop c, pointCountChanged := true }
      else .fail t1 .indexError

/-- bathygrid/tile.py:257-287 `add_points`.  Concatenating structured arrays with different fields is a TypeError of numpy, raised
after `container` was updated. -/
def addPoints (t : Tile) (d : PtArr) (c : String) : Res Tile :=
  match t.data with
  | none =>
    .ok { t with data := some d, container := [(c, (0, d.pts.length))],
                 cellIdx := t.cellIdx.mapVals (fun _ _ => List.replicate d.pts.length (-1)), pointCountChanged := true }
  | some _ =>
    let r := if t.container.has c then removePoints t c else .ok t
    r.andThen (fun t =>
      match t.data with
      | none => .fail t .attributeError
      | some old =>
        let n := old.pts.length
        let t1 := { t with container := t.container.set c (n, n + d.pts.length) }
        if old.fields = d.fields then
          let t2 := { t1 with data := some { old with pts := old.pts ++ d.pts },
                              cellIdx := t1.cellIdx.mapVals (fun _ l => l ++ List.replicate d.pts.length (-1)) }
          let t3 := (t2.cellIdx.keys).foldl clearTemp t2
          .ok { t3 with pointCountChanged := true }
        else .fail t1 .typeError)

/-- bathygrid/tile.py:316-351 `new_grid`.  The shape of the arrays is (number of x cells, number of y cells) as in the code. -/
def newGrid (t : Tile) (res : ℚ) (alg : Alg) : Res Tile :=
  if isPowerOfTwo res then
    let gx := arange t.minX t.maxX res
    let gy := arange t.minY t.maxY res
    match appendEdge gx res, appendEdge gy res with
    | some ex, some ey =>
      let nan : LayerArr := Arr2.fill gx.length gy.length none
      let zero : LayerArr := Arr2.fill gx.length gy.length (some 0)
      let hasTvu := match t.data with | some d => d.fields.hasTvu | none => false
      let hasThu := match t.data with | some d => d.fields.hasThu | none => false
      let layers : Dict Layer LayerArr :=
        match alg with
        | .mean | .shoalest =>
          [(t.depthKey, nan), (.density, zero)] ++ (if hasTvu then [(.vertical, nan)] else []) ++
            (if hasThu then [(.horizontal, nan)] else [])
        | .cube => [(t.depthKey, nan), (.density, zero), (.hypCount, zero), (.totalUnc, nan), (.hypRatio, nan)]
        | .other => []
      .ok { t with edgesX := t.edgesX.set res ex, edgesY := t.edgesY.set res ey, cells := t.cells.set res layers }
    | _, _ => .fail t .indexError
  else .fail t .valueError

/-- `np.round(layer, 3)` with NaN kept -/
def roundLayer (a : LayerArr) : LayerArr := a.map (Option.map round3)

/-- the slice `a[s:e]` -/
def slice {α : Type} (a : List α) (s e : Nat) : List α := (a.take e).drop s

/-- bathygrid/tile.py:364-395 + 431-463: `_grid_algorithm_initialize` and the body of `_run_mean_grid`, `_run_shoalest_grid` for the
whole tile: the layers after gridding.  `f` is `np_grid_mean` or `np_grid_shoalest`. -/
def plainLayers (f : List ℚ → List Int → GridArrays → List ℚ → List ℚ → Except Err GridArrays) (depthKey : Layer) (d : PtArr)
    (cidx : List Int) (ls : Dict Layer LayerArr) : Except Err (Dict Layer LayerArr) :=
  let vert := if d.fields.hasTvu then d.pts.map Pt.tvu else []
  let horiz := if d.fields.hasThu then d.pts.map Pt.thu else []
  let vgrid := if d.fields.hasTvu then ls.get? .vertical else none
  let hgrid := if d.fields.hasThu then ls.get? .horizontal else none
  if (d.fields.hasTvu && vgrid.isNone) || (d.fields.hasThu && hgrid.isNone) then .error .keyError
  else
    match ls.get? depthKey, ls.get? .density with
    | some dg, some ng =>
      match f (d.pts.map Pt.z) cidx ⟨dg, ng, vgrid, hgrid⟩ vert horiz with
      | .error e => .error e
      | .ok out =>
        let ls1 := (ls.set depthKey (roundLayer out.depth)).set .density out.density
        let ls2 := match out.tvu with
          | some a => ls1.set .vertical (if vert.length > 0 then roundLayer a else a)
          | none => ls1
        let ls3 := match out.thu with
          | some a => ls2.set .horizontal (if horiz.length > 0 then roundLayer a else a)
          | none => ls2
        .ok ls3
    | _, _ => .error .keyError

/-- bathygrid/tile.py:431-463: `_run_mean_grid`, `_run_shoalest_grid` for the whole tile -/
def runPlain (f : List ℚ → List Int → GridArrays → List ℚ → List ℚ → Except Err GridArrays) (t : Tile) (res : ℚ) :
    Except Err Tile :=
  match t.data, t.cells.get? res, t.cellIdx.get? res with
  | some d, some ls, some cidx =>
    match plainLayers f t.depthKey d cidx ls with
    | .error e => .error e
    | .ok ls' => .ok { t with cells := t.cells.set res ls' }
  | none, _, _ => .error .attributeError
  | _, _, _ => .error .keyError

/-- bathygrid/tile.py:364-395 + 431-463 with `only_container`: grids only the soundings of one container into the layers
`cells[res][container]`, `cells[res][container + '_density']`. -/
def runPlainOnly (f : List ℚ → List Int → GridArrays → List ℚ → List ℚ → Except Err GridArrays) (t : Tile) (res : ℚ)
    (c : String) : Except Err Tile :=
  match t.data, t.cells.get? res, t.cellIdx.get? res, t.container.get? c with
  | some d, some ls, some cidx, some (s, e) =>
    match ls.get? t.depthKey with
    | some dg =>
      let nan : LayerArr := Arr2.fill dg.rows dg.cols none
      let zero : LayerArr := Arr2.fill dg.rows dg.cols (some 0)
      match f (slice (d.pts.map Pt.z) s e) (slice cidx s e) ⟨nan, zero, none, none⟩ [] [] with
      | .error e => .error e
      | .ok out =>
        .ok { t with cells := t.cells.set res ((ls.set (.cont c) (roundLayer out.depth)).set (.contDensity c) out.density) }
    | none => .error .keyError
  | none, _, _, _ => .error .attributeError
  | _, _, _, _ => .error .keyError

/-- bathygrid/tile.py:478-494: the CUBE settings with their defaults -/
def cubeMethod (p : Option GridParams) : String := ((p.bind (·.method)).getD "local")
/-- see `cubeMethod` -/
def cubeIho (p : Option GridParams) : String := ((p.bind (·.ihoOrder)).getD "order1a")
/-- see `cubeMethod` -/
def cubeVariance (p : Option GridParams) : String := ((p.bind (·.varianceSelection)).getD "cube")

/-- bathygrid/tile.py:466-469: the soundings of the tile and of its border (numpy refuses to concatenate different dtypes) -/
def cubeData (d0 : PtArr) (border : Option PtArr) : Except Err PtArr :=
  match border with
  | none => .ok d0
  | some b => if b.fields = d0.fields then .ok { d0 with pts := d0.pts ++ b.pts } else .error .typeError

/-- bathygrid/tile.py:397-429 + 470-502: `_cube_grid_algorithm_initialize` and `_run_cube_grid` for the whole tile: the layers after
gridding -/
def cubeLayers (env : Env) (depthKey : Layer) (minX maxY : ℚ) (d : PtArr) (cidx : List Int) (ls : Dict Layer LayerArr) (res : ℚ)
    (params : Option GridParams) : Except Err (Dict Layer LayerArr) :=
  match ls.get? depthKey, ls.get? .density, ls.get? .totalUnc, ls.get? .hypCount, ls.get? .hypRatio with
  | some dg, some ng, some tu, some hc, some hr =>
    let args : CubeArgs :=
      { depth := d.pts.map Pt.z, thu := d.pts.map Pt.thu, tvu := d.pts.map Pt.tvu, x := d.pts.map Pt.x, y := d.pts.map Pt.y,
        numcols := dg.cols, numrows := dg.rows, minEasting := minX, maxNorthing := maxY,
        method := cubeMethod params, ihoOrder := cubeIho params, res := res, variance := cubeVariance params }
    match nbCube env args cidx ⟨dg, ng, tu, hc, hr⟩ with
    | .error e => .error e
    | .ok out =>
      let ls1 := (ls.set depthKey (roundLayer out.depth)).set .density out.density
      .ok (((ls1.set .totalUnc (roundLayer out.tpu)).set .hypCount out.numhyp).set .hypRatio (roundLayer out.ratio))
  | _, _, _, _, _ => .error .keyError

/-- bathygrid/tile.py:465-502: `_run_cube_grid` for the whole tile.  Needs 'tvu' and 'thu' (numpy raises ValueError for
an unknown field name). -/
def runCube (env : Env) (t : Tile) (res : ℚ) (params : Option GridParams) (border : Option PtArr) : Except Err Tile :=
  match t.data with
  | none => .error .attributeError
  | some d0 =>
    match cubeData d0 border with
    | .error e => .error e
    | .ok d =>
      if d.fields.hasTvu && d.fields.hasThu then
        match t.cells.get? res, t.cellIdx.get? res with
        | some ls, some cidx =>
          match cubeLayers env t.depthKey t.minX t.maxY d cidx ls res params with
          | .error e => .error e
          | .ok ls' => .ok { t with cells := t.cells.set res ls' }
        | _, _ => .error .keyError
      else .error .valueError

/-- bathygrid/tile.py:762-767: dispatch on the algorithm; an unknown algorithm does nothing -/
def runAlg (env : Env) (t : Tile) (alg : Alg) (res : ℚ) (params : Option GridParams) (border : Option PtArr) : Except Err Tile :=
  match alg with
  | .mean => runPlain (npGridMean env) t res
  | .shoalest => runPlain (npGridShoalest env) t res
  | .cube => runCube env t res params border
  | .other => .ok t

/-- bathygrid/tile.py:753-760: reset the layers of a resolution that is gridded again -/
def resetLayers (depthKey : Layer) (ls : Dict Layer LayerArr) : Except Err (Dict Layer LayerArr) :=
  match ls.get? depthKey, ls.get? .density with
  | some dg, some ng =>
    let ls := (ls.set depthKey (Arr2.fill dg.rows dg.cols none)).set .density (Arr2.fill ng.rows ng.cols (some 0))
    .ok ([Layer.vertical, .horizontal, .hypCount, .totalUnc, .hypRatio].foldl (fun ls l =>
      match ls.get? l with
      | some a => ls.set l (Arr2.fill a.rows a.cols (if l = .hypCount then some 0 else none))
      | none => ls) ls)
  | _, _ => .error .keyError

/-- bathygrid/tile.py:748-751: compute the cell index of the points that are marked with -1 -/
def fillIdx (d : PtArr) (idx : List Int) (ex ey : List ℚ) : Except Err (List Int) :=
  let new := idx.map (fun i => decide (i = -1))
  if new.any id then
    if new.length = d.pts.length then
      let sel := boolIndex d.pts new
      match bin2d [sel.map Pt.x] [sel.map Pt.y] ex ey with
      | .error e => .error e
      | .ok b =>
        match assignMask idx new (b.map (fun n : Nat => (n : Int))) with
        | some l => .ok l
        | none => .error .valueError
    else .error .indexError
  else .ok idx

/-- bathygrid/tile.py:733-760: cell edges, cell indices and layer reset -/
def prepare (t : Tile) (res : ℚ) : Except Err Tile :=
  match t.edgesX.get? res, t.edgesY.get? res with
  | some ex, some ey =>
    match t.cellIdx.get? res with
    | none =>
      match t.data with
      | none => .error .typeError
      | some d =>
        match bin2d [d.pts.map Pt.x] [d.pts.map Pt.y] ex ey with
        | .error e => .error e
        | .ok b => .ok { t with cellIdx := t.cellIdx.set res (b.map (fun n : Nat => (n : Int))) }
    | some idx =>
      match fillIdx (t.data.getD ⟨{}, []⟩) idx ex ey, t.cells.get? res with
      | .error e, _ => .error e
      | _, none => .error .keyError
      | .ok idx', some ls =>
        match resetLayers t.depthKey ls with
        | .error e => .error e
        | .ok ls' => .ok { t with cellIdx := t.cellIdx.set res idx', cells := t.cells.set res ls' }
  | _, _ => .error .keyError

/-- bathygrid/tile.py:723-769: `grid` once the resolution is known.  Simplification: if the binning or the gridding function raises, the
state left behind is the one before `prepare`. -/
def gridAt (env : Env) (t : Tile) (alg : Alg) (res : ℚ) (clear : Bool) (params : Option GridParams) (border : Option PtArr) :
    Res Tile :=
  if isPowerOfTwo res then
    let t1 := if clear then t.clearGrid else t
    let t2 := t1.clearTemp res
    let r3 := if !t2.cells.has res || decide (t2.algorithm ≠ some alg) then
        newGrid { t2 with algorithm := some alg, gridParams := params } res alg
      else .ok t2
    r3.andThen (fun t3 =>
      match prepare t3 res with
      | .error e => .fail t3 e
      | .ok t4 =>
        match runAlg env t4 alg res params border with
        | .error e => .fail t4 e
        | .ok t5 => .ok { t5 with pointCountChanged := false })
  else .fail t .valueError

/-- `depth_resolution_lookup` (bathygrid/grid_variables.py:6-7) -/
def lookupTable : List (ℚ × ℚ) :=
  [(10, 1/4), (20, 1/2), (40, 1), (60, 2), (80, 4), (160, 8), (320, 16), (640, 32), (1280, 64), (2560, 128), (5120, 256),
   (10240, 512), (20480, 1024)]

/-- bathygrid/tile.py:69-83 `mean_depth` of a tile with points; `none` is NaN (mean of an empty array) -/
def meanDepthOf (z : List ℚ) : Option ℚ := if z.length = 0 then none else some (z.sum / z.length)

/-- bathygrid/tile.py:249-252, bathygrid/bgrid.py:426-429: `argmax` of `key - depth > 0`, i.e. the first key above the depth, or the
first entry if there is none -/
def lookupArgmax (depth : Option ℚ) : ℚ :=
  match lookupTable.find? (fun p => match depth with | some d => decide (p.1 - d > 0) | none => false) with
  | some p => p.2
  | none => 1/4

/-- bathygrid/tile.py:236-255 `_calculate_resolution_lookup` -/
def resolutionLookup (t : Tile) : Except Err ℚ :=
  match t.data with
  | none => .error .valueError
  | some d => .ok (min t.width (lookupArgmax (meanDepthOf (d.pts.map Pt.z))))

/-- number of occurrences of each distinct value, in increasing order of the values (`np.unique(…, return_counts=True)`) -/
def uniqueCounts (l : List Nat) : List (Nat × Nat) := (npUnique l).map (fun u => (u, l.count u))

/-- bathygrid/tile.py:534-541 `_return_cell_counts` -/
def cellCounts (t : Tile) (d : PtArr) (res : ℚ) : Except Err (List (Nat × Nat)) :=
  let gx := arange t.minX t.maxX res
  let gy := arange t.minY t.maxY res
  match appendEdge gx res, appendEdge gy res with
  | some ex, some ey => (bin2d [d.pts.map Pt.x] [d.pts.map Pt.y] ex ey).map uniqueCounts
  | _, _ => .error .indexError

/-- bathygrid/tile.py:628-684 `resolution_by_density` with the default noise factor.  The square root is any function (`env.sqrt`).
`rez_options` is the sorted list of table resolutions, which is the table order. A starting resolution of 0 is taken as missing. -/
def resolutionByDensity (env : Env) (t : Tile) (starting : Option ℚ) : Except Err ℚ :=
  let rezOptions := lookupTable.map Prod.snd
  let tileSize := t.maxX - t.minX
  let start : Except Err ℚ :=
    match starting with
    | none => .ok 16
    | some s => if s = 0 then .ok 16 else if s ∈ rezOptions then .ok s else .error .valueError
  match start, t.data with
  | .error e, _ => .error e
  | _, none => .error .typeError
  | .ok s, some d =>
    let s := min tileSize s
    let maxCells := ⌊(tileSize / s) ^ 2⌋
    match cellCounts t d s with
    | .error e => .error e
    | .ok uc =>
      let counts := uc.map (fun p => (p.2 : ℚ))
      let percentFull := (uc.length : ℚ) / maxCells
      if percentFull ≤ 3/4 then
        let i := match meanDepthOf (d.pts.map Pt.z) with
          | some m => searchsortedLeft (lookupTable.map Prod.fst) m
          | none => lookupTable.length
        let i := if i = rezOptions.length then i - 1 else i
        .ok (min ((rezOptions[i]?).getD 0) tileSize)
      else
        let est := counts.map (fun c => env.sqrt (2 * 5 * (1 + 3/4) / (c / s ^ 2)))
        let maxRes := (List.zipWith (· * ·) est counts).sum / counts.sum
        let i := searchsortedLeft rezOptions maxRes
        let i := if i = rezOptions.length then i - 1 else i
        .ok (min ((rezOptions[i]?).getD 0) tileSize)

/-- bathygrid/tile.py:716-722: the resolution used by `grid` -/
def chooseResolution (env : Env) (t : Tile) (res : Option ℚ) (mode : AutoMode) : Except Err ℚ :=
  match res with
  | some r => .ok r
  | none =>
    match mode with
    | .depth => resolutionLookup t
    | .density => resolutionByDensity env t none
    | .other => .error .valueError

/-- bathygrid/tile.py:686-769 `grid`; returns the tile and the resolution used -/
def grid (env : Env) (t : Tile) (alg : Alg) (res : Option ℚ) (clear : Bool) (mode : AutoMode) (params : Option GridParams)
    (border : Option PtArr) : Res Tile × Option ℚ :=
  match chooseResolution env t res mode with
  | .error e => (.fail t e, none)
  | .ok r =>
    let out := gridAt env t alg r clear params border
    (out, if out.err = none then some r else none)

/-! ### queries -/

/-- is the value of a cell populated (not NaN) -/
def countValid (a : LayerArr) : Nat := a.flat.countP Option.isSome

/-- bathygrid/tile.py:85-100 `cell_count`: looks at the first layer of each resolution; `none` is the IndexError for a resolution
without layers -/
def cellCount (t : Tile) : Option (Dict ℚ Nat) :=
  t.cells.mapM (fun p => match p.2 with | [] => none | l :: _ => some (p.1, countValid l.2))

/-- the positive entries of a layer -/
def positives (a : LayerArr) : List ℚ :=
  a.flat.filterMap (fun v => match v with | some d => if d > 0 then some d else none | none => none)

/-- bathygrid/tile.py:102-121 `density_count` -/
def densityCount (t : Tile) : Except Err (List ℚ) :=
  match t.cells.mapM (fun p => (Dict.get? p.2 .density).map positives) with
  | some l => .ok l.flatten
  | none => .error .valueError

/-- bathygrid/tile.py:123-142 `density_per_square_meter` -/
def densityPerSquareMeter (t : Tile) : Except Err (List ℚ) :=
  match t.cells.mapM (fun p => (Dict.get? p.2 .density).map (fun a => (positives a).map (fun v => v / p.1 ^ 2))) with
  | some l => .ok l.flatten
  | none => .error .valueError

/-- bathygrid/tile.py:202-221 `coverage_area_square_meters` (python `round(_, 3)` per resolution) -/
def coverageArea (t : Tile) : Except Err ℚ :=
  match t.cells.mapM (fun p => (Dict.get? p.2 .density).map (fun a => round3 (((positives a).length : ℚ) * p.1 ^ 2))) with
  | some l => .ok l.sum
  | none => .error .valueError

/-- split a list into the groups that start at the given indices: `np.split(a, uidx)[1:]` -/
def splitAtIdx {α : Type} (a : List α) : List Nat → List (List α)
  | [] => []
  | [i] => [a.drop i]
  | i :: j :: rest => slice a i j :: splitAtIdx a (j :: rest)

/-- bathygrid/algorithms.py:216-287 `calculate_slopes` (without plotting); the least squares fit is `env.plane` -/
def calculateSlopes (env : Env) (pts : List Pt) (cidx : List Int) (ex ey : List ℚ) : Except Err (LayerArr × LayerArr) :=
  let rows := ey.length - 1
  let cols := ex.length - 1
  let nan : LayerArr := Arr2.fill rows cols none
  let cellSort := env.argsort.run cidx
  match takeIdx cidx cellSort, takeIdx pts cellSort with
  | some sortedIdx, some sortedPts =>
    let u := runsFrom 0 sortedIdx
    match (u.map (fun t => t.1)).mapM (fun i => unravel i rows cols) with
    | none => .error .valueError
    | some rc =>
      let groups := splitAtIdx (sortedPts.map (fun p => (p.x, p.y, p.z))) (u.map (fun t => t.2.1))
      let fits := groups.map env.plane
      .ok (scatter nan rc (fits.map (fun f => some f.1)), scatter nan rc (fits.map (fun f => some f.2)))
  | _, _ => .error .indexError

/-- bathygrid/tile.py:509-532 `_run_slopes` -/
def runSlopes (env : Env) (t : Tile) (res : ℚ) : Except Err Tile :=
  match t.cells.get? res with
  | none => .error .keyError
  | some ls =>
    if ls.has .xSlope then .ok t
    else
      match t.data, t.cellIdx.get? res, t.edgesX.get? res, t.edgesY.get? res with
      | some d, some cidx, some ex, some ey =>
        match calculateSlopes env d.pts cidx ex ey with
        | .error e => .error e
        | .ok (sx, sy) => .ok { t with cells := t.cells.set res ((ls.set .xSlope sx).set .ySlope sy) }
      | none, _, _, _ => .error .attributeError
      | _, _, _, _ => .error .keyError

/-- bathygrid/tile.py:828: a layer without numbers -/
def fillLayer (t : Tile) (layer : Layer) (res : ℚ) (nodata : Option ℚ) : Except Err Tile :=
  match t.cells.get? res with
  | none => .error .keyError
  | some ls =>
    match ls.get? t.depthKey with
    | some dg => .ok { t with cells := t.cells.set res (ls.set layer (Arr2.fill dg.rows dg.cols nodata)) }
    | none => .error .keyError

/-- bathygrid/tile.py:817-828: make sure a computed layer (slopes, container query) exists.
A container query on a CUBE tile always raises: lines 410-412 pass one dimensional empty arrays as grids, and line 210 of
bathygrid/algorithms.py indexes them with a two dimensional mask (IndexError).
The counts of a container (`c_density`) are asked for like a container of this name: what was there is replaced by nodata.
Simplification: if there is a container of this name, its layer and these counts are one layer in the code, here they are two. -/
def ensureLayer (env : Env) (t : Tile) (layer : Layer) (res : ℚ) (nodata : Option ℚ) : Except Err Tile :=
  match layer with
  | .xSlope | .ySlope => runSlopes env t res
  | .cont c =>
    if t.container.has c then
      match t.algorithm with
      | some .mean => runPlainOnly (npGridMean env) t res c
      | some .shoalest => runPlainOnly (npGridShoalest env) t res c
      | some .cube => .error .indexError
      | _ => .ok t
    else fillLayer t (.cont c) res nodata
  | .contDensity c => if t.container.has (c ++ "_density") then .ok t else fillLayer t (.contDensity c) res nodata
  | _ => .ok t

/-- bathygrid/tile.py:796-804: integer layers have an integer nodata value, NaN becomes 0 -/
def nodataFor (layer : Layer) (nodata : Option ℚ) : Option ℚ :=
  match layer with
  | .density | .hypCount =>
    match nodata with
    | none => some 0
    | some v => some (if 0 ≤ v then (⌊v⌋ : ℚ) else (⌈v⌉ : ℚ))
  | _ => nodata

/-- bathygrid/tile.py:810-816: pick the resolution of a query; `ok none` is `return None` -/
def queryResolution (t : Tile) (res : Option ℚ) : Except Err (Option ℚ) :=
  match res with
  | some r =>
    if r = 0 then
      if t.cells.length > 1 then .error .valueError
      else match t.cells with | [] => .error .indexError | p :: _ => .ok (some p.1)
    else if t.cells.has r then .ok (some r) else .ok none
  | none =>
    if t.cells.length > 1 then .error .valueError
    else match t.cells with | [] => .error .indexError | p :: _ => .ok (some p.1)

/-- bathygrid/tile.py:835-841: all-NaN layers become None, sign flip of depth, nodata replacement -/
def finishLayer (layer : Layer) (nodata : Option ℚ) (zUp : Bool) (a : LayerArr) : Option LayerArr :=
  if a.flat.all Option.isNone then none
  else
    let a := if layer = .depth ∧ zUp = true then a.map (Option.map (fun v => v * (-1))) else a
    some (match nodata with | some v => a.map (fun e => some (e.getD v)) | none => a)

/-- bathygrid/tile.py:383-386 and 417-420: a container query writes a layer of NaN and counts of zero before it calls the algorithm, they stay in
the tile if the algorithm raises.
Simplification: for CUBE the algorithm has written its depths and counts into them when it raises; no call of the code shows these values, because every
query of the container writes these layers anew (and raises), and a query after the container is gone fills them with nodata. -/
def leftBehind (t : Tile) (layer : Layer) (res : ℚ) : Tile :=
  match layer with
  | .cont c =>
    match t.algorithm with
    | some .mean | some .shoalest | some .cube =>
      match t.data, t.cells.get? res, t.container.get? c with
      | some _, some ls, some _ =>
        match ls.get? t.depthKey with
        | some dg => { t with cells := t.cells.set res ((ls.set (.cont c) (Arr2.fill dg.rows dg.cols none)).set (.contDensity c) (Arr2.fill dg.rows dg.cols (some 0))) }
        | none => t
      | _, _, _ => t
    | _ => t
  | _ => t

/-- bathygrid/tile.py:771-841 `get_layers_by_name`.  Returns the tile (slope and container layers are cached in it) and the array. -/
def getLayer (env : Env) (t : Tile) (layer : Layer) (res : Option ℚ) (nodata : Option ℚ) (zUp : Bool) :
    Tile × Except Err (Option LayerArr) :=
  let nodata := nodataFor layer nodata
  if t.isEmpty then (t, .ok none)
  else
    match queryResolution t res with
    | .error e => (t, .error e)
    | .ok none => (t, .ok none)
    | .ok (some r) =>
      match ensureLayer env t layer r nodata with
      | .error e => (leftBehind t layer r, .error e)
      | .ok t' =>
        match (t'.cells.get? r).bind (fun ls => ls.get? layer) with
        | none => (t', .error .valueError)
        | some a => (t', .ok (finishLayer layer nodata zUp a))

/-- bathygrid/tile.py:843-873 `return_layer_values` -/
def layerValues (t : Tile) (layer : Layer) : Except Err (List ℚ) :=
  match layer with
  | .depth | .intensity | .vertical | .horizontal | .totalUnc | .hypRatio =>
    .ok ((t.cells.map (fun p => match Dict.get? p.2 layer with | some a => a.flat.filterMap id | none => [])).flatten)
  | .density | .hypCount =>
    .ok ((t.cells.map (fun p => match Dict.get? p.2 layer with
      | some a => (a.flat.filterMap id).filter (fun v => decide (v ≠ 0)) | none => [])).flatten)
  | _ => .error .valueError

end Tile
end Bathy
