import Verif.Model.GridRun

/-!
# Saving to disk and loading (bathygrid/backends.py)

A grid with an output folder writes its tiles while it works.  What is on disk is a tree: the root folder of the grid holds `metadata.json`, five arrays
and one folder for each tile; the folder of a tile holds `metadata.json`, the soundings and the gridded arrays.

Simplifications of the whole file:
* folders are found by the origin of the tile, not by its formatted name `'{x}_{y}'` (two origins never have the same name, and the names of the arrays are read back as they were written: C103);
* the two arrays `tile_x_origin`, `tile_y_origin` (meshgrids) are kept as the two axes, as in `Grid`;
* deleting a folder, creating a folder, writing an array are one step each; writing `metadata.json` is two (`open(…, 'w')` empties the file);
* arrays are read when they are loaded, there are no lazy (dask, memmap) arrays, so `_load_tile_data_to_memory` (backends.py:481-524) does nothing (with lazy arrays: `Model/Lazy.lean`, C105);
* a number becomes the same number when it is written as text and read back.
-/

namespace Bathy

/-- the two storage backends (bathygrid/backends.py:355, 527) -/
inductive Backend
  | numpy | zarr
  deriving DecidableEq, Repr

/-- arrays that are written to disk -/
class IsArr (α : Type) where
  /-- `arr.size` -/
  size : α → Nat
  /-- `np.array([])` -/
  blank : α

instance {β : Type} : IsArr (List β) := ⟨List.length, []⟩
instance {β : Type} : IsArr (Arr2 β) := ⟨fun a => a.flat.length, ⟨0, 0, []⟩⟩
/-- simplification: the fields of `np.array([])` are none at all, not even 'x', 'y', 'z' -/
instance : IsArr PtArr := ⟨fun d => d.pts.length, ⟨{}, []⟩⟩

/-- an array on disk: the array, or what stands for an empty one (`np.array([])` in the numpy backend, the marker file `zarr_backend_empty` in the
zarr backend) -/
inductive Stored (α : Type)
  | full (a : α)
  | blank
  deriving DecidableEq

/-- what is found at the path of a json file: nothing, a file that is not complete, or the contents -/
inductive Json (α : Type)
  | absent
  | cut
  | full (a : α)
  deriving DecidableEq

/-- bathygrid/backends.py:368-378, 539-560 `_numpygrid_todask`, `_zarrgrid_todask`, `_save_array`: what is written.  `none` is python `None`. -/
def Backend.store {α : Type} [IsArr α] (b : Backend) (a : Option α) : Stored α :=
  match b, a with
  | .numpy, none => .blank
  | .numpy, some a => .full a
  | .zarr, none => .blank
  | .zarr, some a => if IsArr.size a = 0 then .blank else .full a

/-- bathygrid/backends.py:380-381, 562-567 `_load_array` -/
def Stored.value {α : Type} [IsArr α] : Stored α → α
  | .full a => a
  | .blank => IsArr.blank

/-- `_load_array` of a path where nothing may be found -/
def readArr {α : Type} [IsArr α] : Option (Stored α) → Except Err α
  | none => .error .fileNotFoundError
  | some s => .ok s.value

/-- the json file of a tile (bathygrid/grid_variables.py:36-37 `tile_desired_keys`, without `name`) -/
structure TileMeta where
  minX : ℚ
  maxX : ℚ
  minY : ℚ
  maxY : ℚ
  width : ℚ
  height : ℚ
  container : Dict String (Nat × Nat)
  algorithm : Option Alg
  gridParams : Option GridParams
  pointCountChanged : Bool
  isBackscatter : Bool
  deriving DecidableEq

/-- the folder of a tile: `metadata.json`, `data`, `cells_{res}_{layer}`, `cell_edges_x_{res}`, `cell_edges_y_{res}`, `cell_{res}_indices` -/
structure TileFolder where
  info : Json TileMeta := .absent
  data : Option (Stored PtArr) := none
  layers : Dict (ℚ × Layer) (Stored LayerArr) := []
  edgesX : Dict ℚ (Stored (List ℚ)) := []
  edgesY : Dict ℚ (Stored (List ℚ)) := []
  indices : Dict ℚ (Stored (List Int)) := []
  deriving DecidableEq

/-- the json file of a grid (bathygrid/grid_variables.py:25-30 `bathygrid_desired_keys`, without the five arrays; `output_folder` is not used when it is
read, `sub_type`, `storage_type` are given by the class, `version` is left out, for `container_timestamp` see `Meta`) -/
structure Header where
  name : String
  canGrow : Bool
  originX : ℚ
  originY : ℚ
  tileSize : ℚ
  subtileSize : ℚ
  isBackscatter : Bool
  extents : Option Extents
  width : Option ℚ
  height : Option ℚ
  maximumTiles : Option Nat
  numberOfTiles : Option Int
  info : Meta
  meanDepth : ℚ
  resolutions : List ℚ
  gridAlgorithm : Option Alg
  gridResolution : GridRes
  gridParams : Option GridParams
  deriving DecidableEq

/-- the root folder of a grid: `metadata.json`, the arrays of bathygrid/grid_variables.py:32 `bathygrid_numpy_to_list`, the folders of the tiles -/
structure GridFolder (φ : Type) where
  info : Json Header := .absent
  txs : Option (Stored (List ℚ)) := none
  tys : Option (Stored (List ℚ)) := none
  edgesX : Option (Stored (List ℚ)) := none
  edgesY : Option (Stored (List ℚ)) := none
  mask : Option (Stored (Arr2 Bool)) := none
  tiles : Dict (ℚ × ℚ) φ := []
  deriving DecidableEq

/-- what is on disk now, and what was on disk before each of the steps made so far.  `φ` is the type of the contents. -/
structure Disk (φ : Type) where
  now : φ
  past : List φ := []
  deriving DecidableEq

namespace Disk
variable {φ : Type}

/-- one step -/
def write (d : Disk φ) (f : φ → φ) : Disk φ := ⟨f d.now, d.past ++ [d.now]⟩

/-- everything that a process that stops somewhere may leave on disk -/
def states (d : Disk φ) : List φ := d.past ++ [d.now]

end Disk

/-! ### one tile -/

namespace Tile

/-- the attributes written by bathygrid/backends.py:81-99 `_save_tile_metadata` -/
def toMeta (t : Tile) : TileMeta :=
  { minX := t.minX, maxX := t.maxX, minY := t.minY, maxY := t.maxY, width := t.width, height := t.height, container := t.container,
    algorithm := t.algorithm, gridParams := t.gridParams, pointCountChanged := t.pointCountChanged, isBackscatter := t.isBackscatter }

/-- the attributes set by bathygrid/backends.py:101-121 `_load_tile_metadata` -/
def setMeta (t : Tile) (m : TileMeta) : Tile :=
  { t with minX := m.minX, maxX := m.maxX, minY := m.minY, maxY := m.maxY, width := m.width, height := m.height, container := m.container,
           algorithm := m.algorithm, gridParams := m.gridParams, pointCountChanged := m.pointCountChanged, isBackscatter := m.isBackscatter }

/-- the layers that are written, in this order (bathygrid/backends.py:408-423, 594-609) -/
def writtenLayers : List Layer := [.depth, .intensity, .density, .vertical, .horizontal, .totalUnc, .hypCount, .hypRatio]

/-- The layers that are read (bathygrid/backends.py:460-475, 646-661).
Simplification: the code has 'total_uncertainty' before 'hypothesis_count'; here the order is the one of `new_grid`.  Only the order of `layer_names`
after loading a CUBE grid depends on it. -/
def savedLayers : List Layer := [.depth, .intensity, .density, .vertical, .horizontal, .hypCount, .totalUnc, .hypRatio]

/-- the folder of the tile on disk, `none` if it is not there -/
abbrev TileDisk := Disk (Option TileFolder)

/-- `os.makedirs(folderpath, exist_ok=True)` -/
def mkFolder (d : TileDisk) : TileDisk := d.write (fun f => some (f.getD {}))

/-- a step within the folder of the tile -/
def inFolder (d : TileDisk) (f : TileFolder → TileFolder) : TileDisk := d.write (Option.map f)

/-- bathygrid/backends.py:81-99 `_save_tile_metadata` -/
def saveMeta (t : Tile) (d : TileDisk) : TileDisk :=
  inFolder (inFolder (mkFolder d) (fun f => { f with info := .cut })) (fun f => { f with info := .full t.toMeta })

/-- bathygrid/backends.py:399-400, 585-586: the soundings (`_save_array`: remove, then write) -/
def saveData (b : Backend) (t : Tile) (d : TileDisk) : TileDisk :=
  inFolder (inFolder d (fun f => { f with data := none })) (fun f => { f with data := some (b.store t.data) })

/-- bathygrid/backends.py:404-406, 590-592: remove everything whose name starts with 'cell', one after the other.
Simplification: `os.listdir` gives them in any order, here layers come first, then edges and indices. -/
def removeCells (d : TileDisk) : TileDisk :=
  match d.now with
  | none => d
  | some f =>
    let d := f.layers.keys.foldl (fun d k => inFolder d (fun f => { f with layers := f.layers.pop k })) d
    let d := f.edgesX.keys.foldl (fun d k => inFolder d (fun f => { f with edgesX := f.edgesX.pop k })) d
    let d := f.edgesY.keys.foldl (fun d k => inFolder d (fun f => { f with edgesY := f.edgesY.pop k })) d
    f.indices.keys.foldl (fun d k => inFolder d (fun f => { f with indices := f.indices.pop k })) d

/-- bathygrid/backends.py:408-423, 594-609: the layers of one resolution -/
def saveLayers (b : Backend) (r : ℚ) (ls : Dict Layer LayerArr) (d : TileDisk) : TileDisk :=
  writtenLayers.foldl (fun d l =>
    match ls.get? l with
    | some a => inFolder (inFolder d (fun f => { f with layers := f.layers.pop (r, l) })) (fun f => { f with layers := f.layers.set (r, l) (b.store (some a)) })
    | none => d) d

/-- bathygrid/backends.py:407-425, 593-611: layers and cell edges of one resolution -/
def saveRes (b : Backend) (t : Tile) (d : TileDisk) (r : ℚ) : Res TileDisk :=
  match t.cells.get? r with
  | none => .fail d .keyError
  | some ls =>
    let d := saveLayers b r ls d
    match t.edgesX.get? r with
    | none => .fail d .keyError
    | some ex =>
      let d := inFolder (inFolder d (fun f => { f with edgesX := f.edgesX.pop r })) (fun f => { f with edgesX := f.edgesX.set r (b.store (some ex)) })
      match t.edgesY.get? r with
      | none => .fail d .keyError
      | some ey => .ok (inFolder (inFolder d (fun f => { f with edgesY := f.edgesY.pop r })) (fun f => { f with edgesY := f.edgesY.set r (b.store (some ey)) }))

/-- bathygrid/backends.py:427-428, 613-614: the cell indices -/
def saveIndices (b : Backend) (t : Tile) (d : TileDisk) : TileDisk :=
  t.cellIdx.foldl (fun d p =>
    inFolder (inFolder d (fun f => { f with indices := f.indices.pop p.1 })) (fun f => { f with indices := f.indices.set p.1 (b.store (some p.2)) })) d

/-- what `only_points`, `only_grid` of `_save_tile`, `_load_tile` select -/
inductive Part
  | all | points | grid
  deriving DecidableEq, Repr

/-- bathygrid/backends.py:383-428, 569-614 `_save_tile_data` -/
def saveTileData (b : Backend) (t : Tile) (part : Part) (d : TileDisk) : Res TileDisk :=
  let d := if part = .grid then d else saveData b t d
  let r : Res TileDisk := if part = .points then .ok d else Res.forEach t.cells.keys (removeCells d) (saveRes b t)
  r.andThen (fun d => .ok (saveIndices b t d))

/-- bathygrid/backends.py:219-244 `_save_tile` with an output folder -/
def saveTile (b : Backend) (t : Option Tile) (part : Part) (d : TileDisk) : Res TileDisk :=
  match t with
  | none => .ok (d.write (fun _ => none))
  | some t => saveTileData b t part (saveMeta t d)

/-- bathygrid/backends.py:446-454, 632-640: the resolutions found among the names `cells_…` -/
def foundResolutions (f : TileFolder) : List ℚ := npUnique (f.layers.keys.map Prod.fst)

/-- bathygrid/backends.py:459-475, 645-661: the layers of one resolution -/
def loadLayers (f : TileFolder) (r : ℚ) : Dict Layer LayerArr :=
  savedLayers.filterMap (fun l => (f.layers.get? (r, l)).map (fun s => (l, s.value)))

/-- bathygrid/backends.py:458-477, 644-663: layers and cell edges of one resolution -/
def loadRes (f : TileFolder) (t : Tile) (r : ℚ) : Except Err Tile :=
  match readArr (f.edgesX.get? r), readArr (f.edgesY.get? r) with
  | .ok ex, .ok ey => .ok { t with cells := t.cells.set r (loadLayers f r), edgesX := t.edgesX.set r ex, edgesY := t.edgesY.set r ey }
  | .error e, _ => .error e
  | _, .error e => .error e

/-- bathygrid/backends.py:478-479, 664-665: the cell indices of one resolution -/
def loadIndex (f : TileFolder) (t : Tile) (r : ℚ) : Except Err Tile :=
  match readArr (f.indices.get? r) with
  | .ok l => .ok { t with cellIdx := t.cellIdx.set r l }
  | .error e => .error e

/-- bathygrid/backends.py:430-479, 616-665 `_load_tile_data` into the tile object `t` -/
def loadTileData (f : TileFolder) (part : Part) (t : Tile) : Except Err Tile := do
  let t ← if part = .grid then pure t else (readArr f.data).map (fun d => { t with data := some d })
  let t ← if part = .points then pure t else (foundResolutions f).foldlM (loadRes f) t
  (foundResolutions f).foldlM (loadIndex f) t

/-- bathygrid/backends.py:101-121 `_load_tile_metadata` -/
def loadMeta (f : TileFolder) (t : Tile) : Except Err Tile :=
  match f.info with
  | .absent => .error .environmentError
  | .cut => .error .valueError
  | .full m => .ok (t.setMeta m)

/-- bathygrid/backends.py:289-319 `_load_tile`: `old` is what is at the place in memory, a new object (`SRTile()`) is made if nothing is.
Simplification: if it raises, the object in memory stays as it was. -/
def loadTile (old : Option Tile) (part : Part) (f : Option TileFolder) : Except Err (Option Tile) :=
  match f with
  | none => .ok none
  | some f => ((loadMeta f (old.getD (Tile.new 0 0 0 false))).bind (loadTileData f part)).map some

/-- `_save_tile` and `_load_tile`, as they are called together (bathygrid/bgrid.py:661-662, 750-751, 1347-1348, 1369-1370) -/
def flush (b : Backend) (part : Part) (t : Option Tile) (d : TileDisk) : Res (Option Tile × TileDisk) :=
  let r := saveTile b t part d
  match r.err with
  | some e => .fail (t, r.st) e
  | none =>
    match loadTile t part r.st.now with
    | .error e => .fail (t, r.st) e
    | .ok u => .ok (u, r.st)

end Tile

/-! ### the grid -/

/-- What a grid with an output folder uses of its tiles: `φ` is the type of the contents of the folder of the tile. -/
class DiskLike (τ : Type) (φ : outParam Type) extends GridLike τ where
  /-- `add_points` of a tile with its folder -/
  addD : Backend → PtArr → String → τ × Disk (Option φ) → Res (τ × Disk (Option φ))
  /-- `remove_points` of a tile with its folder -/
  removeD : Backend → String → τ × Disk (Option φ) → Res (τ × Disk (Option φ))
  /-- `grid` of a tile with its folder, and the list of resolutions it returns -/
  gridD : Env → Backend → GridCall → τ × Disk (Option φ) → Res (τ × Disk (Option φ)) × List ℚ
  /-- what the grid does with the tile after it has changed it: save and load it, if it is a `SRTile` -/
  flush : Backend → Tile.Part → Option τ → Disk (Option φ) → Res (Option τ × Disk (Option φ))
  /-- one round of the loop of `save` -/
  saveAll : Backend → Option τ → Disk (Option φ) → Res (Disk (Option φ))
  /-- one round of the loop of `load` -/
  load : Option φ → Except Err (Option τ)

namespace Grid
variable {τ φ : Type}

/-- the attributes written by bathygrid/backends.py:25-45 `_save_bathygrid_metadata` -/
def header (g : Grid τ) : Header :=
  { name := g.name, canGrow := g.canGrow, originX := g.originX, originY := g.originY, tileSize := g.tileSize, subtileSize := g.subtileSize,
    isBackscatter := g.isBackscatter, extents := g.extents, width := g.width, height := g.height, maximumTiles := g.maximumTiles,
    numberOfTiles := g.numberOfTiles, info := g.info, meanDepth := g.meanDepth, resolutions := g.resolutions, gridAlgorithm := g.gridAlgorithm,
    gridResolution := g.gridResolution, gridParams := g.gridParams }

/-- the attributes set by bathygrid/backends.py:47-79 `_load_bathygrid_metadata`: a missing extent, width or height becomes 0.0, the mask is an array -/
def ofHeader (h : Header) (txs tys ex ey : List ℚ) (mask : Arr2 Bool) : Grid τ :=
  { name := h.name, canGrow := h.canGrow, originX := h.originX, originY := h.originY, tileSize := h.tileSize, subtileSize := h.subtileSize,
    isBackscatter := h.isBackscatter, extents := some (h.extents.getD ⟨0, 0, 0, 0⟩), txs := txs, tys := tys, edgesX := ex, edgesY := ey,
    width := some (h.width.getD 0), height := some (h.height.getD 0), maximumTiles := h.maximumTiles, mask := some mask,
    tiles := some (Arr2.fill tys.length txs.length none), numberOfTiles := h.numberOfTiles, info := h.info, meanDepth := h.meanDepth,
    resolutions := h.resolutions, gridAlgorithm := h.gridAlgorithm, gridResolution := h.gridResolution, gridParams := h.gridParams }

/-- the root folder of the grid on disk -/
abbrev Root (φ : Type) := Option (GridFolder φ)

/-- a step within the root folder -/
def inRoot (d : Disk (Root φ)) (f : GridFolder φ → GridFolder φ) : Disk (Root φ) := d.write (Option.map f)

/-- bathygrid/backends.py:208-217 `_save_grid` and 25-45 `_save_bathygrid_metadata` with an output folder -/
def saveGrid (b : Backend) (g : Grid τ) (d : Disk (Root φ)) : Disk (Root φ) :=
  let d := d.write (fun f => some (f.getD {}))
  let d := inRoot (inRoot d (fun f => { f with txs := none })) (fun f => { f with txs := some (b.store (some g.txs)) })
  let d := inRoot (inRoot d (fun f => { f with tys := none })) (fun f => { f with tys := some (b.store (some g.tys)) })
  let d := inRoot (inRoot d (fun f => { f with edgesX := none })) (fun f => { f with edgesX := some (b.store (some g.edgesX)) })
  let d := inRoot (inRoot d (fun f => { f with edgesY := none })) (fun f => { f with edgesY := some (b.store (some g.edgesY)) })
  let d := inRoot (inRoot d (fun f => { f with mask := none })) (fun f => { f with mask := some (b.store g.mask) })
  inRoot (inRoot d (fun f => { f with info := .cut })) (fun f => { f with info := .full g.header })

/-- bathygrid/backends.py:138-161 `_get_tile_folder`: the folder of the tile with the given origin -/
def tileFolder (f : Root φ) (o : ℚ × ℚ) : Option φ := f.bind (fun f => f.tiles.get? o)

/-- replace the folder of a tile; a missing root folder is made with it (`os.makedirs`) -/
def putTile (f : Root φ) (o : ℚ × ℚ) (x : Option φ) : Root φ :=
  match x with
  | some y => some { (f.getD {}) with tiles := (f.getD {}).tiles.set o y }
  | none => f.map (fun f => { f with tiles := f.tiles.pop o })

/-- the folder of one tile, before something is done with it -/
def focus (d : Disk (Root φ)) (o : ℚ × ℚ) : Disk (Option φ) := ⟨tileFolder d.now o, []⟩

/-- the root folder after something was done with the folder of one tile -/
def absorb (d : Disk (Root φ)) (o : ℚ × ℚ) (c : Disk (Option φ)) : Disk (Root φ) :=
  ⟨putTile d.now o c.now, d.past ++ c.past.map (putTile d.now o)⟩

section
variable [DiskLike τ φ]

/-- bathygrid/bgrid.py:659-662, 749-751, 1345-1348: save and load the tile with flat index `k` -/
def flushTile (b : Backend) (part : Tile.Part) (s : Grid τ × Disk (Root φ)) (k : Nat) : Res (Grid τ × Disk (Root φ)) :=
  match s.1.tile? k, s.1.tileOrigin k with
  | some o, some p =>
    let r := DiskLike.flush b part o (focus s.2 p)
    ⟨(s.1.setTile k r.st.1, absorb s.2 p r.st.2), r.err⟩
  | _, _ => .fail s .indexError

/-- bathygrid/bgrid.py:648-662: one round of the loop of `_add_points_to_tiles` -/
def addToTileD (b : Backend) (fields : Fields) (pts : List Pt) (bins : List Nat) (c : String) (s : Grid τ × Disk (Root φ)) (k : Nat) : Res (Grid τ × Disk (Root φ)) :=
  let (g, d) := s
  let sel := boolIndex pts (bins.map (fun b => decide (b = k)))
  match g.tileOrigin k with
  | none => .fail s .indexError
  | some (x, y) =>
    let old : Except Err τ :=
      match g.tile? k with
      | none => .error .indexError
      | some (some t) => .ok t
      | some none => TileLike.build g.tileSize g.subtileSize g.isBackscatter x y
    match old with
    | .error e => .fail s e
    | .ok t =>
      let r := DiskLike.addD b ⟨fields, sel⟩ c (t, focus d (x, y))
      let d := absorb d (x, y) r.st.2
      match r.err with
      | some e => .fail (g.setTile k (some r.st.1), d) e
      | none => flushTile b .points (g.setTile k (if TileLike.isEmpty r.st.1 then none else some r.st.1), d) k

/-- bathygrid/bgrid.py:615-663 `_add_points_to_tiles` -/
def addToTilesD (b : Backend) (dt : PtArr) (c : String) (s : Grid τ × Disk (Root φ)) : Res (Grid τ × Disk (Root φ)) :=
  let s := (s.1, saveGrid b s.1 s.2)
  match bin2d [dt.pts.map Pt.x] [dt.pts.map Pt.y] s.1.edgesX s.1.edgesY with
  | .error e => .fail s e
  | .ok bins =>
    (Res.forEach (npUnique bins) s (addToTileD b dt.fields dt.pts bins c)).andThen (fun s =>
      .ok ({ s.1 with numberOfTiles := some (s.1.countTiles : Int) }, s.2))

/-- a step that only works on the grid in memory -/
def inMemory (r : Res (Grid τ)) (d : Disk (Root φ)) : Res (Grid τ × Disk (Root φ)) := ⟨(r.st, d), r.err⟩

/-- bathygrid/bgrid.py:665-706 `add_points` -/
def addPointsD (b : Backend) (dt : PtArr) (c : String) (a : AddArgs) (s : Grid τ × Disk (Root φ)) : Res (Grid τ × Disk (Root φ)) :=
  let (g, d) := s
  if g.info.container.has c then .fail s .valueError
  else
    let r := g.info.update c a
    match r.err with
    | some e => .fail ({ g with info := r.st }, d) e
    | none =>
      (inMemory (updateBase { g with info := r.st } dt.pts) d).andThen (fun s =>
        (inMemory (placeTiles s.1) s.2).andThen (fun s =>
          (addToTilesD b dt c s).andThen (fun s =>
            .ok ({ s.1 with meanDepth := meanDepthOf dt.pts }, s.2))))

/-- bathygrid/bgrid.py:741-751: one round of the loop of `remove_points` -/
def removeFromTileD (b : Backend) (c : String) (s : Grid τ × Disk (Root φ)) (k : Nat) : Res (Grid τ × Disk (Root φ)) :=
  let (g, d) := s
  match g.tile? k, g.tileOrigin k with
  | some (some t), some p =>
    let r := DiskLike.removeD b c (t, focus d p)
    let d := absorb d p r.st.2
    let g := g.setTile k (some r.st.1)
    match r.err with
    | some e => .fail (g, d) e
    | none => (inMemory (if TileLike.isEmpty r.st.1 then g.removeTile k else .ok g) d).andThen (fun s => flushTile b .points s k)
  | _, _ => flushTile b .points s k

/-- bathygrid/bgrid.py:721-754 `remove_points` -/
def removePointsD (b : Backend) (c : String) (s : Grid τ × Disk (Root φ)) : Res (Grid τ × Disk (Root φ)) :=
  let (g, d) := s
  if g.info.container.has c then
    let g := { g with info := { g.info with container := g.info.container.pop c } }
    let r := if g.isEmpty then .ok (g, d) else Res.forEach (List.range g.slots) (g, d) (removeFromTileD b c)
    r.andThen (fun s =>
      let g := if s.1.isEmpty then { s.1 with tiles := none } else s.1
      .ok (g, saveGrid b g s.2))
  else .ok s

/-- bathygrid/bgrid.py:1308-1348: one round of the loop of `_grid_regular`.  The state is the grid with its folder, and `clear_existing`. -/
def gridStepD (env : Env) (b : Backend) (a : GridCall) (p : Plan) (s : (Grid τ × Disk (Root φ)) × Bool) (k : Nat) : Res ((Grid τ × Disk (Root φ)) × Bool) :=
  let ((g, d), clear) := s
  let finish := fun (s : Grid τ × Disk (Root φ)) (clear : Bool) =>
    let r := flushTile b .grid s k
    (⟨(r.st, clear), r.err⟩ : Res ((Grid τ × Disk (Root φ)) × Bool))
  match g.tile? k, g.tileOrigin k with
  | some (some t), some o =>
    if skips a clear t then .ok (({ g with resolutions := addNew g.resolutions (GridLike.resolutions t) }, d), clear)
    else
      let clear := clearNext a clear t
      match g.borderFor k t a.alg none a.border with
      | .error e => .fail ((g, d), clear) e
      | .ok bd =>
        let r := DiskLike.gridD env b (g.childCall a p clear bd) (t, focus d o)
        let g := g.setTile k (some r.1.st.1)
        let d := absorb d o r.1.st.2
        match r.1.err with
        | some e => .fail ((g, d), clear) e
        | none => finish ({ g with resolutions := addNew g.resolutions r.2 }, d) clear
  | _, _ => finish (g, d) clear

/-- bathygrid/bgrid.py:1279-1350 `_grid_regular` -/
def gridRegularD (env : Env) (b : Backend) (a : GridCall) (p : Plan) (s : Grid τ × Disk (Root φ)) : Res (Grid τ × Disk (Root φ)) :=
  let r := Res.forEach (List.range s.1.slots) (s, a.clear) (gridStepD env b a p)
  match r.err with
  | some e => .fail r.st.1 e
  | none =>
    let g := { r.st.1.1 with resolutions := npUnique r.st.1.1.resolutions }
    .ok (g, saveGrid b g r.st.1.2)

/-- bathygrid/bgrid.py:1461-1521 `grid` with `use_dask=False` -/
def gridRunD (env : Env) (b : Backend) (a : GridCall) (s : Grid τ × Disk (Root φ)) : Res (Grid τ × Disk (Root φ)) :=
  let r := gridPlan env s.1 a
  (inMemory r.1 s.2).andThen (gridRegularD env b a r.2)

/-- bathygrid/backends.py:262-275: one round of the loop of `save` -/
def saveSlot (b : Backend) (g : Grid τ) (d : Disk (Root φ)) (k : Nat) : Res (Disk (Root φ)) :=
  match g.tile? k, g.tileOrigin k with
  | some o, some p =>
    let r := DiskLike.saveAll b o (focus d p)
    ⟨absorb d p r.st, r.err⟩
  | _, _ => .fail d .indexError

/-- bathygrid/backends.py:246-275 `save` to a folder.  `tiles` is `None` when the grid has no tiles: AttributeError. -/
def saveAllD (b : Backend) (g : Grid τ) (d : Disk (Root φ)) : Res (Disk (Root φ)) :=
  let d := saveGrid b g d
  match g.tiles with
  | none => .fail d .attributeError
  | some _ => Res.forEach (List.range g.slots) d (saveSlot b g)

/-- bathygrid/backends.py:47-79: the json file and the arrays -/
def loadHeader (f : GridFolder φ) : Except Err (Grid τ) :=
  match f.info with
  | .absent => .error .environmentError
  | .cut => .error .valueError
  | .full h => do
    let xs ← readArr f.txs
    let ys ← readArr f.tys
    let ex ← readArr f.edgesX
    let ey ← readArr f.edgesY
    let m ← readArr f.mask
    pure (ofHeader h xs ys ex ey m)

/-- bathygrid/backends.py:289-319, 344-352: the tile with flat index `k` -/
def loadSlot (f : GridFolder φ) (g : Grid τ) (k : Nat) : Except Err (Grid τ) :=
  match g.tileOrigin k with
  | none => .error .indexError
  | some o => (DiskLike.load (f.tiles.get? o)).map (fun t => g.setTile k t)

/-- bathygrid/backends.py:321-352 `load` from a folder, 277-287 `_load_grid` -/
def loadD (f : Root φ) : Except Err (Grid τ) :=
  match f with
  | none => .error .valueError
  | some f => (loadHeader f).bind (fun g => (List.range g.slots).foldlM (loadSlot f) g)

end
end Grid

/-- the tile itself writes nothing, the grid saves and loads it -/
instance : DiskLike Tile TileFolder where
  addD _ dt c s := let r := s.1.addPoints dt c; ⟨(r.st, s.2), r.err⟩
  removeD _ c s := let r := s.1.removePoints c; ⟨(r.st, s.2), r.err⟩
  gridD env _ a s := let r := GridLike.grid env s.1 a; (⟨(r.1.st, s.2), r.1.err⟩, r.2)
  flush := Tile.flush
  saveAll b t d := Tile.saveTile b t .all d
  load f := Tile.loadTile none .all f

/-- A subgrid has the output folder of the grid it belongs to (bathygrid/maingrid.py:55-61) and writes its own folder.  `save` of a grid with subgrids removes the
folder of a missing subgrid in the wrong place (bathygrid/backends.py:271-273: `self.output_folder` instead of the root folder), so nothing happens. -/
instance {τ φ : Type} [DiskLike τ φ] : DiskLike (Grid τ) (GridFolder φ) where
  addD b dt c s := Grid.addPointsD b dt c {} s
  removeD b c s := Grid.removePointsD b c s
  gridD env b a s := let r := Grid.gridRunD env b a s; (r, if r.err = none then r.st.1.resolutions else [])
  flush _ _ t d := .ok (t, d)
  saveAll b t d :=
    match t with
    | none => .ok d
    | some g => Grid.saveAllD b g d
  load f :=
    match f with
    | none => .ok none
    | some f => (Grid.loadD (some f)).map some

namespace Grid
variable {τ φ : Type} [DiskLike τ φ]

/-- bathygrid/bgrid.py:1354-1358 (`_gridding_parallel`): the work of one worker; a subgrid writes its folder -/
def workStep (env : Env) (b : Backend) (g : Grid τ) (acc : Disk (Root φ) × List (Res (τ × Disk (Option φ)) × List ℚ)) (j : Job τ) : Disk (Root φ) × List (Res (τ × Disk (Option φ)) × List ℚ) :=
  match g.tileOrigin j.idx with
  | some o =>
    let r := DiskLike.gridD env b j.call (j.tile, focus acc.1 o)
    (absorb acc.1 o r.1.st.2, acc.2 ++ [r])
  | none => acc

/-- bathygrid/bgrid.py:1352-1376 `_grid_parallel_worker`: the workers of subgrids write the folders of the subgrids, also when another worker fails.
Simplification: the writes of different workers, which are in different folders, happen one worker after the other. -/
def runJobsD (env : Env) (b : Backend) (s : Grid τ × Disk (Root φ)) (jobs : List (Job τ)) : Res (Grid τ × Disk (Root φ)) :=
  let work := jobs.foldl (workStep env b s.1) (s.2, [])
  match work.2.findSome? (fun r => r.1.err) with
  | some e => .fail (s.1, work.1) e
  | none =>
    (Res.forEach (jobs.zip work.2) (s.1, work.1) (fun s jr => flushTile b .grid (s.1.setTile jr.1.idx (some jr.2.1.st.1), s.2) jr.1.idx)).andThen (fun s =>
      .ok ({ s.1 with resolutions := addNew s.1.resolutions (work.2.map Prod.snd).flatten }, s.2))

/-- state of the loop of `_grid_parallel` with an output folder -/
structure ParStateD (τ φ : Type) where
  grid : Grid τ × Disk (Root φ)
  clear : Bool
  jobs : List (Job τ)

/-- bathygrid/bgrid.py:1419-1454: one round of the loop of `_grid_parallel` with `n` workers.  A missing tile is not saved here (unlike in `_grid_regular`). -/
def parStepD (env : Env) (b : Backend) (n : Nat) (a : GridCall) (p : Plan) (s : ParStateD τ φ) (k : Nat) : Res (ParStateD τ φ) :=
  match s.grid.1.tile? k with
  | some (some t) =>
    if skips a s.clear t then .ok { s with grid := ({ s.grid.1 with resolutions := addNew s.grid.1.resolutions (GridLike.resolutions t) }, s.grid.2) }
    else
      let clear := clearNext a s.clear t
      match parLimit a p with
      | .error e => .fail { s with clear := clear } e
      | .ok limit =>
        match s.grid.1.borderFor k t a.alg limit a.border with
        | .error e => .fail { s with clear := clear } e
        | .ok bd =>
          let jobs := s.jobs ++ [⟨k, t, s.grid.1.childCall a p clear bd⟩]
          if jobs.length = n then
            let r := runJobsD env b s.grid jobs
            ⟨⟨r.st, clear, []⟩, r.err⟩
          else .ok ⟨s.grid, clear, jobs⟩
  | _ => .ok s

/-- bathygrid/bgrid.py:1455-1457: the jobs left after the loop -/
def lastJobsD (env : Env) (b : Backend) (s : Grid τ × Disk (Root φ)) (jobs : List (Job τ)) : Res (Grid τ × Disk (Root φ)) :=
  if jobs.isEmpty then .ok s else runJobsD env b s jobs

/-- bathygrid/bgrid.py:1378-1459 `_grid_parallel` with `n` workers -/
def gridParallelD (env : Env) (b : Backend) (n : Nat) (a : GridCall) (p : Plan) (s : Grid τ × Disk (Root φ)) : Res (Grid τ × Disk (Root φ)) :=
  let r := Res.forEach (List.range s.1.slots) (⟨({ s.1 with resolutions := [] }, s.2), a.clear, []⟩ : ParStateD τ φ) (parStepD env b n a p)
  match r.err with
  | some e => .fail r.st.grid e
  | none =>
    (lastJobsD env b r.st.grid r.st.jobs).andThen (fun s =>
      let g := { s.1 with resolutions := npUnique s.1.resolutions }
      .ok (g, saveGrid b g s.2))

/-- bathygrid/bgrid.py:1461-1521 `grid` with an output folder: `dask` is `none` for `use_dask=False`, else the number of workers -/
def gridWithD (env : Env) (b : Backend) (a : GridCall) (dask : Option Nat) (s : Grid τ × Disk (Root φ)) : Res (Grid τ × Disk (Root φ)) :=
  match dask with
  | none => gridRunD env b a s
  | some n =>
    let r := gridPlan env s.1 a
    (inMemory r.1 s.2).andThen (gridParallelD env b n a r.2)

end Grid
end Bathy
