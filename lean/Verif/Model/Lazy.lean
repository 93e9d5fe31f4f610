import Verif.Model.Storage

/-!
# Arrays that are only read when they are needed

`_load_array` does not read: `da.from_npy_stack` (bathygrid/backends.py:380-381) and `zarr.open` (bathygrid/backends.py:562-567) give an array that reads
the files when its values are used.  Here an array of a tile is a function from the folder of the tile, as it is when the values are used, to the values.
The model of `Model/Storage.lean` reads the values when they are loaded; C105 shows that this makes no difference.

Simplifications:
* what `_load_array` does read at once (number and sizes of the chunks) is only used to know that the array is there;
* an array on which something was computed may be an unevaluated expression (dask); how much of it is unevaluated is left open (`Spec/Lazy.lean`);
* the files of an array are read together.
-/

namespace Bathy

/-- an array of a tile: its values, or the exception, if it is read while the folder of the tile is the given one -/
abbrev Lz (α : Type) := TileFolder → Except Err α

/-- an array in memory -/
def Lz.mem {α : Type} (a : α) : Lz α := fun _ => .ok a

/-- a tile (bathygrid/tile.py:17-46) whose arrays may be on disk.  What is in `metadata.json` and the keys of the dictionaries are always in memory. -/
structure LTile where
  info : TileMeta
  data : Option (Lz PtArr)
  cells : Dict ℚ (Dict Layer (Lz LayerArr))
  edgesX : Dict ℚ (Lz (List ℚ))
  edgesY : Dict ℚ (Lz (List ℚ))
  cellIdx : Dict ℚ (Lz (List Int))

namespace LTile

open Tile (Part TileDisk inFolder mkFolder)

/-- a new tile object: there is nothing to read -/
def new (x y size : ℚ) (bs : Bool) : LTile := { info := (Tile.new x y size bs).toMeta, data := none, cells := [], edgesX := [], edgesY := [], cellIdx := [] }

/-! ### `_load_tile_data_to_memory` -/

/-- `tmpdata = np.array(d[k]); del d[k]; d[k] = tmpdata` -/
def renew1 {κ α : Type} [DecidableEq κ] (f : TileFolder) (d : Dict κ (Lz α)) (k : κ) : Except Err (Dict κ (Lz α)) :=
  match d.get? k with
  | none => .error .keyError
  | some x =>
    match x f with
    | .error e => .error e
    | .ok a => .ok ((d.pop k).set k (Lz.mem a))

/-- bathygrid/backends.py:506-517, 692-703: the layers and cell edges of one resolution -/
def renewRes (f : TileFolder) (t : LTile) (r : ℚ) : Except Err LTile :=
  match t.cells.get? r with
  | none => .error .keyError
  | some ls => do
    let ls ← ls.keys.foldlM (renew1 f) ls
    let ex ← renew1 f t.edgesX r
    let ey ← renew1 f t.edgesY r
    pure { t with cells := t.cells.set r ls, edgesX := ex, edgesY := ey }

/-- bathygrid/backends.py:500-503, 686-689: the soundings -/
def renewData (f : TileFolder) (t : LTile) : Except Err LTile :=
  match t.data with
  | none => .ok t
  | some x =>
    match x f with
    | .error e => .error e
    | .ok a => .ok { t with data := some (Lz.mem a) }

/-- bathygrid/backends.py:519-524, 705-710: the cell indices -/
def renewIdx (f : TileFolder) (t : LTile) : Except Err LTile :=
  match t.cellIdx.keys.foldlM (renew1 f) t.cellIdx with
  | .error e => .error e
  | .ok ix => .ok { t with cellIdx := ix }

/-- bathygrid/backends.py:481-524, 667-710 `_load_tile_data_to_memory`; `f` is the folder the arrays of the tile were loaded from -/
def toMemory (part : Part) (f : TileFolder) (t : LTile) : Except Err LTile :=
  (if part = .grid then .ok t else renewData f t).bind (fun t =>
    (if part = .points then .ok t else t.cells.keys.foldlM (renewRes f) t).bind (renewIdx f))

/-! ### `_save_tile` -/

/-- bathygrid/backends.py:376-378, 556-560 `_save_array`: remove what is at the path, then write.  The values are read in between. -/
def saveArr {α : Type} (rm : TileFolder → TileFolder) (x : Lz α) (put : α → TileFolder → TileFolder) (d : TileDisk) : Res TileDisk :=
  match x ((inFolder d rm).now.getD {}) with
  | .error e => .fail (inFolder d rm) e
  | .ok a => .ok (inFolder (inFolder d rm) (put a))

/-- bathygrid/backends.py:81-99 `_save_tile_metadata` -/
def saveMeta (m : TileMeta) (d : TileDisk) : TileDisk :=
  inFolder (inFolder (mkFolder d) (fun f => { f with info := .cut })) (fun f => { f with info := .full m })

/-- bathygrid/backends.py:399-400, 585-586 -/
def saveData (b : Backend) (t : LTile) (d : TileDisk) : Res TileDisk :=
  match t.data with
  | none => .ok (inFolder (inFolder d (fun f => { f with data := none })) (fun f => { f with data := some (b.store none) }))
  | some x => saveArr (fun f => { f with data := none }) x (fun a f => { f with data := some (b.store (some a)) }) d

/-- bathygrid/backends.py:408-423, 594-609 -/
def saveLayers (b : Backend) (r : ℚ) (ls : Dict Layer (Lz LayerArr)) (d : TileDisk) : Res TileDisk :=
  Res.forEach Tile.writtenLayers d (fun d l =>
    match ls.get? l with
    | some x => saveArr (fun f => { f with layers := f.layers.pop (r, l) }) x (fun a f => { f with layers := f.layers.set (r, l) (b.store (some a)) }) d
    | none => .ok d)

/-- bathygrid/backends.py:407-425, 593-611 -/
def saveRes (b : Backend) (t : LTile) (d : TileDisk) (r : ℚ) : Res TileDisk :=
  match t.cells.get? r with
  | none => .fail d .keyError
  | some ls =>
    (saveLayers b r ls d).andThen (fun d =>
      match t.edgesX.get? r with
      | none => .fail d .keyError
      | some ex =>
        (saveArr (fun f => { f with edgesX := f.edgesX.pop r }) ex (fun a f => { f with edgesX := f.edgesX.set r (b.store (some a)) }) d).andThen (fun d =>
          match t.edgesY.get? r with
          | none => .fail d .keyError
          | some ey => saveArr (fun f => { f with edgesY := f.edgesY.pop r }) ey (fun a f => { f with edgesY := f.edgesY.set r (b.store (some a)) }) d))

/-- bathygrid/backends.py:427-428, 613-614 -/
def saveIndices (b : Backend) (t : LTile) (d : TileDisk) : Res TileDisk :=
  Res.forEach t.cellIdx d (fun d p =>
    saveArr (fun f => { f with indices := f.indices.pop p.1 }) p.2 (fun a f => { f with indices := f.indices.set p.1 (b.store (some a)) }) d)

/-- bathygrid/backends.py:383-428, 569-614 `_save_tile_data` -/
def saveTileData (b : Backend) (t : LTile) (part : Part) (d : TileDisk) : Res TileDisk :=
  let r : Res TileDisk := if part = .grid then .ok d else saveData b t d
  r.andThen (fun d =>
    let r : Res TileDisk := if part = .points then .ok d else Res.forEach t.cells.keys (Tile.removeCells d) (saveRes b t)
    r.andThen (saveIndices b t))

/-- bathygrid/backends.py:219-244 `_save_tile` with an output folder: the tile, whose arrays were loaded from the folder `src`, is written to the folder `d` -/
def saveTile (b : Backend) (t : Option LTile) (part : Part) (src : TileFolder) (d : TileDisk) : Res (Option LTile × TileDisk) :=
  match t with
  | none => .ok (none, d.write (fun _ => none))
  | some t =>
    match toMemory part src t with
    | .error e => .fail (some t, d) e
    | .ok t =>
      let r := saveTileData b t part (saveMeta t.info d)
      ⟨(some t, r.st), r.err⟩

/-! ### `_load_tile` -/

/-- bathygrid/backends.py:459-475, 645-661 -/
def loadLayers (f : TileFolder) (r : ℚ) : Dict Layer (Lz LayerArr) :=
  Tile.savedLayers.filterMap (fun l => (f.layers.get? (r, l)).map (fun _ => (l, fun f => readArr (f.layers.get? (r, l)))))

/-- bathygrid/backends.py:458-477, 644-663 -/
def loadRes (f : TileFolder) (t : LTile) (r : ℚ) : Except Err LTile :=
  match readArr (f.edgesX.get? r), readArr (f.edgesY.get? r) with
  | .ok _, .ok _ => .ok { t with cells := t.cells.set r (loadLayers f r), edgesX := t.edgesX.set r (fun f => readArr (f.edgesX.get? r)),
                                 edgesY := t.edgesY.set r (fun f => readArr (f.edgesY.get? r)) }
  | .error e, _ => .error e
  | _, .error e => .error e

/-- bathygrid/backends.py:478-479, 664-665 -/
def loadIndex (f : TileFolder) (t : LTile) (r : ℚ) : Except Err LTile :=
  match readArr (f.indices.get? r) with
  | .ok _ => .ok { t with cellIdx := t.cellIdx.set r (fun f => readArr (f.indices.get? r)) }
  | .error e => .error e

/-- bathygrid/backends.py:430-479, 616-665 `_load_tile_data` -/
def loadTileData (f : TileFolder) (part : Part) (t : LTile) : Except Err LTile := do
  let t ← if part = .grid then pure t else (readArr f.data).map (fun _ => { t with data := some (fun f => readArr f.data) })
  let t ← if part = .points then pure t else (Tile.foundResolutions f).foldlM (loadRes f) t
  (Tile.foundResolutions f).foldlM (loadIndex f) t

/-- bathygrid/backends.py:101-121 `_load_tile_metadata` -/
def loadMeta (f : TileFolder) (t : LTile) : Except Err LTile :=
  match f.info with
  | .absent => .error .environmentError
  | .cut => .error .valueError
  | .full m => .ok { t with info := m }

/-- bathygrid/backends.py:289-319 `_load_tile` -/
def loadTile (old : Option LTile) (part : Part) (f : Option TileFolder) : Except Err (Option LTile) :=
  match f with
  | none => .ok none
  | some f => ((loadMeta f (old.getD (new 0 0 0 false))).bind (loadTileData f part)).map some

/-- `_save_tile` and `_load_tile`, as they are called together (bathygrid/bgrid.py:661-662, 750-751, 1347-1348, 1369-1370) -/
def flush (b : Backend) (part : Part) (t : Option LTile) (d : TileDisk) : Res (Option LTile × TileDisk) :=
  let r := saveTile b t part (d.now.getD {}) d
  match r.err with
  | some e => .fail r.st e
  | none =>
    match loadTile r.st.1 part r.st.2.now with
    | .error e => .fail r.st e
    | .ok u => .ok (u, r.st.2)

end LTile
end Bathy
