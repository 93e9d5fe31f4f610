import Verif.Model.Lazy

/-!
# When a tile with arrays on disk is the tile of the model

`t.Sees f u`: if all arrays of `t` are read now, with the folder as `f`, the result is the tile `u` of the model without arrays on disk.
-/

namespace Bathy

/-- reading all the arrays of a dictionary gives the other dictionary -/
def Agree {κ α : Type} (f : TileFolder) (d : Dict κ (Lz α)) (e : Dict κ α) : Prop := List.Forall₂ (fun p q => p.1 = q.1 ∧ p.2 f = .ok q.2) d e

namespace LTile

/-- the soundings -/
def SeesData (t : LTile) (f : TileFolder) (u : Tile) : Prop := Option.Rel (fun x a => x f = .ok a) t.data u.data

/-- the layers, and the cell edges of the resolutions that are gridded -/
structure SeesGrid (t : LTile) (f : TileFolder) (u : Tile) : Prop where
  cells : List.Forall₂ (fun p q => p.1 = q.1 ∧ Agree f p.2 q.2) t.cells u.cells
  edgesX : ∀ r ∈ u.cells.keys, Option.Rel (fun x a => x f = .ok a) (t.edgesX.get? r) (u.edgesX.get? r)
  edgesY : ∀ r ∈ u.cells.keys, Option.Rel (fun x a => x f = .ok a) (t.edgesY.get? r) (u.edgesY.get? r)

/-- the tile -/
structure Sees (t : LTile) (f : TileFolder) (u : Tile) : Prop where
  info : t.info = u.toMeta
  data : t.SeesData f u
  grid : t.SeesGrid f u
  idx : Agree f t.cellIdx u.cellIdx

/-- The soundings are in memory, or they are read from `data` alone. -/
def DataOwn (t : LTile) : Prop := ∀ x, t.data = some x → ∀ f f' : TileFolder, f.data = f'.data → x f = x f'

/-- The layers and cell edges are in memory, or they are read from the files of the layers and the cell edges alone. -/
structure GridOwn (t : LTile) : Prop where
  cells : ∀ p ∈ t.cells, ∀ q ∈ p.2, ∀ f f' : TileFolder, f.layers = f'.layers → f.edgesX = f'.edgesX → f.edgesY = f'.edgesY → q.2 f = q.2 f'
  edgesX : ∀ r x, t.edgesX.get? r = some x → ∀ f f' : TileFolder, f.layers = f'.layers → f.edgesX = f'.edgesX → f.edgesY = f'.edgesY → x f = x f'
  edgesY : ∀ r x, t.edgesY.get? r = some x → ∀ f f' : TileFolder, f.layers = f'.layers → f.edgesX = f'.edgesX → f.edgesY = f'.edgesY → x f = x f'

/-- a python dictionary has every key once -/
structure Keys (t : LTile) : Prop where
  cells : t.cells.keys.Nodup
  layers : ∀ p ∈ t.cells, p.2.keys.Nodup
  idx : t.cellIdx.keys.Nodup

/-- every layer array and every array of cell edges is in memory, or it is one that the other tile had -/
structure Keeps (t' t : LTile) : Prop where
  cells : ∀ p ∈ t'.cells, ∀ q ∈ p.2, (∃ a, q.2 = Lz.mem a) ∨ ∃ p₀ ∈ t.cells, q ∈ p₀.2
  edgesX : ∀ r x, t'.edgesX.get? r = some x → (∃ a, x = Lz.mem a) ∨ t.edgesX.get? r = some x
  edgesY : ∀ r x, t'.edgesY.get? r = some x → (∃ a, x = Lz.mem a) ∨ t.edgesY.get? r = some x

/-- the grid has a tile or it has none, in both models -/
def SeesOpt (f : TileFolder) : Option LTile → Option Tile → Prop
  | none, none => True
  | some t, some u => t.Sees f u ∧ t.DataOwn ∧ t.GridOwn ∧ t.Keys
  | _, _ => False

end LTile

/-- the cell edges of the gridded resolutions are there (they are, for every tile the classes reach: `Tile.Saveable`) -/
def Tile.EdgesKnown (u : Tile) : Prop := ∀ r ∈ u.cells.keys, (u.edgesX.get? r).isSome ∧ (u.edgesY.get? r).isSome

/-- What happens to one tile and its folder: on the left with arrays that are read when they are needed, on the right as in `Model/Storage.lean`.
Where the code computes something, the left side may be any tile whose arrays have the right values if they are read now: all computed, or none of it.
The steps are those of bathygrid/bgrid.py:650-662 (add), 747-751 (remove), 1335-1348 and 1431-1370 (grid), backends.py:266 (save), 335 (load).
A run ends with the first exception. -/
inductive LazyRun (env : Env) (b : Backend) : Option LTile × Tile.TileDisk → Option Tile × Tile.TileDisk → Prop
  /-- no tile -/
  | none (d : Tile.TileDisk) : LazyRun env b (none, d) (none, d)
  /-- bgrid.py:650-654 -/
  | build {d e : Tile.TileDisk} (h : LazyRun env b (none, d) (none, e)) (x y size : ℚ) (bs : Bool) :
      LazyRun env b (some (LTile.new x y size bs), d) (some (Tile.new x y size bs), e)
  /-- bgrid.py:655-662: `_load_tile_data_to_memory`, `add_points`, `_save_tile`, `_load_tile` -/
  | add {t t' t'' : LTile} {u : Tile} {d e : Tile.TileDisk} (h : LazyRun env b (some t, d) (some u, e)) (p : PtArr) (c : String)
      (hm : t.toMemory .all (d.now.getD {}) = .ok t') (hs : t''.Sees (d.now.getD {}) (u.addPoints p c).st) (hc : t''.Keeps t') (hk : t''.Keys)
      (hr : (u.addPoints p c).st.EdgesKnown) (he : (LTile.flush b .points (if (u.addPoints p c).st.isEmpty then none else some t'') d).err = none) :
      LazyRun env b (LTile.flush b .points (if (u.addPoints p c).st.isEmpty then none else some t'') d).st
        (Tile.flush b .points (if (u.addPoints p c).st.isEmpty then none else some (u.addPoints p c).st) e).st
  /-- bgrid.py:747-751: `remove_points`, `_save_tile`, `_load_tile` -/
  | remove {t t' : LTile} {u : Tile} {d e : Tile.TileDisk} (h : LazyRun env b (some t, d) (some u, e)) (c : String)
      (hs : t'.Sees (d.now.getD {}) (u.removePoints c).st) (hc : t'.Keeps t) (hk : t'.Keys) (hr : (u.removePoints c).st.EdgesKnown)
      (he : (LTile.flush b .points (if (u.removePoints c).st.isEmpty then none else some t') d).err = none) :
      LazyRun env b (LTile.flush b .points (if (u.removePoints c).st.isEmpty then none else some t') d).st
        (Tile.flush b .points (if (u.removePoints c).st.isEmpty then none else some (u.removePoints c).st) e).st
  /-- bgrid.py:1335-1348: `grid`, `_save_tile`, `_load_tile`; the soundings stay as they are -/
  | grid {t t' : LTile} {u : Tile} {d e : Tile.TileDisk} (h : LazyRun env b (some t, d) (some u, e)) (alg : Alg) (res : Option ℚ) (clear : Bool) (mode : AutoMode)
      (params : Option GridParams) (border : Option PtArr)
      (hs : t'.Sees (d.now.getD {}) (u.grid env alg res clear mode params border).1.st) (hd : t'.data = t.data) (hc : t'.Keeps t) (hk : t'.Keys)
      (hr : (u.grid env alg res clear mode params border).1.st.EdgesKnown) (he : (LTile.flush b .grid (some t') d).err = none) :
      LazyRun env b (LTile.flush b .grid (some t') d).st (Tile.flush b .grid (some (u.grid env alg res clear mode params border).1.st) e).st
  /-- bgrid.py:1431-1432, 1369-1370: `_load_tile_data_to_memory`, `grid` in a worker, `_save_tile`, `_load_tile` -/
  | gridWorker {t t' t'' : LTile} {u : Tile} {d e : Tile.TileDisk} (h : LazyRun env b (some t, d) (some u, e)) (alg : Alg) (res : Option ℚ) (clear : Bool) (mode : AutoMode)
      (params : Option GridParams) (border : Option PtArr) (hm : t.toMemory .all (d.now.getD {}) = .ok t')
      (hs : t''.Sees (d.now.getD {}) (u.grid env alg res clear mode params border).1.st) (hd : t''.data = t'.data) (hc : t''.Keeps t') (hk : t''.Keys)
      (hr : (u.grid env alg res clear mode params border).1.st.EdgesKnown) (he : (LTile.flush b .grid (some t'') d).err = none) :
      LazyRun env b (LTile.flush b .grid (some t'') d).st (Tile.flush b .grid (some (u.grid env alg res clear mode params border).1.st) e).st
  /-- bathygrid/tile.py:771-841: a query may add layers -/
  | query {t t' : LTile} {u : Tile} {d e : Tile.TileDisk} (h : LazyRun env b (some t, d) (some u, e)) (layer : Layer) (res nodata : Option ℚ) (up : Bool)
      (hs : t'.Sees (d.now.getD {}) (u.getLayer env layer res nodata up).1) (hd : t'.data = t.data) (hc : t'.Keeps t) (hk : t'.Keys)
      (hr : (u.getLayer env layer res nodata up).1.EdgesKnown) :
      LazyRun env b (some t', d) (some (u.getLayer env layer res nodata up).1, e)
  /-- backends.py:266: `save` to the folder `d'`, which may be the folder of the grid or another one; the tile belongs to that folder then -/
  | save {t : LTile} {u : Tile} {d e : Tile.TileDisk} (h : LazyRun env b (some t, d) (some u, e)) (d' : Tile.TileDisk)
      (he : (LTile.saveTile b (some t) .all (d.now.getD {}) d').err = none) :
      LazyRun env b (LTile.saveTile b (some t) .all (d.now.getD {}) d').st (some u, (Tile.saveTile b (some u) .all d').st)
  /-- backends.py:335: `load` of a folder -/
  | load (d : Tile.TileDisk) {t : Option LTile} {u : Option Tile} (ht : LTile.loadTile none .all d.now = .ok t) (hu : Tile.loadTile none .all d.now = .ok u) :
      LazyRun env b (t, d) (u, d)

end Bathy
