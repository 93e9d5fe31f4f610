import Verif.Model.Storage

/-!
# A tile that was written to disk and read again

Everything is as before, but the layers that were only made to answer queries are gone, and cell indices and cell edges are only kept for the
resolutions that are gridded.
-/

namespace Bathy

structure Tile.Reread (t u : Tile) : Prop where
  info : u.toMeta = t.toMeta
  data : u.data = t.data
  keys : u.cells.keys.Nodup
  layers : ∀ r, u.cells.get? r = (t.cells.get? r).map (fun ls => ls.filter (fun p => decide (p.1 ∈ Tile.savedLayers)))
  edgesX : ∀ r ∈ t.cells.keys, u.edgesX.get? r = t.edgesX.get? r
  edgesY : ∀ r ∈ t.cells.keys, u.edgesY.get? r = t.edgesY.get? r
  idx : ∀ r ∈ t.cells.keys, u.cellIdx.get? r = t.cellIdx.get? r
  idxKeys : u.cellIdx.keys.Nodup
  idxOnly : ∀ q ∈ u.cellIdx, t.cellIdx.get? q.1 = some q.2

end Bathy
