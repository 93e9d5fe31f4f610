import Verif.Spec.Reread

/-!
# A grid that was read from disk

`reloaded exact t u`: the object `u` that was read from disk is the object `t` in memory.  With `exact = false` there may be three differences: the attributes
`number_of_tiles` and `mean_depth` may be old, and where there is no tile in memory there may be an empty one.
-/

namespace Bathy

class Reloads (τ : Type) where
  reloaded : Bool → τ → τ → Prop
  /-- what may be read in the place of a missing tile, if tiles have the given width -/
  gone : ℚ → τ → Prop

/-- nothing is read in the place of a missing tile -/
instance : Reloads Tile := ⟨fun _ => Tile.Reread, fun _ _ => False⟩

/-- a missing mask is read as `np.array([])` -/
def maskOnDisk (m : Option (Arr2 Bool)) : Arr2 Bool := m.getD ⟨0, 0, []⟩

structure Grid.Reloaded {τ : Type} [Reloads τ] (exact : Bool) (g u : Grid τ) : Prop where
  /-- all the attributes -/
  attrs : u = { g with tiles := u.tiles, mask := some (maskOnDisk g.mask), numberOfTiles := u.numberOfTiles, meanDepth := u.meanDepth }
  numbers : exact = true → u.numberOfTiles = g.numberOfTiles ∧ u.meanDepth = g.meanDepth
  shape : u.tiles.map Arr2.dims = g.tiles.map Arr2.dims
  tiles : ∀ k t, g.tile? k = some (some t) → ∃ v, u.tile? k = some (some v) ∧ Reloads.reloaded exact t v
  missing : ∀ k, g.tile? k = some none → u.tile? k = some none ∨ (exact = false ∧ ∃ v, u.tile? k = some (some v) ∧ Reloads.gone g.tileSize v)

/-- a subgrid without tiles, as large as a tile -/
structure Grid.Emptied {τ : Type} (w : ℚ) (g : Grid τ) : Prop where
  empty : g.isEmpty = true
  tiles : ∃ T, g.tiles = some T
  width : g.width = some w
  height : g.height = some w

instance {τ : Type} [Reloads τ] : Reloads (Grid τ) := ⟨Grid.Reloaded, Grid.Emptied⟩

end Bathy
