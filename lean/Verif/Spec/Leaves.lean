import Verif.Spec.Soundings

/-!
# The tiles (`SRTile` objects) of a grid, whether they are its own or those of its subgrids
-/

namespace Bathy

class HasLeaves (τ : Type) where
  /-- the tile is one of those of the object -/
  leaf : τ → Tile → Prop

instance : HasLeaves Tile := ⟨fun t u => u = t⟩
instance {τ : Type} [HasLeaves τ] : HasLeaves (Grid τ) := ⟨fun g t => ∃ r c u, g.TileAt r c u ∧ HasLeaves.leaf u t⟩

/-- `t` is one of the `SRTile` objects of the grid -/
abbrev Grid.Leaf {τ : Type} [HasLeaves τ] (g : Grid τ) (t : Tile) : Prop := HasLeaves.leaf g t

end Bathy
