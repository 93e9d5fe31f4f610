import Verif.Spec.Soundings

/-!
# Comparing two grids tile by tile
-/

namespace Bathy

class Alike (τ : Type) where
  /-- the tiles at the same places are related -/
  alike : (Tile → Tile → Prop) → τ → τ → Prop

instance : Alike Tile := ⟨fun R t t' => R t t'⟩

instance {τ : Type} [Alike τ] : Alike (Grid τ) := ⟨fun R g g' =>
  (∀ i j t, g.TileAt i j t → ∃ t', g'.TileAt i j t' ∧ Alike.alike R t t') ∧ (∀ i j t', g'.TileAt i j t' → ∃ t, g.TileAt i j t ∧ Alike.alike R t t')⟩

/-- the two grids have tiles at the same places, also those of the subgrids, and the tiles at the same place are related -/
abbrev Grid.Alike {τ : Type} [Alike τ] (R : Tile → Tile → Prop) (g g' : Grid τ) : Prop := Bathy.Alike.alike R g g'

end Bathy
