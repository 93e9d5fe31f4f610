import Verif.Spec.Soundings
import Mathlib.Data.List.Dedup

/-!
# The cells of a lattice that hold soundings

The plane is cut into squares `[i·r, (i+1)·r) × [j·r, (j+1)·r)`.  Nothing here refers to tiles.
-/

namespace Bathy

/-- the square of the lattice with side `r` that holds the sounding -/
def latticeCell (r : ℚ) (p : Pt) : ℤ × ℤ := (⌊p.x / r⌋, ⌊p.y / r⌋)

/-- the squares that hold at least one of the soundings, each once -/
def latticeCells (r : ℚ) (pts : List Pt) : List (ℤ × ℤ) := (pts.map (latticeCell r)).dedup

/-- the soundings in a square -/
def inLattice (r : ℚ) (pts : List Pt) (k : ℤ × ℤ) : List Pt := pts.filter (fun p => decide (latticeCell r p = k))

/-- the `SRTile` objects of a tile or grid, tile after tile, with those of the subgrids -/
class LeafList (τ : Type) where
  leaves : τ → List Tile

instance : LeafList Tile := ⟨fun t => [t]⟩
instance {τ : Type} [LeafList τ] : LeafList (Grid τ) :=
  ⟨fun g => g.slotList.flatMap (fun o => match o with | some t => LeafList.leaves t | none => [])⟩

end Bathy
