import Verif.Model.Grid
import Verif.Spec.Tiles

/-!
# What is stored in a tile or grid

Reads the stored soundings off the objects, without any of the methods of the code.
-/

namespace Bathy

/-- the stored soundings, all of them and those filed under a container name -/
class Holds (τ : Type) where
  all : τ → List Pt
  under : τ → String → List Pt

/-- the soundings in the slice of the data array that `container[c]` describes -/
def Tile.under (t : Tile) (c : String) : List Pt :=
  match t.container.get? c with
  | some (s, e) => (t.pts.take e).drop s
  | none => []

instance : Holds Tile := ⟨Tile.pts, Tile.under⟩

/-- a slot of a tile array -/
def slotAll {τ : Type} [Holds τ] : Option τ → List Pt
  | some t => Holds.all t
  | none => []

/-- a slot of a tile array -/
def slotUnder {τ : Type} [Holds τ] (c : String) : Option τ → List Pt
  | some t => Holds.under t c
  | none => []

/-- the slots of the tile array, row after row -/
def Grid.slotList {τ : Type} (g : Grid τ) : List (Option τ) := match g.tiles with | some T => T.flat | none => []

instance {τ : Type} [Holds τ] : Holds (Grid τ) := ⟨fun g => g.slotList.flatMap slotAll, fun g c => g.slotList.flatMap (slotUnder c)⟩

/-- the tile `t` is in row `r` and column `c` of the grid -/
def Grid.TileAt {τ : Type} (g : Grid τ) (r c : Nat) (t : τ) : Prop := ∃ T, g.tiles = some T ∧ T.get? r c = some (some t)

/-- the soundings of a container in row `r` and column `c` of the grid -/
def Grid.underAt {τ : Type} [Holds τ] (g : Grid τ) (r c : Nat) (name : String) : List Pt :=
  slotUnder name ((g.tiles.bind (fun T => T.get? r c)).join)

/-- the number of tile objects -/
def Grid.tileObjects {τ : Type} (g : Grid τ) : Nat := (g.slotList.filter Option.isSome).length

end Bathy
