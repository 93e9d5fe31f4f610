import Verif.Model.Csv
import Verif.Model.Export
import Verif.Model.Mesh
import Verif.Model.QueryArgs
import Verif.Model.TileGenerator
import Verif.Model.Storage
import Verif.Spec.Tiles
import Verif.Spec.Family

/-!
# Calls that read a grid, and what they must leave as it is
-/

namespace Bathy

/-- layers that are written by gridding, not made when they are asked for -/
def Layer.gridded : Layer → Bool
  | .xSlope | .ySlope | .cont _ | .contDensity _ => false
  | _ => true

/-- objects that hold something -/
class HeldLike (τ : Type) where
  /-- both hold the same, apart from layers that were made to answer a query -/
  held : τ → τ → Prop

/-- Tiles that hold the same: soundings, containers, cell numbers, cell edges, all attributes, the resolutions in their order, and the numbers of every
gridded layer.  Slopes and layers of single containers may differ: they are made when they are asked for. -/
structure Tile.Held (t u : Tile) : Prop where
  data : u.data = t.data
  attrs : u.toMeta = t.toMeta
  idx : u.cellIdx = t.cellIdx
  edgesX : u.edgesX = t.edgesX
  edgesY : u.edgesY = t.edgesY
  resolutions : u.cells.keys = t.cells.keys
  layers : ∀ r l, l.gridded = true → (u.cells.get? r).bind (fun ls => ls.get? l) = (t.cells.get? r).bind (fun ls => ls.get? l)

instance : HeldLike Tile := ⟨Tile.Held⟩

/-- Grids that hold the same: every attribute, and position by position a tile that holds the same. -/
structure Grid.Held {τ : Type} [HeldLike τ] (g u : Grid τ) : Prop where
  attrs : { u with tiles := g.tiles } = g
  shape : u.tiles.map (fun T => (T.rows, T.cols)) = g.tiles.map (fun T => (T.rows, T.cols))
  none : ∀ k : Nat, u.tile? k = some none ↔ g.tile? k = some none
  tiles : ∀ (k : Nat) (t : τ), g.tile? k = some (some t) → ∃ v, u.tile? k = some (some v) ∧ HeldLike.held t v
  tilesOf : ∀ (k : Nat) (v : τ), u.tile? k = some (some v) → ∃ t, g.tile? k = some (some t) ∧ HeldLike.held t v

instance {τ : Type} [HeldLike τ] : HeldLike (Grid τ) := ⟨Grid.Held⟩

/-- objects that can be asked for layers -/
class AskLike (τ : Type) where
  /-- the answer for this layer is made from what is held -/
  askable : τ → Layer → Prop

/-- The layers for which the answer of a tile is made from what it holds: the gridded layers, the layers of single containers (if there are layers, the
tile has one of the three algorithms), and their counts (no container has the name of the counts, see `Tile.ensureLayer`).  Slopes: C118. -/
def Tile.Askable (t : Tile) (l : Layer) : Prop :=
  match l with
  | .xSlope | .ySlope => False
  | .cont c => t.container.has c = true → t.cells = [] ∨ t.algorithm = some .mean ∨ t.algorithm = some .shoalest ∨ t.algorithm = some .cube
  | .contDensity c => t.container.has (c ++ "_density") = false
  | _ => True

instance : AskLike Tile := ⟨Tile.Askable⟩

/-- every tile can be asked -/
def Grid.Askable {τ : Type} [AskLike τ] (g : Grid τ) (l : Layer) : Prop := ∀ (k : Nat) (t : τ), g.tile? k = some (some t) → AskLike.askable t l

instance {τ : Type} [AskLike τ] : AskLike (Grid τ) := ⟨Grid.Askable⟩

/-- the grid after a call that reads it, whether the call returned or raised an exception -/
inductive Reads {τ : Type} [LayerLike τ] [NamesLike τ] [LayerNames τ] (env : Env) (g : Grid τ) : Grid τ → Prop
  | layers (ls : List Layer) (res nodata : Option ℚ) (zUp : Bool) : Reads env g (g.getLayersByName env ls res nodata zUp).1
  | trimmed (ls : List Layer) (res nodata : Option ℚ) (zUp : Bool) : Reads env g (g.getLayersTrimmed env ls res nodata zUp).1
  | surf (ls : List Layer) (res : Option ℚ) (boundaries : Bool) (nodata : Option ℚ) : Reads env g (g.returnSurf env ls res boundaries nodata).1
  | values (x y : LocArg) (l : Layer) (res nodata : Option ℚ) : Reads env g (g.layerValuesAt env x y l res nodata).1
  | tileData (row col : Nat) (res : ℚ) (ls : List Layer) (nodata : Option ℚ) (zUp : Bool) : Reads env g (g.getTileData env row col res ls nodata zUp).1
  | tiles (res : Option ℚ) (ls : List Layer) (nodata : Option ℚ) (zUp : Bool) : Reads env g (g.tilesByResolution env res ls nodata zUp).st.1
  | chunks (res : ℚ) (ls : List Layer) (nodata : Option ℚ) (zUp : Bool) (maxDim : Option ℚ) (forGdal : Bool) :
      Reads env g (g.getChunks env res ls nodata zUp maxDim forGdal).st.1
  | plot (l : Layer) (res : Option ℚ) : Reads env g (g.plot env l res).1
  | csv (zUp : Bool) (res : Option ℚ) : Reads env g (g.exportCsv env zUp res).1
  | raster (kind : RasterKind) (zUp : Bool) (res maxDim : Option ℚ) : Reads env g (g.exportRaster env kind zUp res maxDim).1

/-- any number of calls that read -/
def ReadsMany {τ : Type} [LayerLike τ] [NamesLike τ] [LayerNames τ] (env : Env) : Grid τ → Grid τ → Prop := Relation.ReflTransGen (Reads env)

end Bathy
