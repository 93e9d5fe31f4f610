import Verif.Spec.Soundings
import Verif.Spec.Layers
import Verif.Model.Chunks

/-!
# Specification of chunks and exported rasters
-/

namespace Bathy

namespace Grid
variable {τ : Type}

/-- the slot (r, c) has a tile -/
def Filled (g : Grid τ) (r c : Nat) : Prop := ∃ t, g.TileAt r c t

/-- the tiles extend over `n` rows: there is a tile in the first and in the last and none outside -/
def RowSpan (g : Grid τ) (n : Nat) : Prop := ∃ a, (∃ c, g.Filled a c) ∧ (∃ c, g.Filled (a + n - 1) c) ∧ 0 < n ∧ ∀ r c, g.Filled r c → a ≤ r ∧ r < a + n

/-- the tiles extend over `n` columns -/
def ColSpan (g : Grid τ) (n : Nat) : Prop := ∃ a, (∃ r, g.Filled r a) ∧ (∃ r, g.Filled r (a + n - 1)) ∧ 0 < n ∧ ∀ r c, g.Filled r c → a ≤ c ∧ c < a + n

/-- the chunks of indices hold every tile once -/
def Partition (g : Grid τ) (L : List (List (Nat × Nat))) : Prop := L.flatten.Nodup ∧ ∀ r c, (r, c) ∈ L.flatten ↔ g.Filled r c

/-- the tiles of a chunk extend over at most max(d, tile size) in both directions -/
def ChunkFits (g : Grid τ) (d : ℚ) (l : List (Nat × Nat)) : Prop :=
  ∀ p ∈ l, ∀ q ∈ l, ((p.1 : ℚ) - q.1 + 1) * g.tileSize ≤ max d g.tileSize ∧ ((p.2 : ℚ) - q.2 + 1) * g.tileSize ≤ max d g.tileSize

end Grid

/-- the raster with upper left corner (x0, y0) has a pixel for the cell with lower left corner (x, y) -/
def HasPixel (a : LayerArr) (res x0 y0 x y : ℚ) : Prop := ∃ i j : Nat, i < a.rows ∧ j < a.cols ∧ x = x0 + (j : ℚ) * res ∧ y + res = y0 - (i : ℚ) * res

/-- pixel (i, j) of the raster with upper left corner (x0, y0) shows the stored cell with upper left corner (x0 + j·res, y0 - i·res) -/
def PixelsRight {τ : Type} [HasLeaves τ] (g : τ) (l : Layer) (res : ℚ) (flip : Bool) (x0 y0 : ℚ) (a : LayerArr) : Prop :=
  ∀ i j z, i < a.rows → j < a.cols → StoredCell g l res (x0 + (j : ℚ) * res) (y0 - (i : ℚ) * res - res) z → a.get? i j = some (some (shownValue l flip z))

/-- the other pixels hold `v` -/
def PixelsEmpty {τ : Type} [HasLeaves τ] (g : τ) (l : Layer) (res : ℚ) (x0 y0 : ℚ) (v : Option ℚ) (a : LayerArr) : Prop :=
  ∀ i j, i < a.rows → j < a.cols → (∀ z, ¬ StoredCell g l res (x0 + (j : ℚ) * res) (y0 - (i : ℚ) * res - res) z) → a.get? i j = some v

/-- the chunk has a pixel for the cell with lower left corner (x, y) in the band of the layer -/
def Chunk.Covers (c : Chunk) (l : Layer) (res x y : ℚ) : Prop := ∃ geo a, c.geo = some geo ∧ c.data.get? l = some a ∧ HasPixel (transpose a) res geo.x0 geo.y0 x y

/-- what is yielded for the layers: band `k` of every chunk shows layer `k` where the geotransform of the chunk says; no stored cell is in two chunks;
no chunk is without a stored cell; and if nothing was raised the grid is as before and every stored cell is in a chunk -/
structure ExportSpec {τ : Type} [HasLeaves τ] (g : Grid τ) (layers : List Layer) (res : ℚ) (flip : Bool) (out : Res (Grid τ × List Chunk)) : Prop where
  right : ∀ c ∈ out.st.2, (bands c).length = layers.length ∧ ∃ ge, c.geo = some ge ∧ ge.res = res ∧ ∀ (k : Nat) l, layers[k]? = some l →
    ∃ a, (bands c)[k]? = some a ∧ PixelsRight g l res flip ge.x0 ge.y0 a
  apart : out.st.2.Pairwise (fun c d => ∀ l ∈ layers, ∀ x y z, StoredCell g l res x y z → ¬ (c.Covers l res x y ∧ d.Covers l res x y))
  some : ∀ c ∈ out.st.2, ∃ l ∈ layers, ∃ x y z, StoredCell g l res x y z ∧ c.Covers l res x y
  all : out.err = none → out.st.1 = g ∧ ∀ l ∈ layers, ∀ x y z, StoredCell g l res x y z → ∃ c ∈ out.st.2, c.Covers l res x y

end Bathy
