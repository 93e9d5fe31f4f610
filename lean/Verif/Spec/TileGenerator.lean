import Verif.Spec.Chunks
import Verif.Model.TileGenerator

/-!
# Specification of the tile generator
-/

namespace Bathy

/-- slots from the lower left one, row by row -/
def slotBefore (p q : Nat × Nat) : Prop := p.1 < q.1 ∨ p.1 = q.1 ∧ p.2 < q.2

/-- what is yielded for the tile `t` of a grid with the lower left corner (x0, y0): the number of cells `n` along its sides, the index of its lowest
row of cells in the grid, the index of its first column, and the layers that it stores, the array of a layer beginning with the southern row.  The
geotransform names the upper left corner; there is none if (and only if) nothing is stored. -/
structure YieldRight {τ : Type} [HasLeaves τ] (x0 y0 : ℚ) (t : τ) (layers : List Layer) (res : ℚ) (nodata : Option ℚ) (flip : Bool) (row col : Nat) (y : TileYield) : Prop where
  cells : (row, col) = (y.dataCol, y.dataRow)
  keys : ∀ l, l ∉ layers → y.data.get? l = none
  missing : ∀ l ∈ layers, y.data.get? l = none → ∀ px py z, ¬ StoredCell t l res px py z
  shown : ∀ l a, y.data.get? l = some a → ShowsCells t l res nodata flip (x0 + (col : ℚ) * res) (y0 + (row : ℚ) * res) a
  geo : ∀ ge, y.geo = some ge → ge.res = res ∧ ge.x0 = x0 + (col : ℚ) * res ∧ ge.y0 = y0 + (row : ℚ) * res + (y.cells : ℚ) * res
  nogeo : y.geo = none → ∀ l px py z, ¬ StoredCell t l res px py z

/-- the tiles of the grid are yielded once each, row by row from the lower left one, up to an exception -/
structure YieldSpec {τ : Type} [HasLeaves τ] (g : Grid τ) (layers : List Layer) (res : ℚ) (nodata : Option ℚ) (flip : Bool) (out : Res (Grid τ × List TileYield)) : Prop where
  each : ∃ P : List (Nat × Nat), P.Pairwise slotBefore ∧ (∀ p ∈ P, g.Filled p.1 p.2) ∧ (out.err = none → ∀ r c, g.Filled r c → (r, c) ∈ P) ∧
    List.Forall₂ (fun p y => ∃ e t, g.extents = some e ∧ g.TileAt p.1 p.2 t ∧ (y.cells : ℚ) * res = g.tileSize ∧
      YieldRight e.minX e.minY t layers res nodata flip (p.1 * y.cells) (p.2 * y.cells) y) P out.st.2
  same : out.err = none → out.st.1 = g

end Bathy
