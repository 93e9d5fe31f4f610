import Verif.Spec.Leaves
import Verif.Spec.Family
import Verif.Model.Layers

/-!
# Specification of reading layers

A cell is named by its lower left corner.
-/

namespace Bathy

/-- some tile stores the number `z` for the layer in the cell with lower left corner (x, y) -/
def StoredCell {τ : Type} [HasLeaves τ] (g : τ) (l : Layer) (res x y z : ℚ) : Prop :=
  ∃ (u : Tile) (ls : Dict Layer LayerArr) (a : LayerArr) (i j : Nat), HasLeaves.leaf g u ∧ u.cells.get? res = some ls ∧ ls.get? l = some a ∧
    a.get? i j = some (some z) ∧ x = u.minX + (j : ℚ) * res ∧ y = u.minY + (i : ℚ) * res

/-- what stands for a missing value; counts are integers and cannot be NaN -/
def fillValue (l : Layer) (nodata : Option ℚ) : Option ℚ :=
  if l = .density ∨ l = .hypCount then some (match nodata with | none => 0 | some v => if v < 0 then -(⌊-v⌋ : ℚ) else (⌊v⌋ : ℚ)) else nodata

/-- what is shown for the stored number `z`: only depths are ever negated -/
def shownValue (l : Layer) (flip : Bool) (z : ℚ) : ℚ := if l = .depth ∧ flip = true then -z else z

/-- the array shows at (i, j) the stored cell with lower left corner (x0 + j·res, y0 + i·res), the fill value if there is none, and every stored
cell is somewhere in the array -/
structure ShowsCells {τ : Type} [HasLeaves τ] (g : τ) (l : Layer) (res : ℚ) (nodata : Option ℚ) (flip : Bool) (x0 y0 : ℚ) (a : LayerArr) : Prop where
  value : ∀ i j z, i < a.rows → j < a.cols → StoredCell g l res (x0 + (j : ℚ) * res) (y0 + (i : ℚ) * res) z → a.get? i j = some (some (shownValue l flip z))
  empty : ∀ i j, i < a.rows → j < a.cols → (∀ z, ¬ StoredCell g l res (x0 + (j : ℚ) * res) (y0 + (i : ℚ) * res) z) → a.get? i j = some (fillValue l nodata)
  all : ∀ x y z, StoredCell g l res x y z → ∃ i j : Nat, i < a.rows ∧ j < a.cols ∧ x = x0 + (j : ℚ) * res ∧ y = y0 + (i : ℚ) * res

/-- every tile of the grid stores numbers for all of the layers or for none of them -/
def Grid.AllOrNone {τ : Type} [HasLeaves τ] (g : Grid τ) (layers : List Layer) (res : ℚ) : Prop :=
  ∀ r c t, g.TileAt r c t → (∀ l ∈ layers, ∃ x y z, StoredCell t l res x y z) ∨ ∀ l ∈ layers, ∀ x y z, ¬ StoredCell t l res x y z

/-- the location lies in a cell for which the number `z` is stored at this resolution -/
def CellAt {τ : Type} [HasLeaves τ] (g : τ) (l : Layer) (res : ℚ) (p : ℚ × ℚ) (z : ℚ) : Prop :=
  ∃ x y, StoredCell g l res x y z ∧ x ≤ p.1 ∧ p.1 < x + res ∧ y ≤ p.2 ∧ p.2 < y + res

/-- the layers that gridding writes, by family of the algorithm -/
def writtenLayers (F : Family) (isBackscatter : Bool) (fl : Fields) : List Layer :=
  let main : Layer := if isBackscatter then .intensity else .depth
  match F with
  | .plain => [main, .density] ++ (if fl.hasTvu then [.vertical] else []) ++ (if fl.hasThu then [.horizontal] else [])
  | .cube => [main, .density, .hypCount, .totalUnc, .hypRatio]

/-- the depths of the grid are stored positive up -/
def StoredUp {τ : Type} (g : Grid τ) : Prop := ∃ s, g.info.vref = some s ∧ "height (h)\",up".toList <:+: s.toList

end Bathy
