import Verif.Spec.Layers
import Verif.Model.Csv

/-!
# Specification of an exported csv table
-/

namespace Bathy

/-- `v` is what should be shown for the cell with lower left corner (x, y) -/
def ShownAt {τ : Type} [HasLeaves τ] (g : τ) (l : Layer) (res : ℚ) (flip : Bool) (x y : ℚ) (v : Option ℚ) : Prop :=
  (∀ z, StoredCell g l res x y z → v = some (shownValue l flip z)) ∧ ((∀ z, ¬ StoredCell g l res x y z) → v = fillValue l none)

/-- rows r0 to r1 - 1 and columns c0 to c1 - 1 (counted from the lower left corner of the extents) are the smallest box with all cells of the layer
for which a number is stored -/
structure CellBox {τ : Type} [HasLeaves τ] (g : τ) (l : Layer) (res : ℚ) (e : Extents) (r0 r1 c0 c1 : Nat) : Prop where
  all : ∀ x y z, StoredCell g l res x y z → ∃ i j : Nat, r0 ≤ i ∧ i < r1 ∧ c0 ≤ j ∧ j < c1 ∧ x = e.minX + (j : ℚ) * res ∧ y = e.minY + (i : ℚ) * res
  top : ∃ (j : Nat) (z : ℚ), StoredCell g l res (e.minX + (j : ℚ) * res) (e.minY + (r0 : ℚ) * res) z
  bottom : ∃ (i j : Nat) (z : ℚ), i + 1 = r1 ∧ StoredCell g l res (e.minX + (j : ℚ) * res) (e.minY + (i : ℚ) * res) z
  left : ∃ (i : Nat) (z : ℚ), StoredCell g l res (e.minX + (c0 : ℚ) * res) (e.minY + (i : ℚ) * res) z
  right : ∃ (i j : Nat) (z : ℚ), j + 1 = c1 ∧ StoredCell g l res (e.minX + (j : ℚ) * res) (e.minY + (i : ℚ) * res) z

/-- what a csv table for the layers should be: one row for each cell of the smallest box with all numbers of the first layer, with the centre of the
cell and the values of all layers, sorted by x -/
structure CsvSpec {τ : Type} [HasLeaves τ] (g : Grid τ) (layers : List Layer) (res : ℚ) (zUp flip : Bool) (f : CsvFile) : Prop where
  header : f.header = .x :: .y :: layers.map (fun l => if l = .depth ∧ zUp = true then .elevation else .layer l)
  sorted : f.rows.Pairwise (fun a b => a.x ≤ b.x)
  once : (f.rows.map (fun w => (w.x, w.y))).Nodup
  cells : ∃ (e : Extents) (r0 r1 c0 c1 : Nat), g.extents = some e ∧ (∀ l, layers.head? = some l → CellBox g l res e r0 r1 c0 c1) ∧
    (∀ i j : Nat, r0 ≤ i → i < r1 → c0 ≤ j → j < c1 → ∃ w ∈ f.rows, w.x = e.minX + (j : ℚ) * res + res / 2 ∧ w.y = e.minY + (i : ℚ) * res + res / 2) ∧
    ∀ w ∈ f.rows, ∃ i j : Nat, (r0 ≤ i ∧ i < r1 ∧ c0 ≤ j ∧ j < c1) ∧ w.x = e.minX + (j : ℚ) * res + res / 2 ∧ w.y = e.minY + (i : ℚ) * res + res / 2 ∧
      w.values.length = layers.length ∧
      ∀ (k : Nat) l, layers[k]? = some l → ∃ v, w.values[k]? = some v ∧ ShownAt g l res flip (e.minX + (j : ℚ) * res) (e.minY + (i : ℚ) * res) v

end Bathy
