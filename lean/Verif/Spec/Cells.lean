import Verif.Model.Data
import Mathlib.Algebra.Order.Floor.Defs

/-!
# Specification of a gridded layer

Cell (r, c) of a grid with lower left corner (minX, minY) and cell size `res` is the half open square
`[minX + c·res, minX + (c+1)·res) × [minY + r·res, minY + (r+1)·res)`.
-/

namespace Bathy

/-- the sounding lies in the cell in row `r`, column `c` -/
def InCell (minX minY res : ℚ) (r c : Nat) (p : Pt) : Prop :=
  minX + (c : ℚ) * res ≤ p.x ∧ p.x < minX + ((c + 1 : Nat) : ℚ) * res ∧
    minY + (r : ℚ) * res ≤ p.y ∧ p.y < minY + ((r + 1 : Nat) : ℚ) * res

instance (minX minY res : ℚ) (r c : Nat) (p : Pt) : Decidable (InCell minX minY res r c p) := by
  unfold InCell; infer_instance

/-- the soundings in a cell -/
def inCell (minX minY res : ℚ) (r c : Nat) (pts : List Pt) : List Pt := pts.filter (fun p => decide (InCell minX minY res r c p))

/-- `a` is an `n × n` array and the value of cell (r, c) is related by `R` to the soundings that lie in that cell -/
def EachCell (a : LayerArr) (n : Nat) (minX minY res : ℚ) (pts : List Pt) (R : List Pt → Option ℚ → Prop) : Prop :=
  a.flat.length = n * n ∧ a.rows = n ∧ a.cols = n ∧ ∀ r c, r < n → c < n → ∃ v, a.get? r c = some v ∧ R (inCell minX minY res r c pts) v

/-- arithmetic mean -/
def meanOf (l : List ℚ) : ℚ := l.sum / (l.length : ℚ)

/-- `m` is the least element of `l` -/
def IsMin (m : ℚ) (l : List ℚ) : Prop := m ∈ l ∧ ∀ x ∈ l, m ≤ x

/-- empty cells are NaN, the others hold the mean of the attribute `f`, rounded to 3 decimals by `rnd` -/
def MeanCell (rnd : ℚ → ℚ) (f : Pt → ℚ) (ps : List Pt) (v : Option ℚ) : Prop :=
  (ps = [] → v = none) ∧ (ps ≠ [] → v = some (rnd (meanOf (ps.map f))))

/-- empty cells are NaN, the others hold the least depth, rounded -/
def ShoalCell (rnd : ℚ → ℚ) (ps : List Pt) (v : Option ℚ) : Prop :=
  (ps = [] → v = none) ∧ (ps ≠ [] → ∃ m, IsMin m (ps.map Pt.z) ∧ v = some (rnd m))

/-- the number of soundings -/
def CountCell (ps : List Pt) (v : Option ℚ) : Prop := v = some (ps.length : ℚ)

/-- the uncertainty `f` of a sounding of the cell whose depth is the least depth of the cell, rounded; NaN for an empty cell -/
def ShoalUncCell (rnd : ℚ → ℚ) (f : Pt → ℚ) (ps : List Pt) (v : Option ℚ) : Prop :=
  (ps = [] → v = none) ∧ (ps ≠ [] → ∃ p ∈ ps, IsMin p.z (ps.map Pt.z) ∧ v = some (rnd (f p)))

/-- the sounding lies in the tile -/
def InBox (minX minY width : ℚ) (p : Pt) : Prop :=
  minX ≤ p.x ∧ p.x < minX + width ∧ minY ≤ p.y ∧ p.y < minY + width

instance (minX minY width : ℚ) (p : Pt) : Decidable (InBox minX minY width p) := by
  unfold InBox; infer_instance

/-- the cells (row, column) of an `n × n` grid, row after row -/
def cellsOf (n : Nat) : List (Nat × Nat) := (List.range (n * n)).map (fun k => (k / n, k % n))

/-- the number of soundings in each cell, row after row -/
def countsOf (n : Nat) (minX minY res : ℚ) (pts : List Pt) : List ℚ :=
  (cellsOf n).map (fun rc => ((inCell minX minY res rc.1 rc.2 pts).length : ℚ))

/-- the cells that contain a sounding -/
def occupied (n : Nat) (minX minY res : ℚ) (pts : List Pt) : List (Nat × Nat) :=
  (cellsOf n).filter (fun rc => decide (inCell minX minY res rc.1 rc.2 pts ≠ []))

/-- sum of the values of a layer, NaN counted as 0 -/
def layerSum (a : LayerArr) : ℚ := (a.flat.map (fun v => v.getD 0)).sum

end Bathy
