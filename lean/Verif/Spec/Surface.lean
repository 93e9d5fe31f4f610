import Verif.Spec.Cells
import Verif.Spec.Layers
import Verif.Model.Tile

/-!
# Specification of the whole way from soundings to a surface
-/

namespace Bathy

/-- what is shown for the value of a cell -/
def shownCell (l : Layer) (nodata : Option ℚ) (flip : Bool) (v : Option ℚ) : Option ℚ :=
  match v with
  | some z => some (shownValue l flip z)
  | none => nodata

/-- The array is a surface of the soundings `P` over the rectangle `e`: the value shown for each square of side `r` is related by `R` to the soundings of
`P` in this square, and every sounding is in one of the squares. -/
structure SurfaceOf (R : List Pt → Option ℚ → Prop) (shown : Option ℚ → Option ℚ) (P : List Pt) (r : ℚ) (e : Extents) (a : LayerArr) : Prop where
  rows : (a.rows : ℚ) * r = e.maxY - e.minY
  cols : (a.cols : ℚ) * r = e.maxX - e.minX
  cell : ∀ i j, i < a.rows → j < a.cols → ∃ v, R (inCell e.minX e.minY r i j P) v ∧ a.get? i j = some (shown v)
  all : ∀ p ∈ P, ∃ i j, i < a.rows ∧ j < a.cols ∧ InCell e.minX e.minY r i j p

/-- what the value of a cell has to do with the soundings in it, by layer, for the algorithms 'mean' and 'shoalest' -/
def CellRule (alg : Alg) (l : Layer) : List Pt → Option ℚ → Prop :=
  match l with
  | .density => CountCell
  | .vertical => MeanCell round3 Pt.tvu
  | .horizontal => MeanCell round3 Pt.thu
  | _ => match alg with
    | .mean => MeanCell round3 Pt.z
    | _ => ShoalCell round3

/-- the layers with such a rule: the main layer; the counts, with NaN for nodata (they show 0 then, C65); the uncertainties of the algorithm 'mean' -/
def Ruled (alg : Alg) (isBackscatter : Bool) (fl : Fields) (nodata : Option ℚ) (l : Layer) : Prop :=
  l = (if isBackscatter then .intensity else .depth) ∨ (l = .density ∧ nodata = none) ∨ (alg = .mean ∧ ((l = .vertical ∧ fl.hasTvu = true) ∨ (l = .horizontal ∧ fl.hasThu = true)))

end Bathy
