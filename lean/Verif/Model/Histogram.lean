import Verif.Model.Export
import Verif.Model.Stats
import Verif.Model.Plots

/-!
# The histograms of a grid (bathygrid/bgrid.py:1550-1661)

What is handed to `plt.hist`, or what is printed instead; the drawing itself is not modelled.
-/

namespace Bathy

/-- a histogram of these values, or only a printed line -/
inductive Drawn where
  | hist (values : List ℚ)
  | printed (text : String)
  deriving DecidableEq

/-- bathygrid/bgrid.py:88-102 `depth_key` -/
def Grid.depthKey {τ : Type} (g : Grid τ) : Layer := if g.isBackscatter then .intensity else .depth

/-- bathygrid/bgrid.py:1592-1604, 1616-1623, 1635-1642, 1654-1661: the values of the layer if it is among the layer names, otherwise the line `{missing} not found` -/
def layerHistogram {τ : Type} [HasStats τ] [LayerNames τ] (g : Grid τ) (layer : Layer) (missing : String) : Except Err Drawn :=
  if layer ∈ g.layerNames then (HasStats.layerValues g layer).map Drawn.hist else .ok (.printed (missing ++ " not found"))

/-- bathygrid/bgrid.py:1582-1604 `plot_z_histogram` -/
def plotZHistogram {τ : Type} [HasStats τ] [LayerNames τ] (g : Grid τ) : Except Err Drawn :=
  layerHistogram g g.depthKey (if g.isBackscatter then "intensity" else "depth")

/-- bathygrid/bgrid.py:1606-1623 `plot_vertical_uncertainty_histogram` -/
def plotVerticalHistogram {τ : Type} [HasStats τ] [LayerNames τ] (g : Grid τ) : Except Err Drawn := layerHistogram g .vertical "Vertical Uncertainty"

/-- bathygrid/bgrid.py:1625-1642 `plot_total_uncertainty_histogram` -/
def plotTotalHistogram {τ : Type} [HasStats τ] [LayerNames τ] (g : Grid τ) : Except Err Drawn := layerHistogram g .totalUnc "Total Uncertainty"

/-- bathygrid/bgrid.py:1644-1661 `plot_horizontal_uncertainty_histogram`; the line printed is the one of the vertical uncertainty -/
def plotHorizontalHistogram {τ : Type} [HasStats τ] [LayerNames τ] (g : Grid τ) : Except Err Drawn := layerHistogram g .horizontal "Vertical Uncertainty"

/-- `np.histogram(values, bins)`, what `plt.hist(values, bins)` draws: the counts and the edges.  Less than one bin is a ValueError; without values the range is from 0 to 1, for
values that are all the same half a unit to both sides.  A value is put in the bin `floor((v - lo) * (bins / (hi - lo)))`, the largest value in the last bin; in exact arithmetic the
corrections by one that numpy makes afterwards change nothing. -/
def npHistogram (vs : List ℚ) (bins : Int) : Except Err (List Nat × List ℚ) :=
  if bins < 1 then .error .valueError
  else
    let n := bins.toNat
    let lo0 := (reduce1 min vs).getD 0
    let hi0 := (reduce1 max vs).getD 1
    let lo := if lo0 = hi0 then lo0 - 1 / 2 else lo0
    let hi := if lo0 = hi0 then hi0 + 1 / 2 else hi0
    let idx := vs.map (fun v => let f := ⌊(v - lo) * (n / (hi - lo))⌋; if f = n then f - 1 else f)
    .ok ((List.range n).map (fun k : Nat => idx.count (k : Int)), linspace lo hi (n + 1))

/-- bathygrid/bgrid.py:1550-1564 `plot_density_histogram`: `plt.hist(np.array(self.density_count), number_of_bins)` -/
def plotDensityHistogram {τ : Type} [HasStats τ] (g : τ) (bins : Int) : Except Err (List Nat × List ℚ) :=
  match HasStats.densityCount g with
  | .error e => .error e
  | .ok vs => npHistogram vs bins

/-- bathygrid/bgrid.py:1566-1580 `plot_density_per_square_meter_histogram` -/
def plotDensityPerSquareMeterHistogram {τ : Type} [HasStats τ] (g : τ) (bins : Int) : Except Err (List Nat × List ℚ) :=
  match HasStats.densityPerSquareMeter g with
  | .error e => .error e
  | .ok vs => npHistogram vs bins

end Bathy
