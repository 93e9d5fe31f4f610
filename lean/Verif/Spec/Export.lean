import Verif.Spec.Chunks
import Verif.Model.Export

/-!
# Specification of exported rasters
-/

namespace Bathy

/-- the number that a band of that name is to show for the stored number `z`: elevations are positive up, depths positive down -/
def NamedValue {τ : Type} (g : Grid τ) (name : String) (z v : ℚ) : Prop :=
  (name = "Elevation" → (StoredUp g → v = z) ∧ (¬ StoredUp g → v = -z)) ∧ (name = "Depth" → (StoredUp g → v = -z) ∧ (¬ StoredUp g → v = z)) ∧
    (name ≠ "Elevation" → name ≠ "Depth" → v = z)

/-- the bands that a raster is to have, with the layers that they show -/
def expectedBands (kind : RasterKind) (zUp intensity : Bool) (F : Family) (fl : Fields) : List (String × Layer) :=
  if intensity then [("Intensity", .intensity)]
  else ((if zUp || decide (kind = .bag) then "Elevation" else "Depth"), Layer.depth) ::
    (match F with
     | .plain => if fl.hasTvu then [((if kind = .bag then "Uncertainty" else "Vertical Uncertainty"), Layer.vertical)] else []
     | .cube => [((if kind = .bag then "Uncertainty" else "Total Uncertainty"), Layer.totalUnc)])

/-- the band of that name is over the cell with the lower left corner (x, y) -/
def RasterFile.Covers (f : RasterFile) (name : String) (x y : ℚ) : Prop := ∃ a, (name, a) ∈ f.bands ∧ HasPixel a f.res f.geo.x0 f.geo.y0 x y

/-- the band `a` of the raster shows the layer, north up, with the value 1000000 where nothing is stored -/
def BandShows {τ : Type} [HasLeaves τ] (g : Grid τ) (name : String) (l : Layer) (f : RasterFile) (a : LayerArr) : Prop :=
  (∀ i j z, i < a.rows → j < a.cols → StoredCell g l f.res (f.geo.x0 + (j : ℚ) * f.res) (f.geo.y0 - (i : ℚ) * f.res - f.res) z →
    ∃ v, a.get? i j = some (some v) ∧ NamedValue g name z v) ∧
  PixelsEmpty g l f.res f.geo.x0 f.geo.y0 (some 1000000) a

/-- the files of one resolution -/
structure RastersRight {τ : Type} [HasLeaves τ] (g : Grid τ) (names : List (String × Layer)) (res : ℚ) (files : List RasterFile) : Prop where
  /-- the bands have their names and show their layers -/
  right : ∀ f ∈ files, f.res = res ∧ f.geo.res = res ∧ f.bands.map Prod.fst = names.map Prod.fst ∧
    ∀ (k : Nat) name l, names[k]? = some (name, l) → ∃ a, f.bands[k]? = some (name, a) ∧ BandShows g name l f a
  /-- the files are numbered 1, 2, … -/
  number : files.map RasterFile.number = List.range' 1 files.length
  /-- no file is without a stored cell -/
  some : ∀ f ∈ files, ∃ name l, (name, l) ∈ names ∧ ∃ x y z, StoredCell g l res x y z ∧ f.Covers name x y
  /-- every stored cell is in a file -/
  all : ∀ name l, (name, l) ∈ names → ∀ x y z, StoredCell g l res x y z → ∃ f ∈ files, f.Covers name x y
  /-- and in no other -/
  apart : files.Pairwise (fun f f' => ∀ name l, (name, l) ∈ names → ∀ x y z, StoredCell g l res x y z → ¬ (f.Covers name x y ∧ f'.Covers name x y))

end Bathy
