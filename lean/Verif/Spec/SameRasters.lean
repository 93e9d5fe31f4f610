import Verif.Spec.ExportSurface

/-!
# Specification of rasters that agree
-/

namespace Bathy

/-- one of the rasters has in its band `name` a pixel with the lower left corner (x, y) and the value `v` -/
def PixelIn (files : List RasterFile) (r : ℚ) (name : String) (x y : ℚ) (v : Option ℚ) : Prop :=
  ∃ f ∈ files, ∃ a, (name, a) ∈ f.bands ∧ ∃ i j : Nat, a.get? i j = some v ∧ i < a.rows ∧ j < a.cols ∧ x = f.geo.x0 + (j : ℚ) * r ∧ y = f.geo.y0 - (i : ℚ) * r - r

end Bathy
