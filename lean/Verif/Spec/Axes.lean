import Verif.Spec.Coarser

/-!
# Specification of soundings on a turned, enlarged or mirrored map

Each of these changes moves the soundings and keeps their depths and uncertainties.
-/

namespace Bathy

/-- eastings and northings exchanged -/
def Pt.turned (p : Pt) : Pt := { p with x := p.y, y := p.x }

/-- eastings and northings in another unit -/
def Pt.enlarged (c : ℚ) (p : Pt) : Pt := { p with x := c * p.x, y := c * p.y }

/-- east and west exchanged -/
def Pt.mirrored (p : Pt) : Pt := { p with x := -p.x }

/-- the extents on the turned map -/
def Extents.turned (e : Extents) : Extents := ⟨e.minY, e.maxY, e.minX, e.maxX⟩

/-- no sounding lies on a line between two columns of squares of side `r` -/
def OffLines (r : ℚ) (P : List Pt) : Prop := ∀ p ∈ P, ∀ k : ℤ, p.x ≠ k * r

end Bathy
