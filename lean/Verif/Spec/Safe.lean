import Verif.Spec.Surface

/-!
# Specification of surfaces that hide no shoal
-/

namespace Bathy

/-- the square of side `r2` in row `i2`, column `j2` of the array over `e2` lies in the square of side `r1` in row `i1`, column `j1` of the array over `e1` -/
structure Covers (e1 : Extents) (r1 : ℚ) (i1 j1 : Nat) (e2 : Extents) (r2 : ℚ) (i2 j2 : Nat) : Prop where
  left : e1.minX + (j1 : ℚ) * r1 ≤ e2.minX + (j2 : ℚ) * r2
  right : e2.minX + ((j2 + 1 : Nat) : ℚ) * r2 ≤ e1.minX + ((j1 + 1 : Nat) : ℚ) * r1
  bottom : e1.minY + (i1 : ℚ) * r1 ≤ e2.minY + (i2 : ℚ) * r2
  top : e2.minY + ((i2 + 1 : Nat) : ℚ) * r2 ≤ e1.minY + ((i1 + 1 : Nat) : ℚ) * r1

/-- the shown number `v` is a depth that is not deeper than the one shown as `w`; with heights shown (`up`) the larger number is the shoaler one -/
def NotDeeper (up : Bool) (v w : ℚ) : Prop := if up = true then w ≤ v else v ≤ w

/-- the depth that is shown as `v` -/
def depthOf (up : Bool) (v : ℚ) : ℚ := if up = true then -v else v

end Bathy
