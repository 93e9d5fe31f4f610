import Verif.Spec.Safe

/-!
# Specification of the surface of two surveys together
-/

namespace Bathy

/-- the squares of side `r` in row `i1`, column `j1` of the array over `e1` and in row `i2`, column `j2` of the array over `e2` are one square -/
def SamePlace (r : ℚ) (e1 : Extents) (i1 j1 : Nat) (e2 : Extents) (i2 j2 : Nat) : Prop :=
  e1.minX + (j1 : ℚ) * r = e2.minX + (j2 : ℚ) * r ∧ e1.minY + (i1 : ℚ) * r = e2.minY + (i2 : ℚ) * r

/-- the shoaler one of two shown numbers, if there are any -/
def shoaler (up : Bool) : Option ℚ → Option ℚ → Option ℚ
  | none, w => w
  | some v, none => some v
  | some v, some w => some (if up = true then max v w else min v w)

/-- the answer is one array, with the number `w` in row `i`, column `j` -/
def NumberAt (o : Option (List LayerArr)) (i j : Nat) (w : ℚ) : Prop := ∃ a, o = some [a] ∧ i < a.rows ∧ j < a.cols ∧ a.get? i j = some (some w)

end Bathy
