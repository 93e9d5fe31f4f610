import Verif.Spec.Cells

/-!
# Specification of the soundings near the border of a tile
-/

namespace Bathy

/-- the sounding lies in one of the four squares that share an edge with the square with lower left corner (x, y) -/
def Beside (x y size : ℚ) (p : Pt) : Prop :=
  InBox x (y - size) size p ∨ InBox (x + size) y size p ∨ InBox x (y + size) size p ∨ InBox (x - size) y size p

/-- the sounding lies in one of the four squares that share an edge with the square with lower left corner (x, y), not farther than `buf`
from the common edge -/
def NearBorder (x y size buf : ℚ) (p : Pt) : Prop :=
  (InBox x (y - size) size p ∧ y - buf ≤ p.y) ∨ (InBox (x + size) y size p ∧ p.x ≤ x + size + buf) ∨
  (InBox x (y + size) size p ∧ p.y ≤ y + size + buf) ∨ (InBox (x - size) y size p ∧ x - buf ≤ p.x)

instance (x y size : ℚ) (p : Pt) : Decidable (Beside x y size p) := by unfold Beside; infer_instance
instance (x y size buf : ℚ) (p : Pt) : Decidable (NearBorder x y size buf p) := by unfold NearBorder; infer_instance

end Bathy
