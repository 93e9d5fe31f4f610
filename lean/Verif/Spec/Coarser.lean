import Verif.Spec.Safe
import Mathlib.Algebra.BigOperators.Group.Finset.Basic

/-!
# Specification of surfaces at different resolutions and of moved soundings

The square in row `i`, column `j` of a surface consists of the `k * k` squares in rows `i * k + x`, columns `j * k + y` (`x`, `y` less than `k`) of the surface over the same
rectangle with `k` times smaller squares.
-/

namespace Bathy

/-- sum over the `k * k` squares of a block -/
def blockSum (k : Nat) (f : Nat → Nat → ℚ) : ℚ := ∑ x ∈ Finset.range k, ∑ y ∈ Finset.range k, f x y

/-- `v` is the shoalest of the numbers in the block `f`, NaN if there are none -/
def ShoalestOf (up : Bool) (k : Nat) (f : Nat → Nat → Option ℚ) (v : Option ℚ) : Prop :=
  ((∀ x y, x < k → y < k → f x y = none) → v = none) ∧
  ∀ x y w, x < k → y < k → f x y = some w → ∃ z, v = some z ∧ NotDeeper up z w ∧ ∃ x' y', x' < k ∧ y' < k ∧ f x' y' = some z

/-- the block of the array that lies in the square (i, j) of a surface with `k` times larger squares is `f` -/
def ShowsBlock {α : Type} (a : LayerArr) (k i j : Nat) (f : Nat → Nat → α) (shown : α → Option ℚ) : Prop :=
  ∀ x y, x < k → y < k → a.get? (i * k + x) (j * k + y) = some (shown (f x y))

/-- the sounding at another place -/
def Pt.moved (dx dy : ℚ) (p : Pt) : Pt := { p with x := p.x + dx, y := p.y + dy }

end Bathy
