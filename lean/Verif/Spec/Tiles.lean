import Verif.Spec.Points
import Verif.Spec.Cells

/-!
# Specification of the distribution of soundings over tiles
-/

namespace Bathy

/-- what a square with lower left corner (x, y) holds of a store: of each container the soundings inside, containers without any left out -/
def Store.within (A : Store) (x y size : ℚ) : Store :=
  (A.map (fun q => (q.1, q.2.filter (fun p => decide (InBox x y size p))))).filter (fun q => decide (q.2 ≠ []))

/-- the sounding lies in the rectangle of `nx` by `ny` tiles with lower left corner (minX, minY) -/
def InRect (minX minY size : ℚ) (nx ny : Nat) (p : Pt) : Prop :=
  minX ≤ p.x ∧ p.x < minX + (nx : ℚ) * size ∧ minY ≤ p.y ∧ p.y < minY + (ny : ℚ) * size

instance (minX minY size : ℚ) (nx ny : Nat) (p : Pt) : Decidable (InRect minX minY size nx ny p) := by
  unfold InRect; infer_instance

end Bathy
