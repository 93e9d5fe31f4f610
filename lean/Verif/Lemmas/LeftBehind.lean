import Verif.Model.Tile

/-! What a container query leaves behind when it raises. -/

namespace Bathy
namespace Tile

theorem leftBehind_cases (t : Tile) (l : Layer) (r : ℚ) :
    leftBehind t l r = t ∨ ∃ c ls a b, t.cells.get? r = some ls ∧
      leftBehind t l r = { t with cells := t.cells.set r ((ls.set (.cont c) a).set (.contDensity c) b) } := by
  unfold leftBehind
  (repeat' split) <;> first | exact Or.inl rfl | (refine Or.inr ⟨_, _, _, _, ?_, rfl⟩; assumption)

end Tile
end Bathy
