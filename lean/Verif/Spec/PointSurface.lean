import Verif.Spec.Surface

/-!
# Specification of values at locations in terms of the soundings
-/

namespace Bathy

/-- the sounding is in the square of side `r` (of the lattice of squares with a corner at the origin) that contains the location -/
def AroundLocation (r : ℚ) (p : ℚ × ℚ) (q : Pt) : Prop := ⌊q.x / r⌋ = ⌊p.1 / r⌋ ∧ ⌊q.y / r⌋ = ⌊p.2 / r⌋

instance (r : ℚ) (p : ℚ × ℚ) (q : Pt) : Decidable (AroundLocation r p q) := by unfold AroundLocation; infer_instance

/-- There is one answer for each location.  For a location outside the last row and the last column of cells of the rectangle `e` it is the shown
value that the rule `R` gives for the soundings of `P` in the square around the location. -/
def AnswersFrom (R : List Pt → Option ℚ → Prop) (shown : Option ℚ → Option ℚ) (P : List Pt) (r : ℚ) (e : Extents) (locs : List (ℚ × ℚ)) (out : List (Option ℚ)) : Prop :=
  out.length = locs.length ∧ ∀ (k : Nat) p, locs[k]? = some p → ¬ (e.maxX - r ≤ p.1 ∧ p.1 < e.maxX) → ¬ (e.maxY - r ≤ p.2 ∧ p.2 < e.maxY) →
    ∃ v, out[k]? = some (shown v) ∧ R (P.filter fun q => decide (AroundLocation r p q)) v

end Bathy
