import Verif.Spec.Surface

/-!
# Specification of an exported surface in terms of the soundings
-/

namespace Bathy

/-- the coordinate is in the interval of length `r` around `c` (left end included) -/
def WithinHalf (r c x : ℚ) : Prop := c - r / 2 ≤ x ∧ x < c + r / 2

/-- the sounding is in the square of side `r` with centre `(x, y)` -/
def AroundCentre (r x y : ℚ) (p : Pt) : Prop := WithinHalf r x p.x ∧ WithinHalf r y p.y

instance (r x y : ℚ) (p : Pt) : Decidable (AroundCentre r x y p) := by unfold AroundCentre WithinHalf; infer_instance

/-- The coordinates `xs` and `ys` and the array `b` are the surface of the soundings `P`, and not larger than needed: the coordinates are centres of squares of side `r` side by side, the
array has one value for each square, related by `R` to the soundings of `P` in this square, every sounding is in one of the squares, and there are soundings in the first and the last
row and in the first and the last column. -/
structure TrimmedSurface (R : List Pt → Option ℚ → Prop) (shown : Option ℚ → Option ℚ) (P : List Pt) (r : ℚ) (xs ys : List ℚ) (b : LayerArr) : Prop where
  rows : b.rows = ys.length
  cols : b.cols = xs.length
  stepX : ∀ (k : Nat) x x', xs[k]? = some x → xs[k + 1]? = some x' → x' = x + r
  stepY : ∀ (k : Nat) y y', ys[k]? = some y → ys[k + 1]? = some y' → y' = y + r
  cell : ∀ (i j : Nat) x y, xs[j]? = some x → ys[i]? = some y → ∃ v, R (P.filter fun p => decide (AroundCentre r x y p)) v ∧ b.get? i j = some (shown v)
  all : ∀ p ∈ P, ∃ x ∈ xs, ∃ y ∈ ys, AroundCentre r x y p
  first : (∃ x, xs.head? = some x ∧ ∃ p ∈ P, WithinHalf r x p.x) ∧ ∃ y, ys.head? = some y ∧ ∃ p ∈ P, WithinHalf r y p.y
  last : (∃ x, xs.getLast? = some x ∧ ∃ p ∈ P, WithinHalf r x p.x) ∧ ∃ y, ys.getLast? = some y ∧ ∃ p ∈ P, WithinHalf r y p.y

end Bathy
