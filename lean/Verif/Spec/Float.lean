import Mathlib.Data.Rat.Floor
import Mathlib.Algebra.Order.Field.Power
import Verif.Model.Grid

/-!
# Floating point numbers

Binary64 has `p = 53` digits, binary32 has `p = 24`.  Signed zeros, infinities and NaN are left out.
-/

namespace Bathy

/-- `m · 2^e` with at most `p` binary digits and an exponent from `lo` to `hi`: such a number is stored without error -/
def Fl (p : Nat) (lo hi : ℤ) (x : ℚ) : Prop := ∃ m e : ℤ, |m| ≤ 2 ^ p ∧ lo ≤ e ∧ e ≤ hi ∧ x = m * 2 ^ e

/-- What is used of the arithmetic: `+ - * /` round the exact result, and a result that can be stored is not changed (true for every rounding mode of IEEE 754). -/
def Rounds (p : Nat) (lo hi : ℤ) (rnd : ℚ → ℚ) : Prop := ∀ x, Fl p lo hi x → rnd x = x

/-- a multiple of `r` between `-B` and `B` -/
def Near (r B x : ℚ) : Prop := (∃ a : ℤ, x = a * r) ∧ |x| ≤ B

/-- a coordinate that can be stored, and divided by the size of the tiles without underflow -/
def Coord (p : Nat) (lo hi i : ℤ) (B x : ℚ) : Prop := Fl p lo hi x ∧ Fl p lo hi (x / 2 ^ i) ∧ |x| ≤ B

/-- the format holds the powers of two in use: the unit `2^j` of the coordinates, the steps `2^i`, their quotient -/
structure Fits (p : Nat) (lo hi j i : ℤ) : Prop where
  lo_j : lo ≤ j
  j_hi : j ≤ hi
  zero_hi : 0 ≤ hi
  j_i : j ≤ i
  lo_ji : lo ≤ j - i

/-- the corners of the grid are at most `B` away from the axes -/
def Grid.Bounded {τ : Type} (B : ℚ) (g : Grid τ) : Prop := ∀ e, g.extents = some e → |e.minX| ≤ B ∧ |e.maxX| ≤ B ∧ |e.minY| ≤ B ∧ |e.maxY| ≤ B

end Bathy
