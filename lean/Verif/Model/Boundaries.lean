import Verif.Model.Grid

/-!
# `get_tile_boundaries` (bathygrid/bgrid.py:855-890)
-/

namespace Bathy

/-- bathygrid/bgrid.py:873-882: the five points drawn for an edge point -/
def boxAround (size x y : ℚ) : List (ℚ × ℚ) := [(x, y), (x + size, y), (x + size, y + size), (x, y + size), (x, y)]

/-- bathygrid/bgrid.py:870-886: the points of one row of the arrays, the point that was added to it at the end included -/
def boundaryRow (size : ℚ) (xs : List ℚ) (y : ℚ) : List (ℚ × ℚ) := xs.flatMap (fun x => boxAround size x y) ++ [(xs.getLastD 0, y + size)]

/-- bathygrid/bgrid.py:855-890 `get_tile_boundaries` as pairs.  Before the first points there are no edges: the assignment of None to an array of floats
is a TypeError.  Simplification: the arrays have 32 bits in the code, see C109. -/
def Grid.tileBoundaries {τ : Type} (g : Grid τ) : Except Err (List (ℚ × ℚ)) :=
  match g.extents with
  | none => .error .typeError
  | some e =>
    if g.edgesX = [] ∨ g.edgesY = [] then .error .typeError
    else .ok ((g.edgesY.flatMap (boundaryRow g.tileSize g.edgesX)).dropLast ++ [(g.edgesX.getLastD 0, e.maxY)])

end Bathy
