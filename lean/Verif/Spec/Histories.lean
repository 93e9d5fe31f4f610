import Verif.Model.GridRun
import Verif.Spec.Tiles
import Verif.Spec.Family
import Verif.Spec.Reread

/-!
# The states a grid can get into

A grid together with what the user has put into it, after any sequence of public calls.
-/

namespace Bathy

/-- objects that answer layer queries and remember some of the answers, and forget them when they are written to disk and read -/
class Queried (τ : Type) where
  /-- the state after a query, or after writing and reading -/
  queried : Env → τ → τ → Prop

instance : Queried Tile := ⟨fun env t u => (∃ layer res nodata zUp, u = (t.getLayer env layer res nodata zUp).1) ∨ t.Reread u⟩

/-- one tile was queried, written or read, or the grid itself was read (a missing mask is read as an array without elements) -/
instance {τ : Type} [Queried τ] : Queried (Grid τ) :=
  ⟨fun env g h => (∃ k t u, g.tile? k = some (some t) ∧ Queried.queried env t u ∧ h = g.setTile k (some u)) ∨
    (g.mask = none ∧ g.tiles ≠ none ∧ h = { g with mask := some ⟨0, 0, []⟩ })⟩

/-- Calls on a grid that starts as `g0`.  The store is what the user added and did not remove.  Every array has the fields `fl`.

* `add`, `remove`: calls that return normally;
* `reject`: `add_points` of soundings that raises (the container is there already, or the metadata is refused);
* `grid`: with an algorithm of the family `F`, in one process (`none`) or with `n` workers (`some n`), also calls that raise;
* `switch`: to an algorithm of another family, with `clear_existing`, returning normally;
* `query`: of one layer of one tile, or writing and reading of one tile.

Not among them: `add_points` of an array without soundings (it raises, and leaves the container name behind, see `C50`), `remove_points` that
raises (see `C08`).

The flag `emptied` tells whether the grid was emptied by a removal and not more than one container was added since. -/
inductive GridHistory {τ : Type} [GridLike τ] [Queried τ] (env : Env) (g0 : Grid τ) (fl : Fields) : Family → Bool → Grid τ → Store → Prop
  | new (F : Family) : GridHistory env g0 fl F false g0 []
  | add {F s g A} (h : GridHistory env g0 fl F s g A) (pts : List Pt) (c : String) (a : AddArgs)
      (hok : (g.addPoints ⟨fl, pts⟩ c a).err = none) :
      GridHistory env g0 fl F (if A = [] then s else false) (g.addPoints ⟨fl, pts⟩ c a).st (A ++ [(c, pts)])
  | reject {F s g A} (h : GridHistory env g0 fl F s g A) (pts : List Pt) (hp : pts ≠ []) (c : String) (a : AddArgs)
      (hno : (g.addPoints ⟨fl, pts⟩ c a).err ≠ none) :
      GridHistory env g0 fl F s (g.addPoints ⟨fl, pts⟩ c a).st A
  | remove {F s g A} (h : GridHistory env g0 fl F s g A) (c : String) (hok : (g.removePoints c).err = none) :
      GridHistory env g0 fl F (if c ∈ A.names ∧ A.remove c = [] then true else s) (g.removePoints c).st (A.remove c)
  | grid {F s g A} (h : GridHistory env g0 fl F s g A) (a : GridCall) (ha : a.alg.family = some F) (dask : Option Nat) :
      GridHistory env g0 fl F s (g.gridWith env a dask).st A
  | switch {F F' s g A} (h : GridHistory env g0 fl F s g A) (a : GridCall) (ha : a.alg.family = some F') (hc : a.clear = true)
      (dask : Option Nat) (hok : (g.gridWith env a dask).err = none) :
      GridHistory env g0 fl F' s (g.gridWith env a dask).st A
  | query {F s g u A} (h : GridHistory env g0 fl F s g A) (hq : Queried.queried env g u) : GridHistory env g0 fl F s u A

/-- a new single resolution grid with origin (0, 0); not used when the tile size is refused -/
def newSR (size : ℚ) (bs : Bool) : Grid Tile := Grid.blank "SRGrid_Root" true 0 0 size 0 bs none

/-- a new variable resolution grid with origin (0, 0) -/
def newVR (size sub : ℚ) (bs : Bool) : Grid (Grid Tile) := Grid.blank "VRGridTile_Root" true 0 0 size sub bs none

/-- single resolution grids -/
def SRHistory (env : Env) (size : ℚ) (bs : Bool) (fl : Fields) : Family → Bool → Grid Tile → Store → Prop :=
  GridHistory env (newSR size bs) fl

/-- variable resolution grids -/
def VRHistory (env : Env) (size sub : ℚ) (bs : Bool) (fl : Fields) : Family → Bool → Grid (Grid Tile) → Store → Prop :=
  GridHistory env (newVR size sub bs) fl

end Bathy
