import Verif.Spec.Histories
import Verif.Spec.Reloaded

/-!
# The states a grid with an output folder can get into

A grid together with its folder and with what the user has put into it.
-/

namespace Bathy

/-- `save` of a tile, or of no tile, replaces all that is in a folder -/
class Overwrites (τ φ : Type) where
  overwrites : Option τ → φ → Prop

/-- all folders in the root folder are those of places of the grid, and are replaced by `save` -/
def Grid.Overwritten {τ φ : Type} [Overwrites τ φ] (g : Grid τ) (R : Grid.Root φ) : Prop :=
  ∀ p f, Grid.tileFolder R p = some f → ∃ k o, g.tile? k = some o ∧ g.tileOrigin k = some p ∧ Overwrites.overwrites o f

/-- any folder of a tile is replaced, or removed if there is no tile -/
instance : Overwrites Tile TileFolder := ⟨fun _ _ => True⟩

/-- the folder of a missing subgrid is not removed (bathygrid/backends.py:271-273) -/
instance {τ φ : Type} [Overwrites τ φ] : Overwrites (Grid τ) (GridFolder φ) := ⟨fun o F => ∃ g, o = some g ∧ g.Overwritten (some F)⟩

/-- Calls on a grid that starts as `g0` with a folder without content, or that was made in memory (or with another folder) and then saved to a new folder, or to a folder with
an older grid all of which is overwritten; this is its output folder from then on (bathygrid/backends.py:258).  The calls are those that return normally in memory (without a folder): `add_points`,
`remove_points`, `save` to the output folder (`resave`), `grid` in one process or with workers (`grid` and `switch` as in `GridHistory`), and queries of layers.

Not among them: calls that raise.  They can change attributes in memory that are not written, for example `add_points` with refused metadata.

The flag `exact` tells whether a removal, a gridding or `save` came after the last `add_points`. -/
inductive DiskHistory {τ φ : Type} [DiskLike τ φ] [Queried τ] [Overwrites τ φ] (env : Env) (b : Backend) (g0 : Grid τ) (fl : Fields) :
    Family → Bool → Bool → Grid τ → Disk (Grid.Root φ) → Store → Prop
  | new (F : Family) (d : Disk (Grid.Root φ)) (hd : d.now = none) : DiskHistory env b g0 fl F false false g0 d []
  | save {F s g A} (h : GridHistory env g0 fl F s g A) (hA : A ≠ []) (d : Disk (Grid.Root φ)) (hd : g.Overwritten d.now) :
      DiskHistory env b g0 fl F s true g (Grid.saveAllD b g d).st A
  | resave {F s exact g d A} (h : DiskHistory env b g0 fl F s exact g d A) (hA : A ≠ []) : DiskHistory env b g0 fl F s true g (Grid.saveAllD b g d).st A
  | add {F s exact g d A} (h : DiskHistory env b g0 fl F s exact g d A) (pts : List Pt) (c : String) (a : AddArgs)
      (hok : (g.addPoints ⟨fl, pts⟩ c a).err = none) :
      DiskHistory env b g0 fl F (if A = [] then s else false) false (Grid.addPointsD b ⟨fl, pts⟩ c a (g, d)).st.1
        (Grid.addPointsD b ⟨fl, pts⟩ c a (g, d)).st.2 (A ++ [(c, pts)])
  | remove {F s exact g d A} (h : DiskHistory env b g0 fl F s exact g d A) (c : String) (hok : (g.removePoints c).err = none) :
      DiskHistory env b g0 fl F (if c ∈ A.names ∧ A.remove c = [] then true else s) (exact || decide (c ∈ A.names)) (Grid.removePointsD b c (g, d)).st.1
        (Grid.removePointsD b c (g, d)).st.2 (A.remove c)
  | grid {F s exact g d A} (h : DiskHistory env b g0 fl F s exact g d A) (a : GridCall) (ha : a.alg.family = some F) (dask : Option Nat)
      (hok : (g.gridWith env a dask).err = none) :
      DiskHistory env b g0 fl F s true (Grid.gridWithD env b a dask (g, d)).st.1 (Grid.gridWithD env b a dask (g, d)).st.2 A
  | switch {F F' s exact g d A} (h : DiskHistory env b g0 fl F s exact g d A) (a : GridCall) (ha : a.alg.family = some F') (hc : a.clear = true)
      (dask : Option Nat) (hok : (g.gridWith env a dask).err = none) :
      DiskHistory env b g0 fl F' s true (Grid.gridWithD env b a dask (g, d)).st.1 (Grid.gridWithD env b a dask (g, d)).st.2 A
  | query {F s exact g u d A} (h : DiskHistory env b g0 fl F s exact g d A) (hq : Queried.queried env g u) : DiskHistory env b g0 fl F s exact u d A

/-- single resolution grids -/
def SRDisk (env : Env) (b : Backend) (size : ℚ) (bs : Bool) (fl : Fields) : Family → Bool → Bool → Grid Tile → Disk (Grid.Root TileFolder) → Store → Prop :=
  DiskHistory env b (newSR size bs) fl

/-- variable resolution grids -/
def VRDisk (env : Env) (b : Backend) (size sub : ℚ) (bs : Bool) (fl : Fields) :
    Family → Bool → Bool → Grid (Grid Tile) → Disk (Grid.Root (GridFolder TileFolder)) → Store → Prop :=
  DiskHistory env b (newVR size sub bs) fl

end Bathy
