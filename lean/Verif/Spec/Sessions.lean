import Verif.Model.Session
import Verif.Spec.DiskHistories

/-!
# What can be done with a grid and folders

A grid that is made in memory or with an output folder, with calls of `add_points`, `remove_points`, `grid`, `save` and queries in any order.
-/

namespace Bathy

/-- The calls are those that return normally; `save` with a path writes to a folder that has no grid yet, or an older
grid all of which is overwritten (`save`), or to the output folder (`resave`).  Not among them: calls that raise, `save` over other grids, `load`.

The flags are those of `GridHistory` and `DiskHistory`. -/
inductive Reached {τ φ : Type} [DiskLike τ φ] [Queried τ] [Overwrites τ φ] (env : Env) (b : Backend) (g0 : Grid τ) (fl : Fields) :
    Family → Bool → Bool → Session τ φ → Store → Prop
  | new (F : Family) (disk : String → Disk (Grid.Root φ)) : Reached env b g0 fl F false false ⟨g0, none, disk⟩ []
  | create (F : Family) (p : String) (disk : String → Disk (Grid.Root φ)) (hp : p ≠ "") (hd : (disk p).now = none) : Reached env b g0 fl F false false ⟨g0, some p, disk⟩ []
  | add {F s exact S A} (h : Reached env b g0 fl F s exact S A) (pts : List Pt) (c : String) (a : AddArgs) (hok : (S.grid.addPoints ⟨fl, pts⟩ c a).err = none) :
      Reached env b g0 fl F (if A = [] then s else false) false (S.addPoints b ⟨fl, pts⟩ c a).st (A ++ [(c, pts)])
  | remove {F s exact S A} (h : Reached env b g0 fl F s exact S A) (c : String) (hok : (S.grid.removePoints c).err = none) :
      Reached env b g0 fl F (if c ∈ A.names ∧ A.remove c = [] then true else s) (exact || decide (c ∈ A.names)) (S.removePoints b c).st (A.remove c)
  | grid {F s exact S A} (h : Reached env b g0 fl F s exact S A) (a : GridCall) (ha : a.alg.family = some F) (dask : Option Nat)
      (hok : (S.grid.gridWith env a dask).err = none) :
      Reached env b g0 fl F s true (S.gridRun env b a dask).st A
  | switch {F F' s exact S A} (h : Reached env b g0 fl F s exact S A) (a : GridCall) (ha : a.alg.family = some F') (hc : a.clear = true)
      (dask : Option Nat) (hok : (S.grid.gridWith env a dask).err = none) :
      Reached env b g0 fl F' s true (S.gridRun env b a dask).st A
  | query {F s exact S A u} (h : Reached env b g0 fl F s exact S A) (hq : Queried.queried env S.grid u) : Reached env b g0 fl F s exact { S with grid := u } A
  | save {F s exact S A} (h : Reached env b g0 fl F s exact S A) (hA : A ≠ []) (p : String) (hp : p ≠ "") (hd : S.grid.Overwritten (S.disk p).now) :
      Reached env b g0 fl F s true (S.save b (some p)).st A
  | resave {F s exact S A} (h : Reached env b g0 fl F s exact S A) (hA : A ≠ []) (p : String) (hp : S.out = some p) : Reached env b g0 fl F s true (S.save b (some p)).st A

/-- single resolution grids -/
def SRReached (env : Env) (b : Backend) (size : ℚ) (bs : Bool) (fl : Fields) : Family → Bool → Bool → Session Tile TileFolder → Store → Prop :=
  Reached env b (newSR size bs) fl

/-- variable resolution grids -/
def VRReached (env : Env) (b : Backend) (size sub : ℚ) (bs : Bool) (fl : Fields) : Family → Bool → Bool → Session (Grid Tile) (GridFolder TileFolder) → Store → Prop :=
  Reached env b (newVR size sub bs) fl

end Bathy
