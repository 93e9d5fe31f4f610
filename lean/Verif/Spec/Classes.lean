import Verif.Spec.Histories

/-!
# The classes of grids
-/

namespace Bathy

/-- the grid as an object of another class: only the name differs (bathygrid/maingrid.py:6-93; the folders are C56, C87) -/
def Grid.rename {τ : Type} (n : String) (g : Grid τ) : Grid τ := { g with name := n }

/-- `GridHistory` with the gridding calls restricted to those that satisfy `P` -/
inductive GridHistoryOf {τ : Type} [GridLike τ] [Queried τ] (P : Grid τ → GridCall → Prop) (env : Env) (g0 : Grid τ) (fl : Fields) : Family → Bool → Grid τ → Store → Prop
  | new (F : Family) : GridHistoryOf P env g0 fl F false g0 []
  | add {F s g A} (h : GridHistoryOf P env g0 fl F s g A) (pts : List Pt) (c : String) (a : AddArgs)
      (hok : (g.addPoints ⟨fl, pts⟩ c a).err = none) :
      GridHistoryOf P env g0 fl F (if A = [] then s else false) (g.addPoints ⟨fl, pts⟩ c a).st (A ++ [(c, pts)])
  | reject {F s g A} (h : GridHistoryOf P env g0 fl F s g A) (pts : List Pt) (hp : pts ≠ []) (c : String) (a : AddArgs)
      (hno : (g.addPoints ⟨fl, pts⟩ c a).err ≠ none) :
      GridHistoryOf P env g0 fl F s (g.addPoints ⟨fl, pts⟩ c a).st A
  | remove {F s g A} (h : GridHistoryOf P env g0 fl F s g A) (c : String) (hok : (g.removePoints c).err = none) :
      GridHistoryOf P env g0 fl F (if c ∈ A.names ∧ A.remove c = [] then true else s) (g.removePoints c).st (A.remove c)
  | grid {F s g A} (h : GridHistoryOf P env g0 fl F s g A) (a : GridCall) (ha : a.alg.family = some F) (dask : Option Nat) (hP : P g a) :
      GridHistoryOf P env g0 fl F s (g.gridWith env a dask).st A
  | switch {F F' s g A} (h : GridHistoryOf P env g0 fl F s g A) (a : GridCall) (ha : a.alg.family = some F') (hc : a.clear = true)
      (dask : Option Nat) (hP : P g a) (hok : (g.gridWith env a dask).err = none) :
      GridHistoryOf P env g0 fl F' s (g.gridWith env a dask).st A
  | query {F s g u A} (h : GridHistoryOf P env g0 fl F s g A) (hq : Queried.queried env g u) : GridHistoryOf P env g0 fl F s u A

/-- the automatic resolution by depth is asked for, and the mean depth is zero -/
def ZeroDepth {τ : Type} (g : Grid τ) (a : GridCall) : Prop := a.res = none ∧ a.mode = .depth ∧ g.meanDepth = 0

/-- objects of the class `SRGridZarr` -/
def SRZarr (env : Env) (size : ℚ) (bs : Bool) (fl : Fields) : Family → Bool → Grid Tile → Store → Prop :=
  GridHistory env (Grid.blank "SRGridZarr_Root" true 0 0 size 0 bs none) fl

/-- objects of the class `VRGridTileZarr` that were not gridded by depth with a mean depth of zero -/
def VRZarr (env : Env) (size sub : ℚ) (bs : Bool) (fl : Fields) : Family → Bool → Grid (Grid Tile) → Store → Prop :=
  GridHistoryOf (fun g a => ¬ ZeroDepth g a) env (Grid.blank "VRGridTileZarr_Root" true 0 0 size sub bs none) fl

end Bathy
