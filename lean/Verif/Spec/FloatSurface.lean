import Verif.Model.FloatRun
import Verif.Model.Layers
import Verif.Spec.Histories
import Verif.Spec.Leaves
import Verif.Spec.Soundings
import Verif.Spec.AlgCheck
import Verif.Spec.FloatMean
import Verif.Spec.Surface

/-!
# Surfaces calculated in floating point arithmetic
-/

namespace Bathy

instance (M : Arith) : Queried (FTile M) := inferInstanceAs (Queried Tile)
instance (M : Arith) : HasLeaves (FTile M) := inferInstanceAs (HasLeaves Tile)
instance (M : Arith) : AlgCheck (FTile M) := ⟨fun _ _ _ => True, fun _ _ => trivial⟩
instance (M : Arith) : Holds (FTile M) := inferInstanceAs (Holds Tile)
instance (M : Arith) : LayerLike (FTile M) := inferInstanceAs (LayerLike Tile)

/-- single resolution grids on a machine with arithmetic `M` -/
def FloatSR (M : Arith) (env : Env) (size : ℚ) (bs : Bool) (fl : Fields) : Family → Bool → Grid (FTile M) → Store → Prop :=
  GridHistory env (Grid.blank "SRGrid_Root" true 0 0 size 0 bs none) fl

/-- variable resolution grids on a machine with arithmetic `M` -/
def FloatVR (M : Arith) (env : Env) (size sub : ℚ) (bs : Bool) (fl : Fields) : Family → Bool → Grid (Grid (FTile M)) → Store → Prop :=
  GridHistory env (Grid.blank "VRGridTile_Root" true 0 0 size sub bs none) fl

/-- what the value of a cell has to do with the soundings in it, by layer, see `CellRule` -/
def FloatRule (sto : ℚ → ℚ) (cf sf : Fmt) (alg : Alg) (l : Layer) : List Pt → Option ℚ → Prop :=
  match l with
  | .density => CountCell
  | .vertical => NearMeanCell sto cf sf Pt.tvu
  | .horizontal => NearMeanCell sto cf sf Pt.thu
  | _ => match alg with
    | .mean => NearMeanCell sto cf sf Pt.z
    | _ => NearShoalCell sto sf

/-- empty cells are NaN, the value of the others is at most `d` away from the mean (least) depth of the soundings -/
def WithinCell (d : ℚ) (alg : Alg) (ps : List Pt) (v : Option ℚ) : Prop :=
  (ps = [] → v = none) ∧
  (ps ≠ [] → ∃ w m, v = some w ∧ |w - m| ≤ d ∧
    match alg with
    | .mean => m = meanOf (ps.map Pt.z)
    | _ => IsMin m (ps.map Pt.z))

end Bathy
