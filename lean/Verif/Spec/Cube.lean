import Verif.Model.Data
import Verif.Spec.Cells

/-!
# Specification of a CUBE run on a tile
-/

namespace Bathy

/-- the soundings an optional array holds -/
def answerPts : Option PtArr → List Pt
  | none => []
  | some d => d.pts

/-- the package is called with the soundings `P` (attributes in the same order), for the square with lower left corner (x, y) and side `size`, with the
settings of the call and, for those not given, the defaults -/
structure CubeInput (args : CubeArgs) (P : List Pt) (x y size res : ℚ) (params : Option GridParams) : Prop where
  px : args.x = P.map Pt.x
  py : args.y = P.map Pt.y
  pz : args.depth = P.map Pt.z
  pthu : args.thu = P.map Pt.thu
  ptvu : args.tvu = P.map Pt.tvu
  rows : args.numrows = ⌈size / res⌉.toNat
  cols : args.numcols = ⌈size / res⌉.toNat
  west : args.minEasting = x
  north : args.maxNorthing = y + size
  cell : args.res = res
  method : ∀ m, (∃ p, params = some p ∧ p.method = some m) ∨ (m = "local" ∧ ∀ p, params = some p → p.method = none) → args.method = m
  iho : ∀ m, (∃ p, params = some p ∧ p.ihoOrder = some m) ∨ (m = "order1a" ∧ ∀ p, params = some p → p.ihoOrder = none) → args.ihoOrder = m
  variance : ∀ m, (∃ p, params = some p ∧ p.varianceSelection = some m) ∨ (m = "cube" ∧ ∀ p, params = some p → p.varianceSelection = none) → args.variance = m

/-- the package answers with arrays of the shape it was asked for -/
def CubeShapes (env : Env) : Prop := ∀ args, ∀ a ∈ [(env.cube args).depth, (env.cube args).unc, (env.cube args).ratio, (env.cube args).numhyp],
  a.flat.length = args.numrows * args.numcols ∧ a.rows = args.numrows ∧ a.cols = args.numcols

/-- the layer `a` shows the `n × n` answer `src` of the package, whose first row is the northernmost: in row `i` from the south stands row `i` from the south of
the answer; cells without depth hold `empty` -/
def ShowsAnswer (n : Nat) (depth src : LayerArr) (rnd : ℚ → ℚ) (empty : Option ℚ) (a : LayerArr) : Prop :=
  a.flat.length = n * n ∧ a.rows = n ∧ a.cols = n ∧ ∀ i i' j, i + i' + 1 = n → j < n →
    (depth.get? i' j = some none → a.get? i j = some empty) ∧
    ∀ z v, depth.get? i' j = some (some z) → src.get? i' j = some v → a.get? i j = some (v.map rnd)

end Bathy
