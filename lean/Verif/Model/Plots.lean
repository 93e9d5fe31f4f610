import Verif.Model.Stats
import Verif.Model.Algorithms

/-!
# The curves drawn by the plots of a grid (bathygrid/bgrid.py:1523-1709)

What is handed to matplotlib; the drawing itself, labels and titles are not modelled.
-/

namespace Bathy

/-- `np.linspace(a, b, num)` -/
def linspace (a b : ℚ) : Nat → List ℚ
  | 0 => []
  | 1 => [a]
  | n + 2 => (List.range (n + 2)).map (fun i : Nat => a + (i : ℚ) * ((b - a) / (n + 1 : ℚ)))

/-- bathygrid/bgrid.py:1669-1683 and 1693-1707: the points of the curve.  `np.min` (or `min`) of nothing is a ValueError, `np.linspace` of a negative number of values too;
`np.digitize` with increasing bins is `searchsorted` from the right; `bins[unique_indices]` may be an IndexError. -/
def densityCurve (env : Env) (cells : List (ℚ × Option ℚ)) (bins : Int) : Except Err (List (ℚ × ℚ)) :=
  let ps := cells.filterMap (fun q => q.2.map (fun d => (q.1, d)))
  let density := ps.map Prod.fst
  let depth := ps.map Prod.snd
  match reduce1 min depth, reduce1 max depth with
  | some lo, some hi =>
    if bins + 1 < 0 then .error .valueError
    else
      let edges := linspace (lo - 1 / 1000) (hi + 1 / 1000) (bins + 1).toNat
      let idx : List Int := depth.map (fun d => (searchsortedRight edges d : Int))
      let srt := env.argsort.run idx
      match takeIdx idx srt with
      | none => .error .indexError
      | some sorted =>
        let u := runsFrom 0 sorted
        match groupMeans density srt (u.map (fun t => t.2.1)) (u.map (fun t => t.2.2)) with
        | none => .error .indexError
        | some means =>
          match takeIdx edges (u.map (fun t => t.1.toNat)) with
          | none => .error .indexError
          | some xs => .ok (xs.zip means)
  | _, _ => .error .valueError

/-- bathygrid/bgrid.py:1663-1685 `plot_density_vs_depth` -/
def plotDensityVsDepth {τ : Type} [HasStats τ] (env : Env) (g : τ) (bins : Int) : Except Err (List (ℚ × ℚ)) :=
  match HasStats.densityCountVsDepth g with
  | .error e => .error e
  | .ok cells => densityCurve env cells bins

/-- bathygrid/bgrid.py:1687-1709 `plot_density_per_square_meter_vs_depth` -/
def plotDensityPerSquareMeterVsDepth {τ : Type} [HasStats τ] (env : Env) (g : τ) (bins : Int) : Except Err (List (ℚ × ℚ)) :=
  match HasStats.densityPerSquareMeterVsDepth g with
  | .error e => .error e
  | .ok cells => densityCurve env cells bins

end Bathy
