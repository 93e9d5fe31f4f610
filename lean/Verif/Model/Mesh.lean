import Verif.Model.Layers

/-!
# The coloured meshes of `plot` (bathygrid/bgrid.py:1523-1548)

What is handed to `plt.pcolormesh`; the drawing itself is not modelled.
-/

namespace Bathy

/-- one call of `pcolormesh`: the corners along x and y (before `np.meshgrid`) and the colours by row and column (before the transposition) -/
structure Mesh where
  xs : List ℚ
  ys : List ℚ
  data : LayerArr
  deriving DecidableEq

namespace Grid
variable {τ : Type} [LayerLike τ]

/-- bathygrid/bgrid.py:1542-1547: the loop over the resolutions -/
def meshLoop (env : Env) (layer : Layer) : List ℚ → Grid τ → List Mesh → Grid τ × Except Err (List Mesh)
  | [], g, ms => (g, .ok ms)
  | r :: rs, g, ms =>
    match g.returnSurf env [layer] (some r) true none with
    | (g, .error e) => (g, .error e)
    | (g, .ok s) =>
      match s.trimmed.data with
      | [] => (g, .error .indexError)
      | d :: _ => meshLoop env layer rs g (ms ++ [⟨s.xs, s.ys, d⟩])

omit [LayerLike τ] in
/-- bathygrid/bgrid.py:1536-1539: the resolutions to go through, 0 counts as missing -/
def plotRes (g : Grid τ) (res : Option ℚ) : List ℚ :=
  match res with
  | none => g.resolutions
  | some r => if r = 0 then g.resolutions else [r]

/-- bathygrid/bgrid.py:1523-1548 `plot` -/
def plot (env : Env) (g : Grid τ) (layer : Layer) (res : Option ℚ) : Grid τ × Except Err (List Mesh) :=
  match g.noGrid with
  | .error e => (g, .error e)
  | .ok true => (g, .error .valueError)
  | .ok false => meshLoop env layer (g.plotRes res) g []

end Grid
end Bathy
