import Verif.Lemmas.Recorded
import Verif.Props.PowerOfTwo
import Verif.Spec.DemoGrid
import Verif.Spec.Soundings

/-!
# C77: the resolutions a grid has recorded

Model: `Grid.gridWith` (bathygrid/bgrid.py:1279-1521), `Tile.grid` (bathygrid/tile.py:686-769), and every other call of a history.
-/

namespace Bathy
open Grid

variable {env : Env} {size sub : ℚ} {bs : Bool} {fl : Fields} {F : Family} {s : Bool} {A : Store}

/-- a number that can be the size of a cell: positive and, up to the tolerance of the test in the code, a power of two -/
def CellSize (r : ℚ) : Prop := 0 < r ∧ ∃ k : ℤ, |r - (2 : ℚ) ^ k| ≤ 1 / 100000

theorem cellSize_of {r : ℚ} (h : isPowerOfTwo r = true) : CellSize r := ⟨isPowerOfTwo_pos h, C33_accepted_close r h⟩

theorem tileAt_mem {τ : Type} {g : Grid τ} {r c : Nat} {t : τ} (h : g.TileAt r c t) : ∃ T, g.tiles = some T ∧ some t ∈ T.flat := by
  obtain ⟨T, hT, ht⟩ := h
  refine ⟨T, hT, ?_⟩
  unfold Arr2.get? at ht
  split at ht
  · exact List.mem_of_getElem? ht
  · cases ht

/-- **C77** (single resolution): after any calls, also `grid` calls that raised half way, the list of resolutions of the grid has no duplicates, and its
entries, as well as the resolutions its tiles have layers at, are cell sizes. -/
theorem C77_recorded_sr {g : Grid Tile} (h : SRHistory env size bs fl F s g A) :
    g.resolutions.Nodup ∧ (∀ r ∈ g.resolutions, CellSize r) ∧ ∀ i j t, g.TileAt i j t → ∀ r ∈ t.resolutions, CellSize r := by
  have := resOk_history (resOk_blank _ _ _ _ _ _ _ _) h
  refine ⟨this.nodup, fun r hr => cellSize_of (this.res r hr), ?_⟩
  intro i j t ht r hr
  obtain ⟨T, hT, hm⟩ := tileAt_mem ht
  exact cellSize_of (this.tiles T hT t hm r hr)

/-- **C77** (variable resolution): the same for the grid, its subgrids and their tiles. -/
theorem C77_recorded_vr {g : Grid (Grid Tile)} (h : VRHistory env size sub bs fl F s g A) :
    g.resolutions.Nodup ∧ (∀ r ∈ g.resolutions, CellSize r) ∧
    ∀ i j u, g.TileAt i j u → u.resolutions.Nodup ∧ (∀ r ∈ u.resolutions, CellSize r) ∧ ∀ i j t, u.TileAt i j t → ∀ r ∈ t.resolutions, CellSize r := by
  have := resOk_history (resOk_blank _ _ _ _ _ _ _ _) h
  refine ⟨this.nodup, fun r hr => cellSize_of (this.res r hr), ?_⟩
  intro i j u hu
  obtain ⟨T, hT, hm⟩ := tileAt_mem hu
  have hu : ResOk u := this.tiles T hT u hm
  refine ⟨hu.nodup, fun r hr => cellSize_of (hu.res r hr), ?_⟩
  intro i j t ht r hr
  obtain ⟨T, hT, hm⟩ := tileAt_mem ht
  exact cellSize_of (hu.tiles T hT t hm r hr)

/-- grids with several resolutions -/
example : (∃ g, SRHistory demoEnv 16 false demoFields .plain false g demoStore ∧ g.resolutions = [1]) ∧
    ∃ g, VRHistory demoEnv 32 16 false demoFields .plain false g demoStore ∧ g.resolutions = [1/4, 1/2, 2] :=
  ⟨⟨_, (demoSR_history.grid { alg := .mean, res := none } rfl none), by decide +kernel⟩,
   ⟨_, (demoVR_history.grid { alg := .mean, res := none } rfl (some 2)), by decide +kernel⟩⟩

end Bathy
