import Verif.Lemmas.GridLeaf
import Verif.Lemmas.GridExtents
import Verif.Spec.DemoGrid

/-!
# C17, C18, C20 for whole grids

Model: `Grid.gridWith` (bathygrid/bgrid.py:1279-1521), sequential and with workers, for the single resolution grid and the variable
resolution grid.  Specification: `Verif/Spec/Cells.lean`, `Grid.Leaf` (`Verif/Spec/Leaves.lean`).
-/

namespace Bathy
open Grid

variable {env : Env} {size sub : ℚ} {bs : Bool} {fl : Fields} {F : Family} {s : Bool} {A : Store}

/-- at resolution `r` the tile has the mean of its soundings in each cell -/
structure MeanTile (fl : Fields) (bs : Bool) (w : ℚ) (t : Tile) (r : ℚ) : Prop where
  depth : ∃ a, t.layerAt r (mainLayer bs) = some a ∧ EachCell a ⌈w / r⌉.toNat t.minX t.minY r t.pts (MeanCell round3 Pt.z)
  vertical : fl.hasTvu = true → ∃ a, t.layerAt r .vertical = some a ∧ EachCell a ⌈w / r⌉.toNat t.minX t.minY r t.pts (MeanCell round3 Pt.tvu)
  horizontal : fl.hasThu = true → ∃ a, t.layerAt r .horizontal = some a ∧ EachCell a ⌈w / r⌉.toNat t.minX t.minY r t.pts (MeanCell round3 Pt.thu)

/-- at resolution `r` the tile has the least depth of its soundings in each cell -/
def ShoalTile (bs : Bool) (w : ℚ) (t : Tile) (r : ℚ) : Prop :=
  ∃ a, t.layerAt r (mainLayer bs) = some a ∧ EachCell a ⌈w / r⌉.toNat t.minX t.minY r t.pts (ShoalCell round3)

/-- at resolution `r` the tile has the number of its soundings in each cell, and they add up to the number of its soundings -/
def DensityTile (w : ℚ) (t : Tile) (r : ℚ) : Prop :=
  ∃ a, t.layerAt r .density = some a ∧ EachCell a ⌈w / r⌉.toNat t.minX t.minY r t.pts CountCell ∧ layerSum a = (t.pts.length : ℚ)

theorem leafRun_mean {w : ℚ} {a : GridCall} {t' : Tile} {r : ℚ} (hw : 0 < w) (h : LeafRun env fl F w bs a t' r) (ha : a.alg = .mean)
    (hF : F = .plain ∨ a.clear = true) : (∀ r0, a.res = some r0 → r = r0) ∧ MeanTile fl bs w t' r := by
  obtain ⟨t, B, c, h1, h2, h3, h4, h5, h6, h7⟩ := leafRun_call (F' := .plain) h (hF.imp Eq.symm id)
  rw [ha] at h7
  obtain ⟨-, -, k1, k2, k3⟩ := C17_mean_is_cell_mean hw h1 h3 (h5.imp Eq.symm id) c.mode a.params c.border
  rw [h7, ← h2] at k1 k2 k3
  exact ⟨h4, k1, k2, k3⟩

theorem leafRun_shoal {w : ℚ} {a : GridCall} {t' : Tile} {r : ℚ} (hw : 0 < w) (h : LeafRun env fl F w bs a t' r) (ha : a.alg = .shoalest)
    (hF : F = .plain ∨ a.clear = true) : (∀ r0, a.res = some r0 → r = r0) ∧ ShoalTile bs w t' r := by
  obtain ⟨t, B, c, h1, h2, h3, h4, h5, h6, h7⟩ := leafRun_call (F' := .plain) h (hF.imp Eq.symm id)
  rw [ha] at h7
  obtain ⟨-, -, k1⟩ := C18_shoalest_is_cell_minimum hw h1 h3 (h5.imp Eq.symm id) c.mode a.params c.border
  rw [h7, ← h2] at k1
  exact ⟨h4, k1⟩

theorem leafRun_density {w : ℚ} {F' : Family} {a : GridCall} {t' : Tile} {r : ℚ} (hw : 0 < w) (h : LeafRun env fl F w bs a t' r) (ha : a.alg.family = some F')
    (hF : F' = F ∨ a.clear = true) : (∀ r0, a.res = some r0 → r = r0) ∧ DensityTile w t' r := by
  obtain ⟨t, B, c, h1, h2, h3, h4, h5, h6, h7⟩ := leafRun_call h hF
  obtain ⟨-, d, k1, k2, k3, k4, -⟩ := C20_density_counts hw h1 a.alg ha h5 h3 c.mode a.params c.border (by rw [h7]; rfl)
  rw [k4] at k3
  rw [h7] at k1
  rw [← h2] at k2 k3
  exact ⟨h4, d, k1, k2, k3⟩

/-! ## C17 -/

/-- **C17** for single resolution grids: after a `grid(algorithm='mean')` that returns (sequential or parallel, all tiles or with
`clear_existing`), each tile has, at one of the resolutions reported, the mean of its soundings in each cell.  That resolution is the one asked
for, if one was asked for. -/
theorem C17_mean_grid_sr (hs : 0 < size) {g : Grid Tile} (h : SRHistory env size bs fl F s g A) {a : GridCall} {dask : Option Nat} (ha : a.alg = .mean)
    (hF : F = .plain ∨ a.clear = true) (hv : a.regrid = .full ∨ a.clear = true) (hok : (g.gridWith env a dask).err = none) {t : Tile}
    (ht : (g.gridWith env a dask).st.Leaf t) :
    ∃ r ∈ (g.gridWith env a dask).st.resolutions, (∀ r0, a.res = some r0 → r = r0) ∧ MeanTile fl bs size t r := by
  obtain ⟨r, hr, hl⟩ := (leaves_sr hs h hv hok).1 t ht
  exact ⟨r, hr, leafRun_mean hs hl ha hF⟩

/-- **C17** for variable resolution grids (the tiles of the subgrids always hold depths, see C63) -/
theorem C17_mean_grid_vr (hs : 0 < size) (hsub : isPowerOfTwo sub = true) {g : Grid (Grid Tile)} (h : VRHistory env size sub bs fl F s g A) {a : GridCall}
    {dask : Option Nat} (ha : a.alg = .mean) (hF : F = .plain ∨ a.clear = true) (hv : a.regrid = .full ∨ a.clear = true) (hok : (g.gridWith env a dask).err = none)
    {t : Tile} (ht : (g.gridWith env a dask).st.Leaf t) :
    ∃ r ∈ (g.gridWith env a dask).st.resolutions, (∀ r0, a.res = some r0 → r = r0) ∧ MeanTile fl false sub t r := by
  obtain ⟨r, hr, hl⟩ := (leaves_vr hs hsub h hv hok).1 t ht
  exact ⟨r, hr, leafRun_mean (isPowerOfTwo_pos hsub) hl ha hF⟩

/-- **C17**, **C18**: mean and shoalest gridding of a grid that is not empty, at a power of two resolution, does not raise, unless the grid was gridded
with another algorithm and `clear_existing` is not set -/
theorem C17_grid_returns_sr (hs : 0 < size) {g : Grid Tile} (h : SRHistory env size bs fl F s g A) (hA : A ≠ []) {a : GridCall} (ha : a.alg = .mean ∨ a.alg = .shoalest)
    (hF : F = .plain ∨ a.clear = true) {r : ℚ} (hr : a.res = some r) (hpow : isPowerOfTwo r = true)
    (hal : g.gridAlgorithm = none ∨ g.gridAlgorithm = some a.alg ∨ a.clear = true) (dask : Option Nat) : (g.gridWith env a dask).err = none := by
  have hi := (sr_inv hs h).1
  have hg := grow_reps hi
  refine gridWith_plainOk (plainOk_tile env F (sub := 0) hs) hg.1 hg.2 ?_ ha hF hr hpow ⟨hal, fun _ _ _ _ => trivial⟩ dask
  rw [grow_isEmpty hs hi]; simpa using hA

theorem C17_grid_returns_vr (hs : 0 < size) (hsub : isPowerOfTwo sub = true) {g : Grid (Grid Tile)} (h : VRHistory env size sub bs fl F s g A) (hA : A ≠ [])
    {a : GridCall} (ha : a.alg = .mean ∨ a.alg = .shoalest) (hF : F = .plain ∨ a.clear = true) {r : ℚ} (hr : a.res = some r) (hpow : isPowerOfTwo r = true)
    (hal : g.gridAlgorithm = none ∨ g.gridAlgorithm = some a.alg ∨ a.clear = true)
    (hals : ∀ i j u, g.TileAt i j u → u.gridAlgorithm = none ∨ u.gridAlgorithm = some a.alg ∨ a.clear = true) (dask : Option Nat) :
    (g.gridWith env a dask).err = none := by
  have hi := (vr_inv hs hsub h).1
  have hg := grow_reps hi
  refine gridWith_plainOk (plainOk_sub (plainOk_tile env F (isPowerOfTwo_pos hsub)) hs hsub) hg.1 hg.2 ?_ ha hF hr hpow ⟨hal, fun i j u hu => ⟨hals i j u hu, fun _ _ _ _ => trivial⟩⟩ dask
  rw [grow_isEmpty hs hi]; simpa using hA

/-! ## C18 -/

/-- **C18** for single resolution grids -/
theorem C18_shoalest_grid_sr (hs : 0 < size) {g : Grid Tile} (h : SRHistory env size bs fl F s g A) {a : GridCall} {dask : Option Nat} (ha : a.alg = .shoalest)
    (hF : F = .plain ∨ a.clear = true) (hv : a.regrid = .full ∨ a.clear = true) (hok : (g.gridWith env a dask).err = none) {t : Tile}
    (ht : (g.gridWith env a dask).st.Leaf t) :
    ∃ r ∈ (g.gridWith env a dask).st.resolutions, (∀ r0, a.res = some r0 → r = r0) ∧ ShoalTile bs size t r := by
  obtain ⟨r, hr, hl⟩ := (leaves_sr hs h hv hok).1 t ht
  exact ⟨r, hr, leafRun_shoal hs hl ha hF⟩

/-- **C18** for variable resolution grids -/
theorem C18_shoalest_grid_vr (hs : 0 < size) (hsub : isPowerOfTwo sub = true) {g : Grid (Grid Tile)} (h : VRHistory env size sub bs fl F s g A) {a : GridCall}
    {dask : Option Nat} (ha : a.alg = .shoalest) (hF : F = .plain ∨ a.clear = true) (hv : a.regrid = .full ∨ a.clear = true)
    (hok : (g.gridWith env a dask).err = none) {t : Tile} (ht : (g.gridWith env a dask).st.Leaf t) :
    ∃ r ∈ (g.gridWith env a dask).st.resolutions, (∀ r0, a.res = some r0 → r = r0) ∧ ShoalTile false sub t r := by
  obtain ⟨r, hr, hl⟩ := (leaves_vr hs hsub h hv hok).1 t ht
  exact ⟨r, hr, leafRun_shoal (isPowerOfTwo_pos hsub) hl ha hF⟩

/-! ## C20 -/

/-- **C20** for single resolution grids, any algorithm -/
theorem C20_density_grid_sr (hs : 0 < size) {g : Grid Tile} (h : SRHistory env size bs fl F s g A) {a : GridCall} {dask : Option Nat} {F' : Family}
    (ha : a.alg.family = some F') (hF : F' = F ∨ a.clear = true) (hv : a.regrid = .full ∨ a.clear = true) (hok : (g.gridWith env a dask).err = none) {t : Tile}
    (ht : (g.gridWith env a dask).st.Leaf t) :
    ∃ r ∈ (g.gridWith env a dask).st.resolutions, (∀ r0, a.res = some r0 → r = r0) ∧ DensityTile size t r := by
  obtain ⟨r, hr, hl⟩ := (leaves_sr hs h hv hok).1 t ht
  exact ⟨r, hr, leafRun_density hs hl ha hF⟩

/-- **C20** for variable resolution grids -/
theorem C20_density_grid_vr (hs : 0 < size) (hsub : isPowerOfTwo sub = true) {g : Grid (Grid Tile)} (h : VRHistory env size sub bs fl F s g A) {a : GridCall}
    {dask : Option Nat} {F' : Family} (ha : a.alg.family = some F') (hF : F' = F ∨ a.clear = true) (hv : a.regrid = .full ∨ a.clear = true)
    (hok : (g.gridWith env a dask).err = none) {t : Tile} (ht : (g.gridWith env a dask).st.Leaf t) :
    ∃ r ∈ (g.gridWith env a dask).st.resolutions, (∀ r0, a.res = some r0 → r = r0) ∧ DensityTile sub t r := by
  obtain ⟨r, hr, hl⟩ := (leaves_vr hs hsub h hv hok).1 t ht
  exact ⟨r, hr, leafRun_density (isPowerOfTwo_pos hsub) hl ha hF⟩

/-- the hypotheses of the theorems above are met: a single resolution grid with two containers, gridded with two workers, one container removed,
gridded again at another resolution, with four tiles; and a variable resolution grid gridded by depth, at three resolutions -/
example : SRHistory demoEnv 16 false demoFields .plain false demoSR demoStore ∧ demoStore ≠ [] ∧ demoSR.gridAlgorithm = some .mean ∧
    (demoSR.gridWith demoEnv { alg := .mean, res := some 4 } (some 3)).err = none ∧
    (demoSR.gridWith demoEnv { alg := .mean, res := some 4 } (some 3)).st.resolutions = [4] ∧
    (∃ t, (demoSR.gridWith demoEnv { alg := .mean, res := some 4 } (some 3)).st.TileAt 0 2 t ∧ t.pts.length = 2) ∧
    (demoSR.gridWith demoEnv { alg := .shoalest, res := none, clear := true } none).err = none ∧
    (demoSR.gridWith demoEnv { alg := .cube, res := some 8, clear := true } none).err = none :=
  ⟨demoSR_history, by decide, by decide +kernel, by decide +kernel, by decide +kernel,
    (exists_tileAt_any (fun t => t.pts.length == 2) (by decide +kernel)).imp (fun _ h => ⟨h.1, by simpa using h.2⟩), by decide +kernel, by decide +kernel⟩

example : VRHistory demoEnv 32 16 false demoFields .plain false demoVR demoStore ∧ isPowerOfTwo 16 = true ∧
    (demoVR.gridWith demoEnv { alg := .mean, res := none } (some 2)).err = none ∧
    (demoVR.gridWith demoEnv { alg := .mean, res := none } (some 2)).st.resolutions = [1/4, 1/2, 2] :=
  ⟨demoVR_history, by decide +kernel, by decide +kernel, by decide +kernel⟩

end Bathy
