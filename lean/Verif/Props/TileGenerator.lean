import Verif.Lemmas.TileGenerator
import Verif.Props.Csv
import Verif.Props.Rasters

/-!
# C75: the tile generator

Model: `Grid.tilesByResolution` (bathygrid/bgrid.py:756-791).
-/

namespace Bathy

section
variable {size sub : ℚ} {bs : Bool} {fl : Fields} {env : Env} {F : Family} {s : Bool} {A : Store} {layers : List Layer} {res : ℚ}

/-- **C75** (single resolution grids).  In every reachable grid, at any resolution, for any layers that gridding writes: every tile is yielded once
(up to an exception), row by row from the lower left one, with the number of cells along its side, the row and the column of its lower left cell (in this
order), its upper left corner, and the layers that it stores, the southern row first. -/
theorem C75_tiles_sr_partial (hs : 0 < size) {g : Grid Tile} (h : SRHistory env size bs fl F s g A) (hcore : ∀ l ∈ layers, l.isCore = true) (hres : 0 < res) (nodata : Option ℚ) (zUp : Bool) :
    YieldSpec g layers res nodata (g.flips zUp) (g.tilesByResolution env (some res) layers nodata zUp) :=
  Grid.yield_grow (answers_tile env F hs) (Grid.geoOk_tile env F hs) (Grid.noGeo_tile env F hs) (sr_inv hs h).1 hcore hres nodata zUp

/-- **C75** (variable resolution grids): the tiles are the subgrids. -/
theorem C75_tiles_vr_partial (hs : 0 < size) (hpow : isPowerOfTwo sub = true) {q : Nat} (hdiv : size = (q : ℚ) * sub) {g : Grid (Grid Tile)}
    (h : VRHistory env size sub bs fl F s g A) (hcore : ∀ l ∈ layers, l.isCore = true) (hres : 0 < res) (nodata : Option ℚ) (zUp : Bool) :
    YieldSpec g layers res nodata (g.flips zUp) (g.tilesByResolution env (some res) layers nodata zUp) :=
  Grid.yield_grow (Grid.answers_sub (answers_tile env F (isPowerOfTwo_pos hpow)) hs hpow hdiv) (Grid.geoOk_sub hs hpow) (Grid.noGeo_sub hs hpow) (vr_inv hs hpow h).1 hcore hres nodata zUp

/-- **C75** right after gridding a single resolution grid: nothing is raised, so that all tiles are yielded. -/
theorem C75_after_gridding_sr (hs : 0 < size) {g : Grid Tile} (h : SRHistory env size bs fl F s g A) {a : GridCall} {dask : Option Nat} {F' : Family} (ha : a.alg.family = some F')
    (hF : F' = F ∨ a.clear = true) (hv : a.regrid = .full ∨ a.clear = true) (hok : (g.gridWith env a dask).err = none) (hl : ∀ l ∈ layers, l ∈ writtenLayers F' bs fl)
    (hres : 0 < res) {m : Nat} (hm : size = (m : ℚ) * res) (nodata : Option ℚ) (zUp : Bool) :
    ((g.gridWith env a dask).st.tilesByResolution env (some res) layers nodata zUp).err = none := by
  have h1 : SRHistory env size bs fl F' s (g.gridWith env a dask).st A := history_after h ha hF hok
  have hA := store_ne (sr_inv hs h).1 hok
  have hruns := fun u hu => (Grid.leaves_sr hs h hv hok).1 u hu
  obtain ⟨o, ho, -⟩ := C64_retrievable_sr_partial hs h ha hF hv hok hl hres hm nodata zUp
  have hq : (g.gridWith env a dask).st.queryRes (some res) = .ok res := by unfold Grid.queryRes; simp only [if_neg hres.ne']
  unfold Grid.tilesByResolution
  rw [hq, getLayers_noGrid ho]
  simp only
  rcases (sr_inv hs h1).1.body with ⟨h2, -⟩ | ⟨-, i, j, nx, ny, T, hf, he⟩
  · exact absurd h2 hA
  · have hTw := (Grid.grow_reps (sr_inv hs h1).1).2 T hf.tiles
    refine Grid.yield_ok hf.tiles hTw (by rw [hf.txs, hf.rep.2.1]; simp [Grid.originsOf]) ?_ _ [] ?_
    · intro r c t ht
      obtain ⟨D, hD, -⟩ := Grid.tile_read (retrieves_tile env F' hs) (answers_tile env F' hs) hf.toReady
        (fun u hu => by obtain ⟨r, -, hr⟩ := hruns u hu; exact leafRun_cells hs hr ha hF) hl (fun l h => writtenLayers_core (hl l h)) hres hm hm nodata zUp ht
      exact ⟨D, hD⟩
    · intro k hk
      rw [List.mem_range] at hk
      unfold Grid.slots at hk
      rw [hf.tiles] at hk
      exact hk

/-- **C75** right after gridding a variable resolution grid, at every resolution that divides the tiles of the subgrids evenly. -/
theorem C75_after_gridding_vr (hs : 0 < size) (hpow : isPowerOfTwo sub = true) {q : Nat} (hdiv : size = (q : ℚ) * sub) {g : Grid (Grid Tile)}
    (h : VRHistory env size sub bs fl F s g A) {a : GridCall} {dask : Option Nat} {F' : Family} (ha : a.alg.family = some F')
    (hF : F' = F ∨ a.clear = true) (hv : a.regrid = .full ∨ a.clear = true) (hok : (g.gridWith env a dask).err = none) (hl : ∀ l ∈ layers, l ∈ writtenLayers F' false fl)
    (hres : 0 < res) {m : Nat} (hm : sub = (m : ℚ) * res) (nodata : Option ℚ) (zUp : Bool) :
    ((g.gridWith env a dask).st.tilesByResolution env (some res) layers nodata zUp).err = none := by
  have h1 : VRHistory env size sub bs fl F' s (g.gridWith env a dask).st A := history_after h ha hF hok
  have hsub := isPowerOfTwo_pos hpow
  have hA := store_ne (vr_inv hs hpow h).1 hok
  have hruns := fun u hu => (Grid.leaves_vr hs hpow h hv hok).1 u hu
  obtain ⟨o, ho, -⟩ := C64_retrievable_vr_partial hs hpow hdiv h ha hF hv hok hl hres hm nodata zUp
  have hq : (g.gridWith env a dask).st.queryRes (some res) = .ok res := by unfold Grid.queryRes; simp only [if_neg hres.ne']
  unfold Grid.tilesByResolution
  rw [hq, getLayers_noGrid ho]
  simp only
  rcases (vr_inv hs hpow h1).1.body with ⟨h2, -⟩ | ⟨-, i, j, nx, ny, T, hf, he⟩
  · exact absurd h2 hA
  · have hTw := (Grid.grow_reps (vr_inv hs hpow h1).1).2 T hf.tiles
    refine Grid.yield_ok hf.tiles hTw (by rw [hf.txs, hf.rep.2.1]; simp [Grid.originsOf]) ?_ _ [] ?_
    · intro r c t ht
      obtain ⟨D, hD, -⟩ := Grid.tile_read (n := q * m) (Grid.retrieves_sub (retrieves_tile env F' (sub := 0) hsub) (answers_tile env F' hsub)
        (fun {x y t A} _ hc => by
          have hc : t.cells ≠ [] := hc t rfl
          show Except.ok (!t.cells.isEmpty) = _
          cases he : t.cells with
          | nil => exact absurd he hc
          | cons p ps => rfl) (fun l hl => writtenLayers_core hl) hs hpow hdiv) (Grid.answers_sub (answers_tile env F' hsub) hs hpow hdiv) hf.toReady
        (fun u hu => by obtain ⟨r, -, hr⟩ := hruns u hu; exact leafRun_cells hsub hr ha hF) hl (fun l h => writtenLayers_core (hl l h)) hres hm (by rw [hdiv, hm]; push_cast; ring) nodata zUp ht
      exact ⟨D, hD⟩
    · intro k hk
      rw [List.mem_range] at hk
      unfold Grid.slots at hk
      rw [hf.tiles] at hk
      exact hk

end

/-- grids with several tiles and gaps -/
example : SRHistory demoEnv 16 false demoFields .plain false demoSRg demoStore ∧ VRHistory demoEnv 32 16 false demoFields .plain false demoVRg demoStore ∧
    (∀ l ∈ [Layer.depth, .vertical, .density], l.isCore = true) ∧
    (demoSRg.tilesByResolution demoEnv (some 8) [.depth, .vertical, .density] none true).err = none ∧
    (demoSRg.tilesByResolution demoEnv (some 8) [.depth, .vertical, .density] none true).st.2.map (fun y => (y.dataCol, y.dataRow, y.cells)) = [(0, 4, 2), (2, 6, 2), (4, 8, 2), (8, 0, 2)] ∧
    (demoVRg.tilesByResolution demoEnv (some 8) [.depth, .vertical, .density] none true).st.2.map (fun y => (y.dataCol, y.dataRow, y.cells, y.geo)) =
      [(0, 4, 4, some ⟨0, 8, 32⟩), (4, 8, 4, some ⟨32, 8, 64⟩), (8, 0, 4, some ⟨-32, 8, 96⟩)] := by
  refine ⟨demoSRg_history, demoVRg_history, by decide, by decide +kernel, by decide +kernel, by decide +kernel⟩

/-- **C75 is violated**.  The docstring has the column index before the row index and a geotransform for GDAL (first row in the north): for the tile in
column 4 and row 0 of the cells (0, 4) is yielded; and the array does not fit the geotransform, it is upside down.  A grid whose first tile got
soundings after gridding is refused as not gridded, although cells are stored. -/
theorem C75_violated :
    (SRHistory demoEnv 16 false demoFields .plain false demoSRg demoStore ∧
      ∃ y ∈ (demoSRg.tilesByResolution demoEnv (some 8) [.depth] none false).st.2, ∃ t ge a, demoSRg.TileAt 0 2 t ∧ y.cells = 2 ∧ y.dataCol = 0 ∧ y.dataRow = 2 * y.cells ∧
        y.geo = some ge ∧ ge.x0 = t.minX ∧ ge.y0 = t.maxY ∧ y.data.get? .depth = some a ∧ ¬ PixelsRight t .depth 8 (demoSRg.flips false) ge.x0 ge.y0 a) ∧
    (SRHistory demoEnv 16 false demoFields .plain false shiftGrid [("b", [⟨20, 21, 12, 1, 1⟩]), ("c", [⟨3, 6, 11, 1, 1⟩])] ∧ StoredCell shiftGrid .depth 8 16 16 12 ∧
      (shiftGrid.tilesByResolution demoEnv (some 8) [.depth] none false).err = some .valueError ∧ (shiftGrid.tilesByResolution demoEnv (some 8) [.depth] none false).st.2 = []) := by
  constructor
  · refine ⟨demoSRg_history, ?_⟩
    have hb : (demoSRg.tilesByResolution demoEnv (some 8) [.depth] none false).st.2.any (fun y => decide (y.cells = 2) && decide (y.dataCol = 0) && decide (y.dataRow = 4) &&
        decide (y.geo = some ⟨0, 8, 16⟩) && (y.data.get? .depth).any (fun a => decide (a.rows = 2) && decide (a.cols = 2) && decide (a.get? 1 0 = some none))) = true := by decide +kernel
    obtain ⟨y, hy, h1⟩ := List.any_eq_true.1 hb
    simp only [Bool.and_eq_true, decide_eq_true_eq] at h1
    obtain ⟨a, ha, h2⟩ := (Option.any_eq_true _ _).1 h1.2
    simp only [Bool.and_eq_true, decide_eq_true_eq] at h2
    obtain ⟨t, ht, hP⟩ := Grid.exists_tileAt_any (g := demoSRg) (r := 0) (c := 2) (fun t => decide (t.minX = 0) && decide (t.minY = 0) && decide (t.maxY = 16) &&
      (t.cells.get? 8).any (fun ls => (ls.get? .depth).any (fun a => decide (a.get? 0 0 = some (some (25 / 2)))))) (by decide +kernel)
    simp only [Bool.and_eq_true, decide_eq_true_eq] at hP
    obtain ⟨ls, hls, h3⟩ := (Option.any_eq_true _ _).1 hP.2
    obtain ⟨b, hb', h4⟩ := (Option.any_eq_true _ _).1 h3
    refine ⟨y, hy, t, ⟨0, 8, 16⟩, a, ht, h1.1.1.1.1, h1.1.1.1.2, by rw [h1.1.1.2, h1.1.1.1.1], h1.1.2, hP.1.1.1.symm, hP.1.2.symm, ha, ?_⟩
    intro hp
    have := hp 1 0 (25 / 2) (by rw [h2.1.1]; omega) (by rw [h2.1.2]; omega) ⟨t, ls, b, 0, 0, rfl, hls, hb', of_decide_eq_true h4, by simp [hP.1.1.1], by rw [hP.1.1.2]; norm_num⟩
    rw [h2.2] at this
    cases this
  · refine ⟨shiftGrid_history, ?_, by decide +kernel, by decide +kernel⟩
    obtain ⟨t, ht, hP⟩ := Grid.exists_tileAt_any (g := shiftGrid) (r := 1) (c := 1) (fun t => decide (t.minX = 16) && decide (t.minY = 16) &&
      (t.cells.get? 8).any (fun ls => (ls.get? .depth).any (fun a => decide (a.get? 0 0 = some (some 12))))) (by decide +kernel)
    simp only [Bool.and_eq_true, decide_eq_true_eq] at hP
    obtain ⟨ls, hls, h2⟩ := (Option.any_eq_true _ _).1 hP.2
    obtain ⟨a, ha, h3⟩ := (Option.any_eq_true _ _).1 h2
    refine Grid.stored_grid.2 ⟨1, 1, t, ht, t, ls, a, 0, 0, rfl, hls, ha, of_decide_eq_true h3, ?_, ?_⟩
    · rw [hP.1.1]; norm_num
    · rw [hP.1.2]; norm_num

end Bathy
