import Verif.Props.ContainerUpdate
import Verif.Props.AutoSurface

/-!
# C118 and C120 after queries, saving and loading; C102 after updates
-/

namespace Bathy
open Grid

variable {env : Env} {size sub : ℚ} {bs : Bool} {fl : Fields} {F F' : Family} {s : Bool} {A A' : Store} {a a0 : GridCall} {r : ℚ} {dask d0 da : Option Nat}

/-- **C120** (single resolution grids): the surface of a container after queries of any kind, also for other containers -/
theorem C120_kept_sr (hs : 0 < size) {g : Grid Tile} (h : SRHistory env size bs fl F s g A) (ha : a.alg = .mean ∨ a.alg = .shoalest) (hF : F = .plain ∨ a.clear = true)
    (hv : a.regrid = .full ∨ a.clear = true) (hr : a.res = some r) {n : Nat} (hn : size = n * r) (hok : (g.gridWith env a dask).err = none)
    {u : Grid Tile} (hu : Requeried env (g.gridWith env a dask).st u) (c : String) (nodata : Option ℚ) (zUp : Bool) :
    ∃ e o, u.extents = some e ∧ (u.getLayersByName env [.cont c] (some r) nodata zUp).2 = .ok o ∧ ContainerShown a.alg (A.ptsOf c) r nodata e o := by
  have hrp := pos_of_mul hs hn
  have hfam := (plain_family ha).1
  have hF' : Family.plain = F ∨ a.clear = true := hF.imp Eq.symm id
  have h1 : SRHistory env size bs fl .plain s (g.gridWith env a dask).st A := history_after h hfam hF' hok
  obtain ⟨e, o, k1, k2, k3, k4⟩ := Grid.grow_showsOf (part_ptsOf c) (showsOf_cont ha hs hrp hn c nodata) (sr_inv hs (history_requeried h1 hu)).1 hs (store_ne (sr_inv hs h).1 hok)
    (leaves_requeried (τ := Tile) ready_leaf hu fun u hu => by obtain ⟨r', -, hr'⟩ := (Grid.leaves_sr hs h hv hok).1 u hu; exact leafRun_cont hs hr' hfam hF' hr) hrp hn (cont_fill ha c nodata) zUp
  exact ⟨e, _, k1, k2, containerShown_of k3 k4⟩

/-- **C120** (variable resolution grids) -/
theorem C120_kept_vr (hs : 0 < size) (hsub : isPowerOfTwo sub = true) {q : Nat} (hdiv : size = (q : ℚ) * sub) {g : Grid (Grid Tile)}
    (h : VRHistory env size sub bs fl F s g A) (ha : a.alg = .mean ∨ a.alg = .shoalest) (hF : F = .plain ∨ a.clear = true)
    (hv : a.regrid = .full ∨ a.clear = true) (hr : a.res = some r) {n : Nat} (hn : sub = n * r) (hok : (g.gridWith env a dask).err = none)
    {u : Grid (Grid Tile)} (hu : Requeried env (g.gridWith env a dask).st u) (c : String) (nodata : Option ℚ) (zUp : Bool) :
    ∃ e o, u.extents = some e ∧ (u.getLayersByName env [.cont c] (some r) nodata zUp).2 = .ok o ∧ ContainerShown a.alg (A.ptsOf c) r nodata e o := by
  have hsp := isPowerOfTwo_pos hsub
  have hrp := pos_of_mul hsp hn
  have hfam := (plain_family ha).1
  have hF' : Family.plain = F ∨ a.clear = true := hF.imp Eq.symm id
  have h1 : VRHistory env size sub bs fl .plain s (g.gridWith env a dask).st A := history_after h hfam hF' hok
  have S := Grid.showsOf_sub (size := size) (bs := bs) (q := q) (part_ptsOf c) (showsOf_cont (env := env) (F := .plain) (bs := false) (fl := fl) (sub := 0) ha hsp hrp hn c nodata)
    (fun {x y t B} hrep hQ => ready_cells (hQ t rfl).2.1) hs hsub hdiv hrp hn (cont_fill ha c nodata)
  obtain ⟨e, o, k1, k2, k3, k4⟩ := Grid.grow_showsOf (part_ptsOf c) S (vr_inv hs hsub (history_requeried h1 hu)).1 hs (store_ne (vr_inv hs hsub h).1 hok)
    (leaves_requeried (τ := Grid Tile) (fun t u hq => leaves_queried (τ := Tile) ready_leaf hq) hu fun u hu => by
      obtain ⟨r', -, hr'⟩ := (Grid.leaves_vr hs hsub h hv hok).1 u hu; exact leafRun_cont hsp hr' hfam hF' hr) hrp
    (by rw [hdiv, hn]; push_cast; ring) (cont_fill ha c nodata) zUp
  exact ⟨e, _, k1, k2, containerShown_of k3 k4⟩

/-- **C118** (single resolution grids): the slopes after queries of any kind -/
theorem C118_kept_sr (hls : LeastSquares env.plane) (hs : 0 < size) {g : Grid Tile} (h : SRHistory env size bs fl F s g A) (ha : a.alg.family = some F') (hF : F' = F ∨ a.clear = true)
    (hv : a.regrid = .full ∨ a.clear = true) (hr : a.res = some r) {n : Nat} (hn : size = n * r) (hok : (g.gridWith env a dask).err = none)
    {u : Grid Tile} (hu : Requeried env (g.gridWith env a dask).st u) (nodata : Option ℚ) (zUp : Bool) {l : Layer} {pick : ℚ × ℚ → ℚ} (hl : IsSlope l pick) :
    ∃ e arr, u.extents = some e ∧ (u.getLayersByName env [l] (some r) nodata zUp).2 = .ok (some [arr]) ∧ SurfaceOf (SlopeCell pick) (fun v => v.or nodata) A.allPts r e arr := by
  have hrp := pos_of_mul hs hn
  have h1 : SRHistory env size bs fl F' s (g.gridWith env a dask).st A := history_after h ha hF hok
  exact Grid.grow_shows ((shows_slope hls hl hs hrp hn nodata).mono (fun h => h) (Q' := ContReady a.alg r) (fun _ h => ⟨h.1, h.2.1⟩)) (sr_inv hs (history_requeried h1 hu)).1 hs (store_ne (sr_inv hs h).1 hok)
    (leaves_requeried (τ := Tile) ready_leaf hu fun u hu => by obtain ⟨r', -, hr'⟩ := (Grid.leaves_sr hs h hv hok).1 u hu; exact leafRun_cont hs hr' ha hF hr) hrp hn (slope_fill hl nodata) zUp

/-- **C118** (variable resolution grids) -/
theorem C118_kept_vr (hls : LeastSquares env.plane) (hs : 0 < size) (hsub : isPowerOfTwo sub = true) {q : Nat} (hdiv : size = (q : ℚ) * sub) {g : Grid (Grid Tile)}
    (h : VRHistory env size sub bs fl F s g A) (ha : a.alg.family = some F') (hF : F' = F ∨ a.clear = true)
    (hv : a.regrid = .full ∨ a.clear = true) (hr : a.res = some r) {n : Nat} (hn : sub = n * r) (hok : (g.gridWith env a dask).err = none)
    {u : Grid (Grid Tile)} (hu : Requeried env (g.gridWith env a dask).st u) (nodata : Option ℚ) (zUp : Bool) {l : Layer} {pick : ℚ × ℚ → ℚ} (hl : IsSlope l pick) :
    ∃ e arr, u.extents = some e ∧ (u.getLayersByName env [l] (some r) nodata zUp).2 = .ok (some [arr]) ∧ SurfaceOf (SlopeCell pick) (fun v => v.or nodata) A.allPts r e arr := by
  have hsp := isPowerOfTwo_pos hsub
  have hrp := pos_of_mul hsp hn
  have h1 : VRHistory env size sub bs fl F' s (g.gridWith env a dask).st A := history_after h ha hF hok
  have S := Grid.shows_sub (size := size) (bs := bs) (q := q)
    ((shows_slope (env := env) (F := F') (bs := false) (fl := fl) (sub := 0) hls hl hsp hrp hn nodata).mono (fun h => h) (Q' := ContReady a.alg r) (fun _ h => ⟨h.1, h.2.1⟩))
    (fun {x y t B} hrep hQ => ready_cells (hQ t rfl).2.1) hs hsub hdiv hrp hn (slope_fill hl nodata)
  exact Grid.grow_shows S (vr_inv hs hsub (history_requeried h1 hu)).1 hs (store_ne (vr_inv hs hsub h).1 hok)
    (leaves_requeried (τ := Grid Tile) (fun t u hq => leaves_queried (τ := Tile) ready_leaf hq) hu fun u hu => by
      obtain ⟨r', -, hr'⟩ := (Grid.leaves_vr hs hsub h hv hok).1 u hu; exact leafRun_cont hsp hr' ha hF hr) hrp
    (by rw [hdiv, hn]; push_cast; ring) (slope_fill hl nodata) zUp

/-! ## saving and loading -/

/-- **C102** (containers of single resolution grids): `save` after `grid` does not fail, `load` gives a grid, and that grid shows each container as before -/
theorem C102_container_saved_sr (hs : 0 < size) {g : Grid Tile} (h : SRHistory env size bs fl F s g A) (ha : a.alg = .mean ∨ a.alg = .shoalest) (hF : F = .plain ∨ a.clear = true)
    (hv : a.regrid = .full ∨ a.clear = true) (hr : a.res = some r) {n : Nat} (hn : size = n * r) (hok : (g.gridWith env a dask).err = none) (b : Backend) (d : Disk (Root TileFolder))
    (c : String) (nodata : Option ℚ) (zUp : Bool) :
    (saveAllD b (g.gridWith env a dask).st d).err = none ∧ ∃ (u : Grid Tile) (e : _) (o : _), loadD (saveAllD b (g.gridWith env a dask).st d).st.now = .ok u ∧
      u.extents = some e ∧ (u.getLayersByName env [.cont c] (some r) nodata zUp).2 = .ok o ∧ ContainerShown a.alg (A.ptsOf c) r nodata e o := by
  have h1 : SRHistory env size bs fl .plain s (g.gridWith env a dask).st A := history_after h (plain_family ha).1 (hF.imp Eq.symm id) hok
  have hA := store_ne (sr_inv hs h).1 hok
  obtain ⟨h2, u, h3, h4⟩ := C54_save_load_sr hs h1 hA b d
  obtain ⟨e, o, h5⟩ := C120_kept_sr hs h ha hF hv hr hn hok (reloaded_queried_sr hs h1 hA h4) c nodata zUp
  exact ⟨h2, u, e, o, h3, h5⟩

/-- **C102** (containers of variable resolution grids; the folder has nothing in the places of tiles that the grid does not have, as in `C54_save_load_vr_partial`) -/
theorem C102_container_saved_vr_partial (hs : 0 < size) (hsub : isPowerOfTwo sub = true) {q : Nat} (hdiv : size = (q : ℚ) * sub) {g : Grid (Grid Tile)}
    (h : VRHistory env size sub bs fl F s g A) (ha : a.alg = .mean ∨ a.alg = .shoalest) (hF : F = .plain ∨ a.clear = true)
    (hv : a.regrid = .full ∨ a.clear = true) (hr : a.res = some r) {n : Nat} (hn : sub = n * r) (hok : (g.gridWith env a dask).err = none)
    (b : Backend) (d : Disk (Root (GridFolder TileFolder)))
    (hd : ∀ k p, (g.gridWith env a dask).st.tile? k = some none → (g.gridWith env a dask).st.tileOrigin k = some p → tileFolder d.now p = none)
    (c : String) (nodata : Option ℚ) (zUp : Bool) :
    (saveAllD b (g.gridWith env a dask).st d).err = none ∧ ∃ (u : Grid (Grid Tile)) (e : _) (o : _), loadD (saveAllD b (g.gridWith env a dask).st d).st.now = .ok u ∧
      u.extents = some e ∧ (u.getLayersByName env [.cont c] (some r) nodata zUp).2 = .ok o ∧ ContainerShown a.alg (A.ptsOf c) r nodata e o := by
  have h1 : VRHistory env size sub bs fl .plain s (g.gridWith env a dask).st A := history_after h (plain_family ha).1 (hF.imp Eq.symm id) hok
  have hA := store_ne (vr_inv hs hsub h).1 hok
  obtain ⟨h2, u, h3, h4⟩ := C54_save_load_vr_partial hs hsub h1 hA b d hd
  obtain ⟨e, o, h5⟩ := C120_kept_vr hs hsub hdiv h ha hF hv hr hn hok (reloaded_queried_vr hs hsub h1 hA h4) c nodata zUp
  exact ⟨h2, u, e, o, h3, h5⟩

/-- **C102** (slopes of single resolution grids): slopes that were not asked for before saving are computed from what is loaded -/
theorem C102_slopes_saved_sr (hls : LeastSquares env.plane) (hs : 0 < size) {g : Grid Tile} (h : SRHistory env size bs fl F s g A) (ha : a.alg.family = some F') (hF : F' = F ∨ a.clear = true)
    (hv : a.regrid = .full ∨ a.clear = true) (hr : a.res = some r) {n : Nat} (hn : size = n * r) (hok : (g.gridWith env a dask).err = none) (b : Backend) (d : Disk (Root TileFolder))
    (nodata : Option ℚ) (zUp : Bool) {l : Layer} {pick : ℚ × ℚ → ℚ} (hl : IsSlope l pick) :
    (saveAllD b (g.gridWith env a dask).st d).err = none ∧ ∃ (u : Grid Tile) (e : _) (arr : _), loadD (saveAllD b (g.gridWith env a dask).st d).st.now = .ok u ∧
      u.extents = some e ∧ (u.getLayersByName env [l] (some r) nodata zUp).2 = .ok (some [arr]) ∧ SurfaceOf (SlopeCell pick) (fun v => v.or nodata) A.allPts r e arr := by
  have h1 : SRHistory env size bs fl F' s (g.gridWith env a dask).st A := history_after h ha hF hok
  have hA := store_ne (sr_inv hs h).1 hok
  obtain ⟨h2, u, h3, h4⟩ := C54_save_load_sr hs h1 hA b d
  obtain ⟨e, o, h5⟩ := C118_kept_sr hls hs h ha hF hv hr hn hok (reloaded_queried_sr hs h1 hA h4) nodata zUp hl
  exact ⟨h2, u, e, o, h3, h5⟩

/-- **C102** (slopes of variable resolution grids; the folder has nothing in the places of tiles that the grid does not have) -/
theorem C102_slopes_saved_vr_partial (hls : LeastSquares env.plane) (hs : 0 < size) (hsub : isPowerOfTwo sub = true) {q : Nat} (hdiv : size = (q : ℚ) * sub) {g : Grid (Grid Tile)}
    (h : VRHistory env size sub bs fl F s g A) (ha : a.alg.family = some F') (hF : F' = F ∨ a.clear = true)
    (hv : a.regrid = .full ∨ a.clear = true) (hr : a.res = some r) {n : Nat} (hn : sub = n * r) (hok : (g.gridWith env a dask).err = none)
    (b : Backend) (d : Disk (Root (GridFolder TileFolder)))
    (hd : ∀ k p, (g.gridWith env a dask).st.tile? k = some none → (g.gridWith env a dask).st.tileOrigin k = some p → tileFolder d.now p = none)
    (nodata : Option ℚ) (zUp : Bool) {l : Layer} {pick : ℚ × ℚ → ℚ} (hl : IsSlope l pick) :
    (saveAllD b (g.gridWith env a dask).st d).err = none ∧ ∃ (u : Grid (Grid Tile)) (e : _) (arr : _), loadD (saveAllD b (g.gridWith env a dask).st d).st.now = .ok u ∧
      u.extents = some e ∧ (u.getLayersByName env [l] (some r) nodata zUp).2 = .ok (some [arr]) ∧ SurfaceOf (SlopeCell pick) (fun v => v.or nodata) A.allPts r e arr := by
  have h1 : VRHistory env size sub bs fl F' s (g.gridWith env a dask).st A := history_after h ha hF hok
  have hA := store_ne (vr_inv hs hsub h).1 hok
  obtain ⟨h2, u, h3, h4⟩ := C54_save_load_vr_partial hs hsub h1 hA b d hd
  obtain ⟨e, o, h5⟩ := C118_kept_vr hls hs hsub hdiv h ha hF hv hr hn hok (reloaded_queried_vr hs hsub h1 hA h4) nodata zUp hl
  exact ⟨h2, u, e, o, h3, h5⟩

/-- **C102** (single resolution grids that are kept up to date): `save` does not fail, `load` gives a grid, and that grid shows the surface of the soundings -/
theorem C102_update_saved_sr (hs : 0 < size) {g g1 : Grid Tile} (h : SRHistory env size bs fl F s g A) (ha0 : a0.alg = .mean ∨ a0.alg = .shoalest) (hr0 : a0.res = some r)
    (hv0 : a0.regrid = .full ∨ a0.clear = true) (hF : F = .plain ∨ a0.clear = true) {n : Nat} (hn : size = n * r) (hok0 : (g.gridWith env a0 d0).err = none)
    (hsince : Since env fl a0.alg r (g.gridWith env a0 d0).st A g1 A') (ha : a.alg = a0.alg) (har : a.res = some r) (hok : (g1.gridWith env a da).err = none)
    (b : Backend) (d : Disk (Root TileFolder))
    {nodata : Option ℚ} {zUp flip : Bool} {l : Layer} (hl : Ruled a0.alg bs fl nodata l) (hflip : flip = true ↔ (zUp = true ↔ ¬ StoredUp (g1.gridWith env a da).st)) :
    (saveAllD b (g1.gridWith env a da).st d).err = none ∧ ∃ (u : Grid Tile) (e : _) (arr : _), loadD (saveAllD b (g1.gridWith env a da).st d).st.now = .ok u ∧
      u.extents = some e ∧ u.getLayersByName env [l] (some r) nodata zUp = (u, .ok (some [arr])) ∧ SurfaceOf (CellRule a0.alg l) (shownCell l nodata flip) A'.allPts r e arr := by
  obtain ⟨hfam, -⟩ := plain_family ha0
  have h0 : SRHistory env size bs fl .plain s (g.gridWith env a0 d0).st A := history_after h hfam (hF.imp Eq.symm id) hok0
  obtain ⟨s', h1⟩ := since_reachable hfam h0 (hsince.grid a ha har da hok)
  obtain ⟨-, hA, -⟩ := kept_ready_sr hs h hfam hr0 hv0 (hF.imp Eq.symm id) hok0 hsince ha har hok .refl
  obtain ⟨h2, u, h3, h4⟩ := C54_save_load_sr hs h1 hA b d
  have hq := reloaded_queried_sr hs h1 hA h4
  obtain ⟨e, o, h5⟩ := C113_update_surface_sr hs h ha0 hr0 hv0 hF hn hok0 hsince ha har hok hq hl (by rw [storedUp_congr (requeried_info hq)]; exact hflip)
  exact ⟨h2, u, e, o, h3, h5⟩

/-- **C102** (variable resolution grids that are kept up to date; the folder has nothing in the places of tiles that the grid does not have) -/
theorem C102_update_saved_vr_partial (hs : 0 < size) (hsub : isPowerOfTwo sub = true) {q : Nat} (hdiv : size = (q : ℚ) * sub) {g g1 : Grid (Grid Tile)} (h : VRHistory env size sub bs fl F s g A)
    (ha0 : a0.alg = .mean ∨ a0.alg = .shoalest) (hr0 : a0.res = some r)
    (hv0 : a0.regrid = .full ∨ a0.clear = true) (hF : F = .plain ∨ a0.clear = true) {n : Nat} (hn : sub = n * r) (hok0 : (g.gridWith env a0 d0).err = none)
    (hsince : Since env fl a0.alg r (g.gridWith env a0 d0).st A g1 A') (ha : a.alg = a0.alg) (har : a.res = some r) (hok : (g1.gridWith env a da).err = none)
    (b : Backend) (d : Disk (Root (GridFolder TileFolder)))
    (hd : ∀ k p, (g1.gridWith env a da).st.tile? k = some none → (g1.gridWith env a da).st.tileOrigin k = some p → tileFolder d.now p = none)
    {nodata : Option ℚ} {zUp flip : Bool} {l : Layer} (hl : Ruled a0.alg false fl nodata l) (hflip : flip = true ↔ (zUp = true ↔ ¬ StoredUp (g1.gridWith env a da).st)) :
    (saveAllD b (g1.gridWith env a da).st d).err = none ∧ ∃ (u : Grid (Grid Tile)) (e : _) (arr : _), loadD (saveAllD b (g1.gridWith env a da).st d).st.now = .ok u ∧
      u.extents = some e ∧ u.getLayersByName env [l] (some r) nodata zUp = (u, .ok (some [arr])) ∧ SurfaceOf (CellRule a0.alg l) (shownCell l nodata flip) A'.allPts r e arr := by
  obtain ⟨hfam, -⟩ := plain_family ha0
  have h0 : VRHistory env size sub bs fl .plain s (g.gridWith env a0 d0).st A := history_after h hfam (hF.imp Eq.symm id) hok0
  obtain ⟨s', h1⟩ := since_reachable hfam h0 (hsince.grid a ha har da hok)
  obtain ⟨-, hA, -⟩ := kept_ready_vr hs hsub h hfam hr0 hv0 (hF.imp Eq.symm id) hok0 hsince ha har hok .refl
  obtain ⟨h2, u, h3, h4⟩ := C54_save_load_vr_partial hs hsub h1 hA b d hd
  have hq := reloaded_queried_vr hs hsub h1 hA h4
  obtain ⟨e, o, h5⟩ := C113_update_surface_vr hs hsub hdiv h ha0 hr0 hv0 hF hn hok0 hsince ha har hok hq hl (by rw [storedUp_congr (requeried_info hq)]; exact hflip)
  exact ⟨h2, u, e, o, h3, h5⟩

/-! ## the hypotheses can be met -/

/-- the demo grid after some queries, whatever they were -/
example (u : Grid Tile) (hu : Requeried demoEnv demoSRg u) (c : String) : ∃ e o, u.extents = some e ∧ (u.getLayersByName demoEnv [.cont c] (some 8) none false).2 = .ok o ∧
    ContainerShown .mean (demoStore.ptsOf c) 8 none e o :=
  C120_kept_sr (n := 2) (dask := none) (by norm_num) demoSR_history (.inl rfl) (.inl rfl) (.inl rfl) (a := { alg := .mean, res := some 8 }) rfl (by norm_num) (by decide +kernel) hu c none false

example (u : Grid (Grid Tile)) (hu : Requeried demoEnv demoVRg u) (c : String) : ∃ e o, u.extents = some e ∧ (u.getLayersByName demoEnv [.cont c] (some 8) (some 5) true).2 = .ok o ∧
    ContainerShown .mean (demoStore.ptsOf c) 8 (some 5) e o :=
  C120_kept_vr (n := 2) (q := 2) (dask := none) (by norm_num) (by decide +kernel) (by norm_num) demoVR_history (.inl rfl) (.inl rfl) (.inl rfl)
    (a := { alg := .mean, res := some 8 }) rfl (by norm_num) (by decide +kernel) hu c (some 5) true

/-- saved and loaded, with either class -/
example (b : Backend) : (saveAllD b demoSRg ⟨none, []⟩).err = none ∧ ∃ (u : Grid Tile) (e : _) (o : _), loadD (saveAllD b demoSRg ⟨none, []⟩).st.now = .ok u ∧
      u.extents = some e ∧ (u.getLayersByName demoEnv [.cont "b"] (some 8) none false).2 = .ok o ∧ ContainerShown .mean demoB 8 none e o :=
  C102_container_saved_sr (n := 2) (dask := none) (by norm_num) demoSR_history (.inl rfl) (.inl rfl) (.inl rfl) (a := { alg := .mean, res := some 8 }) rfl (by norm_num) (by decide +kernel) b _ "b" none false

example (b : Backend) : (saveAllD b demoVRg ⟨none, []⟩).err = none ∧ ∃ (u : Grid (Grid Tile)) (e : _) (o : _), loadD (saveAllD b demoVRg ⟨none, []⟩).st.now = .ok u ∧
      u.extents = some e ∧ (u.getLayersByName demoEnv [.cont "c"] (some 8) none false).2 = .ok o ∧ ContainerShown .mean demoC 8 none e o :=
  C102_container_saved_vr_partial (n := 2) (q := 2) (dask := none) (by norm_num) (by decide +kernel) (by norm_num) demoVR_history (.inl rfl) (.inl rfl) (.inl rfl)
    (a := { alg := .mean, res := some 8 }) rfl (by norm_num) (by decide +kernel) b _ (fun _ _ _ _ => rfl) "c" none false

private def ptsA : List Pt := [⟨1/2, 1/2, 39/2, 1, 2⟩, ⟨3/2, 1/2, 43/2, 3, 4⟩, ⟨1/2, 3/2, 33/2, 1, 1⟩, ⟨7/2, 5/2, 39/2, 1, 1⟩]

/-- the hypotheses of `C118_kept_sr`, `C118_kept_vr`, `C102_slopes_saved_sr` and `C102_slopes_saved_vr_partial` (new folder) -/
example : ∃ env g A u, LeastSquares env.plane ∧ SRHistory env 4 false demoFields .plain false g A ∧ (g.gridWith env { alg := .mean, res := some 2 } none).err = none ∧
    Requeried env (g.gridWith env { alg := .mean, res := some 2 } none).st u ∧ A.allPts = ptsA := by
  refine ⟨lsEnv, _, _, _, leastSquares_exists.choose_spec, (GridHistory.new .plain).add ptsA "a" {} (by decide +kernel), by decide +kernel, .refl, by decide +kernel⟩

example : ∃ env g A u, LeastSquares env.plane ∧ VRHistory env 8 4 false demoFields .plain false g A ∧ (g.gridWith env { alg := .mean, res := some 2 } none).err = none ∧
    Requeried env (g.gridWith env { alg := .mean, res := some 2 } none).st u ∧ A.allPts = ptsA := by
  refine ⟨lsEnv, _, _, _, leastSquares_exists.choose_spec, (GridHistory.new .plain).add ptsA "a" {} (by decide +kernel), by decide +kernel, .refl, by decide +kernel⟩

private def base : Grid Tile := (demoSR.gridWith demoEnv { alg := .mean, res := some 2, clear := true } none).st
private def changed : Grid Tile := ((base.removePoints "b").st.addPoints ⟨demoFields, demoA⟩ "a" {}).st
private def updated : Grid Tile := (changed.gridWith demoEnv { alg := .mean, res := some 2, regrid := .update } (some 2)).st

/-- a container is removed, another one is added, an update is done, then the grid is saved and loaded -/
example (b : Backend) : (saveAllD b updated ⟨none, []⟩).err = none ∧ ∃ (u : Grid Tile) (e : _) (arr : _), loadD (saveAllD b updated ⟨none, []⟩).st.now = .ok u ∧
      u.extents = some e ∧ u.getLayersByName demoEnv [.depth] (some 2) none false = (u, .ok (some [arr])) ∧
      SurfaceOf (MeanCell round3 Pt.z) (shownCell .depth none false) ((demoStore.remove "b") ++ [("a", demoA)] : Store).allPts 2 e arr :=
  C102_update_saved_sr (n := 8) (d0 := none) (da := some 2) (a0 := { alg := .mean, res := some 2, clear := true }) (a := { alg := .mean, res := some 2, regrid := .update }) (by norm_num) demoSR_history (.inl rfl) rfl
    (.inr rfl) (.inr rfl) (by norm_num) (by decide +kernel) ((Since.refl.remove "b" (by decide +kernel)).add demoA "a" {} (by decide +kernel)) rfl rfl (by decide +kernel) b _
    (.inl rfl) (no_flip (by decide +kernel))

private def baseVR : Grid (Grid Tile) := (demoVR.gridWith demoEnv { alg := .shoalest, res := some 8, clear := true } none).st
private def changedVR : Grid (Grid Tile) := ((baseVR.removePoints "b").st.addPoints ⟨demoFields, demoA⟩ "a" {}).st
private def updatedVR : Grid (Grid Tile) := (changedVR.gridWith demoEnv { alg := .shoalest, res := some 8, regrid := .update } none).st

example (b : Backend) : (saveAllD b updatedVR ⟨none, []⟩).err = none ∧ ∃ (u : Grid (Grid Tile)) (e : _) (arr : _), loadD (saveAllD b updatedVR ⟨none, []⟩).st.now = .ok u ∧
      u.extents = some e ∧ u.getLayersByName demoEnv [.depth] (some 8) none false = (u, .ok (some [arr])) ∧
      SurfaceOf (ShoalCell round3) (shownCell .depth none false) ((demoStore.remove "b") ++ [("a", demoA)] : Store).allPts 8 e arr :=
  C102_update_saved_vr_partial (n := 2) (q := 2) (d0 := none) (da := none) (a0 := { alg := .shoalest, res := some 8, clear := true }) (a := { alg := .shoalest, res := some 8, regrid := .update }) (by norm_num)
    (by decide +kernel) (by norm_num) demoVR_history (.inr rfl) rfl
    (.inr rfl) (.inr rfl) (by norm_num) (by decide +kernel) ((Since.refl.remove "b" (by decide +kernel)).add demoA "a" {} (by decide +kernel)) rfl rfl (by decide +kernel) b _ (fun _ _ _ _ => rfl)
    (.inl rfl) (no_flip (by decide +kernel))

end Bathy
